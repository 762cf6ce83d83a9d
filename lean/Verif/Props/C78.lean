import Verif.Proofs.MidiFade
import Verif.Props.C71
import Verif.Props.C72
/-! C78: a PSG voice whose note has ended falls silent on the chip. -/
namespace Mdmi.Props
open Mdmi Mdmi.Midi

/-- The calls after which the engine takes voices as idle whether or not they were released: system reset, reset all
controllers (121) and GM reset.  `C78_violated_reset_controllers`, `C78_violated_gm_reset`. -/
def forgetting : Op → Bool
  | .reset => true
  | .cc _ k _ => k == 121
  | .sysex d _ => decide (d.take 4 = [0x7E, 0x7F, 0x09, 0x01])
  | _ => false

private theorem forgets_iff {op : Op} (h : forgetting op = false) : ¬op.forgets := by
  cases op <;> simp_all [forgetting, Op.forgets]

private theorem reset_forgets {ops : List Op} (h : ∀ op ∈ ops, forgetting op = false) : Op.reset ∉ ops :=
  fun x => nomatch h _ x

private theorem chip_silent {env : Env} (he : env.Ok) (b : Bool) (m : Sram.Mem) (ops : List Op) (h : plain ops)
    (hf : ∀ op ∈ ops, forgetting op = false) {n : Nat} (hn : n < 4)
    (off : ((run env (boot env b m) ops).psg.ch n).noteOn = false) : Psg.chipAtt (run env (boot env b m) ops).psg.out n = 15 := by
  rw [← (history_synced he b m ops h.1 h.2 (reset_forgets hf) n hn).2]
  obtain ⟨l, -, e⟩ := history_psgBy he b m ops h.1 h.2
  rw [e] at off ⊢
  refine Psg.run_quiet l ?_ n hn off
  intro k hk _
  unfold psgBoot
  rw [(psgReset_eq he.psg (Psg.init_eq he.psg).1).2.2.2 k hk]

/-- **C78.**  After any history: once the engine has no note on PSG voice `i` and gives it none for as many PSG frames as
the longest envelope has bytes, the attenuation of its channel on the chip is 15 - silence - whatever arrives
meanwhile: notes for other voices, bends, programs, volumes, new envelopes, remapping, changes of the mapping mode. -/
theorem C78_released_voice_falls_silent_partial {env : Env} (he : env.Ok) (b : Bool) (m : Sram.Mem) (ops post : List Op) (i N : Nat)
    (hi : 6 ≤ i ∧ i < 10) (h : plain (ops ++ post)) (hf : ∀ op ∈ ops ++ post, forgetting op = false)
    (hoff : ∀ k, k ≤ post.length → ((run env (boot env b m) (ops ++ post.take k)).dev i).noteOn = false)
    (hN : 256 ≤ N ∧ ∀ e ∈ env.psg.envelopes, e.length ≤ N) (ht : N ≤ post.count .psgTick) :
    Psg.chipAtt (run env (boot env b m) (ops ++ post)).psg.out (i - 6) = 15 := by
  refine chip_silent he b m _ h hf (by omega) ?_
  have key : ∀ tame, (tame = false → ∀ op ∈ ops ++ post, ¬op.enablesDac) → (tame = true → ∀ op ∈ ops ++ post, ¬op.detunes) →
      ((run env (boot env b m) (ops ++ post)).psg.ch (i - 6)).noteOn = false := by
    intro tame hd hb
    have w1 : ∀ op ∈ ops, op.Wf := fun op ho => h.1 op (by simp [ho])
    have w2 : ∀ op ∈ post, op.Wf := fun op ho => h.1 op (by simp [ho])
    have ok0 : Ok env tame (boot env b m) := boot_ok he b m
    have ok1 := run_ok he ops _ ok0 w1 (fun e op ho => hd e op (by simp [ho])) (fun e op ho => hb e op (by simp [ho]))
    have r0 : Resting i (boot env b m) := fun _ => .inl (boot_silent he b m (by omega))
    have r1 := run_resting he hi.1 hi.2 ops _ ok0 w1 (fun e op ho => hd e op (by simp [ho])) (fun e op ho => hb e op (by simp [ho]))
      (fun op ho => forgets_iff (hf op (by simp [ho]))) r0
    have split : ∀ l, run env (boot env b m) (ops ++ l) = run env (run env (boot env b m) ops) l := fun l => by
      simp only [run, List.foldl_append]
    simp only [split] at hoff ⊢
    generalize run env (boot env b m) ops = s at *
    have w := run_wane he hi.1 hi.2 post s ok1 w2 (fun e op ho => hd e op (by simp [ho])) (fun e op ho => hb e op (by simp [ho]))
      (fun op ho => forgets_iff (hf op (by simp [ho]))) hoff
    have ok2 := run_ok he post s ok1 w2 (fun e op ho => hd e op (by simp [ho])) (fun e op ho => hb e op (by simp [ho]))
    rcases r1 (hoff 0 (by omega)) with x | x
    · exact w.off x
    · rcases w.releasing x with y | ⟨-, -, y⟩
      · exact y
      · have := (ok2.psg.chans (i - 6) (by omega)).step.off_lt hN.1 hN.2
        omega
  rcases h.2 with hd | hd
  · exact key false (fun _ => hd) (fun e => nomatch e)
  · exact key true (fun e => nomatch e) (fun _ => hd)

/-- **C78**, all keys up.  Start-up, any set-up, any messages but those that change the mapping, reset, play samples, write
chip registers or use portamento: when no key has been down for as many PSG frames as the longest envelope has bytes, all four
PSG channels are silent and no FM channel is keyed. -/
theorem C78_keys_up_silence_partial {env : Env} (he : env.Ok) (b : Bool) (m : Sram.Mem) (before ops post : List Op) (N : Nat)
    (hb : ∀ op ∈ before, setup op = true ∧ op ≠ .reset) (ho : ∀ op ∈ ops ++ post, glideless op = true)
    (hw : ∀ op ∈ before ++ ops ++ post, op.Wf)
    (hup : ∀ k, k ≤ post.length → ∀ c p, keyDown c p (ops ++ post.take k) = false)
    (hN : 256 ≤ N ∧ ∀ e ∈ env.psg.envelopes, e.length ≤ N) (ht : N ≤ post.count .psgTick) :
    let s := run env (boot env b m) (before ++ ops ++ post)
    (∀ n, n < 4 → Psg.chipAtt s.psg.out n = 15) ∧ ∀ n, n < 6 → Synth.keyed s.fm.synth.out n = false := by
  intro s
  have split : ∀ l, run env (boot env b m) (before ++ ops ++ l) =
      run env (run env (reset env (powerOn env b m)) before) (ops ++ l) := fun l => by
    simp only [run, List.foldl_append, boot]
  have held := fun l (hl : ∀ op ∈ ops ++ l, glideless op = true) =>
    C71_only_held_notes_sound_partial env he (powerOn env b m) before (ops ++ l) (fun op x => (hb op x).1) hl
  have off : ∀ k, k ≤ post.length → ∀ i, i < 13 →
      ((run env (boot env b m) (before ++ ops ++ post.take k)).dev i).noteOn = false := by
    intro k hk i hi
    have q := (held (post.take k) (fun op x => by
      rcases List.mem_append.1 x with x | x
      · exact ho op (by simp [x])
      · exact ho op (by simp [List.mem_of_mem_take x]))).1 i hi
    rw [← split] at q
    revert q
    generalize run env (boot env b m) (before ++ ops ++ post.take k) = t
    intro q
    cases e : (t.dev i).noteOn with
    | false => rfl
    | true => have := q e; rw [hup k hk] at this; exact nomatch this
  have forg : ∀ op ∈ before ++ ops ++ post, forgetting op = false ∧ ¬op.enablesDac := by
    intro op x
    rw [List.append_assoc, List.mem_append] at x
    rcases x with x | x
    · have y := hb op x
      cases op with
      | cc c k v =>
        have := y.1
        simp only [setup, Bool.and_eq_true, bne_iff_ne] at this
        exact ⟨by simp [forgetting, this.1.1], by simp [Op.enablesDac, this.1.2]⟩
      | sysex d j =>
        have := y.1
        simp only [setup, decide_eq_true_eq, List.mem_cons, not_or] at this
        exact ⟨by simp [forgetting, this.1], by simp [Op.enablesDac]⟩
      | reset => exact absurd rfl y.2
      | _ => exact ⟨rfl, by simp [Op.enablesDac]⟩
    · have y := ho op x
      cases op with
      | cc c k v =>
        simp only [glideless, playing, Bool.and_eq_true, bne_iff_ne] at y
        exact ⟨by simp [forgetting, y.1.2], by simp [Op.enablesDac, y.1.1.1.2]⟩
      | sysex d j =>
        simp only [glideless, playing, decide_eq_true_eq, List.mem_cons, not_or] at y
        exact ⟨by simp [forgetting, y.1], by simp [Op.enablesDac]⟩
      | reset => exact nomatch y
      | _ => exact ⟨rfl, by simp [Op.enablesDac]⟩
  refine ⟨fun n hn => ?_, fun n hn => ?_⟩
  · have := C78_released_voice_falls_silent_partial he b m (before ++ ops) post (n + 6) N (by omega)
      ⟨hw, .inl fun op x => (forg op x).2⟩ (fun op x => (forg op x).1) (fun k hk => off k hk (n + 6) (by omega)) hN ht
    rw [Nat.add_sub_cancel] at this
    exact this
  · have q := (held post ho).2 n hn
    rw [← split] at q
    have f := off post.length (Nat.le_refl _) n (by omega)
    rw [List.take_length] at f
    cases e : Synth.keyed s.fm.synth.out n with
    | false => rfl
    | true => rw [q e] at f; exact nomatch f

/-- The envelopes of the firmware are short: 256 PSG frames - some five seconds - always suffice. -/
theorem C78_shipped_frames (mode : Mode) (pal sram : Bool) :
    (Shipped.env mode pal sram).Ok ∧ ∀ e ∈ (Shipped.env mode pal sram).psg.envelopes, e.length ≤ 256 := by
  refine ⟨C72_tables_fit mode pal sram, ?_⟩
  have h : (Psg.realEnvelopes.all fun e => decide (e.length ≤ 256)) = true := by decide +kernel
  intro e x
  exact of_decide_eq_true (List.all_eq_true.1 h e x)

/-! ### What the conditions are for -/

/-- A PSG channel that sustains. -/
private def sustaining : Psg.Chan := ⟨60, 0, 1, 427, true, 127, 100, 0, ⟨.builtin 0, 2⟩, some ⟨.builtin 0, 2⟩, false⟩

private theorem sustaining_tick (buf : Nat → Nat) : Psg.tickChan Ex.psg buf 0 sustaining = some (sustaining, []) := rfl

private theorem sounds_on {ops : List Op} (h : plain ops) (hr : .reset ∉ ops) (hc : (Ex.after .static ops).psg.ch 0 = sustaining)
    (n : Nat) : Psg.chipAtt (Ex.after .static (ops ++ List.replicate n .psgTick)).psg.out 0 = 1 := by
  have key : (Ex.after .static (ops ++ List.replicate n .psgTick)).psg.ch 0 = sustaining := by
    unfold Ex.after at hc ⊢
    rw [show run (Ex.env .static) (Ex.start .static) (ops ++ List.replicate n .psgTick) =
      run (Ex.env .static) (run (Ex.env .static) (Ex.start .static) ops) (List.replicate n .psgTick) by simp only [run, List.foldl_append]]
    generalize run (Ex.env .static) (Ex.start .static) ops = s at *
    induction n generalizing s with
    | zero => exact hc
    | succ n ih =>
      refine ih (step (Ex.env .static) s .psgTick) ?_
      have e : Psg.tickChan (Ex.env .static).psg s.psg.userBuf 0 (s.psg.ch 0) = some (sustaining, []) := by
        rw [hc]; exact sustaining_tick _
      exact Psg.tick_ch (by omega) e
  have hp : plain (ops ++ List.replicate n .psgTick) := by
    refine ⟨fun op x => ?_, ?_⟩
    · rcases List.mem_append.1 x with x | x
      · exact h.1 op x
      · rw [(List.mem_replicate.1 x).2]; trivial
    · refine h.2.imp (fun k op x => ?_) (fun k op x => ?_) <;> rcases List.mem_append.1 x with x | x
      · exact k op x
      · rw [(List.mem_replicate.1 x).2]; exact fun y => y
      · exact k op x
      · rw [(List.mem_replicate.1 x).2]; exact fun y => y
  have y := history_synced (Ex.env_ok .static) true Ex.mem _ hp.1 hp.2 (by simp [hr]) 0 (by omega)
  have y2 := y.2
  unfold Ex.after Ex.start at key ⊢
  rw [key] at y2
  exact y2.symm

/-- **C78**, without the condition on reset all controllers: controller 121 makes the engine take the voices of the MIDI channel
as idle without telling the PSG, and the note sounds on after its release, however many frames go by. -/
theorem C78_violated_reset_controllers (n : Nat) :
    let ops : List Op := [.noteOn 6 60 100, .psgTick, .cc 6 121 0, .noteOff 6 60]
    ((Ex.after .static ops).dev 6).noteOn = false ∧ (∀ c p, keyDown c p ops = false) ∧
    Psg.chipAtt (Ex.after .static (ops ++ List.replicate n .psgTick)).psg.out 0 = 1 := by
  intro ops
  refine ⟨by decide +kernel, fun c p => ?_, sounds_on ⟨by simp [ops, Op.Wf], .inl (by simp [ops, Op.enablesDac])⟩ (by decide) (by decide +kernel) n⟩
  simp only [ops, keyDown, List.foldl]
  repeat' split
  all_goals first | rfl | omega

/-- **C78**, without the condition on GM reset: it releases the voices of the sixteen MIDI channels, but not one that was
unassigned while it sounded, and then forgets it too. -/
theorem C78_violated_gm_reset (n : Nat) :
    let ops : List Op := [.noteOn 6 60 100, .psgTick, .sysex [0x00, 0x22, 0x77, 0x00, 0x7F, 6] 0,
      .sysex [0x7E, 0x7F, 0x09, 0x01] 0, .noteOff 6 60]
    ((Ex.after .static ops).dev 6).noteOn = false ∧ (∀ c p, keyDown c p ops = false) ∧
    Psg.chipAtt (Ex.after .static (ops ++ List.replicate n .psgTick)).psg.out 0 = 1 := by
  intro ops
  refine ⟨by decide +kernel, fun c p => ?_, sounds_on ⟨by simp [ops, Op.Wf], .inl (by simp [ops, Op.enablesDac])⟩ (by decide) (by decide +kernel) n⟩
  simp only [ops, keyDown, List.foldl]
  repeat' split
  all_goals first | rfl | omega

/-- One note is held, released and gone: the release takes frames, and the channel ends silent. -/
example :
    let ops : List Op := [.noteOn 6 60 100, .psgTick, .psgTick]
    let now := fun l => Psg.chipAtt (Ex.after .static l).psg.out 0
    now ops < 15 ∧ now (ops ++ [.noteOff 6 60]) < 15 ∧ now (ops ++ [.noteOff 6 60, .psgTick]) < 15 ∧
      now (ops ++ .noteOff 6 60 :: List.replicate 5 .psgTick) = 15 := by
  decide +kernel

/-- The hypotheses of `C78_keys_up_silence_partial` hold of a performance with a set-up, on two channels. -/
example :
    let before : List Op := [.remap 0 6, .program 6 3]
    let ops : List Op := [.noteOn 0 60 100, .noteOn 2 64 90, .psgTick, .noteOff 0 60, .noteOff 2 64]
    let post : List Op := .bend 0 100 :: List.replicate 256 .psgTick
    let s := Ex.after .static (before ++ ops ++ post)
    (∀ n, n < 4 → Psg.chipAtt s.psg.out n = 15) ∧ ∀ n, n < 6 → Synth.keyed s.fm.synth.out n = false := by
  intro before ops post
  have hpost : ∀ o, o ∈ post → o = .bend 0 100 ∨ o = .psgTick := fun o x => by
    simp only [post, List.mem_cons, List.mem_replicate] at x
    rcases x with h | h
    · exact .inl h
    · exact .inr h.2
  have hops : ∀ o, o ∈ ops ++ post → o ∈ ops ∨ o = .bend 0 100 ∨ o = .psgTick := fun o x => by
    rcases List.mem_append.1 x with x | x
    · exact .inl x
    · exact .inr (hpost o x)
  have g : ∀ op ∈ ops, glideless op = true := by decide
  have w : ∀ op ∈ before ++ ops, op.Wf := by simp [before, ops, Op.Wf]
  have ht : 256 ≤ post.count .psgTick := by
    simp only [post]
    rw [List.count_cons, List.count_replicate_self]
    omega
  have hb : ∀ op ∈ before, setup op = true ∧ op ≠ .reset := by decide
  clear_value post
  refine C78_keys_up_silence_partial (Ex.env_ok .static) true Ex.mem before ops post 256 hb (fun o x => ?_)
    (fun o x => ?_) ?_ ⟨Nat.le_refl _, by decide +kernel⟩ ht
  · rcases hops o x with x | rfl | rfl
    · exact g o x
    · rfl
    · rfl
  · rcases List.mem_append.1 x with x | x
    · exact w o x
    · rcases hpost o x with rfl | rfl
      · simp [Op.Wf]
      · trivial
  intro k _ c p
  have h0 : keyDown c p ops = false := by
    simp only [ops, keyDown, List.foldl]
    repeat' split
    all_goals first | rfl | omega
  unfold keyDown at h0 ⊢
  rw [List.foldl_append, h0]
  refine List.foldlRecOn (motive := fun x => x = false) _ _ rfl fun x hx o ho => ?_
  rcases hpost o (List.mem_of_mem_take ho) with rfl | rfl <;> exact hx

end Mdmi.Props
