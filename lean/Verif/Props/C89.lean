import Verif.Props.C61
import Verif.Proofs.MidiPsgInTune
/-! C89: an envelope sent by system exclusive message is the one PSG notes begin with. -/
namespace Mdmi.Props
open Mdmi Mdmi.Midi
open Mdmi.Psg (chipAtt chipTone shiftCents)

variable {env : Env} {s : St}

/-- The message that sends the envelope bytes `B`, each as its upper and its lower half, the upper one
first; `j` stands for the byte that happens to lie behind it in memory. -/
def envelopeMsg (B : List Nat) (j : Nat) : Op := .sysex ([0x00, 0x22, 0x77, 0x06] ++ B.flatMap fun b => [b / 16, b % 16]) j

private theorem halves (j : Nat) : ∀ B : List Nat, (∀ x ∈ B, x < 256) → envelopeBytes j (B.flatMap fun b => [b / 16, b % 16]) = B
  | [], _ => rfl
  | b :: B, h => by
    have hb := h b (by simp)
    simp only [List.flatMap_cons, List.cons_append, List.nil_append, envelopeBytes]
    rw [halves j B fun x hx => h x (by simp [hx])]
    have e : ∀ b : Fin 256, (b.val / 16 * 16 ||| b.val % 16) % 256 = b.val := by decide +kernel
    rw [e ⟨b, hb⟩]

private theorem halves_len : ∀ B : List Nat, (B.flatMap fun b => [b / 16, b % 16]).length = 2 * B.length
  | [] => rfl
  | b :: B => by simp only [List.flatMap_cons, List.length_append, halves_len B, List.length_cons, List.length_nil]; omega

private theorem sent_psg {B : List Nat} {j : Nat} (hB : ∀ x ∈ B, x < 255) (hl : B.length < 128) :
    (step env s (envelopeMsg B j)).psg = Psg.loadEnvelope s.psg (B ++ [0xFF]) := by
  have e : step env s (envelopeMsg B j) = loadPsgEnvelope env s (B.flatMap fun b => [b / 16, b % 16]) j := by
    simp [envelopeMsg, step, sysex, commandLength, handler]
    intro h; omega
  rw [e, loadPsgEnvelope, halves_len, if_neg (by omega), halves j B fun x hx => by have := hB x hx; omega]
  rfl

private theorem onChan_loaded (f : Psg.St) (n : Nat) (g) : (Psg.onChan f n g).userLoaded = f.userLoaded := by
  unfold Psg.onChan
  split
  · split <;> rfl
  · rfl

private theorem call_loaded {f : Psg.St} {o : Psg.Op} (h : ∀ e, o ≠ .loadEnvelope e) (hr : o ≠ .reset) :
    (Psg.step env.psg f o).userLoaded = f.userLoaded := by
  by_cases t : o = .tick
  · subst t
    exact List.foldlRecOn (motive := fun u : Psg.St => u.userLoaded = f.userLoaded) (List.range 4) _ rfl
      fun u hu n _ => (onChan_loaded ..).trans hu
  · exact (Psg.run_user (env := env.psg) [o] (by
      intro o' ho'
      rw [List.mem_singleton.1 ho']
      cases o <;> simp_all [Psg.Op.target]) f).2

private theorem reset_loaded (f : Psg.St) : (Psg.step env.psg f .reset).userLoaded = false := by
  simp only [Psg.step, Psg.reset]
  generalize List.range 4 = l
  exact List.foldlRecOn (motive := fun u : Psg.St => u.userLoaded = false) l _ rfl
    fun u hu n _ => (onChan_loaded ..).trans hu

private theorem calls_keep : ∀ (l : List Psg.Op) (f : Psg.St), (∀ o ∈ l, o ≠ .reset ∧ ∀ e, o ≠ .loadEnvelope e) →
    (Psg.run env.psg f l).userBuf = f.userBuf ∧ (Psg.run env.psg f l).userLoaded = f.userLoaded
  | [], _, _ => ⟨rfl, rfl⟩
  | o :: l, f, h => by
    obtain ⟨a1, a2⟩ := calls_keep l (Psg.step env.psg f o) fun o ho => h o (by simp [ho])
    refine ⟨a1.trans (Psg.step_buf (h o (by simp)).2), a2.trans ?_⟩
    exact call_loaded (h o (by simp)).2 (h o (by simp)).1

private theorem calls_unloaded : ∀ (l : List Psg.Op) (f : Psg.St), (∀ o ∈ l, ∀ e, o ≠ .loadEnvelope e) →
    f.userLoaded = false → (Psg.run env.psg f l).userLoaded = false
  | [], _, _, h => h
  | o :: l, f, h, k => calls_unloaded l (Psg.step env.psg f o) (fun o ho => h o (by simp [ho])) (by
      by_cases r : o = .reset
      · rw [r]; exact reset_loaded f
      · rw [call_loaded (h o (by simp)) r, k])

/-- **C89** (kept).  An envelope sent by system exclusive message is the one that counts from then on, byte for byte and with an
end behind it, whatever else is played or sent, until another is sent or the system is reset. -/
theorem C89_sent_envelope_is_kept (he : env.Ok) (b : Bool) (m : Sram.Mem) (pre post : List Op) (B : List Nat) (j : Nat)
    (hB : ∀ x ∈ B, x < 255) (hw : ∀ op ∈ pre ++ envelopeMsg B j :: post, op.Wf)
    (hd : (∀ op ∈ pre ++ post, ¬op.enablesDac) ∨ (∀ op ∈ pre ++ post, ¬op.detunes))
    (hl : ∀ op ∈ post, ¬op.loadsEnvelope) (hr : .reset ∉ post) :
    let s := run env (boot env b m) (pre ++ envelopeMsg B j :: post)
    s.psg.userLoaded = true ∧ (∀ k (h : k < B.length), s.psg.userBuf k = B[k]) ∧ s.psg.userBuf B.length = 0xFF := by
  intro s
  have hlen : B.length < 128 := by
    have := hw (envelopeMsg B j) (by simp)
    simp only [envelopeMsg, Op.Wf, List.length_append, halves_len, List.length_cons, List.length_nil] at this
    omega
  have es : s = run env (run env (boot env b m) (pre ++ [envelopeMsg B j])) post := by
    simp only [s, run, List.foldl_append, List.foldl_cons, List.foldl_nil]
  obtain ⟨tame, ok, k1, k2⟩ : ∃ tame, Ok env tame (run env (boot env b m) (pre ++ [envelopeMsg B j])) ∧
      (tame = false → ∀ op ∈ post, ¬op.enablesDac) ∧ (tame = true → ∀ op ∈ post, ¬op.detunes) := by
    have hw1 : ∀ op ∈ pre ++ [envelopeMsg B j], op.Wf := fun o ho => hw o (by
      rcases List.mem_append.1 ho with ho | ho
      · simp [ho]
      · simp [List.mem_singleton.1 ho])
    rcases hd with h | h
    · refine ⟨false, run_ok he _ _ (boot_ok he b m) hw1 (fun _ o ho => ?_) (by simp), fun _ o ho => h o (by simp [ho]), by simp⟩
      rcases List.mem_append.1 ho with ho | ho
      · exact h o (by simp [ho])
      · rw [List.mem_singleton.1 ho]; exact id
    · refine ⟨true, run_ok he _ _ (boot_ok he b m) hw1 (by simp) (fun _ o ho => ?_), by simp, fun _ o ho => h o (by simp [ho])⟩
      rcases List.mem_append.1 ho with ho | ho
      · exact h o (by simp [ho])
      · rw [List.mem_singleton.1 ho]; exact id
  obtain ⟨l, h1, e1⟩ := run_psgBy he post _ ok (fun o ho => hw o (by simp [ho])) k1 k2
  obtain ⟨a1, a2⟩ := calls_keep l (run env (boot env b m) (pre ++ [envelopeMsg B j])).psg fun o ho => by
    obtain ⟨op, hop, hp⟩ := (h1 o ho).1
    refine ⟨?_, ?_⟩
    · rintro rfl; exact hr (hp ▸ hop)
    · rintro e rfl; exact hl op hop hp
  rw [← e1, ← es] at a1 a2
  have e2 : (run env (boot env b m) (pre ++ [envelopeMsg B j])).psg =
      Psg.loadEnvelope (run env (boot env b m) pre).psg (B ++ [0xFF]) := by
    simp only [run, List.foldl_append, List.foldl_cons, List.foldl_nil]
    exact sent_psg hB hlen
  obtain ⟨buf, l1, l2, -, l4⟩ := Psg.loadLoop_spec (B ++ [0xFF]) 0 (run env (boot env b m) pre).psg.userBuf B.length
    (by simp) (fun k hk => by
      rw [List.getElem?_append_left hk, List.getElem?_eq_getElem hk]
      have := hB _ (List.getElem_mem hk)
      intro x; injection x; omega) (by omega)
  rw [e2, Psg.loadEnvelope, l1] at a1 a2
  rw [a1, a2]
  refine ⟨rfl, fun k hk => ?_, by simpa using l2⟩
  have := l4 k hk
  rw [List.getElem?_append_left hk, List.getElem?_eq_getElem hk] at this
  simpa using this

/-- **C89** (heard; partial).  A PSG voice that comes to hold the key of a note-on after that begins with the first byte of the
envelope sent, behind a loop mark if it starts with one: its tone is shifted as the upper half of the byte says and its
attenuation is the one volume, velocity and the lower half make - whatever the program of the MIDI channel is.  Missing: as in
`C61_note_plays_partial`. -/
theorem C89_note_begins_with_it_partial (he : env.Ok) (b : Bool) (m : Sram.Mem) (pre post : List Op) (B : List Nat) (j : Nat)
    (hB : ∀ x ∈ B, x < 255) (h : psgHistory (pre ++ envelopeMsg B j :: post)) (hl : ∀ op ∈ post, ¬op.loadsEnvelope)
    (c p v i : Nat) (hc : c < 16) (hp : p < 128) (hv : v < 128) (hv0 : v ≠ 0) (hi : 6 ≤ i) (hi' : i < 10) :
    let ops := pre ++ envelopeMsg B j :: post
    let s := run env (boot env b m) ops
    let t := step env s (.noteOn c p v)
    let n := noteCents p (tuningOf c ops)
    ¬((s.dev i).noteOn = true ∧ (s.dev i).pitch = p) → (t.dev i).noteOn = true → (t.dev i).pitch = p →
      psgPlayable n (tuningOf c ops).fine → 4500 ≤ n →
      ∀ e rest, e < 0xFD → B = e :: rest ∨ B = 0xFE :: e :: rest →
        SoundsAt env.psg.isPAL (n + shiftCents (e / 16)).toNat (chipTone t.psg.out (i - 6)) ∧
        chipAtt t.psg.out (i - 6) = heardAttenuation env.psg (settingsOf c ops).volume v e := by
  intro ops s t n h0 h1 h2 hpl hlow e rest he' hBe
  obtain ⟨k1, k2, -⟩ := C89_sent_envelope_is_kept he b m pre post B j hB h.1.1
    (h.1.2.imp (fun k o ho => k o (by rcases List.mem_append.1 ho with x | x <;> simp [x]))
      (fun k o ho => k o (by rcases List.mem_append.1 ho with x | x <;> simp [x]))) hl
    (fun x => h.2 (by simp [x]))
  refine C61_note_plays_partial he ops h b m c p v i hc hp hv hv0 hi hi' h0 h1 h2 hpl hlow e ⟨he', ?_⟩
  simp only [ops, k1, if_true]
  rcases hBe with rfl | rfl
  · exact .inl (by rw [k2 0 (by simp)]; rfl)
  · exact .inr ⟨by rw [k2 0 (by simp)]; rfl, by rw [k2 1 (by simp)]; rfl⟩

/-- Whether an envelope has been sent since the last reset. -/
def envelopeSent (ops : List Op) : Bool :=
  ops.foldl (fun b op => match op with
    | .reset => false
    | .sysex d _ => b || d.take 4 == [0x00, 0x22, 0x77, 0x06]
    | _ => b) false

private theorem loop_ends : ∀ (e : List Nat) (i : Nat) (buf : Nat → Nat), 0xFF ∈ e → i + e.length ≤ 256 →
    ∃ buf', Psg.loadLoop e i buf = some buf'
  | [], _, _, h, _ => by simp at h
  | b :: e, i, buf, h, hl => by
    simp only [List.length_cons] at hl
    unfold Psg.loadLoop
    rw [if_pos (by omega)]
    by_cases hb : b = 0xFF
    · exact ⟨_, by simp only [hb, if_true]; rfl⟩
    · simp only [hb, if_false]
      exact loop_ends e (i + 1) _ (by simpa [Ne.symm hb] using h) (by omega)

private theorem load_loads {d : List Nat} {j : Nat} (hd : d.take 4 = [0x00, 0x22, 0x77, 0x06]) (hl : d.length ≤ 256) :
    (step env s (.sysex d j)).psg.userLoaded = true := by
  obtain ⟨r, rfl⟩ : ∃ r, d = 0x00 :: 0x22 :: 0x77 :: 0x06 :: r := ⟨d.drop 4, by
    conv => lhs; rw [← List.take_append_drop 4 d, hd]
    rfl⟩
  simp only [List.length_cons] at hl
  have e : step env s (.sysex (0x00 :: 0x22 :: 0x77 :: 0x06 :: r) j) = loadPsgEnvelope env s r j := by
    simp [step, sysex, commandLength, handler]
    intro h; omega
  rw [e, loadPsgEnvelope, if_neg (by omega)]
  obtain ⟨buf, k⟩ := loop_ends (envelopeBytes j r ++ [0xFF]) 0 s.psg.userBuf (by simp) (by
    simp only [List.length_append, envelopeBytes_length, List.length_cons, List.length_nil]; omega)
  change (Psg.loadEnvelope s.psg (envelopeBytes j r ++ [0xFF])).userLoaded = true
  rw [Psg.loadEnvelope, k]

private theorem run_loaded (he : env.Ok) {tame : Bool} : ∀ (ops : List Op) (s : St), Ok env tame s → (∀ op ∈ ops, op.Wf) →
    (tame = false → ∀ op ∈ ops, ¬op.enablesDac) → (tame = true → ∀ op ∈ ops, ¬op.detunes) →
    (run env s ops).psg.userLoaded = ops.foldl (fun b op => match op with
      | .reset => false
      | .sysex d _ => b || d.take 4 == [0x00, 0x22, 0x77, 0x06]
      | _ => b) s.psg.userLoaded
  | [], _, _, _, _, _ => rfl
  | op :: ops, s, ok, hw, h1, h2 => by
    have k1 := fun h => h1 h op (by simp)
    have k2 := fun h => h2 h op (by simp)
    have ih := run_loaded he ops (step env s op) (step_ok he ok (hw op (by simp)) k1 k2) (fun o ho => hw o (by simp [ho]))
      (fun h o ho => h1 h o (by simp [ho])) (fun h o ho => h2 h o (by simp [ho]))
    rw [show run env s (op :: ops) = run env (step env s op) ops from rfl, ih, List.foldl_cons]
    congr 1
    obtain ⟨l, hl, el⟩ := step_psgBy he ok (hw op (by simp)) k1 k2
    by_cases hr : op = .reset
    · subst hr
      obtain ⟨u, e, e1, e2, e3⟩ := reset_split env s
      have f0 : Fm.FmSafe (Fm.step env.fm s.fm .reset) := ok.fm.step he.fm trivial
      have f1 : Fm.FmSafe u.fm := e1 ▸ f0.step he.fm trivial
      obtain ⟨l, hl, el⟩ := resetChannels_psgBy (op := .reset) he f1 (e2 ▸ Psg.step_good he.psg ok.psg .reset trivial) (e3.trans ok.fault)
      change (reset env s).psg.userLoaded = false
      rw [e, el]
      refine calls_unloaded l _ (fun o ho x hx => ?_) (by rw [e2]; exact reset_loaded _)
      have := (hl o ho).1
      rw [hx] at this
      obtain ⟨d, j, k, -⟩ := this
      cases k
    · by_cases hs : op.loadsEnvelope
      · obtain ⟨d, j, rfl, hd⟩ := hs
        have w : (∀ b ∈ d, b < 128) ∧ d.length ≤ 256 ∧ j < 256 := hw (.sysex d j) (by simp)
        rw [load_loads hd w.2.1]
        simp [hd]
      · have : (step env s op).psg.userLoaded = s.psg.userLoaded := by
          rw [el]
          refine (calls_keep l _ fun o ho => ⟨?_, ?_⟩).2
          · rintro rfl; exact hr (hl _ ho).1
          · rintro e rfl; exact hs (hl _ ho).1
        rw [this]
        cases op with
        | reset => exact absurd rfl hr
        | sysex d j =>
          have : d.take 4 ≠ [0x00, 0x22, 0x77, 0x06] := fun h => hs ⟨d, j, rfl, h⟩
          simp [this]
        | _ => rfl

/-- **C89** (in use).  PSG notes take their envelope from the user's buffer exactly when an envelope has been sent since power-on
or the last reset, and otherwise from the program of the MIDI channel; a reset goes back to the programs. -/
theorem C89_in_use_iff_sent (he : env.Ok) (b : Bool) (m : Sram.Mem) (ops : List Op) (hw : ∀ op ∈ ops, op.Wf)
    (hd : (∀ op ∈ ops, ¬op.enablesDac) ∨ (∀ op ∈ ops, ¬op.detunes)) :
    (run env (boot env b m) ops).psg.userLoaded = envelopeSent ops := by
  have h0 : (boot env b m).psg.userLoaded = false := by
    obtain ⟨l, hl, el⟩ := boot_psgBy (op := .remap 0 0) he b m
    rw [el]
    refine calls_unloaded l _ (fun o ho x hx => ?_) (reset_loaded _)
    have := (hl o ho).1
    rw [hx] at this
    obtain ⟨d, j, k, -⟩ := this
    cases k
  unfold envelopeSent
  rcases hd with h | h
  · have := run_loaded he (tame := false) ops _ (boot_ok he b m) hw (fun _ => h) (by simp)
    rw [h0] at this
    exact this
  · have := run_loaded he (tame := true) ops _ (boot_ok he b m) hw (by simp) (fun _ => h)
    rw [h0] at this
    exact this

/-- Sent, in use; reset, back to the program; an unknown message does not count. -/
example :
    let ops : List Op := [.sysex [0, 0x22, 0x77, 7, 1, 1] 0, envelopeMsg [0x14] 0, .noteOn 7 60 90]
    envelopeSent (ops.take 1) = false ∧ envelopeSent ops = true ∧ envelopeSent (ops ++ [.reset]) = false ∧
      (Ex.after .static ops).psg.userLoaded = true ∧ (Ex.after .static (ops ++ [.reset])).psg.userLoaded = false := by
  decide +kernel

/-- An envelope of three bytes sent between two notes: the second note begins four steps down, is at five after a tick, at nine
after two, and silent when the envelope is over; a program change in between does not matter. -/
example :
    let ops : List Op := [.cc 6 7 127, .noteOn 6 69 127, .noteOff 6 69, envelopeMsg [0x04, 0x05, 0x09] 0, .program 6 3, .noteOn 6 81 127]
    (let s := Ex.after .static ops
     s.psg.userLoaded = true ∧ (List.range 4).map s.psg.userBuf = [0x04, 0x05, 0x09, 0xFF] ∧ chipAtt s.psg.out 0 = 4) ∧
    chipAtt (Ex.after .static (ops ++ [.psgTick])).psg.out 0 = 5 ∧
    chipAtt (Ex.after .static (ops ++ [.psgTick, .psgTick])).psg.out 0 = 9 ∧
    chipAtt (Ex.after .static (ops ++ [.psgTick, .psgTick, .psgTick])).psg.out 0 = 15 := by decide +kernel

end Mdmi.Props
