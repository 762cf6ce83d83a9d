import Verif.Proofs.MidiFm
import Verif.Proofs.Sram
/-! The preset memory mirrors the active user presets. -/
namespace Mdmi.Fm
open Mdmi.Synth (FmPreset)

/-- What the memory holds for a program. -/
def held (m : Sram.Mem) (n : Nat) : Option FmPreset := userOf (Sram.loadProgram m n) none

/-- The active user presets are the ones in the memory. -/
def Mirror (s : St) : Prop := ∀ n < 128, s.user n = held s.mem n

theorem userOf_some {x : Sram.Loaded} {o : Option FmPreset} (h : o = none) : userOf x o = userOf x none := by rw [h]

theorem sramSave_mem {env : Env} (h : env.sram = true) (s : St) (n : Nat) (p : FmPreset) :
    (sramSave env s n p).mem = Sram.applyWrites s.mem (Sram.saveWrites n p) := by
  simp only [sramSave, h, Bool.true_eq_false, if_false, sramDisable]; split <;> rfl

theorem sramClear_mem {env : Env} (h : env.sram = true) (s : St) (n : Nat) :
    (sramClear env s n).mem = Sram.applyWrites s.mem (Sram.clearWrites n) := by
  simp only [sramClear, h, Bool.true_eq_false, if_false, sramDisable]; split <;> rfl

theorem guardCh_mem (s : St) (c : Nat) (k : St → St) (h : (k s).mem = s.mem) : (guardCh s c k).mem = s.mem := by
  unfold guardCh; split
  · exact h
  · rfl

theorem guardCh_user (s : St) (c : Nat) (k : St → St) (h : (k s).user = s.user) : (guardCh s c k).user = s.user := by
  unfold guardCh; split
  · exact h
  · rfl

/-- A call leaves memory and table alone, except for the programs it writes and for reset. -/
theorem step_keeps {env : Env} (s : St) (op : Op) (h : ∀ n, ¬ op.writes n) (hr : op ≠ .reset) :
    (step env s op).mem = s.mem ∧ (step env s op).user = s.user := by
  cases op with
  | reset => exact absurd rfl hr
  | store n p => exact absurd rfl (h n)
  | clear n => exact absurd rfl (h n)
  | storeFrom c n => exact absurd rfl (h n)
  | noteOn c p x v =>
    simp only [step, noteOn]
    split
    · exact ⟨rfl, rfl⟩
    · constructor
      · apply guardCh_mem; split
        · split <;> rfl
        · rfl
      · apply guardCh_user; split
        · split <;> rfl
        · rfl
  | program c n =>
    simp only [step, program]
    split
    · split
      · exact ⟨rfl, rfl⟩
      · split <;> exact ⟨rfl, rfl⟩
    · exact ⟨rfl, rfl⟩
  | pan c x =>
    constructor
    · apply guardCh_mem; dsimp only; split
      · rfl
      · split <;> rfl
    · apply guardCh_user; dsimp only; split
      · rfl
      · split <;> rfl
  | volume c v => exact ⟨guardCh_mem _ _ _ rfl, guardCh_user _ _ _ rfl⟩
  | percussive c v => exact ⟨guardCh_mem _ _ _ rfl, guardCh_user _ _ _ rfl⟩
  | pitch c p x => exact ⟨guardCh_mem _ _ _ rfl, guardCh_user _ _ _ rfl⟩
  | smNoteOn o p x v => simp only [step, smNoteOn, smPitch]; split <;> exact ⟨rfl, rfl⟩
  | smPitch o p x => simp only [step, smPitch]; split <;> exact ⟨rfl, rfl⟩
  | dacNoteOn p =>
    simp only [step, dacNoteOn]; split
    · split <;> exact ⟨rfl, rfl⟩
    · exact ⟨rfl, rfl⟩
  | _ => exact ⟨rfl, rfl⟩

theorem reset_mem {env : Env} (he : env.Ok) (s : St) : (reset env s).mem = s.mem := by
  obtain ⟨p, hp, -⟩ := presetOf he (n := 0) (by omega)
  simp only [reset, hp, call]
  exact (sramLoad_spec env _).2.2.1

theorem reset_user {env : Env} (he : env.Ok) (hs : env.sram = true) (s : St) {n : Nat} (hn : n < 128) :
    (reset env s).user n = held s.mem n := by
  obtain ⟨p, hp, -⟩ := presetOf he (n := 0) (by omega)
  simp only [reset, hp, call]
  rw [(sramLoad_spec env _).2.2.2.2.2 n]
  simp [hn, hs, held]

theorem held_save (m : Sram.Mem) {n : Nat} {p : FmPreset} (hp : p.Ok) (k : Nat) :
    held (Sram.applyWrites m (Sram.saveWrites n p)) k = if k = n then some p else held m k := by
  unfold held
  split
  · rename_i e; subst e; rw [Sram.save_load m k p hp]; rfl
  · rename_i e; rw [Sram.frame_other (fun w => Sram.saveWrites_area) e]

theorem held_clear (m : Sram.Mem) (n k : Nat) :
    held (Sram.applyWrites m (Sram.clearWrites n)) k = if k = n then none else held m k := by
  unfold held
  split
  · rename_i e; subst e; rw [Sram.clear_load]; rfl
  · rename_i e; rw [Sram.frame_other (fun w => Sram.clearWrites_area) e]

/-- Effect of a legal call on what a restart would load, per program. -/
theorem step_held {env : Env} (he : env.Ok) (hs : env.sram = true) {s : St} (h : FmSafe s) {op : Op}
    (hl : op.Legal) (k : Nat) : held (step env s op).mem k =
      match op with
      | .store n p => if k = n then some p else held s.mem k
      | .clear n => if k = n then none else held s.mem k
      | .storeFrom c n => if k = n then some (Synth.extractPreset s.synth c) else held s.mem k
      | _ => held s.mem k := by
  cases op with
  | store n p =>
    simp only [step, storePreset, hl.1, if_true]
    rw [sramSave_mem hs, held_save _ hl.2]
  | clear n =>
    have hn : n < 128 := hl
    simp only [step, clearPreset, hn, if_true]
    rw [sramClear_mem hs, held_clear]
  | storeFrom c n =>
    simp only [step, storePresetFromChannel, guardCh, hl.1, storePreset, hl.2, if_true]
    have ok : (Synth.extractPreset s.synth c).Ok := extract_ok (h.synth.ok c hl.1)
    rw [sramSave_mem hs, held_save _ ok]
  | reset => simp only [step, reset_mem he]
  | _ => rw [(step_keeps s _ (by intro n; simp [Op.writes]) (by simp)).1]

theorem Mirror.step {env : Env} (he : env.Ok) (hs : env.sram = true) {s : St} (h : FmSafe s) (hm : Mirror s)
    {op : Op} (hl : op.Legal) : Mirror (step env s op) := by
  intro k hk
  rw [step_held he hs h hl]
  cases op with
  | store n p =>
    simp only [Fm.step, storePreset, hl.1, if_true]
    rw [(sramSave_noise ..).2.2]
    simp only [upd]; split
    · rfl
    · exact hm k hk
  | clear n =>
    have hn : n < 128 := hl
    simp only [Fm.step, clearPreset, hn, if_true]
    rw [(sramClear_noise ..).2.2]
    simp only [upd]; split
    · rfl
    · exact hm k hk
  | storeFrom c n =>
    simp only [Fm.step, storePresetFromChannel, guardCh, hl.1, storePreset, hl.2, if_true]
    rw [(sramSave_noise ..).2.2]
    simp only [upd]; split
    · rfl
    · exact hm k hk
  | reset => simp only [Fm.step]; exact reset_user he hs s hk
  | _ => rw [(step_keeps s _ (by intro n; simp [Op.writes]) (by simp)).2]; exact hm k hk

theorem Mirror.run {env : Env} (he : env.Ok) (hs : env.sram = true) {s : St} (h : FmSafe s) (hm : Mirror s)
    (ops : List Op) (hl : ∀ op ∈ ops, op.Legal) : Mirror (run env s ops) := by
  induction ops generalizing s with
  | nil => exact hm
  | cons o l ih =>
    exact ih (h.step he (hl o (by simp))) (hm.step he hs h (hl o (by simp))) fun x hx => hl x (by simp [hx])

theorem boot_mirror {env : Env} (he : env.Ok) (hs : env.sram = true) (b : Bool) (m : Sram.Mem) :
    Mirror (boot env b m) := by
  intro n hn
  unfold boot
  rw [reset_mem he, reset_user he hs _ hn]

theorem run_held {env : Env} (he : env.Ok) (hs : env.sram = true) {s : St} (h : FmSafe s) (ops : List Op)
    (hl : ∀ op ∈ ops, op.Legal) {n : Nat} (hw : ∀ op ∈ ops, ¬ op.writes n) :
    held (run env s ops).mem n = held s.mem n := by
  induction ops generalizing s with
  | nil => rfl
  | cons o l ih =>
    have h1 := hw o (by simp)
    have e : held (step env s o).mem n = held s.mem n := by
      rw [step_held he hs h (hl o (by simp))]
      cases o <;> simp only [Op.writes] at h1 ⊢ <;> rw [if_neg (fun e => h1 e.symm)]
    exact (ih (h.step he (hl o (by simp))) (fun x hx => hl x (by simp [hx])) fun x hx => hw x (by simp [hx])).trans e

/-- Selecting a program loads exactly the stored preset into the chip. -/
theorem program_timbre {env : Env} {s : St} (hi : Synth.Inv s.synth) {c n : Nat} {p : FmPreset} (hc : c < 6)
    (hp : p.Ok) (hg : getStoredPreset env s n = some p) :
    (Synth.chipChannel (program env s c n).synth.out c).timbre =
      (⟨p.algorithm, p.feedback, (Synth.chipChannel s.synth.out c).stereo, p.ams, p.fms, 0, 0, p.ops⟩ :
        Synth.FmChannel).timbre := by
  have e : (program env s c n).synth = Synth.step s.synth (.preset c p) := by
    unfold getStoredPreset at hg
    split at hg
    · simp at hg
    · rename_i hn
      have hn : n < 128 := by omega
      cases hu : s.user n with
      | some q => simp only [hu] at hg; injection hg with hg; subst hg; simp [program, hn, hu, call]
      | none => simp only [hu] at hg; simp [program, hn, hu, hg, call]
  have hl : (Synth.Op.preset c p).Legal := legal_ch rfl hc rfl hp
  have i := Synth.step_inv hi hl
  rw [e, (i.ch c hc).chip, (Synth.step_request hi hl hc).1]
  have := (hi.ch c hc).chip
  have st : (s.synth.ch c).stereo = (Synth.chipChannel s.synth.out c).stereo := by
    have := congrArg Synth.FmChannel.stereo this
    exact this.symm
  simp only [Synth.Op.request, if_true, st]

end Mdmi.Fm
