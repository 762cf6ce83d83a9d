import Verif.Proofs.MidiFmRun
import Verif.Proofs.MidiSaid
/-! What the FM device puts into the log. -/
namespace Mdmi.Fm
open LogText (ofFm)

/-- Every message of the FM device has arguments in range. -/
def Said (s : St) : Prop := ∀ m ∈ s.log, (ofFm m).Typed

variable {env : Env} {s : St}

theorem Said.of {t : St} (h : Said s) (e : t.log = s.log) : Said t := fun m hm => h m (e ▸ hm)
theorem Said.cons {t : St} (h : Said s) {m : Msg} (hm : (ofFm m).Typed) (e : t.log = m :: s.log) : Said t := by
  intro x hx
  rw [e] at hx
  rcases List.mem_cons.1 hx with rfl | hx
  · exact hm
  · exact h x hx

theorem call_log (o : Synth.Op) : (call s o).log = s.log := rfl
theorem ub_log : (ub s).log = s.log := rfl
theorem disable_log : (sramDisable s).log = s.log := by unfold sramDisable; split <;> rfl
theorem guard_log (c : Nat) (k : St → St) (h : (k s).log = s.log) : (guardCh s c k).log = s.log := by
  unfold guardCh; split
  · exact h
  · rfl

theorem save_said (h : Said s) (n : Nat) (p : Synth.FmPreset) : Said (sramSave env s n p) := by
  unfold sramSave; split
  · exact h.cons (m := .noSram) trivial rfl
  · exact h.of disable_log
theorem clear_said (h : Said s) (n : Nat) : Said (sramClear env s n) := by
  unfold sramClear; split
  · exact h.cons (m := .noSram) trivial rfl
  · exact h.of disable_log
theorem store_said (h : Said s) (n : Nat) (p : Synth.FmPreset) : Said (storePreset env s n p) := by
  unfold storePreset; split
  · exact save_said (s := { s with user := upd s.user n (some p) }) h n p
  · exact h

theorem loadLoop_said (l : List Nat) (hl : ∀ n ∈ l, n < 128) (x : St × Nat) (h : Said x.1) (hx : x.2 < 256) :
    Said (l.foldl loadOne x).1 ∧ (l.foldl loadOne x).2 < 256 := by
  refine List.foldlRecOn (motive := fun y => Said y.1 ∧ y.2 < 256) l loadOne ⟨h, hx⟩ fun y hy n hn => ?_
  unfold loadOne
  split
  · exact hy
  · exact ⟨hy.1.cons (m := .badChecksum n) (Nat.lt_trans (hl n hn) (by decide) : n < 256) rfl, hy.2⟩
  · exact ⟨hy.1.of rfl, Nat.mod_lt _ (by decide)⟩

theorem load_said (h : Said s) : Said (sramLoad env s) := by
  unfold sramLoad; split
  · exact h
  · simp only
    have k := loadLoop_said (List.range 128) (fun n => List.mem_range.1) (sramEnable s, 0) (h.of rfl) (by simp)
    generalize (List.range 128).foldl loadOne (sramEnable s, 0) = x at *
    split
    · exact (k.1.cons (t := { x.1 with log := .loaded x.2 :: x.1.log }) (m := .loaded x.2) k.2 rfl).of disable_log
    · exact k.1.of disable_log

theorem reset_said (h : Said s) : Said (reset env s) := by
  unfold reset
  simp only
  have k := load_said (env := env) (s := { s with user := fun _ => none, ch := resetChans s.ch }) h
  revert k
  generalize sramLoad env _ = u
  intro k
  split
  · exact k.of (call_log _)
  · exact k.of ub_log

theorem step_said (h : Said s) (op : Op) : Said (step env s op) := by
  cases op with
  | reset => exact reset_said h
  | noteOn c p x v =>
    simp only [step, noteOn]; split
    · exact h
    · refine h.of (guard_log _ _ ?_)
      split
      · split <;> rfl
      · rfl
  | noteOff c => exact h.of rfl
  | allNotesOff c => exact h.of rfl
  | volume c v => exact h.of (guard_log _ _ rfl)
  | program c n =>
    simp only [step, program]; split
    · split
      · exact h.of rfl
      · split <;> exact h.of rfl
    · exact h.of rfl
  | percussive c v => exact h.of (guard_log _ _ rfl)
  | pan c x =>
    refine h.of (guard_log _ _ ?_)
    dsimp only; split
    · rfl
    · split <;> rfl
  | pitch c p x => exact h.of (guard_log _ _ rfl)
  | store n p => exact store_said h n p
  | clear n =>
    simp only [step, clearPreset]; split
    · exact clear_said (s := { s with user := upd s.user n none }) h n
    · exact h
  | storeFrom c n =>
    simp only [step, storePresetFromChannel]
    unfold guardCh; split
    · exact store_said h n _
    · exact h.of rfl
  | smNoteOn o p x v => simp only [step, smNoteOn, smPitch]; split <;> exact h.of rfl
  | smPitch o p x => simp only [step, smPitch]; split <;> exact h.of rfl
  | smReset => exact h.of rfl
  | dacNoteOn p =>
    simp only [step, dacNoteOn]; split
    · split <;> exact h.of rfl
    · exact h.of rfl
  | dacNoteOff => exact h.of rfl
  | synth o => exact h.of rfl

theorem boot_said (env : Env) (b : Bool) (m : Sram.Mem) : Said (boot env b m) :=
  reset_said fun x hx => absurd hx (List.not_mem_nil (a := x))

theorem run_said (ops : List Op) (h : Said s) : Said (run env s ops) :=
  List.foldlRecOn (motive := Said) _ _ h fun _ ht op _ => step_said ht op

end Mdmi.Fm

namespace Mdmi.Midi
theorem reached_fmSaid {env : Env} (he : env.Ok) {s : St} (h : Reached env s) : Fm.Said s.fm := by
  obtain ⟨b, m, ops, h1, h2, rfl⟩ := h
  obtain ⟨l, -, e⟩ := history_fmBy he b m ops h1 h2
  rw [e]
  exact Fm.run_said l (Fm.boot_said env.fm b m)
end Mdmi.Midi
