import Verif.Proofs.Main
import Verif.Spec.Example
/-! C33 for the whole engine: user presets survive a restart if the preset memory is in use. -/
namespace Mdmi.Props
open Mdmi Mdmi.Midi

/-- **C33** (engine; missing: the memory is in use only after a warm restart, see `C33_violated`).  After any MIDI history,
a restart makes available the user presets that were available at an earlier moment, for every program for which no
message since stored or cleared a preset. -/
theorem C33_engine_restart_partial (env : Env) (he : env.Ok) (hs : env.fm.sram = true) (x y : Bool) (m : Sram.Mem)
    (pre post : List Op) (hw : ∀ op ∈ pre ++ post, op.Wf)
    (hd : (∀ op ∈ pre ++ post, ¬op.enablesDac) ∨ (∀ op ∈ pre ++ post, ¬op.detunes))
    (n : Nat) (hn : n < 128) (hp : ∀ op ∈ post, ¬op.stores n) :
    let s := run env (boot env x m) pre
    let t := run env s post
    (boot env y t.fm.mem).fm.user n = s.fm.user n := by
  have r0 : Reached env (run env (boot env x m) pre) := by
    refine ⟨x, m, pre, fun o ho => hw o (by simp [ho]), hd.imp ?_ ?_, rfl⟩ <;>
      exact fun h o ho => h o (by simp [ho])
  have mir := reached_mirror he hs r0
  have safe : Fm.FmSafe (run env (boot env x m) pre).fm := by
    obtain ⟨tame, ok⟩ := r0.ok he; exact ok.fm
  have fb : FmBy env (fun o => ∃ op ∈ post, op.makes o) (run env (boot env x m) pre).fm
      (run env (run env (boot env x m) pre) post).fm := by
    rcases hd with hd | hd
    · exact run_fmBy (tame := false) he post _
        (run_ok (tame := false) he pre _ (boot_ok he x m) (fun o ho => hw o (by simp [ho]))
          (fun _ o ho => hd o (by simp [ho])) (by simp))
        (fun o ho => hw o (by simp [ho])) (fun _ o ho => hd o (by simp [ho])) (by simp)
    · exact run_fmBy (tame := true) he post _
        (run_ok (tame := true) he pre _ (boot_ok he x m) (fun o ho => hw o (by simp [ho]))
          (by simp) (fun _ o ho => hd o (by simp [ho])))
        (fun o ho => hw o (by simp [ho])) (by simp) (fun _ o ho => hd o (by simp [ho]))
  obtain ⟨l, hl, e⟩ := fb
  have hh : Fm.held (run env (run env (boot env x m) pre) post).fm.mem n =
      Fm.held (run env (boot env x m) pre).fm.mem n := by
    rw [e]
    refine Fm.run_held he.fm hs safe l (fun o ho => (hl o ho).2) fun o ho hw => ?_
    obtain ⟨op, h1, h2⟩ := (hl o ho).1
    refine hp op h1 ?_
    cases o <;> simp only [Fm.Op.writes] at hw <;> first | exact hw.elim | (subst hw; exact h2)
  simp only
  have b0 : Reached env (boot env y (run env (run env (boot env x m) pre) post).fm.mem) :=
    ⟨y, _, [], by simp, by simp, rfl⟩
  rw [reached_mirror he hs b0 n hn, boot_sramMem he, hh, mir n hn]

-- non-vacuity: a sound stored with controller 87 is there after the restart, beside one stored and cleared since
example : let s := Ex.after .static [.program 0 9, .cc 0 87 5, .cc 0 87 6]
    let t := run (Ex.env .static) s [.sysex [0, 0x22, 0x77, 0x0B, 0, 6] 6, .reset, .program 0 3, .noteOn 0 60 100]
    (boot (Ex.env .static) true t.fm.mem).fm.user 5 ≠ none ∧ s.fm.user 6 ≠ none ∧
    (boot (Ex.env .static) true t.fm.mem).fm.user 6 = none := by decide +kernel

end Mdmi.Props
