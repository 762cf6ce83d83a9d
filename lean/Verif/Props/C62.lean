import Verif.Proofs.UiRun
import Verif.Spec.ExampleUi
/-! C62: the display has no undefined behaviour. -/
namespace Mdmi.Props
open Mdmi Mdmi.Ui Mdmi.UiSpec

theorem fits_of_ordinary {evs : List Ui.Ev} (h : Ordinary evs) : ∃ b tame, ∀ e ∈ evs, e.Fits b tame := by
  obtain ⟨hw, hd, hg⟩ := h
  have mem : ∀ (evs : List Ui.Ev) op n, Ui.Ev.midi op n ∈ evs → op ∈ calls evs := by
    intro evs op n
    induction evs with
    | nil => simp
    | cons e evs ih =>
      intro h
      cases e with
      | midi o m =>
        simp only [List.mem_cons, Ev.midi.injEq] at h
        simp only [calls, List.mem_cons]
        exact h.imp (fun e => e.1) ih
      | frame f =>
        simp only [List.mem_cons, reduceCtorEq, false_or] at h
        exact ih h
  obtain ⟨b, hb⟩ : ∃ b, ∀ op ∈ calls evs, op.Wf → op.Ranged b := by
    rcases hg with hp | hl
    · refine ⟨false, fun op hm hwf => ?_⟩
      cases op with
      | noteOn c p v => exact ⟨hwf.2.1, by simp⟩
      | cc c k v => exact fun _ => hp _ hm
      | _ => trivial
    · refine ⟨true, fun op hm hwf => ?_⟩
      have hl := hl _ hm
      cases op with
      | noteOn c p v => exact ⟨hwf.2.1, fun _ => by simp only [lowNote] at hl; omega⟩
      | cc c k v => exact fun h => absurd h (by simp)
      | _ => trivial
  obtain ⟨tame, ht⟩ : ∃ tame, ∀ op ∈ calls evs, (tame = false → ¬op.enablesDac) ∧ (tame = true → ¬op.detunes) := by
    rcases hd with hp | hl
    · exact ⟨false, fun op hm => ⟨fun _ => hp _ hm, fun h => absurd h (by simp)⟩⟩
    · exact ⟨true, fun op hm => ⟨fun h => absurd h (by simp), fun _ => hl _ hm⟩⟩
  refine ⟨b, tame, fun e he => ?_⟩
  cases e with
  | frame f => exact hw _ he
  | midi op n =>
    have hm := mem evs op n he
    exact ⟨hw _ he, hb _ hm (hw _ he), (ht _ hm).1, (ht _ hm).2⟩

/-- Everything known of a history without undefined behaviour. -/
theorem ordinary_fine {env : Ui.Env} (he : env.midi.Ok) {evs : List Ui.Ev} (h : Ordinary evs) (t : Bool) (mem : Sram.Mem) :
    ∃ b tame, Fine env b tame (Ui.run env (Ui.boot env t mem) evs) := by
  obtain ⟨b, tame, hf⟩ := fits_of_ordinary h
  exact ⟨b, tame, run_fine he evs (boot_fine he b tame t mem) hf⟩

/-- **C62**.  No history of MIDI messages and frames makes the display read a table outside its bounds or overrun a text
buffer. -/
def C62_statement : Prop :=
  ∀ (env : Ui.Env) (t : Bool) (mem : Sram.Mem) (evs : List Ui.Ev), env.midi.Ok → (∀ e ∈ evs, EvWf e) →
    ((∀ op ∈ calls evs, ¬op.enablesDac) ∨ ∀ op ∈ calls evs, ¬op.detunes) →
    (Ui.run env (Ui.boot env t mem) evs).ui.fault = false

/-- **C62** (partial).  Histories that either never switch portamento on or never play a key below 12 leave the display
without undefined behaviour, whatever notifications, tick counts, sources and log messages they bring. -/
theorem C62_display_never_faults_partial {env : Ui.Env} (he : env.midi.Ok) {evs : List Ui.Ev} (h : Ordinary evs) (t : Bool)
    (mem : Sram.Mem) : (Ui.run env (Ui.boot env t mem) evs).ui.fault = false := by
  obtain ⟨b, tame, hf⟩ := ordinary_fine he h t mem
  exact hf.ui.fault

/-- A downward portamento between the lowest keys: the pitch wraps to 142, past the end of the table of names. -/
def lowGlide : List Ui.Ev :=
  [Ex.msg (.cc 0 65 127), Ex.msg (.cc 0 5 0), Ex.msg (.noteOn 0 11 100), Ex.msg (.noteOn 0 1 100), Ex.msg .tick, Ex.frame]

set_option maxRecDepth 20000 in
theorem C62_low_glide_reads_past_the_names : (Ex.shows .static lowGlide).ui.fault = true := by decide +kernel

theorem C62_statement_violated : ¬C62_statement := by
  intro h
  have := h (Ex.ui .static) true Ex.mem lowGlide (Ex.ui_ok _) (by
    intro e he
    simp only [lowGlide, List.mem_cons, List.not_mem_nil, or_false] at he
    rcases he with e | e | e | e | e | e <;> subst e <;> simp [EvWf, Ex.msg, Ex.frame, Midi.Op.Wf]) (.inl (by
    intro op ho
    simp only [lowGlide, Ex.msg, Ex.frame, calls, List.mem_cons, List.not_mem_nil, or_false] at ho
    rcases ho with e | e | e | e | e <;> subst e <;> simp [Midi.Op.enablesDac]))
  exact absurd (this.symm.trans C62_low_glide_reads_past_the_names) (by simp)

-- non-vacuity: a history with portamento
example : Ordinary [Ex.msg (.cc 0 65 127), Ex.msg (.noteOn 0 60 100), Ex.frame, Ex.msg (.noteOn 0 72 100), Ex.msg .tick] := by
  refine ⟨?_, .inl ?_, .inr ?_⟩
  · intro e he
    simp only [List.mem_cons, List.not_mem_nil, or_false] at he
    rcases he with e | e | e | e | e <;> subst e <;> simp [EvWf, Ex.msg, Ex.frame, Midi.Op.Wf]
  · simp [calls, Ex.msg, Ex.frame, Midi.Op.enablesDac]
  · simp [calls, Ex.msg, Ex.frame, lowNote]

end Mdmi.Props
