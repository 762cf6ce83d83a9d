import Verif.Proofs.UiChange
import Verif.Props.C64
/-! C65: the display shows controller and program changes. -/
namespace Mdmi.Props
open Mdmi Mdmi.Ui Mdmi.UiSpec

/-- Specification: a number below 1000, left aligned in three cells. -/
def numberName (n : Nat) : Text :=
  if n < 10 then [Nat.digitChar n, ' ', ' ']
  else if n < 100 then [Nat.digitChar (n / 10), Nat.digitChar (n % 10), ' ']
  else [Nat.digitChar (n / 100), Nat.digitChar (n / 10 % 10), Nat.digitChar (n % 10)]

/-- The text announcing a message. -/
def notice : Midi.Op → Text
  | .cc _ k v => ['C', 'C'] ++ hexName k ++ ['='] ++ hexName v
  | .program _ p => ['P', '='] ++ numberName p
  | _ => []

/-- The message is a controller or program change of the channel voice `i` plays. -/
def concerns (m : Midi.St) (i : Nat) : Midi.Op → Prop
  | .cc c _ _ => (m.dev i).midiChannel = c
  | .program c _ => (m.dev i).midiChannel = c
  | _ => False

/-- No message of a stretch concerns voice `i`. -/
def Quiet (env : Ui.Env) (i : Nat) (s : Ui.Sys) (evs : List Ui.Ev) : Prop :=
  ∀ pre op notes suf, evs = pre ++ Ui.Ev.midi op notes :: suf → ¬ concerns (Ui.run env s (pre ++ [.midi op notes])).m i op

/-- **C65**.  A controller or program change shows for 150 frames on the voices of its channel, unless another replaces
it; then the cells are blank. -/
def C65_statement : Prop :=
  ∀ (env : Ui.Env) (t : Bool) (mem : Sram.Mem) (evs tail : List Ui.Ev) (op : Midi.Op) (notes : List (Nat × Note)) (i : Nat),
    env.midi.Ok → Ordinary (evs ++ [.midi op notes] ++ tail) → i < 10 →
    concerns (Ui.run env (Ui.boot env t mem) (evs ++ [.midi op notes])).m i op →
    Quiet env i (Ui.run env (Ui.boot env t mem) (evs ++ [.midi op notes])) tail →
    let s := Ui.run env (Ui.boot env t mem) (evs ++ [.midi op notes] ++ tail)
    (1 ≤ frames tail → frames tail ≤ 150 → Reads s.ui.scr 11 (row i) (notice op ++ blank (7 - (notice op).length))) ∧
    (151 ≤ frames tail → Reads s.ui.scr 11 (row i) (blank 7))

private theorem hex_name : ∀ n : Fin 256, hex2 n.val = hexName n.val := by decide +kernel
private theorem number_name : ∀ n : Fin 256, decLeft 3 n.val = numberName n.val := by decide +kernel

private theorem notice_eq {op : Midi.Op} (hw : op.Wf) : changeText (changeOf op) = notice op := by
  cases op with
  | cc c k v =>
    obtain ⟨_, hk, hv⟩ := hw
    have hk : k < 256 := by omega
    have hv : v < 256 := by omega
    simp only [changeText, changeOf, notice, Nat.mod_eq_of_lt hk, Nat.mod_eq_of_lt hv]
    rw [hex_name ⟨k, hk⟩, hex_name ⟨v, hv⟩]
  | program c p =>
    obtain ⟨_, hp⟩ := hw
    have hp : p < 256 := by omega
    simp only [changeText, changeOf, notice, Nat.mod_eq_of_lt hp]
    rw [number_name ⟨p, hp⟩]
  | _ => rfl

private theorem touches_iff {m : Midi.St} {i : Nat} {op : Midi.Op} : Touches m.dev i op ↔ concerns m i op := by
  cases op <;> exact Iff.rfl

private theorem change_ok {m : Midi.St} {i : Nat} {op : Midi.Op} (h : concerns m i op) :
    (changeOf op).kind ≠ .none ∧ (changeOf op).value < 256 ∧ (changeOf op).ttl = 150 := by
  cases op with
  | cc c k v => exact ⟨by simp [changeOf], by simp only [changeOf]; omega, rfl⟩
  | program c p => exact ⟨by simp [changeOf], by simp only [changeOf]; omega, rfl⟩
  | _ => exact h.elim

private theorem step_m (env : Ui.Env) (s : Ui.Sys) (op : Midi.Op) (notes : List (Nat × Note)) :
    (Ui.step env s (.midi op notes)).m = Midi.step env.midi s.m op := rfl

private theorem quiet_stage {env : Ui.Env} {i : Nat} (hi : i < 10) {c : Change} (hk : c.kind ≠ .none)
    (hc : c.value < 256) {w : Nat → Char} (evs : List Ui.Ev) : ∀ {s : Ui.Sys} {n : Nat}, (∀ e ∈ evs, EvWf e) →
      Quiet env i s evs → Stage i c w n s.ui → Stage i c w (n + frames evs) (Ui.run env s evs).ui := by
  induction evs with
  | nil => intro s n _ _ h; exact h
  | cons e evs ih =>
    intro s n hw hq h
    have q : Quiet env i (Ui.step env s e) evs := fun pre op notes suf g => hq (e :: pre) op notes suf (by rw [g]; rfl)
    have w' : ∀ e ∈ evs, EvWf e := fun e h => hw e (by simp [h])
    cases e with
    | midi op notes =>
      have no := hq [] op notes evs rfl
      have sc := (step_change (env := env) (s := s) (notes := notes) (hw (.midi op notes) (by simp)) hi).2
        (fun k => no (touches_iff.1 k))
      exact ih w' q (h.same hc sc)
    | frame f =>
      obtain ⟨u, h1, h2⟩ := update_change (env := env) (m := s.m) (s := s.ui) (f := f) hi
      have st := ((h.same hc h1).frame hk hc).same hc h2
      have r := ih w' q (s := Ui.step env s (.frame f)) st
      have fr : n + frames (Ui.Ev.frame f :: evs) = n + 1 + frames evs := by simp only [frames]; omega
      rw [fr]
      exact r

private theorem run_append (env : Ui.Env) (s : Ui.Sys) (a b : List Ui.Ev) :
    Ui.run env s (a ++ b) = Ui.run env (Ui.run env s a) b := by unfold Ui.run; rw [List.foldl_append]

/-- **C65** (partial).  A controller or program change shows for 150 frames on every voice of its channel, unless another
replaces it; then the seven cells are blank.  Missing: the text of a program change has only five cells, and the other two
keep what stood there. -/
theorem C65_changes_are_shown_partial {env : Ui.Env} {t : Bool} {mem : Sram.Mem} {evs tail : List Ui.Ev} {op : Midi.Op}
    {notes : List (Nat × Note)} {i : Nat} (hw : ∀ e ∈ evs ++ [.midi op notes] ++ tail, EvWf e) (hi : i < 10)
    (hc : concerns (Ui.run env (Ui.boot env t mem) (evs ++ [.midi op notes])).m i op)
    (hq : Quiet env i (Ui.run env (Ui.boot env t mem) (evs ++ [.midi op notes])) tail) :
    let s := Ui.run env (Ui.boot env t mem) (evs ++ [.midi op notes] ++ tail)
    (1 ≤ frames tail → frames tail ≤ 150 → Reads s.ui.scr 11 (row i) (notice op) ∧
      ∀ k, (notice op).length ≤ k → k < 7 → s.ui.scr (11 + k) (row i) =
        (Ui.run env (Ui.boot env t mem) evs).ui.scr (11 + k) (row i)) ∧
    (151 ≤ frames tail → Reads s.ui.scr 11 (row i) (blank 7)) := by
  intro s
  have hop : op.Wf := hw (.midi op notes) (by simp)
  obtain ⟨k1, k2, k3⟩ := change_ok hc
  have e1 : Ui.run env (Ui.boot env t mem) (evs ++ [.midi op notes]) =
      Ui.step env (Ui.run env (Ui.boot env t mem) evs) (.midi op notes) := run_append _ _ _ _
  rw [e1] at hc hq
  have p := (step_change (env := env) (s := Ui.run env (Ui.boot env t mem) evs) (notes := notes) hop hi).1
    (touches_iff.2 hc)
  have st : Stage i (changeOf op) (fun k => (Ui.run env (Ui.boot env t mem) evs).ui.scr (11 + k) (row i)) 0
      (Ui.step env (Ui.run env (Ui.boot env t mem) evs) (.midi op notes)).ui :=
    ⟨fun _ => by rw [p.1]; show _ = Change.mk _ _ _ 150; rw [← k3], by omega,
      fun _ k _ h2 => p.2 _ _ (changeCell_mk h2), by omega⟩
  have st := quiet_stage hi k1 k2 tail (fun e he => hw e (by simp [he])) hq st
  have e : s = Ui.run env (Ui.step env (Ui.run env (Ui.boot env t mem) evs) (.midi op notes)) tail := by
    show Ui.run _ _ _ = _
    rw [run_append, e1]
  rw [← e, Nat.zero_add] at st
  refine ⟨fun h1 h2 => ⟨?_, fun k h3 h4 => ?_⟩, fun h1 => (st.gone h1).2⟩
  · rw [← notice_eq hop]; exact st.text h1 h2
  · exact st.tail h2 k (.inr (by rw [notice_eq hop]; exact h3)) h4

-- a controller change fills all seven cells
example {c k v : Nat} : (notice (.cc c k v)).length = 7 := rfl

/-- Before the first message for a voice its cells are blank. -/
theorem C65_blank_at_first {env : Ui.Env} (he : env.midi.Ok) {t : Bool} {mem : Sram.Mem} {evs : List Ui.Ev} {i : Nat}
    (hw : ∀ e ∈ evs, EvWf e) (hi : i < 10) (hq : Quiet env i (Ui.boot env t mem) evs) :
    Reads (Ui.run env (Ui.boot env t mem) evs).ui.scr 11 (row i) (blank 7) := by
  have ok := Midi.boot_ok (tame := false) he t mem
  obtain ⟨h1, _, h3, _⟩ := init_state (env := env) (m := (Ui.boot env t mem).m) fun i hi => (ok.dev i (by omega)).map
  simp only [St.rest, Prod.mk.injEq] at h1
  have st : Stage i ⟨.cc, 0, 0, 0⟩ (fun _ => ' ') 151 (Ui.boot env t mem).ui := by
    refine ⟨by omega, by omega, by omega, fun _ => ⟨?_, fun j hj => ?_⟩⟩
    · show ((init env (Ui.boot env t mem).m).change i).kind = _
      rw [h1.2.1]; rfl
    · exact (h3 i (11 + j) (row i) hi rfl (by omega)).trans (blank_at 7 j).symm
  exact ((quiet_stage hi (by simp) (by simp) evs hw hq st).gone (by omega)).2

/-- Volume, then a program change, on MIDI channel 1. -/
def volumeThenProgram : List Ui.Ev := [Ex.msg (.cc 0 7 0x40), Ex.frame] ++ [.midi (.program 0 5) []] ++ [Ex.frame]

set_option maxRecDepth 20000 in
/-- The display then reads `P=5  40`. -/
theorem C65_program_leaves_residue :
    let s := Ex.shows .static volumeThenProgram
    (s.m.dev 0).midiChannel = 0 ∧ s.ui.scr 11 3 = 'P' ∧ s.ui.scr 12 3 = '=' ∧ s.ui.scr 13 3 = '5' ∧ s.ui.scr 14 3 = ' ' ∧
    s.ui.scr 15 3 = ' ' ∧ s.ui.scr 16 3 = '4' ∧ s.ui.scr 17 3 = '0' := by
  decide +kernel

theorem C65_statement_violated : ¬C65_statement := by
  intro h
  have o : Ordinary volumeThenProgram := by
    have e : volumeThenProgram = [Ex.msg (.cc 0 7 0x40), Ex.frame, .midi (.program 0 5) [], Ex.frame] := rfl
    rw [e]
    refine ⟨?_, .inl ?_, .inl ?_⟩
    · simp [EvWf, Ex.msg, Ex.frame, Midi.Op.Wf]
    · simp [calls, Ex.msg, Ex.frame, Midi.Op.enablesDac]
    · simp [calls, Ex.msg, Ex.frame, portamentoOn]
  have a := C65_program_leaves_residue
  have m0 : ((Ui.run (Ex.ui .static) (Ui.boot (Ex.ui .static) true Ex.mem)
      ([Ex.msg (.cc 0 7 0x40), Ex.frame] ++ [.midi (.program 0 5) []])).m.dev 0).midiChannel = 0 := a.1
  have k := (h (Ex.ui .static) true Ex.mem [Ex.msg (.cc 0 7 0x40), Ex.frame] [Ex.frame] (.program 0 5) [] 0 (Ex.ui_ok _) o
    (by omega) m0 (by
      intro pre op notes suf e
      cases pre with
      | nil => simp [Ex.frame] at e
      | cons x pre => simp at e)).1 (by decide) (by decide)
  have a2 := a.2.2.2.2.2.2.1
  unfold Ex.shows at a2
  have k := k 5 (by decide)
  have e : volumeThenProgram = [Ex.msg (.cc 0 7 0x40), Ex.frame] ++ [.midi (.program 0 5) []] ++ [Ex.frame] := rfl
  rw [← e] at k
  revert k a2
  generalize Ui.run (Ex.ui .static) (Ui.boot (Ex.ui .static) true Ex.mem) volumeThenProgram = s
  intro a2 k
  have a2 : s.ui.scr (11 + 5) (row 0) = '4' := a2
  rw [a2] at k
  exact absurd k (by decide)

set_option maxRecDepth 20000 in
-- non-vacuity: a controller change on channel 3 and nothing on channel 4
example : let s := Ex.shows .static ([Ex.msg (.cc 2 0x4A 0x7F)] ++ [Ex.frame])
    concerns s.m 2 (.cc 2 0x4A 0x7F) ∧ notice (.cc 2 0x4A 0x7F) = ['C', 'C', '4', 'A', '=', '7', 'F'] ∧
    s.ui.scr 13 7 = '4' ∧ s.ui.scr 14 7 = 'A' ∧ s.ui.scr 17 7 = 'F' ∧ s.ui.scr 11 9 = ' ' ∧
    notice (.program 0 12) = ['P', '=', '1', '2', ' '] := by
  unfold concerns
  decide +kernel

end Mdmi.Props
