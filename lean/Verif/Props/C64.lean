import Verif.Proofs.UiMap
import Verif.Props.C63
/-! C64: the display shows which MIDI channel each voice plays. -/
namespace Mdmi.Props
open Mdmi Mdmi.Ui Mdmi.UiSpec

/-- Specification: the two cells of a mapping; 127 stands for no channel. -/
def mapCells (c : Nat) : Text := if c = 127 then [' ', '-'] else channelName c

/-- Throughout a stretch of events voice `i` of the first ten is mapped to channel `c i`. -/
def Steady (env : Ui.Env) (c : Nat → Nat) (s : Ui.Sys) (evs : List Ui.Ev) : Prop :=
  ∀ pre suf, evs = pre ++ suf → ∀ i, i < 10 → ((Ui.run env s pre).m.dev i).midiChannel = c i

/-- Number of frames in a stretch. -/
def frames : List Ui.Ev → Nat
  | [] => 0
  | .frame _ :: evs => frames evs + 1
  | .midi _ _ :: evs => frames evs

/-- Every frame reports the vertical blanks since the one before: at least one, less than a quarter of an hour. -/
def Timely (evs : List Ui.Ev) : Prop := ∀ f, Ui.Ev.frame f ∈ evs → 1 ≤ f.delta ∧ f.delta ≤ 50000

/-- **C64**.  At most five frames after the assignment of voices to MIDI channels changed, the channel column shows it. -/
def C64_statement : Prop :=
  ∀ (env : Ui.Env) (t : Bool) (mem : Sram.Mem) (evs tail : List Ui.Ev) (c : Nat → Nat), env.midi.Ok →
    Ordinary (evs ++ tail) → Timely tail → 5 ≤ frames tail →
    Steady env c (Ui.run env (Ui.boot env t mem) evs) tail →
    ∀ i, i < 10 → Reads (Ui.run env (Ui.boot env t mem) (evs ++ tail)).ui.scr 4 (row i) (mapCells (c i))

private theorem steady_run {env : Ui.Env} {b tame : Bool} (he : env.midi.Ok) {c : Nat → Nat} (hc : ∃ i, i < 10 ∧ c i ≠ 0)
    (evs : List Ui.Ev) : ∀ (k : Nat) {s : Ui.Sys}, Fine env b tame s → (∀ e ∈ evs, e.Fits b tame) → Timely evs →
      Steady env c s evs → ((∀ i, i < 10 → MapShown s.ui i (c i)) ∨ k ≤ s.ui.activityFrame) →
      (∀ i, i < 10 → MapShown (Ui.run env s evs).ui i (c i)) ∨ k + frames evs ≤ (Ui.run env s evs).ui.activityFrame := by
  induction evs with
  | nil => intro k s _ _ _ _ h; exact h
  | cons e evs ih =>
    intro k s hs hf ht hst h
    have hf' : e.Fits b tame := hf e (by simp)
    have st : Steady env c (Ui.step env s e) evs := fun pre suf q => hst (e :: pre) suf (by rw [q]; rfl)
    have tl : Timely evs := fun f hm => ht f (by simp [hm])
    have fi : ∀ e ∈ evs, e.Fits b tame := fun e h => hf e (by simp [h])
    cases e with
    | midi op notes =>
      have hw : op.Wf := hf'.1
      obtain ⟨a1, a2⟩ := step_midi_map (env := env) (s := s) (notes := notes) hw
      refine ih k (step_fine he hs hf') fi tl st ?_
      rw [a2]
      exact h.imp (fun h i hi => (h i hi).other fun x y q => a1 x y (by unfold MapCell at q; omega)) id
    | frame f =>
      have e0 : ∀ i, i < 10 → (s.m.dev i).midiChannel = c i := hst [] _ rfl
      obtain ⟨d1, d2⟩ := ht f (by simp)
      have key : (∀ i, i < 10 → MapShown (Ui.step env s (.frame f)).ui i (c i)) ∨
          k + 1 ≤ (Ui.step env s (.frame f)).ui.activityFrame := by
        have um := fun i (hi : i < 10) => update_map (env := env) (f := f) hs.fit hs.ui hi
        have af := hs.ui.frame
        by_cases q : 5 ≤ (s.ui.activityFrame + f.delta) % 65536
        · left
          intro i hi
          have u := um i hi
          rw [if_pos q, e0 i hi] at u
          refine u fun z => ?_
          obtain ⟨j, hj, hn⟩ := hc
          exact hn ((e0 j hj).symm.trans (z j hj))
        · rcases h with h | h
          · left
            intro i hi
            have u := um i hi
            rw [if_neg q] at u
            exact (h i hi).other u.1
          · right
            have u := um 0 (by omega)
            rw [if_neg q] at u
            have u2 : (Ui.step env s (.frame f)).ui.activityFrame = _ := u.2
            rw [u2]
            omega
      have r := ih (k + 1) (step_fine he hs hf') fi tl st key
      have fr : k + frames (Ui.Ev.frame f :: evs) = k + 1 + frames evs := by simp only [frames]; omega
      rw [fr]
      exact r

/-- **C64** (partial).  The column is right at most five frames after a change.  Missing: the assignment of all ten
voices to MIDI channel 1, which is never drawn. -/
theorem C64_mapping_is_shown_partial {env : Ui.Env} (he : env.midi.Ok) {evs tail : List Ui.Ev} (h : Ordinary (evs ++ tail))
    (ht : Timely tail) (hn : 5 ≤ frames tail) (t : Bool) (mem : Sram.Mem) {c : Nat → Nat}
    (hc : ∃ i, i < 10 ∧ c i ≠ 0) (hs : Steady env c (Ui.run env (Ui.boot env t mem) evs) tail) {i : Nat} (hi : i < 10) :
    Reads (Ui.run env (Ui.boot env t mem) (evs ++ tail)).ui.scr 4 (row i) (mapCells (c i)) := by
  obtain ⟨b, tame, hf⟩ := fits_of_ordinary h
  have f1 := run_fine he evs (boot_fine he b tame t mem) fun e he => hf e (by simp [he])
  have f2 := run_fine he tail f1 fun e he => hf e (by simp [he])
  have e : Ui.run env (Ui.boot env t mem) (evs ++ tail) = Ui.run env (Ui.run env (Ui.boot env t mem) evs) tail := by
    unfold Ui.run; rw [List.foldl_append]
  rw [e]
  rcases steady_run he hc tail 0 f1 (fun e he => hf e (by simp [he])) ht hs (.inr (by omega)) with r | r
  · exact r i hi
  · have := f2.ui.frame; omega

private theorem apply_map (s : Midi.St) : ((Midi.applyDynamicMode s).dev 1).midiChannel ≠ 0 := by
  unfold Midi.applyDynamicMode
  simp only [show (1 : Nat) < 13 by omega, if_true]
  split <;> omega

private theorem channels_map (env : Midi.Env) (s : Midi.St) : ((Midi.resetChannels env s).dev 1).midiChannel ≠ 0 := by
  unfold Midi.resetChannels
  exact apply_map _

private theorem boot_map (env : Midi.Env) (t : Bool) (mem : Sram.Mem) : ((Midi.boot env t mem).dev 1).midiChannel ≠ 0 := by
  unfold Midi.boot Midi.reset
  exact channels_map _ _

/-- The screen after start-up shows the assignment before the first frame. -/
theorem C64_shown_at_start {env : Ui.Env} (he : env.midi.Ok) (t : Bool) (mem : Sram.Mem) {i : Nat} (hi : i < 10) :
    let s := Ui.boot env t mem
    Reads s.ui.scr 4 (row i) (mapCells (s.m.dev i).midiChannel) := by
  intro s
  have hz : ∃ j, j < 10 ∧ (s.m.dev j).midiChannel ≠ 0 := ⟨1, by omega, boot_map env.midi t mem⟩
  have ok := Midi.boot_ok (tame := false) he t mem
  have hm : ∀ i, i < 10 → Midi.MapOk (s.m.dev i).midiChannel := fun i hi => (ok.dev i (by omega)).map
  obtain ⟨_, _, _, u, e⟩ := init_state (env := env) (m := s.m) hm
  have p := printMappings_shown (s := u) hm (fun z => by
    obtain ⟨j, hj, hn⟩ := hz
    exact hn (z j hj)) hi
  have e : s.ui.scr = _ := e
  rw [e]
  exact p

/-- Specification: the number of a voice on its chip, six FM and four PSG. -/
def voiceDigit (i : Nat) : Char := Nat.digitChar (if i < 6 then i + 1 else i - 5)

private theorem init_named (env : Ui.Env) (m : Midi.St) {i : Nat} (hi : i < 10) :
    (Ui.init env m).scr 2 (row i) = voiceDigit i := by
  have e : ∃ s : Ui.St, (∀ i : Fin 10, s.scr 2 (row i.val) = voiceDigit i.val) ∧
      (Ui.init env m).scr = (printMappings m.dev (printCommMode { s with scr := draw s.scr ['%'] 0 25 } .discovery)).scr := by
    refine ⟨(List.range 10).foldl (fun (s : Ui.St) i => { s with scr := draw s.scr (devChText.getD i []) 1 (2 + i * 2) })
      { powerOn with scr := draw (draw powerOn.scr ['M', 'D', 'M', 'I'] 0 0) env.build 5 0 }, ?_, ?_⟩
    rotate_left
    · unfold Ui.init
      simp only
      split
      · rfl
      · split <;> rfl
    · intro i
      match i with
      | 0 | 1 | 2 | 3 | 4 | 5 | 6 | 7 | 8 | 9 => rfl
  obtain ⟨s, h, e⟩ := e
  rw [e, (printMappings_eff _ _).scr _ _ (by rintro ⟨j, _, k⟩; unfold MapCell at k; omega),
    (printCommMode_eff _ _).scr _ _ (by unfold row; omega)]
  simp only
  rw [draw_out (by simp only [List.length_singleton]; unfold row; omega)]
  exact h ⟨i, hi⟩

/-- The rows of the display keep their voice's number, whatever is drawn. -/
theorem C64_voices_are_numbered {env : Ui.Env} (he : env.midi.Ok) {evs : List Ui.Ev} (h : Ordinary evs) (t : Bool)
    (mem : Sram.Mem) {i : Nat} (hi : i < 10) :
    (Ui.run env (Ui.boot env t mem) evs).ui.scr 2 (row i) = voiceDigit i := by
  obtain ⟨b, tame, hf⟩ := fits_of_ordinary h
  have key : ∀ (evs : List Ui.Ev) {s : Ui.Sys}, Fine env b tame s → (∀ e ∈ evs, e.Fits b tame) →
      (Ui.run env s evs).ui.scr 2 (row i) = s.ui.scr 2 (row i) := by
    intro evs
    induction evs with
    | nil => intro s _ _; rfl
    | cons e evs ih =>
      intro s hs hf
      refine (ih (step_fine he hs (hf e (by simp))) fun e h => hf e (by simp [h])).trans ?_
      cases e with
      | midi op notes => exact (step_midi_map (hf (.midi op notes) (by simp)).1).1 _ _ (by omega)
      | frame f =>
        have b1 : Bytes (updateKeyOnOff s.m.dev s.ui) := by
          unfold Bytes; rw [(updateKeyOnOff_rest s.m.dev s.ui).1]; exact hs.ui.bytes
        refine ((update_tail env s.m s.ui f).1.scr _ _ ?_).trans (((printChanges_eff b1).scr _ _ ?_).trans
          ((updateKeyOnOff_eff s.m.dev s.ui).scr _ _ ?_))
        · unfold row
          rintro ((⟨j, _, k⟩ | k | k | k) | k)
          · unfold MapCell at k; omega
          all_goals omega
        · rintro ⟨j, _, k⟩; unfold ChangeCell at k; omega
        · rintro ⟨j, _, k⟩; unfold PitchCell at k; omega
  rw [key evs (boot_fine he b tame t mem) hf]
  exact init_named _ _ hi

/-- The remapping of voice `i` to the first MIDI channel. -/
def toFirst (i : Nat) : Ui.Ev := Ex.msg (.remap 0 i)

/-- Voices 2 to 10 to channel 1, where the first already is. -/
def allToFirst : List Ui.Ev := [1, 2, 3, 4, 5, 6, 7, 8, 9].map toFirst

/-- Five frames. -/
def fiveFrames : List Ui.Ev := List.replicate 5 Ex.frame

set_option maxRecDepth 20000 in
theorem C64_all_first_is_not_drawn :
    (∀ i, i < 10 → ((Ex.shows .static allToFirst).m.dev i).midiChannel = 0) ∧
    (Ex.shows .static (allToFirst ++ fiveFrames)).ui.scr 5 5 = '2' ∧ mapCells 0 = [' ', '1'] := by
  decide +kernel

theorem C64_statement_violated : ¬C64_statement := by
  intro h
  have o : Ordinary (allToFirst ++ fiveFrames) := by
    have e : allToFirst ++ fiveFrames = [toFirst 1, toFirst 2, toFirst 3, toFirst 4, toFirst 5, toFirst 6, toFirst 7,
      toFirst 8, toFirst 9, Ex.frame, Ex.frame, Ex.frame, Ex.frame, Ex.frame] := rfl
    rw [e]
    refine ⟨?_, .inl ?_, .inl ?_⟩
    · simp [EvWf, toFirst, Ex.msg, Ex.frame, Midi.Op.Wf]
    · simp [calls, toFirst, Ex.msg, Ex.frame, Midi.Op.enablesDac]
    · simp [calls, toFirst, Ex.msg, Ex.frame, portamentoOn]
  have a := C64_all_first_is_not_drawn
  have run_frames : ∀ (pre suf : List Ui.Ev) (s : Ui.Sys), fiveFrames = pre ++ suf → (Ui.run (Ex.ui .static) s pre).m = s.m := by
    intro pre suf s e
    have hp : ∀ e ∈ pre, ∃ f, e = Ui.Ev.frame f := by
      intro x hx
      have : x ∈ fiveFrames := by rw [e]; simp [hx]
      exact ⟨_, List.eq_of_mem_replicate this⟩
    clear e
    induction pre generalizing s with
    | nil => rfl
    | cons x pre ih =>
      obtain ⟨f, rfl⟩ := hp x (by simp)
      exact ih _ fun e he => hp e (by simp [he])
  have k := h (Ex.ui .static) true Ex.mem allToFirst fiveFrames (fun _ => 0) (Ex.ui_ok _) o (by
    intro f hf
    have e := List.eq_of_mem_replicate hf
    unfold Ex.frame at e
    rw [Ui.Ev.frame.injEq] at e
    subst e
    simp) (by decide) (by
    intro pre suf e i hi
    rw [run_frames pre suf _ e]
    exact a.1 i hi) 1 (by omega)
  have k := k 1 (by decide)
  have a2 := a.2.1
  unfold Ex.shows at a2
  revert k a2
  generalize Ui.run (Ex.ui .static) (Ui.boot (Ex.ui .static) true Ex.mem) (allToFirst ++ fiveFrames) = s
  intro k a2
  have a2 : s.ui.scr (4 + 1) (row 1) = '2' := a2
  rw [a2] at k
  exact absurd k (by decide)

set_option maxRecDepth 20000 in
-- non-vacuity: voice 3 moves from channel 4 to 12, voice 4 to none
example : let s := Ex.shows .static ([Ex.msg (.remap 11 3), Ex.msg (.remap 127 4)] ++ fiveFrames)
    s.ui.scr 4 9 = '1' ∧ s.ui.scr 5 9 = '2' ∧ mapCells 11 = ['1', '2'] ∧ s.ui.scr 5 11 = '-' ∧ s.ui.scr 5 13 = '6' ∧
    frames fiveFrames = 5 := by
  decide +kernel

set_option maxRecDepth 20000 in
-- the rows of FM 6 and PSG 1 with the panel opened on MIDI channel 1
example : let s := Ex.shows .static ([Ex.msg (.cc 0 83 127), Ex.msg (.noteOn 0 60 100)] ++ fiveFrames)
    s.ui.scr 2 13 = '6' ∧ s.ui.scr 2 15 = '1' ∧ s.ui.scr 2 21 = '4' ∧ s.ui.scr 2 14 = ' ' := by decide +kernel

end Mdmi.Props
