import Verif.Props.C62
/-! C63: the display names the notes that sound. -/
namespace Mdmi.Props
open Mdmi Mdmi.Ui Mdmi.UiSpec

/-- Specification: the cells of a voice. -/
def noteCells (d : Midi.Dev) : Text :=
  if d.noteOn = false then blank 3 else if 21 ≤ d.pitch then keyName d.pitch else ['?', '?', '?']

/-- **C63**.  After every frame the note column shows for each voice the name of its key while it sounds (keys below A0
have no name), and is blank otherwise. -/
def C63_statement : Prop :=
  ∀ (env : Ui.Env) (t : Bool) (mem : Sram.Mem) (evs : List Ui.Ev) (f : Frame), env.midi.Ok → Ordinary (evs ++ [.frame f]) →
    let s := Ui.run env (Ui.boot env t mem) (evs ++ [.frame f])
    ∀ i, i < 10 → Reads s.ui.scr 7 (row i) (noteCells (s.m.dev i))

private theorem name_table : ∀ p : Fin 128, 22 ≤ p.val → pitchText p.val = keyName p.val := by decide +kernel

theorem last_frame {env : Ui.Env} (he : env.midi.Ok) {evs : List Ui.Ev} {f : Frame} (h : Ordinary (evs ++ [.frame f])) (t : Bool)
    (mem : Sram.Mem) : ∃ b tame, Fine env b tame (Ui.run env (Ui.boot env t mem) evs) ∧ f.ticks < 65536 ∧
      Ui.run env (Ui.boot env t mem) (evs ++ [.frame f]) =
        ⟨(Ui.run env (Ui.boot env t mem) evs).m,
          Ui.update env (Ui.run env (Ui.boot env t mem) evs).m (Ui.run env (Ui.boot env t mem) evs).ui f⟩ := by
  obtain ⟨b, tame, hf⟩ := fits_of_ordinary h
  refine ⟨b, tame, run_fine he evs (boot_fine he b tame t mem) fun e he => hf e (by simp [he]), hf (.frame f) (by simp), ?_⟩
  unfold Ui.run
  rw [List.foldl_append]; rfl

/-- **C63** (partial).  After every frame of an ordinary history: a voice that sounds a key above A0 shows the name of
that key, one that does not sound is blank, and keys 1 to 21 show as `???`.  Missing: A0 itself, which shows as `???`,
and key 0, which shows as silence. -/
theorem C63_sounding_notes_are_named_partial {env : Ui.Env} (he : env.midi.Ok) {evs : List Ui.Ev} {f : Frame}
    (h : Ordinary (evs ++ [.frame f])) (t : Bool) (mem : Sram.Mem) {i : Nat} (hi : i < 10) :
    let s := Ui.run env (Ui.boot env t mem) (evs ++ [.frame f])
    ((s.m.dev i).noteOn = true → 22 ≤ (s.m.dev i).pitch → Reads s.ui.scr 7 (row i) (keyName (s.m.dev i).pitch)) ∧
    ((s.m.dev i).noteOn = true → 0 < (s.m.dev i).pitch → (s.m.dev i).pitch ≤ 21 →
      Reads s.ui.scr 7 (row i) ['?', '?', '?']) ∧
    ((s.m.dev i).noteOn = false → Reads s.ui.scr 7 (row i) (blank 3)) := by
  intro s
  obtain ⟨b, tame, hf, ht, e⟩ := last_frame he h t mem
  have e : s = _ := e
  obtain ⟨k1, k2⟩ := update_tidy (env := env) hf.fit hf.ui ht
  have hp := (hf.range.note i).pitch
  rw [e]
  simp only
  generalize (Ui.run env (Ui.boot env t mem) evs) = r at *
  have c := k1.shown i hi
  unfold PitchShown at c
  rw [k2 i hi] at c
  have hp : (r.m.dev i).pitch < 128 := hp
  refine ⟨fun on hl => ?_, fun on hl hu => ?_, fun off => ?_⟩
  · unfold soundingPitch at c
    rw [if_pos on, name_table ⟨_, hp⟩ hl] at c
    exact c
  · unfold soundingPitch at c
    rw [if_pos on] at c
    unfold pitchText at c
    rw [if_neg (by omega), if_neg (by omega)] at c
    exact c
  · unfold soundingPitch at c
    rw [if_neg (by simp [off])] at c
    exact c

set_option maxRecDepth 20000 in
/-- The lowest key with a name shows as unknown. -/
theorem C63_A0_is_not_named :
    let s := Ex.shows .static ([Ex.msg (.noteOn 0 21 100)] ++ [.frame ⟨1, 0, .serial, none⟩])
    (s.m.dev 0).noteOn = true ∧ (s.m.dev 0).pitch = 21 ∧ s.ui.scr 7 3 = '?' ∧ keyName 21 = ['A', '-', '0'] := by
  decide +kernel

set_option maxRecDepth 20000 in
/-- Key 0 sounds without a trace on the display. -/
theorem C63_key_zero_shows_as_silence :
    let s := Ex.shows .static [Ex.msg (.noteOn 0 0 100), Ex.frame]
    (s.m.dev 0).noteOn = true ∧ s.ui.scr 7 3 = ' ' ∧ s.ui.scr 8 3 = ' ' ∧ s.ui.scr 9 3 = ' ' := by
  decide +kernel

theorem C63_statement_violated : ¬C63_statement := by
  intro h
  have o : Ordinary ([Ex.msg (.noteOn 0 21 100)] ++ [.frame ⟨1, 0, .serial, none⟩]) := by
    refine ⟨?_, .inl ?_, .inl ?_⟩
    · intro e he
      simp only [List.cons_append, List.nil_append, List.mem_cons, List.not_mem_nil, or_false] at he
      rcases he with e | e <;> subst e <;> simp [EvWf, Ex.msg, Midi.Op.Wf]
    · simp [calls, Ex.msg, Midi.Op.enablesDac]
    · simp [calls, Ex.msg, portamentoOn]
  have k := h (Ex.ui .static) true Ex.mem _ _ (Ex.ui_ok _) o
  have a := C63_A0_is_not_named
  unfold Ex.shows at a
  revert k a
  generalize Ui.run (Ex.ui .static) (Ui.boot (Ex.ui .static) true Ex.mem)
    ([Ex.msg (.noteOn 0 21 100)] ++ [.frame ⟨1, 0, .serial, none⟩]) = s
  intro k a
  obtain ⟨h1, h2, h3, _⟩ := a
  have k := k 0 (by omega)
  unfold noteCells at k
  rw [h1, h2] at k
  have k := k 0 (by decide)
  have h3 : s.ui.scr (7 + 0) (row 0) = '?' := h3
  rw [h3] at k
  exact absurd k (by decide)

set_option maxRecDepth 20000 in
-- non-vacuity: middle C, then silence
example : let s := Ex.shows .static [Ex.msg (.noteOn 2 60 100), Ex.frame]
    s.ui.scr 7 7 = 'C' ∧ s.ui.scr 8 7 = '-' ∧ s.ui.scr 9 7 = '4' ∧ keyName 60 = ['C', '-', '4'] ∧
    (Ex.shows .static [Ex.msg (.noteOn 2 60 100), Ex.frame, Ex.msg (.noteOff 2 60), Ex.frame]).ui.scr 7 7 = ' ' := by
  decide +kernel

end Mdmi.Props
