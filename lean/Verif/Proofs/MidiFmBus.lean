import Verif.Proofs.MidiFm
/-! Bus ownership at the level of the FM device. -/
namespace Mdmi.Fm
open Mdmi.Synth (Ev busOwned busOk)

theorem busOwned_append (b : Bool) (evs out : List Ev) :
    busOwned b (evs ++ out) = busOwned (busOwned b out) evs := by
  induction evs with
  | nil => rfl
  | cons e l ih => cases e <;> simp only [List.cons_append, busOwned] <;> exact ih

theorem writesOwned_append {b : Bool} {evs out : List Ev} (h : writesOwned b out)
    (k : busOk (busOwned b out) evs) : writesOwned b (evs ++ out) := by
  induction evs with
  | nil => exact h
  | cons e l ih =>
    cases e <;> simp only [List.cons_append, writesOwned, busOk] at *
    · rw [busOwned_append]; exact ⟨k.1, ih k.2⟩
    all_goals first | exact ih k.2 | exact ih k

/-- Bus invariant with the sample player. -/
structure WInv (b : Bool) (s : Synth.St) : Prop where
  owned : busOwned b s.out = s.busTaken
  held : s.dacEnable = false → s.busTaken = true
  ok : writesOwned b s.out

theorem WInv.step {b : Bool} {s : Synth.St} (h : WInv b s) (op : Synth.Op) : WInv b (Synth.step s op) := by
  obtain ⟨⟨evs, h1, h2, h3⟩, h4, -⟩ := Synth.step_rel s op h.held
  refine ⟨?_, h4, ?_⟩
  · rw [h1, busOwned_append, h.owned]; exact h3
  · rw [h1]; exact writesOwned_append h.ok (by rw [h.owned]; exact h2)

theorem WInv.emit {b : Bool} {s : Synth.St} (h : WInv b s) (hd : s.dacEnable = true) (e : Ev) (he : ∀ p r d, e ≠ .ym p r d)
    (hb : busOwned b (e :: s.out) = false) : WInv b (Synth.emit { s with busTaken := false } e) := by
  refine ⟨hb, fun k => ?_, ?_⟩
  · simp only [Synth.emit] at k; rw [hd] at k; simp at k
  · have := h.ok
    cases e <;> first | exact this | exact absurd rfl (he _ _ _)

/-- Ownership bookkeeping alone. -/
def Own (b : Bool) (s : Synth.St) : Prop := busOwned b s.out = s.busTaken ∧ writesOwned b s.out

theorem Own.init {b : Bool} {s : Synth.St} (h : Own b s) (p : Synth.FmPreset) : WInv b (Synth.init s p) := by
  obtain ⟨⟨evs, h1, h2, h3⟩, h4, -⟩ := Synth.init_rel s p
  refine ⟨?_, fun _ => h4, ?_⟩
  · rw [h1, busOwned_append, h.1]; exact h3
  · rw [h1]; exact writesOwned_append h.2 (by rw [h.1]; exact h2)

theorem Own.enable {b : Bool} {s : St} (h : Own b s.synth) : Own b (sramEnable s).synth := ⟨rfl, h.2⟩

theorem Own.disable {b : Bool} {s : St} (h : Own b s.synth) : Own b (sramDisable s).synth := by
  unfold sramDisable; split
  · exact ⟨rfl, h.2⟩
  · exact h

theorem Own.load {b : Bool} {env : Env} {s : St} (h : Own b s.synth) : Own b (sramLoad env s).synth := by
  unfold sramLoad; split
  · exact h
  · simp only
    have k := (loadLoop (List.range 128) (sramEnable s, 0)).1
    generalize (List.range 128).foldl loadOne (sramEnable s, 0) = x at *
    have e : Own b x.1.synth := by rw [k]; exact Own.enable h
    split
    · exact Own.disable (s := { x.1 with log := Msg.loaded x.2 :: x.1.log }) e
    · exact Own.disable e

theorem reset_w {b : Bool} {env : Env} (he : env.Ok) {s : St} (h : Own b s.synth) : WInv b (reset env s).synth := by
  obtain ⟨p, hp, -⟩ := presetOf he (n := 0) (by omega)
  simp only [reset, hp, call, Synth.step]
  refine Own.init (Own.load ?_) p
  exact h

/-- Calls outside the preset memory, and samples only with the DAC enabled, respect the bus. -/
theorem WInv.fm {b : Bool} {env : Env} (he : env.Ok) {s : St} (h : WInv b s.synth) {op : Op}
    (hw : ∀ n, ¬ op.writes n) (hd : op.pcm → s.synth.dacEnable = true) : WInv b (Fm.step env s op).synth := by
  have ub : WInv b (ub s).synth := ⟨h.owned, h.held, h.ok⟩
  have cl : ∀ {t : St} (o : Synth.Op), WInv b t.synth → WInv b (call t o).synth := fun o k => k.step o
  have g : ∀ (c : Nat) (k : St → St), WInv b (k s).synth → WInv b (guardCh s c k).synth := by
    intro c k hk; unfold guardCh; split
    · exact hk
    · exact ub
  cases op with
  | reset => exact reset_w he ⟨h.owned, h.ok⟩
  | store n p => exact absurd rfl (hw n)
  | clear n => exact absurd rfl (hw n)
  | storeFrom c n => exact absurd rfl (hw n)
  | noteOn c p x v =>
    simp only [Fm.step, noteOn]
    split
    · exact h
    · apply g; split
      · split
        · exact ub
        · simp only [call, setSynthPitch]; exact (((h.step _).step _).step _).step _
      · simp only [call, setSynthPitch]; exact ((h.step _).step _).step _
  | noteOff c => exact cl _ h
  | allNotesOff c => exact cl _ h
  | volume c v => exact g _ _ (cl _ h)
  | program c n =>
    simp only [Fm.step, program]
    split
    · split
      · exact cl _ h
      · split
        · exact cl _ h
        · exact ub
    · exact ub
  | percussive c v => exact g _ _ h
  | pan c x =>
    apply g; dsimp only; split
    · exact cl _ h
    · split <;> exact cl _ h
  | pitch c p x => exact g _ _ (cl _ h)
  | smNoteOn o p x v =>
    simp only [Fm.step, smNoteOn, smPitch]; split
    · exact cl _ (cl _ h)
    · exact cl _ ub
  | smPitch o p x =>
    simp only [Fm.step, smPitch]; split
    · exact cl _ h
    · exact ub
  | smReset => exact h
  | dacNoteOn p =>
    simp only [Fm.step, dacNoteOn]; split
    · split
      · exact h.emit (hd trivial) _ (by simp) rfl
      · exact h
    · exact ub
  | dacNoteOff => exact h.emit (hd trivial) _ (by simp) rfl
  | synth o => exact cl _ h

theorem boot_w {env : Env} (he : env.Ok) (b : Bool) (m : Sram.Mem) : WInv b (boot env b m).synth :=
  reset_w he ⟨rfl, trivial⟩

/-- Storing or clearing a preset inverts ownership. -/
theorem writes_inverts {env : Env} (hs : env.sram = true) {s : St} {op : Op} (hl : op.Legal) {n : Nat} (hw : op.writes n) :
    (Fm.step env s op).synth.busTaken = !s.synth.busTaken ∧ (Fm.step env s op).synth.dacEnable = s.synth.dacEnable := by
  have sv : ∀ (t : St) (n : Nat) (p : Synth.FmPreset), (sramSave env t n p).synth.busTaken = !t.synth.busTaken ∧
      (sramSave env t n p).synth.dacEnable = t.synth.dacEnable := by
    intro t n p
    simp only [sramSave, hs, Bool.true_eq_false, if_false, sramDisable, sramEnable, Synth.emit]
    by_cases h : t.synth.busTaken = true <;> simp [h]
  have cl : ∀ (t : St) (n : Nat), (sramClear env t n).synth.busTaken = !t.synth.busTaken ∧
      (sramClear env t n).synth.dacEnable = t.synth.dacEnable := by
    intro t n
    simp only [sramClear, hs, Bool.true_eq_false, if_false, sramDisable, sramEnable, Synth.emit]
    by_cases h : t.synth.busTaken = true <;> simp [h]
  cases op <;> try exact False.elim hw
  case store k p =>
    simp only [Fm.step, storePreset, hl.1, if_true]; exact sv { s with user := _ } _ _
  case clear k =>
    have hn : k < 128 := hl
    simp only [Fm.step, clearPreset, hn, if_true]; exact cl { s with user := _ } _
  case storeFrom c k =>
    simp only [Fm.step, storePresetFromChannel, guardCh, hl.1, storePreset, hl.2, if_true]
    exact sv { s with user := _ } _ _

theorem writes_own {b : Bool} {env : Env} (hs : env.sram = true) {s : St} {op : Op} (hl : op.Legal) {n : Nat}
    (hw : op.writes n) (h : Own b s.synth) : Own b (Fm.step env s op).synth := by
  have sv : ∀ (t : St) (n : Nat) (p : Synth.FmPreset), Own b t.synth → Own b (sramSave env t n p).synth := by
    intro t n p ht
    simp only [sramSave, hs, Bool.true_eq_false, if_false]
    exact Own.disable (s := { sramEnable t with mem := _ }) (Own.enable ht)
  have cl : ∀ (t : St) (n : Nat), Own b t.synth → Own b (sramClear env t n).synth := by
    intro t n ht
    simp only [sramClear, hs, Bool.true_eq_false, if_false]
    exact Own.disable (s := { sramEnable t with mem := _ }) (Own.enable ht)
  cases op <;> try exact False.elim hw
  case store k p => simp only [Fm.step, storePreset, hl.1, if_true]; exact sv _ _ _ h
  case clear k =>
    have hn : k < 128 := hl
    simp only [Fm.step, clearPreset, hn, if_true]; exact cl _ _ h
  case storeFrom c k =>
    simp only [Fm.step, storePresetFromChannel, guardCh, hl.1, storePreset, hl.2, if_true]; exact sv _ _ _ h

end Mdmi.Fm
