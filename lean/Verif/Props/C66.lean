import Verif.Proofs.UiPanel
import Verif.Props.C65
/-! C66: the parameter panel shows the synthesiser's parameters. -/
namespace Mdmi.Props
open Mdmi Mdmi.Ui Mdmi.UiSpec

/-- Specification: a number below 1000, right aligned in three cells. -/
def number3 (n : Nat) : Text :=
  if n < 10 then [' ', ' ', Nat.digitChar n]
  else if n < 100 then [' ', Nat.digitChar (n / 10), Nat.digitChar (n % 10)]
  else [Nat.digitChar (n / 100), Nat.digitChar (n / 10 % 10), Nat.digitChar (n % 10)]

/-- A number below 100, left aligned in two cells. -/
def number2 (n : Nat) : Text :=
  if n < 10 then [Nat.digitChar n, ' '] else [Nat.digitChar (n / 10), Nat.digitChar (n % 10)]

/-- Speaker selection: bit 1 is left, bit 0 right. -/
def panName (n : Nat) : Text :=
  if n = 0 then "Mute".toList else if n = 1 then "R   ".toList else if n = 2 then "L   ".toList else "LR  ".toList

/-- Low frequency oscillator: off, or one of eight speeds. -/
def lfoName (enabled speed : Nat) : Text :=
  if enabled = 0 then "Off  ".toList
  else (["4Hz  ", "5.5Hz", "6Hz  ", "6.5Hz", "7Hz  ", "10Hz ", "48Hz ", "72Hz "].map String.toList).getD speed []

/-- Frequency modulation depth. -/
def fmsName (n : Nat) : Text :=
  (["0%  ", "3%  ", "6%  ", "10% ", "14% ", "20% ", "40% ", "80% "].map String.toList).getD n []

/-- Amplitude modulation depth. -/
def amsName (n : Nat) : Text := (["0dB ", "1dB ", "6dB ", "12dB"].map String.toList).getD n []

/-- The values of an operator, from the top row down. -/
def operatorRows (o : Synth.Operator) : List Nat :=
  [o.totalLevel, o.attackRate, o.multiple, o.detune, o.rateScaling, o.am, o.decayRate, o.sustainRate, o.sustainLevel,
    o.releaseRate, o.ssgEg]

/-- The screen shows MIDI channel `c`, FM channel `i` and its parameters. -/
structure PanelShows (scr : Screen) (diagram : Option Nat) (c i : Nat) (sy : Synth.St) : Prop where
  midi : Reads scr 22 3 (number2 (c + 1))
  fm : Reads scr 29 3 (number2 (i + 1))
  algorithm : Reads scr 23 5 [Nat.digitChar (sy.ch i).algorithm]
  feedback : Reads scr 29 5 [Nat.digitChar (sy.ch i).feedback]
  pan : Reads scr 23 6 (panName (sy.ch i).stereo)
  lfo : Reads scr 23 7 (lfoName sy.lfoEnable sy.lfoFrequency)
  fms : Reads scr 23 8 (fmsName (sy.ch i).fms)
  ams : Reads scr 31 8 (amsName (sy.ch i).ams)
  operator : ∀ o, o < 4 → ∀ f, f < 11 →
    Reads scr (23 + 4 * o) (11 + f) (number3 ((operatorRows ((sy.ch i).ops.get o)).getD f 0))
  picture : diagram = some (sy.ch i).algorithm

/-- The display is told of the changes a stretch makes, and the panel is neither opened nor closed. -/
def Told (env : Ui.Env) (s : Ui.Sys) (evs : List Ui.Ev) : Prop :=
  ∀ pre op notes suf, evs = pre ++ Ui.Ev.midi op notes :: suf →
    Faithful env (Ui.run env s pre).m op notes ∧ ¬ opens op

/-- The first FM voice playing MIDI channel `c`. -/
def FirstOn (m : Midi.St) (c i : Nat) : Prop := i < 6 ∧ (m.dev i).midiChannel = c ∧ ∀ j, j < i → (m.dev j).midiChannel ≠ c

/-- **C66**.  After controller 83 opened the panel on a MIDI channel, every frame leaves it showing the parameters of the
first FM voice of the channel. -/
def C66_statement : Prop :=
  ∀ (env : Ui.Env) (t : Bool) (mem : Sram.Mem) (evs tail : List Ui.Ev) (c v : Nat) (notes : List (Nat × Note)) (f : Frame)
    (i : Nat), env.midi.Ok → Ordinary (evs ++ [.midi (.cc c 83 v) notes] ++ tail ++ [.frame f]) → 64 ≤ v →
    (Ui.run env (Ui.boot env t mem) evs).m.cfg.disableNonGm = false →
    Told env (Ui.run env (Ui.boot env t mem) (evs ++ [.midi (.cc c 83 v) notes])) tail →
    let s := Ui.run env (Ui.boot env t mem) (evs ++ [.midi (.cc c 83 v) notes] ++ tail ++ [.frame f])
    FirstOn s.m c i → PanelShows s.ui.scr s.ui.diagram c i s.m.fm.synth

private theorem run_append (env : Ui.Env) (s : Ui.Sys) (a b : List Ui.Ev) :
    Ui.run env s (a ++ b) = Ui.run env (Ui.run env s a) b := by unfold Ui.run; rw [List.foldl_append]

private theorem told_run {env : Ui.Env} (he : env.midi.Ok) {b tame : Bool} {c : Nat} (evs : List Ui.Ev) : ∀ {s : Ui.Sys},
    Fine env b tame s → (∀ e ∈ evs, e.Fits b tame) → Told env s evs → (∀ op ∈ calls evs, op ≠ .reset) →
    Panel c s.m.fm.synth s.ui → Panel c (Ui.run env s evs).m.fm.synth (Ui.run env s evs).ui := by
  induction evs with
  | nil => intro s _ _ _ _ h; exact h
  | cons e evs ih =>
    intro s hs hf ht hr h
    have q : Told env (Ui.step env s e) evs := fun pre op notes suf g => ht (e :: pre) op notes suf (by rw [g]; rfl)
    have hf' : ∀ e ∈ evs, e.Fits b tame := fun e h => hf e (by simp [h])
    have fi := step_fine he hs (hf e (by simp))
    cases e with
    | midi op notes =>
      have hr' : ∀ op ∈ calls evs, op ≠ .reset := fun o h => hr o (by simp [calls, h])
      have k := ht [] op notes evs rfl
      exact ih fi hf' q hr' (step_panel (hf (.midi op notes) (by simp)).1 k.2 (hr op (by simp [calls])) k.1 h)
    | frame f =>
      have hr' : ∀ op ∈ calls evs, op ≠ .reset := fun o h => hr o (by simpa [calls] using h)
      exact ih fi hf' q hr' (update_panel hs.fit hs.ui (hf (.frame f) (by simp)) h).1

private theorem first_chan {env : Ui.Env} {b tame : Bool} {s : Ui.Sys} (hs : Fine env b tame s) {c i : Nat}
    (h : FirstOn s.m c i) : fmChanFor s.m.dev c = some i := by
  obtain ⟨h1, h2, h3⟩ := h
  have n : (s.m.dev i).num = i := by
    rw [(hs.ok.dev i (by omega)).num]
    unfold Midi.chipNum
    rw [if_pos (by omega)]
  have fd : ((List.range 6).find? fun j => (s.m.dev j).midiChannel == c) = some i := by
    rw [List.find?_range_eq_some]
    exact ⟨by simpa using h2, by simpa using h1, fun j hj => by simpa using h3 j hj⟩
  unfold fmChanFor
  rw [fd, Option.map_some, n]

private theorem text3 : ∀ n : Fin 128, decRight 3 n.val = number3 n.val := by decide +kernel
private theorem text2 : ∀ n : Fin 16, fmText 0 n.val = some (number2 (n.val + 1)) ∧
    fmText 1 n.val = some (number2 (n.val + 1)) := by decide +kernel
private theorem text1 : ∀ n : Fin 8, fmText 2 n.val = some [Nat.digitChar n.val] ∧
    fmText 3 n.val = some [Nat.digitChar n.val] ∧ fmText 6 n.val = some (fmsName n.val) := by decide +kernel
private theorem text4 : ∀ n : Fin 4, fmText 4 n.val = some (panName n.val) ∧ fmText 7 n.val = some (amsName n.val) := by
  decide +kernel
private theorem text5 : ∀ n : Fin 8, fmText 5 (n.val + 1) = some (lfoName 1 n.val) := by decide +kernel
private theorem text5' : ∀ n : Nat, fmText 5 0 = some (lfoName 0 n) := by intro n; rfl

private theorem opRow {f : Nat} (hf : f < 11) (o : Synth.Operator) : opValue f o = (operatorRows o).getD f 0 := by
  match f, hf with
  | 0, _ | 1, _ | 2, _ | 3, _ | 4, _ | 5, _ | 6, _ | 7, _ | 8, _ | 9, _ | 10, _ => rfl

private theorem shows_of {c i : Nat} {sy : Synth.St} {s : Ui.St} (hc : c < 16) (hi : i < 6) (hs : Synth.Safe sy)
    (hm : s.panelMidi = c) (hf : s.panelFm = i) (d : Drawn s) (k : Current sy s) : PanelShows s.scr s.diagram c i sy := by
  have ch := hs.ok i hi
  have fld : ∀ f, f < 8 → ∀ t, fmText f (fmValue f c i (sy.ch i) sy.lfoEnable sy.lfoFrequency) = some t →
      Reads s.scr (19 + (fmPos f).1) (3 + (fmPos f).2) t := by
    intro f hf' t ht
    obtain ⟨u, h1, h2⟩ := d.field f hf'
    rw [k.field f hf', hm, hf, ht] at h1
    cases h1
    exact h2
  have lf : fmText 5 (if sy.lfoEnable = 0 then 0 else sy.lfoFrequency + 1) =
      some (lfoName sy.lfoEnable sy.lfoFrequency) := by
    have e := text5 ⟨_, hs.lfo.2⟩
    split
    · rename_i z; rw [z]; exact text5' _
    · rename_i z
      rw [show sy.lfoEnable = 1 by have := hs.lfo.1; omega]
      exact e
  refine ⟨fld 0 (by omega) _ (text2 ⟨c, hc⟩).1, fld 1 (by omega) _ (text2 ⟨i, by omega⟩).2,
    fld 2 (by omega) _ (text1 ⟨_, ch.algorithm⟩).1, fld 3 (by omega) _ (text1 ⟨_, ch.feedback⟩).2.1,
    fld 4 (by omega) _ (text4 ⟨_, ch.stereo⟩).1, fld 5 (by omega) _ lf, fld 6 (by omega) _ (text1 ⟨_, ch.fms⟩).2.2,
    fld 7 (by omega) _ (text4 ⟨_, ch.ams⟩).2, fun o ho f hf' => ?_, ?_⟩
  · have h := (d.op f hf' o ho).1
    have ok : ((sy.ch i).ops.get o).Ok := by
      obtain ⟨a, b, c, e⟩ := ch.ops
      unfold Synth.Ops4.get
      split <;> assumption
    rw [k.op f hf' o ho, hf, text3 ⟨_, opValue_lt ok⟩, Nat.mul_comm] at h
    rw [← opRow hf']
    exact h
  · rw [d.diagram, k.diagram, hf]

/-- **C66** (partial).  After controller 83 opened the panel on a MIDI channel, every frame leaves it showing the
parameters of the first FM voice of the channel.  Missing: a system reset after the panel was opened, of which the display
is not told. -/
theorem C66_panel_is_current_partial {env : Ui.Env} (he : env.midi.Ok) {t : Bool} {mem : Sram.Mem} {evs tail : List Ui.Ev}
    {c v : Nat} {notes : List (Nat × Note)} {f : Frame} {i : Nat}
    (ho : Ordinary (evs ++ [.midi (.cc c 83 v) notes] ++ tail ++ [.frame f])) (hv : 64 ≤ v)
    (hg : (Ui.run env (Ui.boot env t mem) evs).m.cfg.disableNonGm = false)
    (ht : Told env (Ui.run env (Ui.boot env t mem) (evs ++ [.midi (.cc c 83 v) notes])) tail)
    (hr : ∀ op ∈ calls tail, op ≠ .reset) :
    let s := Ui.run env (Ui.boot env t mem) (evs ++ [.midi (.cc c 83 v) notes] ++ tail ++ [.frame f])
    FirstOn s.m c i → PanelShows s.ui.scr s.ui.diagram c i s.m.fm.synth := by
  intro s hi
  obtain ⟨b, tame, hf⟩ := fits_of_ordinary ho
  have f1 := run_fine he evs (boot_fine he b tame t mem) fun e he => hf e (by simp [he])
  have wf : (Midi.Op.cc c 83 v).Wf := ho.wf (.midi (.cc c 83 v) notes) (by simp)
  have hf2 : (Ui.Ev.midi (.cc c 83 v) notes).Fits b tame := hf _ (by simp)
  have hf3 : (Ui.Ev.frame f).Fits b tame := hf _ (by simp)
  have hf4 : ∀ e ∈ tail, e.Fits b tame := fun e he => hf e (by simp [he])
  revert s
  rw [run_append, run_append, run_append]
  rw [run_append] at ht
  generalize Ui.run env (Ui.boot env t mem) evs = u at *
  intro s hi
  have f2 := step_fine he f1 hf2
  have p2 := open_panel (env := env) (s := u) (c := c) (notes := notes) wf hv hg
  have e2 : Ui.run env u [.midi (.cc c 83 v) notes] = Ui.step env u (.midi (.cc c 83 v) notes) := rfl
  rw [← e2] at f2 p2
  have f3 := run_fine he tail f2 hf4
  have p3 := told_run he tail f2 hf4 ht hr p2
  have w : s = Ui.step env (Ui.run env (Ui.run env u [.midi (.cc c 83 v) notes]) tail) (.frame f) := rfl
  generalize Ui.run env (Ui.run env u [.midi (.cc c 83 v) notes]) tail = z at *
  have fi := step_fine he f3 hf3
  have r := update_panel (env := env) f3.fit f3.ui hf3 p3
  rw [← w] at fi
  have q := r.2 i (first_chan f3 (by rw [w] at hi; exact hi))
  rw [w]
  exact shows_of wf.1 hi.1 f3.fit.synth r.1.midi q.1 q.2.1 q.2.2

/-- Whatever a message does, there is a list of notifications it may make. -/
theorem C66_messages_notify {env : Ui.Env} (he : env.midi.Ok) {t : Bool} {mem : Sram.Mem} {evs : List Ui.Ev} {op : Midi.Op}
    (ho : Ordinary (evs ++ [.midi op []])) :
    ∃ notes, Faithful env (Ui.run env (Ui.boot env t mem) evs).m op notes := by
  obtain ⟨b, tame, hf⟩ := fits_of_ordinary ho
  have f1 := run_fine he evs (boot_fine he b tame t mem) fun e he => hf e (by simp [he])
  obtain ⟨hw, _, hd, hb⟩ := hf (.midi op []) (by simp)
  obtain ⟨l, h1, h2⟩ := Midi.step_fmBy he f1.ok hw hd hb
  exact ⟨_, l, h1, h2, rfl⟩

/-! ### System reset -/

/-- The voices agree with channels fresh from a reset. -/
private def Settled (s : Midi.St) : Prop :=
  ∀ i, i < 13 → (s.dev i).volume = 127 ∧ (s.dev i).pan = 64 ∧ (s.dev i).program = 0

private theorem updateDev_quiet {env : Midi.Env} {s : Midi.St} {i : Nat} (hc : (s.dev i).midiChannel < 16)
    (h1 : (s.dev i).volume = (s.chan (s.dev i).midiChannel).volume) (h2 : (s.dev i).pan = (s.chan (s.dev i).midiChannel).pan)
    (h3 : (s.dev i).program = (s.chan (s.dev i).midiChannel).program)
    (h4 : (s.dev i).pitchBend = (s.chan (s.dev i).midiChannel).pitchBend) :
    Midi.updateDev env s i = Midi.fmCall env s (.percussive (s.dev i).num ((s.dev i).midiChannel == 9)) := by
  unfold Midi.updateDev
  simp only [if_pos hc]
  generalize hp : Midi.fmCall env s (.percussive (s.dev i).num ((s.dev i).midiChannel == 9)) = u
  have ed : u.dev = s.dev := by rw [← hp]; rfl
  have ec : u.chan = s.chan := by rw [← hp]; rfl
  have a1 : Midi.updateVolume env u (s.dev i).midiChannel i = u := by
    unfold Midi.updateVolume; rw [if_neg (by rw [ed, ec]; exact fun k => k h1)]
  have a2 : Midi.updatePan env u (s.dev i).midiChannel i = u := by
    unfold Midi.updatePan; rw [if_neg (by rw [ed, ec]; exact fun k => k h2)]
  have a3 : Midi.updateProgram env u (s.dev i).midiChannel i = u := by
    unfold Midi.updateProgram; rw [if_neg (by rw [ed, ec]; exact fun k => k h3)]
  have a4 : Midi.updatePitchBend env u (s.dev i).midiChannel i = u := by
    unfold Midi.updatePitchBend; rw [if_neg (by rw [ed, ec]; exact fun k => k h4)]
  rw [a1, a2, a3, a4]

private theorem initDev_quiet {env : Midi.Env} {s : Midi.St} {i : Nat} (hi : i < 13) (hs : Settled s)
    (hc : ∀ c, c < 16 → s.chan c = Midi.freshChan) :
    ∃ n b, n < 6 ∧ (Midi.initDev env s i).fm = Fm.step env.fm s.fm (.percussive n b) ∧
      (Midi.initDev env s i).chan = s.chan ∧ Settled (Midi.initDev env s i) := by
  obtain ⟨h1, h2, h3⟩ := hs i hi
  unfold Midi.initDev
  extract_lets u
  obtain ⟨d, ed, em, ev, ep, er, eb, en⟩ : ∃ d, u.dev = upd s.dev i d ∧ d.midiChannel = i ∧ d.volume = 127 ∧
      d.pan = 64 ∧ d.program = 0 ∧ d.pitchBend = 0x2000 ∧ d.num < 6 := by
    refine ⟨_, rfl, rfl, ?_, ?_, ?_, rfl, ?_⟩
    · show Midi.Dev.volume (ite _ _ _) = _
      split
      · exact h1
      · split <;> exact h1
    · show Midi.Dev.pan (ite _ _ _) = _
      split
      · exact h2
      · split <;> exact h2
    · show Midi.Dev.program (ite _ _ _) = _
      split
      · exact h3
      · split <;> exact h3
    · show Midi.Dev.num (ite _ _ _) < _
      split
      · simp only; omega
      · split <;> (simp only; omega)
  have ei : u.dev i = d := by rw [ed, Psg.upd_same]
  have ec : u.chan i = Midi.freshChan := hc i (by omega)
  have q := updateDev_quiet (env := env) (s := u) (i := i) (by rw [ei, em]; omega)
    (by rw [ei, em, ec, ev]; rfl) (by rw [ei, em, ec, ep]; rfl) (by rw [ei, em, ec, er]; rfl) (by rw [ei, em, ec, eb]; rfl)
  rw [q]
  refine ⟨_, _, by rw [ei]; exact en, rfl, rfl, fun j hj => ?_⟩
  show (u.dev j).volume = 127 ∧ (u.dev j).pan = 64 ∧ (u.dev j).program = 0
  rw [ed]
  by_cases hij : j = i
  · rw [hij, Psg.upd_same]; exact ⟨ev, ep, er⟩
  · rw [Psg.upd_other _ _ _ _ hij]; exact hs j hj

private theorem run_snoc (env : Fm.Env) (s : Fm.St) (l : List Fm.Op) (o : Fm.Op) :
    Fm.run env s (l ++ [o]) = Fm.step env (Fm.run env s l) o := by simp [Fm.run]

private theorem told_silent (env : Fm.Env) (l : List Fm.Op) : ∀ s : Fm.St,
    (∀ o ∈ l, ∀ s, Fm.notified env s o = []) → Fm.told env s l = [] := by
  induction l with
  | nil => exact fun _ _ => rfl
  | cons o l ih =>
    intro s h
    rw [Fm.told, h o (by simp), ih _ fun o ho => h o (by simp [ho])]; rfl

private theorem apply_fm (s : Midi.St) : (Midi.applyDynamicMode s).fm = s.fm := rfl
private theorem channels_fm (env : Midi.Env) (s : Midi.St) : (Midi.resetChannels env s).fm = ((List.range 13).foldl
    (Midi.initDev env) { s with chan := fun c => if c < 16 then Midi.freshChan else s.chan c }).fm := by
  unfold Midi.resetChannels
  exact apply_fm _

/-- A system reset tells the display nothing when no voice has another program, volume or pan than after start-up. -/
private theorem reset_silent {env : Ui.Env} {m : Midi.St} (h : Settled m) : Faithful env m .reset [] := by
  have key : ∀ n, n ≤ 13 → ∀ s : Midi.St, Settled s → (∀ c, c < 16 → s.chan c = Midi.freshChan) →
      ∃ l : List Fm.Op, (∀ o ∈ l, ∃ k b, k < 6 ∧ o = .percussive k b) ∧
        ((List.range n).foldl (Midi.initDev env.midi) s).fm = Fm.run env.midi.fm s.fm l ∧
        Settled ((List.range n).foldl (Midi.initDev env.midi) s) ∧
        ((List.range n).foldl (Midi.initDev env.midi) s).chan = s.chan := by
    intro n
    induction n with
    | zero => exact fun _ s h1 _ => ⟨[], by simp, rfl, h1, rfl⟩
    | succ n ih =>
      intro hn s h1 h2
      obtain ⟨l, a1, a2, a3, a4⟩ := ih (by omega) s h1 h2
      obtain ⟨k, b, b1, b2, b3, b4⟩ := initDev_quiet (env := env.midi) (i := n) (by omega) a3 (by rw [a4]; exact h2)
      rw [List.range_succ, List.foldl_append]
      refine ⟨l ++ [.percussive k b], ?_, ?_, b4, b3.trans a4⟩
      · intro o ho
        rcases List.mem_append.1 ho with ho | ho
        · exact a1 o ho
        · exact ⟨k, b, b1, by simpa using ho⟩
      · rw [run_snoc, ← a2]; exact b2
  obtain ⟨u, e1, e2, e3, e4⟩ : ∃ u : Midi.St, Settled u ∧ (∀ c, c < 16 → u.chan c = Midi.freshChan) ∧
      u.fm = Fm.run env.midi.fm m.fm [.reset, .smReset] ∧
      (Midi.step env.midi m .reset).fm = ((List.range 13).foldl (Midi.initDev env.midi) u).fm :=
    ⟨{ Midi.fmCall env.midi (Midi.fmCall env.midi (Midi.psgCall env.midi m .reset) .reset) .smReset with
        cfg := ⟨env.midi.mode, false, false, false⟩, dynamic := env.midi.mode == .dynamic,
        chan := fun c => if c < 16 then Midi.freshChan else m.chan c },
      h, fun c hc => if_pos hc, rfl, by
        show (Midi.reset env.midi m).fm = _
        unfold Midi.reset
        rw [channels_fm]
        exact congrArg (fun (u : Midi.St) => ((List.range 13).foldl (Midi.initDev env.midi) u).fm) rfl⟩
  obtain ⟨l, a1, a2, _, _⟩ := key 13 (Nat.le_refl _) u e1 e2
  refine ⟨[.reset, .smReset] ++ l, ?_, ?_, ?_⟩
  · intro o ho
    rcases List.mem_append.1 ho with ho | ho
    · simp only [List.mem_cons, List.not_mem_nil, or_false] at ho
      rcases ho with e | e <;> subst e <;> exact ⟨rfl, trivial⟩
    · obtain ⟨k, b, hk, e⟩ := a1 o ho
      subst e
      exact ⟨trivial, hk⟩
  · rw [e4, a2, e3]; simp [Fm.run]
  · symm
    apply told_silent
    intro o ho s
    rcases List.mem_append.1 ho with ho | ho
    · simp only [List.mem_cons, List.not_mem_nil, or_false] at ho
      rcases ho with e | e <;> subst e <;> rfl
    · obtain ⟨k, b, hk, e⟩ := a1 o ho
      subst e
      rfl

/-- The algorithm of channel 1 is changed, the panel opened, and after a frame the system reset. -/
def resetBehindPanel : List Ui.Ev := [Ex.msg (.cc 0 14 80)] ++ [.midi (.cc 0 83 127) []] ++ [Ex.frame, Ex.msg .reset] ++ [Ex.frame]

private def settledB (s : Midi.St) : Bool :=
  (List.range 13).all fun i => (s.dev i).volume == 127 && (s.dev i).pan == 64 && (s.dev i).program == 0

private theorem settledB_iff {s : Midi.St} (h : settledB s = true) : Settled s := by
  intro i hi
  have := List.all_eq_true.1 h i (by simpa using hi)
  simp only [Bool.and_eq_true, beq_iff_eq] at this
  exact ⟨this.1.1, this.1.2, this.2⟩

set_option maxRecDepth 20000 in
private theorem before_reset : settledB (Ui.run (Ex.ui .static) (Ui.run (Ex.ui .static) (Ui.boot (Ex.ui .static) true Ex.mem)
    ([Ex.msg (.cc 0 14 80)] ++ [.midi (.cc 0 83 127) []])) [Ex.frame]).m = true ∧
    (Ui.run (Ex.ui .static) (Ui.boot (Ex.ui .static) true Ex.mem) [Ex.msg (.cc 0 14 80)]).m.cfg.disableNonGm = false := by
  decide +kernel

set_option maxRecDepth 20000 in
/-- The panel still shows algorithm 5; the synthesiser is back at the first preset's. -/
theorem C66_reset_leaves_the_panel :
    let s := Ex.shows .static resetBehindPanel
    (s.m.dev 0).midiChannel = 0 ∧ s.ui.scr 23 5 = '5' ∧ (s.m.fm.synth.ch 0).algorithm = 0 := by
  decide +kernel

theorem C66_statement_violated : ¬C66_statement := by
  intro h
  have o : Ordinary resetBehindPanel := by
    have e : resetBehindPanel = [Ex.msg (.cc 0 14 80), .midi (.cc 0 83 127) [], Ex.frame, Ex.msg .reset, Ex.frame] := rfl
    rw [e]
    refine ⟨?_, .inl ?_, .inl ?_⟩
    · simp [EvWf, Ex.msg, Ex.frame, Midi.Op.Wf]
    · simp [calls, Ex.msg, Ex.frame, Midi.Op.enablesDac]
    · simp [calls, Ex.msg, Ex.frame, portamentoOn]
  have a := C66_reset_leaves_the_panel
  have k := h (Ex.ui .static) true Ex.mem [Ex.msg (.cc 0 14 80)] [Ex.frame, Ex.msg .reset] 0 127 [] ⟨1, 0, .serial, none⟩ 0
    (Ex.ui_ok _) o (by omega) before_reset.2 (by
      intro pre op notes suf e
      match pre with
      | [] => simp [Ex.frame] at e
      | [x] =>
        simp only [List.cons_append, List.nil_append, List.cons.injEq, Ex.msg, Ui.Ev.midi.injEq] at e
        obtain ⟨rfl, ⟨rfl, rfl⟩, _⟩ := e
        exact ⟨reset_silent (settledB_iff before_reset.1), id⟩
      | x :: y :: pre => simp at e)
  have e : resetBehindPanel =
    [Ex.msg (.cc 0 14 80)] ++ [.midi (.cc 0 83 127) []] ++ [Ex.frame, Ex.msg .reset] ++ [Ex.frame] := rfl
  have e' : Ex.frame = Ui.Ev.frame ⟨1, 0, .serial, none⟩ := rfl
  rw [← e', ← e] at k
  unfold Ex.shows at a
  revert k a
  generalize Ui.run (Ex.ui .static) (Ui.boot (Ex.ui .static) true Ex.mem) resetBehindPanel = s
  intro a k
  have k := (k ⟨by omega, a.1, by omega⟩).algorithm 0 (by simp)
  rw [a.2.2] at k
  have a2 : s.ui.scr (23 + 0) 5 = '5' := a.2.1
  rw [a2] at k
  exact absurd k (by decide)

set_option maxRecDepth 20000 in
-- non-vacuity: the panel of channel 1 with the second preset, then with another feedback
example : let s := Ex.shows .static [.midi (.program 0 9) [(0, .channel)], .midi (.cc 0 83 127) [], Ex.frame,
      .midi (.cc 0 15 112) [(0, .channel)], Ex.frame]
    (s.m.dev 0).midiChannel = 0 ∧ s.m.cfg.disableNonGm = false ∧ s.ui.scr 22 3 = '1' ∧ s.ui.scr 23 5 = '1' ∧
    s.ui.scr 29 5 = '7' ∧ (s.m.fm.synth.ch 0).feedback = 7 ∧ s.ui.diagram = some 1 := by
  decide +kernel

end Mdmi.Props
