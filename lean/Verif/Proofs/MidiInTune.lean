import Verif.Proofs.MidiRetune
import Verif.Proofs.MidiCache
import Verif.Proofs.MidiFmRun
import Verif.Proofs.MidiBend
import Verif.Proofs.MidiTune
/-!
# Sounding FM voices stay in tune

The FM device remembers a pitch per channel, and the chip has the frequency of that pitch (first part).  While a voice
sounds, that pitch is the one its note, bend, bend range and fine tune ask for (second part).
-/
namespace Mdmi.Fm
open Mdmi.Synth (chipChannel Steps Noise)

variable {env : Env}

/-- The chip has the frequency of the pitch the FM device remembers, if it remembers one. -/
def FreqOf (env : Env) (i : Nat) (f : St) : Prop :=
  (f.ch i).pitch = 0 ∨ (chipChannel f.synth.out i).freq =
    (pitchToOctave (f.ch i).pitch % 8, freqNum env.pal (f.ch i).pitch (f.ch i).cents % 2048)

/-- Calls that keep the two together. -/
def Op.tracked : Op → Prop
  | .reset | .synth (.pitch ..) | .synth (.directWrite ..) => False
  | _ => True

theorem FreqOf.of {i : Nat} {f g : St} (h : FreqOf env i f) (h1 : (g.ch i).pitch = (f.ch i).pitch)
    (h2 : (g.ch i).cents = (f.ch i).cents)
    (h3 : (chipChannel g.synth.out i).freq = (chipChannel f.synth.out i).freq) : FreqOf env i g := by
  unfold FreqOf; rw [h1, h2, h3]; exact h

private theorem call_freq {i : Nat} (hi : i < 6) {f : St} {o : Synth.Op} (hl : o.Legal)
    (ho : ∀ x, o.requestFreq i x = x) : (chipChannel (call f o).synth.out i).freq = (chipChannel f.synth.out i).freq := by
  have := (Synth.step_chip (s := f.synth) hl hi).1
  rw [ho] at this
  exact this

theorem step_freqOf (he : env.Ok) {i : Nat} (hi : i < 6) {f : St} (hs : FmSafe f) {op : Op} (hl : op.Legal)
    (ht : op.tracked) (h : FreqOf env i f) : FreqOf env i (step env f op) := by
  cases op with
  | reset => exact ht.elim
  | noteOn c p x v =>
    obtain ⟨hc, hv⟩ := hl
    by_cases hp : 11 ≤ p ∧ p ≤ 106
    · have e := effectiveVolume_lt (c := { f.ch c with velocity := v }) (hs.chan c hc).1 hv
      have fin : ∀ {g : St} {l : List Synth.Op} {q : Nat}, Steps f.synth l g.synth → (∀ o ∈ l, o.Legal) →
          l.foldl (Synth.Op.requestFreq i) (chipChannel f.synth.out i).freq =
            (if c = i then (pitchToOctave q % 8, freqNum env.pal q x % 2048) else (chipChannel f.synth.out i).freq) →
          g.ch = upd f.ch c { f.ch c with velocity := v, pitch := q, cents := x } → FreqOf env i g := by
        intro g l q k1 k2 k3 k4
        have k := (k1.chip k2 hi).1
        rw [k3] at k
        by_cases e : c = i
        · subst e
          rw [if_pos rfl] at k
          right; rw [k4, k]; simp
        · rw [if_neg e] at k
          exact h.of (by rw [k4, Psg.upd_other _ _ _ _ (Ne.symm e)]) (by rw [k4, Psg.upd_other _ _ _ _ (Ne.symm e)]) k
      cases hn : (f.ch c).percussive
      · obtain ⟨k1, k2, -⟩ := noteOn_steps env f (velocity := v) (cents := x) hc hp hn
        exact fin (q := p) k1 (noteCalls_legal env hc e.2) (by simp [noteCalls, Synth.Op.requestFreq]) k2
      · obtain ⟨pp, h1, h2, -⟩ := percOf he (pitch := p) (by omega)
        obtain ⟨k1, k2, -⟩ := noteOn_perc_steps env f (velocity := v) (cents := x) hc hp hn h1
        refine fin (q := pp.key) k1 (fun o ho => ?_) (by simp [noteCalls, Synth.Op.requestFreq]) k2
        rcases List.mem_cons.1 ho with rfl | ho
        · exact legal_ch rfl hc rfl h2
        · exact noteCalls_legal env hc e.2 o ho
    · simp only [step, noteOn_out env f (by omega : p < 11 ∨ 106 < p)]
      exact h
  | noteOff c => exact h.of rfl rfl (call_freq hi (legal_ch rfl hl rfl trivial) fun _ => rfl)
  | allNotesOff c => exact h.of rfl rfl (call_freq hi (legal_ch rfl hl rfl trivial) fun _ => rfl)
  | volume c v =>
    obtain ⟨hc, hv⟩ := hl
    have e := effectiveVolume_lt (c := { f.ch c with volume := v }) hv (hs.chan c hc).2
    simp only [step, channelVolume, guardCh, hc, if_true, Psg.upd_same]
    refine FreqOf.of (f := { f with ch := upd f.ch c { f.ch c with volume := v } }) ?_ rfl rfl
      (call_freq hi (legal_ch rfl hc rfl e.2) fun _ => rfl)
    refine h.of ?_ ?_ rfl <;> (simp only [upd]; split <;> simp_all)
  | program c n =>
    obtain ⟨hc, hn⟩ := hl
    obtain ⟨p, hp, hpo⟩ := presetOf he hn
    cases hu : f.user n with
    | none =>
      simp only [step, program, hn, if_true, hu, hp]
      exact h.of rfl rfl (call_freq hi (legal_ch rfl hc rfl hpo) fun _ => rfl)
    | some q =>
      simp only [step, program, hn, if_true, hu]
      exact h.of rfl rfl (call_freq hi (legal_ch rfl hc rfl (hs.user n q hu)) fun _ => rfl)
  | percussive c b =>
    have hc : c < 6 := hl
    simp only [step, percussive, guardCh, hc, if_true]
    refine h.of ?_ ?_ rfl <;> (simp only [upd]; split <;> simp_all)
  | pan c x =>
    have hc : c < 6 := hl
    have h1 : FreqOf env i { f with ch := upd f.ch c { f.ch c with pan := x } } := by
      refine h.of ?_ ?_ rfl <;> (simp only [upd]; split <;> simp_all)
    have k : ∀ y, FreqOf env i (call { f with ch := upd f.ch c { f.ch c with pan := x } } (.stereo c y)) := fun y =>
      h1.of rfl rfl (call_freq hi (legal_ch rfl hc rfl trivial) fun _ => rfl)
    simp only [step, pan, guardCh, hc, if_true]
    split
    · exact k 1
    · split
      · exact k 3
      · exact k 2
  | pitch c p x =>
    have hc : c < 6 := hl
    simp only [step, pitch, guardCh, hc, if_true, setSynthPitch, Psg.upd_same]
    have k := (Synth.step_chip (s := f.synth) (op := .pitch c (pitchToOctave p) (freqNum env.pal p x))
      (legal_ch rfl hc rfl trivial) hi).1
    simp only [Synth.Op.requestFreq] at k
    by_cases e : c = i
    · subst e
      rw [if_pos rfl] at k
      right
      simp only [call, Psg.upd_same]
      exact k
    · rw [if_neg e] at k
      exact h.of (by simp [call, Psg.upd_other _ _ _ _ (Ne.symm e)]) (by simp [call, Psg.upd_other _ _ _ _ (Ne.symm e)]) k
  | store n p =>
    obtain ⟨hn, hp⟩ := hl
    obtain ⟨k1, k2, -⟩ := sramSave_noise env { f with user := upd f.user n (some p) } n p
    simp only [step, storePreset, hn, if_true]
    exact h.of (by rw [k2]) (by rw [k2]) (congrArg (·.freq) (k1.chip i).1)
  | clear n =>
    have hn : n < 128 := hl
    obtain ⟨k1, k2, -⟩ := sramClear_noise env { f with user := upd f.user n none } n
    simp only [step, clearPreset, hn, if_true]
    exact h.of (by rw [k2]) (by rw [k2]) (congrArg (·.freq) (k1.chip i).1)
  | storeFrom c n =>
    obtain ⟨hc, hn⟩ := hl
    obtain ⟨k1, k2, -⟩ := sramSave_noise env { f with user := upd f.user n (some (Synth.extractPreset f.synth c)) } n
      (Synth.extractPreset f.synth c)
    simp only [step, storePresetFromChannel, guardCh, hc, storePreset, hn, if_true]
    exact h.of (by rw [k2]) (by rw [k2]) (congrArg (·.freq) (k1.chip i).1)
  | smNoteOn o p x v =>
    obtain ⟨ho, hv⟩ := hl
    simp only [step, smNoteOn, smPitch, ho, if_true]
    refine FreqOf.of (f := call { f with smPitch := upd f.smPitch o p, smCents := upd f.smCents o x }
      (.specialModePitch o (pitchToOctave p) (freqNum env.pal p x))) ?_ rfl rfl
      (call_freq hi ⟨by simp [Synth.Op.chan], by simp [Synth.Op.oper]; omega, hv⟩ fun _ => rfl)
    exact h.of rfl rfl (call_freq (f := { f with smPitch := upd f.smPitch o p, smCents := upd f.smCents o x }) hi
      ⟨by simp [Synth.Op.chan], by simp [Synth.Op.oper], trivial⟩ fun _ => rfl)
  | smPitch o p x =>
    have ho : o < 3 := hl
    simp only [step, smPitch, ho, if_true]
    exact h.of rfl rfl (call_freq (f := { f with smPitch := upd f.smPitch o p, smCents := upd f.smCents o x }) hi
      ⟨by simp [Synth.Op.chan], by simp [Synth.Op.oper], trivial⟩ fun _ => rfl)
  | smReset => exact h
  | dacNoteOn p =>
    have hp : p < 128 := hl
    simp only [step, dacNoteOn, hp, if_true]
    split
    · exact h.of rfl rfl (congrArg (·.freq) ((Synth.noise_emit f.synth false (.pcmStart p) (by simp)).chip i).1)
    · exact h
  | dacNoteOff => exact h.of rfl rfl (congrArg (·.freq) ((Synth.noise_emit f.synth false .pcmStop (by simp)).chip i).1)
  | synth o =>
    rcases hl with hl | ⟨p, r, d, rfl⟩
    · refine h.of rfl rfl (call_freq hi hl fun x => ?_)
      cases o <;> first | rfl | exact ht.elim
    · exact ht.elim

theorem run_freqOf (he : env.Ok) {i : Nat} (hi : i < 6) {f : St} (hs : FmSafe f) (ops : List Op)
    (hl : ∀ op ∈ ops, op.Legal) (ht : ∀ op ∈ ops, op.tracked) (h : FreqOf env i f) : FreqOf env i (run env f ops) := by
  induction ops generalizing f with
  | nil => exact h
  | cons o l ih =>
    exact ih (hs.step he (hl o (by simp))) (fun x hx => hl x (by simp [hx])) (fun x hx => ht x (by simp [hx]))
      (step_freqOf he hi hs (hl o (by simp)) (ht o (by simp)) h)

/-! ### Calls that leave the pitch of a channel -/

/-- Percussion flag, pitch and cents of FM channel `i` stay. -/
structure Hold (i : Nat) (f g : St) : Prop where
  perc : (g.ch i).percussive = (f.ch i).percussive
  pitch : (g.ch i).pitch = (f.ch i).pitch
  cents : (g.ch i).cents = (f.ch i).cents

theorem Hold.refl {i : Nat} {f : St} : Hold i f f := ⟨rfl, rfl, rfl⟩

theorem Hold.trans {i : Nat} {f g h : St} (a : Hold i f g) (b : Hold i g h) : Hold i f h :=
  ⟨b.perc.trans a.perc, b.pitch.trans a.pitch, b.cents.trans a.cents⟩

theorem Hold.of_ch {i : Nat} {f g : St} (h : g.ch = f.ch) : Hold i f g := ⟨by rw [h], by rw [h], by rw [h]⟩

/-- Calls that may change them. -/
def Op.sets (i : Nat) : Op → Prop
  | .reset => True
  | .noteOn c _ _ _ | .pitch c _ _ | .percussive c _ => c = i
  | _ => False

theorem step_hold {i : Nat} {f : St} {op : Op} (h : ¬op.sets i) : Hold i f (step env f op) := by
  have di : ∀ f : St, (sramDisable f).ch = f.ch := fun f => by unfold sramDisable; split <;> rfl
  have sv : ∀ (f : St) n p, (sramSave env f n p).ch = f.ch := fun f n p => by
    unfold sramSave; split
    · rfl
    · rw [di]; rfl
  have cl : ∀ (f : St) n, (sramClear env f n).ch = f.ch := fun f n => by
    unfold sramClear; split
    · rfl
    · rw [di]; rfl
  have st : ∀ (f : St) n p, (storePreset env f n p).ch = f.ch := fun f n p => by
    unfold storePreset; split
    · rw [sv]
    · rfl
  have one : ∀ {c : Nat} {x : Chan}, (x.percussive = (f.ch c).percussive ∧ x.pitch = (f.ch c).pitch ∧
      x.cents = (f.ch c).cents) ∨ c ≠ i → ∀ g : St, g.ch = upd f.ch c x → Hold i f g := by
    intro c x hx g hg
    by_cases e : i = c
    · subst e
      rcases hx with hx | hx
      · exact ⟨by rw [hg, Psg.upd_same]; exact hx.1, by rw [hg, Psg.upd_same]; exact hx.2.1, by rw [hg, Psg.upd_same]; exact hx.2.2⟩
      · exact absurd rfl hx
    · have : g.ch i = f.ch i := by rw [hg, Psg.upd_other _ _ _ _ e]
      exact ⟨by rw [this], by rw [this], by rw [this]⟩
  cases op with
  | reset => exact absurd trivial h
  | noteOn c p x v =>
    simp only [step, noteOn]
    split
    · exact .of_ch rfl
    unfold guardCh
    split
    · have pl : ∀ (f' : St), f'.ch = f.ch → ∀ q, ∀ g : St, g.ch = upd (upd f'.ch c { f'.ch c with velocity := v }) c
          { upd f'.ch c { f'.ch c with velocity := v } c with pitch := q, cents := x } → Hold i f g := by
        intro f' e q g hg
        refine one (c := c) (x := { f.ch c with velocity := v, pitch := q, cents := x }) (.inr h) _ ?_
        rw [hg, e]
        funext j; simp only [upd]; split <;> simp
      simp only
      by_cases hn : (f.ch c).percussive = true
      · rw [if_pos hn]
        cases env.perc[p]? with
        | none => exact .of_ch rfl
        | some pp => exact pl (call f (.preset c pp.preset)) rfl pp.key _ rfl
      · rw [if_neg hn]; exact pl f rfl p _ rfl
    · exact .of_ch rfl
  | noteOff c => exact .of_ch rfl
  | allNotesOff c => exact .of_ch rfl
  | volume c v =>
    simp only [step, channelVolume, guardCh]
    split
    · exact one (c := c) (x := { f.ch c with volume := v }) (.inl ⟨rfl, rfl, rfl⟩) _ rfl
    · exact .of_ch rfl
  | program c n =>
    simp only [step, program]
    split
    · split
      · exact .of_ch rfl
      · split <;> exact .of_ch rfl
    · exact .of_ch rfl
  | percussive c b =>
    simp only [step, percussive, guardCh]
    split
    · exact one (c := c) (x := { f.ch c with percussive := b }) (.inr h) _ rfl
    · exact .of_ch rfl
  | pan c x =>
    simp only [step, pan, guardCh]
    split
    · split
      · exact one (c := c) (x := { f.ch c with pan := x }) (.inl ⟨rfl, rfl, rfl⟩) _ rfl
      · split <;> exact one (c := c) (x := { f.ch c with pan := x }) (.inl ⟨rfl, rfl, rfl⟩) _ rfl
    · exact .of_ch rfl
  | pitch c p x =>
    simp only [step, pitch, guardCh]
    split
    · exact one (c := c) (x := { f.ch c with pitch := p, cents := x }) (.inr h) _ rfl
    · exact .of_ch rfl
  | store n p => exact .of_ch (st _ _ _)
  | clear n =>
    simp only [step, clearPreset]
    split
    · exact .of_ch (by rw [cl])
    · exact .of_ch rfl
  | storeFrom c n =>
    simp only [step, storePresetFromChannel, guardCh]
    split
    · exact .of_ch (st _ _ _)
    · exact .of_ch rfl
  | smNoteOn o p x v =>
    simp only [step, smNoteOn, smPitch]
    split <;> exact .of_ch rfl
  | smPitch o p x =>
    simp only [step, smPitch]
    split <;> exact .of_ch rfl
  | smReset => exact .of_ch rfl
  | dacNoteOn p =>
    simp only [step, dacNoteOn]
    split
    · split <;> exact .of_ch rfl
    · exact .of_ch rfl
  | dacNoteOff => exact .of_ch rfl
  | synth o => exact .of_ch rfl

/-- What a pitch call leaves. -/
theorem pitch_sets (f : St) {i : Nat} (hi : i < 6) (p : Nat) (x : Int) :
    let g := step env f (.pitch i p x)
    (g.ch i).percussive = (f.ch i).percussive ∧ (g.ch i).pitch = p ∧ (g.ch i).cents = x := by
  simp only [step, pitch, guardCh, if_pos hi, setSynthPitch, call, Psg.upd_same, and_self]

/-- What a note-on leaves, of a melodic channel, in the range of the chip. -/
theorem noteOn_sets (f : St) {i : Nat} (hi : i < 6) (p : Nat) (x : Int) (v : Nat) :
    let g := step env f (.noteOn i p x v)
    ((f.ch i).percussive = false → (g.ch i).percussive = false) ∧
    ((f.ch i).percussive = false → 11 ≤ p → p ≤ 106 → (g.ch i).pitch = p ∧ (g.ch i).cents = x) := by
  refine ⟨fun hn => ?_, fun hn h1 h2 => ?_⟩
  · by_cases hp : 11 ≤ p ∧ p ≤ 106
    · simp only [step, (noteOn_steps env f (velocity := v) (cents := x) hi hp hn).2.1, Psg.upd_same]; exact hn
    · simp only [step, noteOn_out env f (by omega : p < 11 ∨ 106 < p)]; exact hn
  · simp only [step, (noteOn_steps env f (velocity := v) (cents := x) hi ⟨h1, h2⟩ hn).2.1, Psg.upd_same, and_self]

end Mdmi.Fm

namespace Mdmi.Midi
open Fm (Hold)

variable {env : Env} {D : Prop} {i j c : Nat} {s t u : St}

/-- The pitch a device channel is to sound: its note under bend, bend range and fine tune. -/
def pcOf (s : St) (i : Nat) : PitchCents :=
  effectivePitchCents (s.dev i).pitch (s.dev i).cents (s.dev i).pitchBend (s.chan (s.dev i).midiChannel).range
    (s.chan (s.dev i).midiChannel).fineTune

/-- Nothing happens to the pitch of voice `i`; it may stop. -/
structure Bide (i : Nat) (s t : St) : Prop where
  tie : Tie 13 i s → Tie 13 i t
  dynamic : t.dynamic = s.dynamic
  map : (t.dev i).midiChannel = (s.dev i).midiChannel
  drums : ∀ j, 6 ≤ j → j < 13 → chipNum j = i → (t.dev j).midiChannel = 9 → (s.dev j).midiChannel = 9
  on : (t.dev i).noteOn = true → (s.dev i).noteOn = true
  pc : (t.dev i).noteOn = true → (t.dev i).midiChannel < 16 → pcOf t i = pcOf s i
  perc : (s.fm.ch i).percussive = false → (t.fm.ch i).percussive = false
  pitch : (t.fm.ch i).pitch = (s.fm.ch i).pitch
  cents : (t.fm.ch i).cents = (s.fm.ch i).cents

theorem Bide.refl : Bide i s s := ⟨id, rfl, rfl, fun _ _ _ _ => id, id, fun _ _ => rfl, id, rfl, rfl⟩

theorem Bide.trans (h : Bide i s t) (k : Bide i t u) : Bide i s u :=
  ⟨fun x => k.tie (h.tie x), k.dynamic.trans h.dynamic, k.map.trans h.map,
    fun j a b e x => h.drums j a b e (k.drums j a b e x), fun x => h.on (k.on x),
    fun x y => (k.pc x y).trans (h.pc (k.on x) (by rw [← k.map]; exact y)), fun x => k.perc (h.perc x),
    k.pitch.trans h.pitch, k.cents.trans h.cents⟩

theorem Tie.dev (h : Tie 13 i s) (e : t.dev = s.dev) : Tie 13 i t :=
  ⟨by rw [e]; exact h.num, by rw [e]; exact h.mine, by rw [e]; exact h.kind, by rw [e]; exact h.psg⟩

/-- Calls to the FM device that hold the pitch, and whatever else leaves the engine's tables. -/
theorem Bide.fm (h1 : t.dev = s.dev) (h2 : t.chan = s.chan) (h3 : t.dynamic = s.dynamic) (h : Hold i s.fm t.fm) :
    Bide i s t :=
  ⟨fun k => k.dev h1, h3, by rw [h1], fun _ _ _ _ x => by rw [h1] at x; exact x, fun x => by rw [h1] at x; exact x,
    fun _ _ => by unfold pcOf; rw [h1, h2], fun x => by rw [h.perc]; exact x, h.pitch, h.cents⟩

/-- Stores to a device channel. -/
theorem Bide.upd {d : Dev} (hi : i < 6) (h : t.dev = Mdmi.upd s.dev j d) (hn : d.num = (s.dev j).num)
    (ho : d.ops = (s.dev j).ops)
    (hm : d.midiChannel = (s.dev j).midiChannel ∨ j ≠ i ∧ (chipNum j = i → d.midiChannel ≠ 9))
    (hv : j = i → d.noteOn = true → (s.dev j).noteOn = true ∧ d.pitch = (s.dev j).pitch ∧ d.cents = (s.dev j).cents ∧
      d.pitchBend = (s.dev j).pitchBend)
    (h2 : t.chan = s.chan) (h3 : t.dynamic = s.dynamic) (hf : Hold i s.fm t.fm) : Bide i s t := by
  have own : t.dev j = d := by rw [h, Psg.upd_same]
  have oth : ∀ l, l ≠ j → t.dev l = s.dev l := fun l e => by rw [h, Psg.upd_other _ _ _ _ e]
  have map : (t.dev i).midiChannel = (s.dev i).midiChannel := by
    by_cases e : i = j
    · subst e
      rw [own]
      rcases hm with hm | hm
      · exact hm
      · exact absurd rfl hm.1
    · rw [oth i e]
  have val : (t.dev i).noteOn = true → (s.dev i).noteOn = true ∧ (t.dev i).pitch = (s.dev i).pitch ∧
      (t.dev i).cents = (s.dev i).cents ∧ (t.dev i).pitchBend = (s.dev i).pitchBend := by
    by_cases e : i = j
    · subst e; rw [own]; exact hv rfl
    · rw [oth i e]; exact fun x => ⟨x, rfl, rfl, rfl⟩
  refine ⟨fun k => k.of (by omega) (fun l _ => ?_) (fun l _ => ?_), h3, map, fun l _ _ hc => ?_, fun x => (val x).1,
    fun x _ => ?_, fun x => by rw [hf.perc]; exact x, hf.pitch, hf.cents⟩
  · by_cases e : l = j
    · subst e; rw [own]; exact hn
    · rw [oth l e]
  · by_cases e : l = j
    · subst e; rw [own]; exact ho
    · rw [oth l e]
  · by_cases e : l = j
    · subst e; rw [own]
      rcases hm with hm | hm
      · rw [hm]; exact id
      · exact fun x => absurd x (hm.2 hc)
    · rw [oth l e]; exact id
  · obtain ⟨-, a, b, c⟩ := val x
    unfold pcOf
    rw [a, b, c, map, h2]

/-- Stores to a MIDI channel. -/
theorem Bide.setChan {f : Chan → Chan}
    (h : (s.dev i).midiChannel = c → (s.dev i).noteOn = true →
      (f (s.chan c)).range = (s.chan c).range ∧ (f (s.chan c)).fineTune = (s.chan c).fineTune) :
    Bide i s (setChan s c f) := by
  refine ⟨fun k => k.dev rfl, rfl, rfl, fun _ _ _ _ => id, id, fun x _ => ?_, id, rfl, rfl⟩
  unfold pcOf
  rw [setChan_dev, setChan_chan]
  by_cases e : (s.dev i).midiChannel = c
  · obtain ⟨a, b⟩ := h e x
    rw [e, Psg.upd_same, a, b]
  · rw [Psg.upd_other _ _ _ _ e]

/-! ### Calls through the vtable -/

theorem fmCall_hold {op : Fm.Op} (h : ¬op.sets i) : Hold i s.fm (fmCall env s op).fm := Fm.step_hold h

theorem devVolume_hold (v : Nat) : Hold i s.fm (devVolume env s j v).fm := by
  unfold devVolume; split
  · exact fmCall_hold id
  all_goals exact .refl

theorem devPan_hold (v : Nat) : Hold i s.fm (devPan env s j v).fm := by
  unfold devPan; split
  · exact fmCall_hold id
  all_goals exact .refl

theorem devProgram_hold (v : Nat) : Hold i s.fm (devProgram env s j v).fm := by
  unfold devProgram; split
  · exact fmCall_hold id
  all_goals exact .refl

theorem devNoteOff_hold : Hold i s.fm (devNoteOff env s j).fm := by
  unfold devNoteOff; split
  all_goals first | exact .refl | exact fmCall_hold id

theorem devAllNotesOff_hold : Hold i s.fm (devAllNotesOff env s j).fm := by
  unfold devAllNotesOff; split
  all_goals first | exact .refl | exact fmCall_hold id

theorem devPitch_hold (h : Apt i j s) (p : Nat) (x : Int) : Hold i s.fm (devPitch env s j p x).fm := by
  unfold devPitch; split
  · rename_i e; exact fmCall_hold (h e)
  · exact .refl
  · exact fmCall_hold id
  · exact .refl

theorem devNoteOn_hold (h : Apt i j s) (p : Nat) (x : Int) (v : Nat) : Hold i s.fm (devNoteOn env s j p x v).fm := by
  unfold devNoteOn; split
  · rename_i e; exact fmCall_hold (h e)
  · exact .refl
  · exact fmCall_hold id
  · exact fmCall_hold id

theorem setDownstreamPitch_bide (k : Tie 13 i s) (hj : j < 13) (hne : j ≠ i) : Bide i s (setDownstreamPitch env s j) := by
  refine .fm (by simp) (by simp) (by simp) ?_
  unfold setDownstreamPitch withPitch
  simp only
  split
  · exact devPitch_hold (k.apt hj hne) _ _
  · exact .refl

theorem setDownstreamNoteOn_bide (k : Tie 13 i s) (hj : j < 13) (hne : j ≠ i) (v : Nat) :
    Bide i s (setDownstreamNoteOn env s j v) := by
  refine .fm (by simp) (by simp) (by simp) ?_
  unfold setDownstreamNoteOn withPitch
  simp only
  split
  · exact devNoteOn_hold (k.apt hj hne) _ _ _
  · exact .refl

theorem updateVolume_bide (hi : i < 6) : Bide i s (updateVolume env s c j) := by
  refine .upd hi (updateVolume_dev c j) rfl rfl (.inl rfl) (fun _ h => ⟨h, rfl, rfl, rfl⟩) (by simp) (by simp) ?_
  unfold updateVolume; split
  · exact devVolume_hold _
  · exact .refl

theorem updatePan_bide (hi : i < 6) : Bide i s (updatePan env s c j) := by
  refine .upd hi (updatePan_dev c j) rfl rfl (.inl rfl) (fun _ h => ⟨h, rfl, rfl, rfl⟩) (by simp) (by simp) ?_
  unfold updatePan; split
  · exact devPan_hold _
  · exact .refl

theorem updateProgram_bide (hi : i < 6) : Bide i s (updateProgram env s c j) := by
  refine .upd hi (updateProgram_dev c j) rfl rfl (.inl rfl) (fun _ h => ⟨h, rfl, rfl, rfl⟩) (by simp) (by simp) ?_
  unfold updateProgram; split
  · exact devProgram_hold _
  · exact .refl

theorem setDev_bide (hi : i < 6) {f : Dev → Dev} (hn : (f (s.dev j)).num = (s.dev j).num)
    (ho : (f (s.dev j)).ops = (s.dev j).ops)
    (hm : (f (s.dev j)).midiChannel = (s.dev j).midiChannel ∨ j ≠ i ∧ (chipNum j = i → (f (s.dev j)).midiChannel ≠ 9))
    (hv : j = i → (f (s.dev j)).noteOn = true → (s.dev j).noteOn = true ∧ (f (s.dev j)).pitch = (s.dev j).pitch ∧
      (f (s.dev j)).cents = (s.dev j).cents ∧ (f (s.dev j)).pitchBend = (s.dev j).pitchBend) :
    Bide i s (setDev s j f) := .upd hi rfl hn ho hm hv rfl rfl .refl

theorem updatePitchBend_bide (hi : i < 6) (k : Tie 13 i s) (hj : j < 13) (hne : j ≠ i) :
    Bide i s (updatePitchBend env s c j) := by
  unfold updatePitchBend; split
  · have h := setDev_bide (s := s) (j := j) hi (f := fun d => { d with pitchBend := (s.chan c).pitchBend }) rfl rfl (.inl rfl)
      fun e => absurd e hne
    exact h.trans (setDownstreamPitch_bide (h.tie k) hj hne)
  · exact .refl

theorem percussive_bide {n : Nat} {b : Bool} (h : n = i → b = false) : Bide i s (fmCall env s (.percussive n b)) := by
  by_cases e : n = i
  · subst e
    rw [h rfl]
    refine ⟨fun k => k.dev rfl, rfl, rfl, fun _ _ _ _ => id, id, fun _ _ => rfl, fun _ => ?_, ?_, ?_⟩
    all_goals
      simp only [fmCall, Fm.step, Fm.percussive, Fm.guardCh]
      split
    all_goals first | simp only [Psg.upd_same] | rfl | assumption
  · exact .fm rfl rfl rfl (fmCall_hold e)

theorem updateDev_bide (hi : i < 6) (k : Tie 13 i s) (hj : j < 13) (hne : j ≠ i)
    (h : chipNum j = i → (s.dev j).midiChannel ≠ 9) : Bide i s (updateDev env s j) := by
  unfold updateDev
  simp only
  split
  · have h1 : Bide i s (fmCall env s (.percussive (s.dev j).num ((s.dev j).midiChannel == 9))) :=
      percussive_bide fun e => by rw [k.num j hj] at e; simpa using h e
    have h2 := h1.trans (updateVolume_bide (c := (s.dev j).midiChannel) (j := j) (env := env) hi)
    have h3 := h2.trans (updatePan_bide (c := (s.dev j).midiChannel) (j := j) (env := env) hi)
    have h4 := h3.trans (updateProgram_bide (c := (s.dev j).midiChannel) (j := j) (env := env) hi)
    exact h4.trans (updatePitchBend_bide hi (h4.tie k) hj hne)
  · exact .fm rfl rfl rfl .refl

theorem startNote_bide (hi : i < 6) (k : Tie 13 i s) (hj : j < 13) (hne : j ≠ i) (h9 : chipNum j = i → c ≠ 9)
    (p v : Nat) : Bide i s (startNote env s j c p v) := by
  unfold startNote
  extract_lets a b d
  have h1 : Bide i s a := by
    simp only [a]; split
    · exact .fm (by simp) (by simp) (by simp) (devProgram_hold _)
    · exact .refl
  have h2 : Bide i a b := setDev_bide hi rfl rfl (.inr ⟨hne, h9⟩) fun e => absurd e hne
  have bm : (b.dev j).midiChannel = c := by simp [b]
  clear_value a
  have h3 := h1.trans h2
  clear_value b
  have h4 : Bide i b d := updateDev_bide hi (h3.tie k) hj hne (by rw [bm]; exact h9)
  have h5 := h3.trans h4
  clear_value d
  exact h5.trans (setDownstreamNoteOn_bide (h5.tie k) hj hne v)

/-! ### The invariant -/

/-- What it takes for the next note of voice `i` to be in tune. -/
structure Based (D : Prop) (i : Nat) (s : St) : Prop where
  tie : Tie 13 i s
  dyn : D → i = 3 → s.dynamic = true
  quiet : D → ∀ j, 6 ≤ j → j < 13 → chipNum j = i → (s.dev j).midiChannel ≠ 9
  perc : (s.dev i).noteOn = true → (s.dev i).midiChannel < 16 → (s.dev i).midiChannel ≠ 9 →
    (s.fm.ch i).percussive = false

/-- While voice `i` sounds a note within the range of the chip, the FM device has its pitch. -/
structure Pitched (D : Prop) (i : Nat) (s : St) : Prop extends Based D i s where
  right : (s.dev i).noteOn = true → (s.dev i).midiChannel < 16 → (s.dev i).midiChannel ≠ 9 →
    11 ≤ (pcOf s i).pitch → (pcOf s i).pitch ≤ 106 →
    (s.fm.ch i).pitch = (pcOf s i).pitch ∧ (s.fm.ch i).cents = (pcOf s i).cents

theorem Bide.based (h : Bide i s t) (k : Based D i s) : Based D i t :=
  ⟨h.tie k.tie, fun d e => h.dynamic.trans (k.dyn d e), fun d j a b e x => k.quiet d j a b e (h.drums j a b e x),
    fun x y z => h.perc (k.perc (h.on x) (by rw [← h.map]; exact y) (by rw [← h.map]; exact z))⟩

theorem Bide.pitched (h : Bide i s t) (k : Pitched D i s) : Pitched D i t :=
  ⟨h.based k.toBased, fun x y z p q => by
    rw [h.pc x y] at p q ⊢
    rw [h.pitch, h.cents]
    exact k.right (h.on x) (by rw [← h.map]; exact y) (by rw [← h.map]; exact z) p q⟩

/-- Steps that leave the engine's tables and the FM device. -/
theorem Pitched.plain (k : Pitched D i s) (h1 : t.dev = s.dev) (h2 : t.chan = s.chan) (h3 : t.dynamic = s.dynamic)
    (h4 : t.fm = s.fm) : Pitched D i t := (Bide.fm h1 h2 h3 (.of_ch (by rw [h4]))).pitched k

theorem fmCall_bide {op : Fm.Op} (h : ¬op.sets i) : Bide i s (fmCall env s op) := .fm rfl rfl rfl (fmCall_hold h)

theorem say_bide (m : Msg) : Bide i s (say s m) := .fm rfl rfl rfl .refl

theorem Pitched.call {op : Fm.Op} (k : Pitched D i s) (h : ¬op.sets i) : Pitched D i (fmCall env s op) :=
  (fmCall_bide h).pitched k

/-- A voice that is off. -/
theorem Based.silent (k : Based D i s) (h : (s.dev i).noteOn = false) : Pitched D i s :=
  ⟨k, fun x => by rw [h] at x; cases x⟩

theorem setDownstreamPitch_pitched (hi : i < 6) (k : Based D i s) : Pitched D i (setDownstreamPitch env s i) := by
  have hn := k.tie.num i (by omega)
  rw [chipNum_lt6 hi] at hn
  unfold setDownstreamPitch withPitch
  simp only
  split
  · simp only [devPitch, k.tie.mine, hn]
    obtain ⟨a, b, c⟩ := Fm.pitch_sets (env := env.fm) s.fm hi (pcOf s i).pitch (pcOf s i).cents
    refine ⟨⟨k.tie.dev rfl, k.dyn, k.quiet, fun x y z => ?_⟩, fun x y z p q => ⟨b, c⟩⟩
    exact a.trans (k.perc x y z)
  · rename_i h
    exact ⟨⟨k.tie.dev rfl, k.dyn, k.quiet, k.perc⟩, fun _ y => absurd y h⟩

theorem setDownstreamNoteOn_pitched (hi : i < 6) (k : Based D i s) (v : Nat) :
    Pitched D i (setDownstreamNoteOn env s i v) := by
  have hn := k.tie.num i (by omega)
  rw [chipNum_lt6 hi] at hn
  unfold setDownstreamNoteOn withPitch
  simp only
  split
  · simp only [devNoteOn, k.tie.mine, hn]
    obtain ⟨a, b⟩ := Fm.noteOn_sets (env := env.fm) s.fm hi (pcOf s i).pitch (pcOf s i).cents v
    exact ⟨⟨k.tie.dev rfl, k.dyn, k.quiet, fun x y z => a (k.perc x y z)⟩, fun x y z p q => b (k.perc x y z) p q⟩
  · rename_i h
    exact ⟨⟨k.tie.dev rfl, k.dyn, k.quiet, k.perc⟩, fun _ y => absurd y h⟩

/-- Stores to the device channel itself: the pitch may change. -/
theorem Based.setDev (hi : i < 6) {f : Dev → Dev} (k : Based D i s) (hn : (f (s.dev i)).num = (s.dev i).num)
    (ho : (f (s.dev i)).ops = (s.dev i).ops) (hm : (f (s.dev i)).midiChannel = (s.dev i).midiChannel)
    (hv : (f (s.dev i)).noteOn = true → (s.dev i).noteOn = true) : Based D i (setDev s i f) := by
  have own : (Midi.setDev s i f).dev i = f (s.dev i) := by simp
  have oth : ∀ l, l ≠ i → (Midi.setDev s i f).dev l = s.dev l := fun l e => by simp [Psg.upd_other _ _ _ _ e]
  refine ⟨k.tie.of (by omega) (fun l _ => ?_) (fun l _ => ?_), k.dyn, fun d j a b e => ?_, ?_⟩
  · by_cases e : l = i
    · subst e; rw [own]; exact hn
    · rw [oth l e]
  · by_cases e : l = i
    · subst e; rw [own]; exact ho
    · rw [oth l e]
  · rw [oth j (by omega)]; exact k.quiet d j a b e
  · rw [own, hm]; exact fun x => k.perc (hv x)

theorem updatePitchBend_based (hi : i < 6) (hj : j < 13) (k : Based D i s) : Based D i (updatePitchBend env s c j) := by
  by_cases e : j = i
  · subst e
    unfold updatePitchBend; split
    · exact (setDownstreamPitch_pitched hi (k.setDev hi rfl rfl rfl id)).toBased
    · exact k
  · exact (updatePitchBend_bide hi k.tie hj e).based k

theorem updatePitchBend_pitched (hi : i < 6) (hj : j < 13) (k : Pitched D i s) :
    Pitched D i (updatePitchBend env s c j) := by
  by_cases e : j = i
  · subst e
    unfold updatePitchBend; split
    · exact setDownstreamPitch_pitched hi (k.toBased.setDev hi rfl rfl rfl id)
    · exact k
  · exact (updatePitchBend_bide hi k.tie hj e).pitched k

theorem startNote_own (hi : i < 6) (hc : c < 16) (k : Based D i s) (p v : Nat) :
    Pitched D i (startNote env s i c p v) := by
  unfold startNote
  extract_lets a b d
  have ka : Based D i a := by
    simp only [a]; split
    · exact (Bide.fm (by simp) (by simp) (by simp) (devProgram_hold _)).based k
    · exact k
  clear_value a
  have own : b.dev i = { a.dev i with midiChannel := c, noteOn := true, cents := 0, pitch := p } := by simp [b]
  have oth : ∀ l, l ≠ i → b.dev l = a.dev l := fun l e => by simp [b, Psg.upd_other _ _ _ _ e]
  have tb : Tie 13 i b := ka.tie.of (by omega)
    (fun l _ => by by_cases e : l = i
                   · subst e; rw [own]
                   · rw [oth l e])
    (fun l _ => by by_cases e : l = i
                   · subst e; rw [own]
                   · rw [oth l e])
  have hb : b.dynamic = a.dynamic := rfl
  clear_value b
  have kd : Based D i d := by
    have bn := tb.num i (by omega)
    rw [chipNum_lt6 hi] at bn
    have bm : (b.dev i).midiChannel = c := by rw [own]
    simp only [d, updateDev, bm, if_pos hc, bn]
    have k1 : Based D i (fmCall env b (.percussive i (c == 9))) := by
      refine ⟨tb.dev rfl, fun x y => hb.trans (ka.dyn x y), fun x j h1 h2 e => ?_, fun _ _ z => ?_⟩
      · show (b.dev j).midiChannel ≠ 9
        rw [oth j (by omega)]; exact ka.quiet x j h1 h2 e
      · simp only [fmCall, Fm.step, Fm.percussive, Fm.guardCh, if_pos hi, Psg.upd_same]
        have : (b.dev i).midiChannel ≠ 9 := z
        rw [bm] at this
        simpa using this
    have k2 := (updateVolume_bide (c := c) (j := i) (env := env) hi).based k1
    have k3 := (updatePan_bide (c := c) (j := i) (env := env) hi).based k2
    have k4 := (updateProgram_bide (c := c) (j := i) (env := env) hi).based k3
    exact updatePitchBend_based hi (by omega) k4
  exact setDownstreamNoteOn_pitched hi kd v

/-! ### Notes, bends, ticks -/

theorem fold_pitched {α : Type} {f : St → α → St} (l : List α)
    (h : ∀ s, ∀ a ∈ l, Pitched D i s → Pitched D i (f s a)) (s : St) (k : Pitched D i s) : Pitched D i (l.foldl f s) := by
  induction l generalizing s with
  | nil => exact k
  | cons a l ih => exact ih (fun s b hb => h s b (by simp [hb])) _ (h s a (by simp) k)

theorem foreach_pitched {body : St → Nat → St}
    (h : ∀ s j, j < 13 → (s.dev j).midiChannel = c → Pitched D i s → Pitched D i (body s j)) (k : Pitched D i s) :
    Pitched D i (foreach s c body) := by
  refine fold_pitched _ (fun s j hj k => ?_) s k
  split
  · rename_i e; exact h s j (by simpa using hj) e k
  · exact k

theorem devChanNoteOn_pitched (hi : i < 6) (hj : j < 13) (k : Pitched D i s) (h : (s.dev j).noteOn = true) (p v : Nat) :
    Pitched D i (devChanNoteOn env s j p v) := by
  unfold devChanNoteOn
  by_cases e : j = i
  · subst e
    refine setDownstreamNoteOn_pitched hi (k.toBased.setDev hi rfl rfl rfl fun _ => h) v
  · have h1 := setDev_bide (s := s) (j := j) hi (f := fun d => { d with noteOn := true, cents := 0, pitch := p }) rfl rfl
      (.inl rfl) fun x => absurd x e
    exact (h1.trans (setDownstreamNoteOn_bide (h1.tie k.tie) hj e v)).pitched k

theorem devChanNoteOff_bide (hi : i < 6) : Bide i s (devChanNoteOff env s j) :=
  (setDev_bide (s := s) (j := j) hi (f := fun d => { d with noteOn := false, pitch := 0 }) rfl rfl (.inl rfl)
    fun _ x => by cases x).trans (.fm (devNoteOff_dev j) (devNoteOff_chan j) (devNoteOff_dynamic j) devNoteOff_hold)

theorem noteOff_pitched (hi : i < 6) (c p : Nat) (k : Pitched D i s) : Pitched D i (noteOff env s c p) := by
  unfold noteOff
  split
  · exact k.plain rfl rfl rfl rfl
  split
  · exact k.plain rfl rfl rfl rfl
  rename_i next st _
  have ka : Pitched D i (setChan s c fun m => { m with stack := st }) := (Bide.setChan fun _ _ => ⟨rfl, rfl⟩).pitched k
  simp only
  generalize setChan s c _ = a at *
  generalize singleVoice a c true = single
  have h : ∀ (l : List Nat) (x : St × Bool), (∀ j ∈ l, j < 13) → Pitched D i x.1 →
      Pitched D i (l.foldl (noteOffBody env c p next single) x).1 := by
    intro l
    induction l with
    | nil => intro x _ k; exact k
    | cons j l ih =>
      intro x hl k
      refine ih _ (fun y hy => hl y (by simp [hy])) ?_
      have hj := hl j (by simp)
      obtain ⟨t, handled⟩ := x
      unfold noteOffBody
      simp only
      split
      · rename_i hp
        split
        · split
          · split
            · exact k.plain rfl rfl rfl rfl
            · rename_i st _
              have h1 : Bide i t (setChan t c fun m => { m with stack := st }) := Bide.setChan fun _ _ => ⟨rfl, rfl⟩
              exact (h1.trans (setDev_bide (f := fun d => { d with glide := next }) hi rfl rfl (.inl rfl)
                fun _ x => ⟨x, rfl, rfl, rfl⟩)).pitched k
          · exact devChanNoteOn_pitched hi hj k (playing_on hp.2) _ _
        · exact (devChanNoteOff_bide hi).pitched k
      · exact k
  exact h _ (a, false) (by simp) ka

theorem startNote_pitched (hi : i < 6) (hj : j < 13) (hc : c < 16) (k : Pitched D i s) (p v : Nat)
    (h9 : j ≠ i → chipNum j = i → c ≠ 9) : Pitched D i (startNote env s j c p v) := by
  by_cases e : j = i
  · subst e; exact startNote_own hi hc k.toBased p v
  · exact (startNote_bide hi k.tie hj e (h9 e) p v).pitched k

theorem noteOn_pitched (hi : i < 6) (hc : c < 16) (p v : Nat) (k : Pitched D i s) (h9 : ¬D → c ≠ 9) :
    Pitched D i (noteOn env s c p v) := by
  unfold noteOn
  split
  · exact noteOff_pitched hi c p k
  split
  · exact k
  split
  · exact k.plain rfl rfl rfl rfl
  rename_i j hj
  have h13 := findFree_lt hj
  have hD : j ≠ i → chipNum j = i → c ≠ 9 := by
    intro hne hn e
    subst e
    have d : D := Classical.byContradiction fun d => h9 d rfl
    have h6 : 6 ≤ j := Nat.le_of_not_lt fun h => hne (by rw [chipNum_lt6 h] at hn; exact hn)
    rcases findFree_drums hj with h | h
    · exact k.quiet d j h6 h13 hn h
    · exact h.2 (k.tie.psg j h13 h6 h.1)
  split
  · split
    · exact k.plain rfl rfl rfl rfl
    split
    · exact k.plain rfl rfl rfl rfl
    rename_i st _
    have ks : Pitched D i (setChan s c fun m => { m with stack := st, lastVelocity := v }) :=
      (Bide.setChan fun _ _ => ⟨rfl, rfl⟩).pitched k
    simp only
    split
    · exact (setDev_bide hi rfl rfl (.inl rfl) fun _ x => ⟨x, rfl, rfl, rfl⟩).pitched ks
    · exact startNote_pitched hi h13 hc
        ((setDev_bide hi rfl rfl (.inl rfl) fun _ x => ⟨x, rfl, rfl, rfl⟩).pitched ks) p v hD
  · exact startNote_pitched hi h13 hc k p v hD

theorem pitchBend_pitched (hi : i < 6) (c b : Nat) (k : Pitched D i s) : Pitched D i (pitchBend env s c b) := by
  unfold pitchBend
  refine foreach_pitched (fun t j hj _ k => ?_) ((Bide.setChan fun _ _ => ⟨rfl, rfl⟩).pitched k)
  split
  · exact updatePitchBend_pitched hi hj k
  · exact k

theorem program_pitched (hi : i < 6) (c p : Nat) (k : Pitched D i s) : Pitched D i (program env s c p) := by
  unfold program
  extract_lets a b
  have ka : Pitched D i a := (Bide.setChan fun _ _ => ⟨rfl, rfl⟩).pitched k
  have kb : Pitched D i b := foreach_pitched (fun t j hj _ k => (updateProgram_bide hi).pitched k) ka
  clear_value b
  exact kb.plain rfl rfl rfl rfl

theorem allNotesOff_pitched (hi : i < 6) (c : Nat) (k : Pitched D i s) : Pitched D i (allNotesOff env s c) :=
  foreach_pitched (fun t j _ _ k => Bide.pitched
    ((setDev_bide (s := t) (j := j) hi (f := fun d => { d with noteOn := false, pitch := 0 }) rfl rfl (.inl rfl)
      fun _ x => by cases x).trans (.fm (by simp) (by simp) (by simp) devAllNotesOff_hold)) k) k

theorem tick_pitched (hi : i < 6) (k : Pitched D i s) : Pitched D i (tick env s) := by
  unfold tick
  refine fold_pitched _ (fun t j hj k => ?_) s k
  have hj : j < 13 := by simpa using hj
  split
  · exact k
  split
  · split
    · unfold processGlide
      split
      · exact k
      · rename_i g _
        by_cases e : j = i
        · subst e
          exact setDownstreamPitch_pitched hi (k.toBased.setDev hi rfl rfl rfl id)
        · have h1 := setDev_bide (s := t) (j := j) hi
            (f := fun d => { d with pitch := g.pitch, cents := g.cents, glide := g.target }) rfl rfl (.inl rfl)
            fun x => absurd x e
          exact (h1.trans (setDownstreamPitch_bide (h1.tie k.tie) hj e)).pitched k
    · exact k
  · exact k.plain rfl rfl rfl rfl

/-- Without bend the range does not matter. -/
theorem pc_centred (p : Nat) (x : Int) (r r' : PitchCents) (f : Int) :
    effectivePitchCents p x 0x2000 r f = effectivePitchCents p x 0x2000 r' f := by
  simp [effectivePitchCents, pcBend]

theorem updatePbRange_pitched (hi : i < 6) (c v : Nat) (b : Bool) (k : Pitched D i s) :
    Pitched D i (updatePbRange env s c v b) := by
  unfold updatePbRange
  extract_lets a
  have ed : a.dev = s.dev := rfl
  have ef : a.fm = s.fm := rfl
  have ka : Based D i a := ⟨k.tie.dev rfl, k.dyn, k.quiet, k.perc⟩
  have keep : ((s.dev i).midiChannel = c → (s.dev i).pitchBend = 0x2000) → pcOf a i = pcOf s i := by
    intro h
    unfold pcOf
    by_cases e : (s.dev i).midiChannel = c
    · simp only [a, setChan_dev, setChan_chan, e, Psg.upd_same, h e]
      exact pc_centred _ _ _ _ _
    · simp only [a, setChan_dev, setChan_chan, Psg.upd_other _ _ _ _ e]
  clear_value a
  have kp : ((s.dev i).midiChannel = c → (s.dev i).pitchBend = 0x2000) → Pitched D i a := by
    intro h
    refine ⟨ka, ?_⟩
    rw [keep h, ed, ef]; exact k.right
  have sp := foreach_split (s := a) (I := Based D i) (R := fun t u => Bide i t u ∧ u.dev i = t.dev i) (c := c) (i := i)
    (body := fun s i => if (s.dev i).pitchBend ≠ 0x2000 then setDownstreamPitch env s i else s)
    (fun _ => ⟨.refl, rfl⟩) (fun _ _ _ h k => ⟨h.1.trans k.1, k.2.trans h.2⟩)
    (fun t j ht hj _ => by
      show Based D i (if (t.dev j).pitchBend ≠ 0x2000 then setDownstreamPitch env t j else t)
      split
      · by_cases e : j = i
        · subst e; exact (setDownstreamPitch_pitched hi ht).toBased
        · exact (setDownstreamPitch_bide ht.tie hj e).based ht
      · exact ht)
    (fun t j ht hj hne _ => by
      show Bide i t (if (t.dev j).pitchBend ≠ 0x2000 then setDownstreamPitch env t j else t) ∧
        (if (t.dev j).pitchBend ≠ 0x2000 then setDownstreamPitch env t j else t).dev i = t.dev i
      split
      · exact ⟨setDownstreamPitch_bide ht.tie hj hne, by rw [setDownstreamPitch_dev]⟩
      · exact ⟨.refl, rfl⟩)
    (fun t u h => h.1.map) (by omega) ka
  generalize foreach a c (fun s i => if (s.dev i).pitchBend ≠ 0x2000 then setDownstreamPitch env s i else s) = w at *
  by_cases e : (s.dev i).midiChannel = c
  · rw [if_pos (by rw [ed]; exact e)] at sp
    obtain ⟨t, ht, r1, r2⟩ := sp
    by_cases h : (t.dev i).pitchBend = 0x2000
    · rw [if_neg (by simp [h])] at r2
      exact (r1.1.trans r2.1).pitched (kp fun _ => by rw [← ed, ← r1.2]; exact h)
    · rw [if_pos h] at r2
      exact r2.1.pitched (setDownstreamPitch_pitched hi ht)
  · rw [if_neg (by rw [ed]; exact e)] at sp
    exact sp.1.pitched (kp fun x => absurd x e)

theorem rpnDataEntry_pitched (hi : i < 6) (c v : Nat) (b : Bool) (k : Pitched D i s) :
    Pitched D i (rpnDataEntry env s c v b) := by
  unfold rpnDataEntry; split
  · exact updatePbRange_pitched hi c v b k
  · exact k.plain rfl rfl rfl rfl

/-! ### Resets -/

theorem Tie.wired (env : Env) {n : Nat} (hn : n ≤ 13) (s : St) :
    (∀ j, j < n → (((List.range n).foldl (initDev env) s).dev j).num = chipNum j ∧
      ((((List.range n).foldl (initDev env) s).dev j).ops = .fm → j < 6) ∧
      (j < 6 → (((List.range n).foldl (initDev env) s).dev j).ops = .fm) ∧
      (6 ≤ j → j ≤ 9 → (((List.range n).foldl (initDev env) s).dev j).ops = .psg) ∧
      (((List.range n).foldl (initDev env) s).dev j).noteOn = false) := by
  induction n with
  | zero => intro j h; exact absurd h (by omega)
  | succ n ih =>
    intro j hj
    have h := ih (by omega)
    rw [List.range_succ, List.foldl_append]
    simp only [List.foldl_cons, List.foldl_nil]
    generalize (List.range n).foldl (initDev env) s = t at *
    obtain ⟨w1, w2, w3, w4, w5, w6⟩ := initDev_wired env t n (by omega)
    by_cases e : j = n
    · subst e; exact ⟨w1, w2, w3, w4, w5⟩
    · rw [w6 j e]; exact h j (by omega)

theorem resetChannels_pitched (hi : i < 6) (h : D → i = 3 → s.dynamic = true) : Pitched D i (resetChannels env s) := by
  unfold resetChannels
  extract_lets a
  have w := Tie.wired env (n := 13) (by omega) a
  have hd : ((List.range 13).foldl (initDev env) a).dynamic = s.dynamic :=
    List.foldlRecOn (motive := fun (t : St) => t.dynamic = s.dynamic) _ _ rfl fun t h i _ => by
      rw [initDev_dynamic]; exact h
  generalize (List.range 13).foldl (initDev env) a = t at *
  have ed : ∀ j, j < 13 → (applyDynamicMode t).dev j = { t.dev j with midiChannel := if t.dynamic then 0x7F else j } :=
    fun j hj => by simp [applyDynamicMode, hj]
  have off : ((applyDynamicMode t).dev i).noteOn = false := by rw [ed i (by omega)]; exact (w i (by omega)).2.2.2.2
  refine Based.silent ⟨⟨fun j hj => ?_, ?_, fun j hj => ?_, fun j hj => ?_⟩, ?_, ?_, fun x => by rw [off] at x; cases x⟩ off
  · rw [ed j hj]; exact (w j hj).1
  · rw [ed i (by omega)]; exact (w i (by omega)).2.2.1 hi
  · rw [ed j hj]; exact (w j hj).2.1
  · rw [ed j hj]; exact (w j hj).2.2.2.1
  · intro d e; show t.dynamic = true; rw [hd]; exact h d e
  · intro d j h6 h13 hn
    rw [ed j h13, hd]
    simp only
    split
    · omega
    · rename_i hf
      intro e
      subst e
      exact hf (h d (by rw [← hn]; decide))

theorem allNotesOff_dynamic (s : St) (c : Nat) : (allNotesOff env s c).dynamic = s.dynamic :=
  List.foldlRecOn (motive := fun (t : St) => t.dynamic = s.dynamic) _ _ rfl fun t h i _ => by
    split
    · rw [devAllNotesOff_dynamic]; exact h
    · exact h

theorem generalMidiReset_pitched (hi : i < 6) (k : Pitched D i s) : Pitched D i (generalMidiReset env s) := by
  unfold generalMidiReset
  extract_lets a b
  have hb : a.dynamic = s.dynamic := List.foldlRecOn (motive := fun (t : St) => t.dynamic = s.dynamic) _ _ rfl
    fun t h i _ => by rw [allNotesOff_dynamic]; exact h
  clear_value a
  refine resetChannels_pitched hi fun d e => ?_
  simp only [b]; split
  · rfl
  · rw [hb]; exact k.dyn d e

theorem initDev_bide (hi : i < 6) (k : Tie 13 i s) (hj : j < 13) (hne : j ≠ i) (h : chipNum j = i → j ≠ 9) :
    Bide i s (initDev env s j) := by
  unfold initDev
  extract_lets a
  have own : (a.dev j).num = chipNum j ∧ (a.dev j).midiChannel = j ∧ ((a.dev j).ops = .fm → j < 6) ∧
      (6 ≤ j → j ≤ 9 → (a.dev j).ops = .psg) := by
    simp only [a, setDev_dev, Psg.upd_same, chipNum]
    by_cases h5 : j ≤ 5
    · simp [h5]; omega
    · by_cases h9 : j ≤ 9 <;> simp [h5, h9]
  have oth : ∀ l, l ≠ j → a.dev l = s.dev l := fun l e => by simp [a, Psg.upd_other _ _ _ _ e]
  have h1 : a.chan = s.chan ∧ a.fm = s.fm ∧ a.dynamic = s.dynamic := ⟨rfl, rfl, rfl⟩
  clear_value a
  have oi := oth i (Ne.symm hne)
  have ba : Bide i s a := by
    refine ⟨fun k => ⟨fun l hl => ?_, by rw [oi]; exact k.mine, fun l hl => ?_, fun l hl => ?_⟩, h1.2.2, by rw [oi],
      fun l _ hl e => ?_, by rw [oi]; exact id, fun _ _ => by unfold pcOf; rw [oi, h1.1], by rw [h1.2.1]; exact id,
      by rw [h1.2.1], by rw [h1.2.1]⟩
    · by_cases e : l = j
      · subst e; exact own.1
      · rw [oth l e]; exact k.num l hl
    · by_cases e : l = j
      · subst e; exact own.2.2.1
      · rw [oth l e]; exact k.kind l hl
    · by_cases e : l = j
      · subst e; exact own.2.2.2
      · rw [oth l e]; exact k.psg l hl
    · by_cases e' : l = j
      · subst e'; rw [own.2.1]; exact fun x => absurd x (h e)
      · rw [oth l e']; exact id
  exact ba.trans (updateDev_bide hi (ba.tie k) hj hne (by rw [own.2.1]; exact h))

theorem resetAllControllers_pitched (hi : i < 6) {c : Nat} (sy : Synced s) (k : Pitched D i s) (h3 : i = 3 → c ≠ 9) :
    Pitched D i (resetAllControllers env s c) := by
  unfold resetAllControllers
  extract_lets a b
  have hd : b.dynamic = s.dynamic :=
    List.foldlRecOn (motive := fun (t : St) => t.dynamic = s.dynamic) _ _ rfl fun t h i _ => by
      split
      · rw [initDev_dynamic]; exact h
      · exact h
  have tb : Tie 13 i b := by
    refine List.foldlRecOn (motive := fun t => Tie 13 i t) _ _ (k.tie.dev (t := a) rfl) fun t h j hj => ?_
    have hj : j < 13 := by simpa using hj
    split
    · obtain ⟨w1, w2, w3, w4, -, w6⟩ := initDev_wired env t j hj
      refine ⟨fun l hl => ?_, ?_, fun l hl => ?_, fun l hl => ?_⟩
      · by_cases e : l = j
        · subst e; exact w1
        · rw [w6 l e]; exact h.num l hl
      · by_cases e : i = j
        · subst e; exact w3 hi
        · rw [w6 i e]; exact h.mine
      · by_cases e : l = j
        · subst e; exact w2
        · rw [w6 l e]; exact h.kind l hl
      · by_cases e : l = j
        · subst e; exact w4
        · rw [w6 l e]; exact h.psg l hl
    · exact h
  have eb : foreach a c (initDev env) = b := rfl
  clear_value b
  have hb : s.dynamic = false → i ≠ c → Bide i s b := by
    intro hs hne
    have hm := sy.map hs
    have ba : Bide i s a := Bide.setChan fun e => by rw [hm i (by omega)] at e; exact absurd e hne
    have := foreach_done (s := a) (c := c) (body := initDev env)
      (I := fun t => Bide i s t ∧ ∀ j, j < 13 → (t.dev j).midiChannel = j) (Q := fun _ _ => True)
      (fun t j hj hjc h => by
        have e : j = c := (h.2 j hj).symm.trans hjc
        refine ⟨h.1.trans (initDev_bide hi (h.1.tie k.tie) hj (by omega) fun e9 ej => ?_), fun l hl => ?_⟩
        · subst ej; exact h3 (by rw [← e9]; decide) e.symm
        · have d := initDev_dev env t (i := j) hj
          by_cases e' : l = j
          · subst e'; exact d.2.1
          · rw [d.1, Psg.upd_other _ _ _ _ e']; exact h.2 l hl)
      (fun t j l h hj hjc => by
        have d := initDev_dev env t (i := j) hj
        by_cases e' : l = j
        · subst e'; rw [d.2.1, h.2 l hj]
        · rw [d.1, Psg.upd_other _ _ _ _ e'])
      (fun _ _ _ _ _ => trivial) (fun _ _ _ _ _ _ _ _ _ => trivial) ⟨ba, hm⟩
    rw [eb] at this
    exact this.1.1
  have hc : s.dynamic = false → i = c → (b.dev i).noteOn = false := by
    intro hs hne
    have hm := sy.map hs
    have := foreach_done (s := a) (c := c) (body := initDev env)
      (I := fun t => ∀ j, j < 13 → (t.dev j).midiChannel = j) (Q := fun j t => (t.dev j).noteOn = false)
      (fun t j hj hjc h l hl => by
        have d := initDev_dev env t (i := j) hj
        by_cases e' : l = j
        · subst e'; exact d.2.1
        · rw [d.1, Psg.upd_other _ _ _ _ e']; exact h l hl)
      (fun t j l h hj hjc => by
        have d := initDev_dev env t (i := j) hj
        by_cases e' : l = j
        · subst e'; rw [d.2.1, h l hj]
        · rw [d.1, Psg.upd_other _ _ _ _ e'])
      (fun t j h hj hjc => initDev_off env t hj)
      (fun t j l h hj hl hjc e q => by
        rw [(initDev_dev env t (i := j) hj).1, Psg.upd_other _ _ _ _ e]; exact q) hm
    rw [eb] at this
    exact this.2.2 i (by omega) (by show (s.dev i).midiChannel = c; rw [hm i (by omega)]; exact hne)
  have ed : ∀ j, j < 13 → (setDynamicMode b (modeOf b.dynamic)).dev j =
      { b.dev j with midiChannel := if b.dynamic then 0x7F else j } := fun j hj => by
    cases h : b.dynamic <;> simp [setDynamicMode, modeOf, applyDynamicMode, hj]
  have edy : (setDynamicMode b (modeOf b.dynamic)).dynamic = b.dynamic := by
    cases h : b.dynamic <;> simp [setDynamicMode, modeOf, applyDynamicMode]
  have efm : (setDynamicMode b (modeOf b.dynamic)).fm = b.fm ∧ (setDynamicMode b (modeOf b.dynamic)).chan = b.chan := by
    cases h : b.dynamic <;> simp [setDynamicMode, modeOf, applyDynamicMode]
  generalize setDynamicMode b (modeOf b.dynamic) = w at *
  have tw : Tie 13 i w := ⟨fun l hl => by rw [ed l hl]; exact tb.num l hl, by rw [ed i (by omega)]; exact tb.mine,
    fun l hl => by rw [ed l hl]; exact tb.kind l hl, fun l hl => by rw [ed l hl]; exact tb.psg l hl⟩
  have qw : D → ∀ j, 6 ≤ j → j < 13 → chipNum j = i → (w.dev j).midiChannel ≠ 9 := by
    intro d j h6 h13 hn
    rw [ed j h13, hd]
    simp only
    split
    · omega
    · rename_i hf
      intro e
      subst e
      exact hf (k.dyn d (by rw [← hn]; decide))
  have dw : D → i = 3 → w.dynamic = true := fun d e => by rw [edy, hd]; exact k.dyn d e
  cases hs : s.dynamic with
  | true =>
    have m : ¬ (w.dev i).midiChannel < 16 := by rw [ed i (by omega), hd, hs]; simp
    exact ⟨⟨tw, dw, qw, fun _ y => absurd y m⟩, fun _ y => absurd y m⟩
  | false =>
    by_cases e : i = c
    · have off : (w.dev i).noteOn = false := by rw [ed i (by omega)]; exact hc hs e
      exact Based.silent ⟨tw, dw, qw, fun x => by rw [off] at x; cases x⟩ off
    · have kb := (hb hs e).pitched k
      have own : w.dev i = b.dev i := by
        rw [ed i (by omega), hd, hs]
        have : (b.dev i).midiChannel = i := ((hb hs e).map).trans (sy.map hs i (by omega))
        cases hx : b.dev i
        rw [hx] at this
        simp only at this
        simp [this]
      refine ⟨⟨tw, dw, qw, ?_⟩, ?_⟩
      · rw [own, efm.1]; exact kb.perc
      · have : pcOf w i = pcOf b i := by unfold pcOf; rw [own, efm.2]
        rw [this, own, efm.1]; exact kb.right

/-! ### Controllers and system exclusive messages -/

theorem enableDac_pitched (e : Bool) (k : Pitched D i s) (h : i = 5 → e = false) : Pitched D i (enableDac env s e) := by
  unfold enableDac
  have x : ∀ l, (setDev s 5 fun d => { d with ops := if e = true then .dac else .fm }).dev l =
      { s.dev l with ops := if l = 5 then (if e = true then .dac else .fm) else (s.dev l).ops } := by
    intro l
    rw [setDev_dev]
    by_cases hl : l = 5
    · subst hl; simp
    · simp [Psg.upd_other _ _ _ _ hl, hl]
  refine Pitched.call (s := setDev s 5 fun d => { d with ops := if e = true then .dac else .fm }) ?_ id
  have hf : (setDev s 5 fun d => { d with ops := if e = true then .dac else .fm }).fm = s.fm := rfl
  have hc : (setDev s 5 fun d => { d with ops := if e = true then .dac else .fm }).chan = s.chan := rfl
  have hd : (setDev s 5 fun d => { d with ops := if e = true then .dac else .fm }).dynamic = s.dynamic := rfl
  generalize (setDev s 5 fun d => { d with ops := if e = true then .dac else .fm }) = t at *
  have tie : Tie 13 i t := by
    refine ⟨fun l hl => by rw [x l]; exact k.tie.num l hl, ?_, fun l hl => ?_, fun l hl h6 h9 => ?_⟩
    · rw [x i]; simp only
      split
      · rename_i hi; simp [h hi]
      · exact k.tie.mine
    · rw [x l]; simp only
      split
      · omega
      · exact k.tie.kind l hl
    · rw [x l]; simp only
      rw [if_neg (by omega)]; exact k.tie.psg l hl h6 h9
  have pc : pcOf t i = pcOf s i := by unfold pcOf; rw [x i, hc]
  refine ⟨⟨tie, by rw [hd]; exact k.dyn, fun d j a b e => by rw [x j]; exact k.quiet d j a b e, ?_⟩, ?_⟩
  · rw [x i, hf]; exact k.perc
  · rw [pc, x i, hf]; exact k.right

theorem setFmParam_pitched {n v : Nat} (k : Pitched D i s) (h78 : n = 78 → i = 5 → v < 64) :
    Pitched D i (setFmParam env s j n v) := by
  unfold setFmParam
  split
  · split
    · exact k
    · exact k.call id
  · split
    · split
      · exact k
      · rename_i e _
        exact enableDac_pitched _ k fun h => by have := h78 e h; simp; omega
    · exact k.plain rfl rfl rfl rfl

theorem ccSwitch_pitched (hi : i < 6) {n v : Nat} (sy : Synced s) (k : Pitched D i s) (h84 : n ≠ 84)
    (h78 : n = 78 → i = 5 → v < 64) (h121 : n = 121 → i = 3 → c ≠ 9)
    (h85 : n = 85 → (s.dev i).midiChannel = c → (s.dev i).noteOn = true → False) :
    Pitched D i (ccSwitch env s c n v) := by
  have kc : ∀ {f : Chan → Chan}, (∀ m, (f m).range = m.range ∧ (f m).fineTune = m.fineTune) → Pitched D i (setChan s c f) :=
    fun h => (Bide.setChan fun _ _ => h _).pitched k
  unfold ccSwitch
  split
  · split
    · exact kc fun _ => ⟨rfl, rfl⟩
    · exact k.plain rfl rfl rfl rfl
  · exact foreach_pitched (fun t j _ _ k => (updateVolume_bide hi).pitched k) (kc fun _ => ⟨rfl, rfl⟩)
  · exact foreach_pitched (fun t j _ _ k => (updatePan_bide hi).pitched k) (kc fun _ => ⟨rfl, rfl⟩)
  · exact allNotesOff_pitched hi c k
  · exact allNotesOff_pitched hi c k
  · exact absurd rfl h84
  · exact k.call id
  · exact resetAllControllers_pitched hi sy k (h121 rfl)
  · split
    · exact k
    · exact k.plain rfl rfl rfl rfl
  · split
    · exact k
    · exact kc fun _ => ⟨rfl, rfl⟩
  · exact kc fun _ => ⟨rfl, rfl⟩
  · split
    · exact k
    · exact (Bide.setChan fun e on => (h85 rfl e on).elim).pitched k
  · exact rpnDataEntry_pitched hi c v true k
  · exact rpnDataEntry_pitched hi c v false k
  · exact kc fun _ => ⟨rfl, rfl⟩
  · exact kc fun _ => ⟨rfl, rfl⟩
  · exact k
  · exact k
  · exact k
  · exact k
  · unfold storeFromChannel; split
    · exact (say_bide _).pitched (k.call id)
    · exact k
  · exact foreach_pitched (fun t j _ _ k => setFmParam_pitched k h78) k

theorem clearAll_bide (d : List Nat) : Bide i s (clearAll env s d) := by
  unfold clearAll
  split
  · have : ∀ (l : List Nat) (s : St), Bide i s (l.foldl (fun s n => fmCall env s (.clear n)) s) := by
      intro l
      induction l with
      | nil => intro s; exact .refl
      | cons n l ih => intro s; exact (fmCall_bide (op := .clear n) id).trans (ih _)
    exact (this _ s).trans (say_bide _)
  · exact .fm rfl rfl rfl .refl

theorem handler_bide (c : Nat) (e : List Nat) (j : Nat) (h0 : c ≠ 0) (h3 : c ≠ 3) : Bide i s (handler env s c e j) := by
  unfold handler
  split
  · exact absurd rfl h0
  · exact .fm rfl rfl rfl .refl
  · exact absurd rfl h3
  · exact .fm rfl rfl rfl .refl
  · exact .fm rfl rfl rfl .refl
  · unfold loadPsgEnvelope; split <;> exact .fm rfl rfl rfl .refl
  · exact .fm rfl rfl rfl .refl
  · exact fmCall_bide id
  · exact fmCall_bide id
  · unfold storeProgram; split
    · exact (fmCall_bide id).trans (say_bide _)
    · exact .fm rfl rfl rfl .refl
  · unfold clearProgram; split
    · exact (fmCall_bide id).trans (say_bide _)
    · exact .fm rfl rfl rfl .refl
  · exact clearAll_bide e
  · unfold dumpPreset; split
    · split <;> exact .fm rfl rfl rfl .refl
    · exact .fm rfl rfl rfl .refl
  · unfold dumpChannel; simp only; split
    · exact .fm rfl rfl rfl .refl
    split
    · split
      · split <;> exact .fm rfl rfl rfl .refl
      · exact .fm rfl rfl rfl .refl
    · exact .fm rfl rfl rfl .refl
  · exact .refl

theorem sysex_pitched (hi : i < 6) {d : List Nat} {l : Nat} (h : ¬(Op.sysex d l).rewires) (k : Pitched D i s) :
    Pitched D i (sysex env s d l) := by
  unfold sysex
  split
  · exact k
  rename_i hlen
  split
  · exact generalMidiReset_pitched hi k
  split
  · exact k
  rename_i h3
  have h3 : d.take 3 = [0, 0x22, 0x77] := by simpa using h3
  have h4 : d.take 4 = [0, 0x22, 0x77, d.getD 3 0] := by
    rw [List.take_add_one, h3, List.getElem?_eq_getElem (by omega), List.getD_eq_getElem?_getD,
      List.getElem?_eq_getElem (by omega)]
    rfl
  have hh : Pitched D i (handler env s (d.getD 3 0) (d.drop 4) l) := by
    refine (handler_bide _ _ _ ?_ ?_).pitched k <;> intro e <;> apply h <;> rw [e] at h4
    · exact .inl h4
    · exact .inr h4
  simp only
  split
  · exact k.plain rfl rfl rfl rfl
  · split
    · exact k.plain rfl rfl rfl rfl
    · exact hh
  · exact hh

/-! ### Steps -/

/-- Messages that may sound on FM voice `i` as long as it is to be in tune. -/
def Op.tuneful (env : Env) (D : Prop) (i : Nat) : Op → Prop
  | .noteOn c _ _ => ¬D → c ≠ 9
  | .cc c k v => (k = 78 → i = 5 → v < 64) ∧ (k = 121 → i = 3 → c ≠ 9)
  | .reset => D → i = 3 → env.mode = .dynamic
  | _ => True

theorem reset_pitched (hi : i < 6) (h : D → i = 3 → env.mode = .dynamic) : Pitched D i (reset env s) := by
  unfold reset
  exact resetChannels_pitched hi fun d e => by simp [h d e]

theorem step_pitched (hi : i < 6) {op : Op} (hr : ¬op.rewires) (ht : op.tuneful env D i) (sy : Synced s)
    (h85 : ∀ c v, op = .cc c 85 v → (s.dev i).midiChannel = c → (s.dev i).noteOn = true → False)
    (k : Pitched D i s) : Pitched D i (step env s op) := by
  cases op with
  | noteOn c p v =>
    simp only [step]; split
    · rename_i hc; exact noteOn_pitched hi hc p v k ht
    · exact k.plain rfl rfl rfl rfl
  | noteOff c p =>
    simp only [step]; split
    · exact noteOff_pitched hi c p k
    · exact k.plain rfl rfl rfl rfl
  | bend c b =>
    simp only [step]; split
    · exact pitchBend_pitched hi c b k
    · exact k.plain rfl rfl rfl rfl
  | program c p =>
    simp only [step]; split
    · exact program_pitched hi c p k
    · exact k.plain rfl rfl rfl rfl
  | remap c l => exact absurd trivial hr
  | reset => simp only [step]; exact reset_pitched hi ht
  | tick => simp only [step]; exact tick_pitched hi k
  | psgTick => simp only [step]; exact k.plain rfl rfl rfl rfl
  | sysex d l => simp only [step]; exact sysex_pitched hi hr k
  | cc c n v =>
    simp only [step]; split
    · have := ccSwitch_pitched (env := env) (c := c) hi sy k hr ht.1 ht.2
        fun e => h85 c v (by rw [e])
      unfold cc
      generalize ccSwitch env s c n v = t at *
      exact this.plain rfl rfl rfl rfl
    · exact k.plain rfl rfl rfl rfl

/-! ### Channels no note was played on -/

/-- No voice sounds on MIDI channel `c`. -/
def Mute (c : Nat) (s : St) : Prop := ∀ j, j < 13 → (s.dev j).midiChannel = c → (s.dev j).noteOn = false

theorem Calm.mute {c : Nat} (h : Calm s t) (k : Mute c s) : Mute c t := fun j hj e => by
  rw [h.map j] at e
  cases hn : (t.dev j).noteOn with
  | false => rfl
  | true => rw [← h.on j hn, k j hj e]

theorem startNote_mute {i c c' : Nat} (hc : c < 16) (hne : c ≠ c') (p v : Nat) (k : Mute c' s) :
    Mute c' (startNote env s i c p v) := by
  intro j hj h
  rw [startNote_dev hc] at h ⊢
  by_cases e : j = i
  · subst e; simp [Dev.sync] at h; exact absurd h hne
  · rw [Psg.upd_other _ _ _ _ e] at h ⊢; exact k j hj h

theorem noteOn_mute {c c' : Nat} (hc : c < 16) (hne : c ≠ c') (p v : Nat) (k : Mute c' s) :
    Mute c' (noteOn env s c p v) := by
  unfold noteOn
  split
  · exact (noteOff_calm c p).mute k
  split
  · exact k
  split
  · exact (say_calm _).mute k
  rename_i i hi
  split
  · split
    · exact (say_calm _).mute k
    split
    · exact (Calm.same (s := s) (t := ub s) rfl rfl rfl).mute k
    rename_i st _
    simp only
    have h1 : Calm s (setChan s c fun m => { m with stack := st, lastVelocity := v }) := .setChan rfl
    generalize setChan s c (fun m => { m with stack := st, lastVelocity := v }) = t at *
    have h2 : ∀ g, Calm t (setDev t i fun d => { d with glide := g }) := fun g =>
      .upd (i := i) (d := { t.dev i with glide := g }) rfl rfl id rfl rfl rfl
    split
    · exact (h2 p).mute (h1.mute k)
    · exact startNote_mute hc hne p v ((h2 0).mute (h1.mute k))
  · exact startNote_mute hc hne p v k

theorem pitchBend_mute {c c' : Nat} (b : Nat) (k : Mute c' s) : Mute c' (pitchBend env s c b) := by
  unfold pitchBend
  obtain ⟨-, h2⟩ := foreach_devs (s := setChan s c fun m => { m with pitchBend := b }) (c := c)
    (body := fun s i => if (s.dev i).noteOn then updatePitchBend env s c i else s)
    (g := fun m d => if d.noteOn then { d with pitchBend := m.pitchBend } else d)
    (fun t i => by
      by_cases e : (t.dev i).noteOn = true
      · simp only [if_pos e]; exact updatePitchBend_dev c i
      · simp only [if_neg e]; exact (upd_triv _ _).symm)
    (fun t i => by
      by_cases e : (t.dev i).noteOn = true
      · simp only [if_pos e]; exact updatePitchBend_chan c i
      · simp only [if_neg e])
    (fun t i => by
      by_cases e : (t.dev i).noteOn = true
      · simp only [if_pos e]; exact updatePitchBend_dynamic c i
      · simp only [if_neg e])
  simp only
  generalize foreach (setChan s c fun m => { m with pitchBend := b }) c
    (fun s i => if (s.dev i).noteOn then updatePitchBend env s c i else s) = t at *
  simp only [setChan_dev, setChan_chan, Psg.upd_same] at h2
  intro j hj e
  have q : (t.dev j).midiChannel = (s.dev j).midiChannel ∧ (t.dev j).noteOn = (s.dev j).noteOn := by
    rw [h2 j]; split
    · split <;> simp
    · simp
  rw [q.1] at e; rw [q.2]; exact k j hj e

theorem resetChannels_off : ∀ j, j < 13 → ((resetChannels env s).dev j).noteOn = false := by
  unfold resetChannels
  extract_lets a
  have key : ∀ n, n ≤ 13 → ∀ j, j < n → (((List.range n).foldl (initDev env) a).dev j).noteOn = false := by
    intro n
    induction n with
    | zero => intro _ j h; exact absurd h (by omega)
    | succ n ih =>
      intro hn j hj
      have h2 := ih (by omega)
      simp only [List.range_succ, List.foldl_append, List.foldl_cons, List.foldl_nil]
      generalize (List.range n).foldl (initDev env) a = t at *
      by_cases e : j = n
      · subst e; exact initDev_off env t (by omega)
      · rw [(initDev_dev env t (i := n) (by omega)).1, Psg.upd_other _ _ _ _ e]; exact h2 j (by omega)
  have h2 := key 13 (by omega)
  generalize (List.range 13).foldl (initDev env) a = t at *
  intro j hj
  simp only [applyDynamicMode, hj, if_true]
  exact h2 j hj

def Fewer (s t : St) : Prop := ∀ j, j < 13 → (t.dev j).noteOn = true → (s.dev j).noteOn = true

theorem Fewer.refl : Fewer s s := fun _ _ => id

theorem foreach_fewer {a : St} {c : Nat} (h : Fewer s a) : Fewer s (foreach a c (initDev env)) := by
  unfold foreach
  refine List.foldlRecOn (motive := Fewer s) _ _ h fun t h i hi => ?_
  have hi : i < 13 := by simpa using hi
  split
  · intro j hj hn
    by_cases e : j = i
    · subst e; rw [initDev_off env t hj] at hn; cases hn
    · rw [(initDev_dev env t (i := i) hi).1, Psg.upd_other _ _ _ _ e] at hn; exact h j hj hn
  · exact h

theorem resetAllControllers_mute {c c' : Nat} (hc : c' < 16) (sy : Synced s) (k : Mute c' s) :
    Mute c' (resetAllControllers env s c) := by
  unfold resetAllControllers
  extract_lets a b
  have hb : b.dynamic = s.dynamic :=
    List.foldlRecOn (motive := fun (t : St) => t.dynamic = s.dynamic) _ _ rfl fun t h i _ => by
      split
      · rw [initDev_dynamic]; exact h
      · exact h
  have ho : Fewer s b := foreach_fewer (a := a) fun _ _ => id
  clear_value b
  intro j hj e
  rw [hb] at e ⊢
  cases hd : s.dynamic with
  | true => simp [hd, setDynamicMode, modeOf, applyDynamicMode, hj] at e; omega
  | false =>
    have ed : ((setDynamicMode b (modeOf false)).dev j) = { b.dev j with midiChannel := j } := by
      simp [setDynamicMode, modeOf, applyDynamicMode, hj]
    rw [hd] at e
    rw [ed] at e ⊢
    cases hn : (b.dev j).noteOn with
    | false => rfl
    | true =>
      have := k j hj (by rw [sy.map hd j hj]; exact e)
      rw [ho j hj hn] at this; cases this

/-- A channel stays mute until a note is played on it. -/
theorem step_mute {c' : Nat} (hc' : c' < 16) {op : Op} (h : ¬op.rewires) (hp : ∀ p v, op ≠ .noteOn c' p v) (sy : Synced s)
    (k : Mute c' s) : Mute c' (step env s op) := by
  have kub : Mute c' (ub s) := (Calm.same (s := s) (t := ub s) rfl rfl rfl).mute k
  cases op with
  | noteOn c p v =>
    simp only [step]; split
    · rename_i hc; exact noteOn_mute hc (fun e => hp p v (by rw [e])) p v k
    · exact kub
  | noteOff c p =>
    simp only [step]; split
    · exact (noteOff_calm c p).mute k
    · exact kub
  | bend c b =>
    simp only [step]; split
    · exact pitchBend_mute b k
    · exact kub
  | program c p =>
    simp only [step]; split
    · unfold program
      have := Calm.trans (t := setChan s c fun m => { m with program := p }) (s := s) (.setChan rfl)
        (foreach_calm (c := c) (body := fun s i => updateProgram env s c i) (fun s i =>
          .upd (updateProgram_dev c i) rfl id rfl (by simp) (by simp)) _)
      simp only
      generalize foreach (setChan s c fun m => { m with program := p }) c (fun s i => updateProgram env s c i) = t at *
      exact (this.trans (.same rfl rfl rfl)).mute k
    · exact kub
  | remap c i => exact absurd trivial h
  | reset =>
    simp only [step]; unfold reset
    exact fun j hj _ => resetChannels_off j hj
  | tick => simp only [step]; exact (tick_calm (env := env) (s := s)).mute k
  | psgTick => simp only [step]; exact (Calm.same (s := s) (t := psgCall env s .tick) rfl rfl rfl).mute k
  | sysex d j =>
    simp only [step]
    unfold sysex
    split
    · exact k
    rename_i hlen
    split
    · unfold generalMidiReset; exact fun j hj _ => resetChannels_off j hj
    split
    · exact k
    rename_i h3
    have h3 : d.take 3 = [0, 0x22, 0x77] := by simpa using h3
    have h4 : d.take 4 = [0, 0x22, 0x77, d.getD 3 0] := by
      rw [List.take_add_one, h3, List.getElem?_eq_getElem (by omega), List.getD_eq_getElem?_getD,
        List.getElem?_eq_getElem (by omega)]
      rfl
    have hh : Mute c' (handler env s (d.getD 3 0) (d.drop 4) j) := by
      refine (handler_calm _ _ _ ?_ ?_).mute k <;> intro e <;> apply h <;> rw [e] at h4
      · exact .inl h4
      · exact .inr h4
    simp only
    split
    · exact (say_calm _).mute k
    · split
      · exact (say_calm _).mute k
      · exact hh
    · exact hh
  | cc c n v =>
    simp only [step]; split
    · have kk : Mute c' (ccSwitch env s c n v) := by
        by_cases h121 : n = 121
        · subst h121; rw [ccSwitch_121]; exact resetAllControllers_mute hc' sy k
        exact (ccSwitch_calm c n v h h121).mute k
      unfold cc
      generalize ccSwitch env s c n v = t at *
      exact (Calm.same (s := t) (t := emit t (.changedCc c n v)) rfl rfl rfl).mute kk
    · exact kub

theorem run_mute {c : Nat} (hc : c < 16) (ops : List Op) (h : ∀ op ∈ ops, ¬op.rewires) (hn : ∀ p v, .noteOn c p v ∉ ops)
    (b : Bool) (m : Sram.Mem) : Mute c (run env (boot env b m) ops) := by
  have hb : Synced (boot env b m) ∧ Mute c (boot env b m) :=
    ⟨step_synced_reset (powerOn env b m), by unfold boot reset; exact fun j hj _ => resetChannels_off j hj⟩
  unfold run
  exact (List.foldlRecOn (motive := fun t => Synced t ∧ Mute c t) ops _ hb fun t k op ho =>
    ⟨step_synced (h op ho) k.1, step_mute hc (h op ho) (fun p v e => hn p v (e ▸ ho)) k.1 k.2⟩).2

/-! ### Whole histories -/

theorem makes_tracked {op : Op} {o : Fm.Op} (h : op.makes o) (hr : ¬op.raw) (hs : op ≠ .reset) : o.tracked := by
  cases o with
  | reset => exact hs h
  | synth q =>
    cases q with
    | directWrite p r d => exact absurd rfl (makes_proper h hr p r d)
    | pitch c a b =>
      rcases h with ⟨_, _, _, h, -⟩ | ⟨_, k, v, rfl, ⟨_, _, h⟩ | ⟨_, h⟩ | ⟨inv, n, h⟩⟩
      · cases h
      · cases h
      · cases h
      · unfold fmParam at h; split at h <;> simp at h
    | _ => trivial
  | _ => trivial

theorem FmBy.freqOf (he : env.Ok) {i : Nat} (hi : i < 6) {P : Fm.Op → Prop} {f g : Fm.St} (a : FmBy env P f g)
    (hP : ∀ o, P o → o.tracked) (hs : Fm.FmSafe f) (h : Fm.FreqOf env.fm i f) : Fm.FreqOf env.fm i g := by
  obtain ⟨l, hl, rfl⟩ := a
  exact Fm.run_freqOf he.fm hi hs l (fun o ho => (hl o ho).2) (fun o ho => hP o (hl o ho).1) h

theorem boot_pitch {env : Fm.Env} (b : Bool) (m : Sram.Mem) {i : Nat} (hi : i < 6) : ((Fm.boot env b m).ch i).pitch = 0 := by
  have h := (Fm.sramLoad_spec env { Fm.powerOn b m with user := fun _ => none, ch := Fm.resetChans (Fm.powerOn b m).ch }).2.1
  unfold Fm.boot Fm.reset
  simp only
  split <;> simp only [Fm.call, Fm.ub, h, Fm.resetChans, if_pos hi] <;> rfl

theorem boot_freqOf (he : env.Ok) {i : Nat} (hi : i < 6) (b : Bool) (m : Sram.Mem) : Fm.FreqOf env.fm i (boot env b m).fm := by
  obtain ⟨u, e, e1, e2, e3⟩ := reset_split env (powerOn env b m)
  have e0 : Fm.step env.fm (powerOn env b m).fm .reset = Fm.boot env.fm b m := by unfold Fm.boot powerOn; simp only [Fm.step]
  have e2 : u.psg = Psg.step env.psg (Psg.init env.psg) .reset := e2
  rw [e0] at e1
  have f0 := (Fm.boot_ok he.fm b m).1
  have f2 : Fm.FmSafe u.fm := e1 ▸ f0.step he.fm trivial
  have k0 : Fm.FreqOf env.fm i (Fm.boot env.fm b m) := .inl (boot_pitch b m hi)
  have k1 : Fm.FreqOf env.fm i u.fm := e1 ▸ Fm.step_freqOf he.fm hi f0 (op := .smReset) trivial trivial k0
  unfold boot
  rw [e]
  exact (resetChannels_fmBy (op := .tick) he f2 (e2 ▸ Psg.step_good he.psg (Psg.init_good he.psg) .reset trivial) e3).freqOf
    he hi (fun o ho => makes_tracked ho id (by simp)) f2 k1

/-- What holds of FM voice `i` throughout a history. -/
structure Follows (env : Env) (tame : Bool) (D : Prop) (i : Nat) (s : St) : Prop where
  ok : Ok env tame s
  synced : Synced s
  pitched : Pitched D i s
  freq : Fm.FreqOf env.fm i s.fm

theorem boot_follows (he : env.Ok) {tame : Bool} {i : Nat} (hi : i < 6) (h : D → i = 3 → env.mode = .dynamic) (b : Bool) (m : Sram.Mem) :
    Follows env tame D i (boot env b m) :=
  ⟨boot_ok he b m, step_synced_reset (powerOn env b m), reset_pitched hi h, boot_freqOf he hi b m⟩

theorem step_follows (he : env.Ok) {tame : Bool} {i : Nat} (hi : i < 6) {op : Op} (hw : op.Wf)
    (hd : tame = false → ¬op.enablesDac) (hb : tame = true → ¬op.detunes) (hr : ¬op.rewires) (hraw : ¬op.raw)
    (hs : op ≠ .reset) (ht : op.tuneful env D i)
    (h85 : ∀ c v, op = .cc c 85 v → (s.dev i).midiChannel = c → (s.dev i).noteOn = true → False)
    (k : Follows env tame D i s) : Follows env tame D i (step env s op) :=
  ⟨step_ok he k.ok hw hd hb, step_synced hr k.synced, step_pitched hi hr ht k.synced h85 k.pitched,
    (step_fmBy he k.ok hw hd hb).freqOf he hi (fun o ho => makes_tracked ho hraw hs) k.ok.fm k.freq⟩

theorem run_follows (he : env.Ok) {tame : Bool} {i : Nat} (hi : i < 6) (ops : List Op) : ∀ s : St,
    (∀ op ∈ ops, op.Wf ∧ (tame = false → ¬op.enablesDac) ∧ (tame = true → ¬op.detunes) ∧ ¬op.rewires ∧ ¬op.raw ∧
      op ≠ .reset ∧ op.tuneful env D i) →
    (∀ pre c v post, ops = pre ++ .cc c 85 v :: post →
      ((run env s pre).dev i).midiChannel = c → ((run env s pre).dev i).noteOn = true → False) →
    Follows env tame D i s → Follows env tame D i (run env s ops) := by
  induction ops with
  | nil => intro s _ _ k; exact k
  | cons op ops ih =>
    intro s h h85 k
    obtain ⟨a1, a2, a3, a4, a5, a6, a7⟩ := h op (by simp)
    refine ih (step env s op) (fun o ho => h o (by simp [ho])) (fun pre c v post e => ?_)
      (step_follows he hi a1 a2 a3 a4 a5 a6 a7 (fun c v e => h85 [] c v ops (by rw [e]; rfl)) k)
    exact h85 (op :: pre) c v post (by rw [e]; rfl)

/-- A pitch the FM chip can play is within its range of keys. -/
theorem pc_range {key : Nat} {cents : Int} {bend : Nat} {range : PitchCents} {fine n : Int} (hb : bend < 16384)
    (hr : range.pitch < 128) (hr0 : 0 ≤ range.cents) (hr1 : range.cents < 128)
    (e : Props.soundingCents key cents bend (100 * (range.pitch : Int) + range.cents) fine = n)
    (h0 : 0 ≤ n - fine) (h1 : n - fine < 25600) (h2 : 1100 ≤ n) (h3 : n < 10700) :
    11 ≤ (effectivePitchCents key cents bend range fine).pitch ∧ (effectivePitchCents key cents bend range fine).pitch ≤ 106 := by
  have es : (range.pitch : Int) * 100 + range.cents = 100 * (range.pitch : Int) + range.cents := by omega
  have ez : Props.soundingCents key cents bend (100 * (range.pitch : Int) + range.cents) 0 = n - fine := by
    rw [← e]; simp only [Props.soundingCents]; omega
  obtain ⟨x1, x2, x3⟩ := Props.C20_bend_exact_partial key cents bend range fine hb hr hr0 hr1
    (by rw [es, ez]; exact h0) (by rw [es, ez]; exact h1) (by rw [es, e]; omega) (by rw [es, e]; omega)
  rw [es, e] at x1
  omega

/-- A voice that follows its note, bend, range and fine tune has them on the chip. -/
theorem Follows.inTune {tame : Bool} {i : Nat} (k : Follows env tame D i s) {c : Nat} (hc : c < 16) (h9 : c ≠ 9)
    (hm : (s.dev i).midiChannel = c) (hn : (s.dev i).noteOn = true)
    (hb : (s.dev i).pitchBend = (s.chan c).pitchBend) {x : Tuning} (hx : HasTuning x c s)
    (bd : x.bend < 16384 ∧ x.semitones < 128 ∧ x.cents < 128) {n : Int}
    (e : Props.soundingCents (s.dev i).pitch (s.dev i).cents x.bend (100 * (x.semitones : Int) + x.cents) x.fine = n)
    (h0 : 0 ≤ n - x.fine) (h1 : n - x.fine < 25600) (h2 : 1100 ≤ n) (h3 : n < 10700) :
    Fm.InTune env.fm.pal (Synth.chipChannel s.fm.synth.out i).freq n.toNat 5 := by
  have ep : pcOf s i = effectivePitchCents (s.dev i).pitch (s.dev i).cents x.bend (s.chan c).range x.fine := by
    unfold pcOf; rw [hm, hb, hx.bend, hx.fine]
  have e' : Props.soundingCents (s.dev i).pitch (s.dev i).cents x.bend (100 * ((s.chan c).range.pitch : Int) + (s.chan c).range.cents)
      x.fine = n := by rw [hx.semitones, hx.cents]; exact e
  have r0 : 0 ≤ (s.chan c).range.cents := by rw [hx.cents]; omega
  have r1 : (s.chan c).range.cents < 128 := by rw [hx.cents]; omega
  have r2 : (s.chan c).range.pitch < 128 := by rw [hx.semitones]; exact bd.2.1
  have t := pitch_in_tune env.fm.pal bd.1 r2 r0 r1 e' h0 h1 h2 h3
  simp only at t
  rw [← ep] at t
  have rg : 11 ≤ (pcOf s i).pitch ∧ (pcOf s i).pitch ≤ 106 := by rw [ep]; exact pc_range bd.1 r2 r0 r1 e' h0 h1 h2 h3
  obtain ⟨q1, q2⟩ := k.pitched.right hn (by rw [hm]; exact hc) (by rw [hm]; exact h9) rg.1 rg.2
  rcases k.freq with z | z
  · omega
  · rw [z, q1, q2]; exact t

end Mdmi.Midi
