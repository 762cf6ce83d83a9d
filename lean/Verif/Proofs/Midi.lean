import Verif.Spec.Midi
import Verif.Proofs.MidiFm
import Verif.Proofs.Psg
import Verif.Proofs.NotePriority
import Verif.Proofs.Pitch
/-!
# The MIDI engine: invariant and frame of every call
-/
namespace Mdmi.Midi
open NotePriority (Rep)

/-- Where the pitches of sounding and waiting notes stop: samples exist for 7-bit pitches only. -/
abbrev top (tame : Bool) : Nat := if tame then 128 else 256

theorem lt_top {tame : Bool} {p : Nat} (h : p < 128) : p < top tame := by
  unfold top; split <;> omega

theorem top_le (tame : Bool) : top tame ≤ 256 := by unfold top; split <;> omega

/-- A device channel is what the mapping says. -/
structure DevOk (tame : Bool) (i : Nat) (d : Dev) : Prop where
  num : d.num = chipNum i
  kind : KindOk i d.ops
  map : MapOk d.midiChannel
  dac : tame = false → d.ops ≠ .dac
  bend : tame = true → d.pitchBend = 0x2000
  glide : d.glide < top tame

/-- A MIDI channel holds 7-bit values, but for the pitches of notes. -/
structure ChanOk (tame : Bool) (m : Chan) : Prop where
  volume : m.volume < 128
  program : m.program < 128
  velocity : m.lastVelocity < 128
  stack : ∃ l, Rep m.stack l ∧ ∀ p ∈ l, p < top tame
  bend : tame = true → m.pitchBend = 0x2000 ∧ m.fineTune = 0

/-- The engine's invariant, for the device channels in `D`. -/
structure OkOn (env : Env) (tame : Bool) (D : Nat → Prop) (s : St) : Prop where
  lt : ∀ i, D i → i < 13
  dev : ∀ i, D i → DevOk tame i (s.dev i)
  chan : ∀ c, c < 16 → ChanOk tame (s.chan c)
  fm : Fm.FmSafe s.fm
  psg : Psg.Good env.psg s.psg
  fault : s.fault = false

/-- The engine's invariant. -/
abbrev Ok (env : Env) (tame : Bool) (s : St) : Prop := OkOn env tame (· < 13) s

/-- Sequences of stores and legal device calls that touch voices in `A`, MIDI channels in `C`, and beside the
voices' own calls only FM calls in `G` and PSG calls in `H`. -/
inductive Path (env : Env) (tame : Bool) (A C : Nat → Prop) (G : Fm.Op → Prop) (H : Psg.Op → Prop) (s : St) :
    St → Prop where
  | refl : Path env tame A C G H s s
  | dev {t : St} {i : Nat} {f : Dev → Dev} : Path env tame A C G H s t → A i → i < 13 →
      DevOk tame i (f (t.dev i)) → Path env tame A C G H s (setDev t i f)
  | chan {t : St} {c : Nat} {f : Chan → Chan} : Path env tame A C G H s t → C c → c < 16 →
      ChanOk tame (f (t.chan c)) → Path env tame A C G H s (setChan t c f)
  | fm {t : St} {op : Fm.Op} : Path env tame A C G H s t → ((∃ i, A i ∧ i < 13 ∧ voiceFm i op) ∨ G op) →
      op.Legal → Path env tame A C G H s (fmCall env t op)
  | psg {t : St} {op : Psg.Op} : Path env tame A C G H s t → ((∃ i, A i ∧ voicePsg i op) ∨ H op) →
      op.Legal → Path env tame A C G H s (psgCall env t op)
  | say {t : St} {m : Msg} : Path env tame A C G H s t → Path env tame A C G H s (say t m)

variable {env : Env} {tame : Bool} {D A C : Nat → Prop} {G : Fm.Op → Prop} {H : Psg.Op → Prop} {s t u : St}

theorem Path.trans (h : Path env tame A C G H s t) (h' : Path env tame A C G H t u) :
    Path env tame A C G H s u := by
  induction h' with
  | refl => exact h
  | dev _ h1 h2 h3 ih => exact ih.dev h1 h2 h3
  | chan _ h1 h2 h3 ih => exact ih.chan h1 h2 h3
  | fm _ h1 h2 ih => exact ih.fm h1 h2
  | psg _ h1 h2 ih => exact ih.psg h1 h2
  | say _ ih => exact ih.say

theorem Path.mono {A' C' : Nat → Prop} {G' : Fm.Op → Prop} {H' : Psg.Op → Prop} (h : Path env tame A C G H s t)
    (hA : ∀ i, A i → A' i) (hC : ∀ c, C c → C' c) (hG : ∀ o, G o → G' o) (hH : ∀ o, H o → H' o) :
    Path env tame A' C' G' H' s t := by
  induction h with
  | refl => exact .refl
  | dev _ h1 h2 h3 ih => exact ih.dev (hA _ h1) h2 h3
  | chan _ h1 h2 h3 ih => exact ih.chan (hC _ h1) h2 h3
  | fm _ h1 h2 ih =>
    refine ih.fm ?_ h2
    rcases h1 with ⟨i, a, b⟩ | h1
    · exact .inl ⟨i, hA _ a, b⟩
    · exact .inr (hG _ h1)
  | psg _ h1 h2 ih =>
    refine ih.psg ?_ h2
    rcases h1 with ⟨i, a, b⟩ | h1
    · exact .inl ⟨i, hA _ a, b⟩
    · exact .inr (hH _ h1)
  | say _ ih => exact ih.say

/-- The invariant survives every such sequence. -/
theorem Path.ok (he : env.Ok) (hs : OkOn env tame D s) (h : Path env tame A C G H s t) : OkOn env tame D t := by
  induction h with
  | refl => exact hs
  | @dev t i f _ _ h2 h3 ih =>
    refine { ih with dev := fun j hj => ?_ }
    by_cases e : j = i
    · subst e; simpa [setDev, Psg.upd_same] using h3
    · simpa [setDev, Psg.upd_other _ _ _ _ e] using ih.dev j hj
  | @chan t c f _ _ h2 h3 ih =>
    refine { ih with chan := fun j hj => ?_ }
    by_cases e : j = c
    · subst e; simpa [setChan, Psg.upd_same] using h3
    · simpa [setChan, Psg.upd_other _ _ _ _ e] using ih.chan j hj
  | fm _ _ h2 ih => exact { ih with fm := ih.fm.step he.fm h2 }
  | psg _ _ h2 ih => exact { ih with psg := Psg.step_good he.psg ih.psg _ h2 }
  | say _ ih => exact { ih with }

/-- What such a sequence leaves alone, and how it drives the devices. -/
structure Frame (env : Env) (A C : Nat → Prop) (G : Fm.Op → Prop) (H : Psg.Op → Prop) (s t : St) : Prop where
  dev : ∀ i, ¬A i → t.dev i = s.dev i
  chan : ∀ c, ¬C c → t.chan c = s.chan c
  cfg : t.cfg = s.cfg
  dynamic : t.dynamic = s.dynamic
  out : t.out = s.out
  fault : t.fault = s.fault
  fm : ∃ l : List Fm.Op, (∀ o ∈ l, ((∃ i, A i ∧ i < 13 ∧ voiceFm i o) ∨ G o) ∧ o.Legal) ∧
    t.fm = Fm.run env.fm s.fm l
  psg : ∃ l : List Psg.Op, (∀ o ∈ l, ((∃ i, A i ∧ voicePsg i o) ∨ H o) ∧ o.Legal) ∧
    t.psg = Psg.run env.psg s.psg l

theorem Path.frame (h : Path env tame A C G H s t) : Frame env A C G H s t := by
  induction h with
  | refl => exact ⟨fun _ _ => rfl, fun _ _ => rfl, rfl, rfl, rfl, rfl, ⟨[], by simp, rfl⟩, ⟨[], by simp, rfl⟩⟩
  | @dev t i f _ h1 _ _ ih =>
    refine { ih with dev := fun j hj => ?_ }
    have e : j ≠ i := fun e => hj (e ▸ h1)
    simpa [setDev, Psg.upd_other _ _ _ _ e] using ih.dev j hj
  | @chan t c f _ h1 _ _ ih =>
    refine { ih with chan := fun j hj => ?_ }
    have e : j ≠ c := fun e => hj (e ▸ h1)
    simpa [setChan, Psg.upd_other _ _ _ _ e] using ih.chan j hj
  | @fm t op _ h1 h2 ih =>
    obtain ⟨l, hl, e⟩ := ih.fm
    refine { ih with fm := ⟨l ++ [op], ?_, ?_⟩ }
    · intro o ho
      rcases List.mem_append.1 ho with ho | ho
      · exact hl o ho
      · simp only [List.mem_singleton] at ho; subst ho; exact ⟨h1, h2⟩
    · simp [Fm.run, fmCall, e]
  | @psg t op _ h1 h2 ih =>
    obtain ⟨l, hl, e⟩ := ih.psg
    refine { ih with psg := ⟨l ++ [op], ?_, ?_⟩ }
    · intro o ho
      rcases List.mem_append.1 ho with ho | ho
      · exact hl o ho
      · simp only [List.mem_singleton] at ho; subst ho; exact ⟨h1, h2⟩
    · simp [Psg.run, psgCall, e]
  | say _ ih => exact { ih with }

/-- A fold of steps each of which is such a sequence. -/
theorem Path.fold {α : Type} (he : env.Ok) (f : St → α → St) (l : List α)
    (hf : ∀ s, OkOn env tame D s → ∀ a ∈ l, Path env tame A C G H s (f s a)) :
    ∀ s, OkOn env tame D s → Path env tame A C G H s (l.foldl f s) := by
  induction l with
  | nil => intro s _; exact .refl
  | cons a l ih =>
    intro s hs
    have h1 := hf s hs a (by simp)
    exact h1.trans (ih (fun s hs b hb => hf s hs b (by simp [hb])) _ (h1.ok he hs))

/-! ### Effect on the records -/

@[simp] theorem fmCall_dev (op) : (fmCall env s op).dev = s.dev := rfl
@[simp] theorem fmCall_chan (op) : (fmCall env s op).chan = s.chan := rfl
@[simp] theorem psgCall_dev (op) : (psgCall env s op).dev = s.dev := rfl
@[simp] theorem psgCall_chan (op) : (psgCall env s op).chan = s.chan := rfl
@[simp] theorem ub_dev : (ub s).dev = s.dev := rfl
@[simp] theorem ub_chan : (ub s).chan = s.chan := rfl
@[simp] theorem say_dev (m) : (say s m).dev = s.dev := rfl
@[simp] theorem say_chan (m) : (say s m).chan = s.chan := rfl
@[simp] theorem emit_dev (m) : (emit s m).dev = s.dev := rfl
@[simp] theorem emit_chan (m) : (emit s m).chan = s.chan := rfl
@[simp] theorem setDev_dev (i f) : (setDev s i f).dev = upd s.dev i (f (s.dev i)) := rfl
@[simp] theorem setDev_chan (i f) : (setDev s i f).chan = s.chan := rfl
@[simp] theorem setChan_dev (c f) : (setChan s c f).dev = s.dev := rfl
@[simp] theorem setChan_chan (c f) : (setChan s c f).chan = upd s.chan c (f (s.chan c)) := rfl
@[simp] theorem upd_self {α : Type} (f : Nat → α) (i : Nat) (x : α) : upd f i x i = x := Psg.upd_same f i x

theorem upd_upd {α : Type} (f : Nat → α) (i : Nat) (x y : α) : upd (upd f i x) i y = upd f i y := by
  funext j; unfold upd; split <;> rfl

theorem upd_triv {α : Type} (f : Nat → α) (i : Nat) : upd f i (f i) = f := by
  funext j; unfold upd; split <;> simp_all

theorem upd_triv' {α : Type} (f : Nat → α) (i : Nat) {x : α} (h : x = f i) : upd f i x = f := by
  rw [h]; exact upd_triv f i

@[simp] theorem devNoteOn_dev (i p c v) : (devNoteOn env s i p c v).dev = s.dev := by unfold devNoteOn; split <;> rfl
@[simp] theorem devNoteOn_chan (i p c v) : (devNoteOn env s i p c v).chan = s.chan := by unfold devNoteOn; split <;> rfl
@[simp] theorem devNoteOff_dev (i) : (devNoteOff env s i).dev = s.dev := by unfold devNoteOff; split <;> rfl
@[simp] theorem devNoteOff_chan (i) : (devNoteOff env s i).chan = s.chan := by unfold devNoteOff; split <;> rfl
@[simp] theorem devVolume_dev (i v) : (devVolume env s i v).dev = s.dev := by unfold devVolume; split <;> rfl
@[simp] theorem devVolume_chan (i v) : (devVolume env s i v).chan = s.chan := by unfold devVolume; split <;> rfl
@[simp] theorem devProgram_dev (i v) : (devProgram env s i v).dev = s.dev := by unfold devProgram; split <;> rfl
@[simp] theorem devProgram_chan (i v) : (devProgram env s i v).chan = s.chan := by unfold devProgram; split <;> rfl
@[simp] theorem devAllNotesOff_dev (i) : (devAllNotesOff env s i).dev = s.dev := by
  unfold devAllNotesOff; split <;> rfl
@[simp] theorem devAllNotesOff_chan (i) : (devAllNotesOff env s i).chan = s.chan := by
  unfold devAllNotesOff; split <;> rfl
@[simp] theorem devPan_dev (i v) : (devPan env s i v).dev = s.dev := by unfold devPan; split <;> rfl
@[simp] theorem devPan_chan (i v) : (devPan env s i v).chan = s.chan := by unfold devPan; split <;> rfl
@[simp] theorem devPitch_dev (i p c) : (devPitch env s i p c).dev = s.dev := by unfold devPitch; split <;> rfl
@[simp] theorem devPitch_chan (i p c) : (devPitch env s i p c).chan = s.chan := by unfold devPitch; split <;> rfl

@[simp] theorem setDownstreamPitch_dev (i) : (setDownstreamPitch env s i).dev = s.dev := by
  unfold setDownstreamPitch withPitch; simp only; split <;> simp
@[simp] theorem setDownstreamPitch_chan (i) : (setDownstreamPitch env s i).chan = s.chan := by
  unfold setDownstreamPitch withPitch; simp only; split <;> simp
@[simp] theorem setDownstreamNoteOn_dev (i v) : (setDownstreamNoteOn env s i v).dev = s.dev := by
  unfold setDownstreamNoteOn withPitch; simp only; split <;> simp
@[simp] theorem setDownstreamNoteOn_chan (i v) : (setDownstreamNoteOn env s i v).chan = s.chan := by
  unfold setDownstreamNoteOn withPitch; simp only; split <;> simp

@[simp] theorem updateVolume_dev (c i) :
    (updateVolume env s c i).dev = upd s.dev i { s.dev i with volume := (s.chan c).volume } := by
  unfold updateVolume; split
  · simp
  · rename_i h; rw [upd_triv']; simp at h; rw [← h]
@[simp] theorem updateVolume_chan (c i) : (updateVolume env s c i).chan = s.chan := by
  unfold updateVolume; split <;> simp
@[simp] theorem updatePan_dev (c i) :
    (updatePan env s c i).dev = upd s.dev i { s.dev i with pan := (s.chan c).pan } := by
  unfold updatePan; split
  · simp
  · rename_i h; rw [upd_triv']; simp at h; rw [← h]
@[simp] theorem updatePan_chan (c i) : (updatePan env s c i).chan = s.chan := by
  unfold updatePan; split <;> simp
@[simp] theorem updateProgram_dev (c i) :
    (updateProgram env s c i).dev = upd s.dev i { s.dev i with program := (s.chan c).program } := by
  unfold updateProgram; split
  · simp
  · rename_i h; rw [upd_triv']; simp at h; rw [← h]
@[simp] theorem updateProgram_chan (c i) : (updateProgram env s c i).chan = s.chan := by
  unfold updateProgram; split <;> simp
@[simp] theorem updatePitchBend_dev (c i) :
    (updatePitchBend env s c i).dev = upd s.dev i { s.dev i with pitchBend := (s.chan c).pitchBend } := by
  unfold updatePitchBend; split
  · simp
  · rename_i h; rw [upd_triv']; simp at h; rw [← h]
@[simp] theorem updatePitchBend_chan (c i) : (updatePitchBend env s c i).chan = s.chan := by
  unfold updatePitchBend; split <;> simp

/-- A device channel brought in step with MIDI channel `m`. -/
def Dev.sync (d : Dev) (m : Chan) : Dev :=
  { d with volume := m.volume, pan := m.pan, program := m.program, pitchBend := m.pitchBend }

theorem updateDev_dev {i} (h : (s.dev i).midiChannel < 16) :
    (updateDev env s i).dev = upd s.dev i ((s.dev i).sync (s.chan (s.dev i).midiChannel)) := by
  simp [updateDev, h, upd_upd, Dev.sync]
@[simp] theorem updateDev_chan (i) : (updateDev env s i).chan = s.chan := by
  unfold updateDev; simp only; split <;> simp

theorem devChanNoteOn_dev (i p v) : (devChanNoteOn env s i p v).dev =
    upd s.dev i { s.dev i with noteOn := true, cents := 0, pitch := p } := by simp [devChanNoteOn]
@[simp] theorem devChanNoteOn_chan (i p v) : (devChanNoteOn env s i p v).chan = s.chan := by simp [devChanNoteOn]
theorem devChanNoteOff_dev (i) : (devChanNoteOff env s i).dev =
    upd s.dev i { s.dev i with noteOn := false, pitch := 0 } := by simp [devChanNoteOff]
@[simp] theorem devChanNoteOff_chan (i) : (devChanNoteOff env s i).chan = s.chan := by simp [devChanNoteOff]

theorem startNote_dev {i c p v : Nat} (hc : c < 16) : (startNote env s i c p v).dev =
    upd s.dev i (({ s.dev i with midiChannel := c, noteOn := true, cents := 0, pitch := p } : Dev).sync (s.chan c)) := by
  simp only [startNote, setDownstreamNoteOn_dev]
  rw [updateDev_dev (by simpa using hc)]
  split <;> simp [upd_upd]
@[simp] theorem startNote_chan (i c p v) : (startNote env s i c p v).chan = s.chan := by
  simp only [startNote, setDownstreamNoteOn_chan, updateDev_chan, setDev_chan]
  split <;> simp

/-! ### Calls through the vtable -/

theorem effective_range (p : Nat) (c : Int) (b : Nat) (r : PitchCents) (f : Int) :
    (effectivePitchCents p c b r f).pitch < 256 ∧ 0 ≤ (effectivePitchCents p c b r f).cents ∧
      (effectivePitchCents p c b r f).cents < 100 := by
  unfold effectivePitchCents
  exact pcShift_range _ _

theorem pcShift_zero (p : Nat) (hp : p < 256) : pcShift ⟨p, 0⟩ 0 = ⟨p, 0⟩ := by
  have h : toU16 ((p : Int) * 100 + 0 + 0) = p * 100 := by unfold toU16; omega
  simp only [pcShift, h, toU8, toS8, PitchCents.mk.injEq]
  omega

/-- Without bend and fine tune a key is played as it is. -/
theorem effective_centre (p : Nat) (hp : p < 256) (r : PitchCents) :
    effectivePitchCents p 0 0x2000 r 0 = ⟨p, 0⟩ := by
  have h : pcBend p 0 0x2000 r = ⟨p, 0⟩ := by
    simp [pcBend, toS16, pcShift_zero p hp]
  rw [effectivePitchCents, h, pcShift_zero p hp]

theorem DevOk.fmNum {i} {d : Dev} (h : DevOk tame i d) (hi : i < 6) : d.num = i := by
  rw [h.num, chipNum]; simp; omega
theorem DevOk.psgNum {i} {d : Dev} (h : DevOk tame i d) (hi : 6 ≤ i) (hi' : i < 10) : d.num = i - 6 := by
  rw [h.num, chipNum, if_neg (by omega), if_pos (by omega)]
theorem DevOk.smNum {i} {d : Dev} (h : DevOk tame i d) (hi : 10 ≤ i) : d.num = i - 10 := by
  rw [h.num, chipNum, if_neg (by omega), if_neg (by omega)]
theorem DevOk.numLt {i} {d : Dev} (h : DevOk tame i d) (hi : i < 13) : d.num < 6 := by
  rw [h.num, chipNum]; split
  · omega
  · split <;> omega

/-- One FM call of a voice. -/
theorem Path.one_fm {op : Fm.Op} {i : Nat} (hA : A i) (hi : i < 13) (hv : voiceFm i op) (hl : op.Legal) :
    Path env tame A C G H s (fmCall env s op) := Path.refl.fm (.inl ⟨i, hA, hi, hv⟩) hl

/-- One PSG call of a voice. -/
theorem Path.one_psg {op : Psg.Op} {i : Nat} (hA : A i) (hv : voicePsg i op) (hl : op.Legal) :
    Path env tame A C G H s (psgCall env s op) := Path.refl.psg (.inl ⟨i, hA, hv⟩) hl

section
variable {i : Nat} (hs : OkOn env tame D s) (hD : D i) (hA : A i)
include hs hD hA

theorem devNoteOff_path : Path env tame A C G H s (devNoteOff env s i) := by
  have hd := hs.dev i hD
  unfold devNoteOff
  rcases hd.kind with ⟨h, e⟩ | ⟨h, e⟩ | ⟨h, h', e⟩ | ⟨h, h', e⟩ <;> simp only [e]
  · have := hd.fmNum h
    exact .one_fm hA (hs.lt i hD) ⟨h, this⟩ (by simp [Fm.Op.Legal]; omega)
  · exact .one_fm hA (hs.lt i hD) h trivial
  · have := hd.psgNum h h'
    exact .one_psg hA ⟨h, h', by simp [Psg.Op.target, this]⟩ (by simp [Psg.Op.Legal]; omega)
  · exact .refl

theorem devAllNotesOff_path : Path env tame A C G H s (devAllNotesOff env s i) := by
  have hd := hs.dev i hD
  unfold devAllNotesOff
  rcases hd.kind with ⟨h, e⟩ | ⟨h, e⟩ | ⟨h, h', e⟩ | ⟨h, h', e⟩ <;> simp only [e]
  · have := hd.fmNum h
    exact .one_fm hA (hs.lt i hD) ⟨h, this⟩ (by simp [Fm.Op.Legal]; omega)
  · exact .refl
  · have := hd.psgNum h h'
    exact .one_psg hA ⟨h, h', by simp [Psg.Op.target, this]⟩ (by simp [Psg.Op.Legal]; omega)
  · exact .refl

theorem devVolume_path {v : Nat} (hv : v < 128) : Path env tame A C G H s (devVolume env s i v) := by
  have hd := hs.dev i hD
  unfold devVolume
  rcases hd.kind with ⟨h, e⟩ | ⟨h, e⟩ | ⟨h, h', e⟩ | ⟨h, h', e⟩ <;> simp only [e]
  · have := hd.fmNum h
    exact .one_fm hA (hs.lt i hD) ⟨h, this⟩ (by simp [Fm.Op.Legal]; omega)
  · exact .refl
  · have := hd.psgNum h h'
    exact .one_psg hA ⟨h, h', by simp [Psg.Op.target, this]⟩ (by simp [Psg.Op.Legal]; omega)
  · exact .refl

theorem devProgram_path {v : Nat} (hv : v < 128) : Path env tame A C G H s (devProgram env s i v) := by
  have hd := hs.dev i hD
  unfold devProgram
  rcases hd.kind with ⟨h, e⟩ | ⟨h, e⟩ | ⟨h, h', e⟩ | ⟨h, h', e⟩ <;> simp only [e]
  · have := hd.fmNum h
    exact .one_fm hA (hs.lt i hD) ⟨h, this⟩ (by simp [Fm.Op.Legal]; omega)
  · exact .refl
  · have := hd.psgNum h h'
    exact .one_psg hA ⟨h, h', by simp [Psg.Op.target, this]⟩ (by simp [Psg.Op.Legal]; omega)
  · exact .refl

theorem devPan_path {v : Nat} : Path env tame A C G H s (devPan env s i v) := by
  have hd := hs.dev i hD
  unfold devPan
  rcases hd.kind with ⟨h, e⟩ | ⟨h, e⟩ | ⟨h, h', e⟩ | ⟨h, h', e⟩ <;> simp only [e]
  · have := hd.fmNum h
    exact .one_fm hA (hs.lt i hD) ⟨h, this⟩ (by simp [Fm.Op.Legal]; omega)
  all_goals exact .refl

theorem devPitch_path {p : Nat} {c : Int} (hp : p < 256) (hc : 0 ≤ c) (hc' : c < 100) :
    Path env tame A C G H s (devPitch env s i p c) := by
  have hd := hs.dev i hD
  unfold devPitch
  rcases hd.kind with ⟨h, e⟩ | ⟨h, e⟩ | ⟨h, h', e⟩ | ⟨h, h', e⟩ <;> simp only [e]
  · have := hd.fmNum h
    exact .one_fm hA (hs.lt i hD) ⟨h, this⟩ (by simp [Fm.Op.Legal]; omega)
  · exact .refl
  · have := hd.psgNum h h'
    exact .one_psg hA ⟨h, h', by simp [Psg.Op.target, this]⟩ (by simp [Psg.Op.Legal]; omega)
  · have := hd.smNum h
    exact .one_fm hA (hs.lt i hD) ⟨h, this⟩ (by simp [Fm.Op.Legal]; omega)

theorem devNoteOn_path {p v : Nat} {c : Int} (hp : p < 256) (hc : 0 ≤ c) (hc' : c < 100) (hv : v < 128)
    (hd' : (s.dev i).ops = .dac → p < 128) : Path env tame A C G H s (devNoteOn env s i p c v) := by
  have hd := hs.dev i hD
  unfold devNoteOn
  rcases hd.kind with ⟨h, e⟩ | ⟨h, e⟩ | ⟨h, h', e⟩ | ⟨h, h', e⟩ <;> simp only [e]
  · have := hd.fmNum h
    exact .one_fm hA (hs.lt i hD) ⟨h, this⟩ (by simp [Fm.Op.Legal]; omega)
  · exact .one_fm hA (hs.lt i hD) h (hd' e)
  · have := hd.psgNum h h'
    exact .one_psg hA ⟨h, h', by simp [Psg.Op.target, this]⟩ (by simp [Psg.Op.Legal]; omega)
  · have := hd.smNum h
    exact .one_fm hA (hs.lt i hD) ⟨h, this⟩ (by simp [Fm.Op.Legal]; omega)

theorem setDownstreamPitch_path (hm : (s.dev i).midiChannel < 16) :
    Path env tame A C G H s (setDownstreamPitch env s i) := by
  simp only [setDownstreamPitch, withPitch, if_pos hm]
  obtain ⟨h1, h2, h3⟩ := effective_range (s.dev i).pitch (s.dev i).cents (s.dev i).pitchBend
    (s.chan (s.dev i).midiChannel).range (s.chan (s.dev i).midiChannel).fineTune
  exact devPitch_path hs hD hA h1 h2 h3

theorem setDownstreamNoteOn_path {v : Nat} (hm : (s.dev i).midiChannel < 16) (hv : v < 128)
    (hp : (s.dev i).pitch < top tame) (hc : (s.dev i).cents = 0) :
    Path env tame A C G H s (setDownstreamNoteOn env s i v) := by
  simp only [setDownstreamNoteOn, withPitch, if_pos hm]
  obtain ⟨h1, h2, h3⟩ := effective_range (s.dev i).pitch (s.dev i).cents (s.dev i).pitchBend
    (s.chan (s.dev i).midiChannel).range (s.chan (s.dev i).midiChannel).fineTune
  refine devNoteOn_path hs hD hA h1 h2 h3 hv fun e => ?_
  have hd := hs.dev i hD
  by_cases ht : tame = true
  · have hp : (s.dev i).pitch < 128 := by simpa [top, ht] using hp
    rw [hc, hd.bend ht, ((hs.chan _ hm).bend ht).2, effective_centre _ (by omega)]; exact hp
  · exact absurd e (hd.dac (by simpa using ht))

theorem updateVolume_path {c : Nat} (hc : c < 16) : Path env tame A C G H s (updateVolume env s c i) := by
  unfold updateVolume; split
  · refine (devVolume_path hs hD hA (hs.chan c hc).volume).dev hA (hs.lt i hD) ?_
    simpa using { (hs.dev i hD) with }
  · exact .refl

theorem updatePan_path {c : Nat} : Path env tame A C G H s (updatePan env s c i) := by
  unfold updatePan; split
  · refine (devPan_path hs hD hA).dev hA (hs.lt i hD) ?_
    simpa using { (hs.dev i hD) with }
  · exact .refl

theorem updateProgram_path {c : Nat} (hc : c < 16) :
    Path env tame A C G H s (updateProgram env s c i) := by
  unfold updateProgram; split
  · refine (devProgram_path hs hD hA (hs.chan c hc).program).dev hA (hs.lt i hD) ?_
    simpa using { (hs.dev i hD) with }
  · exact .refl

theorem updatePitchBend_path {c : Nat} (hc : c < 16) (he : env.Ok) (hm : (s.dev i).midiChannel < 16) :
    Path env tame A C G H s (updatePitchBend env s c i) := by
  unfold updatePitchBend; split
  · have h1 : Path env tame A C G H s (setDev s i fun d => { d with pitchBend := (s.chan c).pitchBend }) :=
      Path.refl.dev hA (hs.lt i hD) { (hs.dev i hD) with bend := fun ht => ((hs.chan c hc).bend ht).1 }
    exact h1.trans (setDownstreamPitch_path (h1.ok he hs) hD hA (by simpa using hm))
  · exact .refl

theorem updateDev_path (he : env.Ok) (hm : (s.dev i).midiChannel < 16) :
    Path env tame A C G H s (updateDev env s i) := by
  simp only [updateDev, if_pos hm]
  have hd := hs.dev i hD
  have p1 : Path env tame A C G H s (fmCall env s (.percussive (s.dev i).num ((s.dev i).midiChannel == 9))) :=
    .one_fm hA (hs.lt i hD) hd.num (hd.numLt (hs.lt i hD))
  have p2 := p1.trans (updateVolume_path (p1.ok he hs) hD hA hm)
  have p3 := p2.trans (updatePan_path (c := (s.dev i).midiChannel) (p2.ok he hs) hD hA)
  have p4 := p3.trans (updateProgram_path (p3.ok he hs) hD hA hm)
  exact p4.trans (updatePitchBend_path (p4.ok he hs) hD hA hm he (by simpa using hm))

theorem devChanNoteOn_path (he : env.Ok) {p v : Nat} (hp : p < top tame) (hv : v < 128)
    (hm : (s.dev i).midiChannel < 16) : Path env tame A C G H s (devChanNoteOn env s i p v) := by
  have h1 : Path env tame A C G H s (setDev s i fun d => { d with noteOn := true, cents := 0, pitch := p }) :=
    Path.refl.dev hA (hs.lt i hD) { (hs.dev i hD) with }
  refine h1.trans (setDownstreamNoteOn_path (h1.ok he hs) hD hA ?_ hv ?_ ?_) <;> simp [hm, hp]

theorem devChanNoteOff_path (he : env.Ok) : Path env tame A C G H s (devChanNoteOff env s i) := by
  have h1 : Path env tame A C G H s (setDev s i fun d => { d with noteOn := false, pitch := 0 }) :=
    Path.refl.dev hA (hs.lt i hD) { (hs.dev i hD) with }
  exact h1.trans (devNoteOff_path (h1.ok he hs) hD hA)

theorem startNote_path (he : env.Ok) {c p v : Nat} (hc : c < 16) (hp : p < top tame) (hv : v < 128) :
    Path env tame A C G H s (startNote env s i c p v) := by
  simp only [startNote]
  have h0 : Path env tame A C G H s
      (if (s.dev i).midiChannel = 9 ∧ c ≠ 9 then devProgram env s i (s.chan c).program else s) := by
    split
    · exact devProgram_path hs hD hA (hs.chan c hc).program
    · exact .refl
  revert h0
  generalize (if (s.dev i).midiChannel = 9 ∧ c ≠ 9 then devProgram env s i (s.chan c).program else s) = s1
  intro h0
  have h1 : Path env tame A C G H s
      (setDev s1 i fun d => { d with midiChannel := c, noteOn := true, cents := 0, pitch := p }) :=
    h0.dev hA (hs.lt i hD) { ((h0.ok he hs).dev i hD) with map := .inl hc }
  have h2 := h1.trans (updateDev_path (h1.ok he hs) hD hA he (by simpa using hc))
  refine h2.trans (setDownstreamNoteOn_path (h2.ok he hs) hD hA ?_ hv ?_ ?_)
  all_goals rw [updateDev_dev (by simpa using hc)]; simp [Dev.sync, hc, hp]

end

end Mdmi.Midi
