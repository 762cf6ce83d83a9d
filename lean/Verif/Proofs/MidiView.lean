import Verif.Proofs.MidiFmRun
import Verif.Proofs.MidiChip
/-!
# What one FM channel sees of a loop over the voices of a MIDI channel
-/
namespace Mdmi.Synth

theorem request_other {op : Op} {c i : Nat} (h : op.chan = some c) (hi : i ≠ c) (x : FmChannel) (v : Nat) :
    op.request i x = x ∧ op.requestVol i v = v := by
  have hi' : ¬c = i := fun e => hi e.symm
  cases op <;> simp [Op.chan] at h <;> simp_all [Op.request, Op.request.oper, Op.requestVol]

/-- A preset load from any safe state: the channel's registers hold the driver's parameters, which are the preset with
the stereo setting there was. -/
theorem preset_loads {s : St} (h : Safe s) {p : FmPreset} (hp : p.Ok) {c : Nat} (hc : c < 6) :
    ChSync (step s (.preset c p)) c ∧ TlSync (step s (.preset c p)) c := by
  have hok : (({ s with ch := upd s.ch c { presetToChannel p with stereo := (s.ch c).stereo } } : St).ch c).Ok := by
    rw [show ({ s with ch := upd s.ch c { presetToChannel p with stereo := (s.ch c).stereo } } : St).ch c =
      { presetToChannel p with stereo := (s.ch c).stereo } from Psg.upd_same ..]
    exact presetToChannel_ok hp (h.ok c hc).stereo
  have u := updateChannel_updated (s := { s with ch := upd s.ch c { presetToChannel p with stereo := (s.ch c).stereo } })
    hc hok (h.vol c hc)
  simp only [step, preset, guardCh, onCh, hc, if_true]
  exact ⟨u.sync hc hok (h.vol c hc), u.tl hc⟩

end Mdmi.Synth

namespace Mdmi.Fm

/-- FM channel `i` is the same, in the driver and on the chip. -/
structure FmSame (i : Nat) (f g : St) : Prop where
  ch : g.ch i = f.ch i
  par : g.synth.ch i = f.synth.ch i
  vol : g.synth.vol i = f.synth.vol i
  user : g.user = f.user
  chip : Synth.chipChannel g.synth.out i = Synth.chipChannel f.synth.out i
  key : Synth.keyed g.synth.out i = Synth.keyed f.synth.out i

variable {env : Env} {f g k : St} {i c : Nat}

theorem FmSame.refl : FmSame i f f := ⟨rfl, rfl, rfl, rfl, rfl, rfl⟩

theorem FmSame.trans (h : FmSame i f g) (h' : FmSame i g k) : FmSame i f k :=
  ⟨h'.ch.trans h.ch, h'.par.trans h.par, h'.vol.trans h.vol, h'.user.trans h.user, h'.chip.trans h.chip,
    h'.key.trans h.key⟩

theorem same_store {x : Chan} (hi : i ≠ c) : FmSame i f { f with ch := upd f.ch c x } :=
  ⟨Psg.upd_other _ _ _ _ hi, rfl, rfl, rfl, rfl, rfl⟩

/-- A driver call for another channel. -/
theorem same_call (hf : Synth.Safe f.synth) {o : Synth.Op} (ho : o.chan = some c) (hl : o.Legal) (hi : i < 6)
    (hne : i ≠ c) : FmSame i f (call f o) := by
  have h1 := Synth.step_request_ok hf.ok hl hi
  have h2 := Synth.request_other ho hne (f.synth.ch i) (f.synth.vol i)
  have h3 := Synth.owner_frame hi (Synth.step_owner f.synth ho (hl.1 c ho)) (Ne.symm hne)
  exact ⟨rfl, h1.1.trans h2.1, h1.2.trans h2.2, rfl, h3.1, h3.2⟩

theorem same_program (he : env.Ok) (hf : FmSafe f) {p : Nat} (hl : (Op.program c p).Legal) (hi : i < 6) (hne : i ≠ c) :
    FmSame i f (step env f (.program c p)) := by
  obtain ⟨q, hq, hqo⟩ := presetOf he hl.2
  simp only [step, program, if_pos hl.2]
  split
  · rename_i q h
    exact same_call hf.synth rfl (legal_ch rfl hl.1 rfl (hf.user _ _ h)) hi hne
  · rw [hq]
    exact same_call hf.synth rfl (legal_ch rfl hl.1 rfl hqo) hi hne

theorem same_volume (hf : FmSafe f) {v : Nat} (hl : (Op.volume c v).Legal) (hi : i < 6) (hne : i ≠ c) :
    FmSame i f (step env f (.volume c v)) := by
  have hl6 : c < 6 := hl.1
  have h1 := same_store (f := f) (x := { f.ch c with volume := v }) hne
  have hv := (effectiveVolume_lt (c := { f.ch c with volume := v }) hl.2 (hf.chan c hl.1).2).2
  have h2 := same_call (f := { f with ch := upd f.ch c { f.ch c with volume := v } }) hf.synth
    (o := .volume c (effectiveVolume { f.ch c with volume := v })) rfl (legal_ch rfl hl.1 rfl hv) hi hne
  simp only [step, channelVolume, guardCh, if_pos hl6, Psg.upd_same]
  exact h1.trans h2

theorem same_pan (hf : FmSafe f) {x : Nat} (hl : c < 6) (hi : i < 6) (hne : i ≠ c) :
    FmSame i f (step env f (.pan c x)) := by
  have h1 := same_store (f := f) (x := { f.ch c with pan := x }) hne
  have h2 : ∀ v, FmSame i { f with ch := upd f.ch c { f.ch c with pan := x } }
      (call { f with ch := upd f.ch c { f.ch c with pan := x } } (.stereo c v)) := fun v =>
    same_call (f := { f with ch := upd f.ch c { f.ch c with pan := x } }) (o := .stereo c v) hf.synth rfl
      (legal_ch rfl hl rfl trivial) hi hne
  simp only [step, pan, guardCh, if_pos hl]
  split
  · exact h1.trans (h2 _)
  split
  · exact h1.trans (h2 _)
  · exact h1.trans (h2 _)

theorem same_pitch (hf : FmSafe f) {p : Nat} {x : Int} (hl : c < 6) (hi : i < 6) (hne : i ≠ c) :
    FmSame i f (step env f (.pitch c p x)) := by
  simp only [step, pitch, guardCh, if_pos hl, setSynthPitch]
  exact (same_store (f := f) (x := { f.ch c with pitch := p, cents := x }) hne).trans
    (same_call (f := { f with ch := upd f.ch c { f.ch c with pitch := p, cents := x } }) (o := .pitch c _ _) hf.synth rfl
      (legal_ch rfl hl rfl trivial) hi hne)

/-- What a program call does to its channel. -/
theorem program_loads (he : env.Ok) (hf : FmSafe f) {p : Nat} (hl : (Op.program c p).Legal) {q : Synth.FmPreset}
    (hq : (match f.user p with | some q => some q | none => env.presets[p]?) = some q) :
    step env f (.program c p) = call f (.preset c q) ∧ q.Ok := by
  simp only [step, program, if_pos hl.2]
  cases h : f.user p with
  | some x =>
    simp only [h, Option.some.injEq] at hq; subst hq
    exact ⟨rfl, hf.user _ _ h⟩
  | none =>
    simp only [h] at hq ⊢
    simp only [hq]
    exact ⟨trivial, he.presetsOk _ (List.mem_of_getElem? hq)⟩

end Mdmi.Fm

namespace Mdmi.Midi
open Fm (FmSame)

variable {env : Env} {tame : Bool} {s : St}

theorem emit_fm (m) : (emit s m).fm = s.fm := rfl

/-- A program change is a loop over the voices. -/
theorem program_loop (env : Env) (s : St) {c : Nat} (hc : c < 16) (p : Nat) :
    (step env s (.program c p)).fm =
      (foreach (setChan s c fun m => { m with program := p }) c fun s i => updateProgram env s c i).fm ∧
    (step env s (.program c p)).dev =
      (foreach (setChan s c fun m => { m with program := p }) c fun s i => updateProgram env s c i).dev := by
  simp only [step, if_pos hc, program, emit_fm, emit_dev, and_self]

/-- A loop over the voices of a MIDI channel, as one of its voices `i` sees it: steps of other voices, its own step,
steps of other voices. -/
theorem foreach_split {I : St → Prop} {R : St → St → Prop} {c i : Nat} {body : St → Nat → St}
    (refl : ∀ t, R t t) (trans : ∀ t u v, R t u → R u v → R t v)
    (hI : ∀ t j, I t → j < 13 → (t.dev j).midiChannel = c → I (body t j))
    (hR : ∀ t j, I t → j < 13 → j ≠ i → (t.dev j).midiChannel = c → R t (body t j))
    (hm : ∀ t u, R t u → (u.dev i).midiChannel = (t.dev i).midiChannel)
    (hi : i < 13) (hs : I s) :
    if (s.dev i).midiChannel = c then ∃ t, I t ∧ R s t ∧ R (body t i) (foreach s c body) else R s (foreach s c body) := by
  unfold foreach
  have gen : ∀ n, n ≤ 13 →
      let u := (List.range n).foldl (fun s i => if (s.dev i).midiChannel = c then body s i else s) s
      I u ∧ if i < n ∧ (s.dev i).midiChannel = c then ∃ t, I t ∧ R s t ∧ R (body t i) u else R s u := by
    intro n
    induction n with
    | zero => intro _; exact ⟨hs, by rw [if_neg (by omega)]; exact refl s⟩
    | succ n ih =>
      intro hn
      obtain ⟨h1, h2⟩ := ih (by omega)
      rw [List.range_succ, List.foldl_append]
      simp only [List.foldl_cons, List.foldl_nil]
      generalize (List.range n).foldl (fun s i => if (s.dev i).midiChannel = c then body s i else s) s = u at *
      by_cases e : i = n
      · subst e
        rw [if_neg (by omega)] at h2
        rw [hm _ _ h2]
        by_cases hc : (s.dev i).midiChannel = c
        · rw [if_pos hc, if_pos ⟨by omega, hc⟩]
          exact ⟨hI u i h1 (by omega) ((hm _ _ h2).trans hc), u, h1, h2, refl _⟩
        · rw [if_neg hc, if_neg (by simp [hc])]
          exact ⟨h1, h2⟩
      · have hlt : (i < n + 1 ∧ (s.dev i).midiChannel = c) ↔ (i < n ∧ (s.dev i).midiChannel = c) := by omega
        simp only [hlt]
        by_cases hc : (u.dev n).midiChannel = c
        · rw [if_pos hc]
          have r := hR u n h1 (by omega) (Ne.symm e) hc
          refine ⟨hI u n h1 (by omega) hc, ?_⟩
          split at h2
          · obtain ⟨t, a, b, d⟩ := h2
            rename_i k; rw [if_pos k]; exact ⟨t, a, b, trans _ _ _ d r⟩
          · rename_i k; rw [if_neg k]; exact trans _ _ _ h2 r
        · rw [if_neg hc]
          exact ⟨h1, h2⟩
  have k := (gen 13 (Nat.le_refl _)).2
  simpa only [hi, true_and] using k

/-- Voice `i` (and the MIDI channels and configuration) are the same; for FM voices also what the FM device and the
chip hold for it. -/
structure Apart (i : Nat) (t u : St) : Prop where
  dev : u.dev i = t.dev i
  chan : u.chan = t.chan
  cfg : u.cfg = t.cfg
  fm : FmSame i t.fm u.fm

theorem Apart.refl {i : Nat} {t : St} : Apart i t t := ⟨rfl, rfl, rfl, .refl⟩

theorem Apart.trans {i : Nat} {t u v : St} (h : Apart i t u) (k : Apart i u v) : Apart i t v :=
  ⟨k.dev.trans h.dev, k.chan.trans h.chan, k.cfg.trans h.cfg, h.fm.trans k.fm⟩

variable {i j c : Nat}

theorem apart_setDev (h : i ≠ j) {f : Dev → Dev} : Apart i s (setDev s j f) :=
  ⟨Psg.upd_other _ _ _ _ h, rfl, rfl, .refl⟩

theorem apart_fm {op : Fm.Op} (h : FmSame i s.fm (Fm.step env.fm s.fm op)) : Apart i s (fmCall env s op) :=
  ⟨rfl, rfl, rfl, h⟩

theorem apart_psg {op : Psg.Op} : Apart i s (psgCall env s op) := ⟨rfl, rfl, rfl, .refl⟩

section
variable (he : env.Ok) (hs : Ok env tame s) (hi : i < 6) (hj : j < 13) (hne : j ≠ i)
include hs hi hj hne

include he in
theorem devProgram_apart {p : Nat} (hp : p < 128) : Apart i s (devProgram env s j p) := by
  unfold devProgram
  have hd := hs.dev j hj
  rcases hd.kind with ⟨h, e⟩ | ⟨h, e⟩ | ⟨h, h', e⟩ | ⟨h, h', e⟩ <;> simp only [e]
  · rw [hd.fmNum h]
    exact apart_fm (Fm.same_program he.fm hs.fm ⟨h, hp⟩ hi (Ne.symm hne))
  · exact .refl
  · exact apart_psg
  · exact .refl

theorem devVolume_apart {v : Nat} (hv : v < 128) : Apart i s (devVolume env s j v) := by
  unfold devVolume
  have hd := hs.dev j hj
  rcases hd.kind with ⟨h, e⟩ | ⟨h, e⟩ | ⟨h, h', e⟩ | ⟨h, h', e⟩ <;> simp only [e]
  · rw [hd.fmNum h]
    exact apart_fm (Fm.same_volume hs.fm ⟨h, hv⟩ hi (Ne.symm hne))
  · exact .refl
  · exact apart_psg
  · exact .refl

theorem devPan_apart {x : Nat} : Apart i s (devPan env s j x) := by
  unfold devPan
  have hd := hs.dev j hj
  rcases hd.kind with ⟨h, e⟩ | ⟨h, e⟩ | ⟨h, h', e⟩ | ⟨h, h', e⟩ <;> simp only [e]
  · rw [hd.fmNum h]
    exact apart_fm (Fm.same_pan hs.fm h hi (Ne.symm hne))
  all_goals exact .refl

include he in
theorem updateProgram_apart (hc : c < 16) : Apart i s (updateProgram env s c j) := by
  unfold updateProgram; split
  · exact (devProgram_apart he hs hi hj hne (hs.chan c hc).program).trans (apart_setDev (Ne.symm hne))
  · exact .refl

theorem updateVolume_apart (hc : c < 16) : Apart i s (updateVolume env s c j) := by
  unfold updateVolume; split
  · exact (devVolume_apart hs hi hj hne (hs.chan c hc).volume).trans (apart_setDev (Ne.symm hne))
  · exact .refl

theorem updatePan_apart : Apart i s (updatePan env s c j) := by
  unfold updatePan; split
  · exact (devPan_apart hs hi hj hne).trans (apart_setDev (Ne.symm hne))
  · exact .refl

end

end Mdmi.Midi
