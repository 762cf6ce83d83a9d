import Verif.Props.C83
import Verif.Props.C24
/-! C84: the level of a PSG voice follows its channel's volume, its velocity and its envelope at every moment. -/
namespace Mdmi.Props
open Mdmi Mdmi.Midi
open Mdmi.Psg (chipTone chipAtt combine)

variable {env : Env}

private theorem tone_psg (he : env.Ok) {k : Nat} (hk : k < 4) (ops : List Op) (h : ∀ op ∈ ops, op.Wf)
    (hd : (∀ op ∈ ops, ¬op.enablesDac) ∨ ∀ op ∈ ops, ¬op.detunes) (b : Bool) (m : Sram.Mem)
    (hl : ∀ pre op post, ops = pre ++ op :: post → op.loadsEnvelope →
      ((run env (boot env b m) pre).psg.ch k).noteOn = false ∨ .psgTick ∈ post) :
    Psg.ToneOf env.psg k (run env (boot env b m) ops).psg := by
  have key : ∀ tame : Bool, (tame = false → ∀ op ∈ ops, ¬op.enablesDac) → (tame = true → ∀ op ∈ ops, ¬op.detunes) →
      Psg.ToneOf env.psg k (run env (boot env b m) ops).psg := fun tame t1 t2 =>
    Sq.run_toneOf hk he ops _ (fun op ho => ⟨h op ho, fun x => t1 x op ho, fun x => t2 x op ho⟩) hl
      (boot_ok (tame := tame) he b m) (.inl (Sq.boot_toneOf he hk b m))
  rcases hd with hd | hd
  · exact key false (fun _ => hd) nofun
  · exact key true nofun fun _ => hd

/-- **C84** (all histories; partial).  At every moment of every history of messages, a PSG channel of the chip is silent, or
has the level of a fresh note with the voice's volume, the velocity of the note it was last given and the level its envelope
asks for where it is.  Missing: an envelope that comes while the voice sounds, up to the next frame (`C84_violated_envelope`),
and system resets, which leave the chip's channels sounding while the voices are off (`C27_reset_leaves_note_sounding`). -/
theorem C84_level_partial (he : env.Ok) {i : Nat} (hi : 6 ≤ i) (hi' : i < 10) (ops : List Op) (h : ∀ op ∈ ops, op.Wf)
    (hr : .reset ∉ ops) (hd : (∀ op ∈ ops, ¬op.enablesDac) ∨ ∀ op ∈ ops, ¬op.detunes) (b : Bool) (m : Sram.Mem)
    (hl : ∀ pre op post, ops = pre ++ op :: post → op.loadsEnvelope →
      ((run env (boot env b m) pre).psg.ch (i - 6)).noteOn = false ∨ .psgTick ∈ post) :
    let s := run env (boot env b m) ops
    let d := s.psg.ch (i - 6)
    (d.noteOn = false ∧ chipAtt s.psg.out (i - 6) = 15) ∨
      ∃ e, Psg.deref env.psg s.psg.userBuf d.step = some e ∧
        chipAtt s.psg.out (i - 6) = heardAttenuation env.psg (s.dev i).volume d.velocity (e % 16) := by
  intro s d
  have kt := tone_psg he (show i - 6 < 4 by omega) ops h hd b m hl
  have sy : Psg.Synced s.psg := history_synced he b m ops h hd hr
  have qu : Psg.Quiet s.psg := by
    obtain ⟨l, -, e⟩ := history_psgBy he b m ops h hd
    rw [show s.psg = _ from e]
    exact Psg.run_quiet l (Psg.step_quiet (Psg.init_quiet he.psg) .reset)
  have re : Reached env s := ⟨b, m, ops, h, hd, rfl⟩
  have mem := re.mem he hi (by omega)
  obtain ⟨tame, ok⟩ := re.ok he
  have inv := ok.psg
  change Psg.ToneOf env.psg (i - 6) s.psg at kt
  clear_value s
  by_cases on : d.noteOn = true
  · obtain ⟨e, e1, -, e2⟩ := kt on
    refine .inr ⟨e, e1, ?_⟩
    have hc := inv.chans (i - 6) (by omega)
    rw [Psg.effectiveAttenuation_eq _ e hc.vol hc.vel] at e2
    injection e2 with e2
    rw [heard_eq env.psg he.psg _ _ _ (by rw [← mem.1]; exact hc.vol) hc.vel (by omega), ← (sy (i - 6) (by omega)).2, ← e2, ← mem.1,
      Psg.combine, Psg.combine, Nat.mod_mod]
  · have off : d.noteOn = false := by simpa using on
    exact .inl ⟨off, by rw [← (sy (i - 6) (by omega)).2]; exact qu (i - 6) (by omega) off⟩
/-- **C84** (frames).  After every frame the level is right, whenever envelopes have been loaded. -/
theorem C84_level_after_frames (he : env.Ok) {i : Nat} (hi : 6 ≤ i) (hi' : i < 10) (ops : List Op) (h : ∀ op ∈ ops, op.Wf)
    (hr : .reset ∉ ops) (hd : (∀ op ∈ ops, ¬op.enablesDac) ∨ ∀ op ∈ ops, ¬op.detunes) (b : Bool) (m : Sram.Mem) :
    let s := run env (boot env b m) (ops ++ [.psgTick])
    let d := s.psg.ch (i - 6)
    (d.noteOn = false ∧ chipAtt s.psg.out (i - 6) = 15) ∨
      ∃ e, Psg.deref env.psg s.psg.userBuf d.step = some e ∧
        chipAtt s.psg.out (i - 6) = heardAttenuation env.psg (s.dev i).volume d.velocity (e % 16) := by
  refine C84_level_partial he hi hi' _ (fun op ho => ?_) (by simp [hr]) (hd.imp (fun x op ho => ?_) fun x op ho => ?_) b m
    fun pre op post e hl => .inr ?_
  · rcases List.mem_append.1 ho with ho | ho
    · exact h op ho
    · rw [List.mem_singleton.1 ho]; trivial
  · rcases List.mem_append.1 ho with ho | ho
    · exact x op ho
    · rw [List.mem_singleton.1 ho]; exact id
  · rcases List.mem_append.1 ho with ho | ho
    · exact x op ho
    · rw [List.mem_singleton.1 ho]; exact id
  · rcases List.eq_nil_or_concat post with rfl | ⟨l, x, rfl⟩
    · have := (List.append_inj' e rfl).2
      injection this with this
      obtain ⟨d, l, x, -⟩ := hl
      rw [← this] at x; cases x
    · rw [List.concat_eq_append, ← List.cons_append, ← List.append_assoc] at e
      have := (List.append_inj' e rfl).2
      injection this with this
      simp [← this]

/-- **C84** (the channel's volume; partial).  Without remapping (`C84_violated_remapped`), the volume is the one the voice's MIDI channel has last been
sent, however the volume, the notes, the programs and the frames were interleaved. -/
theorem C84_channel_volume_partial (he : env.Ok) {i : Nat} (hi : 6 ≤ i) (hi' : i < 10) (ops : List Op)
    (h : ∀ op ∈ ops, Op.steady op) (hd : (∀ op ∈ ops, ¬op.enablesDac) ∨ ∀ op ∈ ops, ¬op.detunes) (b : Bool) (m : Sram.Mem)
    (hl : ∀ pre op post, ops = pre ++ op :: post → op.loadsEnvelope →
      ((run env (boot env b m) pre).psg.ch (i - 6)).noteOn = false ∨ .psgTick ∈ post) (c : Nat) (hc : c < 16) :
    let s := run env (boot env b m) ops
    let d := s.psg.ch (i - 6)
    (s.dev i).midiChannel = c → (d.noteOn = false ∧ chipAtt s.psg.out (i - 6) = 15) ∨
      ∃ e, Psg.deref env.psg s.psg.userBuf d.step = some e ∧
        chipAtt s.psg.out (i - 6) = heardAttenuation env.psg (settingsOf c ops).volume d.velocity (e % 16) := by
  intro s d hm
  have k := C84_level_partial he hi hi' ops (fun op ho => (h op ho).1) (fun x => (h _ x).2.2 rfl) hd b m hl
  have v := voice_settings (env := env) ops (fun op ho => (h op ho).2.1) b m (show i < 13 by omega) hc hm
  rw [← v]
  exact k

/-- **C84** (volume 0).  While a MIDI channel's volume is 0 its PSG voices are silent on the chip, whatever is played on it and
whatever envelopes they have. -/
theorem C84_volume_zero_silent (he : env.Ok) {i : Nat} (hi : 6 ≤ i) (hi' : i < 10) (ops : List Op)
    (h : ∀ op ∈ ops, Op.steady op) (hd : (∀ op ∈ ops, ¬op.enablesDac) ∨ ∀ op ∈ ops, ¬op.detunes) (b : Bool) (m : Sram.Mem)
    (hl : ∀ pre op post, ops = pre ++ op :: post → op.loadsEnvelope →
      ((run env (boot env b m) pre).psg.ch (i - 6)).noteOn = false ∨ .psgTick ∈ post) (c : Nat) (hc : c < 16)
    (hv : (settingsOf c ops).volume = 0) :
    let s := run env (boot env b m) ops
    (s.dev i).midiChannel = c → chipAtt s.psg.out (i - 6) = 15 := by
  intro s hm
  have k := C84_channel_volume_partial he hi hi' ops h hd b m hl c hc hm
  obtain ⟨tame, ok⟩ := Reached.ok he ⟨b, m, ops, fun op ho => (h op ho).1, hd, rfl⟩
  rcases k with k | ⟨e, -, k⟩
  · exact k.2
  · rw [hv] at k
    refine k.trans (C24_loudness_ends env.psg he.psg 0 _ (e % 16) (by omega) (ok.psg.chans (i - 6) (by omega)).vel (by omega)).1

/-! ### Where it fails -/

/-- **C84** fails between the arrival of an envelope and the next frame: the note is held at level 2; an envelope that asks for
level 7 replaces its own in place, and the chip stays at 2 until the frame comes. -/
theorem C84_violated_envelope : ∃ env, Env.Ok env ∧ ∃ ops b m, (∀ op ∈ ops, Op.steady op) ∧
    let s := run env (boot env b m) ops
    let t := step env s .psgTick
    (s.dev 6).noteOn = true ∧ (s.dev 6).volume = 127 ∧ (s.psg.ch 0).velocity = 127 ∧
      Psg.deref env.psg s.psg.userBuf (s.psg.ch 0).step = some 7 ∧ heardAttenuation env.psg 127 127 7 = 7 ∧
      chipAtt s.psg.out 0 = 2 ∧ chipAtt t.psg.out 0 = 7 := by
  refine ⟨Ex.env .static, Ex.env_ok _, [.sysex [0, 0x22, 0x77, 6, 0, 2, 0, 2] 0, .cc 6 7 127, .noteOn 6 69 127,
    .sysex [0, 0x22, 0x77, 6, 0, 7, 0, 7] 0], true, Ex.mem, ?_, ?_⟩
  · intro op ho
    simp only [List.mem_cons, List.not_mem_nil, or_false] at ho
    rcases ho with rfl | rfl | rfl | rfl <;> exact ⟨by simp [Op.Wf], by simp [Op.rewires], nofun⟩
  · decide +kernel

/-- **C84** (and its volume 0) fails for a voice that is remapped while it sounds: it is given to a MIDI channel whose volume
is 0 and goes on, frames included, at the level of the old one. -/
theorem C84_violated_remapped : ∃ env, Env.Ok env ∧ ∃ ops b m, (∀ op ∈ ops, op.Wf) ∧
    let s := run env (boot env b m) ops
    (s.dev 6).midiChannel = 0 ∧ (s.dev 6).noteOn = true ∧ (settingsOf 0 ops).volume = 0 ∧ chipAtt s.psg.out 0 < 15 :=
  ⟨Ex.env .static, Ex.env_ok _, [.cc 0 7 0, .noteOn 6 69 127, .remap 0 6, .tick, .psgTick], true, Ex.mem, by simp [Op.Wf],
    by decide +kernel⟩

/-! ### Examples -/

/-- An envelope that swells from level 9 to level 3 and stays there, a volume sent before and after the note. -/
private def swell : List Op :=
  [.sysex [0, 0x22, 0x77, 6, 0, 9, 15, 14, 0, 3, 15, 13] 0, .cc 7 7 90, .noteOn 7 67 100, .psgTick, .bend 7 9000, .cc 7 7 60, .psgTick]

/-- The voice is heard at an attenuation that is neither its envelope's nor silence. -/
example : let s := Ex.after .static swell
    (s.dev 7).midiChannel = 7 ∧ (s.psg.ch 1).noteOn = true ∧ (settingsOf 7 swell).volume = 60 ∧ (s.psg.ch 1).velocity = 100 ∧
      Psg.deref (Ex.env .static).psg s.psg.userBuf (s.psg.ch 1).step = some 3 ∧
      3 < chipAtt s.psg.out 1 ∧ chipAtt s.psg.out 1 < 15 ∧
      chipAtt s.psg.out 1 = heardAttenuation (Ex.env .static).psg 60 100 3 := by
  decide +kernel

/-- The theorem speaks of it. -/
example : (∀ op ∈ swell, Op.steady op ∧ ¬op.enablesDac) ∧
    (∀ pre op post, swell = pre ++ op :: post → op.loadsEnvelope → ((Ex.after .static pre).psg.ch 1).noteOn = false ∨ .psgTick ∈ post) := by
  refine ⟨fun op ho => ?_, fun pre op post e h => ?_⟩
  · simp only [swell, List.mem_cons, List.not_mem_nil, or_false] at ho
    rcases ho with rfl | rfl | rfl | rfl | rfl | rfl | rfl <;>
      exact ⟨⟨by simp [Op.Wf], by simp [Op.rewires], nofun⟩, by simp [Op.enablesDac]⟩
  · obtain ⟨d, l, rfl, -⟩ := h
    match pre, e with
    | [], e => injection e with _ e; exact .inr (by rw [← e]; simp)
    | x :: pre, e =>
      injection e with _ e
      have : .sysex d l ∈ pre.append (.sysex d l :: post) := by simp
      rw [← e] at this
      simp at this

/-- Volume 0 in the middle of a note: the voice goes on and cannot be heard. -/
example : let ops : List Op := [.noteOn 7 67 100, .psgTick, .cc 7 7 0, .psgTick]
    (settingsOf 7 ops).volume = 0 ∧ ((Ex.after .static ops).psg.ch 1).noteOn = true ∧
      chipAtt (Ex.after .static (ops.take 2)).psg.out 1 < 15 := by
  decide +kernel

end Mdmi.Props
