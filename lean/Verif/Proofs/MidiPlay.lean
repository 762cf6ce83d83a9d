import Verif.Proofs.MidiRetune
import Verif.Proofs.MidiCache
import Verif.Proofs.MidiLevel
/-!
# What a note-on leaves on the FM channel it keys
-/
namespace Mdmi.Midi
open Mdmi.Synth (chipChannel keyed Wrote)

variable {env : Env} {tame : Bool} {s : St}

/-- The last write to the key register for channel `i` keyed it, since the trace was `a`. -/
def Keys (a b : List Synth.Ev) (i : Nat) : Prop := ∃ new, b = new ++ a ∧ keyed new i = true

theorem Wrote.keys {P : Nat → Nat → Nat → Prop} {a b : List Synth.Ev} {i : Nat} (h : Wrote P a b) (k : Keys a b i) :
    ∃ d, d % 8 = [0, 1, 2, 4, 5, 6].getD i 8 ∧ P 0 0x28 d := by
  obtain ⟨evs, e, h⟩ := h
  obtain ⟨new, e', k⟩ := k
  have : new = evs := List.append_cancel_right (e'.symm.trans e)
  subst this
  clear e e'
  induction new with
  | nil => cases k
  | cons x r ih =>
    cases x with
    | ym p q d =>
      simp only [keyed] at k
      split at k
      · rename_i hk
        obtain ⟨rfl, rfl, hd⟩ := hk
        exact ⟨d, hd, h _ _ _ (by simp)⟩
      · exact ih k fun p r d hm => h p r d (by simp [hm])
    | _ =>
      simp only [keyed] at k
      exact ih k fun p r d hm => h p r d (by simp [hm])

/-- Only the voice that was chosen is keyed. -/
theorem noteOn_keys (he : env.Ok) (hs : Ok env tame s) {c p v i : Nat} (hc : c < 16) (hp : p < 128) (hv : v < 128)
    (hv0 : v ≠ 0) (hi : i < 6) (h : Keys s.fm.synth.out (noteOn env s c p v).fm.synth.out i) : findFree s c = some i := by
  obtain ⟨l, hl, e⟩ := (noteOn_path (G := fun _ => False) (H := fun _ => False) he hs hc (lt_top hp) hv hv0).frame.fm
  have w := run_wrote_within (A := fun i => findFree s c = some i) (env := env) l s.fm fun o ho => ⟨(hl o ho).1.elim
    (fun ⟨_, a, b, c⟩ => within_of_voice a b c) False.elim, (hl o ho).2⟩
  rw [← e] at w
  obtain ⟨d, hd, j, hj, -, hr⟩ := Wrote.keys w h
  have ho := Synth.owner_of_key hi hd
  unfold voiceReg at hr
  split at hr
  · rw [ho] at hr; injection hr with hr; rw [hr]; exact hj
  · have r : ∀ o, o < 3 → (0, 0x28) ∉ Fm.smOwns o := by decide
    exact absurd hr.2 (r _ (by have := findFree_lt hj; omega))

/-- Requests of calls from a state whose parameters fit their fields. -/
theorem _root_.Mdmi.Synth.Steps.request_safe {s t : Synth.St} {ops : List Synth.Op} (h : Synth.Steps s ops t)
    (hl : ∀ op ∈ ops, op.Legal) (hs : Synth.Safe s) {c : Nat} (hc : c < 6) :
    t.ch c = ops.foldl (Synth.Op.request c) (s.ch c) := by
  induction h with
  | refl => rfl
  | call o g ih =>
    have i := ih fun x hx => hl x (by simp [hx])
    have k := Synth.step_request_ok (g.safe (fun x hx => .inl (hl x (by simp [hx]))) hs).ok (hl o (by simp)) hc
    rw [List.foldl_append, ← i]; exact k.1
  | noise _ n ih => rw [n.ch]; exact ih hl

/-- What matters of a state for starting a note on voice `i` for MIDI channel `c`. -/
structure Same (c i : Nat) (s t : St) : Prop where
  fm : t.fm = s.fm
  num : (t.dev i).num = (s.dev i).num
  ops : (t.dev i).ops = (s.dev i).ops
  volume : (t.chan c).volume = (s.chan c).volume
  pan : (t.chan c).pan = (s.chan c).pan
  program : (t.chan c).program = (s.chan c).program
  bend : (t.chan c).pitchBend = (s.chan c).pitchBend
  range : (t.chan c).range = (s.chan c).range
  fine : (t.chan c).fineTune = (s.chan c).fineTune

/-- A note that keys a voice was started there. -/
theorem noteOn_started (he : env.Ok) (hs : Ok env tame s) {c p v i : Nat} (hc : c < 16) (hp : p < 128) (hv : v < 128)
    (hv0 : v ≠ 0) (hi : i < 6) (h : Keys s.fm.synth.out (noteOn env s c p v).fm.synth.out i) :
    ∃ t, Ok env tame t ∧ Same c i s t ∧ noteOn env s c p v = startNote env t i c p v := by
  have hf := noteOn_keys he hs hc hp hv hv0 hi h
  have none : ∀ t : St, t.fm = s.fm → ¬Keys s.fm.synth.out t.fm.synth.out i := by
    rintro t e ⟨new, e', k⟩
    rw [e] at e'
    have : new = [] := by simpa using e'
    subst this; cases k
  revert h
  unfold noteOn
  rw [if_neg hv0]
  split
  · exact fun h => absurd h (none s rfl)
  rw [hf]
  simp only
  split
  · split
    · exact fun h => absurd h (none (say s _) rfl)
    obtain ⟨l, hl, hl'⟩ := (hs.chan c hc).stack
    obtain ⟨st, e, hr⟩ := hl.push p
    simp only [e]
    have h1 : Path env tame (fun i => findFree s c = some i) (· = c) (fun _ => False) (fun _ => False) s
        (setChan s c fun m => { m with stack := st, lastVelocity := v }) := by
      refine Path.refl.chan rfl hc { (hs.chan c hc) with velocity := hv, stack := ⟨_, hr, ?_⟩ }
      intro q hq
      split at hq
      · exact hl' q hq
      · rcases List.mem_append.1 hq with hq | hq
        · exact hl' q hq
        · simp at hq; rw [hq]; exact lt_top hp
    split
    · exact fun h => absurd h (none (setDev (setChan s c fun m => { m with stack := st, lastVelocity := v }) i _) rfl)
    · have h2 := h1.dev (f := fun d => { d with glide := 0 }) hf (by omega)
        { (h1.ok he hs).dev i (by omega) with glide := lt_top (by decide : 0 < 128) }
      intro _
      refine ⟨_, h2.ok he hs, ⟨rfl, ?_, ?_, ?_, ?_, ?_, ?_, ?_, ?_⟩, rfl⟩ <;> simp
  · exact fun _ => ⟨s, hs, ⟨rfl, rfl, rfl, rfl, rfl, rfl, rfl, rfl, rfl⟩, rfl⟩

/-- A note started on an FM voice is one note-on of the FM device, for a channel that is percussive exactly for MIDI
channel 10, at the pitch the MIDI channel's tuning gives the key. -/
theorem startNote_call (he : env.Ok) (hs : Ok env tame s) {c p v i : Nat} (hc : c < 16) (hi : i < 6)
    (hn : (s.dev i).num = i) (ho : (s.dev i).ops = .fm) :
    ∃ f : Fm.St, Fm.FmSafe f ∧ (f.ch i).percussive = (c == 9) ∧ f.user = s.fm.user ∧
      (startNote env s i c p v).fm =
        (let pc := effectivePitchCents p 0 (s.chan c).pitchBend (s.chan c).range (s.chan c).fineTune
         Fm.noteOn env.fm f i pc.pitch pc.cents v) := by
  have hD : i < 13 := by omega
  unfold startNote
  extract_lets a b d
  have h0 : Path env tame (fun _ => True) (fun _ => True) (fun _ => False) (fun _ => False) s a := by
    simp only [a]; split
    · exact devProgram_path hs hD trivial (hs.chan c hc).program
    · exact .refl
  have h1 : Path env tame (fun _ => True) (fun _ => True) (fun _ => False) (fun _ => False) s b :=
    h0.dev trivial (hs.lt i hD) { ((h0.ok he hs).dev i hD) with map := .inl hc }
  have ad : a.dev = s.dev := by
    simp only [a]; split
    · simp
    · rfl
  have ac : a.chan = s.chan := by
    simp only [a]; split
    · simp
    · rfl
  have au : a.fm.user = s.fm.user := by
    simp only [a]; split
    · simp only [devProgram, ho, hn]
      exact (Fm.program_stereo (env := env.fm) (i := i) s.fm (s.chan c).program).2.1
    · rfl
  have bi : b.dev i = { s.dev i with midiChannel := c, noteOn := true, cents := 0, pitch := p } := by simp [b, ad]
  have bc : b.chan = s.chan := ac
  have h2 := h1.trans (updateDev_path (h1.ok he hs) hD trivial he (by rw [bi]; exact hc))
  have o := updateDev_own (env := env) (s := b) hi (by rw [bi]; exact hn) (by rw [bi]; exact ho) (by rw [bi]; exact hc)
  simp only at o
  have di : d.dev i = ({ s.dev i with midiChannel := c, noteOn := true, cents := 0, pitch := p } : Dev).sync (s.chan c) := by
    simp only [d]
    rw [updateDev_dev (by rw [bi]; exact hc)]
    simp [bi, bc]
  have dc : d.chan = s.chan := by simp only [d, updateDev_chan]; exact bc
  refine ⟨d.fm, (h2.ok he hs).fm, ?_, ?_, ?_⟩
  · rw [show d.fm = (updateDev env b i).fm from rfl, o.2.2.2.1, bi]
  · rw [show d.fm = (updateDev env b i).fm from rfl, o.2.2.2.2]; exact au
  · unfold setDownstreamNoteOn withPitch
    simp only [di, dc, Dev.sync, if_pos hc, devNoteOn, ho, hn]
    rfl

end Mdmi.Midi
