import Verif.Proofs.MidiSync
import Verif.Spec.Example
/-! C38: pan. -/
namespace Mdmi.Props
open Mdmi Mdmi.Midi
open Mdmi.Synth (chReg)

/-- The left output of FM channel `i` is on: bit 7 of register B4. -/
def leftOn (out : List Synth.Ev) (i : Nat) : Bool := chReg out 0xB4 i / 128 % 2 == 1

/-- The right output of FM channel `i` is on: bit 6 of register B4. -/
def rightOn (out : List Synth.Ev) (i : Nat) : Bool := chReg out 0xB4 i / 64 % 2 == 1

/-- Pan 0..31 is left only, 32..95 both, 96..127 right only. -/
def PannedTo (v : Nat) (out : List Synth.Ev) (i : Nat) : Prop :=
  leftOn out i = decide (v ≤ 95) ∧ rightOn out i = decide (32 ≤ v)

instance (v out i) : Decidable (PannedTo v out i) := by unfold PannedTo; infer_instance

variable {env : Env} {s : St}

/-- Messages under which voice `i` follows its pan: no raw register writes, no stereo controller 77 (which sets the
outputs behind the pan's back), no sample playback on voice 6. -/
def followsPan (i : Nat) (op : Op) : Prop :=
  op.Wf ∧ ¬op.raw ∧ (∀ c v, op ≠ .cc c 77 v) ∧ (i = 5 → ¬op.enablesDac)

theorem followsPan.keeps {i : Nat} {op : Op} (h : followsPan i op) : op.keeps False False i := by
  obtain ⟨-, -, h77, hd⟩ := h
  cases op <;> simp only [Op.keeps, false_implies]
  · rename_i c k v
    refine ⟨fun e => h77 c v (by rw [e]), fun e k78 => ?_, fun h => h.elim, fun h => h.elim⟩
    have := hd e
    simp only [Op.enablesDac] at this
    omega
  · exact ⟨fun h => h.elim, fun h => h.elim⟩
  · exact fun h => h

theorem sides_eq {P D : Prop} {i : Nat} (hi : i < 6) (hinv : Synth.Inv s.fm.synth) (h : Cached env P D 13 i s) :
    PannedTo (s.dev i).pan s.fm.synth.out i := by
  have cs := hinv.ch i hi
  have e := cs.b4
  have h1 := cs.ok.ams
  have h2 := cs.ok.fms
  rw [h.pan] at e
  unfold PannedTo leftOn rightOn
  rw [e]
  unfold Fm.side
  split
  · rename_i x
    rw [show decide ((s.dev i).pan ≤ 95) = false by simp; omega, show decide (32 ≤ (s.dev i).pan) = true by simp; omega]
    simp only [beq_iff_eq, beq_eq_false_iff_ne]; omega
  · split
    · rw [show decide ((s.dev i).pan ≤ 95) = true by simp; omega, show decide (32 ≤ (s.dev i).pan) = true by simp; omega]
      simp only [beq_iff_eq]; omega
    · rw [show decide ((s.dev i).pan ≤ 95) = true by simp; omega, show decide (32 ≤ (s.dev i).pan) = false by simp; omega]
      simp only [beq_iff_eq, beq_eq_false_iff_ne]; omega

/-- Histories of messages under which voice `i` follows its pan. -/
def PanHistory (i : Nat) (ops : List Op) : Prop :=
  (∀ op ∈ ops, followsPan i op) ∧ ((∀ op ∈ ops, ¬op.enablesDac) ∨ (∀ op ∈ ops, ¬op.detunes))

theorem hist_cached (he : env.Ok) {i : Nat} (hi : i < 6) {ops : List Op} (h : PanHistory i ops) (b : Bool) (m : Sram.Mem) :
    Cached env False False 13 i (run env (boot env b m) ops) ∧ Synth.Inv (run env (boot env b m) ops).fm.synth :=
  ⟨run_cached he hi ops (fun o ho => (h.1 o ho).keeps) (boot_cached he hi b m (fun h => h.elim) (fun h => h.elim)),
    Clean.inv he ⟨b, m, ops, fun o ho => ⟨(h.1 o ho).1, (h.1 o ho).2.1⟩, h.2, rfl⟩⟩

/-- At every moment the outputs of every FM voice are those of the last pan its MIDI channel was sent (64 after a reset),
whatever notes, program changes, parameters, presets or resets came in between.  Missing from the full statement: histories
with controller 77, raw writes or sample playback on this voice (there the claim fails, below), and voices that were
remapped since their last note (`C38_pan_applies_partial` covers the pan messages that follow). -/
theorem C38_pan_always_partial (he : env.Ok) {i c : Nat} (hi : i < 6) (hc : c < 16) {ops : List Op} (h : PanHistory i ops)
    (hw : ∀ op ∈ ops, ¬op.rewires) (b : Bool) (m : Sram.Mem)
    (hm : ((run env (boot env b m) ops).dev i).midiChannel = c) :
    PannedTo (settingsOf c ops).pan (run env (boot env b m) ops).fm.synth.out i := by
  obtain ⟨k, inv⟩ := hist_cached he hi h b m
  have e := voice_settings ops hw b m (by omega) hc hm
  rw [← show (((run env (boot env b m) ops).dev i).pan = (settingsOf c ops).pan) from by rw [← e]; rfl]
  exact sides_eq hi inv k

private theorem run_append (s : St) (l k : List Op) : run env s (l ++ k) = run env (run env s l) k := by
  simp [run, List.foldl_append]

private theorem program_dev (s : St) {c : Nat} (hc : c < 16) (p j : Nat) :
    ((step env s (.program c p)).dev j).pan = (s.dev j).pan := by
  simp only [step, hc, if_true]
  unfold program
  obtain ⟨-, h⟩ := foreach_devs (s := setChan s c fun m => { m with program := p }) (c := c)
    (body := fun s i => updateProgram env s c i) (g := fun m d => { d with program := m.program })
    (fun t i => updateProgram_dev c i) (fun t i => updateProgram_chan c i) (fun t i => updateProgram_dynamic c i)
  simp only
  generalize foreach (setChan s c fun m => { m with program := p }) c (fun s i => updateProgram env s c i) = t at *
  rw [emit_dev, h j]
  split <;> rfl

/-- A pan message sets the outputs of every FM voice of its channel, after any history with any remapping, and program
changes that follow keep them. -/
theorem C38_pan_applies_partial (he : env.Ok) {i c v : Nat} (hi : i < 6) (hc : c < 16) (hv : v < 128) {ops : List Op}
    (h : PanHistory i ops) (b : Bool) (m : Sram.Mem) (hm : ((run env (boot env b m) ops).dev i).midiChannel = c)
    (ps : List (Nat × Nat)) (hp : ∀ x ∈ ps, x.1 < 16 ∧ x.2 < 128) :
    PannedTo v (run env (boot env b m) (ops ++ .cc c 10 v :: ps.map fun x => .program x.1 x.2)).fm.synth.out i := by
  have ht : PanHistory i (ops ++ .cc c 10 v :: ps.map fun x => .program x.1 x.2) := by
    refine ⟨fun o ho => ?_, ?_⟩
    · rcases List.mem_append.1 ho with ho | ho
      · exact h.1 o ho
      rcases List.mem_cons.1 ho with rfl | ho
      · exact ⟨⟨hc, by omega, hv⟩, fun x => x, fun _ _ e => (by cases e), fun _ e => (by cases e.1)⟩
      · obtain ⟨x, hx, rfl⟩ := List.mem_map.1 ho
        exact ⟨hp x hx, fun x => x, fun _ _ e => (by cases e), fun _ e => e⟩
    · rcases h.2 with k | k
      · refine .inl fun o ho => ?_
        rcases List.mem_append.1 ho with ho | ho
        · exact k o ho
        rcases List.mem_cons.1 ho with rfl | ho
        · exact fun e => by cases e.1
        · obtain ⟨x, hx, rfl⟩ := List.mem_map.1 ho; exact fun e => e
      · refine .inr fun o ho => ?_
        rcases List.mem_append.1 ho with ho | ho
        · exact k o ho
        rcases List.mem_cons.1 ho with rfl | ho
        · exact fun e => by cases e.1
        · obtain ⟨x, hx, rfl⟩ := List.mem_map.1 ho; exact fun e => e
  obtain ⟨kc, inv⟩ := hist_cached he hi ht b m
  have key := sides_eq hi inv kc
  suffices e : ((run env (boot env b m) (ops ++ .cc c 10 v :: ps.map fun x => .program x.1 x.2)).dev i).pan = v by rwa [e] at key
  clear key kc inv ht
  rw [run_append]
  generalize run env (boot env b m) ops = s at hm ⊢
  show ((run env (step env s (.cc c 10 v)) _).dev i).pan = v
  have h1 : ((step env s (.cc c 10 v)).dev i).pan = v := by
    simp only [step, hc, if_true, cc, ccSwitch_10]
    obtain ⟨-, h⟩ := foreach_devs (s := setChan s c fun m => { m with pan := v }) (c := c)
      (body := fun s i => updatePan env s c i) (g := fun m d => { d with pan := m.pan })
      (fun t i => updatePan_dev c i) (fun t i => updatePan_chan c i) (fun t i => updatePan_dynamic c i)
    generalize foreach (setChan s c fun m => { m with pan := v }) c (fun s i => updatePan env s c i) = t at *
    rw [emit_dev, h i, if_pos ⟨by omega, hm⟩]
    simp
  generalize step env s (.cc c 10 v) = t at h1 ⊢
  clear hm
  induction ps generalizing t with
  | nil => exact h1
  | cons x ps ih =>
    refine ih (fun y hy => hp y (.tail _ hy)) (step env t (.program x.1 x.2)) ?_
    rw [program_dev t (hp x (.head _)).1]; exact h1

/-- The claim as stated, for every reachable state without raw writes, fails: after pan, then controller 77, the same pan
is taken for known and not sent. -/
theorem C38_full_fails : ¬∀ (env : Env) (s : St) (c v i : Nat), env.Ok → Clean env s → c < 16 → v < 128 → i < 6 →
    (s.dev i).midiChannel = c → PannedTo v (step env s (.cc c 10 v)).fm.synth.out i := by
  intro h
  have := h (Ex.env .static) (Ex.after .static [.cc 0 10 0, .cc 0 77 127]) 0 0 0 (Ex.env_ok _)
    ⟨true, Ex.mem, _, by simp [Op.Wf, Op.raw], by simp [Op.enablesDac], rfl⟩ (by omega) (by omega) (by omega)
    (by decide +kernel)
  revert this
  decide +kernel

/-- The other way it fails: a pan sent while voice 6 plays samples is dropped but taken for sent, so that the voice keeps
its old outputs when it returns to FM, and the same pan sent again does nothing. -/
theorem C38_fails_after_samples :
    let s := Ex.after .static [.cc 5 78 127, .cc 5 10 0, .cc 5 78 0, .cc 5 10 0, .noteOn 5 60 100]
    (s.dev 5).ops = .fm ∧ (s.dev 5).midiChannel = 5 ∧ (s.dev 5).noteOn = true ∧ ¬PannedTo 0 s.fm.synth.out 5 := by
  decide +kernel

/-- Left, both and right are different settings, and a voice with a program change in between keeps its pan. -/
example : PannedTo 31 (Ex.after .static [.cc 2 10 31, .program 2 5, .noteOn 2 60 100]).fm.synth.out 2 ∧
    leftOn (Ex.after .static [.cc 2 10 31, .program 2 5, .noteOn 2 60 100]).fm.synth.out 2 = true ∧
    rightOn (Ex.after .static [.cc 2 10 31, .program 2 5, .noteOn 2 60 100]).fm.synth.out 2 = false ∧
    PannedTo 96 (Ex.after .static [.cc 2 10 96, .program 2 5]).fm.synth.out 2 ∧
    rightOn (Ex.after .static [.cc 2 10 96, .program 2 5]).fm.synth.out 2 = true ∧
    PannedTo 64 (Ex.after .static []).fm.synth.out 2 := by decide +kernel

/-- In dynamic mode the voice a note goes to takes over the pan of the channel. -/
example : PannedTo 0 (run (Ex.env .dynamic) (boot (Ex.env .dynamic) true Ex.mem)
    [.cc 7 10 0, .noteOn 7 60 100]).fm.synth.out 0 :=
  C38_pan_always_partial (c := 7) (Ex.env_ok _) (by omega) (by omega)
    ⟨by simp [followsPan, Op.Wf, Op.raw, Op.enablesDac], by simp [Op.enablesDac]⟩ (by simp [Op.rewires]) true Ex.mem
    (by decide +kernel)

end Mdmi.Props
