import Verif.Proofs.MidiFmBus
/-! C58: bus ownership across preset-memory accesses and samples. -/
namespace Mdmi.Props
open Mdmi Mdmi.Fm

/-- Full statement of C58: in every history of legal calls every YM2612 write owns the bus, and every access
to the preset memory leaves the bus as it found it. -/
def C58_statement (env : Fm.Env) : Prop :=
  ∀ (b : Bool) (m : Sram.Mem) (ops : List Fm.Op), (∀ op ∈ ops, op.Legal) →
    let s := Fm.run env (Fm.boot env b m) ops
    writesOwned b s.synth.out ∧
    ∀ op n, op.Legal → op.writes n → (Fm.step env s op).synth.busTaken = s.synth.busTaken

/-- **C58** (negation, for every state).  With SRAM present, storing or clearing any preset inverts the
ownership of the bus: a held bus is released although the DAC setting is unchanged, a released one stays taken. -/
theorem C58_preset_memory_inverts_the_bus (env : Fm.Env) (hs : env.sram = true) (s : Fm.St) (op : Fm.Op) (n : Nat)
    (hl : op.Legal) (hw : op.writes n) :
    (Fm.step env s op).synth.busTaken = !s.synth.busTaken ∧
    (Fm.step env s op).synth.dacEnable = s.synth.dacEnable :=
  writes_inverts hs hl hw

/-- **C58** (negation, consequence).  With the DAC disabled and the bus held, as after start-up, the first
key-on after a store or clear is written while the Z80 owns the bus. -/
theorem C58_write_without_the_bus (env : Fm.Env) (he : env.Ok) (hs : env.sram = true) (b : Bool) (m : Sram.Mem)
    (op : Fm.Op) (n : Nat) (hl : op.Legal) (hw : op.writes n) (c : Nat) :
    ¬ writesOwned b (Fm.run env (Fm.boot env b m) [op, .noteOff c]).synth.out := by
  obtain ⟨p, hp, -⟩ := presetOf he (n := 0) (by omega)
  have w := boot_w he b m
  have d : (Fm.boot env b m).synth.busTaken = true ∧ (Fm.boot env b m).synth.dacEnable = false := by
    simp only [Fm.boot, Fm.reset, hp, call, Synth.step]
    exact (Synth.init_rel _ p).2
  simp only [Fm.run, List.foldl_cons, List.foldl_nil]
  generalize Fm.boot env b m = s at *
  obtain ⟨h1, h2⟩ := writes_inverts (s := s) hs hl hw
  rw [d.1] at h1; rw [d.2] at h2
  have o : Synth.busOwned b (Fm.step env s op).synth.out = (Fm.step env s op).synth.busTaken :=
    (writes_own hs hl hw ⟨w.owned, w.ok⟩).1
  generalize Fm.step env s op = t at *
  simp only [Fm.step, Fm.noteOff, call, Synth.step, Synth.noteOff, Synth.writeRegSafe, h2, if_true, Synth.emit,
    writesOwned, o, h1]
  simp

theorem C58_violated (env : Fm.Env) (he : env.Ok) (hs : env.sram = true) : ¬ C58_statement env := by
  intro h
  refine C58_write_without_the_bus env he hs false (fun _ => 0) (.clear 0) 0 (by show 0 < 128; omega) rfl 0
    (h false (fun _ => 0) [.clear 0, .noteOff 0] ?_).1
  intro op ho
  simp only [List.mem_cons, List.not_mem_nil, or_false] at ho
  rcases ho with rfl | rfl
  · show 0 < 128; omega
  · show 0 < 6; omega

/-- **C58** (partial).  Histories that do not write the preset memory and touch samples only while the DAC is
enabled: every YM2612 write owns the bus, the driver knows who owns it, and the 68k holds it whenever the
DAC is disabled.  This covers the reads of the preset memory at start-up and on every reset.
Missing: stores and clears, which invert ownership (above), and samples played with the DAC off (below). -/
theorem C58_writes_own_the_bus_partial (env : Fm.Env) (he : env.Ok) (b : Bool) (m : Sram.Mem) (ops : List Fm.Op)
    (hw : ∀ op ∈ ops, ∀ n, ¬ op.writes n)
    (hd : ∀ pre op post, ops = pre ++ op :: post → op.pcm →
      (Fm.run env (Fm.boot env b m) pre).synth.dacEnable = true) :
    let s := Fm.run env (Fm.boot env b m) ops
    writesOwned b s.synth.out ∧ Synth.busOwned b s.synth.out = s.synth.busTaken ∧
    (s.synth.dacEnable = false → s.synth.busTaken = true) := by
  have w0 := boot_w he b m
  have key : ∀ (l : List Fm.Op) (s : Fm.St), WInv b s.synth → (∀ op ∈ l, ∀ n, ¬ op.writes n) →
      (∀ pre op post, l = pre ++ op :: post → op.pcm → (Fm.run env s pre).synth.dacEnable = true) →
      WInv b (Fm.run env s l).synth := by
    intro l
    induction l with
    | nil => intro s h _ _; exact h
    | cons o l ih =>
      intro s h h1 h2
      refine ih (Fm.step env s o) (h.fm he (h1 o (by simp)) (h2 [] o l rfl)) (fun x hx => h1 x (by simp [hx])) ?_
      intro pre op post e hp
      exact h2 (o :: pre) op post (by rw [e]; rfl) hp
  have w := key ops _ w0 hw hd
  exact ⟨w.ok, w.owned, w.held⟩

/-- **C58** (negation, samples).  A sample started or stopped while the DAC is disabled releases the bus, and
the next register write happens without it. -/
theorem C58_sample_with_dac_off (env : Fm.Env) (b : Bool) (s : Fm.St) (hd : s.synth.dacEnable = false) (c : Nat) :
    ¬ writesOwned b (Fm.run env s [.dacNoteOff, .noteOff c]).synth.out := by
  simp only [Fm.run, List.foldl_cons, List.foldl_nil, Fm.step, dacNoteOff, Fm.noteOff, call, Synth.step,
    Synth.noteOff, Synth.writeRegSafe, Synth.emit, hd, if_true, writesOwned, Synth.busOwned]
  simp

/-- `writesOwned` unfolded: wherever a register is written the bus is owned. -/
theorem C58_writesOwned_meaning (b : Bool) (newer older : List Synth.Ev) (p r d : Nat)
    (h : writesOwned b (newer ++ .ym p r d :: older)) : Synth.busOwned b older = true := by
  induction newer with
  | nil => exact h.1
  | cons e rest ih =>
    cases e <;> simp only [List.cons_append, writesOwned] at h
    case ym => exact ih h.2
    all_goals exact ih h

private def op0 : Synth.Operator := ⟨1, 2, 31, 1, 5, 1, 2, 3, 7, 20, 9⟩
private def pr : Synth.FmPreset := ⟨5, 3, 2, 6, ⟨op0, op0, op0, op0⟩⟩
private def envEx : Fm.Env := ⟨List.replicate 128 pr, List.replicate 128 ⟨pr, 60⟩, fun _ => true, false, true⟩

-- non-vacuity: a history with reset, notes, DAC and sample; and the bus after a store
private def opsEx : List Fm.Op :=
  [.noteOn 0 60 0 100, .synth (.enableDac true), .dacNoteOn 40, .noteOff 0, .dacNoteOff, .reset, .noteOff 1]
example : let s := Fm.run envEx (Fm.boot envEx false fun _ => 0) opsEx
    s.synth.busTaken = true ∧ s.synth.out.length > 350 := by decide +kernel
example : (Fm.run envEx (Fm.boot envEx false fun _ => 0) [.store 3 pr]).synth.busTaken = false := by decide +kernel
example : (Fm.run envEx (Fm.boot envEx false fun _ => 0) [.synth (.enableDac true), .store 3 pr]).synth.busTaken =
    true := by decide +kernel

end Mdmi.Props
