import Verif.Proofs.MidiFmVol
/-! C23: FM loudness. -/
namespace Mdmi.Props
open Mdmi Mdmi.Fm

/-- Channel volume a history asks for on channel `c`. -/
def askedVolume (c : Nat) (ops : List Fm.Op) : Nat := ops.foldl (fun x o => o.reqVolume c x) 127
/-- Velocity a history asks for on channel `c`. -/
def askedVelocity (c : Nat) (ops : List Fm.Op) : Nat := ops.foldl (fun x o => o.reqVelocity c x) 127

/-- Full statement of C23 for histories: on every carrier the chip holds the operator's own level scaled by
volume and velocity, and on every other operator its own level. -/
def C23_statement (env : Fm.Env) : Prop :=
  ∀ (b : Bool) (m : Sram.Mem) (ops : List Fm.Op), (∀ op ∈ ops, op.Proper) → (∀ op ∈ ops, ¬ op.driverVolume) →
    ∀ c < 6, ∀ o < 4,
    let s := Fm.run env (Fm.boot env b m) ops
    (Synth.chipOperator s.synth.out c o).totalLevel =
      Synth.wantTl (Synth.chipChannel s.synth.out c).algorithm (askedVolume c ops * askedVelocity c ops / 127) o
        ((s.synth.ch c).ops.get o).totalLevel

/-- **C23** (curve).  For every algorithm, operator and level: more volume never raises the total level (never
makes it quieter); full volume gives the operator's own level; volume zero silences carriers; operators that
are not carriers keep their level at every volume. -/
theorem C23_curve (alg o tl v w : Nat) (hvw : v ≤ w) (hw : w < 128) (htl : tl < 128) :
    Synth.wantTl alg w o tl ≤ Synth.wantTl alg v o tl ∧ Synth.wantTl alg 127 o tl = tl ∧
    (o ∈ Synth.carriers alg → Synth.wantTl alg 0 o tl = 127) ∧
    (o ∉ Synth.carriers alg → Synth.wantTl alg v o tl = tl) := by
  refine ⟨wantTl_anti hvw hw, ?_, ?_, ?_⟩
  · unfold Synth.wantTl; split
    · rw [show Synth.volumeToTotalLevels.getD 127 0 = 0 from by decide +kernel]; omega
    · rfl
  · intro h; unfold Synth.wantTl; rw [if_pos h, show Synth.volumeToTotalLevels.getD 0 0 = 127 from by decide +kernel]
    simp
  · intro h; unfold Synth.wantTl; rw [if_neg h]

/-- **C23** (chip levels; partial).  After any history of proper calls the chip's total level on every operator
of the channel is the operator's own level scaled, on carriers only, by volume times velocity over 127.
Missing: histories that change the algorithm of the channel through its controller, or play special-mode notes
if it is channel 3; there the levels can be stale (below). -/
theorem C23_chip_levels_partial (env : Fm.Env) (he : env.Ok) (b : Bool) (m : Sram.Mem) (ops : List Fm.Op)
    (hl : ∀ op ∈ ops, op.Proper) (hd : ∀ op ∈ ops, ¬ op.driverVolume) (c : Nat) (hc : c < 6)
    (hs : ∀ op ∈ ops, ¬ op.staleTl c) (o : Nat) (ho : o < 4) :
    let s := Fm.run env (Fm.boot env b m) ops
    (Synth.chipOperator s.synth.out c o).totalLevel =
      Synth.wantTl (Synth.chipChannel s.synth.out c).algorithm (askedVolume c ops * askedVelocity c ops / 127) o
        ((s.synth.ch c).ops.get o).totalLevel := by
  have k := levels_run he hc ops hl hd hs (boot_levels he b m hc)
  simp only
  generalize Fm.run env (Fm.boot env b m) ops = s at *
  have e := effectiveVolume_lt (k.safe.chan c hc).1 (k.safe.chan c hc).2
  rw [k.tl.chip (k.inv.ch c hc).ok ho, k.vsync c hc, e.1, k.vol, k.vel]
  have a : (Synth.chipChannel s.synth.out c).algorithm = (s.synth.ch c).algorithm := by
    have := congrArg Synth.FmChannel.algorithm (k.inv.ch c hc).chip
    exact this
  rw [a]; rfl

/-- **C23** (two performances; partial in the same way).  If one history asks for at least the volume and the
velocity of another on a channel, and both leave it with the same sound, then no operator of it is quieter on
the chip. -/
theorem C23_louder_request_is_not_quieter_partial (env : Fm.Env) (he : env.Ok) (b b' : Bool) (m m' : Sram.Mem)
    (ops ops' : List Fm.Op) (hl : ∀ op ∈ ops ++ ops', op.Proper) (hd : ∀ op ∈ ops ++ ops', ¬ op.driverVolume)
    (c : Nat) (hc : c < 6) (hs : ∀ op ∈ ops ++ ops', ¬ op.staleTl c) (o : Nat) (ho : o < 4)
    (hvol : askedVolume c ops ≤ askedVolume c ops') (hvel : askedVelocity c ops ≤ askedVelocity c ops')
    (hsame : (Fm.run env (Fm.boot env b m) ops).synth.ch c = (Fm.run env (Fm.boot env b' m') ops').synth.ch c) :
    (Synth.chipOperator (Fm.run env (Fm.boot env b' m') ops').synth.out c o).totalLevel ≤
      (Synth.chipOperator (Fm.run env (Fm.boot env b m) ops).synth.out c o).totalLevel := by
  have k := levels_run he hc ops (fun x h => hl x (by simp [h])) (fun x h => hd x (by simp [h]))
    (fun x h => hs x (by simp [h])) (boot_levels he b m hc)
  have k' := levels_run he hc ops' (fun x h => hl x (by simp [h])) (fun x h => hd x (by simp [h]))
    (fun x h => hs x (by simp [h])) (boot_levels he b' m' hc)
  rw [k.tl.chip (k.inv.ch c hc).ok ho, k'.tl.chip (k'.inv.ch c hc).ok ho, hsame]
  refine wantTl_anti ?_ (k'.inv.ch c hc).vol
  rw [k.vsync c hc, k'.vsync c hc, (effectiveVolume_lt (k.safe.chan c hc).1 (k.safe.chan c hc).2).1,
    (effectiveVolume_lt (k'.safe.chan c hc).1 (k'.safe.chan c hc).2).1, k.vol, k.vel, k'.vol, k'.vel]
  exact Nat.div_le_div_right (Nat.mul_le_mul hvol hvel)

private def op0 : Synth.Operator := ⟨1, 2, 31, 1, 5, 1, 2, 3, 7, 20, 9⟩
private def pr : Synth.FmPreset := ⟨0, 3, 2, 6, ⟨op0, op0, op0, op0⟩⟩
private def envEx : Fm.Env := ⟨List.replicate 128 pr, List.replicate 128 ⟨pr, 60⟩, fun _ => true, false, true⟩

/-- **C23** (negation).  With the channel volume at zero, changing the algorithm to 7 makes all four operators
carriers, three of them at their full level: a note played at volume zero is audible. -/
theorem C23_volume_zero_is_audible_after_algorithm_change :
    let ops : List Fm.Op := [.volume 0 0, .synth (.algorithm 0 7), .noteOn 0 60 0 100]
    let s := Fm.run envEx (Fm.boot envEx false fun _ => 0) ops
    askedVolume 0 ops = 0 ∧ (Synth.chipChannel s.synth.out 0).algorithm = 7 ∧ Synth.keyed s.synth.out 0 = true ∧
    (Synth.chipOperator s.synth.out 0 0).totalLevel = 20 := by decide +kernel

private theorem envEx_ok : envEx.Ok := by
  have o : op0.Ok := by constructor <;> decide
  have q : pr.Ok := ⟨by decide, by decide, by decide, by decide, ⟨o, o, o, o⟩⟩
  refine ⟨by simp [envEx], ?_, by simp [envEx], ?_⟩
  · intro p hp; rw [List.eq_of_mem_replicate hp]; exact q
  · intro p hp; rw [List.eq_of_mem_replicate hp]; exact ⟨q, by decide⟩

theorem C23_violated : ∃ env : Fm.Env, env.Ok ∧ ¬ C23_statement env := by
  refine ⟨envEx, envEx_ok, fun h => ?_⟩
  have := h false (fun _ => 0) [.volume 0 0, .synth (.algorithm 0 7), .noteOn 0 60 0 100] ?_ ?_ 0 (by omega) 0 (by omega)
  · revert this; decide +kernel
  · intro op ho
    simp only [List.mem_cons, List.not_mem_nil, or_false] at ho
    rcases ho with rfl | rfl | rfl
    · exact ⟨⟨by omega, by omega⟩, by simp⟩
    · exact ⟨.inl (legal_ch rfl (by omega) rfl trivial), by simp⟩
    · exact ⟨⟨by omega, by omega⟩, by simp⟩
  · intro op ho
    simp only [List.mem_cons, List.not_mem_nil, or_false] at ho
    rcases ho with rfl | rfl | rfl <;> exact id

-- non-vacuity
example : let ops : List Fm.Op := [.noteOn 3 60 0 100, .volume 3 90, .program 3 7, .noteOn 3 5 0 1]
    let s := Fm.run envEx (Fm.boot envEx false fun _ => 0) ops
    askedVolume 3 ops = 90 ∧ askedVelocity 3 ops = 100 ∧ (Synth.chipOperator s.synth.out 3 3).totalLevel = 27 ∧
    (Synth.chipOperator s.synth.out 3 0).totalLevel = 20 := by decide +kernel

end Mdmi.Props
