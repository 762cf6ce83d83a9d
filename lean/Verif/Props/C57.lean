import Verif.Proofs.MidiFmSm
/-! C57: channel 3 special mode. -/
namespace Mdmi.Props
open Mdmi Mdmi.Fm

/-- **C57** (isolation).  After any history of legal calls, a note or pitch change on special-mode operator `o`
changes no chip register other than the operator's two frequency registers and its total level, keys no channel
on or off, and pitch changes leave the total level alone as well. -/
theorem C57_only_its_registers (env : Fm.Env) (he : env.Ok) (b : Bool) (m : Sram.Mem) (ops : List Fm.Op)
    (hl : ∀ op ∈ ops, op.Legal) (o key v : Nat) (cents : Int) (ho : o < 3) (hv : v < 128) :
    let s := Fm.run env (Fm.boot env b m) ops
    let t := Fm.step env s (.smNoteOn o key cents v)
    let u := Fm.step env s (.smPitch o key cents)
    (∀ p r, (p, r) ∉ smOwns o → Synth.ymReg t.synth.out p r = Synth.ymReg s.synth.out p r) ∧
    (∀ p r, (p, r) ∉ [(0, (smRegs o).1), (0, (smRegs o).2)] →
      Synth.ymReg u.synth.out p r = Synth.ymReg s.synth.out p r) ∧
    ∀ c, Synth.keyed t.synth.out c = Synth.keyed s.synth.out c ∧ Synth.keyed u.synth.out c = Synth.keyed s.synth.out c := by
  have h := (boot_ok he b m).1.run he ops hl
  simp only
  generalize Fm.run env (Fm.boot env b m) ops = s at *
  have h1 := h.step he (op := .smPitch o key cents) ho
  simp only [Fm.step, smNoteOn, smPitch, ho, if_true, call, Synth.step] at h1 ⊢
  have h2 := smVolume_reg h1.synth ho hv
  refine ⟨fun p r hn => ?_, fun p r hn => ?_, fun c => ⟨?_, ?_⟩⟩
  · simp only [smOwns, List.mem_cons, Prod.mk.injEq, List.not_mem_nil, or_false, not_or] at hn
    dsimp only at h2
    rw [h2.1, if_neg (fun k => hn.2.2 k.2), smPitch_reg _ _ _ _ _ _ ho, if_neg hn.1, if_neg hn.2.1]
  · simp only [List.mem_cons, Prod.mk.injEq, List.not_mem_nil, or_false, not_or] at hn
    rw [smPitch_reg _ _ _ _ _ _ ho, if_neg hn.1, if_neg hn.2]
  · dsimp only at h2
    rw [h2.2, smPitch_key]
  · rw [smPitch_key]

/-- **C57** (distinct registers).  No two operators share a register, and none of them is a register of another
channel or of channel 3's own frequency. -/
theorem C57_distinct_registers (o o' : Nat) (ho : o < 3) (ho' : o' < 3) (hne : o ≠ o') (x : Nat × Nat)
    (h : x ∈ smOwns o) : x ∉ smOwns o' ∧ Synth.owner x.1 x.2 0 = some 2 ∧ x ≠ (0, 0xA2) ∧ x ≠ (0, 0xA6) := by
  have : ∀ o : Fin 3, ∀ o' : Fin 3, o ≠ o' → ∀ x ∈ smOwns o.val,
      x ∉ smOwns o'.val ∧ Synth.owner x.1 x.2 0 = some 2 ∧ x ≠ (0, 0xA2) ∧ x ≠ (0, 0xA6) := by decide
  exact this ⟨o, ho⟩ ⟨o', ho'⟩ (by simpa using hne) x h

/-- **C57** (pitch).  A special-mode note or pitch change for a key in range tunes the operator to within
5 cents. -/
theorem C57_in_tune (env : Fm.Env) (he : env.Ok) (b : Bool) (m : Sram.Mem) (ops : List Fm.Op)
    (hl : ∀ op ∈ ops, op.Legal) (o key x v : Nat) (ho : o < 3) (hv : v < 128) (hk : 11 ≤ key ∧ key ≤ 106) (hx : x < 100) :
    let s := Fm.run env (Fm.boot env b m) ops
    InTune env.pal (smFreq (Fm.step env s (.smNoteOn o key (x : Int) v)).synth.out o) (100 * key + x) 5 ∧
    InTune env.pal (smFreq (Fm.step env s (.smPitch o key (x : Int))).synth.out o) (100 * key + x) 5 := by
  have h := (boot_ok he b m).1.run he ops hl
  simp only
  generalize Fm.run env (Fm.boot env b m) ops = s at *
  have h1 := h.step he (op := .smPitch o key (x : Int)) ho
  simp only [Fm.step, smNoteOn, smPitch, ho, if_true, call, Synth.step] at h1 ⊢
  have h2 := (smVolume_reg h1.synth ho hv).1
  dsimp only at h2
  have g := freqNum_range env.pal hk hx
  have f := smPitch_freq s.synth (o := o) (b := pitchToOctave key) (f := freqNum env.pal key (x : Int)) ho (by omega) (by omega)
  have oo := @Synth.opOffset_lt o
  refine ⟨?_, by rw [f]; exact in_tune env.pal hk hx⟩
  have e : smFreq (Synth.specialModeVolume (Synth.specialModePitch s.synth o (pitchToOctave key)
      (freqNum env.pal key (x : Int))) o v).out o =
      smFreq (Synth.specialModePitch s.synth o (pitchToOctave key) (freqNum env.pal key (x : Int))).out o := by
    simp only [smFreq, h2, smRegs_of ho]
    rw [if_neg (by omega), if_neg (by omega)]
  rw [e, f]; exact in_tune env.pal hk hx

/-- **C57** (level).  After a special-mode note the operator's total level on the chip is, if the operator is a
carrier, its own level scaled by the velocity and by the volume of FM channel 3, and otherwise what it was. -/
theorem C57_level (env : Fm.Env) (he : env.Ok) (b : Bool) (m : Sram.Mem) (ops : List Fm.Op)
    (hl : ∀ op ∈ ops, op.Legal) (o key v : Nat) (cents : Int) (ho : o < 3) (hv : v < 128) :
    let s := Fm.run env (Fm.boot env b m) ops
    let c := s.synth.ch 2
    Synth.opReg (Fm.step env s (.smNoteOn o key cents v)).synth.out 0x40 2 o =
      if o ∈ Synth.carriers c.algorithm then
        Synth.wantTl c.algorithm (s.synth.vol 2) o (Synth.wantTl c.algorithm v o (c.ops.get o).totalLevel)
      else Synth.opReg s.synth.out 0x40 2 o := by
  have h := (boot_ok he b m).1.run he ops hl
  simp only
  generalize Fm.run env (Fm.boot env b m) ops = s at *
  have h1 := h.step he (op := .smPitch o key cents) ho
  simp only [Fm.step, smNoteOn, smPitch, ho, if_true, call, Synth.step] at h1 ⊢
  have h2 := (smVolume_reg h1.synth ho hv).1
  dsimp only at h2
  have oo := @Synth.opOffset_lt o
  have sm : Synth.Same s.synth (Synth.specialModePitch s.synth o (pitchToOctave key) (freqNum env.pal key cents)) :=
    (Synth.write_same _ _ _ _).trans (Synth.write_same _ _ _ _)
  have e : 0x40 + Synth.opOffset o + 2 % 3 = 0x42 + Synth.opOffset o := by omega
  rw [Synth.opReg, h2, sm.ch, sm.vol, Synth.opReg, e]
  simp only [show 2 / 3 = 0 by omega, and_self, and_true]
  split
  · rfl
  · rw [smPitch_reg _ _ _ _ _ _ ho, smRegs_of ho]
    simp only
    rw [if_neg (by omega), if_neg (by omega)]

/-- **C57** (velocity).  On a carrier, a harder special-mode note is never quieter, and velocity 0 is silent. -/
theorem C57_velocity_monotone (alg vol o tl v w : Nat) (hvw : v ≤ w) (hw : w < 128) :
    Synth.wantTl alg vol o (Synth.wantTl alg w o tl) ≤ Synth.wantTl alg vol o (Synth.wantTl alg v o tl) ∧
    (o ∈ Synth.carriers alg → Synth.wantTl alg vol o (Synth.wantTl alg 0 o tl) = 127) := by
  have m : ∀ a b : Nat, a ≤ b → Synth.wantTl alg vol o a ≤ Synth.wantTl alg vol o b := by
    intro a b hab
    unfold Synth.wantTl; split
    · have : (127 - b) * (127 - Synth.volumeToTotalLevels.getD vol 0) / 127 ≤
          (127 - a) * (127 - Synth.volumeToTotalLevels.getD vol 0) / 127 :=
        Nat.div_le_div_right (Nat.mul_le_mul_right _ (by omega))
      omega
    · exact hab
  refine ⟨m _ _ (wantTl_anti hvw hw), fun h => ?_⟩
  have e : Synth.wantTl alg 0 o tl = 127 := by
    unfold Synth.wantTl; rw [if_pos h, show Synth.volumeToTotalLevels.getD 0 0 = 127 from by decide +kernel]; simp
  rw [e]; unfold Synth.wantTl; rw [if_pos h]; simp

private def op0 : Synth.Operator := ⟨1, 2, 31, 1, 5, 1, 2, 3, 7, 20, 9⟩
private def pr : Synth.FmPreset := ⟨7, 3, 2, 6, ⟨op0, op0, op0, op0⟩⟩
private def envEx : Fm.Env := ⟨List.replicate 128 pr, List.replicate 128 ⟨pr, 60⟩, fun _ => true, false, true⟩

-- non-vacuity: three operators with notes of their own, then one changes
example : let ops : List Fm.Op := [.smNoteOn 0 60 0 127, .smNoteOn 1 64 0 90, .smNoteOn 2 67 25 127, .smNoteOn 1 72 0 0]
    let s := Fm.run envEx (Fm.boot envEx false fun _ => 0) ops
    smFreq s.synth.out 0 = (4, 644) ∧ smFreq s.synth.out 1 = (5, 644) ∧ smFreq s.synth.out 2 = (4, 978) ∧
    Synth.opReg s.synth.out 0x40 2 0 = 20 ∧ Synth.opReg s.synth.out 0x40 2 1 = 127 := by decide +kernel

end Mdmi.Props
