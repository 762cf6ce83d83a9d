import Verif.Proofs.MidiFmSram
/-! C34: corruption and power loss. -/
namespace Mdmi.Props
open Mdmi Mdmi.Sram
open Mdmi.Synth (FmPreset)

/-- **C34** (bursts).  If a program's slot is valid and the memory is then changed so that within the slot
all changed bits lie within 16 consecutive bits (in particular within any two adjacent bytes), the slot
is either unchanged or no longer loads. -/
theorem C34_burst_detected (m m' : Mem) (n : Nat) (p q : FmPreset) (w : Nat)
    (hb : ∀ j < 288, bitAt (readSlot m n) j ≠ bitAt (readSlot m' n) j → w ≤ j ∧ j < w + 16)
    (h : loadProgram m n = .ok p) (h' : loadProgram m' n = .ok q) : readSlot m' n = readSlot m n := by
  exact burst_detected (readSlot_length m n) (readSlot_length m' n) hb h h'

/-- **C34** (few bits).  If a program's slot is valid and one, two, three, or any odd number of its 288 bits
are then flipped, the slot no longer loads. -/
theorem C34_flips_detected (m m' : Mem) (n : Nat) (p : FmPreset)
    (hf : flips (readSlot m n) (readSlot m' n) % 2 = 1 ∨ flips (readSlot m n) (readSlot m' n) = 2)
    (h : loadProgram m n = .ok p) (q : FmPreset) : loadProgram m' n ≠ .ok q := by
  intro h'
  have k := accepted_diff (readSlot_length m n) (readSlot_length m' n) h h'
  rw [← pops_zip] at hf
  rcases hf with hf | hf
  · exact fold_odd_ne _ hf k
  · refine fold_pops2_ne _ ?_ hf k
    simp [readSlot_length]

/-- **C34** (other slots).  However many of the byte writes of a store or clear reach the memory, no other
program is affected; and neither is it by any other corruption of the slot. -/
theorem C34_crash_confined (m : Mem) (n k : Nat) (x : FmPreset) (i : Nat) (hne : i ≠ n)
    (ws : List (Nat × BitVec 8)) (hws : ws = saveWrites n x ∨ ws = clearWrites n ∨ ∀ w ∈ ws, area n w.1) :
    loadProgram (applyWrites m (ws.take k)) i = loadProgram m i := by
  refine frame_other (p := n) ?_ hne m
  intro w hw
  have := List.mem_of_mem_take hw
  rcases hws with rfl | rfl | h
  · exact saveWrites_area this
  · exact clearWrites_area this
  · exact h w this

/-- **C34** (crash while clearing).  A power loss at any point of a clear leaves the old content or
nothing. -/
theorem C34_clear_atomic (m : Mem) (n k : Nat) :
    loadProgram (applyWrites m ((clearWrites n).take k)) n = loadProgram m n ∨
    loadProgram (applyWrites m ((clearWrites n).take k)) n = .empty := by
  match k with
  | 0 => exact .inl rfl
  | 1 =>
    right
    have h0 : applyWrites m ((clearWrites n).take 1) (slotOffset n) = 0 := by
      simp [applyWrites, clearWrites, upd]
    have : (readSlot (applyWrites m ((clearWrites n).take 1)) n).take 2 =
        [0, (applyWrites m ((clearWrites n).take 1)) (slotOffset n + 1)] := by
      have : (List.range 36) = 0 :: 1 :: (List.range 34).map (· + 2) := by decide
      rw [readSlot, this]
      simp [h0]
    unfold loadProgram loadSlot
    rw [this, if_pos]
    generalize applyWrites m ((clearWrites n).take 1) (slotOffset n + 1) = y
    have := y.isLt
    have e : ofBe [0, y] = y.toNat := by simp [ofBe]
    rw [e]; omega
  | k + 2 =>
    right
    have : (clearWrites n).take (k + 2) = clearWrites n := by simp [clearWrites]
    rw [this]; exact clear_load m n

/-- **C34** (crash while storing; partial: the slot holds a valid preset, and old and new preset differ
only in parameters packed into two adjacent bytes of the slot, e.g. in a single parameter).  A power loss
at any point leaves the old preset, the new preset, or nothing. -/
theorem C34_store_atomic_partial (m : Mem) (n k : Nat) (old new : FmPreset) (ho : old.Ok) (hn : new.Ok) (i : Nat)
    (hd : ∀ j < 34, j ≠ i → j ≠ i + 1 → (slotBytes old)[j]? = (slotBytes new)[j]?) (q : FmPreset)
    (h : loadProgram (applyWrites (applyWrites m (saveWrites n old)) ((saveWrites n new).take k)) n = .ok q) :
    q = old ∨ q = new := by
  have e0 : readSlot (applyWrites m (saveWrites n old)) n = slotBytes old := by
    have := save_readSlot m n 36 old
    rwa [show (saveWrites n old).take 36 = saveWrites n old by
        rw [saveWrites, writesFrom_take, List.take_of_length_le (by rw [slotBytes_length]; omega)],
      List.take_of_length_le (by rw [slotBytes_length]; omega),
      List.drop_of_length_le (by rw [readSlot_length]; omega), List.append_nil] at this
  unfold loadProgram at h
  rw [save_readSlot, e0] at h
  exact torn_store ho hn hd h

private def op0 : Synth.Operator := ⟨1, 2, 31, 1, 5, 1, 2, 3, 7, 20, 9⟩
private def op1 : Synth.Operator := { op0 with attackRate := 14, decayRate := 4, sustainLevel := 3 }
private def old : FmPreset := ⟨5, 3, 2, 6, ⟨op0, op0, op0, op0⟩⟩
private def new : FmPreset := ⟨5, 3, 2, 6, ⟨op1, op0, op0, op1⟩⟩
private def torn : FmPreset := ⟨5, 3, 2, 6, ⟨op1, op0, op0, op0⟩⟩

/-- The full statement is false: if two presets have the same checksum, a power loss while one is stored
over the other can leave a mixture of both that loads. -/
theorem C34_torn_store_loads_mixture :
    let m := applyWrites (fun _ => 0xFF) (saveWrites 7 old)
    loadProgram (applyWrites m ((saveWrites 7 new).take 20)) 7 = .ok torn ∧ torn ≠ old ∧ torn ≠ new := by
  decide +kernel

/-- The full statement is false: clearing wipes the magic number only, so a power loss after the first two
bytes of the next store brings the cleared preset back. -/
theorem C34_crash_revives_cleared_preset :
    let m := applyWrites (applyWrites (fun _ => 0xFF) (saveWrites 7 old)) (clearWrites 7)
    loadProgram m 7 = .empty ∧ loadProgram (applyWrites m ((saveWrites 7 new).take 2)) 7 = .ok old := by
  decide +kernel

-- non-vacuity
private def old' : FmPreset := { old with ops := ⟨op0, { op0 with totalLevel := 99 }, op0, op0⟩ }
example : ∀ j : Fin 34, j.val ≠ 14 → j.val ≠ 15 → (slotBytes old)[j.val]? = (slotBytes old')[j.val]? := by
  decide +kernel
example : let m := applyWrites (fun _ => 0xFF) (saveWrites 7 old)
    loadProgram m 7 = .ok old ∧ loadProgram (upd (upd m (32 + 36 * 7 + 9) 0) (32 + 36 * 7 + 10) 0) 7 = .badChecksum ∧
    loadProgram (applyWrites m ((saveWrites 7 old').take 20)) 7 = .badChecksum ∧
    loadProgram (applyWrites m ((saveWrites 7 old').take 14)) 7 = .ok old ∧
    flips (readSlot m 7) (readSlot (upd m (32 + 36 * 7 + 9) 0) 7) = 3 := by decide +kernel

end Mdmi.Props
