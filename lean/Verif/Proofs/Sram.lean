import Verif.Proofs.SramCrc
import Verif.Spec.Sram
import Verif.Spec.Synth
import Verif.Proofs.Psg
/-! Preset memory: round trip, frames, faults. -/
namespace Mdmi.Sram
open Mdmi.Synth (FmPreset Operator Ops4)

theorem writesFrom_apply (bs : List (BitVec 8)) (m : Mem) (o a : Nat) :
    applyWrites m (writesFrom o bs) a = if o ≤ a ∧ a < o + bs.length then bs.getD (a - o) 0 else m a := by
  induction bs generalizing m o with
  | nil => simp [writesFrom, applyWrites]; omega
  | cons b bs ih =>
    have : applyWrites m (writesFrom o (b :: bs)) = applyWrites (upd m o b) (writesFrom (o + 1) bs) := rfl
    rw [this, ih]
    simp only [List.length_cons]
    by_cases h1 : a = o
    · subst h1
      have : ¬ (a + 1 ≤ a ∧ a < a + 1 + bs.length) := by omega
      have h2 : a ≤ a ∧ a < a + (bs.length + 1) := by omega
      simp [this, upd]
    · by_cases h2 : o + 1 ≤ a ∧ a < o + 1 + bs.length
      · have h3 : o ≤ a ∧ a < o + (bs.length + 1) := by omega
        rw [if_pos h2, if_pos h3, show a - o = (a - (o + 1)) + 1 by omega]
        simp
      · have h3 : ¬ (o ≤ a ∧ a < o + (bs.length + 1)) := by omega
        rw [if_neg h2, if_neg h3]
        exact Psg.upd_other m o a b h1

theorem writesFrom_take (bs : List (BitVec 8)) (o k : Nat) :
    (writesFrom o bs).take k = writesFrom o (bs.take k) := by
  induction bs generalizing o k with
  | nil => simp [writesFrom]
  | cons b bs ih =>
    cases k with
    | zero => rfl
    | succ k => simp only [writesFrom, List.take_succ_cons, ih]

theorem be_length (n v : Nat) : (be n v).length = n := by
  induction n generalizing v with
  | zero => rfl
  | succ n ih => simp [be, ih]

theorem ofBe_append (l : List (BitVec 8)) (b : BitVec 8) : ofBe (l ++ [b]) = ofBe l * 256 + b.toNat := by
  simp [ofBe, List.foldl_append]

theorem ofBe_be (n v : Nat) : ofBe (be n v) = v % 256 ^ n := by
  induction n generalizing v with
  | zero => simp [be, ofBe, Nat.mod_one]
  | succ n ih =>
    rw [be, ofBe_append, ih, BitVec.toNat_ofNat, show 256 ^ (n + 1) = 256 * 256 ^ n from by rw [Nat.pow_succ, Nat.mul_comm],
      Nat.mod_mul]
    omega

theorem slotBody_length (p : FmPreset) : (slotBody p).length = 34 := by simp [slotBody, be_length]
theorem slotBytes_length (p : FmPreset) : (slotBytes p).length = 36 := by
  simp [slotBytes, slotBody_length, be_length]

theorem unpack_pack (o : Operator) (h : o.Ok) : unpackOperator (packOperator o % 256 ^ 6) = o := by
  obtain ⟨h1, h2, h3, h4, h5, h6, h7, h8, h9, h10, h11⟩ := h
  obtain ⟨a, b, c, d, e, f, g, i, j, k, l⟩ := o
  simp only [unpackOperator, packOperator, Synth.Operator.mk.injEq] at *
  refine ⟨?_, ?_, ?_, ?_, ?_, ?_, ?_, ?_, ?_, ?_, ?_⟩ <;> omega

theorem presetOfSlot_slotBytes (p : FmPreset) (h : p.Ok) : presetOfSlot (slotBytes p) = p := by
  obtain ⟨h1, h2, h3, h4, h5, h6, h7, h8⟩ := h
  obtain ⟨a, b, c, d, ⟨o0, o1, o2, o3⟩⟩ := p
  simp only at *
  have e : slotBytes ⟨a, b, c, d, ⟨o0, o1, o2, o3⟩⟩ =
      [0x9E, 0x1D, 1] ++ (be 2 (packHeader ⟨a, b, c, d, ⟨o0, o1, o2, o3⟩⟩) ++ (be 6 (packOperator o0) ++
      (be 6 (packOperator o1) ++ (be 6 (packOperator o2) ++ (be 6 (packOperator o3) ++ ([0, 0, 0, 0, 0] ++
      be 2 (crc16 (slotBody ⟨a, b, c, d, ⟨o0, o1, o2, o3⟩⟩)).toNat)))))) := by
    simp only [slotBytes, slotBody, List.append_assoc]
  rw [e]
  generalize be 2 (crc16 (slotBody ⟨a, b, c, d, ⟨o0, o1, o2, o3⟩⟩)).toNat = tail
  simp only [presetOfSlot]
  have d3 : ∀ x : List (BitVec 8), ([0x9E, 0x1D, 1] ++ x).drop 3 = x := fun _ => rfl
  have dn : ∀ (n m k v : Nat) (x : List (BitVec 8)), (be n v ++ x).take n = be n v ∧
      (be n v ++ x).drop n = x := fun n m k v x =>
    ⟨List.take_left' (be_length n v), List.drop_left' (be_length n v)⟩
  have d5 : ∀ n x, ([0x9E, 0x1D, 1] ++ x : List (BitVec 8)).drop (3 + n) = x.drop n := fun n x => by
    rw [← List.drop_drop]; rfl
  have dd : ∀ n k v (x : List (BitVec 8)), (be n v ++ x).drop (n + k) = x.drop k := fun n k v x => by
    rw [← List.drop_drop, List.drop_left' (be_length n v)]
  have t : ∀ n v (x : List (BitVec 8)), (be n v ++ x).take n = be n v :=
    fun n v x => List.take_left' (be_length n v)
  rw [show 5 = 3 + (2 + 0) from rfl, show 11 = 3 + (2 + (6 + 0)) from rfl, show 17 = 3 + (2 + (6 + (6 + 0))) from rfl,
    show 23 = 3 + (2 + (6 + (6 + (6 + 0)))) from rfl]
  simp only [d5, dd, List.drop_zero, d3, t, ofBe_be]
  rw [unpack_pack _ h5, unpack_pack _ h6, unpack_pack _ h7, unpack_pack _ h8]
  simp only [packHeader, FmPreset.mk.injEq, and_true]
  refine ⟨?_, ?_, ?_, ?_⟩ <;> omega

theorem loadSlot_slotBytes (p : FmPreset) (h : p.Ok) : loadSlot (slotBytes p) = .ok p := by
  have t : (slotBytes p).take 34 = slotBody p := List.take_left' (slotBody_length p)
  have d : (slotBytes p).drop 34 = be 2 (crc16 (slotBody p)).toNat := List.drop_left' (slotBody_length p)
  unfold loadSlot
  have m : ofBe ((slotBytes p).take 2) = 0x9E1D := by
    have : (slotBytes p).take 2 = [0x9E, 0x1D] := by simp [slotBytes, slotBody]
    rw [this]; decide
  rw [if_neg (by rw [m]; simp), if_neg, presetOfSlot_slotBytes p h]
  rw [t, d, List.take_of_length_le (by rw [be_length]; omega), ofBe_be]
  have := (crc16 (slotBody p)).isLt
  omega

theorem readSlot_length (m : Mem) (p : Nat) : (readSlot m p).length = 36 := by simp [readSlot]

theorem readSlot_get (m : Mem) (p i : Nat) (h : i < 36) : (readSlot m p).getD i 0 = m (slotOffset p + i) := by
  simp [readSlot, List.getD, h]

/-- Slots depend on their own area only. -/
theorem readSlot_congr {m m' : Mem} {p : Nat} (h : ∀ a, area p a → m' a = m a) : readSlot m' p = readSlot m p := by
  apply List.map_congr_left
  intro i hi
  rw [List.mem_range] at hi
  exact h _ ⟨by unfold slotOffset; omega, by unfold slotOffset; omega⟩

theorem applyWrites_frame (ws : List (Nat × BitVec 8)) (m : Mem) (a : Nat) (h : ∀ w ∈ ws, w.1 ≠ a) :
    applyWrites m ws a = m a := by
  induction ws generalizing m with
  | nil => rfl
  | cons w ws ih =>
    show applyWrites (upd m w.1 w.2) ws a = m a
    rw [ih _ fun x hx => h x (List.mem_cons_of_mem _ hx)]
    exact Psg.upd_other _ _ _ _ (h w (List.mem_cons_self ..)).symm

theorem writesFrom_mem {o : Nat} {bs : List (BitVec 8)} {w : Nat × BitVec 8} (h : w ∈ writesFrom o bs) :
    o ≤ w.1 ∧ w.1 < o + bs.length := by
  induction bs generalizing o with
  | nil => simp [writesFrom] at h
  | cons b bs ih =>
    simp only [writesFrom, List.mem_cons] at h
    rcases h with rfl | h
    · simp
    · have := ih h; simp only [List.length_cons]; omega

theorem saveWrites_area {p : Nat} {x : FmPreset} {w : Nat × BitVec 8} (h : w ∈ saveWrites p x) : area p w.1 := by
  have := writesFrom_mem h
  rw [slotBytes_length] at this
  exact this

theorem clearWrites_area {p : Nat} {w : Nat × BitVec 8} (h : w ∈ clearWrites p) : area p w.1 := by
  simp only [clearWrites, List.mem_cons, List.not_mem_nil, or_false] at h
  rcases h with rfl | rfl <;> simp only [area, slotOffset] <;> omega

/-- Any writes confined to one program's area leave the other programs alone. -/
theorem frame_other {ws : List (Nat × BitVec 8)} {p q : Nat} (h : ∀ w ∈ ws, area p w.1) (hne : q ≠ p) (m : Mem) :
    loadProgram (applyWrites m ws) q = loadProgram m q := by
  unfold loadProgram
  rw [readSlot_congr (m := m)]
  intro a ha
  apply applyWrites_frame
  intro w hw e
  have := h w hw
  unfold area at ha this
  rw [e] at this
  omega

theorem save_readSlot (m : Mem) (p k : Nat) (x : FmPreset) :
    readSlot (applyWrites m ((saveWrites p x).take k)) p = (slotBytes x).take k ++ (readSlot m p).drop k := by
  have hl := slotBytes_length x
  apply List.ext_getElem
  · simp [readSlot_length, hl]; omega
  intro i h1 h2
  rw [readSlot_length] at h1
  have e : (readSlot (applyWrites m ((saveWrites p x).take k)) p)[i]'(by rw [readSlot_length]; exact h1) =
      applyWrites m ((saveWrites p x).take k) (slotOffset p + i) := by simp [readSlot]
  rw [e, saveWrites, writesFrom_take, writesFrom_apply]
  simp only [List.length_take, hl, Nat.le_add_right, true_and, Nat.add_lt_add_iff_left, Nat.add_sub_cancel_left]
  by_cases hk : i < k
  · have : i < min k 36 := by omega
    rw [if_pos this, List.getElem_append_left (by simp [hl]; omega)]
    simp [List.getD, hl, hk, h1]
  · have : ¬ i < min k 36 := by omega
    rw [if_neg this, List.getElem_append_right (by simp [hl]; omega)]
    simp [hl, readSlot]
    congr 1; omega

theorem save_load (m : Mem) (p : Nat) (x : FmPreset) (h : x.Ok) :
    loadProgram (applyWrites m (saveWrites p x)) p = .ok x := by
  have := save_readSlot m p 36 x
  have hl := slotBytes_length x
  have hw : (saveWrites p x).take 36 = saveWrites p x := by
    rw [saveWrites, writesFrom_take, List.take_of_length_le (by omega)]
  rw [hw, List.take_of_length_le (by omega), List.drop_of_length_le (by rw [readSlot_length]; omega),
    List.append_nil] at this
  rw [loadProgram, this, loadSlot_slotBytes x h]

theorem clear_load (m : Mem) (p : Nat) : loadProgram (applyWrites m (clearWrites p)) p = .empty := by
  have : (readSlot (applyWrites m (clearWrites p)) p).take 2 = [0, 0] := by
    have h0 : applyWrites m (clearWrites p) (slotOffset p) = 0 := by
      simp [applyWrites, clearWrites, upd]
    have h1 : applyWrites m (clearWrites p) (slotOffset p + 1) = 0 := by
      simp [applyWrites, clearWrites, upd]
    have : (List.range 36) = 0 :: 1 :: (List.range 34).map (· + 2) := by decide
    rw [readSlot, this]
    simp [h0, h1]
  unfold loadProgram loadSlot
  rw [this, if_pos (by decide)]

/-! ### Errors -/

theorem pop_par : ∀ v : BitVec 8, par8 v = (popcount v % 2 == 1) := by decide +kernel
theorem pop_zero : ∀ v : BitVec 8, popcount v = 0 → v = 0 := by decide +kernel
theorem pop_one : ∀ v : BitVec 8, popcount v = 1 → ∃ b : Fin 8, v = BitVec.ofNat 8 (2 ^ b.val) := by decide +kernel
theorem pop_two : ∀ v : BitVec 8, popcount v = 2 →
    ∃ b : Fin 8, ∃ c : Fin 8, b ≠ c ∧ v = BitVec.ofNat 8 (2 ^ b.val) ^^^ BitVec.ofNat 8 (2 ^ c.val) := by decide +kernel

/-- Set bits of a list. -/
def pops (l : List (BitVec 8)) : Nat := (l.map popcount).sum

theorem pops_par (l : List (BitVec 8)) : parL l = (pops l % 2 == 1) := by
  induction l with
  | nil => rfl
  | cons x l ih =>
    have e : pops (x :: l) = popcount x + pops l := by simp [pops]
    have : parL (x :: l) = (par8 x ^^ parL l) := rfl
    rw [this, ih, pop_par, e]
    rcases Nat.mod_two_eq_zero_or_one (popcount x) with h1 | h1 <;>
      rcases Nat.mod_two_eq_zero_or_one (pops l) with h2 | h2 <;>
      simp [Nat.add_mod, h1, h2]

theorem pops_zip (l k : List (BitVec 8)) : pops (List.zipWith (· ^^^ ·) l k) = flips l k := by
  unfold pops flips
  rw [List.map_zipWith]

/-- Contribution of an error byte `n` bytes before the end. -/
def weight (n : Nat) (x : BitVec 8) : BitVec 16 := (List.replicate n 0).foldl crcStep (crcStep 0 x)

theorem fold_cons_weight (x : BitVec 8) (l : List (BitVec 8)) :
    (x :: l).foldl crcStep 0 = weight l.length x ^^^ l.foldl crcStep 0 := by
  have := crcFold_xor (List.replicate l.length 0) l (crcStep 0 x) 0 (by simp)
  rw [List.foldl_cons, weight, ← this]
  congr 1
  · simp
  · apply List.ext_getElem
    · simp
    · intro i h1 h2; simp

theorem weight_xor (n : Nat) (x y : BitVec 8) : weight n (x ^^^ y) = weight n x ^^^ weight n y := by
  have e : crcStep 0 (x ^^^ y) = crcStep 0 x ^^^ crcStep 0 y := by
    rw [← crcStep_xor]; rfl
  unfold weight
  rw [e, ← crcFold_xor _ _ _ _ (by simp)]
  congr 1
  apply List.ext_getElem
  · simp
  · intro i h1 h2; simp

theorem weight_zero (n : Nat) : weight n 0 = 0 := by
  unfold weight; rw [crcStep_zero, crcFold_zeros']

theorem fold_pops0 (l : List (BitVec 8)) (h : pops l = 0) : l.foldl crcStep 0 = 0 := by
  induction l with
  | nil => rfl
  | cons x l ih =>
    have e : pops (x :: l) = popcount x + pops l := by simp [pops]
    rw [fold_cons_weight, ih (by omega), pop_zero x (by omega), weight_zero]; rfl

theorem fold_pops1 (l : List (BitVec 8)) (h : pops l = 1) :
    ∃ n < l.length, ∃ b : Fin 8, l.foldl crcStep 0 = weight n (BitVec.ofNat 8 (2 ^ b.val)) := by
  induction l with
  | nil => simp [pops] at h
  | cons x l ih =>
    have e : pops (x :: l) = popcount x + pops l := by simp [pops]
    rw [fold_cons_weight]
    by_cases h1 : popcount x = 0
    · obtain ⟨n, hn, b, hb⟩ := ih (by omega)
      refine ⟨n, by simp; omega, b, ?_⟩
      rw [pop_zero x h1, weight_zero, hb]; simp
    · obtain ⟨b, hb⟩ := pop_one x (by omega)
      refine ⟨l.length, by simp, b, ?_⟩
      rw [fold_pops0 l (by omega), hb]; simp

theorem fold_pops2 (l : List (BitVec 8)) (h : pops l = 2) :
    ∃ n < l.length, ∃ b : Fin 8, ∃ k < l.length, ∃ c : Fin 8, (n, b) ≠ (k, c) ∧
      l.foldl crcStep 0 = weight n (BitVec.ofNat 8 (2 ^ b.val)) ^^^ weight k (BitVec.ofNat 8 (2 ^ c.val)) := by
  induction l with
  | nil => simp [pops] at h
  | cons x l ih =>
    have e : pops (x :: l) = popcount x + pops l := by simp [pops]
    rw [fold_cons_weight]
    by_cases h1 : popcount x = 0
    · obtain ⟨n, hn, b, k, hk, c, hne, hb⟩ := ih (by omega)
      refine ⟨n, by simp; omega, b, k, by simp; omega, c, hne, ?_⟩
      rw [pop_zero x h1, weight_zero, hb]; simp
    · by_cases h2 : popcount x = 1
      · obtain ⟨b, hb⟩ := pop_one x h2
        obtain ⟨k, hk, c, hc⟩ := fold_pops1 l (by omega)
        refine ⟨l.length, by simp, b, k, by simp; omega, c, ?_, ?_⟩
        · intro heq; injection heq with h3; omega
        · rw [hb, hc]
      · obtain ⟨b, c, hne, hb⟩ := pop_two x (by omega)
        refine ⟨l.length, by simp, b, l.length, by simp, c, ?_, ?_⟩
        · intro heq; injection heq with h3 h4; exact hne h4
        · rw [fold_pops0 l (by omega), hb, weight_xor]; simp

/-- Single-bit contributions, by distance from the end and bit. -/
def weights : List (BitVec 16) :=
  (List.range 288).map fun j => weight (j / 8) (BitVec.ofNat 8 (2 ^ (j % 8)))

theorem weights_nodup : weights.Nodup := by decide +kernel

theorem weight_inj {n k : Nat} {b c : Fin 8} (hn : n < 36) (hk : k < 36)
    (h : weight n (BitVec.ofNat 8 (2 ^ b.val)) = weight k (BitVec.ofNat 8 (2 ^ c.val))) : (n, b) = (k, c) := by
  have hb := b.isLt
  have hc := c.isLt
  have l : weights.length = 288 := by simp [weights]
  have e1 : weights[n * 8 + b.val]'(by omega) = weight n (BitVec.ofNat 8 (2 ^ b.val)) := by
    simp only [weights, List.getElem_map, List.getElem_range]
    rw [show (n * 8 + b.val) / 8 = n by omega, show (n * 8 + b.val) % 8 = b.val by omega]
  have e2 : weights[k * 8 + c.val]'(by omega) = weight k (BitVec.ofNat 8 (2 ^ c.val)) := by
    simp only [weights, List.getElem_map, List.getElem_range]
    rw [show (k * 8 + c.val) / 8 = k by omega, show (k * 8 + c.val) % 8 = c.val by omega]
  have eq := e1.trans (h.trans e2.symm)
  have pw := List.pairwise_iff_getElem.1 weights_nodup
  have : n * 8 + b.val = k * 8 + c.val := by
    rcases Nat.lt_trichotomy (n * 8 + b.val) (k * 8 + c.val) with g | g | g
    · exact absurd eq (pw _ _ (by omega) (by omega) g)
    · exact g
    · exact absurd eq.symm (pw _ _ (by omega) (by omega) g)
  have h1 : n = k := by omega
  have h2 : b = c := Fin.ext (by omega)
  rw [h1, h2]

theorem fold_pops2_ne (l : List (BitVec 8)) (hl : l.length = 36) (h : pops l = 2) : l.foldl crcStep 0 ≠ 0 := by
  obtain ⟨n, hn, b, k, hk, c, hne, e⟩ := fold_pops2 l h
  intro h0
  rw [e] at h0
  apply hne
  apply weight_inj (by omega) (by omega)
  have : weight n (BitVec.ofNat 8 (2 ^ b.val)) ^^^ weight k (BitVec.ofNat 8 (2 ^ c.val)) ^^^
      weight k (BitVec.ofNat 8 (2 ^ c.val)) = 0#16 ^^^ weight k (BitVec.ofNat 8 (2 ^ c.val)) := by rw [h0]; rfl
  rw [BitVec.xor_assoc, BitVec.xor_self] at this
  simpa using this

theorem fold_odd_ne (l : List (BitVec 8)) (h : pops l % 2 = 1) : l.foldl crcStep 0 ≠ 0 := by
  intro h0
  have := par16_fold l 0
  rw [h0, pops_par, h] at this
  simp at this

end Mdmi.Sram

namespace Mdmi.Sram
open Mdmi.Synth (FmPreset)

/-- Errors confined to three bytes at `i`. -/
theorem three_bytes (D : List (BitVec 8)) (i : Nat) (hD : ∀ j, j < i ∨ i + 3 ≤ j → D.getD j 0 = 0)
    (h : D.foldl crcStep 0 = 0) :
    crcStep (crcStep (crcStep 0 (D.getD i 0)) (D.getD (i + 1) 0)) (D.getD (i + 2) 0) = 0 := by
  have e : D ++ List.replicate (i + 3) 0 =
      List.replicate i 0 ++ [D.getD i 0, D.getD (i + 1) 0, D.getD (i + 2) 0] ++ List.replicate D.length 0 := by
    apply List.ext_getElem
    · simp; omega
    · intro j h1 h2
      have k : (D ++ List.replicate (i + 3) 0)[j] = D.getD j 0 := by
        by_cases hj : j < D.length
        · rw [List.getElem_append_left hj]; simp [List.getD, hj]
        · rw [List.getElem_append_right (by omega)]; simp [List.getD, hj]
      rw [k]
      by_cases c1 : j < i
      · rw [hD j (.inl c1)]
        rw [List.getElem_append_left (by simp; omega), List.getElem_append_left (by simp; omega)]
        simp
      · by_cases c2 : i + 3 ≤ j
        · rw [hD j (.inr c2)]
          rw [List.getElem_append_right (by simp; omega)]; simp
        · rw [List.getElem_append_left (by simp; omega), List.getElem_append_right (by simp; omega)]
          have : j = i ∨ j = i + 1 ∨ j = i + 2 := by omega
          rcases this with rfl | rfl | rfl <;> simp
  have f : (D ++ List.replicate (i + 3) 0).foldl crcStep 0 = 0 := by
    rw [List.foldl_append, h, crcFold_zeros']
  rw [e, List.foldl_append, List.foldl_append, crcFold_zeros'] at f
  exact crcFold_zeros _ _ f

theorem getD_zip (l k : List (BitVec 8)) (h : l.length = k.length) (j : Nat) :
    (List.zipWith (· ^^^ ·) l k).getD j 0 = l.getD j 0 ^^^ k.getD j 0 := by
  by_cases hj : j < l.length
  · have hk : j < k.length := by omega
    simp [List.getD, List.getElem?_zipWith, hj, hk]
  · have hk : ¬ j < k.length := by omega
    simp [List.getD, List.getElem?_zipWith, hj, hk]

theorem eq_of_xor {a b : BitVec 8} (h : a ^^^ b = 0) : a = b := by
  have : a ^^^ b ^^^ b = 0#8 ^^^ b := by rw [h]; rfl
  rw [BitVec.xor_assoc, BitVec.xor_self] at this
  simpa using this

/-- Bits of a byte above `k` clear: the byte is small. -/
theorem small_of_bits : ∀ (a : BitVec 8) (k : Fin 9), (∀ b : Fin 8, k.val ≤ b.val → a.getLsbD b = false) → a.toNat < 2 ^ k.val := by
  decide +kernel
/-- Bits of a byte below `k` clear: the byte is a multiple. -/
theorem mult_of_bits : ∀ (a : BitVec 8) (k : Fin 9), (∀ b : Fin 8, b.val < k.val → a.getLsbD b = false) → a.toNat % 2 ^ k.val = 0 := by
  decide +kernel

theorem burst_detected {l k : List (BitVec 8)} {p q : FmPreset} (hl : l.length = 36) (hk : k.length = 36) {w : Nat}
    (hb : ∀ j < 288, bitAt l j ≠ bitAt k j → w ≤ j ∧ j < w + 16)
    (h : loadSlot l = .ok p) (h' : loadSlot k = .ok q) : k = l := by
  have d := accepted_diff hl hk h h'
  have out : ∀ j, 36 ≤ j → (List.zipWith (· ^^^ ·) l k).getD j 0 = 0 := by
    intro j hj
    rw [getD_zip _ _ (by omega)]
    simp [List.getD, show l.length ≤ j by omega, show k.length ≤ j by omega]
  -- bit j of the difference is clear outside the window
  have bit : ∀ i < 36, ∀ b < 8, (i * 8 + (7 - b) < w ∨ w + 16 ≤ i * 8 + (7 - b)) →
      ((List.zipWith (· ^^^ ·) l k).getD i 0).getLsbD b = false := by
    intro i hi b hb8 hw
    have k1 := hb (i * 8 + (7 - b)) (by omega)
    rw [getD_zip _ _ (by omega), BitVec.getLsbD_xor]
    unfold bitAt at k1
    rw [show (i * 8 + (7 - b)) / 8 = i by omega, show 7 - (i * 8 + (7 - b)) % 8 = b by omega] at k1
    by_cases e : (l.getD i 0).getLsbD b = (k.getD i 0).getLsbD b
    · rw [e]; simp
    · have := k1 e; omega
  have zero : ∀ i, (∀ b < 8, ((List.zipWith (· ^^^ ·) l k).getD i 0).getLsbD b = false) →
      (List.zipWith (· ^^^ ·) l k).getD i 0 = 0 := by
    intro i hi
    apply BitVec.eq_of_getLsbD_eq
    intro b hb8; rw [hi b hb8]; simp
  have hz : ∀ j, j < w / 8 ∨ w / 8 + 3 ≤ j → (List.zipWith (· ^^^ ·) l k).getD j 0 = 0 := by
    intro j hj
    by_cases h36 : 36 ≤ j
    · exact out j h36
    · exact zero j fun b hb8 => bit j (by omega) b hb8 (by omega)
  have t := three_bytes _ _ hz d
  have small : ((List.zipWith (· ^^^ ·) l k).getD (w / 8) 0).toNat < 2 ^ (8 - w % 8) := by
    by_cases h36 : 36 ≤ w / 8
    · rw [out _ h36]; exact Nat.two_pow_pos _
    · exact small_of_bits _ ⟨8 - w % 8, by omega⟩ fun b hb8 => bit _ (by omega) b.val b.isLt (by
        simp only at hb8; have := b.isLt; omega)
  have mult : ((List.zipWith (· ^^^ ·) l k).getD (w / 8 + 2) 0).toNat % 2 ^ (8 - w % 8) = 0 := by
    by_cases h36 : 36 ≤ w / 8 + 2
    · rw [out _ h36]; exact Nat.zero_mod _
    · exact mult_of_bits _ ⟨8 - w % 8, by omega⟩ fun b hb8 => bit _ (by omega) b.val b.isLt (by
        simp only at hb8; have := b.isLt; omega)
  obtain ⟨z0, z1, z2⟩ := crc_burst (w % 8) (by omega) _ _ _ small mult t
  apply List.ext_getElem (by omega)
  intro j h1 h2
  have : (List.zipWith (· ^^^ ·) l k).getD j 0 = 0 := by
    by_cases c1 : j < w / 8 ∨ w / 8 + 3 ≤ j
    · exact hz j c1
    · have : j = w / 8 ∨ j = w / 8 + 1 ∨ j = w / 8 + 2 := by omega
      rcases this with rfl | rfl | rfl <;> assumption
  rw [getD_zip _ _ (by omega)] at this
  have := eq_of_xor this
  simp only [List.getD, h1, h2, List.getElem?_eq_getElem, Option.getD_some] at this
  exact this.symm

/-- Differences within two adjacent bytes are a burst. -/
theorem two_bytes_detected {l k : List (BitVec 8)} {p q : FmPreset} (hl : l.length = 36) (hk : k.length = 36) {i : Nat}
    (hd : ∀ j, j ≠ i → j ≠ i + 1 → l[j]? = k[j]?)
    (h : loadSlot l = .ok p) (h' : loadSlot k = .ok q) : k = l := by
  refine burst_detected hl hk (w := i * 8) ?_ h h'
  intro j _ hne
  unfold bitAt at hne
  by_cases c1 : j / 8 = i
  · omega
  · by_cases c2 : j / 8 = i + 1
    · omega
    · exfalso; apply hne
      simp only [List.getD, hd _ c1 c2]

theorem torn_store {old new q : FmPreset} (ho : old.Ok) (hn : new.Ok) {k i : Nat}
    (hd : ∀ j < 34, j ≠ i → j ≠ i + 1 → (slotBytes old)[j]? = (slotBytes new)[j]?)
    (h : loadSlot ((slotBytes new).take k ++ (slotBytes old).drop k) = .ok q) : q = old ∨ q = new := by
  have l1 := slotBytes_length old
  have l2 := slotBytes_length new
  have len : ((slotBytes new).take k ++ (slotBytes old).drop k).length = 36 := by simp [l1, l2]; omega
  have get : ∀ j, ((slotBytes new).take k ++ (slotBytes old).drop k)[j]? =
      if j < k then (slotBytes new)[j]? else (slotBytes old)[j]? := by
    intro j
    by_cases hj : j < k
    · rw [if_pos hj]
      by_cases h36 : j < 36
      · rw [List.getElem?_append_left (by simp [l2]; omega), List.getElem?_take, if_pos hj]
      · rw [List.getElem?_eq_none (by omega), List.getElem?_eq_none (by omega)]
    · rw [if_neg hj]
      by_cases h36 : j < 36
      · rw [List.getElem?_append_right (by simp [l2]; omega), List.getElem?_drop]
        congr 1; simp [l2]; omega
      · rw [List.getElem?_eq_none (by omega), List.getElem?_eq_none (by omega)]
  have a := loadSlot_slotBytes old ho
  have b := loadSlot_slotBytes new hn
  by_cases hk : k ≤ 34
  · have e := two_bytes_detected l1 len (i := i) (by
      intro j hj1 hj2
      rw [get]
      split
      · exact hd j (by omega) hj1 hj2
      · rfl) a h
    rw [e, a] at h; injection h with h; exact .inl h.symm
  · have e := two_bytes_detected l2 len (i := 34) (by
      intro j hj1 hj2
      rw [get]
      split
      · rfl
      · rw [List.getElem?_eq_none (by omega), List.getElem?_eq_none (by omega)]) b h
    rw [e, b] at h; injection h with h; exact .inr h.symm

end Mdmi.Sram
