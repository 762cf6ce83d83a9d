import Verif.Model.Sram
/-! The checksum as a linear map. -/
namespace Mdmi.Sram

/-- The table-free update by a byte. -/
def mixByte (x : BitVec 8) : BitVec 16 :=
  ((x ^^^ (x >>> 4)).setWidth 16 <<< 12) ^^^ ((x ^^^ (x >>> 4)).setWidth 16 <<< 5) ^^^ (x ^^^ (x >>> 4)).setWidth 16

theorem xor_swap4 {n : Nat} (a b c d : BitVec n) : (a ^^^ b) ^^^ (c ^^^ d) = (a ^^^ c) ^^^ (b ^^^ d) := by
  rw [BitVec.xor_assoc, ← BitVec.xor_assoc b, BitVec.xor_comm b c, BitVec.xor_assoc, ← BitVec.xor_assoc]

theorem mixByte_xor (x y : BitVec 8) : mixByte (x ^^^ y) = mixByte x ^^^ mixByte y := by
  have h : (x ^^^ y) ^^^ ((x ^^^ y) >>> 4) = (x ^^^ (x >>> 4)) ^^^ (y ^^^ (y >>> 4)) := by
    rw [BitVec.ushiftRight_xor_distrib, xor_swap4]
  unfold mixByte
  rw [h]
  generalize x ^^^ (x >>> 4) = u
  generalize y ^^^ (y >>> 4) = v
  rw [BitVec.setWidth_xor, BitVec.shiftLeft_xor_distrib, BitVec.shiftLeft_xor_distrib,
    xor_swap4 (u.setWidth 16 <<< 12), xor_swap4 (u.setWidth 16 <<< 12 ^^^ u.setWidth 16 <<< 5)]

theorem crcStep_mix (c : BitVec 16) (d : BitVec 8) :
    crcStep c d = (c <<< 8) ^^^ mixByte ((c >>> 8).setWidth 8 ^^^ d) := by
  unfold crcStep mixByte
  generalize (c >>> 8).setWidth 8 ^^^ d = x
  simp only
  rw [BitVec.xor_assoc, BitVec.xor_assoc, BitVec.xor_assoc]

theorem crcStep_xor (a b : BitVec 16) (c d : BitVec 8) :
    crcStep (a ^^^ b) (c ^^^ d) = crcStep a c ^^^ crcStep b d := by
  rw [crcStep_mix, crcStep_mix, crcStep_mix, BitVec.shiftLeft_xor_distrib, BitVec.ushiftRight_xor_distrib,
    BitVec.setWidth_xor, xor_swap4, mixByte_xor, xor_swap4]

theorem mix_zero : ∀ x : BitVec 8, ((x ^^^ (x >>> 4)) <<< 5) ^^^ (x ^^^ (x >>> 4)) = 0 → x = 0 := by
  decide +kernel

theorem low_crcStep (c : BitVec 16) (d : BitVec 8) : (crcStep c d).setWidth 8 =
    let x := (c >>> 8).setWidth 8 ^^^ d
    ((x ^^^ (x >>> 4)) <<< 5) ^^^ (x ^^^ (x >>> 4)) := by
  unfold crcStep
  generalize (c >>> 8).setWidth 8 ^^^ d = y
  simp only
  generalize y ^^^ (y >>> 4) = x
  ext i hi
  simp only [BitVec.getElem_setWidth, BitVec.getLsbD_xor, BitVec.getLsbD_shiftLeft, BitVec.getElem_xor,
    BitVec.getElem_shiftLeft, BitVec.getLsbD_setWidth]
  have h16 : i < 16 := by omega
  simp only [h16, hi, show i < 12 by omega, show i - 5 < 16 by omega, decide_true, Bool.not_true, Bool.false_and, Bool.and_false,
    Bool.true_and, Bool.false_xor, BitVec.getLsbD_eq_getElem hi]
  by_cases h5 : i < 5
  · simp [h5]
  · simp [h5, BitVec.getLsbD_eq_getElem (show i - 5 < 8 by omega)]

theorem byte_zero : (0 : BitVec 16) = 0#16 := rfl

theorem crcStep_eq_zero (c : BitVec 16) (d : BitVec 8) (h : crcStep c d = 0) : c = d.setWidth 16 <<< 8 := by
  have h1 := low_crcStep c d
  rw [h] at h1
  have h2 := mix_zero _ h1.symm
  have h3 : (c >>> 8).setWidth 8 = d := by
    have : (c >>> 8).setWidth 8 ^^^ d ^^^ d = 0 ^^^ d := by rw [h2]
    simpa [BitVec.xor_assoc] using this
  have h4 : c <<< 8 = 0 := by
    have h' := h
    unfold crcStep at h'
    rw [h2] at h'
    simpa using h'
  apply BitVec.eq_of_getLsbD_eq
  intro i hi
  by_cases h8 : i < 8
  · have := congrArg (fun v => v.getLsbD (i + 8)) h4
    simp [show i + 8 < 16 by omega] at this
    have e : c.getLsbD i = false := by rw [BitVec.getLsbD_eq_getElem hi]; exact this
    simp [h8, e]
  · rw [← h3]
    simp [show i < 16 by omega, h8, show 8 + (i - 8) = i by omega]
    omega

theorem crcStep_byte (d : BitVec 8) : crcStep (d.setWidth 16 <<< 8) d = 0 := by
  have h3 : ((d.setWidth 16 <<< 8 : BitVec 16) >>> 8).setWidth 8 = d := by
    ext i hi
    simp [show 8 + i < 16 by omega, show ¬ (8 + i < 8) by omega, BitVec.getLsbD_eq_getElem hi]
  have h4 : (d.setWidth 16 <<< 8 : BitVec 16) <<< 8 = 0 := by
    apply BitVec.eq_of_getLsbD_eq
    intro i hi
    simp
  unfold crcStep
  rw [h3, h4]; simp

theorem crcStep_zero : crcStep 0 0 = 0 := by decide

theorem crcStep_zero_inj {c : BitVec 16} (h : crcStep c 0 = 0) : c = 0 := by
  have := crcStep_eq_zero c 0 h
  simpa using this

theorem crcFold_xor (l k : List (BitVec 8)) (a b : BitVec 16) (h : l.length = k.length) :
    (List.zipWith (· ^^^ ·) l k).foldl crcStep (a ^^^ b) = l.foldl crcStep a ^^^ k.foldl crcStep b := by
  induction l generalizing k a b with
  | nil => cases k with
    | nil => rfl
    | cons => simp at h
  | cons x l ih => cases k with
    | nil => simp at h
    | cons y k =>
      simp only [List.zipWith_cons_cons, List.foldl_cons]
      rw [crcStep_xor]
      exact ih k _ _ (by simpa using h)

theorem crcFold_zeros (n : Nat) (c : BitVec 16) (h : (List.replicate n 0).foldl crcStep c = 0) : c = 0 := by
  induction n generalizing c with
  | zero => exact h
  | succ n ih => rw [List.replicate_succ, List.foldl_cons] at h; exact crcStep_zero_inj (ih _ h)

theorem crcFold_zeros' (n : Nat) : (List.replicate n 0).foldl crcStep 0 = 0 := by
  induction n with
  | zero => rfl
  | succ n ih => rw [List.replicate_succ, List.foldl_cons, crcStep_zero]; exact ih

/-- Two adjacent error bytes are visible. -/
theorem crc_two (a b : BitVec 8) (h : crcStep (crcStep 0 a) b = 0) : a = 0 ∧ b = 0 := by
  have h1 := crcStep_eq_zero _ _ h
  have h2 := low_crcStep 0 a
  rw [h1] at h2
  have h3 : ((b.setWidth 16 <<< 8 : BitVec 16)).setWidth 8 = 0 := by
    ext i hi
    simp [hi]
  rw [h3] at h2
  have h4 := mix_zero _ h2.symm
  have ha : a = 0 := by simpa using h4
  refine ⟨ha, ?_⟩
  subst ha
  rw [crcStep_zero] at h
  have h5 := crcStep_eq_zero _ _ h
  ext i hi
  have := congrArg (fun v => v.getLsbD (i + 8)) h5
  simp [show i + 8 < 16 by omega] at this
  simp [BitVec.getLsbD_eq_getElem hi] at this
  simp [this]

/-- A checksum that matches makes the checksum over everything vanish, and conversely. -/
theorem crc_append (c : BitVec 16) (h l : BitVec 8) :
    crcStep (crcStep c h) l = 0 ↔ c = h.setWidth 16 <<< 8 ^^^ l.setWidth 16 := by
  have low : ∀ l : BitVec 8, crcStep (l.setWidth 16) 0 = l.setWidth 16 <<< 8 := by decide +kernel
  have e : crcStep (crcStep (h.setWidth 16 <<< 8 ^^^ l.setWidth 16) h) l = 0 := by
    have : crcStep (h.setWidth 16 <<< 8 ^^^ l.setWidth 16) h = l.setWidth 16 <<< 8 := by
      have := crcStep_xor (h.setWidth 16 <<< 8) (l.setWidth 16) h 0
      rw [show h ^^^ 0 = h from by simp] at this
      rw [this, crcStep_byte, low]
      simp
    rw [this, crcStep_byte]
  constructor
  · intro hc
    have := crcStep_xor (crcStep c h) (crcStep (h.setWidth 16 <<< 8 ^^^ l.setWidth 16) h) l l
    rw [hc, e, ← crcStep_xor] at this
    simp only [BitVec.xor_self] at this
    have := crcStep_zero_inj (crcStep_zero_inj this)
    have h2 : c ^^^ (h.setWidth 16 <<< 8 ^^^ l.setWidth 16) ^^^ (h.setWidth 16 <<< 8 ^^^ l.setWidth 16)
        = (0 : BitVec 16) ^^^ (h.setWidth 16 <<< 8 ^^^ l.setWidth 16) := by rw [this]
    rw [BitVec.xor_assoc, BitVec.xor_self] at h2
    simpa only [BitVec.xor_zero, BitVec.zero_xor, BitVec.ofNat_eq_ofNat] using h2
  · intro hc; rw [hc]; exact e

/-- Three error bytes whose set bits span at most 16 positions are visible. -/
theorem crc_burst (r : Nat) (hr : r < 8) (a b c : BitVec 8) (ha : a.toNat < 2 ^ (8 - r))
    (hc : c.toNat % 2 ^ (8 - r) = 0) (h : crcStep (crcStep (crcStep 0 a) b) c = 0) : a = 0 ∧ b = 0 ∧ c = 0 := by
  have low : ∀ r : Fin 8, ∀ a : BitVec 8, a.toNat < 2 ^ (8 - r.val) →
      ((mixByte a).setWidth 8).toNat % 2 ^ (8 - r.val) = 0 → a = 0 := by decide +kernel
  have h1 := crcStep_eq_zero _ _ h
  have h2 := low_crcStep (crcStep 0 a) b
  rw [h1] at h2
  have h3 : ((c.setWidth 16 <<< 8 : BitVec 16)).setWidth 8 = 0 := by
    ext i hi
    simp
  rw [h3] at h2
  have h4 := mix_zero _ h2.symm
  have h5 : crcStep 0 a = mixByte a := by rw [crcStep_mix]; simp
  have h6 : (crcStep 0 a) <<< 8 = c.setWidth 16 <<< 8 := by
    rw [crcStep_mix, h4] at h1
    rw [← h1]
    simp [mixByte]
  have h7 : (mixByte a).setWidth 8 = c := by
    rw [h5] at h6
    ext i hi
    have := congrArg (fun v => v.getLsbD (i + 8)) h6
    simp [show i + 8 < 16 by omega, show ¬ (i + 8 < 8) by omega, BitVec.getLsbD_eq_getElem hi] at this
    simp [this, BitVec.getLsbD_eq_getElem (show i < 16 by omega)]
  have a0 : a = 0 := low ⟨r, hr⟩ a ha (by rw [h7]; exact hc)
  subst a0
  rw [crcStep_zero] at h
  have := crc_two b c h
  exact ⟨rfl, this.1, this.2⟩

/-- Parity of the set bits of a byte. -/
def par8 (v : BitVec 8) : Bool :=
  ((v.getLsbD 0 ^^ v.getLsbD 1) ^^ (v.getLsbD 2 ^^ v.getLsbD 3)) ^^
    ((v.getLsbD 4 ^^ v.getLsbD 5) ^^ (v.getLsbD 6 ^^ v.getLsbD 7))

/-- Parity of a 16-bit value. -/
def par16 (v : BitVec 16) : Bool := par8 (v.setWidth 8) ^^ par8 ((v >>> 8).setWidth 8)

theorem bxor_swap4 : ∀ a b c d : Bool, ((a ^^ b) ^^ (c ^^ d)) = ((a ^^ c) ^^ (b ^^ d)) := by decide

theorem par8_xor (a b : BitVec 8) : par8 (a ^^^ b) = (par8 a ^^ par8 b) := by
  simp only [par8, BitVec.getLsbD_xor]
  rw [bxor_swap4 (a.getLsbD 0), bxor_swap4 (a.getLsbD 2), bxor_swap4 (a.getLsbD 4), bxor_swap4 (a.getLsbD 6),
    bxor_swap4 (a.getLsbD 0 ^^ _), bxor_swap4 (a.getLsbD 4 ^^ _), bxor_swap4 ((a.getLsbD 0 ^^ _) ^^ _)]

theorem par16_xor (a b : BitVec 16) : par16 (a ^^^ b) = (par16 a ^^ par16 b) := by
  simp only [par16, BitVec.setWidth_xor, BitVec.ushiftRight_xor_distrib, par8_xor, Bool.xor_assoc,
    Bool.xor_left_comm]

theorem par16_mix : ∀ x : BitVec 8, par16 (mixByte x) = par8 x := by decide +kernel

theorem par16_shl (c : BitVec 16) : par16 (c <<< 8) = par8 (c.setWidth 8) := by
  have h1 : (c <<< 8).setWidth 8 = 0 := by ext i hi; simp
  have h2 : ((c <<< 8) >>> 8).setWidth 8 = c.setWidth 8 := by
    ext i hi; simp [show 8 + i < 16 by omega, show ¬ (8 + i < 8) by omega, BitVec.getLsbD_eq_getElem (show i < 16 by omega)]
  unfold par16
  rw [h1, h2]
  simp [par8]

theorem par16_step (c : BitVec 16) (d : BitVec 8) : par16 (crcStep c d) = (par16 c ^^ par8 d) := by
  rw [crcStep_mix, par16_xor, par16_mix, par16_shl, par8_xor]
  unfold par16
  ac_rfl

/-- Parity of a list of bytes. -/
def parL (l : List (BitVec 8)) : Bool := l.foldr (fun b p => par8 b ^^ p) false

theorem par16_fold (l : List (BitVec 8)) (c : BitVec 16) :
    par16 (l.foldl crcStep c) = (par16 c ^^ parL l) := by
  induction l generalizing c with
  | nil => simp [parL]
  | cons x l ih =>
    rw [List.foldl_cons, ih, par16_step]
    simp only [parL, List.foldr_cons]
    rw [Bool.xor_assoc]

theorem drop34 (l : List (BitVec 8)) (h : l.length = 36) :
    l = l.take 34 ++ [l[34], l[35]] ∧ (l.drop 34).take 2 = [l[34], l[35]] := by
  have e : l.drop 34 = [l[34], l[35]] := by
    rw [List.drop_eq_getElem_cons (by omega), List.drop_eq_getElem_cons (by omega),
      List.drop_of_length_le (by omega)]
  constructor
  · conv => lhs; rw [← List.take_append_drop 34 l, e]
  · rw [e]; rfl

theorem byte_pair (h l : BitVec 8) : (h.setWidth 16 <<< 8 ^^^ l.setWidth 16).toNat = ofBe [h, l] := by
  have hh := h.isLt
  have hl := l.isLt
  have e : h.setWidth 16 <<< 8 ^^^ l.setWidth 16 = BitVec.ofNat 16 (h.toNat * 256 + l.toNat) := by
    apply BitVec.eq_of_getLsbD_eq
    intro i hi
    rw [show h.toNat * 256 + l.toNat = 2 ^ 8 * h.toNat + l.toNat from by omega]
    simp only [BitVec.getLsbD_xor, BitVec.getLsbD_shiftLeft, BitVec.getLsbD_setWidth, BitVec.getLsbD_ofNat,
      Nat.testBit_two_pow_mul_add _ hl, hi, decide_true, Bool.true_and]
    by_cases h8 : i < 8
    · simp [h8, BitVec.getLsbD]
    · simp [h8, BitVec.getLsbD, show i - 8 < 16 by omega]
      have := BitVec.getLsbD_of_ge l i (by omega)
      rw [BitVec.getLsbD] at this
      simp [this]
  rw [e, BitVec.toNat_ofNat]
  simp only [ofBe, List.foldl_cons, List.foldl_nil]
  omega

/-- The load accepts exactly the slots with the magic number and a vanishing total checksum. -/
theorem loadSlot_iff (l : List (BitVec 8)) (h : l.length = 36) (p : Synth.FmPreset) :
    loadSlot l = .ok p ↔ ofBe (l.take 2) = 0x9E1D ∧ l.foldl crcStep 0xFFFF = 0 ∧ presetOfSlot l = p := by
  obtain ⟨e1, e2⟩ := drop34 l h
  have k : l.foldl crcStep 0xFFFF = 0 ↔ ofBe ((l.drop 34).take 2) = (crc16 (l.take 34)).toNat := by
    rw [e2, ← byte_pair]
    conv => lhs; rw [e1]
    rw [List.foldl_append]
    simp only [List.foldl_cons, List.foldl_nil]
    rw [crc_append, ← BitVec.toNat_inj]
    exact eq_comm
  unfold loadSlot
  rw [k]
  by_cases h1 : ofBe (l.take 2) = 0x9E1D
  · by_cases h2 : ofBe ((l.drop 34).take 2) = (crc16 (l.take 34)).toNat
    · simp [h1, h2]
    · simp [h1, h2]
  · simp [h1]

/-- The errors between two accepted slots have a vanishing checksum. -/
theorem accepted_diff {l k : List (BitVec 8)} (hl : l.length = 36) (hk : k.length = 36) {p q : Synth.FmPreset}
    (h1 : loadSlot l = .ok p) (h2 : loadSlot k = .ok q) :
    (List.zipWith (· ^^^ ·) l k).foldl crcStep 0 = 0 := by
  have := crcFold_xor l k 0xFFFF 0xFFFF (by omega)
  rw [((loadSlot_iff l hl p).1 h1).2.1, ((loadSlot_iff k hk q).1 h2).2.1] at this
  simpa using this

end Mdmi.Sram
