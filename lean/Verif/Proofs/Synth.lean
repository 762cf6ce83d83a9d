import Verif.Spec.Synth
import Verif.Proofs.Psg
/-! Lemmas about the YM2612 driver: what each write does to registers and to the driver's state. -/
namespace Mdmi.Synth
open Mdmi.Psg (upd_same upd_other)

/-- Everything but the trace is unchanged. -/
structure Same (s s' : St) : Prop where
  ch : s'.ch = s.ch
  vol : s'.vol = s.vol
  lfoEnable : s'.lfoEnable = s.lfoEnable
  lfoFrequency : s'.lfoFrequency = s.lfoFrequency
  specialMode : s'.specialMode = s.specialMode
  dacEnable : s'.dacEnable = s.dacEnable
  busTaken : s'.busTaken = s.busTaken
  fault : s'.fault = s.fault

theorem Same.refl (s : St) : Same s s := ⟨rfl, rfl, rfl, rfl, rfl, rfl, rfl, rfl⟩

theorem Same.trans {a b c : St} (h : Same a b) (g : Same b c) : Same a c :=
  ⟨g.ch.trans h.ch, g.vol.trans h.vol, g.lfoEnable.trans h.lfoEnable,
    g.lfoFrequency.trans h.lfoFrequency, g.specialMode.trans h.specialMode,
    g.dacEnable.trans h.dacEnable, g.busTaken.trans h.busTaken, g.fault.trans h.fault⟩

theorem write_same (s : St) (p r d : Nat) : Same s (writeRegSafe s p r d) := by
  cases h1 : s.dacEnable <;> cases h2 : s.busTaken <;>
    constructor <;> simp [writeRegSafe, releaseZ80Bus, emit, h1, h2]

theorem write_reg (s : St) (p r d p' r' : Nat) :
    ymReg (writeRegSafe s p r d).out p' r' = if p = p' ∧ r = r' then d else ymReg s.out p' r' := by
  cases h1 : s.dacEnable <;> cases h2 : s.busTaken <;>
    simp [writeRegSafe, releaseZ80Bus, emit, h1, h2, ymReg]

theorem chanWrite_same (s : St) (c b d : Nat) : Same s (writeChannelReg s c b d) := write_same ..

theorem operWrite_same (s : St) (c op b d : Nat) : Same s (writeOperatorReg s c op b d) :=
  write_same ..

/-- Bases of the operator groups. -/
def IsOpBase (b : Nat) : Prop := b = 0x30 ∨ b = 0x40 ∨ b = 0x50 ∨ b = 0x60 ∨ b = 0x70 ∨ b = 0x80 ∨ b = 0x90
/-- Bases of the channel groups. -/
def IsChBase (b : Nat) : Prop := b = 0xA0 ∨ b = 0xA4 ∨ b = 0xB0 ∨ b = 0xB4

theorem opOffset_lt {op : Nat} : opOffset op ≤ 12 ∧ opOffset op % 4 = 0 := by
  unfold opOffset; split <;> omega

theorem opOffset_inj {a b : Nat} (ha : a < 4) (hb : b < 4) (h : opOffset a = opOffset b) : a = b := by
  match a, b with
  | 0, 0 | 1, 1 | 2, 2 | 3, 3 => rfl
  | 0, 1 | 0, 2 | 0, 3 | 1, 0 | 1, 2 | 1, 3 | 2, 0 | 2, 1 | 2, 3 | 3, 0 | 3, 1 | 3, 2 =>
    simp [opOffset] at h
  | a + 4, _ => omega
  | _, b + 4 => omega

theorem regOperatorIndex_eq {op : Nat} (h : op < 4) : regOperatorIndex op * 4 = opOffset op := by
  match op with
  | 0 | 1 | 2 | 3 => rfl
  | n + 4 => omega

theorem part_eq {c : Nat} (h : c < 6) : (if c > 2 then 1 else 0) = c / 3 := by
  split <;> omega

theorem operWrite_opReg {s : St} {c op b d c' op' b' : Nat} (hc : c < 6) (ho : op < 4)
    (hb : IsOpBase b) (hc' : c' < 6) (ho' : op' < 4) (hb' : IsOpBase b') :
    opReg (writeOperatorReg s c op b d).out b' c' op' =
      if b = b' ∧ c = c' ∧ op = op' then d % 256 else opReg s.out b' c' op' := by
  have h1 := @opOffset_lt op
  have h2 := @opOffset_lt op'
  have h3 := @opOffset_inj op op' ho ho'
  have e : (b + regOperatorIndex op * 4) % 256 = b + opOffset op := by
    rw [regOperatorIndex_eq ho]; unfold IsOpBase at hb; omega
  have e' : (b + opOffset op + c % 3) % 256 = b + opOffset op + c % 3 := by
    unfold IsOpBase at hb; omega
  simp only [opReg, writeOperatorReg, writeChannelReg, write_reg, part_eq hc, e, e']
  congr 1
  apply propext
  constructor
  · rintro ⟨g1, g2⟩
    have g3 : c = c' ∧ b = b' ∧ opOffset op = opOffset op' := by
      unfold IsOpBase at hb hb'; omega
    exact ⟨g3.2.1, g3.1, h3 g3.2.2⟩
  · rintro ⟨rfl, rfl, rfl⟩; exact ⟨rfl, rfl⟩

theorem operWrite_chReg {s : St} {c op b d c' b' : Nat} (hc : c < 6) (ho : op < 4)
    (hb : IsOpBase b) (hb' : IsChBase b') :
    chReg (writeOperatorReg s c op b d).out b' c' = chReg s.out b' c' := by
  have h1 := @opOffset_lt op
  simp only [chReg, writeOperatorReg, writeChannelReg, write_reg, part_eq hc,
    regOperatorIndex_eq ho]
  rw [if_neg]
  unfold IsOpBase at hb; unfold IsChBase at hb'; omega

theorem chanWrite_opReg {s : St} {c b d c' op' b' : Nat} (hc : c < 6)
    (hb : IsChBase b) (hb' : IsOpBase b') :
    opReg (writeChannelReg s c b d).out b' c' op' = opReg s.out b' c' op' := by
  have h2 := @opOffset_lt op'
  simp only [opReg, writeChannelReg, write_reg, part_eq hc]
  rw [if_neg]
  unfold IsChBase at hb; unfold IsOpBase at hb'; omega

theorem chanWrite_chReg {s : St} {c b d c' b' : Nat} (hc : c < 6) (hc' : c' < 6)
    (hb : IsChBase b) (hb' : IsChBase b') :
    chReg (writeChannelReg s c b d).out b' c' =
      if b = b' ∧ c = c' then d % 256 else chReg s.out b' c' := by
  simp only [chReg, writeChannelReg, write_reg, part_eq hc]
  congr 1
  apply propext
  constructor
  · rintro ⟨g1, g2⟩
    unfold IsChBase at hb hb'; omega
  · rintro ⟨rfl, rfl⟩; unfold IsChBase at hb; omega

/-- Writes to addresses outside the parameter groups. -/
theorem write_opReg_other {s : St} {p r d b c op : Nat} (hb : IsOpBase b) (hr : r < 0x30 ∨ 0xA0 ≤ r) :
    opReg (writeRegSafe s p r d).out b c op = opReg s.out b c op := by
  have h2 := @opOffset_lt op
  simp only [opReg, write_reg]
  rw [if_neg]
  unfold IsOpBase at hb; omega

theorem write_chReg_other {s : St} {p r d b c : Nat} (hb : IsChBase b)
    (hr : r < 0xA0 ∨ (0xA8 ≤ r ∧ r < 0xB0)) :
    chReg (writeRegSafe s p r d).out b c = chReg s.out b c := by
  simp only [chReg, write_reg]
  rw [if_neg]
  unfold IsChBase at hb; omega

end Mdmi.Synth
