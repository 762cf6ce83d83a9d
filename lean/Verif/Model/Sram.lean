import Verif.Model.Synth
/-!
# Model of `src/sram/`: preset slots in battery-backed RAM

The memory is `mem : Nat → BitVec 8`, indexed by the `offset` argument of `sram_read`/`sram_write`; both
cartridge back ends map offset `o` to the odd address base + 2·o (sram_ed_pro.c:25-33,
sram_ed_x7.c:25-33), which is injective, and select the bank in their `enable`/`disable`
(sram_ed_pro.c:13-23), which has no other effect.  The memory reads back what was written, so the
"Bad SRAM write" message (midi_fm_sram.c:43-45) does not occur.
-/
namespace Mdmi.Sram
open Mdmi.Synth (FmPreset Operator Ops4)

/-- Memory of a slot area. -/
abbrev Mem := Nat → BitVec 8

/-- Loop body of `crc_calc_crc16`, crc.c:12-14. -/
def crcStep (crc : BitVec 16) (d : BitVec 8) : BitVec 16 :=
  let x := (crc >>> 8).setWidth 8 ^^^ d
  let x := x ^^^ (x >>> 4)
  (crc <<< 8) ^^^ (x.setWidth 16 <<< 12) ^^^ (x.setWidth 16 <<< 5) ^^^ x.setWidth 16

/-- `crc_calc_crc16`, crc.c:6-17. -/
def crc16 (data : List (BitVec 8)) : BitVec 16 := data.foldl crcStep 0xFFFF

/-- The low `n` bytes of a number, most significant first. -/
def be : Nat → Nat → List (BitVec 8)
  | 0, _ => []
  | n + 1, v => be n (v / 256) ++ [BitVec.ofNat 8 v]

/-- Inverse of `be`. -/
def ofBe (l : List (BitVec 8)) : Nat := l.foldl (fun a b => a * 256 + b.toNat) 0

/-- `SramOperator`, midi_fm_sram.h:8-20: 44 bits allocated from the most significant bit (big-endian
storage order), padded to 6 bytes; the padding is zero because the slot is zero-initialised. -/
def packOperator (o : Operator) : Nat :=
  ((((((((((o.multiple * 8 + o.detune) * 32 + o.attackRate) * 4 + o.rateScaling) * 32 + o.decayRate) * 2
    + o.am) * 16 + o.sustainLevel) * 32 + o.sustainRate) * 16 + o.releaseRate) * 128 + o.totalLevel) * 16
    + o.ssgEg) * 16

/-- Reading the bit-fields of `SramOperator`. -/
def unpackOperator (v : Nat) : Operator :=
  { multiple := v / 2 ^ 44 % 16
    detune := v / 2 ^ 41 % 8
    attackRate := v / 2 ^ 36 % 32
    rateScaling := v / 2 ^ 34 % 4
    decayRate := v / 2 ^ 29 % 32
    am := v / 2 ^ 28 % 2
    sustainLevel := v / 2 ^ 24 % 16
    sustainRate := v / 2 ^ 19 % 32
    releaseRate := v / 2 ^ 15 % 16
    totalLevel := v / 2 ^ 8 % 128
    ssgEg := v / 2 ^ 4 % 16 }

/-- First bytes of `SramFmPreset`, midi_fm_sram.h:22-28: 11 bits, padded to 2 bytes. -/
def packHeader (p : FmPreset) : Nat := (((p.algorithm * 8 + p.feedback) * 4 + p.ams) * 8 + p.fms) * 32

/-- `sram_preset_slot`, midi_fm_sram.c:100-125, as the bytes of `SramFmPresetSlot`
(midi_fm_sram.h:30-36) before the checksum: magic number, version, preset, reserved. -/
def slotBody (p : FmPreset) : List (BitVec 8) :=
  [0x9E, 0x1D, 1] ++ be 2 (packHeader p) ++ be 6 (packOperator p.ops.o0) ++ be 6 (packOperator p.ops.o1)
    ++ be 6 (packOperator p.ops.o2) ++ be 6 (packOperator p.ops.o3) ++ [0, 0, 0, 0, 0]

/-- The 36 bytes of a slot with its checksum, midi_fm_sram.c:26-29. -/
def slotBytes (p : FmPreset) : List (BitVec 8) := slotBody p ++ be 2 (crc16 (slotBody p)).toNat

/-- Start of a program's slot, midi_fm_sram.c:37, 58, 73 (`SRAM_PRESET_BASE_OFFSET` = 32,
`SRAM_FM_PRESET_LENGTH` = 36; below 2^16 for every u8). -/
def slotOffset (program : Nat) : Nat := 32 + 36 * program

/-- Consecutive byte writes from `offset`. -/
def writesFrom : Nat → List (BitVec 8) → List (Nat × BitVec 8)
  | _, [] => []
  | offset, b :: bs => (offset, b) :: writesFrom (offset + 1) bs

/-- The byte writes of `midi_fm_sram_save_preset`, midi_fm_sram.c:26-47, in order. -/
def saveWrites (program : Nat) (p : FmPreset) : List (Nat × BitVec 8) :=
  writesFrom (slotOffset program) (slotBytes p)

/-- The byte writes of `midi_fm_sram_clear_preset`, midi_fm_sram.c:58-61. -/
def clearWrites (program : Nat) : List (Nat × BitVec 8) :=
  [(slotOffset program, 0), (slotOffset program + 1, 0)]

/-- `sram_write`, sram.c:67-70, in sequence. -/
def applyWrites (m : Mem) (ws : List (Nat × BitVec 8)) : Mem :=
  ws.foldl (fun m w => upd m w.1 w.2) m

/-- The bytes of a program's slot. -/
def readSlot (m : Mem) (program : Nat) : List (BitVec 8) :=
  (List.range 36).map fun j => m (slotOffset program + j)

/-- `preset_from_sram_preset_slot`, midi_fm_sram.c:127-146. -/
def presetOfSlot (l : List (BitVec 8)) : FmPreset :=
  let h := ofBe ((l.drop 3).take 2)
  { algorithm := h / 2 ^ 13 % 8
    feedback := h / 2 ^ 10 % 8
    ams := h / 2 ^ 8 % 4
    fms := h / 2 ^ 5 % 8
    ops := ⟨unpackOperator (ofBe ((l.drop 5).take 6)), unpackOperator (ofBe ((l.drop 11).take 6)),
      unpackOperator (ofBe ((l.drop 17).take 6)), unpackOperator (ofBe ((l.drop 23).take 6))⟩ }

/-- Outcome for one program of the load loop. -/
inductive Loaded where
  | empty
  | badChecksum
  | ok (p : FmPreset)
  deriving DecidableEq

/-- Loop body of `midi_fm_sram_load_presets`, midi_fm_sram.c:73-92 (the version byte is not checked). -/
def loadSlot (l : List (BitVec 8)) : Loaded :=
  if ofBe (l.take 2) ≠ 0x9E1D then .empty
  else if ofBe ((l.drop 34).take 2) ≠ (crc16 (l.take 34)).toNat then .badChecksum
  else .ok (presetOfSlot l)

/-- The preset loaded for a program, if any. -/
def loadProgram (m : Mem) (program : Nat) : Loaded := loadSlot (readSlot m program)

end Mdmi.Sram
