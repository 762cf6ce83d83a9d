import Verif.Model.Sram
/-!
# Model of the EverDrive cartridge access: `src/sram/sram.c`, `sram_ed_pro.c`, `sram_ed_x7.c`,
`src/comm/everdrive_led.c`, `src/mem.c`, `src/sys_wraps.c`

The preset memory byte by byte through the mapper of the cartridge; `Model/Sram` has the same functions on an ideal array.

Hardware assumption (mapper of the Mega EverDrives): a write to 0xA130F0 counts only with bit 15 set; bit 13 allows
writes to memory, bit 12 lights the LED.  The register at 0xA130F8 selects the 512 KB page seen at 0x200000 to 0x27FFFF;
page 31 is battery-backed RAM, the other pages ROM.  The Z80 bus request of `sram_enable` is in `Model/MidiFm`.
-/
namespace Mdmi.Cart
open Mdmi.Sram (Mem)
open Mdmi.Synth (FmPreset)

/-- The two cartridges with preset memory. -/
inductive Card
  | pro | x7
  deriving DecidableEq, Repr

/-- A data access to the window: kind, page selected, writes allowed, vertical interrupt enabled. -/
structure Access where
  write : Bool
  page : Nat
  writable : Bool
  vint : Bool
  deriving DecidableEq, Repr

/-- Registers of the cartridge, page 31, the enable bits IE0 (vertical) and IE1 (horizontal interrupt) of the VDP, the
static `ledOn` (everdrive_led.c:11), the messages "Bad SRAM write", and for the theorems the accesses so far and the
number of writes to cartridge registers. -/
structure St where
  ctrl : Nat
  page : Nat
  ram : Nat → BitVec 8
  ie0 : Bool
  ie1 : Bool
  ledOn : Bool
  badWrites : Nat
  accesses : List Access
  regWrites : Nat

/-- Whether memory writes are allowed, and whether the LED is lit. -/
def writable (s : St) : Bool := s.ctrl / 0x2000 % 2 == 1

@[inherit_doc writable] def lit (s : St) : Bool := s.ctrl / 0x1000 % 2 == 1

/-- `mem_write_u16`, mem.c:18-21, to a cartridge register. -/
def write16 (s : St) (a v : Nat) : St :=
  let s := { s with regWrites := s.regWrites + 1 }
  if a = 0xA130F0 then (if v / 0x8000 % 2 = 1 then { s with ctrl := v } else s)
  else if a = 0xA130F8 then { s with page := v }
  else s

/-- `mem_write_u8`, mem.c:13-16, to the window. -/
def write8 (s : St) (a : Nat) (v : BitVec 8) : St :=
  let s := { s with accesses := ⟨true, s.page, writable s, s.ie0⟩ :: s.accesses }
  if 0x200000 ≤ a ∧ a < 0x280000 ∧ s.page = 31 ∧ writable s = true then
    { s with ram := upd s.ram (a - 0x200000) v }
  else s

/-- `mem_read_u8`, mem.c:3-6, from the window; `rom` is what the other pages hold. -/
def read8 (rom : Nat → BitVec 8) (s : St) (a : Nat) : BitVec 8 × St :=
  let s := { s with accesses := ⟨false, s.page, writable s, s.ie0⟩ :: s.accesses }
  (if 0x200000 ≤ a ∧ a < 0x280000 ∧ s.page = 31 then s.ram (a - 0x200000) else rom a, s)

/-- `__wrap_SYS_disableInts`, sys_wraps.c:13-17. -/
def disableInts (s : St) : St := { s with ie1 := false, ie0 := false }

/-- `__wrap_SYS_enableInts`, sys_wraps.c:19-23. -/
def enableInts (s : St) : St := { s with ie1 := true, ie0 := true }

/-- `SRAM_BASE_ADDR`, sram_ed_pro.c:4 and sram_ed_x7.c:4. -/
def base : Card → Nat
  | .pro => 0x200001
  | .x7 => 0x240001

/-- `sram_enable`, sram.c:50-55, with sram_ed_pro.c:13-17 or sram_ed_x7.c:13-17 (the same text). -/
def enable (s : St) (write : Bool) : St :=
  let s := disableInts s
  let s := write16 s 0xA130F0 (0x8000 ||| (if write then 0x2000 else 0))
  write16 s 0xA130F8 31

/-- `sram_disable`, sram.c:57-65, with sram_ed_pro.c:19-23 or sram_ed_x7.c:19-23. -/
def disable (s : St) : St :=
  let s := write16 s 0xA130F0 0x8000
  let s := write16 s 0xA130F8 4
  enableInts s

/-- `sram_write`, sram.c:67-70, with sram_ed_pro.c:25-28 or sram_ed_x7.c:25-28. -/
def write (k : Card) (s : St) (offset : Nat) (v : BitVec 8) : St := write8 s (base k + offset * 2) v

/-- `sram_read`, sram.c:72-75, with sram_ed_pro.c:30-33 or sram_ed_x7.c:30-33. -/
def read (k : Card) (rom : Nat → BitVec 8) (s : St) (offset : Nat) : BitVec 8 × St :=
  read8 rom s (base k + offset * 2)

/-- Body of the loop of `midi_fm_sram_save_preset`, midi_fm_sram.c:39-47: write, read back, compare. -/
def saveByte (k : Card) (rom : Nat → BitVec 8) (x : St × Nat) (v : BitVec 8) : St × Nat :=
  let s := write k x.1 x.2 v
  let r := read k rom s x.2
  (if r.1 ≠ v then { r.2 with badWrites := r.2.badWrites + 1 } else r.2, (x.2 + 1) % 65536)

/-- `midi_fm_sram_save_preset`, midi_fm_sram.c:19-49, memory present. -/
def save (k : Card) (rom : Nat → BitVec 8) (s : St) (program : Nat) (p : FmPreset) : St :=
  disable ((Sram.slotBytes p).foldl (saveByte k rom) (enable s true, Sram.slotOffset program)).1

/-- `midi_fm_sram_clear_preset`, midi_fm_sram.c:51-63, memory present. -/
def clear (k : Card) (s : St) (program : Nat) : St :=
  let s := enable s true
  let s := write k s (Sram.slotOffset program) 0
  let s := write k s (Sram.slotOffset program + 1) 0
  disable s

/-- The loop copying a slot, midi_fm_sram.c:80-82. -/
def readBytes (k : Card) (rom : Nat → BitVec 8) (s : St) (offset : Nat) : Nat → List (BitVec 8) × St
  | 0 => ([], s)
  | j + 1 =>
    let x := readBytes k rom s offset j
    let r := read k rom x.2 (offset + j)
    (x.1 ++ [r.1], r.2)

/-- Body of the loop of `midi_fm_sram_load_presets`, midi_fm_sram.c:73-92, for one program: the magic number first, then
the slot, its checksum and its content. -/
def loadOne (k : Card) (rom : Nat → BitVec 8) (s : St) (program : Nat) : Sram.Loaded × St :=
  let offset := Sram.slotOffset program
  let hi := read k rom s offset
  let lo := read k rom hi.2 (offset + 1)
  if hi.1.toNat * 256 + lo.1.toNat ≠ 0x9E1D then (.empty, lo.2)
  else
    let x := readBytes k rom lo.2 offset 36
    if Sram.ofBe ((x.1.drop 34).take 2) ≠ (Sram.crc16 (x.1.take 34)).toNat then (.badChecksum, x.2)
    else (.ok (Sram.presetOfSlot x.1), x.2)

/-- The loop of `midi_fm_sram_load_presets` up to program `n`. -/
def loadUpTo (k : Card) (rom : Nat → BitVec 8) (s : St) : Nat → List Sram.Loaded × St
  | 0 => ([], s)
  | n + 1 =>
    let x := loadUpTo k rom s n
    let r := loadOne k rom x.2 n
    (x.1 ++ [r.1], r.2)

/-- `midi_fm_sram_load_presets`, midi_fm_sram.c:65-98, memory present: what the 128 slots hold. -/
def load (k : Card) (rom : Nat → BitVec 8) (s : St) : List Sram.Loaded × St :=
  let x := loadUpTo k rom (enable s false) 128
  (x.1, disable x.2)

/-- `everdrive_led_blink`, everdrive_led.c:37-42, with `led_on` (13-17). -/
def ledBlink (s : St) : St :=
  if s.ledOn = false then { write16 s 0xA130F0 (0x1000 ||| 0x8000) with ledOn := true } else s

/-- `everdrive_led_tick`, everdrive_led.c:30-35, with `led_off` (19-23). -/
def ledTick (s : St) : St :=
  if s.ledOn = true then { write16 s 0xA130F0 (0x0000 ||| 0x8000) with ledOn := false } else s

/-- The cartridge when the program starts: its own pages, nothing writable, LED off.  The VDP's interrupt bits are as SGDK leaves
them: vertical on, horizontal off. -/
def powerOn (ram : Nat → BitVec 8) : St := ⟨0x8000, 4, ram, true, false, false, 0, [], 0⟩

/-- Calls on the cartridge made by the rest of the program. -/
inductive Op
  | save (program : Nat) (p : FmPreset) | clear (program : Nat) | load | blink | tick

/-- One call. -/
def step (k : Card) (rom : Nat → BitVec 8) (s : St) : Op → St
  | .save n p => save k rom s n p
  | .clear n => clear k s n
  | .load => (load k rom s).2
  | .blink => ledBlink s
  | .tick => ledTick s

/-- A sequence of calls. -/
def run (k : Card) (rom : Nat → BitVec 8) (s : St) (ops : List Op) : St := ops.foldl (step k rom) s

end Mdmi.Cart
