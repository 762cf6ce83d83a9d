/-!
# Model of `src/pitchcents.c` and the glide step of `src/midi.c`

C integer types: `u8`/`u16`/`s8`/`s16` with wrapping conversion; arithmetic is done in 32-bit `int`
and no intermediate here leaves its range for arguments within their types.  C division truncates
toward zero (`Int.tdiv`).
-/
namespace Mdmi

/-- Conversion to `u8`. -/
def toU8 (x : Int) : Nat := (x % 256).toNat
/-- Conversion to `u16`. -/
def toU16 (x : Int) : Nat := (x % 65536).toNat
/-- Conversion to `s8`. -/
def toS8 (x : Int) : Int := (x + 128) % 256 - 128
/-- Conversion to `s16`. -/
def toS16 (x : Int) : Int := (x + 32768) % 65536 - 32768

/-- `PitchCents`, src/pitchcents.h:4-7. -/
structure PitchCents where
  pitch : Nat
  cents : Int
  deriving DecidableEq, Repr

/-- `pc_shift`, src/pitchcents.c:11-15. -/
def pcShift (pc : PitchCents) (centsAdd : Int) : PitchCents :=
  let total := toU16 ((pc.pitch : Int) * 100 + pc.cents + centsAdd)
  { pitch := toU8 (total / 100 : Nat), cents := toS8 (total % 100 : Nat) }

/-- `pc_bend`, src/pitchcents.c:4-9 (`MIDI_PITCH_BEND_CENTRE` = 0x2000, src/midi.h:10). -/
def pcBend (pitch : Nat) (cents : Int) (pitchBend : Nat) (range : PitchCents) : PitchCents :=
  let centsRange := toS16 ((range.pitch : Int) * 100 + range.cents)
  let centsAdd := toS16 ((((pitchBend : Int) - 0x2000) * centsRange).tdiv 8192)
  pcShift { pitch := pitch, cents := cents } centsAdd

/-- `effectivePitchCents`, src/midi.c:404-410, on the values it reads. -/
def effectivePitchCents (pitch : Nat) (cents : Int) (bend : Nat) (range : PitchCents)
    (fineTune : Int) : PitchCents :=
  pcShift (pcBend pitch cents bend range) fineTune

/-- `portaTimeToInterval`, src/midi.c:64-70. -/
def portaTimeToInterval : List Nat :=
  [1145, 1089, 1036, 985, 937, 892, 848, 807, 768, 730, 694, 661, 628, 598, 569, 541, 514, 489,
    466, 443, 421, 401, 381, 363, 345, 328, 312, 297, 282, 269, 255, 243, 231, 220, 209, 199,
    189, 180, 171, 163, 155, 147, 140, 133, 127, 121, 115, 109, 104, 99, 94, 89, 85, 81, 77,
    73, 70, 66, 63, 60, 57, 54, 52, 49, 47, 44, 42, 40, 38, 36, 35, 33, 31, 30, 28, 27, 26,
    24, 23, 22, 21, 20, 19, 18, 17, 16, 16, 15, 14, 13, 13, 12, 12, 11, 10, 10, 9, 9, 9, 8, 8,
    7, 7, 7, 6, 6, 6, 5, 5, 5, 5, 4, 4, 4, 4, 4, 3, 3, 3, 3, 3, 3, 3, 2, 2, 2, 2, 1]

/-- The fields of `DeviceChannel` (src/midi.h:149-161) a glide works on. -/
structure Glide where
  pitch : Nat
  cents : Int
  target : Nat
  deriving DecidableEq, Repr

/-- `process_channel_glide` without the final call to `set_downstream_pitch`, src/midi.c:1314-1343.
`none` = early return (nothing to do). -/
def glideStep (portamentoTime : Nat) (g : Glide) : Option Glide :=
  if g.target = 0 ∨ (g.target = g.pitch ∧ g.cents = 0) then none
  else
    let inc : Int :=
      if g.target > g.pitch then toS16 portamentoTime
      else if g.target < g.pitch ∨ (g.target = g.pitch ∧ g.cents > 0) then
        toS16 (0 - (portamentoTime : Int))
      else 0
    let pc := pcShift { pitch := g.pitch, cents := g.cents } inc
    if (inc > 0 ∧ pc.pitch ≥ g.target) ∨ (inc < 0 ∧ pc.pitch ≤ g.target) then
      some { pitch := toU8 g.target, cents := 0, target := 0 }
    else some { pitch := pc.pitch, cents := pc.cents, target := g.target }

end Mdmi
