import Verif.Model.Midi
/-!
# The instrument bank: src/presets.c, src/pcm_sample.c, src/envelopes.c

The tables the firmware is built with, transcribed entry by entry; `line N` is the line of the entry's definition in
src/presets.c.  The rest of the model takes the tables as parameters.
-/
namespace Mdmi.Shipped
open Mdmi Mdmi.Synth

/-- `M_BANK_0`, src/presets.c:516-568: the presets of the 128 General MIDI programs. -/
def mBank0 : List FmPreset := [
  /- 0 `M_BANK_0_INST_0_GRANDPIANO`, line 4 -/ ⟨2, 0, 0, 0, ⟨⟨1, 0, 26, 1, 7, 0, 7, 4, 1, 39, 0⟩, ⟨2, 7, 31, 3, 23, 0, 9, 15, 1, 4, 0⟩, ⟨4, 6, 24, 1, 9, 0, 6, 9, 7, 36, 0⟩, ⟨1, 3, 27, 2, 4, 0, 10, 4, 6, 2, 0⟩⟩⟩,
  /- 1 `M_BANK_0_INST_1_BRIGHTPIANO`, line 8 -/ ⟨5, 7, 0, 0, ⟨⟨4, 2, 27, 1, 9, 0, 11, 5, 6, 33, 0⟩, ⟨1, 2, 27, 1, 5, 1, 10, 5, 6, 8, 0⟩, ⟨4, 5, 27, 1, 9, 0, 7, 9, 7, 18, 0⟩, ⟨6, 5, 27, 1, 9, 0, 3, 8, 7, 9, 0⟩⟩⟩,
  /- 2 `M_BANK_0_INST_2_ELECTRICPIANO_ANIMATICS`, line 12 -/ ⟨4, 0, 0, 0, ⟨⟨1, 7, 24, 1, 5, 0, 6, 6, 4, 33, 0⟩, ⟨1, 0, 25, 2, 5, 0, 1, 4, 5, 6, 0⟩, ⟨2, 4, 22, 1, 7, 0, 6, 6, 4, 26, 0⟩, ⟨1, 3, 25, 2, 4, 1, 6, 4, 5, 9, 0⟩⟩⟩,
  /- 3 `M_BANK_0_INST_3_HONKYTONK_SONICMODDED`, line 16 -/ ⟨5, 1, 0, 0, ⟨⟨2, 3, 31, 0, 10, 0, 15, 5, 7, 35, 0⟩, ⟨4, 0, 25, 0, 7, 0, 13, 0, 7, 7, 0⟩, ⟨2, 0, 25, 0, 6, 0, 2, 6, 7, 14, 0⟩, ⟨1, 3, 25, 0, 9, 0, 2, 0, 7, 16, 0⟩⟩⟩,
  /- 4 `M_BANK_0_INST_4_RHODESPIANO`, line 20 -/ ⟨4, 6, 0, 0, ⟨⟨12, 4, 31, 1, 7, 0, 11, 0, 8, 57, 0⟩, ⟨1, 0, 31, 2, 4, 1, 1, 4, 8, 9, 0⟩, ⟨1, 4, 22, 2, 5, 0, 11, 0, 8, 34, 0⟩, ⟨1, 0, 31, 2, 4, 1, 6, 4, 8, 9, 0⟩⟩⟩,
  /- 5 `M_BANK_0_INST_5_CHORUSPIANOTINITOON`, line 24 -/ ⟨7, 6, 0, 0, ⟨⟨10, 7, 31, 0, 10, 0, 15, 7, 6, 30, 0⟩, ⟨2, 3, 31, 0, 13, 0, 15, 0, 8, 12, 0⟩, ⟨1, 5, 25, 1, 5, 0, 15, 2, 6, 10, 0⟩, ⟨1, 1, 25, 0, 10, 0, 15, 2, 6, 20, 0⟩⟩⟩,
  /- 6 `M_BANK_0_INST_6_HARPSICHORD_ADAMS`, line 28 -/ ⟨1, 7, 0, 0, ⟨⟨6, 1, 31, 2, 0, 1, 0, 1, 5, 38, 0⟩, ⟨10, 3, 31, 3, 0, 0, 0, 1, 6, 33, 0⟩, ⟨0, 5, 31, 3, 0, 1, 0, 0, 2, 35, 0⟩, ⟨0, 7, 31, 0, 6, 0, 4, 6, 7, 6, 0⟩⟩⟩,
  /- 7 `M_BANK_0_INST_7_CLAVINET`, line 32 -/ ⟨1, 7, 0, 0, ⟨⟨1, 1, 31, 2, 0, 1, 0, 1, 6, 28, 0⟩, ⟨1, 3, 31, 2, 0, 0, 0, 1, 7, 33, 0⟩, ⟨1, 5, 31, 3, 0, 1, 0, 0, 2, 30, 0⟩, ⟨1, 7, 31, 0, 6, 0, 4, 6, 7, 6, 0⟩⟩⟩,
  /- 8 `M_BANK_0_INST_8_CELESTA`, line 36 -/ ⟨0, 0, 3, 0, ⟨⟨3, 1, 19, 1, 1, 0, 4, 27, 0, 8, 0⟩, ⟨1, 7, 27, 1, 7, 0, 0, 26, 6, 17, 0⟩, ⟨11, 3, 29, 0, 15, 0, 15, 31, 8, 34, 0⟩, ⟨1, 7, 31, 0, 0, 0, 0, 9, 6, 11, 0⟩⟩⟩,
  /- 9 `M_BANK_0_INST_9_GLOCKENSPIEL`, line 40 -/ ⟨4, 1, 3, 0, ⟨⟨7, 1, 31, 0, 7, 0, 15, 0, 2, 30, 0⟩, ⟨1, 7, 31, 2, 7, 0, 15, 0, 3, 0, 0⟩, ⟨5, 3, 31, 0, 11, 0, 15, 0, 6, 51, 0⟩, ⟨1, 7, 31, 2, 7, 0, 15, 0, 3, 15, 0⟩⟩⟩,
  /- 10 `M_BANK_0_INST_10_MUSICBOX`, line 44 -/ ⟨4, 1, 3, 0, ⟨⟨7, 1, 15, 0, 14, 0, 15, 0, 7, 30, 0⟩, ⟨1, 7, 31, 0, 12, 0, 15, 0, 6, 0, 0⟩, ⟨10, 3, 15, 0, 14, 0, 15, 0, 5, 51, 0⟩, ⟨0, 7, 31, 0, 12, 0, 15, 0, 6, 15, 0⟩⟩⟩,
  /- 11 `M_BANK_0_INST_11_VIBRAPHONE_NINEKO`, line 48 -/ ⟨6, 7, 2, 0, ⟨⟨8, 3, 25, 1, 15, 0, 10, 6, 6, 40, 0⟩, ⟨1, 0, 25, 1, 6, 1, 10, 5, 6, 4, 0⟩, ⟨10, 7, 31, 1, 16, 0, 6, 6, 6, 35, 0⟩, ⟨4, 3, 28, 2, 10, 0, 6, 5, 5, 4, 0⟩⟩⟩,
  /- 12 `M_BANK_0_INST_12_MARIMBA_ALADDIN`, line 52 -/ ⟨4, 0, 0, 0, ⟨⟨5, 4, 31, 0, 19, 1, 7, 7, 14, 27, 0⟩, ⟨1, 3, 30, 0, 15, 0, 15, 7, 7, 0, 0⟩, ⟨2, 2, 31, 2, 18, 1, 8, 4, 2, 40, 0⟩, ⟨1, 0, 31, 0, 15, 0, 15, 2, 7, 11, 0⟩⟩⟩,
  /- 13 `M_BANK_0_INST_13_XYLAPHONE_ALADDIN`, line 56 -/ ⟨0, 0, 0, 0, ⟨⟨0, 7, 0, 1, 29, 1, 9, 31, 15, 0, 0⟩, ⟨0, 7, 31, 1, 0, 1, 0, 24, 15, 0, 0⟩, ⟨3, 6, 29, 1, 15, 0, 15, 31, 15, 31, 0⟩, ⟨0, 7, 31, 0, 0, 0, 0, 12, 6, 0, 0⟩⟩⟩,
  /- 14 `M_BANK_0_INST_14_TUBULARBELLS_ANIMATICS`, line 60 -/ ⟨4, 5, 0, 0, ⟨⟨7, 7, 22, 0, 5, 0, 15, 30, 4, 30, 0⟩, ⟨2, 3, 24, 0, 3, 0, 12, 31, 4, 8, 0⟩, ⟨7, 3, 22, 0, 6, 0, 8, 30, 4, 30, 0⟩, ⟨2, 7, 19, 0, 2, 0, 9, 31, 4, 8, 0⟩⟩⟩,
  /- 15 `M_BANK_0_INST_15_DULCIMER`, line 64 -/ ⟨6, 2, 0, 0, ⟨⟨3, 0, 15, 1, 11, 0, 15, 6, 5, 23, 0⟩, ⟨1, 0, 24, 2, 8, 0, 15, 0, 5, 3, 0⟩, ⟨10, 0, 19, 1, 14, 0, 4, 6, 6, 44, 0⟩, ⟨1, 0, 22, 2, 8, 0, 15, 0, 3, 9, 0⟩⟩⟩,
  /- 16 `M_BANK_0_INST_16_HAMMOND_NINEKO`, line 68 -/ ⟨7, 4, 0, 0, ⟨⟨4, 1, 28, 1, 0, 0, 15, 4, 10, 17, 0⟩, ⟨0, 3, 28, 1, 0, 0, 15, 27, 8, 23, 0⟩, ⟨1, 5, 28, 1, 0, 0, 15, 4, 8, 15, 0⟩, ⟨2, 6, 28, 1, 0, 0, 15, 4, 10, 23, 0⟩⟩⟩,
  /- 17 `M_BANK_0_INST_17_PERCUSIVEORGAIN_ACTION52`, line 72 -/ ⟨4, 0, 3, 2, ⟨⟨14, 0, 27, 0, 23, 0, 11, 11, 8, 21, 0⟩, ⟨6, 0, 20, 0, 9, 0, 2, 0, 8, 7, 0⟩, ⟨1, 1, 21, 0, 28, 0, 2, 5, 15, 17, 0⟩, ⟨1, 0, 23, 0, 1, 0, 10, 31, 15, 11, 0⟩⟩⟩,
  /- 18 `M_BANK_0_INST_18_ROCKORGAN`, line 76 -/ ⟨4, 4, 1, 4, ⟨⟨3, 1, 20, 1, 12, 1, 2, 0, 10, 25, 0⟩, ⟨1, 0, 20, 2, 0, 0, 0, 0, 10, 7, 0⟩, ⟨1, 0, 20, 2, 0, 1, 0, 0, 10, 24, 0⟩, ⟨2, 5, 20, 2, 0, 0, 0, 0, 10, 10, 0⟩⟩⟩,
  /- 19 `M_BANK_0_INST_19_CHURCHORGAN`, line 80 -/ ⟨6, 2, 0, 0, ⟨⟨3, 1, 20, 2, 10, 0, 2, 0, 3, 27, 0⟩, ⟨1, 0, 14, 0, 10, 0, 1, 0, 6, 9, 0⟩, ⟨4, 0, 19, 0, 10, 0, 2, 0, 9, 6, 0⟩, ⟨0, 0, 12, 0, 10, 0, 1, 0, 6, 4, 0⟩⟩⟩,
  /- 20 `M_BANK_0_INST_20_REEDORGAN`, line 84 -/ ⟨4, 6, 1, 0, ⟨⟨1, 1, 24, 2, 16, 0, 1, 0, 7, 25, 0⟩, ⟨1, 0, 16, 0, 0, 0, 0, 0, 8, 7, 0⟩, ⟨1, 0, 25, 0, 0, 0, 0, 0, 6, 21, 0⟩, ⟨2, 0, 13, 2, 0, 1, 0, 0, 8, 7, 0⟩⟩⟩,
  /- 21 `M_BANK_0_INST_21_ACCORDEON`, line 88 -/ ⟨2, 6, 0, 2, ⟨⟨1, 3, 21, 0, 5, 0, 1, 0, 7, 30, 0⟩, ⟨7, 3, 18, 0, 8, 0, 2, 0, 8, 21, 0⟩, ⟨2, 7, 14, 0, 9, 0, 2, 3, 9, 52, 0⟩, ⟨2, 0, 13, 2, 22, 0, 1, 0, 9, 0, 0⟩⟩⟩,
  /- 22 `M_BANK_0_INST_22_HARMONICA_SONIC`, line 92 -/ ⟨0, 7, 0, 0, ⟨⟨10, 3, 20, 3, 5, 0, 9, 0, 9, 45, 0⟩, ⟨10, 0, 20, 0, 8, 0, 0, 0, 9, 40, 0⟩, ⟨1, 1, 16, 1, 2, 0, 0, 0, 9, 39, 0⟩, ⟨2, 0, 16, 0, 8, 1, 1, 0, 10, 0, 0⟩⟩⟩,
  /- 23 `M_BANK_0_INST_23_TANGO_ACCORDION`, line 96 -/ ⟨4, 6, 1, 0, ⟨⟨3, 1, 15, 0, 4, 0, 1, 0, 10, 25, 0⟩, ⟨1, 0, 13, 2, 4, 0, 2, 0, 10, 7, 0⟩, ⟨3, 0, 14, 0, 4, 0, 1, 0, 10, 26, 0⟩, ⟨2, 5, 14, 2, 4, 0, 2, 0, 10, 8, 0⟩⟩⟩,
  /- 24 `M_BANK_0_INST_24_NYLONGUITARHELLROLL`, line 100 -/ ⟨0, 3, 0, 0, ⟨⟨5, 0, 31, 0, 18, 0, 2, 0, 7, 48, 0⟩, ⟨0, 3, 31, 0, 10, 0, 2, 4, 7, 19, 0⟩, ⟨1, 3, 31, 0, 14, 0, 2, 4, 7, 45, 0⟩, ⟨0, 0, 31, 1, 10, 0, 2, 3, 7, 0, 0⟩⟩⟩,
  /- 25 `M_BANK_0_INST_25_STEELGUITARHELLROLL`, line 104 -/ ⟨0, 3, 0, 0, ⟨⟨5, 0, 31, 0, 18, 0, 2, 0, 7, 32, 0⟩, ⟨0, 3, 31, 0, 10, 0, 2, 4, 7, 19, 0⟩, ⟨1, 3, 31, 0, 14, 0, 2, 4, 7, 45, 0⟩, ⟨0, 0, 31, 1, 10, 0, 2, 3, 7, 0, 0⟩⟩⟩,
  /- 26 `M_BANK_0_INST_26_JAZZGUITAR`, line 108 -/ ⟨0, 5, 0, 0, ⟨⟨2, 0, 31, 1, 4, 0, 15, 0, 7, 30, 0⟩, ⟨3, 3, 31, 1, 4, 0, 15, 0, 7, 43, 0⟩, ⟨1, 3, 31, 2, 4, 0, 15, 0, 7, 42, 0⟩, ⟨1, 0, 31, 0, 4, 0, 15, 0, 7, 0, 0⟩⟩⟩,
  /- 27 `M_BANK_0_INST_27_CLEANGUITAR_COLUMNS_III`, line 112 -/ ⟨0, 7, 0, 0, ⟨⟨8, 5, 31, 1, 7, 0, 15, 0, 6, 39, 0⟩, ⟨3, 3, 31, 1, 10, 0, 15, 0, 9, 29, 0⟩, ⟨3, 5, 31, 1, 4, 0, 15, 0, 8, 34, 0⟩, ⟨1, 3, 31, 1, 31, 0, 1, 4, 7, 0, 0⟩⟩⟩,
  /- 28 `M_BANK_0_INST_28_MUTEDGUITAR_ALADDIN`, line 116 -/ ⟨2, 3, 0, 4, ⟨⟨3, 3, 20, 1, 23, 0, 8, 9, 10, 28, 0⟩, ⟨4, 0, 24, 1, 23, 0, 11, 1, 11, 11, 0⟩, ⟨1, 3, 27, 1, 27, 0, 8, 7, 11, 5, 0⟩, ⟨1, 0, 20, 0, 18, 0, 0, 4, 12, 0, 0⟩⟩⟩,
  /- 29 `M_BANK_0_INST_29_OVERDRIVE_OPL3`, line 120 -/ ⟨0, 0, 0, 4, ⟨⟨3, 0, 31, 2, 12, 0, 8, 0, 12, 36, 0⟩, ⟨2, 0, 18, 2, 1, 0, 13, 0, 10, 25, 0⟩, ⟨1, 2, 19, 1, 1, 0, 11, 0, 8, 32, 0⟩, ⟨2, 0, 17, 2, 1, 0, 4, 0, 7, 0, 0⟩⟩⟩,
  /- 30 `M_BANK_0_INST_30_DISTORTION_OPL3`, line 124 -/ ⟨0, 0, 0, 4, ⟨⟨3, 0, 31, 2, 12, 0, 8, 0, 12, 36, 0⟩, ⟨2, 0, 18, 2, 1, 0, 15, 0, 7, 25, 0⟩, ⟨1, 2, 19, 1, 2, 0, 11, 0, 8, 26, 0⟩, ⟨2, 0, 17, 2, 1, 0, 4, 0, 6, 0, 0⟩⟩⟩,
  /- 31 `M_BANK_0_INST_31_GUITAR_HARMONICSHELLFIRE`, line 128 -/ ⟨3, 6, 0, 5, ⟨⟨10, 0, 16, 2, 6, 0, 15, 8, 12, 28, 0⟩, ⟨8, 7, 21, 2, 6, 0, 8, 7, 1, 13, 0⟩, ⟨2, 3, 31, 2, 3, 0, 15, 0, 6, 20, 0⟩, ⟨1, 1, 16, 0, 2, 0, 15, 15, 7, 0, 0⟩⟩⟩,
  /- 32 `M_BANK_0_INST_32_ACOUSTICBASS_SONIC`, line 132 -/ ⟨2, 7, 0, 0, ⟨⟨0, 2, 30, 0, 10, 0, 10, 5, 4, 33, 0⟩, ⟨3, 2, 31, 0, 10, 0, 8, 7, 5, 37, 0⟩, ⟨0, 6, 31, 0, 8, 0, 9, 10, 6, 40, 0⟩, ⟨1, 0, 31, 0, 7, 0, 7, 7, 8, 0, 0⟩⟩⟩,
  /- 33 `M_BANK_0_INST_33_FINGERBASS_SONIC`, line 136 -/ ⟨0, 1, 0, 0, ⟨⟨9, 0, 31, 0, 18, 0, 2, 0, 15, 37, 0⟩, ⟨0, 7, 31, 0, 14, 0, 2, 4, 15, 48, 0⟩, ⟨0, 3, 31, 1, 10, 0, 2, 4, 15, 19, 0⟩, ⟨0, 0, 31, 1, 10, 0, 2, 3, 15, 0, 0⟩⟩⟩,
  /- 34 `M_BANK_0_INST_34_PICKBASS`, line 140 -/ ⟨0, 1, 0, 0, ⟨⟨9, 0, 31, 0, 21, 0, 8, 0, 15, 30, 0⟩, ⟨0, 7, 31, 0, 14, 0, 3, 4, 15, 49, 0⟩, ⟨0, 3, 31, 1, 13, 0, 2, 4, 15, 14, 0⟩, ⟨0, 0, 31, 1, 10, 0, 2, 3, 15, 0, 0⟩⟩⟩,
  /- 35 `M_BANK_0_INST_35_FRETLESSBASSALADDIN`, line 144 -/ ⟨6, 0, 0, 4, ⟨⟨0, 0, 26, 0, 9, 0, 0, 7, 11, 29, 0⟩, ⟨0, 0, 13, 1, 3, 0, 6, 0, 10, 5, 0⟩, ⟨0, 5, 18, 2, 11, 0, 14, 19, 10, 0, 0⟩, ⟨0, 6, 10, 1, 12, 0, 15, 0, 10, 9, 0⟩⟩⟩,
  /- 36 `M_BANK_0_INST_36_SLAPBASS1`, line 148 -/ ⟨0, 4, 0, 0, ⟨⟨15, 3, 31, 2, 14, 0, 2, 8, 7, 19, 0⟩, ⟨3, 0, 31, 2, 15, 0, 2, 8, 7, 56, 0⟩, ⟨0, 0, 31, 1, 13, 0, 2, 8, 7, 24, 0⟩, ⟨1, 0, 31, 1, 7, 0, 1, 8, 7, 0, 0⟩⟩⟩,
  /- 37 `M_BANK_0_INST_37_SLAPBASS2`, line 152 -/ ⟨0, 4, 0, 0, ⟨⟨15, 3, 31, 2, 14, 0, 2, 6, 7, 14, 0⟩, ⟨3, 0, 31, 2, 15, 0, 2, 8, 7, 56, 0⟩, ⟨0, 0, 31, 1, 13, 0, 2, 8, 7, 24, 0⟩, ⟨1, 0, 31, 1, 7, 0, 1, 8, 7, 0, 0⟩⟩⟩,
  /- 38 `M_BANK_0_INST_38_SYNBASS1_DYNABROS`, line 156 -/ ⟨5, 7, 0, 0, ⟨⟨4, 4, 21, 1, 30, 0, 0, 13, 11, 23, 0⟩, ⟨4, 1, 25, 1, 30, 0, 0, 10, 10, 0, 0⟩, ⟨2, 0, 20, 1, 30, 0, 0, 9, 9, 5, 0⟩, ⟨3, 3, 20, 1, 30, 0, 8, 5, 9, 24, 0⟩⟩⟩,
  /- 39 `M_BANK_0_INST_39_SYNBASS2_NINEKO`, line 160 -/ ⟨0, 4, 0, 0, ⟨⟨6, 3, 31, 3, 7, 0, 2, 7, 0, 25, 0⟩, ⟨5, 3, 31, 3, 6, 0, 1, 6, 6, 55, 0⟩, ⟨0, 3, 31, 2, 9, 0, 1, 6, 7, 19, 0⟩, ⟨1, 3, 31, 2, 6, 0, 15, 8, 6, 0, 0⟩⟩⟩,
  /- 40 `M_BANK_0_INST_40_VIOLIN`, line 164 -/ ⟨2, 7, 2, 3, ⟨⟨1, 3, 15, 0, 4, 0, 1, 0, 5, 30, 0⟩, ⟨7, 3, 13, 0, 16, 0, 0, 0, 4, 31, 0⟩, ⟨0, 7, 12, 0, 9, 0, 0, 3, 7, 49, 0⟩, ⟨2, 0, 11, 2, 10, 0, 1, 0, 5, 3, 0⟩⟩⟩,
  /- 41 `M_BANK_0_INST_41_VIOLA`, line 168 -/ ⟨2, 7, 2, 3, ⟨⟨1, 3, 14, 0, 4, 0, 1, 0, 5, 30, 0⟩, ⟨4, 3, 14, 0, 16, 0, 0, 0, 4, 30, 0⟩, ⟨0, 7, 11, 0, 9, 0, 0, 3, 7, 61, 0⟩, ⟨2, 0, 12, 2, 10, 0, 1, 0, 5, 3, 0⟩⟩⟩,
  /- 42 `M_BANK_0_INST_42_CELLO`, line 172 -/ ⟨2, 7, 2, 3, ⟨⟨1, 3, 16, 0, 4, 0, 1, 0, 5, 40, 0⟩, ⟨5, 3, 14, 1, 16, 0, 0, 0, 4, 30, 0⟩, ⟨0, 7, 14, 0, 9, 0, 0, 3, 8, 47, 0⟩, ⟨2, 0, 14, 2, 10, 0, 1, 0, 6, 3, 0⟩⟩⟩,
  /- 43 `M_BANK_0_INST_43_CONTROLBASS`, line 176 -/ ⟨2, 7, 2, 3, ⟨⟨1, 3, 16, 0, 4, 0, 1, 0, 5, 43, 0⟩, ⟨4, 3, 14, 0, 16, 0, 0, 0, 4, 44, 0⟩, ⟨0, 7, 14, 0, 9, 0, 0, 3, 7, 31, 0⟩, ⟨2, 0, 14, 2, 10, 0, 1, 0, 5, 0, 0⟩⟩⟩,
  /- 44 `M_BANK_0_INST_44_TREMOLOSTRINGS`, line 180 -/ ⟨4, 7, 2, 5, ⟨⟨1, 3, 16, 3, 1, 1, 1, 0, 3, 21, 0⟩, ⟨1, 0, 15, 0, 10, 0, 2, 0, 7, 6, 0⟩, ⟨1, 0, 13, 2, 11, 0, 4, 0, 4, 19, 0⟩, ⟨1, 0, 14, 0, 10, 0, 1, 0, 8, 0, 0⟩⟩⟩,
  /- 45 `M_BANK_0_INST_45_PIZZIKATOSTRINGS`, line 184 -/ ⟨5, 6, 0, 0, ⟨⟨4, 1, 19, 3, 19, 0, 10, 11, 7, 0, 0⟩, ⟨1, 1, 16, 0, 19, 0, 15, 23, 7, 8, 0⟩, ⟨2, 1, 19, 1, 15, 0, 15, 24, 7, 5, 0⟩, ⟨1, 1, 18, 1, 14, 0, 12, 14, 7, 12, 0⟩⟩⟩,
  /- 46 `M_BANK_0_INST_46_ORCHESTRALHARP`, line 188 -/ ⟨4, 0, 0, 0, ⟨⟨2, 0, 31, 0, 10, 0, 1, 0, 4, 27, 0⟩, ⟨1, 1, 31, 0, 14, 0, 6, 5, 4, 0, 0⟩, ⟨1, 5, 31, 1, 10, 0, 7, 2, 4, 127, 0⟩, ⟨0, 5, 14, 1, 11, 0, 15, 2, 4, 127, 0⟩⟩⟩,
  /- 47 `M_BANK_0_INST_47_TIMPANY`, line 192 -/ ⟨4, 1, 0, 0, ⟨⟨0, 0, 20, 1, 15, 0, 15, 0, 7, 10, 0⟩, ⟨1, 0, 31, 0, 11, 0, 15, 0, 6, 0, 0⟩, ⟨1, 0, 31, 0, 14, 0, 15, 0, 10, 0, 0⟩, ⟨2, 0, 15, 0, 13, 0, 15, 0, 14, 71, 0⟩⟩⟩,
  /- 48 `M_BANK_0_INST_48_STRINGESSEMBLE1`, line 196 -/ ⟨4, 7, 1, 3, ⟨⟨1, 3, 14, 3, 11, 0, 0, 0, 4, 29, 0⟩, ⟨5, 0, 14, 0, 10, 1, 2, 0, 8, 6, 0⟩, ⟨1, 0, 14, 2, 10, 1, 1, 0, 5, 28, 0⟩, ⟨1, 0, 15, 0, 10, 0, 1, 0, 8, 0, 0⟩⟩⟩,
  /- 49 `M_BANK_0_INST_49_STRINGESSEMBLE2`, line 200 -/ ⟨4, 7, 1, 1, ⟨⟨1, 3, 11, 3, 11, 0, 0, 0, 1, 29, 0⟩, ⟨1, 0, 10, 0, 8, 0, 2, 0, 6, 6, 0⟩, ⟨1, 0, 11, 2, 10, 1, 1, 0, 1, 28, 0⟩, ⟨1, 0, 10, 0, 8, 0, 1, 0, 6, 3, 0⟩⟩⟩,
  /- 50 `M_BANK_0_INST_50_SYNSTRINGS_1`, line 204 -/ ⟨4, 6, 0, 0, ⟨⟨1, 1, 26, 0, 2, 1, 6, 0, 2, 21, 0⟩, ⟨1, 0, 10, 0, 0, 0, 0, 0, 6, 24, 0⟩, ⟨1, 3, 25, 0, 1, 1, 11, 0, 3, 28, 0⟩, ⟨1, 0, 10, 0, 0, 0, 0, 0, 5, 2, 0⟩⟩⟩,
  /- 51 `M_BANK_0_INST_51_SYNSTRING2_ALADDIN`, line 208 -/ ⟨2, 6, 1, 5, ⟨⟨0, 3, 8, 0, 4, 0, 0, 0, 5, 35, 0⟩, ⟨4, 3, 8, 2, 3, 0, 10, 0, 4, 52, 0⟩, ⟨0, 0, 15, 0, 1, 0, 7, 3, 3, 32, 0⟩, ⟨0, 0, 8, 1, 10, 1, 0, 0, 5, 0, 0⟩⟩⟩,
  /- 52 `M_BANK_0_INST_52_CHOIR_AAHS`, line 212 -/ ⟨4, 0, 0, 4, ⟨⟨0, 3, 17, 1, 0, 1, 5, 0, 1, 42, 0⟩, ⟨0, 3, 13, 1, 0, 1, 0, 0, 5, 8, 0⟩, ⟨0, 7, 13, 2, 0, 0, 5, 0, 1, 30, 0⟩, ⟨0, 7, 11, 2, 0, 1, 0, 0, 5, 8, 0⟩⟩⟩,
  /- 53 `M_BANK_0_INST_53_VOICE`, line 216 -/ ⟨4, 6, 2, 3, ⟨⟨5, 7, 20, 0, 10, 0, 1, 3, 7, 0, 0⟩, ⟨3, 0, 21, 1, 10, 0, 6, 2, 7, 37, 0⟩, ⟨1, 3, 19, 2, 13, 1, 2, 5, 8, 14, 0⟩, ⟨1, 0, 15, 1, 4, 0, 1, 0, 8, 0, 0⟩⟩⟩,
  /- 54 `M_BANK_0_INST_54_SYNTHVOICE`, line 220 -/ ⟨0, 4, 0, 4, ⟨⟨10, 3, 12, 1, 0, 1, 5, 0, 1, 76, 0⟩, ⟨7, 3, 14, 1, 0, 1, 0, 0, 5, 51, 0⟩, ⟨0, 7, 12, 2, 0, 0, 5, 0, 1, 46, 0⟩, ⟨0, 7, 11, 2, 0, 1, 0, 0, 5, 0, 0⟩⟩⟩,
  /- 55 `M_BANK_0_INST_55_ORCHESTRAHIT`, line 224 -/ ⟨0, 7, 0, 0, ⟨⟨0, 0, 16, 1, 13, 0, 15, 0, 5, 19, 0⟩, ⟨1, 0, 22, 0, 9, 0, 15, 0, 3, 17, 0⟩, ⟨1, 0, 18, 0, 5, 0, 15, 0, 2, 21, 0⟩, ⟨2, 0, 18, 1, 10, 0, 15, 0, 5, 0, 0⟩⟩⟩,
  /- 56 `M_BANK_0_INST_56_TRUMPET_SONIC`, line 228 -/ ⟨5, 7, 0, 0, ⟨⟨2, 0, 16, 2, 14, 0, 1, 1, 4, 27, 0⟩, ⟨4, 0, 16, 0, 11, 0, 15, 0, 13, 10, 0⟩, ⟨2, 0, 19, 0, 14, 0, 1, 0, 9, 21, 0⟩, ⟨2, 0, 20, 0, 13, 0, 0, 0, 14, 9, 0⟩⟩⟩,
  /- 57 `M_BANK_0_INST_57_TROMBONE_ALADDIN`, line 232 -/ ⟨5, 5, 2, 3, ⟨⟨0, 0, 12, 2, 13, 0, 2, 1, 10, 26, 0⟩, ⟨0, 0, 23, 2, 7, 1, 1, 2, 10, 9, 0⟩, ⟨0, 0, 10, 2, 8, 0, 2, 0, 10, 18, 0⟩, ⟨1, 5, 23, 2, 7, 1, 1, 0, 10, 3, 0⟩⟩⟩,
  /- 58 `M_BANK_0_INST_58_TUBA_ALADDIN`, line 236 -/ ⟨5, 7, 1, 2, ⟨⟨0, 0, 14, 2, 6, 0, 6, 1, 6, 27, 0⟩, ⟨0, 0, 14, 2, 7, 1, 1, 2, 5, 4, 0⟩, ⟨1, 0, 13, 2, 13, 0, 2, 10, 5, 3, 0⟩, ⟨1, 5, 17, 2, 7, 1, 1, 0, 6, 5, 0⟩⟩⟩,
  /- 59 `M_BANK_0_INST_59_MUTEDTRUMPET_SONIC`, line 240 -/ ⟨5, 7, 0, 0, ⟨⟨2, 1, 15, 2, 14, 0, 1, 1, 3, 21, 0⟩, ⟨2, 0, 13, 0, 11, 0, 15, 0, 13, 31, 0⟩, ⟨2, 0, 15, 0, 14, 0, 1, 0, 8, 74, 0⟩, ⟨2, 0, 15, 0, 13, 0, 0, 0, 14, 0, 0⟩⟩⟩,
  /- 60 `M_BANK_0_INST_60_FRENCHHORN`, line 244 -/ ⟨4, 7, 0, 0, ⟨⟨1, 0, 11, 2, 4, 0, 3, 0, 7, 34, 0⟩, ⟨1, 0, 20, 2, 0, 0, 0, 0, 6, 0, 0⟩, ⟨0, 0, 0, 0, 0, 0, 0, 0, 0, 127, 0⟩, ⟨0, 0, 0, 0, 0, 0, 0, 0, 0, 127, 0⟩⟩⟩,
  /- 61 `M_BANK_0_INST_61_BRASSSECTION_GREENDOG`, line 248 -/ ⟨5, 6, 1, 2, ⟨⟨1, 2, 14, 2, 0, 0, 4, 1, 7, 26, 0⟩, ⟨1, 3, 27, 2, 5, 0, 3, 2, 6, 0, 0⟩, ⟨0, 2, 21, 2, 0, 0, 1, 2, 7, 9, 0⟩, ⟨4, 1, 20, 2, 0, 1, 0, 2, 8, 6, 0⟩⟩⟩,
  /- 62 `M_BANK_0_INST_62_SYNBRASS1`, line 252 -/ ⟨2, 6, 0, 2, ⟨⟨1, 0, 22, 0, 6, 0, 15, 0, 6, 20, 0⟩, ⟨1, 3, 31, 0, 0, 0, 0, 0, 13, 28, 0⟩, ⟨1, 7, 31, 0, 0, 0, 0, 0, 12, 42, 0⟩, ⟨1, 0, 19, 0, 0, 0, 0, 0, 8, 0, 0⟩⟩⟩,
  /- 63 `M_BANK_0_INST_63_SYNBRASS2`, line 256 -/ ⟨2, 7, 2, 3, ⟨⟨1, 3, 17, 0, 4, 0, 1, 0, 9, 30, 0⟩, ⟨7, 3, 17, 0, 16, 0, 0, 0, 9, 31, 0⟩, ⟨2, 7, 17, 0, 9, 0, 0, 3, 9, 55, 0⟩, ⟨2, 0, 17, 2, 10, 0, 1, 0, 7, 0, 0⟩⟩⟩,
  /- 64 `M_BANK_0_INST_64_SOPRANOSAX`, line 260 -/ ⟨5, 6, 1, 2, ⟨⟨1, 2, 17, 1, 0, 0, 4, 1, 8, 32, 0⟩, ⟨2, 3, 12, 1, 5, 0, 3, 2, 7, 13, 0⟩, ⟨0, 2, 13, 1, 0, 0, 1, 2, 8, 14, 0⟩, ⟨2, 1, 14, 2, 0, 1, 0, 2, 9, 0, 0⟩⟩⟩,
  /- 65 `M_BANK_0_INST_65_ALTOSAX`, line 264 -/ ⟨5, 6, 1, 2, ⟨⟨1, 2, 14, 2, 0, 0, 4, 1, 8, 26, 0⟩, ⟨1, 3, 12, 2, 5, 0, 3, 2, 7, 5, 0⟩, ⟨0, 2, 19, 1, 0, 0, 1, 2, 8, 11, 0⟩, ⟨4, 1, 14, 2, 0, 1, 0, 2, 8, 4, 0⟩⟩⟩,
  /- 66 `M_BANK_0_INST_66_TENORSAX`, line 268 -/ ⟨5, 6, 1, 2, ⟨⟨1, 2, 15, 2, 0, 0, 4, 1, 8, 30, 0⟩, ⟨1, 3, 11, 2, 5, 0, 3, 2, 6, 5, 0⟩, ⟨0, 2, 18, 1, 0, 0, 1, 2, 7, 10, 0⟩, ⟨2, 1, 13, 2, 0, 1, 0, 2, 8, 4, 0⟩⟩⟩,
  /- 67 `M_BANK_0_INST_67_BARITONESAX`, line 272 -/ ⟨5, 6, 1, 2, ⟨⟨1, 2, 14, 2, 0, 0, 4, 1, 8, 23, 0⟩, ⟨1, 3, 14, 2, 5, 0, 3, 2, 6, 5, 0⟩, ⟨0, 2, 17, 2, 0, 0, 1, 2, 7, 10, 0⟩, ⟨3, 1, 17, 2, 0, 1, 0, 2, 8, 4, 0⟩⟩⟩,
  /- 68 `M_BANK_0_INST_68_OBOE_ALADDIN`, line 276 -/ ⟨0, 7, 1, 2, ⟨⟨1, 0, 24, 0, 23, 1, 0, 0, 10, 39, 0⟩, ⟨1, 0, 16, 0, 31, 1, 0, 0, 10, 30, 0⟩, ⟨1, 0, 22, 0, 31, 0, 0, 0, 10, 40, 0⟩, ⟨4, 0, 24, 0, 31, 0, 0, 0, 10, 0, 0⟩⟩⟩,
  /- 69 `M_BANK_0_INST_69_ENGLISHHORN`, line 280 -/ ⟨0, 7, 1, 2, ⟨⟨1, 0, 24, 0, 23, 1, 0, 0, 10, 38, 0⟩, ⟨1, 0, 16, 0, 31, 1, 0, 0, 10, 23, 0⟩, ⟨1, 0, 22, 0, 31, 0, 0, 0, 10, 43, 0⟩, ⟨2, 0, 16, 0, 31, 0, 0, 0, 8, 5, 0⟩⟩⟩,
  /- 70 `M_BANK_0_INST_70_BASSOON_ALADDIN`, line 284 -/ ⟨0, 7, 1, 2, ⟨⟨0, 0, 3, 0, 23, 1, 0, 0, 12, 39, 0⟩, ⟨1, 0, 15, 0, 31, 1, 0, 0, 12, 35, 0⟩, ⟨0, 0, 31, 0, 31, 0, 0, 0, 12, 36, 0⟩, ⟨2, 0, 16, 0, 31, 0, 0, 0, 12, 0, 0⟩⟩⟩,
  /- 71 `M_BANK_0_INST_71_CLARINET_ALADDIN`, line 288 -/ ⟨4, 1, 2, 3, ⟨⟨2, 1, 13, 2, 0, 0, 0, 1, 10, 30, 0⟩, ⟨1, 7, 18, 0, 0, 0, 0, 0, 10, 4, 0⟩, ⟨2, 7, 15, 1, 11, 1, 8, 29, 10, 18, 0⟩, ⟨1, 1, 19, 0, 15, 1, 2, 6, 10, 12, 0⟩⟩⟩,
  /- 72 `M_BANK_0_INST_72_PICCOLO_ALADDIN`, line 292 -/ ⟨7, 2, 3, 2, ⟨⟨2, 3, 10, 3, 0, 0, 0, 0, 8, 9, 0⟩, ⟨2, 7, 10, 2, 8, 0, 7, 0, 8, 6, 0⟩, ⟨2, 3, 12, 2, 12, 1, 12, 10, 8, 17, 0⟩, ⟨2, 1, 10, 3, 13, 1, 7, 0, 8, 11, 0⟩⟩⟩,
  /- 73 `M_BANK_0_INST_73_FLUTE`, line 296 -/ ⟨4, 6, 1, 0, ⟨⟨5, 7, 20, 0, 10, 0, 1, 3, 5, 0, 0⟩, ⟨3, 0, 22, 1, 12, 0, 6, 2, 8, 49, 0⟩, ⟨1, 3, 19, 2, 13, 1, 4, 0, 5, 22, 0⟩, ⟨1, 0, 14, 1, 4, 1, 1, 0, 8, 0, 0⟩⟩⟩,
  /- 74 `M_BANK_0_INST_74_RECORDER`, line 300 -/ ⟨3, 7, 0, 0, ⟨⟨1, 7, 20, 1, 14, 0, 6, 3, 5, 8, 0⟩, ⟨2, 0, 20, 1, 16, 0, 5, 2, 5, 55, 0⟩, ⟨2, 3, 13, 2, 4, 0, 2, 0, 5, 36, 0⟩, ⟨2, 0, 14, 1, 4, 1, 0, 0, 8, 0, 0⟩⟩⟩,
  /- 75 `M_BANK_0_INST_75_PANFLUTE`, line 304 -/ ⟨4, 6, 0, 0, ⟨⟨5, 7, 19, 0, 10, 0, 1, 0, 5, 0, 0⟩, ⟨3, 0, 22, 1, 12, 0, 1, 0, 5, 49, 0⟩, ⟨2, 3, 18, 2, 13, 0, 4, 0, 5, 19, 0⟩, ⟨1, 0, 14, 1, 4, 1, 1, 0, 8, 0, 0⟩⟩⟩,
  /- 76 `M_BANK_0_INST_76_BOTTLEBLOW`, line 308 -/ ⟨4, 7, 0, 0, ⟨⟨5, 7, 18, 0, 10, 0, 1, 0, 6, 0, 0⟩, ⟨3, 0, 25, 1, 13, 0, 3, 0, 6, 41, 0⟩, ⟨2, 3, 12, 2, 13, 1, 5, 0, 6, 24, 0⟩, ⟨1, 0, 12, 1, 4, 1, 2, 0, 7, 0, 0⟩⟩⟩,
  /- 77 `M_BANK_0_INST_77_SHAKUHACHI_ALISIA_DRAGOON`, line 312 -/ ⟨4, 5, 0, 0, ⟨⟨4, 3, 18, 0, 6, 0, 2, 2, 7, 32, 0⟩, ⟨2, 7, 15, 0, 9, 0, 7, 0, 8, 6, 0⟩, ⟨4, 5, 18, 0, 6, 0, 2, 2, 6, 35, 0⟩, ⟨2, 3, 14, 0, 10, 1, 2, 0, 9, 11, 0⟩⟩⟩,
  /- 78 `M_BANK_0_INST_78_WHISTLE_ALADDIN`, line 316 -/ ⟨7, 2, 1, 3, ⟨⟨1, 3, 18, 0, 0, 1, 0, 0, 8, 8, 0⟩, ⟨1, 0, 15, 2, 2, 0, 7, 0, 8, 8, 0⟩, ⟨1, 3, 0, 2, 0, 0, 4, 0, 8, 127, 0⟩, ⟨2, 1, 0, 3, 0, 0, 0, 0, 8, 127, 0⟩⟩⟩,
  /- 79 `M_BANK_0_INST_79_OCARINA`, line 320 -/ ⟨4, 6, 0, 0, ⟨⟨5, 7, 20, 0, 10, 0, 1, 3, 5, 0, 0⟩, ⟨3, 0, 22, 1, 12, 0, 6, 2, 8, 49, 0⟩, ⟨2, 3, 20, 2, 13, 0, 4, 0, 5, 41, 0⟩, ⟨1, 0, 14, 1, 4, 1, 1, 0, 7, 0, 0⟩⟩⟩,
  /- 80 `M_BANK_0_INST_80_LEADSQUARE`, line 324 -/ ⟨4, 7, 1, 0, ⟨⟨2, 3, 31, 1, 0, 1, 8, 1, 11, 24, 0⟩, ⟨1, 7, 28, 0, 0, 0, 1, 0, 10, 9, 0⟩, ⟨2, 0, 26, 0, 0, 1, 2, 0, 10, 26, 0⟩, ⟨1, 0, 27, 1, 0, 1, 0, 0, 15, 13, 0⟩⟩⟩,
  /- 81 `M_BANK_0_INST_81_LEADSAW`, line 328 -/ ⟨4, 7, 0, 0, ⟨⟨1, 7, 31, 0, 0, 0, 0, 0, 15, 28, 0⟩, ⟨2, 7, 31, 0, 0, 0, 0, 0, 15, 4, 0⟩, ⟨1, 3, 31, 0, 0, 0, 0, 0, 15, 28, 0⟩, ⟨2, 3, 31, 0, 0, 0, 0, 0, 15, 4, 0⟩⟩⟩,
  /- 82 `M_BANK_0_INST_82_LEADCALLIOPE`, line 332 -/ ⟨4, 7, 0, 5, ⟨⟨5, 7, 19, 0, 10, 1, 1, 0, 5, 0, 0⟩, ⟨3, 2, 25, 2, 13, 0, 13, 0, 5, 41, 0⟩, ⟨2, 3, 13, 2, 13, 0, 5, 0, 5, 24, 0⟩, ⟨1, 6, 14, 1, 4, 1, 2, 0, 11, 5, 0⟩⟩⟩,
  /- 83 `M_BANK_0_INST_83_LEAD4CHIF_SONIC`, line 336 -/ ⟨2, 7, 0, 0, ⟨⟨1, 0, 14, 2, 14, 0, 5, 0, 15, 20, 0⟩, ⟨7, 0, 15, 2, 14, 0, 5, 8, 15, 43, 0⟩, ⟨1, 0, 14, 2, 14, 0, 11, 0, 15, 23, 0⟩, ⟨1, 0, 20, 1, 3, 0, 11, 8, 15, 4, 0⟩⟩⟩,
  /- 84 `M_BANK_0_INST_84_LEAD5CHAR_NINEKO`, line 340 -/ ⟨0, 7, 0, 0, ⟨⟨2, 7, 17, 3, 1, 0, 15, 0, 15, 30, 0⟩, ⟨3, 1, 18, 1, 7, 0, 15, 0, 15, 30, 0⟩, ⟨1, 7, 20, 0, 1, 0, 15, 0, 15, 30, 0⟩, ⟨1, 1, 20, 0, 1, 0, 15, 0, 15, 4, 0⟩⟩⟩,
  /- 85 `M_BANK_0_INST_85_LEADVOICE`, line 344 -/ ⟨4, 1, 2, 3, ⟨⟨2, 1, 15, 2, 0, 0, 0, 1, 10, 30, 0⟩, ⟨1, 7, 21, 0, 0, 0, 0, 0, 10, 4, 0⟩, ⟨2, 7, 16, 1, 11, 1, 8, 29, 10, 18, 0⟩, ⟨1, 1, 19, 0, 15, 1, 2, 6, 10, 12, 0⟩⟩⟩,
  /- 86 `M_BANK_0_INST_86_LEAD7FIFTS_ANIMATICS`, line 348 -/ ⟨4, 7, 0, 0, ⟨⟨4, 3, 27, 1, 5, 0, 0, 3, 7, 24, 0⟩, ⟨4, 7, 27, 1, 5, 0, 0, 3, 7, 0, 0⟩, ⟨3, 7, 24, 1, 0, 0, 0, 3, 6, 14, 0⟩, ⟨3, 3, 22, 1, 0, 0, 0, 3, 6, 12, 0⟩⟩⟩,
  /- 87 `M_BANK_0_INST_87_LEAD8BASS_GEMS_ANALOG_SOLO`, line 352 -/ ⟨4, 0, 0, 1, ⟨⟨1, 0, 19, 1, 13, 1, 6, 9, 9, 17, 0⟩, ⟨2, 7, 30, 0, 5, 1, 4, 0, 8, 6, 0⟩, ⟨1, 0, 1, 2, 19, 1, 0, 2, 8, 29, 0⟩, ⟨1, 6, 31, 0, 7, 0, 0, 0, 8, 4, 0⟩⟩⟩,
  /- 88 `M_BANK_0_INST_88_PAD1NEWAGE`, line 356 -/ ⟨4, 1, 0, 0, ⟨⟨7, 0, 15, 0, 11, 0, 7, 6, 6, 25, 0⟩, ⟨8, 0, 31, 0, 7, 0, 15, 0, 5, 22, 0⟩, ⟨1, 3, 9, 2, 2, 0, 2, 0, 3, 33, 0⟩, ⟨1, 0, 14, 0, 5, 0, 1, 0, 6, 0, 0⟩⟩⟩,
  /- 89 `M_BANK_0_INST_89_PAD_WARM_PORTED_FROM_DMX`, line 360 -/ ⟨7, 0, 0, 0, ⟨⟨1, 0, 7, 3, 0, 0, 0, 0, 3, 16, 0⟩, ⟨1, 0, 5, 0, 0, 0, 0, 0, 6, 16, 0⟩, ⟨1, 3, 7, 1, 0, 0, 0, 0, 4, 16, 0⟩, ⟨1, 3, 5, 0, 0, 0, 0, 0, 6, 16, 0⟩⟩⟩,
  /- 90 `M_BANK_0_INST_90_POLYSYNTH`, line 364 -/ ⟨4, 7, 0, 0, ⟨⟨1, 3, 18, 1, 8, 0, 1, 4, 6, 26, 0⟩, ⟨2, 5, 17, 1, 0, 0, 0, 0, 6, 3, 0⟩, ⟨0, 5, 21, 1, 8, 0, 1, 4, 5, 22, 0⟩, ⟨0, 3, 20, 1, 0, 0, 0, 0, 5, 5, 0⟩⟩⟩,
  /- 91 `M_BANK_0_INST_91_PADCHOIR`, line 368 -/ ⟨5, 0, 0, 4, ⟨⟨0, 0, 14, 1, 0, 1, 5, 0, 2, 34, 0⟩, ⟨0, 0, 12, 1, 0, 1, 0, 0, 5, 12, 0⟩, ⟨0, 0, 10, 2, 0, 0, 5, 0, 3, 17, 0⟩, ⟨0, 0, 9, 2, 0, 1, 0, 0, 4, 14, 0⟩⟩⟩,
  /- 92 `M_BANK_0_INST_92_BOWED`, line 372 -/ ⟨4, 3, 0, 0, ⟨⟨6, 0, 11, 3, 3, 0, 6, 1, 1, 26, 0⟩, ⟨1, 0, 9, 2, 6, 0, 7, 2, 3, 6, 0⟩, ⟨5, 0, 10, 0, 9, 0, 15, 0, 3, 35, 0⟩, ⟨2, 0, 10, 0, 6, 0, 15, 0, 4, 29, 0⟩⟩⟩,
  /- 93 `M_BANK_0_INST_93_METALLIC`, line 376 -/ ⟨4, 7, 1, 4, ⟨⟨1, 3, 11, 3, 11, 0, 0, 0, 1, 28, 0⟩, ⟨9, 0, 7, 0, 3, 0, 10, 0, 5, 14, 0⟩, ⟨1, 0, 11, 2, 3, 1, 1, 0, 1, 22, 0⟩, ⟨2, 0, 7, 0, 1, 0, 14, 0, 5, 11, 0⟩⟩⟩,
  /- 94 `M_BANK_0_INST_94_PADHALO`, line 380 -/ ⟨4, 5, 0, 4, ⟨⟨1, 2, 3, 1, 4, 0, 5, 0, 5, 12, 0⟩, ⟨1, 0, 9, 0, 7, 1, 3, 0, 6, 3, 0⟩, ⟨1, 7, 3, 1, 4, 1, 5, 1, 4, 0, 0⟩, ⟨1, 0, 10, 0, 7, 0, 3, 0, 6, 22, 0⟩⟩⟩,
  /- 95 `M_BANK_0_INST_95_SWEEP`, line 384 -/ ⟨4, 5, 0, 5, ⟨⟨2, 2, 6, 0, 6, 0, 5, 0, 4, 22, 0⟩, ⟨1, 0, 15, 0, 7, 1, 3, 0, 6, 3, 0⟩, ⟨5, 7, 4, 0, 8, 1, 5, 5, 4, 24, 0⟩, ⟨2, 0, 9, 0, 7, 0, 3, 0, 6, 19, 0⟩⟩⟩,
  /- 96 `M_BANK_0_INST_96_FX_RAIN`, line 388 -/ ⟨6, 7, 2, 2, ⟨⟨6, 0, 31, 0, 18, 0, 3, 0, 7, 20, 0⟩, ⟨2, 0, 31, 0, 18, 1, 2, 13, 5, 21, 0⟩, ⟨2, 3, 12, 0, 0, 1, 0, 0, 5, 17, 0⟩, ⟨1, 7, 12, 0, 0, 1, 0, 0, 5, 17, 0⟩⟩⟩,
  /- 97 `M_BANK_0_INST_97_FXSNDTRACK_THUNDERFORCE_IV`, line 392 -/ ⟨4, 5, 0, 0, ⟨⟨3, 3, 6, 0, 6, 0, 15, 4, 4, 30, 0⟩, ⟨3, 5, 17, 0, 3, 0, 2, 0, 4, 9, 0⟩, ⟨2, 5, 5, 0, 6, 0, 15, 4, 5, 30, 0⟩, ⟨2, 3, 10, 0, 3, 0, 2, 0, 5, 9, 0⟩⟩⟩,
  /- 98 `M_BANK_0_INST_98_FXCRYSTAL_ALISIA_DRAGOON`, line 396 -/ ⟨4, 7, 0, 0, ⟨⟨5, 4, 31, 0, 13, 0, 7, 4, 6, 55, 0⟩, ⟨2, 7, 31, 0, 8, 0, 6, 7, 8, 12, 0⟩, ⟨4, 0, 26, 0, 19, 0, 2, 7, 6, 43, 0⟩, ⟨2, 3, 24, 0, 8, 0, 2, 7, 5, 15, 0⟩⟩⟩,
  /- 99 `M_BANK_0_INST_99_ATMOSPHERE_ALISIA_DRAGOON`, line 400 -/ ⟨4, 6, 1, 3, ⟨⟨2, 7, 22, 2, 1, 1, 5, 0, 5, 23, 0⟩, ⟨1, 3, 31, 2, 4, 0, 4, 0, 5, 5, 0⟩, ⟨1, 1, 22, 0, 4, 1, 0, 5, 6, 49, 0⟩, ⟨1, 5, 13, 0, 9, 0, 5, 6, 6, 16, 0⟩⟩⟩,
  /- 100 `M_BANK_0_INST_100_BRIGHTNESS`, line 404 -/ ⟨3, 0, 0, 0, ⟨⟨2, 3, 18, 2, 1, 1, 5, 4, 1, 40, 0⟩, ⟨3, 5, 31, 1, 0, 0, 0, 0, 6, 43, 0⟩, ⟨5, 5, 20, 1, 8, 0, 1, 4, 4, 39, 0⟩, ⟨2, 3, 31, 1, 0, 0, 0, 0, 5, 6, 0⟩⟩⟩,
  /- 101 `M_BANK_0_INST_101_GOBLINS`, line 408 -/ ⟨4, 5, 0, 4, ⟨⟨1, 2, 4, 0, 6, 0, 5, 0, 3, 18, 0⟩, ⟨1, 0, 3, 1, 7, 1, 3, 0, 3, 19, 0⟩, ⟨1, 7, 4, 0, 1, 1, 0, 1, 3, 0, 0⟩, ⟨1, 0, 5, 0, 7, 0, 3, 0, 3, 22, 0⟩⟩⟩,
  /- 102 `M_BANK_0_INST_102_ECHOS`, line 412 -/ ⟨4, 2, 0, 4, ⟨⟨2, 3, 16, 1, 0, 1, 5, 0, 5, 41, 0⟩, ⟨2, 0, 16, 1, 0, 1, 0, 0, 5, 12, 0⟩, ⟨1, 0, 11, 2, 0, 0, 5, 0, 5, 45, 0⟩, ⟨1, 7, 20, 2, 0, 1, 0, 0, 5, 16, 0⟩⟩⟩,
  /- 103 `M_BANK_0_INST_103_SCIFI`, line 416 -/ ⟨0, 3, 0, 4, ⟨⟨1, 3, 20, 2, 2, 0, 2, 0, 3, 34, 0⟩, ⟨8, 6, 31, 2, 2, 0, 2, 0, 3, 36, 0⟩, ⟨3, 2, 31, 2, 3, 0, 4, 0, 3, 34, 0⟩, ⟨1, 0, 19, 0, 1, 1, 2, 0, 5, 8, 0⟩⟩⟩,
  /- 104 `M_BANK_0_INST_104_SITAR`, line 420 -/ ⟨4, 0, 0, 0, ⟨⟨2, 0, 31, 1, 7, 0, 4, 5, 4, 47, 0⟩, ⟨7, 0, 19, 2, 3, 0, 15, 0, 6, 25, 0⟩, ⟨2, 0, 18, 2, 3, 0, 15, 0, 3, 8, 0⟩, ⟨7, 0, 31, 0, 5, 0, 15, 0, 6, 14, 0⟩⟩⟩,
  /- 105 `M_BANK_0_INST_105_BANJO`, line 424 -/ ⟨2, 6, 0, 0, ⟨⟨6, 3, 15, 1, 20, 0, 1, 8, 9, 25, 0⟩, ⟨1, 2, 31, 1, 15, 0, 1, 23, 8, 69, 0⟩, ⟨2, 5, 28, 1, 9, 0, 1, 1, 0, 23, 0⟩, ⟨2, 3, 19, 0, 25, 0, 1, 9, 7, 0, 0⟩⟩⟩,
  /- 106 `M_BANK_0_INST_106_SHAMISEN`, line 428 -/ ⟨0, 7, 0, 0, ⟨⟨5, 0, 31, 2, 14, 0, 15, 0, 8, 27, 0⟩, ⟨2, 0, 31, 2, 14, 0, 14, 0, 2, 34, 0⟩, ⟨1, 0, 31, 1, 5, 0, 14, 0, 4, 24, 0⟩, ⟨6, 0, 31, 1, 7, 0, 15, 0, 5, 10, 0⟩⟩⟩,
  /- 107 `M_BANK_0_INST_107_KOTO`, line 432 -/ ⟨4, 4, 0, 3, ⟨⟨3, 5, 27, 2, 8, 0, 3, 4, 3, 23, 0⟩, ⟨1, 0, 24, 1, 22, 0, 2, 4, 3, 7, 0⟩, ⟨3, 1, 27, 2, 8, 1, 3, 8, 2, 28, 0⟩, ⟨3, 0, 24, 0, 22, 0, 1, 8, 5, 14, 0⟩⟩⟩,
  /- 108 `M_BANK_0_INST_108_KALIMBA`, line 436 -/ ⟨6, 6, 0, 0, ⟨⟨4, 7, 20, 1, 22, 1, 7, 21, 7, 23, 0⟩, ⟨1, 7, 21, 0, 0, 1, 0, 10, 6, 7, 0⟩, ⟨4, 6, 30, 1, 13, 0, 5, 7, 5, 21, 0⟩, ⟨4, 7, 21, 0, 12, 0, 4, 9, 6, 19, 0⟩⟩⟩,
  /- 109 `M_BANK_0_INST_109_BAGPIPE`, line 440 -/ ⟨0, 3, 1, 0, ⟨⟨1, 0, 16, 2, 16, 0, 3, 0, 6, 11, 0⟩, ⟨4, 0, 12, 0, 0, 0, 0, 0, 13, 39, 0⟩, ⟨0, 0, 17, 0, 0, 0, 3, 0, 5, 28, 0⟩, ⟨2, 0, 12, 2, 0, 0, 0, 0, 13, 8, 0⟩⟩⟩,
  /- 110 `M_BANK_0_INST_110_FIDDLE`, line 444 -/ ⟨2, 7, 2, 3, ⟨⟨1, 3, 14, 0, 4, 0, 1, 0, 5, 29, 0⟩, ⟨7, 3, 12, 0, 16, 0, 0, 0, 4, 31, 0⟩, ⟨0, 7, 11, 0, 9, 0, 0, 3, 7, 55, 0⟩, ⟨2, 0, 10, 2, 10, 0, 1, 0, 5, 3, 0⟩⟩⟩,
  /- 111 `M_BANK_0_INST_111_SHANAI_ALADDIN`, line 448 -/ ⟨0, 7, 1, 2, ⟨⟨1, 0, 24, 0, 23, 1, 0, 0, 10, 39, 0⟩, ⟨1, 0, 16, 0, 31, 1, 0, 0, 10, 30, 0⟩, ⟨1, 0, 22, 0, 31, 0, 0, 0, 10, 40, 0⟩, ⟨4, 0, 24, 0, 31, 0, 0, 0, 10, 0, 0⟩⟩⟩,
  /- 112 `M_BANK_0_INST_112_TINKLEBELL`, line 452 -/ ⟨7, 0, 0, 0, ⟨⟨3, 3, 20, 3, 4, 0, 0, 4, 3, 25, 0⟩, ⟨2, 7, 22, 3, 3, 0, 5, 8, 3, 16, 0⟩, ⟨2, 3, 20, 0, 5, 0, 0, 6, 3, 17, 0⟩, ⟨3, 7, 22, 2, 7, 0, 11, 7, 3, 11, 0⟩⟩⟩,
  /- 113 `M_BANK_0_INST_113_AGOGO`, line 456 -/ ⟨4, 7, 0, 0, ⟨⟨6, 0, 31, 0, 31, 0, 6, 14, 8, 0, 0⟩, ⟨14, 0, 31, 2, 14, 0, 10, 14, 7, 14, 0⟩, ⟨11, 0, 31, 0, 31, 0, 4, 14, 8, 0, 0⟩, ⟨14, 0, 31, 2, 31, 0, 0, 15, 7, 14, 0⟩⟩⟩,
  /- 114 `M_BANK_0_INST_114_STEELDRUMS`, line 460 -/ ⟨4, 1, 3, 0, ⟨⟨12, 1, 13, 0, 19, 0, 5, 0, 7, 65, 0⟩, ⟨1, 7, 26, 0, 12, 0, 15, 0, 6, 12, 0⟩, ⟨5, 3, 13, 0, 16, 0, 8, 7, 7, 34, 0⟩, ⟨1, 7, 26, 0, 14, 0, 15, 0, 6, 12, 0⟩⟩⟩,
  /- 115 `M_BANK_0_INST_115_WOODBLOCK`, line 464 -/ ⟨4, 7, 0, 0, ⟨⟨7, 1, 31, 0, 22, 0, 12, 22, 8, 20, 0⟩, ⟨5, 1, 31, 0, 18, 0, 11, 28, 8, 0, 0⟩, ⟨14, 1, 31, 3, 25, 0, 14, 12, 8, 10, 0⟩, ⟨9, 1, 31, 3, 20, 0, 1, 13, 8, 5, 0⟩⟩⟩,
  /- 116 `M_BANK_0_INST_116_TAIKO_DRUM`, line 468 -/ ⟨6, 3, 0, 0, ⟨⟨0, 0, 31, 2, 18, 0, 0, 18, 8, 6, 0⟩, ⟨1, 0, 31, 2, 16, 0, 0, 16, 11, 4, 0⟩, ⟨0, 0, 31, 0, 16, 0, 0, 16, 7, 12, 0⟩, ⟨0, 0, 31, 0, 8, 0, 9, 12, 5, 3, 0⟩⟩⟩,
  /- 117 `M_BANK_0_INST_117_MELODIC_TOM`, line 472 -/ ⟨1, 6, 0, 0, ⟨⟨2, 0, 31, 0, 0, 0, 0, 13, 0, 16, 0⟩, ⟨0, 0, 31, 0, 2, 0, 0, 18, 0, 2, 0⟩, ⟨0, 0, 30, 0, 0, 0, 0, 20, 0, 35, 0⟩, ⟨0, 0, 30, 0, 0, 0, 0, 14, 6, 0, 0⟩⟩⟩,
  /- 118 `M_BANK_0_INST_118_SYNDRUM_ALISIA_DRAGOON`, line 476 -/ ⟨3, 7, 0, 0, ⟨⟨1, 0, 29, 0, 18, 0, 5, 0, 6, 6, 0⟩, ⟨1, 0, 31, 0, 26, 0, 2, 22, 6, 8, 0⟩, ⟨2, 0, 31, 1, 27, 0, 5, 8, 6, 13, 0⟩, ⟨1, 0, 31, 0, 14, 0, 12, 17, 6, 0, 0⟩⟩⟩,
  /- 119 `M_BANK_0_INST_119_REVERSE_CYMBELL`, line 480 -/ ⟨4, 7, 1, 0, ⟨⟨15, 7, 29, 0, 1, 0, 8, 0, 0, 0, 0⟩, ⟨3, 1, 4, 1, 13, 1, 0, 22, 9, 9, 0⟩, ⟨15, 7, 31, 0, 0, 0, 1, 0, 4, 0, 0⟩, ⟨0, 0, 4, 2, 27, 0, 10, 6, 6, 29, 0⟩⟩⟩,
  /- 120 `M_BANK_0_INST_120_GUITAR_FRET_NOISE`, line 484 -/ ⟨4, 7, 1, 0, ⟨⟨6, 7, 27, 0, 1, 0, 8, 0, 0, 14, 0⟩, ⟨3, 1, 14, 1, 7, 1, 0, 14, 9, 17, 0⟩, ⟨3, 7, 31, 0, 0, 0, 1, 0, 4, 33, 0⟩, ⟨4, 0, 12, 2, 14, 0, 10, 9, 6, 32, 0⟩⟩⟩,
  /- 121 `M_BANK_0_INST_121_BREATH_NOISE`, line 488 -/ ⟨4, 7, 0, 0, ⟨⟨4, 3, 31, 0, 0, 0, 2, 0, 2, 0, 0⟩, ⟨2, 7, 12, 0, 12, 0, 11, 7, 7, 11, 0⟩, ⟨4, 5, 31, 0, 0, 0, 2, 0, 2, 8, 0⟩, ⟨2, 3, 12, 0, 9, 1, 7, 9, 6, 24, 0⟩⟩⟩,
  /- 122 `M_BANK_0_INST_122_SEASHORE`, line 492 -/ ⟨5, 7, 0, 0, ⟨⟨3, 3, 31, 0, 0, 0, 15, 0, 0, 0, 0⟩, ⟨1, 0, 6, 0, 8, 0, 15, 0, 4, 26, 0⟩, ⟨1, 0, 6, 0, 8, 0, 15, 0, 4, 22, 0⟩, ⟨1, 0, 7, 0, 8, 0, 15, 0, 4, 28, 0⟩⟩⟩,
  /- 123 `M_BANK_0_INST_123_BIRDTWEET`, line 496 -/ ⟨7, 3, 0, 0, ⟨⟨7, 0, 6, 3, 16, 0, 0, 14, 7, 25, 8⟩, ⟨8, 0, 8, 3, 14, 0, 5, 16, 6, 16, 8⟩, ⟨5, 1, 15, 0, 13, 0, 0, 14, 10, 17, 0⟩, ⟨6, 0, 11, 2, 14, 0, 11, 16, 6, 0, 0⟩⟩⟩,
  /- 124 `M_BANK_0_INST_124_TELEPHONE`, line 500 -/ ⟨4, 7, 0, 0, ⟨⟨11, 3, 31, 0, 2, 0, 15, 0, 8, 32, 0⟩, ⟨13, 3, 16, 1, 17, 0, 15, 0, 5, 0, 14⟩, ⟨0, 0, 31, 0, 2, 0, 15, 0, 8, 50, 0⟩, ⟨6, 0, 22, 0, 19, 0, 15, 0, 6, 0, 14⟩⟩⟩,
  /- 125 `M_BANK_0_INST_125_HELICOPTER`, line 504 -/ ⟨4, 6, 3, 0, ⟨⟨0, 3, 5, 1, 1, 0, 0, 0, 0, 0, 0⟩, ⟨2, 0, 7, 0, 2, 1, 1, 0, 5, 20, 0⟩, ⟨0, 0, 5, 0, 13, 1, 0, 0, 9, 127, 0⟩, ⟨0, 0, 7, 0, 15, 1, 0, 0, 4, 127, 0⟩⟩⟩,
  /- 126 `M_BANK_0_INST_126_APPLAUSE`, line 508 -/ ⟨5, 7, 0, 0, ⟨⟨3, 3, 31, 0, 0, 0, 15, 0, 0, 4, 0⟩, ⟨1, 1, 6, 0, 7, 0, 0, 0, 8, 23, 0⟩, ⟨1, 0, 6, 0, 13, 0, 0, 0, 9, 22, 0⟩, ⟨1, 0, 6, 0, 15, 0, 0, 0, 4, 21, 0⟩⟩⟩,
  /- 127 `M_BANK_0_INST_127_GUNSHOT`, line 512 -/ ⟨5, 7, 0, 5, ⟨⟨3, 3, 31, 0, 3, 0, 15, 17, 5, 4, 0⟩, ⟨1, 0, 31, 0, 15, 0, 15, 31, 8, 0, 0⟩, ⟨1, 0, 31, 0, 20, 0, 15, 20, 8, 0, 0⟩, ⟨1, 0, 31, 0, 15, 0, 15, 16, 11, 0, 0⟩⟩⟩]

/-- `P_BANK_0`, src/presets.c:1360-1396: the percussion presets of the 128 keys, with the key each is played at. -/
def pBank0 : List Fm.Perc := [
  /- 0 `P_BANK_0_INST_0`, line 570 -/ ⟨⟨0, 0, 0, 0, ⟨⟨0, 0, 0, 0, 0, 0, 0, 0, 0, 0, 0⟩, ⟨0, 0, 0, 0, 0, 0, 0, 0, 0, 0, 0⟩, ⟨0, 0, 0, 0, 0, 0, 0, 0, 0, 0, 0⟩, ⟨0, 0, 0, 0, 0, 0, 0, 0, 0, 0, 0⟩⟩⟩, 0⟩,
  /- 1 `P_BANK_0_INST_1`, line 576 -/ ⟨⟨0, 0, 0, 0, ⟨⟨0, 0, 0, 0, 0, 0, 0, 0, 0, 0, 0⟩, ⟨0, 0, 0, 0, 0, 0, 0, 0, 0, 0, 0⟩, ⟨0, 0, 0, 0, 0, 0, 0, 0, 0, 0, 0⟩, ⟨0, 0, 0, 0, 0, 0, 0, 0, 0, 0, 0⟩⟩⟩, 0⟩,
  /- 2 `P_BANK_0_INST_2`, line 582 -/ ⟨⟨0, 0, 0, 0, ⟨⟨0, 0, 0, 0, 0, 0, 0, 0, 0, 0, 0⟩, ⟨0, 0, 0, 0, 0, 0, 0, 0, 0, 0, 0⟩, ⟨0, 0, 0, 0, 0, 0, 0, 0, 0, 0, 0⟩, ⟨0, 0, 0, 0, 0, 0, 0, 0, 0, 0, 0⟩⟩⟩, 0⟩,
  /- 3 `P_BANK_0_INST_3`, line 588 -/ ⟨⟨0, 0, 0, 0, ⟨⟨0, 0, 0, 0, 0, 0, 0, 0, 0, 0, 0⟩, ⟨0, 0, 0, 0, 0, 0, 0, 0, 0, 0, 0⟩, ⟨0, 0, 0, 0, 0, 0, 0, 0, 0, 0, 0⟩, ⟨0, 0, 0, 0, 0, 0, 0, 0, 0, 0, 0⟩⟩⟩, 0⟩,
  /- 4 `P_BANK_0_INST_4`, line 594 -/ ⟨⟨0, 0, 0, 0, ⟨⟨0, 0, 0, 0, 0, 0, 0, 0, 0, 0, 0⟩, ⟨0, 0, 0, 0, 0, 0, 0, 0, 0, 0, 0⟩, ⟨0, 0, 0, 0, 0, 0, 0, 0, 0, 0, 0⟩, ⟨0, 0, 0, 0, 0, 0, 0, 0, 0, 0, 0⟩⟩⟩, 0⟩,
  /- 5 `P_BANK_0_INST_5`, line 600 -/ ⟨⟨0, 0, 0, 0, ⟨⟨0, 0, 0, 0, 0, 0, 0, 0, 0, 0, 0⟩, ⟨0, 0, 0, 0, 0, 0, 0, 0, 0, 0, 0⟩, ⟨0, 0, 0, 0, 0, 0, 0, 0, 0, 0, 0⟩, ⟨0, 0, 0, 0, 0, 0, 0, 0, 0, 0, 0⟩⟩⟩, 0⟩,
  /- 6 `P_BANK_0_INST_6`, line 606 -/ ⟨⟨0, 0, 0, 0, ⟨⟨0, 0, 0, 0, 0, 0, 0, 0, 0, 0, 0⟩, ⟨0, 0, 0, 0, 0, 0, 0, 0, 0, 0, 0⟩, ⟨0, 0, 0, 0, 0, 0, 0, 0, 0, 0, 0⟩, ⟨0, 0, 0, 0, 0, 0, 0, 0, 0, 0, 0⟩⟩⟩, 0⟩,
  /- 7 `P_BANK_0_INST_7`, line 612 -/ ⟨⟨0, 0, 0, 0, ⟨⟨0, 0, 0, 0, 0, 0, 0, 0, 0, 0, 0⟩, ⟨0, 0, 0, 0, 0, 0, 0, 0, 0, 0, 0⟩, ⟨0, 0, 0, 0, 0, 0, 0, 0, 0, 0, 0⟩, ⟨0, 0, 0, 0, 0, 0, 0, 0, 0, 0, 0⟩⟩⟩, 0⟩,
  /- 8 `P_BANK_0_INST_8`, line 618 -/ ⟨⟨0, 0, 0, 0, ⟨⟨0, 0, 0, 0, 0, 0, 0, 0, 0, 0, 0⟩, ⟨0, 0, 0, 0, 0, 0, 0, 0, 0, 0, 0⟩, ⟨0, 0, 0, 0, 0, 0, 0, 0, 0, 0, 0⟩, ⟨0, 0, 0, 0, 0, 0, 0, 0, 0, 0, 0⟩⟩⟩, 0⟩,
  /- 9 `P_BANK_0_INST_9`, line 624 -/ ⟨⟨0, 0, 0, 0, ⟨⟨0, 0, 0, 0, 0, 0, 0, 0, 0, 0, 0⟩, ⟨0, 0, 0, 0, 0, 0, 0, 0, 0, 0, 0⟩, ⟨0, 0, 0, 0, 0, 0, 0, 0, 0, 0, 0⟩, ⟨0, 0, 0, 0, 0, 0, 0, 0, 0, 0, 0⟩⟩⟩, 0⟩,
  /- 10 `P_BANK_0_INST_10`, line 630 -/ ⟨⟨0, 0, 0, 0, ⟨⟨0, 0, 0, 0, 0, 0, 0, 0, 0, 0, 0⟩, ⟨0, 0, 0, 0, 0, 0, 0, 0, 0, 0, 0⟩, ⟨0, 0, 0, 0, 0, 0, 0, 0, 0, 0, 0⟩, ⟨0, 0, 0, 0, 0, 0, 0, 0, 0, 0, 0⟩⟩⟩, 0⟩,
  /- 11 `P_BANK_0_INST_11`, line 636 -/ ⟨⟨0, 0, 0, 0, ⟨⟨0, 0, 0, 0, 0, 0, 0, 0, 0, 0, 0⟩, ⟨0, 0, 0, 0, 0, 0, 0, 0, 0, 0, 0⟩, ⟨0, 0, 0, 0, 0, 0, 0, 0, 0, 0, 0⟩, ⟨0, 0, 0, 0, 0, 0, 0, 0, 0, 0, 0⟩⟩⟩, 0⟩,
  /- 12 `P_BANK_0_INST_12`, line 642 -/ ⟨⟨0, 0, 0, 0, ⟨⟨0, 0, 0, 0, 0, 0, 0, 0, 0, 0, 0⟩, ⟨0, 0, 0, 0, 0, 0, 0, 0, 0, 0, 0⟩, ⟨0, 0, 0, 0, 0, 0, 0, 0, 0, 0, 0⟩, ⟨0, 0, 0, 0, 0, 0, 0, 0, 0, 0, 0⟩⟩⟩, 0⟩,
  /- 13 `P_BANK_0_INST_13`, line 648 -/ ⟨⟨0, 0, 0, 0, ⟨⟨0, 0, 0, 0, 0, 0, 0, 0, 0, 0, 0⟩, ⟨0, 0, 0, 0, 0, 0, 0, 0, 0, 0, 0⟩, ⟨0, 0, 0, 0, 0, 0, 0, 0, 0, 0, 0⟩, ⟨0, 0, 0, 0, 0, 0, 0, 0, 0, 0, 0⟩⟩⟩, 0⟩,
  /- 14 `P_BANK_0_INST_14`, line 654 -/ ⟨⟨0, 0, 0, 0, ⟨⟨0, 0, 0, 0, 0, 0, 0, 0, 0, 0, 0⟩, ⟨0, 0, 0, 0, 0, 0, 0, 0, 0, 0, 0⟩, ⟨0, 0, 0, 0, 0, 0, 0, 0, 0, 0, 0⟩, ⟨0, 0, 0, 0, 0, 0, 0, 0, 0, 0, 0⟩⟩⟩, 0⟩,
  /- 15 `P_BANK_0_INST_15`, line 660 -/ ⟨⟨0, 0, 0, 0, ⟨⟨0, 0, 0, 0, 0, 0, 0, 0, 0, 0, 0⟩, ⟨0, 0, 0, 0, 0, 0, 0, 0, 0, 0, 0⟩, ⟨0, 0, 0, 0, 0, 0, 0, 0, 0, 0, 0⟩, ⟨0, 0, 0, 0, 0, 0, 0, 0, 0, 0, 0⟩⟩⟩, 0⟩,
  /- 16 `P_BANK_0_INST_16`, line 666 -/ ⟨⟨0, 0, 0, 0, ⟨⟨0, 0, 0, 0, 0, 0, 0, 0, 0, 0, 0⟩, ⟨0, 0, 0, 0, 0, 0, 0, 0, 0, 0, 0⟩, ⟨0, 0, 0, 0, 0, 0, 0, 0, 0, 0, 0⟩, ⟨0, 0, 0, 0, 0, 0, 0, 0, 0, 0, 0⟩⟩⟩, 0⟩,
  /- 17 `P_BANK_0_INST_17`, line 672 -/ ⟨⟨0, 0, 0, 0, ⟨⟨0, 0, 0, 0, 0, 0, 0, 0, 0, 0, 0⟩, ⟨0, 0, 0, 0, 0, 0, 0, 0, 0, 0, 0⟩, ⟨0, 0, 0, 0, 0, 0, 0, 0, 0, 0, 0⟩, ⟨0, 0, 0, 0, 0, 0, 0, 0, 0, 0, 0⟩⟩⟩, 0⟩,
  /- 18 `P_BANK_0_INST_18`, line 678 -/ ⟨⟨0, 0, 0, 0, ⟨⟨0, 0, 0, 0, 0, 0, 0, 0, 0, 0, 0⟩, ⟨0, 0, 0, 0, 0, 0, 0, 0, 0, 0, 0⟩, ⟨0, 0, 0, 0, 0, 0, 0, 0, 0, 0, 0⟩, ⟨0, 0, 0, 0, 0, 0, 0, 0, 0, 0, 0⟩⟩⟩, 0⟩,
  /- 19 `P_BANK_0_INST_19`, line 684 -/ ⟨⟨0, 0, 0, 0, ⟨⟨0, 0, 0, 0, 0, 0, 0, 0, 0, 0, 0⟩, ⟨0, 0, 0, 0, 0, 0, 0, 0, 0, 0, 0⟩, ⟨0, 0, 0, 0, 0, 0, 0, 0, 0, 0, 0⟩, ⟨0, 0, 0, 0, 0, 0, 0, 0, 0, 0, 0⟩⟩⟩, 0⟩,
  /- 20 `P_BANK_0_INST_20`, line 690 -/ ⟨⟨0, 0, 0, 0, ⟨⟨0, 0, 0, 0, 0, 0, 0, 0, 0, 0, 0⟩, ⟨0, 0, 0, 0, 0, 0, 0, 0, 0, 0, 0⟩, ⟨0, 0, 0, 0, 0, 0, 0, 0, 0, 0, 0⟩, ⟨0, 0, 0, 0, 0, 0, 0, 0, 0, 0, 0⟩⟩⟩, 0⟩,
  /- 21 `P_BANK_0_INST_21`, line 696 -/ ⟨⟨0, 0, 0, 0, ⟨⟨0, 0, 0, 0, 0, 0, 0, 0, 0, 0, 0⟩, ⟨0, 0, 0, 0, 0, 0, 0, 0, 0, 0, 0⟩, ⟨0, 0, 0, 0, 0, 0, 0, 0, 0, 0, 0⟩, ⟨0, 0, 0, 0, 0, 0, 0, 0, 0, 0, 0⟩⟩⟩, 0⟩,
  /- 22 `P_BANK_0_INST_22`, line 702 -/ ⟨⟨0, 0, 0, 0, ⟨⟨0, 0, 0, 0, 0, 0, 0, 0, 0, 0, 0⟩, ⟨0, 0, 0, 0, 0, 0, 0, 0, 0, 0, 0⟩, ⟨0, 0, 0, 0, 0, 0, 0, 0, 0, 0, 0⟩, ⟨0, 0, 0, 0, 0, 0, 0, 0, 0, 0, 0⟩⟩⟩, 0⟩,
  /- 23 `P_BANK_0_INST_23`, line 708 -/ ⟨⟨0, 0, 0, 0, ⟨⟨0, 0, 0, 0, 0, 0, 0, 0, 0, 0, 0⟩, ⟨0, 0, 0, 0, 0, 0, 0, 0, 0, 0, 0⟩, ⟨0, 0, 0, 0, 0, 0, 0, 0, 0, 0, 0⟩, ⟨0, 0, 0, 0, 0, 0, 0, 0, 0, 0, 0⟩⟩⟩, 0⟩,
  /- 24 `P_BANK_0_INST_24`, line 714 -/ ⟨⟨0, 0, 0, 0, ⟨⟨0, 0, 0, 0, 0, 0, 0, 0, 0, 0, 0⟩, ⟨0, 0, 0, 0, 0, 0, 0, 0, 0, 0, 0⟩, ⟨0, 0, 0, 0, 0, 0, 0, 0, 0, 0, 0⟩, ⟨0, 0, 0, 0, 0, 0, 0, 0, 0, 0, 0⟩⟩⟩, 0⟩,
  /- 25 `P_BANK_0_INST_25`, line 720 -/ ⟨⟨0, 0, 0, 0, ⟨⟨0, 0, 0, 0, 0, 0, 0, 0, 0, 0, 0⟩, ⟨0, 0, 0, 0, 0, 0, 0, 0, 0, 0, 0⟩, ⟨0, 0, 0, 0, 0, 0, 0, 0, 0, 0, 0⟩, ⟨0, 0, 0, 0, 0, 0, 0, 0, 0, 0, 0⟩⟩⟩, 0⟩,
  /- 26 `P_BANK_0_INST_26`, line 726 -/ ⟨⟨0, 0, 0, 0, ⟨⟨0, 0, 0, 0, 0, 0, 0, 0, 0, 0, 0⟩, ⟨0, 0, 0, 0, 0, 0, 0, 0, 0, 0, 0⟩, ⟨0, 0, 0, 0, 0, 0, 0, 0, 0, 0, 0⟩, ⟨0, 0, 0, 0, 0, 0, 0, 0, 0, 0, 0⟩⟩⟩, 0⟩,
  /- 27 `P_BANK_0_INST_27`, line 732 -/ ⟨⟨4, 1, 0, 0, ⟨⟨0, 0, 18, 0, 0, 0, 0, 29, 12, 0, 0⟩, ⟨1, 0, 31, 1, 0, 0, 0, 16, 9, 0, 0⟩, ⟨0, 0, 18, 0, 0, 0, 0, 29, 12, 0, 0⟩, ⟨1, 0, 31, 1, 0, 0, 0, 16, 9, 1, 0⟩⟩⟩, 30⟩,
  /- 28 `P_BANK_0_INST_28`, line 738 -/ ⟨⟨5, 7, 0, 5, ⟨⟨3, 3, 31, 3, 6, 0, 15, 16, 3, 4, 0⟩, ⟨1, 0, 31, 2, 16, 0, 15, 31, 8, 0, 0⟩, ⟨1, 0, 31, 3, 18, 0, 15, 14, 9, 0, 0⟩, ⟨1, 0, 31, 2, 16, 0, 7, 14, 6, 0, 0⟩⟩⟩, 49⟩,
  /- 29 `P_BANK_0_INST_29`, line 744 -/ ⟨⟨4, 7, 3, 7, ⟨⟨0, 0, 31, 0, 11, 0, 0, 10, 6, 8, 0⟩, ⟨0, 0, 15, 0, 14, 1, 1, 16, 8, 0, 0⟩, ⟨0, 0, 0, 0, 0, 1, 0, 0, 0, 127, 0⟩, ⟨0, 0, 0, 0, 0, 0, 0, 0, 0, 127, 0⟩⟩⟩, 59⟩,
  /- 30 `P_BANK_0_INST_30_CASTANETS`, line 750 -/ ⟨⟨4, 3, 0, 0, ⟨⟨9, 0, 31, 0, 11, 0, 15, 0, 15, 23, 0⟩, ⟨4, 0, 31, 2, 20, 0, 15, 0, 15, 13, 0⟩, ⟨1, 0, 31, 0, 19, 0, 15, 0, 15, 15, 0⟩, ⟨2, 0, 31, 2, 20, 0, 15, 0, 15, 13, 0⟩⟩⟩, 62⟩,
  /- 31 `P_BANK_0_INST_31_STICKS`, line 757 -/ ⟨⟨0, 3, 0, 0, ⟨⟨2, 0, 31, 0, 20, 0, 15, 0, 15, 10, 0⟩, ⟨2, 0, 31, 2, 20, 0, 15, 0, 15, 42, 0⟩, ⟨2, 0, 31, 0, 18, 0, 15, 0, 15, 23, 0⟩, ⟨1, 0, 31, 0, 21, 0, 15, 0, 15, 0, 0⟩⟩⟩, 54⟩,
  /- 32 `P_BANK_0_INST_32_SQUARE_CLICK`, line 764 -/ ⟨⟨7, 3, 0, 0, ⟨⟨1, 0, 31, 0, 23, 0, 15, 0, 15, 39, 0⟩, ⟨1, 0, 31, 2, 23, 0, 15, 0, 15, 39, 0⟩, ⟨1, 0, 31, 0, 22, 0, 15, 0, 15, 0, 0⟩, ⟨1, 0, 18, 0, 24, 0, 15, 0, 15, 0, 0⟩⟩⟩, 75⟩,
  /- 33 `P_BANK_0_INST_33_METRONOMECLICK`, line 771 -/ ⟨⟨0, 3, 0, 0, ⟨⟨2, 0, 31, 0, 18, 0, 15, 0, 15, 6, 0⟩, ⟨2, 0, 31, 2, 22, 0, 15, 0, 15, 33, 0⟩, ⟨1, 0, 31, 0, 19, 0, 15, 0, 15, 5, 0⟩, ⟨1, 0, 31, 0, 21, 0, 15, 0, 15, 0, 0⟩⟩⟩, 43⟩,
  /- 34 `P_BANK_0_INST_34`, line 778 -/ ⟨⟨5, 7, 0, 5, ⟨⟨3, 3, 31, 3, 6, 0, 15, 16, 3, 4, 0⟩, ⟨1, 0, 31, 2, 16, 0, 15, 31, 8, 0, 0⟩, ⟨1, 0, 31, 3, 18, 0, 15, 14, 9, 0, 0⟩, ⟨1, 0, 31, 2, 16, 0, 7, 15, 8, 0, 0⟩⟩⟩, 46⟩,
  /- 35 `P_BANK_0_INST_35_BASSDRUM_`, line 784 -/ ⟨⟨2, 4, 0, 0, ⟨⟨0, 0, 27, 0, 0, 0, 0, 20, 7, 0, 0⟩, ⟨6, 0, 0, 0, 15, 0, 15, 12, 6, 127, 0⟩, ⟨5, 0, 0, 0, 11, 0, 15, 15, 5, 127, 0⟩, ⟨1, 0, 31, 1, 0, 0, 0, 14, 7, 0, 0⟩⟩⟩, 35⟩,
  /- 36 `P_BANK_0_INST_36_BASSDRUM_`, line 790 -/ ⟨⟨2, 3, 0, 0, ⟨⟨0, 0, 26, 0, 0, 0, 0, 20, 7, 0, 0⟩, ⟨6, 0, 0, 0, 15, 0, 15, 13, 6, 127, 0⟩, ⟨5, 0, 0, 0, 11, 0, 15, 15, 4, 127, 0⟩, ⟨1, 0, 31, 1, 0, 0, 0, 12, 7, 0, 0⟩⟩⟩, 35⟩,
  /- 37 `P_BANK_0_INST_37_STICKSIDE`, line 796 -/ ⟨⟨0, 3, 0, 0, ⟨⟨2, 0, 31, 0, 19, 0, 15, 0, 15, 21, 0⟩, ⟨2, 0, 31, 2, 20, 0, 15, 0, 15, 33, 0⟩, ⟨1, 0, 31, 0, 19, 0, 15, 0, 15, 14, 0⟩, ⟨1, 0, 31, 0, 20, 0, 15, 0, 15, 0, 0⟩⟩⟩, 44⟩,
  /- 38 `P_BANK_0_INST_38_ACUSTICSNARE_ACTION52`, line 803 -/ ⟨⟨5, 6, 0, 5, ⟨⟨3, 3, 31, 3, 6, 0, 15, 16, 3, 4, 0⟩, ⟨1, 0, 31, 2, 16, 0, 15, 31, 8, 0, 0⟩, ⟨1, 0, 31, 3, 18, 0, 15, 14, 9, 0, 0⟩, ⟨1, 0, 31, 2, 16, 0, 7, 13, 6, 0, 0⟩⟩⟩, 39⟩,
  /- 39 `P_BANK_0_INST_39_HANDCLAP_OPL3`, line 809 -/ ⟨⟨4, 7, 0, 0, ⟨⟨15, 0, 31, 2, 0, 0, 0, 0, 5, 13, 0⟩, ⟨15, 0, 31, 0, 17, 0, 2, 15, 7, 27, 0⟩, ⟨0, 0, 31, 0, 20, 0, 0, 16, 8, 3, 0⟩, ⟨1, 0, 31, 0, 3, 0, 0, 18, 9, 0, 0⟩⟩⟩, 58⟩,
  /- 40 `P_BANK_0_INST_40_ACUSTICSNARE_ACTION52`, line 815 -/ ⟨⟨5, 6, 0, 5, ⟨⟨3, 3, 31, 3, 5, 0, 15, 15, 3, 4, 0⟩, ⟨1, 0, 31, 2, 16, 0, 15, 31, 7, 0, 0⟩, ⟨1, 0, 31, 3, 20, 0, 15, 14, 9, 0, 0⟩, ⟨1, 0, 31, 2, 16, 0, 7, 12, 6, 0, 0⟩⟩⟩, 39⟩,
  /- 41 `P_BANK_0_INST_41_LOW_FLOOR_TOM`, line 821 -/ ⟨⟨5, 7, 0, 0, ⟨⟨1, 3, 30, 0, 26, 0, 15, 3, 6, 21, 0⟩, ⟨0, 7, 30, 0, 17, 0, 15, 3, 6, 0, 0⟩, ⟨3, 1, 30, 1, 12, 0, 15, 1, 6, 3, 0⟩, ⟨0, 1, 30, 0, 17, 0, 15, 3, 6, 3, 0⟩⟩⟩, 20⟩,
  /- 42 `P_BANK_0_INST_42_CLOSED_HAT`, line 827 -/ ⟨⟨2, 7, 3, 3, ⟨⟨15, 3, 31, 0, 14, 1, 8, 13, 4, 25, 0⟩, ⟨15, 7, 31, 0, 14, 1, 9, 13, 4, 20, 0⟩, ⟨3, 3, 31, 1, 10, 0, 6, 8, 4, 0, 0⟩, ⟨1, 7, 31, 3, 9, 0, 2, 9, 5, 0, 0⟩⟩⟩, 70⟩,
  /- 43 `P_BANK_0_INST_43_HIGH_FLOOR_TOM`, line 833 -/ ⟨⟨5, 7, 0, 0, ⟨⟨1, 3, 30, 0, 26, 0, 15, 3, 6, 22, 0⟩, ⟨0, 7, 30, 0, 17, 0, 15, 14, 6, 0, 0⟩, ⟨4, 1, 30, 1, 12, 0, 15, 1, 6, 3, 0⟩, ⟨0, 1, 30, 0, 17, 0, 15, 9, 6, 3, 0⟩⟩⟩, 20⟩,
  /- 44 `P_BANK_0_INST_44_PEDALHIHAT`, line 839 -/ ⟨⟨0, 7, 0, 0, ⟨⟨12, 3, 7, 1, 10, 0, 11, 28, 4, 0, 0⟩, ⟨10, 7, 3, 3, 10, 1, 11, 16, 7, 0, 0⟩, ⟨3, 1, 31, 3, 0, 0, 0, 0, 4, 0, 0⟩, ⟨5, 7, 4, 3, 13, 0, 5, 29, 9, 7, 0⟩⟩⟩, 100⟩,
  /- 45 `P_BANK_0_INST_45_LOW_TOM`, line 845 -/ ⟨⟨5, 7, 0, 0, ⟨⟨1, 3, 30, 0, 26, 0, 15, 3, 6, 22, 0⟩, ⟨0, 7, 30, 0, 17, 0, 15, 3, 6, 0, 0⟩, ⟨4, 1, 30, 1, 12, 0, 15, 1, 6, 3, 0⟩, ⟨0, 1, 30, 0, 17, 0, 15, 3, 6, 3, 0⟩⟩⟩, 24⟩,
  /- 46 `P_BANK_0_INST_46_OPENHIHAT`, line 851 -/ ⟨⟨4, 5, 0, 0, ⟨⟨9, 0, 31, 0, 14, 0, 1, 0, 0, 0, 0⟩, ⟨2, 0, 31, 0, 23, 0, 4, 8, 4, 8, 0⟩, ⟨0, 0, 0, 0, 0, 0, 0, 0, 0, 127, 0⟩, ⟨0, 0, 0, 0, 0, 0, 0, 0, 0, 127, 0⟩⟩⟩, 69⟩,
  /- 47 `P_BANK_0_INST_47_LOWMED_TOM`, line 857 -/ ⟨⟨5, 7, 0, 0, ⟨⟨0, 3, 30, 0, 26, 0, 15, 3, 6, 22, 0⟩, ⟨0, 7, 30, 0, 17, 0, 15, 3, 6, 0, 0⟩, ⟨4, 1, 30, 1, 12, 0, 15, 1, 6, 3, 0⟩, ⟨0, 1, 30, 0, 17, 0, 15, 3, 6, 3, 0⟩⟩⟩, 29⟩,
  /- 48 `P_BANK_0_INST_48_HIGHMED_TOM`, line 863 -/ ⟨⟨5, 7, 0, 0, ⟨⟨0, 3, 30, 0, 24, 0, 15, 19, 6, 22, 0⟩, ⟨0, 7, 30, 0, 17, 0, 15, 3, 6, 0, 0⟩, ⟨4, 1, 30, 1, 12, 0, 15, 1, 6, 3, 0⟩, ⟨0, 1, 30, 0, 17, 0, 15, 3, 6, 3, 0⟩⟩⟩, 33⟩,
  /- 49 `P_BANK_0_INST_49_CRASH_ANIMATICS`, line 869 -/ ⟨⟨4, 7, 1, 0, ⟨⟨15, 7, 31, 0, 11, 0, 4, 0, 0, 0, 0⟩, ⟨3, 1, 31, 0, 11, 1, 15, 0, 6, 0, 0⟩, ⟨1, 7, 31, 0, 22, 0, 3, 7, 4, 0, 0⟩, ⟨7, 0, 31, 2, 27, 0, 10, 7, 6, 0, 0⟩⟩⟩, 68⟩,
  /- 50 `P_BANK_0_INST_50_HIGH_TOM_`, line 875 -/ ⟨⟨5, 7, 0, 0, ⟨⟨1, 3, 30, 0, 26, 0, 15, 3, 6, 22, 0⟩, ⟨0, 7, 30, 0, 17, 0, 15, 3, 6, 0, 0⟩, ⟨4, 1, 30, 1, 12, 0, 15, 1, 6, 3, 0⟩, ⟨0, 1, 30, 0, 17, 0, 15, 3, 6, 3, 0⟩⟩⟩, 36⟩,
  /- 51 `P_BANK_0_INST_51_RIDECYMBELL1`, line 881 -/ ⟨⟨4, 5, 0, 0, ⟨⟨12, 0, 31, 0, 13, 0, 1, 0, 0, 0, 0⟩, ⟨3, 0, 24, 0, 21, 0, 4, 7, 4, 12, 0⟩, ⟨0, 0, 0, 0, 0, 0, 0, 0, 0, 127, 0⟩, ⟨0, 0, 0, 0, 0, 0, 0, 0, 0, 127, 0⟩⟩⟩, 76⟩,
  /- 52 `P_BANK_0_INST_52_CHINESE_CRASH_ANIMATICS`, line 887 -/ ⟨⟨4, 5, 0, 0, ⟨⟨15, 7, 31, 0, 7, 0, 5, 0, 2, 0, 0⟩, ⟨3, 1, 31, 0, 12, 0, 8, 4, 4, 0, 0⟩, ⟨1, 7, 31, 0, 21, 0, 3, 6, 3, 0, 0⟩, ⟨7, 0, 31, 2, 25, 0, 10, 6, 3, 0, 0⟩⟩⟩, 65⟩,
  /- 53 `P_BANK_0_INST_53_RIDE_BELL`, line 893 -/ ⟨⟨4, 3, 0, 0, ⟨⟨13, 0, 31, 0, 7, 0, 14, 7, 1, 0, 0⟩, ⟨13, 0, 31, 0, 10, 0, 14, 18, 5, 17, 0⟩, ⟨0, 0, 0, 0, 0, 0, 0, 0, 0, 127, 0⟩, ⟨0, 0, 0, 0, 0, 0, 0, 0, 0, 127, 0⟩⟩⟩, 76⟩,
  /- 54 `P_BANK_0_INST_54_TAMBORINE`, line 899 -/ ⟨⟨1, 7, 3, 5, ⟨⟨2, 2, 31, 1, 5, 0, 8, 2, 1, 6, 0⟩, ⟨4, 0, 31, 2, 5, 0, 5, 2, 3, 1, 0⟩, ⟨5, 7, 22, 2, 15, 0, 10, 12, 1, 0, 0⟩, ⟨14, 3, 18, 2, 13, 0, 10, 13, 6, 8, 0⟩⟩⟩, 61⟩,
  /- 55 `P_BANK_0_INST_55_SPLASH_CRASH_ANIMATICS`, line 906 -/ ⟨⟨4, 5, 0, 0, ⟨⟨15, 7, 31, 0, 5, 0, 5, 6, 0, 0, 0⟩, ⟨3, 1, 31, 0, 11, 0, 8, 4, 5, 0, 0⟩, ⟨1, 7, 31, 0, 21, 0, 3, 6, 3, 0, 0⟩, ⟨7, 0, 31, 2, 26, 0, 10, 6, 5, 0, 0⟩⟩⟩, 84⟩,
  /- 56 `P_BANK_0_INST_56_COWBELL`, line 912 -/ ⟨⟨4, 0, 0, 0, ⟨⟨2, 0, 31, 0, 18, 0, 13, 17, 8, 16, 0⟩, ⟨7, 0, 31, 0, 16, 0, 7, 16, 5, 0, 0⟩, ⟨0, 0, 0, 0, 0, 0, 0, 0, 0, 127, 0⟩, ⟨0, 0, 0, 0, 0, 0, 0, 0, 0, 127, 0⟩⟩⟩, 64⟩,
  /- 57 `P_BANK_0_INST_57_CRASH_2_ANIMATICS`, line 918 -/ ⟨⟨4, 5, 0, 0, ⟨⟨15, 7, 31, 0, 0, 0, 5, 0, 0, 0, 0⟩, ⟨3, 1, 31, 0, 10, 0, 8, 4, 4, 0, 0⟩, ⟨1, 7, 31, 0, 20, 0, 3, 6, 3, 0, 0⟩, ⟨7, 0, 31, 2, 25, 0, 10, 6, 4, 0, 0⟩⟩⟩, 70⟩,
  /- 58 `P_BANK_0_INST_58_VIBESLAP`, line 924 -/ ⟨⟨4, 6, 0, 0, ⟨⟨0, 0, 31, 0, 0, 0, 0, 0, 0, 8, 0⟩, ⟨0, 0, 31, 0, 10, 0, 15, 0, 5, 0, 0⟩, ⟨0, 0, 31, 0, 5, 0, 0, 0, 0, 0, 0⟩, ⟨0, 0, 31, 0, 10, 0, 15, 0, 5, 21, 0⟩⟩⟩, 28⟩,
  /- 59 `P_BANK_0_INST_59_RIDECYMBELL2`, line 930 -/ ⟨⟨4, 5, 0, 0, ⟨⟨12, 0, 31, 0, 12, 0, 1, 0, 0, 0, 0⟩, ⟨3, 0, 24, 0, 20, 0, 4, 8, 4, 11, 0⟩, ⟨0, 0, 0, 0, 0, 0, 0, 0, 0, 127, 0⟩, ⟨0, 0, 0, 0, 0, 0, 0, 0, 0, 127, 0⟩⟩⟩, 81⟩,
  /- 60 `P_BANK_0_INST_60_HIBO`, line 936 -/ ⟨⟨6, 6, 0, 0, ⟨⟨1, 0, 28, 2, 15, 0, 15, 0, 9, 5, 0⟩, ⟨0, 0, 28, 2, 20, 0, 15, 0, 9, 0, 0⟩, ⟨2, 7, 23, 0, 18, 0, 15, 10, 9, 0, 0⟩, ⟨3, 3, 18, 0, 18, 0, 15, 10, 9, 4, 0⟩⟩⟩, 65⟩,
  /- 61 `P_BANK_0_INST_61_LOBO`, line 943 -/ ⟨⟨6, 6, 0, 0, ⟨⟨1, 0, 28, 2, 15, 0, 15, 0, 9, 5, 0⟩, ⟨0, 0, 28, 2, 20, 0, 15, 0, 9, 0, 0⟩, ⟨2, 7, 23, 0, 18, 0, 15, 10, 9, 0, 0⟩, ⟨3, 3, 18, 0, 18, 0, 15, 10, 9, 4, 0⟩⟩⟩, 60⟩,
  /- 62 `P_BANK_0_INST_62_MUHICO`, line 950 -/ ⟨⟨6, 6, 0, 0, ⟨⟨1, 0, 31, 2, 15, 0, 15, 0, 9, 7, 0⟩, ⟨1, 0, 31, 2, 18, 0, 15, 0, 9, 0, 0⟩, ⟨2, 7, 30, 0, 18, 0, 15, 10, 9, 0, 0⟩, ⟨2, 1, 18, 0, 22, 0, 15, 10, 10, 0, 0⟩⟩⟩, 44⟩,
  /- 63 `P_BANK_0_INST_63_OPHICO`, line 957 -/ ⟨⟨6, 6, 0, 0, ⟨⟨1, 0, 28, 2, 15, 0, 15, 0, 9, 5, 0⟩, ⟨0, 0, 28, 2, 23, 0, 15, 0, 10, 0, 0⟩, ⟨1, 7, 23, 0, 20, 0, 15, 12, 11, 0, 0⟩, ⟨1, 1, 18, 0, 16, 0, 15, 12, 8, 0, 0⟩⟩⟩, 62⟩,
  /- 64 `P_BANK_0_INST_64_LOWCO`, line 964 -/ ⟨⟨6, 6, 0, 0, ⟨⟨1, 0, 28, 2, 15, 0, 15, 0, 9, 5, 0⟩, ⟨0, 0, 28, 2, 22, 0, 15, 0, 10, 0, 0⟩, ⟨2, 7, 23, 0, 20, 0, 15, 10, 9, 13, 0⟩, ⟨1, 3, 18, 0, 15, 0, 15, 10, 8, 6, 0⟩⟩⟩, 56⟩,
  /- 65 `P_BANK_0_INST_65_HIGHTIMBALE`, line 971 -/ ⟨⟨2, 5, 0, 5, ⟨⟨3, 1, 31, 2, 25, 0, 12, 8, 6, 6, 0⟩, ⟨6, 3, 31, 1, 25, 0, 10, 6, 6, 5, 0⟩, ⟨0, 0, 31, 1, 19, 0, 11, 5, 12, 13, 0⟩, ⟨2, 0, 31, 1, 15, 0, 8, 17, 6, 0, 0⟩⟩⟩, 67⟩,
  /- 66 `P_BANK_0_INST_66_LOWTIMBALE`, line 978 -/ ⟨⟨2, 5, 0, 5, ⟨⟨3, 1, 31, 2, 25, 0, 12, 8, 10, 6, 0⟩, ⟨6, 3, 31, 1, 25, 0, 10, 6, 12, 5, 0⟩, ⟨0, 0, 31, 1, 19, 0, 11, 5, 12, 10, 0⟩, ⟨2, 0, 31, 1, 15, 0, 8, 17, 12, 0, 0⟩⟩⟩, 60⟩,
  /- 67 `P_BANK_0_INST_67_HIAGOGO`, line 985 -/ ⟨⟨4, 7, 0, 0, ⟨⟨3, 0, 31, 2, 16, 0, 8, 16, 6, 13, 0⟩, ⟨12, 0, 31, 0, 12, 0, 10, 12, 6, 0, 0⟩, ⟨0, 0, 0, 0, 0, 0, 0, 0, 0, 127, 0⟩, ⟨0, 0, 0, 0, 0, 0, 0, 0, 0, 127, 0⟩⟩⟩, 58⟩,
  /- 68 `P_BANK_0_INST_68_LOAGOGO`, line 991 -/ ⟨⟨4, 7, 0, 0, ⟨⟨3, 0, 31, 2, 16, 0, 8, 16, 6, 13, 0⟩, ⟨12, 0, 31, 0, 12, 0, 10, 12, 6, 0, 0⟩, ⟨0, 0, 0, 0, 0, 0, 0, 0, 0, 127, 0⟩, ⟨0, 0, 0, 0, 0, 0, 0, 0, 0, 127, 0⟩⟩⟩, 53⟩,
  /- 69 `P_BANK_0_INST_69_CABASA`, line 997 -/ ⟨⟨1, 6, 3, 5, ⟨⟨15, 2, 31, 1, 5, 0, 8, 2, 1, 6, 0⟩, ⟨15, 0, 31, 2, 5, 0, 5, 2, 3, 1, 0⟩, ⟨13, 7, 25, 2, 5, 0, 7, 2, 1, 2, 0⟩, ⟨3, 3, 13, 2, 17, 0, 10, 11, 9, 0, 0⟩⟩⟩, 67⟩,
  /- 70 `P_BANK_0_INST_70_MARACAS`, line 1003 -/ ⟨⟨4, 7, 0, 0, ⟨⟨15, 0, 24, 1, 14, 0, 4, 24, 9, 0, 0⟩, ⟨2, 0, 14, 2, 22, 0, 8, 25, 13, 0, 0⟩, ⟨15, 0, 24, 3, 16, 0, 4, 18, 9, 0, 0⟩, ⟨15, 0, 18, 0, 18, 0, 6, 18, 9, 31, 0⟩⟩⟩, 71⟩,
  /- 71 `P_BANK_0_INST_71_SHORTWHISTLE`, line 1010 -/ ⟨⟨4, 0, 0, 0, ⟨⟨0, 0, 18, 0, 10, 0, 0, 0, 11, 37, 0⟩, ⟨14, 0, 18, 0, 11, 0, 2, 22, 11, 0, 0⟩, ⟨0, 0, 0, 0, 0, 0, 15, 0, 0, 127, 0⟩, ⟨0, 0, 0, 0, 0, 0, 15, 0, 0, 127, 0⟩⟩⟩, 55⟩,
  /- 72 `P_BANK_0_INST_72_LONGWHISTLE`, line 1016 -/ ⟨⟨4, 0, 0, 0, ⟨⟨0, 0, 18, 0, 10, 0, 0, 0, 11, 37, 0⟩, ⟨14, 0, 18, 0, 8, 0, 2, 22, 11, 0, 0⟩, ⟨0, 0, 0, 0, 0, 0, 15, 0, 0, 127, 0⟩, ⟨0, 0, 0, 0, 0, 0, 15, 0, 0, 127, 0⟩⟩⟩, 51⟩,
  /- 73 `P_BANK_0_INST_73_SHORT_GUIRO`, line 1022 -/ ⟨⟨4, 7, 0, 0, ⟨⟨0, 0, 31, 0, 11, 0, 0, 10, 6, 0, 0⟩, ⟨0, 0, 15, 0, 14, 0, 1, 16, 8, 2, 0⟩, ⟨0, 0, 0, 0, 0, 0, 0, 0, 0, 127, 0⟩, ⟨0, 0, 0, 0, 0, 0, 0, 0, 0, 127, 0⟩⟩⟩, 62⟩,
  /- 74 `P_BANK_0_INST_74_LONG_GUIRO`, line 1028 -/ ⟨⟨4, 7, 0, 0, ⟨⟨0, 0, 31, 0, 9, 0, 0, 9, 6, 0, 0⟩, ⟨0, 0, 12, 0, 14, 0, 1, 16, 8, 7, 0⟩, ⟨0, 0, 0, 0, 0, 0, 0, 0, 0, 127, 0⟩, ⟨0, 0, 0, 0, 0, 0, 0, 0, 0, 127, 0⟩⟩⟩, 62⟩,
  /- 75 `P_BANK_0_INST_75_WOODBLOCK`, line 1034 -/ ⟨⟨4, 7, 0, 0, ⟨⟨7, 1, 31, 0, 22, 0, 12, 22, 8, 20, 0⟩, ⟨5, 1, 31, 0, 18, 0, 11, 28, 8, 0, 0⟩, ⟨14, 1, 31, 3, 25, 0, 14, 12, 8, 10, 0⟩, ⟨9, 1, 31, 3, 20, 0, 1, 13, 8, 5, 0⟩⟩⟩, 69⟩,
  /- 76 `P_BANK_0_INST_76_WOODBLOCK`, line 1041 -/ ⟨⟨4, 7, 0, 0, ⟨⟨7, 1, 31, 0, 22, 0, 12, 22, 8, 20, 0⟩, ⟨5, 1, 31, 0, 18, 0, 11, 28, 8, 0, 0⟩, ⟨14, 1, 31, 3, 25, 0, 14, 12, 8, 10, 0⟩, ⟨9, 1, 31, 3, 20, 0, 1, 13, 8, 6, 0⟩⟩⟩, 59⟩,
  /- 77 `P_BANK_0_INST_77_WOODBLOCK`, line 1048 -/ ⟨⟨4, 7, 0, 0, ⟨⟨7, 1, 31, 0, 22, 0, 12, 22, 8, 20, 0⟩, ⟨5, 1, 31, 0, 18, 0, 11, 28, 8, 0, 0⟩, ⟨14, 1, 31, 3, 25, 0, 14, 12, 8, 10, 0⟩, ⟨9, 1, 31, 3, 20, 0, 1, 13, 8, 6, 0⟩⟩⟩, 53⟩,
  /- 78 `P_BANK_0_INST_78_MUTE_CUIKA`, line 1055 -/ ⟨⟨4, 7, 0, 0, ⟨⟨2, 7, 12, 0, 15, 0, 0, 15, 7, 39, 0⟩, ⟨8, 7, 14, 1, 6, 0, 0, 17, 6, 0, 0⟩, ⟨1, 0, 12, 0, 15, 0, 0, 15, 7, 27, 0⟩, ⟨8, 0, 14, 2, 6, 0, 0, 17, 6, 0, 0⟩⟩⟩, 45⟩,
  /- 79 `P_BANK_0_INST_79_OPEN_CUIKA`, line 1061 -/ ⟨⟨4, 7, 0, 0, ⟨⟨1, 0, 12, 0, 15, 0, 0, 15, 7, 38, 0⟩, ⟨4, 0, 14, 0, 6, 0, 0, 17, 6, 0, 0⟩, ⟨1, 0, 12, 0, 0, 0, 0, 0, 7, 30, 0⟩, ⟨1, 0, 14, 0, 15, 0, 11, 14, 6, 23, 0⟩⟩⟩, 39⟩,
  /- 80 `P_BANK_0_INST_80_MUTETRIANGLE`, line 1067 -/ ⟨⟨4, 4, 0, 0, ⟨⟨3, 0, 31, 0, 0, 0, 8, 0, 0, 26, 0⟩, ⟨2, 0, 31, 0, 15, 0, 8, 13, 11, 0, 0⟩, ⟨0, 0, 0, 0, 0, 0, 0, 0, 0, 127, 0⟩, ⟨0, 0, 0, 0, 0, 0, 0, 0, 0, 127, 0⟩⟩⟩, 99⟩,
  /- 81 `P_BANK_0_INST_81_OPENTRIANGLE`, line 1073 -/ ⟨⟨4, 4, 0, 0, ⟨⟨3, 0, 31, 0, 0, 0, 8, 0, 0, 26, 0⟩, ⟨2, 0, 31, 0, 8, 0, 8, 8, 5, 0, 0⟩, ⟨0, 0, 0, 0, 0, 0, 0, 0, 0, 127, 0⟩, ⟨0, 0, 0, 0, 0, 0, 0, 0, 0, 127, 0⟩⟩⟩, 99⟩,
  /- 82 `P_BANK_0_INST_82_SHAKER`, line 1079 -/ ⟨⟨4, 7, 0, 0, ⟨⟨15, 0, 24, 1, 14, 0, 4, 24, 9, 0, 0⟩, ⟨2, 0, 12, 2, 22, 0, 8, 25, 13, 14, 0⟩, ⟨15, 0, 24, 3, 16, 0, 4, 18, 9, 0, 0⟩, ⟨15, 0, 18, 0, 18, 0, 6, 18, 9, 18, 0⟩⟩⟩, 71⟩,
  /- 83 `P_BANK_0_INST_83_JINGLEBELLS`, line 1086 -/ ⟨⟨4, 7, 0, 0, ⟨⟨5, 0, 31, 0, 4, 0, 15, 15, 4, 24, 0⟩, ⟨4, 0, 17, 1, 11, 0, 10, 7, 6, 9, 0⟩, ⟨5, 0, 31, 0, 9, 0, 15, 16, 0, 28, 0⟩, ⟨4, 0, 17, 1, 11, 0, 10, 7, 5, 14, 0⟩⟩⟩, 79⟩,
  /- 84 `P_BANK_0_INST_84_BELLTREE`, line 1093 -/ ⟨⟨4, 5, 0, 0, ⟨⟨5, 0, 20, 0, 13, 0, 1, 0, 0, 9, 0⟩, ⟨9, 0, 20, 0, 21, 0, 4, 8, 4, 0, 0⟩, ⟨5, 0, 0, 0, 0, 0, 0, 0, 0, 127, 0⟩, ⟨8, 0, 0, 0, 0, 0, 0, 0, 0, 127, 0⟩⟩⟩, 83⟩,
  /- 85 `P_BANK_0_INST_85_CASTANETS`, line 1099 -/ ⟨⟨4, 3, 0, 0, ⟨⟨9, 0, 31, 0, 11, 0, 15, 0, 15, 23, 0⟩, ⟨4, 0, 31, 2, 20, 0, 15, 0, 15, 13, 0⟩, ⟨1, 0, 31, 0, 19, 0, 15, 0, 15, 15, 0⟩, ⟨2, 0, 31, 2, 20, 0, 15, 0, 15, 13, 0⟩⟩⟩, 62⟩,
  /- 86 `P_BANK_0_INST_86_MUTESURDO`, line 1106 -/ ⟨⟨6, 6, 0, 0, ⟨⟨1, 0, 28, 2, 15, 0, 15, 0, 15, 5, 0⟩, ⟨0, 0, 19, 3, 20, 0, 15, 0, 15, 0, 0⟩, ⟨1, 7, 16, 0, 18, 0, 15, 10, 15, 0, 0⟩, ⟨1, 3, 14, 0, 14, 0, 15, 10, 7, 0, 0⟩⟩⟩, 48⟩,
  /- 87 `P_BANK_0_INST_87_OPENSURDO`, line 1113 -/ ⟨⟨6, 6, 0, 0, ⟨⟨1, 0, 28, 2, 15, 0, 15, 0, 15, 5, 0⟩, ⟨0, 0, 19, 3, 20, 0, 15, 0, 15, 0, 0⟩, ⟨1, 7, 16, 0, 18, 0, 15, 10, 15, 0, 0⟩, ⟨1, 3, 14, 0, 11, 0, 15, 8, 5, 0, 0⟩⟩⟩, 41⟩,
  /- 88 `P_BANK_0_INST_88`, line 1120 -/ ⟨⟨0, 0, 0, 0, ⟨⟨0, 0, 0, 0, 0, 0, 0, 0, 0, 0, 0⟩, ⟨0, 0, 0, 0, 0, 0, 0, 0, 0, 0, 0⟩, ⟨0, 0, 0, 0, 0, 0, 0, 0, 0, 0, 0⟩, ⟨0, 0, 0, 0, 0, 0, 0, 0, 0, 0, 0⟩⟩⟩, 0⟩,
  /- 89 `P_BANK_0_INST_89`, line 1126 -/ ⟨⟨0, 0, 0, 0, ⟨⟨0, 0, 0, 0, 0, 0, 0, 0, 0, 0, 0⟩, ⟨0, 0, 0, 0, 0, 0, 0, 0, 0, 0, 0⟩, ⟨0, 0, 0, 0, 0, 0, 0, 0, 0, 0, 0⟩, ⟨0, 0, 0, 0, 0, 0, 0, 0, 0, 0, 0⟩⟩⟩, 0⟩,
  /- 90 `P_BANK_0_INST_90`, line 1132 -/ ⟨⟨0, 0, 0, 0, ⟨⟨0, 0, 0, 0, 0, 0, 0, 0, 0, 0, 0⟩, ⟨0, 0, 0, 0, 0, 0, 0, 0, 0, 0, 0⟩, ⟨0, 0, 0, 0, 0, 0, 0, 0, 0, 0, 0⟩, ⟨0, 0, 0, 0, 0, 0, 0, 0, 0, 0, 0⟩⟩⟩, 0⟩,
  /- 91 `P_BANK_0_INST_91`, line 1138 -/ ⟨⟨0, 0, 0, 0, ⟨⟨0, 0, 0, 0, 0, 0, 0, 0, 0, 0, 0⟩, ⟨0, 0, 0, 0, 0, 0, 0, 0, 0, 0, 0⟩, ⟨0, 0, 0, 0, 0, 0, 0, 0, 0, 0, 0⟩, ⟨0, 0, 0, 0, 0, 0, 0, 0, 0, 0, 0⟩⟩⟩, 0⟩,
  /- 92 `P_BANK_0_INST_92`, line 1144 -/ ⟨⟨0, 0, 0, 0, ⟨⟨0, 0, 0, 0, 0, 0, 0, 0, 0, 0, 0⟩, ⟨0, 0, 0, 0, 0, 0, 0, 0, 0, 0, 0⟩, ⟨0, 0, 0, 0, 0, 0, 0, 0, 0, 0, 0⟩, ⟨0, 0, 0, 0, 0, 0, 0, 0, 0, 0, 0⟩⟩⟩, 0⟩,
  /- 93 `P_BANK_0_INST_93`, line 1150 -/ ⟨⟨0, 0, 0, 0, ⟨⟨0, 0, 0, 0, 0, 0, 0, 0, 0, 0, 0⟩, ⟨0, 0, 0, 0, 0, 0, 0, 0, 0, 0, 0⟩, ⟨0, 0, 0, 0, 0, 0, 0, 0, 0, 0, 0⟩, ⟨0, 0, 0, 0, 0, 0, 0, 0, 0, 0, 0⟩⟩⟩, 0⟩,
  /- 94 `P_BANK_0_INST_94`, line 1156 -/ ⟨⟨0, 0, 0, 0, ⟨⟨0, 0, 0, 0, 0, 0, 0, 0, 0, 0, 0⟩, ⟨0, 0, 0, 0, 0, 0, 0, 0, 0, 0, 0⟩, ⟨0, 0, 0, 0, 0, 0, 0, 0, 0, 0, 0⟩, ⟨0, 0, 0, 0, 0, 0, 0, 0, 0, 0, 0⟩⟩⟩, 0⟩,
  /- 95 `P_BANK_0_INST_95`, line 1162 -/ ⟨⟨0, 0, 0, 0, ⟨⟨0, 0, 0, 0, 0, 0, 0, 0, 0, 0, 0⟩, ⟨0, 0, 0, 0, 0, 0, 0, 0, 0, 0, 0⟩, ⟨0, 0, 0, 0, 0, 0, 0, 0, 0, 0, 0⟩, ⟨0, 0, 0, 0, 0, 0, 0, 0, 0, 0, 0⟩⟩⟩, 0⟩,
  /- 96 `P_BANK_0_INST_96`, line 1168 -/ ⟨⟨0, 0, 0, 0, ⟨⟨0, 0, 0, 0, 0, 0, 0, 0, 0, 0, 0⟩, ⟨0, 0, 0, 0, 0, 0, 0, 0, 0, 0, 0⟩, ⟨0, 0, 0, 0, 0, 0, 0, 0, 0, 0, 0⟩, ⟨0, 0, 0, 0, 0, 0, 0, 0, 0, 0, 0⟩⟩⟩, 0⟩,
  /- 97 `P_BANK_0_INST_97`, line 1174 -/ ⟨⟨0, 0, 0, 0, ⟨⟨0, 0, 0, 0, 0, 0, 0, 0, 0, 0, 0⟩, ⟨0, 0, 0, 0, 0, 0, 0, 0, 0, 0, 0⟩, ⟨0, 0, 0, 0, 0, 0, 0, 0, 0, 0, 0⟩, ⟨0, 0, 0, 0, 0, 0, 0, 0, 0, 0, 0⟩⟩⟩, 0⟩,
  /- 98 `P_BANK_0_INST_98`, line 1180 -/ ⟨⟨0, 0, 0, 0, ⟨⟨0, 0, 0, 0, 0, 0, 0, 0, 0, 0, 0⟩, ⟨0, 0, 0, 0, 0, 0, 0, 0, 0, 0, 0⟩, ⟨0, 0, 0, 0, 0, 0, 0, 0, 0, 0, 0⟩, ⟨0, 0, 0, 0, 0, 0, 0, 0, 0, 0, 0⟩⟩⟩, 0⟩,
  /- 99 `P_BANK_0_INST_99`, line 1186 -/ ⟨⟨0, 0, 0, 0, ⟨⟨0, 0, 0, 0, 0, 0, 0, 0, 0, 0, 0⟩, ⟨0, 0, 0, 0, 0, 0, 0, 0, 0, 0, 0⟩, ⟨0, 0, 0, 0, 0, 0, 0, 0, 0, 0, 0⟩, ⟨0, 0, 0, 0, 0, 0, 0, 0, 0, 0, 0⟩⟩⟩, 0⟩,
  /- 100 `P_BANK_0_INST_100`, line 1192 -/ ⟨⟨0, 0, 0, 0, ⟨⟨0, 0, 0, 0, 0, 0, 0, 0, 0, 0, 0⟩, ⟨0, 0, 0, 0, 0, 0, 0, 0, 0, 0, 0⟩, ⟨0, 0, 0, 0, 0, 0, 0, 0, 0, 0, 0⟩, ⟨0, 0, 0, 0, 0, 0, 0, 0, 0, 0, 0⟩⟩⟩, 0⟩,
  /- 101 `P_BANK_0_INST_101`, line 1198 -/ ⟨⟨0, 0, 0, 0, ⟨⟨0, 0, 0, 0, 0, 0, 0, 0, 0, 0, 0⟩, ⟨0, 0, 0, 0, 0, 0, 0, 0, 0, 0, 0⟩, ⟨0, 0, 0, 0, 0, 0, 0, 0, 0, 0, 0⟩, ⟨0, 0, 0, 0, 0, 0, 0, 0, 0, 0, 0⟩⟩⟩, 0⟩,
  /- 102 `P_BANK_0_INST_102`, line 1204 -/ ⟨⟨0, 0, 0, 0, ⟨⟨0, 0, 0, 0, 0, 0, 0, 0, 0, 0, 0⟩, ⟨0, 0, 0, 0, 0, 0, 0, 0, 0, 0, 0⟩, ⟨0, 0, 0, 0, 0, 0, 0, 0, 0, 0, 0⟩, ⟨0, 0, 0, 0, 0, 0, 0, 0, 0, 0, 0⟩⟩⟩, 0⟩,
  /- 103 `P_BANK_0_INST_103`, line 1210 -/ ⟨⟨0, 0, 0, 0, ⟨⟨0, 0, 0, 0, 0, 0, 0, 0, 0, 0, 0⟩, ⟨0, 0, 0, 0, 0, 0, 0, 0, 0, 0, 0⟩, ⟨0, 0, 0, 0, 0, 0, 0, 0, 0, 0, 0⟩, ⟨0, 0, 0, 0, 0, 0, 0, 0, 0, 0, 0⟩⟩⟩, 0⟩,
  /- 104 `P_BANK_0_INST_104`, line 1216 -/ ⟨⟨0, 0, 0, 0, ⟨⟨0, 0, 0, 0, 0, 0, 0, 0, 0, 0, 0⟩, ⟨0, 0, 0, 0, 0, 0, 0, 0, 0, 0, 0⟩, ⟨0, 0, 0, 0, 0, 0, 0, 0, 0, 0, 0⟩, ⟨0, 0, 0, 0, 0, 0, 0, 0, 0, 0, 0⟩⟩⟩, 0⟩,
  /- 105 `P_BANK_0_INST_105`, line 1222 -/ ⟨⟨0, 0, 0, 0, ⟨⟨0, 0, 0, 0, 0, 0, 0, 0, 0, 0, 0⟩, ⟨0, 0, 0, 0, 0, 0, 0, 0, 0, 0, 0⟩, ⟨0, 0, 0, 0, 0, 0, 0, 0, 0, 0, 0⟩, ⟨0, 0, 0, 0, 0, 0, 0, 0, 0, 0, 0⟩⟩⟩, 0⟩,
  /- 106 `P_BANK_0_INST_106`, line 1228 -/ ⟨⟨0, 0, 0, 0, ⟨⟨0, 0, 0, 0, 0, 0, 0, 0, 0, 0, 0⟩, ⟨0, 0, 0, 0, 0, 0, 0, 0, 0, 0, 0⟩, ⟨0, 0, 0, 0, 0, 0, 0, 0, 0, 0, 0⟩, ⟨0, 0, 0, 0, 0, 0, 0, 0, 0, 0, 0⟩⟩⟩, 0⟩,
  /- 107 `P_BANK_0_INST_107`, line 1234 -/ ⟨⟨0, 0, 0, 0, ⟨⟨0, 0, 0, 0, 0, 0, 0, 0, 0, 0, 0⟩, ⟨0, 0, 0, 0, 0, 0, 0, 0, 0, 0, 0⟩, ⟨0, 0, 0, 0, 0, 0, 0, 0, 0, 0, 0⟩, ⟨0, 0, 0, 0, 0, 0, 0, 0, 0, 0, 0⟩⟩⟩, 0⟩,
  /- 108 `P_BANK_0_INST_108`, line 1240 -/ ⟨⟨0, 0, 0, 0, ⟨⟨0, 0, 0, 0, 0, 0, 0, 0, 0, 0, 0⟩, ⟨0, 0, 0, 0, 0, 0, 0, 0, 0, 0, 0⟩, ⟨0, 0, 0, 0, 0, 0, 0, 0, 0, 0, 0⟩, ⟨0, 0, 0, 0, 0, 0, 0, 0, 0, 0, 0⟩⟩⟩, 0⟩,
  /- 109 `P_BANK_0_INST_109`, line 1246 -/ ⟨⟨0, 0, 0, 0, ⟨⟨0, 0, 0, 0, 0, 0, 0, 0, 0, 0, 0⟩, ⟨0, 0, 0, 0, 0, 0, 0, 0, 0, 0, 0⟩, ⟨0, 0, 0, 0, 0, 0, 0, 0, 0, 0, 0⟩, ⟨0, 0, 0, 0, 0, 0, 0, 0, 0, 0, 0⟩⟩⟩, 0⟩,
  /- 110 `P_BANK_0_INST_110`, line 1252 -/ ⟨⟨0, 0, 0, 0, ⟨⟨0, 0, 0, 0, 0, 0, 0, 0, 0, 0, 0⟩, ⟨0, 0, 0, 0, 0, 0, 0, 0, 0, 0, 0⟩, ⟨0, 0, 0, 0, 0, 0, 0, 0, 0, 0, 0⟩, ⟨0, 0, 0, 0, 0, 0, 0, 0, 0, 0, 0⟩⟩⟩, 0⟩,
  /- 111 `P_BANK_0_INST_111`, line 1258 -/ ⟨⟨0, 0, 0, 0, ⟨⟨0, 0, 0, 0, 0, 0, 0, 0, 0, 0, 0⟩, ⟨0, 0, 0, 0, 0, 0, 0, 0, 0, 0, 0⟩, ⟨0, 0, 0, 0, 0, 0, 0, 0, 0, 0, 0⟩, ⟨0, 0, 0, 0, 0, 0, 0, 0, 0, 0, 0⟩⟩⟩, 0⟩,
  /- 112 `P_BANK_0_INST_112`, line 1264 -/ ⟨⟨0, 0, 0, 0, ⟨⟨0, 0, 0, 0, 0, 0, 0, 0, 0, 0, 0⟩, ⟨0, 0, 0, 0, 0, 0, 0, 0, 0, 0, 0⟩, ⟨0, 0, 0, 0, 0, 0, 0, 0, 0, 0, 0⟩, ⟨0, 0, 0, 0, 0, 0, 0, 0, 0, 0, 0⟩⟩⟩, 0⟩,
  /- 113 `P_BANK_0_INST_113`, line 1270 -/ ⟨⟨0, 0, 0, 0, ⟨⟨0, 0, 0, 0, 0, 0, 0, 0, 0, 0, 0⟩, ⟨0, 0, 0, 0, 0, 0, 0, 0, 0, 0, 0⟩, ⟨0, 0, 0, 0, 0, 0, 0, 0, 0, 0, 0⟩, ⟨0, 0, 0, 0, 0, 0, 0, 0, 0, 0, 0⟩⟩⟩, 0⟩,
  /- 114 `P_BANK_0_INST_114`, line 1276 -/ ⟨⟨0, 0, 0, 0, ⟨⟨0, 0, 0, 0, 0, 0, 0, 0, 0, 0, 0⟩, ⟨0, 0, 0, 0, 0, 0, 0, 0, 0, 0, 0⟩, ⟨0, 0, 0, 0, 0, 0, 0, 0, 0, 0, 0⟩, ⟨0, 0, 0, 0, 0, 0, 0, 0, 0, 0, 0⟩⟩⟩, 0⟩,
  /- 115 `P_BANK_0_INST_115`, line 1282 -/ ⟨⟨0, 0, 0, 0, ⟨⟨0, 0, 0, 0, 0, 0, 0, 0, 0, 0, 0⟩, ⟨0, 0, 0, 0, 0, 0, 0, 0, 0, 0, 0⟩, ⟨0, 0, 0, 0, 0, 0, 0, 0, 0, 0, 0⟩, ⟨0, 0, 0, 0, 0, 0, 0, 0, 0, 0, 0⟩⟩⟩, 0⟩,
  /- 116 `P_BANK_0_INST_116`, line 1288 -/ ⟨⟨0, 0, 0, 0, ⟨⟨0, 0, 0, 0, 0, 0, 0, 0, 0, 0, 0⟩, ⟨0, 0, 0, 0, 0, 0, 0, 0, 0, 0, 0⟩, ⟨0, 0, 0, 0, 0, 0, 0, 0, 0, 0, 0⟩, ⟨0, 0, 0, 0, 0, 0, 0, 0, 0, 0, 0⟩⟩⟩, 0⟩,
  /- 117 `P_BANK_0_INST_117`, line 1294 -/ ⟨⟨0, 0, 0, 0, ⟨⟨0, 0, 0, 0, 0, 0, 0, 0, 0, 0, 0⟩, ⟨0, 0, 0, 0, 0, 0, 0, 0, 0, 0, 0⟩, ⟨0, 0, 0, 0, 0, 0, 0, 0, 0, 0, 0⟩, ⟨0, 0, 0, 0, 0, 0, 0, 0, 0, 0, 0⟩⟩⟩, 0⟩,
  /- 118 `P_BANK_0_INST_118`, line 1300 -/ ⟨⟨0, 0, 0, 0, ⟨⟨0, 0, 0, 0, 0, 0, 0, 0, 0, 0, 0⟩, ⟨0, 0, 0, 0, 0, 0, 0, 0, 0, 0, 0⟩, ⟨0, 0, 0, 0, 0, 0, 0, 0, 0, 0, 0⟩, ⟨0, 0, 0, 0, 0, 0, 0, 0, 0, 0, 0⟩⟩⟩, 0⟩,
  /- 119 `P_BANK_0_INST_119`, line 1306 -/ ⟨⟨0, 0, 0, 0, ⟨⟨0, 0, 0, 0, 0, 0, 0, 0, 0, 0, 0⟩, ⟨0, 0, 0, 0, 0, 0, 0, 0, 0, 0, 0⟩, ⟨0, 0, 0, 0, 0, 0, 0, 0, 0, 0, 0⟩, ⟨0, 0, 0, 0, 0, 0, 0, 0, 0, 0, 0⟩⟩⟩, 0⟩,
  /- 120 `P_BANK_0_INST_120`, line 1312 -/ ⟨⟨0, 0, 0, 0, ⟨⟨0, 0, 0, 0, 0, 0, 0, 0, 0, 0, 0⟩, ⟨0, 0, 0, 0, 0, 0, 0, 0, 0, 0, 0⟩, ⟨0, 0, 0, 0, 0, 0, 0, 0, 0, 0, 0⟩, ⟨0, 0, 0, 0, 0, 0, 0, 0, 0, 0, 0⟩⟩⟩, 0⟩,
  /- 121 `P_BANK_0_INST_121`, line 1318 -/ ⟨⟨0, 0, 0, 0, ⟨⟨0, 0, 0, 0, 0, 0, 0, 0, 0, 0, 0⟩, ⟨0, 0, 0, 0, 0, 0, 0, 0, 0, 0, 0⟩, ⟨0, 0, 0, 0, 0, 0, 0, 0, 0, 0, 0⟩, ⟨0, 0, 0, 0, 0, 0, 0, 0, 0, 0, 0⟩⟩⟩, 0⟩,
  /- 122 `P_BANK_0_INST_122`, line 1324 -/ ⟨⟨0, 0, 0, 0, ⟨⟨0, 0, 0, 0, 0, 0, 0, 0, 0, 0, 0⟩, ⟨0, 0, 0, 0, 0, 0, 0, 0, 0, 0, 0⟩, ⟨0, 0, 0, 0, 0, 0, 0, 0, 0, 0, 0⟩, ⟨0, 0, 0, 0, 0, 0, 0, 0, 0, 0, 0⟩⟩⟩, 0⟩,
  /- 123 `P_BANK_0_INST_123`, line 1330 -/ ⟨⟨0, 0, 0, 0, ⟨⟨0, 0, 0, 0, 0, 0, 0, 0, 0, 0, 0⟩, ⟨0, 0, 0, 0, 0, 0, 0, 0, 0, 0, 0⟩, ⟨0, 0, 0, 0, 0, 0, 0, 0, 0, 0, 0⟩, ⟨0, 0, 0, 0, 0, 0, 0, 0, 0, 0, 0⟩⟩⟩, 0⟩,
  /- 124 `P_BANK_0_INST_124`, line 1336 -/ ⟨⟨0, 0, 0, 0, ⟨⟨0, 0, 0, 0, 0, 0, 0, 0, 0, 0, 0⟩, ⟨0, 0, 0, 0, 0, 0, 0, 0, 0, 0, 0⟩, ⟨0, 0, 0, 0, 0, 0, 0, 0, 0, 0, 0⟩, ⟨0, 0, 0, 0, 0, 0, 0, 0, 0, 0, 0⟩⟩⟩, 0⟩,
  /- 125 `P_BANK_0_INST_125`, line 1342 -/ ⟨⟨0, 0, 0, 0, ⟨⟨0, 0, 0, 0, 0, 0, 0, 0, 0, 0, 0⟩, ⟨0, 0, 0, 0, 0, 0, 0, 0, 0, 0, 0⟩, ⟨0, 0, 0, 0, 0, 0, 0, 0, 0, 0, 0⟩, ⟨0, 0, 0, 0, 0, 0, 0, 0, 0, 0, 0⟩⟩⟩, 0⟩,
  /- 126 `P_BANK_0_INST_126`, line 1348 -/ ⟨⟨0, 0, 0, 0, ⟨⟨0, 0, 0, 0, 0, 0, 0, 0, 0, 0, 0⟩, ⟨0, 0, 0, 0, 0, 0, 0, 0, 0, 0, 0⟩, ⟨0, 0, 0, 0, 0, 0, 0, 0, 0, 0, 0⟩, ⟨0, 0, 0, 0, 0, 0, 0, 0, 0, 0, 0⟩⟩⟩, 0⟩,
  /- 127 `P_BANK_0_INST_127`, line 1354 -/ ⟨⟨0, 0, 0, 0, ⟨⟨0, 0, 0, 0, 0, 0, 0, 0, 0, 0, 0⟩, ⟨0, 0, 0, 0, 0, 0, 0, 0, 0, 0, 0⟩, ⟨0, 0, 0, 0, 0, 0, 0, 0, 0, 0, 0⟩, ⟨0, 0, 0, 0, 0, 0, 0, 0, 0, 0, 0⟩⟩⟩, 0⟩]

/-- `percussionPcmSample`, src/pcm_sample.c:80-107: the samples of the 128 keys, by name (their data is not modelled). -/
def pcmSamples : List (Option String) := [
  none, none, none, none, none, none, none, none,
  none, none, none, none, none, none, none, none,
  none, none, none, none, none, none, none, none,
  none, none, some "highq", some "slap", some "scratchpush", some "scratchpull", some "sticks", some "squareclick",
  some "metronomeclick", some "metronomebell", some "stdkick", some "stdkick", some "rimtap", some "stdsnr1", some "clap", some "stdsnr2",
  some "lowflrstudio", some "hi_hatclosed", some "flrstudio", some "hi_hatfoot", some "lowstudio", some "hi_hathalf_open", some "mdstudio", some "mdhistudio",
  some "crsh1", some "histudio", some "ride1", some "chinacrash", some "bellride", some "tambourine", some "splash", some "cowbell",
  some "crsh2", some "vibraslap", some "ride2", some "bongorim", some "lowbongo", some "closedslap", some "highconga", some "lowtumba",
  some "hightimbale", some "lowtimbale", some "highagogo", some "lowagogo", some "cabasa", some "maracas", some "shortwhistle", some "longwhistle",
  some "guirodown", some "guiroup", some "clave", some "highwoodblock", some "lowwoodblock", some "quicahi", some "quicalow", some "triangle",
  some "triangle", some "smallshaker", some "sleighbells", some "belltree", some "castanet", some "shorttaikohit", some "longtaikohit", none,
  none, none, none, none, none, none, none, none,
  none, none, none, none, none, none, none, none,
  none, none, none, none, none, none, none, none,
  none, none, none, none, none, none, none, none,
  none, none, none, none, none, none, none, none]

/-- Whether key `p` has a sample: the test `!sample` of `midi_dac_note_on`, src/midi_dac.c:6-9. -/
def hasSample (p : Nat) : Bool := (pcmSamples.getD p none).isSome

/-- The data of the firmware: `M_BANK_0`, `P_BANK_0`, `percussionPcmSample`, `ENVELOPES`; parameters are the default
mapping mode (settings.h), the television system and whether there is save memory. -/
def env (mode : Midi.Mode) (pal sram : Bool) : Midi.Env :=
  ⟨⟨mBank0, pBank0, hasSample, pal, sram⟩, ⟨Psg.realEnvelopes, pal⟩, mode⟩

end Mdmi.Shipped
