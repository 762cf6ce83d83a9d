import Verif.Model.Ui
import Verif.Model.IpUtil
/-!
# The texts of the log messages

Every call of `log_info` and `log_warn` in src/, with the text `vsprintf` (log.c:50) writes into the 40-byte field.
`%d`, `%i` and `%u` print the decimal value, `%02X` and `%04X` at least two or four hexadecimal digits, `%c` one
character, `%s` a string; `int` has 32 bits.  Texts are without the terminating NUL.
-/
namespace Mdmi.LogText
open Mdmi.Ui (Text)

/-- `%d` of an `int`. -/
def decI (n : Int) : Text := if n < 0 then '-' :: Ui.dec n.natAbs else Ui.dec n.natAbs
/-- `%0wX`. -/
def hexPad (w n : Nat) : Text :=
  let t := (Nat.toDigits 16 n).map Char.toUpper
  List.replicate (w - t.length) '0' ++ t

/-- The calls, with the values of their arguments. -/
inductive Call where
  -- sram/midi_fm_sram.c
  | noSram                                       -- 22, 54
  | badSlotSize (a b : Nat)                      -- 32
  | badSramWrite (offset readVal val : Nat)      -- 44
  | badChecksum (program : Nat)                  -- 85
  | loaded (count : Nat)                         -- 95
  -- midi.c
  | dropped (ch pitch : Nat)                     -- 444
  | stackFull (ch : Nat)                         -- 451
  | envelopeLoaded                               -- 635
  | presetStored (program : Nat)                 -- 678, 1223
  | badStoreType (type : Nat)                    -- 682
  | presetCleared (program : Nat)                -- 695
  | badClearType (type : Nat)                    -- 698
  | allCleared                                   -- 712
  | badClearAllType (type : Nat)                 -- 716
  | noFm (ch : Nat)                              -- 789
  | chanDumped (ch num : Nat)                    -- 795
  | badChannelDumpType (type : Nat)              -- 799
  | presetDumped (program : Nat)                 -- 814
  | noPreset (program : Nat)                     -- 816
  | badPresetDumpType (type : Nat)               -- 821
  | badCommand (command : Nat)                   -- 872, 878
  | badLength (command length expected : Nat)    -- 884
  | badMidiChannel (ch : Nat)                    -- 922
  | badDeviceChannel (dev : Nat)                 -- 931
  | unknownCc (ch controller value : Nat)        -- 1147
  | unknownRpn (ch rpn value : Nat) (msb : Bool) -- 1210, 1212
  -- midi_rx.c
  | badStatus (status : Nat)                     -- 119
  | resetAll                                     -- 191
  | badSystemStatus (status : Nat)               -- 196
  -- comm/comm_serial.c
  | serialOverflow                               -- 33
  | serialBaud (rate : Nat)                      -- 58
  | serialFree (bytes : Nat)                     -- 81
  | serialEmpty                                  -- 87
  -- comm/comm_megawifi.c
  | mwDetecting                                  -- 126
  | mwNotFound                                   -- 129
  | mwFound (major minor : Nat)                  -- 132
  | mwCannotOpen (port : Nat)                    -- 143
  | mwInitError (err : Int)                      -- 164
  | mwNoIp                                       -- 178
  | mwIp (ip port : Nat)                         -- 193
  | mwEmpty                                      -- 218
  | mwEnded                                      -- 247
  | mwState (state : Nat)                        -- 292
  | mwReceived (ip port len ch : Nat)            -- 307
  | mwReceiveError (stat : Int)                  -- 310
  | mwReuseRecv (stat : Int)                     -- 359
  | mwFull                                       -- 371
  | mwSendComplete (stat : Int)                  -- 379
  | mwConnected                                  -- 402
  | mwSent (ip port len ch : Nat)                -- 409
  | mwReuseSend (stat : Int)                     -- 416
  | mwPending                                    -- 425
  | mwOverflow                                   -- 430
  -- comm/rtpmidi.c
  | rtpMiddle                                    -- 73
  | rtpShort                                     -- 93
  | rtpLengths (length seq : Nat)                -- 99
  | rtpMismatch                                  -- 108
  -- comm/applemidi.c
  | amInvite (ch : Nat)                          -- 33
  | amSync                                       -- 127
  | amControl (a b : Char)                       -- 185
  | amMidi (a b : Char)                          -- 200

/-- `uint32_to_ip_str` as characters. -/
def ipText (ip : Nat) : Text := (IpUtil.uint32ToIpStr ip).map Char.ofNat

/-- The text of a call. -/
def text : Call → Text
  | .noSram => "No SRAM".toList
  | .badSlotSize a b => "Bad slot struct size (".toList ++ Ui.dec a ++ " != ".toList ++ Ui.dec b ++ ")".toList
  | .badSramWrite o r v =>
    "Bad SRAM write (".toList ++ Ui.dec o ++ ": ".toList ++ hexPad 2 r ++ " != ".toList ++ hexPad 2 v ++ ")".toList
  | .badChecksum p => "Prg ".toList ++ Ui.dec p ++ ": Bad checksum".toList
  | .loaded n => "Loaded ".toList ++ Ui.dec n ++ " FM presets".toList
  | .dropped c p => "Ch ".toList ++ Ui.dec (c + 1) ++ ": Dropped note ".toList ++ Ui.dec p
  | .stackFull c => "Ch ".toList ++ Ui.dec (c + 1) ++ ": Note priority stack full".toList
  | .envelopeLoaded => "Loaded User Defined Envelope".toList
  | .presetStored p => "Prg ".toList ++ Ui.dec p ++ ": FM preset stored".toList
  | .badStoreType t => "Invalid store program type: ".toList ++ Ui.dec t
  | .presetCleared p => "Prg ".toList ++ Ui.dec p ++ ": FM preset cleared".toList
  | .badClearType t => "Invalid clear program type: ".toList ++ Ui.dec t
  | .allCleared => "All FM presets cleared".toList
  | .badClearAllType t => "Invalid clear all programs type: ".toList ++ Ui.dec t
  | .noFm c => "Ch ".toList ++ Ui.dec (c + 1) ++ ": No FM channel assigned".toList
  | .chanDumped c n => "Ch ".toList ++ Ui.dec (c + 1) ++ ": FM ".toList ++ Ui.dec n ++ " dumped".toList
  | .badChannelDumpType t => "Invalid dump channel request type: ".toList ++ Ui.dec t
  | .presetDumped p => "Prg ".toList ++ Ui.dec p ++ ": FM preset dumped".toList
  | .noPreset p => "Prg ".toList ++ Ui.dec p ++ ": No FM preset to dump".toList
  | .badPresetDumpType t => "Invalid dump preset request type: ".toList ++ Ui.dec t
  | .badCommand c => "Sysex ".toList ++ hexPad 2 c ++ ": Invalid command".toList
  | .badLength c l e =>
    "Sysex ".toList ++ hexPad 2 c ++ ": Invalid length: ".toList ++ Ui.dec l ++ " (!= ".toList ++ Ui.dec e ++ ")".toList
  | .badMidiChannel c => "Invalid MIDI channel: ".toList ++ Ui.dec c
  | .badDeviceChannel d => "Invalid device channel: ".toList ++ Ui.dec d
  | .unknownCc c k v =>
    "Ch ".toList ++ Ui.dec (c + 1) ++ ": CC 0x".toList ++ hexPad 2 k ++ " 0x".toList ++ hexPad 2 v ++ "?".toList
  | .unknownRpn c r v msb =>
    "Ch ".toList ++ Ui.dec (c + 1) ++ ": RPN? 0x".toList ++ hexPad 4 r ++
      (if msb then " MSB=0x".toList else " LSB=0x".toList) ++ hexPad 2 v
  | .badStatus s => "Status? ".toList ++ hexPad 2 s
  | .resetAll => "Reset all".toList
  | .badSystemStatus s => "System Status? ".toList ++ hexPad 2 s
  | .serialOverflow => "Serial: Buffer overflow!".toList
  | .serialBaud r => "Serial: Baud = ".toList ++ Ui.dec r
  | .serialFree b => "Serial: Buffer free = ".toList ++ Ui.dec b ++ " bytes".toList
  | .serialEmpty => "Serial: Attempted read from empty buffer".toList
  | .mwDetecting => "MW: Detecting...".toList
  | .mwNotFound => "MW: Not found".toList
  | .mwFound a b => "MW: Found v".toList ++ Ui.dec a ++ ".".toList ++ Ui.dec b
  | .mwCannotOpen p => "MW: Cannot open UDP ".toList ++ Ui.dec p
  | .mwInitError e => "MW: Init Error ".toList ++ decI e
  | .mwNoIp => "MW: Cannot get IP".toList
  | .mwIp ip p => "MW: IP=".toList ++ ipText ip ++ ":".toList ++ Ui.dec p
  | .mwEmpty => "MW: Attempted read from empty buffer".toList
  | .mwEnded => "MW: Session ended".toList
  | .mwState s => "MW: rxCb unexpected state: ".toList ++ Ui.dec s
  | .mwReceived ip p l c =>
    "MW: R=".toList ++ ipText ip ++ ":".toList ++ Ui.dec p ++ " L=".toList ++ Ui.dec l ++ " C=".toList ++ Ui.dec c
  | .mwReceiveError e => "MW: rxCb = ".toList ++ decI e
  | .mwReuseRecv e => "MW: mw_udp_reuse_recv() = ".toList ++ decI e
  | .mwFull => "MW: MIDI buffer full!".toList
  | .mwSendComplete e => "MW: send_complete_cb() = ".toList ++ decI e
  | .mwConnected => "MW: Session connected".toList
  | .mwSent ip p l c =>
    "MW: S=".toList ++ ipText ip ++ ":".toList ++ Ui.dec p ++ " L=".toList ++ Ui.dec l ++ " C=".toList ++ Ui.dec c
  | .mwReuseSend e => "MW: mw_udp_reuse_send() = ".toList ++ decI e
  | .mwPending => "MW: Send while TX pending!".toList
  | .mwOverflow => "MW: TX buffer overflow!".toList
  | .rtpMiddle => "rtpmidi: ignoring middle sysex".toList
  | .rtpShort => "rtpmidi: header too short".toList
  | .rtpLengths l s => "rtpmidi: len=".toList ++ Ui.dec l ++ " seqNum=".toList ++ Ui.dec s
  | .rtpMismatch => "rtpmidi: length mismatch".toList
  | .amInvite c => "AM: Session invite on UDP ch ".toList ++ Ui.dec c
  | .amSync => "AM: Timestamp Sync".toList
  | .amControl a b => "AM: ? ctrl cmd: ".toList ++ [a, b]
  | .amMidi a b => "AM: ? midi cmd: ".toList ++ [a, b]

/-- The message of the engine model a call stands for: the possible calls (`badType` comes from five places; the
expected lengths are those of `SYSEX_COMMANDS`, midi.c:833-851). -/
def ofMidi : Midi.Msg → List Call
  | .dropped c p => [.dropped c p]
  | .stackFull c => [.stackFull c]
  | .envelopeLoaded => [.envelopeLoaded]
  | .presetStored p => [.presetStored p]
  | .presetCleared p => [.presetCleared p]
  | .allCleared => [.allCleared]
  | .badType t => [.badStoreType t, .badClearType t, .badClearAllType t, .badChannelDumpType t, .badPresetDumpType t]
  | .noFm c => [.noFm c]
  | .chanDumped c n => [.chanDumped c n]
  | .presetDumped p => [.presetDumped p]
  | .noPreset p => [.noPreset p]
  | .badCommand c => [.badCommand c]
  | .badLength c l => [0, 1, 2, 4, 50].map (.badLength c l ·)
  | .badMidiChannel c => [.badMidiChannel c]
  | .badDeviceChannel d => [.badDeviceChannel d]
  | .unknownCc c k v => [.unknownCc c k v]
  | .unknownRpn c r v => [.unknownRpn c r v false, .unknownRpn c r v true]

/-- The messages of the FM device model. -/
def ofFm : Fm.Msg → Call
  | .noSram => .noSram
  | .badChecksum p => .badChecksum p
  | .loaded n => .loaded n

end Mdmi.LogText
