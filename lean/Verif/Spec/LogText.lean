import Verif.Model.LogText
/-!
# Arguments of log messages

The range of every argument, from its C type: `u8`, `u16`, `u32` and the 32-bit `int` of enumerations.  Two are
narrower than their type: the expected lengths of exclusive messages are the constants of `SYSEX_COMMANDS`, and the
UDP channel of the two packet traces (compiled in with DEBUG_MEGAWIFI_RECV and DEBUG_MEGAWIFI_SEND only) is one the
radio has.
-/
namespace Mdmi.LogText

def U8 (n : Nat) : Prop := n < 256
def U16 (n : Nat) : Prop := n < 65536
def U32 (n : Nat) : Prop := n < 4294967296
def S32 (n : Int) : Prop := -2147483648 ≤ n ∧ n < 2147483648

/-- The arguments have the ranges of their types. -/
def Call.Typed : Call → Prop
  | .badSlotSize a b => U8 a ∧ U8 b
  | .badSramWrite o r v => U16 o ∧ U8 r ∧ U8 v
  | .dropped c p => U8 c ∧ U8 p
  | .chanDumped c n => U8 c ∧ U8 n
  | .badLength c l e => U8 c ∧ U16 l ∧ e ∈ [0, 1, 2, 4, 50]
  | .unknownCc c k v => U8 c ∧ U8 k ∧ U8 v
  | .unknownRpn c r v _ => U8 c ∧ U16 r ∧ U8 v
  | .badChecksum x | .loaded x | .stackFull x | .presetStored x | .badStoreType x | .presetCleared x | .badClearType x
  | .badClearAllType x | .noFm x | .badChannelDumpType x | .presetDumped x | .noPreset x | .badPresetDumpType x
  | .badCommand x | .badMidiChannel x | .badDeviceChannel x | .badStatus x | .badSystemStatus x | .amInvite x => U8 x
  | .serialBaud r => U16 r
  | .serialFree b => U16 b
  | .mwFound a b => U8 a ∧ U8 b
  | .mwCannotOpen p => U16 p
  | .mwInitError e | .mwReceiveError e | .mwReuseRecv e | .mwSendComplete e | .mwReuseSend e => S32 e
  | .mwIp ip p => U32 ip ∧ U16 p
  | .mwState x => U32 x
  | .mwReceived ip p l c | .mwSent ip p l c => U32 ip ∧ U16 p ∧ U16 l ∧ c < 10
  | .rtpLengths l s => U16 l ∧ U16 s
  | _ => True

/-- The text and its NUL fit the 40 bytes of `Log.msg` (log.h:11). -/
def Fits (c : Call) : Prop := (text c).length + 1 ≤ 40

/-- Calls into the engine with arguments of their C types, on one of the 16 channels; nothing is asked about the data
bytes. -/
def OpTyped : Midi.Op → Prop
  | .noteOn c p _ => c < 16 ∧ U8 p
  | .cc c k v => c < 16 ∧ U8 k ∧ U8 v
  | .sysex d _ => (∀ b ∈ d, U8 b) ∧ d.length ≤ 256
  | .remap c i => U8 c ∧ U8 i
  | _ => True

end Mdmi.LogText
