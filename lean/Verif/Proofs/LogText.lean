import Verif.Spec.LogText
import Verif.Proofs.UiRun
/-! Lengths of the log texts. -/
namespace Mdmi.LogText

theorem hex_len {w n k : Nat} (hw : w ≤ k) (hk : 0 < k) (h : n < 16 ^ k) : (hexPad w n).length ≤ k := by
  have := (Nat.length_toDigits_le_iff (b := 16) (n := n) (by decide) hk).2 h
  simp only [hexPad, List.length_append, List.length_replicate, List.length_map]
  omega

theorem decI_len {n : Int} (h : S32 n) : (decI n).length ≤ 11 := by
  have h : n.natAbs < 10 ^ 10 := by have := h.1; have := h.2; omega
  have := Ui.dec_len (n := n.natAbs) (k := 10) (by decide) h
  unfold decI
  split
  · simp only [List.length_cons]; omega
  · omega

theorem octet_len : ∀ n : Fin 256, (IpUtil.uint8ToStr n.val).length ≤ 3 := by decide +kernel

theorem ip_len (ip : Nat) : (ipText ip).length ≤ 15 := by
  have k (i : Nat) : (IpUtil.uint8ToStr (ip / 256 ^ (3 - i) % 256)).length ≤ 3 := octet_len ⟨_, Nat.mod_lt _ (by decide)⟩
  have k0 := k 0; have k1 := k 1; have k2 := k 2; have k3 := k 3
  simp only [ipText, IpUtil.uint32ToIpStr, List.length_map, List.length_append, List.length_cons, List.length_nil]
  omega

theorem dec8 {n : Nat} (h : U8 n) : (Ui.dec n).length ≤ 3 := Ui.dec_len (by decide) (Nat.lt_trans h (by decide))
theorem dec8' {n : Nat} (h : U8 n) : (Ui.dec (n + 1)).length ≤ 3 :=
  Ui.dec_len (by decide) (by have : n < 256 := h; omega)
theorem dec16 {n : Nat} (h : U16 n) : (Ui.dec n).length ≤ 5 := Ui.dec_len (by decide) (Nat.lt_trans h (by decide))
theorem dec32 {n : Nat} (h : U32 n) : (Ui.dec n).length ≤ 10 := Ui.dec_len (by decide) (Nat.lt_trans h (by decide))
theorem hex8 {n : Nat} (h : U8 n) : (hexPad 2 n).length ≤ 2 := hex_len (by decide) (by decide) h
theorem hex16 {n : Nat} (h : U16 n) : (hexPad 4 n).length ≤ 4 := hex_len (by decide) (by decide) h

theorem expected_len {e : Nat} (h : e ∈ [0, 1, 2, 4, 50]) : (Ui.dec e).length ≤ 2 := by
  simp only [List.mem_cons, List.not_mem_nil, or_false] at h
  exact Ui.dec_len (by decide) (by omega)

/-- Lengths of the fixed parts. -/
theorem len0 : "No SRAM".toList.length = 7 := by rfl
theorem len1 : "Bad slot struct size (".toList.length = 22 := by rfl
theorem len2 : " != ".toList.length = 4 := by rfl
theorem len3 : ")".toList.length = 1 := by rfl
theorem len4 : "Bad SRAM write (".toList.length = 16 := by rfl
theorem len5 : ": ".toList.length = 2 := by rfl
theorem len6 : "Prg ".toList.length = 4 := by rfl
theorem len7 : ": Bad checksum".toList.length = 14 := by rfl
theorem len8 : "Loaded ".toList.length = 7 := by rfl
theorem len9 : " FM presets".toList.length = 11 := by rfl
theorem len10 : "Ch ".toList.length = 3 := by rfl
theorem len11 : ": Dropped note ".toList.length = 15 := by rfl
theorem len12 : ": Note priority stack full".toList.length = 26 := by rfl
theorem len13 : "Loaded User Defined Envelope".toList.length = 28 := by rfl
theorem len14 : ": FM preset stored".toList.length = 18 := by rfl
theorem len15 : "Invalid store program type: ".toList.length = 28 := by rfl
theorem len16 : ": FM preset cleared".toList.length = 19 := by rfl
theorem len17 : "Invalid clear program type: ".toList.length = 28 := by rfl
theorem len18 : "All FM presets cleared".toList.length = 22 := by rfl
theorem len19 : "Invalid clear all programs type: ".toList.length = 33 := by rfl
theorem len20 : ": No FM channel assigned".toList.length = 24 := by rfl
theorem len21 : ": FM ".toList.length = 5 := by rfl
theorem len22 : " dumped".toList.length = 7 := by rfl
theorem len23 : "Invalid dump channel request type: ".toList.length = 35 := by rfl
theorem len24 : ": FM preset dumped".toList.length = 18 := by rfl
theorem len25 : ": No FM preset to dump".toList.length = 22 := by rfl
theorem len26 : "Invalid dump preset request type: ".toList.length = 34 := by rfl
theorem len27 : "Sysex ".toList.length = 6 := by rfl
theorem len28 : ": Invalid command".toList.length = 17 := by rfl
theorem len29 : ": Invalid length: ".toList.length = 18 := by rfl
theorem len30 : " (!= ".toList.length = 5 := by rfl
theorem len31 : "Invalid MIDI channel: ".toList.length = 22 := by rfl
theorem len32 : "Invalid device channel: ".toList.length = 24 := by rfl
theorem len33 : ": CC 0x".toList.length = 7 := by rfl
theorem len34 : " 0x".toList.length = 3 := by rfl
theorem len35 : "?".toList.length = 1 := by rfl
theorem len36 : ": RPN? 0x".toList.length = 9 := by rfl
theorem len37 : " MSB=0x".toList.length = 7 := by rfl
theorem len38 : " LSB=0x".toList.length = 7 := by rfl
theorem len39 : "Status? ".toList.length = 8 := by rfl
theorem len40 : "Reset all".toList.length = 9 := by rfl
theorem len41 : "System Status? ".toList.length = 15 := by rfl
theorem len42 : "Serial: Buffer overflow!".toList.length = 24 := by rfl
theorem len43 : "Serial: Baud = ".toList.length = 15 := by rfl
theorem len44 : "Serial: Buffer free = ".toList.length = 22 := by rfl
theorem len45 : " bytes".toList.length = 6 := by rfl
theorem len46 : "Serial: Attempted read from empty buffer".toList.length = 40 := by rfl
theorem len47 : "MW: Detecting...".toList.length = 16 := by rfl
theorem len48 : "MW: Not found".toList.length = 13 := by rfl
theorem len49 : "MW: Found v".toList.length = 11 := by rfl
theorem len50 : ".".toList.length = 1 := by rfl
theorem len51 : "MW: Cannot open UDP ".toList.length = 20 := by rfl
theorem len52 : "MW: Init Error ".toList.length = 15 := by rfl
theorem len53 : "MW: Cannot get IP".toList.length = 17 := by rfl
theorem len54 : "MW: IP=".toList.length = 7 := by rfl
theorem len55 : ":".toList.length = 1 := by rfl
theorem len56 : "MW: Attempted read from empty buffer".toList.length = 36 := by rfl
theorem len57 : "MW: Session ended".toList.length = 17 := by rfl
theorem len58 : "MW: rxCb unexpected state: ".toList.length = 27 := by rfl
theorem len59 : "MW: R=".toList.length = 6 := by rfl
theorem len60 : " L=".toList.length = 3 := by rfl
theorem len61 : " C=".toList.length = 3 := by rfl
theorem len62 : "MW: rxCb = ".toList.length = 11 := by rfl
theorem len63 : "MW: mw_udp_reuse_recv() = ".toList.length = 26 := by rfl
theorem len64 : "MW: MIDI buffer full!".toList.length = 21 := by rfl
theorem len65 : "MW: send_complete_cb() = ".toList.length = 25 := by rfl
theorem len66 : "MW: Session connected".toList.length = 21 := by rfl
theorem len67 : "MW: S=".toList.length = 6 := by rfl
theorem len68 : "MW: mw_udp_reuse_send() = ".toList.length = 26 := by rfl
theorem len69 : "MW: Send while TX pending!".toList.length = 26 := by rfl
theorem len70 : "MW: TX buffer overflow!".toList.length = 23 := by rfl
theorem len71 : "rtpmidi: ignoring middle sysex".toList.length = 30 := by rfl
theorem len72 : "rtpmidi: header too short".toList.length = 25 := by rfl
theorem len73 : "rtpmidi: len=".toList.length = 13 := by rfl
theorem len74 : " seqNum=".toList.length = 8 := by rfl
theorem len75 : "rtpmidi: length mismatch".toList.length = 24 := by rfl
theorem len76 : "AM: Session invite on UDP ch ".toList.length = 29 := by rfl
theorem len77 : "AM: Timestamp Sync".toList.length = 18 := by rfl
theorem len78 : "AM: ? ctrl cmd: ".toList.length = 16 := by rfl
theorem len79 : "AM: ? midi cmd: ".toList.length = 16 := by rfl

/-- Sum the lengths of the parts. -/
macro "lens" : tactic => `(tactic| simp only [List.length_append, List.length_cons, List.length_nil, len0, len1, len2, len3, len4, len5, len6,
    len7, len8, len9, len10, len11, len12, len13, len14, len15, len16, len17, len18, len19, len20, len21,
    len22, len23, len24, len25, len26, len27, len28, len29, len30, len31, len32, len33, len34, len35, len36,
    len37, len38, len39, len40, len41, len42, len43, len44, len45, len46, len47, len48, len49, len50, len51,
    len52, len53, len54, len55, len56, len57, len58, len59, len60, len61, len62, len63, len64, len65, len66,
    len67, len68, len69, len70, len71, len72, len73, len74, len75, len76, len77, len78, len79])

attribute [local irreducible] hexPad Ui.dec ipText decI

/-- Every message but one fits. -/
theorem text_fits {c : Call} (h : c.Typed) (hs : c ≠ .serialEmpty) : Fits c := by
  unfold Fits
  cases c
  case serialEmpty => exact absurd rfl hs
  case unknownRpn c r v m =>
    have := dec8' h.1; have := hex16 h.2.1; have := hex8 h.2.2
    cases m
    all_goals delta text
    all_goals simp only [Bool.false_eq_true, if_true, if_false]
    all_goals lens
    all_goals omega
  all_goals delta text
  all_goals dsimp only
  all_goals lens
  case badSlotSize a b => have := dec8 h.1; have := dec8 h.2; omega
  case badSramWrite o r v => have := dec16 h.1; have := hex8 h.2.1; have := hex8 h.2.2; omega
  case badChecksum x => have := dec8 h; omega
  case loaded x => have := dec8 h; omega
  case dropped c p => have := dec8' h.1; have := dec8 h.2; omega
  case stackFull x => have := dec8' h; omega
  case presetStored x => have := dec8 h; omega
  case badStoreType x => have := dec8 h; omega
  case presetCleared x => have := dec8 h; omega
  case badClearType x => have := dec8 h; omega
  case badClearAllType x => have := dec8 h; omega
  case noFm x => have := dec8' h; omega
  case chanDumped c n => have := dec8' h.1; have := dec8 h.2; omega
  case badChannelDumpType x => have := dec8 h; omega
  case presetDumped x => have := dec8 h; omega
  case noPreset x => have := dec8 h; omega
  case badPresetDumpType x => have := dec8 h; omega
  case badCommand x => have := hex8 h; omega
  case badLength c l e => have := hex8 h.1; have := dec16 h.2.1; have := expected_len h.2.2; omega
  case badMidiChannel x => have := dec8 h; omega
  case badDeviceChannel x => have := dec8 h; omega
  case unknownCc c k v => have := dec8' h.1; have := hex8 h.2.1; have := hex8 h.2.2; omega
  case badStatus x => have := hex8 h; omega
  case badSystemStatus x => have := hex8 h; omega
  case serialBaud r => have := dec16 h; omega
  case serialFree r => have := dec16 h; omega
  case mwFound a b => have := dec8 h.1; have := dec8 h.2; omega
  case mwCannotOpen p => have := dec16 h; omega
  case mwInitError e => have := decI_len h; omega
  case mwIp ip p => have := ip_len ip; have := dec16 h.2; omega
  case mwState x => have := dec32 h; omega
  case mwReceived ip p l c => have := ip_len ip; have := dec16 h.2.1; have := dec16 h.2.2.1; have := Ui.dec_len (k := 1) (by decide) h.2.2.2; omega
  case mwReceiveError e => have := decI_len h; omega
  case mwReuseRecv e => have := decI_len h; omega
  case mwSendComplete e => have := decI_len h; omega
  case mwSent ip p l c => have := ip_len ip; have := dec16 h.2.1; have := dec16 h.2.2.1; have := Ui.dec_len (k := 1) (by decide) h.2.2.2; omega
  case mwReuseSend e => have := decI_len h; omega
  case rtpLengths l s => have := dec16 h.1; have := dec16 h.2; omega
  case amInvite x => have := dec8 h; omega
  all_goals omega

/-- The ranges of the arguments of the engine's messages. -/
def MsgOk : Midi.Msg → Prop
  | .dropped c p => c < 256 ∧ p < 256
  | .chanDumped c n => c < 256 ∧ n < 256
  | .badLength c l => c < 256 ∧ l < 65536
  | .unknownCc c k v => c < 256 ∧ k < 256 ∧ v < 256
  | .unknownRpn c r v => c < 256 ∧ r < 65536 ∧ v < 256
  | .stackFull x | .presetStored x | .presetCleared x | .badType x | .noFm x | .presetDumped x | .noPreset x
  | .badCommand x | .badMidiChannel x | .badDeviceChannel x => x < 256
  | .envelopeLoaded | .allCleared => True

theorem typed_of_msgOk {m : Midi.Msg} (h : MsgOk m) : ∀ c ∈ ofMidi m, c.Typed ∧ c ≠ .serialEmpty := by
  cases m
  case badLength c l =>
    intro x hx
    simp only [ofMidi, List.mem_map] at hx
    obtain ⟨e, he, rfl⟩ := hx
    exact ⟨⟨h.1, h.2, he⟩, by simp⟩
  all_goals
    simp only [ofMidi, List.mem_cons, List.not_mem_nil, or_false, forall_eq_or_imp, forall_eq]
    simp only [MsgOk] at h
    simp [Call.Typed, U8, U16, h]

end Mdmi.LogText
