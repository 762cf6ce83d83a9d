import Verif.Props.C48
/-! C49: packing of RTP-MIDI packets. -/
namespace Mdmi.Props
open Mdmi Mdmi.Rtp

/-- An RTP header of this device (RFC 3550): version 2, payload type 97, sequence number, timestamp, source. -/
def rtpHeader (seq timestamp : Nat) : List Nat :=
  [0x80, 97, seq / 256, seq % 256] ++
    [timestamp / 2 ^ 24, timestamp / 2 ^ 16 % 256, timestamp / 2 ^ 8 % 256, timestamp % 256] ++ [0x9E, 0x91, 0x51, 0x50]

/-- First bytes of the command section for `n` MIDI bytes, no flags. -/
def commandHeader (n : Nat) : List Nat := if n < 16 then [n] else [128 + n / 256, n % 256]

/-- The whole packet. -/
def rtpPacket (seq timestamp : Nat) (data : List Nat) : List Nat :=
  rtpHeader seq timestamp ++ commandHeader data.length ++ data

/-- The full statement of C49: for every MIDI data and buffer the packet is refused or written, within the buffer, and a
written packet is decoded to the data if the data are legal MIDI messages. -/
def C49_statement : Prop :=
  ∀ (seq ts : Nat) (data buffer : List Nat), seq < 65536 → ts < 2 ^ 32 → data.length < 65536 →
    ∃ n buffer' seq', pack seq ts (some data) data.length buffer buffer.length = some (n, buffer', seq') ∧
      (n = 0 ∧ seq' = seq ∨
        buffer'.take n = rtpPacket seq ts data ∧ buffer'.drop n = buffer.drop n ∧ seq' = (seq + 1) % 65536 ∧
        ∀ first l, first.Wf → Legal (after none first) l → data = midiList first l → (∀ s, first ≠ .single s) →
          (∀ x ∈ l, x.cont = [] ∧ ∀ s, x.cmd ≠ .single s) →
          process (buffer'.take n) n = some (.ok, stream first l, some seq))

private theorem be32_ssrc : be32 ssrc = [0x9E, 0x91, 0x51, 0x50] := by decide

private theorem header_eq {seq ts : Nat} (hs : seq < 65536) (ht : ts < 2 ^ 32) :
    [0x80, 0x61, seq / 256 % 256, seq % 256] ++ be32 ts ++ be32 ssrc = rtpHeader seq ts := by
  rw [be32_ssrc]
  have h1 : seq / 256 % 256 = seq / 256 := by omega
  have h2 : ts / 2 ^ 24 % 256 = ts / 2 ^ 24 := by omega
  simp only [be32, rtpHeader, h1, h2]

private theorem or_0x80 (k : Nat) (h : k < 16) : 0x80 ||| k = 128 + k := by
  have : ∀ k < 16, 0x80 ||| k = 128 + k := by decide
  exact this k h

private theorem command_eq {n : Nat} (h : n < 4096) :
    (if (decide (n > 0x0F)) = true then [0x80 ||| n / 256 % 256, n % 256] else [n % 16]) = commandHeader n := by
  unfold commandHeader
  by_cases e : n < 16
  · rw [if_neg (by simp; omega), if_pos e, Nat.mod_eq_of_lt e]
  · rw [if_pos (by simp; omega), if_neg e, show n / 256 % 256 = n / 256 by omega, or_0x80 _ (by omega)]

private theorem commandHeader_length (n : Nat) : (commandHeader n).length = if n < 16 then 1 else 2 := by
  unfold commandHeader; split <;> rfl

/-- Two adjacent stores are one. -/
private theorem store_append {b c x y : List Nat} {o : Nat} (h : store b o x = some c) (hy : o + x.length + y.length ≤ b.length) :
    store c (o + x.length) y = store b o (x ++ y) := by
  unfold store at h
  split at h
  · rename_i hl
    simp only [Option.some.injEq] at h
    subst h
    unfold store
    have l1 : (b.take o).length = o := by simp; omega
    rw [if_pos (by simp; omega), if_pos (by simp; omega)]
    have t : (b.take o ++ x ++ b.drop (o + x.length)).take (o + x.length) = b.take o ++ x := by
      rw [List.take_left' (by simp; omega)]
    have d : (b.take o ++ x ++ b.drop (o + x.length)).drop (o + x.length + y.length) = b.drop (o + (x ++ y).length) := by
      rw [← List.drop_drop, List.drop_left' (by simp; omega), List.drop_drop]
      simp [Nat.add_assoc]
    rw [t, d]
    simp
  · cases h

private theorem store_some {b x : List Nat} {o : Nat} (h : o + x.length ≤ b.length) : ∃ c, store b o x = some c ∧ c.length = b.length := by
  unfold store
  rw [if_pos h]
  refine ⟨_, rfl, ?_⟩
  simp; omega

private theorem store_zero {b x : List Nat} (h : x.length ≤ b.length) : store b 0 x = some (x ++ b.drop x.length) := by
  unfold store
  rw [if_pos (by omega)]
  simp

/-- **C49** (layout).  Up to 4095 MIDI bytes into a buffer with room for them: the packet is written at its start — header,
sequence number, length and the bytes — nothing behind it is touched, and the sequence number advances by one. -/
theorem C49_layout {seq ts bufferLength : Nat} {data buffer : List Nat} (hs : seq < 65536) (ht : ts < 2 ^ 32)
    (hd : data.length < 4096) (hb : bufferLength ≤ buffer.length)
    (hn : (rtpPacket seq ts data).length ≤ bufferLength) :
    ∃ buffer', pack seq ts (some data) data.length buffer bufferLength =
        some ((rtpPacket seq ts data).length, buffer', (seq + 1) % 65536) ∧
      buffer' = rtpPacket seq ts data ++ buffer.drop (rtpPacket seq ts data).length := by
  have lh : (rtpHeader seq ts).length = 12 := rfl
  have lc := commandHeader_length data.length
  have lp : (rtpPacket seq ts data).length = 12 + (if data.length < 16 then 1 else 2) + data.length := by
    simp only [rtpPacket, List.length_append, lh, lc]
  obtain ⟨b1, s1, l1⟩ := store_some (b := buffer) (x := rtpHeader seq ts) (o := 0) (by omega)
  obtain ⟨b2, s2, l2⟩ := store_some (b := b1) (x := commandHeader data.length) (o := 12) (by rw [lc, l1]; omega)
  have e2 : store buffer 0 (rtpHeader seq ts ++ commandHeader data.length) = some b2 := by
    rw [← s2, ← store_append s1 (by simp only [lh, lc]; omega), lh]
  have hlong : (if (decide (data.length > 0x0F)) = true then 2 else 1) = (commandHeader data.length).length := by
    rw [lc]
    by_cases e : data.length < 16
    · rw [if_neg (by simp; omega), if_pos e]
    · rw [if_pos (by simp; omega), if_neg e]
  have hmod : (12 + (commandHeader data.length).length + data.length) % 65536 = (rtpPacket seq ts data).length := by
    rw [lp, lc]; split <;> omega
  have e3 : (if data.length > 0 then
      (if data.length < data.length then none
        else store b2 (12 + (commandHeader data.length).length) (data.take data.length)) else some b2) =
      some (rtpPacket seq ts data ++ buffer.drop (rtpPacket seq ts data).length) := by
    by_cases z : data.length > 0
    · rw [if_pos z, if_neg (by omega), List.take_length]
      have := store_append (y := data) e2 (by simp only [List.length_append, lh, lc]; omega)
      simp only [List.length_append, lh, Nat.zero_add] at this
      rw [this, store_zero (by simp only [List.length_append, lh, lc]; omega)]
      rfl
    · have : data = [] := List.length_eq_zero_iff.1 (by omega)
      subst this
      rw [if_neg z, ← e2, store_zero (by simp only [List.length_append, lh, lc]; omega)]
      simp [rtpPacket]
  refine ⟨_, ?_, rfl⟩
  unfold pack
  rw [if_neg (by simp), if_neg (by omega), header_eq hs ht, s1]
  simp only
  rw [command_eq hd, hlong, hmod, if_neg (by omega), s2]
  simp only
  rw [e3]

/-- **C49** (refusal).  More than 4095 bytes, or a buffer of at least 12 bytes that is too small: the result is 0, the
sequence number stays, and nothing behind the first 12 bytes of the buffer is touched. -/
theorem C49_refused {seq ts bufferLength : Nat} {data buffer : List Nat} (hb : bufferLength ≤ buffer.length)
    (h12 : 12 ≤ bufferLength)
    (h : 4096 ≤ data.length ∨ (data.length < 4096 ∧ bufferLength < (rtpPacket seq ts data).length)) :
    ∃ buffer', pack seq ts (some data) data.length buffer bufferLength = some (0, buffer', seq) ∧
      buffer'.drop 12 = buffer.drop 12 := by
  have lc := commandHeader_length data.length
  have lp : (rtpPacket seq ts data).length = 12 + (if data.length < 16 then 1 else 2) + data.length := by
    simp only [rtpPacket, List.length_append, lc]
    rfl
  unfold pack
  rw [if_neg (by simp)]
  by_cases e : data.length > 0x0FFF
  · rw [if_pos e]; exact ⟨_, rfl, rfl⟩
  · rw [if_neg e]
    have hlt : bufferLength < (rtpPacket seq ts data).length := by omega
    rw [store_zero (by simp [be32]; omega)]
    simp only
    rw [if_pos]
    · refine ⟨_, rfl, ?_⟩
      simp [be32]
    · by_cases z : data.length < 16
      · rw [if_pos z] at lp
        rw [if_neg (by simp; omega)]; omega
      · rw [if_neg z] at lp
        rw [if_pos (by simp; omega)]; omega

/-- **C49** (decoding back).  A packet with a decodable list (C48) of fewer than 256 bytes is decoded to its messages and
its sequence number by the same implementation.  Missing from the full statement: 256 bytes and more
(`C49_long_not_decoded`), and buffers of fewer than 12 bytes (`C49_violated`). -/
theorem C49_round_trip_partial {seq ts : Nat} {first : Cmd} {l : List Item} (hs : seq < 65536) (ht : ts < 2 ^ 32)
    (hf : first.Wf) (hsi : ∀ s, first = .single s → s = 0xFF) (hl : Legal (after none first) l) (hd : Decodable true l)
    (hn : (midiList first l).length < 256) :
    process (rtpPacket seq ts (midiList first l)) (rtpPacket seq ts (midiList first l)).length =
      some (.ok, stream first l, some seq) := by
  have hh : Header (midiList first l).length (commandHeader (midiList first l).length) := by
    unfold commandHeader
    generalize (midiList first l).length = n at *
    split
    · have := Header.short (n := n) 0 (by simp) (by omega)
      simpa using this
    · have := Header.long (n := n) 0 (by simp) (by omega)
      simpa using this
  have hb : ∀ b ∈ rtpHeader seq ts, b < 256 := by
    intro b hb
    simp only [rtpHeader, List.cons_append, List.nil_append, List.mem_cons, List.not_mem_nil, or_false] at hb
    omega
  have := C48_decode_partial (head := rtpHeader seq ts) (journal := []) (stale := []) rfl hb hf hsi hl hd hn hh
  simp only [List.append_nil] at this
  rw [rtpPacket, this]
  simp only [seqOf, rtpHeader, List.cons_append, List.getD_cons_succ, List.getD_cons_zero]
  congr 3
  rw [Option.some.injEq]
  omega

/-- **C49** (what the device sends).  An exclusive message with up to 253 data bytes — all that `midi_tx` sends — is
decoded back. -/
theorem C49_own_messages {seq ts : Nat} {d : List Nat} (hs : seq < 65536) (ht : ts < 2 ^ 32) (hd : ∀ b ∈ d, b < 128)
    (hn : d.length ≤ 253) :
    process (rtpPacket seq ts (0xF0 :: d ++ [0xF7])) (rtpPacket seq ts (0xF0 :: d ++ [0xF7])).length =
      some (.ok, 0xF0 :: d ++ [0xF7], some seq) := by
  have := C49_round_trip_partial (seq := seq) (ts := ts) (first := .sysex d) (l := []) hs ht hd (by simp) trivial trivial
    (by simp [midiList, Cmd.bytes]; omega)
  simpa [midiList, stream, Cmd.bytes] using this

/-- **C49** (long data).  Packets with 256 to 4095 MIDI bytes are packed but never decoded by the same implementation. -/
theorem C49_long_not_decoded {seq ts : Nat} {data : List Nat} (hn : 256 ≤ data.length) (hn' : data.length < 4096) :
    process (rtpPacket seq ts data) (rtpPacket seq ts data).length = some (.lengthMismatch, [], none) := by
  have lc := commandHeader_length data.length
  rw [if_neg (by omega)] at lc
  have lp : (rtpPacket seq ts data).length = 14 + data.length := by
    simp only [rtpPacket, List.length_append, lc]; rfl
  have := C48_long_list_rejected (head := rtpHeader seq ts) (list := data) (rest := []) (flags := 0)
    (len := 14 + data.length) rfl (by omega) hn hn' (by omega) (by omega)
  rw [lp]
  unfold rtpPacket commandHeader
  rw [if_neg (by omega)]
  simpa using this

/-- **C49** is false: in a buffer of fewer than 12 bytes the header is written beyond its end, whatever the data (the only
caller, `comm_megawifi_write`, has 256 bytes more than the data). -/
theorem C49_violated : ¬C49_statement ∧
    ∀ (seq ts bufferLength : Nat) (data buffer : List Nat), data.length < 4096 → buffer.length < 12 →
      pack seq ts (some data) data.length buffer bufferLength = none := by
  have k : ∀ (seq ts bufferLength : Nat) (data buffer : List Nat), data.length < 4096 → buffer.length < 12 →
      pack seq ts (some data) data.length buffer bufferLength = none := by
    intro seq ts n data buffer hd hb
    unfold pack
    rw [if_neg (by simp), if_neg (by omega)]
    have : store buffer 0 ([0x80, 0x61, seq / 256 % 256, seq % 256] ++ be32 ts ++ be32 ssrc) = none := by
      unfold store
      rw [if_neg (by simp [be32]; omega)]
    rw [this]
  refine ⟨fun h => ?_, k⟩
  obtain ⟨n, b, q, e, -⟩ := h 0 0 [] [] (by omega) (by omega) (by simp)
  rw [k 0 0 _ [] [] (by simp) (by simp)] at e
  cases e

/-- A pong of the device in a buffer with four bytes to spare, and back. -/
example : pack 0x1FF 0x01020304 (some [0xF0, 0, 0x22, 0x77, 2, 0xF7]) 6 (List.replicate 23 0xEE) 23 =
      some (19, [0x80, 97, 1, 0xFF, 1, 2, 3, 4, 0x9E, 0x91, 0x51, 0x50, 6, 0xF0, 0, 0x22, 0x77, 2, 0xF7, 0xEE, 0xEE, 0xEE, 0xEE], 0x200) ∧
    process [0x80, 97, 1, 0xFF, 1, 2, 3, 4, 0x9E, 0x91, 0x51, 0x50, 6, 0xF0, 0, 0x22, 0x77, 2, 0xF7] 19 =
      some (.ok, [0xF0, 0, 0x22, 0x77, 2, 0xF7], some 0x1FF) := by
  decide +kernel

end Mdmi.Props
