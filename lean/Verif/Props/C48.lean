import Verif.Proofs.Rtp
/-! C48: decoding of RTP-MIDI packets. -/
namespace Mdmi.Props
open Mdmi Mdmi.Rtp

/-- The full statement of C48: a packet with any legal list of MIDI messages, in a buffer with any other bytes behind it,
emits exactly these messages with their status bytes and notes the sequence number.  (As the bytes behind the packet
are arbitrary and may be none at all, nothing outside the packet is read.) -/
def C48_statement : Prop :=
  ∀ (head hdr journal stale : List Nat) (first : Cmd) (l : List Item),
    head.length = 12 → (∀ b ∈ head, b < 256) → first.Wf → Legal (after none first) l →
    Header (midiList first l).length hdr →
    process (head ++ hdr ++ midiList first l ++ journal ++ stale)
      (head ++ hdr ++ midiList first l ++ journal).length = some (.ok, stream first l, some (seqOf head))

/-- Lists the decoder reads: no message of a single byte but reset; no delta time byte that looks like an exclusive or
reset byte (F0, F7, FF); and from a delta time of more than one byte on, no running status until the next channel message. -/
def Decodable (runningAllowed : Bool) : List Item → Prop
  | [] => True
  | x :: l => (∀ s, x.cmd = .single s → s = 0xFF) ∧ (∀ b ∈ x.cont, b ≠ 0xF0 ∧ b ≠ 0xF7 ∧ b ≠ 0xFF) ∧
      (x.explicit = true ∨ (runningAllowed = true ∧ x.cont = [])) ∧
      Decodable (match x.cmd with | .msg _ _ => true | _ => runningAllowed && x.cont.isEmpty) l

private theorem readable : ∀ (l : List Item) (k : Bool), Decodable k l → Readable k l := by
  intro l
  induction l with
  | nil => intro _ _; trivial
  | cons x l ih => intro k h; exact ⟨h.1, h.2.1, h.2.2.1, ih _ h.2.2.2⟩

private theorem read_list {head stale journal list out : List Nat} {b0 : Nat} (rest : List Nat) (hh : head.length = 12)
    (hb : ∀ b ∈ head, b < 256) (n : Nat)
    (hl : (if isLongHeader b0 then rest.head?.map (twelveBitLength b0 ·) else some (fourBitLength b0)) = some n)
    (hn : n = list.length) (hr : (if isLongHeader b0 then rest.drop 1 else rest) = list ++ (journal ++ stale))
    (hw : walk (journal ++ stale).length 0 false (list ++ (journal ++ stale)) = some out)
    (len : Nat) (hlen : len = 12 + (if isLongHeader b0 then 2 else 1) + list.length + journal.length) :
    process (head ++ b0 :: rest) len = some (.ok, out, some (seqOf head)) := by
  have h2 : head[2]? = some (head.getD 2 0) := by
    rw [List.getD_eq_getElem?_getD, List.getElem?_eq_getElem (by omega)]; rfl
  have h3 : head[3]? = some (head.getD 3 0) := by
    rw [List.getD_eq_getElem?_getD, List.getElem?_eq_getElem (by omega)]; rfl
  have l2 : head.getD 2 0 < 256 := hb _ (List.mem_of_getElem? h2)
  have l3 : head.getD 3 0 < 256 := hb _ (List.mem_of_getElem? h3)
  have e2 : (head ++ b0 :: rest)[2]? = some (head.getD 2 0) := by
    rw [List.getElem?_append_left (by omega)]; exact h2
  have e3 : (head ++ b0 :: rest)[3]? = some (head.getD 3 0) := by
    rw [List.getElem?_append_left (by omega)]; exact h3
  have ed : (head ++ b0 :: rest).drop 12 = b0 :: rest := List.drop_left' hh
  unfold process
  rw [if_neg (by rw [hlen]; split <;> omega)]
  simp only [e2, e3, ed, hl]
  rw [if_neg (by rw [hlen]; split <;> omega), hr, hn]
  have : (list ++ (journal ++ stale)).length - list.length = (journal ++ stale).length := by simp
  rw [this, loop_walk (Nat.le_refl _), hw]
  simp only [Option.map_some, seqOf]
  rw [Nat.mod_eq_of_lt (by omega)]

private theorem framed {head hdr journal stale m out : List Nat} (hh : head.length = 12) (hb : ∀ b ∈ head, b < 256)
    (hn : m.length < 256) (hhdr : Header m.length hdr)
    (w : walk (journal ++ stale).length 0 false (m ++ (journal ++ stale)) = some out) :
    process (head ++ hdr ++ m ++ journal ++ stale) (head ++ hdr ++ m ++ journal).length = some (.ok, out, some (seqOf head)) := by
  cases hhdr with
  | short flags h h16 =>
    have hf : flags ≤ 5 := by simp at h; omega
    have hlong : isLongHeader (flags * 16 + m.length) = false := by
      simp only [isLongHeader, decide_eq_false_iff_not, ne_eq, Decidable.not_not]; omega
    have e : head ++ [flags * 16 + m.length] ++ m ++ journal ++ stale =
        head ++ (flags * 16 + m.length) :: (m ++ (journal ++ stale)) := by simp
    rw [e]
    refine read_list (m ++ (journal ++ stale)) hh hb m.length ?_ rfl ?_ w _ ?_
    · rw [hlong]; simp only [fourBitLength, Bool.false_eq_true, if_false, Option.some.injEq]; omega
    · rw [hlong]; simp
    · rw [hlong]; simp [hh]; omega
  | long flags h h4 =>
    have hf : flags ≤ 5 := by simp at h; omega
    have hz : m.length / 256 = 0 := by omega
    have hlong : isLongHeader (128 + flags * 16 + m.length / 256) = true := by
      simp only [isLongHeader, decide_eq_true_eq, ne_eq]; omega
    have e : head ++ [128 + flags * 16 + m.length / 256, m.length % 256] ++ m ++ journal ++ stale =
        head ++ (128 + flags * 16 + m.length / 256) :: (m.length % 256 :: (m ++ (journal ++ stale))) := by simp
    rw [e]
    refine read_list (m.length % 256 :: (m ++ (journal ++ stale))) hh hb m.length ?_ rfl ?_ w _ ?_
    · rw [hlong]; simp only [twelveBitLength, if_true, List.head?_cons, Option.map_some, Option.some.injEq]; omega
    · rw [hlong]; simp
    · rw [hlong]; simp [hh]; omega

/-- **C48** (decodable lists).  A packet with a list of fewer than 256 bytes that is decodable in the above sense emits
exactly its messages, in order, with their status bytes; nothing outside the packet is read, whatever stands behind it.
Missing from the full statement (`C48_statement`, false by `C48_violated`): longer lists, messages of a single byte other
than reset, running status after longer delta times. -/
theorem C48_decode_partial {head hdr journal stale : List Nat} {first : Cmd} {l : List Item} (hh : head.length = 12)
    (hb : ∀ b ∈ head, b < 256) (hf : first.Wf) (hs : ∀ s, first = .single s → s = 0xFF)
    (hl : Legal (after none first) l) (hd : Decodable true l) (hn : (midiList first l).length < 256)
    (hhdr : Header (midiList first l).length hdr) :
    process (head ++ hdr ++ midiList first l ++ journal ++ stale)
      (head ++ hdr ++ midiList first l ++ journal).length = some (.ok, stream first l, some (seqOf head)) := by
  exact framed hh hb hn hhdr (walk_midiList (j := journal ++ stale) hf hs hl (readable l true hd))

/-- The full statement for exclusive messages in segments, which a sender may spread over packets: the stream of the packets
together is the message.  (A first segment ends with F0, the others begin with F7; the last ends with F7.) -/
def C48_segments_statement : Prop :=
  ∀ (head hdr hdr' d d' : List Nat), head.length = 12 → (∀ b ∈ head, b < 256) → (∀ b ∈ d ++ d', b < 128) →
    Header (0xF0 :: d ++ [0xF0]).length hdr → Header (0xF7 :: d' ++ [0xF7]).length hdr' →
    ∃ a b, process (head ++ hdr ++ (0xF0 :: d ++ [0xF0])) (head ++ hdr ++ (0xF0 :: d ++ [0xF0])).length =
        some (.ok, a, some (seqOf head)) ∧
      process (head ++ hdr' ++ (0xF7 :: d' ++ [0xF7])) (head ++ hdr' ++ (0xF7 :: d' ++ [0xF7])).length =
        some (.ok, b, some (seqOf head)) ∧ a ++ b = (Cmd.sysex (d ++ d')).bytes

/-- **C48** (segments).  A packet with the first segment of an exclusive message emits it as a complete message; packets with
middle and last segments emit nothing.  Nothing outside the packets is read. -/
theorem C48_segments {head hdr journal stale d : List Nat} {m : Nat} (hh : head.length = 12) (hb : ∀ b ∈ head, b < 256)
    (hd : ∀ b ∈ d, b < 128) (hn : d.length + 2 < 256) (hm : m = 0xF0 ∨ m = 0xF7) (hhdr : Header (d.length + 2) hdr) :
    process (head ++ hdr ++ (0xF0 :: d ++ [0xF0]) ++ journal ++ stale)
        (head ++ hdr ++ (0xF0 :: d ++ [0xF0]) ++ journal).length =
      some (.ok, (Cmd.sysex d).bytes, some (seqOf head)) ∧
    process (head ++ hdr ++ (0xF7 :: d ++ [m]) ++ journal ++ stale)
        (head ++ hdr ++ (0xF7 :: d ++ [m]) ++ journal).length =
      some (.ok, [], some (seqOf head)) := by
  have l1 : (0xF0 :: d ++ [0xF0]).length = d.length + 2 := by simp
  have l2 : (0xF7 :: d ++ [m]).length = d.length + 2 := by simp
  refine ⟨framed hh hb (by omega) (by rw [l1]; exact hhdr) ?_, framed hh hb (by omega) (by rw [l2]; exact hhdr) ?_⟩
  · have e : 0xF0 :: d ++ [0xF0] ++ (journal ++ stale) = 0xF0 :: d ++ 0xF0 :: (journal ++ stale) := by simp
    rw [e, walk_segment (by simp; omega) (.inl rfl) hd, walk_end (by simp)]
    simp [Cmd.bytes]
  · have e : 0xF7 :: d ++ [m] ++ (journal ++ stale) = 0xF7 :: d ++ m :: (journal ++ stale) := by simp
    rw [e, walk_rest (by simp; omega) hm hd, walk_end (by simp)]

/-- So an exclusive message that comes in two segments is cut off: the statement for segments is false. -/
theorem C48_segments_violated : ¬C48_segments_statement := by
  intro h
  obtain ⟨a, b, h1, h2, h3⟩ := h (List.replicate 12 0) [3] [3] [1] [2] (by simp) (by simp) (by simp)
    (by have := Header.short (n := 3) 0 (by simp) (by omega); exact this)
    (by have := Header.short (n := 3) 0 (by simp) (by omega); exact this)
  have e1 : process (List.replicate 12 0 ++ [3] ++ (0xF0 :: [1] ++ [0xF0])) (List.replicate 12 0 ++ [3] ++ (0xF0 :: [1] ++ [0xF0])).length =
      some (.ok, [0xF0, 1, 0xF7], some 0) := by decide +kernel
  have e2 : process (List.replicate 12 0 ++ [3] ++ (0xF7 :: [2] ++ [0xF7])) (List.replicate 12 0 ++ [3] ++ (0xF7 :: [2] ++ [0xF7])).length =
      some (.ok, [], some 0) := by decide +kernel
  rw [e1] at h1
  rw [e2] at h2
  simp only [Option.some.injEq, Prod.mk.injEq, true_and] at h1 h2
  rw [← h1.1, ← h2.1] at h3
  simp [Cmd.bytes] at h3

/-- **C48** (long lists).  A packet of up to 4109 bytes — any UDP datagram the receive buffer takes — with a list of 256
bytes or more is rejected whole: nothing is emitted and the sequence number is not noted. -/
theorem C48_long_list_rejected {head list rest : List Nat} {flags len : Nat} (hh : head.length = 12) (hb : flags < 8)
    (hn : 256 ≤ list.length) (hn' : list.length < 4096) (hlen : 13 ≤ len) (hlen' : len ≤ 4109) :
    process (head ++ [128 + flags * 16 + list.length / 256, list.length % 256] ++ list ++ rest) len =
      some (.lengthMismatch, [], none) := by
  have h2 : head[2]? = some head[2] := List.getElem?_eq_getElem (by omega)
  have h3 : head[3]? = some head[3] := List.getElem?_eq_getElem (by omega)
  have e : head ++ [128 + flags * 16 + list.length / 256, list.length % 256] ++ list ++ rest =
      head ++ (128 + flags * 16 + list.length / 256) :: (list.length % 256 :: (list ++ rest)) := by simp
  rw [e]
  generalize hb0 : 128 + flags * 16 + list.length / 256 = b0
  have hlong : isLongHeader b0 = true := by simp only [isLongHeader, decide_eq_true_eq, ne_eq]; omega
  have e2 : (head ++ b0 :: (list.length % 256 :: (list ++ rest)))[2]? = some head[2] := by
    rw [List.getElem?_append_left (by omega)]; exact h2
  have e3 : (head ++ b0 :: (list.length % 256 :: (list ++ rest)))[3]? = some head[3] := by
    rw [List.getElem?_append_left (by omega)]; exact h3
  have ed : (head ++ b0 :: (list.length % 256 :: (list ++ rest))).drop 12 = b0 :: (list.length % 256 :: (list ++ rest)) :=
    List.drop_left' hh
  unfold process
  rw [if_neg (by omega)]
  simp only [e2, e3, ed, hlong, if_true, List.head?_cons, Option.map_some]
  rw [if_pos]
  simp only [twelveBitLength]
  omega

/-- **C48** (short packets).  A packet of fewer than 13 bytes is rejected without being read. -/
theorem C48_short_packet_rejected (buffer : List Nat) {len : Nat} (h : len < 13) :
    process buffer len = some (.headerTooShort, [], none) := by
  unfold process; rw [if_pos (by omega)]

/-- A packet header with sequence number 0x0102. -/
def rtpHead : List Nat := [0x80, 0x61, 1, 2, 0, 0, 0, 0, 0, 0, 0, 0]

/-- **C48** is false.  A note with running status behind a two-byte delta time comes out as another message; a timing clock
before a note swallows the note's delta time and status, and the decoder runs over the end of the packet.  (For lists of
256 bytes or more see `C48_long_list_rejected`.) -/
theorem C48_violated : ¬C48_statement ∧
    process (rtpHead ++ [8, 0x90, 60, 100, 0x81, 0, 64, 100, 0]) 21 =
      some (.ok, [0x90, 60, 100, 0x81, 64, 100], some 0x102) ∧
    process (rtpHead ++ [5, 0xF8, 0, 0x90, 60, 100]) 18 = none ∧
    process (rtpHead ++ [5, 0xF8, 0, 0x90, 60, 100] ++ [0x55]) 18 = some (.ok, [0xF8, 0, 0x90, 0xF8, 100, 0x55], some 0x102) := by
  refine ⟨fun h => ?_, by decide +kernel, by decide +kernel, by decide +kernel⟩
  have := h rtpHead [7] [] [] (.msg 0x90 [60, 100]) [⟨[0x81], 0, .msg 0x90 [64, 100], false⟩] rfl (by decide)
    (by simp [Cmd.Wf, dataCount]) (by simp [Legal, Item.Wf, Cmd.Wf, dataCount, after])
    (by have := Header.short (n := 7) 0 (by simp) (by omega); exact this)
  revert this
  decide +kernel

/-- **C48** (reading outside the packet).  An unterminated exclusive message, and a note cut short, are read on beyond the
end of the packet: with nothing behind it that is undefined, with other bytes behind it these are emitted. -/
theorem C48_overread :
    process (rtpHead ++ [3, 0xF0, 1, 2]) 16 = none ∧
    process (rtpHead ++ [3, 0xF0, 1, 2] ++ [0x11, 0x22, 0xF7]) 16 = some (.ok, [0xF0, 1, 2, 0x11, 0x22, 0xF7], some 0x102) ∧
    process (rtpHead ++ [2, 0x90, 60]) 15 = none ∧
    process (rtpHead ++ [2, 0x90, 60] ++ [0x55]) 15 = some (.ok, [0x90, 60, 0x55], some 0x102) := by
  decide +kernel

/-- A note, a second with running status, an exclusive message, a program change after a long delta time and its running
status successor; a journal behind the list. -/
example : let l : List Item := [⟨[], 5, .msg 0x90 [64, 100], false⟩, ⟨[], 0, .sysex [1, 2, 3], true⟩,
      ⟨[0x83, 0x80], 1, .msg 0xC1 [7], true⟩, ⟨[], 0, .msg 0xC1 [8], false⟩, ⟨[], 0, .single 0xFF, true⟩]
    let first := Cmd.msg 0x90 [60, 100]
    Legal (after none first) l ∧ Decodable true l ∧ (midiList first l).length = 21 ∧
      process (rtpHead ++ [0xC0, 21] ++ midiList first l ++ [0x20, 0, 0]) 38 =
        some (.ok, [0x90, 60, 100, 0x90, 64, 100, 0xF0, 1, 2, 3, 0xF7, 0xC1, 7, 0xC1, 8, 0xFF], some 0x102) := by
  refine ⟨by simp [Legal, Item.Wf, Cmd.Wf, dataCount, after], by simp [Decodable], by decide +kernel, by decide +kernel⟩

/-- The two halves of an exclusive message. -/
example : process (rtpHead ++ [4] ++ (0xF0 :: [1, 2] ++ [0xF0]) ++ [9] ++ [7]) 18 = some (.ok, [0xF0, 1, 2, 0xF7], some 0x102) ∧
    process (rtpHead ++ [4] ++ (0xF7 :: [3, 4] ++ [0xF7]) ++ [9] ++ [7]) 18 = some (.ok, [], some 0x102) := by decide +kernel

end Mdmi.Props
