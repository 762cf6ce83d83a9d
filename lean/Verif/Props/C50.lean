import Verif.Proofs.WifiAck
/-! C50: the AppleMIDI session protocol, for every packet and in the running driver. -/
namespace Mdmi.Props
open Mdmi Mdmi.Wifi

/-- The answer to an invitation: accepted, protocol version 2, the initiator's token, our identifier, and the name
"MegaDrive" padded to 16 bytes. -/
def acceptance (token : List Nat) : List Nat :=
  [0xFF, 0xFF, 0x4F, 0x4B, 0, 0, 0, 2] ++ token ++ [0x9E, 0x91, 0x51, 0x50] ++
    [0x4D, 0x65, 0x67, 0x61, 0x44, 0x72, 0x69, 0x76, 0x65, 0, 0, 0, 0, 0, 0, 0]

/-- An invitation: any version, token and sender, and a name with its terminating zero. -/
structure Invitation where
  version : List Nat
  token : List Nat
  sender : List Nat
  name : List Nat
  hv : version.length = 4
  ht : token.length = 4
  hs : sender.length = 4
  hn : 1 ≤ name.length

/-- The packet. -/
def Invitation.bytes (i : Invitation) : List Nat := [0xFF, 0xFF, 0x49, 0x4E] ++ i.version ++ i.token ++ i.sender ++ i.name

/-- A clock packet: sender, count, padding and three time stamps of eight bytes. -/
def clockPacket (sender : List Nat) (count : Nat) (padding t1hi t1lo t2 t3 : List Nat) : List Nat :=
  [0xFF, 0xFF, 0x43, 0x4B] ++ sender ++ [count] ++ padding ++ t1hi ++ t1lo ++ t2 ++ t3

/-- Big-endian value. -/
def beValue (b : List Nat) : Nat := b.foldl (fun n x => n * 256 + x) 0

private theorem four_of_length {l : List Nat} (h : l.length = 4) : ∃ a b c d, l = [a, b, c, d] := by
  match l, h with
  | [a, b, c, d], _ => exact ⟨a, b, c, d, rfl⟩

private theorem three_of_length {l : List Nat} (h : l.length = 3) : ∃ a b c, l = [a, b, c] := by
  match l, h with
  | [a, b, c], _ => exact ⟨a, b, c, rfl⟩

private theorem eight_of_length {l : List Nat} (h : l.length = 8) :
    ∃ a b c d e f g i, l = [a, b, c, d, e, f, g, i] := by
  match l, h with
  | [a, b, c, d, e, f, g, i], _ => exact ⟨a, b, c, d, e, f, g, i, rfl⟩

private theorem invitation_processed (i : Invitation) (rest : List Nat) (ch : Nat) (hl : 32 ≤ (i.bytes ++ rest).length) :
    AppleMidi.processInvitation ch (i.bytes ++ rest) i.bytes.length = some (.ok, [(ch, acceptance i.token)]) := by
  obtain ⟨v, t, s, n, hv, ht, hs, hn⟩ := i
  obtain ⟨v0, v1, v2, v3, rfl⟩ := four_of_length hv
  obtain ⟨t0, t1, t2, t3, rfl⟩ := four_of_length ht
  obtain ⟨s0, s1, s2, s3, rfl⟩ := four_of_length hs
  have e : AppleMidi.unpackInvitation (Invitation.bytes ⟨_, _, _, n, hv, ht, hs, hn⟩ ++ rest)
      (Invitation.bytes ⟨_, _, _, n, hv, ht, hs, hn⟩).length =
      some (.ok, (Invitation.bytes ⟨_, _, _, n, hv, ht, hs, hn⟩ ++ rest).take 32) := by
    unfold AppleMidi.unpackInvitation
    rw [if_neg (by simp [Invitation.bytes] at hn ⊢; omega), if_neg (by omega)]
    simp [Invitation.bytes]
  unfold AppleMidi.processInvitation
  rw [e]
  simp [Invitation.bytes, acceptance, AppleMidi.packInvitationResponse, Rtp.be32, Rtp.ssrc]

private theorem signature (r : List Nat) {n : Nat} (h : 2 ≤ n) : AppleMidi.hasSignature (0xFF :: 0xFF :: r) n = some true := by
  unfold AppleMidi.hasSignature
  rw [if_neg (by omega)]
  rfl

private theorem bytes_length (i : Invitation) : 17 ≤ i.bytes.length := by
  have := i.hv; have := i.ht; have := i.hs; have := i.hn
  simp [Invitation.bytes]; omega

/-- Every invitation is accepted with its own token, on the port it came from.  `rest` is what follows the packet in the
receive buffer; the code always copies 32 bytes. -/
theorem C50_invitation (i : Invitation) (rest : List Nat) (s : AppleMidi.St) (hl : 32 ≤ (i.bytes ++ rest).length) :
    AppleMidi.processControl (i.bytes ++ rest) i.bytes.length = some (.ok, false, [(1, acceptance i.token)]) ∧
    AppleMidi.processMidi s (i.bytes ++ rest) i.bytes.length = some (.ok, s, [(2, acceptance i.token)]) := by
  have h1 := invitation_processed i rest 1 hl
  have h2 := invitation_processed i rest 2 hl
  have h17 := bytes_length i
  have e : ∃ r, i.bytes ++ rest = 0xFF :: 0xFF :: 0x49 :: 0x4E :: r := ⟨_, by simp [Invitation.bytes]; rfl⟩
  obtain ⟨r, e⟩ := e
  rw [e] at h1 h2 ⊢
  unfold AppleMidi.processControl AppleMidi.processMidi
  rw [signature _ (by omega)]
  simp [h1, h2]

/-- A clock request (count 0) is answered once, on the MIDI port: count 1, our identifier, the sender's first time stamp
and everything behind the second one as received, and as second time stamp the first one plus 10 in its low half (the
carry into the high half is lost).  The stamp is kept for the packets we send. -/
theorem C50_clock_request {sender padding t1hi t1lo t2 t3 : List Nat} (hs : sender.length = 4) (hp : padding.length = 3)
    (hh : t1hi.length = 4) (hl : t1lo.length = 4) (h2 : t2.length = 8) (h3 : t3.length = 8)
    (small : ∀ x ∈ t1hi ++ t1lo, x < 256) :
    ∃ t2lo, t2lo.length = 4 ∧ (∀ x ∈ t2lo, x < 256) ∧ beValue t2lo = (beValue t1lo + 10) % 2 ^ 32 ∧ ∀ rest s,
      AppleMidi.processMidi s (clockPacket sender 0 padding t1hi t1lo t2 t3 ++ rest) 36 =
        some (.ok, { s with tsHi := beValue t1hi, tsLo := beValue t2lo },
          [(2, clockPacket [0x9E, 0x91, 0x51, 0x50] 1 padding t1hi t1lo (t1hi ++ t2lo) t3)]) := by
  obtain ⟨s0, s1, s2, s3, rfl⟩ := four_of_length hs
  obtain ⟨p0, p1, p2, rfl⟩ := three_of_length hp
  obtain ⟨a0, a1, a2, a3, rfl⟩ := four_of_length hh
  obtain ⟨b0, b1, b2, b3, rfl⟩ := four_of_length hl
  obtain ⟨c0, c1, c2, c3, c4, c5, c6, c7, rfl⟩ := eight_of_length h2
  obtain ⟨d0, d1, d2, d3, d4, d5, d6, d7, rfl⟩ := eight_of_length h3
  simp only [List.cons_append, List.nil_append, List.mem_cons, List.not_mem_nil, or_false, forall_eq_or_imp, forall_eq] at small
  obtain ⟨l0, l1, l2, l3, l4, l5, l6, l7⟩ := small
  refine ⟨Rtp.be32 ((beValue [b0, b1, b2, b3] + 10) % 2 ^ 32), rfl, ?_, ?_, ?_⟩
  · intro x hx
    simp only [Rtp.be32, List.mem_cons, List.not_mem_nil, or_false] at hx
    rcases hx with rfl | rfl | rfl | rfl <;> omega
  · simp only [Rtp.be32, beValue, List.foldl_cons, List.foldl_nil]; omega
  · intro rest s
    have e : Rtp.be32 (((a0 * 256 + a1) * 256 + a2) * 256 + a3) = [a0, a1, a2, a3] := by
      simp only [Rtp.be32, List.cons.injEq, and_true]
      refine ⟨by omega, by omega, by omega, by omega⟩
    have e' : beValue (Rtp.be32 ((beValue [b0, b1, b2, b3] + 10) % 2 ^ 32)) = (beValue [b0, b1, b2, b3] + 10) % 2 ^ 32 := by
      simp only [Rtp.be32, beValue, List.foldl_cons, List.foldl_nil]; omega
    rw [e']
    have eb : beValue [b0, b1, b2, b3] = ((b0 * 256 + b1) * 256 + b2) * 256 + b3 := by simp [beValue]
    have ea : beValue [a0, a1, a2, a3] = ((a0 * 256 + a1) * 256 + a2) * 256 + a3 := by simp [beValue]
    rw [eb, ea]
    unfold AppleMidi.processMidi
    simp only [clockPacket, List.cons_append, List.nil_append]
    rw [signature _ (by omega)]
    simp [AppleMidi.processTimestampSync, AppleMidi.val32, e]
    rfl

/-- A clock packet of another count, or one that is too short, is not answered and changes nothing. -/
theorem C50_other_clock_packets {p rest : List Nat} (s : AppleMidi.St) (hc : p.take 4 = [0xFF, 0xFF, 0x43, 0x4B])
    (hl : 36 ≤ (p ++ rest).length) (h : p.length < 36 ∨ p[8]? ≠ some 0) :
    ∃ r, AppleMidi.processMidi s (p ++ rest) p.length = some (r, s, []) := by
  match p, hc with
  | a :: b :: c :: d :: q, hc =>
    simp at hc
    obtain ⟨rfl, rfl, rfl, rfl⟩ := hc
    unfold AppleMidi.processMidi
    simp only [List.cons_append]
    rw [signature _ (by simp)]
    simp only [List.getElem?_cons_succ, List.getElem?_cons_zero]
    rw [if_neg (by decide), if_pos (by decide)]
    unfold AppleMidi.processTimestampSync
    split
    · exact ⟨_, rfl⟩
    · rename_i h36
      rw [if_neg (by simp at hl ⊢; omega)]
      rcases h with h | h
      · exact absurd h h36
      · simp only
        split
        · exact ⟨_, rfl⟩
        · rw [if_neg]
          · exact ⟨_, rfl⟩
          · intro e
            apply h
            rw [List.getD_eq_getElem?_getD, List.getElem?_take_of_lt (by omega)] at e
            simp only [List.getElem?_cons_succ] at e ⊢
            simp only [List.length_cons] at h36
            rw [List.getElem?_append_left (by omega)] at e
            rw [List.getElem?_eq_getElem (by omega)] at e ⊢
            simpa using e

private theorem signature_bytes {b : List Nat} {n : Nat} (h : AppleMidi.hasSignature b n = some true) :
    ∃ r, b = 0xFF :: 0xFF :: r := by
  unfold AppleMidi.hasSignature at h
  split at h
  · simp at h
  · split at h
    · simp at h
    · rename_i a r
      split at h
      · simp at h
      · rename_i ha
        simp at ha
        subst ha
        cases r with
        | nil => simp at h
        | cons c r => simp at h; exact ⟨r, by rw [h]⟩

private theorem invitation_long {b : List Nat} {n ch : Nat} {r : AppleMidi.Result} {l : List AppleMidi.Send}
    (h : AppleMidi.processInvitation ch b n = some (r, l)) (hl : l ≠ []) : 17 ≤ n := by
  unfold AppleMidi.processInvitation AppleMidi.unpackInvitation at h
  by_cases hn : n < 17
  · rw [if_pos hn] at h
    simp at h
    exact absurd h.2 hl
  · omega

private theorem control_answers {b : List Nat} {n : Nat} {r : AppleMidi.Result} {e : Bool} {l : List AppleMidi.Send}
    (h : AppleMidi.processControl b n = some (r, e, l)) (hl : l ≠ []) : 17 ≤ n ∧ b.take 4 = [0xFF, 0xFF, 0x49, 0x4E] := by
  unfold AppleMidi.processControl at h
  split at h
  · simp at h
  · simp at h; exact absurd h.2.2 hl
  · rename_i hs
    obtain ⟨q, rfl⟩ := signature_bytes hs
    split at h
    · rename_i a c ha hc
      match q with
      | [] => simp at ha
      | [x] => simp at hc
      | x :: y :: q =>
        simp at ha hc
        subst ha; subst hc
        split at h
        · rename_i hi
          obtain ⟨rfl, rfl⟩ := hi
          cases hp : AppleMidi.processInvitation 1 (0xFF :: 0xFF :: 0x49 :: 0x4E :: q) n with
          | none => rw [hp] at h; simp at h
          | some x =>
            rw [hp] at h
            obtain ⟨r', l'⟩ := x
            simp at h
            exact ⟨invitation_long hp (by rw [h.2.2]; exact hl), rfl⟩
        · split at h
          · simp at h; exact absurd h.2.2 hl
          · split at h
            · simp at h; exact absurd h.2.2 hl
            · simp at h; exact absurd h.2.2 hl
    · simp at h

private theorem midi_answers {s s' : AppleMidi.St} {b : List Nat} {n : Nat} {r : AppleMidi.Result} {l : List AppleMidi.Send}
    (h : AppleMidi.processMidi s b n = some (r, s', l)) (hl : l ≠ [] ∨ s' ≠ s) :
    17 ≤ n ∧ b.take 4 = [0xFF, 0xFF, 0x49, 0x4E] ∨ 36 ≤ n ∧ b.take 4 = [0xFF, 0xFF, 0x43, 0x4B] ∧ b[8]? = some 0 := by
  have hno : ∀ {x : AppleMidi.Result}, some (x, s, ([] : List AppleMidi.Send)) = some (r, s', l) → False := by
    intro x h
    simp at h
    rcases hl with hl | hl
    · exact hl h.2.2
    · exact hl h.2.1.symm
  unfold AppleMidi.processMidi at h
  split at h
  · simp at h
  · exact (hno h).elim
  · rename_i hs
    obtain ⟨q, rfl⟩ := signature_bytes hs
    split at h
    · rename_i a c ha hc
      match q with
      | [] => simp at ha
      | [x] => simp at hc
      | x :: y :: q =>
        simp at ha hc
        subst ha; subst hc
        split at h
        · rename_i hi
          obtain ⟨rfl, rfl⟩ := hi
          cases hp : AppleMidi.processInvitation 2 (0xFF :: 0xFF :: 0x49 :: 0x4E :: q) n with
          | none => rw [hp] at h; simp at h
          | some x =>
            rw [hp] at h
            obtain ⟨r', l'⟩ := x
            simp at h
            refine .inl ⟨invitation_long hp ?_, rfl⟩
            rcases hl with hl | hl
            · rw [h.2.2]; exact hl
            · exact absurd h.2.1.symm hl
        · split at h
          · rename_i hi
            obtain ⟨rfl, rfl⟩ := hi
            right
            unfold AppleMidi.processTimestampSync at h
            split at h
            · exact (hno h).elim
            · rename_i h36
              split at h
              · simp at h
              · rename_i hb
                simp only at h
                split at h
                · exact (hno h).elim
                · split at h
                  · rename_i hz
                    refine ⟨by omega, rfl, ?_⟩
                    rw [List.getD_eq_getElem?_getD, List.getElem?_take_of_lt (by omega)] at hz
                    rw [List.getElem?_eq_getElem (by omega)] at hz ⊢
                    simpa using hz
                  · exact (hno h).elim
          · exact (hno h).elim
    · simp at h

/-- A packet of 17 bytes and more that begins with `FF FF 'I' 'N'` is an invitation. -/
private theorem is_invitation {p : List Nat} (h : 17 ≤ p.length) (h4 : p.take 4 = [0xFF, 0xFF, 0x49, 0x4E]) :
    ∃ i : Invitation, p = i.bytes := by
  refine ⟨⟨(p.drop 4).take 4, (p.drop 8).take 4, (p.drop 12).take 4, p.drop 16, by simp; omega, by simp; omega,
    by simp; omega, by simp; omega⟩, ?_⟩
  simp only [Invitation.bytes, ← h4]
  have e : ∀ k, (p.drop k) = (p.drop k).take 4 ++ p.drop (k + 4) := fun k => by
    rw [← List.drop_drop, List.take_append_drop]
  have e0 := e 0
  have e4 := e 4
  have e8 := e 8
  have e12 := e 12
  simp only [List.drop_zero, Nat.zero_add] at e0 e4 e8 e12
  rw [List.append_assoc, List.append_assoc, List.append_assoc, ← e12, ← e8, ← e4, ← e0]

/-- Conversely only invitations are answered on the control port, and only `FF FF 'B' 'Y'` ends a session (packets of
two and three bytes excepted, see `C50_short_packet_ends_session`).  The processing is defined for every packet. -/
theorem C50_control_port {p rest : List Nat} (hl : 32 ≤ (p ++ rest).length) (h4 : p.length < 2 ∨ 4 ≤ p.length) :
    ∃ r e l, AppleMidi.processControl (p ++ rest) p.length = some (r, e, l) ∧
      (l ≠ [] → ∃ i : Invitation, p = i.bytes) ∧ (e = true ↔ p.take 4 = [0xFF, 0xFF, 0x42, 0x59]) := by
  rcases h4 with h4 | h4
  · refine ⟨.invalidSignature, false, [], ?_, by simp, ?_⟩
    · unfold AppleMidi.processControl AppleMidi.hasSignature
      rw [if_pos h4]
    · refine ⟨by simp, fun h => ?_⟩
      have := congrArg List.length h
      simp at this; omega
  · obtain ⟨r, e, l, h1, h2, h3⟩ := processControl_end h4 hl
    refine ⟨r, e, l, h1, fun hne => ?_, by rw [h2, List.take_append_of_le_length h4]⟩
    obtain ⟨a, b⟩ := control_answers h1 hne
    rw [List.take_append_of_le_length h4] at b
    exact is_invitation a b

/-- On the MIDI port only invitations and clock requests are answered or change anything. -/
theorem C50_midi_port {p rest : List Nat} {s s' : AppleMidi.St} {r : AppleMidi.Result} {l : List AppleMidi.Send}
    (h : AppleMidi.processMidi s (p ++ rest) p.length = some (r, s', l)) (hc : l ≠ [] ∨ s' ≠ s) :
    (∃ i : Invitation, p = i.bytes) ∨
      36 ≤ p.length ∧ p.take 4 = [0xFF, 0xFF, 0x43, 0x4B] ∧ p[8]? = some 0 := by
  rcases midi_answers h hc with ⟨a, b⟩ | ⟨a, b, c⟩
  · rw [List.take_append_of_le_length (by omega)] at b
    exact .inl (is_invitation a b)
  · rw [List.take_append_of_le_length (by omega)] at b
    rw [List.getElem?_append_left (by omega)] at c
    exact .inr ⟨a, b, c⟩

/-- In the running driver: if the transmit slot is free, an invitation is answered in the tick that follows it, and the
answer goes back to the address and port it came from. -/
theorem C50_invitation_answered {s : St} (h : Reached s) (hl : s.listening = true) (hf : slot s.out = .free)
    (ha : armed s.out = true) (i : Invitation) {hdr : List Nat} (hh : hdr.length = 6) (hi : i.bytes.length ≤ 1454)
    (hx : ∀ x ∈ hdr ++ i.bytes, x < 256) {ch : Nat} (hc : ch = 1 ∨ ch = 2) (b : Bool) :
    (run s [.recv ch (hdr ++ i.bytes), .tick true b]).out =
      [.arm b, .send ch (hdr ++ acceptance i.token) true, .submit ch (acceptance i.token), .process ch i.bytes,
        .recv ch (hdr ++ i.bytes)] ++ s.out := by
  have h17 := bytes_length i
  have ht := i.ht
  refine tick_reply h hl hf ha hh hi hx hc (by simp [acceptance, ht]) ?_ b
  intro rest hr
  obtain ⟨h1, h2⟩ := C50_invitation i rest s.am (by simp; omega)
  refine ⟨fun e => ⟨_, e ▸ h1⟩, fun e => ⟨_, _, ?_, e ▸ h2⟩⟩
  have e : ∃ r, i.bytes ++ rest = 0xFF :: 0xFF :: r := ⟨_, by simp [Invitation.bytes]; rfl⟩
  obtain ⟨r, e⟩ := e
  rw [e]
  exact signature r (by omega)

/-- The same for a clock request. -/
theorem C50_clock_answered {s : St} (h : Reached s) (hl : s.listening = true) (hf : slot s.out = .free)
    (ha : armed s.out = true) {sender padding t1hi t1lo t2 t3 hdr : List Nat} (hs : sender.length = 4)
    (hp : padding.length = 3) (h1 : t1hi.length = 4) (h1' : t1lo.length = 4) (h2 : t2.length = 8) (h3 : t3.length = 8)
    (hh : hdr.length = 6) (hx : ∀ x ∈ hdr ++ clockPacket sender 0 padding t1hi t1lo t2 t3, x < 256) (b : Bool) :
    ∃ t2lo, beValue t2lo = (beValue t1lo + 10) % 2 ^ 32 ∧
      let answer := clockPacket [0x9E, 0x91, 0x51, 0x50] 1 padding t1hi t1lo (t1hi ++ t2lo) t3
      (run s [.recv 2 (hdr ++ clockPacket sender 0 padding t1hi t1lo t2 t3), .tick true b]).out =
        [.arm b, .send 2 (hdr ++ answer) true, .submit 2 answer, .process 2 (clockPacket sender 0 padding t1hi t1lo t2 t3),
          .recv 2 (hdr ++ clockPacket sender 0 padding t1hi t1lo t2 t3)] ++ s.out := by
  have small : ∀ x ∈ t1hi ++ t1lo, x < 256 := by
    intro x hm
    apply hx
    rcases List.mem_append.1 hm with hm | hm <;> simp [clockPacket, hm]
  obtain ⟨t2lo, e1, -, e2, e3⟩ := C50_clock_request hs hp h1 h1' h2 h3 small
  have hlen : (clockPacket sender 0 padding t1hi t1lo t2 t3).length = 36 := by
    simp [clockPacket, hs, hp, h1, h1', h2, h3]
  refine ⟨t2lo, e2, tick_reply h hl hf ha hh (by omega) hx (.inr rfl) ?_ ?_ b⟩
  · simp [clockPacket, e1, hp, h1, h1', h3]
  · intro rest hr
    refine ⟨by simp, fun _ => ?_⟩
    rw [hlen]
    refine ⟨_, _, ?_, e3 rest s.am⟩
    exact signature _ (by omega)

/-- Every receiver feedback in every history carries the sequence number of the last packet received (of those with a
MIDI list of up to 255 bytes, see C48). -/
theorem C50_feedback {s : St} (h : Reached s) (hf : s.fault = false) : Acks s.out := (h.ack hf).acks

/-- Feedback is sent when ten frames have passed, the last packet has not been acknowledged and the slot is free. -/
theorem C50_feedback_due {s : St} (h : Reached s) (hl : s.listening = true) (hf : s.fault = false)
    (hs : slot s.out = .free) (hi : inbox s.out = none) (hfr : 10 ≤ s.frame) (hn : s.lastSeqNum ≠ lastSeq s.out)
    (a b : Bool) :
    slot (step s (.tick a b)).out = .held 1 (feedbackPacket (lastSeq s.out)) ∧
      (step s (.tick a b)).lastSeqNum = lastSeq s.out := by
  have hk := h.ack hf
  have ht := h.tx
  have hr := h.rx
  have hti : s.txState = .idle := by have := ht.ok; rw [hs] at this; exact this
  have hp : AppleMidi.receiverFeedback s.am = (1, feedbackPacket (lastSeq s.out)) := by
    have := hk.small
    simp only [AppleMidi.receiverFeedback, feedbackPacket, ← hk.seq]
    rw [show Rtp.be32 Rtp.ssrc = [0x9E, 0x91, 0x51, 0x50] by decide, Nat.mod_eq_of_lt (show s.am.lastSeqNum / 256 < 256 by omega)]
    rfl
  have hrx : tickRx s = s := by
    unfold tickRx
    have := hr.ok
    rw [hi] at this
    simp only at this
    rw [if_neg (by split at this <;> simp [this])]
  have htx : tickTx s a = sendFeedback s := by
    unfold tickTx
    simp [hti]
  have hfb : (sendFeedback s).out = .submit 1 (feedbackPacket (lastSeq s.out)) :: s.out ∧
      (sendFeedback s).lastSeqNum = lastSeq s.out := by
    unfold sendFeedback
    rw [if_neg (by omega)]
    simp only [← hk.seq] at hn ⊢
    rw [if_pos hn, hp]
    simp only [(send_rest _ _ _).1, hk.seq]
    exact ⟨trivial, trivial⟩
  rw [step, tick_parts s a b hl, hrx, htx]
  have key : slot (.submit 1 (feedbackPacket (lastSeq s.out)) :: s.out) = .held 1 (feedbackPacket (lastSeq s.out)) := by
    simp [slot, hs, feedbackPacket]
  unfold tickArm
  split
  · simp only
    split
    · simp only [log, hfb.1, hfb.2]; exact ⟨key, trivial⟩
    · simp only [log, hfb.1, hfb.2]; exact ⟨key, trivial⟩
  · rw [hfb.1, hfb.2]; exact ⟨key, rfl⟩

/-- The full statement for invitations: whatever the driver is doing when one arrives, the next tick submits and the
radio is eventually handed the answer. -/
def C50_statement : Prop :=
  ∀ s : St, Reached s → s.listening = true → armed s.out = true → ∀ (i : Invitation) (hdr : List Nat), hdr.length = 6 →
    i.bytes.length ≤ 1454 → (∀ x ∈ hdr ++ i.bytes, x < 256) →
    (1, acceptance i.token) ∈ accepted (run s [.recv 1 (hdr ++ i.bytes), .tick true true]).out

private def host : List Nat := [192, 168, 1, 2, 0x13, 0x8C]

private def invite : Invitation := ⟨[0, 0, 0, 2], [1, 2, 3, 4], [9, 9, 9, 9], [0x6D, 0], rfl, rfl, rfl, by decide⟩

/-- It does not hold: an answer is thrown away while another packet waits or is being sent, here a MIDI message of ours. -/
theorem C50_answer_lost : ¬ C50_statement := by
  intro h
  have hr : Reached (run (boot true) [.tick true true, .write [0x90, 60, 100]]) :=
    LegalRun.reached (.boot true) (by decide +kernel)
  have := h _ hr (by decide +kernel) (by decide +kernel) invite host rfl (by decide) (by decide)
  revert this
  decide +kernel

/-- The theorem applies: with a free slot the same invitation is answered. -/
example : handed (run (boot true) [.tick true true, .recv 1 (host ++ invite.bytes), .tick true true]).out =
    [(1, acceptance [1, 2, 3, 4])] := by decide +kernel

/-- A packet of two bytes executes the command left in the buffer by the packet before it: here `FF FF` after a session
end ends the session again, and what is sent next goes to no address instead of to the sender. -/
theorem C50_short_packet_ends_session : ∃ s, Reached s ∧ s.fault = false ∧ ¬ Aimed s.out :=
  ⟨run (boot true) [.tick true true, .recv 1 (host ++ [0xFF, 0xFF, 0x42, 0x59]), .tick true true,
      .recv 1 (host ++ [0xFF, 0xFF]), .tick true true, .write [0x90, 60, 100], .tick true true],
    LegalRun.reached (.boot true) (by decide +kernel), by decide +kernel, by decide +kernel⟩

/-- An RTP packet with an unfinished system exclusive message makes the driver read past the end of its buffer. -/
theorem C50_malformed_packet_overread : ∃ s, Reached s ∧ s.fault = true :=
  ⟨run (boot true) [.tick true true,
      .recv 2 (host ++ [0x80, 0x61, 0, 1, 0, 0, 0, 0, 0, 0, 0, 0, 2, 0xF0, 1]), .tick true true],
    LegalRun.reached (.boot true) (by decide +kernel), by decide +kernel⟩

private def rtp (seq : Nat) : List Nat :=
  host ++ [0x80, 0x61, seq / 256, seq % 256, 0, 0, 0, 0, 0, 0, 0, 0, 3, 0x90, 60, 100]

/-- Packet 513 is acknowledged after ten frames. -/
example : handed (run (boot true) [.tick true true, .recv 2 (rtp 513), .tick true true, .vsync 10, .tick true true,
    .tick true true]).out = [(1, feedbackPacket 513)] := by decide +kernel

/-- A first packet with the sequence number 0 is never acknowledged. -/
theorem C50_sequence_zero_not_acknowledged : ∃ s, Reached s ∧ s.fault = false ∧ s.listening = true ∧
    processed s.out = [(2, (rtp 0).drop 6)] ∧ ∀ a b c d : Bool, accepted (run s [.vsync 10, .tick a b, .vsync 10, .tick c d]).out = [] :=
  ⟨run (boot true) [.tick true true, .recv 2 (rtp 0), .tick true true],
    LegalRun.reached (.boot true) (by decide +kernel), by decide +kernel, by decide +kernel, by decide +kernel,
    by decide +kernel⟩

end Mdmi.Props
