import Verif.Proofs.Wifi
/-! Receiver feedback of the network driver. -/
namespace Mdmi.Wifi
open Mdmi

theorem send_fault (s : St) (ch : Nat) (d : List Nat) : (send s ch d).fault = s.fault :=
  (send_rest s ch d).2.2.2.2.2.2.2.2.2.2.2.2.1

theorem send_am (s : St) (ch : Nat) (d : List Nat) : (send s ch d).am = s.am :=
  (send_rest s ch d).2.2.2.2.2.2.2.2.2.2.2.1

theorem sendAll_fault (s : St) (l : List AppleMidi.Send) : (sendAll s l).fault = s.fault := by
  induction l generalizing s with
  | nil => rfl
  | cons p l ih => exact (ih (send s p.1 p.2)).trans (send_fault s p.1 p.2)

theorem sendAll_am (s : St) (l : List AppleMidi.Send) : (sendAll s l).am = s.am := by
  induction l generalizing s with
  | nil => rfl
  | cons p l ih => exact (ih (send s p.1 p.2)).trans (send_am s p.1 p.2)

theorem emit_fault (s : St) (l : List Nat) (h : s.fault = true) : (l.foldl emit s).fault = true := by
  induction l generalizing s with
  | nil => exact h
  | cons b l ih =>
    rw [List.foldl_cons]
    apply ih
    unfold emit
    split
    · rfl
    · exact h

theorem processUdp_fault (s : St) (ch : Nat) (b : List Nat) (n : Nat) (h : s.fault = true) :
    (processUdp s ch b n).fault = true := by
  have h0 : (log s (.process ch (b.take n))).fault = true := h
  unfold processUdp
  generalize log s (.process ch (b.take n)) = t at h0
  simp only
  split
  · split
    · rfl
    · rename_i sends _
      split
      · simpa [resetRemote, sendAll_fault] using h0
      · rw [sendAll_fault]; exact h0
  · split
    · split
      · rfl
      · split
        · rfl
        · rw [sendAll_fault]; exact h0
      · split
        · rfl
        · rename_i bytes seq _
          split <;> exact emit_fault t bytes h0
    · exact h0

theorem sendBuffered_fault (s : St) (ok : Bool) : (sendBuffered s ok).fault = s.fault := by
  unfold sendBuffered
  split <;> rfl

theorem sendFeedback_fault (s : St) : (sendFeedback s).fault = s.fault := by
  unfold sendFeedback
  split
  · rfl
  · simp only
    split
    · exact send_fault s _ _
    · rfl

theorem tickTx_fault (s : St) (ok : Bool) : (tickTx s ok).fault = s.fault := by
  unfold tickTx
  have h1 : (if s.txState = .queued then sendBuffered s ok else s).fault = s.fault := by
    split
    · exact sendBuffered_fault s ok
    · rfl
  simp only
  generalize (if s.txState = .queued then sendBuffered s ok else s) = t at h1
  split
  · rw [sendFeedback_fault, h1]
  · exact h1

theorem tickArm_fault (s : St) (ok : Bool) : (tickArm s ok).fault = s.fault := by
  unfold tickArm
  split
  · simp only
    split <;> rfl
  · rfl

theorem tickRx_fault (s : St) (h : s.fault = true) : (tickRx s).fault = true := by
  unfold tickRx
  split
  · exact processUdp_fault s _ _ _ h
  · exact h

theorem write_fault (s : St) (d : List Nat) (h : s.fault = true) : (write s d).fault = true := by
  unfold write
  simp only
  split
  · rfl
  · split
    · exact h
    · rw [send_fault]; exact h

/-- Undefined behaviour is never forgotten. -/
theorem step_fault (s : St) (op : Op) (h : s.fault = true) : (step s op).fault = true := by
  cases op with
  | sendDone => exact h
  | recv ch b =>
    simp only [step, recv]
    split
    · exact h
    · obtain ⟨c, m, e⟩ := persistRemote_shape { log { s with rxBuf := b ++ s.rxBuf.drop b.length } (.recv ch b) with
        rxState := .buffered, rxCh := ch, rxLen := (b.length : Int) - headerLen } ch
        (AppleMidi.val32 (b ++ s.rxBuf.drop b.length)) (val16 ((b ++ s.rxBuf.drop b.length).drop 4))
      simp only [log] at e ⊢
      rw [e]; exact h
  | recvFailed =>
    simp only [step, recvFailed]
    split <;> exact h
  | tick a b =>
    by_cases hlis : s.listening = true
    · rw [step, tick_parts s a b hlis, tickArm_fault, tickTx_fault]
      exact tickRx_fault s h
    · simp only [step, tick]; rw [if_pos (by simpa using hlis)]; exact h
  | write d => exact write_fault s d h
  | vsync d => exact h
  | read =>
    simp only [step, read]
    split
    · rfl
    · exact h
    · exact h

/-- The sequence number kept is that of the last packet, and every feedback carries it. -/
structure AckInv (s : St) : Prop where
  seq : s.am.lastSeqNum = lastSeq s.out
  small : s.am.lastSeqNum < 65536
  acks : Acks s.out

/-- Events that do not concern the sequence number. -/
def Event.notAck : Event → Prop
  | .submit _ _ | .process _ _ => False
  | _ => True

theorem notAck_seq {e : Event} (h : e.notAck) (t) : lastSeq (e :: t) = lastSeq t ∧ (Acks (e :: t) ↔ Acks t) := by
  cases e <;> simp_all [Event.notAck, lastSeq, Acks]

theorem AckInv.congr {s s' : St} (h : AckInv s) (h1 : s'.am.lastSeqNum = s.am.lastSeqNum)
    (h5 : s'.out = s.out ∨ ∃ e : Event, e.notAck ∧ s'.out = e :: s.out) : AckInv s' := by
  obtain ⟨a, b, c⟩ := h
  rcases h5 with h5 | ⟨e, he, h5⟩
  · constructor <;> simp only [h1, h5] <;> assumption
  · obtain ⟨e1, e2⟩ := notAck_seq he s.out
    constructor <;> simp only [h1, h5, e1, e2] <;> assumption

theorem send_ack {s : St} (h : AckInv s) (ch : Nat) (d : List Nat)
    (hd : ch = 1 → d.take 4 = [0xFF, 0xFF, 0x52, 0x53] → d = feedbackPacket s.am.lastSeqNum) : AckInv (send s ch d) := by
  obtain ⟨a, b, c⟩ := h
  have e := (send_rest s ch d).1
  have e' := send_am s ch d
  refine ⟨by rw [e, e']; exact a, by rw [e']; exact b, ?_⟩
  rw [e]
  exact ⟨by rw [← a]; exact hd, c⟩

theorem sendAll_ack {s : St} (h : AckInv s) (l : List AppleMidi.Send)
    (hl : ∀ p ∈ l, p.1 = 1 → p.2.take 4 ≠ [0xFF, 0xFF, 0x52, 0x53]) : AckInv (sendAll s l) := by
  induction l generalizing s with
  | nil => exact h
  | cons p l ih =>
    exact ih (send_ack h p.1 p.2 fun e e' => absurd e' (hl p (by simp) e)) fun q hq => hl q (by simp [hq])

/-- Answers to invitations are not feedback. -/
theorem invitation_answer {ch : Nat} {b : List Nat} {n : Nat} {r : AppleMidi.Result} {l : List AppleMidi.Send}
    (h : AppleMidi.processInvitation ch b n = some (r, l)) : ∀ p ∈ l, p.2.take 4 ≠ [0xFF, 0xFF, 0x52, 0x53] := by
  unfold AppleMidi.processInvitation at h
  split at h
  · simp at h
  · simp at h
    rw [← h.2]
    simp [AppleMidi.packInvitationResponse]
  · simp at h
    rw [h.2]
    simp

theorem control_answer {b : List Nat} {n : Nat} {r : AppleMidi.Result} {e : Bool} {l : List AppleMidi.Send}
    (h : AppleMidi.processControl b n = some (r, e, l)) : ∀ p ∈ l, p.2.take 4 ≠ [0xFF, 0xFF, 0x52, 0x53] := by
  unfold AppleMidi.processControl at h
  split at h
  · simp at h
  · simp at h; rw [h.2.2]; simp
  · split at h
    · split at h
      · cases hp : AppleMidi.processInvitation 1 b n with
        | none => rw [hp] at h; simp at h
        | some x =>
          rw [hp] at h
          simp at h
          rw [← h.2.2]
          exact invitation_answer hp
      · split at h
        · simp at h; rw [h.2.2]; simp
        · split at h
          · simp at h; rw [h.2.2]; simp
          · simp at h; rw [h.2.2]; simp
    · simp at h

theorem midi_answer {s s' : AppleMidi.St} {b : List Nat} {n : Nat} {r : AppleMidi.Result} {l : List AppleMidi.Send}
    (h : AppleMidi.processMidi s b n = some (r, s', l)) : s'.lastSeqNum = s.lastSeqNum ∧ ∀ p ∈ l, p.1 = 2 := by
  unfold AppleMidi.processMidi at h
  split at h
  · simp at h
  · simp at h; rw [h.2.2, ← h.2.1]; simp
  · split at h
    · split at h
      · cases hp : AppleMidi.processInvitation 2 b n with
        | none => rw [hp] at h; simp at h
        | some x =>
          rw [hp] at h
          simp at h
          rw [← h.2.2, ← h.2.1]
          refine ⟨rfl, ?_⟩
          unfold AppleMidi.processInvitation at hp
          split at hp
          · simp at hp
          · simp at hp; rw [← hp]; simp
          · simp at hp; rw [← hp]; simp
      · split at h
        · unfold AppleMidi.processTimestampSync at h
          split at h
          · simp at h; rw [h.2.2, ← h.2.1]; simp
          · split at h
            · simp at h
            · simp only at h
              split at h
              · simp at h; rw [h.2.2, ← h.2.1]; simp
              · split at h
                · simp at h; rw [← h.2.2, ← h.2.1]; simp
                · simp at h; rw [h.2.2, ← h.2.1]; simp
        · simp at h; rw [h.2.2, ← h.2.1]; simp
    · simp at h

theorem twelve_bits {u v : Nat} (hv : v < 256) : Rtp.twelveBitLength u v = u % 16 * 4096 + v := by
  unfold Rtp.twelveBitLength
  omega

theorem getD_at {d : List Nat} {i : Nat} (h : i < d.length) : d.getD i 0 = d[i] := by
  rw [List.getD_eq_getElem?_getD, List.getElem?_eq_getElem h]; rfl

/-- When the RTP decoder takes a packet, and which sequence number it keeps. -/
theorem rtp_seq {d rest : List Nat} (hd : d.length ≤ 1454) (hx : ∀ x ∈ d, x < 256) {r : Rtp.Result} {e : List Nat}
    {q : Option Nat} (h : Rtp.process (d ++ rest) d.length = some (r, e, q)) :
    q = if rtpOk d then some (d.getD 2 0 * 256 + d.getD 3 0) else none := by
  unfold Rtp.process at h
  by_cases h13 : d.length < 12 + 1
  · rw [if_pos h13] at h
    rw [if_neg (by unfold rtpOk; omega)]
    simp at h; exact h.2.2.symm
  · rw [if_neg h13] at h
    have g2 : (d ++ rest)[2]? = some (d.getD 2 0) := by
      rw [List.getElem?_append_left (by omega), List.getElem?_eq_getElem (by omega), getD_at (by omega)]
    have g3 : (d ++ rest)[3]? = some (d.getD 3 0) := by
      rw [List.getElem?_append_left (by omega), List.getElem?_eq_getElem (by omega), getD_at (by omega)]
    have gd : (d ++ rest).drop 12 = d.getD 12 0 :: (d.drop 13 ++ rest) := by
      rw [List.drop_append_of_le_length (by omega), List.drop_eq_getElem_cons (by omega), getD_at (by omega)]
      rfl
    rw [g2, g3, gd] at h
    simp only at h
    have b2 := getD_lt hx 2
    have b3 := getD_lt hx 3
    have b12 := getD_lt hx 12
    have b13 := getD_lt hx 13
    have hm : (d.getD 2 0 * 256 + d.getD 3 0) % 65536 = d.getD 2 0 * 256 + d.getD 3 0 := Nat.mod_eq_of_lt (by omega)
    rw [hm] at h
    by_cases hlong : 128 ≤ d.getD 12 0
    · have hL : Rtp.isLongHeader (d.getD 12 0) = true := decide_eq_true (show d.getD 12 0 / 128 ≠ 0 by omega)
      simp only [hL, if_true] at h
      cases hh : (d.drop 13 ++ rest).head? with
      | none => rw [hh] at h; simp at h
      | some b1 =>
        rw [hh] at h
        simp only [Option.map_some] at h
        by_cases h14 : 14 ≤ d.length
        · have hb1 : b1 = d.getD 13 0 := by
            rw [List.drop_eq_getElem_cons (by omega), List.cons_append, List.head?_cons, Option.some.injEq] at hh
            rw [← hh, getD_at (by omega)]
          subst hb1
          have ht : Rtp.twelveBitLength (d.getD 12 0) (d.getD 13 0) = d.getD 12 0 % 16 * 4096 + d.getD 13 0 := by
            exact twelve_bits b13
          rw [ht] at h
          split at h
          · rename_i hgt
            rw [if_neg (by unfold rtpOk; omega)]
            simp at h; exact h.2.2.symm
          · rename_i hle
            rw [if_pos (by unfold rtpOk; refine ⟨by omega, by omega, fun _ => ⟨by omega, by omega⟩⟩)]
            cases hl : Rtp.loop ((d.drop 13 ++ rest).drop 1).length
              (((d.drop 13 ++ rest).drop 1).length - (d.getD 12 0 % 16 * 4096 + d.getD 13 0)) 0 false ((d.drop 13 ++ rest).drop 1) with
            | none => rw [hl] at h; simp at h
            | some x => rw [hl] at h; simp at h; exact h.2.2.symm
        · rw [if_neg (by unfold rtpOk; omega)]
          rw [if_pos (by omega)] at h
          simp at h; exact h.2.2.symm
    · have hL : Rtp.isLongHeader (d.getD 12 0) = false := decide_eq_false (show ¬ d.getD 12 0 / 128 ≠ 0 by omega)
      simp only [hL, Bool.false_eq_true, if_false] at h
      split at h
      · rename_i hgt
        unfold Rtp.fourBitLength at hgt
        rw [if_neg (by unfold rtpOk; omega)]
        simp at h; exact h.2.2.symm
      · rename_i hle
        unfold Rtp.fourBitLength at hle
        rw [if_pos (by unfold rtpOk; omega)]
        cases hl : Rtp.loop (d.drop 13 ++ rest).length ((d.drop 13 ++ rest).length - Rtp.fourBitLength (d.getD 12 0)) 0 false
            (d.drop 13 ++ rest) with
        | none => rw [hl] at h; simp at h
        | some x => rw [hl] at h; simp at h; exact h.2.2.symm

theorem signature_iff {d rest : List Nat} {r : Bool} (h : AppleMidi.hasSignature (d ++ rest) d.length = some r) :
    r = true ↔ d.take 2 = [0xFF, 0xFF] := by
  unfold AppleMidi.hasSignature at h
  match d with
  | [] => simp at h; simp [h]
  | [a] => simp at h; simp [h]
  | a :: b :: d =>
    simp only [List.length_cons, List.cons_append] at h
    rw [if_neg (by omega)] at h
    by_cases ha : a = 0xFF
    · simp [ha] at h; rw [← h]; simp [ha]
    · simp [ha] at h; rw [h]; simp [ha]

theorem processUdp_ack {s : St} (h : AckInv s) (ch : Nat) {d rest : List Nat} (hd : d.length ≤ 1454) (hx : ∀ x ∈ d, x < 256)
    (hf : (processUdp s ch (d ++ rest) d.length).fault = false) : AckInv (processUdp s ch (d ++ rest) d.length) := by
  obtain ⟨a, b, c⟩ := h
  have keep : ∀ am : AppleMidi.St, am.lastSeqNum = s.am.lastSeqNum → ¬ (ch = 2 ∧ d.take 2 ≠ [0xFF, 0xFF] ∧ rtpOk d) →
      AckInv { log s (.process ch d) with am := am } := by
    intro am ham hn
    refine ⟨?_, by simp only [ham]; exact b, c⟩
    simp only [log, lastSeq, ham]
    rw [if_neg hn]; exact a
  unfold processUdp at hf ⊢
  rw [List.take_left] at hf ⊢
  simp only at hf ⊢
  by_cases h1 : ch = 1
  · rw [if_pos h1] at hf ⊢
    have k := keep s.am rfl (by omega)
    cases hp : AppleMidi.processControl (d ++ rest) d.length with
    | none => rw [hp] at hf; simp at hf
    | some x =>
      obtain ⟨r, e, l⟩ := x
      have k' := sendAll_ack (s := log s (.process ch d)) k l fun p hp' _ => control_answer hp p hp'
      simp only
      split
      · exact k'.congr rfl (.inl rfl)
      · exact k'
  · rw [if_neg h1] at hf ⊢
    by_cases h2 : ch = 2
    · rw [if_pos h2] at hf ⊢
      cases hs : AppleMidi.hasSignature (d ++ rest) d.length with
      | none => rw [hs] at hf; simp at hf
      | some g =>
        rw [hs] at hf
        have hg := signature_iff hs
        cases g
        · simp only at hf ⊢
          cases hp : Rtp.process (d ++ rest) d.length with
          | none => rw [hp] at hf; simp at hf
          | some x =>
            obtain ⟨r, e, q⟩ := x
            have hq := rtp_seq hd hx hp
            have hne : d.take 2 ≠ [0xFF, 0xFF] := fun x => by simpa using hg.2 x
            simp only
            obtain ⟨r1, r2, r3, er⟩ := emit_shape (log s (.process ch d)) e
            rw [er]
            by_cases hok : rtpOk d
            · rw [if_pos hok] at hq
              subst hq
              have b2 := getD_lt hx 2
              have b3 := getD_lt hx 3
              refine ⟨?_, by simp only; omega, c⟩
              simp only [log, lastSeq]
              rw [if_pos ⟨h2, hne, hok⟩]
            · rw [if_neg hok] at hq
              subst hq
              exact (keep s.am rfl (by simp [hok])).congr rfl (.inl rfl)
        · simp only at hf ⊢
          cases hp : AppleMidi.processMidi (log s (.process ch d)).am (d ++ rest) d.length with
          | none => rw [hp] at hf; simp at hf
          | some x =>
            obtain ⟨r, am, l⟩ := x
            obtain ⟨m1, m2⟩ := midi_answer hp
            refine sendAll_ack (s := { log s (.process ch d) with am := am }) (keep am m1 ?_) l ?_
            · simp [hg.1 rfl]
            · intro p hp' e
              rw [m2 p hp'] at e
              simp at e
    · rw [if_neg h2]
      exact keep s.am rfl (by omega)

theorem sendFeedback_ack {s : St} (h : AckInv s) : AckInv (sendFeedback s) := by
  unfold sendFeedback
  split
  · exact h
  · simp only
    split
    · refine (send_ack h _ _ fun _ _ => ?_).congr rfl (.inl rfl)
      have := h.small
      simp only [AppleMidi.receiverFeedback, feedbackPacket]
      rw [show Rtp.be32 Rtp.ssrc = [0x9E, 0x91, 0x51, 0x50] by decide, Nat.mod_eq_of_lt (show s.am.lastSeqNum / 256 < 256 by omega)]
      rfl
    · exact h.congr rfl (.inl rfl)

theorem tickTx_ack {s : St} (h : AckInv s) (ok : Bool) : AckInv (tickTx s ok) := by
  unfold tickTx
  have h1 : AckInv (if s.txState = .queued then sendBuffered s ok else s) := by
    split
    · unfold sendBuffered
      split
      · exact h
      · exact h.congr rfl (.inr ⟨.send _ _ _, trivial, rfl⟩)
    · exact h
  simp only
  generalize (if s.txState = .queued then sendBuffered s ok else s) = t at h1
  split
  · exact sendFeedback_ack h1
  · exact h1

theorem tickArm_ack {s : St} (h : AckInv s) (ok : Bool) : AckInv (tickArm s ok) := by
  unfold tickArm
  split
  · simp only
    split <;> exact h.congr rfl (.inr ⟨.arm _, trivial, rfl⟩)
  · exact h

/-- The receive buffer holds bytes. -/
theorem Reached.bytes {s : St} (h : Reached s) : ∀ x ∈ s.rxBuf, x < 256 := by
  induction h with
  | boot l =>
    intro x hx
    have : x = 0 := List.eq_of_mem_replicate hx
    omega
  | @step s h op hl ih =>
    cases op with
    | sendDone => exact ih
    | recv ch b =>
      have key : ∀ x ∈ b ++ s.rxBuf.drop b.length, x < 256 := by
        intro x hx
        rcases List.mem_append.1 hx with hx | hx
        · exact hl.2.2.2.2 x hx
        · exact ih x (List.mem_of_mem_drop hx)
      simp only [Wifi.step, recv]
      split
      · exact key
      · obtain ⟨c, m, e⟩ := persistRemote_shape { log { s with rxBuf := b ++ s.rxBuf.drop b.length } (.recv ch b) with
          rxState := .buffered, rxCh := ch, rxLen := (b.length : Int) - headerLen } ch
          (AppleMidi.val32 (b ++ s.rxBuf.drop b.length)) (val16 ((b ++ s.rxBuf.drop b.length).drop 4))
        simp only [log] at e ⊢
        rw [e]; exact key
    | recvFailed =>
      simp only [Wifi.step, recvFailed]
      split <;> exact ih
    | tick a b =>
      by_cases hlis : s.listening = true
      · rw [Wifi.step, tick_parts s a b hlis]
        have e1 : (tickRx s).rxBuf = s.rxBuf := by
          unfold tickRx
          split
          · exact (processUdp_rx s _ _ _).2.2.2.1
          · rfl
        have e2 := (tickTx_rx (tickRx s) a).2.2.2.1
        have e3 : (tickArm (tickTx (tickRx s) a) b).rxBuf = (tickTx (tickRx s) a).rxBuf := by
          unfold tickArm
          split
          · simp only
            split <;> rfl
          · rfl
        rw [e3, e2, e1]; exact ih
      · simp only [Wifi.step, tick]; rw [if_pos (by simpa using hlis)]; exact ih
    | write d =>
      simp only [Wifi.step]
      rcases write_shape s d with ⟨f, n, e⟩ | ⟨n, p, e⟩ <;> rw [e]
      · exact ih
      · rw [(send_rest _ _ _).2.2.2.2.1]; exact ih
    | vsync d => exact ih
    | read =>
      simp only [Wifi.step]
      obtain ⟨r, f, e⟩ := read_shape s
      rw [e]; exact ih

theorem tickRx_ack {s : St} (hb : ∀ x ∈ s.rxBuf, x < 256) (hr : RxInv s) (h : AckInv s) (hf : (tickRx s).fault = false) :
    AckInv (tickRx s) := by
  unfold tickRx at hf ⊢
  split at hf
  · rename_i hbuf
    rw [if_pos hbuf]
    obtain ⟨len, ok, -⟩ := hr
    cases hi : inbox s.out with
    | none => rw [hi] at ok; simp only [hbuf] at ok; split at ok <;> simp at ok
    | some x =>
      obtain ⟨ch, b⟩ := x
      rw [hi] at ok
      simp only at ok
      obtain ⟨h0, h1, h2, h3, h4, h5, h6, h7⟩ := ok
      have e : s.rxBuf.drop headerLen = b.drop 6 ++ s.rxBuf.drop b.length := by
        rw [headerLen]
        conv => lhs; rw [← List.take_append_drop b.length s.rxBuf, h7]
        rw [List.drop_append_of_le_length h5]
      have hn : (s.rxLen % 65536).toNat = (b.drop 6).length := by rw [h4, List.length_drop]; omega
      rw [e, hn] at hf ⊢
      refine (processUdp_ack h _ (by simp; omega) (fun x hx => ?_) hf).congr rfl (.inl rfl)
      rw [← h7] at hx
      exact hb x (List.mem_of_mem_take (List.mem_of_mem_drop hx))
  · rename_i hbuf
    rw [if_neg hbuf]; exact h

theorem step_ack {s : St} (hb : ∀ x ∈ s.rxBuf, x < 256) (hr : RxInv s) (op : Op) (h : AckInv s)
    (hf : (step s op).fault = false) : AckInv (step s op) := by
  cases op with
  | sendDone => exact h.congr rfl (.inr ⟨.sendDone, trivial, rfl⟩)
  | recv ch b =>
    simp only [step, recv]
    split
    · exact h.congr rfl (.inr ⟨.recv ch b, trivial, rfl⟩)
    · obtain ⟨c, m, e⟩ := persistRemote_shape { log { s with rxBuf := b ++ s.rxBuf.drop b.length } (.recv ch b) with
        rxState := .buffered, rxCh := ch, rxLen := (b.length : Int) - headerLen } ch
        (AppleMidi.val32 (b ++ s.rxBuf.drop b.length)) (val16 ((b ++ s.rxBuf.drop b.length).drop 4))
      simp only [log] at e ⊢
      rw [e]; exact h.congr rfl (.inr ⟨.recv ch b, trivial, rfl⟩)
  | recvFailed =>
    simp only [step, recvFailed]
    split <;> exact h.congr rfl (.inr ⟨.recvFailed, trivial, rfl⟩)
  | tick a b =>
    by_cases hlis : s.listening = true
    · rw [step, tick_parts s a b hlis] at hf ⊢
      rw [tickArm_fault, tickTx_fault] at hf
      exact tickArm_ack (tickTx_ack (tickRx_ack hb hr h hf) a) b
    · simp only [step, tick]; rw [if_pos (by simpa using hlis)]; exact h
  | write d =>
    simp only [step]
    rcases write_shape s d with ⟨f, n, e⟩ | ⟨n, p, e⟩ <;> rw [e]
    · exact h.congr rfl (.inl rfl)
    · exact send_ack (s := { s with sendSeqNum := n }) (h.congr rfl (.inl rfl)) 2 p (by simp)
  | vsync d => exact h.congr rfl (.inl rfl)
  | read =>
    simp only [step]
    obtain ⟨r, f, e⟩ := read_shape s
    rw [e]; exact h.congr rfl (.inl rfl)

theorem Reached.ack {s : St} (h : Reached s) (hf : s.fault = false) : AckInv s := by
  induction h with
  | boot l => exact ⟨rfl, show 0 < _ by decide, trivial⟩
  | @step s h op hl ih =>
    refine step_ack h.bytes h.rx op (ih ?_) hf
    cases e : s.fault with
    | false => rfl
    | true => rw [step_fault s op e] at hf; simp at hf

end Mdmi.Wifi
