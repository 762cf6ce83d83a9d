import Verif.Spec.Wifi
import Verif.Proofs.RingBuf
/-! Invariants of the network driver. -/
namespace Mdmi.Wifi
open Mdmi

/-- The transmit side agrees with the trace. -/
structure TxInv (s : St) : Prop where
  len : s.txBuf.length = 1460
  ok : match slot s.out with
    | .free => s.txState = .idle
    | .held ch d => s.txState = .queued ∧ s.txCh = ch ∧ s.txLen = d.length ∧ d.length ≤ 1454 ∧
        (s.txBuf.drop 6).take d.length = d
    | .flying _ b => s.txState = .inflight ∧ s.txBuf.take b.length = b
  list : accepted s.out = handed s.out ++ (slot s.out).waiting
  one : OneAtATime s.out

/-- The receive side agrees with the trace. -/
structure RxInv (s : St) : Prop where
  len : s.rxBuf.length = 1460
  ok : match inbox s.out with
    | none => if armed s.out then s.rxState = .armed else s.rxState = .idle
    | some (ch, b) => armed s.out = false ∧ s.rxState = .buffered ∧ s.rxCh = ch ∧ ch < 256 ∧ s.rxLen = (b.length : Int) - 6 ∧
        6 ≤ b.length ∧ b.length ≤ 1460 ∧ s.rxBuf.take b.length = b
  list : received s.out = processed s.out ++ ((inbox s.out).map fun x => (x.1, x.2.drop 6)).toList

/-- Events that do not concern the transmit side. -/
def Event.notTx : Event → Prop
  | .submit _ _ | .send _ _ _ | .sendDone => False
  | _ => True

/-- Events that do not concern the receive side. -/
def Event.notRx : Event → Prop
  | .submit _ _ | .send _ _ _ | .sendDone => True
  | _ => False

theorem notTx_slot {e : Event} (h : e.notTx) (t) : slot (e :: t) = slot t ∧ accepted (e :: t) = accepted t ∧
    handed (e :: t) = handed t ∧ (OneAtATime (e :: t) ↔ OneAtATime t) := by
  cases e <;> simp_all [Event.notTx, slot, accepted, handed, OneAtATime]

theorem notRx_inbox {e : Event} (h : e.notRx) (t) : inbox (e :: t) = inbox t ∧ armed (e :: t) = armed t ∧
    received (e :: t) = received t ∧ processed (e :: t) = processed t := by
  cases e <;> simp_all [Event.notRx, inbox, armed, received, processed]

/-- The transmit side only reads these variables. -/
theorem TxInv.congr {s s' : St} (h : TxInv s) (h1 : s'.txBuf = s.txBuf) (h2 : s'.txState = s.txState) (h3 : s'.txCh = s.txCh)
    (h4 : s'.txLen = s.txLen) (h5 : s'.out = s.out ∨ ∃ e : Event, e.notTx ∧ s'.out = e :: s.out) : TxInv s' := by
  obtain ⟨a, b, c, d⟩ := h
  rcases h5 with h5 | ⟨e, he, h5⟩
  · constructor <;> simp only [h1, h2, h3, h4, h5] <;> assumption
  · obtain ⟨e1, e2, e3, e4⟩ := notTx_slot he s.out
    constructor <;> simp only [h1, h2, h3, h4, h5, e1, e2, e3, e4] <;> assumption

theorem send_busy {s : St} (h : s.txState ≠ .idle) (ch : Nat) (d : List Nat) : send s ch d = log s (.submit ch d) := by
  unfold send
  exact if_pos h

theorem send_tx {s : St} (h : TxInv s) (ch : Nat) (d : List Nat) : TxInv (send s ch d) := by
  obtain ⟨len, ok, list, one⟩ := h
  cases hs : slot s.out with
  | free =>
    rw [hs] at ok list
    simp only at ok
    unfold send
    simp only [log]
    simp only [ok, ne_eq, not_true_eq_false, if_false]
    by_cases hd : d.length ≤ 1454
    · rw [if_neg (by simp [headerLen, bufSize]; omega)]
      refine ⟨?_, ?_, ?_, ?_⟩
      · simp [headerLen, len]; omega
      · simp only [slot, hs, hd, if_true]
        refine ⟨trivial, trivial, trivial, trivial, ?_⟩
        rw [List.append_assoc, List.drop_append_of_le_length (by simp [headerLen, len])]
        rw [List.drop_eq_nil_of_le (by simp [headerLen]; omega), List.nil_append, List.take_left]
      · simp only [accepted, handed, slot, hs, hd, and_self, if_true, list, Slot.waiting, List.append_nil]
      · simpa [OneAtATime] using one
    · rw [if_pos (by simp [headerLen, bufSize]; omega)]
      refine ⟨len, ?_, ?_, ?_⟩
      · simp [slot, hs, hd]
      · simp [accepted, handed, slot, hs, hd, list, Slot.waiting]
      · simpa [OneAtATime] using one
  | held c x =>
    rw [hs] at ok list
    simp only at ok
    rw [send_busy (by simp [ok.1])]
    simp only [log]
    refine ⟨len, ?_, ?_, ?_⟩
    · simp only [slot, hs]; exact ok
    · simp [accepted, handed, slot, hs, list, Slot.waiting]
    · simpa [OneAtATime] using one
  | flying c x =>
    rw [hs] at ok list
    simp only at ok
    rw [send_busy (by simp [ok.1])]
    simp only [log]
    refine ⟨len, ?_, ?_, ?_⟩
    · simp only [slot, hs]; exact ok
    · simp [accepted, handed, slot, hs, list, Slot.waiting]
    · simpa [OneAtATime] using one

/-- What `comm_megawifi_send` leaves alone. -/
theorem send_rest (s : St) (ch : Nat) (d : List Nat) : (send s ch d).out = .submit ch d :: s.out ∧
    (send s ch d).rxState = s.rxState ∧ (send s ch d).rxCh = s.rxCh ∧ (send s ch d).rxLen = s.rxLen ∧
    (send s ch d).rxBuf = s.rxBuf ∧ (send s ch d).ring = s.ring ∧ (send s ch d).recvData = s.recvData ∧
    (send s ch d).listening = s.listening ∧ (send s ch d).remoteIp = s.remoteIp ∧
    (send s ch d).remoteControlPort = s.remoteControlPort ∧ (send s ch d).remoteMidiPort = s.remoteMidiPort ∧
    (send s ch d).am = s.am ∧ (send s ch d).fault = s.fault ∧ (send s ch d).frame = s.frame ∧
    (send s ch d).lastSeqNum = s.lastSeqNum ∧ (send s ch d).connected = s.connected ∧
    (send s ch d).sendSeqNum = s.sendSeqNum := by
  unfold send log
  simp only
  split
  · simp
  · split <;> simp

/-- Emitting MIDI bytes only touches the ring. -/
theorem emit_shape (s : St) (l : List Nat) : ∃ r d f, l.foldl emit s = { s with ring := r, recvData := d, fault := f } := by
  induction l generalizing s with
  | nil => exact ⟨_, _, _, rfl⟩
  | cons b l ih =>
    obtain ⟨r, d, f, e⟩ := ih (emit s b)
    rw [List.foldl_cons, e]
    unfold emit
    split
    · exact ⟨_, _, _, rfl⟩
    · exact ⟨_, _, _, rfl⟩

/-- What processing a datagram keeps of the receive side. -/
def RxSame (s s' : St) : Prop :=
  s'.rxState = s.rxState ∧ s'.rxCh = s.rxCh ∧ s'.rxLen = s.rxLen ∧ s'.rxBuf = s.rxBuf ∧ inbox s'.out = inbox s.out ∧
    armed s'.out = armed s.out ∧ received s'.out = received s.out ∧ processed s'.out = processed s.out

theorem RxSame.trans {a b c : St} (h : RxSame a b) (g : RxSame b c) : RxSame a c := by
  obtain ⟨h1, h2, h3, h4, h5, h6, h7, h8⟩ := h
  obtain ⟨g1, g2, g3, g4, g5, g6, g7, g8⟩ := g
  exact ⟨g1.trans h1, g2.trans h2, g3.trans h3, g4.trans h4, g5.trans h5, g6.trans h6, g7.trans h7, g8.trans h8⟩

theorem RxInv.congr {s s' : St} (h : RxInv s) (g : RxSame s s') : RxInv s' := by
  obtain ⟨a, b, c⟩ := h
  obtain ⟨g1, g2, g3, g4, g5, g6, g7, g8⟩ := g
  constructor <;> simp only [g1, g2, g3, g4, g5, g6, g7, g8] <;> assumption

theorem send_rx (s : St) (ch : Nat) (d : List Nat) : RxSame s (send s ch d) := by
  obtain ⟨h1, h2, h3, h4, h5, -⟩ := send_rest s ch d
  obtain ⟨e1, e2, e3, e4⟩ := notRx_inbox (e := .submit ch d) trivial s.out
  exact ⟨h2, h3, h4, h5, by rw [h1, e1], by rw [h1, e2], by rw [h1, e3], by rw [h1, e4]⟩

theorem sendAll_tx {s : St} (h : TxInv s) (l : List AppleMidi.Send) : TxInv (sendAll s l) := by
  induction l generalizing s with
  | nil => exact h
  | cons p l ih => exact ih (send_tx h p.1 p.2)

theorem sendAll_rx (s : St) (l : List AppleMidi.Send) : RxSame s (sendAll s l) := by
  induction l generalizing s with
  | nil => exact ⟨rfl, rfl, rfl, rfl, rfl, rfl, rfl, rfl⟩
  | cons p l ih => exact (send_rx s p.1 p.2).trans (ih _)

/-- Processing a datagram keeps the transmit side in order. -/
theorem processUdp_tx {s : St} (h : TxInv s) (ch : Nat) (b : List Nat) (n : Nat) : TxInv (processUdp s ch b n) := by
  have h0 : TxInv (log s (.process ch (b.take n))) := h.congr rfl rfl rfl rfl (.inr ⟨.process ch (b.take n), trivial, rfl⟩)
  unfold processUdp
  generalize log s (.process ch (b.take n)) = t at h0
  simp only
  split
  · split
    · exact h0.congr rfl rfl rfl rfl (.inl rfl)
    · rename_i sends _
      split
      · exact (sendAll_tx h0 sends).congr rfl rfl rfl rfl (.inl rfl)
      · exact sendAll_tx h0 sends
  · split
    · split
      · exact h0.congr rfl rfl rfl rfl (.inl rfl)
      · split
        · exact h0.congr rfl rfl rfl rfl (.inl rfl)
        · rename_i am sends _
          exact sendAll_tx (s := { t with am := am }) (h0.congr rfl rfl rfl rfl (.inl rfl)) sends
      · split
        · exact h0.congr rfl rfl rfl rfl (.inl rfl)
        · rename_i bytes seq _
          obtain ⟨r, d, f, e⟩ := emit_shape t bytes
          rw [e]
          split <;> exact h0.congr rfl rfl rfl rfl (.inl rfl)
    · exact h0

/-- Processing a datagram leaves the receive side alone apart from the event. -/
theorem processUdp_rx (s : St) (ch : Nat) (b : List Nat) (n : Nat) :
    RxSame (log s (.process ch (b.take n))) (processUdp s ch b n) := by
  have same : ∀ t : St, RxSame t t := fun t => ⟨rfl, rfl, rfl, rfl, rfl, rfl, rfl, rfl⟩
  unfold processUdp
  generalize log s (.process ch (b.take n)) = t
  simp only
  split
  · split
    · exact same t
    · rename_i sends _
      split
      · exact sendAll_rx t sends
      · exact sendAll_rx t sends
  · split
    · split
      · exact same t
      · split
        · exact same t
        · rename_i am sends _
          exact sendAll_rx { t with am := am } sends
      · split
        · exact same t
        · rename_i bytes seq _
          obtain ⟨r, d, f, e⟩ := emit_shape t bytes
          rw [e]
          split <;> exact same t
    · exact same t

theorem be32_length (n : Nat) : (Rtp.be32 n).length = 4 := rfl

theorem sendBuffered_tx {s : St} (h : TxInv s) (ok : Bool) : TxInv (sendBuffered s ok) := by
  unfold sendBuffered
  by_cases hq : s.txState = .queued
  · rw [if_neg (by simp [hq])]
    obtain ⟨len, hok, list, one⟩ := h
    cases hs : slot s.out with
    | free => rw [hs] at hok; simp [hq] at hok
    | flying c x => rw [hs] at hok; simp [hq] at hok
    | held c x =>
      rw [hs] at hok list
      simp only at hok
      obtain ⟨-, h2, h3, h4, h5⟩ := hok
      have hx : (s.txBuf.drop 6).take x.length = x := h5
      simp only [log, headerLen]
      generalize (if s.txCh = 1 then s.remoteControlPort else s.remoteMidiPort) = port
      generalize hh : Rtp.be32 s.remoteIp ++ [port / 256 % 256, port % 256] = hdr
      have hl : hdr.length = 6 := by rw [← hh]; rfl
      have e : (hdr ++ s.txBuf.drop 6).take (s.txLen + 6) = hdr ++ x := by
        rw [List.take_append, hl, List.take_of_length_le (by omega), h3, Nat.add_sub_cancel, hx]
      rw [e]
      refine ⟨?_, ?_, ?_, ?_⟩
      · simp [hl, len]
      · cases ok
        · simp [slot]
        · simp only [slot, if_true, true_and]
          rw [← e]; simp [hl, len, h3]
      · simp only [accepted, handed, list, Slot.waiting, h2]
        rw [List.drop_append_of_le_length (by omega), List.drop_eq_nil_of_le (by omega)]
        cases ok <;> simp [slot]
      · refine ⟨⟨x, ?_, ?_, ?_⟩, one⟩
        · rw [hs, h2]
        · simp [hl]; omega
        · rw [List.drop_append_of_le_length (by omega), List.drop_eq_nil_of_le (by omega)]; rfl
  · rw [if_pos (by simpa using hq)]; exact h

theorem sendBuffered_rx (s : St) (ok : Bool) : RxSame s (sendBuffered s ok) := by
  unfold sendBuffered
  split
  · exact ⟨rfl, rfl, rfl, rfl, rfl, rfl, rfl, rfl⟩
  · exact ⟨rfl, rfl, rfl, rfl, rfl, rfl, rfl, rfl⟩

theorem sendFeedback_tx {s : St} (h : TxInv s) : TxInv (sendFeedback s) := by
  unfold sendFeedback
  split
  · exact h
  · simp only
    split
    · exact (send_tx h _ _).congr rfl rfl rfl rfl (.inl rfl)
    · exact h.congr rfl rfl rfl rfl (.inl rfl)

theorem sendFeedback_rx (s : St) : RxSame s (sendFeedback s) := by
  unfold sendFeedback
  split
  · exact ⟨rfl, rfl, rfl, rfl, rfl, rfl, rfl, rfl⟩
  · simp only
    split
    · exact send_rx s _ _
    · exact ⟨rfl, rfl, rfl, rfl, rfl, rfl, rfl, rfl⟩

/-- First part of a tick: the datagram is processed. -/
def tickRx (s : St) : St :=
  if s.rxState = .buffered then
    { processUdp s s.rxCh (s.rxBuf.drop headerLen) (s.rxLen % 65536).toNat with rxState := .idle }
  else s

/-- Second part: the transmit side. -/
def tickTx (s : St) (ok : Bool) : St :=
  let s := if s.txState = .queued then sendBuffered s ok else s
  if s.txState = .idle then sendFeedback s else s

/-- Third part: the next receive. -/
def tickArm (s : St) (ok : Bool) : St :=
  if s.rxState = .idle then
    let s := log s (.arm ok)
    if ok then { s with rxState := .armed } else s
  else s

theorem tick_parts (s : St) (a b : Bool) (h : s.listening = true) : tick s a b = tickArm (tickTx (tickRx s) a) b := by
  unfold tick
  rw [if_neg (by simp [h])]
  rfl

theorem tickRx_tx {s : St} (h : TxInv s) : TxInv (tickRx s) := by
  unfold tickRx
  split
  · exact (processUdp_tx h _ _ _).congr rfl rfl rfl rfl (.inl rfl)
  · exact h

theorem tickTx_tx {s : St} (h : TxInv s) (ok : Bool) : TxInv (tickTx s ok) := by
  unfold tickTx
  have h1 : TxInv (if s.txState = .queued then sendBuffered s ok else s) := by
    split
    · exact sendBuffered_tx h ok
    · exact h
  simp only
  generalize (if s.txState = .queued then sendBuffered s ok else s) = t at h1
  split
  · exact sendFeedback_tx h1
  · exact h1

theorem tickTx_rx (s : St) (ok : Bool) : RxSame s (tickTx s ok) := by
  unfold tickTx
  have h1 : RxSame s (if s.txState = .queued then sendBuffered s ok else s) := by
    split
    · exact sendBuffered_rx s ok
    · exact ⟨rfl, rfl, rfl, rfl, rfl, rfl, rfl, rfl⟩
  simp only
  generalize (if s.txState = .queued then sendBuffered s ok else s) = t at h1
  split
  · exact h1.trans (sendFeedback_rx t)
  · exact h1

theorem tickArm_tx {s : St} (h : TxInv s) (ok : Bool) : TxInv (tickArm s ok) := by
  unfold tickArm
  split
  · simp only
    split <;> exact h.congr rfl rfl rfl rfl (.inr ⟨.arm _, trivial, rfl⟩)
  · exact h

/-- After the first part of a tick nothing waits to be processed. -/
theorem tickRx_rx {s : St} (h : RxInv s) : RxInv (tickRx s) ∧ inbox (tickRx s).out = none ∧
    processed (tickRx s).out = received s.out ∧ received (tickRx s).out = received s.out ∧ armed (tickRx s).out = armed s.out := by
  obtain ⟨len, ok, list⟩ := h
  unfold tickRx
  cases hi : inbox s.out with
  | none =>
    rw [hi] at ok list
    simp only at ok
    rw [if_neg (by split at ok <;> simp [ok])]
    refine ⟨⟨len, ?_, ?_⟩, hi, ?_, rfl, rfl⟩
    · rw [hi]; exact ok
    · rw [hi]; exact list
    · simpa using list.symm
  | some x =>
    obtain ⟨ch, b⟩ := x
    rw [hi] at ok list
    simp only at ok
    obtain ⟨h0, h1, h2, h3, h4, h5, h6, h7⟩ := ok
    rw [if_pos h1]
    obtain ⟨g1, g2, g3, g4, g5, g6, g7, g8⟩ :=
      processUdp_rx s s.rxCh (s.rxBuf.drop headerLen) (s.rxLen % 65536).toNat
    have hn : (s.rxLen % 65536).toNat = b.length - 6 := by rw [h4]; omega
    have hb : (s.rxBuf.drop headerLen).take (s.rxLen % 65536).toNat = b.drop 6 := by
      rw [hn, headerLen, ← List.drop_take, h7]
    rw [hb] at g1 g2 g3 g4 g5 g6 g7 g8
    have p : processed (processUdp s s.rxCh (s.rxBuf.drop headerLen) (s.rxLen % 65536).toNat).out = received s.out := by
      rw [g8, list]; simp [log, processed, h2]
    have q : received (processUdp s s.rxCh (s.rxBuf.drop headerLen) (s.rxLen % 65536).toNat).out = received s.out := by
      rw [g7]; rfl
    refine ⟨⟨?_, ?_, ?_⟩, g5, p, q, g6⟩
    · simp only [g4]; exact len
    · simp only [g5, g6]; simp [log, inbox, armed, h0]
    · simp only [g5]; rw [p, q]; simp [log, inbox]

theorem tickArm_rx {s : St} (h : RxInv s) (ok : Bool) : RxInv (tickArm s ok) ∧ inbox (tickArm s ok).out = inbox s.out ∧
    processed (tickArm s ok).out = processed s.out ∧ received (tickArm s ok).out = received s.out := by
  obtain ⟨len, hok, list⟩ := h
  unfold tickArm
  by_cases hi : s.rxState = .idle
  · rw [if_pos hi]
    have hn : inbox s.out = none := by
      cases hx : inbox s.out with
      | none => rfl
      | some x => rw [hx] at hok; simp [hi] at hok
    rw [hn] at hok list
    simp only at hok
    have ha : armed s.out = false := by
      cases e : armed s.out with
      | false => rfl
      | true => rw [e] at hok; simp [hi] at hok
    cases ok
    · refine ⟨⟨len, ?_, ?_⟩, rfl, rfl, rfl⟩
      · simp [log, inbox, armed, hn, ha, hi]
      · simpa [log, inbox, received, processed, hn] using list
    · refine ⟨⟨len, ?_, ?_⟩, rfl, rfl, rfl⟩
      · simp [log, inbox, armed, hn]
      · simpa [log, inbox, received, processed, hn] using list
  · rw [if_neg hi]; exact ⟨⟨len, hok, list⟩, rfl, rfl, rfl⟩

/-- `comm_megawifi_write` is a submission or nothing. -/
theorem write_shape (s : St) (d : List Nat) : (∃ f n, write s d = { s with fault := f, sendSeqNum := n }) ∨
    ∃ n p, write s d = send { s with sendSeqNum := n } 2 p := by
  unfold write
  simp only
  split
  · exact .inl ⟨_, _, rfl⟩
  · split
    · exact .inl ⟨_, _, rfl⟩
    · exact .inr ⟨_, _, rfl⟩

theorem read_shape (s : St) : ∃ r f, (read s).2 = { s with ring := r, fault := f } := by
  unfold read
  split <;> exact ⟨_, _, rfl⟩

/-- The remote end point leaves everything else alone. -/
theorem persistRemote_shape (s : St) (ch ip port : Nat) : ∃ c m, persistRemote s ch ip port =
    { s with remoteIp := ip, remoteControlPort := c, remoteMidiPort := m } := by
  unfold persistRemote
  simp only
  split
  · exact ⟨_, _, rfl⟩
  · split <;> exact ⟨_, _, rfl⟩

theorem step_tx {s : St} (h : TxInv s) (op : Op) (hl : Legal s.out op) : TxInv (step s op) := by
  cases op with
  | sendDone =>
    obtain ⟨ch, b, hs⟩ : ∃ ch b, slot s.out = .flying ch b := by
      simp only [Legal] at hl
      cases e : slot s.out <;> simp_all [Slot.flies]
    obtain ⟨len, ok, list, one⟩ := h
    rw [hs] at list
    refine ⟨len, ?_, ?_, ?_⟩
    · simp [step, sendDone, log, slot]
    · simpa [step, sendDone, log, accepted, handed, slot, Slot.waiting] using list
    · simpa [step, sendDone, log, OneAtATime] using one
  | recv ch b =>
    simp only [step, recv]
    split
    · exact h.congr rfl rfl rfl rfl (.inr ⟨.recv ch b, trivial, rfl⟩)
    · obtain ⟨c, m, e⟩ := persistRemote_shape { log { s with rxBuf := b ++ s.rxBuf.drop b.length } (.recv ch b) with
        rxState := .buffered, rxCh := ch, rxLen := (b.length : Int) - headerLen } ch
        (AppleMidi.val32 (b ++ s.rxBuf.drop b.length)) (val16 ((b ++ s.rxBuf.drop b.length).drop 4))
      simp only [log] at e ⊢
      rw [e]
      exact h.congr rfl rfl rfl rfl (.inr ⟨.recv ch b, trivial, rfl⟩)
  | recvFailed =>
    simp only [step, recvFailed]
    split <;> exact h.congr rfl rfl rfl rfl (.inr ⟨.recvFailed, trivial, rfl⟩)
  | tick a b =>
    by_cases hlis : s.listening = true
    · rw [step, tick_parts s a b hlis]
      exact tickArm_tx (tickTx_tx (tickRx_tx h) a) b
    · simp only [step, tick]; rw [if_pos (by simpa using hlis)]; exact h
  | write d =>
    simp only [step]
    rcases write_shape s d with ⟨f, n, e⟩ | ⟨n, p, e⟩ <;> rw [e]
    · exact h.congr rfl rfl rfl rfl (.inl rfl)
    · exact send_tx (s := { s with sendSeqNum := n }) (h.congr rfl rfl rfl rfl (.inl rfl)) 2 p
  | vsync d => exact h.congr rfl rfl rfl rfl (.inl rfl)
  | read =>
    simp only [step]
    obtain ⟨r, f, e⟩ := read_shape s
    rw [e]; exact h.congr rfl rfl rfl rfl (.inl rfl)

theorem step_rx {s : St} (h : RxInv s) (op : Op) (hl : Legal s.out op) : RxInv (step s op) := by
  have hsame : ∀ {s : St}, RxSame s s := ⟨rfl, rfl, rfl, rfl, rfl, rfl, rfl, rfl⟩
  cases op with
  | sendDone => exact h.congr ⟨rfl, rfl, rfl, rfl, rfl, rfl, rfl, rfl⟩
  | recv ch b =>
    obtain ⟨ha, hc, h6, h7, -⟩ := hl
    obtain ⟨len, ok, list⟩ := h
    have hn : inbox s.out = none := by
      cases hx : inbox s.out with
      | none => rfl
      | some x => rw [hx] at ok; simp [ha] at ok
    rw [hn] at ok list
    simp only [ha, if_true] at ok
    simp only [step, recv]
    rw [if_neg (by simp [log, ok])]
    obtain ⟨c, m, e⟩ := persistRemote_shape { log { s with rxBuf := b ++ s.rxBuf.drop b.length } (.recv ch b) with
      rxState := .buffered, rxCh := ch, rxLen := (b.length : Int) - headerLen } ch
      (AppleMidi.val32 (b ++ s.rxBuf.drop b.length)) (val16 ((b ++ s.rxBuf.drop b.length).drop 4))
    simp only [log] at e ⊢
    rw [e]
    refine ⟨?_, ?_, ?_⟩
    · simp [len]; omega
    · simp [inbox, armed, headerLen, h6, h7, hc]
    · simp [received, processed, inbox, list]
  | recvFailed =>
    obtain ⟨len, ok, list⟩ := h
    have ha : armed s.out = true := hl
    have hn : inbox s.out = none := by
      cases hx : inbox s.out with
      | none => rfl
      | some x => rw [hx] at ok; simp [ha] at ok
    rw [hn] at ok list
    simp only [ha, if_true] at ok
    simp only [step, recvFailed]
    rw [if_neg (by simp [log, ok])]
    refine ⟨len, ?_, ?_⟩
    · simp [log, inbox, armed, hn]
    · simpa [log, received, processed, inbox, hn] using list
  | tick a b =>
    by_cases hlis : s.listening = true
    · rw [step, tick_parts s a b hlis]
      exact (tickArm_rx ((tickRx_rx h).1.congr (tickTx_rx _ a)) b).1
    · simp only [step, tick]; rw [if_pos (by simpa using hlis)]; exact h
  | write d =>
    simp only [step]
    rcases write_shape s d with ⟨f, n, e⟩ | ⟨n, p, e⟩ <;> rw [e]
    · exact h.congr hsame
    · exact h.congr (send_rx { s with sendSeqNum := n } 2 p)
  | vsync d => exact h.congr hsame
  | read =>
    simp only [step]
    obtain ⟨r, f, e⟩ := read_shape s
    rw [e]; exact h.congr hsame

theorem Reached.tx {s : St} (h : Reached s) : TxInv s := by
  induction h with
  | boot l => exact ⟨List.length_replicate, rfl, rfl, trivial⟩
  | step _ op hl ih => exact step_tx ih op hl

theorem LegalRun.reached {s : St} (h : Reached s) {ops : List Op} (hl : LegalRun s ops) : Reached (run s ops) := by
  induction ops generalizing s with
  | nil => exact h
  | cons op ops ih => exact ih (h.step op hl.1) hl.2

theorem Reached.rx {s : St} (h : Reached s) : RxInv s := by
  induction h with
  | boot l => exact ⟨List.length_replicate, rfl, rfl⟩
  | step _ op hl ih => exact step_rx ih op hl

/-- Processing a datagram only adds submissions behind its event. -/
theorem sendAll_out (s : St) (l : List AppleMidi.Send) :
    (sendAll s l).out = (l.reverse.map fun p => Event.submit p.1 p.2) ++ s.out := by
  induction l generalizing s with
  | nil => rfl
  | cons p l ih =>
    have : sendAll s (p :: l) = sendAll (send s p.1 p.2) l := rfl
    rw [this, ih, (send_rest s p.1 p.2).1]
    simp

theorem processUdp_out (s : St) (ch : Nat) (b : List Nat) (n : Nat) : ∃ l : List (Nat × List Nat),
    (processUdp s ch b n).out = (l.map fun p => Event.submit p.1 p.2) ++ .process ch (b.take n) :: s.out := by
  have h0 : (log s (.process ch (b.take n))).out = .process ch (b.take n) :: s.out := rfl
  unfold processUdp
  rw [← h0]
  generalize log s (.process ch (b.take n)) = t
  simp only
  split
  · split
    · exact ⟨[], rfl⟩
    · rename_i sends _
      refine ⟨sends.reverse, ?_⟩
      rw [← sendAll_out]
      split <;> rfl
  · split
    · split
      · exact ⟨[], rfl⟩
      · split
        · exact ⟨[], rfl⟩
        · rename_i am sends _
          exact ⟨sends.reverse, sendAll_out { t with am := am } sends⟩
      · split
        · exact ⟨[], rfl⟩
        · rename_i bytes seq _
          obtain ⟨r, d, f, e⟩ := emit_shape t bytes
          rw [e]
          refine ⟨[], ?_⟩
          split <;> rfl
    · exact ⟨[], rfl⟩

/-- Submissions do not disturb a packet in the slot. -/
theorem slot_held_submits {t : List Event} {ch : Nat} {d : List Nat} (h : slot t = .held ch d) (l : List (Nat × List Nat)) :
    slot ((l.map fun p => Event.submit p.1 p.2) ++ t) = .held ch d := by
  induction l with
  | nil => exact h
  | cons p l ih => simp only [List.map_cons, List.cons_append, slot, ih]

theorem handed_submits (t : List Event) (l : List (Nat × List Nat)) :
    handed ((l.map fun p => Event.submit p.1 p.2) ++ t) = handed t := by
  induction l with
  | nil => rfl
  | cons p l ih => simp only [List.map_cons, List.cons_append, handed, ih]

/-- The first part of a tick hands nothing to the radio. -/
theorem tickRx_slot {s : St} {ch : Nat} {d : List Nat} (h : slot s.out = .held ch d) :
    slot (tickRx s).out = .held ch d ∧ handed (tickRx s).out = handed s.out := by
  unfold tickRx
  split
  · obtain ⟨l, e⟩ := processUdp_out s s.rxCh (s.rxBuf.drop headerLen) (s.rxLen % 65536).toNat
    simp only [e]
    exact ⟨slot_held_submits (by simpa [slot] using h) l, by rw [handed_submits]; rfl⟩
  · exact ⟨h, rfl⟩

/-- The bytes handed to the radio. -/
theorem sendBuffered_held {s : St} (hi : TxInv s) {ch : Nat} {d : List Nat} (h : slot s.out = .held ch d) (ok : Bool) :
    (sendBuffered s ok).out = .send ch (Rtp.be32 s.remoteIp ++
        [(if ch = 1 then s.remoteControlPort else s.remoteMidiPort) / 256 % 256,
          (if ch = 1 then s.remoteControlPort else s.remoteMidiPort) % 256] ++ d) ok :: s.out ∧
      s.txState = .queued ∧ (sendBuffered s ok).txState = if ok then .inflight else .idle := by
  obtain ⟨len, hok, list, one⟩ := hi
  rw [h] at hok
  simp only at hok
  obtain ⟨h1, h2, h3, h4, h5⟩ := hok
  unfold sendBuffered
  rw [if_neg (by simp [h1])]
  refine ⟨?_, h1, rfl⟩
  simp only [log, h2]
  congr 2
  rw [List.take_append, h3, headerLen, List.take_of_length_le (by simp [be32_length])]
  simp only [List.length_append, be32_length, List.length_cons, List.length_nil]
  rw [Nat.add_sub_cancel_right (n := d.length) (m := 6), h5]

/-- The packet in the slot is handed over by the next tick. -/
theorem tickTx_hands {s : St} (hi : TxInv s) {ch : Nat} {d : List Nat} (h : slot s.out = .held ch d) (ok : Bool) :
    handed (tickTx s ok).out = handed s.out ++ [(ch, d)] := by
  obtain ⟨e1, h1, e3⟩ := sendBuffered_held hi h ok
  unfold tickTx
  rw [if_pos h1]
  generalize sendBuffered s ok = t at *
  simp only
  cases ok
  · rw [if_pos (by simpa using e3)]
    have : handed (sendFeedback t).out = handed t.out := by
      unfold sendFeedback
      split
      · rfl
      · simp only
        split
        · simp only [(send_rest t _ _).1]; rfl
        · rfl
    rw [this, e1]; simp [handed, Rtp.be32]
  · rw [if_neg (by simp [e3])]
    rw [e1]; simp [handed, Rtp.be32]

/-- Datagrams have at least four bytes after their header. -/
def Whole (t : List Event) : Prop := ∀ ch b, .recv ch b ∈ t → 10 ≤ b.length

/-- The remote end point agrees with the trace. -/
structure EndInv (s : St) : Prop where
  at' : (s.remoteIp, s.remoteControlPort, s.remoteMidiPort) = remote s.out
  ip : s.remoteIp < 2 ^ 32
  control : s.remoteControlPort < 65536
  midi : s.remoteMidiPort < 65536
  aimed : Aimed s.out

/-- Events that do not concern the end point. -/
def Event.notEnd : Event → Prop
  | .recv _ _ | .process _ _ | .send _ _ _ => False
  | _ => True

theorem notEnd_remote {e : Event} (h : e.notEnd) (t) : remote (e :: t) = remote t ∧ (Aimed (e :: t) ↔ Aimed t) := by
  cases e <;> simp_all [Event.notEnd, remote, Aimed]

theorem EndInv.congr {s s' : St} (h : EndInv s) (h1 : s'.remoteIp = s.remoteIp)
    (h2 : s'.remoteControlPort = s.remoteControlPort) (h3 : s'.remoteMidiPort = s.remoteMidiPort)
    (h5 : s'.out = s.out ∨ ∃ e : Event, e.notEnd ∧ s'.out = e :: s.out) : EndInv s' := by
  obtain ⟨a, b, c, d, f⟩ := h
  rcases h5 with h5 | ⟨e, he, h5⟩
  · constructor <;> simp only [h1, h2, h3, h5] <;> assumption
  · obtain ⟨e1, e2⟩ := notEnd_remote he s.out
    constructor <;> simp only [h1, h2, h3, h5, e1, e2] <;> assumption

theorem send_end {s : St} (h : EndInv s) (ch : Nat) (d : List Nat) : EndInv (send s ch d) := by
  obtain ⟨h1, -, -, -, -, -, -, -, h2, h3, h4, -⟩ := send_rest s ch d
  exact h.congr h2 h3 h4 (.inr ⟨.submit ch d, trivial, h1⟩)

theorem sendAll_end {s : St} (h : EndInv s) (l : List AppleMidi.Send) : EndInv (sendAll s l) := by
  induction l generalizing s with
  | nil => exact h
  | cons p l ih => exact ih (send_end h p.1 p.2)

theorem processInvitation_some {b : List Nat} {n ch : Nat} (hb : 32 ≤ b.length) :
    ∃ p, AppleMidi.processInvitation ch b n = some p := by
  have : ∃ x, AppleMidi.unpackInvitation b n = some x := by
    unfold AppleMidi.unpackInvitation
    split
    · exact ⟨_, rfl⟩
    · rw [if_neg (Nat.not_lt.mpr hb)]
      simp only
      split <;> exact ⟨_, rfl⟩
  obtain ⟨⟨r, i⟩, e⟩ := this
  unfold AppleMidi.processInvitation
  rw [e]
  cases r <;> exact ⟨_, rfl⟩

/-- A session end is recognised exactly by its first four bytes. -/
theorem processControl_end {b : List Nat} {n : Nat} (hn : 4 ≤ n) (hb : 32 ≤ b.length) :
    ∃ r e l, AppleMidi.processControl b n = some (r, e, l) ∧ (e = true ↔ b.take 4 = [0xFF, 0xFF, 0x42, 0x59]) ∧
      (e = true → l = []) := by
  match b, hb with
  | x0 :: x1 :: x2 :: x3 :: rest, hb =>
    unfold AppleMidi.processControl AppleMidi.hasSignature
    rw [if_neg (by omega)]
    by_cases h0 : x0 = 0xFF
    · by_cases h1 : x1 = 0xFF
      · subst h0; subst h1
        by_cases hi : x2 = 0x49 ∧ x3 = 0x4E
        · obtain ⟨rfl, rfl⟩ := hi
          obtain ⟨p, hp⟩ : ∃ p, AppleMidi.processInvitation 1 (0xFF :: 0xFF :: 0x49 :: 0x4E :: rest) n = some p := by
            exact processInvitation_some hb
          refine ⟨p.1, false, p.2, ?_, by simp, by simp⟩
          simp [hp]
        · by_cases hr : x2 = 0x52 ∧ x3 = 0x53
          · obtain ⟨rfl, rfl⟩ := hr
            exact ⟨.ok, false, [], by simp, by simp, by simp⟩
          · by_cases hy : x2 = 0x42 ∧ x3 = 0x59
            · obtain ⟨rfl, rfl⟩ := hy
              exact ⟨.ok, true, [], by simp, by simp, by simp⟩
            · refine ⟨.unsupportedCommand, false, [], ?_, ?_, by simp⟩
              · simp [hi, hr, hy]
              · simp; intro a; intro c; exact hy ⟨a, c⟩
      · exact ⟨.invalidSignature, false, [], by simp [h0, beq_eq_false_iff_ne.2 h1], by simp [h1], by simp⟩
    · exact ⟨.invalidSignature, false, [], by simp [h0], by simp [h0], by simp⟩

theorem processUdp_end {s : St} (h : EndInv s) (ch : Nat) (b : List Nat) (n : Nat) (hn : 4 ≤ n) (hb : 32 ≤ b.length) :
    EndInv (processUdp s ch b n) := by
  have ht : (b.take n).take 4 = b.take 4 := by rw [List.take_take]; congr 1; omega
  by_cases h1 : ch = 1
  · subst h1
    obtain ⟨r, e, l, hp, he, hl⟩ := processControl_end hn hb
    simp only [processUdp, if_true, hp]
    cases e
    · have hne : ¬ b.take 4 = [0xFF, 0xFF, 0x42, 0x59] := fun x => by simpa using he.2 x
      simp only [Bool.false_eq_true, if_false]
      refine sendAll_end ?_ l
      obtain ⟨a1, a2, a3, a4, a5⟩ := h
      refine ⟨?_, a2, a3, a4, by simpa [log, Aimed] using a5⟩
      simp only [log, remote, ht, hne, and_false, if_false]; exact a1
    · rw [hl rfl]
      simp only [if_true, sendAll, List.foldl_nil, resetRemote, log]
      refine ⟨?_, show 0 < _ by decide, show 0 < _ by decide, show 0 < _ by decide, by simpa [Aimed] using h.aimed⟩
      simp [remote, ht, he.1 rfl]
  · have h0 : EndInv (log s (.process ch (b.take n))) := by
      obtain ⟨a1, a2, a3, a4, a5⟩ := h
      refine ⟨?_, a2, a3, a4, by simpa [log, Aimed] using a5⟩
      simp only [log, remote, h1, false_and, if_false]; exact a1
    unfold processUdp
    generalize log s (.process ch (b.take n)) = t at h0
    simp only
    rw [if_neg h1]
    split
    · split
      · exact h0.congr rfl rfl rfl (.inl rfl)
      · split
        · exact h0.congr rfl rfl rfl (.inl rfl)
        · rename_i am sends _
          exact sendAll_end (s := { t with am := am }) (h0.congr rfl rfl rfl (.inl rfl)) sends
      · split
        · exact h0.congr rfl rfl rfl (.inl rfl)
        · rename_i bytes seq _
          obtain ⟨r, d, f, e⟩ := emit_shape t bytes
          rw [e]
          split <;> exact h0.congr rfl rfl rfl (.inl rfl)
    · exact h0

theorem sendBuffered_end {s : St} (h : EndInv s) (ok : Bool) : EndInv (sendBuffered s ok) := by
  unfold sendBuffered
  split
  · exact h
  · obtain ⟨a1, a2, a3, a4, a5⟩ := h
    refine ⟨by simpa [log, remote] using a1, a2, a3, a4, ?_, by simpa using a5⟩
    simp only
    rw [← a1, List.take_take, Nat.min_eq_left (by simp [headerLen]), List.take_left' (by simp [be32_length])]
    have hp : (if s.txCh = 1 then s.remoteControlPort else s.remoteMidiPort) < 65536 := by split <;> assumption
    simp only [headerFor]
    generalize (if s.txCh = 1 then s.remoteControlPort else s.remoteMidiPort) = port at hp
    rw [show port / 256 % 256 = port / 256 by omega]
    simp only [Rtp.be32]
    rw [show s.remoteIp / 2 ^ 24 % 256 = s.remoteIp / 2 ^ 24 by omega]
    rfl

theorem sendFeedback_end {s : St} (h : EndInv s) : EndInv (sendFeedback s) := by
  unfold sendFeedback
  split
  · exact h
  · simp only
    split
    · exact (send_end h _ _).congr rfl rfl rfl (.inl rfl)
    · exact h.congr rfl rfl rfl (.inl rfl)

theorem tickTx_end {s : St} (h : EndInv s) (ok : Bool) : EndInv (tickTx s ok) := by
  unfold tickTx
  have h1 : EndInv (if s.txState = .queued then sendBuffered s ok else s) := by
    split
    · exact sendBuffered_end h ok
    · exact h
  simp only
  generalize (if s.txState = .queued then sendBuffered s ok else s) = t at h1
  split
  · exact sendFeedback_end h1
  · exact h1

theorem tickArm_end {s : St} (h : EndInv s) (ok : Bool) : EndInv (tickArm s ok) := by
  unfold tickArm
  split
  · simp only
    split <;> exact h.congr rfl rfl rfl (.inr ⟨.arm _, trivial, rfl⟩)
  · exact h

theorem inbox_mem {t : List Event} {ch : Nat} {b : List Nat} (h : inbox t = some (ch, b)) : .recv ch b ∈ t := by
  induction t with
  | nil => simp [inbox] at h
  | cons e t ih =>
    cases e <;> simp [inbox] at h <;> simp [*]

theorem tickRx_end {s : St} (hr : RxInv s) (hw : Whole s.out) (h : EndInv s) : EndInv (tickRx s) := by
  unfold tickRx
  split
  · rename_i hb
    obtain ⟨len, ok, -⟩ := hr
    cases hi : inbox s.out with
    | none => rw [hi] at ok; simp only [hb] at ok; split at ok <;> simp at ok
    | some x =>
      obtain ⟨ch, b⟩ := x
      rw [hi] at ok
      simp only at ok
      obtain ⟨h0, h1, h2, h3, h4, h5, h6, h7⟩ := ok
      have := hw ch b (inbox_mem hi)
      refine (processUdp_end h _ _ _ ?_ ?_).congr rfl rfl rfl (.inl rfl)
      · rw [h4]; omega
      · simp [headerLen, len]
  · exact h

theorem getD_lt {b : List Nat} (h : ∀ x ∈ b, x < 256) (i : Nat) : b.getD i 0 < 256 := by
  rw [List.getD_eq_getElem?_getD]
  cases e : b[i]? with
  | none => simp
  | some x => exact h x (List.mem_of_getElem? e)

theorem getD_append_left {a b : List Nat} {i : Nat} (h : i < a.length) : (a ++ b).getD i 0 = a.getD i 0 := by
  rw [List.getD_eq_getElem?_getD, List.getElem?_append_left h, List.getD_eq_getElem?_getD]

theorem recv_end {s : St} (h : EndInv s) (ch : Nat) (b : List Nat) (h6 : 6 ≤ b.length) (hx : ∀ x ∈ b, x < 256)
    (ha : s.rxState = .armed) : EndInv (recv s ch b) := by
  unfold recv
  rw [if_neg (by simp [log, ha])]
  have v32 : AppleMidi.val32 (b ++ s.rxBuf.drop b.length) = ((b.getD 0 0 * 256 + b.getD 1 0) * 256 + b.getD 2 0) * 256 + b.getD 3 0 := by
    simp only [AppleMidi.val32]
    rw [getD_append_left (by omega), getD_append_left (by omega), getD_append_left (by omega), getD_append_left (by omega)]
  have v16 : val16 ((b ++ s.rxBuf.drop b.length).drop 4) = b.getD 4 0 * 256 + b.getD 5 0 := by
    have : ∀ i, i < 2 → ((b ++ s.rxBuf.drop b.length).drop 4).getD i 0 = b.getD (4 + i) 0 := by
      intro i hi
      rw [List.getD_eq_getElem?_getD, List.getElem?_drop, List.getElem?_append_left (by omega), List.getD_eq_getElem?_getD]
    simp only [val16, this 0 (by omega), this 1 (by omega)]
  have b0 := getD_lt hx 0
  have b1 := getD_lt hx 1
  have b2 := getD_lt hx 2
  have b3 := getD_lt hx 3
  have b4 := getD_lt hx 4
  have b5 := getD_lt hx 5
  obtain ⟨a1, a2, a3, a4, a5⟩ := h
  simp only [log, v32, v16, persistRemote]
  by_cases h1 : ch = 1
  · simp only [h1, if_true]
    refine ⟨?_, by simp only; omega, by simp only; omega, by simp only; omega, by simpa [Aimed] using a5⟩
    simp only [remote, if_true]
  · by_cases h2 : ch = 2
    · subst h2
      rw [if_neg h1, if_pos rfl]
      refine ⟨?_, by simp only; omega, by simp only; omega, by simp only; omega, by simpa [Aimed] using a5⟩
      simp only [remote]
      rw [if_neg h1, if_pos trivial]
    · simp only [h1, h2, if_false]
      refine ⟨?_, by simp only; omega, a3, a4, by simpa [Aimed] using a5⟩
      simp only [remote, h1, h2, if_false, ← a1]

theorem step_end {s : St} (hr : RxInv s) (op : Op) (hl : Legal s.out op) (hw : Whole s.out) (h : EndInv s) :
    EndInv (step s op) := by
  cases op with
  | sendDone => exact h.congr rfl rfl rfl (.inr ⟨.sendDone, trivial, rfl⟩)
  | recv ch b =>
    obtain ⟨ha, hc, h6, h7, hx⟩ := hl
    obtain ⟨len, ok, list⟩ := hr
    have hn : inbox s.out = none := by
      cases hx : inbox s.out with
      | none => rfl
      | some x => rw [hx] at ok; simp [ha] at ok
    rw [hn] at ok
    simp only [ha, if_true] at ok
    exact recv_end h ch b h6 hx ok
  | recvFailed =>
    simp only [step, recvFailed]
    split <;> exact h.congr rfl rfl rfl (.inr ⟨.recvFailed, trivial, rfl⟩)
  | tick a b =>
    by_cases hlis : s.listening = true
    · rw [step, tick_parts s a b hlis]
      exact tickArm_end (tickTx_end (tickRx_end hr hw h) a) b
    · simp only [step, tick]; rw [if_pos (by simpa using hlis)]; exact h
  | write d =>
    simp only [step]
    rcases write_shape s d with ⟨f, n, e⟩ | ⟨n, p, e⟩ <;> rw [e]
    · exact h.congr rfl rfl rfl (.inl rfl)
    · exact send_end (s := { s with sendSeqNum := n }) (h.congr rfl rfl rfl (.inl rfl)) 2 p
  | vsync d => exact h.congr rfl rfl rfl (.inl rfl)
  | read =>
    simp only [step]
    obtain ⟨r, f, e⟩ := read_shape s
    rw [e]; exact h.congr rfl rfl rfl (.inl rfl)

/-- The trace only grows. -/
theorem tickTx_grows (s : St) (ok : Bool) : ∃ l, (tickTx s ok).out = l ++ s.out := by
  have h1 : ∃ l, (if s.txState = .queued then sendBuffered s ok else s).out = l ++ s.out := by
    split
    · unfold sendBuffered
      split
      · exact ⟨[], rfl⟩
      · exact ⟨[_], rfl⟩
    · exact ⟨[], rfl⟩
  obtain ⟨l, e⟩ := h1
  unfold tickTx
  simp only
  generalize (if s.txState = .queued then sendBuffered s ok else s) = t at e
  split
  · unfold sendFeedback
    split
    · exact ⟨l, e⟩
    · simp only
      split
      · refine ⟨.submit (AppleMidi.receiverFeedback t.am).1 (AppleMidi.receiverFeedback t.am).2 :: l, ?_⟩
        simp only [(send_rest t _ _).1, e]; rfl
      · exact ⟨l, e⟩
  · exact ⟨l, e⟩

theorem step_grows (s : St) (op : Op) : ∃ l, (step s op).out = l ++ s.out := by
  cases op with
  | sendDone => exact ⟨[_], rfl⟩
  | recv ch b =>
    refine ⟨[.recv ch b], ?_⟩
    simp only [step, recv]
    split
    · rfl
    · obtain ⟨c, m, e⟩ := persistRemote_shape { log { s with rxBuf := b ++ s.rxBuf.drop b.length } (.recv ch b) with
        rxState := .buffered, rxCh := ch, rxLen := (b.length : Int) - headerLen } ch
        (AppleMidi.val32 (b ++ s.rxBuf.drop b.length)) (val16 ((b ++ s.rxBuf.drop b.length).drop 4))
      simp only [log] at e ⊢
      rw [e]; rfl
  | recvFailed =>
    refine ⟨[.recvFailed], ?_⟩
    simp only [step, recvFailed]
    split <;> rfl
  | tick a b =>
    by_cases hlis : s.listening = true
    · rw [step, tick_parts s a b hlis]
      have h1 : ∃ l, (tickRx s).out = l ++ s.out := by
        unfold tickRx
        split
        · obtain ⟨l, e⟩ := processUdp_out s s.rxCh (s.rxBuf.drop headerLen) (s.rxLen % 65536).toNat
          exact ⟨_ ++ [_], by simp only [e]; rw [List.append_assoc]; rfl⟩
        · exact ⟨[], rfl⟩
      obtain ⟨l1, e1⟩ := h1
      obtain ⟨l2, e2⟩ := tickTx_grows (tickRx s) a
      generalize tickTx (tickRx s) a = t at e2
      have h3 : ∃ l, (tickArm t b).out = l ++ t.out := by
        unfold tickArm
        split
        · simp only
          split <;> exact ⟨[_], rfl⟩
        · exact ⟨[], rfl⟩
      obtain ⟨l3, e3⟩ := h3
      exact ⟨l3 ++ (l2 ++ l1), by rw [e3, e2, e1]; simp⟩
    · refine ⟨[], ?_⟩
      simp only [step, tick]; rw [if_pos (by simpa using hlis)]; rfl
  | write d =>
    simp only [step]
    rcases write_shape s d with ⟨f, n, e⟩ | ⟨n, p, e⟩ <;> rw [e]
    · exact ⟨[], rfl⟩
    · exact ⟨[_], by rw [(send_rest _ _ _).1]; rfl⟩
  | vsync d => exact ⟨[], rfl⟩
  | read =>
    simp only [step]
    obtain ⟨r, f, e⟩ := read_shape s
    rw [e]; exact ⟨[], rfl⟩

theorem Reached.endpoint {s : St} (h : Reached s) (hw : Whole s.out) : EndInv s := by
  induction h with
  | boot l => exact ⟨rfl, show 0 < _ by decide, show 0 < _ by decide, show 0 < _ by decide, trivial⟩
  | @step s h op hl ih =>
    have hw' : Whole s.out := by
      obtain ⟨l, e⟩ := step_grows s op
      intro ch b hm
      exact hw ch b (by rw [e]; exact List.mem_append_right _ hm)
    exact step_end h.rx op hl hw' (ih hw')

/-- Six bytes are the bytes of their address and port. -/
theorem header_bytes {h : List Nat} (hl : h.length = 6) (hx : ∀ x ∈ h, x < 256) :
    Rtp.be32 (((h.getD 0 0 * 256 + h.getD 1 0) * 256 + h.getD 2 0) * 256 + h.getD 3 0) ++
      [(h.getD 4 0 * 256 + h.getD 5 0) / 256 % 256, (h.getD 4 0 * 256 + h.getD 5 0) % 256] = h := by
  match h, hl with
  | [a, b, c, d, e, f], _ =>
    simp only [List.mem_cons, List.not_mem_nil, or_false, forall_eq_or_imp, forall_eq] at hx
    obtain ⟨l0, l1, l2, l3, l4, l5⟩ := hx
    simp only [List.getD_cons_zero, List.getD_cons_succ, Rtp.be32, List.cons_append, List.nil_append, List.cons.injEq, and_true]
    refine ⟨by omega, by omega, by omega, by omega, by omega, by omega⟩

/-- A datagram with one reply, in a state with a free slot: the whole course of the next tick. -/
theorem tick_reply {s : St} (h : Reached s) (hl : s.listening = true) (hf : slot s.out = .free)
    (ha : armed s.out = true) {hdr d r : List Nat} (hh : hdr.length = 6) (hd : d.length ≤ 1454)
    (hx : ∀ x ∈ hdr ++ d, x < 256) {ch : Nat} (hc : ch = 1 ∨ ch = 2) (hr : r.length ≤ 1454)
    (hp : ∀ rest, d.length + rest.length = 1454 →
      (ch = 1 → ∃ x, AppleMidi.processControl (d ++ rest) d.length = some (x, false, [(ch, r)])) ∧
      (ch = 2 → ∃ x am, AppleMidi.hasSignature (d ++ rest) d.length = some true ∧
        AppleMidi.processMidi s.am (d ++ rest) d.length = some (x, am, [(ch, r)]))) (b : Bool) :
    (run s [.recv ch (hdr ++ d), .tick true b]).out =
      [.arm b, .send ch (hdr ++ r) true, .submit ch r, .process ch d, .recv ch (hdr ++ d)] ++ s.out := by
  have hlegal : Legal s.out (.recv ch (hdr ++ d)) :=
    ⟨ha, by omega, by simp [hh], by simp [hh]; omega, hx⟩
  have hreach := h.step _ hlegal
  have htx := hreach.tx
  have hrx := hreach.rx
  have hrx0 := h.rx
  obtain ⟨len, ok, list⟩ := hrx0
  have hn : inbox s.out = none := by
    cases hx : inbox s.out with
    | none => rfl
    | some x => rw [hx] at ok; simp [ha] at ok
  rw [hn] at ok
  simp only [ha, if_true] at ok
  have hbytes : ∀ i, i < 6 → (hdr ++ d ++ s.rxBuf.drop (hdr ++ d).length).getD i 0 = hdr.getD i 0 := by
    intro i hi
    rw [List.append_assoc, getD_append_left (by omega)]
  -- the state after the callback
  obtain ⟨t, ht⟩ : ∃ t, t = step s (.recv ch (hdr ++ d)) := ⟨_, rfl⟩
  have facts : t.listening = true ∧ t.rxState = .buffered ∧ t.rxCh = ch ∧ t.rxLen = d.length ∧
      t.rxBuf.drop 6 = d ++ s.rxBuf.drop (hdr ++ d).length ∧ t.am = s.am ∧ t.out = .recv ch (hdr ++ d) :: s.out ∧
      t.remoteIp = ((hdr.getD 0 0 * 256 + hdr.getD 1 0) * 256 + hdr.getD 2 0) * 256 + hdr.getD 3 0 ∧
      (if ch = 1 then t.remoteControlPort else t.remoteMidiPort) = hdr.getD 4 0 * 256 + hdr.getD 5 0 := by
    subst ht
    have v32 : AppleMidi.val32 (hdr ++ d ++ s.rxBuf.drop (hdr ++ d).length) =
        ((hdr.getD 0 0 * 256 + hdr.getD 1 0) * 256 + hdr.getD 2 0) * 256 + hdr.getD 3 0 := by
      simp only [AppleMidi.val32]
      rw [hbytes 0 (by omega), hbytes 1 (by omega), hbytes 2 (by omega), hbytes 3 (by omega)]
    have v16 : val16 ((hdr ++ d ++ s.rxBuf.drop (hdr ++ d).length).drop 4) = hdr.getD 4 0 * 256 + hdr.getD 5 0 := by
      have : ∀ i, i < 2 → ((hdr ++ d ++ s.rxBuf.drop (hdr ++ d).length).drop 4).getD i 0 = hdr.getD (4 + i) 0 := by
        intro i hi
        rw [← hbytes (4 + i) (by omega), List.getD_eq_getElem?_getD, List.getElem?_drop, List.getD_eq_getElem?_getD]
      simp only [val16, this 0 (by omega), this 1 (by omega)]
    have hdrop : (hdr ++ d ++ s.rxBuf.drop (hdr ++ d).length).drop 6 = d ++ s.rxBuf.drop (hdr ++ d).length := by
      rw [List.append_assoc, List.drop_left' hh]
    simp only [step, recv]
    rw [if_neg (by simp [log, ok])]
    simp only [log, v32, v16, persistRemote]
    rcases hc with rfl | rfl
    · exact ⟨hl, rfl, rfl, by simp [headerLen, hh]; omega, hdrop, rfl, rfl, rfl, rfl⟩
    · exact ⟨hl, rfl, rfl, by simp [headerLen, hh]; omega, hdrop, rfl, rfl, rfl, rfl⟩
  rw [← ht] at htx hrx
  obtain ⟨f1, f2, f3, f4, f5, f6, f7, f8, f9⟩ := facts
  have hlen : d.length + (s.rxBuf.drop (hdr ++ d).length).length = 1454 := by
    simp [len, hh]; omega
  have hrun : run s [.recv ch (hdr ++ d), .tick true b] = tick t true b := by
    rw [ht]; rfl
  rw [hrun, tick_parts t true b f1]
  -- first part
  have hA : (tickRx t).out = [.submit ch r, .process ch d, .recv ch (hdr ++ d)] ++ s.out ∧ (tickRx t).rxState = .idle ∧
      (tickRx t).remoteIp = t.remoteIp ∧ (tickRx t).remoteControlPort = t.remoteControlPort ∧
      (tickRx t).remoteMidiPort = t.remoteMidiPort := by
    unfold tickRx
    rw [if_pos f2, f3, f4, headerLen, f5]
    have hn : ((d.length : Int) % 65536).toNat = d.length := by omega
    rw [hn]
    have htake : (d ++ s.rxBuf.drop (hdr ++ d).length).take d.length = d := List.take_left
    obtain ⟨p1, p2⟩ := hp _ hlen
    unfold processUdp
    rcases hc with rfl | rfl
    · obtain ⟨x, p1⟩ := p1 rfl
      rw [p1]
      simp only [if_true, htake, sendAll, List.foldl_cons, List.foldl_nil, Bool.false_eq_true, if_false]
      obtain ⟨q1, -, -, -, -, -, -, -, q2, q3, q4, -⟩ := send_rest (log t (.process 1 d)) 1 r
      refine ⟨?_, trivial, q2, q3, q4⟩
      rw [q1]; simp only [log, f7]; rfl
    · obtain ⟨x, am, p2, p3⟩ := p2 rfl
      rw [if_neg (by decide), if_pos rfl, p2]
      simp only [log, f6] at p3 ⊢
      rw [p3]
      simp only [htake, sendAll, List.foldl_cons, List.foldl_nil]
      obtain ⟨q1, -, -, -, -, -, -, -, q2, q3, q4, -⟩ := send_rest { t with out := .process 2 d :: t.out, am := am } 2 r
      refine ⟨?_, trivial, q2, q3, q4⟩
      rw [q1]; simp only [f7]; rfl
  obtain ⟨a1, a2, a3, a4, a5⟩ := hA
  have hslot : slot (tickRx t).out = .held ch r := by
    rw [a1]; simp [slot, hf, hr]
  have htxA := tickRx_tx htx
  generalize tickRx t = u at *
  obtain ⟨e1, h1, e3⟩ := sendBuffered_held htxA hslot true
  have hB : (tickTx u true).out = .send ch (hdr ++ r) true :: u.out := by
    unfold tickTx
    rw [if_pos h1]
    simp only
    rw [if_neg (by simp [e3]), e1, a3, a4, a5, f8, f9, header_bytes hh (fun x hx' => hx x (List.mem_append_left _ hx'))]
  have hC : (tickTx u true).rxState = .idle := by
    rw [(tickTx_rx u true).1, a2]
  unfold tickArm
  rw [if_pos hC]
  simp only
  split <;> simp only [log, hB, a1] <;> rfl

end Mdmi.Wifi
