import Verif.Proofs.Wifi
/-!
C51: the network driver's single transmit slot and single receive buffer.  The histories (`Reached`) are all sequences of
ticks, writes, frame counts and reads with the radio's callbacks anywhere in between; the radio completes only what it
was asked to do.
-/
namespace Mdmi.Props
open Mdmi Mdmi.Wifi

/-- The packets taken into the slot are handed to the radio once each, in order and unchanged; only the last one may
still wait.  A packet submitted while the slot is occupied is not in the list (`accepted`). -/
theorem C51_handed_once {s : St} (h : Reached s) : accepted s.out = handed s.out ++ (slot s.out).waiting := h.tx.list

/-- The radio is handed only the packet waiting in the slot, behind a header of six bytes, never while it is sending
another one. -/
theorem C51_one_at_a_time {s : St} (h : Reached s) : OneAtATime s.out := h.tx.one

/-- While the radio is sending, the bytes it was given stay as they are. -/
theorem C51_buffer_stable {s : St} (h : Reached s) {ch : Nat} {b : List Nat} (hs : slot s.out = .flying ch b) :
    s.txBuf.take b.length = b := by
  have := h.tx.ok
  rw [hs] at this
  exact this.2

/-- A packet waiting in the slot is handed to the radio by the next tick. -/
theorem C51_next_tick_hands {s : St} (h : Reached s) (hl : s.listening = true) {ch : Nat} {d : List Nat}
    (hs : slot s.out = .held ch d) (a b : Bool) : handed (step s (.tick a b)).out = handed s.out ++ [(ch, d)] := by
  rw [step, tick_parts s a b hl]
  obtain ⟨h1, h2⟩ := tickRx_slot hs
  have := tickTx_hands (tickRx_tx h.tx) h1 a
  rw [h2] at this
  rw [← this]
  unfold tickArm
  split
  · simp only
    split <;> rfl
  · rfl

/-- The datagrams received are processed once each, in order, with exactly the bytes the radio delivered; only the last
one may still wait. -/
theorem C51_processed_once {s : St} (h : Reached s) :
    received s.out = processed s.out ++ ((inbox s.out).map fun x => (x.1, x.2.drop 6)).toList := h.rx.list

/-- A tick processes the datagram that waits. -/
theorem C51_next_tick_processes {s : St} (h : Reached s) (hl : s.listening = true) (a b : Bool) :
    processed (step s (.tick a b)).out = received s.out ∧ received (step s (.tick a b)).out = received s.out := by
  rw [step, tick_parts s a b hl]
  obtain ⟨r1, -, r3, r4, -⟩ := tickRx_rx h.rx
  obtain ⟨-, -, -, -, -, -, g7, g8⟩ := tickTx_rx (tickRx s) a
  obtain ⟨-, -, q3, q4⟩ := tickArm_rx (r1.congr (tickTx_rx (tickRx s) a)) b
  exact ⟨by rw [q3, g8, r3], by rw [q4, g7, r4]⟩

/-- No datagram is delivered into the buffer while another one waits in it. -/
theorem C51_no_overwrite {s : St} (h : Reached s) {ch : Nat} {b : List Nat} (hi : inbox s.out = some (ch, b)) :
    armed s.out = false ∧ s.rxBuf.take b.length = b := by
  have := h.rx.ok
  rw [hi] at this
  exact ⟨this.1, this.2.2.2.2.2.2.2⟩

/-- Every packet goes to the sender of the last datagram, at the port of its own channel (datagrams of at least four
bytes; for shorter ones see `C50_short_packet_ends_session`). -/
theorem C51_destination {s : St} (h : Reached s) (hw : ∀ ch b, .recv ch b ∈ s.out → 10 ≤ b.length) : Aimed s.out :=
  (h.endpoint hw).aimed

/-- An invitation on the control port from 192.168.1.2:5004, without a name. -/
private def invitation : List Nat :=
  [192, 168, 1, 2, 0x13, 0x8C] ++ [0xFF, 0xFF, 0x49, 0x4E, 0, 0, 0, 2, 1, 2, 3, 4, 9, 9, 9, 9, 0]

private def demoOps : List Op :=
  [.tick true true, .recv 1 invitation, .tick true true, .write [0x90, 60, 100], .sendDone, .write [0x80, 60, 0],
    .write [0x90, 61, 1], .tick true true]

/-- The history is legal, so the theorems apply to it. -/
private theorem demo_reached : Reached (run (boot true) demoOps) :=
  LegalRun.reached (.boot true) (by decide +kernel)

/-- The reply and the second write are sent; the first write met a sending radio and the third a full slot. -/
example : (handed (run (boot true) demoOps).out).map (fun p => (p.1, p.2.length)) = [(1, 32), (2, 16)] ∧
    ((handed (run (boot true) demoOps).out).getLastD (0, [])).2.drop 13 = [0x80, 60, 0] ∧
    slot (run (boot true) demoOps).out ≠ .free ∧ processed (run (boot true) demoOps).out = [(1, invitation.drop 6)] := by
  decide +kernel

/-- A radio that completes a send it was not given would make the driver lose the packet in its slot: the hypothesis on
the radio is needed. -/
example : handed (run (boot true) [.write [0x90, 60, 100], .sendDone, .tick true true]).out = [] := by decide +kernel

end Mdmi.Props
