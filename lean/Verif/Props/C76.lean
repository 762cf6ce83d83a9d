import Verif.Model.Radio
import Verif.Props.C53
/-! C76: bringing up the network. -/
namespace Mdmi.Props
open Mdmi Mdmi.Radio

/-- Everything went well with the radio: it is there, it answers, it has an address, and both ports could be opened. -/
def RadioReady (r : Radio) : Prop :=
  r.scratch 0x57 = 0x57 ∧ r.init = 0 ∧ r.detect = 0 ∧ r.ipErr = 0 ∧ r.udp 1 = 0 ∧ r.udp 2 = 0

/-- The access point was joined. -/
def Associated (r : Radio) : Prop := r.assoc = 0 ∧ r.assocWait = 0

/-- The calls of the radio library (and the access to the UART) among the events, by kind. -/
inductive Step | scratch | init | detect | defaultAp | assoc | assocWait | ipCurrent | control | midi
  deriving DecidableEq

@[inherit_doc Step] def stepOf : Ev → Option Step
  | .scratch _ => some .scratch
  | .init => some .init
  | .detect => some .detect
  | .defaultAp => some .defaultAp
  | .assoc _ => some .assoc
  | .assocWait _ => some .assocWait
  | .ipCurrent => some .ipCurrent
  | .udpSet 1 _ => some .control
  | .udpSet _ _ => some .midi
  | _ => none

/-- Did the step fail? -/
def stepFails (r : Radio) : Step → Bool
  | .scratch => r.scratch 0x57 ≠ 0x57
  | .init => r.init ≠ 0
  | .detect => r.detect ≠ 0
  | .defaultAp => false
  | .assoc => r.assoc ≠ 0
  | .assocWait => r.assocWait ≠ 0
  | .ipCurrent => r.ipErr ≠ 0
  | .control => r.udp 1 ≠ 0
  | .midi => r.udp 2 ≠ 0

/-- Steps in order, up to the first that fails (included). -/
def upToFailure (fails : Step → Bool) : List Step → List Step
  | [] => []
  | x :: l => x :: if fails x then [] else upToFailure fails l

/-- The steps needed to receive, and those to join the access point. -/
def firstSteps : List Step := [.scratch, .init, .detect]
@[inherit_doc firstSteps] def joinSteps : List Step := [.defaultAp, .assoc, .assocWait]
@[inherit_doc firstSteps] def lastSteps : List Step := [.ipCurrent, .control, .midi]

private theorem start_cases (r : Radio) (P : List Ev → Prop)
    (h0 : r.scratch 0x57 ≠ 0x57 → P [.scratch 0x57, .yield])
    (h1 : r.scratch 0x57 = 0x57 → r.init ≠ 0 → P [.scratch 0x57, .yield, .init, .warn (.mwInitError r.init)])
    (h2 : r.scratch 0x57 = 0x57 → r.init = 0 → r.detect ≠ 0 →
      P [.scratch 0x57, .yield, .init, .idleTask, .info .mwDetecting, .detect, .warn .mwNotFound])
    (h3 : r.scratch 0x57 = 0x57 → r.init = 0 → r.detect = 0 → r.ipErr ≠ 0 →
      P ([.scratch 0x57, .yield, .init, .idleTask, .info .mwDetecting, .detect, .info (.mwFound r.major r.minor), .yield, .yield] ++
        ((associateAp r).1 ++ [.ipCurrent, .warn .mwNoIp])))
    (h4 : r.scratch 0x57 = 0x57 → r.init = 0 → r.detect = 0 → r.ipErr = 0 → r.udp 1 ≠ 0 →
      P ([.scratch 0x57, .yield, .init, .idleTask, .info .mwDetecting, .detect, .info (.mwFound r.major r.minor), .yield, .yield] ++
        ((associateAp r).1 ++ [.ipCurrent, .udpSet 1 (Ui.dec 5006), .warn (.mwCannotOpen 5006)])))
    (h5 : r.scratch 0x57 = 0x57 → r.init = 0 → r.detect = 0 → r.ipErr = 0 → r.udp 1 = 0 → r.udp 2 ≠ 0 →
      P ([.scratch 0x57, .yield, .init, .idleTask, .info .mwDetecting, .detect, .info (.mwFound r.major r.minor), .yield, .yield] ++
        ((associateAp r).1 ++ [.ipCurrent, .udpSet 1 (Ui.dec 5006), .udpSet 2 (Ui.dec 5007), .warn (.mwCannotOpen 5007)])))
    (h6 : RadioReady r →
      P ([.scratch 0x57, .yield, .init, .idleTask, .info .mwDetecting, .detect, .info (.mwFound r.major r.minor), .yield, .yield] ++
        ((associateAp r).1 ++ [.ipCurrent, .udpSet 1 (Ui.dec 5006), .udpSet 2 (Ui.dec 5007), .listening, .info (.mwIp r.ip 5006),
          .yield]))) : P (start r) := by
  by_cases a0 : r.scratch 0x57 = 0x57
  · by_cases a1 : r.init = 0
    · by_cases a2 : r.detect = 0
      · by_cases a3 : r.ipErr = 0
        · by_cases a4 : r.udp 1 = 0
          · by_cases a5 : r.udp 2 = 0
            · simpa [start, isPresent, initMegaWifi, detectMw, listenOnUdpPort, a0, a1, a2, a3, a4, a5] using
                h6 ⟨a0, a1, a2, a3, a4, a5⟩
            · simpa [start, isPresent, initMegaWifi, detectMw, listenOnUdpPort, a0, a1, a2, a3, a4, a5] using
                h5 a0 a1 a2 a3 a4 a5
          · simpa [start, isPresent, initMegaWifi, detectMw, listenOnUdpPort, a0, a1, a2, a3, a4] using h4 a0 a1 a2 a3 a4
        · simpa [start, isPresent, initMegaWifi, detectMw, listenOnUdpPort, a0, a1, a2, a3] using h3 a0 a1 a2 a3
      · simpa [start, isPresent, initMegaWifi, detectMw, a0, a1, a2] using h2 a0 a1 a2
    · simpa [start, isPresent, initMegaWifi, a0, a1] using h1 a0 a1
  · simpa [start, isPresent, a0] using h0 a0

private theorem assoc_cases (r : Radio) (P : List Ev → Prop) (hn : ∀ slot, P [.defaultAp, .assoc slot])
    (hw : ∀ slot n, P [.defaultAp, .assoc slot, .assocWait n]) : P (associateAp r).1 := by
  unfold associateAp
  extract_lets slot
  by_cases h : r.assoc = 0
  · simpa [h] using hw slot _
  · simpa [h] using hn slot

private theorem boot_listening (r : Radio) : (boot r).listening = (start r).any Ev.isListening := rfl

/-- **C76** (when).  The network interface works after start-up exactly if the radio is present, answered, has an address and
opened both ports. -/
theorem C76_listening_iff (r : Radio) : (boot r).listening = true ↔ RadioReady r := by
  rw [boot_listening]
  have ha : (associateAp r).1.any Ev.isListening = false :=
    assoc_cases r (fun l => l.any Ev.isListening = false) (fun _ => rfl) (fun _ _ => rfl)
  refine start_cases r (fun l => l.any Ev.isListening = true ↔ RadioReady r) ?_ ?_ ?_ ?_ ?_ ?_ ?_ <;> intros <;>
    simp_all [RadioReady, Ev.isListening]

/-- **C76** (order).  The radio is asked one thing after the other; the first refusal is the last thing asked, except that the
three calls that join the access point are made until one fails and then left. -/
theorem C76_conversation (r : Radio) :
    (start r).filterMap stepOf = upToFailure (stepFails r) firstSteps ++
      if firstSteps.any (stepFails r) then []
      else upToFailure (stepFails r) joinSteps ++ upToFailure (stepFails r) lastSteps := by
  have ha : (associateAp r).1.filterMap stepOf = upToFailure (stepFails r) joinSteps := by
    unfold associateAp
    by_cases h : r.assoc = 0 <;> simp [h, stepOf, upToFailure, joinSteps, stepFails]
  refine start_cases r (fun l => l.filterMap stepOf = _) ?_ ?_ ?_ ?_ ?_ ?_ ?_ <;> intros <;>
    simp_all [RadioReady, stepOf, upToFailure, firstSteps, lastSteps, stepFails, List.filterMap_cons]

/-- The value of a text of decimal digits. -/
def portOf (t : List Char) : Option Nat := decimalValue (t.map Char.toNat)

/-- **C76** (ports).  Ports are only opened as 5006 for the control channel and the port after it for the MIDI channel; the text
and its terminating NUL fit the six bytes of `src_port_str`. -/
theorem C76_ports (r : Radio) (ch : Nat) (t : List Char) (h : .udpSet ch t ∈ start r) :
    ((ch = 1 ∧ portOf t = some 5006) ∨ (ch = 2 ∧ portOf t = some (5006 + 1))) ∧ t.length + 1 ≤ 6 := by
  have e1 : Ui.dec 5006 = ['5', '0', '0', '6'] := by decide
  have e2 : Ui.dec 5007 = ['5', '0', '0', '7'] := by decide
  have ha : Ev.udpSet ch t ∉ (associateAp r).1 := assoc_cases r (fun l => Ev.udpSet ch t ∉ l) (by simp) (by simp)
  revert h
  refine start_cases r (fun l => Ev.udpSet ch t ∈ l → _) ?_ ?_ ?_ ?_ ?_ ?_ ?_ <;> intros <;>
    simp_all only [List.mem_append, List.mem_cons, List.not_mem_nil, or_false, false_or, reduceCtorEq, Ev.udpSet.injEq]
  · rename_i h; obtain ⟨rfl, rfl⟩ := h; decide
  · rename_i h; obtain ⟨rfl, rfl⟩ | ⟨rfl, rfl⟩ := h <;> decide
  · rename_i h; obtain ⟨rfl, rfl⟩ | ⟨rfl, rfl⟩ := h <;> decide

/-- Warnings among the events. -/
def warnings (l : List Ev) : List LogText.Call := l.filterMap fun | .warn c => some c | _ => none

/-- **C76** (reports).  If the radio is there but the interface does not work, exactly one warning says why; otherwise there is
none. -/
theorem C76_warnings (r : Radio) :
    warnings (start r) =
      if r.scratch 0x57 ≠ 0x57 then []
      else if r.init ≠ 0 then [.mwInitError r.init]
      else if r.detect ≠ 0 then [.mwNotFound]
      else if r.ipErr ≠ 0 then [.mwNoIp]
      else if r.udp 1 ≠ 0 then [.mwCannotOpen 5006]
      else if r.udp 2 ≠ 0 then [.mwCannotOpen 5007] else [] := by
  have ha : warnings (associateAp r).1 = [] := assoc_cases r (fun l => warnings l = []) (fun _ => rfl) (fun _ _ => rfl)
  unfold warnings at ha
  refine start_cases r (fun l => warnings l = _) ?_ ?_ ?_ ?_ ?_ ?_ ?_ <;> intros <;>
    simp_all [RadioReady, warnings, List.filterMap_cons, List.filterMap_append]

/-- **C76** (handlers).  The other handlers get their turn at least once and at most four times; in all of these but the last
the interface is not yet working, and the last of four is the only one in which it is. -/
theorem C76_turns (r : Radio) :
    ((start r).filter (fun | .yield => true | _ => false)).length =
      if r.scratch 0x57 ≠ 0x57 ∨ r.init ≠ 0 ∨ r.detect ≠ 0 then 1 else if (boot r).listening then 4 else 3 := by
  have hl := C76_listening_iff r
  have ha : (associateAp r).1.filter (fun | .yield => true | _ => false) = [] :=
    assoc_cases r (fun l => l.filter (fun | .yield => true | _ => false) = []) (fun _ => rfl) (fun _ _ => rfl)
  refine start_cases r (fun l => (l.filter (fun | .yield => true | _ => false)).length = _) ?_ ?_ ?_ ?_ ?_ ?_ ?_ <;> intros <;>
    simp_all [RadioReady, List.filter_cons, List.filter_append]

/-- **C76** (access point).  The access point asked for is the default one, the first if there is none, and the code waits 1200
frames for it: 20 seconds at 60 frames a second. -/
theorem C76_access_point (r : Radio) :
    (∀ slot, .assoc slot ∈ start r → 0 ≤ slot ∧ (slot = r.defaultAp ∨ (r.defaultAp < 0 ∧ slot = 0))) ∧
    (∀ n, .assocWait n ∈ start r → n = 60 * 20) := by
  have ha : (∀ slot, Ev.assoc slot ∈ (associateAp r).1 → 0 ≤ slot ∧ (slot = r.defaultAp ∨ (r.defaultAp < 0 ∧ slot = 0))) ∧
      (∀ n, Ev.assocWait n ∈ (associateAp r).1 → n = 60 * 20) := by
    unfold associateAp
    refine ⟨?_, ?_⟩
    · intro slot h
      have : slot = if r.defaultAp < 0 then 0 else r.defaultAp := by
        by_cases k : r.assoc = 0 <;> simpa [k] using h
      subst this
      split <;> omega
    · intro n h
      by_cases k : r.assoc = 0
      · have : n = msToFrames 20000 := by simpa [k] using h
        rw [this]; rfl
      · simp [k] at h
  refine start_cases r (fun l => (∀ slot, Ev.assoc slot ∈ l → 0 ≤ slot ∧ (slot = r.defaultAp ∨ (r.defaultAp < 0 ∧ slot = 0))) ∧
    (∀ n, Ev.assocWait n ∈ l → n = 60 * 20)) ?_ ?_ ?_ ?_ ?_ ?_ ?_ <;> intros <;>
    simp only [List.mem_append, List.mem_cons, List.not_mem_nil, or_false, false_or, reduceCtorEq] <;>
    first | exact ha | simp

/-- An event that is not about the radio being used by the program. -/
def quiet (e : Wifi.Event) : Prop :=
  (∃ c d, e = .submit c d) ∨ e = .sendDone ∨ (∃ c b, e = .recv c b) ∨ e = .recvFailed

private theorem send_idle (s : Wifi.St) (c : Nat) (d : List Nat) :
    (Wifi.send s c d).listening = s.listening ∧ (Wifi.send s c d).out = .submit c d :: s.out := by
  unfold Wifi.send Wifi.log
  extract_lets t
  by_cases h : t.txState ≠ .idle
  · rw [if_pos h]; exact ⟨rfl, rfl⟩
  · rw [if_neg h]
    by_cases k : d.length + Wifi.headerLen > Wifi.bufSize
    · rw [if_pos k]; exact ⟨rfl, rfl⟩
    · rw [if_neg k]; exact ⟨rfl, rfl⟩

private theorem persist_idle (s : Wifi.St) (c i p : Nat) :
    (Wifi.persistRemote s c i p).listening = s.listening ∧ (Wifi.persistRemote s c i p).out = s.out := by
  unfold Wifi.persistRemote
  extract_lets t
  by_cases h : c = 1
  · rw [if_pos h]; exact ⟨rfl, rfl⟩
  · rw [if_neg h]
    by_cases k : c = 2
    · rw [if_pos k]; exact ⟨rfl, rfl⟩
    · rw [if_neg k]; exact ⟨rfl, rfl⟩

private theorem step_idle {s : Wifi.St} (h : s.listening = false) (op : Wifi.Op) :
    (Wifi.step s op).listening = false ∧
      ((Wifi.step s op).out = s.out ∨ ∃ e, (Wifi.step s op).out = e :: s.out ∧ quiet e) := by
  cases op with
  | sendDone => exact ⟨h, .inr ⟨_, rfl, .inr (.inl rfl)⟩⟩
  | recv c b =>
    show (Wifi.recv s c b).listening = false ∧ ((Wifi.recv s c b).out = s.out ∨ ∃ e, (Wifi.recv s c b).out = e :: s.out ∧ quiet e)
    unfold Wifi.recv
    extract_lets t u
    have e1 : t.listening = false := h
    have e2 : t.out = .recv c b :: s.out := rfl
    by_cases k : t.rxState ≠ .armed
    · rw [if_pos k]; exact ⟨e1, .inr ⟨_, e2, .inr (.inr (.inl ⟨_, _, rfl⟩))⟩⟩
    · rw [if_neg k, (persist_idle u _ _ _).1, (persist_idle u _ _ _).2]
      exact ⟨e1, .inr ⟨_, e2, .inr (.inr (.inl ⟨_, _, rfl⟩))⟩⟩
  | recvFailed =>
    show (Wifi.recvFailed s).listening = false ∧ ((Wifi.recvFailed s).out = s.out ∨ ∃ e, (Wifi.recvFailed s).out = e :: s.out ∧ quiet e)
    unfold Wifi.recvFailed
    extract_lets t
    have e1 : t.listening = false := h
    have e2 : t.out = .recvFailed :: s.out := rfl
    by_cases k : t.rxState ≠ .armed
    · rw [if_pos k]; exact ⟨e1, .inr ⟨_, e2, .inr (.inr (.inr rfl))⟩⟩
    · rw [if_neg k]; exact ⟨e1, .inr ⟨_, e2, .inr (.inr (.inr rfl))⟩⟩
  | tick a b =>
    have : Wifi.step s (.tick a b) = s := by simp [Wifi.step, Wifi.tick, h]
    rw [this]; exact ⟨h, .inl rfl⟩
  | write d =>
    simp only [Wifi.step, Wifi.write]
    cases Rtp.pack s.sendSeqNum s.am.tsLo (some d) d.length (List.replicate (256 + d.length) 0) ((256 + d.length) % 65536) with
    | none => exact ⟨h, .inl rfl⟩
    | some x =>
      obtain ⟨n, b, q⟩ := x
      show (if n = 0 then _ else _ : Wifi.St).listening = false ∧ ((if n = 0 then _ else _ : Wifi.St).out = s.out ∨
        ∃ e, (if n = 0 then _ else _ : Wifi.St).out = e :: s.out ∧ quiet e)
      by_cases k : n = 0
      · rw [if_pos k]; exact ⟨h, .inl rfl⟩
      · rw [if_neg k, (send_idle _ _ _).1, (send_idle _ _ _).2]
        exact ⟨h, .inr ⟨_, rfl, .inl ⟨_, _, rfl⟩⟩⟩
  | vsync d => exact ⟨h, .inl rfl⟩
  | read =>
    simp only [Wifi.step, Wifi.read]
    split <;> exact ⟨h, .inl rfl⟩

/-- **C76** (silence).  If start-up did not succeed, no packet is ever handed to the radio, no receive is ever asked for, and no
datagram is ever looked at, whatever happens afterwards. -/
theorem C76_silent (r : Radio) (h : ¬RadioReady r) (ops : List Wifi.Op) (e : Wifi.Event) (he : e ∈ (Wifi.run (boot r) ops).out) :
    quiet e := by
  have hl : (boot r).listening = false := by
    cases k : (boot r).listening
    · rfl
    · exact absurd ((C76_listening_iff r).1 k) h
  have all : ∀ (ops : List Wifi.Op) (s : Wifi.St), s.listening = false → ∀ e ∈ (Wifi.run s ops).out, e ∈ s.out ∨ quiet e := by
    intro ops
    induction ops with
    | nil => exact fun s _ e he => .inl he
    | cons op ops ih =>
      intro s hs e he
      obtain ⟨k1, k2⟩ := step_idle hs op
      rcases ih _ k1 e he with k | k
      · rcases k2 with k2 | ⟨e', k2, k3⟩
        · exact .inl (k2 ▸ k)
        · rw [k2] at k
          rcases List.mem_cons.1 k with rfl | k
          · exact .inr k3
          · exact .inl k
      · exact .inr k
  exact (all ops _ hl e he).resolve_left (by rw [show (boot r).out = [] from rfl]; exact List.not_mem_nil)

/-- Intended: a working interface means that an access point was joined; and an interface that does not work has no port open. -/
def AssociatedIfListening : Prop := ∀ r, (boot r).listening = true → Associated r
@[inherit_doc AssociatedIfListening] def NoPortLeftOpen : Prop :=
  ∀ r, (boot r).listening = false → ∀ ch t, .udpSet ch t ∈ start r → r.udp ch ≠ 0

/-- A radio that answers everything. -/
def goodRadio : Radio := ⟨id, 0, 0, 1, 5, 0, 0, 0, 0, 0xC0A80132, fun _ => 0⟩

/-- **C76** is false for the access point: a radio that could not join it, or that did so too late, is treated as working; nothing
is reported. -/
theorem C76_violated : ¬AssociatedIfListening := fun h =>
  absurd (h { goodRadio with assoc := 5 } ((C76_listening_iff _).2 ⟨rfl, rfl, rfl, rfl, rfl, rfl⟩)).1 (by decide)

/-- **C76** (association, as far as it goes).  Whether the access point was joined decides nothing: two radios that differ in
that only are treated alike, and the reports are the same. -/
theorem C76_association_ignored (r : Radio) (a w : Int) :
    (boot { r with assoc := a, assocWait := w }).listening = (boot r).listening ∧
    warnings (start { r with assoc := a, assocWait := w }) = warnings (start r) := by
  refine ⟨?_, by rw [C76_warnings, C76_warnings]⟩
  rw [Bool.eq_iff_iff, C76_listening_iff, C76_listening_iff]
  rfl

/-- **C76** is false for the ports: if the second cannot be opened, the first stays open. -/
theorem C76_violated_ports : ¬NoPortLeftOpen := by
  intro h
  have e : (boot { goodRadio with udp := fun ch => if ch = 2 then 7 else 0 }).listening = false := by
    cases k : (boot { goodRadio with udp := fun ch => if ch = 2 then 7 else 0 }).listening
    · rfl
    · exact absurd ((C76_listening_iff _).1 k).2.2.2.2.2 (by decide)
  refine h _ e 1 (Ui.dec 5006) ?_ rfl
  simp [start, isPresent, initMegaWifi, detectMw, listenOnUdpPort, goodRadio, associateAp]

/-- **C76** (address).  The address shown when the interface works does not tell which it is: for an octet of 100 to 109 or 200 to
209 (C53) two radios with different addresses show the same. -/
theorem C76_address_ambiguous :
    let a := { goodRadio with ip := 0xC0A80165 }   -- 192.168.1.101
    let b := { goodRadio with ip := 0xC0A8010B }   -- 192.168.1.11
    LogText.text (.mwIp a.ip 5006) = LogText.text (.mwIp b.ip 5006) ∧ a.ip ≠ b.ip := by decide

example : RadioReady goodRadio ∧ Associated goodRadio := by
  refine ⟨⟨rfl, rfl, rfl, rfl, rfl, rfl⟩, rfl, rfl⟩
example : (start goodRadio).filterMap stepOf = firstSteps ++ joinSteps ++ lastSteps := by decide
example : (start { goodRadio with assoc := 5, ipErr := 2 }).filterMap stepOf =
    [.scratch, .init, .detect, .defaultAp, .assoc, .ipCurrent] := by decide
example : ¬RadioReady { goodRadio with scratch := fun _ => 0xFF } := fun h => absurd h.1 (by decide)

end Mdmi.Props
