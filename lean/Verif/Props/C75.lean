import Verif.Proofs.Session
import Verif.Props.C01
import Verif.Props.C04
import Verif.Props.C05
import Verif.Props.C48
import Verif.Props.C52
/-! C75: bytes over time, from power-on to the chips. -/
namespace Mdmi.Props
open Mdmi Mdmi.Session
open Mdmi.Rx (Piece Message readAll)

/-- A stream: complete messages and stray bytes, then perhaps the beginning of a message. -/
structure Stream (bs : List Nat) (l : List Piece) (tail : List Nat) : Prop where
  eq : bs = l.flatMap Piece.bytes ++ tail
  ok : ∀ x ∈ l, x.Ok
  cut : ∃ m : Message, m.Ok ∧ ∃ post, post ≠ [] ∧ m.bytes = tail ++ post

/-- A startup sequence: complete messages without a system reset. -/
def StartupIs (env : Rx.Env) (l : List Piece) : Prop :=
  env.startup = l.flatMap Piece.bytes ∧ ∀ x ∈ l, x.Ok ∧ x ≠ .message .systemReset

private theorem call_reset {x : Piece} (h : x ≠ .message .systemReset) : x.call ≠ .reset := by
  rcases x with m | b
  · cases m <;> simp [Piece.call, Message.call] at h ⊢
  · simp [Piece.call]

private theorem starts {env : Rx.Env} {l : List Piece} (h : StartupIs env l) :
    readAll env.startup = (l.map Piece.call, []) ∧ Rx.Call.reset ∉ l.map Piece.call := by
  constructor
  · have := Rx.readAll_pieces l (fun x hx => (h.2 x hx).1) []
    rw [h.1]
    simpa [Rx.readAll, Rx.readLoop] using this
  · intro k
    obtain ⟨x, hx, e⟩ := List.mem_map.1 k
    exact call_reset (h.2 x hx).2 e

private theorem stream_reads {bs : List Nat} {l : List Piece} {tail : List Nat} (h : Stream bs l tail) :
    readAll bs = (l.map Piece.call, tail) := by
  obtain ⟨m, hm, post, hp, e⟩ := h.cut
  rw [h.eq, Rx.readAll_pieces l h.ok, C01_incomplete m hm tail post e hp, List.append_nil]

/-- The history behind a session, for any bytes. -/
private theorem session_ops {env : Rx.Env} {start : List Rx.Call} (h : readAll env.startup = (start, []))
    (hr : Rx.Call.reset ∉ start) (j0 : Nat → Nat) (b : Bool) (m : Sram.Mem) (junk : Nat → Nat → Nat) (es : List Event) :
    ∃ ops, let t := Session.run env junk .hardware (Session.boot env j0 b m) es
      t.sys.midi = Midi.run env.midi (Midi.boot env.midi b m) (callOps j0 start ++ ops) ∧ t.sys.stop = none ∧
      t.partly = (readAll (arrived es)).2 ∧
      ops.filter (fun o => !isTick o) = heardOps start junk (readAll (arrived es)).1 ∧
      ops.countP isTick ≤ 2 * frames es := by
  obtain ⟨k1, k2⟩ := startupAll_ops h hr j0 { midi := Midi.boot env.midi b m, warnings := [], stop := none }
  obtain ⟨ops, h1, h2, h3, h4, h5⟩ := run_ops h hr junk es (Session.boot env j0 b m) k2 rfl
  refine ⟨ops, ?_, h2, h3, ?_, h5⟩
  · rw [h1, show (Session.boot env j0 b m).sys.midi = _ from k1, Midi.run, Midi.run, Midi.run, List.foldl_append]
  · rw [h4]
    simp only [Session.boot, List.nil_append, Nat.zero_add]

/-- **C75** (a session).  From power-on, over any preset memory and any startup sequence of complete messages, for any
messages cut into arrivals in any way, with frames at any time: what the engine has done is the startup sequence, then
exactly the calls of the messages that are complete, in order, with the ticks of at most the frames that passed in
between.  If samples and detuning are not combined, it is a state of `Midi.Reached`, so that every theorem about those
applies. -/
theorem C75_session {env : Rx.Env} {start : List Piece} (hs : StartupIs env start) (j0 : Nat → Nat) (b : Bool)
    (m : Sram.Mem) (junk : Nat → Nat → Nat) (es : List Event) {l : List Piece} {tail : List Nat}
    (h : Stream (arrived es) l tail) :
    let t := Session.run env junk .hardware (Session.boot env j0 b m) es
    (∃ ops, t.sys.midi = Midi.run env.midi (Midi.boot env.midi b m) (startOps j0 start ++ ops) ∧
      ops.filter (fun o => !isTick o) = asked start junk l ∧ ops.countP isTick ≤ 2 * frames es) ∧
    t.sys.stop = none ∧ t.partly = tail ∧
    ((∀ n, j0 n < 256) → (∀ n k, junk n k < 256) →
      (∀ x, x ∈ start ∨ x ∈ l → ∀ op ∈ x.ops 0, ¬op.enablesDac) ∨ (∀ x, x ∈ start ∨ x ∈ l → ∀ op ∈ x.ops 0, ¬op.detunes) →
      Midi.Reached env.midi t.sys.midi) := by
  intro t
  obtain ⟨s1, s2⟩ := starts hs
  obtain ⟨ops, h1, h2, h3, h4, h5⟩ := session_ops s1 s2 j0 b m junk es
  rw [stream_reads h] at h3 h4
  rw [callOps_pieces] at h1
  rw [heardOps_pieces] at h4
  refine ⟨⟨ops, h1, h4, h5⟩, h2, h3, fun hj0 hj hd => ⟨b, m, _, ?_, ?_, h1⟩⟩
  · intro op ho
    rcases List.mem_append.1 ho with ho | ho
    · obtain ⟨x, hx, n, hn⟩ := mem_startOps ho
      exact piece_wf (hs.2 x hx).1 (hj0 n) op hn
    · by_cases k : isTick op = true
      · cases op <;> simp [isTick] at k <;> trivial
      · have : op ∈ ops.filter (fun o => !isTick o) := List.mem_filter.2 ⟨ho, by simpa using k⟩
        rw [h4] at this
        obtain ⟨x, hx, n, k, hn⟩ := mem_asked this
        exact piece_wf (hx.elim (h.ok x) fun hx => (hs.2 x hx).1) (hj n k) op hn
  · have junkless : ∀ {P : Midi.Op → Prop}, (∀ d j, P (.sysex d j)) → ∀ {x : Piece}, (∀ op ∈ x.ops 0, P op) →
        ∀ j, ∀ op ∈ x.ops j, P op := by
      intro P hP x hx j op ho
      rcases x with m | b
      · cases m <;> first
          | exact hx op ho
          | (simp only [Piece.ops, List.mem_cons, List.not_mem_nil, or_false] at ho; subst ho; exact hP _ _)
      · exact hx op ho
    have all : ∀ {P : Midi.Op → Prop}, P .tick → P .psgTick → (∀ d j, P (.sysex d j)) →
        (∀ x, x ∈ start ∨ x ∈ l → ∀ op ∈ x.ops 0, P op) → ∀ op ∈ startOps j0 start ++ ops, P op := by
      intro P p1 p2 p3 hx op ho
      rcases List.mem_append.1 ho with ho | ho
      · obtain ⟨x, hx', n, hn⟩ := mem_startOps ho
        exact junkless p3 (hx x (.inl hx')) _ op hn
      · by_cases k : isTick op = true
        · cases op <;> simp [isTick] at k <;> assumption
        · have : op ∈ ops.filter (fun o => !isTick o) := List.mem_filter.2 ⟨ho, by simpa using k⟩
          rw [h4] at this
          obtain ⟨x, hx', n, k, hn⟩ := mem_asked this
          exact junkless p3 (hx x hx'.symm) _ op hn
    rcases hd with hd | hd
    · exact .inl (all (by simp [Midi.Op.enablesDac]) (by simp [Midi.Op.enablesDac]) (by simp [Midi.Op.enablesDac]) hd)
    · exact .inr (all (by simp [Midi.Op.detunes]) (by simp [Midi.Op.detunes]) (by simp [Midi.Op.detunes]) hd)

/-- **C75** (frames).  A frame that passes when all messages that arrived are complete updates the PSG envelopes, then the
glides. -/
theorem C75_frame {env : Rx.Env} {start : List Piece} (hs : StartupIs env start) (j0 : Nat → Nat) (b : Bool) (m : Sram.Mem)
    (junk : Nat → Nat → Nat) (es : List Event) {l : List Piece} (h : arrived es = l.flatMap Piece.bytes) (hl : ∀ x ∈ l, x.Ok) :
    let s := Session.run env junk .hardware (Session.boot env j0 b m) es
    let t := Session.run env junk .hardware (Session.boot env j0 b m) (es ++ [.frame])
    t.sys.midi = Midi.step env.midi (Midi.step env.midi s.sys.midi .psgTick) .tick ∧ t.sys.warnings = s.sys.warnings ∧
    t.seen = s.seen := by
  intro s t
  have k := C75_session hs j0 b m junk es (l := l) (tail := [])
    ⟨by rw [h, List.append_nil], hl, .clock, trivial, [0xF8], by simp, rfl⟩
  have k1 : s.sys.stop = none := k.2.1
  have k2 : s.partly = [] := k.2.2.1
  have e : t = Session.step env junk .hardware s .frame := by
    simp only [t, s, Session.run, List.foldl_append, List.foldl_cons, List.foldl_nil]
  rw [e]
  generalize s = s at k1 k2 ⊢
  simp only [Session.step, k1, k2, ne_eq, not_true, or_self, if_false, Rx.engine, and_self]

/-- **C75** (cutting does not matter).  Two sessions with the same bytes and no frames end in the same state. -/
theorem C75_arrival_irrelevant (env : Rx.Env) (junk : Nat → Nat → Nat) (s : Session.St) (hs : s.sys.stop = none)
    {start : List Piece} (hst : StartupIs env start) (xs ys : List Nat) :
    Session.run env junk .hardware s [.bytes xs, .bytes ys] = Session.run env junk .hardware s [.bytes (xs ++ ys)] := by
  obtain ⟨s1, s2⟩ := starts hst
  have d := (deliverAll_ops s1 s2 (readAll (s.partly ++ xs)).1 (fun n => junk (s.seen + n)) s.sys hs).2
  have e1 : Session.run env junk .hardware s [.bytes xs, .bytes ys] =
      Session.read env junk (Session.read env junk s xs) ys := by
    simp only [Session.run, List.foldl_cons, List.foldl_nil, Session.step, hs, ne_eq, not_true, false_or, reduceCtorEq,
      false_and, if_false]
    rw [if_neg]
    simp only [Session.read]
    rw [d]; simp
  have e2 : Session.run env junk .hardware s [.bytes (xs ++ ys)] = Session.read env junk s (xs ++ ys) := by
    simp [Session.run, Session.step, hs]
  rw [e1, e2]
  simp only [Session.read]
  rw [← List.append_assoc, Rx.readAll_append (s.partly ++ xs) ys, Rx.deliverAll_append]
  simp only [List.length_append]
  congr 1
  · congr 1
    funext n
    congr 1
    omega
  · omega

/-- **C75** (partial: safe messages).  No bytes whatsoever lead to undefined behaviour, through engine, receiver or startup
sequence, unless they spell out one of the messages listed in `Safe` (a velocity, program, or value of controllers 5, 7
or 87 above 127, or an exclusive message about a preset above 127) or combine samples with detuning. -/
theorem C75_any_bytes_partial {env : Rx.Env} (he : env.midi.Ok) (samples : Bool) {start : List Rx.Call}
    (h0 : readAll env.startup = (start, [])) (hr : Rx.Call.reset ∉ start) (h8 : ∀ b ∈ env.startup, b < 256)
    (j0 : Nat → Nat) (b : Bool) (m : Sram.Mem) (junk : Nat → Nat → Nat) (es : List Event) (hb : ∀ b ∈ arrived es, b < 256)
    (hs : ∀ c, c ∈ start ∨ c ∈ (readAll (arrived es)).1 → Safe samples c ∧ Apart samples c) :
    NoUb (Session.run env junk .hardware (Session.boot env j0 b m) es).sys.midi := by
  obtain ⟨ops, h1, -, -, h4, -⟩ := session_ops h0 hr j0 b m junk es
  have calls : ∀ {P : Midi.Op → Prop}, P .tick → P .psgTick →
      (∀ c, c ∈ start ∨ c ∈ (readAll (arrived es)).1 → ∀ j, ∀ op ∈ Call.ops j c, P op) →
      ∀ op ∈ callOps j0 start ++ ops, P op := by
    intro P p1 p2 hc op ho
    rcases List.mem_append.1 ho with ho | ho
    · obtain ⟨c, k1, j, k2⟩ := mem_callOps ho
      exact hc c (.inl k1) j op k2
    · exact all_ops h4 p1 p2 (fun c k => hc c k.symm) op ho
  have hw : ∀ op ∈ callOps j0 start ++ ops, op.Harmless samples := by
    refine calls trivial trivial fun c hc j => ?_
    rcases hc with k | k
    · exact harmless_of_safe h8 (by rw [h0]; exact k) (hs c (.inl k)).1
    · exact harmless_of_safe hb k (hs c (.inr k)).1
  have fin : Midi.Ok env.midi samples (Midi.run env.midi (Midi.boot env.midi b m) (callOps j0 start ++ ops)) := by
    cases samples with
    | false =>
      refine Midi.run_safe he _ _ (Midi.boot_ok he b m) hw (fun _ => ?_) (by simp)
      exact calls (by simp [Midi.Op.enablesDac]) (by simp [Midi.Op.enablesDac])
        fun c hc j => apart_ops.1 (hs c hc).2
    | true =>
      refine Midi.run_safe he _ _ (Midi.boot_ok he b m) hw (by simp) (fun _ => ?_)
      exact calls (by simp [Midi.Op.detunes]) (by simp [Midi.Op.detunes])
        fun c hc j => apart_ops.2 (hs c hc).2
  rw [h1]
  exact ⟨fin.fault, fin.psg.nofault, fin.fm.synth.fault⟩

/-- The full statement: MIDI messages with system real-time bytes anywhere among their bytes, as the MIDI standard allows,
never lead to undefined behaviour. -/
def RealTimeHarmless : Prop :=
  ∀ (env : Rx.Env), env.midi.Ok → env.startup = [] → ∀ (l : List Message), (∀ m ∈ l, m.Ok) → ∀ xs ys,
    l.flatMap Message.bytes = xs ++ ys → ∀ b, RealTime b → ∀ junk j0 bus mem,
    NoUb (Session.run env junk .hardware (Session.boot env j0 bus mem) [.bytes (xs ++ b :: ys)]).sys.midi

/-- An example session. -/
def heard (bs : List Nat) : Midi.St :=
  (Session.run ⟨Ex.env .static, []⟩ (fun _ _ => 0) .hardware (Session.boot ⟨Ex.env .static, []⟩ (fun _ => 0) true Ex.mem)
    [.bytes bs]).sys.midi

/-- Undefined behaviour in engine, PSG or FM part. -/
def undefinedIn (s : Midi.St) : Bool := s.fault || s.psg.fault || s.fm.synth.fault

set_option maxRecDepth 20000 in
/-- **C75** (negation): a clock byte before the program number of a program change makes the code read a preset pointer beyond
its table. -/
theorem C75_violated : ¬RealTimeHarmless := by
  intro h
  obtain ⟨h1, h2, h3⟩ := h ⟨Ex.env .static, []⟩ (Ex.env_ok _) rfl [.programChange 0 5] (by simp [Message.Ok]) [0xC0] [5] rfl 0xF8
    (.inl rfl) (fun _ _ => 0) (fun _ => 0) true Ex.mem
  have k : undefinedIn (heard [0xC0, 0xF8, 5]) = false := by
    simp only [undefinedIn, Bool.or_eq_false_iff]
    exact ⟨⟨h1, h2⟩, h3⟩
  exact absurd k (by decide +kernel)

set_option maxRecDepth 20000 in
/-- **C75** (the other messages `Safe` leaves out): from power-on a clock byte in place of a velocity (FM, PSG and drum
voices), of a value of portamento time, volume or store program, or at the end of a too short message about a preset is
undefined. -/
theorem C75_violated_elsewhere :
    undefinedIn (heard [0x90, 60, 0xF8, 100]) = true ∧ undefinedIn (heard [0x96, 60, 0xF8, 100]) = true ∧
    undefinedIn (heard [0x99, 60, 0xF8, 100]) = true ∧ undefinedIn (heard [0xB0, 5, 0xF8, 100]) = true ∧
    undefinedIn (heard [0xB0, 7, 0xF8, 100]) = true ∧ undefinedIn (heard [0xB0, 87, 0xF8, 100]) = true ∧
    undefinedIn (heard [0xF0, 0, 0x22, 0x77, 0x0B, 0, 0xF8, 0xF7]) = true ∧
    undefinedIn (heard ([0xF0, 0, 0x22, 0x77, 0x0A, 0, 0xF8] ++ List.replicate 48 1 ++ [0xF7])) = true := by
  decide +kernel

/-! ### Waiting for the rest of a message -/

private theorem frozen_frames (env : Rx.Env) (junk : Nat → Nat → Nat) (src : Source) (s : Session.St) (h : s.partly ≠ [])
    (n : Nat) : Session.run env junk src s (List.replicate n .frame) = s := by
  induction n with
  | zero => rfl
  | succ n ih =>
    rw [List.replicate_succ, Session.run, List.foldl_cons, show Session.step env junk src s .frame = s by simp [Session.step, h]]
    exact ih

private theorem frozen (env : Rx.Env) (junk : Nat → Nat → Nat) (s : Session.St) (h : s.partly ≠ []) (es : List Event) :
    Session.run env junk .handler s es = s := by
  induction es with
  | nil => rfl
  | cons e es ih =>
    have : Session.step env junk .handler s e = s := by cases e <;> simp [Session.step, h]
    rw [Session.run, List.foldl_cons, this]
    exact ih

/-- **C75** (an incomplete message stops time).  While the last message that arrived is incomplete, frames pass without
effect: envelopes, glides and everything else stand still. -/
theorem C75_incomplete_message_stops_time {env : Rx.Env} {start : List Piece} (hs : StartupIs env start) (j0 : Nat → Nat)
    (b : Bool) (m : Sram.Mem) (junk : Nat → Nat → Nat) (es : List Event) {l : List Piece} {tail : List Nat}
    (h : Stream (arrived es) l tail) (ht : tail ≠ []) (n : Nat) :
    Session.run env junk .hardware (Session.boot env j0 b m) (es ++ List.replicate n .frame) =
      Session.run env junk .hardware (Session.boot env j0 b m) es := by
  have k := (C75_session hs j0 b m junk es h).2.2.1
  rw [Session.run, List.foldl_append, ← Session.run]
  exact frozen_frames env junk .hardware (Session.run env junk .hardware (Session.boot env j0 b m) es) (by rw [k]; exact ht) n

/-- **C75** (complete messages).  If the messages that arrive together are complete, a source that depends on a handler
behaves like the hardware. -/
theorem C75_handlers_with_whole_messages {env : Rx.Env} (junk : Nat → Nat → Nat) (es : List Event)
    (h : ∀ bs, .bytes bs ∈ es → ∃ l : List Piece, (∀ x ∈ l, x.Ok) ∧ bs = l.flatMap Piece.bytes) (s : Session.St) (hp : s.partly = []) :
    Session.run env junk .handler s es = Session.run env junk .hardware s es ∧
      (Session.run env junk .hardware s es).partly = [] := by
  induction es generalizing s with
  | nil => exact ⟨rfl, hp⟩
  | cons e es ih =>
    have e1 : Session.step env junk .handler s e = Session.step env junk .hardware s e := by
      cases e <;> simp [Session.step, hp]
    have e2 : (Session.step env junk .hardware s e).partly = [] := by
      cases e with
      | frame =>
        simp only [Session.step]
        split <;> exact hp
      | bytes bs =>
        obtain ⟨l, hl, rfl⟩ := h bs (by simp)
        simp only [Session.step]
        split
        · exact hp
        · have := Rx.readAll_pieces l hl []
          rw [List.append_nil] at this
          simp only [Session.read, hp, List.nil_append]
          rw [this]
          rfl
    have := ih (fun bs hb => h bs (by simp [hb])) (Session.step env junk .hardware s e) e2
    rw [Session.run, List.foldl_cons, e1]
    exact this

/-- The full statement for a source that depends on a handler: the machine always goes on, that is, there are events
that change its state. -/
def NeverFrozen : Prop :=
  ∀ (head : List Nat) (first : Rtp.Cmd) (l : List Rtp.Item) (out : List Nat), head.length = 12 → first.Wf →
    Rtp.Legal (Rtp.after none first) l →
    Rtp.process (head ++ [(Rtp.midiList first l).length] ++ Rtp.midiList first l)
      (head ++ [(Rtp.midiList first l).length] ++ Rtp.midiList first l).length = some (.ok, out, some (Rtp.seqOf head)) →
    ∀ (env : Rx.Env) junk j0 bus mem, env.midi.Ok → env.startup = [] →
      ∃ es, Session.run env junk .handler (Session.boot env j0 bus mem) (.bytes out :: es) ≠
        Session.run env junk .handler (Session.boot env j0 bus mem) [.bytes out]

/-- A network packet freezes the machine if what the decoder makes of it ends within a message: whatever happens then,
nothing ever changes again. -/
theorem C75_freezes (env : Rx.Env) (junk : Nat → Nat → Nat) (s : Session.St) (hs : s.sys.stop = none) (bs : List Nat)
    {l : List Piece} {tail : List Nat} (h : Stream (s.partly ++ bs) l tail) (ht : tail ≠ []) (hp : s.partly = [])
    (es : List Event) :
    Session.run env junk .handler s (.bytes bs :: es) = Session.run env junk .handler s [.bytes bs] := by
  have e1 : Session.step env junk .handler s (.bytes bs) = Session.read env junk s bs := by
    simp [Session.step, hs, hp]
  show Session.run env junk .handler (Session.step env junk .handler s (.bytes bs)) es =
    Session.step env junk .handler s (.bytes bs)
  rw [e1]
  refine frozen env junk _ ?_ es
  simp only [Session.read, stream_reads h]
  exact ht

/-- **C75** (negation, network): a timing clock and a program change in one packet.  The decoder (C48) hands on the clock,
the delta time and the status byte; the receiver waits for the program number, and the handler that could bring it
does not run again. -/
theorem C75_network_packet_freezes : ¬NeverFrozen := by
  intro h
  obtain ⟨es, k⟩ := h rtpHead (.single 0xF8) [⟨[], 0, .msg 0xC0 [5], true⟩] [0xF8, 0, 0xC0] rfl
    (by simp [Rtp.Cmd.Wf]) (by simp [Rtp.Legal, Rtp.Item.Wf, Rtp.Cmd.Wf, Rtp.dataCount]) (by decide +kernel)
    ⟨Ex.env .static, []⟩ (fun _ _ => 0) (fun _ => 0) true Ex.mem (Ex.env_ok _) rfl
  refine k (C75_freezes _ _ _ rfl _ (l := [.message .clock, .stray 0]) (tail := [0xC0]) ⟨rfl, ?_, ?_⟩ (by simp) rfl es)
  · simp [Piece.Ok, Message.Ok, Rx.Stray]
  · exact ⟨.programChange 0 5, by simp [Message.Ok], [5], by simp, rfl⟩

set_option maxRecDepth 20000 in
/-- **C75** (negation, demo): left and right on the pad together with A and B (C52) do the same. -/
theorem C75_demo_freezes (env : Rx.Env) (junk : Nat → Nat → Nat) (s : Session.St) (hs : s.sys.stop = none)
    (hp : s.partly = []) : ∃ bs tail, bs = (Demo.run Demo.boot leftRight).given ∧ tail ≠ [] ∧
      ∀ es, Session.run env junk .handler s (.bytes bs :: es) = Session.run env junk .handler s [.bytes bs] ∧
        (Session.run env junk .handler s [.bytes bs]).partly = tail := by
  have e1 : ∀ bs, Session.step env junk .handler s (.bytes bs) = Session.read env junk s bs := by
    intro bs; simp [Session.step, hs, hp]
  have e2 : (readAll (Demo.run Demo.boot leftRight).given).2 = [0x80] := by decide +kernel
  refine ⟨_, [0x80], rfl, by simp, fun es => ?_⟩
  generalize (Demo.run Demo.boot leftRight).given = bs at *
  have e3 : (Session.run env junk .handler s [.bytes bs]).partly = [0x80] := by
    rw [Session.run, List.foldl_cons, List.foldl_nil, e1]
    simp [Session.read, hp, e2]
  refine ⟨?_, e3⟩
  rw [Session.run, List.foldl_cons, ← Session.run, show Session.step env junk .handler s (.bytes bs) =
    Session.run env junk .handler s [.bytes bs] from rfl]
  exact frozen env junk _ (by rw [e3]; simp) es

/-! ### Examples -/

/-- A session: a program change and a note cut in the middle, with frames before, within and after the note. -/
private def session : List Event :=
  [.bytes [0xC0, 5], .frame, .bytes [0x90, 60], .frame, .bytes [100, 0xF8], .frame, .bytes [0x80]]

example : Stream (arrived session) [.message (.programChange 0 5), .message (.noteOn 0 60 100), .message .clock] [0x80] ∧
    StartupIs ⟨Ex.env .static, []⟩ [] :=
  ⟨⟨rfl, by simp [Piece.Ok, Message.Ok], ⟨.noteOff 0 60 0, by simp [Message.Ok], [60, 0], by simp, rfl⟩⟩, rfl, by simp⟩

set_option maxRecDepth 20000 in
example :
    let t := Session.run ⟨Ex.env .static, []⟩ (fun _ _ => 0) .hardware (Session.boot ⟨Ex.env .static, []⟩ (fun _ => 0) true Ex.mem) session
    (t.sys.midi.dev 0).noteOn = true ∧ (t.sys.midi.dev 0).pitch = 60 ∧ t.partly = [0x80] ∧ t.seen = 3 := by decide +kernel

/-- Bytes that are no MIDI, with a pitch, a bend and controllers above 127: nothing undefined. -/
example : ∀ c ∈ (readAll [0x90, 0xF8, 60, 0xE0, 0xF8, 0xFE, 0xB0, 0xFE, 0xFE, 0x80, 0xFE, 0xFE, 7, 0xA0]).1,
    Safe false c ∧ Apart false c := by
  simp [Rx.readAll, Rx.readLoop, Rx.readMessage, Safe, Apart]

end Mdmi.Props
