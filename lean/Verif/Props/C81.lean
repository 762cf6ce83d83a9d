import Verif.Props.C75
import Verif.Props.C78
/-! # C81: from the cable to the chips

What is true of the keys the messages on the wire press and release, of the chips, after any arrival of those messages: the
receiver (C75), the engine (C71) and the chips (C78) taken together. -/
namespace Mdmi.Props
open Mdmi Midi Session Rx

/-- Key `p` of channel `c` is down after the messages of a cable: the last message about it is a note on with a velocity. -/
def cableDown (c p : Nat) (l : List Piece) : Bool :=
  l.foldl (fun b x => match x with
    | .message (.noteOn c' p' v) => if c' = c ∧ p' = p then decide (v ≠ 0) else b
    | .message (.noteOff c' p' _) => if c' = c ∧ p' = p then false else b
    | _ => b) false

/-- The keys down after the messages of a cable, newest first. -/
def cableKeys (l : List Piece) : List (Nat × Nat) :=
  l.foldl (fun D x => match x with
    | .message (.noteOn c p v) => if v = 0 then D.filter (· ≠ (c, p)) else (c, p) :: D
    | .message (.noteOff c p _) => D.filter (· ≠ (c, p))
    | _ => D) []

/-- Messages of a performance: all but controllers 65 (portamento), 78 (DAC), 84 (polyphonic) and 121 (reset), system reset
and the exclusive messages GM reset, remap, dynamic mode and raw writes.  Stray bytes may be among them. -/
def performs : Piece → Bool
  | .message (.controlChange _ k _) => k != 65 && k != 78 && k != 84 && k != 121
  | .message (.sysex d) => decide (d.take 4 ∉
      [[0x7E, 0x7F, 0x09, 0x01], [0, 0x22, 0x77, 0], [0, 0x22, 0x77, 3], [0, 0x22, 0x77, 8], [0, 0x22, 0x77, 9]])
  | .message .systemReset => false
  | _ => true

/-- Messages of a set-up: no note is pressed; all but controllers 78 and 121, portamento on, and the exclusive messages GM
reset and raw writes. -/
def arranges : Piece → Bool
  | .message (.noteOn _ _ v) => v == 0
  | .message (.controlChange _ k v) => k != 121 && k != 78 && !(k == 65 && decide (64 ≤ v))
  | .message (.sysex d) => decide (d.take 4 ∉ [[0x7E, 0x7F, 0x09, 0x01], [0, 0x22, 0x77, 8], [0, 0x22, 0x77, 9]])
  | _ => true

/-- What comes before a performance: a set-up, with anything before a system reset. -/
def Prepared (pre : List Piece) : Prop :=
  ∃ q, (∀ x ∈ q, arranges x = true) ∧ (pre = q ∨ ∃ old, pre = old ++ .message .systemReset :: q)

private theorem asked_append (start : List Piece) (a b : List Piece) : ∀ junk : Nat → Nat → Nat,
    asked start junk (a ++ b) = asked start junk a ++ asked start (fun n => junk (n + a.length)) b := by
  induction a with
  | nil => intro junk; simp [asked]
  | cons x a ih =>
    intro junk
    have e : (fun n => junk (n + a.length + 1)) = fun n => junk (n + (x :: a).length) := by
      funext n; simp [Nat.add_assoc]
    by_cases h : x = .message .systemReset
    · subst h
      simp only [List.cons_append, asked, ih, e, List.append_assoc]
    · rw [List.cons_append, asked.eq_3 _ _ _ _ (by intro k; exact h k), asked.eq_3 _ _ _ _ (by intro k; exact h k), ih, e,
        List.append_assoc]

/-- Without a system reset, only the calls of the messages. -/
private theorem mem_plain {start : List Piece} {junk : Nat → Nat → Nat} {l : List Piece} (hl : .message .systemReset ∉ l)
    {op : Midi.Op} (h : op ∈ asked start junk l) : ∃ x ∈ l, ∃ n k, op ∈ x.ops (junk n k) := by
  induction l generalizing junk with
  | nil => simp [asked] at h
  | cons x l ih =>
    rw [asked.eq_3 _ _ _ _ (by intro k; exact hl (by simp [k]))] at h
    rcases List.mem_append.1 h with h | h
    · exact ⟨x, by simp, 0, 0, h⟩
    · obtain ⟨y, h1, n, k, h2⟩ := ih (fun k => hl (by simp [k])) h
      exact ⟨y, by simp [h1], _, k, h2⟩

private theorem performs_plain {l : List Piece} (h : ∀ x ∈ l, performs x = true) : .message .systemReset ∉ l :=
  fun k => by simpa [performs] using h _ k

private theorem performs_glideless {x : Piece} (h : performs x = true) (hx : x.Ok) {j : Nat} {op : Midi.Op} (ho : op ∈ x.ops j) :
    glideless op = true := by
  rcases x with m | b
  · cases m <;> simp only [Piece.ops, List.mem_cons, List.not_mem_nil, or_false] at ho <;> try subst ho
    · exact decide_eq_true ⟨hx.1, hx.2.1⟩
    · exact decide_eq_true ⟨hx.1, hx.2.1⟩
    · have := hx.1
      simp [performs] at h
      simp [glideless, playing, h, this]
    · rfl
    · rfl
    · exact h
    · simp [performs] at h
  · simp [Piece.ops] at ho

private theorem arranges_setup {x : Piece} (h : arranges x = true) {j : Nat} {op : Midi.Op} (ho : op ∈ x.ops j) :
    setup op = true := by
  rcases x with m | b
  · cases m <;> simp only [Piece.ops, List.mem_cons, List.not_mem_nil, or_false] at ho <;> try subst ho
    all_goals first | rfl | exact h
  · simp [Piece.ops] at ho

private theorem tick_setup {op : Midi.Op} (h : isTick op = true) : setup op = true ∧ glideless op = true ∧ op ≠ .reset ∧ op.Wf := by
  cases op <;> simp [isTick] at h <;> exact ⟨rfl, rfl, by simp, trivial⟩

/-- What holds of frames and of what is asked holds of the calls in between. -/
private theorem all_of {P : Midi.Op → Prop} {ops ref : List Midi.Op} (h : ops.filter (fun o => !isTick o) = ref)
    (ht : ∀ op, isTick op = true → P op) (hp : ∀ op ∈ ref, P op) : ∀ op ∈ ops, P op := by
  intro op ho
  by_cases k : isTick op = true
  · exact ht op k
  · exact hp op (h ▸ List.mem_filter.2 ⟨ho, by simpa using k⟩)

private def kd (c p : Nat) : Bool → Midi.Op → Bool := fun b op => match op with
  | .noteOn c' p' v => if c' = c ∧ p' = p then decide (v ≠ 0) else b
  | .noteOff c' p' => if c' = c ∧ p' = p then false else b
  | _ => b

private theorem kd_ticks (c p : Nat) (ops : List Midi.Op) : ∀ b, (ops.filter (fun o => !isTick o)).foldl (kd c p) b =
    ops.foldl (kd c p) b := by
  induction ops with
  | nil => intro b; rfl
  | cons op ops ih =>
    intro b
    rw [List.filter_cons]
    cases op <;> exact ih _

private def cd (c p : Nat) : Bool → Piece → Bool := fun b x => match x with
  | .message (.noteOn c' p' v) => if c' = c ∧ p' = p then decide (v ≠ 0) else b
  | .message (.noteOff c' p' _) => if c' = c ∧ p' = p then false else b
  | _ => b

private theorem kd_asked (c p : Nat) (start : List Piece) (l : List Piece) (hl : .message .systemReset ∉ l) :
    ∀ (junk : Nat → Nat → Nat) b, (asked start junk l).foldl (kd c p) b = l.foldl (cd c p) b := by
  induction l with
  | nil => intro junk b; rfl
  | cons x l ih =>
    intro junk b
    rw [asked.eq_3 _ _ _ _ (by intro k; exact hl (by simp [k])), List.foldl_append, List.foldl_cons,
      ih (fun k => hl (by simp [k]))]
    congr 1
    rcases x with m | b
    · cases m <;> first | rfl | exact absurd (List.mem_cons_self) hl
    · rfl

private theorem keyDown_cable {c p : Nat} {start l : List Piece} {junk : Nat → Nat → Nat} {ops : List Midi.Op}
    (hl : .message .systemReset ∉ l) (h : ops.filter (fun o => !isTick o) = asked start junk l) :
    keyDown c p ops = cableDown c p l := by
  have h1 := kd_ticks c p ops false
  rw [h, kd_asked c p start l hl] at h1
  exact h1.symm

/-- The calls of a session behind `pre ++ l`. -/
private theorem parts {env : Rx.Env} {start : List Piece} (hs : StartupIs env start) (j0 : Nat → Nat) (b : Bool) (m : Sram.Mem)
    (junk : Nat → Nat → Nat) (es : List Event) {pre l : List Piece} {tail : List Nat} (h : Stream (arrived es) (pre ++ l) tail) :
    ∃ opsA opsB junk', (Session.run env junk .hardware (Session.boot env j0 b m) es).sys.midi =
        Midi.run env.midi (Midi.boot env.midi b m) (startOps j0 start ++ opsA ++ opsB) ∧
      opsA.filter (fun o => !isTick o) = asked start junk pre ∧ opsB.filter (fun o => !isTick o) = asked start junk' l ∧
      ∀ n k, ∃ n' k', junk' n k = junk n' k' := by
  obtain ⟨⟨ops, h1, h2, -⟩, -, -, -⟩ := C75_session hs j0 b m junk es h
  rw [asked_append] at h2
  obtain ⟨o1, o2, rfl, e1, e2⟩ := List.filter_eq_append_iff.1 h2
  exact ⟨o1, o2, _, by rw [h1, List.append_assoc], e1, e2, fun n k => ⟨_, k, rfl⟩⟩

/-- **C81**, only held keys sound.  From power-on over any preset memory, a startup sequence and a set-up that press no
key (with any messages before a system reset), then a performance, all cut into arrivals in any way, with frames at any
time: a voice sounds only a key that is down on the cable, and an FM channel is keyed only for a voice that sounds.  Full
statement: for any messages; it is false with portamento (`C71_portamento_note_sticks`) and with GM reset (`C78_violated_gm_reset`). -/
theorem C81_only_held_keys_partial {env : Rx.Env} (he : env.midi.Ok) {start : List Piece} (hs : StartupIs env start)
    (ha : ∀ x ∈ start, arranges x = true) (j0 : Nat → Nat) (b : Bool) (m : Sram.Mem) (junk : Nat → Nat → Nat) (es : List Event)
    {pre l : List Piece} {tail : List Nat} (h : Stream (arrived es) (pre ++ l) tail) (hp : Prepared pre)
    (hl : ∀ x ∈ l, performs x = true) :
    let s := (Session.run env junk .hardware (Session.boot env j0 b m) es).sys.midi
    (∀ i, i < 13 → (s.dev i).noteOn = true → cableDown (s.dev i).midiChannel (s.dev i).pitch l = true) ∧
    ∀ n, n < 6 → Synth.keyed s.fm.synth.out n = true → (s.dev n).noteOn = true := by
  intro s
  obtain ⟨A, B, junk', e, eA, eB, -⟩ := parts hs j0 b m junk es h
  have gB : ∀ op ∈ B, glideless op = true := all_of eB (fun op k => (tick_setup k).2.1) fun op ho => by
    obtain ⟨x, hx, n, k, hn⟩ := mem_plain (performs_plain hl) ho
    exact performs_glideless (hl x hx) (h.ok x (by simp [hx])) hn
  have sS : ∀ j, ∀ op ∈ startOps j start, setup op = true := fun j op ho => by
    obtain ⟨x, hx, n, hn⟩ := mem_startOps ho
    exact arranges_setup (ha x hx) hn
  have sQ : ∀ {o : List Midi.Op} {q : List Piece} {junk : Nat → Nat → Nat}, o.filter (fun o => !isTick o) = asked start junk q → (∀ x ∈ q, arranges x = true) →
      ∀ op ∈ o, setup op = true := fun eo hq => all_of eo (fun op k => (tick_setup k).1) fun op ho => by
    obtain ⟨x, hx, n, k, hn⟩ := mem_asked ho
    exact arranges_setup (hx.elim (hq x) (ha x)) hn
  have main : ∃ s₀ before, (∀ op ∈ before, setup op = true) ∧
      s = Midi.run env.midi (Midi.run env.midi (reset env.midi s₀) before) B := by
    obtain ⟨q, hq, rfl | ⟨old, rfl⟩⟩ := hp
    · refine ⟨powerOn env.midi b m, startOps j0 start ++ A, fun op ho => ?_, ?_⟩
      · exact (List.mem_append.1 ho).elim (sS j0 op) (sQ eA hq op)
      · rw [show s = _ from e]; simp only [Midi.run, List.foldl_append, Midi.boot]
    · rw [asked_append] at eA
      obtain ⟨o1, o2, rfl, e1, e2⟩ := List.filter_eq_append_iff.1 eA
      simp only [asked, List.cons_append] at e2
      obtain ⟨o3, o4, rfl, hn, hr, e4⟩ := List.filter_eq_cons_iff.1 e2
      obtain ⟨o5, o6, rfl, e5, e6⟩ := List.filter_eq_append_iff.1 e4
      refine ⟨Midi.run env.midi (Midi.boot env.midi b m) (startOps j0 start ++ o1 ++ o3), o5 ++ o6, fun op ho => ?_, ?_⟩
      · refine (List.mem_append.1 ho).elim (fun k => ?_) (sQ e6 hq op)
        exact all_of e5 (fun op k => (tick_setup k).1) (sS _) op k
      · rw [show s = _ from e]
        simp only [Midi.run, List.foldl_append, List.foldl_cons]
        rfl
  obtain ⟨s₀, before, hb, es'⟩ := main
  obtain ⟨h1, h2⟩ := C71_only_held_notes_sound_partial env.midi he s₀ before B hb gB
  rw [← es'] at h1 h2
  exact ⟨fun i hi hn => by rw [← keyDown_cable (performs_plain hl) eB]; exact h1 i hi hn, h2⟩

/-! ### All keys up -/

private theorem frames_pass {env : Rx.Env} {start : List Piece} (hs : StartupIs env start) (j0 : Nat → Nat) (b : Bool) (m : Sram.Mem)
    (junk : Nat → Nat → Nat) (es : List Event) {l : List Piece} (h : arrived es = l.flatMap Piece.bytes) (hl : ∀ x ∈ l, x.Ok)
    (n : Nat) : (Session.run env junk .hardware (Session.boot env j0 b m) (es ++ List.replicate n .frame)).sys.midi =
      Midi.run env.midi (Session.run env junk .hardware (Session.boot env j0 b m) es).sys.midi
        (List.replicate n [.psgTick, .tick]).flatten := by
  induction n with
  | zero => simp [Midi.run]
  | succ n ih =>
    have hr : ∀ k, arrived (es ++ List.replicate k .frame) = arrived es := by
      intro k
      have : ∀ es' : List Event, arrived (es' ++ List.replicate k .frame) = arrived es' := by
        intro es'
        induction es' with
        | nil => induction k with
          | zero => rfl
          | succ k ih => simpa [List.replicate_succ, arrived] using ih
        | cons e es' ih => cases e <;> simp [arrived, ih]
      exact this es
    have k := (C75_frame hs j0 b m junk (es ++ List.replicate n .frame) ((hr n).trans h) hl).1
    rw [List.replicate_succ' (n := n) (a := Event.frame), ← List.append_assoc, k, ih, List.replicate_succ', List.flatten_append]
    simp only [Midi.run, List.foldl_append, List.flatten_cons, List.flatten_nil, List.foldl_cons, List.foldl_nil,
      List.append_nil]

private theorem kd_tail {c p : Nat} {A B : List Midi.Op} (h : ∀ op ∈ B, isTick op = true) : keyDown c p (A ++ B) = keyDown c p A := by
  have : B.filter (fun o => !isTick o) = [] := List.filter_eq_nil_iff.2 fun op ho => by simp [h op ho]
  have k := kd_ticks c p (A ++ B) false
  rw [List.filter_append, this, List.append_nil, kd_ticks] at k
  exact k.symm

private theorem count_frames (n : Nat) : (List.replicate n [Midi.Op.psgTick, .tick]).flatten.count .psgTick = n := by
  induction n with
  | zero => rfl
  | succ n ih => simp [List.replicate_succ, ih, List.count_cons]

/-- **C81**, all keys up.  Start-up, set-up and performance arrive in any way; if no key is down on the cable at the end and
then as many frames pass as the longest envelope has bytes (at least 256), all four PSG channels are at full attenuation and
every FM channel is keyed off.  Full statement: for any messages; it is false as above. -/
theorem C81_keys_up_silence_partial {env : Rx.Env} (he : env.midi.Ok) {start : List Piece} (hs : StartupIs env start)
    (ha : ∀ x ∈ start, arranges x = true) {j0 : Nat → Nat} (hj0 : ∀ n, j0 n < 256) (b : Bool) (m : Sram.Mem)
    {junk : Nat → Nat → Nat} (hj : ∀ n k, junk n k < 256) (es : List Event) {pre l : List Piece}
    (h : arrived es = (pre ++ l).flatMap Piece.bytes) (hok : ∀ x ∈ pre ++ l, x.Ok)
    (hp : ∀ x ∈ pre, arranges x = true ∧ x ≠ .message .systemReset) (hl : ∀ x ∈ l, performs x = true)
    (hup : ∀ c p, cableDown c p l = false) {n : Nat} (hN : 256 ≤ n ∧ ∀ e ∈ env.midi.psg.envelopes, e.length ≤ n) :
    let s := (Session.run env junk .hardware (Session.boot env j0 b m) (es ++ List.replicate n .frame)).sys.midi
    (∀ k, k < 4 → Psg.chipAtt s.psg.out k = 15) ∧ ∀ k, k < 6 → Synth.keyed s.fm.synth.out k = false := by
  intro s
  have st : Stream (arrived es) (pre ++ l) [] :=
    ⟨by rw [h, List.append_nil], hok, .clock, trivial, [0xF8], by simp, rfl⟩
  obtain ⟨A, B, junk', e, eA, eB, hj'⟩ := parts hs j0 b m junk es st
  have e' : s = Midi.run env.midi (Midi.boot env.midi b m)
      ((startOps j0 start ++ A) ++ B ++ (List.replicate n [.psgTick, .tick]).flatten) := by
    rw [show s = _ from frames_pass hs j0 b m junk es h hok n, e]
    simp only [Midi.run, List.foldl_append]
  have tk : ∀ op ∈ (List.replicate n [Midi.Op.psgTick, .tick]).flatten, isTick op = true := by
    intro op ho
    simp only [List.mem_flatten, List.mem_replicate] at ho
    obtain ⟨l, ⟨-, rfl⟩, ho⟩ := ho
    simp at ho
    rcases ho with rfl | rfl <;> rfl
  have preA : ∀ op ∈ A, (setup op = true ∧ op ≠ .reset) ∧ op.Wf :=
    all_of eA (fun op k => ⟨⟨(tick_setup k).1, (tick_setup k).2.2.1⟩, (tick_setup k).2.2.2⟩) fun op ho => by
      obtain ⟨x, hx, n, k, hn⟩ := mem_plain (fun k => (hp _ k).2 rfl) ho
      refine ⟨⟨arranges_setup (hp x hx).1 hn, fun k => ?_⟩, piece_wf (hok x (by simp [hx])) (hj _ _) op hn⟩
      subst k
      rcases x with m | b
      · cases m <;> simp [Piece.ops] at hn
        exact (hp _ hx).2 rfl
      · simp [Piece.ops] at hn
  have stA : ∀ op ∈ startOps j0 start, (setup op = true ∧ op ≠ .reset) ∧ op.Wf := fun op ho => by
    obtain ⟨x, hx, n, hn⟩ := mem_startOps ho
    refine ⟨⟨arranges_setup (ha x hx) hn, fun k => ?_⟩, piece_wf (hs.2 x hx).1 (hj0 _) op hn⟩
    subst k
    rcases x with m | b
    · cases m <;> simp [Piece.ops] at hn
      exact (hs.2 _ hx).2 rfl
    · simp [Piece.ops] at hn
  have gB : ∀ op ∈ B, glideless op = true ∧ op.Wf := all_of eB (fun op k => (tick_setup k).2.imp_right And.right) fun op ho => by
    obtain ⟨x, hx, n, k, hn⟩ := mem_plain (performs_plain hl) ho
    obtain ⟨n', k', ej⟩ := hj' n k
    exact ⟨performs_glideless (hl x hx) (hok x (by simp [hx])) hn, piece_wf (hok x (by simp [hx])) (ej ▸ hj _ _) op hn⟩
  rw [e']
  refine C78_keys_up_silence_partial he b m (startOps j0 start ++ A) B _ n (fun op ho => ?_) (fun op ho => ?_)
    (fun op ho => ?_) (fun k _ c p => ?_) hN (by rw [count_frames]; exact Nat.le_refl _)
  · exact (List.mem_append.1 ho).elim (fun k => (stA op k).1) fun k => (preA op k).1
  · exact (List.mem_append.1 ho).elim (fun k => (gB op k).1) fun k => (tick_setup (tk op k)).2.1
  · rcases List.mem_append.1 ho with ho | ho
    · rcases List.mem_append.1 ho with ho | ho
      · exact (List.mem_append.1 ho).elim (fun k => (stA op k).2) fun k => (preA op k).2
      · exact (gB op ho).2
    · exact (tick_setup (tk op ho)).2.2.2
  · rw [kd_tail (fun op ho => tk op (List.mem_of_mem_take ho)), keyDown_cable (performs_plain hl) eB]
    exact hup c p

/-! ### Every held key sounds -/

/-- Messages of keyboard playing: those of a performance but bends, controllers 85 (fine tune), 86 (voice group), 120 and 123
(all notes off) and the "stick" exclusive message. -/
def keyboardOnly : Piece → Bool
  | .message (.controlChange c k v) => performs (.message (.controlChange c k v)) && k != 85 && k != 86 && k != 120 && k != 123
  | .message (.sysex d) => performs (.message (.sysex d)) && d.take 4 != [0, 0x22, 0x77, 5]
  | .message (.pitchBend _ _) => false
  | x => performs x

/-- Keyboard playing on the cable: a key from 11 to 106 is pressed when it is up, on any MIDI channel but 10, at most
nine are down at once. -/
structure CableKeyboard (l : List Piece) : Prop where
  keys : ∀ x ∈ l, keyboardOnly x = true
  press : ∀ pre post c p v, l = pre ++ .message (.noteOn c p v) :: post →
    v = 0 ∨ (11 ≤ p ∧ p ≤ 106) ∧ c ≠ 9 ∧ (c, p) ∉ cableKeys pre ∧ (cableKeys pre).length ≤ 8

/-- The interface assigns voices dynamically: it starts so, or is told so first. -/
def Assigns (env : Rx.Env) (pre : List Piece) : Prop :=
  env.midi.mode = .dynamic ∧ pre = [] ∨ pre = [.message (.sysex [0x00, 0x22, 0x77, 0x03, 0x01])]

private theorem keys_performs {x : Piece} (h : keyboardOnly x = true) : performs x = true := by
  rcases x with m | b
  · cases m <;> simp_all [keyboardOnly, performs]
  · rfl

private theorem keys_chordal {x : Piece} (h : keyboardOnly x = true) (hx : x.Ok) {j : Nat} {op : Midi.Op} (ho : op ∈ x.ops j) :
    chordal op = true ∧ untuned op = true := by
  have g := performs_glideless (keys_performs h) hx ho
  rcases x with m | b
  · cases m <;> simp only [Piece.ops, List.mem_cons, List.not_mem_nil, or_false] at ho <;> try subst ho
    · exact ⟨g, rfl⟩
    · exact ⟨g, rfl⟩
    · simp only [keyboardOnly, Bool.and_eq_true] at h
      simp only [chordal, untuned, Bool.and_eq_true]
      exact ⟨⟨⟨⟨g, h.1.1.2⟩, h.1.2⟩, h.2⟩, h.1.1.1.2⟩
    · exact ⟨g, rfl⟩
    · simp [keyboardOnly] at h
    · simp only [keyboardOnly, Bool.and_eq_true] at h
      simp only [chordal, untuned, Bool.and_eq_true]
      exact ⟨⟨g, h.2⟩, trivial⟩
    · simp [keyboardOnly, performs] at h
  · simp [Piece.ops] at ho

private def dk : List (Nat × Nat) → Midi.Op → List (Nat × Nat) := fun D op => match op with
  | .noteOn c p v => if v = 0 then D.filter (· ≠ (c, p)) else (c, p) :: D
  | .noteOff c p => D.filter (· ≠ (c, p))
  | _ => D

private def ck : List (Nat × Nat) → Piece → List (Nat × Nat) := fun D x => match x with
  | .message (.noteOn c p v) => if v = 0 then D.filter (· ≠ (c, p)) else (c, p) :: D
  | .message (.noteOff c p _) => D.filter (· ≠ (c, p))
  | _ => D

private theorem dk_ticks (ops : List Midi.Op) : ∀ D, (ops.filter (fun o => !isTick o)).foldl dk D = ops.foldl dk D := by
  induction ops with
  | nil => intro b; rfl
  | cons op ops ih =>
    intro b
    rw [List.filter_cons]
    cases op <;> exact ih _

private theorem dk_asked (start : List Piece) (l : List Piece) (hl : .message .systemReset ∉ l) :
    ∀ (junk : Nat → Nat → Nat) D, (asked start junk l).foldl dk D = l.foldl ck D := by
  induction l with
  | nil => intro junk D; rfl
  | cons x l ih =>
    intro junk D
    rw [asked.eq_3 _ _ _ _ (by intro k; exact hl (by simp [k])), List.foldl_append, List.foldl_cons,
      ih (fun k => hl (by simp [k]))]
    congr 1
    rcases x with m | b
    · cases m <;> first | rfl | exact absurd (List.mem_cons_self) hl
    · rfl

private theorem downKeys_cable {start l : List Piece} {junk : Nat → Nat → Nat} {ops : List Midi.Op}
    (hl : .message .systemReset ∉ l) (h : ops.filter (fun o => !isTick o) = asked start junk l) : downKeys ops = cableKeys l := by
  have h1 := dk_ticks ops []
  rw [h, dk_asked start l hl] at h1
  exact h1.symm

/-- A note on among the calls is one among the messages. -/
private theorem asked_split {start : List Piece} {c p v : Nat} {l : List Piece} (hl : .message .systemReset ∉ l) :
    ∀ (junk : Nat → Nat → Nat) A B, asked start junk l = A ++ .noteOn c p v :: B →
    ∃ l1 l2, l = l1 ++ .message (.noteOn c p v) :: l2 ∧ A = asked start junk l1 := by
  induction l with
  | nil => intro junk A B h; simp [asked] at h
  | cons x l ih =>
    intro junk A B h
    have ne : x ≠ .message .systemReset := fun k => hl (by simp [k])
    rw [asked.eq_3 _ _ _ _ (by intro k; exact ne k)] at h
    have go : ∀ A', asked start (fun n => junk (n + 1)) l = A' ++ .noteOn c p v :: B → A = x.ops (junk 0 0) ++ A' →
        ∃ l1 l2, x :: l = l1 ++ .message (.noteOn c p v) :: l2 ∧ A = asked start junk l1 := by
      intro A' h1 h2
      obtain ⟨l1, l2, e1, e2⟩ := ih (fun k => hl (by simp [k])) _ A' B h1
      exact ⟨x :: l1, l2, by rw [e1]; rfl, by rw [asked.eq_3 _ _ _ _ (by intro k; exact ne k), h2, e2]⟩
    have one : x.ops (junk 0 0) = [] ∨ ∃ o, x.ops (junk 0 0) = [o] ∧
        ∀ c p v, o = .noteOn c p v → x = .message (.noteOn c p v) := by
      rcases x with m | b
      · cases m <;> first | exact .inl rfl | exact .inr ⟨_, rfl, by intro c p v e; cases e <;> rfl⟩
      · exact .inl rfl
    rcases one with e | ⟨o, e, ho⟩
    · rw [e] at h
      exact go A h (by rw [e]; rfl)
    · rw [e] at h
      cases A with
      | nil =>
        simp only [List.cons_append, List.nil_append, List.cons.injEq] at h
        exact ⟨[], l, by rw [ho c p v h.1]; rfl, rfl⟩
      | cons a A' =>
        simp only [List.cons_append, List.nil_append, List.cons.injEq] at h
        exact go A' h.2 (by rw [e, h.1]; rfl)

private theorem ticks_steady {env : Midi.Env} (l : List Midi.Op) (h : ∀ op ∈ l, isTick op = true) :
    ∀ s, Steady true s (Midi.run env s l) := by
  induction l with
  | nil => intro s; exact .refl
  | cons op l ih =>
    intro s
    have h0 := h op (by simp)
    refine Steady.trans ?_ (ih (fun o ho => h o (by simp [ho])) _)
    cases op <;> simp [isTick] at h0
    · exact tick_steady
    · exact .psg

/-- **C81**, every held key sounds.  No startup sequence, dynamic assignment from the start or by the first message, then
keyboard playing, cut into arrivals in any way, with frames at any time: every key down on the cable keys an FM channel or
sounds on a PSG tone, and every keyed FM channel is keyed for a key that is down. -/
theorem C81_held_keys_sound {env : Rx.Env} (he : env.midi.Ok) (hs : env.startup = []) (j0 : Nat → Nat) (b : Bool)
    (m : Sram.Mem) (junk : Nat → Nat → Nat) (es : List Event) {pre l : List Piece} {tail : List Nat}
    (h : Stream (arrived es) (pre ++ l) tail) (hp : Assigns env pre) (hl : CableKeyboard l) :
    let s := (Session.run env junk .hardware (Session.boot env j0 b m) es).sys.midi
    (∀ c p, (c, p) ∈ cableKeys l → ∃ i, (i < 6 ∧ Synth.keyed s.fm.synth.out i = true ∨ 6 ≤ i ∧ i < 9) ∧
      (s.dev i).noteOn = true ∧ (s.dev i).midiChannel = c ∧ (s.dev i).pitch = p) ∧
    ∀ n, n < 6 → Synth.keyed s.fm.synth.out n = true → ((s.dev n).midiChannel, (s.dev n).pitch) ∈ cableKeys l := by
  intro s
  have plain := performs_plain fun x hx => keys_performs (hl.keys x hx)
  obtain ⟨A, B, junk', e, eA, eB, -⟩ := parts (start := []) ⟨hs, by simp⟩ j0 b m junk es h
  simp only [startOps, List.nil_append] at e
  obtain ⟨r1, -, r3, r4⟩ := reset_state env.midi (powerOn env.midi b m)
  -- the calls that end the set-up, and the frames after it
  obtain ⟨before, T, eAT, hT, hb, hr, ht⟩ : ∃ before T, A = before ++ T ∧ (∀ op ∈ T, isTick op = true) ∧
      (∀ op ∈ before, setup op = true) ∧ Ready (Midi.run env.midi (reset env.midi (powerOn env.midi b m)) before) ∧
      ∀ c, c < 16 → ((Midi.run env.midi (reset env.midi (powerOn env.midi b m)) before).chan c).pitchBend = 0x2000 ∧
        ((Midi.run env.midi (reset env.midi (powerOn env.midi b m)) before).chan c).fineTune = 0 := by
    rcases hp with ⟨hm, rfl⟩ | rfl
    · refine ⟨[], A, rfl, fun op ho => ?_, by simp, ⟨?_, fun c hc => ?_, ?_⟩, fun c hc => ?_⟩
      · have := List.filter_eq_nil_iff.1 eA op ho; simpa using this
      · simp only [Midi.run, List.foldl_nil]; rw [r3, hm]; rfl
      · simp only [Midi.run, List.foldl_nil]; rw [r1 c hc]; rfl
      · simp only [Midi.run, List.foldl_nil]; rw [r4]
      · simp only [Midi.run, List.foldl_nil]; rw [r1 c hc]; exact ⟨rfl, rfl⟩
    · obtain ⟨T1, T2, rfl, hn, hr, e2⟩ := List.filter_eq_cons_iff.1 (show A.filter (fun o => !isTick o) =
        .sysex [0x00, 0x22, 0x77, 0x03, 0x01] (junk 0 0) :: [] from eA)
      have t1 : ∀ op ∈ T1, isTick op = true := fun op ho => by simpa using hn op ho
      have st := ticks_steady (env := env.midi) T1 t1 (reset env.midi (powerOn env.midi b m))
      generalize eu : Midi.run env.midi (reset env.midi (powerOn env.midi b m)) T1 = u at st
      have er : Midi.run env.midi (reset env.midi (powerOn env.midi b m))
          (T1 ++ [.sysex [0x00, 0x22, 0x77, 0x03, 0x01] (junk 0 0)]) = setDynamicMode u .dynamic := by
        rw [← eu, Midi.run, List.foldl_append, ← Midi.run]; rfl
      refine ⟨T1 ++ [.sysex [0x00, 0x22, 0x77, 0x03, 0x01] (junk 0 0)], T2, by simp, fun op ho => ?_, fun op ho => ?_, ?_⟩
      · have := List.filter_eq_nil_iff.1 e2 op ho; simpa using this
      · rcases List.mem_append.1 ho with k | k
        · exact (tick_setup (t1 op k)).1
        · rw [List.mem_singleton.1 k]; rfl
      · rw [er]
        refine ⟨⟨rfl, fun c hc => ?_, ?_⟩, fun c hc => ?_⟩
        · exact (st.sel c).trans (by rw [r1 c hc]; rfl)
        · exact st.stick.trans (by rw [r4])
        · exact ⟨(st.tune rfl c).1.trans (by rw [r1 c hc]; rfl), (st.tune rfl c).2.trans (by rw [r1 c hc]; rfl)⟩
  have eTB : (T ++ B).filter (fun o => !isTick o) = asked [] junk' l := by
    rw [List.filter_append, List.filter_eq_nil_iff.2 (fun op ho => by simp [hT op ho]), eB]; rfl
  have cu : ∀ op ∈ T ++ B, chordal op = true ∧ untuned op = true := all_of eTB
    (fun op k => by cases op <;> simp [isTick] at k <;> exact ⟨rfl, rfl⟩) fun op ho => by
      obtain ⟨x, hx, n, k, hn⟩ := mem_plain plain ho
      exact keys_chordal (hl.keys x hx) (h.ok x (by simp [hx])) hn
  have pr : ∀ pre post c p v, T ++ B = pre ++ .noteOn c p v :: post →
      v = 0 ∨ (11 ≤ p ∧ p ≤ 106) ∧ c ≠ 9 ∧ (c, p) ∉ downKeys pre ∧ (downKeys pre).length ≤ 8 := by
    intro pre' post c p v ep
    have e3 := eTB
    rw [ep, List.filter_append, List.filter_cons,
      if_pos (show (!isTick (Midi.Op.noteOn c p v)) = true from rfl)] at e3
    obtain ⟨l1, l2, el, e4⟩ := asked_split plain junk' _ _ e3.symm
    rw [downKeys_cable (fun k => plain (by rw [el]; simp [k])) e4]
    exact hl.press l1 l2 c p v el
  have key := C71_held_keys_reach_chip env.midi he (powerOn env.midi b m) before (T ++ B) hb hr
    ⟨fun op ho => (cu op ho).1, fun pre post c p v ep => (pr pre post c p v ep).imp_right And.right⟩ ht
    (fun op ho => (cu op ho).2) fun c p v ho => by
      obtain ⟨pre, post, ep⟩ := List.append_of_mem ho
      exact (pr pre post c p v ep).imp_right And.left
  have es' : s = Midi.run env.midi (Midi.run env.midi (reset env.midi (powerOn env.midi b m)) before) (T ++ B) := by
    rw [show s = _ from e, eAT]
    simp only [Midi.run, List.foldl_append, Midi.boot]
  rw [← es', downKeys_cable plain eTB] at key
  exact key

/-! ### Examples -/

/-- Dynamic assignment, three keys on two channels, the second released; messages and arrivals do not line up. -/
private def played : List Piece :=
  [.message (.noteOn 0 60 100), .message .clock, .message (.noteOn 0 64 90), .message (.noteOn 1 67 80),
    .message (.programChange 1 5), .message (.noteOn 0 64 0)]
private def arrivals : List Event :=
  [.frame, .bytes [0xF0, 0x00, 0x22, 0x77, 0x03], .frame, .bytes [0x01, 0xF7, 0x90, 60], .bytes [100, 0xF8, 0x90], .frame,
    .bytes [64, 90, 0x91, 67, 80], .frame, .bytes [0xC1, 5, 0x90, 64, 0, 0xB0, 7]]
private def heardSession (es : List Event) : Midi.St :=
  (Session.run ⟨Ex.env .static, []⟩ (fun _ _ => 0) .hardware (Session.boot ⟨Ex.env .static, []⟩ (fun _ => 0) true Ex.mem) es).sys.midi

/-- The arrivals are those messages, with a controller message that is not complete. -/
example : Stream (arrived arrivals) ([.message (.sysex [0x00, 0x22, 0x77, 0x03, 0x01])] ++ played) [0xB0, 7] :=
  ⟨by decide +kernel, by simp [played, Piece.Ok, Message.Ok], .controlChange 0 7 0, by simp [Message.Ok], [0], by simp, rfl⟩

/-- They are keyboard playing. -/
example : CableKeyboard played := by
  have h : ∀ n, n < played.length → (match played[n]? with
    | some (.message (.noteOn c p v)) => decide (v = 0 ∨ (11 ≤ p ∧ p ≤ 106) ∧ c ≠ 9 ∧ (c, p) ∉ cableKeys (played.take n) ∧
        (cableKeys (played.take n)).length ≤ 8)
    | _ => true) = true := by decide +kernel
  refine ⟨fun x hx => ?_, fun pre post c p v e => ?_⟩
  · simp only [played, List.mem_cons, List.not_mem_nil, or_false] at hx
    rcases hx with rfl | rfl | rfl | rfl | rfl | rfl <;> rfl
  have h := h pre.length (by rw [e]; simp)
  rw [e] at h
  simpa using h

/-- Two keys are down and exactly two FM channels are keyed, each for one of them. -/
example : cableKeys played = [(1, 67), (0, 60)] ∧ (let s := heardSession arrivals
    (List.range 6).filter (Synth.keyed s.fm.synth.out) = [0, 2] ∧
    ((s.dev 0).midiChannel, (s.dev 0).pitch) = (0, 60) ∧ ((s.dev 2).midiChannel, (s.dev 2).pitch) = (1, 67)) := by
  decide +kernel

/-- After a system reset the keys pressed before it are forgotten: the channel of the key is keyed off though the key was not
released, and the set-up may be anything before the reset. -/
example : Prepared (played ++ [.message .systemReset]) := ⟨[], by simp, .inr ⟨played, rfl⟩⟩
example : (List.range 6).filter (Synth.keyed (heardSession (arrivals ++ [.bytes [100, 0xFF, 0x92, 50, 1]])).fm.synth.out) = [2] := by
  decide +kernel

end Mdmi.Props
