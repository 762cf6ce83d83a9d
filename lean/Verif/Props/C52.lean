import Verif.Model.Demo
import Verif.Proofs.RingBuf
/-! C52: what the joypad demo sends. -/
namespace Mdmi.Props
open Mdmi Mdmi.Demo

/-- The messages of the demo. -/
inductive DemoMsg
  | noteOn (key : Nat)
  | noteOff (key : Nat)
  | program (n : Nat)
  | showParameters
  deriving DecidableEq, Repr

/-- MIDI bytes on channel 1. -/
def DemoMsg.bytes : DemoMsg → List Nat
  | .noteOn k => [0x90, k, 127]
  | .noteOff k => [0x80, k, 0]
  | .program n => [0xC0, n]
  | .showParameters => [0xB0, 83, 127]

/-- Keys the FM chip can play, and legal programs. -/
def DemoMsg.Ok : DemoMsg → Prop
  | .noteOn k => 11 ≤ k ∧ k ≤ 106
  | .noteOff k => 11 ≤ k ∧ k ≤ 106
  | .program n => n ≤ 127
  | .showParameters => True

/-- The key that sounds after a message; `none` outside if the message would leave two keys sounding or release a key
that is not the one that sounds. -/
def DemoMsg.after (sounding : Option Nat) : DemoMsg → Option (Option Nat)
  | .noteOn k => if sounding = none then some (some k) else none
  | .noteOff k => if sounding = none ∨ sounding = some k then some none else none
  | _ => some sounding

/-- The key that sounds after a list of messages. -/
def soundingAfter (sounding : Option Nat) : List DemoMsg → Option (Option Nat)
  | [] => some sounding
  | m :: l => match m.after sounding with
    | none => none
    | some k => soundingAfter k l

/-- Opposite directions are not pressed together (the pad cannot do that). -/
def PadOk (joy : Nat) : Prop := ¬ (joy &&& 1 ≠ 0 ∧ joy &&& 2 ≠ 0) ∧ ¬ (joy &&& 4 ≠ 0 ∧ joy &&& 8 ≠ 0)

instance (joy : Nat) : Decidable (PadOk joy) := by unfold PadOk; infer_instance

/-- The receiver reads only when there is something to read, and has read everything before a frame; `pad` if also
opposite directions are excluded. -/
def DemoLegal (pad : Bool) (s : St) : Op → Prop
  | .ask _ => True
  | .read => Ring.canRead s.ring = true
  | .frame joy => (pad = true → PadOk joy) ∧ Ring.canRead s.ring = false

instance (pad : Bool) (s : St) (op : Op) : Decidable (DemoLegal pad s op) := by cases op <;> unfold DemoLegal <;> infer_instance

/-- A whole history of that kind. -/
def DemoLegalRun (pad : Bool) (s : St) : List Op → Prop
  | [] => True
  | op :: ops => DemoLegal pad s op ∧ DemoLegalRun pad (Demo.step s op) ops

instance DemoLegalRun.dec (pad : Bool) : (s : St) → (ops : List Op) → Decidable (DemoLegalRun pad s ops)
  | _, [] => .isTrue trivial
  | s, op :: ops => by
    have := DemoLegalRun.dec pad (Demo.step s op) ops
    unfold DemoLegalRun
    infer_instance

/-- What has been sent: `q` are the bytes not yet read. -/
structure DemoInv (s : St) (q : List Nat) (msgs : List DemoMsg) : Prop where
  ring : ∃ st, Ring.Rep s.ring st q
  size : s.ring.size = 24
  fault : s.fault = false
  pitch : 11 ≤ s.pitch ∧ s.pitch ≤ 106
  program : s.program ≤ 127
  stream : s.given ++ q = msgs.flatMap DemoMsg.bytes
  ok : ∀ m ∈ msgs, m.Ok
  sound : soundingAfter none msgs = some none ∨ soundingAfter none msgs = some (some s.pitch)
  start : s.played = s.enabled ∧ (s.enabled = false → msgs = [])

private theorem soundingAfter_append {a : Option Nat} {l m : List DemoMsg} {b : Option Nat} (h : soundingAfter a l = some b) :
    soundingAfter a (l ++ m) = soundingAfter b m := by
  induction l generalizing a with
  | nil => simp [soundingAfter] at h; subst h; rfl
  | cons x l ih =>
    simp only [soundingAfter, List.cons_append] at h ⊢
    split at h
    · simp at h
    · exact ih h

private theorem put_rep {s : St} {st q : List Nat} (b : Nat) (h : Ring.Rep s.ring st q) (hs : s.ring.size = 24)
    (hq : q.length ≤ 22) : ∃ ring st', put s b = { s with ring := ring } ∧ Ring.Rep ring st' (q ++ [b]) ∧ ring.size = 24 := by
  obtain ⟨e, r⟩ := h.write_ok b (by rw [hs]; omega)
  refine ⟨_, _, ?_, r, hs⟩
  unfold put
  rw [e]

/-- Three bytes. -/
private theorem put3_rep {s : St} {st q : List Nat} (a b c : Nat) (h : Ring.Rep s.ring st q) (hs : s.ring.size = 24)
    (hq : q.length ≤ 20) : ∃ ring st', put (put (put s a) b) c = { s with ring := ring } ∧ Ring.Rep ring st' (q ++ [a, b, c]) ∧
      ring.size = 24 := by
  obtain ⟨r1, s1, e1, h1, z1⟩ := put_rep a h hs (by omega)
  obtain ⟨r2, s2, e2, h2, z2⟩ := put_rep (s := { s with ring := r1 }) b h1 z1 (by simp; omega)
  obtain ⟨r3, s3, e3, h3, z3⟩ := put_rep (s := { s with ring := r2 }) c h2 z2 (by simp; omega)
  refine ⟨r3, s3, ?_, by simpa using h3, z3⟩
  rw [e1, e2, e3]

private theorem put2_rep {s : St} {st q : List Nat} (a b : Nat) (h : Ring.Rep s.ring st q) (hs : s.ring.size = 24)
    (hq : q.length ≤ 21) : ∃ ring st', put (put s a) b = { s with ring := ring } ∧ Ring.Rep ring st' (q ++ [a, b]) ∧
      ring.size = 24 := by
  obtain ⟨r1, s1, e1, h1, z1⟩ := put_rep a h hs (by omega)
  obtain ⟨r2, s2, e2, h2, z2⟩ := put_rep (s := { s with ring := r1 }) b h1 z1 (by simp; omega)
  refine ⟨r2, s2, ?_, by simpa using h2, z2⟩
  rw [e1, e2]

/-- The repeat logic does not send anything. -/
private theorem repeat_inv {s : St} {q msgs} (h : DemoInv s q msgs) (joy mask : Nat) :
    DemoInv (shouldRepeat s joy mask).2 q msgs ∧ (shouldRepeat s joy mask).2.pitch = s.pitch ∧
      (shouldRepeat s joy mask).2.enabled = s.enabled ∧
      ((shouldRepeat s joy mask).1 = true → joy &&& mask ≠ 0) := by
  have key : ∀ a b, DemoInv { s with repeatButton := a, repeatTimer := b } q msgs := fun a b =>
    ⟨h.ring, h.size, h.fault, h.pitch, h.program, h.stream, h.ok, h.sound, h.start⟩
  unfold shouldRepeat
  split
  · rename_i hj
    split
    · exact ⟨key _ _, rfl, rfl, fun _ => hj⟩
    · exact ⟨key _ _, rfl, rfl, fun _ => hj⟩
  · split
    · exact ⟨key _ _, rfl, rfl, by simp⟩
    · exact ⟨h, rfl, rfl, by simp⟩

/-- Release of the current note. -/
private theorem noteOff_inv {s : St} {q msgs} (h : DemoInv s q msgs) (he : s.enabled = true) (hq : q.length ≤ 20) :
    ∃ ring, sendNoteOff s s.pitch = { s with ring := ring } ∧
      DemoInv { s with ring := ring } (q ++ [0x80, s.pitch, 0]) (msgs ++ [.noteOff s.pitch]) ∧
      soundingAfter none (msgs ++ [.noteOff s.pitch]) = some none := by
  obtain ⟨⟨st, hr⟩, hs, hf, hp, hg, hst, hok, hsd, hstart⟩ := h
  obtain ⟨r, st', e, h', z⟩ := put3_rep 0x80 s.pitch 0 hr hs hq
  have hz : soundingAfter none (msgs ++ [.noteOff s.pitch]) = some none := by
    rcases hsd with x | x <;> rw [soundingAfter_append x] <;> simp [soundingAfter, DemoMsg.after]
  refine ⟨r, e, ⟨⟨st', h'⟩, z, hf, hp, hg, ?_, ?_, .inl hz, hstart.1, by simp [he]⟩, hz⟩
  · simp [← List.append_assoc, hst, DemoMsg.bytes]
  · intro m hm
    rcases List.mem_append.1 hm with hm | hm
    · exact hok m hm
    · simp at hm; subst hm; exact hp

/-- A new note while nothing sounds. -/
private theorem noteOn_inv {s : St} {q msgs} (h : DemoInv s q msgs) (he : s.enabled = true) (hq : q.length ≤ 20)
    (hz : soundingAfter none msgs = some none) :
    ∃ ring, sendNoteOn s s.pitch = { s with ring := ring } ∧
      DemoInv { s with ring := ring } (q ++ [0x90, s.pitch, 127]) (msgs ++ [.noteOn s.pitch]) := by
  obtain ⟨⟨st, hr⟩, hs, hf, hp, hg, hst, hok, hsd, hstart⟩ := h
  obtain ⟨r, st', e, h', z⟩ := put3_rep 0x90 s.pitch 127 hr hs hq
  refine ⟨r, e, ⟨⟨st', h'⟩, z, hf, hp, hg, ?_, ?_, .inr ?_, hstart.1, by simp [he]⟩⟩
  · simp [← List.append_assoc, hst, DemoMsg.bytes]
  · intro m hm
    rcases List.mem_append.1 hm with hm | hm
    · exact hok m hm
    · simp at hm; subst hm; exact hp
  · rw [soundingAfter_append hz]; simp [soundingAfter, DemoMsg.after]

/-- A program change. -/
private theorem program_inv {s : St} {q msgs} (h : DemoInv s q msgs) (he : s.enabled = true) (hq : q.length ≤ 21)
    (hz : soundingAfter none msgs = some none) :
    ∃ ring, sendProgramChange s s.program = { s with ring := ring } ∧
      DemoInv { s with ring := ring } (q ++ [0xC0, s.program]) (msgs ++ [.program s.program]) ∧
      soundingAfter none (msgs ++ [.program s.program]) = some none := by
  obtain ⟨⟨st, hr⟩, hs, hf, hp, hg, hst, hok, hsd, hstart⟩ := h
  obtain ⟨r, st', e, h', z⟩ := put2_rep 0xC0 s.program hr hs hq
  have hz' : soundingAfter none (msgs ++ [.program s.program]) = some none := by
    rw [soundingAfter_append hz]; simp [soundingAfter, DemoMsg.after]
  refine ⟨r, e, ⟨⟨st', h'⟩, z, hf, hp, hg, ?_, ?_, .inl hz', hstart.1, by simp [he]⟩, hz'⟩
  · simp [← List.append_assoc, hst, DemoMsg.bytes]
  · intro m hm
    rcases List.mem_append.1 hm with hm | hm
    · exact hok m hm
    · simp at hm; subst hm; exact hg

/-- Another pitch while nothing sounds. -/
private theorem pitch_inv {s : St} {q msgs} (h : DemoInv s q msgs) (p : Nat) (hp : 11 ≤ p ∧ p ≤ 106)
    (hz : soundingAfter none msgs = some none) : DemoInv { s with pitch := p } q msgs :=
  ⟨h.ring, h.size, h.fault, hp, h.program, h.stream, h.ok, .inl hz, h.start⟩

/-- One button: it sends at most `n` bytes, and nothing if it is not pressed. -/
private def Sends (f : St → Nat → St) (mask n : Nat) : Prop :=
  ∀ {s : St} {q msgs} (joy : Nat), DemoInv s q msgs → s.enabled = true → q.length + n ≤ 23 →
    ∃ q' msgs', DemoInv (f s joy) q' msgs' ∧ (f s joy).enabled = true ∧
      q'.length ≤ q.length + (if joy &&& mask ≠ 0 then n else 0)

private theorem up_sends : Sends up 1 6 := by
  intro s q msgs joy h he hq
  obtain ⟨h1, -, e1, g1⟩ := repeat_inv h joy 1
  unfold up
  generalize shouldRepeat s joy 1 = x at *
  obtain ⟨go, t⟩ := x
  simp only at h1 e1 g1 ⊢
  rw [he] at e1
  cases go
  · exact ⟨q, msgs, h1, e1, by omega⟩
  · rw [if_pos rfl, if_pos (g1 rfl)]
    obtain ⟨r, e2, h2, z2⟩ := noteOff_inv h1 e1 (by omega)
    rw [e2]
    simp only
    have hp := h1.pitch
    obtain ⟨r3, e3, h3⟩ := noteOn_inv
      (pitch_inv h2 (if (t.pitch + 1) % 256 > 106 then 106 else (t.pitch + 1) % 256) (by split <;> omega) z2) e1
      (by simp; omega) z2
    rw [e3]
    exact ⟨_, _, h3, e1, by simp⟩

private theorem down_sends : Sends down 2 6 := by
  intro s q msgs joy h he hq
  obtain ⟨h1, -, e1, g1⟩ := repeat_inv h joy 2
  unfold down
  generalize shouldRepeat s joy 2 = x at *
  obtain ⟨go, t⟩ := x
  simp only at h1 e1 g1 ⊢
  rw [he] at e1
  cases go
  · exact ⟨q, msgs, h1, e1, by omega⟩
  · rw [if_pos rfl, if_pos (g1 rfl)]
    obtain ⟨r, e2, h2, z2⟩ := noteOff_inv h1 e1 (by omega)
    rw [e2]
    simp only
    have hp := h1.pitch
    obtain ⟨r3, e3, h3⟩ := noteOn_inv
      (pitch_inv h2 (if (t.pitch + 255) % 256 < 11 then 11 else (t.pitch + 255) % 256) (by split <;> omega) z2) e1
      (by simp; omega) z2
    rw [e3]
    exact ⟨_, _, h3, e1, by simp⟩

/-- Another program number. -/
private theorem number_inv {s : St} {q msgs} (h : DemoInv s q msgs) (g : Nat) (hg : g ≤ 127) :
    DemoInv { s with program := g } q msgs :=
  ⟨h.ring, h.size, h.fault, h.pitch, hg, h.stream, h.ok, h.sound, h.start⟩

private theorem right_sends : Sends right 8 8 := by
  intro s q msgs joy h he hq
  obtain ⟨h1, -, e1, g1⟩ := repeat_inv h joy 8
  unfold right
  generalize shouldRepeat s joy 8 = x at *
  obtain ⟨go, t⟩ := x
  simp only at h1 e1 g1 ⊢
  rw [he] at e1
  cases go
  · exact ⟨q, msgs, h1, e1, by omega⟩
  · rw [if_pos rfl, if_pos (g1 rfl)]
    obtain ⟨r, e2, h2, z2⟩ := noteOff_inv h1 e1 (by omega)
    rw [e2]
    simp only
    have hp := h1.program
    obtain ⟨r3, e3, h3, z3⟩ := program_inv
      (number_inv h2 (if (t.program + 1) % 256 > 0x7F then 0x7F else (t.program + 1) % 256) (by split <;> omega)) e1
      (by simp; omega) z2
    rw [e3]
    simp only
    obtain ⟨r4, e4, h4⟩ := noteOn_inv h3 e1 (by simp; omega) z3
    rw [e4]
    exact ⟨_, _, h4, e1, by simp⟩

private theorem left_sends : Sends left 4 8 := by
  intro s q msgs joy h he hq
  obtain ⟨h1, -, e1, g1⟩ := repeat_inv h joy 4
  unfold left
  generalize shouldRepeat s joy 4 = x at *
  obtain ⟨go, t⟩ := x
  simp only at h1 e1 g1 ⊢
  rw [he] at e1
  cases go
  · exact ⟨q, msgs, h1, e1, by omega⟩
  · rw [if_pos rfl, if_pos (g1 rfl)]
    obtain ⟨r, e2, h2, z2⟩ := noteOff_inv h1 e1 (by omega)
    rw [e2]
    simp only
    have hp := h1.program
    obtain ⟨r3, e3, h3, z3⟩ := program_inv
      (number_inv h2 (if (t.program + 255) % 256 = 0xFF then 0 else (t.program + 255) % 256) (by split <;> omega)) e1
      (by simp; omega) z2
    rw [e3]
    simp only
    obtain ⟨r4, e4, h4⟩ := noteOn_inv h3 e1 (by simp; omega) z3
    rw [e4]
    exact ⟨_, _, h4, e1, by simp⟩

private theorem buttonA_sends : Sends buttonA 64 6 := by
  intro s q msgs joy h he hq
  obtain ⟨h1, -, e1, g1⟩ := repeat_inv h joy 64
  unfold buttonA
  generalize shouldRepeat s joy 64 = x at *
  obtain ⟨go, t⟩ := x
  simp only at h1 e1 g1 ⊢
  rw [he] at e1
  cases go
  · exact ⟨q, msgs, h1, e1, by omega⟩
  · rw [if_pos rfl, if_pos (g1 rfl)]
    obtain ⟨r, e2, h2, z2⟩ := noteOff_inv h1 e1 (by omega)
    rw [e2]
    simp only
    obtain ⟨r3, e3, h3⟩ := noteOn_inv h2 e1 (by simp; omega) z2
    rw [e3]
    exact ⟨_, _, h3, e1, by simp⟩

private theorem buttonB_sends : Sends buttonB 16 3 := by
  intro s q msgs joy h he hq
  obtain ⟨h1, -, e1, g1⟩ := repeat_inv h joy 16
  unfold buttonB
  generalize shouldRepeat s joy 16 = x at *
  obtain ⟨go, t⟩ := x
  simp only at h1 e1 g1 ⊢
  rw [he] at e1
  cases go
  · exact ⟨q, msgs, h1, e1, by omega⟩
  · rw [if_pos rfl, if_pos (g1 rfl)]
    obtain ⟨r, e2, h2, z2⟩ := noteOff_inv h1 e1 (by omega)
    rw [e2]
    exact ⟨_, _, h2, e1, by simp⟩

private theorem canRead_eq {s : St} {q msgs} (h : DemoInv s q msgs) : Ring.canRead s.ring = true ↔ q ≠ [] := by
  obtain ⟨st, hr⟩ := h.ring
  have hs := h.size
  have he := hr.empty_iff
  unfold Ring.canRead
  rw [hr.hbuf]
  simp [hs, he]

private theorem drained {s : St} {q msgs} (h : DemoInv s q msgs) (hc : Ring.canRead s.ring = false) : q = [] := by
  have := canRead_eq h
  rw [hc] at this
  simpa using this

/-- A frame. -/
private theorem frame_inv {s : St} {q msgs} (h : DemoInv s q msgs) (joy : Nat) (hl : DemoLegal true s (.frame joy)) :
    ∃ q' msgs', DemoInv (vsync s joy) q' msgs' := by
  obtain ⟨n1, n2⟩ := hl.1 rfl
  have hc := hl.2
  have hq := drained h hc
  subst hq
  unfold vsync
  cases he : s.enabled
  · exact ⟨[], msgs, h⟩
  · simp only [Bool.not_true, Bool.false_eq_true, if_false]
    obtain ⟨q1, m1, h1, e1, l1⟩ := up_sends joy h he (by simp)
    simp only [List.length_nil, Nat.zero_add] at l1
    have b1 : q1.length ≤ 6 := by split at l1 <;> omega
    obtain ⟨q2, m2, h2, e2, l2⟩ := down_sends joy h1 e1 (by omega)
    have b2 : q2.length ≤ 6 := by
      by_cases a : joy &&& 1 ≠ 0
      · have b : ¬ joy &&& 2 ≠ 0 := fun x => n1 ⟨a, x⟩
        rw [if_neg b] at l2; omega
      · rw [if_neg a] at l1
        have l1 : q1.length = 0 := by omega
        rw [l1] at l2
        split at l2 <;> omega
    obtain ⟨q3, m3, h3, e3, l3⟩ := right_sends joy h2 e2 (by omega)
    have b3 : q3.length ≤ 14 := by split at l3 <;> omega
    obtain ⟨q4, m4, h4, e4, l4⟩ := left_sends joy h3 e3 (by omega)
    have b4 : q4.length ≤ 14 := by
      by_cases a : joy &&& 4 ≠ 0
      · have b : ¬ joy &&& 8 ≠ 0 := fun x => n2 ⟨a, x⟩
        rw [if_pos a] at l4; rw [if_neg b] at l3; omega
      · rw [if_neg a] at l4; omega
    obtain ⟨q5, m5, h5, e5, l5⟩ := buttonA_sends joy h4 e4 (by omega)
    have b5 : q5.length ≤ 20 := by split at l5 <;> omega
    obtain ⟨q6, m6, h6, -, -⟩ := buttonB_sends joy h5 e5 (by omega)
    exact ⟨q6, m6, h6⟩

/-- The question whether there is something to read. -/
private theorem ask_inv {s : St} {q msgs} (h : DemoInv s q msgs) (joy : Nat) :
    ∃ q' msgs', DemoInv (readReady s joy).2 q' msgs' := by
  unfold readReady
  cases he : s.enabled
  · simp only [Bool.not_false, if_true]
    split
    · have hm := h.start.2 he
      have hp : s.played = false := by rw [h.start.1, he]
      obtain ⟨⟨st, hr⟩, hs, hf, hpt, hg, hst, hok, hsd, -⟩ := h
      subst hm
      have hq : q = [] := by simpa using (List.append_eq_nil_iff.1 hst).2
      subst hq
      simp only [hp, Bool.not_false, if_true]
      obtain ⟨r, st1, e1, h1, z1⟩ := put3_rep (s := { s with enabled := true, played := false }) 0xB0 83 0x7F hr hs (by simp)
      rw [e1]
      simp only
      obtain ⟨r2, st2, e2, h2, z2⟩ := put3_rep (s := { s with enabled := true, played := false, ring := r }) 0x90 s.pitch 0x7F h1 z1 (by simp)
      rw [e2]
      refine ⟨_, [.showParameters, .noteOn s.pitch], ⟨st2, h2⟩, z2, hf, hpt, hg, ?_, ?_, .inr ?_, rfl, by simp⟩
      · have : s.given = [] := by simpa using hst
        simp [this, DemoMsg.bytes]
      · intro m hm
        simp at hm
        rcases hm with rfl | rfl
        · exact trivial
        · exact hpt
      · simp [soundingAfter, DemoMsg.after]
    · exact ⟨q, msgs, h⟩
  · simp only [Bool.not_true, Bool.false_eq_true, if_false]
    exact ⟨q, msgs, h⟩

/-- A read of the oldest byte. -/
private theorem read_inv {s : St} {b q msgs} (h : DemoInv s (b :: q) msgs) :
    (Demo.read s).1 = b ∧ DemoInv (Demo.step s .read) q msgs := by
  obtain ⟨⟨st, hr⟩, hs, hf, hp, hg, hst, hok, hsd, hstart⟩ := h
  obtain ⟨e, r⟩ := hr.read_cons
  have e2 : Demo.read s = (b, { s with ring := { s.ring with tail := (s.ring.tail + 1) % s.ring.size } }) := by
    unfold Demo.read; rw [e]; rfl
  refine ⟨by rw [e2], ?_⟩
  unfold Demo.step
  rw [e2]
  exact ⟨⟨st, r⟩, hs, hf, hp, hg, by simpa using hst, hok, hsd, hstart⟩

private theorem step_inv {s : St} {q msgs} (h : DemoInv s q msgs) (op : Op) (hl : DemoLegal true s op) :
    ∃ q' msgs', DemoInv (Demo.step s op) q' msgs' := by
  cases op with
  | ask joy => exact ask_inv h joy
  | frame joy => exact frame_inv h joy hl
  | read =>
    have : q ≠ [] := (canRead_eq h).1 hl
    match q, this with
    | b :: q, _ => exact ⟨q, msgs, (read_inv h).2⟩

private theorem boot_inv : DemoInv Demo.boot [] [] :=
  ⟨⟨_, Ring.Rep.init Ring.zeroed (List.replicate 24 0) 24 (by omega) (by simp)⟩, rfl, rfl, by decide, by decide, rfl, by simp, .inl rfl, rfl, by simp⟩

private theorem run_inv {s : St} {q msgs} (h : DemoInv s q msgs) (ops : List Op) (hl : DemoLegalRun true s ops) :
    ∃ q' msgs', DemoInv (Demo.run s ops) q' msgs' := by
  induction ops generalizing s q msgs with
  | nil => exact ⟨q, msgs, h⟩
  | cons op ops ih =>
    obtain ⟨q1, m1, h1⟩ := step_inv h op hl.1
    exact ih h1 hl.2

private theorem drain_inv {s : St} {q msgs} (h : DemoInv s q msgs) :
    (Demo.run s (List.replicate q.length .read)).given = s.given ++ q ∧
      Ring.canRead (Demo.run s (List.replicate q.length .read)).ring = false := by
  induction q generalizing s with
  | nil =>
    have := canRead_eq h
    exact ⟨by simp [Demo.run], by simpa [Demo.run] using this⟩
  | cons b q ih =>
    obtain ⟨e, h'⟩ := read_inv h
    obtain ⟨a, c⟩ := ih h'
    have g : (Demo.step s .read).given = s.given ++ [b] := by rw [← e]; rfl
    rw [g] at a
    exact ⟨by simpa [Demo.run, List.replicate_succ] using a, by simpa [Demo.run, List.replicate_succ] using c⟩

/-- **C52.**  For every joypad history without opposite directions, with a receiver that has read everything before each
frame: nothing is accessed out of bounds; the bytes given to the receiver, with the at most 23 that are still to come, are
complete messages with legal keys and programs; the messages never leave two keys sounding and never release a key other
than the one that sounds; and the receiver gets exactly those bytes when it goes on reading. -/
theorem C52_messages (ops : List Op) (hl : DemoLegalRun true Demo.boot ops) :
    ∃ msgs rest, (Demo.run Demo.boot ops).given ++ rest = msgs.flatMap DemoMsg.bytes ∧
      (∀ m ∈ msgs, m.Ok) ∧ (soundingAfter none msgs).isSome ∧ rest.length ≤ 23 ∧
      (Ring.canRead (Demo.run Demo.boot ops).ring = false → rest = []) ∧
      (Demo.run Demo.boot ops).fault = false ∧
      (Demo.run (Demo.run Demo.boot ops) (List.replicate rest.length .read)).given = msgs.flatMap DemoMsg.bytes ∧
      Ring.canRead (Demo.run (Demo.run Demo.boot ops) (List.replicate rest.length .read)).ring = false := by
  obtain ⟨q, msgs, h⟩ := run_inv boot_inv ops hl
  refine ⟨msgs, q, h.stream, h.ok, ?_, ?_, drained h, h.fault, ?_, (drain_inv h).2⟩
  · rcases h.sound with x | x <;> rw [x] <;> rfl
  · obtain ⟨st, hr⟩ := h.ring
    have := hr.hlen; have := h.size
    omega
  · rw [(drain_inv h).1, h.stream]

/-- The hypothesis is met by a real history: the demo is started, two keys are played, and the program is changed. -/
def demoSession : List Op :=
  [.ask 0, .ask 64] ++ List.replicate 6 .read ++ [.frame 64] ++ List.replicate 6 .read ++ [.frame 0, .frame 1] ++
    List.replicate 6 .read ++ [.frame 1, .frame 9] ++ List.replicate 8 .read ++ [.frame 16, .ask 16, .read]

set_option maxRecDepth 20000 in
example : DemoLegalRun true Demo.boot demoSession := by decide +kernel

set_option maxRecDepth 20000 in
example : (Demo.run Demo.boot demoSession).given =
    [0xB0, 83, 127, 0x90, 69, 127, 0x80, 69, 0, 0x90, 69, 127, 0x80, 69, 0, 0x90, 70, 127, 0x80, 70, 0, 0xC0, 1, 0x90, 70, 127,
     0x80] := by decide +kernel

/-- A frame with all of one legal half of the pad fills the ring to the last byte. -/
def fullFrame : List Op := [.ask 64] ++ List.replicate 6 .read ++ [.frame (1 + 8 + 16 + 64)]

set_option maxRecDepth 20000 in
example : DemoLegalRun true Demo.boot fullFrame ∧ Ring.canWrite (Demo.run Demo.boot fullFrame).ring = false := by decide +kernel

/-- The property without the restriction on the pad. -/
def C52_any_buttons : Prop := ∀ ops : List Op, DemoLegalRun false Demo.boot ops →
  ∃ (msgs : List DemoMsg) (rest : List Nat), (Demo.run Demo.boot ops).given ++ rest = msgs.flatMap DemoMsg.bytes ∧ (∀ m ∈ msgs, m.Ok) ∧
    (Ring.canRead (Demo.run Demo.boot ops).ring = false → rest = [])

/-- A complete message ends with a data byte. -/
private theorem last_byte {msgs : List DemoMsg} (hok : ∀ m ∈ msgs, m.Ok) (b : Nat)
    (h : (msgs.flatMap DemoMsg.bytes).getLast? = some b) : b < 128 := by
  rcases List.eq_nil_or_concat msgs with rfl | ⟨l, m, rfl⟩
  · simp at h
  · have := hok m (by simp)
    cases m <;> simp [DemoMsg.bytes, DemoMsg.Ok] at h this <;> omega

/-- Left and right together with A and B: 25 bytes for a ring that holds 23. -/
def leftRight : List Op := [.ask 64] ++ List.replicate 6 .read ++ [.frame (4 + 8 + 16 + 64)] ++ List.replicate 23 .read

set_option maxRecDepth 20000 in
/-- Without the restriction on the pad the property is false: left and right together with A and B overflow the ring and
the receiver is left with a status byte without data. -/
theorem C52_opposite_directions_tear : ¬ C52_any_buttons := by
  intro h
  obtain ⟨msgs, rest, e, hok, hr⟩ := h leftRight (by decide +kernel)
  have hc : Ring.canRead (Demo.run Demo.boot leftRight).ring = false := by decide +kernel
  have hg : (Demo.run Demo.boot leftRight).given.getLast? = some 0x80 := by decide +kernel
  rw [hr hc, List.append_nil] at e
  rw [e] at hg
  have := last_byte hok _ hg
  omega

/-! ## What a button does -/

/-- The buttons of the demo. -/
inductive Button
  | up | down | left | right | a | b
  deriving DecidableEq, Repr

def Button.mask : Button → Nat
  | .up => 1 | .down => 2 | .left => 4 | .right => 8 | .b => 16 | .a => 64

/-- Key and program after a press. -/
def Button.acts : Button → Nat × Nat → Nat × Nat
  | .up, (k, g) => (min (k + 1) 106, g)
  | .down, (k, g) => (max (k - 1) 11, g)
  | .right, (k, g) => (k, min (g + 1) 127)
  | .left, (k, g) => (k, g - 1)
  | _, kg => kg

/-- Messages of a press. -/
def Button.sends (b : Button) (kg : Nat × Nat) : List DemoMsg :=
  match b with
  | .b => [.noteOff kg.1]
  | .left | .right => [.noteOff kg.1, .program (b.acts kg).2, .noteOn (b.acts kg).1]
  | _ => [.noteOff kg.1, .noteOn (b.acts kg).1]

/-- The frames of a held button that count as a press: the first, the 40th, the 50th, … -/
def Press (k : Nat) : Prop := k = 1 ∨ (40 ≤ k ∧ k % 10 = 0)

instance (k : Nat) : Decidable (Press k) := by unfold Press; infer_instance

/-- Key, program and messages after `n` frames. -/
def holding (b : Button) (kg : Nat × Nat) : Nat → (Nat × Nat) × List DemoMsg
  | 0 => (kg, [])
  | n + 1 =>
    let (kg, l) := holding b kg n
    if Press (n + 1) then (b.acts kg, l ++ b.sends kg) else (kg, l)

/-- `n` frames with the pad in state `joy`; the receiver reads everything after each. -/
inductive Frames (joy : Nat) (s : St) : Nat → St → Prop
  | zero : Frames joy s 0 s
  | succ {n t} (h : Frames joy s n t) (k : Nat) (hl : DemoLegalRun true (Demo.step t (.frame joy)) (List.replicate k .read))
      (hd : Ring.canRead (Demo.run (Demo.step t (.frame joy)) (List.replicate k .read)).ring = false) :
      Frames joy s (n + 1) (Demo.run (Demo.step t (.frame joy)) (List.replicate k .read))

/-- Reading changes nothing but the ring and what was given. -/
private theorem reads_rest (s : St) (k : Nat) :
    (Demo.run s (List.replicate k .read)).pitch = s.pitch ∧ (Demo.run s (List.replicate k .read)).program = s.program ∧
    (Demo.run s (List.replicate k .read)).enabled = s.enabled ∧
    (Demo.run s (List.replicate k .read)).repeatTimer = s.repeatTimer ∧
    (Demo.run s (List.replicate k .read)).repeatButton = s.repeatButton := by
  induction k generalizing s with
  | zero => exact ⟨rfl, rfl, rfl, rfl, rfl⟩
  | succ k ih =>
    have e : Demo.run s (List.replicate (k + 1) .read) = Demo.run (Demo.step s .read) (List.replicate k .read) := rfl
    rw [e]
    have r : (Demo.step s .read).pitch = s.pitch ∧ (Demo.step s .read).program = s.program ∧
        (Demo.step s .read).enabled = s.enabled ∧ (Demo.step s .read).repeatTimer = s.repeatTimer ∧
        (Demo.step s .read).repeatButton = s.repeatButton := by
      simp only [Demo.step, Demo.read]
      split <;> exact ⟨rfl, rfl, rfl, rfl, rfl⟩
    obtain ⟨a, b, c, d, f⟩ := ih (Demo.step s .read)
    exact ⟨a.trans r.1, b.trans r.2.1, c.trans r.2.2.1, d.trans r.2.2.2.1, f.trans r.2.2.2.2⟩

/-- Legal reads until the ring is empty deliver everything that was in it. -/
private theorem reads_all {s : St} {q msgs} (h : DemoInv s q msgs) (k : Nat)
    (hl : DemoLegalRun true s (List.replicate k .read))
    (hd : Ring.canRead (Demo.run s (List.replicate k .read)).ring = false) :
    DemoInv (Demo.run s (List.replicate k .read)) [] msgs := by
  induction k generalizing s q with
  | zero =>
    have := drained h hd
    subst this
    exact h
  | succ k ih =>
    have hne : q ≠ [] := (canRead_eq h).1 hl.1
    match q, hne with
    | b :: q, _ => exact ih (read_inv h).2 hl.2 hd

/-- The repeat logic for a held button. -/
private theorem repeat_held (s : St) (mask n : Nat) (hm : mask &&& mask ≠ 0) (hn : n < 65535)
    (h0 : n = 0 → s.repeatButton ≠ mask) (h1 : n ≠ 0 → s.repeatButton = mask ∧ s.repeatTimer = n) :
    shouldRepeat s mask mask = (decide (Press (n + 1)), { s with repeatButton := mask, repeatTimer := n + 1 }) := by
  unfold shouldRepeat
  rw [if_pos hm]
  by_cases hz : n = 0
  · rw [if_pos (h0 hz)]
    subst hz
    simp [Press]
  · obtain ⟨hb, ht⟩ := h1 hz
    rw [if_neg (by simp [hb]), ht, Nat.mod_eq_of_lt (by omega)]
    refine Prod.ext ?_ (by rw [← hb])
    simp only
    by_cases hp : Press (n + 1)
    · have : n + 1 > 30 ∧ (n + 1 - 30) % 10 = 0 := by unfold Press at hp; omega
      simp [hp]; omega
    · have : ¬ (n + 1 > 30 ∧ (n + 1 - 30) % 10 = 0) := by unfold Press at hp; omega
      simp only [hp, decide_false]
      simp only [Bool.and_eq_false_iff, decide_eq_false_iff_not, beq_eq_false_iff_ne]
      omega

/-- The repeat logic for the other buttons. -/
private theorem repeat_other (s : St) (joy mask : Nat) (hm : joy &&& mask = 0) (hb : s.repeatButton ≠ mask) :
    shouldRepeat s joy mask = (false, s) := by
  unfold shouldRepeat
  rw [if_neg (by simp [hm]), if_neg hb]

private theorem up_quiet (s : St) (joy : Nat) (hm : joy &&& 1 = 0) (hb : s.repeatButton ≠ 1) : up s joy = s := by
  unfold up; rw [repeat_other s joy 1 hm hb]; rfl

private theorem down_quiet (s : St) (joy : Nat) (hm : joy &&& 2 = 0) (hb : s.repeatButton ≠ 2) : down s joy = s := by
  unfold down; rw [repeat_other s joy 2 hm hb]; rfl

private theorem right_quiet (s : St) (joy : Nat) (hm : joy &&& 8 = 0) (hb : s.repeatButton ≠ 8) : right s joy = s := by
  unfold right; rw [repeat_other s joy 8 hm hb]; rfl

private theorem left_quiet (s : St) (joy : Nat) (hm : joy &&& 4 = 0) (hb : s.repeatButton ≠ 4) : left s joy = s := by
  unfold left; rw [repeat_other s joy 4 hm hb]; rfl

private theorem buttonA_quiet (s : St) (joy : Nat) (hm : joy &&& 64 = 0) (hb : s.repeatButton ≠ 64) : buttonA s joy = s := by
  unfold buttonA; rw [repeat_other s joy 64 hm hb]; rfl

private theorem buttonB_quiet (s : St) (joy : Nat) (hm : joy &&& 16 = 0) (hb : s.repeatButton ≠ 16) : buttonB s joy = s := by
  unfold buttonB; rw [repeat_other s joy 16 hm hb]; rfl

/-- State and messages of a frame with one button. -/
private structure Pressed (b : Button) (s : St) (n : Nat) (msgs : List DemoMsg) (t : St) : Prop where
  inv : ∃ q, DemoInv t q (msgs ++ if Press (n + 1) then b.sends (s.pitch, s.program) else [])
  now : (t.pitch, t.program) = if Press (n + 1) then b.acts (s.pitch, s.program) else (s.pitch, s.program)
  enabled : t.enabled = true
  button : t.repeatButton = b.mask
  timer : t.repeatTimer = n + 1

private theorem inv_cast {t : St} {q m m'} (h : DemoInv t q m) (e : m = m') : DemoInv t q m' := e ▸ h

private theorem timer_inv {s : St} {q msgs} (h : DemoInv s q msgs) (a b : Nat) :
    DemoInv { s with repeatButton := a, repeatTimer := b } q msgs :=
  ⟨h.ring, h.size, h.fault, h.pitch, h.program, h.stream, h.ok, h.sound, h.start⟩

private theorem up_pressed {s : St} {msgs} (n : Nat) (h : DemoInv s [] msgs) (he : s.enabled = true) (hn : n < 65535)
    (h0 : n = 0 → s.repeatButton ≠ 1) (h1 : n ≠ 0 → s.repeatButton = 1 ∧ s.repeatTimer = n) :
    Pressed .up s n msgs (up s 1) := by
  unfold up
  rw [repeat_held s 1 n (by decide) hn h0 h1]
  simp only [decide_eq_true_eq]
  have h' := timer_inv h 1 (n + 1)
  by_cases hp : Press (n + 1)
  · rw [if_pos hp]
    obtain ⟨r, e2, h2, z2⟩ := noteOff_inv h' he (by simp)
    rw [e2]
    simp only
    have hb := h.pitch
    obtain ⟨r3, e3, h3⟩ := noteOn_inv (pitch_inv h2 (if (s.pitch + 1) % 256 > 106 then 106 else (s.pitch + 1) % 256) (by split <;> omega) z2) he (by simp) z2
    rw [e3]
    have en : (if (s.pitch + 1) % 256 > 106 then 106 else (s.pitch + 1) % 256) = min (s.pitch + 1) 106 := by split <;> omega
    refine ⟨⟨_, inv_cast h3 ?_⟩, ?_, he, rfl, rfl⟩
    · rw [if_pos hp]
      simp only [en, List.append_assoc, List.cons_append, List.nil_append]
      rfl
    · rw [if_pos hp]; simp only [en]; rfl
  · rw [if_neg hp]
    exact ⟨⟨_, inv_cast h' (by rw [if_neg hp, List.append_nil])⟩, by rw [if_neg hp], he, rfl, rfl⟩

private theorem down_pressed {s : St} {msgs} (n : Nat) (h : DemoInv s [] msgs) (he : s.enabled = true) (hn : n < 65535)
    (h0 : n = 0 → s.repeatButton ≠ 2) (h1 : n ≠ 0 → s.repeatButton = 2 ∧ s.repeatTimer = n) :
    Pressed .down s n msgs (down s 2) := by
  unfold down
  rw [repeat_held s 2 n (by decide) hn h0 h1]
  simp only [decide_eq_true_eq]
  have h' := timer_inv h 2 (n + 1)
  by_cases hp : Press (n + 1)
  · rw [if_pos hp]
    obtain ⟨r, e2, h2, z2⟩ := noteOff_inv h' he (by simp)
    rw [e2]
    simp only
    have hb := h.pitch
    obtain ⟨r3, e3, h3⟩ := noteOn_inv (pitch_inv h2 (if (s.pitch + 255) % 256 < 11 then 11 else (s.pitch + 255) % 256) (by split <;> omega) z2) he (by simp) z2
    rw [e3]
    have en : (if (s.pitch + 255) % 256 < 11 then 11 else (s.pitch + 255) % 256) = max (s.pitch - 1) 11 := by split <;> omega
    refine ⟨⟨_, inv_cast h3 ?_⟩, ?_, he, rfl, rfl⟩
    · rw [if_pos hp]
      simp only [en, List.append_assoc, List.cons_append, List.nil_append]
      rfl
    · rw [if_pos hp]; simp only [en]; rfl
  · rw [if_neg hp]
    exact ⟨⟨_, inv_cast h' (by rw [if_neg hp, List.append_nil])⟩, by rw [if_neg hp], he, rfl, rfl⟩

private theorem right_pressed {s : St} {msgs} (n : Nat) (h : DemoInv s [] msgs) (he : s.enabled = true) (hn : n < 65535)
    (h0 : n = 0 → s.repeatButton ≠ 8) (h1 : n ≠ 0 → s.repeatButton = 8 ∧ s.repeatTimer = n) :
    Pressed .right s n msgs (right s 8) := by
  unfold right
  rw [repeat_held s 8 n (by decide) hn h0 h1]
  simp only [decide_eq_true_eq]
  have h' := timer_inv h 8 (n + 1)
  by_cases hp : Press (n + 1)
  · rw [if_pos hp]
    obtain ⟨r, e2, h2, z2⟩ := noteOff_inv h' he (by simp)
    rw [e2]
    simp only
    have hb := h.program
    obtain ⟨r3, e3, h3, z3⟩ := program_inv (number_inv h2 (if (s.program + 1) % 256 > 0x7F then 0x7F else (s.program + 1) % 256) (by split <;> omega)) he (by simp) z2
    rw [e3]
    simp only
    obtain ⟨r4, e4, h4⟩ := noteOn_inv h3 he (by simp) z3
    rw [e4]
    have en : (if (s.program + 1) % 256 > 0x7F then 0x7F else (s.program + 1) % 256) = min (s.program + 1) 127 := by split <;> omega
    refine ⟨⟨_, inv_cast h4 ?_⟩, ?_, he, rfl, rfl⟩
    · rw [if_pos hp]
      simp only [en, List.append_assoc, List.cons_append, List.nil_append]
      rfl
    · rw [if_pos hp]; simp only [en]; rfl
  · rw [if_neg hp]
    exact ⟨⟨_, inv_cast h' (by rw [if_neg hp, List.append_nil])⟩, by rw [if_neg hp], he, rfl, rfl⟩

private theorem left_pressed {s : St} {msgs} (n : Nat) (h : DemoInv s [] msgs) (he : s.enabled = true) (hn : n < 65535)
    (h0 : n = 0 → s.repeatButton ≠ 4) (h1 : n ≠ 0 → s.repeatButton = 4 ∧ s.repeatTimer = n) :
    Pressed .left s n msgs (left s 4) := by
  unfold left
  rw [repeat_held s 4 n (by decide) hn h0 h1]
  simp only [decide_eq_true_eq]
  have h' := timer_inv h 4 (n + 1)
  by_cases hp : Press (n + 1)
  · rw [if_pos hp]
    obtain ⟨r, e2, h2, z2⟩ := noteOff_inv h' he (by simp)
    rw [e2]
    simp only
    have hb := h.program
    obtain ⟨r3, e3, h3, z3⟩ := program_inv (number_inv h2 (if (s.program + 255) % 256 = 0xFF then 0 else (s.program + 255) % 256) (by split <;> omega)) he (by simp) z2
    rw [e3]
    simp only
    obtain ⟨r4, e4, h4⟩ := noteOn_inv h3 he (by simp) z3
    rw [e4]
    have en : (if (s.program + 255) % 256 = 0xFF then 0 else (s.program + 255) % 256) = s.program - 1 := by split <;> omega
    refine ⟨⟨_, inv_cast h4 ?_⟩, ?_, he, rfl, rfl⟩
    · rw [if_pos hp]
      simp only [en, List.append_assoc, List.cons_append, List.nil_append]
      rfl
    · rw [if_pos hp]; simp only [en]; rfl
  · rw [if_neg hp]
    exact ⟨⟨_, inv_cast h' (by rw [if_neg hp, List.append_nil])⟩, by rw [if_neg hp], he, rfl, rfl⟩

private theorem buttonA_pressed {s : St} {msgs} (n : Nat) (h : DemoInv s [] msgs) (he : s.enabled = true) (hn : n < 65535)
    (h0 : n = 0 → s.repeatButton ≠ 64) (h1 : n ≠ 0 → s.repeatButton = 64 ∧ s.repeatTimer = n) :
    Pressed .a s n msgs (buttonA s 64) := by
  unfold buttonA
  rw [repeat_held s 64 n (by decide) hn h0 h1]
  simp only [decide_eq_true_eq]
  have h' := timer_inv h 64 (n + 1)
  by_cases hp : Press (n + 1)
  · rw [if_pos hp]
    obtain ⟨r, e2, h2, z2⟩ := noteOff_inv h' he (by simp)
    rw [e2]
    simp only
    obtain ⟨r3, e3, h3⟩ := noteOn_inv h2 he (by simp) z2
    rw [e3]
    refine ⟨⟨_, inv_cast h3 ?_⟩, ?_, he, rfl, rfl⟩
    · rw [if_pos hp]
      simp only [List.append_assoc, List.cons_append, List.nil_append]
      rfl
    · rw [if_pos hp]; rfl
  · rw [if_neg hp]
    exact ⟨⟨_, inv_cast h' (by rw [if_neg hp, List.append_nil])⟩, by rw [if_neg hp], he, rfl, rfl⟩

private theorem buttonB_pressed {s : St} {msgs} (n : Nat) (h : DemoInv s [] msgs) (he : s.enabled = true) (hn : n < 65535)
    (h0 : n = 0 → s.repeatButton ≠ 16) (h1 : n ≠ 0 → s.repeatButton = 16 ∧ s.repeatTimer = n) :
    Pressed .b s n msgs (buttonB s 16) := by
  unfold buttonB
  rw [repeat_held s 16 n (by decide) hn h0 h1]
  simp only [decide_eq_true_eq]
  have h' := timer_inv h 16 (n + 1)
  by_cases hp : Press (n + 1)
  · rw [if_pos hp]
    obtain ⟨r, e2, h2, z2⟩ := noteOff_inv h' he (by simp)
    rw [e2]
    refine ⟨⟨_, inv_cast h2 ?_⟩, ?_, he, rfl, rfl⟩
    · rw [if_pos hp]
      rfl
    · rw [if_pos hp]; rfl
  · rw [if_neg hp]
    exact ⟨⟨_, inv_cast h' (by rw [if_neg hp, List.append_nil])⟩, by rw [if_neg hp], he, rfl, rfl⟩

private theorem frame_pressed (b : Button) {s : St} {msgs} (n : Nat) (h : DemoInv s [] msgs) (he : s.enabled = true)
    (hn : n < 65535) (h0 : n = 0 → s.repeatButton = 0) (h1 : n ≠ 0 → s.repeatButton = b.mask ∧ s.repeatTimer = n) :
    Pressed b s n msgs (vsync s b.mask) := by
  have hr : s.repeatButton = 0 ∨ s.repeatButton = b.mask := by
    by_cases hz : n = 0
    · exact .inl (h0 hz)
    · exact .inr (h1 hz).1
  unfold vsync
  rw [he]
  simp only [Bool.not_true, Bool.false_eq_true, if_false]
  cases b with
  | up =>
    simp only [Button.mask] at *
    have hp := up_pressed n h he hn (fun z => by rw [h0 z]; decide) h1
    have hb := hp.button
    simp only [Button.mask] at hb
    rw [down_quiet (up s 1) 1 (by decide) (by rw [hb]; decide)]
    rw [right_quiet (up s 1) 1 (by decide) (by rw [hb]; decide)]
    rw [left_quiet (up s 1) 1 (by decide) (by rw [hb]; decide)]
    rw [buttonA_quiet (up s 1) 1 (by decide) (by rw [hb]; decide)]
    rw [buttonB_quiet (up s 1) 1 (by decide) (by rw [hb]; decide)]
    exact hp
  | down =>
    simp only [Button.mask] at *
    rw [up_quiet s 2 (by decide) (by omega)]
    have hp := down_pressed n h he hn (fun z => by rw [h0 z]; decide) h1
    have hb := hp.button
    simp only [Button.mask] at hb
    rw [right_quiet (down s 2) 2 (by decide) (by rw [hb]; decide)]
    rw [left_quiet (down s 2) 2 (by decide) (by rw [hb]; decide)]
    rw [buttonA_quiet (down s 2) 2 (by decide) (by rw [hb]; decide)]
    rw [buttonB_quiet (down s 2) 2 (by decide) (by rw [hb]; decide)]
    exact hp
  | right =>
    simp only [Button.mask] at *
    rw [up_quiet s 8 (by decide) (by omega)]
    rw [down_quiet s 8 (by decide) (by omega)]
    have hp := right_pressed n h he hn (fun z => by rw [h0 z]; decide) h1
    have hb := hp.button
    simp only [Button.mask] at hb
    rw [left_quiet (right s 8) 8 (by decide) (by rw [hb]; decide)]
    rw [buttonA_quiet (right s 8) 8 (by decide) (by rw [hb]; decide)]
    rw [buttonB_quiet (right s 8) 8 (by decide) (by rw [hb]; decide)]
    exact hp
  | left =>
    simp only [Button.mask] at *
    rw [up_quiet s 4 (by decide) (by omega)]
    rw [down_quiet s 4 (by decide) (by omega)]
    rw [right_quiet s 4 (by decide) (by omega)]
    have hp := left_pressed n h he hn (fun z => by rw [h0 z]; decide) h1
    have hb := hp.button
    simp only [Button.mask] at hb
    rw [buttonA_quiet (left s 4) 4 (by decide) (by rw [hb]; decide)]
    rw [buttonB_quiet (left s 4) 4 (by decide) (by rw [hb]; decide)]
    exact hp
  | a =>
    simp only [Button.mask] at *
    rw [up_quiet s 64 (by decide) (by omega)]
    rw [down_quiet s 64 (by decide) (by omega)]
    rw [right_quiet s 64 (by decide) (by omega)]
    rw [left_quiet s 64 (by decide) (by omega)]
    have hp := buttonA_pressed n h he hn (fun z => by rw [h0 z]; decide) h1
    have hb := hp.button
    simp only [Button.mask] at hb
    rw [buttonB_quiet (buttonA s 64) 64 (by decide) (by rw [hb]; decide)]
    exact hp
  | b =>
    simp only [Button.mask] at *
    rw [up_quiet s 16 (by decide) (by omega)]
    rw [down_quiet s 16 (by decide) (by omega)]
    rw [right_quiet s 16 (by decide) (by omega)]
    rw [left_quiet s 16 (by decide) (by omega)]
    rw [buttonA_quiet s 16 (by decide) (by omega)]
    have hp := buttonB_pressed n h he hn (fun z => by rw [h0 z]; decide) h1
    have hb := hp.button
    simp only [Button.mask] at hb
    exact hp

private theorem frames_held (b : Button) {s : St} {msgs : List DemoMsg} (h : DemoInv s [] msgs) (he : s.enabled = true)
    (h0 : s.repeatButton = 0) {n : Nat} {t : St} (hf : Frames b.mask s n t) (hn : n ≤ 65535) :
    DemoInv t [] (msgs ++ (holding b (s.pitch, s.program) n).2) ∧
      (t.pitch, t.program) = (holding b (s.pitch, s.program) n).1 ∧ t.enabled = true ∧
      (n = 0 → t.repeatButton = 0) ∧ (n ≠ 0 → t.repeatButton = b.mask ∧ t.repeatTimer = n) := by
  induction hf with
  | zero => exact ⟨by simpa [holding] using h, rfl, he, fun _ => h0, fun x => absurd rfl x⟩
  | @succ n t hf k hl hd ih =>
    obtain ⟨i1, i2, i3, i4, i5⟩ := ih (by omega)
    have hp := frame_pressed b n i1 i3 (by omega) i4 i5
    obtain ⟨q, hi⟩ := hp.inv
    obtain ⟨e1, e2, e3, e4, e5⟩ := reads_rest (vsync t b.mask) k
    have hall := reads_all hi k hl hd
    have hnow := hp.now
    have hstep : Demo.step t (.frame b.mask) = vsync t b.mask := rfl
    rw [hstep]
    have hh : holding b (s.pitch, s.program) (n + 1) =
        (if Press (n + 1) then b.acts (t.pitch, t.program) else (t.pitch, t.program),
         (holding b (s.pitch, s.program) n).2 ++ if Press (n + 1) then b.sends (t.pitch, t.program) else []) := by
      rw [i2]
      simp only [holding]
      split <;> simp
    refine ⟨?_, ?_, by rw [e3]; exact hp.enabled, by simp, fun _ => ⟨by rw [e5]; exact hp.button, by rw [e4]; exact hp.timer⟩⟩
    · rw [hh, ← List.append_assoc]
      exact hall
    · rw [hh, e1, e2, hnow]

/-- **C52, what a button does.**  After any legal history, with the demo running, everything read and no button counted as
held: a button held alone for `n` frames acts on the first, the 40th, the 50th, … frame, and the receiver gets exactly the
messages of those presses.  The key stays in 11..106 and the program in 0..127. -/
theorem C52_button (ops : List Op) (hl : DemoLegalRun true Demo.boot ops) (b : Button) (n : Nat) (hn : n ≤ 65535)
    (he : (Demo.run Demo.boot ops).enabled = true) (hc : Ring.canRead (Demo.run Demo.boot ops).ring = false)
    (h0 : (Demo.run Demo.boot ops).repeatButton = 0) (t : St) (hf : Frames b.mask (Demo.run Demo.boot ops) n t) :
    t.given = (Demo.run Demo.boot ops).given ++
      (holding b ((Demo.run Demo.boot ops).pitch, (Demo.run Demo.boot ops).program) n).2.flatMap DemoMsg.bytes ∧
    (t.pitch, t.program) = (holding b ((Demo.run Demo.boot ops).pitch, (Demo.run Demo.boot ops).program) n).1 ∧
    11 ≤ t.pitch ∧ t.pitch ≤ 106 ∧ t.program ≤ 127 := by
  obtain ⟨q, msgs, h⟩ := run_inv boot_inv ops hl
  generalize Demo.run Demo.boot ops = s at *
  have := drained h hc
  subst this
  obtain ⟨a, c, -⟩ := frames_held b h he h0 hf hn
  refine ⟨?_, c, a.pitch.1, a.pitch.2, a.program⟩
  have e1 := a.stream
  have e2 := h.stream
  rw [List.append_nil] at e1 e2
  rw [e1, List.flatMap_append, e2]

/-- Nothing but the first frame and the 40th counts in the first 45 frames. -/
example : (holding .up (69, 0) 45).2 = [.noteOff 69, .noteOn 70, .noteOff 70, .noteOn 71] := by decide

/-- The key does not go above 106. -/
example : (holding .up (105, 0) 50).2 = [.noteOff 105, .noteOn 106, .noteOff 106, .noteOn 106, .noteOff 106, .noteOn 106] := by
  decide

/-- The demo is started and its first messages are read. -/
def started : List Op := [.ask 64] ++ List.replicate 6 .read

set_option maxRecDepth 20000 in
/-- The hypotheses are met: two frames with "right" held; only the first counts. -/
example : (Demo.run (Demo.run Demo.boot started) ([.frame 8] ++ List.replicate 8 .read ++ [.frame 8])).given =
    [0xB0, 83, 127, 0x90, 69, 127, 0x80, 69, 0, 0xC0, 1, 0x90, 69, 127] ∧
    Frames Button.right.mask (Demo.run Demo.boot started) 2
      (Demo.run (Demo.step (Demo.run (Demo.step (Demo.run Demo.boot started) (.frame 8)) (List.replicate 8 .read)) (.frame 8))
        (List.replicate 0 .read)) ∧
    DemoLegalRun true Demo.boot started ∧ (Demo.run Demo.boot started).enabled = true ∧
    Ring.canRead (Demo.run Demo.boot started).ring = false ∧ (Demo.run Demo.boot started).repeatButton = 0 :=
  ⟨by decide +kernel, .succ (.succ .zero 8 (by decide +kernel) (by decide +kernel)) 0 (by decide +kernel) (by decide +kernel),
    by decide +kernel, by decide +kernel, by decide +kernel, by decide +kernel⟩

set_option maxRecDepth 20000 in
/-- Two buttons held together fight over the one repeat counter: each of them counts as newly pressed in every frame. -/
theorem C52_two_buttons_repeat_every_frame :
    (Demo.run (Demo.run Demo.boot started) ([.frame 65] ++ List.replicate 12 .read ++ [.frame 65] ++ List.replicate 12 .read)).given.drop 6 =
    [0x80, 69, 0, 0x90, 70, 127, 0x80, 70, 0, 0x90, 70, 127, 0x80, 70, 0, 0x90, 71, 127, 0x80, 71, 0, 0x90, 71, 127] := by
  decide +kernel

end Mdmi.Props
