import Verif.Spec.MidiRx
/-! # Facts about the receiver -/
namespace Mdmi.Rx

theorem readSysex_end (room : Nat) (d rest : List Nat) (h : ∀ b ∈ d, b ≠ 0xF7) (hr : d.length < room) :
    readSysex room (d ++ 0xF7 :: rest) = some (d, rest) := by
  induction d generalizing room with
  | nil =>
    obtain ⟨r, rfl⟩ : ∃ r, room = r + 1 := ⟨room - 1, by simp at hr; omega⟩
    simp [readSysex]
  | cons b d ih =>
    obtain ⟨r, rfl⟩ : ∃ r, room = r + 1 := ⟨room - 1, by simp at hr; omega⟩
    have := h b (by simp)
    simp only [List.cons_append, readSysex, this, if_false]
    rw [ih r (fun x hx => h x (by simp [hx])) (by simp at hr; omega)]

theorem readSysex_full (room : Nat) (d rest : List Nat) (h : ∀ b ∈ d, b ≠ 0xF7) (hr : d.length = room) :
    readSysex room (d ++ rest) = some (d, rest) := by
  induction d generalizing room with
  | nil => simp at hr; subst hr; simp [readSysex]
  | cons b d ih =>
    obtain ⟨r, rfl⟩ : ∃ r, room = r + 1 := ⟨room - 1, by simp at hr; omega⟩
    have := h b (by simp)
    simp only [List.cons_append, readSysex, this, if_false]
    rw [ih r (fun x hx => h x (by simp [hx])) (by simp at hr; omega)]

theorem readSysex_append {room : Nat} {bs d rest : List Nat} (more : List Nat)
    (h : readSysex room bs = some (d, rest)) : readSysex room (bs ++ more) = some (d, rest ++ more) := by
  induction room generalizing bs d with
  | zero => simp [readSysex] at h ⊢; obtain ⟨rfl, rfl⟩ := h; simp
  | succ room ih =>
    cases bs with
    | nil => simp [readSysex] at h
    | cons b bs =>
      simp only [readSysex] at h
      simp only [List.cons_append, readSysex]
      split at h
      · rename_i hb; simp at h; obtain ⟨rfl, rfl⟩ := h; simp [hb]
      · rename_i hb
        rw [if_neg hb]
        split at h
        · cases h
        · rename_i d' rest' e
          simp at h; obtain ⟨rfl, rfl⟩ := h
          rw [ih e]

theorem readSysex_length {room : Nat} {bs d rest : List Nat} (h : readSysex room bs = some (d, rest)) :
    rest.length ≤ bs.length := by
  induction room generalizing bs d with
  | zero => simp [readSysex] at h; obtain ⟨_, rfl⟩ := h; omega
  | succ room ih =>
    cases bs with
    | nil => simp [readSysex] at h
    | cons b bs =>
      simp only [readSysex] at h
      split at h
      · simp at h; obtain ⟨_, rfl⟩ := h; simp
      · split at h
        · cases h
        · rename_i d' rest' e
          simp at h; obtain ⟨rfl, rfl⟩ := h
          have := ih e; simp; omega

theorem readMessage_append {bs rest : List Nat} {c : Call} (more : List Nat)
    (h : readMessage bs = some (c, rest)) : readMessage (bs ++ more) = some (c, rest ++ more) := by
  cases bs with
  | nil => simp [readMessage] at h
  | cons b bs =>
    simp only [readMessage, List.cons_append] at h ⊢
    generalize b / 16 = q at *
    split at h
    all_goals try (
      split at h <;> first
        | (cases h; done)
        | (simp only [Option.some.injEq, Prod.mk.injEq] at h; obtain ⟨rfl, rfl⟩ := h; rfl))
    · unfold readSystem at h ⊢
      generalize b % 16 = q at *
      split at h
      all_goals try (
        split at h <;> first
          | (cases h; done)
          | (simp only [Option.some.injEq, Prod.mk.injEq] at h; obtain ⟨rfl, rfl⟩ := h; rfl))
      all_goals try (simp only [Option.some.injEq, Prod.mk.injEq] at h; obtain ⟨rfl, rfl⟩ := h; simp only; done)
      · split at h
        · cases h
        · rename_i e
          simp only [Option.some.injEq, Prod.mk.injEq] at h; obtain ⟨rfl, rfl⟩ := h
          simp only [readSysex_append more e]
    · simp only [Option.some.injEq, Prod.mk.injEq] at h; obtain ⟨rfl, rfl⟩ := h
      rfl

theorem readMessage_length {bs rest : List Nat} {c : Call} (h : readMessage bs = some (c, rest)) :
    rest.length < bs.length := by
  cases bs with
  | nil => simp [readMessage] at h
  | cons b bs =>
    simp only [readMessage] at h
    split at h
    case h_6 =>
      unfold readSystem at h
      split at h
      all_goals first
        | (simp only [Option.some.injEq, Prod.mk.injEq] at h; obtain ⟨rfl, rfl⟩ := h; simp; done)
        | (split at h
           · simp only [Option.some.injEq, Prod.mk.injEq] at h; obtain ⟨rfl, rfl⟩ := h; simp; omega
           · cases h)
        | (split at h
           · cases h
           · rename_i e
             simp only [Option.some.injEq, Prod.mk.injEq] at h; obtain ⟨rfl, rfl⟩ := h
             have := readSysex_length e; simp; omega)
    all_goals first
      | (simp only [Option.some.injEq, Prod.mk.injEq] at h; obtain ⟨rfl, rfl⟩ := h; simp; done)
      | (split at h
         · simp only [Option.some.injEq, Prod.mk.injEq] at h; obtain ⟨rfl, rfl⟩ := h; simp <;> omega
         · cases h)

theorem readLoop_fuel (fuel : Nat) (bs : List Nat) (h : bs.length ≤ fuel) : readLoop fuel bs = readAll bs := by
  suffices ∀ n m bs, bs.length ≤ n → bs.length ≤ m → readLoop n bs = readLoop m bs from this _ _ _ h (Nat.le_refl _)
  intro n
  induction n with
  | zero =>
    intro m bs hn _
    have : bs = [] := List.length_eq_zero_iff.1 (by omega)
    subst this
    cases m <;> rfl
  | succ n ih =>
    intro m bs hn hm
    cases m with
    | zero =>
      have : bs = [] := List.length_eq_zero_iff.1 (by omega)
      subst this; rfl
    | succ m =>
      simp only [readLoop]
      cases e : readMessage bs with
      | none => rfl
      | some x =>
        obtain ⟨c, rest⟩ := x
        have := readMessage_length e
        simp only [ih m rest (by omega) (by omega)]

theorem readAll_cons {bs rest : List Nat} {c : Call} (h : readMessage bs = some (c, rest)) :
    readAll bs = (c :: (readAll rest).1, (readAll rest).2) := by
  have := readMessage_length h
  obtain ⟨n, hn⟩ : ∃ n, bs.length = n + 1 := ⟨bs.length - 1, by omega⟩
  conv => lhs; rw [readAll, hn, readLoop, h]
  simp only [readLoop_fuel n rest (by omega)]

theorem readAll_none {bs : List Nat} (h : readMessage bs = none) : readAll bs = ([], bs) := by
  unfold readAll
  cases bs with
  | nil => rfl
  | cons b bs => simp only [List.length_cons, readLoop, h]

/-- Splitting the stream anywhere makes no difference: what is left of the first part is completed by the second. -/
theorem readAll_append (xs ys : List Nat) :
    readAll (xs ++ ys) =
      ((readAll xs).1 ++ (readAll ((readAll xs).2 ++ ys)).1, (readAll ((readAll xs).2 ++ ys)).2) := by
  induction h : xs.length using Nat.strongRecOn generalizing xs with
  | _ n ih =>
    cases e : readMessage xs with
    | none => rw [readAll_none e]; rfl
    | some x =>
      obtain ⟨c, rest⟩ := x
      have hl := readMessage_length e
      rw [readAll_cons e, readAll_cons (readMessage_append ys e), ih rest.length (by omega) rest rfl]
      rfl

/-! ### Pieces -/

theorem status_div {a c : Nat} (hc : c < 16) : (a * 16 + c) / 16 = a ∧ (a * 16 + c) % 16 = c := by omega

theorem readMessage_message (m : Message) (h : m.Ok) (rest : List Nat) :
    readMessage (m.bytes ++ rest) = some (m.call, rest) := by
  cases m with
  | noteOff c p v =>
    simp only [Message.bytes, Message.call, List.cons_append, List.nil_append, readMessage]
    rw [show 0x80 + c = 8 * 16 + c by omega, (status_div h.1).1, (status_div h.1).2]
    rfl
  | noteOn c p v =>
    simp only [Message.bytes, Message.call, List.cons_append, List.nil_append, readMessage]
    rw [show 0x90 + c = 9 * 16 + c by omega, (status_div h.1).1, (status_div h.1).2]
    rfl
  | controlChange c p v =>
    simp only [Message.bytes, Message.call, List.cons_append, List.nil_append, readMessage]
    rw [show 0xB0 + c = 11 * 16 + c by omega, (status_div h.1).1, (status_div h.1).2]
    rfl
  | programChange c p =>
    simp only [Message.bytes, Message.call, List.cons_append, List.nil_append, readMessage]
    rw [show 0xC0 + c = 12 * 16 + c by omega, (status_div h.1).1, (status_div h.1).2]
    rfl
  | pitchBend c v =>
    simp only [Message.bytes, Message.call, List.cons_append, List.nil_append, readMessage]
    rw [show 0xE0 + c = 14 * 16 + c by omega, (status_div h.1).1, (status_div h.1).2]
    simp only [show v / 128 * 128 + v % 128 = v by omega]
  | songPosition n => rfl
  | clock => rfl
  | start => rfl
  | «continue» => rfl
  | stop => rfl
  | sysex d =>
    have := readSysex_end 256 d rest (fun b hb => by have := h.1 b hb; omega) (by have := h.2; omega)
    simp only [Message.bytes, Message.call, List.cons_append, List.append_assoc, List.nil_append, readMessage,
      readSystem, Nat.reduceDiv, Nat.reduceMod, this]
  | systemReset => rfl

theorem readMessage_stray (b : Nat) (h : Stray b) (rest : List Nat) :
    readMessage (b :: rest) = some (.warn b, rest) := by
  simp only [readMessage]
  unfold Stray at h
  rcases h with h | h | h | h
  · have : b / 16 < 8 := by omega
    generalize b / 16 = q at *
    split <;> first | rfl | omega
  · have : b / 16 = 10 := by omega
    rw [this]; rfl
  · have : b / 16 = 13 := by omega
    rw [this]; rfl
  · simp only [List.mem_cons, List.not_mem_nil, or_false] at h
    rcases h with rfl | rfl | rfl | rfl | rfl | rfl | rfl | rfl | rfl <;> rfl

theorem readMessage_piece (x : Piece) (h : x.Ok) (rest : List Nat) :
    readMessage (x.bytes ++ rest) = some (x.call, rest) := by
  cases x with
  | message m => exact readMessage_message m h rest
  | stray b => exact readMessage_stray b h rest

theorem readAll_pieces (l : List Piece) (h : ∀ x ∈ l, x.Ok) (rest : List Nat) :
    readAll (l.flatMap Piece.bytes ++ rest) = (l.map Piece.call ++ (readAll rest).1, (readAll rest).2) := by
  induction l with
  | nil => rfl
  | cons x l ih =>
    rw [List.flatMap_cons, List.append_assoc, readAll_cons (readMessage_piece x (h x (by simp)) _),
      ih fun y hy => h y (by simp [hy])]
    rfl

/-! ### Delivery -/

theorem deliverAll_append (env : Env) (a b : List Call) (junk : Nat → Nat → Nat) (s : Sys) :
    deliverAll env junk s (a ++ b) =
      deliverAll env (fun n => junk (n + a.length)) (deliverAll env junk s a) b := by
  induction a generalizing junk s with
  | nil => rfl
  | cons c a ih =>
    simp only [List.cons_append, deliverAll, ih, List.length_cons]
    congr 1

theorem deliver_act (env : Env) (junk : Nat → Nat) (s : Sys) (hs : s.stop = none) (c : Call) (hc : c ≠ .reset) :
    deliver env junk s c = act env (junk 0) s c := by
  unfold deliver
  rw [if_neg (by simp [hs]), if_neg hc]

theorem deliver_reset (env : Env) (junk : Nat → Nat) (s : Sys) (hs : s.stop = none) (h : env.startup = []) :
    deliver env junk s .reset = act env 0 s .reset := by
  unfold deliver
  rw [if_neg (by simp [hs]), if_pos rfl]
  simp [startupAll, startup, h, readAll, readLoop, startupLoop]

/-- What a piece does to the whole: the engine runs its calls, a stray byte is a warning. -/
theorem deliver_piece (env : Env) (junk : Nat → Nat) (s : Sys) (hs : s.stop = none) (x : Piece)
    (h : env.startup = [] ∨ x.call ≠ .reset) :
    (deliver env junk s x.call).midi = Midi.run env.midi s.midi (x.ops (junk 0)) ∧
      (deliver env junk s x.call).stop = none := by
  by_cases e : x.call = .reset
  · have h : env.startup = [] := by rcases h with h | h; exact h; exact absurd e h
    rw [e, deliver_reset env junk s hs h]
    rcases x with m | b
    · cases m <;> first
        | (simp [Piece.call, Message.call] at e; done)
        | exact ⟨by simp only [act, engine, Piece.ops, Midi.run, List.foldl], hs⟩
    · simp [Piece.call] at e
  · rw [deliver_act env junk s hs _ e]
    rcases x with m | b
    · cases m <;> first
        | (simp [Piece.call, Message.call] at e; done)
        | exact ⟨by simp only [act, engine, Piece.call, Message.call, Piece.ops, Midi.run, List.foldl], hs⟩
    · exact ⟨rfl, hs⟩

theorem deliver_pieces (env : Env) (l : List Piece) : ∀ (junk : Nat → Nat → Nat) (s : Sys), s.stop = none →
    (env.startup = [] ∨ ∀ x ∈ l, x.call ≠ .reset) →
    (deliverAll env junk s (l.map Piece.call)).midi = Midi.run env.midi s.midi (streamOps junk l) ∧
      (deliverAll env junk s (l.map Piece.call)).stop = none := by
  induction l with
  | nil => intro _ s hs _; exact ⟨rfl, hs⟩
  | cons x l ih =>
    intro junk s hs h
    obtain ⟨h1, h2⟩ := deliver_piece env (junk 0) s hs x (h.imp id fun h => h x (by simp))
    obtain ⟨h3, h4⟩ := ih (fun n => junk (n + 1)) _ h2 (h.imp id fun h y hy => h y (by simp [hy]))
    simp only [List.map_cons, deliverAll]
    refine ⟨?_, h4⟩
    rw [h3, h1]
    simp only [streamOps, Midi.run, List.foldl_append]

theorem startup_none (env : Env) (junk : Nat → Nat) (s : Sys) (h : Call.reset ∉ (readAll env.startup).1) :
    ∀ depth, startup env junk (depth + 1) s = startup env junk 1 s ∧ (startup env junk 1 s).isSome := by
  have : ∀ (l : List Call) (junk : Nat → Nat) (s : Sys), Call.reset ∉ l → (startupLoop env junk s l).2 = false := by
    intro l
    induction l with
    | nil => intro _ _ _; rfl
    | cons c l ih =>
      intro junk s h
      simp only [List.mem_cons, not_or] at h
      rw [startupLoop, if_neg (Ne.symm h.1)]
      exact ih _ _ h.2
  intro depth
  have e := this _ junk s h
  simp only [startup]
  revert e
  rcases startupLoop env junk s (readAll env.startup).1 with ⟨t, b⟩
  intro e
  simp only at e
  subst e
  simp

theorem startup_loops (env : Env) (junk : Nat → Nat) (h : Call.reset ∈ (readAll env.startup).1) :
    ∀ depth s, startup env junk depth s = none := by
  have : ∀ (l : List Call) (junk : Nat → Nat) (s : Sys), Call.reset ∈ l → (startupLoop env junk s l).2 = true := by
    intro l
    induction l with
    | nil => intro _ _ h; simp at h
    | cons c l ih =>
      intro junk s h
      by_cases hc : c = .reset
      · rw [startupLoop, if_pos hc]
      · rw [startupLoop, if_neg hc]
        exact ih _ _ (by simpa [Ne.symm hc] using h)
  intro depth
  induction depth with
  | zero => intro s; rfl
  | succ depth ih =>
    intro s
    have e := this _ junk s h
    simp only [startup]
    revert e
    rcases startupLoop env junk s (readAll env.startup).1 with ⟨t, b⟩
    intro e
    simp only at e
    subst e
    exact ih t

end Mdmi.Rx
