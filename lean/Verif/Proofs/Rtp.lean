import Verif.Model.Rtp
import Verif.Spec.Rtp
/-!
# The command list loop
-/
namespace Mdmi.Rtp

theorem untilMark_length : ∀ (c : List Nat) e r, untilMark c = some (e, r) → r.length + e.length = c.length ∧ 0 < r.length := by
  intro c
  induction c with
  | nil => intro e r h; simp [untilMark] at h
  | cons b c ih =>
    intro e r h
    simp only [untilMark] at h
    split at h
    · simp only [Option.some.injEq, Prod.mk.injEq] at h
      obtain ⟨rfl, rfl⟩ := h
      simp
    · cases k : untilMark c with
      | none => simp [k] at h
      | some x =>
        simp only [k, Option.map_some, Option.some.injEq, Prod.mk.injEq] at h
        obtain ⟨rfl, rfl⟩ := h
        have := ih x.1 x.2 k
        simp only [List.length_cons]; omega

theorem processSysex_length {c e r} (h : processSysex c = some (e, r)) : 0 < r.length ∧ r.length < c.length := by
  unfold processSysex at h
  cases c with
  | nil => simp at h
  | cons b c =>
    simp only at h
    cases k : untilMark c with
    | none => simp [k] at h
    | some x =>
      simp only [k, Option.map_some, Option.some.injEq, Prod.mk.injEq] at h
      obtain ⟨rfl, rfl⟩ := h
      have := untilMark_length _ _ _ k
      simp only [List.length_cons]; omega

theorem processMiddle_length {c r} (h : processMiddleSysex c = some r) : 0 < r.length ∧ r.length < c.length := by
  unfold processMiddleSysex at h
  cases c with
  | nil => simp at h
  | cons b c =>
    simp only at h
    cases k : untilMark c with
    | none => simp [k] at h
    | some x =>
      simp only [k, Option.map_some, Option.some.injEq] at h
      subst h
      have := untilMark_length _ _ _ k
      simp only [List.length_cons]; omega

theorem emit_length {st c e r} (h : emitMidiEvent st c = some (e, r)) : 0 < r.length ∧ r.length ≤ c.length := by
  unfold emitMidiEvent at h
  split at h
  · simp at h
  · split at h
    · simp only [Option.some.injEq, Prod.mk.injEq] at h
      obtain ⟨-, rfl⟩ := h
      simp
    · split at h
      · simp at h
      · simp only [Option.some.injEq, Prod.mk.injEq] at h
        obtain ⟨-, rfl⟩ := h
        simp

theorem two_of_length {d : List Nat} (h : d.length = 2) : ∃ a b, d = [a, b] := by
  match d, h with
  | [a, b], _ => exact ⟨a, b, rfl⟩

/-- Any number of turns that is enough gives the same. -/
theorem loop_fuel : ∀ (n f g past st : Nat) (w : Bool) (c : List Nat), c.length ≤ n → c.length ≤ f → c.length ≤ g →
    loop f past st w c = loop g past st w c := by
  intro n
  induction n with
  | zero =>
    intro f g past st w c hn _ _
    have : c = [] := List.length_eq_zero_iff.1 (by omega)
    subst this
    cases f <;> cases g <;> simp [loop]
  | succ n ih =>
    intro f g past st w c hn hf hg
    cases c with
    | nil => cases f <;> cases g <;> simp [loop]
    | cons b r =>
      simp only [List.length_cons] at hn hf hg
      cases f with
      | zero => omega
      | succ f =>
        cases g with
        | zero => omega
        | succ g =>
          have hr : ∀ st w c, c.length ≤ r.length → loop f past st w c = loop g past st w c := fun st w c h =>
            ih f g past st w c (by omega) (by omega) (by omega)
          simp only [loop]
          split
          · rfl
          split
          · exact hr _ _ _ (Nat.le_refl _)
          split
          · split
            · rfl
            · rename_i h
              have := processSysex_length h
              simp only [List.length_cons] at this
              rw [hr _ _ _ (by simp only [List.length_drop]; omega)]
          split
          · split
            · rfl
            · rename_i h
              have := processMiddle_length h
              simp only [List.length_cons] at this
              rw [hr _ _ _ (by simp only [List.length_drop]; omega)]
          split
          · rw [hr _ _ _ (Nat.le_refl _)]
          split
          · exact hr _ _ _ (Nat.le_refl _)
          · split
            · rfl
            · rename_i h
              have := emit_length h
              simp only [List.length_cons] at this
              rw [hr _ _ _ (by simp only [List.length_drop]; omega)]

/-- The loop with turns enough. -/
def walk (past st : Nat) (w : Bool) (c : List Nat) : Option (List Nat) := loop c.length past st w c

theorem loop_walk {f past st : Nat} {w : Bool} {c : List Nat} (h : c.length ≤ f) : loop f past st w c = walk past st w c :=
  loop_fuel _ _ _ _ _ _ _ (Nat.le_refl _) h (Nat.le_refl _)

variable {past st b : Nat} {w : Bool} {r : List Nat}

theorem walk_end (h : r.length ≤ past) : walk past st w r = some [] := by
  unfold walk
  cases r with
  | nil => rfl
  | cons b r => simp only [List.length_cons] at *; simp only [loop]; rw [if_pos (by simpa using h)]

theorem walk_final (h : past < (b :: r).length) (hb : b < 128) : walk past st true (b :: r) = walk past st false r := by
  simp only [walk, List.length_cons, loop]
  rw [if_neg (by simpa using h), if_pos ⟨trivial, by omega⟩]

theorem walk_status (h : past < (b :: r).length) (hb : 128 ≤ b) (h0 : b ≠ 0xF0) (h7 : b ≠ 0xF7) (hF : b ≠ 0xFF) :
    walk past st w (b :: r) = walk past b w r := by
  simp only [walk, List.length_cons, loop]
  rw [if_neg (by simpa using h), if_neg (by rintro ⟨-, k⟩; omega), if_neg h0, if_neg h7, if_neg hF, if_pos (by omega)]

theorem walk_reset (h : past < (0xFF :: r).length) : walk past st w (0xFF :: r) = (walk past st true r).map (0xFF :: ·) := by
  simp only [walk, List.length_cons, loop]
  rw [if_neg (by simpa using h), if_neg (by rintro ⟨-, k⟩; omega), if_neg (by omega), if_neg (by omega), if_pos trivial]

theorem walk_one {a : Nat} (h : past < (a :: r).length) (ha : a < 128) (h1 : bytesToEmit st = 1) :
    walk past st false (a :: r) = (walk past st true r).map ([st, a] ++ ·) := by
  simp only [walk, List.length_cons, loop]
  rw [if_neg (by simpa using h), if_neg (by simp), if_neg (by omega), if_neg (by omega), if_neg (by omega),
    if_neg (by omega)]
  simp only [emitMidiEvent, h1, if_true, List.drop_one, List.tail_cons]

theorem walk_two {a b : Nat} (h : past < (a :: b :: r).length) (ha : a < 128) (h1 : bytesToEmit st ≠ 1) :
    walk past st false (a :: b :: r) = (walk past st true r).map ([st, a, b] ++ ·) := by
  simp only [walk, List.length_cons]
  rw [loop]
  rw [if_neg (by simpa using h), if_neg (by simp), if_neg (by omega), if_neg (by omega), if_neg (by omega),
    if_neg (by omega)]
  simp only [emitMidiEvent, h1, if_false, List.drop_one, List.tail_cons]
  rw [loop_fuel r.length (r.length + 1) r.length past st true r (by omega) (by omega) (by omega)]

theorem untilMark_mark {m : Nat} (d r : List Nat) (hm : m = 0xF0 ∨ m = 0xF7) (hd : ∀ b ∈ d, b < 128) :
    untilMark (d ++ m :: r) = some (d, m :: r) := by
  induction d with
  | nil => simp only [List.nil_append, untilMark]; rw [if_pos hm.symm]
  | cons b d ih =>
    have hb := hd b (by simp)
    simp only [List.cons_append, untilMark]
    rw [if_neg (by omega), ih fun x hx => hd x (by simp [hx])]
    rfl

/-- An exclusive message, or the first segment of one. -/
theorem walk_segment {m : Nat} {d : List Nat} (h : past < (0xF0 :: d ++ m :: r).length) (hm : m = 0xF0 ∨ m = 0xF7)
    (hd : ∀ b ∈ d, b < 128) :
    walk past st w (0xF0 :: d ++ m :: r) = (walk past st true r).map ((0xF0 :: d ++ [0xF7]) ++ ·) := by
  have hl : (d ++ m :: r).length = d.length + 1 + r.length := by simp; omega
  simp only [walk, List.cons_append, List.length_cons, hl]
  rw [loop]
  rw [if_neg (by simp at h ⊢; omega), if_neg (by rintro ⟨-, k⟩; omega), if_pos rfl]
  simp only [processSysex, untilMark_mark d r hm hd, Option.map_some, List.drop_succ_cons, List.drop_zero, List.cons_append]
  rw [loop_fuel r.length (d.length + 1 + r.length) r.length _ _ _ _ (Nat.le_refl _) (by omega) (Nat.le_refl _)]

/-- A further segment of an exclusive message. -/
theorem walk_rest {m : Nat} {d : List Nat} (h : past < (0xF7 :: d ++ m :: r).length) (hm : m = 0xF0 ∨ m = 0xF7)
    (hd : ∀ b ∈ d, b < 128) : walk past st w (0xF7 :: d ++ m :: r) = walk past st true r := by
  have hl : (d ++ m :: r).length = d.length + 1 + r.length := by simp; omega
  simp only [walk, List.cons_append, List.length_cons, hl]
  rw [loop]
  rw [if_neg (by simp at h ⊢; omega), if_neg (by rintro ⟨-, k⟩; omega), if_neg (by omega), if_pos rfl]
  simp only [processMiddleSysex, untilMark_mark d r hm hd, Option.map_some, List.drop_succ_cons, List.drop_zero]
  rw [loop_fuel r.length (d.length + 1 + r.length) r.length _ _ _ _ (Nat.le_refl _) (by omega) (Nat.le_refl _)]

theorem untilMark_data (d r : List Nat) (hd : ∀ b ∈ d, b < 128) : untilMark (d ++ 0xF7 :: r) = some (d, 0xF7 :: r) := by
  induction d with
  | nil => simp [untilMark]
  | cons b d ih =>
    have hb := hd b (by simp)
    simp only [List.cons_append, untilMark]
    rw [if_neg (by omega), ih fun x hx => hd x (by simp [hx])]
    rfl

theorem walk_sysex {d : List Nat} (h : past < (0xF0 :: d ++ 0xF7 :: r).length) (hd : ∀ b ∈ d, b < 128) :
    walk past st w (0xF0 :: d ++ 0xF7 :: r) = (walk past st true r).map ((0xF0 :: d ++ [0xF7]) ++ ·) := by
  have hl : (d ++ 0xF7 :: r).length = d.length + 1 + r.length := by simp; omega
  simp only [walk, List.length_cons, List.cons_append, loop]
  rw [if_neg (by simpa using h), if_neg (by rintro ⟨-, k⟩; omega), if_pos trivial]
  simp only [processSysex, untilMark_data d r hd, Option.map_some, List.drop_one, List.tail_cons]
  rw [loop_fuel r.length (d ++ 0xF7 :: r).length r.length past st true r (by omega) (by omega) (by omega)]
  rfl

/-- What the loop can read of a list: no message of a single byte but reset, no delta time byte that looks like an
exclusive or reset byte, and no running status over a delta time of more than one byte. -/
def Readable (known : Bool) : List Item → Prop
  | [] => True
  | x :: l => (∀ s, x.cmd = .single s → s = 0xFF) ∧ (∀ b ∈ x.cont, b ≠ 0xF0 ∧ b ≠ 0xF7 ∧ b ≠ 0xFF) ∧
      (x.explicit = true ∨ (known = true ∧ x.cont = [])) ∧
      Readable (match x.cmd with | .msg _ _ => true | _ => known && x.cont.isEmpty) l

/-- Status the loop holds behind a message. -/
def heldStatus (st : Nat) : Cmd → Nat
  | .msg s _ => s
  | _ => st

/-- A message without its delta time. -/
theorem walk_cmd {x : Cmd} (hx : x.Wf) (hs : ∀ s, x = .single s → s = 0xFF) (h : past ≤ r.length) :
    walk past st false (x.bytes ++ r) =
      (walk past (heldStatus st x) true r).map (x.bytes ++ ·) := by
  cases x with
  | msg s d =>
    obtain ⟨h1, h2, h3, h4, h5⟩ := hx
    have ne : s ≠ 0xF7 ∧ s ≠ 0xFF := by omega
    simp only [Cmd.bytes, List.cons_append]
    rw [walk_status (by simp; omega) h1 h3 ne.1 ne.2]
    unfold dataCount at h4
    split at h4
    · rename_i e
      obtain ⟨a, rfl⟩ := List.length_eq_one_iff.1 h4
      rw [List.singleton_append, walk_one (by simp; omega) (h5 a (by simp)) (by simp [bytesToEmit, e])]
      rfl
    · rename_i e
      split at h4
      · obtain ⟨a, b, rfl⟩ := two_of_length h4
        simp only [List.cons_append, List.nil_append]
        rw [walk_two (by simp; omega) (h5 a (by simp)) (by simp [bytesToEmit, e])]
        rfl
      · rename_i e'
        exact absurd (Or.inl (by omega)) e'
  | single s =>
    have := hs s rfl
    subst this
    simp only [Cmd.bytes, List.singleton_append]
    exact walk_reset (by simp; omega)
  | sysex d =>
    simp only [Cmd.bytes, List.append_assoc, List.cons_append, List.nil_append]
    have := walk_sysex (past := past) (st := st) (w := false) (r := r) (d := d) (by simp; omega) hx
    simpa [heldStatus] using this

theorem walk_cont (cont r : List Nat) (hc : ∀ b ∈ cont, 128 ≤ b ∧ b ≠ 0xF0 ∧ b ≠ 0xF7 ∧ b ≠ 0xFF) (h : past < r.length) :
    ∀ st, walk past st true (cont ++ r) = walk past (cont.getLast?.getD st) true r := by
  induction cont with
  | nil => intro st; rfl
  | cons b l ih =>
    intro st
    obtain ⟨h1, h2, h3, h4⟩ := hc b (by simp)
    rw [List.cons_append, walk_status (by simp; omega) h1 h2 h3 h4, ih (fun x hx => hc x (by simp [hx]))]
    cases l with
    | nil => rfl
    | cons a l => simp [List.getLast?_cons]

/-- The loop on a readable list. -/
theorem walk_list (l : List Item) : ∀ (known : Bool) (run : Option Nat) (st : Nat) (j : List Nat), Legal run l → Readable known l →
    (known = true → ∀ s, run = some s → st = s) →
    walk j.length st true (l.flatMap Item.bytes ++ j) = some (l.flatMap fun x => x.cmd.bytes) := by
  induction l with
  | nil => intro _ _ _ j _ _ _; simp [walk_end]
  | cons x l ih =>
    intro known run st j hl hr hk
    obtain ⟨⟨hc, hlast, hw⟩, hx, hl⟩ := hl
    obtain ⟨hs, hc', he, hr⟩ := hr
    simp only [List.flatMap_cons, List.append_assoc, Item.bytes, List.cons_append]
    rw [walk_cont x.cont _ (fun b hb => ⟨(hc b hb).1, hc' b hb⟩) (by simp; omega),
      walk_final (by simp; omega) hlast]
    have tail : ∀ st, ((match x.cmd with | .msg _ _ => true | _ => known && x.cont.isEmpty) = true →
        ∀ s, after run x.cmd = some s → st = s) →
        walk j.length st true (l.flatMap Item.bytes ++ j) = some (l.flatMap fun x => x.cmd.bytes) :=
      fun st h => ih _ _ st j hl hr h
    have full : x.body = x.cmd.bytes →
        walk j.length (x.cont.getLast?.getD st) false (x.body ++ (l.flatMap Item.bytes ++ j)) =
          some (x.cmd.bytes ++ l.flatMap fun x => x.cmd.bytes) := by
      intro e
      rw [e, walk_cmd hw hs (by simp), tail]
      · rfl
      · cases hcmd : x.cmd with
        | msg s d =>
          intro _ t ht
          simp only [after] at ht
          split at ht
          · simpa [heldStatus] using ht
          · simp at ht
        | single s =>
          intro hkn t ht
          have := hs s hcmd
          subst this
          simp only [after] at ht
          simp only [Bool.and_eq_true, List.isEmpty_iff] at hkn
          rw [hkn.2]
          show st = t
          exact hk hkn.1 t (by simpa using ht)
        | sysex d => intro _ t ht; simp [after] at ht
    cases hcmd : x.cmd with
    | single s => exact hcmd ▸ full (by simp [Item.body, hcmd])
    | sysex d => exact hcmd ▸ full (by simp [Item.body, hcmd])
    | msg s d =>
      cases hexp : x.explicit with
      | true => exact hcmd ▸ full (by simp [Item.body, hcmd, hexp])
      | false =>
        rw [hcmd, hexp] at hx
        rcases he with he | ⟨hkn, hcont⟩
        · rw [hexp] at he; cases he
        have est : st = s := hk hkn s (by simpa using hx)
        subst est
        rw [hcmd] at hw
        obtain ⟨h1, h2, h3, h4, h5⟩ := hw
        have tl := tail st (by
          rw [hcmd]; intro _ t ht
          simp only [after] at ht
          split at ht
          · simpa using ht
          · simp at ht)
        simp only [Item.body, hcmd, hexp, hcont, List.getLast?_nil, Option.getD_none]
        unfold dataCount at h4
        split at h4
        · rename_i e
          obtain ⟨a, rfl⟩ := List.length_eq_one_iff.1 h4
          rw [List.singleton_append, walk_one (by simp; omega) (h5 a (by simp)) (by simp [bytesToEmit, e]), tl]
          rfl
        · rename_i e
          split at h4
          · obtain ⟨a, b, rfl⟩ := two_of_length h4
            simp only [List.cons_append, List.nil_append]
            rw [walk_two (by simp; omega) (h5 a (by simp)) (by simp [bytesToEmit, e]), tl]
            rfl
          · rename_i e'
            exact absurd (Or.inl (by omega)) e'

theorem walk_midiList {first : Cmd} {l : List Item} {j : List Nat} (hf : first.Wf) (hs : ∀ s, first = .single s → s = 0xFF)
    (hl : Legal (after none first) l) (hr : Readable true l) :
    walk j.length 0 false (midiList first l ++ j) = some (stream first l) := by
  unfold midiList stream
  rw [List.append_assoc, walk_cmd hf hs (by simp), walk_list l true (after none first) _ j hl hr]
  · rfl
  · intro _ s hs
    cases first with
    | msg t d =>
      simp only [after] at hs
      split at hs
      · simpa [heldStatus] using hs
      · simp at hs
    | single t => simp only [after] at hs; split at hs <;> simp at hs
    | sysex d => simp [after] at hs

end Mdmi.Rtp
