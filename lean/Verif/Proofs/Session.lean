import Verif.Spec.Session
import Verif.Proofs.MidiRxSaid
import Verif.Proofs.MidiStep
/-! # Sessions -/
namespace Mdmi.Session
open Mdmi Rx

variable {env : Rx.Env}

theorem act_ops (j : Nat) (s : Sys) (c : Call) :
    (act env j s c).midi = Midi.run env.midi s.midi (Call.ops j c) ∧ (act env j s c).stop = s.stop := by
  cases c <;> exact ⟨by simp only [act, engine, Call.ops, Midi.run, List.foldl], rfl⟩

theorem startupLoop_ops (cs : List Call) : ∀ (junk : Nat → Nat) (s : Sys), Call.reset ∉ cs →
    (startupLoop env junk s cs).1.midi = Midi.run env.midi s.midi (callOps junk cs) ∧
    (startupLoop env junk s cs).1.stop = s.stop ∧ (startupLoop env junk s cs).2 = false := by
  induction cs with
  | nil => intro _ s _; exact ⟨rfl, rfl, rfl⟩
  | cons c cs ih =>
    intro junk s h
    simp only [List.mem_cons, not_or] at h
    rw [startupLoop, if_neg (Ne.symm h.1)]
    obtain ⟨h1, h2, h3⟩ := ih (fun n => junk (n + 1)) (act env (junk 0) s c) h.2
    refine ⟨?_, h2.trans (act_ops _ _ _).2, h3⟩
    rw [h1, (act_ops _ _ _).1, callOps, Midi.run, Midi.run, Midi.run, List.foldl_append]

theorem startupAll_ops {start : List Call} (h : readAll env.startup = (start, [])) (hr : Call.reset ∉ start)
    (junk : Nat → Nat) (s : Sys) :
    (startupAll env junk s).midi = Midi.run env.midi s.midi (callOps junk start) ∧
    (startupAll env junk s).stop = s.stop := by
  obtain ⟨h1, h2, h3⟩ := startupLoop_ops (env := env) start junk s hr
  simp only [startupAll, startup, h]
  revert h1 h2 h3
  rcases startupLoop env junk s start with ⟨t, b⟩
  intro h1 h2 h3
  simp only at h1 h2 h3
  subst h3
  exact ⟨h1, h2⟩

theorem deliverAll_ops {start : List Call} (h : readAll env.startup = (start, [])) (hr : Call.reset ∉ start)
    (cs : List Call) : ∀ (junk : Nat → Nat → Nat) (s : Sys), s.stop = none →
    (deliverAll env junk s cs).midi = Midi.run env.midi s.midi (heardOps start junk cs) ∧
    (deliverAll env junk s cs).stop = none := by
  induction cs with
  | nil => intro _ s hs; exact ⟨rfl, hs⟩
  | cons c cs ih =>
    intro junk s hs
    have k : (deliver env (junk 0) s c).midi = Midi.run env.midi s.midi
        (if c = .reset then .reset :: callOps (junk 0) start else Call.ops (junk 0 0) c) ∧
        (deliver env (junk 0) s c).stop = none := by
      unfold deliver
      rw [if_neg (by simp [hs])]
      split
      · obtain ⟨k1, k2⟩ := startupAll_ops h hr (junk 0) (act env 0 s .reset)
        refine ⟨k1.trans ?_, k2.trans hs⟩
        simp only [act, engine, Midi.run, List.foldl]
      · exact ⟨(act_ops _ _ _).1, (act_ops _ _ _).2.trans hs⟩
    obtain ⟨h1, h2⟩ := ih (fun n => junk (n + 1)) _ k.2
    refine ⟨?_, h2⟩
    rw [deliverAll, h1, k.1, heardOps, Midi.run, Midi.run, Midi.run, List.foldl_append]

theorem heardOps_append (start : List Call) (a b : List Call) (junk : Nat → Nat → Nat) :
    heardOps start junk (a ++ b) = heardOps start junk a ++ heardOps start (fun n => junk (a.length + n)) b := by
  induction a generalizing junk with
  | nil => simp [heardOps]
  | cons c a ih =>
    simp only [List.cons_append, heardOps, ih, List.append_assoc, List.length_cons]
    congr 4
    funext n
    congr 1
    omega

theorem callOps_noTick (cs : List Call) : ∀ junk, ∀ op ∈ callOps junk cs, isTick op = false := by
  induction cs with
  | nil => intro _ op h; simp [callOps] at h
  | cons c cs ih =>
    intro junk op h
    simp only [callOps, List.mem_append] at h
    rcases h with h | h
    · cases c <;> simp [Call.ops] at h <;> subst h <;> rfl
    · exact ih _ op h

theorem heardOps_noTick (start cs : List Call) : ∀ junk, ∀ op ∈ heardOps start junk cs, isTick op = false := by
  induction cs with
  | nil => intro _ op h; simp [heardOps] at h
  | cons c cs ih =>
    intro junk op h
    simp only [heardOps, List.mem_append] at h
    rcases h with h | h
    · split at h
      · rcases List.mem_cons.1 h with h | h
        · subst h; rfl
        · exact callOps_noTick _ _ op h
      · cases c <;> simp [Call.ops] at h <;> subst h <;> rfl
    · exact ih _ op h

theorem filter_noTick {l : List Midi.Op} (h : ∀ op ∈ l, isTick op = false) : l.filter (fun o => !isTick o) = l :=
  List.filter_eq_self.2 fun op ho => by simp [h op ho]

theorem readAll_rest (xs : List Nat) : readAll (readAll xs).2 = ([], (readAll xs).2) := by
  have h := readAll_append xs []
  rw [List.append_nil, List.append_nil] at h
  have h1 := congrArg (fun x => x.1.length) h
  simp only [List.length_append] at h1
  have h2 : (readAll (readAll xs).2).1 = [] := List.length_eq_zero_iff.1 (by omega)
  exact Prod.ext h2 (congrArg (·.2) h).symm

/-- A session over hardware: what was heard and the frames that passed make up the history of the engine. -/
theorem run_ops {start : List Call} (h : readAll env.startup = (start, [])) (hr : Call.reset ∉ start)
    (junk : Nat → Nat → Nat) (es : List Event) : ∀ s : St, s.sys.stop = none → readAll s.partly = ([], s.partly) → ∃ ops,
      (run env junk .hardware s es).sys.midi = Midi.run env.midi s.sys.midi ops ∧
      (run env junk .hardware s es).sys.stop = none ∧
      (run env junk .hardware s es).partly = (readAll (s.partly ++ arrived es)).2 ∧
      ops.filter (fun o => !isTick o) =
        heardOps start (fun n => junk (s.seen + n)) (readAll (s.partly ++ arrived es)).1 ∧
      ops.countP isTick ≤ 2 * frames es := by
  induction es with
  | nil =>
    intro s hs hp
    refine ⟨[], rfl, hs, ?_, ?_, by simp⟩
    · simp [run, arrived, hp]
    · simp [arrived, hp, heardOps]
  | cons e es ih =>
    intro s hs hp
    cases e with
    | bytes bs =>
      have e1 : step env junk .hardware s (.bytes bs) = read env junk s bs := by
        simp [step, hs]
      obtain ⟨d1, d2⟩ := deliverAll_ops h hr (readAll (s.partly ++ bs)).1 (fun n => junk (s.seen + n)) s.sys hs
      obtain ⟨ops, h1, h2, h3, h4, h5⟩ := ih (read env junk s bs) d2 (readAll_rest _)
      have ea : readAll (s.partly ++ arrived (.bytes bs :: es)) =
          ((readAll (s.partly ++ bs)).1 ++ (readAll ((readAll (s.partly ++ bs)).2 ++ arrived es)).1,
            (readAll ((readAll (s.partly ++ bs)).2 ++ arrived es)).2) := by
        rw [arrived, ← List.append_assoc, readAll_append]
      refine ⟨heardOps start (fun n => junk (s.seen + n)) (readAll (s.partly ++ bs)).1 ++ ops, ?_, ?_, ?_, ?_, ?_⟩
      · rw [run, List.foldl_cons, e1, ← run, h1, Midi.run, Midi.run, List.foldl_append]
        congr 1
      · rw [run, List.foldl_cons, e1, ← run]; exact h2
      · rw [run, List.foldl_cons, e1, ← run, h3, ea]; rfl
      · rw [List.filter_append, filter_noTick (heardOps_noTick _ _ _), h4, ea, heardOps_append]
        congr 2
        funext n
        simp only [read]
        congr 1
        omega
      · rw [List.countP_append, List.countP_eq_zero.2 (fun o ho => by simp [heardOps_noTick _ _ _ o ho])]
        simpa [frames] using h5
    | frame =>
      by_cases hw : s.partly = []
      · obtain ⟨t, e1, t1, t2, t3, t4⟩ : ∃ t, step env junk .hardware s .frame = t ∧
            t.sys.midi = Midi.run env.midi s.sys.midi [.psgTick, .tick] ∧ t.sys.stop = none ∧ t.partly = s.partly ∧
            t.seen = s.seen := by
          refine ⟨_, rfl, ?_, ?_, ?_, ?_⟩ <;>
            simp only [step, hs, hw, engine, Midi.run, List.foldl, ne_eq, not_true, or_self, if_false]
        obtain ⟨ops, h1, h2, h3, h4, h5⟩ := ih t t2 (by rw [t3]; exact hp)
        rw [t3] at h3 h4; rw [t4] at h4
        refine ⟨[.psgTick, .tick] ++ ops, ?_, ?_, ?_, ?_, ?_⟩
        · rw [run, List.foldl_cons, e1, ← run, h1, t1, Midi.run, Midi.run, Midi.run, List.foldl_append]
        · rw [run, List.foldl_cons, e1, ← run]; exact h2
        · rw [run, List.foldl_cons, e1, ← run]; exact h3
        · rw [List.filter_append]
          exact h4
        · rw [List.countP_append]
          simp only [frames, List.countP_cons, isTick, List.countP_nil] at h5 ⊢
          simp only [if_true]
          omega
      · have e1 : step env junk .hardware s .frame = s := by simp [step, hw]
        obtain ⟨ops, h1, h2, h3, h4, h5⟩ := ih s hs hp
        refine ⟨ops, ?_, ?_, ?_, h4, ?_⟩
        · rw [run, List.foldl_cons, e1, ← run]; exact h1
        · rw [run, List.foldl_cons, e1, ← run]; exact h2
        · rw [run, List.foldl_cons, e1, ← run]; exact h3
        · simp only [frames, List.countP_cons] at h5 ⊢
          omega

/-! ### Arguments -/

/-- A call's MIDI channel is one. -/
def ChanIn : Call → Prop
  | .noteOn c _ _ | .noteOff c _ | .cc c _ _ | .bend c _ | .program c _ => c < 16
  | _ => True

theorem readMessage_chan {bs rest : List Nat} {c : Call} (e : readMessage bs = some (c, rest)) : ChanIn c := by
  cases bs with
  | nil => simp [readMessage] at e
  | cons st bs =>
    have hm : st % 16 < 16 := Nat.mod_lt _ (by omega)
    simp only [readMessage] at e
    split at e
    case h_6 =>
      unfold readSystem at e
      split at e
      all_goals first
        | (simp only [Option.some.injEq, Prod.mk.injEq] at e; obtain ⟨rfl, rfl⟩ := e; exact trivial)
        | (split at e
           all_goals first
             | (cases e; done)
             | (simp only [Option.some.injEq, Prod.mk.injEq] at e; obtain ⟨rfl, rfl⟩ := e; exact trivial))
    all_goals first
      | (simp only [Option.some.injEq, Prod.mk.injEq] at e; obtain ⟨rfl, rfl⟩ := e; exact trivial)
      | (split at e
         all_goals first
           | (cases e; done)
           | (simp only [Option.some.injEq, Prod.mk.injEq] at e; obtain ⟨rfl, rfl⟩ := e; exact hm))

theorem readLoop_chan (fuel : Nat) : ∀ {bs : List Nat}, ∀ c ∈ (readLoop fuel bs).1, ChanIn c := by
  induction fuel with
  | zero => intro bs c hc; simp [readLoop] at hc
  | succ fuel ih =>
    intro bs c hc
    unfold readLoop at hc
    split at hc
    · simp at hc
    · rename_i e
      rcases List.mem_cons.1 hc with rfl | hc
      · exact readMessage_chan e
      · exact ih c hc

/-- Safe messages from any bytes are harmless calls. -/
theorem harmless_of_safe {samples : Bool} {bs : List Nat} (hb : ∀ b ∈ bs, b < 256) {c : Call} (hc : c ∈ (readAll bs).1)
    (h : Safe samples c) {j : Nat} : ∀ op ∈ Call.ops j c, op.Harmless samples := by
  have h1 := readLoop_chan _ c hc
  have h2 := readLoop_in _ hb c hc
  intro op ho
  cases c <;> simp only [Call.ops, List.mem_cons, List.not_mem_nil, or_false] at ho <;> try subst ho
  · exact ⟨h1, .inr ⟨h.1, h2.2, h.2⟩⟩
  · exact h1
  · exact ⟨h1, h⟩
  · exact h1
  · exact ⟨h1, h⟩
  · exact ⟨h2.2, h⟩
  · trivial

theorem apart_ops {c : Call} {j : Nat} : (Apart false c → ∀ op ∈ Call.ops j c, ¬op.enablesDac) ∧
    (Apart true c → ∀ op ∈ Call.ops j c, ¬op.detunes) := by
  cases c <;> simp [Call.ops, Apart, Midi.Op.enablesDac, Midi.Op.detunes]

theorem mem_callOps {junk : Nat → Nat} {cs : List Call} {op : Midi.Op} (h : op ∈ callOps junk cs) :
    ∃ c ∈ cs, ∃ j, op ∈ Call.ops j c := by
  induction cs generalizing junk with
  | nil => simp [callOps] at h
  | cons c cs ih =>
    rcases List.mem_append.1 h with h | h
    · exact ⟨c, by simp, _, h⟩
    · obtain ⟨c', h1, h2⟩ := ih h
      exact ⟨c', by simp [h1], h2⟩

theorem mem_heardOps {start : List Call} {junk : Nat → Nat → Nat} {cs : List Call} {op : Midi.Op}
    (h : op ∈ heardOps start junk cs) : ∃ c, (c ∈ cs ∨ c ∈ start) ∧ ∃ j, op ∈ Call.ops j c := by
  induction cs generalizing junk with
  | nil => simp [heardOps] at h
  | cons c cs ih =>
    rcases List.mem_append.1 h with h | h
    · split at h
      · rename_i e
        rcases List.mem_cons.1 h with h | h
        · exact ⟨c, by simp, 0, by rw [e, h]; simp [Call.ops]⟩
        · obtain ⟨c', h1, h2⟩ := mem_callOps h
          exact ⟨c', .inr h1, h2⟩
      · exact ⟨c, by simp, _, h⟩
    · obtain ⟨c', h1, h2⟩ := ih h
      exact ⟨c', h1.imp (List.mem_cons_of_mem _) id, h2⟩

/-- A property of every call made by messages and of the frame's calls holds of the whole history. -/
theorem all_ops {start : List Call} {junk : Nat → Nat → Nat} {cs : List Call} {ops : List Midi.Op} {P : Midi.Op → Prop}
    (e : ops.filter (fun o => !isTick o) = heardOps start junk cs) (ht : P .tick) (hp : P .psgTick)
    (h : ∀ c, (c ∈ cs ∨ c ∈ start) → ∀ j, ∀ op ∈ Call.ops j c, P op) : ∀ op ∈ ops, P op := by
  intro op ho
  by_cases k : isTick op = true
  · cases op <;> simp [isTick] at k <;> assumption
  · have : op ∈ ops.filter (fun o => !isTick o) := List.mem_filter.2 ⟨ho, by simpa using k⟩
    rw [e] at this
    obtain ⟨c, h1, j, h2⟩ := mem_heardOps this
    exact h c h1 j op h2

/-! ### Pieces -/

theorem piece_ops (j : Nat) (x : Piece) : Call.ops j x.call = x.ops j := by
  rcases x with m | b
  · cases m <;> rfl
  · rfl

theorem callOps_pieces (junk : Nat → Nat) (l : List Piece) : callOps junk (l.map Piece.call) = startOps junk l := by
  induction l generalizing junk with
  | nil => rfl
  | cons x l ih => simp only [List.map_cons, callOps, startOps, ih, piece_ops]

theorem heardOps_pieces (start : List Piece) (junk : Nat → Nat → Nat) (l : List Piece) :
    heardOps (start.map Piece.call) junk (l.map Piece.call) = asked start junk l := by
  induction l generalizing junk with
  | nil => rfl
  | cons x l ih =>
    simp only [List.map_cons, heardOps, ih, callOps_pieces]
    rcases x with m | b
    · cases m <;> rfl
    · rfl

theorem piece_wf {x : Piece} (h : x.Ok) {j : Nat} (hj : j < 256) : ∀ op ∈ x.ops j, op.Wf := by
  intro op ho
  rcases x with m | b
  · cases m <;> simp only [Piece.ops, List.mem_cons, List.not_mem_nil, or_false] at ho <;> try subst ho
    · exact ⟨h.1, h.2.1⟩
    · exact h
    · exact h
    · exact h
    · exact h
    · exact ⟨h.1, by have := h.2; omega, hj⟩
    · trivial
  · simp [Piece.ops] at ho

theorem mem_startOps {junk : Nat → Nat} {l : List Piece} {op : Midi.Op} (h : op ∈ startOps junk l) :
    ∃ x ∈ l, ∃ n, op ∈ x.ops (junk n) := by
  induction l generalizing junk with
  | nil => simp [startOps] at h
  | cons x l ih =>
    rcases List.mem_append.1 h with h | h
    · exact ⟨x, by simp, _, h⟩
    · obtain ⟨y, h1, n, h2⟩ := ih h
      exact ⟨y, by simp [h1], _, h2⟩

theorem mem_asked {start : List Piece} {junk : Nat → Nat → Nat} {l : List Piece} {op : Midi.Op}
    (h : op ∈ asked start junk l) : ∃ x, (x ∈ l ∨ x ∈ start) ∧ ∃ n k, op ∈ x.ops (junk n k) := by
  induction l generalizing junk with
  | nil => simp [asked] at h
  | cons x l ih =>
    have rest : op ∈ asked start (fun n => junk (n + 1)) l →
        ∃ y, (y ∈ x :: l ∨ y ∈ start) ∧ ∃ n k, op ∈ y.ops (junk n k) := by
      intro h
      obtain ⟨y, h1, n, k, h2⟩ := ih h
      exact ⟨y, h1.imp (List.mem_cons_of_mem _) id, _, k, h2⟩
    by_cases e : x = .message .systemReset
    · subst e
      simp only [asked, List.cons_append, List.mem_cons, List.mem_append] at h
      rcases h with h | h | h
      · exact ⟨.message .systemReset, .inl (by simp), 0, 0, by simp [Piece.ops, h]⟩
      · obtain ⟨y, h1, n, h2⟩ := mem_startOps h
        exact ⟨y, .inr h1, 0, n, h2⟩
      · exact rest h
    · rw [asked.eq_3 _ _ _ _ (by intro h; exact e h)] at h
      rcases List.mem_append.1 h with h | h
      · exact ⟨x, .inl (by simp), 0, 0, h⟩
      · exact rest h

end Mdmi.Session
