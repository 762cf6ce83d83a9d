import Verif.Model.Port
/-! Reasoning about `Model/Port`: statements about what a piece of code does to the access history. -/
namespace Mdmi.Port

/-- Started with `P` and a history satisfying `J`, the code keeps `J` whenever it is cut off, and
ends, if it ends, with `Q`. -/
def Tri {α : Type} (J : List Acc → Prop) (P : St → Prop) (m : M α) (Q : α → St → Prop) : Prop :=
  ∀ s, J s.acc → P s → J (m s).2.acc ∧ ∀ a, (m s).1 = some a → Q a (m s).2

variable {α β : Type} {J : List Acc → Prop} {P : St → Prop} {p : Nat}

theorem Tri.bind {m : M α} {f : α → M β} {R : α → St → Prop} {Q : β → St → Prop}
    (h : Tri J P m R) (k : ∀ a, Tri J (R a) (f a) Q) : Tri J P (m >>= f) Q := by
  intro s hj hp
  have := h s hj hp
  show J (M.bind m f s).2.acc ∧ _
  have e : (m >>= f) s = M.bind m f s := rfl
  rw [e]
  unfold M.bind
  rcases hm : m s with ⟨_ | a, t⟩
  · rw [hm] at this; exact ⟨this.1, fun a x => by cases x⟩
  · rw [hm] at this; exact k a t this.1 (this.2 a rfl)

theorem Tri.pure {a : α} {Q : α → St → Prop} (h : ∀ s, J s.acc → P s → Q a s) : Tri J P (Pure.pure a : M α) Q :=
  fun s hj hp => ⟨hj, fun b e => by cases e; exact h s hj hp⟩

theorem Tri.get {f : St → α} {Q : α → St → Prop} (h : ∀ s, J s.acc → P s → Q (f s) s) : Tri J P (get f) Q :=
  fun s hj hp => ⟨hj, fun b e => by cases e; exact h s hj hp⟩

theorem Tri.put {f : St → St} {Q : Unit → St → Prop} (h : ∀ s, J s.acc → P s → J (f s).acc ∧ Q () (f s)) :
    Tri J P (put f) Q :=
  fun s hj hp => ⟨(h s hj hp).1, fun _ e => by cases e; exact (h s hj hp).2⟩

theorem Tri.stop {Q : α → St → Prop} : Tri J P (stop : M α) Q :=
  fun _ hj _ => ⟨hj, fun _ e => by cases e⟩

theorem Tri.ub {Q : α → St → Prop} : Tri J P (ub : M α) Q :=
  fun _ hj _ => ⟨hj, fun _ e => by cases e⟩

theorem Tri.note {a : Acc} {Q : Unit → St → Prop}
    (h : ∀ s, J s.acc → P s → J (a :: s.acc) ∧ Q () { s with acc := a :: s.acc }) : Tri J P (note a) Q :=
  Tri.put h

theorem Tri.weaken {m : M α} {P' : St → Prop} {Q Q' : α → St → Prop} (h : Tri J P' m Q')
    (h1 : ∀ s, J s.acc → P s → P' s) (h2 : ∀ a s, Q' a s → Q a s) : Tri J P m Q :=
  fun s hj hp => ⟨(h s hj (h1 s hj hp)).1, fun a e => h2 a _ ((h s hj (h1 s hj hp)).2 a e)⟩

theorem Tri.ite {c : Prop} [Decidable c] {m n : M α} {Q : α → St → Prop} (h1 : c → Tri J P m Q) (h2 : ¬c → Tri J P n Q) :
    Tri J P (if c then m else n) Q := by
  by_cases h : c
  · rw [if_pos h]; exact h1 h
  · rw [if_neg h]; exact h2 h

/-- Assertions an interrupt does not disturb. -/
structure Calm (p : Nat) (J : List Acc → Prop) (P : St → Prop) : Prop where
  port : ∀ s, P s → s.irqOn = true → s.ioPort = p
  hw : ∀ s h, P s → P { s with hw := h }
  stat : ∀ s v, v < 256 → J s.acc → P s → J (.r8 (sctrl p) v :: s.acc) ∧ P { s with acc := .r8 (sctrl p) v :: s.acc }
  recv : ∀ s v w, v < 256 → w < 256 → v &&& 2 ≠ 0 → J s.acc → P s →
    J (.r8 (rx p) w :: .r8 (sctrl p) v :: s.acc) ∧ P { s with acc := .r8 (rx p) w :: .r8 (sctrl p) v :: s.acc }

/-- Adding something interrupts do not change. -/
theorem Calm.and {X : St → Prop} (c : Calm p J P) (hx : ∀ s h a, X s → X { s with hw := h, acc := a }) :
    Calm p J fun s => P s ∧ X s where
  port s h := c.port s h.1
  hw s h k := ⟨c.hw s h k.1, hx s h s.acc k.2⟩
  stat s v hv hj hp := ⟨(c.stat s v hv hj hp.1).1, (c.stat s v hv hj hp.1).2, hx s s.hw _ hp.2⟩
  recv s v w hv hw h2 hj hp :=
    ⟨(c.recv s v w hv hw h2 hj hp.1).1, (c.recv s v w hv hw h2 hj hp.1).2, hx s s.hw _ hp.2⟩

variable (c : Calm p J P)
include c

theorem rawAsk_tri {Q : Nat → St → Prop} (h : ∀ s v, J s.acc → P s → Q v s) : Tri J P rawAsk Q := by
  intro s hj hp
  unfold rawAsk
  split
  · exact ⟨hj, fun _ e => by cases e⟩
  · rename_i v r _
    exact ⟨hj, fun _ e => by cases e; exact h { s with hw := r } v hj (c.hw s r hp)⟩

theorem rawR8_tri {a : Nat} {Q : Nat → St → Prop}
    (h : ∀ s v, v < 256 → J s.acc → P s → J (.r8 a v :: s.acc) ∧ Q v { s with acc := .r8 a v :: s.acc }) :
    Tri J P (rawR8 a) Q := by
  unfold rawR8
  refine Tri.bind (rawAsk_tri c (Q := fun _ => P) fun _ _ _ x => x) fun v => ?_
  refine Tri.bind (Tri.note (Q := fun _ => Q (v % 256)) fun s hj hp => h s _ (Nat.mod_lt _ (by decide)) hj hp) fun _ => ?_
  exact Tri.pure fun _ _ x => x

/-- One round of the interrupt handler. -/
theorem isrRound_tri (hu : ∀ s, P s → s.irqOn = true) {m : M Unit} (hm : Tri J P m fun _ => P) :
    Tri J P (do
      let st ← rawR8 (sctrl (← get (·.ioPort)))
      if st &&& 2 = 0 then pure () else
      let _ ← rawR8 (rx (← get (·.ioPort)))
      m) fun _ => P := by
  have g : ∀ {Q : St → Prop}, (∀ s, Q s → s.ioPort = p) → Tri J Q (get (·.ioPort)) fun q s => Q s ∧ q = p :=
    fun h => Tri.get fun s _ hp => ⟨hp, h s hp⟩
  refine Tri.bind (g fun s h => c.port s h (hu s h)) fun q => ?_
  refine Tri.bind (R := fun v s => v < 256 ∧ ∃ t h, J t.acc ∧ P t ∧ s = { t with hw := h, acc := .r8 (sctrl p) v :: t.acc })
    (fun s hj hp => ?_) fun v => ?_
  · obtain ⟨hp, rfl⟩ := hp
    refine rawR8_tri (a := sctrl q) c (Q := fun v s => v < 256 ∧ ∃ t h, J t.acc ∧ P t ∧
      s = { t with hw := h, acc := .r8 (sctrl q) v :: t.acc })
      (fun s v hv hj hp => ⟨(c.stat s v hv hj hp).1, hv, s, s.hw, hj, hp, rfl⟩) s hj hp
  have back : ∀ s : St, (v < 256 ∧ ∃ t h, J t.acc ∧ P t ∧ s = { t with hw := h, acc := .r8 (sctrl p) v :: t.acc }) → P s := by
    rintro s ⟨hv, t, h, hj, hp, rfl⟩
    exact c.hw _ h (c.stat t v hv hj hp).2
  refine Tri.ite (fun _ => Tri.pure fun s _ x => back s x) fun h2 => ?_
  refine Tri.bind (g fun s h => c.port s (back s h) (hu s (back s h))) fun q => ?_
  refine Tri.bind (R := fun _ => P) (fun s hj hp => ?_) fun _ => hm
  obtain ⟨⟨hv, t, h, hjt, hpt, rfl⟩, rfl⟩ := hp
  unfold rawR8
  refine Tri.bind (J := J) (R := fun _ s => ∃ h, s = { t with hw := h, acc := .r8 (sctrl q) v :: t.acc })
    (P := fun s => s = { t with hw := h, acc := .r8 (sctrl q) v :: t.acc }) ?_ (fun w => ?_) _ hj rfl
  · rintro s hj rfl
    unfold rawAsk
    split
    · exact ⟨hj, fun _ e => by cases e⟩
    · exact ⟨hj, fun _ e => by cases e; exact ⟨_, rfl⟩⟩
  · refine Tri.bind (R := fun _ => P) (Tri.note fun s hj hp => ?_) fun _ => Tri.pure fun _ _ x => x
    obtain ⟨h, rfl⟩ := hp
    have k := c.recv t v (w % 256) hv (Nat.mod_lt _ (by decide)) h2 hjt hpt
    exact ⟨k.1, c.hw _ h k.2⟩

theorem isr_tri (hu : ∀ s, P s → s.irqOn = true) (n : Nat) : Tri J P (isr n) fun _ => P := by
  induction n with
  | zero => exact isrRound_tri c hu (Tri.pure fun _ _ x => x)
  | succ n ih => exact isrRound_tri c hu ih

theorem irqs_tri (n : Nat) : Tri J P (irqs n) fun _ => P := by
  induction n with
  | zero => exact Tri.pure fun _ _ x => x
  | succ n ih =>
    intro s hj hp
    unfold irqs
    split
    · rename_i room r e
      by_cases hu : s.irqOn = true
      · rw [if_pos hu]
        have c' : Calm p J fun s => P s ∧ s.irqOn = true := c.and fun _ _ _ h => h
        exact Tri.bind (R := fun _ => P) ((isr_tri c' (fun _ h => h.2) room).weaken (P := fun s => P s ∧ s.irqOn = true)
          (fun _ _ h => h) fun _ _ h => h.1) (fun _ => ih) _ hj ⟨c.hw s r hp, hu⟩
      · rw [if_neg hu]; exact ih _ hj (c.hw s r hp)
    · exact ⟨hj, fun _ _ => hp⟩

theorem serve_tri : Tri J P serve fun _ => P := fun s => irqs_tri c s.hw.length s

theorem ask_tri {Q : Nat → St → Prop} (h : ∀ s v, J s.acc → P s → Q v s) : Tri J P ask Q :=
  Tri.bind (serve_tri c) fun _ => rawAsk_tri c h

theorem r8_tri {a : Nat} {Q : Nat → St → Prop}
    (h : ∀ s v, v < 256 → J s.acc → P s → J (.r8 a v :: s.acc) ∧ Q v { s with acc := .r8 a v :: s.acc }) :
    Tri J P (r8 a) Q :=
  Tri.bind (serve_tri c) fun _ => rawR8_tri c h

theorem r16_tri {a : Nat} {Q : Nat → St → Prop}
    (h : ∀ s v, v < 65536 → J s.acc → P s → J (.r16 a v :: s.acc) ∧ Q v { s with acc := .r16 a v :: s.acc }) :
    Tri J P (r16 a) Q := by
  unfold r16
  refine Tri.bind (serve_tri c) fun _ => Tri.bind (rawAsk_tri c (Q := fun _ => P) fun _ _ _ x => x) fun v => ?_
  refine Tri.bind (Tri.note (Q := fun _ => Q (v % 65536)) fun s hj hp => h s _ (Nat.mod_lt _ (by decide)) hj hp) fun _ => ?_
  exact Tri.pure fun _ _ x => x

theorem w8_tri {a v : Nat} {Q : Unit → St → Prop}
    (h : ∀ s, J s.acc → P s → J (.w8 a v :: s.acc) ∧ Q () { s with acc := .w8 a v :: s.acc }) : Tri J P (w8 a v) Q :=
  Tri.bind (serve_tri c) fun _ => Tri.note h

theorem w16_tri {a v : Nat} {Q : Unit → St → Prop}
    (h : ∀ s, J s.acc → P s → J (.w16 a v :: s.acc) ∧ Q () { s with acc := .w16 a v :: s.acc }) : Tri J P (w16 a v) Q :=
  Tri.bind (serve_tri c) fun _ => Tri.note h

omit c in
theorem spin_tri {ready : M Bool} {Q : St → Prop} (h : Tri J P ready fun b s => if b then Q s else P s) :
    Tri J P (spin ready) fun _ => Q := by
  suffices H : ∀ n, Tri J P (poll ready n) fun _ => Q from fun s => H (s.hw.length + 1) s
  intro n
  induction n with
  | zero => exact Tri.stop
  | succ n ih =>
    unfold poll
    refine Tri.bind h fun b => ?_
    cases b
    · exact ih
    · exact Tri.pure fun _ _ x => x

variable (hu : ∀ s, P s → s.irqOn = true)
include hu

theorem sctrl_tri {Q : Nat → St → Prop}
    (h : ∀ s v, v < 256 → J s.acc → P s → J (.r8 (sctrl p) v :: s.acc) ∧ Q v { s with acc := .r8 (sctrl p) v :: s.acc }) :
    Tri J P serialSctrl Q := by
  unfold serialSctrl
  refine Tri.bind (R := fun q s => P s ∧ q = p) (Tri.get fun s _ hp => ⟨hp, c.port s hp (hu s hp)⟩) fun q => ?_
  intro s hj hp
  obtain ⟨hp, rfl⟩ := hp
  exact r8_tri c h s hj hp

theorem readyToReceive_tri {Q : Bool → St → Prop}
    (h : ∀ s v, v < 256 → J s.acc → P s → J (.r8 (sctrl p) v :: s.acc) ∧
      Q (decide (v &&& 2 ≠ 0)) { s with acc := .r8 (sctrl p) v :: s.acc }) : Tri J P readyToReceive Q := by
  unfold readyToReceive
  refine Tri.bind (R := fun q s => P s ∧ q = p) (Tri.get fun s _ hp => ⟨hp, c.port s hp (hu s hp)⟩) fun q => ?_
  intro s hj hp
  obtain ⟨hp, rfl⟩ := hp
  exact Tri.bind (r8_tri c h) (fun v => Tri.pure fun _ _ x => x) s hj hp

theorem readyToSend_tri {Q : Bool → St → Prop}
    (h : ∀ s v, v < 256 → J s.acc → P s → J (.r8 (sctrl p) v :: s.acc) ∧
      Q (decide (v &&& 1 = 0)) { s with acc := .r8 (sctrl p) v :: s.acc }) : Tri J P readyToSend Q := by
  unfold readyToSend
  refine Tri.bind (R := fun q s => P s ∧ q = p) (Tri.get fun s _ hp => ⟨hp, c.port s hp (hu s hp)⟩) fun q => ?_
  intro s hj hp
  obtain ⟨hp, rfl⟩ := hp
  exact Tri.bind (r8_tri c h) (fun v => Tri.pure fun _ _ x => x) s hj hp

theorem receive_tri (hr : ∀ s w, w < 256 → J s.acc → P s → J (.r8 (rx p) w :: s.acc) ∧ P { s with acc := .r8 (rx p) w :: s.acc }) :
    Tri J P receive fun _ => P := by
  unfold receive
  refine Tri.bind (R := fun q s => P s ∧ q = p) (Tri.get fun s _ hp => ⟨hp, c.port s hp (hu s hp)⟩) fun q => ?_
  intro s hj hp
  obtain ⟨hp, rfl⟩ := hp
  exact r8_tri c hr s hj hp

theorem serialSend_tri {b : Nat} {Q : Unit → St → Prop}
    (h : ∀ s, J s.acc → P s → J (.w8 (tx p) b :: s.acc) ∧ Q () { s with acc := .w8 (tx p) b :: s.acc }) :
    Tri J P (serialSend b) Q := by
  unfold serialSend
  refine Tri.bind (R := fun q s => P s ∧ q = p) (Tri.get fun s _ hp => ⟨hp, c.port s hp (hu s hp)⟩) fun q => ?_
  intro s hj hp
  obtain ⟨hp, rfl⟩ := hp
  exact w8_tri c h s hj hp

theorem flushRrdy_tri (hr : ∀ s w, w < 256 → J s.acc → P s → J (.r8 (rx p) w :: s.acc) ∧ P { s with acc := .r8 (rx p) w :: s.acc }) :
    Tri J P flushRrdy fun _ => P := by
  suffices H : ∀ n, Tri J P (flush n) fun _ => P from fun s => H (s.hw.length + 1) s
  intro n
  induction n with
  | zero => exact Tri.stop
  | succ n ih =>
    unfold flush
    refine Tri.bind (R := fun _ => P) (readyToReceive_tri c hu fun s v hv hj hp => c.stat s v hv hj hp) fun b => ?_
    cases b
    · exact Tri.pure fun _ _ x => x
    · exact Tri.bind (receive_tri c hu hr) fun _ => ih

end Mdmi.Port
