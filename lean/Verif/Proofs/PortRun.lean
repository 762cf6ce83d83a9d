import Verif.Proofs.Port
import Verif.Spec.Port
/-! Whole sessions of the links: gates, LED, register map and presence. -/
namespace Mdmi.Port

theorem sctrl_of (p : Nat) : sctrl p = (Uart.of p).status := by cases p <;> simp [sctrl, Uart.of]
theorem ctrl_of (p : Nat) : ctrl p = (Uart.of p).dir := by cases p <;> simp [ctrl, Uart.of]
theorem tx_of (p : Nat) : tx p = (Uart.of p).txData := by cases p <;> simp [tx, Uart.of]
theorem rx_of (p : Nat) : rx p = (Uart.of p).rxData := by cases p <;> simp [rx, Uart.of]

theorem Gate.open_cons {g : Gate} {a : Acc} {l : List Acc} (h : g.open l = true) (n : g.use a = false) :
    g.open (a :: l) = true := by simp [Gate.open, h, n]

theorem Gate.open_ok {g : Gate} {a : Acc} {l : List Acc} (h : g.ok a = true) : g.open (a :: l) = true := by
  simp [Gate.open, h]

theorem IsX7.cons {l : List Acc} (a : Acc) (h : IsX7 l) : IsX7 (a :: l) :=
  h.imp fun _ x => ⟨List.mem_cons_of_mem _ x.1, x.2⟩

theorem IsPro.cons {l : List Acc} (a : Acc) (h : IsPro l) : IsPro (a :: l) :=
  h.imp fun _ x => ⟨List.mem_cons_of_mem _ x.1, x.2⟩

/-- What holds of the history at every moment; `B` is the history at the end of start-up. -/
structure Hist (p : Nat) (B : Option (List Acc)) (l : List Acc) : Prop where
  tx : (serialTx p).Obeyed l
  x7tx : x7Tx.Obeyed l
  x7rx : x7Rx.Obeyed l
  prorx : proRx.Obeyed l
  led : LedOk l
  known : ∀ a ∈ l, Known p a
  usb : ∀ a ∈ l, a.addr = 0xA130E2 → IsX7 l
  fifo : ∀ a ∈ l, a.addr = 0xA130D0 ∨ a.addr = 0xA130D2 → IsPro l
  ledReg : ∀ a ∈ l, a.addr = 0xA130F0 → IsX7 l ∨ IsPro l
  rx : ∀ base, B = some base → ∃ new, l = new ++ base ∧ (serialRx p).Obeyed new

theorem Hist.nil (p : Nat) : Hist p none [] :=
  ⟨trivial, trivial, trivial, trivial, trivial, fun _ h => by simp at h, fun _ h => by simp at h,
    fun _ h => by simp at h, fun _ h => by simp at h, fun _ h => by cases h⟩

theorem Hist.cons {p : Nat} {B : Option (List Acc)} {a : Acc} {l : List Acc} (h : Hist p B l) (k : Known p a)
    (t : (serialTx p).use a = true → (serialTx p).open l = true) (t2 : x7Tx.use a = true → x7Tx.open l = true)
    (t3 : x7Rx.use a = true → x7Rx.open l = true) (t4 : proRx.use a = true → proRx.open l = true)
    (d : ∀ v, a = .w16 0xA130F0 v → v = if lit l then 0x8000 else 0x9000)
    (u : a.addr = 0xA130E2 → IsX7 l) (f : a.addr = 0xA130D0 ∨ a.addr = 0xA130D2 → IsPro l)
    (r : a.addr = 0xA130F0 → IsX7 l ∨ IsPro l) (q : B = none ∨ (serialRx p).use a = false) : Hist p B (a :: l) where
  tx := ⟨h.tx, t⟩
  x7tx := ⟨h.x7tx, t2⟩
  x7rx := ⟨h.x7rx, t3⟩
  prorx := ⟨h.prorx, t4⟩
  led := ⟨h.led, d⟩
  known := by
    intro b hb
    rcases List.mem_cons.1 hb with rfl | hb
    · exact k
    · exact h.known b hb
  usb := by
    intro b hb e
    rcases List.mem_cons.1 hb with rfl | hb
    · exact (u e).cons _
    · exact (h.usb b hb e).cons _
  fifo := by
    intro b hb e
    rcases List.mem_cons.1 hb with rfl | hb
    · exact (f e).cons _
    · exact (h.fifo b hb e).cons _
  ledReg := by
    intro b hb e
    rcases List.mem_cons.1 hb with rfl | hb
    · exact (r e).imp (·.cons _) (·.cons _)
    · exact (h.ledReg b hb e).imp (·.cons _) (·.cons _)
  rx := by
    intro base e
    obtain ⟨new, x, o⟩ := h.rx base e
    rcases q with q | q
    · rw [q] at e; cases e
    · exact ⟨a :: new, by rw [x]; rfl, o, fun u => by rw [q] at u; cases u⟩

/-- A byte-wide read. -/
theorem Hist.r8 {p r v : Nat} {B : Option (List Acc)} {l : List Acc} (h : Hist p B l) (k : Known p (.r8 r v)) (q : B = none ∨ r ≠ (Uart.of p).rxData) :
    Hist p B (.r8 r v :: l) := by
  have n : r < 0xA130D0 := by
    rcases k with rfl | rfl | rfl
    · cases p <;> simp [Uart.of]
    · cases p <;> simp [Uart.of]
    · decide
  refine h.cons k (fun e => by simp [serialTx] at e) (fun e => by simp [x7Tx] at e) (fun e => by simp [x7Rx] at e)
    (fun e => by simp [proRx] at e) (fun _ e => by cases e) (fun e => ?_) (fun e => ?_) (fun e => ?_) ?_
  · simp only [Acc.addr] at e; omega
  · simp only [Acc.addr] at e; omega
  · simp only [Acc.addr] at e; omega
  · first
    | exact q.imp id fun h => by simpa [serialRx] using h
    | exact .inr rfl

theorem Hist.w8 {p r v : Nat} {B : Option (List Acc)} {l : List Acc} (h : Hist p B l) (k : Known p (.w8 r v))
    (t : r = (Uart.of p).txData → (serialTx p).open l = true) : Hist p B (.w8 r v :: l) := by
  have n : r < 0xA130D0 := by
    rcases k with ⟨rfl, _⟩ | ⟨rfl, _⟩ | rfl | ⟨rfl, _⟩
    · cases p <;> simp [Uart.of]
    · cases p <;> simp [Uart.of]
    · cases p <;> simp [Uart.of]
    · decide
  refine h.cons k (fun e => t (by simpa [serialTx] using e)) (fun e => by simp [x7Tx] at e) (fun e => by simp [x7Rx] at e)
    (fun e => by simp [proRx] at e) (fun _ e => by cases e) (fun e => ?_) (fun e => ?_) (fun e => ?_) ?_
  · simp only [Acc.addr] at e; omega
  · simp only [Acc.addr] at e; omega
  · simp only [Acc.addr] at e; omega
  · first
    | exact q.imp id fun h => by simpa [serialRx] using h
    | exact .inr rfl

theorem Hist.r16 {p r v : Nat} {B : Option (List Acc)} {l : List Acc} (h : Hist p B l) (k : Known p (.r16 r v))
    (t3 : r = 0xA130E2 → x7Rx.open l = true) (t4 : r = 0xA130D0 → proRx.open l = true)
    (u : r = 0xA130E2 → IsX7 l) (f : r = 0xA130D0 ∨ r = 0xA130D2 → IsPro l) : Hist p B (.r16 r v :: l) := by
  refine h.cons k (fun e => by simp [serialTx] at e) (fun e => by simp [x7Tx] at e) (fun e => t3 (by simpa [x7Rx] using e))
    (fun e => t4 (by simpa [proRx] using e)) (fun _ e => by cases e) u f (fun e => ?_) (.inr (by
      simp only [serialRx, beq_eq_false_iff_ne, ne_eq]))
  simp only [Acc.addr] at e
  simp only [Known] at k
  omega

theorem Hist.w16 {p r v : Nat} {B : Option (List Acc)} {l : List Acc} (h : Hist p B l) (k : Known p (.w16 r v))
    (t2 : r = 0xA130E2 → x7Tx.open l = true) (d : r = 0xA130F0 → v = if lit l then 0x8000 else 0x9000)
    (u : r = 0xA130E2 → IsX7 l) (f : r = 0xA130D0 → IsPro l) (lr : r = 0xA130F0 → IsX7 l ∨ IsPro l) :
    Hist p B (.w16 r v :: l) := by
  refine h.cons k (fun e => by simp [serialTx] at e) (fun e => t2 (by simpa [x7Tx] using e)) (fun e => by simp [x7Rx] at e)
    (fun e => by simp [proRx] at e) (fun w e => ?_) u (fun e => ?_) lr (.inr rfl)
  · cases e; exact d rfl
  · simp only [Acc.addr] at e
    simp only [Known] at k
    rcases e with e | e
    · exact f e
    · omega

/-- The interrupt: a status read that says a byte has arrived, then the byte. -/
theorem Hist.recv {p v w : Nat} {B : Option (List Acc)} {l : List Acc} (h : Hist p B l) (hv : v &&& 2 ≠ 0) :
    Hist p B (.r8 (Port.rx p) w :: .r8 (sctrl p) v :: l) := by
  have bit : v / 2 % 2 = 1 := by
    have e : v.testBit 1 = decide (v / 2 ^ 1 % 2 = 1) := Nat.testBit_eq_decide_div_mod_eq
    cases hb : v.testBit 1 with
    | true => rw [hb] at e; simpa using e.symm
    | false =>
      refine absurd (Nat.eq_of_testBit_eq fun i => ?_) hv
      rw [show (2 : Nat) = 2 ^ 1 by decide, Nat.testBit_and, Nat.testBit_two_pow]
      by_cases hi : 1 = i
      · subst hi; simp [hb]
      · simp [hi]
  have n : Known p (.r8 (sctrl p) v) := .inl (sctrl_of p)
  have h0 : Hist p none l := ⟨h.tx, h.x7tx, h.x7rx, h.prorx, h.led, h.known, h.usb, h.fifo, h.ledReg, fun _ e => by cases e⟩
  have h1 := (h0.r8 n (.inl rfl)).r8 (r := Port.rx p) (v := w) (.inr (.inl (rx_of p))) (.inl rfl)
  refine ⟨h1.tx, h1.x7tx, h1.x7rx, h1.prorx, h1.led, h1.known, h1.usb, h1.fifo, h1.ledReg, fun base e => ?_⟩
  obtain ⟨new, rfl, o⟩ := h.rx base e
  refine ⟨.r8 (Port.rx p) w :: .r8 (sctrl p) v :: new, rfl, ⟨o, fun u => ?_⟩, fun _ => ?_⟩
  · simp only [serialRx, sctrl_of, beq_iff_eq] at u
    cases p <;> simp [Uart.of] at u
  · exact Gate.open_ok (by simp [serialRx, sctrl_of, bit])

theorem status_ne (p : Nat) : (Uart.of p).status ≠ (Uart.of p).rxData := by cases p <;> simp [Uart.of]

/-- What holds of the variables between two accesses. -/
structure Soft (p : Nat) (s : St) : Prop where
  port : s.irqOn = true → s.ioPort = p
  led : s.led = lit s.acc
  x7 : s.x7 = true → IsX7 s.acc
  pro : s.pro = true → IsPro s.acc
  actX : s.active = some .x7 → s.x7 = true
  actP : s.active = some .pro → s.pro = true
  actS : s.active = some .serial → s.irqOn = true

theorem Soft.acc {p : Nat} {s : St} {a : Acc} (h : Soft p s) (n : lit (a :: s.acc) = lit s.acc) :
    Soft p { s with acc := a :: s.acc } :=
  ⟨h.port, by rw [n]; exact h.led, fun e => (h.x7 e).cons a, fun e => (h.pro e).cons a, h.actX, h.actP, h.actS⟩

/-- Gates that are open. -/
def Opened (G : Gate → Prop) (s : St) : Prop := ∀ g, G g → g.open s.acc = true

/-- No gate closed by a byte-wide read or the LED. -/
def Deaf (g : Gate) : Prop := (∀ r v, g.use (.r8 r v) = false) ∧ ∀ v, g.use (.w16 0xA130F0 v) = false

/-- An assertion about the history, open gates, and the flags. -/
def Now (p : Nat) (G : Gate → Prop) (X : Bool → Bool → Bool → Option Link → Prop) (s : St) : Prop :=
  Soft p s ∧ Opened G s ∧ X s.x7 s.pro s.irqOn s.active

/-- No gate in particular. -/
abbrev Shut : Gate → Prop := fun _ => False

variable {p : Nat} {B : Option (List Acc)} {G : Gate → Prop} {X : Bool → Bool → Bool → Option Link → Prop}

theorem calm (hG : ∀ g, G g → Deaf g) : Calm p (Hist p B) (Now p G X) where
  port s h := h.1.port
  hw s h k := ⟨⟨k.1.port, k.1.led, k.1.x7, k.1.pro, k.1.actX, k.1.actP, k.1.actS⟩, k.2⟩
  stat s v hv hj hp :=
    ⟨hj.r8 (.inl (sctrl_of p)) (.inr (by rw [sctrl_of]; exact status_ne p)), hp.1.acc rfl,
      fun g hg => Gate.open_cons (hp.2.1 g hg) ((hG g hg).1 _ v), hp.2.2⟩
  recv s v w hv hw h2 hj hp := by
    have b := (hp.1.acc (a := .r8 (sctrl p) v) rfl).acc (a := .r8 (rx p) w) rfl
    exact ⟨hj.recv h2, b, fun g hg => Gate.open_cons (Gate.open_cons (hp.2.1 g hg) ((hG g hg).1 _ v)) ((hG g hg).1 _ w), hp.2.2⟩

theorem shut_calm : Calm p (Hist p B) (Now p Shut X) := calm fun _ h => h.elim

theorem Now.shut {s : St} (h : Now p G X s) : Now p Shut X s := ⟨h.1, fun _ x => x.elim, h.2.2⟩

theorem x7Rx_deaf : ∀ g, g = x7Rx → Deaf g := by rintro _ rfl; exact ⟨fun _ _ => rfl, fun _ => rfl⟩
theorem proRx_deaf : ∀ g, g = proRx → Deaf g := by rintro _ rfl; exact ⟨fun _ _ => rfl, fun _ => rfl⟩
theorem x7Tx_deaf : ∀ g, g = x7Tx → Deaf g := by
  rintro _ rfl; exact ⟨fun _ _ => rfl, fun _ => by simp [x7Tx]⟩
theorem serialTx_deaf : ∀ g, g = serialTx p → Deaf g := by rintro _ rfl; exact ⟨fun _ _ => rfl, fun _ => rfl⟩

theorem band_bit (v k : Nat) : v &&& 2 ^ k ≠ 0 ↔ v / 2 ^ k % 2 = 1 := by
  have e : v.testBit k = decide (v / 2 ^ k % 2 = 1) := Nat.testBit_eq_decide_div_mod_eq
  rw [← decide_eq_true_iff (p := v / 2 ^ k % 2 = 1), ← e]
  constructor
  · intro h
    cases hb : v.testBit k with
    | true => rfl
    | false =>
      refine absurd (Nat.eq_of_testBit_eq fun i => ?_) h
      rw [Nat.testBit_and, Nat.testBit_two_pow]
      by_cases hi : k = i
      · subst hi; simp [hb]
      · simp [hi]
  · intro h z
    have := congrArg (Nat.testBit · k) z
    simp [Nat.testBit_and, Nat.testBit_two_pow, h] at this

/-! ## Serial link -/

theorem readyToSend_now (hX : ∀ x q u a, X x q u a → u = true) : Tri (Hist p B) (Now p Shut X) readyToSend
    fun b s => if b then Now p (· = serialTx p) X s else Now p Shut X s := by
  refine readyToSend_tri shut_calm (fun s h => hX _ _ _ _ h.2.2) fun s v hv hj hp => ?_
  have k : Known p (.r8 (sctrl p) v) := .inl (sctrl_of p)
  refine ⟨hj.r8 k (.inr (by rw [sctrl_of]; exact status_ne p)), ?_⟩
  have b := hp.1.acc (a := .r8 (sctrl p) v) rfl
  have hb := band_bit v 0
  simp only [Nat.pow_zero, Nat.div_one] at hb
  by_cases e : v &&& 1 = 0
  · simp only [e, decide_true, if_true]
    refine ⟨b, ?_, hp.2.2⟩
    rintro g rfl
    refine Gate.open_ok ?_
    simp only [serialTx, sctrl_of, beq_self_eq_true, Bool.true_and, beq_iff_eq]
    have : ¬ v % 2 = 1 := fun h => hb.2 h e
    omega
  · simp only [e, decide_false]
    exact ⟨b, fun _ x => x.elim, hp.2.2⟩

theorem commSerialWrite_now (hX : ∀ x q u a, X x q u a → u = true) (data : List Nat) : Tri (Hist p B) (Now p Shut X) (commSerialWrite data) fun _ => Now p Shut X := by
  induction data with
  | nil => exact Tri.pure fun _ _ x => x
  | cons b rest ih =>
    unfold commSerialWrite
    refine Tri.bind (spin_tri (readyToSend_now hX)) fun _ => Tri.bind (R := fun _ => Now p Shut X) ?_ fun _ => ih
    refine serialSend_tri (calm serialTx_deaf) (fun s h => hX _ _ _ _ h.2.2) fun s hj hp => ⟨?_, ?_⟩
    · exact hj.w8 (.inr (.inr (.inl (tx_of p)))) fun _ => hp.2.1 _ rfl
    · exact ⟨hp.1.acc rfl, fun _ x => x.elim, hp.2.2⟩

/-! ## LED -/

theorem ledBlink_now (hG : ∀ g, G g → Deaf g) (hX : ∀ x q u a, X x q u a → x = true ∨ q = true) :
    Tri (Hist p B) (Now p G X) ledBlink fun _ => Now p G X := by
  unfold ledBlink
  refine Tri.bind (R := fun b s => Now p G X s ∧ b = s.led) (Tri.get fun _ _ x => ⟨x, rfl⟩) fun b => ?_
  cases b with
  | true => exact Tri.pure fun _ _ x => x.1
  | false =>
    have c : Calm p (Hist p B) fun s => Now p G X s ∧ false = s.led :=
      (calm hG).and fun _ _ _ h => h
    refine Tri.bind (R := fun _ s => ∃ t, (Now p G X t ∧ Opened G s ∧ t.acc = s.acc.tail) ∧ lit s.acc = true ∧
        s = { t with acc := s.acc }) ?_ fun _ => ?_
    · refine w16_tri c fun s hj hp => ?_
      have hl : lit s.acc = false := by rw [← hp.1.1.led]; exact hp.2.symm
      have lic : IsX7 s.acc ∨ IsPro s.acc := (hX _ _ _ _ hp.1.2.2).imp hp.1.1.x7 hp.1.1.pro
      refine ⟨hj.w16 (.inr (.inr ⟨rfl, .inr rfl⟩)) (fun e => absurd e (by decide)) (fun _ => by simp [hl])
        (fun e => absurd e (by decide)) (fun e => absurd e (by decide)) (fun _ => lic), ?_⟩
      exact ⟨s, ⟨hp.1, fun g hg => Gate.open_cons (hp.1.2.1 g hg) ((hG g hg).2 _), rfl⟩, rfl, rfl⟩
    · refine Tri.put fun s hj hp => ⟨hj, ?_⟩
      obtain ⟨t, ⟨ht, ho, et⟩, hl, e⟩ := hp
      have mx : IsX7 t.acc → IsX7 s.acc := by
        rw [et]; rintro ⟨v, hv, h⟩; exact ⟨v, List.mem_of_mem_tail hv, h⟩
      have mp : IsPro t.acc → IsPro s.acc := by
        rw [et]; rintro ⟨v, hv, h⟩; exact ⟨v, List.mem_of_mem_tail hv, h⟩
      rw [e]
      exact ⟨⟨ht.1.port, hl.symm, fun x => mx (ht.1.x7 x), fun x => mp (ht.1.pro x), ht.1.actX, ht.1.actP, ht.1.actS⟩, ho, ht.2.2⟩

theorem ledTick_now : Tri (Hist p B) (Now p Shut X) ledTick fun _ => Now p Shut X := by
  unfold ledTick
  refine Tri.bind (R := fun b s => Now p Shut X s ∧ b = s.led) (Tri.get fun _ _ x => ⟨x, rfl⟩) fun b => ?_
  cases b with
  | false => exact Tri.pure fun _ _ x => x.1
  | true =>
    have c : Calm p (Hist p B) fun s => Now p Shut X s ∧ true = s.led :=
      shut_calm.and fun _ _ _ h => h
    refine Tri.bind (R := fun _ s => ∃ t, (Now p Shut X t ∧ t.acc = s.acc.tail) ∧ lit s.acc = false ∧
        s = { t with acc := s.acc }) ?_ fun _ => ?_
    · refine w16_tri c fun s hj hp => ?_
      have hl : lit s.acc = true := by rw [← hp.1.1.led]; exact hp.2.symm
      have lic : IsX7 s.acc ∨ IsPro s.acc := by
        have : ∀ l, lit l = true → ∃ a ∈ l, a.addr = 0xA130F0 := by
          intro l
          induction l with
          | nil => intro h; cases h
          | cons a l ih =>
            intro h
            cases a with
            | w16 r v =>
              by_cases e : r = 0xA130F0
              · exact ⟨_, List.mem_cons_self .., e⟩
              · simp only [lit, e, if_false] at h
                obtain ⟨b, hb, x⟩ := ih h
                exact ⟨b, List.mem_cons_of_mem _ hb, x⟩
            | _ =>
              obtain ⟨b, hb, x⟩ := ih h
              exact ⟨b, List.mem_cons_of_mem _ hb, x⟩
        obtain ⟨a, ha, e⟩ := this _ hl
        exact hj.ledReg a ha e
      refine ⟨hj.w16 (.inr (.inr ⟨rfl, .inl rfl⟩)) (fun e => absurd e (by decide)) (fun _ => by simp [hl])
        (fun e => absurd e (by decide)) (fun e => absurd e (by decide)) (fun _ => lic), ?_⟩
      exact ⟨s, ⟨hp.1, rfl⟩, rfl, rfl⟩
    · refine Tri.put fun s hj hp => ⟨hj, ?_⟩
      obtain ⟨t, ⟨ht, et⟩, hl, e⟩ := hp
      have mx : IsX7 t.acc → IsX7 s.acc := by
        rw [et]; rintro ⟨v, hv, h⟩; exact ⟨v, List.mem_of_mem_tail hv, h⟩
      have mp : IsPro t.acc → IsPro s.acc := by
        rw [et]; rintro ⟨v, hv, h⟩; exact ⟨v, List.mem_of_mem_tail hv, h⟩
      rw [e]
      exact ⟨⟨ht.1.port, hl.symm, fun x => mx (ht.1.x7 x), fun x => mp (ht.1.pro x), ht.1.actX, ht.1.actP, ht.1.actS⟩,
        fun _ x => x.elim, ht.2.2⟩

/-! ## Everdrive X7 -/

theorem x7_status {f : Nat → Bool} {H : Gate → Prop} (hf : ∀ s : St, ∀ v, f v = true → Opened H { s with acc := .r16 0xA130E4 v :: s.acc }) :
    Tri (Hist p B) (Now p Shut X) (do let v ← r16 0xA130E4; pure (f v))
      fun b s => if b then Now p H X s else Now p Shut X s := by
  refine Tri.bind (R := fun v s => if f v then Now p H X s else Now p Shut X s)
    (r16_tri shut_calm fun s v hv hj hp => ?_) fun v => Tri.pure fun _ _ x => x
  refine ⟨hj.r16 (.inl rfl) (fun e => absurd e (by decide)) (fun e => absurd e (by decide))
    (fun e => absurd e (by decide)) (fun e => absurd e (by decide)), ?_⟩
  have b := hp.1.acc (a := .r16 0xA130E4 v) rfl
  split
  · rename_i h; exact ⟨b, hf s v h, hp.2.2⟩
  · exact ⟨b, fun _ x => x.elim, hp.2.2⟩

theorem x7ReadReady_now : Tri (Hist p B) (Now p Shut X) x7ReadReady
    fun b s => if b then Now p (· = x7Rx) X s else Now p Shut X s := by
  refine x7_status fun s v h => ?_
  rintro g rfl
  have := (band_bit v 2).1 (by simpa using h)
  exact Gate.open_ok (by simpa [x7Rx] using this)

theorem x7WriteReady_now : Tri (Hist p B) (Now p Shut X) x7WriteReady
    fun b s => if b then Now p (· = x7Tx) X s else Now p Shut X s := by
  refine x7_status fun s v h => ?_
  rintro g rfl
  have := (band_bit v 1).1 (by simpa using h)
  exact Gate.open_ok (by simpa [x7Tx] using this)

theorem x7Read_now (hX : ∀ x q u a, X x q u a → x = true) :
    Tri (Hist p B) (Now p (· = x7Rx) X) x7Read fun _ => Now p Shut X := by
  unfold x7Read
  refine Tri.bind (ledBlink_now x7Rx_deaf fun x q u a h => .inl (hX x q u a h)) fun _ =>
    Tri.bind (R := fun _ => Now p Shut X) (r16_tri (calm x7Rx_deaf) fun s v hv hj hp => ?_) fun _ => Tri.pure fun _ _ x => x
  refine ⟨hj.r16 (.inr (.inl rfl)) (fun _ => hp.2.1 _ rfl) (fun e => absurd e (by decide))
    (fun _ => hp.1.x7 (hX _ _ _ _ hp.2.2)) (fun e => absurd e (by decide)), hp.1.acc rfl, fun _ x => x.elim, hp.2.2⟩

theorem x7Write_now (hX : ∀ x q u a, X x q u a → x = true) (data : List Nat) :
    Tri (Hist p B) (Now p Shut X) (x7Write data) fun _ => Now p Shut X := by
  induction data with
  | nil => exact Tri.pure fun _ _ x => x
  | cons b rest ih =>
    unfold x7Write
    refine Tri.bind (spin_tri x7WriteReady_now) fun _ => Tri.bind (R := fun _ => Now p Shut X) ?_ fun _ => ih
    refine w16_tri (calm x7Tx_deaf) fun s hj hp => ⟨?_, ?_⟩
    · exact hj.w16 (.inl rfl) (fun _ => hp.2.1 _ rfl) (fun e => absurd e (by decide)) (fun _ => hp.1.x7 (hX _ _ _ _ hp.2.2))
        (fun e => absurd e (by decide)) (fun e => absurd e (by decide))
    · exact ⟨hp.1.acc rfl, fun _ x => x.elim, hp.2.2⟩

/-! ## Everdrive Pro -/

theorem pro_status (hX : ∀ x q u a, X x q u a → q = true) {Q : Nat → St → Prop}
    (h : ∀ s v, Now p Shut X s → Now p (fun g => g = proRx ∧ v % 2048 ≠ 0) X { s with acc := .r16 0xA130D2 v :: s.acc } →
      Q v { s with acc := .r16 0xA130D2 v :: s.acc }) : Tri (Hist p B) (Now p Shut X) (r16 0xA130D2) Q := by
  refine r16_tri shut_calm fun s v hv hj hp => ?_
  refine ⟨hj.r16 (.inr (.inr (.inr (.inl rfl)))) (fun e => absurd e (by decide)) (fun e => absurd e (by decide))
    (fun e => absurd e (by decide)) (fun _ => hp.1.pro (hX _ _ _ _ hp.2.2)), h s v hp ⟨hp.1.acc rfl, ?_, hp.2.2⟩⟩
  rintro g ⟨rfl, hv⟩
  exact Gate.open_ok (by simpa [proRx] using hv)

theorem proReadReady_now (hX : ∀ x q u a, X x q u a → q = true) : Tri (Hist p B) (Now p Shut X) proReadReady fun _ => Now p Shut X :=
  Tri.bind (R := fun _ => Now p Shut X) (pro_status hX fun _ _ _ h => h.shut) fun _ => Tri.pure fun _ _ x => x

theorem proData_now (hX : ∀ x q u a, X x q u a → q = true) :
    Tri (Hist p B) (Now p (· = proRx) X) (proBlock 1) fun _ => Now p Shut X := by
  unfold proBlock
  refine Tri.bind (R := fun _ => Now p Shut X) (r16_tri (calm proRx_deaf) fun s v hv hj hp => ?_) fun _ =>
    Tri.bind (R := fun _ => Now p Shut X) (Tri.pure fun _ _ x => x) fun _ => Tri.pure fun _ _ x => x
  exact ⟨hj.r16 (.inr (.inr (.inr (.inr rfl)))) (fun e => absurd e (by decide)) (fun _ => hp.2.1 _ rfl)
    (fun e => absurd e (by decide)) (fun _ => hp.1.pro (hX _ _ _ _ hp.2.2)), hp.1.acc rfl, fun _ x => x.elim, hp.2.2⟩

theorem band_low (v : Nat) : v &&& 0x7FF = v % 2048 := Nat.and_two_pow_sub_one_eq_mod v 11

theorem proRounds_now (hX : ∀ x q u a, X x q u a → q = true) (n : Nat) : ∀ len, len ≤ 1 →
    Tri (Hist p B) (Now p Shut X) (proRounds n len) fun _ => Now p Shut X := by
  induction n with
  | zero => intro len _; unfold proRounds; exact Tri.stop
  | succ n ih =>
    intro len hl
    unfold proRounds
    refine Tri.ite (fun _ => Tri.pure fun _ _ x => x) fun h0 => ?_
    have h1 : len = 1 := by omega
    subst h1
    refine Tri.bind (R := fun v => Now p (fun g => g = proRx ∧ v % 2048 ≠ 0) X) (pro_status hX fun _ _ _ h => h) fun v => ?_
    simp only [band_low]
    have ih' : ∀ k, Tri (Hist p B) (Now p Shut X) (proRounds n (1 - k)) fun _ => Now p Shut X := fun k => ih _ (by omega)
    refine Tri.bind (R := fun _ => Now p Shut X) ?_ fun _ => Tri.bind (R := fun _ => Now p Shut X) (ih' _) fun _ =>
      Tri.pure fun _ _ x => x
    by_cases hv : v % 2048 = 0
    · simp only [hv]
      exact Tri.pure fun _ _ x => x.shut
    · have e : (if v % 2048 > 1 then 1 else v % 2048) = 1 := by split <;> omega
      rw [e]
      exact (proData_now hX).weaken (fun s _ h => ⟨h.1, fun g hg => h.2.1 g ⟨hg, hv⟩, h.2.2⟩) fun _ _ h => h

theorem proRead_now (hX : ∀ x q u a, X x q u a → q = true) : Tri (Hist p B) (Now p Shut X) proRead fun _ => Now p Shut X := by
  unfold proRead
  refine Tri.bind (ledBlink_now (fun _ h => h.elim) fun x q u a h => .inr (hX x q u a h)) fun _ => ?_
  refine Tri.bind (R := fun _ => Now p Shut X) (fun s => proRounds_now hX _ 1 (Nat.le_refl _) s) fun _ => Tri.pure fun _ _ x => x

theorem fifoWr_now (hX : ∀ x q u a, X x q u a → q = true) (data : List Nat) :
    Tri (Hist p B) (Now p Shut X) (fifoWr data) fun _ => Now p Shut X := by
  induction data with
  | nil => exact Tri.pure fun _ _ x => x
  | cons b rest ih =>
    unfold fifoWr
    refine Tri.bind (R := fun _ => Now p Shut X) (w16_tri shut_calm fun s hj hp => ⟨?_, ?_⟩) fun _ => ih
    · exact hj.w16 (.inr (.inl rfl)) (fun e => absurd e (by decide)) (fun e => absurd e (by decide)) (fun e => absurd e (by decide))
        (fun _ => hp.1.pro (hX _ _ _ _ hp.2.2)) (fun e => absurd e (by decide))
    · exact ⟨hp.1.acc rfl, fun _ x => x.elim, hp.2.2⟩

theorem proWrite_now (hX : ∀ x q u a, X x q u a → q = true) (data : List Nat) :
    Tri (Hist p B) (Now p Shut X) (proWrite data) fun _ => Now p Shut X := by
  unfold proWrite
  exact Tri.bind (fifoWr_now hX _) fun _ => Tri.bind (fifoWr_now hX _) fun _ => fifoWr_now hX _

/-! ## MegaWiFi -/

theorem wifiPresent_now : Tri (Hist p B) (Now p Shut X) wifiPresent fun _ => Now p Shut X := by
  unfold wifiPresent
  refine Tri.bind (R := fun _ => Now p Shut X) (w8_tri shut_calm fun s hj hp => ⟨?_, ?_⟩) fun _ =>
    Tri.bind (R := fun _ => Now p Shut X) (r8_tri shut_calm fun s v hv hj hp => ⟨?_, ?_⟩) fun _ => Tri.pure fun _ _ x => x
  · refine hj.w8 (.inr (.inr (.inr ⟨rfl, rfl⟩))) fun e => ?_
    cases p <;> simp [uartSpr, Uart.of] at e
  · exact ⟨hp.1.acc rfl, fun _ x => x.elim, hp.2.2⟩
  · exact hj.r8 (.inr (.inr rfl)) (.inr (by cases p <;> simp [uartSpr, Uart.of]))
  · exact ⟨hp.1.acc rfl, fun _ x => x.elim, hp.2.2⟩

/-! ## Calls -/

theorem ask_now : Tri (Hist p B) (Now p Shut X) ask fun _ => Now p Shut X := ask_tri shut_calm fun _ _ _ x => x

/-- Gate opened by `read_ready` of a link. -/
def readGate (l : Link) (g : Gate) : Prop := l = .x7 ∧ g = x7Rx

/-- The flags as they must be for link `l` to be in use. -/
def Fit : Link → Bool → Bool → Bool → Prop
  | .x7, x, _, _ => x = true
  | .pro, _, q, _ => q = true
  | .serial, _, _, u => u = true
  | .wifi, _, _, _ | .demo, _, _, _ => True

theorem linkReady_now (l : Link) (hX : ∀ x q u a, X x q u a → Fit l x q u) :
    Tri (Hist p B) (Now p Shut X) (linkReady l) fun b s => if b then Now p (readGate l) X s else Now p Shut X s := by
  have any : ∀ l : Link, l ≠ .x7 → ∀ (b : Bool) (s : St), Now p Shut X s → if b then Now p (readGate l) X s else Now p Shut X s := by
    intro l hl b s h
    cases b
    · exact h
    · exact ⟨h.1, fun g hg => absurd hg.1 hl, h.2.2⟩
  have soft : ∀ l : Link, l ≠ .x7 → Tri (Hist p B) (Now p Shut X) (do let v ← ask; pure (decide (v ≠ 0)))
      fun b s => if b then Now p (readGate l) X s else Now p Shut X s := fun l hl =>
    Tri.bind ask_now fun v => Tri.pure fun s _ x => any l hl _ s x
  cases l with
  | x7 =>
    refine x7ReadReady_now.weaken (fun _ _ h => h) fun b s h => ?_
    cases b
    · exact h
    · exact ⟨h.1, fun g hg => h.2.1 g hg.2, h.2.2⟩
  | pro => exact (proReadReady_now hX).weaken (fun _ _ h => h) (any .pro (by decide))
  | serial => exact soft _ (by decide)
  | wifi => exact soft _ (by decide)
  | demo => exact soft _ (by decide)

theorem linkRead_now (l : Link) (hX : ∀ x q u a, X x q u a → Fit l x q u) :
    Tri (Hist p B) (Now p (readGate l) X) (linkRead l) fun _ => Now p Shut X := by
  have soft : Tri (Hist p B) (Now p (readGate l) X) (do let v ← ask; pure (v % 256) : M Nat) fun _ => Now p Shut X :=
    Tri.bind (ask_now.weaken (fun _ _ h => h.shut) fun _ _ h => h) fun v => Tri.pure fun s _ x => x
  cases l with
  | x7 => exact (x7Read_now hX).weaken (fun _ _ h => ⟨h.1, fun g hg => h.2.1 g ⟨rfl, hg⟩, h.2.2⟩) fun _ _ h => h
  | pro => exact (proRead_now hX).weaken (fun _ _ h => h.shut) fun _ _ h => h
  | serial => exact soft
  | wifi => exact soft
  | demo => exact soft

theorem linkWriteReady_now (l : Link) (hX : ∀ x q u a, X x q u a → Fit l x q u) :
    Tri (Hist p B) (Now p Shut X) (linkWriteReady l) fun _ => Now p Shut X := by
  have w : ∀ {G : Gate → Prop} (b : Bool) (s : St), (if b then Now p G X s else Now p Shut X s) → Now p Shut X s := by
    intro G b s h; cases b
    · exact h
    · exact h.shut
  cases l with
  | x7 => exact x7WriteReady_now.weaken (fun _ _ h => h) w
  | serial => exact (readyToSend_now hX).weaken (fun _ _ h => h) w
  | pro => exact Tri.pure fun _ _ x => x
  | wifi => exact Tri.pure fun _ _ x => x
  | demo => exact Tri.pure fun _ _ x => x

theorem linkWrite_now (data : List Nat) (l : Link) (hX : ∀ x q u a, X x q u a → Fit l x q u) :
    Tri (Hist p B) (Now p Shut X) (linkWrite data l) fun _ => Now p Shut X := by
  cases l with
  | x7 => exact x7Write_now hX data
  | serial => exact commSerialWrite_now hX data
  | pro => exact proWrite_now hX data
  | wifi => exact Tri.pure fun _ _ x => x
  | demo => exact Tri.pure fun _ _ x => x

/-- Between two calls: the serial link, if there is one, is initialised. -/
def Up (ls : List Link) (_ _ u : Bool) (_ : Option Link) : Prop := .serial ∈ ls → u = true

/-- Link `l` is the active one. -/
def On (ls : List Link) (l : Link) (x q u : Bool) (a : Option Link) : Prop := Up ls x q u a ∧ a = some l ∧ Fit l x q u

variable {ls : List Link}

theorem On.up {l : Link} {s : St} (h : Now p G (On ls l) s) : Now p Shut (Up ls) s := ⟨h.1, fun _ x => x.elim, h.2.2.1⟩

theorem Tri.exists' {α ι : Type} {J : List Acc → Prop} {P : ι → St → Prop} {m : M α} {Q : α → St → Prop}
    (h : ∀ i, Tri J (P i) m Q) : Tri J (fun s => ∃ i, P i s) m Q := fun s hj ⟨i, hp⟩ => h i s hj hp

theorem present_now (l : Link) (hl : l ∈ ls) : Tri (Hist p B) (Now p Shut (Up ls)) (present l)
    fun b s => Now p Shut (Up ls) s ∧ (b = true → Fit l s.x7 s.pro s.irqOn) := by
  cases l with
  | x7 => exact Tri.get fun s _ h => ⟨h, fun e => e⟩
  | pro => exact Tri.get fun s _ h => ⟨h, fun e => e⟩
  | serial => exact Tri.pure fun s _ h => ⟨h, fun _ => h.2.2 hl⟩
  | wifi => exact wifiPresent_now.weaken (fun _ _ h => h) fun _ _ h => ⟨h, fun _ => trivial⟩
  | demo => exact Tri.pure fun s _ h => ⟨h, fun _ => trivial⟩

/-- Result of `read_ready`. -/
def Answer (p : Nat) (ls : List Link) (b : Bool) (s : St) : Prop :=
  if b then ∃ l, Now p (readGate l) (On ls l) s else Now p Shut (Up ls) s

theorem scan_now (rest : List Link) : (∀ l ∈ rest, l ∈ ls) → Tri (Hist p B) (Now p Shut (Up ls)) (scan rest) (Answer p ls) := by
  induction rest with
  | nil => intro _; exact Tri.pure fun _ _ x => x
  | cons l rest ih =>
    intro hl
    have ih := ih fun l h => hl l (List.mem_cons_of_mem _ h)
    unfold scan
    refine Tri.bind (present_now l (hl l (List.mem_cons_self ..))) fun b => ?_
    cases b with
    | false => exact ih.weaken (fun _ _ h => h.1) fun _ _ h => h
    | true =>
      have k := linkReady_now (p := p) (B := B) (X := fun x q u a => Up ls x q u a ∧ Fit l x q u) l fun x q u a h => h.2
      refine Tri.bind (k.weaken (fun s _ h => ⟨h.1.1, h.1.2.1, h.1.2.2, h.2 rfl⟩) fun _ _ h => h) fun b => ?_
      cases b with
      | false => exact ih.weaken (fun _ _ h => ⟨h.1, h.2.1, h.2.2.1⟩) fun _ _ h => h
      | true =>
        refine Tri.bind (R := fun _ s => Now p (readGate l) (On ls l) s) (Tri.put fun s hj hp => ⟨hj, ?_⟩) fun _ =>
          Tri.pure fun s _ h => ⟨l, h⟩
        obtain ⟨h1, h2, h3, h4⟩ := hp
        refine ⟨⟨h1.port, h1.led, h1.x7, h1.pro, fun e => ?_, fun e => ?_, fun e => ?_⟩, h2, h3, rfl, h4⟩
        · cases e; exact h4
        · cases e; exact h4
        · cases e; exact h4

/-- The active link is fit for use. -/
theorem Now.on {s : St} {l : Link} (h : Now p Shut (Up ls) s) (e : s.active = some l) : Now p Shut (On ls l) s := by
  refine ⟨h.1, fun _ x => x.elim, h.2.2, e, ?_⟩
  cases l with
  | x7 => exact h.1.actX e
  | pro => exact h.1.actP e
  | serial => exact h.1.actS e
  | wifi => trivial
  | demo => trivial

theorem readReady_now : Tri (Hist p B) (Now p Shut (Up ls)) (readReady ls) (Answer p ls) := by
  unfold readReady
  refine Tri.bind (R := fun a s => Now p Shut (Up ls) s ∧ a = s.active) (Tri.get fun s _ h => ⟨h, rfl⟩) fun a => ?_
  cases a with
  | none => exact (scan_now ls fun _ h => h).weaken (fun _ _ h => h.1) fun _ _ h => h
  | some l =>
    refine (linkReady_now (p := p) (B := B) (X := On ls l) l fun x q u a h => h.2.2).weaken
      (fun s _ h => h.1.on h.2.symm) fun b s h => ?_
    cases b
    · exact On.up h
    · exact ⟨l, h⟩

theorem commRead_now : Tri (Hist p B) (Now p Shut (Up ls)) (commRead ls) fun _ => Now p Shut (Up ls) := by
  unfold commRead
  refine Tri.bind (R := fun _ s => ∃ l, Now p (readGate l) (On ls l) s) ?_ fun _ => Tri.exists' fun l => ?_
  · refine spin_tri (readReady_now.weaken (fun _ _ h => h) fun b s h => ?_)
    cases b <;> exact h
  · refine Tri.bind (R := fun a s => Now p (readGate l) (On ls l) s ∧ a = some l)
      (Tri.get fun s _ h => ⟨h, h.2.2.2.1⟩) fun a => ?_
    cases a with
    | none => exact Tri.ub
    | some l' =>
      by_cases e : l' = l
      · subst e
        exact (linkRead_now (p := p) (X := On ls l') l' fun x q u a h => h.2.2).weaken (fun _ _ h => h.1) fun _ _ h => On.up h
      · intro s _ h; exact absurd (Option.some.inj h.2) e

theorem commWrite_now (data : List Nat) : Tri (Hist p B) (Now p Shut (Up ls)) (commWrite data) fun _ => Now p Shut (Up ls) := by
  unfold commWrite
  refine Tri.bind (R := fun a s => Now p Shut (Up ls) s ∧ a = s.active) (Tri.get fun s _ h => ⟨h, rfl⟩) fun a => ?_
  cases a with
  | none => exact Tri.ub
  | some l =>
    have hX : ∀ x q u a, On ls l x q u a → Fit l x q u := fun x q u a h => h.2.2
    refine Tri.bind (R := fun _ => Now p Shut (On ls l)) ?_ fun _ => (linkWrite_now data l hX).weaken (fun _ _ h => h) fun _ _ h => On.up h
    refine Tri.weaken (P' := Now p Shut (On ls l)) (spin_tri ((linkWriteReady_now l hX).weaken (fun _ _ h => h) fun b s h => ?_))
      (fun s _ h => h.1.on h.2.symm) fun _ _ h => h
    cases b <;> exact h

theorem call_now (o : Op) : Tri (Hist p B) (Now p Shut (Up ls)) (call ls o) fun _ => Now p Shut (Up ls) := by
  cases o with
  | readReady =>
    refine Tri.bind (readReady_now.weaken (fun _ _ h => h) fun b s h => ?_) fun _ => Tri.pure fun _ _ x => x
    cases b
    · exact h
    · obtain ⟨l, h⟩ := h; exact On.up h
  | read => exact Tri.bind commRead_now fun _ => Tri.pure fun _ _ x => x
  | write data => exact commWrite_now data
  | ledTick => exact ledTick_now

theorem calls_now (ops : List Op) : Tri (Hist p B) (Now p Shut (Up ls)) (calls ls ops) fun _ => Now p Shut (Up ls) := by
  induction ops with
  | nil => exact Tri.pure fun _ _ x => x
  | cons o ops ih => exact Tri.bind (call_now o) fun _ => ih

/-! ## Start-up -/

/-- During `comm_init`: no link chosen, serial up if `b`. -/
def Starting (b : Bool) (_ _ u : Bool) (a : Option Link) : Prop := a = none ∧ (b = true → u = true)

theorem x7Init_now {b : Bool} : Tri (Hist p B) (Now p Shut (Starting b)) x7Init fun _ => Now p Shut (Starting b) := by
  unfold x7Init
  refine Tri.bind (R := fun v s => Now p Shut (Starting b) s ∧ .r16 0xA130E4 v ∈ s.acc)
    (r16_tri shut_calm fun s v hv hj hp => ⟨?_, ⟨hp.1.acc rfl, fun _ x => x.elim, hp.2.2⟩, List.mem_cons_self ..⟩) fun v =>
    Tri.put fun s hj hp => ⟨hj, ⟨hp.1.1.port, hp.1.1.led, fun e => ⟨v, hp.2, ?_⟩, hp.1.1.pro, fun e => ?_, hp.1.1.actP, hp.1.1.actS⟩,
      fun _ x => x.elim, hp.1.2.2⟩
  · exact hj.r16 (.inl rfl) (fun e => absurd e (by decide)) (fun e => absurd e (by decide))
      (fun e => absurd e (by decide)) (fun e => absurd e (by decide))
  · simpa [Nat.shiftRight_eq_div_pow] using e
  · have h1 : s.active = none := hp.1.2.2.1
    have h2 : s.active = some .x7 := e
    rw [h1] at h2; cases h2

theorem band_high (v : Nat) (h : v < 65536) : v &&& 0xFFF0 = v / 16 * 16 := by
  have e : v / 16 * 16 = (v >>> 4) <<< 4 := by rw [Nat.shiftRight_eq_div_pow, Nat.shiftLeft_eq]
  rw [e]
  refine Nat.eq_of_testBit_eq fun i => ?_
  rw [Nat.testBit_and, Nat.testBit_shiftLeft, Nat.testBit_shiftRight]
  by_cases h4 : 4 ≤ i
  · by_cases h16 : i < 16
    · have : (0xFFF0 : Nat).testBit i = true := by
        have : ∀ i : Fin 16, 4 ≤ i.1 → (0xFFF0 : Nat).testBit i.1 = true := by decide
        exact this ⟨i, h16⟩ h4
      simp [this, h4, show 4 + (i - 4) = i by omega]
    · have : v.testBit i = false := Nat.testBit_lt_two_pow (Nat.lt_of_lt_of_le h (by
        calc 65536 = 2 ^ 16 := by decide
          _ ≤ 2 ^ i := Nat.pow_le_pow_right (by decide) (by omega)))
      simp [this, show 4 + (i - 4) = i by omega]
  · have : (0xFFF0 : Nat).testBit i = false := by
      have : ∀ i : Fin 4, (0xFFF0 : Nat).testBit i.1 = false := by decide
      exact this ⟨i, by omega⟩
    simp [this]; omega

theorem proInit_now {b : Bool} : Tri (Hist p B) (Now p Shut (Starting b)) proInit fun _ => Now p Shut (Starting b) := by
  unfold proInit
  refine Tri.bind (R := fun v s => Now p Shut (Starting b) s ∧ .r16 0xA130D4 v ∈ s.acc ∧ v < 65536)
    (r16_tri shut_calm fun s v hv hj hp => ⟨?_, ⟨hp.1.acc rfl, fun _ x => x.elim, hp.2.2⟩, List.mem_cons_self .., hv⟩) fun v =>
    Tri.put fun s hj hp => ⟨hj, ⟨hp.1.1.port, hp.1.1.led, hp.1.1.x7, fun e => ⟨v, hp.2.1, ?_⟩, hp.1.1.actX, fun e => ?_, hp.1.1.actS⟩,
      fun _ x => x.elim, hp.1.2.2⟩
  · exact hj.r16 (.inr (.inr (.inl rfl))) (fun e => absurd e (by decide)) (fun e => absurd e (by decide))
      (fun e => absurd e (by decide)) (fun e => absurd e (by decide))
  · have : v &&& 0xFFF0 = 0x55A0 := by simpa using e
    rw [band_high v hp.2.2] at this; omega
  · have h1 : s.active = none := hp.1.2.2.1
    have h2 : s.active = some .pro := e
    rw [h1] at h2; cases h2

theorem vdp_bit (r : Nat) : (r ||| 8) / 8 % 2 = 1 := by
  have e : (r ||| 8).testBit 3 = decide ((r ||| 8) / 2 ^ 3 % 2 = 1) := Nat.testBit_eq_decide_div_mod_eq
  have : (r ||| 8).testBit 3 = true := by rw [Nat.testBit_or]; simp [show (8 : Nat).testBit 3 = true by decide]
  rw [this] at e
  simpa using e.symm

/-- A note that is neither a register access nor the LED. -/
theorem note_now {a : Acc} (ha : a = .intMask 1 ∨ (∃ v, a = .vdpReg 11 v ∧ v / 8 % 2 = 1) ∨ a = .extInt) :
    Tri (Hist p B) (Now p Shut X) (note a) fun _ => Now p Shut X := by
  refine Tri.note fun s hj hp => ?_
  have k : Known p a := by
    rcases ha with rfl | ⟨v, rfl, h⟩ | rfl
    · rfl
    · exact ⟨rfl, h⟩
    · trivial
  have z : a.addr = 0 := by rcases ha with rfl | ⟨v, rfl, h⟩ | rfl <;> rfl
  have nl : lit (a :: s.acc) = lit s.acc := by rcases ha with rfl | ⟨v, rfl, h⟩ | rfl <;> rfl
  refine ⟨hj.cons k ?_ ?_ ?_ ?_ ?_ (fun e => ?_) (fun e => ?_) (fun e => ?_) (.inr ?_), hp.1.acc nl, fun _ x => x.elim, hp.2.2⟩
  · rcases ha with rfl | ⟨v, rfl, h⟩ | rfl <;> intro e <;> cases e
  · rcases ha with rfl | ⟨v, rfl, h⟩ | rfl <;> intro e <;> cases e
  · rcases ha with rfl | ⟨v, rfl, h⟩ | rfl <;> intro e <;> cases e
  · rcases ha with rfl | ⟨v, rfl, h⟩ | rfl <;> intro e <;> cases e
  · rcases ha with rfl | ⟨v, rfl, h⟩ | rfl <;> intro _ e <;> cases e
  · rw [z] at e; cases e
  · rw [z] at e; rcases e with e | e <;> cases e
  · rw [z] at e; cases e
  · rcases ha with rfl | ⟨v, rfl, h⟩ | rfl <;> rfl

theorem commSerialInit_now {b debug : Bool} : Tri (Hist p none) (Now p Shut (Starting b)) (commSerialInit p debug)
    fun _ => Now p Shut (Starting true) := by
  unfold commSerialInit serialInit
  have up : ∀ s, Now p Shut (Starting true) s → s.irqOn = true := fun s h => h.2.2.2 rfl
  -- after `io_port = port` the port is right whether or not interrupts are on
  have c : Calm p (Hist p none) fun s => Now p Shut (Starting b) s ∧ s.ioPort = p :=
    shut_calm.and fun _ _ _ h => h
  have nt : ∀ {a : Acc}, (a = .intMask 1 ∨ (∃ v, a = .vdpReg 11 v ∧ v / 8 % 2 = 1) ∨ a = .extInt) →
      Tri (Hist p none) (fun s => Now p Shut (Starting b) s ∧ s.ioPort = p) (note a)
        fun _ s => Now p Shut (Starting b) s ∧ s.ioPort = p := fun {a} ha s hj hp =>
    ⟨(note_now ha s hj hp.1).1, fun u e => ⟨(note_now ha s hj hp.1).2 u e, hp.2⟩⟩
  refine Tri.bind (R := fun _ s => Now p Shut (Starting b) s ∧ s.ioPort = p) ?_ fun _ => ?_
  · refine Tri.bind (R := fun _ s => Now p Shut (Starting b) s ∧ s.ioPort = p)
      (Tri.put fun s hj hp => ⟨hj, ⟨⟨fun _ => rfl, hp.1.led, hp.1.x7, hp.1.pro, hp.1.actX, hp.1.actP, hp.1.actS⟩, fun _ x => x.elim, hp.2.2⟩, rfl⟩)
      fun _ => ?_
    refine Tri.bind (R := fun _ s => Now p Shut (Starting b) s ∧ s.ioPort = p) (w8_tri c fun s hj hp => ⟨?_, ?_⟩) fun _ => ?_
    · refine hj.w8 (.inl ⟨sctrl_of p, rfl⟩) fun e => ?_
      rw [sctrl_of] at e; cases p <;> simp [Uart.of] at e
    · exact ⟨⟨hp.1.1.acc rfl, fun _ x => x.elim, hp.1.2.2⟩, hp.2⟩
    refine Tri.bind (R := fun _ s => Now p Shut (Starting b) s ∧ s.ioPort = p) (w8_tri c fun s hj hp => ⟨?_, ?_⟩) fun _ => ?_
    · refine hj.w8 (.inr (.inl ⟨ctrl_of p, rfl⟩)) fun e => ?_
      rw [ctrl_of] at e; cases p <;> simp [Uart.of] at e
    · exact ⟨⟨hp.1.1.acc rfl, fun _ x => x.elim, hp.1.2.2⟩, hp.2⟩
    refine Tri.ite (fun _ => ?_) fun _ => Tri.pure fun _ _ x => x
    refine Tri.bind (nt (.inl rfl)) fun _ => ?_
    refine Tri.bind (R := fun _ s => Now p Shut (Starting b) s ∧ s.ioPort = p) (Tri.get fun _ _ x => x) fun r => ?_
    refine Tri.bind (nt (.inr (.inl ⟨_, rfl, vdp_bit r⟩))) fun _ => ?_
    refine Tri.bind (R := fun _ s => Now p Shut (Starting b) s ∧ s.ioPort = p) (Tri.put fun s hj hp =>
      ⟨hj, ⟨⟨hp.1.1.port, hp.1.1.led, hp.1.1.x7, hp.1.1.pro, hp.1.1.actX, hp.1.1.actP, hp.1.1.actS⟩, fun _ x => x.elim, hp.1.2.2⟩, hp.2⟩) fun _ => ?_
    exact nt (.inr (.inr rfl))
  · refine Tri.bind (R := fun _ => Now p Shut (Starting true)) (Tri.put fun s hj hp => ⟨hj, ?_⟩) fun _ => ?_
    · exact ⟨⟨fun _ => hp.2, hp.1.1.led, hp.1.1.x7, hp.1.1.pro, hp.1.1.actX, hp.1.1.actP, fun _ => rfl⟩, fun _ x => x.elim,
        hp.1.2.2.1, fun _ => rfl⟩
    refine Tri.bind (flushRrdy_tri shut_calm up fun s w _ hj hp => ⟨hj.r8 (.inr (.inl (rx_of p))) (.inl rfl), hp.1.acc rfl, fun _ x => x.elim, hp.2.2⟩) fun _ => ?_
    cases debug with
    | false => exact Tri.pure fun _ _ x => x
    | true =>
      refine Tri.bind (R := fun _ => Now p Shut (Starting true)) ?_ fun _ => Tri.pure fun _ _ x => x
      unfold baudRate
      refine Tri.bind (R := fun _ => Now p Shut (Starting true)) ?_ fun _ => Tri.pure fun _ _ x => x
      refine sctrl_tri shut_calm up fun s v hv hj hp => ?_
      exact shut_calm.stat s v hv hj hp

theorem initAll_now (debug : Bool) (ls : List Link) : ∀ b : Bool, Tri (Hist p none) (Now p Shut (Starting b)) (initAll p debug ls)
    fun _ => Now p Shut (Starting (b || ls.contains .serial)) := by
  induction ls with
  | nil => intro b; refine Tri.pure fun _ _ x => ?_; simpa using x
  | cons l ls ih =>
    intro b
    unfold initAll
    have other : ∀ m : M Unit, l ≠ .serial → Tri (Hist p none) (Now p Shut (Starting b)) m (fun _ => Now p Shut (Starting b)) →
        Tri (Hist p none) (Now p Shut (Starting b)) (m >>= fun _ => initAll p debug ls)
          fun _ => Now p Shut (Starting (b || (l :: ls).contains .serial)) := by
      intro m hl h
      have e : (l :: ls).contains Link.serial = ls.contains .serial := by
        rw [List.contains_cons, beq_eq_false_iff_ne.2 (Ne.symm hl), Bool.false_or]
      rw [e]; exact Tri.bind h fun _ => ih b
    cases l with
    | x7 => exact other _ (by decide) x7Init_now
    | pro => exact other _ (by decide) proInit_now
    | wifi => exact other _ (by decide) (Tri.bind wifiPresent_now fun _ => Tri.pure fun _ _ x => x)
    | demo => exact other _ (by decide) (Tri.pure fun _ _ x => x)
    | serial =>
      refine Tri.bind (R := fun _ => Now p Shut (Starting true)) (Tri.bind commSerialInit_now fun _ => Tri.pure fun _ _ x => x) fun _ => ?_
      refine (ih true).weaken (fun _ _ h => h) fun _ s h => ?_
      have e : (b || (Link.serial :: ls).contains Link.serial) = true := by
        rw [List.contains_cons, beq_self_eq_true, Bool.true_or, Bool.or_true]
      rw [e]; simpa using h

theorem commInit_now (ls : List Link) (debug : Bool) : Tri (Hist p none) (Now p Shut (Starting false)) (commInit ls p debug)
    fun _ => Now p Shut (Up ls) := by
  unfold commInit
  refine Tri.bind (initAll_now debug ls false) fun _ => Tri.put fun s hj hp => ⟨hj, ?_⟩
  refine ⟨⟨hp.1.port, hp.1.led, hp.1.x7, hp.1.pro, fun e => ?_, fun e => ?_, fun e => ?_⟩, fun _ x => x.elim, fun h => ?_⟩
  · cases e
  · cases e
  · cases e
  · refine hp.2.2.2 ?_
    simpa using h

theorem boot_now (hw : List Hw) (v : Nat) : Now p Shut (Starting false) (boot hw v) := by
  refine ⟨⟨fun e => ?_, rfl, fun e => ?_, fun e => ?_, fun e => ?_, fun e => ?_, fun e => ?_⟩, fun _ x => x.elim, rfl, fun e => ?_⟩ <;> cases e

/-- Everything above, for any session. -/
theorem session_hist (ls : List Link) (p : Nat) (debug : Bool) (ops : List Op) (hw : List Hw) (v : Nat) :
    Hist p none ((session ls p debug ops) (boot hw v)).2.acc := by
  have k : Tri (Hist p none) (Now p Shut (Starting false)) (session ls p debug ops) fun _ => Now p Shut (Up ls) :=
    Tri.bind (commInit_now ls debug) fun _ => calls_now ops
  exact (k (boot hw v) (Hist.nil p) (boot_now hw v)).1

/-- The variables at the end of a session. -/
theorem session_now {ls : List Link} {debug : Bool} {ops : List Op} {hw : List Hw} {v : Nat} {t : St}
    (h : session ls p debug ops (boot hw v) = (some (), t)) : Now p Shut (Up ls) t := by
  have k : Tri (Hist p none) (Now p Shut (Starting false)) (session ls p debug ops) fun _ => Now p Shut (Up ls) :=
    Tri.bind (commInit_now ls debug) fun _ => calls_now ops
  have := (k (boot hw v) (Hist.nil p) (boot_now hw v)).2 () (by rw [h])
  rw [h] at this; exact this

/-- And the receiver, from the end of start-up. -/
theorem calls_hist (ls : List Link) (p : Nat) (debug : Bool) (ops : List Op) (hw : List Hw) (v : Nat) (t : St)
    (h : commInit ls p debug (boot hw v) = (some (), t)) :
    Hist p (some t.acc) (calls ls ops t).2.acc := by
  have k := commInit_now (p := p) ls debug (boot hw v) (Hist.nil p) (boot_now hw v)
  rw [h] at k
  have n := k.2 () rfl
  have h0 := k.1
  refine (calls_now ops t ?_ n).1
  exact ⟨h0.tx, h0.x7tx, h0.x7rx, h0.prorx, h0.led, h0.known, h0.usb, h0.fifo, h0.ledReg,
    fun _ e => by cases e; exact ⟨[], rfl, trivial⟩⟩

end Mdmi.Port
