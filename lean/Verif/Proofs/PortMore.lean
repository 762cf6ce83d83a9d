import Verif.Proofs.PortRead
/-! More about the links: the LED after a frame and after a read, the receiver after start-up and after
an interrupt, and the source once chosen. -/
namespace Mdmi.Port

variable {p : Nat} {X : St → Prop}

/-- Software variables only. -/
def Sw (p : Nat) (X : St → Prop) (s : St) : Prop := (s.irqOn = true → s.ioPort = p) ∧ X s

/-- Not about the hardware. -/
def Inner (X : St → Prop) : Prop := ∀ s h a, X s → X { s with hw := h, acc := a }

theorem sw_calm (hX : Inner X) : Calm p (fun _ => True) (Sw p X) where
  port _ h := h.1
  hw s h k := ⟨k.1, hX s h s.acc k.2⟩
  stat s _ _ _ k := ⟨trivial, k.1, hX s s.hw _ k.2⟩
  recv s _ _ _ _ _ _ k := ⟨trivial, k.1, hX s s.hw _ k.2⟩

theorem r16_sw (hX : Inner X) (a : Nat) : Tri (fun _ => True) (Sw p X) (r16 a) fun _ => Sw p X :=
  r16_tri (sw_calm hX) fun s _ _ _ k => ⟨trivial, k.1, hX s s.hw _ k.2⟩

theorem w16_sw (hX : Inner X) (a v : Nat) : Tri (fun _ => True) (Sw p X) (w16 a v) fun _ => Sw p X :=
  w16_tri (sw_calm hX) fun s _ k => ⟨trivial, k.1, hX s s.hw _ k.2⟩

theorem w8_sw (hX : Inner X) (a v : Nat) : Tri (fun _ => True) (Sw p X) (w8 a v) fun _ => Sw p X :=
  w8_tri (sw_calm hX) fun s _ k => ⟨trivial, k.1, hX s s.hw _ k.2⟩

theorem r8_sw (hX : Inner X) (a : Nat) : Tri (fun _ => True) (Sw p X) (r8 a) fun _ => Sw p X :=
  r8_tri (sw_calm hX) fun s _ _ _ k => ⟨trivial, k.1, hX s s.hw _ k.2⟩

theorem ask_sw (hX : Inner X) : Tri (fun _ => True) (Sw p X) ask fun _ => Sw p X :=
  ask_tri (sw_calm hX) fun _ _ _ x => x

theorem get_sw {α : Type} (f : St → α) : Tri (fun _ => True) (Sw p X) (get f) fun _ => Sw p X :=
  Tri.get fun _ _ x => x

theorem pure_sw {α : Type} {b : α} : Tri (fun _ => True) (Sw p X) (pure b : M α) fun _ => Sw p X :=
  Tri.pure fun _ _ x => x

/-! ## LED -/

theorem inner_led (b : Bool) : Inner fun s => s.led = b := fun _ _ _ h => h

theorem ledTick_led : Tri (fun _ => True) (Sw p fun _ => True) ledTick fun _ => Sw p fun s => s.led = false := by
  unfold ledTick
  refine Tri.bind (R := fun b => Sw p fun s => s.led = b) (Tri.get fun s _ x => ⟨x.1, rfl⟩) fun b => ?_
  cases b with
  | false => exact pure_sw
  | true => exact Tri.bind (w16_sw (inner_led true) _ _) fun _ => Tri.put fun s _ h => ⟨trivial, h.1, rfl⟩

theorem ledBlink_led : Tri (fun _ => True) (Sw p fun _ => True) ledBlink fun _ => Sw p fun s => s.led = true := by
  unfold ledBlink
  refine Tri.bind (R := fun b => Sw p fun s => s.led = b) (Tri.get fun s _ x => ⟨x.1, rfl⟩) fun b => ?_
  cases b with
  | true => exact pure_sw
  | false => exact Tri.bind (w16_sw (inner_led false) _ _) fun _ => Tri.put fun s _ h => ⟨trivial, h.1, rfl⟩

theorem proBlock_sw (hX : Inner X) (n : Nat) : Tri (fun _ => True) (Sw p X) (proBlock n) fun _ => Sw p X := by
  induction n with
  | zero => exact pure_sw
  | succ n ih =>
    unfold proBlock
    exact Tri.bind (r16_sw hX _) fun _ => Tri.bind ih fun _ => pure_sw

theorem proRounds_sw (hX : Inner X) (n : Nat) : ∀ len, Tri (fun _ => True) (Sw p X) (proRounds n len) fun _ => Sw p X := by
  induction n with
  | zero => intro len; unfold proRounds; exact Tri.stop
  | succ n ih =>
    intro len
    unfold proRounds
    refine Tri.ite (fun _ => pure_sw) fun _ => ?_
    exact Tri.bind (r16_sw hX _) fun _ => Tri.bind (proBlock_sw hX _) fun _ => Tri.bind (ih _) fun _ => pure_sw

theorem x7Read_led : Tri (fun _ => True) (Sw p fun _ => True) x7Read fun _ => Sw p fun s => s.led = true :=
  Tri.bind ledBlink_led fun _ => Tri.bind (r16_sw (inner_led true) _) fun _ => pure_sw

theorem proRead_led : Tri (fun _ => True) (Sw p fun _ => True) proRead fun _ => Sw p fun s => s.led = true :=
  Tri.bind ledBlink_led fun _ => Tri.bind (fun s => proRounds_sw (inner_led true) (s.hw.length + 1) 1 s) fun _ => pure_sw

/-! ## The source once chosen -/

theorem inner_active (a : Option Link) : Inner fun s => s.active = a := fun _ _ _ h => h

theorem spin_sw {ready : M Bool} (h : Tri (fun _ => True) (Sw p X) ready fun _ => Sw p X) :
    Tri (fun _ => True) (Sw p X) (spin ready) fun _ => Sw p X :=
  spin_tri (h.weaken (fun _ _ x => x) fun b _ x => by cases b <;> exact x)

theorem ledBlink_sw (a : Option Link) : Tri (fun _ => True) (Sw p fun s => s.active = a) ledBlink fun _ => Sw p fun s => s.active = a := by
  unfold ledBlink
  refine Tri.bind (get_sw _) fun b => ?_
  cases b with
  | true => exact pure_sw
  | false => exact Tri.bind (w16_sw (inner_active a) _ _) fun _ => Tri.put fun s _ h => ⟨trivial, h⟩

theorem ledTick_sw (a : Option Link) : Tri (fun _ => True) (Sw p fun s => s.active = a) ledTick fun _ => Sw p fun s => s.active = a := by
  unfold ledTick
  refine Tri.bind (get_sw _) fun b => ?_
  cases b with
  | false => exact pure_sw
  | true => exact Tri.bind (w16_sw (inner_active a) _ _) fun _ => Tri.put fun s _ h => ⟨trivial, h⟩

variable {a : Option Link}

theorem readyToSend_sw (hX : Inner X) : Tri (fun _ => True) (Sw p X) readyToSend fun _ => Sw p X :=
  Tri.bind (get_sw _) fun _ => Tri.bind (r8_sw hX _) fun _ => pure_sw

theorem commSerialWrite_sw (hX : Inner X) (data : List Nat) : Tri (fun _ => True) (Sw p X) (commSerialWrite data) fun _ => Sw p X := by
  induction data with
  | nil => exact pure_sw
  | cons b rest ih =>
    exact Tri.bind (spin_sw (readyToSend_sw hX)) fun _ => Tri.bind (Tri.bind (get_sw _) fun _ => w8_sw hX _ _) fun _ => ih

theorem x7WriteReady_sw (hX : Inner X) : Tri (fun _ => True) (Sw p X) x7WriteReady fun _ => Sw p X :=
  Tri.bind (r16_sw hX _) fun _ => pure_sw

theorem x7Write_sw (hX : Inner X) (data : List Nat) : Tri (fun _ => True) (Sw p X) (x7Write data) fun _ => Sw p X := by
  induction data with
  | nil => exact pure_sw
  | cons b rest ih => exact Tri.bind (spin_sw (x7WriteReady_sw hX)) fun _ => Tri.bind (w16_sw hX _ _) fun _ => ih

theorem fifoWr_sw (hX : Inner X) (data : List Nat) : Tri (fun _ => True) (Sw p X) (fifoWr data) fun _ => Sw p X := by
  induction data with
  | nil => exact pure_sw
  | cons b rest ih => exact Tri.bind (w16_sw hX _ _) fun _ => ih

theorem linkReady_sw (hX : Inner X) (l : Link) : Tri (fun _ => True) (Sw p X) (linkReady l) fun _ => Sw p X := by
  cases l with
  | x7 | pro => exact Tri.bind (r16_sw hX _) fun _ => pure_sw
  | _ => exact Tri.bind (ask_sw hX) fun _ => pure_sw

theorem linkRead_sw (l : Link) : Tri (fun _ => True) (Sw p fun s => s.active = a) (linkRead l) fun _ => Sw p fun s => s.active = a := by
  cases l with
  | x7 => exact Tri.bind (ledBlink_sw a) fun _ => Tri.bind (r16_sw (inner_active a) _) fun _ => pure_sw
  | pro =>
    exact Tri.bind (ledBlink_sw a) fun _ => Tri.bind (fun s => proRounds_sw (inner_active a) (s.hw.length + 1) 1 s) fun _ => pure_sw
  | _ => exact Tri.bind (ask_sw (inner_active a)) fun _ => pure_sw

theorem linkWriteReady_sw (hX : Inner X) (l : Link) : Tri (fun _ => True) (Sw p X) (linkWriteReady l) fun _ => Sw p X := by
  cases l with
  | x7 => exact x7WriteReady_sw hX
  | serial => exact readyToSend_sw hX
  | _ => exact pure_sw

theorem linkWrite_sw (hX : Inner X) (data : List Nat) (l : Link) : Tri (fun _ => True) (Sw p X) (linkWrite data l) fun _ => Sw p X := by
  cases l with
  | x7 => exact x7Write_sw hX data
  | serial => exact commSerialWrite_sw hX data
  | pro =>
    exact Tri.bind (fifoWr_sw hX _) fun _ => Tri.bind (fifoWr_sw hX _) fun _ => fifoWr_sw hX _
  | _ => exact pure_sw

/-- What a call ends with when a source is active. -/
theorem readReady_kept {ls : List Link} (l : Link) : Tri (fun _ => True) (Sw p fun s => s.active = some l) (readReady ls)
    fun _ => Sw p fun s => s.active = some l := by
  unfold readReady
  refine Tri.bind (R := fun b s => (Sw p fun s => s.active = some l) s ∧ b = some l) (Tri.get fun s _ x => ⟨x, x.2⟩) fun b => ?_
  intro s hj hp
  obtain ⟨hp, rfl⟩ := hp
  exact linkReady_sw (inner_active _) l s hj hp

theorem commRead_kept {ls : List Link} (l : Link) : Tri (fun _ => True) (Sw p fun s => s.active = some l) (commRead ls)
    fun _ => Sw p fun s => s.active = some l := by
  unfold commRead
  refine Tri.bind (spin_sw (readReady_kept l)) fun _ => ?_
  refine Tri.bind (get_sw _) fun b => ?_
  cases b with
  | none => exact Tri.ub
  | some k => exact linkRead_sw k

theorem commWrite_kept (data : List Nat) (l : Link) : Tri (fun _ => True) (Sw p fun s => s.active = some l) (commWrite data)
    fun _ => Sw p fun s => s.active = some l := by
  unfold commWrite
  refine Tri.bind (get_sw _) fun b => ?_
  cases b with
  | none => exact Tri.ub
  | some k => exact Tri.bind (spin_sw (linkWriteReady_sw (inner_active _) k)) fun _ => linkWrite_sw (inner_active _) data k

theorem calls_kept {ls : List Link} (l : Link) (ops : List Op) : Tri (fun _ => True) (Sw p fun s => s.active = some l) (calls ls ops)
    fun _ => Sw p fun s => s.active = some l := by
  induction ops with
  | nil => exact pure_sw
  | cons o ops ih =>
    unfold calls
    refine Tri.bind ?_ fun _ => ih
    cases o with
    | readReady => exact Tri.bind (readReady_kept l) fun _ => pure_sw
    | read => exact Tri.bind (commRead_kept l) fun _ => pure_sw
    | write d => exact commWrite_kept d l
    | ledTick => exact ledTick_sw _

/-! ## The receiver -/

/-- The last access was a look at the receiver, with the answer nothing. -/
def Dry (p : Nat) (s : St) : Prop := ∃ v l, s.acc = .r8 (sctrl p) v :: l ∧ v &&& 2 = 0

theorem flush_dry (n : Nat) : Tri (fun _ => True) (Sw p fun s => s.irqOn = true) (flush n) fun _ => Dry p := by
  have c : Calm p (fun _ => True) (Sw p fun s => s.irqOn = true) := sw_calm fun _ _ _ h => h
  induction n with
  | zero => exact Tri.stop
  | succ n ih =>
    unfold flush
    refine Tri.bind (R := fun b s => (Sw p fun s => s.irqOn = true) s ∧ (b = false → Dry p s))
      (readyToReceive_tri c (fun _ h => h.2) fun s v _ _ h => ⟨trivial, h, fun e => ⟨v, s.acc, rfl, by simpa using e⟩⟩) fun b => ?_
    cases b
    · exact Tri.pure fun _ _ x => x.2 rfl
    · exact Tri.bind ((receive_tri c (fun _ h => h.2) fun s _ _ _ h => ⟨trivial, h⟩).weaken (fun _ _ x => x.1) fun _ _ x => x) fun _ => ih

theorem commSerialInit_dry {s t : St} {b : Option Nat} (h : commSerialInit p false s = (some b, t)) (hs : s.irqOn = false) : Dry p t := by
  unfold commSerialInit at h
  obtain ⟨hw, e⟩ := serialInit_off (p := p) hs
  rw [bind_some e, bind_some (m := put _) (a := ()) rfl] at h
  have k := flush_dry (p := p) (({ s with hw := hw, ioPort := p, vdp11 := s.vdp11 ||| 8, acc := setup p s.vdp11 ++ s.acc, irqOn := true } : St).hw.length + 1)
    { s with hw := hw, ioPort := p, vdp11 := s.vdp11 ||| 8, acc := setup p s.vdp11 ++ s.acc, irqOn := true } trivial ⟨fun _ => rfl, rfl⟩
  rcases hf : flushRrdy { s with hw := hw, ioPort := p, vdp11 := s.vdp11 ||| 8, acc := setup p s.vdp11 ++ s.acc, irqOn := true } with ⟨_ | u, t'⟩
  · have := bind_none (f := fun _ => (if false = true then baudRate >>= fun b => pure (some b) else pure none : M (Option Nat))) (by rw [hf] : (flushRrdy _).1 = none)
    have e2 := congrArg Prod.fst h
    exact absurd (this.symm.trans e2) (by simp)
  · rw [bind_some hf] at h
    have e3 : t' = t := by
      change (some none, t') = (some b, t) at h
      exact (Prod.mk.inj h).2
    subst e3
    have k2 := k.2 () (show (flushRrdy _).1 = _ by rw [hf])
    change Dry p (flushRrdy _).2 at k2
    rw [hf] at k2
    exact k2

theorem rawR8_run {r : Nat} {s t : St} {v : Nat} (h : rawR8 r s = (some v, t)) :
    v < 256 ∧ ∃ hw, t = { s with hw := hw, acc := .r8 r v :: s.acc } := by
  unfold rawR8 at h
  cases e : next s.hw with
  | none =>
    have : (rawAsk s).1 = none := by unfold rawAsk; rw [e]
    have k := bind_none (f := fun v => (note (.r8 r (v % 256)) >>= fun _ => pure (v % 256) : M Nat)) this
    rw [h] at k; cases k
  | some w =>
    have : rawAsk s = (some w.1, { s with hw := w.2 }) := by unfold rawAsk; rw [e]
    rw [bind_some this] at h
    change (some (w.1 % 256), ({ s with hw := w.2, acc := .r8 r (w.1 % 256) :: s.acc } : St)) = (some v, t) at h
    obtain ⟨h1, h2⟩ := Prod.mk.inj h
    cases h1
    exact ⟨Nat.mod_lt _ (by decide), w.2, h2.symm⟩

theorem bind_inv {α β : Type} {m : M α} {f : α → M β} {s t : St} {b : β} (h : (m >>= f) s = (some b, t)) :
    ∃ a u, m s = (some a, u) ∧ f a u = (some b, t) := by
  rcases e : m s with ⟨_ | a, u⟩
  · have := bind_none (f := f) (show (m s).1 = none by rw [e])
    rw [h] at this; cases this
  · exact ⟨a, u, rfl, (bind_some (f := f) e).symm.trans h⟩

theorem rx_ne_sctrl (p : Nat) : sctrl p ≠ rx p := by rw [sctrl_of, rx_of]; exact status_ne p

/-- One round of the handler and what follows. -/
theorem round_run {s t : St} {m : M Unit}
    (h : (do
      let st ← rawR8 (sctrl (← get (·.ioPort)))
      if st &&& 2 = 0 then pure () else
      let _ ← rawR8 (rx (← get (·.ioPort)))
      m) s = (some (), t)) :
    (∃ v, t.acc = .r8 (sctrl s.ioPort) v :: s.acc ∧ v &&& 2 = 0) ∨
    ∃ u v w, m u = (some (), t) ∧ u.ioPort = s.ioPort ∧ u.acc = .r8 (rx s.ioPort) w :: .r8 (sctrl s.ioPort) v :: s.acc ∧ v &&& 2 ≠ 0 := by
  rw [bind_some (m := get _) (a := s.ioPort) (t := s) rfl] at h
  obtain ⟨v, u, h1, h2⟩ := bind_inv h
  obtain ⟨_, hw, rfl⟩ := rawR8_run h1
  by_cases e : v &&& 2 = 0
  · rw [if_pos e] at h2
    cases h2
    exact .inl ⟨v, rfl, e⟩
  · rw [if_neg e, bind_some (m := get _) (a := s.ioPort) (t := { s with hw := hw, acc := .r8 (sctrl s.ioPort) v :: s.acc }) rfl] at h2
    obtain ⟨w, u, h3, h4⟩ := bind_inv h2
    obtain ⟨_, hw2, rfl⟩ := rawR8_run h3
    exact .inr ⟨_, v, w, h4, rfl, rfl, e⟩

/-- The interrupt handler empties the receiver unless the buffer is full. -/
theorem isr_drains (room : Nat) : ∀ s t, isr room s = (some (), t) → ∃ new, t.acc = new ++ s.acc ∧
    ((taken s.ioPort new ≤ room ∧ ∃ v rest, new = .r8 (sctrl s.ioPort) v :: rest ∧ v &&& 2 = 0) ∨ taken s.ioPort new = room + 1) := by
  induction room with
  | zero =>
    intro s t h
    rcases round_run (m := pure ()) h with ⟨v, e, hv⟩ | ⟨u, v, w, h1, _, e, _⟩
    · exact ⟨[_], e, .inl ⟨by simp [taken, sctrl_of, rx_of, status_ne], v, [], rfl, hv⟩⟩
    · cases h1
      exact ⟨[_, _], e, .inr (by simp [taken, sctrl_of, rx_of, status_ne])⟩
  | succ n ih =>
    intro s t h
    rcases round_run (m := isr n) h with ⟨v, e, hv⟩ | ⟨u, v, w, h1, hp, e, _⟩
    · exact ⟨[_], e, .inl ⟨by simp [taken, sctrl_of, rx_of, status_ne], v, [], rfl, hv⟩⟩
    · obtain ⟨new, e2, k⟩ := ih u t h1
      rw [hp] at k
      have ta : ∀ l, taken s.ioPort (l ++ [.r8 (rx s.ioPort) w, .r8 (sctrl s.ioPort) v]) = taken s.ioPort l + 1 := by
        intro l
        induction l with
        | nil => simp [taken, sctrl_of, rx_of, status_ne]
        | cons a l ih =>
          cases a with
          | r8 r x =>
            simp only [List.cons_append, taken, ih]
            split <;> rfl
          | _ => exact ih
      refine ⟨new ++ [.r8 (rx s.ioPort) w, .r8 (sctrl s.ioPort) v], by rw [e2, e]; simp, ?_⟩
      rw [ta]
      rcases k with ⟨k1, x, rest, rfl, hx⟩ | k
      · exact .inl ⟨by omega, x, rest ++ _, rfl, hx⟩
      · exact .inr (by omega)

/-! ## Ready or not -/

/-- Running a 16-bit read. -/
theorem r16_last {r : Nat} {s t : St} {v : Nat} (h : r16 r s = (some v, t)) : v < 65536 ∧ ∃ rest, t.acc = .r16 r v :: rest := by
  unfold r16 at h
  obtain ⟨_, u, _, h⟩ := bind_inv h
  obtain ⟨w, u2, _, h⟩ := bind_inv h
  change (some (w % 65536), ({ u2 with acc := .r16 r (w % 65536) :: u2.acc } : St)) = (some v, t) at h
  obtain ⟨h1, h2⟩ := Prod.mk.inj h
  cases h1
  exact ⟨Nat.mod_lt _ (by decide), u2.acc, by rw [← h2]⟩

theorem ready_last {r : Nat} {f : Nat → Bool} {s t : St} {b : Bool} (h : (do let v ← r16 r; pure (f v) : M Bool) s = (some b, t)) :
    ∃ v rest, t.acc = .r16 r v :: rest ∧ v < 65536 ∧ b = f v := by
  obtain ⟨v, u, h1, h2⟩ := bind_inv h
  obtain ⟨hv, rest, e⟩ := r16_last h1
  cases h2
  exact ⟨v, rest, e, hv, rfl⟩

theorem x7Ready_last {s t : St} {b : Bool} (h : x7ReadReady s = (some b, t)) :
    ∃ v rest, t.acc = .r16 0xA130E4 v :: rest ∧ (b = true ↔ v / 4 % 2 = 1) := by
  obtain ⟨v, rest, e, _, hb⟩ := ready_last (f := fun v => decide (v &&& 4 ≠ 0)) h
  exact ⟨v, rest, e, by rw [hb, decide_eq_true_iff]; exact band_bit v 2⟩

theorem proReady_last {s t : St} {b : Bool} (h : proReadReady s = (some b, t)) :
    ∃ v rest, t.acc = .r16 0xA130D2 v :: rest ∧ (b = true ↔ v < 0x8000) := by
  obtain ⟨v, rest, e, hv, hb⟩ := ready_last (f := fun v => decide (v &&& 0x8000 = 0)) h
  refine ⟨v, rest, e, ?_⟩
  rw [hb, decide_eq_true_iff]
  have := band_bit v 15
  constructor
  · intro h
    have : ¬ v / 2 ^ 15 % 2 = 1 := fun x => this.2 x h
    omega
  · intro h
    refine Decidable.byContradiction fun n => ?_
    have := this.1 n
    omega

end Mdmi.Port
