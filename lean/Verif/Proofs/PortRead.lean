import Verif.Proofs.PortSend
/-! What reading a link returns, the start-up of the serial port, and the baud rate. -/
namespace Mdmi.Port

variable {p : Nat} {a : Option Link}

/-- Port and active link. -/
def Here (p : Nat) (a : Option Link) (s : St) : Prop := s.ioPort = p ∧ s.active = a

theorem here_calm : Calm p (fun _ => True) (Here p a) where
  port _ h _ := h.1
  hw _ _ h := h
  stat _ _ _ _ h := ⟨trivial, h⟩
  recv _ _ _ _ _ _ _ h := ⟨trivial, h⟩

theorem ledBlink_here : Tri (fun _ => True) (Here p a) ledBlink fun _ => Here p a := by
  unfold ledBlink
  refine Tri.bind (R := fun _ => Here p a) (Tri.get fun _ _ x => x) fun b => ?_
  cases b with
  | true => exact Tri.pure fun _ _ x => x
  | false =>
    exact Tri.bind (R := fun _ => Here p a) (w16_tri here_calm fun s _ h => ⟨trivial, h⟩) fun _ => Tri.put fun s _ h => ⟨trivial, h⟩

/-- The byte `b` came from register `r`, read last. -/
def From (r b : Nat) (s : St) : Prop := ∃ w l, s.acc = .r16 r w :: l ∧ b = w % 256

theorem x7Read_here : Tri (fun _ => True) (Here p a) x7Read fun b s => Here p a s ∧ From 0xA130E2 b s := by
  unfold x7Read
  refine Tri.bind ledBlink_here fun _ => ?_
  refine Tri.bind (R := fun v s => Here p a s ∧ From 0xA130E2 (v % 256) s)
    (r16_tri here_calm fun s v _ _ h => ⟨trivial, h, v, s.acc, rfl, rfl⟩) fun v => Tri.pure fun _ _ x => x

theorem proRounds_here (n : Nat) : Tri (fun _ => True) (Here p a) (proRounds n 1)
    fun d s => Here p a s ∧ From 0xA130D0 (d.headD 0) s := by
  induction n with
  | zero => unfold proRounds; exact Tri.stop
  | succ n ih =>
    unfold proRounds
    rw [if_neg (by decide)]
    refine Tri.bind (R := fun _ => Here p a) (r16_tri here_calm fun s v _ _ h => ⟨trivial, h⟩) fun v => ?_
    simp only [band_low]
    by_cases hv : v % 2048 = 0
    · simp only [hv]
      refine Tri.bind (R := fun d s => Here p a s ∧ d = []) (Tri.pure fun _ _ x => ⟨x, rfl⟩) fun d => ?_
      refine Tri.bind (R := fun e s => (Here p a s ∧ From 0xA130D0 (e.headD 0) s) ∧ d = []) ?_ fun e => ?_
      · intro s hj hp
        have := ih s hj hp.1
        exact ⟨this.1, fun x h => ⟨this.2 x h, hp.2⟩⟩
      · refine Tri.pure fun s _ x => ?_
        rw [x.2]; exact x.1
    · have e : (if v % 2048 > 1 then 1 else v % 2048) = 1 := by split <;> omega
      simp only [e]
      refine Tri.bind (R := fun d s => Here p a s ∧ From 0xA130D0 (d.headD 0) s ∧ d ≠ []) ?_ fun d => ?_
      · unfold proBlock
        refine Tri.bind (R := fun v s => Here p a s ∧ From 0xA130D0 (v % 256) s)
          (r16_tri here_calm fun s v _ _ h => ⟨trivial, h, v, s.acc, rfl, rfl⟩) fun v => ?_
        refine Tri.bind (R := fun e s => (Here p a s ∧ From 0xA130D0 (v % 256) s) ∧ e = []) (Tri.pure fun _ _ x => ⟨x, rfl⟩) fun e => ?_
        exact Tri.pure fun s _ x => ⟨x.1.1, x.1.2, by simp⟩
      · cases n with
        | zero => exact Tri.bind (R := fun _ _ => False) Tri.stop fun _ s _ h => h.elim
        | succ n =>
          refine Tri.bind (R := fun e s => Here p a s ∧ From 0xA130D0 (d.headD 0) s ∧ d ≠ []) (Tri.pure fun _ _ x => x) fun e => ?_
          refine Tri.pure fun s _ x => ⟨x.1, ?_⟩
          cases d with
          | nil => exact absurd rfl x.2.2
          | cons b d => exact x.2.1

theorem proRead_here : Tri (fun _ => True) (Here p a) proRead fun b s => Here p a s ∧ From 0xA130D0 b s := by
  unfold proRead
  refine Tri.bind ledBlink_here fun _ => Tri.bind (R := fun d s => Here p a s ∧ From 0xA130D0 (d.headD 0) s) ?_ fun d => Tri.pure fun _ _ x => x
  exact fun s => proRounds_here (s.hw.length + 1) s

/-- What `comm_read` returns is the low byte of the register read last. -/
theorem commRead_from {ls : List Link} {s t : St} {b : Nat} (h : commRead ls s = (some b, t)) (l : Link) (ht : t.active = some l) :
    (l = .x7 → From 0xA130E2 b t) ∧ (l = .pro → From 0xA130D0 b t) := by
  unfold commRead at h
  rcases hs : spin (readReady ls) s with ⟨_ | u, s1⟩
  · have := bind_none (f := fun _ => (get (·.active) >>= fun x => match x with | none => ub | some l => linkRead l : M Nat))
      (show (spin (readReady ls) s).1 = none by rw [hs])
    have e := congrArg Prod.fst h
    exact absurd (this.symm.trans e) (by simp)
  · rw [bind_some hs] at h
    cases ha : s1.active with
    | none =>
      rw [bind_some (m := get fun x => x.active) (a := none) (t := s1) (by show (some s1.active, s1) = _; rw [ha])] at h
      cases h
    | some k =>
      rw [bind_some (m := get fun x => x.active) (a := some k) (t := s1) (by show (some s1.active, s1) = _; rw [ha])] at h
      change linkRead k s1 = (some b, t) at h
      have soft : ∀ (m : M Nat) (Q : Nat → St → Prop), m s1 = (some b, t) →
          Tri (fun _ => True) (Here s1.ioPort s1.active) m (fun b s => Here s1.ioPort s1.active s ∧ Q b s) →
          t.active = s1.active ∧ Q b t := by
        intro m Q hm hk
        have := hk s1 trivial ⟨rfl, rfl⟩
        rw [hm] at this
        exact ⟨(this.2 b rfl).1.2, (this.2 b rfl).2⟩
      have ask' : linkRead .serial s1 = (some b, t) → t.active = s1.active := fun hm =>
        (soft _ (fun _ _ => True) hm (Tri.bind (R := fun _ => Here s1.ioPort s1.active) (ask_tri here_calm fun _ _ _ x => x) fun _ =>
          Tri.pure fun _ _ x => ⟨x, trivial⟩)).1
      cases k with
      | x7 =>
        have k := soft _ _ h x7Read_here
        rw [k.1, ha] at ht; cases ht
        exact ⟨fun _ => k.2, fun e => Link.noConfusion e⟩
      | pro =>
        have k := soft _ _ h proRead_here
        rw [k.1, ha] at ht; cases ht
        exact ⟨fun e => Link.noConfusion e, fun _ => k.2⟩
      | serial => rw [ask' h, ha] at ht; cases ht; exact ⟨fun e => Link.noConfusion e, fun e => Link.noConfusion e⟩
      | wifi => rw [ask' h, ha] at ht; cases ht; exact ⟨fun e => Link.noConfusion e, fun e => Link.noConfusion e⟩
      | demo => rw [ask' h, ha] at ht; cases ht; exact ⟨fun e => Link.noConfusion e, fun e => Link.noConfusion e⟩

/-! ## Serial start-up -/

theorem irqs_off (n : Nat) : ∀ s : St, s.irqOn = false → ∃ h, irqs n s = (some (), { s with hw := h }) := by
  induction n with
  | zero => intro s _; exact ⟨s.hw, rfl⟩
  | succ n ih =>
    intro s hs
    unfold irqs
    split
    · rename_i room r _
      obtain ⟨h, e⟩ := ih { s with hw := r } hs
      exact ⟨h, by rw [if_neg (by rw [hs]; decide)]; exact e⟩
    · exact ⟨s.hw, rfl⟩

theorem w8_off {s : St} {r v : Nat} (hs : s.irqOn = false) : ∃ h, w8 r v s = (some (), { s with hw := h, acc := .w8 r v :: s.acc }) := by
  obtain ⟨h, e⟩ := irqs_off s.hw.length s hs
  refine ⟨h, ?_⟩
  unfold w8
  rw [bind_some (m := serve) (a := ()) e]
  rfl

/-- The setting-up part of `serial_init`, newest first. -/
def setup (p vdp : Nat) : List Acc :=
  [.extInt, .vdpReg 11 (vdp ||| 8), .intMask 1, .w8 (Uart.of p).dir 0x7F, .w8 (Uart.of p).status 0x38]

theorem serialInit_off {s : St} (hs : s.irqOn = false) : ∃ h, serialInit p (0x00 ||| 0x20 ||| 0x10 ||| 0x08) s =
    (some (), { s with hw := h, ioPort := p, vdp11 := s.vdp11 ||| 8, acc := setup p s.vdp11 ++ s.acc }) := by
  unfold serialInit
  rw [bind_some (m := put _) (a := ()) rfl]
  obtain ⟨h1, e1⟩ := w8_off (s := { s with ioPort := p }) (r := sctrl p) (v := 0x00 ||| 0x20 ||| 0x10 ||| 0x08) hs
  rw [bind_some e1]
  obtain ⟨h2, e2⟩ := w8_off (s := { s with ioPort := p, hw := h1, acc := .w8 (sctrl p) (0x00 ||| 0x20 ||| 0x10 ||| 0x08) :: s.acc })
    (r := ctrl p) (v := 0x7F) hs
  rw [bind_some e2]
  refine ⟨h2, ?_⟩
  rw [if_pos (by decide)]
  simp only [setup, ← sctrl_of, ← ctrl_of]
  rfl

/-- After the set-up only status and data are read. -/
theorem commSerialInit_acc {s : St} (hs : s.irqOn = false) (debug : Bool) : ∃ reads,
    (commSerialInit p debug s).2.acc = reads ++ setup p s.vdp11 ++ s.acc ∧
    ∀ a ∈ reads, ∃ v, a = .r8 (Uart.of p).status v ∨ a = .r8 (Uart.of p).rxData v := by
  obtain ⟨h, e⟩ := serialInit_off (p := p) hs
  have J : ∀ base : List Acc, ∃ J : List Acc → Prop, J = fun l => ∃ reads, l = reads ++ base ∧
      ∀ a ∈ reads, ∃ v, a = .r8 (Uart.of p).status v ∨ a = .r8 (Uart.of p).rxData v := fun base => ⟨_, rfl⟩
  obtain ⟨J, hJ⟩ := J (setup p s.vdp11 ++ s.acc)
  have c1 : ∀ l v, J l → J (.r8 (sctrl p) v :: l) := by
    intro l v h; rw [hJ] at h ⊢
    obtain ⟨reads, rfl, x⟩ := h
    refine ⟨.r8 (sctrl p) v :: reads, rfl, fun a ha => ?_⟩
    rcases List.mem_cons.1 ha with rfl | ha
    · exact ⟨v, .inl (by rw [sctrl_of])⟩
    · exact x a ha
  have c2 : ∀ l v, J l → J (.r8 (rx p) v :: l) := by
    intro l v h; rw [hJ] at h ⊢
    obtain ⟨reads, rfl, x⟩ := h
    refine ⟨.r8 (rx p) v :: reads, rfl, fun a ha => ?_⟩
    rcases List.mem_cons.1 ha with rfl | ha
    · exact ⟨v, .inr (by rw [rx_of])⟩
    · exact x a ha
  have cl : Calm p J fun s => s.irqOn = true ∧ s.ioPort = p :=
    ⟨fun _ h _ => h.2, fun _ _ h => h, fun s v _ hj h => ⟨c1 _ v hj, h⟩, fun s v w _ _ _ hj h => ⟨c2 _ w (c1 _ v hj), h⟩⟩
  have H : Tri J (fun s => s.irqOn = true ∧ s.ioPort = p) (flushRrdy >>= fun _ => if debug then (do
      let b ← baudRate
      pure (some b)) else pure none : M (Option Nat)) fun _ _ => True := by
    refine Tri.bind (flushRrdy_tri cl (fun _ h => h.1) fun s w _ hj h => ⟨c2 _ w hj, h⟩) fun _ => ?_
    refine Tri.ite (fun _ => Tri.bind (R := fun _ _ => True) ?_ fun _ => Tri.pure fun _ _ x => x) fun _ => Tri.pure fun _ _ _ => trivial
    unfold baudRate
    exact Tri.bind (R := fun _ _ => True) (sctrl_tri cl (fun _ h => h.1) fun s v _ hj h => ⟨c1 _ v hj, trivial⟩) fun _ => Tri.pure fun _ _ x => x
  have k := (H { s with hw := h, ioPort := p, vdp11 := s.vdp11 ||| 8, acc := setup p s.vdp11 ++ s.acc, irqOn := true }
    (by rw [hJ]; exact ⟨[], rfl, fun _ h => by simp at h⟩) ⟨rfl, rfl⟩).1
  unfold commSerialInit
  rw [bind_some e, bind_some (m := put _) (a := ()) rfl]
  rw [hJ] at k
  obtain ⟨reads, x, y⟩ := k
  exact ⟨reads, by rw [List.append_assoc]; exact x, y⟩

/-- The rate the status register tells. -/
def rate (status : Nat) : Nat :=
  match status / 64 with
  | 0 => 4800
  | 1 => 2400
  | 2 => 1200
  | _ => 300

theorem baud_table : ∀ v : Fin 256, (if v.1 &&& 0xC0 = 0xC0 then 300 else if v.1 &&& 0xC0 = 0x80 then 1200
    else if v.1 &&& 0xC0 = 0x40 then 2400 else 4800) = rate v.1 := by decide +kernel

theorem baudRate_eq {s t : St} {r : Nat} (h : baudRate s = (some r, t)) :
    ∃ v l, t.acc = .r8 (Uart.of s.ioPort).status v :: l ∧ r = rate v := by
  have H : Tri (fun _ => True) (Here s.ioPort s.active) baudRate fun r t => ∃ v l, t.acc = .r8 (sctrl s.ioPort) v :: l ∧ r = rate v := by
    unfold baudRate
    refine Tri.bind (R := fun v t => v < 256 ∧ ∃ l, t.acc = .r8 (sctrl s.ioPort) v :: l) ?_ fun v => Tri.pure fun t _ x => ?_
    · unfold serialSctrl
      refine Tri.bind (R := fun q t => Here s.ioPort s.active t ∧ q = s.ioPort) (Tri.get fun _ _ h => ⟨h, h.1⟩) fun q => ?_
      intro t hj hp
      obtain ⟨hp, rfl⟩ := hp
      exact r8_tri (a := sctrl s.ioPort) (Q := fun v t => v < 256 ∧ ∃ l, t.acc = .r8 (sctrl s.ioPort) v :: l) here_calm
        (fun s' v hv _ _ => ⟨trivial, hv, s'.acc, rfl⟩) t hj hp
    · obtain ⟨hv, l, e⟩ := x
      exact ⟨v, l, e, baud_table ⟨v, hv⟩⟩
  have k := H s trivial ⟨rfl, rfl⟩
  rw [h] at k
  have := k.2 r rfl
  rw [sctrl_of] at this; exact this

end Mdmi.Port
