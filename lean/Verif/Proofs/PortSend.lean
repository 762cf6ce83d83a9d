import Verif.Proofs.PortRun
/-! What `comm_write` puts on the wire, and a transmitter at the other end. -/
namespace Mdmi.Port

variable {p : Nat} {f : Acc → Option Nat} {g : Nat → Option Nat} {base : List Nat}

/-- A way of looking at a history that does not see reads. -/
def Blind (f : Acc → Option Nat) : Prop := (∀ r v, f (.r8 r v) = none) ∧ ∀ r v, f (.r16 r v) = none

/-- Cut off anywhere, a prefix of what is to be sent has been sent. -/
def Begun (f : Acc → Option Nat) (base D : List Nat) (l : List Acc) : Prop :=
  ∃ pre, pre <+: D ∧ l.filterMap f = pre.reverse ++ base

/-- `done` has been sent so far. -/
def Sofar (p : Nat) (f : Acc → Option Nat) (base done : List Nat) (X : St → Prop) (s : St) : Prop :=
  (s.acc.filterMap f = done.reverse ++ base ∧ (s.irqOn = true → s.ioPort = p)) ∧ X s

theorem sofar_calm {D done : List Nat} {X : St → Prop} (hf : Blind f) (hx : ∀ s h a, X s → X { s with hw := h, acc := a }) :
    Calm p (Begun f base D) (Sofar p f base done X) where
  port s h := h.1.2
  hw s h k := ⟨k.1, hx s h s.acc k.2⟩
  stat s v hv hj hp := by
    have e : (Acc.r8 (sctrl p) v :: s.acc).filterMap f = s.acc.filterMap f := by simp [List.filterMap_cons, hf.1]
    exact ⟨by obtain ⟨pre, h, x⟩ := hj; exact ⟨pre, h, by rw [e]; exact x⟩, ⟨by rw [e]; exact hp.1.1, hp.1.2⟩, hx s s.hw _ hp.2⟩
  recv s v w hv hw h2 hj hp := by
    have e : (Acc.r8 (rx p) w :: Acc.r8 (sctrl p) v :: s.acc).filterMap f = s.acc.filterMap f := by
      simp [List.filterMap_cons, hf.1]
    exact ⟨by obtain ⟨pre, h, x⟩ := hj; exact ⟨pre, h, by rw [e]; exact x⟩, ⟨by rw [e]; exact hp.1.1, hp.1.2⟩, hx s s.hw _ hp.2⟩

/-- An access seen as `o`. -/
theorem sofar_cons {D done : List Nat} {X : St → Prop} (hx : ∀ s h a, X s → X { s with hw := h, acc := a }) {s : St} {a : Acc}
    (h : Sofar p f base done X s) (hd : done ++ (f a).toList <+: D) :
    Begun f base D (a :: s.acc) ∧ Sofar p f base (done ++ (f a).toList) X { s with acc := a :: s.acc } := by
  have e : (a :: s.acc).filterMap f = (done ++ (f a).toList).reverse ++ base := by
    rw [List.filterMap_cons]
    cases h' : f a with
    | none => simp [h.1.1]
    | some b => simp [h.1.1]
  exact ⟨⟨_, hd, e⟩, ⟨e, h.1.2⟩, hx s s.hw _ h.2⟩

theorem quiet_cons {D done : List Nat} {X : St → Prop} (hx : ∀ s h a, X s → X { s with hw := h, acc := a }) {s : St} {a : Acc}
    (h : Sofar p f base done X s) (hj : Begun f base D s.acc) (ha : f a = none) :
    Begun f base D (a :: s.acc) ∧ Sofar p f base done X { s with acc := a :: s.acc } := by
  have e : (a :: s.acc).filterMap f = s.acc.filterMap f := by rw [List.filterMap_cons, ha]
  obtain ⟨pre, hp, x⟩ := hj
  exact ⟨⟨pre, hp, by rw [e]; exact x⟩, ⟨by rw [e]; exact h.1.1, h.1.2⟩, hx s s.hw _ h.2⟩

theorem prefix_split {done rest D : List Nat} {b : Nat} {o : List Nat} (h : done ++ (o ++ rest) = D) : done ++ o <+: D :=
  ⟨rest, by rw [← h, List.append_assoc]⟩

/-- Serial initialised on port `p`. -/
def IsUp (s : St) : Prop := s.irqOn = true

theorem readyToSend_sofar {D done : List Nat} (hf : Blind f) :
    Tri (Begun f base D) (Sofar p f base done IsUp) readyToSend fun _ => Sofar p f base done IsUp :=
  readyToSend_tri (sofar_calm hf fun _ _ _ h => h) (fun _ h => h.2) fun s v hv hj hp =>
    quiet_cons (fun _ _ _ h => h) hp hj (hf.1 _ _)

theorem commSerialWrite_sofar {D : List Nat} (hf : Blind f) (hg : ∀ b, f (.w8 (tx p) b) = g b) (rest : List Nat) : ∀ done,
    done ++ rest.filterMap g = D →
    Tri (Begun f base D) (Sofar p f base done IsUp) (commSerialWrite rest) fun _ => Sofar p f base D IsUp := by
  induction rest with
  | nil => intro done h; simp only [List.filterMap_nil, List.append_nil] at h; subst h; exact Tri.pure fun _ _ x => x
  | cons b rest ih =>
    intro done h
    have h' : done ++ ((g b).toList ++ rest.filterMap g) = D := by
      rw [← h, List.filterMap_cons]; cases g b <;> rfl
    unfold commSerialWrite
    refine Tri.bind (R := fun _ => Sofar p f base done IsUp) (spin_tri ((readyToSend_sofar hf).weaken (fun _ _ h => h) fun b s h => by
      cases b <;> exact h)) fun _ => ?_
    refine Tri.bind (R := fun _ => Sofar p f base (done ++ (g b).toList) IsUp) ?_ fun _ => ih _ (by rw [List.append_assoc]; exact h')
    refine serialSend_tri (sofar_calm hf fun _ _ _ h => h) (fun _ h => h.2) fun s hj hp => ?_
    have := sofar_cons (D := D) (a := .w8 (tx p) b) (fun _ _ _ h => h) hp (by rw [hg]; exact prefix_split (b := b) h')
    rw [hg] at this; exact this

theorem x7WriteReady_sofar {D done : List Nat} (hf : Blind f) :
    Tri (Begun f base D) (Sofar p f base done fun _ => True) x7WriteReady fun _ => Sofar p f base done fun _ => True :=
  Tri.bind (R := fun _ => Sofar p f base done fun _ => True) (r16_tri (sofar_calm hf fun _ _ _ h => h) fun s v hv hj hp =>
    quiet_cons (fun _ _ _ h => h) hp hj (hf.2 _ _)) fun _ => Tri.pure fun _ _ x => x

theorem x7Write_sofar {D : List Nat} (hf : Blind f) (hg : ∀ b, f (.w16 0xA130E2 b) = g b) (rest : List Nat) : ∀ done,
    done ++ rest.filterMap g = D →
    Tri (Begun f base D) (Sofar p f base done fun _ => True) (x7Write rest) fun _ => Sofar p f base D fun _ => True := by
  induction rest with
  | nil => intro done h; simp only [List.filterMap_nil, List.append_nil] at h; subst h; exact Tri.pure fun _ _ x => x
  | cons b rest ih =>
    intro done h
    have h' : done ++ ((g b).toList ++ rest.filterMap g) = D := by
      rw [← h, List.filterMap_cons]; cases g b <;> rfl
    unfold x7Write
    refine Tri.bind (R := fun _ => Sofar p f base done fun _ => True) (spin_tri ((x7WriteReady_sofar hf).weaken (fun _ _ h => h)
      fun b s h => by cases b <;> exact h)) fun _ => ?_
    refine Tri.bind (R := fun _ => Sofar p f base (done ++ (g b).toList) fun _ => True) ?_ fun _ => ih _ (by rw [List.append_assoc]; exact h')
    refine w16_tri (sofar_calm hf fun _ _ _ h => h) fun s hj hp => ?_
    have := sofar_cons (D := D) (a := .w16 0xA130E2 b) (fun _ _ _ h => h) hp (by rw [hg]; exact prefix_split (b := b) h')
    rw [hg] at this; exact this

theorem fifoWr_sofar {D : List Nat} (hf : Blind f) (hg : ∀ b, f (.w16 0xA130D0 b) = g b) (now : List Nat) : ∀ done rest,
    done ++ (now ++ rest).filterMap g = D →
    Tri (Begun f base D) (Sofar p f base done fun _ => True) (fifoWr now)
      fun _ => Sofar p f base (done ++ now.filterMap g) fun _ => True := by
  induction now with
  | nil => intro done rest h; simp only [List.filterMap_nil, List.append_nil]; exact Tri.pure fun _ _ x => x
  | cons b now ih =>
    intro done rest h
    have h' : done ++ ((g b).toList ++ (now ++ rest).filterMap g) = D := by
      rw [← h, List.cons_append, List.filterMap_cons]; cases g b <;> rfl
    have e : done ++ (b :: now).filterMap g = done ++ (g b).toList ++ now.filterMap g := by
      rw [List.filterMap_cons, List.append_assoc]; cases g b <;> rfl
    rw [e]
    unfold fifoWr
    refine Tri.bind (R := fun _ => Sofar p f base (done ++ (g b).toList) fun _ => True) ?_ fun _ =>
      ih _ rest (by rw [List.append_assoc]; exact h')
    refine w16_tri (sofar_calm hf fun _ _ _ h => h) fun s hj hp => ?_
    have := sofar_cons (D := D) (a := .w16 0xA130D0 b) (fun _ _ _ h => h) hp (by rw [hg]; exact prefix_split (b := b) h')
    rw [hg] at this; exact this

/-- The Everdrive Pro's USB command: header, length (high byte first), data. -/
def proFrame (data : List Nat) : List Nat := [0x2B, 0xD4, 0x22, 0xDD, data.length / 256, data.length % 256] ++ data

theorem proWrite_sofar {D : List Nat} (hf : Blind f) (hg : ∀ b, f (.w16 0xA130D0 b) = g b) (data : List Nat)
    (hl : data.length < 65536) (h : (proFrame data).filterMap g = D) :
    Tri (Begun f base D) (Sofar p f base [] fun _ => True) (proWrite data) fun _ => Sofar p f base D fun _ => True := by
  have e : data.length % 65536 = data.length := Nat.mod_eq_of_lt hl
  unfold proWrite
  simp only [e]
  rw [List.take_of_length_le (Nat.le_refl _)]
  refine Tri.bind (fifoWr_sofar hf hg _ [] ([data.length / 256, data.length % 256] ++ data) h) fun _ => ?_
  refine Tri.bind (fifoWr_sofar hf hg _ _ data ?_) fun _ => ?_
  · rw [← h, List.nil_append, ← List.filterMap_append]; rfl
  · have k := fifoWr_sofar (p := p) (base := base) (D := D) hf hg data
      (([] ++ List.filterMap g [43, 43 ^^^ 255, 34, 34 ^^^ 255]) ++ List.filterMap g [data.length / 256, data.length % 256]) []
      (by rw [List.append_nil, ← h, List.nil_append, ← List.filterMap_append, ← List.filterMap_append]; rfl)
    refine k.weaken (fun _ _ h => h) fun _ s x => ?_
    have z : ([] ++ List.filterMap g [43, 43 ^^^ 255, 34, 34 ^^^ 255]) ++ List.filterMap g [data.length / 256, data.length % 256] ++
        List.filterMap g data = D := by
      rw [← h, List.nil_append, ← List.filterMap_append, ← List.filterMap_append]; rfl
    rw [z] at x; exact x

/-- What has to go out on link `l`. -/
def wire (l : Link) (data : List Nat) : List Nat :=
  match l with
  | .x7 | .serial => data
  | .pro => proFrame data
  | .wifi | .demo => []

/-- Writes to a link's data register. -/
def toLink (p : Nat) : Link → Acc → Option Nat
  | .x7 => toX7
  | .pro => toPro
  | .serial => toSerial p
  | .wifi | .demo => fun _ => none

theorem toLink_blind (l : Link) : Blind (toLink p l) := by cases l <;> exact ⟨fun _ _ => rfl, fun _ _ => rfl⟩

/-- `comm_write` on the active link `l`, seen from link `k`. -/
theorem commWrite_sofar (s : St) (data : List Nat) (l k : Link) (ha : s.active = some l) (hu : l = .serial → s.irqOn = true)
    (hp : s.irqOn = true → s.ioPort = p) (hl : data.length < 65536) :
    ∃ pre, pre <+: (if k = l then wire l data else []) ∧
      sentTo (toLink p k) (commWrite data s).2.acc = sentTo (toLink p k) s.acc ++ pre ∧
      ((commWrite data s).1 = some () → pre = if k = l then wire l data else []) := by
  suffices H : Tri (Begun (toLink p k) (s.acc.filterMap (toLink p k)) (if k = l then wire l data else [])) (fun t => t = s)
      (commWrite data) fun _ => Sofar p (toLink p k) (s.acc.filterMap (toLink p k)) (if k = l then wire l data else []) fun _ => True by
    have h := H s ⟨[], List.nil_prefix, rfl⟩ rfl
    rcases hc : commWrite data s with ⟨r, t⟩
    rw [hc] at h
    obtain ⟨⟨pre, h1, h2⟩, h3⟩ := h
    cases r with
    | none => exact ⟨pre, h1, by simp [sentTo, h2], fun e => by cases e⟩
    | some u =>
      have h4 := (h3 () rfl).1.1
      exact ⟨_, List.prefix_refl _, by simp [sentTo, h4], fun _ => rfl⟩
  unfold commWrite
  refine Tri.bind (R := fun a t => t = s ∧ a = some l) (Tri.get fun t _ h => ⟨h, by rw [h]; exact ha⟩) fun a => ?_
  by_cases e : ¬a = some l
  · intro t _ h; exact absurd h.2 e
  have e := Decidable.not_not.1 e
  subst e
  generalize hb : s.acc.filterMap (toLink p k) = base
  have start : ∀ {X : St → Prop} (t : St), X s → t = s ∧ some l = some l → Sofar p (toLink p k) base [] X t := by
    rintro X t hx ⟨rfl, _⟩
    exact ⟨⟨hb, hp⟩, hx⟩
  have hf := toLink_blind (p := p) k
  have ne : tx p ≠ 0xA130CF := by cases p <;> simp [tx]
  cases l with
  | serial =>
    have hg : ∀ b, toLink p k (.w8 (tx p) b) = if k = .serial then some b else none := by
      intro b
      cases k <;> simp [toLink, toX7, toPro, toSerial, tx_of]
    refine Tri.bind (R := fun _ => Sofar p (toLink p k) base [] IsUp) ?_ fun _ => ?_
    · refine Tri.weaken (P' := Sofar p (toLink p k) base [] IsUp) (spin_tri ((readyToSend_sofar hf).weaken (fun _ _ h => h)
        fun b s h => by cases b <;> exact h)) (fun t _ h => start t (hu rfl) h) fun _ _ h => h
    · refine (commSerialWrite_sofar (D := if k = .serial then data else []) hf hg data [] ?_).weaken (fun _ _ h => h) fun _ _ h => ⟨h.1, trivial⟩
      cases k <;> simp
  | x7 =>
    have hg : ∀ b, toLink p k (.w16 0xA130E2 b) = if k = .x7 then some b else none := by
      intro b
      cases k <;> simp [toLink, toX7, toPro, toSerial]
    refine Tri.bind (R := fun _ => Sofar p (toLink p k) base [] fun _ => True) ?_ fun _ => ?_
    · refine Tri.weaken (P' := Sofar p (toLink p k) base [] fun _ => True) (spin_tri ((x7WriteReady_sofar hf).weaken (fun _ _ h => h)
        fun b s h => by cases b <;> exact h)) (fun t _ h => start t trivial h) fun _ _ h => h
    · refine x7Write_sofar (D := if k = .x7 then data else []) hf hg data [] ?_
      cases k <;> simp
  | pro =>
    have hg : ∀ b, toLink p k (.w16 0xA130D0 b) = if k = .pro then some b else none := by
      intro b
      cases k <;> simp [toLink, toX7, toPro, toSerial]
    refine Tri.bind (R := fun _ => Sofar p (toLink p k) base [] fun _ => True) ?_ fun _ => ?_
    · exact spin_tri (Tri.pure fun t _ h => start (X := fun _ => True) t trivial h)
    · refine proWrite_sofar (D := if k = .pro then proFrame data else []) hf hg data hl ?_
      cases k <;> simp
  | wifi =>
    have : (if k = Link.wifi then wire .wifi data else []) = [] := by split <;> rfl
    rw [this]
    refine Tri.bind (R := fun _ => Sofar p (toLink p k) base [] fun _ => True) ?_ fun _ => ?_
    · exact spin_tri (Tri.pure fun t _ h => start (X := fun _ => True) t trivial h)
    · exact Tri.pure fun _ _ x => x
  | demo =>
    have : (if k = Link.demo then wire .demo data else []) = [] := by split <;> rfl
    rw [this]
    refine Tri.bind (R := fun _ => Sofar p (toLink p k) base [] fun _ => True) ?_ fun _ => ?_
    · exact spin_tri (Tri.pure fun t _ h => h)
    · exact Tri.pure fun _ _ x => x

/-- A transmitter whose gate is obeyed loses nothing. -/
theorem Sends.safe {g : Gate} {data : Acc → Option Nat} (hu : ∀ a, g.use a = (data a).isSome)
    (hk : ∀ a, g.ok a = true → data a = none) {l : List Acc} {h : Option Nat} {out : List Nat}
    {n : Nat} (o : g.Obeyed l) (d : Sends g data l h out n) :
    n = 0 ∧ h.toList ++ out = l.filterMap data ∧ (g.open l = true → h = none) := by
  induction d with
  | start => exact ⟨rfl, rfl, fun e => by cases e⟩
  | shift _ ih => have := ih o; exact ⟨this.1, by simpa using this.2.1, fun _ => rfl⟩
  | @look l h out n a _ hd hr ih =>
    obtain ⟨i1, i2, i3⟩ := ih o.1
    refine ⟨i1, by rw [List.filterMap_cons, hd]; exact i2, fun e => ?_⟩
    simp only [Gate.open, Bool.or_eq_true, Bool.and_eq_true] at e
    rcases e with e | ⟨_, e⟩
    · exact hr e
    · exact i3 e
  | @write l h out n a b _ hd ih =>
    obtain ⟨i1, i2, i3⟩ := ih o.1
    have hn := i3 (o.2 (by rw [hu, hd]; rfl))
    subst hn
    refine ⟨by simpa using i1, ?_, fun e => ?_⟩
    · rw [List.filterMap_cons, hd]; simpa using i2
    · have u : g.use a = true := by rw [hu, hd]; rfl
      simp only [Gate.open, u, Bool.not_true, Bool.false_and, Bool.or_false] at e
      rw [hk a e] at hd; cases hd

/-! ## Progress, when no interrupt comes in between -/

theorem bind_some {α β : Type} {m : M α} {f : α → M β} {s t : St} {a : α} (h : m s = (some a, t)) : (m >>= f) s = f a t := by
  show M.bind m f s = _
  unfold M.bind; rw [h]

theorem bind_none {α β : Type} {m : M α} {f : α → M β} {s : St} (h : (m s).1 = none) : ((m >>= f) s).1 = none := by
  show (M.bind m f s).1 = _
  unfold M.bind
  rcases hm : m s with ⟨_ | a, t⟩
  · rfl
  · rw [hm] at h; cases h

/-- Answers without interrupts. -/
def vals (vs : List Nat) : List Hw := vs.map .val

theorem serve_vals {s : St} {vs : List Nat} (h : s.hw = vals vs) : serve s = (some (), s) := by
  unfold serve
  cases vs with
  | nil => rw [h]; rfl
  | cons v vs => rw [h]; simp only [vals, List.map_cons, List.length_cons]; unfold irqs; rw [h]; rfl

theorem r8_vals {s : St} {v a : Nat} {vs : List Nat} (h : s.hw = vals (v :: vs)) :
    r8 a s = (some (v % 256), { s with hw := vals vs, acc := .r8 a (v % 256) :: s.acc }) := by
  show M.bind serve (fun _ => rawR8 a) s = _
  unfold M.bind
  rw [serve_vals h]
  show M.bind rawAsk _ s = _
  unfold M.bind rawAsk
  rw [h]; rfl

theorem r16_vals {s : St} {v a : Nat} {vs : List Nat} (h : s.hw = vals (v :: vs)) :
    r16 a s = (some (v % 65536), { s with hw := vals vs, acc := .r16 a (v % 65536) :: s.acc }) := by
  show M.bind serve (fun _ => _) s = _
  unfold M.bind
  rw [serve_vals h]
  show M.bind rawAsk _ s = _
  unfold M.bind rawAsk
  rw [h]; rfl

/-- A poll that reads one answer `v` and says `ok v`. -/
def Polls (ready : M Bool) (ok : Nat → Bool) : Prop :=
  ∀ (s : St) v vs, s.hw = vals (v :: vs) → ∃ acc, ready s = (some (ok v), { s with hw := vals vs, acc := acc })

theorem readyToSend_polls : Polls readyToSend fun v => v % 2 == 0 := by
  intro s v vs h
  refine ⟨.r8 (sctrl s.ioPort) (v % 256) :: s.acc, ?_⟩
  unfold readyToSend
  rw [bind_some (m := get fun x => x.ioPort) rfl, bind_some (r8_vals h)]
  have := band_bit (v % 256) 0
  simp only [Nat.pow_zero, Nat.div_one] at this
  show (some (decide (v % 256 &&& 1 = 0)), _) = _
  congr 2
  rw [Bool.eq_iff_iff]
  simp only [decide_eq_true_eq, beq_iff_eq]
  constructor
  · intro e
    have : ¬ v % 256 % 2 = 1 := fun h => this.2 h e
    omega
  · intro e
    refine Decidable.byContradiction fun h => ?_
    have := this.1 h; omega

theorem x7WriteReady_polls : Polls x7WriteReady fun v => v / 2 % 2 == 1 := by
  intro s v vs h
  refine ⟨.r16 0xA130E4 (v % 65536) :: s.acc, ?_⟩
  show M.bind (r16 _) _ s = _
  unfold M.bind
  rw [r16_vals h]
  have := band_bit (v % 65536) 1
  simp only [Nat.pow_one] at this
  show (some (decide (v % 65536 &&& 2 ≠ 0)), _) = _
  congr 2
  rw [Bool.eq_iff_iff]
  simp only [decide_eq_true_eq, beq_iff_eq]
  rw [this]; omega

theorem spin_done {ready : M Bool} {ok : Nat → Bool} (hr : Polls ready ok) (vs : List Nat) : ∀ s : St, s.hw = vals vs → 0 < vs.countP ok →
    ∃ vs' acc, spin ready s = (some (), { s with hw := vals vs', acc := acc }) ∧ vs'.countP ok + 1 = vs.countP ok := by
  suffices H : ∀ n, vs.length < n → ∀ s : St, s.hw = vals vs → 0 < vs.countP ok →
      ∃ vs' acc, poll ready n s = (some (), { s with hw := vals vs', acc := acc }) ∧ vs'.countP ok + 1 = vs.countP ok by
    intro s h hc
    exact H (s.hw.length + 1) (by rw [h]; simp [vals]) s h hc
  induction vs with
  | nil => intro n _ s _ h; simp at h
  | cons v vs ih =>
    intro n hn s h hc
    cases n with
    | zero => cases hn
    | succ n =>
      obtain ⟨acc, e⟩ := hr s v vs h
      have e' : poll ready (n + 1) s = (if ok v then Pure.pure () else poll ready n : M Unit) { s with hw := vals vs, acc := acc } := by
        show M.bind ready _ s = _
        unfold M.bind
        rw [e]
      rw [e']
      by_cases hv : ok v = true
      · rw [if_pos hv]
        refine ⟨vs, acc, rfl, ?_⟩
        rw [List.countP_cons_of_pos hv]
      · rw [if_neg hv]
        rw [List.countP_cons_of_neg hv] at hc ⊢
        obtain ⟨vs', acc', x, y⟩ := ih n (by simp only [List.length_cons] at hn; omega) { s with hw := vals vs, acc := acc } rfl hc
        exact ⟨vs', acc', x, y⟩

theorem w8_vals {s : St} {a v : Nat} {vs : List Nat} (h : s.hw = vals vs) : w8 a v s = (some (), { s with acc := .w8 a v :: s.acc }) := by
  show M.bind serve (fun _ => note (.w8 a v)) s = _
  unfold M.bind
  rw [serve_vals h]; rfl

theorem w16_vals {s : St} {a v : Nat} {vs : List Nat} (h : s.hw = vals vs) : w16 a v s = (some (), { s with acc := .w16 a v :: s.acc }) := by
  show M.bind serve (fun _ => note (.w16 a v)) s = _
  unfold M.bind
  rw [serve_vals h]; rfl

theorem commSerialWrite_done (data : List Nat) : ∀ (s : St) (vs : List Nat), s.hw = vals vs →
    data.length ≤ vs.countP (fun v => v % 2 == 0) → (commSerialWrite data s).1 = some () := by
  induction data with
  | nil => intro s vs _ _; rfl
  | cons b data ih =>
    intro s vs h hc
    simp only [List.length_cons] at hc
    obtain ⟨vs', acc, e, c⟩ := spin_done readyToSend_polls vs s h (by omega)
    have e1 : commSerialWrite (b :: data) s = M.bind (spin readyToSend) (fun _ => M.bind (serialSend b) fun _ => commSerialWrite data) s := rfl
    rw [e1]
    unfold M.bind
    rw [e]
    have e2 : serialSend b { s with hw := vals vs', acc := acc } =
        (some (), { s with hw := vals vs', acc := .w8 (tx s.ioPort) b :: acc }) := w8_vals rfl
    simp only [e2]
    exact ih _ vs' rfl (by omega)

theorem x7Write_done (data : List Nat) : ∀ (s : St) (vs : List Nat), s.hw = vals vs →
    data.length ≤ vs.countP (fun v => v / 2 % 2 == 1) → (x7Write data s).1 = some () := by
  induction data with
  | nil => intro s vs _ _; rfl
  | cons b data ih =>
    intro s vs h hc
    simp only [List.length_cons] at hc
    obtain ⟨vs', acc, e, c⟩ := spin_done x7WriteReady_polls vs s h (by omega)
    have e1 : x7Write (b :: data) s = M.bind (spin x7WriteReady) (fun _ => M.bind (w16 0xA130E2 b) fun _ => x7Write data) s := rfl
    rw [e1]
    unfold M.bind
    rw [e]
    have e2 : w16 0xA130E2 b { s with hw := vals vs', acc := acc } =
        (some (), { s with hw := vals vs', acc := .w16 0xA130E2 b :: acc }) := w16_vals rfl
    simp only [e2]
    exact ih _ vs' rfl (by omega)

/-- `comm_write` ends once the device has been ready often enough. -/
theorem commWrite_serial_done (data : List Nat) (s : St) (vs : List Nat) (ha : s.active = some .serial) (h : s.hw = vals vs)
    (hc : data.length < vs.countP (fun v => v % 2 == 0)) : (commWrite data s).1 = some () := by
  obtain ⟨vs', acc, e, c⟩ := spin_done readyToSend_polls vs s h (by omega)
  have e1 : commWrite data s = M.bind (spin readyToSend) (fun _ => commSerialWrite data) s := by
    unfold commWrite
    rw [bind_some (m := get fun x => x.active) (a := some .serial) (t := s) (by show (some s.active, s) = _; rw [ha])]; rfl
  rw [e1]
  unfold M.bind
  rw [e]
  exact commSerialWrite_done data _ vs' rfl (by omega)

theorem commWrite_x7_done (data : List Nat) (s : St) (vs : List Nat) (ha : s.active = some .x7) (h : s.hw = vals vs)
    (hc : data.length < vs.countP (fun v => v / 2 % 2 == 1)) : (commWrite data s).1 = some () := by
  obtain ⟨vs', acc, e, c⟩ := spin_done x7WriteReady_polls vs s h (by omega)
  have e1 : commWrite data s = M.bind (spin x7WriteReady) (fun _ => x7Write data) s := by
    unfold commWrite
    rw [bind_some (m := get fun x => x.active) (a := some .x7) (t := s) (by show (some s.active, s) = _; rw [ha])]; rfl
  rw [e1]
  unfold M.bind
  rw [e]
  exact x7Write_done data _ vs' rfl (by omega)

/-- In demo mode `comm_write` never ends. -/
theorem commWrite_demo (data : List Nat) (s : St) (ha : s.active = some .demo) : (commWrite data s).1 = none := by
  have k : ∀ n t, (poll (pure false) n t).1 = none := by
    intro n
    induction n with
    | zero => intro t; rfl
    | succ n ih => intro t; exact ih t
  have e1 : commWrite data s = M.bind (spin (pure false)) (fun _ => pure ()) s := by
    unfold commWrite
    rw [bind_some (m := get fun x => x.active) (a := some .demo) (t := s) (by show (some s.active, s) = _; rw [ha])]; rfl
  rw [e1]
  exact bind_none (k _ s)

end Mdmi.Port
