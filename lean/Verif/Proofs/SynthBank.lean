import Verif.Proofs.SynthReq
/-! Ownership of registers by calls, and bus discipline relative to any starting state. -/
namespace Mdmi.Synth

theorem opOffset_mod {op : Nat} (ho : op < 4) : opOffset op % 4 = 0 ∧ opOffset op < 16 := by
  match op, ho with
  | 0, _ => decide
  | 1, _ => decide
  | 2, _ => decide
  | 3, _ => decide

theorem owner_op {b op c d : Nat} (hb : IsOpBase b) (ho : op < 4) (hc : c < 6) :
    owner (c / 3) (b + opOffset op + c % 3) d = some c := by
  have := opOffset_mod ho
  unfold IsOpBase at hb
  have e1 : ¬ (c / 3 = 0 ∧ b + opOffset op + c % 3 = 0x28) := by omega
  have e2 : 0x30 ≤ b + opOffset op + c % 3 ∧ b + opOffset op + c % 3 < 0xB8 ∧
    (b + opOffset op + c % 3) % 4 < 3 ∧ c / 3 < 2 := by omega
  have e3 : ¬ (0xA8 ≤ b + opOffset op + c % 3 ∧ b + opOffset op + c % 3 < 0xB0) := by omega
  simp only [owner, e1, e2, e3, if_true, if_false, and_self, Option.some.injEq]
  omega

theorem owner_ch {b c d : Nat} (hb : IsChBase b) (hc : c < 6) :
    owner (c / 3) (b + c % 3) d = some c := by
  unfold IsChBase at hb
  have e1 : ¬ (c / 3 = 0 ∧ b + c % 3 = 0x28) := by omega
  have e2 : 0x30 ≤ b + c % 3 ∧ b + c % 3 < 0xB8 ∧ (b + c % 3) % 4 < 3 ∧ c / 3 < 2 := by omega
  have e3 : ¬ (0xA8 ≤ b + c % 3 ∧ b + c % 3 < 0xB0) := by omega
  simp only [owner, e1, e2, e3, if_true, if_false, and_self, Option.some.injEq]
  omega

theorem owner_key {c d : Nat} (hc : c < 6)
    (hd : d = keyOnOffRegOffset c ∨ d = (0xF0 + keyOnOffRegOffset c) % 256) : owner 0 0x28 d = some c := by
  have h : ∀ a : Fin 6, owner 0 0x28 (keyOnOffRegOffset a.val) = some a.val ∧
      owner 0 0x28 ((0xF0 + keyOnOffRegOffset a.val) % 256) = some a.val := by decide
  rcases hd with rfl | rfl
  · exact (h ⟨c, hc⟩).1
  · exact (h ⟨c, hc⟩).2

theorem owner_sp {r d : Nat} (h1 : 0xA8 ≤ r) (h2 : r < 0xB0) (h3 : r % 4 < 3) : owner 0 r d = some 2 := by
  have e1 : ¬ (r = 0x28) := by omega
  have e2 : 0x30 ≤ r ∧ r < 0xB8 ∧ r % 4 < 3 := by omega
  simp [owner, e1, e2, h1, h2]

/-- A call for a channel writes only registers of that channel. -/
theorem step_owner (s : St) {op : Op} {c : Nat} (h : op.chan = some c) (hc : c < 6) :
    Reach (fun p r d => owner p r d = some c) s (step s op) := by
  have e : ∀ k, op.chan = some k → k = c := by intro k hk; rw [h] at hk; exact (Option.some.inj hk).symm
  refine step_reach s op ?_ ?_ ?_ ?_ ?_ ?_ ?_ ?_
  · rintro p rfl; simp [Op.chan] at h
  · rintro b rfl; simp [Op.chan] at h
  · intro k hk; rw [e k hk]
    exact ⟨fun b op d hb ho => owner_op hb ho hc, fun b d hb => owner_ch (by unfold IsChBase; omega) hc⟩
  · rintro k o f b d rfl _ hb
    rw [e k rfl]; exact owner_ch (by unfold IsChBase; omega) hc
  · intro k d hk _ hd; rw [e k hk] at hd; exact owner_key hc hd
  · intro r d hk h1 h2 h3; rw [← e 2 hk]; exact owner_sp h1 h2 h3
  · intro r d hk; rw [h] at hk; simp at hk
  · rintro p r d rfl; simp [Op.chan] at h

theorem owner_opReg {b op c : Nat} (hb : IsOpBase b) (ho : op < 4) (hc : c < 6) {s t : St} {k : Nat}
    (h : Reach (fun p r d => owner p r d = some k) s t) (hk : k ≠ c) : opReg t.out b c op = opReg s.out b c op :=
  h.reg fun d => by rw [owner_op hb ho hc]; simpa using fun e => hk e.symm

theorem owner_chReg {b c : Nat} (hb : IsChBase b) (hc : c < 6) {s t : St} {k : Nat}
    (h : Reach (fun p r d => owner p r d = some k) s t) (hk : k ≠ c) : chReg t.out b c = chReg s.out b c :=
  h.reg fun d => by rw [owner_ch hb hc]; simpa using fun e => hk e.symm

theorem owner_frame {s t : St} {k c : Nat} (hc : c < 6)
    (h : Reach (fun p r d => owner p r d = some k) s t) (hk : k ≠ c) :
    chipChannel t.out c = chipChannel s.out c ∧ keyed t.out c = keyed s.out c := by
  constructor
  · simp only [chipChannel, chipOperator]
    simp only [owner_chReg (b := 0xB0) (by simp [IsChBase]) hc h hk, owner_chReg (b := 0xB4) (by simp [IsChBase]) hc h hk,
      owner_chReg (b := 0xA4) (by simp [IsChBase]) hc h hk, owner_chReg (b := 0xA0) (by simp [IsChBase]) hc h hk,
      owner_opReg (b := 0x30) (op := 0) (by simp [IsOpBase]) (by omega) hc h hk,
      owner_opReg (b := 0x40) (op := 0) (by simp [IsOpBase]) (by omega) hc h hk,
      owner_opReg (b := 0x50) (op := 0) (by simp [IsOpBase]) (by omega) hc h hk,
      owner_opReg (b := 0x60) (op := 0) (by simp [IsOpBase]) (by omega) hc h hk,
      owner_opReg (b := 0x70) (op := 0) (by simp [IsOpBase]) (by omega) hc h hk,
      owner_opReg (b := 0x80) (op := 0) (by simp [IsOpBase]) (by omega) hc h hk,
      owner_opReg (b := 0x90) (op := 0) (by simp [IsOpBase]) (by omega) hc h hk,
      owner_opReg (b := 0x30) (op := 1) (by simp [IsOpBase]) (by omega) hc h hk,
      owner_opReg (b := 0x40) (op := 1) (by simp [IsOpBase]) (by omega) hc h hk,
      owner_opReg (b := 0x50) (op := 1) (by simp [IsOpBase]) (by omega) hc h hk,
      owner_opReg (b := 0x60) (op := 1) (by simp [IsOpBase]) (by omega) hc h hk,
      owner_opReg (b := 0x70) (op := 1) (by simp [IsOpBase]) (by omega) hc h hk,
      owner_opReg (b := 0x80) (op := 1) (by simp [IsOpBase]) (by omega) hc h hk,
      owner_opReg (b := 0x90) (op := 1) (by simp [IsOpBase]) (by omega) hc h hk,
      owner_opReg (b := 0x30) (op := 2) (by simp [IsOpBase]) (by omega) hc h hk,
      owner_opReg (b := 0x40) (op := 2) (by simp [IsOpBase]) (by omega) hc h hk,
      owner_opReg (b := 0x50) (op := 2) (by simp [IsOpBase]) (by omega) hc h hk,
      owner_opReg (b := 0x60) (op := 2) (by simp [IsOpBase]) (by omega) hc h hk,
      owner_opReg (b := 0x70) (op := 2) (by simp [IsOpBase]) (by omega) hc h hk,
      owner_opReg (b := 0x80) (op := 2) (by simp [IsOpBase]) (by omega) hc h hk,
      owner_opReg (b := 0x90) (op := 2) (by simp [IsOpBase]) (by omega) hc h hk,
      owner_opReg (b := 0x30) (op := 3) (by simp [IsOpBase]) (by omega) hc h hk,
      owner_opReg (b := 0x40) (op := 3) (by simp [IsOpBase]) (by omega) hc h hk,
      owner_opReg (b := 0x50) (op := 3) (by simp [IsOpBase]) (by omega) hc h hk,
      owner_opReg (b := 0x60) (op := 3) (by simp [IsOpBase]) (by omega) hc h hk,
      owner_opReg (b := 0x70) (op := 3) (by simp [IsOpBase]) (by omega) hc h hk,
      owner_opReg (b := 0x80) (op := 3) (by simp [IsOpBase]) (by omega) hc h hk,
      owner_opReg (b := 0x90) (op := 3) (by simp [IsOpBase]) (by omega) hc h hk]
  · refine h.key fun d hd e => hk ?_
    have q : ∀ d8 : Fin 8, ∀ c : Fin 6, d8.val = [0, 1, 2, 4, 5, 6].getD c.val 8 → owner 0 0x28 d8.val = some c.val := by
      decide
    have e2 : owner 0 0x28 d = owner 0 0x28 (d % 8) := by simp [owner]
    have := q ⟨d % 8, by omega⟩ ⟨c, hc⟩ e
    rw [e2, this] at hd
    exact (Option.some.inj hd).symm

/-- The registers of a bank. -/
def bankP (k : Nat × Nat × Nat) (p r _d : Nat) : Prop :=
  p = k.1 / 3 ∧ ((k.2.1 < 4 ∧ IsOpBase k.2.2 ∧ r = k.2.2 + opOffset k.2.1 + k.1 % 3) ∨
    (k.2.1 = 4 ∧ (k.2.2 = 0xB0 ∨ k.2.2 = 0xB4) ∧ r = k.2.2 + k.1 % 3) ∨
    (k.2.1 = 4 ∧ k.2.2 = 0xA0 ∧ (r = 0xA0 + k.1 % 3 ∨ r = 0xA4 + k.1 % 3)))

theorem step_bank (s : St) {op : Op} {k : Nat × Nat × Nat} (h : op.bank = some k) :
    Reach (bankP k) s (step s op) := by
  have R : Reach (bankP k) s s := Reach.refl
  cases op <;> simp only [Op.bank, Option.some.injEq, reduceCtorEq] at h <;> subst h
  case pitch c o f =>
    exact R.onCh.a4 (fun d _ => ⟨rfl, .inr (.inr ⟨rfl, rfl, .inr rfl⟩)⟩)
      (fun d _ => ⟨rfl, .inr (.inr ⟨rfl, rfl, .inl rfl⟩)⟩)
  case stereo c x => exact R.onCh.b4 fun d _ => ⟨rfl, .inr (.inl ⟨rfl, .inr rfl, rfl⟩)⟩
  case ams c x => exact R.onCh.b4 fun d _ => ⟨rfl, .inr (.inl ⟨rfl, .inr rfl, rfl⟩)⟩
  case fms c x => exact R.onCh.b4 fun d _ => ⟨rfl, .inr (.inl ⟨rfl, .inr rfl, rfl⟩)⟩
  case algorithm c x => exact R.onCh.b0 fun d _ => ⟨rfl, .inr (.inl ⟨rfl, .inl rfl, rfl⟩)⟩
  case feedback c x => exact R.onCh.b0 fun d _ => ⟨rfl, .inr (.inl ⟨rfl, .inl rfl, rfl⟩)⟩
  case totalLevel c op x =>
    show Reach _ s (operatorTotalLevel s c op x)
    unfold operatorTotalLevel
    refine R.guardOp fun _ _ => ?_
    split
    · exact R
    · exact R.onOp.tl fun d _ ho => ⟨rfl, .inl ⟨ho, by simp [IsOpBase], rfl⟩⟩
  case multiple c op x => exact R.onOp.md fun d _ ho => ⟨rfl, .inl ⟨ho, by simp [IsOpBase], rfl⟩⟩
  case detune c op x => exact R.onOp.md fun d _ ho => ⟨rfl, .inl ⟨ho, by simp [IsOpBase], rfl⟩⟩
  case rateScaling c op x => exact R.onOp.ar fun d _ ho => ⟨rfl, .inl ⟨ho, by simp [IsOpBase], rfl⟩⟩
  case attackRate c op x => exact R.onOp.ar fun d _ ho => ⟨rfl, .inl ⟨ho, by simp [IsOpBase], rfl⟩⟩
  case sustainRate c op x => exact R.onOp.sr fun d _ ho => ⟨rfl, .inl ⟨ho, by simp [IsOpBase], rfl⟩⟩
  case releaseRate c op x => exact R.onOp.rr fun d _ ho => ⟨rfl, .inl ⟨ho, by simp [IsOpBase], rfl⟩⟩
  case sustainLevel c op x => exact R.onOp.rr fun d _ ho => ⟨rfl, .inl ⟨ho, by simp [IsOpBase], rfl⟩⟩
  case ssgEg c op x => exact R.onOp.ssg fun d _ ho => ⟨rfl, .inl ⟨ho, by simp [IsOpBase], rfl⟩⟩
  case decayRate c op x => exact R.onOp.dr fun d _ ho => ⟨rfl, .inl ⟨ho, by simp [IsOpBase], rfl⟩⟩
  case am c op x => exact R.onOp.dr fun d _ ho => ⟨rfl, .inl ⟨ho, by simp [IsOpBase], rfl⟩⟩

theorem bank_inj {k k' : Nat × Nat × Nat} {p r d d' : Nat} (h : bankP k p r d) (h' : bankP k' p r d') :
    k = k' := by
  have inj : ∀ a b, a < 4 → b < 4 → opOffset a = opOffset b → a = b := by
    intro a b ha hb
    have : ∀ a b : Fin 4, opOffset a.val = opOffset b.val → a.val = b.val := by decide
    exact this ⟨a, ha⟩ ⟨b, hb⟩
  obtain ⟨c, o, g⟩ := k
  obtain ⟨c', o', g'⟩ := k'
  obtain ⟨e1, q⟩ := h
  obtain ⟨e2, q'⟩ := h'
  simp only [IsOpBase] at *
  simp only [Prod.mk.injEq]
  rcases q with ⟨ho, hb, er⟩ | ⟨ho, hb, er⟩ | ⟨ho, hb, er⟩ <;>
    rcases q' with ⟨ho', hb', er'⟩ | ⟨ho', hb', er'⟩ | ⟨ho', hb', er'⟩
  · have m := opOffset_mod ho
    have m' := opOffset_mod ho'
    have : opOffset o = opOffset o' := by omega
    have := inj o o' ho ho' this
    omega
  · have m := opOffset_mod ho; omega
  · have m := opOffset_mod ho; omega
  · have m' := opOffset_mod ho'; omega
  · omega
  · omega
  · have m' := opOffset_mod ho'; omega
  · omega
  · omega

/-! ### Bus discipline of one call from any state -/

theorem busOwned_append (b : Bool) (a e : List Ev) : busOwned b (a ++ e) = busOwned (busOwned b e) a := by
  induction a with
  | nil => rfl
  | cons x a ih => cases x <;> simp [busOwned, ih]

theorem busOk_append {b : Bool} {a e : List Ev} (h1 : busOk (busOwned b e) a) (h2 : busOk b e) :
    busOk b (a ++ e) := by
  induction a with
  | nil => exact h2
  | cons x a ih =>
    cases x
    case relBus =>
      obtain ⟨h3, h4⟩ := h1
      refine ⟨?_, ih h4⟩
      cases a with
      | nil => simp at h3
      | cons y a => simpa using h3
    all_goals
      simp only [List.cons_append, busOk, busOwned_append] at *
      first | exact ⟨h1.1, ih h1.2⟩ | exact ih h1

/-- What a call adds to the trace respects the bus, from the bus state before the call. -/
def BusRel (s t : St) : Prop :=
  ∃ evs, t.out = evs ++ s.out ∧ busOk s.busTaken evs ∧ busOwned s.busTaken evs = t.busTaken

theorem BusRel.trans {a b c : St} (h : BusRel a b) (g : BusRel b c) : BusRel a c := by
  obtain ⟨e, h1, h2, h3⟩ := h
  obtain ⟨f, g1, g2, g3⟩ := g
  refine ⟨f ++ e, by rw [g1, h1, List.append_assoc], ?_, ?_⟩
  · exact busOk_append (by rw [h3]; exact g2) h2
  · rw [busOwned_append, h3, g3]

theorem BusRel.write (s : St) (p r d : Nat) (h : s.dacEnable = false → s.busTaken = true) :
    BusRel s (writeRegSafe s p r d) := by
  cases h1 : s.dacEnable <;> cases h2 : s.busTaken
  · simp [h1, h2] at h
  · exact ⟨[.ym p r d], by simp [writeRegSafe, emit, h1], by simp [busOk, busOwned, h2],
      by simp [writeRegSafe, emit, h1, h2, busOwned]⟩
  · exact ⟨[.relBus, .latchDac, .ym p r d, .reqBus], by simp [writeRegSafe, releaseZ80Bus, emit, h1, h2],
      by simp [busOk, busOwned], by simp [writeRegSafe, releaseZ80Bus, emit, h1, h2, busOwned]⟩
  · exact ⟨[.ym p r d, .reqBus], by simp [writeRegSafe, emit, h1, h2],
      by simp [busOk, busOwned], by simp [writeRegSafe, emit, h1, h2, busOwned]⟩

theorem Reach.rel {P : Nat → Nat → Nat → Prop} {s t : St} (h : Reach P s t)
    (hb : s.dacEnable = false → s.busTaken = true) :
    BusRel s t ∧ t.busTaken = s.busTaken ∧ t.dacEnable = s.dacEnable := by
  induction h with
  | refl => exact ⟨⟨[], rfl, trivial, rfl⟩, rfl, rfl⟩
  | @write t p r d _ _ ih =>
    exact ⟨ih.1.trans (BusRel.write t p r d (by rw [ih.2.1, ih.2.2]; exact hb)),
      (write_same t p r d).busTaken.trans ih.2.1, (write_same t p r d).dacEnable.trans ih.2.2⟩
  | shadow _ h1 h2 h3 ih =>
    obtain ⟨⟨e, a1, a2, a3⟩, b1, b2⟩ := ih
    exact ⟨⟨e, h1.trans a1, a2, a3.trans h3.symm⟩, h3.trans b1, h2.trans b2⟩

theorem enableDac_rel (s : St) (e : Bool) :
    BusRel s (enableDac s e) ∧ ((enableDac s e).dacEnable = false → (enableDac s e).busTaken = true) ∧
    (enableDac s e).dacEnable = e := by
  have fin : ∀ t : St, t.dacEnable = e → (t.dacEnable = false → t.busTaken = true) → BusRel s t →
      BusRel s (writeDacReg t) ∧ ((writeDacReg t).dacEnable = false → (writeDacReg t).busTaken = true) ∧
      (writeDacReg t).dacEnable = e := by
    intro t h1 h2 h3
    have k : Same t (writeDacReg t) := write_same ..
    exact ⟨h3.trans (BusRel.write _ _ _ _ h2), by rw [k.dacEnable, k.busTaken]; exact h2, k.dacEnable.trans h1⟩
  unfold enableDac
  refine fin _ rfl ?_ ?_
  · cases e
    · intro _; rfl
    · simp
  · cases e
    · exact ⟨[.reqBus, .loadNull], rfl, by simp [busOk], rfl⟩
    · cases h1 : s.dacEnable
      · exact ⟨[.loadPcm], rfl, by simp [busOk], rfl⟩
      · exact ⟨[], rfl, trivial, rfl⟩

theorem init_rel (s : St) (p : FmPreset) :
    BusRel s (init s p) ∧ (init s p).busTaken = true ∧ (init s p).dacEnable = false := by
  obtain ⟨a, b, c⟩ := enableDac_rel (initGlobal s) false
  have r := (init_reach (P := fun _ _ _ => True) (s := s) (p := p)
    (fun _ _ => ⟨fun _ _ _ _ _ => trivial, fun _ _ _ => trivial⟩)
    (fun _ _ => trivial) (fun _ => trivial) (fun _ => trivial)).rel b
  obtain ⟨e, h1, h2, h3⟩ := a
  refine ⟨BusRel.trans ⟨e, h1, h2, h3⟩ r.1, ?_, ?_⟩
  · rw [r.2.1]; exact b c
  · rw [r.2.2]; exact c

theorem step_rel (s : St) (op : Op) (h : s.dacEnable = false → s.busTaken = true) :
    BusRel s (step s op) ∧ ((step s op).dacEnable = false → (step s op).busTaken = true) ∧
    ((∀ p, op ≠ .init p) → (∀ b, op ≠ .enableDac b) → (step s op).busTaken = s.busTaken) := by
  by_cases h1 : ∃ p, op = .init p
  · obtain ⟨p, rfl⟩ := h1
    have r := init_rel s p
    exact ⟨r.1, fun _ => r.2.1, fun g => absurd rfl (g p)⟩
  · by_cases h2 : ∃ e, op = .enableDac e
    · obtain ⟨e, rfl⟩ := h2
      have r := enableDac_rel s e
      exact ⟨r.1, r.2.1, fun _ g => absurd rfl (g e)⟩
    · have r := (step_reach (P := fun _ _ _ => True) s op (fun p hp => h1 ⟨p, hp⟩) (fun e he => h2 ⟨e, he⟩)
        (fun _ _ => ⟨fun _ _ _ _ _ => trivial, fun _ _ _ => trivial⟩)
        (fun _ _ _ _ _ _ _ _ => trivial) (fun _ _ _ _ _ => trivial)
        (fun _ _ _ _ _ _ => trivial) (fun _ _ _ _ => trivial) (fun _ _ _ _ => trivial)).rel h
      exact ⟨r.1, by rw [r.2.1, r.2.2]; exact h, fun _ _ => r.2.1⟩

end Mdmi.Synth
