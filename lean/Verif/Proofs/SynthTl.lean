import Verif.Proofs.SynthInv
/-! Total level and frequency registers. -/
namespace Mdmi.Synth
open Mdmi.Psg (upd_same upd_other)

/-- The total level registers of channel `c` hold what the parameters ask for. -/
def TlSync (s : St) (c : Nat) : Prop := ∀ op < 4, opReg s.out 0x40 c op =
  wantTl (s.ch c).algorithm (s.vol c) op ((s.ch c).ops.get op).totalLevel

/-- The frequency registers of channel `c` hold the parameters. -/
def FreqSync (s : St) (c : Nat) : Prop :=
  chReg s.out 0xA4 c = (s.ch c).octave * 8 + (s.ch c).freqNumber / 256 ∧
  chReg s.out 0xA0 c = (s.ch c).freqNumber % 256

/-- Operator registers (total level) and frequency registers are untouched. -/
structure Keeps (s s' : St) (c : Nat) : Prop where
  tl : ∀ op < 4, opReg s'.out 0x40 c op = opReg s.out 0x40 c op
  a4 : chReg s'.out 0xA4 c = chReg s.out 0xA4 c
  a0 : chReg s'.out 0xA0 c = chReg s.out 0xA0 c

theorem Keeps.refl (s : St) (c : Nat) : Keeps s s c := ⟨fun _ _ => rfl, rfl, rfl⟩

theorem Keeps.trans {a b d : St} {c : Nat} (h : Keeps a b c) (g : Keeps b d c) : Keeps a d c :=
  ⟨fun op ho => (g.tl op ho).trans (h.tl op ho), g.a4.trans h.a4, g.a0.trans h.a0⟩

theorem keeps_write {s : St} {p r d c : Nat} (hr : r < 0x30 ∨ (0xA8 ≤ r ∧ r < 0xB0)) :
    Keeps s (writeRegSafe s p r d) c :=
  ⟨fun _ _ => write_opReg_other (by simp [IsOpBase]) (by omega),
    write_chReg_other (by simp [IsChBase]) (by omega), write_chReg_other (by simp [IsChBase]) (by omega)⟩

theorem keeps_oper {s : St} {c op b d c' : Nat} (hc : c < 6) (ho : op < 4) (hb : IsOpBase b)
    (h4 : b ≠ 0x40) (hc' : c' < 6) : Keeps s (writeOperatorReg s c op b d) c' := by
  refine ⟨fun op' ho' => ?_, operWrite_chReg hc ho hb (by simp [IsChBase]),
    operWrite_chReg hc ho hb (by simp [IsChBase])⟩
  rw [operWrite_opReg hc ho hb hc' ho' (by simp [IsOpBase]), if_neg (fun h => h4 h.1)]

theorem keeps_chan {s : St} {c b d c' : Nat} (hc : c < 6) (hc' : c' < 6)
    (hb : b = 0xB0 ∨ b = 0xB4) : Keeps s (writeChannelReg s c b d) c' := by
  have hb' : IsChBase b := by unfold IsChBase; omega
  refine ⟨fun op' ho' => chanWrite_opReg hc hb' (by simp [IsOpBase]), ?_, ?_⟩
  · rw [chanWrite_chReg hc hc' hb' (by simp [IsChBase]), if_neg (by omega)]
  · rw [chanWrite_chReg hc hc' hb' (by simp [IsChBase]), if_neg (by omega)]

/-- Parameters that determine the total levels. -/
structure TlParams (s s' : St) (c : Nat) : Prop where
  alg : (s'.ch c).algorithm = (s.ch c).algorithm
  vol : s'.vol c = s.vol c
  tl : ∀ op < 4, ((s'.ch c).ops.get op).totalLevel = ((s.ch c).ops.get op).totalLevel

theorem TlSync.keep {s s' : St} {c : Nat} (h : TlSync s c) (k : Keeps s s' c) (q : TlParams s s' c) :
    TlSync s' c := by
  intro op ho
  rw [k.tl op ho, q.alg, q.vol, q.tl op ho]; exact h op ho

theorem FreqSync.keep {s s' : St} {c : Nat} (h : FreqSync s c) (k : Keeps s s' c)
    (q : (s'.ch c).freq = (s.ch c).freq) : FreqSync s' c := by
  simp only [FmChannel.freq, Prod.mk.injEq] at q
  unfold FreqSync
  rw [k.a4, k.a0, q.1, q.2]; exact h

/-- Result of one call as far as levels and frequency of channel `c` go. -/
inductive Effect (s s' : St) (c : Nat) : Prop where
  | same (k : Keeps s s' c) (q : TlParams s s' c) (f : (s'.ch c).freq = (s.ch c).freq)
  | tl (h : TlSync s c → TlSync s' c) (a4 : chReg s'.out 0xA4 c = chReg s.out 0xA4 c)
      (a0 : chReg s'.out 0xA0 c = chReg s.out 0xA0 c) (f : (s'.ch c).freq = (s.ch c).freq)
  | freq (h : FreqSync s' c) (k : ∀ op < 4, opReg s'.out 0x40 c op = opReg s.out 0x40 c op)
      (q : TlParams s s' c)
  | preset (h : TlSync s' c) (f : (s'.ch c).freq = (0, 0))

theorem writeTl_chReg {s : St} (h : Inv s) {c op c' b : Nat} (hc : c < 6) (ho : op < 4)
    (hb : IsChBase b) : chReg (writeOperatorTotalLevel s c op).out b c' = chReg s.out b c' := by
  rw [h.writeTl_eq hc ho]; exact operWrite_chReg hc ho (by simp [IsOpBase]) hb

theorem writeTl_same {s : St} (h : Inv s) {c op : Nat} (hc : c < 6) (ho : op < 4) :
    Same s (writeOperatorTotalLevel s c op) := by
  rw [h.writeTl_eq hc ho]; exact operWrite_same ..

theorem writeTl_opReg {s : St} (h : Inv s) {c op c' op' : Nat} (hc : c < 6) (ho : op < 4)
    (hc' : c' < 6) (ho' : op' < 4) : opReg (writeOperatorTotalLevel s c op).out 0x40 c' op' =
      if c = c' ∧ op = op' then
        wantTl (s.ch c).algorithm (s.vol c) op ((s.ch c).ops.get op).totalLevel
      else opReg s.out 0x40 c' op' := by
  rw [h.writeTl_eq hc ho, operWrite_opReg hc ho (by simp [IsOpBase]) hc' ho' (by simp [IsOpBase])]
  have := @wantTl_lt (s.ch c).algorithm (s.vol c) op _ (get_ok (h.chOk hc).ops op).totalLevel
  simp only [true_and]
  split
  · rw [Nat.mod_eq_of_lt (by omega)]
  · rfl

/-- Rewriting the total levels of a channel. -/
structure TlLoop (c : Nat) (s s' : St) : Prop where
  same : Same s s'
  tl : TlSync s' c
  other : ∀ c' < 6, c' ≠ c → ∀ op < 4, opReg s'.out 0x40 c' op = opReg s.out 0x40 c' op
  ch : ∀ c' b, IsChBase b → chReg s'.out b c' = chReg s.out b c'

theorem volLoop_tl {s : St} (h : Inv s) {c : Nat} (hc : c < 6) :
    TlLoop c s ((List.range 4).foldl (fun s op => writeOperatorTotalLevel s c op) s) := by
  simp only [show List.range 4 = [0, 1, 2, 3] from rfl, List.foldl_cons, List.foldl_nil]
  have m0 := writeTl_same h hc (show 0 < 4 by omega)
  have r0 := fun c' op' => @writeTl_opReg s h c 0 c' op' hc (by omega)
  have q0 := fun c' b => @writeTl_chReg s h c 0 c' b hc (by omega)
  have h0 := h.writeTl hc (show 0 < 4 by omega)
  generalize writeOperatorTotalLevel s c 0 = t0 at *
  have m1 := writeTl_same h0 hc (show 1 < 4 by omega)
  have r1 := fun c' op' => @writeTl_opReg t0 h0 c 1 c' op' hc (by omega)
  have q1 := fun c' b => @writeTl_chReg t0 h0 c 1 c' b hc (by omega)
  have h1 := h0.writeTl hc (show 1 < 4 by omega)
  generalize writeOperatorTotalLevel t0 c 1 = t1 at *
  have m2 := writeTl_same h1 hc (show 2 < 4 by omega)
  have r2 := fun c' op' => @writeTl_opReg t1 h1 c 2 c' op' hc (by omega)
  have q2 := fun c' b => @writeTl_chReg t1 h1 c 2 c' b hc (by omega)
  have h2 := h1.writeTl hc (show 2 < 4 by omega)
  generalize writeOperatorTotalLevel t1 c 2 = t2 at *
  have m3 := writeTl_same h2 hc (show 3 < 4 by omega)
  have r3 := fun c' op' => @writeTl_opReg t2 h2 c 3 c' op' hc (by omega)
  have q3 := fun c' b => @writeTl_chReg t2 h2 c 3 c' b hc (by omega)
  generalize writeOperatorTotalLevel t2 c 3 = t3 at *
  have c2 : t2.ch = s.ch := by rw [m2.ch, m1.ch, m0.ch]
  have c1 : t1.ch = s.ch := by rw [m1.ch, m0.ch]
  have d2 : t2.vol = s.vol := by rw [m2.vol, m1.vol, m0.vol]
  have d1 : t1.vol = s.vol := by rw [m1.vol, m0.vol]
  have m := m0.trans (m1.trans (m2.trans m3))
  refine ⟨m, ?_, ?_, ?_⟩
  · intro op ho
    rw [r3 c op hc ho, r2 c op hc ho, r1 c op hc ho, r0 c op hc ho, m.ch, m.vol, c2, c1, m0.ch, d2, d1,
      m0.vol]
    match op with
    | 0 | 1 | 2 | 3 => simp
    | n + 4 => omega
  · intro c' hc' hne op ho
    have hne' : ¬ c = c' := fun e => hne e.symm
    rw [r3 c' op hc' ho, r2 c' op hc' ho, r1 c' op hc' ho, r0 c' op hc' ho]
    simp [hne']
  · intro c' b hb
    rw [q3 c' b hb, q2 c' b hb, q1 c' b hb, q0 c' b hb]

/-- Operator setters other than total level. -/
theorem effect_operSet {s : St} {c op b d c' : Nat} (f : Operator → Operator) (hc : c < 6)
    (ho : op < 4) (hb : IsOpBase b) (h4 : b ≠ 0x40) (hc' : c' < 6)
    (hf : ∀ o, (f o).totalLevel = o.totalLevel) :
    Effect s (writeOperatorReg (onOp s c op f) c op b d) c' := by
  have e := operWrite_same (onOp s c op f) c op b d
  have k := keeps_oper (s := onOp s c op f) (d := d) hc ho hb h4 hc'
  have ev : (onOp s c op f).out = s.out ∧ (onOp s c op f).vol = s.vol := by
    simp only [onOp, hc, ho, and_self, if_true]
  have ec : (onOp s c op f).ch c' = if c' = c then { s.ch c with
      ops := (s.ch c).ops.set op (f ((s.ch c).ops.get op)) } else s.ch c' := by
    simp only [onOp, hc, ho, and_self, if_true, upd]
  have k' : Keeps s (onOp s c op f) c' := by
    refine ⟨?_, ?_, ?_⟩ <;> rw [ev.1] <;> simp
  refine .same (k'.trans k) ⟨?_, ?_, ?_⟩ ?_
  · rw [e.ch, ec]; split
    · rename_i e1; rw [e1]
    · rfl
  · rw [e.vol, ev.2]
  · intro op' ho'
    rw [e.ch, ec]; split
    · rename_i e1; subst e1
      simp only [get_set ho ho']
      split
      · rename_i e2; subst e2; exact hf _
      · rfl
    · rfl
  · rw [e.ch, ec]; split
    · rename_i e1; rw [e1]; rfl
    · rfl

/-- Channel setters for 0xB0 and 0xB4. -/
theorem effect_chanSet {s : St} {c b d c' : Nat} (x : FmChannel) (hc : c < 6)
    (hb : b = 0xB0 ∨ b = 0xB4) (hc' : c' < 6) (hx : x.ops = (s.ch c).ops)
    (ha : c' = c → x.algorithm = (s.ch c).algorithm) (hf : x.freq = (s.ch c).freq) :
    Effect s (writeChannelReg { s with ch := upd s.ch c x } c b d) c' := by
  have e := chanWrite_same { s with ch := upd s.ch c x } c b d
  have k := keeps_chan (s := { s with ch := upd s.ch c x }) (d := d) hc hc' hb
  have ec : (writeChannelReg { s with ch := upd s.ch c x } c b d).ch c' =
      if c' = c then x else s.ch c' := by rw [e.ch]; rfl
  refine .same ⟨k.tl, k.a4, k.a0⟩ ⟨?_, ?_, ?_⟩ ?_
  · rw [ec]; split
    · rename_i e1; rw [e1]; exact ha e1
    · rfl
  · rw [e.vol]
  · intro op ho; rw [ec]; split
    · rename_i e1; rw [e1, hx]
    · rfl
  · rw [ec]; split
    · rename_i e1; rw [e1]; exact hf
    · rfl

theorem effect_write {s : St} {p r d c : Nat} (hr : r < 0x30 ∨ (0xA8 ≤ r ∧ r < 0xB0)) :
    Effect s (writeRegSafe s p r d) c := by
  have e := write_same s p r d
  exact .same (keeps_write hr) ⟨by rw [e.ch], by rw [e.vol], by rw [e.ch]; simp⟩ (by rw [e.ch])

theorem effect_write' {s s' : St} {p r d c : Nat} (h1 : s'.ch = s.ch) (h2 : s'.vol = s.vol)
    (h3 : ymReg s'.out = ymReg s.out) (hr : r < 0x30) : Effect s (writeRegSafe s' p r d) c := by
  have e := write_same s' p r d
  have k := keeps_write (s := s') (p := p) (r := r) (d := d) (c := c) (by omega)
  refine .same (Keeps.trans (b := s') ⟨?_, ?_, ?_⟩ k) ⟨by rw [e.ch, h1], by rw [e.vol, h2], by rw [e.ch, h1]; simp⟩
    (by rw [e.ch, h1])
  · intro op ho; simp only [opReg, h3]
  · simp only [chReg, h3]
  · simp only [chReg, h3]

theorem Updated.effect {c : Nat} {s s' : St} (u : Updated c s s') {c' : Nat} (hc' : c' < 6) (h : c ≠ c') :
    Keeps s s' c' := by
  refine ⟨?_, ?_, ?_⟩
  · intro op ho; rw [u.opReg c' hc' op ho _ (by simp [IsOpBase])]; simp [h]
  · rw [u.chReg c' hc' _ (by simp [IsChBase])]; simp [h]
  · rw [u.chReg c' hc' _ (by simp [IsChBase])]; simp [h]

theorem Updated.tl {c : Nat} {s s' : St} (u : Updated c s s') (hc : c < 6) : TlSync s' c := by
  intro op ho
  rw [u.opReg c hc op ho _ (by simp [IsOpBase]), u.same.ch, u.same.vol]; simp

/-- Initialisation leaves all total levels in agreement. -/
theorem initChannel_tl {p : FmPreset} (hp : p.Ok) {k : Nat} {s : St} (hk : k < 6)
    (h : ∀ c < k, TlSync s c) : ∀ c < k + 1, TlSync (initChannel p s k) c := by
  have e : Same { s with vol := upd s.vol k 127 } (noteOff { s with vol := upd s.vol k 127 } k) :=
    write_same { s with vol := upd s.vol k 127 } 0 0x28 (keyOnOffRegOffset k)
  have hother : ∀ c < k, TlSync (noteOff { s with vol := upd s.vol k 127 } k) c := by
    intro c hc
    have g : TlSync { s with vol := upd s.vol k 127 } c := by
      intro op ho
      rw [show ({ s with vol := upd s.vol k 127 } : St).vol c = s.vol c from upd_other _ _ _ _ (by omega)]
      exact h c hc op ho
    refine g.keep (keeps_write (by omega)) ⟨?_, ?_, ?_⟩
    · rw [e.ch]
    · rw [e.vol]
    · rw [e.ch]; simp
  unfold initChannel
  simp only
  generalize noteOff { s with vol := upd s.vol k 127 } k = t at *
  rw [show onCh t k (fun _ => presetToChannel p) = { t with ch := upd t.ch k (presetToChannel p) } by
    simp [onCh, hk]]
  have hok : (({ t with ch := upd t.ch k (presetToChannel p) } : St).ch k).Ok := by
    rw [show ({ t with ch := upd t.ch k (presetToChannel p) } : St).ch k = presetToChannel p from upd_same ..]
    exact presetToChannel_ok hp (st := 3) (by omega)
  have hv : ({ t with ch := upd t.ch k (presetToChannel p) } : St).vol k = 127 := by
    show t.vol k = 127
    rw [e.vol]; exact upd_same ..
  have u := updateChannel_updated (s := { t with ch := upd t.ch k (presetToChannel p) }) hk hok
    (by rw [hv]; omega)
  intro c hc
  by_cases ec : c = k
  · subst ec; exact u.tl hk
  · have e1 : upd t.ch k (presetToChannel p) c = t.ch c := upd_other _ _ _ _ ec
    refine (hother c (by omega)).keep
      (Keeps.trans (b := { t with ch := upd t.ch k (presetToChannel p) })
        ⟨fun _ _ => rfl, rfl, rfl⟩ (u.effect (by omega) (fun h => ec h.symm))) ⟨?_, ?_, ?_⟩
    · rw [u.same.ch]; show (upd t.ch k (presetToChannel p) c).algorithm = _; rw [e1]
    · rw [u.same.vol]
    · intro op ho; rw [u.same.ch]
      show ((upd t.ch k (presetToChannel p) c).ops.get op).totalLevel = _; rw [e1]

theorem init_tl {p : FmPreset} (hp : p.Ok) (s : St) : ∀ c < 6, TlSync (init s p) c := by
  unfold init
  simp only
  have i6 : ∀ c < 6, TlSync ((List.range 6).foldl (initChannel p)
      (writeSpecialModeReg (enableDac (initGlobal s) false))) c := by
    simp only [show List.range 6 = [0, 1, 2, 3, 4, 5] from rfl, List.foldl_cons, List.foldl_nil]
    exact initChannel_tl hp (by omega) <| initChannel_tl hp (by omega) <|
      initChannel_tl hp (by omega) <| initChannel_tl hp (by omega) <|
      initChannel_tl hp (by omega) <| initChannel_tl hp (by omega) (by intro c hc; omega)
  generalize (List.range 6).foldl (initChannel p)
      (writeSpecialModeReg (enableDac (initGlobal s) false)) = t at *
  intro c hc
  have e3 : Same t (writeGlobalLfo t) := write_same t 0 0x22 ((t.lfoEnable <<< 3) ||| t.lfoFrequency)
  refine (i6 c hc).keep (keeps_write (by omega)) ⟨?_, ?_, ?_⟩
  · rw [e3.ch]
  · rw [e3.vol]
  · rw [e3.ch]; simp

theorem freq_or {a b : Nat} (ha : a < 8) (hb : b < 8) : a ||| (b <<< 3) = b * 8 + a := by
  have : ∀ a : Fin 8, ∀ b : Fin 8, a.val ||| (b.val <<< 3) = b.val * 8 + a.val := by decide
  exact this ⟨a, ha⟩ ⟨b, hb⟩

theorem step_effect {s : St} (h : Inv s) {op : Op} (hl : op.Legal) {c' : Nat} (hc' : c' < 6)
    (hs : ¬ op.staleTl c') : Effect s (step s op) c' := by
  obtain ⟨hc, ho, hx⟩ := hl
  cases op with
  | init p =>
    have i := (init_initK (p := p) hx h.fault).1.ch c' hc'
    exact .preset (init_tl hx s c' hc') (by rw [step, i.2.1]; rfl)
  | noteOn c => exact effect_write (by omega)
  | noteOff c => exact effect_write (by omega)
  | pitch c o f =>
    have hc := hc c rfl
    have e1 := chanWrite_same { s with ch := upd s.ch c { s.ch c with octave := o % 8, freqNumber := f % 2048 } }
      c 0xA4 (((f % 2048) >>> 8) ||| ((o % 8) <<< 3))
    have r1 := fun b' (hb : IsChBase b') => @chanWrite_chReg
      { s with ch := upd s.ch c { s.ch c with octave := o % 8, freqNumber := f % 2048 } }
      c 0xA4 (((f % 2048) >>> 8) ||| ((o % 8) <<< 3)) c' b' hc hc' (by simp [IsChBase]) hb
    have o1 := fun op => @chanWrite_opReg
      { s with ch := upd s.ch c { s.ch c with octave := o % 8, freqNumber := f % 2048 } }
      c 0xA4 (((f % 2048) >>> 8) ||| ((o % 8) <<< 3)) c' op 0x40 hc (by simp [IsChBase]) (by simp [IsOpBase])
    simp only [step, pitch, onCh, hc, if_true, writeOctaveAndFrequency, guardCh, upd_same]
    generalize writeChannelReg { s with ch := upd s.ch c { s.ch c with octave := o % 8, freqNumber := f % 2048 } }
      c 0xA4 (((f % 2048) >>> 8) ||| ((o % 8) <<< 3)) = t at *
    have e2 := chanWrite_same t c 0xA0 (f % 2048)
    have r2 := fun b' (hb : IsChBase b') => @chanWrite_chReg t c 0xA0 (f % 2048) c' b' hc hc' (by simp [IsChBase]) hb
    have o2 := fun op => @chanWrite_opReg t c 0xA0 (f % 2048) c' op 0x40 hc (by simp [IsChBase]) (by simp [IsOpBase])
    have q : TlParams s (writeChannelReg t c 0xA0 (f % 2048)) c' := by
      refine ⟨?_, ?_, ?_⟩
      · rw [e2.ch, e1.ch]; simp only [upd]; split
        · rename_i e; rw [e]
        · rfl
      · rw [e2.vol, e1.vol]
      · intro op ho; rw [e2.ch, e1.ch]; simp only [upd]; split
        · rename_i e; rw [e]
        · rfl
    by_cases hcc : c' = c
    · subst hcc
      refine .freq ?_ (fun op ho => by rw [o2, o1]) q
      unfold FreqSync
      rw [r2 _ (by simp [IsChBase]), r2 _ (by simp [IsChBase]), r1 _ (by simp [IsChBase]), e2.ch, e1.ch]
      simp only [upd_same]
      have e3 : (f % 2048) >>> 8 = f % 2048 / 256 := by rw [Nat.shiftRight_eq_div_pow]
      rw [e3, freq_or (by omega) (by omega)]
      simp
      omega
    · have hcc' : ¬ c = c' := fun e => hcc e.symm
      refine .same ⟨fun op ho => by rw [o2, o1], ?_, ?_⟩ q ?_
      · rw [r2 _ (by simp [IsChBase]), r1 _ (by simp [IsChBase])]; simp [hcc']
      · rw [r2 _ (by simp [IsChBase]), r1 _ (by simp [IsChBase])]; simp [hcc']
      · rw [e2.ch, e1.ch]; show (upd s.ch c _ c').freq = _; rw [upd_other _ _ _ _ hcc]
  | volume c x =>
    have hc := hc c rfl
    simp only [step, volume, guardCh, hc, if_true]
    split
    · exact .same (Keeps.refl s c') ⟨rfl, rfl, fun _ _ => rfl⟩ rfl
    · have l := volLoop_tl (h.setVol (c := c) hx) hc
      by_cases hcc : c' = c
      · subst hcc
        exact .tl (fun _ => l.tl) (l.ch _ _ (by simp [IsChBase])) (l.ch _ _ (by simp [IsChBase]))
          (by rw [l.same.ch])
      · refine .same ⟨l.other c' hc' hcc, l.ch _ _ (by simp [IsChBase]), l.ch _ _ (by simp [IsChBase])⟩
          ⟨by rw [l.same.ch], ?_, by rw [l.same.ch]; simp⟩ (by rw [l.same.ch])
        rw [l.same.vol]; exact upd_other _ _ _ _ hcc
  | stereo c x =>
    have hc := hc c rfl
    have g := effect_chanSet (s := s) (c := c) (b := 0xB4)
      (d := (x % 4) * 64 + (s.ch c).ams * 16 + (s.ch c).fms)
      { s.ch c with stereo := x % 4 } hc (by simp) hc' rfl (fun _ => rfl) rfl
    simpa only [step, stereo, onCh, hc, if_true, writeStereoAmsFms, guardCh, upd_same] using g
  | ams c x =>
    have hc := hc c rfl
    have g := effect_chanSet (s := s) (c := c) (b := 0xB4)
      (d := (s.ch c).stereo * 64 + (x % 4) * 16 + (s.ch c).fms)
      { s.ch c with ams := x % 4 } hc (by simp) hc' rfl (fun _ => rfl) rfl
    simpa only [step, ams, onCh, hc, if_true, writeStereoAmsFms, guardCh, upd_same] using g
  | fms c x =>
    have hc := hc c rfl
    have g := effect_chanSet (s := s) (c := c) (b := 0xB4)
      (d := (s.ch c).stereo * 64 + (s.ch c).ams * 16 + x % 8)
      { s.ch c with fms := x % 8 } hc (by simp) hc' rfl (fun _ => rfl) rfl
    simpa only [step, fms, onCh, hc, if_true, writeStereoAmsFms, guardCh, upd_same] using g
  | algorithm c x =>
    have hc := hc c rfl
    have g := effect_chanSet (s := s) (c := c) (b := 0xB0) (d := (s.ch c).feedback * 8 + x % 8)
      { s.ch c with algorithm := x % 8 } hc (by simp) hc' rfl (fun e => absurd e.symm hs) rfl
    simpa only [step, algorithm, onCh, hc, if_true, writeAlgorithmAndFeedback, guardCh, upd_same] using g
  | feedback c x =>
    have hc := hc c rfl
    have g := effect_chanSet (s := s) (c := c) (b := 0xB0) (d := (x % 8) * 8 + (s.ch c).algorithm)
      { s.ch c with feedback := x % 8 } hc (by simp) hc' rfl (fun _ => rfl) rfl
    simpa only [step, feedback, onCh, hc, if_true, writeAlgorithmAndFeedback, guardCh, upd_same] using g
  | totalLevel c op x =>
    have hc := hc c rfl
    have ho4 : op < 4 := ho op rfl
    have hinv := step_inv h (op := .totalLevel c op x) ⟨fun _ e => by simp only [Op.chan, Option.some.injEq] at e; omega, ho, trivial⟩
    simp only [step, operatorTotalLevel, guardOp, hc, ho4, and_self, if_true]
    split
    · exact .same (Keeps.refl s c') ⟨rfl, rfl, fun _ _ => rfl⟩ rfl
    · rename_i hne
      have h' : Inv (onOp s c op fun o => { o with totalLevel := x % 128 }) := by
        have k := h.chOk hc
        simp only [onOp, hc, ho4, and_self, if_true]
        refine ⟨h.fault, fun c' hc' => ?_, h.lfo, h.r22, h.r27, h.r2B⟩
        have g := h.ch c' hc'
        by_cases ec : c' = c
        · subst c'
          refine ⟨?_, g.vol, ?_, ?_, fun op' ho4' => ⟨fun b hb hb4 => ?_⟩⟩ <;> simp only [upd_same]
          · have ko := get_ok k.ops op
            exact ⟨k.algorithm, k.feedback, k.stereo, k.ams, k.fms, k.octave, k.freqNumber,
              set_ok k.ops op ⟨ko.1, ko.2, ko.3, ko.4, ko.5, ko.6, ko.7, ko.8, ko.9,
                by simp only; omega, ko.11⟩⟩
          · exact g.b0
          · exact g.b4
          · have := (g.ops op' ho4').reg b hb hb4
            rw [get_set ho4 ho4']
            split
            · rename_i e1; subst e1; exact this
            · exact this
        · exact g.regs (upd_other _ _ _ _ ec) rfl rfl
      have m := writeTl_same h' hc ho4
      have r := fun op' => @writeTl_opReg _ h' c op c' op' hc ho4 hc'
      have q := fun b => @writeTl_chReg _ h' c op c' b hc ho4
      have ev : (onOp s c op fun o => { o with totalLevel := x % 128 }).out = s.out ∧
          (onOp s c op fun o => { o with totalLevel := x % 128 }).vol = s.vol := by
        simp only [onOp, hc, ho4, and_self, if_true]
      have ec : ∀ c', (onOp s c op fun o => { o with totalLevel := x % 128 }).ch c' =
          if c' = c then { s.ch c with
            ops := (s.ch c).ops.set op { (s.ch c).ops.get op with totalLevel := x % 128 } } else s.ch c' := by
        intro c'; simp only [onOp, hc, ho4, and_self, if_true, upd]
      generalize onOp s c op (fun o => { o with totalLevel := x % 128 }) = t at *
      refine .tl ?_ ?_ ?_ ?_
      · intro hT op' ho4'
        rw [r op' ho4', m.ch, m.vol, ec, ec, ev.2, ev.1]
        by_cases hcc : c' = c
        · subst hcc
          simp only [true_and, if_true, get_set ho4 ho4, get_set ho4 ho4']
          split
          · rename_i e1; subst e1; rfl
          · exact hT op' ho4'
        · have hcc' : ¬ c = c' := fun e => hcc e.symm
          simp only [hcc', hcc, false_and, if_false]; exact hT op' ho4'
      · rw [q _ (by simp [IsChBase]), ev.1]
      · rw [q _ (by simp [IsChBase]), ev.1]
      · rw [m.ch, ec]; split
        · rename_i e; rw [e]; rfl
        · rfl
  | multiple c op x =>
    have hc := hc c rfl
    have ho := ho op rfl
    simp only [step, operatorMultiple, writeOperatorMultipleAndDetune, guardOp, hc, ho, and_self, if_true]
    exact effect_operSet _ hc ho (by simp [IsOpBase]) (by omega) hc' (fun _ => rfl)
  | detune c op x =>
    have hc := hc c rfl
    have ho := ho op rfl
    simp only [step, operatorDetune, writeOperatorMultipleAndDetune, guardOp, hc, ho, and_self, if_true]
    exact effect_operSet _ hc ho (by simp [IsOpBase]) (by omega) hc' (fun _ => rfl)
  | rateScaling c op x =>
    have hc := hc c rfl
    have ho := ho op rfl
    simp only [step, operatorRateScaling, writeOperatorRateScalingAndAttackRate, guardOp, hc, ho, and_self, if_true]
    exact effect_operSet _ hc ho (by simp [IsOpBase]) (by omega) hc' (fun _ => rfl)
  | attackRate c op x =>
    have hc := hc c rfl
    have ho := ho op rfl
    simp only [step, operatorAttackRate, writeOperatorRateScalingAndAttackRate, guardOp, hc, ho, and_self, if_true]
    exact effect_operSet _ hc ho (by simp [IsOpBase]) (by omega) hc' (fun _ => rfl)
  | sustainRate c op x =>
    have hc := hc c rfl
    have ho := ho op rfl
    simp only [step, operatorSustainRate, writeOperatorSustainRate, guardOp, hc, ho, and_self, if_true]
    exact effect_operSet _ hc ho (by simp [IsOpBase]) (by omega) hc' (fun _ => rfl)
  | releaseRate c op x =>
    have hc := hc c rfl
    have ho := ho op rfl
    simp only [step, operatorReleaseRate, writeOperatorReleaseRateAndSustainLevel, guardOp, hc, ho, and_self, if_true]
    exact effect_operSet _ hc ho (by simp [IsOpBase]) (by omega) hc' (fun _ => rfl)
  | ssgEg c op x =>
    have hc := hc c rfl
    have ho := ho op rfl
    simp only [step, operatorSsgEg, writeOperatorSsgEg, guardOp, hc, ho, and_self, if_true]
    exact effect_operSet _ hc ho (by simp [IsOpBase]) (by omega) hc' (fun _ => rfl)
  | sustainLevel c op x =>
    have hc := hc c rfl
    have ho := ho op rfl
    simp only [step, operatorSustainLevel, writeOperatorReleaseRateAndSustainLevel, guardOp, hc, ho, and_self, if_true]
    exact effect_operSet _ hc ho (by simp [IsOpBase]) (by omega) hc' (fun _ => rfl)
  | decayRate c op x =>
    have hc := hc c rfl
    have ho := ho op rfl
    simp only [step, operatorDecayRate, writeOperatorAmplitudeModulationAndDecayRate, guardOp, hc, ho, and_self, if_true]
    exact effect_operSet _ hc ho (by simp [IsOpBase]) (by omega) hc' (fun _ => rfl)
  | am c op x =>
    have hc := hc c rfl
    have ho := ho op rfl
    simp only [step, operatorAm, writeOperatorAmplitudeModulationAndDecayRate, guardOp, hc, ho, and_self, if_true]
    exact effect_operSet _ hc ho (by simp [IsOpBase]) (by omega) hc' (fun _ => rfl)
  | enableLfo x =>
    exact effect_write' (s' := { s with lfoEnable := x % 2 }) (p := 0) (r := 0x22) rfl rfl rfl (by omega)
  | lfoFrequency x =>
    exact effect_write' (s' := { s with lfoFrequency := x % 8 }) (p := 0) (r := 0x22) rfl rfl rfl (by omega)
  | preset c p =>
    have hc := hc c rfl
    have hok : (({ s with ch := upd s.ch c { presetToChannel p with stereo := (s.ch c).stereo } } : St).ch c).Ok := by
      rw [show ({ s with ch := upd s.ch c { presetToChannel p with stereo := (s.ch c).stereo } } : St).ch c =
        { presetToChannel p with stereo := (s.ch c).stereo } from upd_same ..]
      exact presetToChannel_ok hx (h.chOk hc).stereo
    have u := updateChannel_updated (s := { s with ch := upd s.ch c { presetToChannel p with stereo := (s.ch c).stereo } })
      hc hok (h.ch c hc).vol
    simp only [step, preset, guardCh, onCh, hc, if_true]
    by_cases hcc : c' = c
    · subst hcc
      refine .preset (u.tl hc) ?_
      rw [u.same.ch]
      show (upd s.ch c' _ c').freq = _
      rw [upd_same]; rfl
    · have e1 : upd s.ch c { presetToChannel p with stereo := (s.ch c).stereo } c' = s.ch c' :=
        upd_other _ _ _ _ hcc
      have ke := u.effect hc' (fun e => hcc e.symm)
      refine .same ⟨ke.tl, ke.a4, ke.a0⟩ ⟨?_, ?_, ?_⟩ ?_
      · rw [u.same.ch]; simp only [e1]
      · rw [u.same.vol]
      · intro op ho; rw [u.same.ch]; simp only [e1]
      · rw [u.same.ch]; simp only [e1]
  | specialMode b =>
    exact effect_write' (s' := { s with specialMode := b }) (p := 0) (r := 0x27) rfl rfl rfl (by omega)
  | specialModePitch op o f =>
    have e1 := write_same s 0 (0xAC + (op + 1) % 3) (((f >>> 8) ||| (o <<< 3)) % 256)
    have k1 := keeps_write (s := s) (p := 0) (r := 0xAC + (op + 1) % 3)
      (d := ((f >>> 8) ||| (o <<< 3)) % 256) (c := c') (by omega)
    simp only [step, specialModePitch]
    generalize writeRegSafe s 0 (0xAC + (op + 1) % 3) (((f >>> 8) ||| (o <<< 3)) % 256) = t at *
    have e2 := write_same t 0 (0xA8 + (op + 1) % 3) (f % 256)
    exact .same (k1.trans (keeps_write (by omega))) ⟨by rw [e2.ch, e1.ch], by rw [e2.vol, e1.vol],
      by rw [e2.ch, e1.ch]; simp⟩ (by rw [e2.ch, e1.ch])
  | specialModeVolume op x =>
    have ho := ho op rfl
    have hne : (2 : Nat) ≠ c' := fun e => hs e.symm
    have g := h.ch 2 (by omega)
    have ht := (get_ok g.ok.ops op).totalLevel
    simp only [step, specialModeVolume, guardOp, ho, show (2 : Nat) < 6 by omega, and_self, if_true]
    split
    · exact .same (Keeps.refl s c') ⟨rfl, rfl, fun _ _ => rfl⟩ rfl
    · simp only [scaleTotalLevel_eq hx ht]
      rw [effectiveTotalLevel_eq g.ok.algorithm g.vol ho (by omega)]
      simp only
      have e := operWrite_same s 2 op 0x40 (wantTl (s.ch 2).algorithm (s.vol 2) op
        (127 - (127 - ((s.ch 2).ops.get op).totalLevel) * (127 - volumeToTotalLevels.getD x 0) / 127))
      refine .same ⟨fun op' ho' => ?_, operWrite_chReg (by omega) ho (by simp [IsOpBase]) (by simp [IsChBase]),
        operWrite_chReg (by omega) ho (by simp [IsOpBase]) (by simp [IsChBase])⟩
        ⟨by rw [e.ch], by rw [e.vol], by rw [e.ch]; simp⟩ (by rw [e.ch])
      rw [operWrite_opReg (by omega) ho (by simp [IsOpBase]) hc' ho' (by simp [IsOpBase]),
        if_neg (fun h => hne h.2.1)]
  | directWrite p r d => exact hx.elim
  | enableDac b =>
    obtain ⟨s', e1, a1, a2, a3, a4, a5, a6, a7⟩ := enableDac_pre s b
    rw [step, e1]
    exact effect_write' (s' := { s' with dacEnable := b }) (p := 0) (r := 0x2B) a1 a2 a7 (by omega)

theorem step_tl {s : St} (h : Inv s) {op : Op} (hl : op.Legal) {c : Nat} (hc : c < 6)
    (hs : ¬ op.staleTl c) (ht : TlSync s c) : TlSync (step s op) c := by
  cases step_effect h hl hc hs with
  | same k q f => exact ht.keep k q
  | tl g _ _ _ => exact g ht
  | freq _ k q => intro op ho; rw [k op ho, q.alg, q.vol, q.tl op ho]; exact ht op ho
  | preset g _ => exact g

theorem run_tl {s : St} (h : Inv s) (ops : List Op) (hl : ∀ op ∈ ops, op.Legal) {c : Nat} (hc : c < 6)
    (hs : ∀ op ∈ ops, ¬ op.staleTl c) (ht : TlSync s c) : TlSync (run s ops) c := by
  induction ops generalizing s with
  | nil => exact ht
  | cons op rest ih =>
    exact ih (step_inv h (hl op (by simp))) (fun o ho => hl o (by simp [ho]))
      (fun o ho => hs o (by simp [ho])) (step_tl h (hl op (by simp)) hc (hs op (by simp)) ht)


/-- Frequency registers and parameters are both unchanged. -/
def FreqKept (s s' : St) (c : Nat) : Prop :=
  chReg s'.out 0xA4 c = chReg s.out 0xA4 c ∧ chReg s'.out 0xA0 c = chReg s.out 0xA0 c ∧
  (s'.ch c).freq = (s.ch c).freq

theorem stale_freq {s : St} (h : Inv s) {op : Op} (hl : op.Legal) {c' : Nat} (hc' : c' < 6)
    (hs : op.staleTl c') : FreqKept s (step s op) c' := by
  obtain ⟨hc, ho, hx⟩ := hl
  cases op with
  | algorithm c x =>
    have hc := hc c rfl
    have e := chanWrite_same { s with ch := upd s.ch c { s.ch c with algorithm := x % 8 } } c 0xB0
      ((s.ch c).feedback * 8 + x % 8)
    have k := keeps_chan (s := { s with ch := upd s.ch c { s.ch c with algorithm := x % 8 } })
      (b := 0xB0) (d := (s.ch c).feedback * 8 + x % 8) hc hc' (by simp)
    simp only [step, algorithm, onCh, hc, if_true, writeAlgorithmAndFeedback, guardCh, upd_same]
    refine ⟨k.a4, k.a0, ?_⟩
    rw [e.ch]; simp only [upd]; split
    · rename_i e; rw [e]; rfl
    · rfl
  | specialModeVolume op x =>
    have ho := ho op rfl
    have g := h.ch 2 (by omega)
    have ht := (get_ok g.ok.ops op).totalLevel
    simp only [step, specialModeVolume, guardOp, ho, show (2 : Nat) < 6 by omega, and_self, if_true]
    split
    · exact ⟨rfl, rfl, rfl⟩
    · simp only [scaleTotalLevel_eq hx ht]
      rw [effectiveTotalLevel_eq g.ok.algorithm g.vol ho (by omega)]
      refine ⟨operWrite_chReg (by omega) ho (by simp [IsOpBase]) (by simp [IsChBase]),
        operWrite_chReg (by omega) ho (by simp [IsOpBase]) (by simp [IsChBase]), ?_⟩
      rw [(operWrite_same ..).ch]
  | _ => exact hs.elim

/-- The chip's frequency of a channel is the parameters' unless a preset has been loaded since. -/
def FreqOk (s : St) (c : Nat) : Prop := FreqSync s c ∨ (s.ch c).freq = (0, 0)

theorem FreqOk.kept {s s' : St} {c : Nat} (h : FreqOk s c) (k : FreqKept s s' c) : FreqOk s' c := by
  obtain ⟨k1, k2, k3⟩ := k
  rcases h with h | h
  · left
    simp only [FmChannel.freq, Prod.mk.injEq] at k3
    unfold FreqSync
    rw [k1, k2, k3.1, k3.2]; exact h
  · right; rw [k3]; exact h

theorem step_freq {s : St} (h : Inv s) {op : Op} (hl : op.Legal) {c : Nat} (hc : c < 6)
    (hf : FreqOk s c) : FreqOk (step s op) c := by
  by_cases hs : op.staleTl c
  · exact hf.kept (stale_freq h hl hc hs)
  · cases step_effect h hl hc hs with
    | same k q f => exact hf.kept ⟨k.a4, k.a0, f⟩
    | tl _ a4 a0 f => exact hf.kept ⟨a4, a0, f⟩
    | freq g _ _ => exact .inl g
    | preset _ f => exact .inr f

theorem run_freq {s : St} (h : Inv s) (ops : List Op) (hl : ∀ op ∈ ops, op.Legal) {c : Nat} (hc : c < 6)
    (hf : FreqOk s c) : FreqOk (run s ops) c := by
  induction ops generalizing s with
  | nil => exact hf
  | cons op rest ih =>
    exact ih (step_inv h (hl op (by simp))) (fun o ho => hl o (by simp [ho]))
      (step_freq h (hl op (by simp)) hc hf)

/-- Decoding of synchronised registers. -/
theorem ChSync.chip {s : St} {c : Nat} (h : ChSync s c) :
    (chipChannel s.out c).timbre = (s.ch c).timbre := by
  have hop : ∀ op < 4, (chipOperator s.out c op).shape = ((s.ch c).ops.get op).shape := by
    intro op ho
    have r := fun b hb h4 => (h.ops op ho).reg b hb h4
    have k := get_ok h.ok.ops op
    have h1 := k.multiple; have h2 := k.detune; have h3 := k.attackRate; have h4 := k.rateScaling
    have h5 := k.decayRate; have h6 := k.am; have h7 := k.sustainRate; have h8 := k.releaseRate
    have h9 := k.sustainLevel; have h10 := k.ssgEg
    simp only [chipOperator, Operator.shape, r 0x30 (by simp [IsOpBase]) (by omega),
      r 0x50 (by simp [IsOpBase]) (by omega), r 0x60 (by simp [IsOpBase]) (by omega),
      r 0x70 (by simp [IsOpBase]) (by omega), r 0x80 (by simp [IsOpBase]) (by omega),
      r 0x90 (by simp [IsOpBase]) (by omega), enc]
    generalize (s.ch c).ops.get op = o at *
    obtain ⟨a1, a2, a3, a4, a5, a6, a7, a8, a9, a10, a11⟩ := o
    simp only [Operator.mk.injEq] at *
    simp
    omega
  have h0 := hop 0 (by omega)
  have h1 := hop 1 (by omega)
  have h2 := hop 2 (by omega)
  have h3 := hop 3 (by omega)
  simp only [Ops4.get] at h0 h1 h2 h3
  have b0 := h.b0; have b4 := h.b4
  have k1 := h.ok.algorithm; have k2 := h.ok.feedback; have k3 := h.ok.stereo; have k4 := h.ok.ams
  have k5 := h.ok.fms
  simp only [chipChannel, FmChannel.timbre, h0, h1, h2, h3, b0, b4, FmChannel.mk.injEq, and_true]
  omega

theorem FreqSync.chip {s : St} {c : Nat} (h : FreqSync s c) (hok : (s.ch c).Ok) :
    (chipChannel s.out c).freq = (s.ch c).freq := by
  have h1 := hok.octave; have h2 := hok.freqNumber
  obtain ⟨a, b⟩ := h
  simp only [chipChannel, FmChannel.freq, a, b, Prod.mk.injEq]
  omega

theorem TlSync.chip {s : St} {c op : Nat} (h : TlSync s c) (hok : (s.ch c).Ok) (ho : op < 4) :
    (chipOperator s.out c op).totalLevel =
      wantTl (s.ch c).algorithm (s.vol c) op ((s.ch c).ops.get op).totalLevel := by
  have := @wantTl_lt (s.ch c).algorithm (s.vol c) op _ (get_ok hok.ops op).totalLevel
  simp only [chipOperator, h op ho]
  omega

end Mdmi.Synth
