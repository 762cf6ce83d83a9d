import Verif.Proofs.SynthTl
/-! What the calls add to the trace. -/
namespace Mdmi.Synth

/-- `s'` is reached from `s` by register writes that satisfy `P` and by changes of parameters only. -/
inductive Reach (P : Nat → Nat → Nat → Prop) (s : St) : St → Prop where
  | refl : Reach P s s
  | write {t : St} {p r d : Nat} : Reach P s t → P p r d → Reach P s (writeRegSafe t p r d)
  | shadow {t t' : St} : Reach P s t → t'.out = t.out → t'.dacEnable = t.dacEnable →
      t'.busTaken = t.busTaken → Reach P s t'

theorem Reach.ub {P : Nat → Nat → Nat → Prop} {s t : St} (h : Reach P s t) : Reach P s (ub t) :=
  h.shadow rfl rfl rfl

theorem Reach.guardOp {P : Nat → Nat → Nat → Prop} {s t : St} (h : Reach P s t) {c op : Nat}
    {k : St → St} (hk : c < 6 → op < 4 → Reach P s (k t)) : Reach P s (guardOp t c op k) := by
  unfold Synth.guardOp; split
  · rename_i e; exact hk e.1 e.2
  · exact h.ub

theorem Reach.guardCh {P : Nat → Nat → Nat → Prop} {s t : St} (h : Reach P s t) {c : Nat}
    {k : St → St} (hk : c < 6 → Reach P s (k t)) : Reach P s (guardCh t c k) := by
  unfold Synth.guardCh; split
  · rename_i e; exact hk e
  · exact h.ub

theorem Reach.onCh {P : Nat → Nat → Nat → Prop} {s t : St} (h : Reach P s t) {c : Nat}
    {f : FmChannel → FmChannel} : Reach P s (onCh t c f) := by
  unfold Synth.onCh; split
  · exact h.shadow rfl rfl rfl
  · exact h.ub

theorem Reach.onOp {P : Nat → Nat → Nat → Prop} {s t : St} (h : Reach P s t) {c op : Nat}
    {f : Operator → Operator} : Reach P s (onOp t c op f) := by
  unfold Synth.onOp; split
  · exact h.shadow rfl rfl rfl
  · exact h.ub

theorem Reach.oper {P : Nat → Nat → Nat → Prop} {s t : St} (h : Reach P s t) {c op b d : Nat}
    (hc : c < 6) (ho : op < 4) (hb : IsOpBase b)
    (hP : ∀ d, P (c / 3) (b + opOffset op + c % 3) d) : Reach P s (writeOperatorReg t c op b d) := by
  have h1 := @opOffset_lt op
  unfold writeOperatorReg writeChannelReg
  refine h.write ?_
  rw [part_eq hc, regOperatorIndex_eq ho,
    show ((b + opOffset op) % 256 + c % 3) % 256 = b + opOffset op + c % 3 by unfold IsOpBase at hb; omega]
  exact hP _

theorem Reach.chan {P : Nat → Nat → Nat → Prop} {s t : St} (h : Reach P s t) {c b d : Nat}
    (hc : c < 6) (hb : IsChBase b) (hP : ∀ d, P (c / 3) (b + c % 3) d) :
    Reach P s (writeChannelReg t c b d) := by
  unfold writeChannelReg
  refine h.write ?_
  rw [part_eq hc, show (b + c % 3) % 256 = b + c % 3 by unfold IsChBase at hb; omega]
  exact hP _

/-- All parameter registers of channel `c` but the frequency. -/
structure ChanP (P : Nat → Nat → Nat → Prop) (c : Nat) : Prop where
  op : ∀ b op d, IsOpBase b → op < 4 → P (c / 3) (b + opOffset op + c % 3) d
  ch : ∀ b d, b = 0xB0 ∨ b = 0xB4 → P (c / 3) (b + c % 3) d

section
variable {P : Nat → Nat → Nat → Prop} {s t : St} {c op : Nat}

theorem Reach.md (h : Reach P s t) (hP : ∀ d, c < 6 → op < 4 → P (c / 3) (0x30 + opOffset op + c % 3) d) :
    Reach P s (writeOperatorMultipleAndDetune t c op) :=
  h.guardOp fun hc ho => h.oper hc ho (by simp [IsOpBase]) fun d => hP d hc ho
theorem Reach.ar (h : Reach P s t) (hP : ∀ d, c < 6 → op < 4 → P (c / 3) (0x50 + opOffset op + c % 3) d) :
    Reach P s (writeOperatorRateScalingAndAttackRate t c op) :=
  h.guardOp fun hc ho => h.oper hc ho (by simp [IsOpBase]) fun d => hP d hc ho
theorem Reach.dr (h : Reach P s t) (hP : ∀ d, c < 6 → op < 4 → P (c / 3) (0x60 + opOffset op + c % 3) d) :
    Reach P s (writeOperatorAmplitudeModulationAndDecayRate t c op) :=
  h.guardOp fun hc ho => h.oper hc ho (by simp [IsOpBase]) fun d => hP d hc ho
theorem Reach.sr (h : Reach P s t) (hP : ∀ d, c < 6 → op < 4 → P (c / 3) (0x70 + opOffset op + c % 3) d) :
    Reach P s (writeOperatorSustainRate t c op) :=
  h.guardOp fun hc ho => h.oper hc ho (by simp [IsOpBase]) fun d => hP d hc ho
theorem Reach.rr (h : Reach P s t) (hP : ∀ d, c < 6 → op < 4 → P (c / 3) (0x80 + opOffset op + c % 3) d) :
    Reach P s (writeOperatorReleaseRateAndSustainLevel t c op) :=
  h.guardOp fun hc ho => h.oper hc ho (by simp [IsOpBase]) fun d => hP d hc ho
theorem Reach.ssg (h : Reach P s t) (hP : ∀ d, c < 6 → op < 4 → P (c / 3) (0x90 + opOffset op + c % 3) d) :
    Reach P s (writeOperatorSsgEg t c op) :=
  h.guardOp fun hc ho => h.oper hc ho (by simp [IsOpBase]) fun d => hP d hc ho
theorem Reach.tl (h : Reach P s t) (hP : ∀ d, c < 6 → op < 4 → P (c / 3) (0x40 + opOffset op + c % 3) d) :
    Reach P s (writeOperatorTotalLevel t c op) :=
  h.guardOp fun hc ho => by
    split
    · exact h.ub
    · exact h.oper hc ho (by simp [IsOpBase]) fun d => hP d hc ho
theorem Reach.b0 (h : Reach P s t) (hP : ∀ d, c < 6 → P (c / 3) (0xB0 + c % 3) d) :
    Reach P s (writeAlgorithmAndFeedback t c) :=
  h.guardCh fun hc => h.chan hc (by simp [IsChBase]) fun d => hP d hc
theorem Reach.b4 (h : Reach P s t) (hP : ∀ d, c < 6 → P (c / 3) (0xB4 + c % 3) d) :
    Reach P s (writeStereoAmsFms t c) :=
  h.guardCh fun hc => h.chan hc (by simp [IsChBase]) fun d => hP d hc
theorem Reach.a4 (h : Reach P s t) (hP : ∀ d, c < 6 → P (c / 3) (0xA4 + c % 3) d)
    (hP' : ∀ d, c < 6 → P (c / 3) (0xA0 + c % 3) d) : Reach P s (writeOctaveAndFrequency t c) :=
  h.guardCh fun hc => (h.chan hc (by simp [IsChBase]) fun d => hP d hc).chan hc (by simp [IsChBase])
    fun d => hP' d hc

theorem Reach.updOp (h : Reach P s t) (hP : ChanP P c) : Reach P s (updateOperator t c op) := by
  unfold updateOperator
  have q := fun b d (hb : IsOpBase b) (_ : c < 6) ho => hP.op b op d hb ho
  exact ((((((h.md fun d => q _ d (by simp [IsOpBase])).ar fun d => q _ d (by simp [IsOpBase])).dr
    fun d => q _ d (by simp [IsOpBase])).sr fun d => q _ d (by simp [IsOpBase])).rr
    fun d => q _ d (by simp [IsOpBase])).tl fun d => q _ d (by simp [IsOpBase])).ssg
    fun d => q _ d (by simp [IsOpBase])

theorem Reach.updCh (h : Reach P s t) (hP : ChanP P c) : Reach P s (updateChannel t c) := by
  unfold updateChannel
  simp only [show List.range 4 = [0, 1, 2, 3] from rfl, List.foldl_cons, List.foldl_nil]
  exact (((((h.b0 fun d _ => hP.ch _ d (by simp)).b4
    fun d _ => hP.ch _ d (by simp)).updOp hP).updOp hP).updOp hP).updOp hP

theorem Reach.volLoop (h : Reach P s t) (hP : ChanP P c) :
    Reach P s ((List.range 4).foldl (fun s op => writeOperatorTotalLevel s c op) t) := by
  simp only [show List.range 4 = [0, 1, 2, 3] from rfl, List.foldl_cons, List.foldl_nil]
  have q := fun op d (_ : c < 6) ho => hP.op 0x40 op d (by simp [IsOpBase]) ho
  exact (((h.tl fun d => q _ d).tl fun d => q _ d).tl fun d => q _ d).tl fun d => q _ d
end

/-- Calls other than initialisation and DAC switching only write registers; calls for a channel write
that channel's registers, raw writes what they are told, the rest global registers. -/
theorem step_reach {P : Nat → Nat → Nat → Prop} (s : St) (op : Op) (h1 : ∀ p, op ≠ .init p)
    (h2 : ∀ b, op ≠ .enableDac b)
    (hc : ∀ c, op.chan = some c → ChanP P c)
    (hf : ∀ c o f b d, op = .pitch c o f → c < 6 → b = 0xA0 ∨ b = 0xA4 → P (c / 3) (b + c % 3) d)
    (hk : ∀ c d, op.chan = some c → (op = .noteOn c ∨ op = .noteOff c) → (d = keyOnOffRegOffset c ∨ d = (0xF0 + keyOnOffRegOffset c) % 256) → P 0 0x28 d)
    (hs : ∀ r d, op.chan = some 2 → 0xA8 ≤ r → r < 0xB0 → r % 4 < 3 → P 0 r d)
    (hg : ∀ r d, op.chan = none → r = 0x22 ∨ r = 0x27 → P 0 r d)
    (hd : ∀ p r d, op = .directWrite p r d → P p r d) : Reach P s (step s op) := by
  have R : Reach P s s := Reach.refl
  cases op with
  | init p => exact absurd rfl (h1 p)
  | enableDac b => exact absurd rfl (h2 b)
  | noteOn c => exact R.write (hk c _ rfl (by simp) (.inr rfl))
  | noteOff c => exact R.write (hk c _ rfl (by simp) (.inl rfl))
  | pitch c o f =>
    exact R.onCh.a4 (fun d h6 => hf c o f _ d rfl h6 (by simp))
      (fun d h6 => hf c o f _ d rfl h6 (by simp))
  | volume c x =>
    show Reach P s (volume s c x)
    unfold volume
    refine R.guardCh fun _ => ?_
    split
    · exact R
    · exact (R.shadow (t' := { s with vol := upd s.vol c x }) rfl rfl rfl).volLoop (hc c rfl)
  | stereo c x => exact R.onCh.b4 fun d _ => (hc c rfl).ch _ d (by simp)
  | ams c x => exact R.onCh.b4 fun d _ => (hc c rfl).ch _ d (by simp)
  | fms c x => exact R.onCh.b4 fun d _ => (hc c rfl).ch _ d (by simp)
  | algorithm c x => exact R.onCh.b0 fun d _ => (hc c rfl).ch _ d (by simp)
  | feedback c x => exact R.onCh.b0 fun d _ => (hc c rfl).ch _ d (by simp)
  | totalLevel c op x =>
    show Reach P s (operatorTotalLevel s c op x)
    unfold operatorTotalLevel
    refine R.guardOp fun _ _ => ?_
    split
    · exact R
    · exact R.onOp.tl fun d _ ho => (hc c rfl).op _ _ d (by simp [IsOpBase]) ho
  | multiple c op x => exact R.onOp.md fun d _ ho => (hc c rfl).op _ _ d (by simp [IsOpBase]) ho
  | detune c op x => exact R.onOp.md fun d _ ho => (hc c rfl).op _ _ d (by simp [IsOpBase]) ho
  | rateScaling c op x => exact R.onOp.ar fun d _ ho => (hc c rfl).op _ _ d (by simp [IsOpBase]) ho
  | attackRate c op x => exact R.onOp.ar fun d _ ho => (hc c rfl).op _ _ d (by simp [IsOpBase]) ho
  | sustainRate c op x => exact R.onOp.sr fun d _ ho => (hc c rfl).op _ _ d (by simp [IsOpBase]) ho
  | releaseRate c op x => exact R.onOp.rr fun d _ ho => (hc c rfl).op _ _ d (by simp [IsOpBase]) ho
  | ssgEg c op x => exact R.onOp.ssg fun d _ ho => (hc c rfl).op _ _ d (by simp [IsOpBase]) ho
  | sustainLevel c op x => exact R.onOp.rr fun d _ ho => (hc c rfl).op _ _ d (by simp [IsOpBase]) ho
  | decayRate c op x => exact R.onOp.dr fun d _ ho => (hc c rfl).op _ _ d (by simp [IsOpBase]) ho
  | am c op x => exact R.onOp.dr fun d _ ho => (hc c rfl).op _ _ d (by simp [IsOpBase]) ho
  | enableLfo x =>
    exact (R.shadow (t' := { s with lfoEnable := x % 2 }) rfl rfl rfl).write (hg _ _ rfl (.inl rfl))
  | lfoFrequency x =>
    exact (R.shadow (t' := { s with lfoFrequency := x % 8 }) rfl rfl rfl).write (hg _ _ rfl (.inl rfl))
  | preset c p =>
    show Reach P s (preset s c p)
    unfold preset
    refine R.guardCh fun _ => ?_
    exact R.onCh.updCh (hc c rfl)
  | specialMode b =>
    exact (R.shadow (t' := { s with specialMode := b }) rfl rfl rfl).write (hg _ _ rfl (.inr rfl))
  | specialModePitch op o f =>
    exact (R.write (hs _ _ rfl (by omega) (by omega) (by omega))).write
      (hs _ _ rfl (by omega) (by omega) (by omega))
  | specialModeVolume op x =>
    show Reach P s (specialModeVolume s op x)
    unfold specialModeVolume
    refine R.guardOp fun _ ho => ?_
    split
    · exact R
    · split
      · exact R.ub
      · split
        · exact R.ub
        · exact R.oper (by omega) ho (by simp [IsOpBase])
            fun d => (hc 2 rfl).op _ _ d (by simp [IsOpBase]) ho
  | directWrite p r d => exact R.write (hd p r d rfl)

/-- The events of a sequence of writes. -/
theorem Reach.evs {P : Nat → Nat → Nat → Prop} {s t : St} (h : Reach P s t) :
    ∃ evs, t.out = evs ++ s.out ∧ (∀ e ∈ evs, (∃ p r d, e = .ym p r d ∧ P p r d) ∨ e = .reqBus ∨
      e = .latchDac ∨ e = .relBus) := by
  induction h with
  | refl => exact ⟨[], rfl, by simp⟩
  | @write t p r d _ hP ih =>
    obtain ⟨evs, e, hev⟩ := ih
    cases h1 : t.dacEnable <;> cases h2 : t.busTaken <;>
      simp only [writeRegSafe, releaseZ80Bus, emit, h1, h2, e, if_true, Bool.true_eq_false, if_false]
    · exact ⟨.ym p r d :: evs, rfl, by simpa using ⟨⟨p, r, d, ⟨rfl, rfl, rfl⟩, hP⟩, by simpa using hev⟩⟩
    · exact ⟨.ym p r d :: evs, rfl, by simpa using ⟨⟨p, r, d, ⟨rfl, rfl, rfl⟩, hP⟩, by simpa using hev⟩⟩
    · exact ⟨.relBus :: .latchDac :: .ym p r d :: .reqBus :: evs, rfl, by simpa using ⟨⟨p, r, d, ⟨rfl, rfl, rfl⟩, hP⟩, by simpa using hev⟩⟩
    · exact ⟨.ym p r d :: .reqBus :: evs, rfl, by simpa using ⟨⟨p, r, d, ⟨rfl, rfl, rfl⟩, hP⟩, by simpa using hev⟩⟩
  | shadow _ h1 _ _ ih => rw [h1]; exact ih

/-- Registers that no write touches keep their value. -/
theorem Reach.reg {P : Nat → Nat → Nat → Prop} {s t : St} (h : Reach P s t) {p r : Nat}
    (hn : ∀ d, ¬ P p r d) : ymReg t.out p r = ymReg s.out p r := by
  induction h with
  | refl => rfl
  | write _ hP ih =>
    rw [write_reg]; split
    · rename_i e; rw [e.1, e.2] at hP; exact absurd hP (hn _)
    · exact ih
  | shadow _ h1 _ _ ih => rw [h1]; exact ih

/-- Channels whose key register is not written keep their key state. -/
theorem Reach.key {P : Nat → Nat → Nat → Prop} {s t : St} (h : Reach P s t) {c : Nat}
    (hn : ∀ d, P 0 0x28 d → d % 8 ≠ [0, 1, 2, 4, 5, 6].getD c 8) : keyed t.out c = keyed s.out c := by
  induction h with
  | refl => rfl
  | @write t p r d _ hP ih =>
    have k : ¬ (p = 0 ∧ r = 0x28 ∧ d % 8 = [0, 1, 2, 4, 5, 6].getD c 8) := by
      rintro ⟨rfl, rfl, e⟩; exact hn d hP e
    rw [← ih]
    cases h1 : t.dacEnable <;> cases h2 : t.busTaken <;>
      simp only [writeRegSafe, releaseZ80Bus, emit, h1, h2, if_true, Bool.true_eq_false, if_false,
        keyed, k]
  | shadow _ h1 _ _ ih => rw [h1]; exact ih

/-- The driver's view of the bus is right, and without the PCM driver it has the bus. -/
structure BusInv (b : Bool) (s : St) : Prop where
  owned : busOwned b s.out = s.busTaken
  held : s.dacEnable = false → s.busTaken = true
  ok : busOk b s.out

theorem BusInv.write {b : Bool} {s : St} (h : BusInv b s) (p r d : Nat) :
    BusInv b (writeRegSafe s p r d) := by
  have ho := h.owned; have hh := h.held; have hk := h.ok
  cases h1 : s.dacEnable <;> cases h2 : s.busTaken <;>
    constructor <;>
    simp_all [writeRegSafe, releaseZ80Bus, emit, busOwned, busOk]

theorem Reach.bus {P : Nat → Nat → Nat → Prop} {b : Bool} {s t : St} (h : Reach P s t)
    (hb : BusInv b s) : BusInv b t ∧ t.busTaken = s.busTaken ∧ t.dacEnable = s.dacEnable := by
  induction h with
  | refl => exact ⟨hb, rfl, rfl⟩
  | write _ _ ih =>
    have e := write_same ‹St› ‹Nat› ‹Nat› ‹Nat›
    exact ⟨ih.1.write _ _ _, (write_same ..).busTaken.trans ih.2.1, (write_same ..).dacEnable.trans ih.2.2⟩
  | shadow _ h1 h2 h3 ih =>
    exact ⟨⟨by rw [h1, h3]; exact ih.1.owned, by rw [h2, h3]; exact ih.1.held, by rw [h1]; exact ih.1.ok⟩,
      h3.trans ih.2.1, h2.trans ih.2.2⟩

theorem BusInv.enableDac {b : Bool} {s : St} (h : BusInv b s) (e : Bool) :
    BusInv b (enableDac s e) := by
  have ho := h.owned; have hk := h.ok
  unfold Synth.enableDac writeDacReg
  refine BusInv.write ?_ _ _ _
  cases e <;> cases h1 : s.dacEnable <;> constructor <;>
    simp_all [emit, busOwned, busOk]

/-- Disabling the DAC acquires the bus whatever its state. -/
theorem disable_bus {b : Bool} {s : St} (h : busOk b s.out) : BusInv b (enableDac s false) := by
  unfold Synth.enableDac writeDacReg
  refine BusInv.write ?_ _ _ _
  constructor <;> simp_all [emit, busOwned, busOk]

theorem init_reach {P : Nat → Nat → Nat → Prop} {s : St} {p : FmPreset} (hP : ∀ c < 6, ChanP P c)
    (hk : ∀ c < 6, P 0 0x28 (keyOnOffRegOffset c)) (h22 : ∀ d, P 0 0x22 d) (h27 : ∀ d, P 0 0x27 d) :
    Reach P (enableDac (initGlobal s) false) (init s p) := by
  have hi : ∀ t k, k < 6 → Reach P (enableDac (initGlobal s) false) t →
      Reach P (enableDac (initGlobal s) false) (initChannel p t k) := by
    intro t k h6 ht
    unfold initChannel
    exact ((ht.shadow (t' := { t with vol := upd t.vol k 0x7F }) rfl rfl rfl).write (hk k h6)).onCh.updCh
      (hP k h6)
  have r0 : Reach P (enableDac (initGlobal s) false)
      (writeSpecialModeReg (enableDac (initGlobal s) false)) := Reach.refl.write (h27 _)
  unfold init writeGlobalLfo
  simp only [show List.range 6 = [0, 1, 2, 3, 4, 5] from rfl, List.foldl_cons, List.foldl_nil]
  exact (hi _ 5 (by omega) <| hi _ 4 (by omega) <| hi _ 3 (by omega) <| hi _ 2 (by omega) <|
    hi _ 1 (by omega) <| hi _ 0 (by omega) r0).write (h22 _)

theorem init_bus {b : Bool} {s : St} {p : FmPreset} (h : busOk b s.out) : BusInv b (init s p) :=
  ((init_reach (P := fun _ _ _ => True) (fun _ _ => ⟨fun _ _ _ _ _ => trivial, fun _ _ _ => trivial⟩)
    (fun _ _ => trivial) (fun _ => trivial) (fun _ => trivial)).bus (disable_bus h)).1

theorem step_bus {b : Bool} {s : St} (h : BusInv b s) (op : Op) : BusInv b (step s op) := by
  by_cases h1 : ∃ p, op = .init p
  · obtain ⟨p, rfl⟩ := h1; exact init_bus h.ok
  · by_cases h2 : ∃ e, op = .enableDac e
    · obtain ⟨e, rfl⟩ := h2; exact h.enableDac e
    · exact ((step_reach (P := fun _ _ _ => True) s op (fun p hp => h1 ⟨p, hp⟩) (fun e he => h2 ⟨e, he⟩)
        (fun _ _ => ⟨fun _ _ _ _ _ => trivial, fun _ _ _ => trivial⟩)
        (fun _ _ _ _ _ _ _ _ => trivial) (fun _ _ _ _ _ => trivial)
        (fun _ _ _ _ _ _ => trivial) (fun _ _ _ _ => trivial) (fun _ _ _ _ => trivial)).bus h).1

theorem run_bus {b : Bool} {s : St} (h : BusInv b s) (ops : List Op) : BusInv b (run s ops) := by
  induction ops generalizing s with
  | nil => exact h
  | cons op rest ih => exact ih (step_bus h op)

end Mdmi.Synth
