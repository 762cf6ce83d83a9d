import Verif.Proofs.SynthBank
/-! Driver calls interleaved with bus activity of the sample player and the preset memory. -/
namespace Mdmi.Synth

/-- Activity that only moves the bus. -/
structure Noise (s s' : St) : Prop where
  ch : s'.ch = s.ch
  vol : s'.vol = s.vol
  glob : glob s' = glob s
  fault : s'.fault = s.fault
  reg : ∀ p r, ymReg s'.out p r = ymReg s.out p r
  key : ∀ c, keyed s'.out c = keyed s.out c

theorem Noise.refl (s : St) : Noise s s := ⟨rfl, rfl, rfl, rfl, fun _ _ => rfl, fun _ => rfl⟩

theorem Noise.trans {a b c : St} (h : Noise a b) (g : Noise b c) : Noise a c :=
  ⟨g.ch.trans h.ch, g.vol.trans h.vol, g.glob.trans h.glob, g.fault.trans h.fault,
    fun p r => (g.reg p r).trans (h.reg p r), fun c => (g.key c).trans (h.key c)⟩

/-- Events other than register writes are noise. -/
theorem noise_emit (s : St) (b : Bool) (e : Ev) (he : ∀ p r d, e ≠ .ym p r d) :
    Noise s (emit { s with busTaken := b } e) := by
  cases e
  case ym p r d => exact absurd rfl (he p r d)
  all_goals exact ⟨rfl, rfl, rfl, rfl, fun _ _ => rfl, fun _ => rfl⟩

theorem Noise.inv {s s' : St} (n : Noise s s') (h : Inv s) : Inv s' := by
  have g := n.glob
  simp only [Synth.glob, Prod.mk.injEq] at g
  refine ⟨n.fault.trans h.fault, ?_, ?_, ?_, ?_, ?_⟩
  · intro c hc
    have k := h.ch c hc
    refine ⟨by rw [n.ch]; exact k.ok, by rw [n.vol]; exact k.vol, ?_, ?_, fun op ho => ⟨fun b hb h4 => ?_⟩⟩
    · rw [chReg, n.reg, n.ch]; exact k.b0
    · rw [chReg, n.reg, n.ch]; exact k.b4
    · rw [opReg, n.reg, n.ch]; exact (k.ops op ho).reg b hb h4
  · rw [g.1, g.2.1]; exact h.lfo
  · rw [n.reg, g.1, g.2.1]; exact h.r22
  · rw [n.reg, g.2.2.1]; exact h.r27
  · rw [n.reg, g.2.2.2]; exact h.r2B

theorem Noise.tl {s s' : St} (n : Noise s s') {c : Nat} (h : TlSync s c) : TlSync s' c := by
  intro op ho
  rw [opReg, n.reg, n.ch, n.vol]; exact h op ho

theorem Noise.chip {s s' : St} (n : Noise s s') (c : Nat) :
    chipChannel s'.out c = chipChannel s.out c ∧ ∀ op, chipOperator s'.out c op = chipOperator s.out c op := by
  constructor
  · simp only [chipChannel, chipOperator, chReg, opReg, n.reg]
  · intro op; simp only [chipOperator, opReg, n.reg]

/-- `s'` results from `s` by the calls `ops` with bus activity in between. -/
inductive Steps (s : St) : List Op → St → Prop where
  | refl : Steps s [] s
  | call {ops : List Op} {t : St} (o : Op) : Steps s ops t → Steps s (ops ++ [o]) (step t o)
  | noise {ops : List Op} {t t' : St} : Steps s ops t → Noise t t' → Steps s ops t'

theorem Steps.trans {a b c : St} {l k : List Op} (h : Steps a l b) (g : Steps b k c) : Steps a (l ++ k) c := by
  induction g with
  | refl => rw [List.append_nil]; exact h
  | call o _ ih => rw [← List.append_assoc]; exact .call o ih
  | noise _ n ih => exact .noise ih n

theorem Steps.one (s : St) (o : Op) : Steps s [o] (step s o) := .call o .refl

theorem Noise.steps {s t : St} (n : Noise s t) : Steps s [] t := .noise .refl n

theorem steps_run (s : St) (ops : List Op) : Steps s ops (run s ops) := by
  induction ops generalizing s with
  | nil => exact .refl
  | cons o rest ih => exact (Steps.one s o).trans (ih (step s o))

theorem Steps.inv {s t : St} {ops : List Op} (h : Steps s ops t) (hl : ∀ op ∈ ops, op.Legal) (hi : Inv s) :
    Inv t := by
  induction h with
  | refl => exact hi
  | call o _ ih => exact step_inv (ih fun x hx => hl x (by simp [hx])) (hl o (by simp))
  | noise _ n ih => exact n.inv (ih hl)

theorem Steps.request {s t : St} {ops : List Op} (h : Steps s ops t) (hl : ∀ op ∈ ops, op.Legal) (hi : Inv s)
    {c : Nat} (hc : c < 6) : t.ch c = ops.foldl (Op.request c) (s.ch c) ∧
      t.vol c = ops.foldl (Op.requestVol c) (s.vol c) := by
  induction h with
  | refl => exact ⟨rfl, rfl⟩
  | call o g ih =>
    have i := ih fun x hx => hl x (by simp [hx])
    have k := step_request (g.inv (fun x hx => hl x (by simp [hx])) hi) (hl o (by simp)) hc
    rw [List.foldl_append, List.foldl_append, ← i.1, ← i.2]; exact k
  | noise _ n ih => rw [n.ch, n.vol]; exact ih hl

theorem Steps.glob {s t : St} {ops : List Op} (h : Steps s ops t) (hl : ∀ op ∈ ops, op.Legal) :
    glob t = ops.foldl Op.requestGlobal (glob s) := by
  induction h with
  | refl => rfl
  | call o g ih =>
    rw [List.foldl_append, ← ih fun x hx => hl x (by simp [hx])]
    exact step_glob (hl o (by simp))
  | noise _ n ih => rw [n.glob]; exact ih hl

theorem Steps.chip {s t : St} {ops : List Op} (h : Steps s ops t) (hl : ∀ op ∈ ops, op.Legal)
    {c : Nat} (hc : c < 6) :
    (chipChannel t.out c).freq = ops.foldl (Op.requestFreq c) (chipChannel s.out c).freq ∧
    keyed t.out c = ops.foldl (Op.requestKey c) (keyed s.out c) := by
  induction h with
  | refl => exact ⟨rfl, rfl⟩
  | @call l t o g ih =>
    have i := ih fun x hx => hl x (by simp [hx])
    have k := step_chip (s := t) (hl o (by simp)) hc
    rw [List.foldl_append, List.foldl_append, ← i.1, ← i.2]; exact k
  | noise _ n ih => rw [(n.chip c).1, n.key]; exact ih hl

theorem Steps.tl {s t : St} {ops : List Op} (h : Steps s ops t) (hl : ∀ op ∈ ops, op.Legal) (hi : Inv s)
    {c : Nat} (hc : c < 6) (hs : ∀ op ∈ ops, ¬ op.staleTl c) (ht : TlSync s c) : TlSync t c := by
  induction h with
  | refl => exact ht
  | call o g ih =>
    exact step_tl (g.inv (fun x hx => hl x (by simp [hx])) hi) (hl o (by simp)) hc (hs o (by simp))
      (ih (fun x hx => hl x (by simp [hx])) (fun x hx => hs x (by simp [hx])))
  | noise _ n ih => exact n.tl (ih hl hs)

/-- Channels no call addresses keep their registers. -/
theorem Steps.frame {s t : St} {ops : List Op} (h : Steps s ops t) {c : Nat} (hc : c < 6)
    (hl : ∀ op ∈ ops, ∃ k, op.chan = some k ∧ k < 6 ∧ k ≠ c) :
    chipChannel t.out c = chipChannel s.out c ∧ keyed t.out c = keyed s.out c := by
  induction h with
  | refl => exact ⟨rfl, rfl⟩
  | @call l t o g ih =>
    obtain ⟨k, hk, h6, hne⟩ := hl o (by simp)
    have i := ih fun x hx => hl x (by simp [hx])
    have f := owner_frame hc (step_owner t hk h6) hne
    exact ⟨f.1.trans i.1, f.2.trans i.2⟩
  | noise _ n ih => rw [(n.chip c).1, n.key]; exact ih hl

end Mdmi.Synth
