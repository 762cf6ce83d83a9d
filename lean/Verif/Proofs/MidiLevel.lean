import Verif.Proofs.MidiFmRun
import Verif.Proofs.MidiFmVol
/-!
# Total levels and volumes of the engine's histories
-/
namespace Mdmi.Midi

variable {env : Env} {tame : Bool} {s t : St}

/-- Messages that change the algorithm of FM channels: controller 14. -/
def Op.algorithmCc : Op → Prop
  | .cc _ k _ => k = 14
  | _ => False

/-- States reached without raw register writes and without algorithm controllers. -/
def Level (env : Env) (s : St) : Prop :=
  ∃ b m ops, (∀ op ∈ ops, op.Wf ∧ ¬op.raw ∧ ¬op.algorithmCc) ∧
    ((∀ op ∈ ops, ¬op.enablesDac) ∨ (∀ op ∈ ops, ¬op.detunes)) ∧ s = run env (boot env b m) ops

theorem Level.clean (h : Level env s) : Clean env s :=
  let ⟨b, m, ops, h1, h2, h3⟩ := h; ⟨b, m, ops, fun o ho => ⟨(h1 o ho).1, (h1 o ho).2.1⟩, h2, h3⟩

theorem run_snoc (env : Env) (s : St) (ops : List Op) (op : Op) : run env s (ops ++ [op]) = step env (run env s ops) op := by
  simp [run, List.foldl_append]

/-- A further message. -/
theorem Clean.step (h : Clean env s) {op : Op} (hw : op.Wf) (hr : ¬op.raw) (hd : ¬op.enablesDac) (ht : ¬op.detunes) :
    Clean env (Midi.step env s op) := by
  obtain ⟨b, m, ops, h1, h2, rfl⟩ := h
  refine ⟨b, m, ops ++ [op], ?_, ?_, (run_snoc ..).symm⟩
  · intro o ho
    rcases List.mem_append.1 ho with ho | ho
    · exact h1 o ho
    · rw [List.mem_singleton.1 ho]; exact ⟨hw, hr⟩
  · rcases h2 with h2 | h2
    · refine .inl fun o ho => ?_
      rcases List.mem_append.1 ho with ho | ho
      · exact h2 o ho
      · rw [List.mem_singleton.1 ho]; exact hd
    · refine .inr fun o ho => ?_
      rcases List.mem_append.1 ho with ho | ho
      · exact h2 o ho
      · rw [List.mem_singleton.1 ho]; exact ht

theorem Level.step (h : Level env s) {op : Op} (hw : op.Wf) (hr : ¬op.raw) (ha : ¬op.algorithmCc) (hd : ¬op.enablesDac)
    (ht : ¬op.detunes) : Level env (Midi.step env s op) := by
  obtain ⟨b, m, ops, h1, h2, rfl⟩ := h
  refine ⟨b, m, ops ++ [op], ?_, ?_, (run_snoc ..).symm⟩
  · intro o ho
    rcases List.mem_append.1 ho with ho | ho
    · exact h1 o ho
    · rw [List.mem_singleton.1 ho]; exact ⟨hw, hr, ha⟩
  · rcases h2 with h2 | h2
    · refine .inl fun o ho => ?_
      rcases List.mem_append.1 ho with ho | ho
      · exact h2 o ho
      · rw [List.mem_singleton.1 ho]; exact hd
    · refine .inr fun o ho => ?_
      rcases List.mem_append.1 ho with ho | ho
      · exact h2 o ho
      · rw [List.mem_singleton.1 ho]; exact ht

theorem makes_vol {op : Op} {o : Fm.Op} (h : op.makes o) (hr : ¬op.raw) : ¬o.driverVolume := by
  intro hv
  unfold Fm.Op.driverVolume at hv
  split at hv
  · rcases h with ⟨_, _, _, h, _⟩ | ⟨_, k, v, rfl, ⟨_, _, h⟩ | ⟨_, h⟩ | ⟨inv, n, h⟩⟩
    · cases h
    · cases h
    · cases h
    · unfold fmParam at h; split at h <;> simp at h
  · rcases h with ⟨_, _, _, h, _⟩ | ⟨_, k, v, rfl, ⟨_, _, h⟩ | ⟨_, h⟩ | ⟨inv, n, h⟩⟩
    · cases h
    · cases h
    · cases h
    · unfold fmParam at h; split at h <;> simp at h
  · exact hv

theorem makes_tl {op : Op} {o : Fm.Op} (h : op.makes o) (ha : ¬op.algorithmCc) {i : Nat} (hi : i ≠ 2) : ¬o.staleTl i := by
  intro hv
  unfold Fm.Op.staleTl at hv
  split at hv
  · unfold Synth.Op.staleTl at hv
    split at hv
    · rcases h with ⟨_, _, _, h, _⟩ | ⟨_, k, v, rfl, ⟨_, _, h⟩ | ⟨_, h⟩ | ⟨inv, n, h⟩⟩
      · cases h
      · cases h
      · cases h
      · refine ha ?_
        unfold fmParam at h; split at h <;> first | rfl | simp at h
    · exact hi hv
    · exact hv
  · exact hi hv
  · exact hv

/-- The FM device's levels follow its volumes, over any calls of such messages. -/
theorem FmBy.vol {P : Fm.Op → Prop} {f g : Fm.St} (he : env.Ok) (a : FmBy env P f g)
    (hP : ∀ o, P o → (∀ p r d, o ≠ .synth (.directWrite p r d)) ∧ ¬o.driverVolume)
    (hs : Fm.FmSafe f) (hi : Synth.Inv f.synth) (hv : Fm.VolSync f) : Fm.VolSync g := by
  obtain ⟨l, hl, rfl⟩ := a
  induction l generalizing f with
  | nil => exact hv
  | cons o l ih =>
    have k := hl o (by simp)
    have pr : o.Proper := ⟨k.2, (hP o k.1).1⟩
    exact ih (hs.step he.fm k.2) (Fm.inv_step he.fm hs hi pr) (Fm.step_vol he.fm hs hi hv pr (hP o k.1).2).1
      fun x hx => hl x (by simp [hx])

theorem FmBy.tl {P : Fm.Op → Prop} {f g : Fm.St} {i : Nat} (he : env.Ok) (a : FmBy env P f g)
    (hP : ∀ o, P o → (∀ p r d, o ≠ .synth (.directWrite p r d)) ∧ ¬o.staleTl i)
    (hs : Fm.FmSafe f) (hi : Synth.Inv f.synth) (hc : i < 6) (ht : Synth.TlSync f.synth i) : Synth.TlSync g.synth i := by
  obtain ⟨l, hl, rfl⟩ := a
  induction l generalizing f with
  | nil => exact ht
  | cons o l ih =>
    have k := hl o (by simp)
    have pr : o.Proper := ⟨k.2, (hP o k.1).1⟩
    exact ih (hs.step he.fm k.2) (Fm.inv_step he.fm hs hi pr) (Fm.tl_step he.fm hs hi hc ht pr (hP o k.1).2)
      fun x hx => hl x (by simp [hx])

theorem Clean.volSync (he : env.Ok) (h : Clean env s) : Fm.VolSync s.fm := by
  obtain ⟨b, m, ops, h1, h2, rfl⟩ := h
  have hb := Fm.boot_ok he.fm b m
  refine (history_fmBy he b m ops (fun o ho => (h1 o ho).1) h2).vol he ?_ hb.1 hb.2 (Fm.boot_vol he.fm b m).1
  rintro o ⟨op, hop, ho⟩
  have hr : ¬op.raw := by
    rcases List.mem_cons.1 hop with rfl | hop
    · exact id
    · exact (h1 op hop).2
  exact ⟨makes_proper ho hr, makes_vol ho hr⟩

/-- Without algorithm controllers the total levels on the chip are those the parameters and the volume ask for; channel
3, whose operators special mode may own, left aside. -/
theorem Level.tl (he : env.Ok) (h : Level env s) {i : Nat} (hi : i < 6) (h2 : i ≠ 2) : Synth.TlSync s.fm.synth i := by
  obtain ⟨b, m, ops, h1, hd, rfl⟩ := h
  have hb := Fm.boot_ok he.fm b m
  refine (history_fmBy he b m ops (fun o ho => (h1 o ho).1) hd).tl he ?_ hb.1 hb.2 hi (Fm.boot_tl he.fm b m i hi)
  rintro o ⟨op, hop, ho⟩
  have hr : ¬op.raw ∧ ¬op.algorithmCc := by
    rcases List.mem_cons.1 hop with rfl | hop
    · exact ⟨id, id⟩
    · exact (h1 op hop).2
  exact ⟨makes_proper ho hr.1, makes_tl ho hr.2 h2⟩

end Mdmi.Midi
