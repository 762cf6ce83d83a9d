import Verif.Proofs.PsgEnv
/-!
# Released PSG channels under later calls
-/
namespace Mdmi.Psg

/-- Silent or on the way to it. -/
def Rest (c : Chan) : Prop := c.noteOn = false ∨ Releasing c

/-- A silent channel stays silent; a released one falls silent or goes at least `k` bytes further in its envelope. -/
structure Wane (c d : Chan) (k : Nat) : Prop where
  off : c.noteOn = false → d.noteOn = false
  releasing : Releasing c → d.noteOn = false ∨ (Releasing d ∧ d.step.src = c.step.src ∧ c.step.off + k ≤ d.step.off)

theorem Wane.refl {c : Chan} : Wane c c 0 := ⟨id, fun h => .inr ⟨h, rfl, Nat.le_refl _⟩⟩

theorem Wane.trans {c d e : Chan} {j k : Nat} (h : Wane c d j) (g : Wane d e k) : Wane c e (j + k) := by
  refine ⟨fun x => g.off (h.off x), fun x => ?_⟩
  rcases h.releasing x with y | ⟨y, y1, y2⟩
  · exact .inl (g.off y)
  · rcases g.releasing y with z | ⟨z, z1, z2⟩
    · exact .inl z
    · exact .inr ⟨z, z1.trans y1, by omega⟩

theorem Wane.rest {c d : Chan} {k : Nat} (h : Wane c d k) (r : Rest c) : Rest d := by
  rcases r with r | r
  · exact .inl (h.off r)
  · rcases h.releasing r with x | x
    · exact .inl x
    · exact .inr x.1

theorem Wane.of {c d : Chan} (h1 : d.noteOn = c.noteOn) (h2 : d.noteReleased = c.noteReleased) (h3 : d.loopStart = c.loopStart)
    (h4 : d.step = c.step) : Wane c d 0 := by
  refine ⟨fun h => by rw [h1]; exact h, fun h => .inr ⟨⟨?_, ?_, ?_⟩, by rw [h4], by rw [h4]; exact Nat.le_refl _⟩⟩
  · rw [h1]; exact h.on
  · rw [h2]; exact h.rel
  · rw [h3]; exact h.loop

/-- Calls that do not start a note on channel `n`, do not reset and are not the tick. -/
def Op.Mild (n : Nat) : Op → Prop
  | .noteOn m _ _ _ => m ≠ n
  | .reset => False
  | .tick => False
  | _ => True

theorem applyTone_keeps (n : Nat) (o : Out) (t : Nat) : (applyTone n o t).1 = { o.1 with freq := (applyTone n o t).1.freq } := by
  unfold applyTone; split <;> rfl

theorem applyAttenuation_keeps (n : Nat) (o : Out) (t : Nat) :
    (applyAttenuation n o t).1 = { o.1 with attenuation := (applyAttenuation n o t).1.attenuation } := by
  unfold applyAttenuation; split <;> rfl

theorem release_wane {n : Nat} {c : Chan} {o : Out} (h : releaseChan n c = some o) : Wane c o.1 0 ∧ Rest o.1 := by
  unfold releaseChan at h
  split at h
  · rename_i on
    split at h
    · rename_i ls e
      injection h with h; subst h
      exact ⟨⟨fun x => x, fun r => .inr ⟨⟨on, rfl, _, e⟩, rfl, Nat.le_refl _⟩⟩, .inr ⟨on, rfl, _, e⟩⟩
    · injection h with h; subst h
      exact ⟨⟨fun _ => rfl, fun _ => .inl rfl⟩, .inl rfl⟩
  · rename_i on
    injection h with h; subst h
    exact ⟨.refl, .inl (by simpa using on)⟩

theorem onChan_wane {s : St} {m n : Nat} {f : Chan → Option Out} (h : m = n → ∀ o, f (s.ch n) = some o → Wane (s.ch n) o.1 0) :
    Wane (s.ch n) ((onChan s m f).ch n) 0 := by
  by_cases e : n = m
  · subst e
    unfold onChan
    split
    · cases hf : f (s.ch n) with
      | none => exact .refl
      | some o => simp only [upd_same]; exact h rfl o hf
    · exact .refl
  · rw [onChan_other _ _ _ _ e]; exact .refl

theorem mild_wane {env : Env} {s : St} {n : Nat} {op : Op} (h : op.Mild n) : Wane (s.ch n) ((step env s op).ch n) 0 := by
  cases op with
  | noteOn m p c v =>
    rw [step_other (by simpa [Op.target, Op.Mild] using h) (by simp) (by simp)]; exact .refl
  | noteOff m => exact onChan_wane fun e o ho => (release_wane (e ▸ ho)).1
  | allNotesOff m => exact onChan_wane fun e o ho => (release_wane (e ▸ ho)).1
  | volume m v =>
    refine onChan_wane fun e o ho => ?_
    unfold volumeChan at ho
    simp only at ho
    split at ho
    · obtain ⟨b, -, ho⟩ := Option.bind_eq_some_iff.1 ho
      obtain ⟨a, -, ho⟩ := Option.bind_eq_some_iff.1 ho
      injection ho with ho; subst ho
      rw [applyAttenuation_keeps]
      exact .of rfl rfl rfl rfl
    · injection ho with ho; subst ho
      exact .of rfl rfl rfl rfl
  | program m p =>
    refine onChan_wane fun e o ho => ?_
    injection ho with ho; subst ho
    exact .of rfl rfl rfl rfl
  | pitch m p c =>
    refine onChan_wane fun e o ho => ?_
    unfold pitchChan at ho
    simp only at ho
    obtain ⟨b, -, ho⟩ := Option.bind_eq_some_iff.1 ho
    obtain ⟨a, -, ho⟩ := Option.bind_eq_some_iff.1 ho
    injection ho with ho; subst ho
    rw [applyTone_keeps]
    exact .of rfl rfl rfl rfl
  | loadEnvelope e => rw [step_other (by simp [Op.target]) (by simp) (by simp)]; exact .refl
  | tick => exact h.elim
  | reset => exact h.elim

theorem noteOff_rest {env : Env} {s : St} {n : Nat} (hn : n < 4) : Rest ((step env s (.noteOff n)).ch n) := by
  simp only [step, noteOff, onChan, if_pos hn]
  cases h : releaseChan n (s.ch n) with
  | none => unfold releaseChan at h; split at h <;> first | cases h | (split at h <;> cases h)
  | some o => simp only [upd_same]; exact (release_wane h).2

theorem allNotesOff_rest {env : Env} {s : St} {n : Nat} (hn : n < 4) : Rest ((step env s (.allNotesOff n)).ch n) :=
  noteOff_rest (env := env) hn

/-- The tick takes a released channel on by a byte. -/
theorem tick_wane {env : Env} {s : St} {n : Nat} (hg : Good env s) (hn : n < 4) :
    Wane (s.ch n) ((step env s .tick).ch n) 1 := by
  obtain ⟨o, e⟩ := tickChan_some (n := n) (hg.chans n hn)
  have hch : ((step env s .tick).ch n) = o.1 := tick_ch hn e
  rw [hch]
  refine ⟨fun h => ?_, fun h => ?_⟩
  · simp only [tickChan, h, Bool.false_eq_true, if_false, Option.some.injEq] at e
    rw [← e]; exact h
  · obtain ⟨k, hk⟩ := (hg.chans n hn).step
    rcases tickChan_releasing h hk e with x | ⟨x1, x2, x3, -⟩
    · exact .inl x.1
    · exact .inr ⟨x1, x2, x3⟩

/-- Pointers that have an end mark before them stay inside their table. -/
theorem HasEnd.off_lt {env : Env} {buf : Nat → Nat} {p : Ptr} {N : Nat} (h : HasEnd env buf p) (h1 : 256 ≤ N)
    (h2 : ∀ e ∈ env.envelopes, e.length ≤ N) : p.off < N := by
  obtain ⟨b, hb⟩ := h.deref
  revert hb
  obtain ⟨src, off⟩ := p
  cases src with
  | user => simp only [Psg.deref]; split <;> simp <;> omega
  | builtin n =>
    simp only [Psg.deref]
    cases e : env.envelopes[n]? with
    | none => simp [e]
    | some l =>
      simp only [e, Option.bind_some]
      intro hb
      have := (List.getElem?_eq_some_iff.1 hb).1
      have := h2 l (List.mem_of_getElem? e)
      omega

end Mdmi.Psg
