import Verif.Proofs.MidiFmSaid
import Verif.Proofs.MidiRx
/-! What a byte stream puts into the log. -/
namespace Mdmi.Rx
open LogText (OpTyped U8)

/-- A message read has arguments in range. -/
def CallIn : Call → Prop
  | .noteOn c p _ => c < 16 ∧ U8 p
  | .cc c k v => c < 16 ∧ U8 k ∧ U8 v
  | .sysex d => (∀ b ∈ d, U8 b) ∧ d.length ≤ 256
  | .warn x => U8 x
  | _ => True

theorem readSysex_in (room : Nat) : ∀ {bs d rest : List Nat}, (∀ b ∈ bs, b < 256) → readSysex room bs = some (d, rest) →
    (∀ b ∈ d, b < 256) ∧ d.length ≤ room ∧ ∀ b ∈ rest, b < 256 := by
  induction room with
  | zero =>
    intro bs d rest h e
    simp only [readSysex, Option.some.injEq, Prod.mk.injEq] at e
    obtain ⟨rfl, rfl⟩ := e
    exact ⟨by simp, by simp, h⟩
  | succ room ih =>
    intro bs d rest h e
    cases bs with
    | nil => simp [readSysex] at e
    | cons b bs =>
      have hb := h b (by simp)
      have h' : ∀ b ∈ bs, b < 256 := fun x hx => h x (by simp [hx])
      simp only [readSysex] at e
      split at e
      · simp only [Option.some.injEq, Prod.mk.injEq] at e
        obtain ⟨rfl, rfl⟩ := e
        exact ⟨by simp, by simp, h'⟩
      · split at e
        · simp at e
        · rename_i d' rest' e'
          simp only [Option.some.injEq, Prod.mk.injEq] at e
          obtain ⟨rfl, rfl⟩ := e
          obtain ⟨k1, k2, k3⟩ := ih h' e'
          refine ⟨fun x hx => ?_, by simp only [List.length_cons]; omega, k3⟩
          rcases List.mem_cons.1 hx with rfl | hx
          · exact hb
          · exact k1 x hx

theorem readSystem_in {st : Nat} {bs rest : List Nat} {c : Call} (hs : st < 256) (h : ∀ b ∈ bs, b < 256)
    (e : readSystem st bs = some (c, rest)) : CallIn c ∧ ∀ b ∈ rest, b < 256 := by
  unfold readSystem at e
  split at e
  · split at e
    · simp only [Option.some.injEq, Prod.mk.injEq] at e
      obtain ⟨rfl, rfl⟩ := e
      exact ⟨trivial, fun x hx => h x (by simp [hx])⟩
    · simp at e
  · simp only [Option.some.injEq, Prod.mk.injEq] at e; obtain ⟨rfl, rfl⟩ := e; exact ⟨trivial, h⟩
  · simp only [Option.some.injEq, Prod.mk.injEq] at e; obtain ⟨rfl, rfl⟩ := e; exact ⟨trivial, h⟩
  · simp only [Option.some.injEq, Prod.mk.injEq] at e; obtain ⟨rfl, rfl⟩ := e; exact ⟨trivial, h⟩
  · simp only [Option.some.injEq, Prod.mk.injEq] at e; obtain ⟨rfl, rfl⟩ := e; exact ⟨trivial, h⟩
  · split at e
    · simp at e
    · rename_i e'
      simp only [Option.some.injEq, Prod.mk.injEq] at e
      obtain ⟨rfl, rfl⟩ := e
      obtain ⟨k1, k2, k3⟩ := readSysex_in 256 h e'
      exact ⟨⟨k1, k2⟩, k3⟩
  · simp only [Option.some.injEq, Prod.mk.injEq] at e; obtain ⟨rfl, rfl⟩ := e; exact ⟨trivial, h⟩
  · simp only [Option.some.injEq, Prod.mk.injEq] at e; obtain ⟨rfl, rfl⟩ := e; exact ⟨hs, h⟩

theorem readMessage_in {bs rest : List Nat} {c : Call} (h : ∀ b ∈ bs, b < 256)
    (e : readMessage bs = some (c, rest)) : CallIn c ∧ ∀ b ∈ rest, b < 256 := by
  cases bs with
  | nil => simp [readMessage] at e
  | cons st bs =>
    have hs := h st (by simp)
    have h' : ∀ b ∈ bs, b < 256 := fun x hx => h x (by simp [hx])
    have two : ∀ {a b rest}, bs = a :: b :: rest → a < 256 ∧ b < 256 ∧ ∀ x ∈ rest, x < 256 := by
      rintro a b rest rfl; exact ⟨h' a (by simp), h' b (by simp), fun x hx => h' x (by simp [hx])⟩
    simp only [readMessage] at e
    split at e
    · split at e
      · simp only [Option.some.injEq, Prod.mk.injEq] at e
        obtain ⟨rfl, rfl⟩ := e
        obtain ⟨k1, k2, k3⟩ := two rfl
        exact ⟨⟨Nat.mod_lt _ (by decide), k1⟩, k3⟩
      · simp at e
    · split at e
      · simp only [Option.some.injEq, Prod.mk.injEq] at e
        obtain ⟨rfl, rfl⟩ := e
        exact ⟨trivial, (two rfl).2.2⟩
      · simp at e
    · split at e
      · simp only [Option.some.injEq, Prod.mk.injEq] at e
        obtain ⟨rfl, rfl⟩ := e
        obtain ⟨k1, k2, k3⟩ := two rfl
        exact ⟨⟨Nat.mod_lt _ (by decide), k1, k2⟩, k3⟩
      · simp at e
    · split at e
      · simp only [Option.some.injEq, Prod.mk.injEq] at e
        obtain ⟨rfl, rfl⟩ := e
        exact ⟨trivial, (two rfl).2.2⟩
      · simp at e
    · split at e
      · simp only [Option.some.injEq, Prod.mk.injEq] at e
        obtain ⟨rfl, rfl⟩ := e
        exact ⟨trivial, fun x hx => h' x (by simp [hx])⟩
      · simp at e
    · exact readSystem_in hs h' e
    · simp only [Option.some.injEq, Prod.mk.injEq] at e; obtain ⟨rfl, rfl⟩ := e; exact ⟨hs, h'⟩

theorem readLoop_in (fuel : Nat) : ∀ {bs : List Nat}, (∀ b ∈ bs, b < 256) → ∀ c ∈ (readLoop fuel bs).1, CallIn c := by
  induction fuel with
  | zero => intro bs _ c hc; simp [readLoop] at hc
  | succ fuel ih =>
    intro bs h c hc
    unfold readLoop at hc
    split at hc
    · simp at hc
    · rename_i e
      obtain ⟨k1, k2⟩ := readMessage_in h e
      rcases List.mem_cons.1 hc with rfl | hc
      · exact k1
      · exact ih k2 c hc

/-- Log of engine and receiver in range. -/
structure SaidSys (s : Sys) : Prop where
  midi : Midi.Said s.midi
  warn : ∀ w ∈ s.warnings, w < 256

variable {env : Env} {s : Sys}

theorem engine_said (h : SaidSys s) {op : Midi.Op} (ho : OpTyped op) : SaidSys (engine env s op) :=
  ⟨Midi.step_said h.midi ho, h.warn⟩
theorem warn_said (h : SaidSys s) {w : Nat} (hw : w < 256) : SaidSys { s with warnings := w :: s.warnings } :=
  ⟨h.midi, fun x hx => by
    rcases List.mem_cons.1 hx with rfl | hx
    · exact hw
    · exact h.warn x hx⟩
theorem act_said (h : SaidSys s) {j : Nat} {c : Call} (hc : CallIn c) : SaidSys (act env j s c) := by
  cases c with
  | noteOn c p v => exact engine_said h hc
  | noteOff c p => exact engine_said h trivial
  | cc c k v => exact engine_said h hc
  | bend c b => exact engine_said h trivial
  | program c p => exact engine_said h trivial
  | sysex d => exact engine_said h hc
  | warn st => exact warn_said h hc
  | nothing => exact h
  | reset => exact engine_said (warn_said (w := 0xFF) h (by decide)) trivial

theorem startupLoop_said : ∀ (cs : List Call) (junk : Nat → Nat) (s : Sys), SaidSys s → (∀ c ∈ cs, CallIn c) →
    SaidSys (startupLoop env junk s cs).1 := by
  intro cs
  induction cs with
  | nil => exact fun _ _ h _ => h
  | cons c cs ih =>
    intro junk s h hc
    unfold startupLoop
    split
    · exact act_said (j := 0) (c := .reset) h trivial
    · exact ih _ _ (act_said h (hc c (by simp))) fun x hx => hc x (by simp [hx])

theorem startupAll_said (he : ∀ b ∈ env.startup, b < 256) (h : SaidSys s) (junk : Nat → Nat) :
    SaidSys (startupAll env junk s) := by
  unfold startupAll
  split
  · rename_i t e
    unfold startup at e
    have k := startupLoop_said (env := env) (readAll env.startup).1 junk s h (readLoop_in _ he)
    split at e
    · simp [startup] at e
    · rename_i u e'
      rw [e'] at k
      simp only [Option.some.injEq] at e
      subst e
      split
      · exact k
      · exact ⟨k.midi, k.warn⟩
  · exact ⟨h.midi, h.warn⟩

theorem deliverAll_said (he : ∀ b ∈ env.startup, b < 256) : ∀ (cs : List Call) (junk : Nat → Nat → Nat) (s : Sys),
    SaidSys s → (∀ c ∈ cs, CallIn c) → SaidSys (deliverAll env junk s cs) := by
  intro cs
  induction cs with
  | nil => exact fun _ _ h _ => h
  | cons c cs ih =>
    intro junk s h hc
    unfold deliverAll
    refine ih _ _ ?_ fun x hx => hc x (by simp [hx])
    unfold deliver
    split
    · exact h
    · split
      · exact startupAll_said he (act_said (j := 0) (c := .reset) h trivial) _
      · exact act_said h (hc c (by simp))

/-- Whatever bytes arrive. -/
theorem receive_said (he : ∀ b ∈ env.startup, b < 256) (junk : Nat → Nat → Nat) (h : SaidSys s) {bs : List Nat}
    (hb : ∀ b ∈ bs, b < 256) : SaidSys (receive env junk s bs) :=
  deliverAll_said he _ _ _ h (readLoop_in _ hb)

theorem boot_said (he : ∀ b ∈ env.startup, b < 256) (junk : Nat → Nat) (b : Bool) (m : Sram.Mem) :
    SaidSys (boot env junk b m) :=
  startupAll_said he ⟨Midi.boot_said env.midi b m, by simp⟩ junk

end Mdmi.Rx
