import Verif.Model.Main
import Verif.Proofs.MidiReset
/-! Start-up, and the engine without and with preset memory. -/
namespace Mdmi.Main

theorem yield_keeps (s : St) (f : Bool) : (schedulerYield s f).x7 = s.x7 ∧ (schedulerYield s f).pro = s.pro ∧
    (schedulerYield s f).sramOps = s.sramOps ∧ (schedulerYield s f).ticks = s.ticks ∧
    (schedulerYield s f).frames = s.frames ∧ (schedulerYield s f).died = s.died := by
  cases f <;> simp [schedulerYield]

theorem yields_keep (l : List Bool) : ∀ s : St, (l.foldl schedulerYield s).x7 = s.x7 ∧
    (l.foldl schedulerYield s).pro = s.pro ∧ (l.foldl schedulerYield s).sramOps = s.sramOps ∧
    (l.foldl schedulerYield s).ticks = s.ticks ∧ (l.foldl schedulerYield s).frames = s.frames ∧
    (l.foldl schedulerYield s).died = s.died := by
  induction l with
  | nil => intro s; simp
  | cons f l ih =>
    intro s
    obtain ⟨a, b, c, d, e, g⟩ := ih (schedulerYield s f)
    obtain ⟨a', b', c', d', e', g'⟩ := yield_keeps s f
    simp only [List.foldl_cons]
    exact ⟨a.trans a', b.trans b', c.trans c', d.trans d', e.trans e', g.trans g'⟩

/-- What start-up leaves in the statics. -/
theorem main_state (b : Build) (hw : Hw) (s : St) :
    let t := main b hw s
    t.x7 = (if b.x7 then hw.ste >>> 8 == 0x00 || hw.ste >>> 8 == 0x40 else s.x7) ∧
    t.pro = (if b.pro then hw.sysStat &&& 0xFFF0 == 0x55A0 else s.pro) ∧
    t.sramOps = (if s.pro then .edPro else if s.x7 then .edX7 else .none) ∧
    t.ticks = (if b.wifi then [.wifiTick] else []) ++ [.rxRead] ∧
    t.frames = [.psgTick, .midiTick, .uiUpdate] ++ (if b.wifi then [.wifiVsync] else []) ++ [.demoVsync, .ledTick] ∧
    t.died = s.died := by
  obtain ⟨x7, pro, serial, wifi⟩ := b
  cases x7 <;> cases pro <;> cases serial <;> cases wifi <;>
    simp [main, commInit, commTypes, ifaceInit, everdriveInit, everdriveProInit, wifiInit, demoInit, ledInit, rxInit,
      ready, addTick, addFrame, uiInit, midiInit, fmInit, psgInit, sramInit, schedulerInit, yields_keep]

theorem addFrame_flags (g : Handler) (s : St) : (addFrame g s).x7 = s.x7 ∧ (addFrame g s).pro = s.pro := by
  unfold addFrame; split <;> exact ⟨rfl, rfl⟩

theorem addTick_flags (g : Handler) (s : St) : (addTick g s).x7 = s.x7 ∧ (addTick g s).pro = s.pro := by
  unfold addTick; split <;> exact ⟨rfl, rfl⟩

theorem commInit_flags (hw : Hw) (s : St) :
    (commInit shipped hw s).x7 = (hw.ste >>> 8 == 0x00 || hw.ste >>> 8 == 0x40) ∧
    (commInit shipped hw s).pro = (hw.sysStat &&& 0xFFF0 == 0x55A0) := by
  simp [commInit, commTypes, shipped, ifaceInit, everdriveInit, everdriveProInit, wifiInit, demoInit, ready,
    yields_keep, addFrame_flags, addTick_flags]

theorem and_fff0 {n : Nat} (h : n < 65536) : (n &&& 0xFFF0 = 0x55A0) ↔ n / 16 = 0x55A := by
  have h1 : (n &&& 0xFFF0) >>> 4 = n / 16 := by
    rw [Nat.shiftRight_and_distrib, Nat.shiftRight_eq_div_pow,
      show 0xFFF0 >>> 4 = 2 ^ 12 - 1 by decide, Nat.and_two_pow_sub_one_eq_mod]
    omega
  have h2 : (n &&& 0xFFF0) % 2 ^ 4 = 0 := by
    rw [Nat.and_mod_two_pow, show 0xFFF0 % 2 ^ 4 = 0 by decide, Nat.and_zero]
  rw [Nat.shiftRight_eq_div_pow] at h1
  omega

/-! ### Handlers run after their module is set up -/

/-- The module whose state a handler uses. -/
def owner : Handler → Module
  | .psgTick => .psg | .midiTick => .midi | .uiUpdate => .ui | .wifiVsync => .wifi | .demoVsync => .demo
  | .ledTick => .led | .wifiTick => .wifi | .rxRead => .rx

/-- Every call of a handler in the trace comes after its module became ready. -/
def Sound (tr : List Ev) : Prop := ∀ newer older h, tr = newer ++ .run h :: older → .ready (owner h) ∈ older

/-- All registered handlers can be called. -/
def Good (s : St) : Prop := Sound s.trace ∧ ∀ h, h ∈ s.ticks ∨ h ∈ s.frames → .ready (owner h) ∈ s.trace

theorem Sound.ready {tr : List Ev} (h : Sound tr) (m : Module) : Sound (.ready m :: tr) := by
  intro newer older g e
  cases newer with
  | nil => simp at e
  | cons x newer => simp only [List.cons_append, List.cons.injEq] at e; exact h newer older g e.2

theorem Sound.runs {tr : List Ev} (h : Sound tr) (l : List Handler) (hl : ∀ g ∈ l, .ready (owner g) ∈ tr) :
    Sound (l.map Ev.run ++ tr) := by
  induction l with
  | nil => exact h
  | cons g l ih =>
    have ih := ih fun x hx => hl x (by simp [hx])
    intro newer older k e
    cases newer with
    | nil =>
      simp only [List.map_cons, List.cons_append, List.nil_append, List.cons.injEq, Ev.run.injEq] at e
      obtain ⟨rfl, rfl⟩ := e
      exact List.mem_append_right _ (hl g (by simp))
    | cons x newer => simp only [List.map_cons, List.cons_append, List.cons.injEq] at e; exact ih newer older k e.2

theorem Good.ready {s : St} (h : Good s) (m : Module) : Good (ready m s) :=
  ⟨h.1.ready m, fun g hg => List.mem_cons_of_mem _ (h.2 g hg)⟩

theorem Good.yield {s : St} (h : Good s) (f : Bool) : Good (schedulerYield s f) := by
  have h1 : Sound ((s.ticks.map Ev.run).reverse ++ s.trace) := by
    rw [← List.map_reverse]
    exact h.1.runs _ fun g hg => h.2 g (.inl (List.mem_reverse.1 hg))
  have k1 : ∀ g, g ∈ s.ticks ∨ g ∈ s.frames → .ready (owner g) ∈ (s.ticks.map Ev.run).reverse ++ s.trace :=
    fun g hg => List.mem_append_right _ (h.2 g hg)
  cases f with
  | false => exact ⟨h1, k1⟩
  | true =>
    simp only [schedulerYield, if_true]
    refine ⟨?_, fun g hg => List.mem_append_right _ (k1 g hg)⟩
    show Sound ((s.frames.map Ev.run).reverse ++ ((s.ticks.map Ev.run).reverse ++ s.trace))
    rw [← List.map_reverse (l := s.frames)]
    exact h1.runs _ fun g hg => k1 g (.inr (List.mem_reverse.1 hg))

theorem Good.yields (l : List Bool) : ∀ {s : St}, Good s → Good (l.foldl schedulerYield s) := by
  induction l with
  | nil => exact id
  | cons f l ih => exact fun h => ih (h.yield f)

/-- Registering handlers whose module is ready by then. -/
theorem Good.add {s t : St} (h : Good s) (m : Module) (e : t.trace = s.trace)
    (ht : ∀ g, g ∈ t.ticks ∨ g ∈ t.frames → owner g = m ∨ g ∈ s.ticks ∨ g ∈ s.frames) : Good (Main.ready m t) := by
  refine ⟨show Sound (Ev.ready m :: t.trace) from e ▸ h.1.ready m, fun g hg => ?_⟩
  show .ready (owner g) ∈ Ev.ready m :: t.trace
  rw [e]
  rcases ht g hg with k | k
  · rw [k]; exact List.mem_cons_self
  · exact List.mem_cons_of_mem _ (h.2 g k)

theorem addFrame_trace (g : Handler) (s : St) : (addFrame g s).trace = s.trace := by unfold addFrame; split <;> rfl

theorem addTick_trace (g : Handler) (s : St) : (addTick g s).trace = s.trace := by unfold addTick; split <;> rfl

theorem addFrame_mem {g h : Handler} {s : St} (k : h ∈ (addFrame g s).ticks ∨ h ∈ (addFrame g s).frames) :
    h = g ∨ h ∈ s.ticks ∨ h ∈ s.frames := by
  unfold addFrame at k; split at k
  · exact .inr k
  · simp only [List.mem_append, List.mem_singleton] at k
    rcases k with k | k | k
    · exact .inr (.inl k)
    · exact .inr (.inr k)
    · exact .inl k

theorem addTick_mem {g h : Handler} {s : St} (k : h ∈ (addTick g s).ticks ∨ h ∈ (addTick g s).frames) :
    h = g ∨ h ∈ s.ticks ∨ h ∈ s.frames := by
  unfold addTick at k; split at k
  · exact .inr k
  · simp only [List.mem_append, List.mem_singleton] at k
    rcases k with (k | k) | k
    · exact .inr (.inl k)
    · exact .inl k
    · exact .inr (.inr k)

theorem Good.frame {s : St} (h : Good s) {g : Handler} {m : Module} (e : owner g = m) : Good (Main.ready m (addFrame g s)) :=
  h.add m (addFrame_trace g s) fun k hk => (addFrame_mem hk).imp (fun (x : k = g) => x ▸ e) id

theorem Good.tick {s : St} (h : Good s) {g : Handler} {m : Module} (e : owner g = m) : Good (Main.ready m (addTick g s)) :=
  h.add m (addTick_trace g s) fun k hk => (addTick_mem hk).imp (fun (x : k = g) => x ▸ e) id

theorem Good.iface {s : St} (h : Good s) (hw : Hw) (i : Iface) : Good (ifaceInit hw s i) := by
  cases i with
  | everdrive => exact h.add _ rfl fun _ => .inr
  | everdrivePro => exact h.add _ rfl fun _ => .inr
  | serial => exact h.ready _
  | demo => exact h.frame rfl
  | wifi =>
    refine Good.yields _ ⟨?_, fun g hg => ?_⟩
    · rw [addFrame_trace, addTick_trace]; exact h.1.ready _
    · rw [addFrame_trace, addTick_trace]
      rcases addFrame_mem hg with rfl | hg
      · exact List.mem_cons_self
      · rcases addTick_mem hg with rfl | hg
        · exact List.mem_cons_self
        · exact List.mem_cons_of_mem _ (h.2 g hg)

theorem main_good (b : Build) (hw : Hw) {s : St} (h : s.trace = []) : Good (main b hw s) := by
  have h0 : Good (schedulerInit (ready .log s)) := by
    refine ⟨?_, by simp [schedulerInit, ready]⟩
    simp only [schedulerInit, ready, h]
    exact Sound.ready (Sound.ready (fun _ _ _ e => by simp at e) _) _
  have h1 : Good (psgInit (schedulerInit (ready .log s))) := h0.frame rfl
  have h2 : Good (fmInit (psgInit (schedulerInit (ready .log s)))) := h1.add _ rfl fun _ => .inr
  have h3 : Good (uiInit (midiInit (schedulerInit (ready .log s)))) := Good.frame (h2.frame (g := .midiTick) rfl) rfl
  have h4 : ∀ l : List Iface, ∀ t, Good t → Good (l.foldl (ifaceInit hw) t) := by
    intro l
    induction l with
    | nil => exact fun _ => id
    | cons i l ih => exact fun t ht => ih _ (ht.iface hw i)
  exact ((h4 _ _ h3).frame (g := .ledTick) rfl).tick (g := .rxRead) rfl

end Mdmi.Main

namespace Mdmi.Fm

/-- Without preset memory nothing is written to it. -/
theorem step_mem_none {env : Env} (he : env.Ok) (h : env.sram = false) (s : St) (op : Op) :
    (step env s op).mem = s.mem := by
  cases op with
  | store n p => simp only [step, storePreset, sramSave, h, if_true]; split <;> rfl
  | clear n => simp only [step, clearPreset, sramClear, h, if_true]; split <;> rfl
  | storeFrom c n =>
    simp only [step, storePresetFromChannel, guardCh, storePreset, sramSave, h, if_true]
    split
    · split <;> rfl
    · rfl
  | reset => exact reset_mem he s
  | _ => exact (step_keeps s _ (by intro n; simp [Op.writes]) (by simp)).1

theorem run_mem_none {env : Env} (he : env.Ok) (h : env.sram = false) (l : List Op) :
    ∀ s, (run env s l).mem = s.mem := by
  induction l with
  | nil => exact fun _ => rfl
  | cons o l ih => exact fun s => (ih _).trans (step_mem_none he h s o)

theorem reset_user_none {env : Env} (he : env.Ok) (h : env.sram = false) (s : St) (n : Nat) :
    (reset env s).user n = none := by
  obtain ⟨p, hp, -⟩ := presetOf he (n := 0) (by omega)
  simp only [reset, hp, call]
  simp [sramLoad, h]

theorem run_user_none {env : Env} (he : env.Ok) (h : env.sram = false) {n : Nat} (l : List Op)
    (hw : ∀ op ∈ l, ∀ n, ¬ op.writes n) : ∀ s, s.user n = none → (run env s l).user n = none := by
  induction l with
  | nil => exact fun _ => id
  | cons o l ih =>
    intro s hs
    refine ih (fun x hx => hw x (by simp [hx])) _ ?_
    by_cases hr : o = .reset
    · subst hr; exact reset_user_none he h s n
    · rw [(step_keeps s o (hw o (by simp)) hr).2]; exact hs

end Mdmi.Fm

namespace Mdmi.Midi

variable {env : Env} {s : St}

theorem reset_makes {o : Fm.Op} (h : Op.reset.makes o) (n : Nat) : ¬ o.writes n := by
  cases o <;> simp [Op.makes, Op.stores, Fm.Op.writes] at h ⊢

/-- Without preset memory, no history writes it. -/
theorem history_mem_none (he : env.Ok) (h : env.fm.sram = false) (b : Bool) (m : Sram.Mem) (ops : List Op)
    (hw : ∀ op ∈ ops, op.Wf) (hd : (∀ op ∈ ops, ¬op.enablesDac) ∨ (∀ op ∈ ops, ¬op.detunes)) :
    (run env (boot env b m) ops).fm.mem = m := by
  obtain ⟨l, hl, e⟩ := history_fmBy he b m ops hw hd
  rw [e, Fm.run_mem_none he.fm h]
  unfold Fm.boot
  rw [Fm.reset_mem he.fm]
  rfl

/-- Without preset memory, the engine starts without user presets. -/
theorem boot_user_none (he : env.Ok) (h : env.fm.sram = false) (b : Bool) (m : Sram.Mem) (n : Nat) :
    (boot env b m).fm.user n = none := by
  obtain ⟨l, hl, e⟩ := boot_fmBy he b m
  rw [e]
  exact Fm.run_user_none he.fm h l (fun o ho => reset_makes (hl o ho).1) _ (Fm.reset_user_none he.fm h _ n)

/-- With preset memory, the user presets of the engine are those in the memory, after every history. -/
theorem reached_mirror (he : env.Ok) (h : env.fm.sram = true) (hs : Reached env s) : Fm.Mirror s.fm := by
  obtain ⟨b, m, ops, hw, hd, rfl⟩ := hs
  obtain ⟨l, hl, e⟩ := history_fmBy he b m ops hw hd
  rw [e]
  exact (Fm.boot_mirror he.fm h b m).run he.fm h (Fm.boot_ok he.fm b m).1 l fun o ho => (hl o ho).2

theorem boot_sramMem (he : env.Ok) (b : Bool) (m : Sram.Mem) : (boot env b m).fm.mem = m := by
  obtain ⟨l, hl, e⟩ := boot_fmBy he b m
  rw [e]
  have : ∀ (l : List Fm.Op), (∀ o ∈ l, ∀ n, ¬ o.writes n) → ∀ f, (Fm.run env.fm f l).mem = f.mem := by
    intro l
    induction l with
    | nil => exact fun _ _ => rfl
    | cons o l ih =>
      intro hw f
      refine (ih (fun x hx => hw x (by simp [hx])) _).trans ?_
      by_cases hr : o = .reset
      · subst hr; exact Fm.reset_mem he.fm f
      · exact (Fm.step_keeps f o (hw o (by simp)) hr).1
  rw [this l (fun o ho => reset_makes (hl o ho).1)]
  unfold Fm.boot
  rw [Fm.reset_mem he.fm]
  rfl

end Mdmi.Midi
