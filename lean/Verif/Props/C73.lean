import Verif.Proofs.Main
import Verif.Spec.Example
/-! C73: start-up. -/
namespace Mdmi.Props
open Mdmi Mdmi.Main

/-- The handlers a build needs to be called: every frame, and as often as possible. -/
def wantedFrame (b : Build) : Handler → Bool
  | .psgTick | .midiTick | .uiUpdate | .demoVsync | .ledTick => true
  | .wifiVsync => b.wifi
  | .wifiTick | .rxRead => false

@[inherit_doc wantedFrame] def wantedTick (b : Build) : Handler → Bool
  | .rxRead => true
  | .wifiTick => b.wifi
  | _ => false

/-- **C73** (handlers).  Start-up never runs out of handler slots, for every build, cartridge and previous content of the
variables; afterwards every handler the build needs is registered exactly once, and no other is. -/
theorem C73_every_handler_once (b : Build) (hw : Hw) (s : St) (h : s.died = false) (k : Handler) :
    let t := main b hw s
    t.died = false ∧ t.frames.count k = (wantedFrame b k).toNat ∧ t.ticks.count k = (wantedTick b k).toNat := by
  obtain ⟨-, -, -, e1, e2, e3⟩ := main_state b hw s
  refine ⟨e3.trans h, ?_, ?_⟩
  · rw [e2]; obtain ⟨_, _, _, w⟩ := b; cases w <;> cases k <;> rfl
  · rw [e1]; obtain ⟨_, _, _, w⟩ := b; cases w <;> cases k <;> rfl

/-- **C73** (handlers).  The program as shipped has no frame handler slot left; any further registration stops it. -/
theorem C73_frame_slots_full (hw : Hw) (k : Handler) : (addFrame k (main shipped hw cold)).died = true := by
  obtain ⟨-, -, -, -, e, -⟩ := main_state shipped hw cold
  unfold addFrame
  rw [e]
  rfl

/-- The module whose variables a handler works on. -/
def handlerModule : Handler → Module
  | .psgTick => .psg | .midiTick => .midi | .uiUpdate => .ui | .demoVsync => .demo | .ledTick => .led
  | .wifiVsync | .wifiTick => .wifi | .rxRead => .rx

/-- **C73** (order).  A handler called while start-up is still going on (the MegaWiFi initialisation yields) works on a
module that has been initialised before. -/
theorem C73_no_handler_too_early (b : Build) (hw : Hw) (newer older : List Ev) (k : Handler)
    (h : (main b hw cold).trace = newer ++ .run k :: older) : .ready (handlerModule k) ∈ older := by
  have := (main_good b hw (s := cold) rfl).1 newer older k h
  revert this
  cases k <;> exact id

/-- The status registers of the two cartridges: the Pro answers 55Ax, the X7 00xx or 40xx (SD or SDHC card). -/
def ProFitted (hw : Hw) : Prop := hw.sysStat / 16 = 0x55A

@[inherit_doc ProFitted] def X7Fitted (hw : Hw) : Prop := hw.ste / 256 = 0x00 ∨ hw.ste / 256 = 0x40

/-- **C73** (detection).  Once the interfaces have been initialised, choosing the preset memory picks the fitted
cartridge: the Pro's if a Pro is fitted, else the X7's if an X7 is fitted, else none. -/
theorem C73_detection (hw : Hw) (h1 : hw.sysStat < 65536) (s : St) :
    let t := sramInit (commInit shipped hw s)
    (t.sramOps = .edPro ↔ ProFitted hw) ∧ (t.sramOps = .edX7 ↔ ¬ProFitted hw ∧ X7Fitted hw) ∧
      (t.sramOps = .none ↔ ¬ProFitted hw ∧ ¬X7Fitted hw) := by
  have e : (sramInit (commInit shipped hw s)).sramOps =
      if hw.sysStat &&& 0xFFF0 == 0x55A0 then .edPro
      else if hw.ste >>> 8 == 0x00 || hw.ste >>> 8 == 0x40 then .edX7 else .none := by
    simp only [sramInit, (commInit_flags hw s).1, (commInit_flags hw s).2]
  simp only [e, beq_iff_eq, and_fff0 h1, ProFitted, X7Fitted, Nat.shiftRight_eq_div_pow, Bool.or_eq_true]
  generalize hw.sysStat / 16 = p
  generalize hw.ste / 2 ^ 8 = q
  by_cases a : p = 1370 <;> by_cases b : q = 0 ∨ q = 64 <;> simp [a, b]

/-- The intended behaviour: in a session started by switching the console on with a supported cartridge fitted, the
preset memory is in use. -/
def C73_statement : Prop :=
  ∀ b hw, (b.pro ∧ ProFitted hw) ∨ (b.x7 ∧ X7Fitted hw) → sramPresent (main b hw cold) = true

/-- **C73** (preset memory).  After switching on, the preset memory is never found — whatever the build and the
cartridge — because it is looked for before the cartridge is. -/
theorem C73_preset_memory_never_found (b : Build) (hw : Hw) : sramPresent (main b hw cold) = false := by
  obtain ⟨-, -, e, -⟩ := main_state b hw cold
  unfold sramPresent
  rw [e]
  rfl

/-- **C73** is false. -/
theorem C73_violated : ¬C73_statement := by
  intro h
  have := h shipped ⟨0x55A0, 0x3F00, []⟩ (.inl ⟨rfl, rfl⟩)
  rw [C73_preset_memory_never_found] at this
  exact absurd this (by decide)

/-- **C73**, as far as it holds: if the program starts again with the variables of the previous run in place (the console's
reset button), the preset memory is in use exactly if a supported cartridge was fitted in that run. -/
theorem C73_found_after_warm_restart_partial (hw hw' : Hw) (h1 : hw.sysStat < 65536) :
    sramPresent (main shipped hw' (main shipped hw cold)) = true ↔ ProFitted hw ∨ X7Fitted hw := by
  obtain ⟨-, -, e, -⟩ := main_state shipped hw' (main shipped hw cold)
  obtain ⟨f, g, -⟩ := main_state shipped hw cold
  unfold sramPresent
  rw [e, f, g]
  simp only [shipped, if_true, beq_iff_eq, and_fff0 h1, ProFitted, X7Fitted, Nat.shiftRight_eq_div_pow, Bool.or_eq_true]
  generalize hw.sysStat / 16 = p
  generalize hw.ste / 2 ^ 8 = q
  by_cases a : p = 1370 <;> by_cases b : q = 0 ∨ q = 64 <;> simp [a, b]

/-- **C73** (consequence).  Whatever a session after switching on receives, the preset memory keeps its content; the next
session, and a reset in this one, start with the built-in presets only. -/
theorem C73_nothing_kept (env : Midi.Env) (he : env.Ok) (b : Build) (hw : Hw) (x y : Bool) (m : Sram.Mem)
    (ops : List Midi.Op) (hops : ∀ op ∈ ops, op.Wf)
    (hd : (∀ op ∈ ops, ¬op.enablesDac) ∨ (∀ op ∈ ops, ¬op.detunes)) (n : Nat) (hn : n < 128) :
    let env := session env (main b hw cold)
    let s := Midi.run env (Midi.boot env x m) ops
    s.fm.mem = m ∧ Fm.getStoredPreset env.fm (Midi.boot env y s.fm.mem).fm n = env.fm.presets[n]? ∧
      Fm.getStoredPreset env.fm (Midi.step env s .reset).fm n = env.fm.presets[n]? := by
  have hs : (session env (main b hw cold)).fm.sram = false := C73_preset_memory_never_found b hw
  have he' : (session env (main b hw cold)).Ok := ⟨⟨he.fm.1, he.fm.2, he.fm.3, he.fm.4⟩, he.psg⟩
  generalize session env (main b hw cold) = env at *
  have nu : ∀ f : Fm.St, f.user n = none → Fm.getStoredPreset env.fm f n = env.fm.presets[n]? := by
    intro f hf
    unfold Fm.getStoredPreset
    rw [if_neg (by omega), hf]
  refine ⟨Midi.history_mem_none he' hs x m ops hops hd, nu _ (Midi.boot_user_none he' hs y _ n), nu _ ?_⟩
  obtain ⟨tame, ok⟩ := Midi.Reached.ok he' ⟨x, m, ops, hops, hd, rfl⟩
  have := (Midi.reset_users he' ok).2 n hn
  rw [hs] at this
  simpa [Midi.step] using this

/-- What C33 asks of the whole program: sessions after switching on hand their user presets to the next. -/
def C33_statement : Prop :=
  ∀ (env : Midi.Env), env.Ok → ∀ (b : Build) (hw : Hw), ProFitted hw ∨ X7Fitted hw → ∀ s,
    Midi.Reached (session env (main b hw cold)) s → ∀ x n, n < 128 →
      (Midi.boot (session env (main b hw cold)) x s.fm.mem).fm.user n = s.fm.user n

/-- **C33** is false of the whole program: the sound of channel 1 stored as program 5 (controller 87) on a Mega EverDrive
Pro is gone after switching the console off and on. -/
theorem C33_violated : ¬C33_statement := by
  intro h
  have e : session (Ex.env .static) (main shipped ⟨0x55A0, 0x3F00, []⟩ cold) =
      ⟨{ (Ex.env .static).fm with sram := false }, Ex.psg, .static⟩ := rfl
  have := h (Ex.env .static) (Ex.env_ok _) shipped ⟨0x55A0, 0x3F00, []⟩ (.inl rfl) _
    ⟨true, Ex.mem, [.program 0 9, .cc 0 87 5], by simp [Midi.Op.Wf], by simp [Midi.Op.enablesDac], rfl⟩ true 5 (by omega)
  rw [e] at this
  revert this
  decide +kernel

-- non-vacuity
example : (main shipped ⟨0x55A3, 0x3F00, [false, true]⟩ cold).trace =
    [.ready .rx, .ready .led, .ready .demo,
     .run .wifiVsync, .run .uiUpdate, .run .midiTick, .run .psgTick, .run .wifiTick, .run .wifiTick,
     .ready .wifi, .ready .serial, .ready .everdrivePro, .ready .everdrive,
     .ready .ui, .ready .midi, .ready .fm, .ready .psg, .ready .scheduler, .ready .log] := by decide
-- the register values listed in comm_everdrive.c:18-29
example : ¬X7Fitted ⟨0, 0x3F00, []⟩ ∧ ¬X7Fitted ⟨0, 0xFFFF, []⟩ ∧ ¬X7Fitted ⟨0, 0x3015, []⟩ ∧
    X7Fitted ⟨0, 0x4003, []⟩ ∧ X7Fitted ⟨0, 0x4009, []⟩ := by simp [X7Fitted]
example : (sramInit (commInit shipped ⟨0x55A0, 0x3F00, []⟩ cold)).sramOps = .edPro ∧
    (sramInit (commInit shipped ⟨0xFFFF, 0x4003, []⟩ cold)).sramOps = .edX7 ∧
    (main shipped ⟨0x55A0, 0x3F00, []⟩ cold).sramOps = .none ∧
    (main shipped ⟨0xFFFF, 0xFFFF, []⟩ (main shipped ⟨0xFFFF, 0x4003, []⟩ cold)).sramOps = .edX7 := by decide

end Mdmi.Props
