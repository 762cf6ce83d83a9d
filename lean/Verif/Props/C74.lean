import Verif.Proofs.Cart
import Verif.Proofs.MidiFmSram
import Verif.Spec.Example
/-! C74: the cartridge's registers and memory. -/
namespace Mdmi.Props
open Mdmi Mdmi.Cart

variable {k : Card} {rom : Nat → BitVec 8}

/-- Byte `o` of the preset memory: the odd bytes of page 31 from its start (Pro) or from its middle (X7). -/
def presetMemory (k : Card) (s : St) : Sram.Mem := fun o =>
  s.ram (2 * o + 1 + match k with | .pro => 0 | .x7 => 0x40000)

theorem presetMemory_eq (k : Card) (s : St) : presetMemory k s = view k s := by
  funext o
  cases k
  · exact congrArg s.ram (by simp only [loc]; omega)
  · exact congrArg s.ram (by simp only [loc]; omega)

theorem view_place {s t : St} {ws : List (Nat × BitVec 8)} (h : t.ram = place k s.ram ws) :
    view k t = Sram.applyWrites (view k s) ws := by
  rw [show view k t = fun o => place k s.ram ws (loc k o) by funext o; simp only [view, h]]
  exact place_view k ws s.ram

/-- **C74** (save).  Whatever state the cartridge is in, saving a preset changes the preset memory as the ideal memory of C33
and C34, and no other byte of the page. -/
theorem C74_save (s : St) (n : Nat) (hn : n < 128) (p : Synth.FmPreset) :
    presetMemory k (save k rom s n p) = Sram.applyWrites (presetMemory k s) (Sram.saveWrites n p) ∧
    ∀ a, (∀ o, a ≠ 2 * o + 1 + match k with | .pro => 0 | .x7 => 0x40000) → (save k rom s n p).ram a = s.ram a := by
  obtain ⟨-, h⟩ := save_spec k rom s hn p
  rw [presetMemory_eq, presetMemory_eq]
  refine ⟨view_place h, fun a ha => ?_⟩
  rw [h]
  refine place_other k _ (fun w _ e => ha w.1 ?_) _
  cases k <;> simp only [loc] at e ⊢ <;> omega

/-- **C74** (clear). -/
theorem C74_clear (s : St) (n : Nat) (hn : n < 128) :
    presetMemory k (clear k s n) = Sram.applyWrites (presetMemory k s) (Sram.clearWrites n) ∧
    ∀ a, (∀ o, a ≠ 2 * o + 1 + match k with | .pro => 0 | .x7 => 0x40000) → (clear k s n).ram a = s.ram a := by
  obtain ⟨-, h⟩ := clear_spec k s hn
  rw [presetMemory_eq, presetMemory_eq]
  refine ⟨view_place h, fun a ha => ?_⟩
  rw [h]
  refine place_other k _ (fun w _ e => ha w.1 ?_) _
  cases k <;> simp only [loc] at e ⊢ <;> omega

/-- **C74** (load).  Loading finds in every slot what the ideal memory holds there, and changes no byte. -/
theorem C74_load (s : St) :
    (∀ n, n < 128 → (load k rom s).1[n]? = some (Sram.loadProgram (presetMemory k s) n)) ∧
    (load k rom s).2.ram = s.ram := by
  obtain ⟨-, h1, h2⟩ := load_spec k rom s
  refine ⟨fun n hn => ?_, h1⟩
  rw [h2, presetMemory_eq]
  simp [hn]

/-- **C74** (mapping).  In every history of calls after power-on: every access to the preset memory was made with its page
selected, with writing allowed if it was a write, and with the frame interrupt off; no write read back wrong.  Between calls
the program's own page is selected, nothing is writable, the frame interrupt is on, and the LED is lit only if
the program knows. -/
theorem C74_mapping (ram : Nat → BitVec 8) (ops : List Op)
    (hops : ∀ op ∈ ops, match op with | .save n _ | .clear n => n < 128 | _ => True) :
    let s := run k rom (powerOn ram) ops
    (∀ a ∈ s.accesses, a.page = 31 ∧ (a.write = true → a.writable = true) ∧ a.vint = false) ∧ s.badWrites = 0 ∧
      s.page = 4 ∧ writable s = false ∧ s.ie0 = true ∧ (lit s = true → s.ledOn = true) := by
  have i := run_idle k rom ops (powerOn_idle ram) (fun op ho => by have := hops op ho; cases op <;> exact this)
  exact ⟨i.acc, i.bad, i.rest.page, i.rest.wr, i.ie0, i.led⟩

/-- **C74** (LED).  After every frame tick the LED is dark, and the next byte received lights it. -/
theorem C74_led (ram : Nat → BitVec 8) (ops : List Op)
    (hops : ∀ op ∈ ops, match op with | .save n _ | .clear n => n < 128 | _ => True) :
    let s := run k rom (powerOn ram) ops
    lit (ledTick s) = false ∧ lit (ledBlink (ledTick s)) = true := by
  obtain ⟨-, -, -, -, -, h⟩ := C74_mapping (k := k) (rom := rom) ram ops hops
  generalize run k rom (powerOn ram) ops = s at *
  simp only [ledTick]
  by_cases e : s.ledOn = true
  · rw [if_pos e]; simp [lit, write16, ledBlink]
  · have : lit s = false := by cases x : lit s <;> simp_all
    have e' : s.ledOn = false := by simpa using e
    rw [if_neg e]; refine ⟨this, ?_⟩
    simp [ledBlink, e', lit, write16]

/-- **C74** (LED, violation).  A byte received in the same frame after a preset was saved does not light the LED: saving switched
it off behind the back of the LED code. -/
theorem C74_led_missed : ∃ ops : List Op,
    let s := run .pro (fun _ => 0) (powerOn fun _ => 0) (ops ++ [.blink])
    s.ledOn = true ∧ lit s = false :=
  ⟨[.blink, .clear 0], by decide +kernel⟩

/-- **C74** (interrupts, violation).  Every access to the preset memory leaves the horizontal interrupt switched on, which it was
not before. -/
theorem C74_horizontal_interrupt_left_on (s : St) (n : Nat) (hn : n < 128) (p : Synth.FmPreset) :
    (powerOn s.ram).ie1 = false ∧ (save k rom s n p).ie1 = true ∧ (clear k s n).ie1 = true ∧
      (load k rom s).2.ie1 = true :=
  ⟨rfl, (save_spec k rom s hn p).1.ie1, (clear_spec k s hn).1.ie1, (load_spec k rom s).1.ie1⟩

/-- **C74** (other cartridges).  LED ticks alone never write a cartridge register: the LED code only does after a byte has
been read from an EverDrive. -/
theorem C74_silent_without_everdrive (ram : Nat → BitVec 8) (ops : List Op) (h : ∀ op ∈ ops, op = .tick) :
    (run k rom (powerOn ram) ops).regWrites = 0 := by
  have : ∀ (l : List Op), (∀ op ∈ l, op = .tick) → ∀ s : St, s.ledOn = false →
      (run k rom s l).regWrites = s.regWrites := by
    intro l
    induction l with
    | nil => intro _ s _; rfl
    | cons o l ih =>
      intro h s hs
      have e : step k rom s o = s := by rw [h o (by simp)]; simp [step, ledTick, hs]
      show (run k rom (step k rom s o) l).regWrites = _
      rw [e]
      exact ih (fun x hx => h x (by simp [hx])) s hs
  exact this ops h _ rfl

/-! ### The FM device on the cartridge -/

/-- The calls on the cartridge one FM call makes: storing saves, clearing clears, a reset loads. -/
def cartCalls (s : Fm.St) : Fm.Op → List Op
  | .store n p => [.save n p]
  | .clear n => [.clear n]
  | .storeFrom c n => [.save n (Synth.extractPreset s.synth c)]
  | .reset => [.load]
  | _ => []

/-- FM device and cartridge together. -/
def onCart (env : Fm.Env) (k : Card) (rom : Nat → BitVec 8) (x : Fm.St × Cart.St) (op : Fm.Op) : Fm.St × Cart.St :=
  (Fm.step env x.1 op, Cart.run k rom x.2 (cartCalls x.1 op))

/-- **C74** (refinement).  The ideal memory used in the model of the FM device is the preset memory of the cartridge, through
every history of legal FM calls. -/
theorem C74_refines (env : Fm.Env) (he : env.Ok) (hs : env.sram = true) (ops : List Fm.Op) (hl : ∀ op ∈ ops, op.Legal) :
    ∀ (s : Fm.St) (c : Cart.St), s.mem = presetMemory k c →
      (ops.foldl (onCart env k rom) (s, c)).1.mem = presetMemory k (ops.foldl (onCart env k rom) (s, c)).2 := by
  induction ops with
  | nil => intro s c h; exact h
  | cons op ops ih =>
    intro s c h
    refine ih (fun o ho => hl o (by simp [ho])) _ _ ?_
    have l := hl op (by simp)
    cases op with
    | store n p =>
      simp only [Fm.step, Fm.storePreset, l.1, if_true, cartCalls, Cart.run, List.foldl_cons, List.foldl_nil, Cart.step]
      rw [Fm.sramSave_mem hs, (C74_save c n l.1 p).1, ← h]
    | clear n =>
      have hn : n < 128 := l
      simp only [Fm.step, Fm.clearPreset, hn, if_true, cartCalls, Cart.run, List.foldl_cons, List.foldl_nil, Cart.step]
      rw [Fm.sramClear_mem hs, (C74_clear c n hn).1, ← h]
    | storeFrom j n =>
      simp only [Fm.step, Fm.storePresetFromChannel, Fm.guardCh, l.1, Fm.storePreset, l.2, if_true, cartCalls, Cart.run,
        List.foldl_cons, List.foldl_nil, Cart.step]
      rw [Fm.sramSave_mem hs, (C74_save c n l.2 _).1, ← h]
    | reset =>
      simp only [Fm.step, cartCalls, Cart.run, List.foldl_cons, List.foldl_nil, Cart.step]
      have e : presetMemory k (load k rom c).2 = presetMemory k c := by
        unfold presetMemory; rw [(C74_load (k := k) (rom := rom) c).2]
      rw [Fm.reset_mem he, h]
      exact e.symm
    | _ => exact (Fm.step_keeps s _ (by intro n; simp [Fm.Op.writes]) (by simp)).1.trans h

-- non-vacuity: a preset saved and loaded again on both cartridges, the LED lit in between; the ROM holds a valid magic
-- number where the memory is looked for, which must not matter
private def someRom : Nat → BitVec 8 := fun a => if a % 4 = 1 then 0x9E else 0x1D
private def garbage : Nat → BitVec 8 := fun a => BitVec.ofNat 8 (a * 7)

example : ∀ c ∈ [Card.pro, Card.x7],
    let s := run c someRom (powerOn garbage) [.blink, .save 3 (Ex.preset 77), .tick, .save 127 (Ex.preset 78), .clear 127, .blink]
    let l := (load c someRom s).1
    l[3]? = some (.ok (Ex.preset 77)) ∧ l[127]? = some .empty ∧ s.accesses.length = 146 ∧ lit s = true ∧
      s.ram (match c with | .pro => 281 | .x7 => 0x40119) = 0x9E := by decide +kernel
example : Ex.fm.sram = true ∧ Fm.Op.Legal (.store 3 (Ex.preset 77)) := ⟨rfl, by omega, Ex.preset_ok _⟩

end Mdmi.Props
