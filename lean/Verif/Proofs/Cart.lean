import Verif.Model.Cart
/-! The cartridge: sessions on the preset memory. -/
namespace Mdmi.Cart
open Mdmi.Sram (Mem)

/-- Place of byte `o` in page 31. -/
def loc : Card → Nat → Nat
  | .pro, o => 1 + 2 * o
  | .x7, o => 0x40001 + 2 * o

theorem loc_inj {k : Card} {a b : Nat} (h : loc k a = loc k b) : a = b := by
  cases k <;> simp only [loc] at h <;> omega

/-- The accesses so far were all made with the memory selected, writes allowed, and no frame interrupt. -/
def AccOk (s : St) : Prop := ∀ a ∈ s.accesses, a.page = 31 ∧ (a.write = true → a.writable = true) ∧ a.vint = false

/-- Between `enable` and `disable`. -/
structure Open (w : Bool) (s : St) : Prop where
  page : s.page = 31
  wr : writable s = w
  ie : s.ie0 = false

/-- Two states that differ in memory and accesses only. -/
structure Same (s t : St) : Prop where
  ctrl : t.ctrl = s.ctrl
  page : t.page = s.page
  ie0 : t.ie0 = s.ie0
  ie1 : t.ie1 = s.ie1
  led : t.ledOn = s.ledOn
  bad : t.badWrites = s.badWrites
  regs : t.regWrites = s.regWrites
  acc : AccOk s → AccOk t

theorem Same.refl (s : St) : Same s s := ⟨rfl, rfl, rfl, rfl, rfl, rfl, rfl, id⟩

theorem Same.trans {s t u : St} (a : Same s t) (b : Same t u) : Same s u :=
  ⟨b.ctrl.trans a.ctrl, b.page.trans a.page, b.ie0.trans a.ie0, b.ie1.trans a.ie1, b.led.trans a.led,
    b.bad.trans a.bad, b.regs.trans a.regs, fun h => b.acc (a.acc h)⟩

theorem Same.open {w : Bool} {s t : St} (a : Same s t) (h : Open w s) : Open w t :=
  ⟨a.page.trans h.page, by have := h.wr; unfold writable at *; rw [a.ctrl]; exact this, a.ie0.trans h.ie⟩

theorem addr_ok (k : Card) {o : Nat} (h : o < 65536) :
    0x200000 ≤ base k + o * 2 ∧ base k + o * 2 < 0x280000 ∧ base k + o * 2 - 0x200000 = loc k o := by
  cases k <;> simp only [base, loc] <;> omega

theorem write_spec (k : Card) {s : St} (h : Open true s) {o : Nat} (ho : o < 65536) (v : BitVec 8) :
    Same s (write k s o v) ∧ (write k s o v).ram = upd s.ram (loc k o) v := by
  obtain ⟨a1, a2, a3⟩ := addr_ok k ho
  unfold write write8
  have : 0x200000 ≤ base k + o * 2 ∧ base k + o * 2 < 0x280000 ∧ s.page = 31 ∧ writable s = true :=
    ⟨a1, a2, h.page, h.wr⟩
  dsimp only
  split
  case isFalse hf => exact absurd this hf
  rw [a3]
  refine ⟨⟨rfl, rfl, rfl, rfl, rfl, rfl, rfl, fun ha a hm => ?_⟩, rfl⟩
  rcases List.mem_cons.1 hm with rfl | hm
  · exact ⟨h.page, fun _ => h.wr, h.ie⟩
  · exact ha a hm

theorem read_spec (k : Card) (rom : Nat → BitVec 8) {w : Bool} {s : St} (h : Open w s) {o : Nat} (ho : o < 65536) :
    Same s (read k rom s o).2 ∧ (read k rom s o).2.ram = s.ram ∧ (read k rom s o).1 = s.ram (loc k o) := by
  obtain ⟨a1, a2, a3⟩ := addr_ok k ho
  unfold read read8
  dsimp only
  rw [if_pos ⟨a1, a2, h.page⟩, a3]
  refine ⟨⟨rfl, rfl, rfl, rfl, rfl, rfl, rfl, fun ha a hm => ?_⟩, rfl, rfl⟩
  rcases List.mem_cons.1 hm with rfl | hm
  · exact ⟨h.page, fun e => by simp at e, h.ie⟩
  · exact ha a hm

theorem saveByte_spec (k : Card) (rom : Nat → BitVec 8) {s : St} (h : Open true s) {o : Nat} (ho : o < 65535)
    (v : BitVec 8) : Same s (saveByte k rom (s, o) v).1 ∧ (saveByte k rom (s, o) v).2 = o + 1 ∧
    (saveByte k rom (s, o) v).1.ram = upd s.ram (loc k o) v := by
  obtain ⟨a1, a2⟩ := write_spec k h (show o < 65536 by omega) v
  obtain ⟨b1, b2, b3⟩ := read_spec k rom (a1.open h) (show o < 65536 by omega)
  unfold saveByte
  dsimp only
  rw [b3, a2, if_neg (by simp [upd])]
  exact ⟨a1.trans b1, by omega, b2.trans a2⟩

/-- Byte writes in page 31. -/
def place (k : Card) (r : Nat → BitVec 8) (ws : List (Nat × BitVec 8)) : Nat → BitVec 8 :=
  ws.foldl (fun r w => upd r (loc k w.1) w.2) r

theorem saveLoop_spec (k : Card) (rom : Nat → BitVec 8) (bs : List (BitVec 8)) : ∀ {s : St} {o : Nat}, Open true s →
    o + bs.length < 65536 → Same s (bs.foldl (saveByte k rom) (s, o)).1 ∧
    (bs.foldl (saveByte k rom) (s, o)).1.ram = place k s.ram (Sram.writesFrom o bs) := by
  induction bs with
  | nil => intro s o _ _; exact ⟨.refl s, rfl⟩
  | cons b bs ih =>
    intro s o h ho
    simp only [List.length_cons] at ho
    obtain ⟨a1, a2, a3⟩ := saveByte_spec k rom h (show o < 65535 by omega) b
    simp only [List.foldl_cons]
    have e : saveByte k rom (s, o) b = ((saveByte k rom (s, o) b).1, o + 1) := Prod.ext rfl a2
    obtain ⟨b1, b2⟩ := ih (a1.open h) (show o + 1 + bs.length < 65536 by omega)
    rw [e]
    exact ⟨a1.trans b1, by rw [b2, a3]; rfl⟩

theorem enable_open (s : St) (w : Bool) : Open w (enable s w) ∧ (enable s w).ram = s.ram ∧
    (enable s w).ledOn = s.ledOn ∧ (enable s w).badWrites = s.badWrites ∧ (AccOk s → AccOk (enable s w)) := by
  cases w <;> refine ⟨⟨?_, ?_, ?_⟩, ?_, ?_, ?_, ?_⟩ <;> simp [enable, disableInts, write16, writable, AccOk] <;>
    first | decide | exact id

/-- The cartridge at rest: program pages, nothing writable. -/
structure Rest (s : St) : Prop where
  page : s.page = 4
  wr : writable s = false

theorem disable_spec (s : St) : Rest (disable s) ∧ (disable s).ram = s.ram ∧ (disable s).ledOn = s.ledOn ∧
    (disable s).badWrites = s.badWrites ∧ (AccOk s → AccOk (disable s)) ∧ lit (disable s) = false ∧
    (disable s).ie0 = true ∧ (disable s).ie1 = true := by
  refine ⟨⟨?_, ?_⟩, ?_, ?_, ?_, ?_, ?_, ?_, ?_⟩ <;> simp [disable, enableInts, write16, writable, lit, AccOk]

/-- The preset memory as the ideal array of `Model/Sram`. -/
def view (k : Card) (s : St) : Mem := fun o => s.ram (loc k o)

theorem place_view (k : Card) (ws : List (Nat × BitVec 8)) : ∀ r : Nat → BitVec 8,
    (fun o => place k r ws (loc k o)) = Sram.applyWrites (fun o => r (loc k o)) ws := by
  induction ws with
  | nil => intro r; rfl
  | cons w ws ih =>
    intro r
    refine (ih (upd r (loc k w.1) w.2)).trans ?_
    have : (fun o => upd r (loc k w.1) w.2 (loc k o)) = upd (fun o => r (loc k o)) w.1 w.2 := by
      funext o
      simp only [upd]
      by_cases e : o = w.1
      · simp [e]
      · rw [if_neg e, if_neg fun x => e (loc_inj x)]
    rw [this]; rfl

theorem place_other (k : Card) {a : Nat} (ws : List (Nat × BitVec 8)) (h : ∀ w ∈ ws, loc k w.1 ≠ a) :
    ∀ r : Nat → BitVec 8, place k r ws a = r a := by
  induction ws with
  | nil => intro r; rfl
  | cons w ws ih =>
    intro r
    refine (ih (fun x hx => h x (by simp [hx])) _).trans ?_
    simp only [upd]
    rw [if_neg fun e => h w (by simp) e.symm]

theorem slotBytes_length (p : Synth.FmPreset) : (Sram.slotBytes p).length = 36 := by
  simp [Sram.slotBytes, Sram.slotBody, Sram.be]

/-- What a call leaves behind. -/
structure Ends (s t : St) : Prop where
  rest : Rest t
  led : t.ledOn = s.ledOn
  bad : t.badWrites = s.badWrites
  acc : AccOk s → AccOk t
  dark : lit t = false
  ie0 : t.ie0 = true
  ie1 : t.ie1 = true

theorem ends_of {s t : St} {w : Bool} (h : Same (enable s w) t) : Ends s (disable t) := by
  obtain ⟨-, -, e3, e4, e5⟩ := enable_open s w
  obtain ⟨d1, -, d3, d4, d5, d6, d7, d8⟩ := disable_spec t
  exact ⟨d1, d3.trans (h.led.trans e3), d4.trans (h.bad.trans e4), fun a => d5 (h.acc (e5 a)), d6, d7, d8⟩

theorem save_spec (k : Card) (rom : Nat → BitVec 8) (s : St) {n : Nat} (hn : n < 128) (p : Synth.FmPreset) :
    Ends s (save k rom s n p) ∧ (save k rom s n p).ram = place k s.ram (Sram.saveWrites n p) := by
  have o := (enable_open s true).1
  have hl : Sram.slotOffset n + (Sram.slotBytes p).length < 65536 := by
    rw [slotBytes_length]; unfold Sram.slotOffset; omega
  obtain ⟨a, b⟩ := saveLoop_spec k rom (Sram.slotBytes p) o hl
  unfold save
  exact ⟨ends_of a, (disable_spec _).2.1.trans (b.trans (by rw [(enable_open s true).2.1]; rfl))⟩

theorem clear_spec (k : Card) (s : St) {n : Nat} (hn : n < 128) :
    Ends s (clear k s n) ∧ (clear k s n).ram = place k s.ram (Sram.clearWrites n) := by
  have o := (enable_open s true).1
  have h1 : Sram.slotOffset n < 65536 := by unfold Sram.slotOffset; omega
  have h2 : Sram.slotOffset n + 1 < 65536 := by unfold Sram.slotOffset; omega
  obtain ⟨a, b⟩ := write_spec k o h1 0
  obtain ⟨c, d⟩ := write_spec k (a.open o) h2 0
  exact ⟨ends_of (a.trans c), d.trans (by rw [b]; rfl)⟩

theorem readBytes_spec (k : Card) (rom : Nat → BitVec 8) {w : Bool} {s : St} (h : Open w s) {o : Nat} :
    ∀ n, o + n < 65536 → Same s (readBytes k rom s o n).2 ∧ (readBytes k rom s o n).2.ram = s.ram ∧
      (readBytes k rom s o n).1 = (List.range n).map fun j => view k s (o + j) := by
  intro n
  induction n with
  | zero => intro _; exact ⟨.refl s, rfl, rfl⟩
  | succ n ih =>
    intro hn
    obtain ⟨a, b, c⟩ := ih (by omega)
    obtain ⟨d, e, f⟩ := read_spec k rom (a.open h) (show o + n < 65536 by omega)
    refine ⟨a.trans d, e.trans b, ?_⟩
    simp only [readBytes, List.range_succ, List.map_append, List.map_cons, List.map_nil]
    rw [c, f, b]
    rfl

theorem loadOne_spec (k : Card) (rom : Nat → BitVec 8) {w : Bool} {s : St} (h : Open w s) {n : Nat} (hn : n < 128) :
    Same s (loadOne k rom s n).2 ∧ (loadOne k rom s n).2.ram = s.ram ∧
      (loadOne k rom s n).1 = Sram.loadProgram (view k s) n := by
  have ho : Sram.slotOffset n + 36 < 65536 := by unfold Sram.slotOffset; omega
  obtain ⟨a1, a2, a3⟩ := read_spec k rom h (show Sram.slotOffset n < 65536 by omega)
  obtain ⟨b1, b2, b3⟩ := read_spec k rom (a1.open h) (show Sram.slotOffset n + 1 < 65536 by omega)
  obtain ⟨c1, c2, c3⟩ := readBytes_spec k rom ((a1.trans b1).open h) 36 ho
  have v : view k (read k rom (read k rom s (Sram.slotOffset n)).2 (Sram.slotOffset n + 1)).2 = view k s := by
    funext o; simp only [view]; rw [b2, a2]
  rw [v] at c3
  have m : Sram.ofBe ((Sram.readSlot (view k s) n).take 2) =
      (s.ram (loc k (Sram.slotOffset n))).toNat * 256 + (s.ram (loc k (Sram.slotOffset n + 1))).toNat := by
    have : (Sram.readSlot (view k s) n).take 2 = [view k s (Sram.slotOffset n), view k s (Sram.slotOffset n + 1)] := by
      simp only [Sram.readSlot]
      rw [← List.map_take]
      rfl
    rw [this]
    simp [Sram.ofBe, view]
  have e : (List.range 36).map (fun j => view k s (Sram.slotOffset n + j)) = Sram.readSlot (view k s) n := rfl
  rw [e] at c3
  unfold loadOne Sram.loadProgram Sram.loadSlot
  dsimp only
  rw [a3, b3, a2, m, c3]
  split
  · exact ⟨a1.trans b1, b2.trans a2, rfl⟩
  · split <;> exact ⟨(a1.trans b1).trans c1, c2.trans (b2.trans a2), rfl⟩

theorem loadUpTo_spec (k : Card) (rom : Nat → BitVec 8) {w : Bool} {s : St} (h : Open w s) :
    ∀ n, n ≤ 128 → Same s (loadUpTo k rom s n).2 ∧ (loadUpTo k rom s n).2.ram = s.ram ∧
      (loadUpTo k rom s n).1 = (List.range n).map (Sram.loadProgram (view k s)) := by
  intro n
  induction n with
  | zero => intro _; exact ⟨.refl s, rfl, rfl⟩
  | succ n ih =>
    intro hn
    obtain ⟨a, b, c⟩ := ih (by omega)
    obtain ⟨d, e, f⟩ := loadOne_spec k rom (a.open h) (show n < 128 by omega)
    have v : view k (loadUpTo k rom s n).2 = view k s := by funext o; simp only [view]; rw [b]
    refine ⟨a.trans d, e.trans b, ?_⟩
    simp only [loadUpTo, List.range_succ, List.map_append, List.map_cons, List.map_nil]
    rw [c, f, v]

theorem load_spec (k : Card) (rom : Nat → BitVec 8) (s : St) :
    Ends s (load k rom s).2 ∧ (load k rom s).2.ram = s.ram ∧
      (load k rom s).1 = (List.range 128).map (Sram.loadProgram (view k s)) := by
  have o := (enable_open s false).1
  obtain ⟨a, b, c⟩ := loadUpTo_spec k rom o 128 (by omega)
  unfold load
  refine ⟨ends_of a, (disable_spec _).2.1.trans (b.trans (enable_open s false).2.1), c.trans ?_⟩
  have : view k (enable s false) = view k s := by funext o; simp only [view]; rw [(enable_open s false).2.1]
  rw [this]

/-- Legal calls: programs 0 to 127. -/
def Op.Ok : Op → Prop
  | .save n _ | .clear n => n < 128
  | _ => True

/-- At rest between calls: program pages, nothing writable, a lit LED is known to be lit, no bad writes, vertical
interrupt on. -/
structure Idle (s : St) : Prop where
  rest : Rest s
  led : lit s = true → s.ledOn = true
  acc : AccOk s
  bad : s.badWrites = 0
  ie0 : s.ie0 = true

theorem Ends.idle {s t : St} (h : Ends s t) (i : Idle s) : Idle t :=
  ⟨h.rest, fun e => by rw [h.dark] at e; simp at e, h.acc i.acc, h.bad.trans i.bad, h.ie0⟩

theorem Idle.step (k : Card) (rom : Nat → BitVec 8) {s : St} (i : Idle s) {op : Op} (h : op.Ok) :
    Idle (step k rom s op) := by
  cases op with
  | save n p => exact (save_spec k rom s h p).1.idle i
  | clear n => exact (clear_spec k s h).1.idle i
  | load => exact (load_spec k rom s).1.idle i
  | blink =>
    simp only [Cart.step, ledBlink]
    split
    · exact ⟨⟨i.rest.page, by simp [writable, write16]⟩, fun _ => rfl, i.acc, i.bad, i.ie0⟩
    · exact i
  | tick =>
    simp only [Cart.step, ledTick]
    split
    · exact ⟨⟨i.rest.page, by simp [writable, write16]⟩, fun e => by simp [lit, write16] at e, i.acc, i.bad, i.ie0⟩
    · exact i

theorem powerOn_idle (ram : Nat → BitVec 8) : Idle (powerOn ram) :=
  ⟨⟨rfl, by simp [writable, powerOn]⟩, fun e => by simp [lit, powerOn] at e, by simp [AccOk, powerOn], rfl, rfl⟩

theorem run_idle (k : Card) (rom : Nat → BitVec 8) (ops : List Op) : ∀ {s : St}, Idle s → (∀ op ∈ ops, op.Ok) →
    Idle (run k rom s ops) := by
  induction ops with
  | nil => intro s i _; exact i
  | cons o l ih => intro s i h; exact ih (i.step k rom (h o (by simp))) fun x hx => h x (by simp [hx])

end Mdmi.Cart
