import Verif.Model.Log
/-!
# Small-step model of `src/log.c` under the serial interrupt

The main program runs `log` and `log_dequeue` one statement at a time; between any two statements the serial interrupt
may run and log its own message (comm_serial.c:33), as one step since interrupts of its level do not nest.  Simplifications:
a statement such as `writeHead++` is one step (as one instruction on the 68000; a compiler that splits it adds
schedules), and so are the formatting of a message and reading an entry after `log_dequeue` (ui.c:196-213).
-/
namespace Mdmi.LogConc
open Mdmi.Log

/-- The next statement of the main program, with its locals: `i` is the entry chosen. -/
inductive Pc where
  | idle
  | slot (l : Level) (m : List Nat)               -- `&logs[writeHead]`, log.c:48
  | incW (l : Level) (m : List Nat) (i : Nat)     -- `writeHead++`, 36
  | wrapW (l : Level) (m : List Nat) (i : Nat)    -- `if (writeHead == MAX_LOG_ENTRIES) writeHead = 0`, 37-39
  | meet (l : Level) (m : List Nat) (i : Nat)     -- `if (writeHead == readHead)`, 40
  | dropR (l : Level) (m : List Nat) (i : Nat)    -- `readHead++`, 27
  | dropWrap (l : Level) (m : List Nat) (i : Nat) -- 28-30
  | dropC (l : Level) (m : List Nat) (i : Nat)    -- `count--`, 31
  | incC (l : Level) (m : List Nat) (i : Nat)     -- `count++`, 43
  | put (l : Level) (m : List Nat) (i : Nat)      -- message and level into the entry, 50-52
  | check                                         -- `if (count == 0)`, 73
  | front                                         -- `&logs[readHead]`, 76
  | incR (i : Nat)                                -- `readHead++`, 27
  | wrapR (i : Nat)                               -- 28-30
  | decC (i : Nat)                                -- `count--`, 31
  | fetch (i : Nat)                               -- entry read by the caller, ui.c:203-212
  deriving DecidableEq, Repr

/-- The log, the main program in it, what it fetched (oldest first); `cut` counts the interrupts since its last
statement and is not part of the C code. -/
structure Sys where
  log : Log.St
  pc : Pc
  out : List (Option Entry)
  cut : Nat
  deriving DecidableEq, Repr

/-- One statement of the main program, log.c:25-53, 71-79; `none` is an access out of bounds. -/
def mainStep (s : Sys) : Option Sys :=
  let g := s.log
  let go (g : Log.St) (pc : Pc) : Option Sys := some ⟨g, pc, s.out, 0⟩
  match s.pc with
  | .idle => some s
  | .slot l m => go g (.incW l m g.writeHead)
  | .incW l m i => go { g with writeHead := (g.writeHead + 1) % 256 } (.wrapW l m i)
  | .wrapW l m i => go { g with writeHead := if g.writeHead = maxEntries then 0 else g.writeHead } (.meet l m i)
  | .meet l m i => go g (if g.writeHead = g.readHead then .dropR l m i else .incC l m i)
  | .dropR l m i => go { g with readHead := (g.readHead + 1) % 256 } (.dropWrap l m i)
  | .dropWrap l m i => go { g with readHead := if g.readHead = maxEntries then 0 else g.readHead } (.dropC l m i)
  | .dropC l m i => go { g with count := (g.count + 65535) % 65536 } (.incC l m i)
  | .incC l m i => go { g with count := (g.count + 1) % 65536 } (.put l m i)
  | .put l m i =>
    if i < g.logs.length ∧ m.length + 1 ≤ 40 then go { g with logs := g.logs.set i ⟨l, m⟩ } .idle else none
  | .check => if g.count = 0 then some ⟨g, .idle, s.out ++ [none], 0⟩ else go g .front
  | .front => go g (.incR g.readHead)
  | .incR i => go { g with readHead := (g.readHead + 1) % 256 } (.wrapR i)
  | .wrapR i => go { g with readHead := if g.readHead = maxEntries then 0 else g.readHead } (.decC i)
  | .decC i => go { g with count := (g.count + 65535) % 65536 } (.fetch i)
  | .fetch i => match g.logs[i]? with
    | none => none
    | some e => some ⟨g, .idle, s.out ++ [some e], 0⟩

/-- What can happen next: the main program calls the log (ignored while it is in a call), runs a statement, or the
interrupt logs a message. -/
inductive Act where
  | call (op : Log.Op)
  | main
  | irq (m : List Nat)
  deriving DecidableEq, Repr

/-- First statement of a call. -/
def entry : Log.Op → Pc
  | .log l m => .slot l m
  | .dequeue => .check

/-- One choice. -/
def step (s : Sys) : Act → Option Sys
  | .call op => some (if s.pc = .idle then { s with pc := entry op, cut := 0 } else s)
  | .main => mainStep s
  | .irq m => match Log.log s.log .warn m with
    | none => none
    | some g => some { s with log := g, cut := s.cut + 1 }

/-- A schedule; `none` as soon as an access is out of bounds. -/
def run (s : Sys) : List Act → Option Sys
  | [] => some s
  | a :: as => match step s a with
    | none => none
    | some s' => run s' as

/-- After `log_init`. -/
def start : Sys := ⟨Log.init, .idle, [], 0⟩

end Mdmi.LogConc
