/-!
# Model of `src/comm/comm.c`

Interfaces are numbered by their position in `commTypes` (comm.c:43-57, which entries exist depends
on compile-time options, so their number `n` is arbitrary).  Simplification: each driver is reduced to
what `comm.c` can see of it: whether it is present, a queue of received bytes (`read_ready` says
whether it is non-empty, `read` removes the oldest byte) and whether it can send.  Busy-waiting loops
are one iteration per step.  `trace` records bytes read and messages sent with their interface; it is
not part of the C code.
-/
namespace Mdmi.Comm

/-- What passes between `comm.c` and an interface. -/
inductive Ev
  | got (i b : Nat) | sent (i : Nat) (data : List Nat)
  deriving DecidableEq, Repr

/-- `activeCommType` (comm.c:61, `none` = NULL), `idle`, `reads` (comm.c:9-10) and the interfaces. -/
structure St where
  active : Option Nat
  idle : Nat
  reads : Nat
  present : Nat → Bool
  queue : Nat → List Nat
  writeReady : Nat → Bool
  trace : List Ev

/-- `MAX_COMM_IDLE` and `MAX_COMM_BUSY`, comm.c:12-13. -/
def maxCount : Nat := 0x28F

/-- `counts_in_bounds`, comm.c:146-149. -/
def countsInBounds (s : St) : Bool := s.idle != maxCount && s.reads != maxCount

/-- The scan in `read_ready`, comm.c:74-79: first interface present with data, from `i` on, with
`k` left to try. -/
def scan (s : St) (i : Nat) : Nat → Option Nat
  | 0 => none
  | k + 1 => if s.present i && !(s.queue i).isEmpty then some i else scan s (i + 1) k

/-- `read_ready`, comm.c:71-89, with `n` interfaces. -/
def readReady (n : Nat) (s : St) : Bool × St :=
  match s.active with
  | none => match scan s 0 n with
    | some i => (true, { s with active := some i })
    | none => (false, s)
  | some i =>
    if !(s.queue i).isEmpty then (true, s)
    else if countsInBounds s then (false, { s with idle := (s.idle + 1) % 65536 })
    else (false, s)

/-- `activeCommType->read()` on interface `i` (queue assumed non-empty at the call, which
`read_ready` has just established; an empty queue reads 0). -/
def driverRead (s : St) (i : Nat) : St :=
  { s with queue := fun j => if j = i then (s.queue i).tail else s.queue j,
           trace := s.trace ++ [.got i ((s.queue i).headD 0)] }

/-- One iteration of the loop in `comm_read` and, when it ends, the rest of the function,
comm.c:96-104.  `none` = NULL `activeCommType` dereferenced. -/
def tryRead (n : Nat) (s : St) : Option St :=
  match readReady n s with
  | (false, s') => some s'
  | (true, s') =>
    let s' := if countsInBounds s' then { s' with reads := (s'.reads + 1) % 65536 } else s'
    match s'.active with
    | none => none
    | some i => some (driverRead s' i)

/-- One iteration of the loop in `comm_write` and, when it ends, the rest of the function,
comm.c:122-127.  `none` = NULL `activeCommType` dereferenced. -/
def tryWrite (s : St) (data : List Nat) : Option St :=
  match s.active with
  | none => none
  | some i => if s.writeReady i then some { s with trace := s.trace ++ [.sent i data] } else some s

/-- `comm_reset_counts`, comm.c:116-120. -/
def resetCounts (s : St) : St := { s with idle := 0, reads := 0 }

/-- Caller and environment actions. -/
inductive Act
  | arrive (i b : Nat)              -- a byte arrives on interface `i`
  | setPresent (i : Nat) (p : Bool) -- an interface appears or disappears
  | setWriteReady (i : Nat) (r : Bool)
  | readReady                       -- `comm_read_ready`, comm.c:91-94
  | tryRead
  | tryWrite (data : List Nat)
  | resetCounts
  deriving DecidableEq, Repr

/-- One action. -/
def step (n : Nat) (s : St) : Act → Option St
  | .arrive i b => some { s with queue := fun j => if j = i then s.queue i ++ [b] else s.queue j }
  | .setPresent i p => some { s with present := fun j => if j = i then p else s.present j }
  | .setWriteReady i r => some { s with writeReady := fun j => if j = i then r else s.writeReady j }
  | .readReady => some (readReady n s).2
  | .tryRead => tryRead n s
  | .tryWrite d => tryWrite s d
  | .resetCounts => some (resetCounts s)

/-- A schedule; `none` once a NULL pointer is dereferenced. -/
def run (n : Nat) (s : St) : List Act → Option St
  | [] => some s
  | a :: as => match step n s a with
    | none => none
    | some s' => run n s' as

/-- After `comm_init`, comm.c:63-69. -/
def start : St := ⟨none, 0, 0, fun _ => false, fun _ => [], fun _ => false, []⟩

/-- `comm_mode`, comm.c:129-144: `types` gives the mode of each entry of `commTypes`. -/
inductive Mode
  | discovery | everdrive | serial | everdrivePro | megaWifi | demo
  deriving DecidableEq, Repr

/-- `comm_mode`, comm.c:129-144. -/
def mode (types : List Mode) (s : St) : Option Mode :=
  match s.active with
  | none => some .discovery
  | some i => types[i]?

end Mdmi.Comm
