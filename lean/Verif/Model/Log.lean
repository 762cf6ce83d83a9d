/-!
# Model of `src/log.c`

Messages are byte strings as produced by `vsprintf` (formatting itself is not modelled).  A message
whose text plus terminating NUL does not fit the 40-byte field is undefined behaviour (`none`).
Calls are atomic: a call from the serial interrupt in the middle of another call is not modelled.
-/
namespace Mdmi.Log

/-- `LogLevel`, src/log.h:6. -/
inductive Level
  | info | warn
  deriving DecidableEq, Repr

/-- `Log`, src/log.h:8-12 (`msgLen` is a constant and left out). -/
structure Entry where
  level : Level
  msg : List Nat
  deriving DecidableEq, Repr

/-- The file-scope variables, src/log.c:5-8. -/
structure St where
  logs : List Entry
  readHead : Nat
  writeHead : Nat
  count : Nat
  deriving DecidableEq, Repr

/-- `MAX_LOG_ENTRIES`, src/log.c:3. -/
def maxEntries : Nat := 10

/-- `log_init`, src/log.c:12-23. -/
def init : St := ⟨List.replicate maxEntries ⟨.info, []⟩, 0, 0, 0⟩

/-- `incrementReadHead`, src/log.c:25-32 (`count` is `u16`). -/
def incrementReadHead (s : St) : St :=
  let r := s.readHead + 1
  { s with readHead := if r = maxEntries then 0 else r, count := (s.count + 65535) % 65536 }

/-- `incrementWriteHead`, src/log.c:34-44. -/
def incrementWriteHead (s : St) : St :=
  let w := s.writeHead + 1
  let s := { s with writeHead := if w = maxEntries then 0 else w }
  let s := if s.writeHead = s.readHead then incrementReadHead s else s
  { s with count := (s.count + 1) % 65536 }

/-- `log`, src/log.c:46-53, called by `log_info` (55-61) and `log_warn` (63-69). -/
def log (s : St) (level : Level) (msg : List Nat) : Option St :=
  let i := s.writeHead
  let s := incrementWriteHead s
  if i < s.logs.length ∧ msg.length + 1 ≤ 40 then
    some { s with logs := s.logs.set i ⟨level, msg⟩ }
  else none

/-- `log_dequeue`, src/log.c:71-79 (inner `none` = NULL returned). -/
def dequeue (s : St) : Option (Option Entry × St) :=
  if s.count = 0 then some (none, s)
  else match s.logs[s.readHead]? with
    | none => none
    | some e => some (some e, incrementReadHead s)

/-- API calls. -/
inductive Op
  | log (l : Level) (m : List Nat) | dequeue
  deriving DecidableEq, Repr

/-- A sequence of calls; the result lists what the dequeue calls returned. -/
def run (s : St) : List Op → Option (List (Option Entry))
  | [] => some []
  | .log l m :: ops => match log s l m with
    | none => none
    | some s' => run s' ops
  | .dequeue :: ops => match dequeue s with
    | none => none
    | some (e, s') => (run s' ops).map (e :: ·)

end Mdmi.Log
