import Verif.Model.RingBuf
import Verif.Spec.Fifo
/-!
# Small-step model of `src/comm/ring_buf.c` shared by an interrupt and the main loop

Every load or store of a shared location (`head`, `tail`, the storage) is one atomic step; the two
sides may be interleaved in any way.  (On the 68000 the interrupt runs to completion, which is one of
the schedules covered.)  The fields `ringBuf` and `size` never change after initialisation and are
read without a step.  `trace` records calls as they return; it is not part of the C code.
-/
namespace Mdmi.RingConc
open Mdmi.Ring

/-- Program counter and locals inside `ring_buf_write` (src/comm/ring_buf.c:29-43). -/
inductive PPc
  | idle
  | loadHead (b : Nat)                    -- about to load `rb->head` for `nextHead` (line 35)
  | loadTail (b nextHead : Nat)           -- about to load `rb->tail` and compare (line 36)
  | loadHead2 (b nextHead : Nat)          -- about to load `rb->head` as index (line 40)
  | storeByte (b nextHead h : Nat)        -- about to store the byte (line 40)
  | storeHead (b nextHead : Nat)          -- about to store `rb->head` (line 41)
  deriving DecidableEq, Repr

/-- Program counter and locals inside `ring_buf_read` (src/comm/ring_buf.c:14-27). -/
inductive CPc
  | idle
  | loadTail                              -- about to load `rb->tail` (line 20)
  | loadHead (t : Nat)                    -- about to load `rb->head` and compare (line 20)
  | loadTail2                             -- about to load `rb->tail` as index (line 24)
  | loadByte (t : Nat)                    -- about to load the byte (line 24)
  | loadTail3 (d : Nat)                   -- about to load `rb->tail` (line 25)
  | storeTail (d t : Nat)                 -- about to store `rb->tail` (line 25)
  deriving DecidableEq, Repr

/-- Shared ring, both program counters, history of returned calls. -/
structure Sys where
  rb : RingBuf
  p : PPc
  c : CPc
  trace : List Fifo.Ev
  deriving DecidableEq, Repr

/-- Scheduler choices: start a write/read (ignored while one is in progress) or run one step. -/
inductive Act
  | startWrite (b : Nat) | prod | startRead | cons
  deriving DecidableEq, Repr

/-- One producer step inside `ring_buf_write`, src/comm/ring_buf.c:35-42; `none` = out-of-bounds
store. -/
def prodStep (s : Sys) : Option Sys :=
  match s.p with
  | .idle => some s
  | .loadHead b => some { s with p := .loadTail b ((s.rb.head + 1) % s.rb.size) }
  | .loadTail b nh =>
    if nh = s.rb.tail then some { s with p := .idle, trace := s.trace ++ [.reject b] }
    else some { s with p := .loadHead2 b nh }
  | .loadHead2 b nh => some { s with p := .storeByte b nh s.rb.head }
  | .storeByte b nh h =>
    match s.rb.buf with
    | none => none
    | some st =>
      if h < st.length then
        some { s with rb := { s.rb with buf := some (st.set h b) }, p := .storeHead b nh }
      else none
  | .storeHead b nh =>
    some { s with rb := { s.rb with head := nh }, p := .idle, trace := s.trace ++ [.accept b] }

/-- One consumer step inside `ring_buf_read`, src/comm/ring_buf.c:20-26; `none` = out-of-bounds
load. -/
def consStep (s : Sys) : Option Sys :=
  match s.c with
  | .idle => some s
  | .loadTail => some { s with c := .loadHead s.rb.tail }
  | .loadHead t =>
    if t = s.rb.head then some { s with c := .idle, trace := s.trace ++ [.empty] }
    else some { s with c := .loadTail2 }
  | .loadTail2 => some { s with c := .loadByte s.rb.tail }
  | .loadByte t =>
    match s.rb.buf with
    | none => none
    | some st => match st[t]? with
      | none => none
      | some d => some { s with c := .loadTail3 d }
  | .loadTail3 d => some { s with c := .storeTail d s.rb.tail }
  | .storeTail d t =>
    some { s with rb := { s.rb with tail := (t + 1) % s.rb.size }, c := .idle,
                  trace := s.trace ++ [.deliver d] }

/-- One scheduler choice. -/
def step (s : Sys) : Act → Option Sys
  | .startWrite b => some (if s.p = .idle then { s with p := .loadHead b } else s)
  | .prod => prodStep s
  | .startRead => some (if s.c = .idle then { s with c := .loadTail } else s)
  | .cons => consStep s

/-- A schedule; `none` as soon as a step is undefined behaviour. -/
def run (s : Sys) : List Act → Option Sys
  | [] => some s
  | a :: as => match step s a with
    | none => none
    | some s' => run s' as

/-- Both sides idle on a freshly initialised ring (src/comm/comm_serial.c:53). -/
def start (storage : List Nat) (n : Nat) : Sys :=
  { rb := Ring.init Ring.zeroed (some storage) n, p := .idle, c := .idle, trace := [] }

end Mdmi.RingConc
