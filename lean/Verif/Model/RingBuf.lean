/-!
# Model of `src/comm/ring_buf.c`

The storage handed to `ring_buf_init` is a list whose length is the number of bytes that are really
allocated; an access at or beyond that length is undefined behaviour and is the distinct outcome
`none`.  `rb == NULL` and `data == NULL` never occur at the call sites (all callers pass the address
of a static object) and are not modelled; `rb->ringBuf == NULL` (never initialised) is.
-/
namespace Mdmi.Ring

/-- `ring_buf_status_t`, src/comm/ring_buf.h. -/
inductive Status
  | ok | empty | full | error
  deriving DecidableEq, Repr

/-- `ring_buf_t`, src/comm/ring_buf.h: `ringBuf` (`none` = NULL), `head`, `tail`, `size`. -/
structure RingBuf where
  buf : Option (List Nat)
  head : Nat
  tail : Nat
  size : Nat
  deriving DecidableEq, Repr

/-- Static storage duration: all fields zero (src/comm/comm_serial.c:10). -/
def zeroed : RingBuf := ⟨none, 0, 0, 0⟩

/-- `ring_buf_init`, src/comm/ring_buf.c:3-12. -/
def init (rb : RingBuf) (storage : Option (List Nat)) (size : Nat) : RingBuf :=
  match storage with
  | none => rb
  | some st =>
    if size < 2 then rb
    else { buf := some st, tail := 0, head := 0, size := size }

/-- `ring_buf_read`, src/comm/ring_buf.c:14-27.  Returns the status and the byte stored through
`data` (`none` when `*data` is not written).  Outer `none` = out-of-bounds access. -/
def read (rb : RingBuf) : Option (Status × Option Nat × RingBuf) :=
  match rb.buf with
  | none => some (.error, none, rb)
  | some st =>
    if rb.size < 2 then some (.error, none, rb)
    else if rb.tail = rb.head then some (.empty, none, rb)
    else match st[rb.tail]? with
      | none => none
      | some d => some (.ok, some d, { rb with tail := (rb.tail + 1) % rb.size })

/-- `ring_buf_write`, src/comm/ring_buf.c:29-43. -/
def write (rb : RingBuf) (data : Nat) : Option (Status × RingBuf) :=
  match rb.buf with
  | none => some (.error, rb)
  | some st =>
    if rb.size < 2 then some (.error, rb)
    else
      let nextHead := (rb.head + 1) % rb.size
      if nextHead = rb.tail then some (.full, rb)
      else if rb.head < st.length then
        some (.ok, { rb with buf := some (st.set rb.head data), head := nextHead })
      else none

/-- `ring_buf_can_read`, src/comm/ring_buf.c:45-51. -/
def canRead (rb : RingBuf) : Bool :=
  match rb.buf with
  | none => false
  | some _ => if rb.size < 2 then false else rb.tail != rb.head

/-- `ring_buf_available`, src/comm/ring_buf.c:53-67.  The result type is `u16`; all three
expressions are in `0 .. size-1` for a valid ring so the subtraction is exact. -/
def available (rb : RingBuf) : Nat :=
  match rb.buf with
  | none => 0
  | some _ =>
    if rb.size < 2 then 0
    else
      let capacity := rb.size - 1
      if rb.tail = rb.head then capacity
      else if rb.tail < rb.head then capacity - (rb.head - rb.tail)
      else rb.tail - rb.head - 1

/-- `ring_buf_can_write`, src/comm/ring_buf.c:69-77. -/
def canWrite (rb : RingBuf) : Bool :=
  match rb.buf with
  | none => false
  | some _ => if rb.size < 2 then false else (rb.head + 1) % rb.size != rb.tail

/-- One call of the ring buffer API. -/
inductive Op
  | read | write (b : Nat) | canRead | available | canWrite
  deriving DecidableEq, Repr

/-- What the caller of one API call observes. -/
inductive Obs
  | read (s : Status) (d : Option Nat) | write (s : Status) | bool (b : Bool) | num (n : Nat)
  deriving DecidableEq, Repr

/-- Dispatch of one API call (test harness for call sequences, not C code). -/
def step (rb : RingBuf) : Op → Option (Obs × RingBuf)
  | .read => (read rb).map fun (s, d, rb') => (.read s d, rb')
  | .write b => (write rb b).map fun (s, rb') => (.write s, rb')
  | .canRead => some (.bool (canRead rb), rb)
  | .available => some (.num (available rb), rb)
  | .canWrite => some (.bool (canWrite rb), rb)

/-- A sequence of API calls; `none` as soon as one of them is undefined behaviour. -/
def run (rb : RingBuf) : List Op → Option (List Obs)
  | [] => some []
  | op :: ops => match step rb op with
    | none => none
    | some (o, rb') => (run rb' ops).map (o :: ·)

end Mdmi.Ring
