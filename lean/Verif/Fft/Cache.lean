import Mathlib.Data.List.Basic
import Mathlib.Data.List.Nodup
import Mathlib.Tactic.Linarith
/-
The cache of Fourier plans (concrete-core/src/backends/fft/private/math/fft/mod.rs:103-106 `plans`, 149-183
`Fft::new`), under every interleaving of threads.
-/
namespace Verif.Fft.Cache

/-- A `once_cell::sync::OnceCell`: `busy` while a thread runs the initialiser. -/
inductive Cell (P : Type) where
  | empty
  | busy
  | full (p : P)
  deriving DecidableEq

/-- Where a thread is in `Fft::new` (mod.rs:151-182). -/
inductive Pc (P : Type) where
  /-- line 172, before taking the write lock -/
  | start
  /-- lines 173-175, with the write lock -/
  | inserting
  /-- line 177, before releasing the write lock -/
  | unlockW
  /-- line 156, before taking the read lock -/
  | lookup
  /-- line 157, with the read lock -/
  | cloning
  /-- line 158, before releasing the read lock; the content of the local variable `plan` -/
  | unlockR (c : Option Nat)
  /-- line 161, before `get_or_init` -/
  | getting (id : Nat)
  /-- lines 162-165, in the initialiser -/
  | init (id : Nat)
  /-- line 180: the plan of the returned value -/
  | done (p : P)
  /-- line 180: the call of `unwrap` panicked -/
  | unwrapPanic
  /-- the initialiser panicked -/
  | initPanic
  deriving DecidableEq

/-- The shared state, and the size requested by each thread with its position. The map of line 103 associates a size
with a shared cell; cells are numbered. `log` records the outcome of each initialiser that ended. A thread that calls
`Fft::new` several times is several threads here, as nothing is kept between calls. -/
structure State (P : Type) where
  map : List (Nat × Nat)
  cells : List (Cell P)
  writer : Option Nat
  readers : List Nat
  threads : List (Nat × Pc P)
  log : List (Nat × Option P)

variable {P : Type}

/-- `HashMap::get`. -/
def find (map : List (Nat × Nat)) (n : Nat) : Option Nat := (map.find? fun e => e.1 == n).map Prod.snd

def State.goto (s : State P) (t n : Nat) (pc : Pc P) : State P := { s with threads := s.threads.set t (n, pc) }

/-- Line 172: the write lock is given when nobody has the lock; line 156: the read lock when nobody writes; line 161:
`get_or_init` returns the content of a full cell, waits while another thread initialises it, and leaves the cell empty
if the initialiser panics. The locks are never poisoned: nothing between taking and releasing them panics (memory
exhaustion is not modelled).

One step of thread `t`, `none` if it is blocked or finished. `o` is the outcome of the initialiser, in case it
ends in this step: a plan, or `none` for a panic. -/
def step (s : State P) (t : Nat) (o : Option P) : Option (State P) :=
  match s.threads[t]? with
  | none => none
  | some (n, pc) =>
    match pc with
    | .start => if s.writer = none ∧ s.readers = [] then some ({ s with writer := some t }.goto t n .inserting) else none
    | .inserting =>
      match find s.map n with
      | some _ => some (s.goto t n .unlockW)
      | none => some ({ s with map := (n, s.cells.length) :: s.map, cells := s.cells ++ [Cell.empty] }.goto t n .unlockW)
    | .unlockW => some ({ s with writer := none }.goto t n .lookup)
    | .lookup => if s.writer = none then some ({ s with readers := t :: s.readers }.goto t n .cloning) else none
    | .cloning => some (s.goto t n (.unlockR (find s.map n)))
    | .unlockR c =>
      match c with
      | none => some ({ s with readers := s.readers.erase t }.goto t n .unwrapPanic)
      | some id => some ({ s with readers := s.readers.erase t }.goto t n (.getting id))
    | .getting id =>
      match s.cells[id]? with
      | some (.full p) => some (s.goto t n (.done p))
      | some .empty => some ({ s with cells := s.cells.set id .busy }.goto t n (.init id))
      | _ => none
    | .init id =>
      match o with
      | some p => some ({ s with cells := s.cells.set id (.full p), log := (n, some p) :: s.log }.goto t n (.done p))
      | none => some ({ s with cells := s.cells.set id .empty, log := (n, none) :: s.log }.goto t n .initPanic)
    | _ => none

/-- The state when the process starts: `sizes` are the sizes the threads will ask for. -/
def initial (P : Type) (sizes : List Nat) : State P := ⟨[], [], none, [], sizes.map fun n => (n, .start), []⟩

/-- An execution: the threads that make a step, in order, with the outcomes of the initialisers. -/
def run (s : State P) : List (Nat × Option P) → Option (State P)
  | [] => some s
  | (t, o) :: es => (step s t o).bind fun s' => run s' es

/-- A thread that has ended. -/
def Pc.Ended : Pc P → Prop
  | .done _ => True
  | .unwrapPanic => True
  | .initPanic => True
  | _ => False

end Verif.Fft.Cache
