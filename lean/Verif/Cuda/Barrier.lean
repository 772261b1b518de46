import Mathlib.Data.Fintype.Basic
import Mathlib.Logic.Function.Basic
/-
Model of a cooperative launch of CUDA: blocks that run concurrently over a common memory and wait for each
other at grid-wide barriers (`grid.sync()`, as used by
/repo/concrete-cuda/cuda/src/bootstrap_low_latency.cuh:64, 79).

`B` is the type of the blocks, `Loc` the type of the places of the common memory, `V` the type of what a place
holds, `L` the type of what a block keeps for itself (its registers and the arrays that no other block
touches). The places that an instruction accesses do not depend on data.

Simplification: an access reads or writes all the elements of a place at once. In the code the threads of a block
access the elements of a place one by one, thread `t` of every block the same elements; a read that overlaps a
write of another block could also see a part of each.
-/
namespace Verif.Cuda.Grid

/-- What a block does between two barriers: a computation on its own state, a read of the common memory, a
write to it. -/
inductive Instr (Loc V L : Type) where
  | comp (f : L → L)
  | read (ℓ : Loc) (f : V → L → L)
  | write (ℓ : Loc) (f : L → V)

/-- The program of a block: the instructions before the first barrier, then those between the first and the second,
and so on. -/
abbrev Prog (Loc V L : Type) := List (List (Instr Loc V L))

/-- A line of the code of a block: an instruction or a barrier. -/
inductive Op (Loc V L : Type) where
  | instr (i : Instr Loc V L)
  | sync

/-- The program of a block from its code. -/
def segments {Loc V L : Type} : List (Op Loc V L) → Prog Loc V L
  | [] => [[]]
  | .sync :: t => [] :: segments t
  | .instr i :: t =>
    match segments t with
    | [] => [[i]]
    | s :: ss => (i :: s) :: ss

/-- The state of a block: the number of barriers it has passed, the instructions left before the next barrier, and
its own state. -/
structure Blk (Loc V L : Type) where
  epoch : Nat
  rest : List (Instr Loc V L)
  own : L

/-- The state of a launch. -/
structure State (B Loc V L : Type) where
  mem : Loc → V
  blk : B → Blk Loc V L

variable {B Loc V L : Type} [DecidableEq B] [Fintype B] [DecidableEq Loc]

/-- The effect of an instruction on the common memory and on the state of the block. -/
def Instr.run : Instr Loc V L → (Loc → V) × L → (Loc → V) × L
  | .comp f, (m, x) => (m, f x)
  | .read ℓ f, (m, x) => (m, f (m ℓ) x)
  | .write ℓ f, (m, x) => (Function.update m ℓ (f x), x)

/-- The start of a launch. -/
def start (prog : B → Prog Loc V L) (mem : Loc → V) (own : B → L) : State B Loc V L :=
  ⟨mem, fun b => ⟨0, (prog b).headD [], own b⟩⟩

/-- `b` has arrived at barrier `e` or passed it. -/
def arrived (s : State B Loc V L) (e : Nat) (b : B) : Bool :=
  decide (e < (s.blk b).epoch) || decide ((s.blk b).epoch = e) && (s.blk b).rest.isEmpty

/-- One step of block `b`: its next instruction; at a barrier, the step to the next instructions when all the
blocks of the grid have arrived, nothing otherwise; nothing at the end of the program. -/
def step (prog : B → Prog Loc V L) (s : State B Loc V L) (b : B) : State B Loc V L :=
  match (s.blk b).rest with
  | i :: rest =>
    let r := i.run (s.mem, (s.blk b).own)
    ⟨r.1, Function.update s.blk b ⟨(s.blk b).epoch, rest, r.2⟩⟩
  | [] =>
    match (prog b)[(s.blk b).epoch + 1]? with
    | none => s
    | some seg =>
      if ∀ c, arrived s (s.blk b).epoch c = true then
        ⟨s.mem, Function.update s.blk b ⟨(s.blk b).epoch + 1, seg, (s.blk b).own⟩⟩
      else s

/-- The execution of a schedule, the list of the blocks in the order in which they move. -/
def run (prog : B → Prog Loc V L) : List B → State B Loc V L → State B Loc V L
  | [], s => s
  | b :: bs, s => run prog bs (step prog s b)

/-- The place that block `b` is about to write. -/
def nextWrite (s : State B Loc V L) (b : B) : Option Loc :=
  match (s.blk b).rest with
  | .write ℓ _ :: _ => some ℓ
  | _ => none

/-- The instruction reads place `ℓ`. -/
def Instr.reads (ℓ : Loc) : Instr Loc V L → Bool
  | .read ℓ' _ => decide (ℓ' = ℓ)
  | _ => false

/-- Block `c` has still to read place `ℓ` between barriers `e` and `e + 1`. -/
def pending (prog : B → Prog Loc V L) (s : State B Loc V L) (e : Nat) (c : B) (ℓ : Loc) : Bool :=
  if (s.blk c).epoch = e then (s.blk c).rest.any (Instr.reads ℓ)
  else decide ((s.blk c).epoch < e) && (((prog c)[e]?).getD []).any (Instr.reads ℓ)

/-- During the execution of the schedule no block writes a place that another block has still to read before the next
barrier. -/
def Calm (prog : B → Prog Loc V L) : List B → State B Loc V L → Prop
  | [], _ => True
  | b :: bs, s =>
    (match nextWrite s b with
      | none => True
      | some ℓ => ∀ c, c ≠ b → pending prog s (s.blk b).epoch c ℓ = false) ∧
    Calm prog bs (step prog s b)

/-- Block `b` has reached the end of its program. -/
def DoneAt (prog : B → Prog Loc V L) (s : State B Loc V L) (b : B) : Prop :=
  (s.blk b).epoch + 1 = (prog b).length ∧ (s.blk b).rest = []

/-- All the blocks have reached the end. -/
def Done (prog : B → Prog Loc V L) (s : State B Loc V L) : Prop := ∀ b, DoneAt prog s b

end Verif.Cuda.Grid
