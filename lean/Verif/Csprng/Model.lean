/-
Model of the AES-CTR pseudo random generator of `concrete-csprng`.

Source: /repo/concrete-csprng/src/generators/aes_ctr/{index,states,generic,parallel,block_cipher,mod}.rs
and /repo/concrete-csprng/src/generators/implem/soft/block_cipher.rs.

Conventions: `u128` and `usize` (64-bit platform) values are natural numbers, wrapping operations take
an explicit remainder; a Rust panic is `none`.  The type of bytes is a parameter `α`, so that the same
code can be run on symbolic bytes.
-/
namespace Verif.Csprng

/-- aes_ctr/mod.rs:199-201 `AES_CALLS_PER_BATCH`. -/
def AES_CALLS_PER_BATCH : Nat := 8
/-- aes_ctr/mod.rs:200 `BYTES_PER_AES_CALL = 128 / 8`. -/
def BYTES_PER_AES_CALL : Nat := 16
/-- aes_ctr/mod.rs:201 `BYTES_PER_BATCH`. -/
def BYTES_PER_BATCH : Nat := BYTES_PER_AES_CALL * AES_CALLS_PER_BATCH

/-- Number of values of a `u128`. -/
def U128 : Nat := 2 ^ 128
/-- Number of values of a `usize`, on a 64-bit platform. -/
def USIZE : Nat := 2 ^ 64

/-- Build profile: in `debug` an overflowing `+`/`*` panics, in `release` it wraps. -/
inductive Build where
  | debug
  | release
  deriving DecidableEq, Repr

/-- `a * b` on `usize`. -/
def Build.mulUsize (m : Build) (a b : Nat) : Option Nat :=
  match m with
  | .debug => if a * b < USIZE then some (a * b) else none
  | .release => some (a * b % USIZE)

/-- `a + b` on `u128`. -/
def Build.addU128 (m : Build) (a b : Nat) : Option Nat :=
  match m with
  | .debug => if a + b < U128 then some (a + b) else none
  | .release => some ((a + b) % U128)

/-- index.rs:14-18 `TableIndex`. -/
structure TableIndex where
  aes : Nat
  byte : Nat
  deriving DecidableEq, Repr

namespace TableIndex

/-- index.rs:22-25. -/
def FIRST : TableIndex := ⟨0, 0⟩
/-- index.rs:28-31. -/
def SECOND : TableIndex := ⟨0, 1⟩
/-- index.rs:34-37. -/
def LAST : TableIndex := ⟨U128 - 1, BYTES_PER_AES_CALL - 1⟩

/-- index.rs:41-47 `new`, panics when the byte index is too large. -/
def new (aes byte : Nat) : Option TableIndex :=
  if byte < BYTES_PER_AES_CALL then some ⟨aes, byte⟩ else none

/-- index.rs:50-63 `increase` (the sums on `usize` cannot overflow there: `shift / 16 + 1 < 2^64`). -/
def increase (t : TableIndex) (shift : Nat) : TableIndex :=
  let fullAesShifts := shift / BYTES_PER_AES_CALL
  let shiftRemainder := shift % BYTES_PER_AES_CALL
  let newByteIndex := t.byte + shiftRemainder
  let fullAesShifts := fullAesShifts + newByteIndex / BYTES_PER_AES_CALL
  { aes := (t.aes + fullAesShifts) % U128, byte := newByteIndex % BYTES_PER_AES_CALL }

/-- `u128::wrapping_sub`, for operands already in range. -/
def wrappingSubU128 (a b : Nat) : Nat := (a + (U128 - b)) % U128

/-- index.rs:66-81 `decrease`. -/
def decrease (t : TableIndex) (shift : Nat) : TableIndex :=
  let remainder := shift % BYTES_PER_AES_CALL
  if remainder ≤ t.byte then
    { aes := wrappingSubU128 t.aes (shift / BYTES_PER_AES_CALL), byte := t.byte - remainder }
  else
    { aes := wrappingSubU128 t.aes (shift / BYTES_PER_AES_CALL + 1),
      byte := t.byte + (BYTES_PER_AES_CALL - remainder) }

/-- index.rs:84-86, 107-110 `increment(ed)`. -/
def incremented (t : TableIndex) : TableIndex := t.increase 1
/-- index.rs:89-91, 113-116 `decrement(ed)`. -/
def decremented (t : TableIndex) : TableIndex := t.decrease 1

/-- index.rs:151-164 `partial_cmp` / `cmp`. -/
def cmp (a b : TableIndex) : Ordering :=
  match compare a.aes b.aes with
  | .eq => compare a.byte b.byte
  | o => o

/-- index.rs:145-149 `eq`. -/
def beq (a b : TableIndex) : Bool := cmp a b == .eq
/-- `a < b` through `partial_cmp`. -/
def lt (a b : TableIndex) : Bool := cmp a b == .lt
/-- `a <= b` through `partial_cmp`. -/
def le (a b : TableIndex) : Bool := cmp a b != .gt

/-- `u128::saturating_mul`. -/
def satMul (a b : Nat) : Nat := min (a * b) (U128 - 1)
/-- `u128::saturating_add`. -/
def satAdd (a b : Nat) : Nat := min (a + b) (U128 - 1)

/-- index.rs:128-140 `distance`. (`saturating_sub` is truncated subtraction.) -/
def distance (larger smaller : TableIndex) : Option Nat :=
  match cmp larger smaller with
  | .lt => none
  | .eq => some 0
  | .gt =>
    let result := larger.aes - smaller.aes
    let result := satMul result BYTES_PER_AES_CALL
    let result := satAdd result larger.byte
    some (result - smaller.byte)

end TableIndex

/-- states.rs:9-13 `State`. -/
structure State where
  tableIndex : TableIndex
  bufferPointer : Nat
  deriving DecidableEq, Repr

/-- states.rs:16-23 `ShiftAction`. -/
inductive ShiftAction where
  | outputByte (ptr : Nat)
  | refreshBatchAndOutputByte (aesIndex : Nat) (ptr : Nat)
  deriving DecidableEq, Repr

/-- states.rs:34-47 `State::new`, with its `assert_ne!`. -/
def State.new (t : TableIndex) : Option State :=
  if t.beq TableIndex.FIRST then none
  else some { tableIndex := t.decremented, bufferPointer := BYTES_PER_BATCH - 1 }

/-- states.rs:50-60 `State::increase`. -/
def State.increase (s : State) (shift : Nat) : ShiftAction × State :=
  let t := s.tableIndex.increase shift
  let total := s.bufferPointer + shift
  if total > BYTES_PER_BATCH - 1 then
    (.refreshBatchAndOutputByte t.aes t.byte, { tableIndex := t, bufferPointer := t.byte })
  else
    (.outputByte total, { tableIndex := t, bufferPointer := total })

/-- states.rs:63-65 `State::increment`. -/
def State.increment (s : State) : ShiftAction × State := s.increase 1

/-- The keyed block cipher: byte `k` of the encryption of counter `c`. Arbitrary here;
Verif/Aes models the implementations. -/
abbrev Cipher (α : Type) := Nat → Nat → α

/-- soft/block_cipher.rs:22-34 (and aesni/block_cipher.rs, same counters): the batch is the
encryption of the eight counters `ctr, ctr + 1, ..., ctr + 7`, concatenated. -/
def generateBatch {α : Type} (m : Build) (aes : Cipher α) (ctr : Nat) : Option (List α) := do
  let blocks ← (List.range AES_CALLS_PER_BATCH).mapM fun k => do
    let c ← m.addU128 ctr k
    pure ((List.range BYTES_PER_AES_CALL).map (aes c))
  pure blocks.flatten

/-- generic.rs:27-36 `AesCtrGenerator` (the cipher is kept outside). -/
structure Gen (α : Type) where
  state : State
  last : TableIndex
  buffer : List α
  deriving DecidableEq, Repr

/-- mod.rs `ForkError`. -/
inductive ForkError where
  | forkTooLarge
  | zeroChildrenCount
  | zeroBytesPerChild
  deriving DecidableEq, Repr

section
variable {α : Type} [Inhabited α]

/-- generic.rs:68-83 `from_block_cipher`; the buffer is filled with a default value (zeros). -/
def fromBlockCipher (start bound : TableIndex) : Option (Gen α) :=
  if start.lt bound then
    match State.new start with
    | none => none
    | some st =>
      some { state := st, last := bound.decremented,
             buffer := List.replicate BYTES_PER_BATCH default }
  else none

/-- generic.rs:55-65 `new` (without the key, which only selects the cipher). -/
def Gen.new (start bound : Option TableIndex) : Option (Gen α) :=
  fromBlockCipher (start.getD TableIndex.SECOND) (bound.getD TableIndex.LAST)

/-- generic.rs:93-95 `get_bound`. -/
def Gen.getBound (g : Gen α) : TableIndex := g.last.incremented

/-- generic.rs:98-100 `is_bounded`. -/
def Gen.isBounded (g : Gen α) : Bool := !(g.getBound.beq TableIndex.LAST)

/-- generic.rs:110-112 `remaining_bytes`, `none` is the panic of `unwrap`. -/
def Gen.remainingBytes (g : Gen α) : Option Nat :=
  TableIndex.distance g.last g.state.tableIndex

/-- generic.rs:185-197 `Iterator::next`. Outer `none`: panic. -/
def Gen.next (m : Build) (aes : Cipher α) (g : Gen α) : Option (Option α × Gen α) :=
  if g.last.le g.state.tableIndex then some (none, g)
  else
    match g.state.increment with
    | (.outputByte ptr, st) =>
      match g.buffer[ptr]? with
      | none => none
      | some b => some (some b, { g with state := st })
    | (.refreshBatchAndOutputByte aesIndex ptr, st) =>
      match generateBatch m aes aesIndex with
      | none => none
      | some buf =>
        match buf[ptr]? with
        | none => none
        | some b => some (some b, { g with state := st, buffer := buf })

/-- Result of a fork: `err` keeps the (unchanged) generator, `ok` has the lazily built children, each
of which may panic when it is built, and the updated parent. -/
inductive ForkResult (α : Type) where
  | panic
  | err (e : ForkError) (g : Gen α)
  | ok (children : List (Option (Gen α))) (parent : Gen α)

/-- generic.rs:171-179 `is_fork_in_bound`; `none` is an arithmetic overflow panic. -/
def Gen.isForkInBound (m : Build) (g : Gen α) (nChild childBytes : Nat) : Option Bool :=
  match m.mulUsize nChild childBytes with
  | none => none
  | some s => some ((g.state.tableIndex.increase s).le g.last)

/-- generic.rs:151-162: the closure building child `i`. -/
def forkChild (m : Build) (firstIndex : TableIndex) (nBytes i : Nat) : Option (Gen α) :=
  match m.mulUsize nBytes i, m.mulUsize nBytes (i + 1) with
  | some a, some b => fromBlockCipher (firstIndex.increase a) (firstIndex.increase b)
  | _, _ => none

/-- generic.rs:122-169 `try_fork`. -/
def Gen.tryFork (m : Build) (g : Gen α) (nChildren nBytes : Nat) : ForkResult α :=
  if nChildren = 0 then .err .zeroChildrenCount g
  else if nBytes = 0 then .err .zeroBytesPerChild g
  else
    match g.isForkInBound m nChildren nBytes with
    | none => .panic
    | some false => .err .forkTooLarge g
    | some true =>
      let firstIndex := g.state.tableIndex.incremented
      let children := (List.range nChildren).map (forkChild m firstIndex nBytes)
      match m.mulUsize nBytes nChildren with
      | none => .panic
      | some s =>
        match State.new (firstIndex.increase s) with
        | none => .panic
        | some st => .ok children { g with state := st }

/-- parallel.rs:22-73 `par_try_fork`: the children are evaluated by workers in some order `sched` (a
list of indices) and collected by index. -/
def Gen.parTryFork (m : Build) (g : Gen α) (nChildren nBytes : Nat) (sched : List Nat) :
    ForkResult α :=
  if nChildren = 0 then .err .zeroChildrenCount g
  else if nBytes = 0 then .err .zeroBytesPerChild g
  else
    match g.isForkInBound m nChildren nBytes with
    | none => .panic
    | some false => .err .forkTooLarge g
    | some true =>
      let firstIndex := g.state.tableIndex.incremented
      let children := sched.foldl
        (fun (acc : List (Option (Gen α))) i => acc.set i (forkChild m firstIndex nBytes i))
        (List.replicate nChildren none)
      match m.mulUsize nBytes nChildren with
      | none => .panic
      | some s =>
        match State.new (firstIndex.increase s) with
        | none => .panic
        | some st => .ok children { g with state := st }

/-- `n` successive calls of `next`. -/
def Gen.draw (m : Build) (aes : Cipher α) : Nat → Gen α → Option (List (Option α) × Gen α)
  | 0, g => some ([], g)
  | n + 1, g =>
    match g.next m aes with
    | none => none
    | some (o, g') =>
      match Gen.draw m aes n g' with
      | none => none
      | some (os, g'') => some (o :: os, g'')

end

end Verif.Csprng
