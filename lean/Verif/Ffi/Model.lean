import Mathlib.Logic.Function.Basic
/-
The C interface of the library (concrete-core-ffi), seen as a manager of heap objects.

Each function of the interface is the translation of its body into the small language `Stmt` below
(Verif/Ffi/Table.lean, generated from the source text); this file gives the meaning of that language. The state
consists of the boxes allocated by the library and of the pointer variables of the caller. What the engines
compute is not modelled here: a call of an engine either goes well or ends in an error or a panic, as decided by
the caller of the model (`Call.good`). What is modelled is which boxes are alive, what the pointer variables of
the caller hold, the returned code, and undefined behaviour: reading, writing or freeing memory that is not a
living object of the right type.
-/
namespace Verif.Ffi

/-- The types of the objects that the interface allocates (`*mut T` arguments and results of the functions of
concrete-core-ffi/src). `bytes n` is the memory of a `Buffer`, allocated for `n` bytes (buffer.rs:6-10). -/
inductive Kind where
  | seederBuilder | defaultEngine | defaultParallelEngine | defaultSerializationEngine | fftEngine
  | fftSerializationEngine | glweView | glweMutView | lweView | lweMutView | lweVectorView | lweVectorMutView
  | cbsPfpksk | lweSecretKey | glweSecretKey | keyswitchKey | keyswitchKeyMutView | seededKeyswitchKey
  | bootstrapKey | bootstrapKeyMutView | seededBootstrapKey | fourierBootstrapKey
  | bytes (n : Nat)
deriving DecidableEq, Repr

/-- The parameters of the functions of the interface, by type and documented role.
`ref k`: a pointer to an object that is read or updated. `destroyed k`: the pointer given to a destroy function.
`result k`: `result: *mut *mut T`. `consumed k`: the `*mut *mut T` of a key that the function consumes.
`raw a`: a pointer to words of the caller, aligned on `a` bytes. `resultBuf`, `destroyedBuf`: `*mut Buffer`.
`view`: a `BufferView` passed by value (its pointer). `int`: a number. -/
inductive ArgTy where
  | ref (k : Kind) | destroyed (k : Kind) | result (k : Kind) | consumed (k : Kind) | raw (a : Nat)
  | resultBuf | destroyedBuf | view | int
deriving DecidableEq, Repr

/-- The statements that the bodies of the functions are made of; the number is that of the parameter. -/
inductive Stmt where
  /-- `check_ptr_is_non_null_and_aligned(x).unwrap()`, also the first half of `get_mut_checked(x).unwrap()`. -/
  | check (i : Nat)
  /-- `&mut *x`, `&*x`, `std::slice::from_raw_parts(x, _)`, `*x = value`: the memory behind `x` is used. -/
  | deref (i : Nat)
  /-- Computations of the engines and of their arguments; they may end in an error (`.unwrap()`) or a panic. -/
  | compute (j : Nat)
  /-- `*x = std::ptr::null_mut()`. -/
  | nullSlot (i : Nat)
  /-- `let p = *x`, for a pointer to a pointer or to a `Buffer`. -/
  | load (i : Nat)
  /-- `check_ptr_is_non_null_and_aligned(p).unwrap()` for the loaded pointer. -/
  | checkLoaded (i : Nat)
  /-- `let b = Box::from_raw(p)` for the loaded pointer: `b` is dropped when the function is left. -/
  | take (i : Nat)
  /-- `drop(Box::from_raw(x))`. -/
  | free (i : Nat)
  /-- `*x = Box::into_raw(Box::new(value))`. -/
  | give (i : Nat)
  /-- `*x = buffer`, for a `Buffer` made of a freshly serialized vector. -/
  | giveBytes (i : Nat)
  /-- `Vec::from_raw_parts(p, length, length)`, dropped at once. -/
  | freeBytes (i : Nat)
deriving DecidableEq, Repr

/-- A function of the interface: its parameters and its body. -/
structure Fn where
  sig : List ArgTy
  body : List Stmt
deriving DecidableEq, Repr

/-- The boxes of the library that are alive, by address. -/
abbrev Heap := Nat → Option Kind

/-- The variables of the caller of type `*mut T` or `Buffer`, by address: the pointer they hold (and the length
of a `Buffer`, which is meaningless for the others). -/
abbrev Mem := Nat → Option (Nat × Nat)

/-- The machine: the alignment of the types, and the allocator. The allocator gives an address that is not null,
aligned, and not in use; or nothing, and the process is then aborted (`std::alloc::handle_alloc_error`).
Simplified: the objects of size zero (the serialization engines) also get an address of their own. -/
structure Platform where
  align : Kind → Nat
  alloc : Heap → Kind → Option Nat
  alloc_ne_zero : ∀ h k q, alloc h k = some q → q ≠ 0
  alloc_aligned : ∀ h k q, alloc h k = some q → q % align k = 0
  alloc_fresh : ∀ h k q, alloc h k = some q → h q = none

/-- A call: the function, its arguments (pointers as addresses; numbers are not used), whether each computation
goes well, and the length and capacity of the vector produced by a serialization. -/
structure Call where
  fn : Fn
  args : List Nat
  good : Nat → Bool
  len : Nat
  cap : Nat

/-- The `i`-th argument. -/
def Call.arg (c : Call) (i : Nat) : Nat := c.args.getD i 0

/-- The state during a call: the heap, the memory of the caller, the loaded pointer (and length), and the box
that the function holds. -/
structure St where
  heap : Heap
  mem : Mem
  reg : Nat × Nat
  held : Option Nat

/-- What a statement does: go on, panic, undefined behaviour, abort of the process. -/
inductive Res where
  | ok (s : St) | panic (s : St) | ub | abort

/-- utils.rs:14-28: null or misaligned. -/
def bad (a p : Nat) : Bool := p == 0 || p % a != 0

/-- `align_of::<T>()` for a parameter `*mut T`: pointers and `Buffer` are aligned on 8 bytes. -/
def ArgTy.align (P : Platform) : ArgTy → Nat
  | .ref k => P.align k
  | .destroyed k => P.align k
  | .raw a => a
  | .view => 1
  | .int => 1
  | _ => 8

/-- `align_of::<T>()` for the pointer loaded from a parameter `*mut *mut T` or from a `Buffer`. -/
def ArgTy.loadedAlign (P : Platform) : ArgTy → Nat
  | .consumed k => P.align k
  | _ => 1

/-- One statement. -/
def exec (P : Platform) (c : Call) (s : St) : Stmt → Res
  -- utils.rs:14-28
  | .check i => if bad ((c.fn.sig.getD i .int).align P) (c.arg i) then .panic s else .ok s
  | .deref i =>
    match c.fn.sig.getD i .int with
    | .ref k => if s.heap (c.arg i) = some k then .ok s else .ub
    | .raw a => if bad a (c.arg i) then .ub else .ok s
    -- buffer.rs:29-33: `from_raw_parts` of a null pointer
    | .view => if c.arg i = 0 then .ub else .ok s
    | _ => .ub
  | .compute j => if c.good j then .ok s else .panic s
  | .nullSlot i =>
    if (s.mem (c.arg i)).isSome then .ok { s with mem := Function.update s.mem (c.arg i) (some (0, 0)) } else .ub
  | .load i =>
    match s.mem (c.arg i) with
    | some q => .ok { s with reg := q }
    | none => .ub
  | .checkLoaded i => if bad ((c.fn.sig.getD i .int).loadedAlign P) s.reg.1 then .panic s else .ok s
  | .take i =>
    match c.fn.sig.getD i .int with
    | .consumed k => if s.heap s.reg.1 = some k then .ok { s with held := some s.reg.1 } else .ub
    | _ => .ub
  | .free i =>
    match c.fn.sig.getD i .int with
    | .destroyed k =>
      if s.heap (c.arg i) = some k then .ok { s with heap := Function.update s.heap (c.arg i) none } else .ub
    | _ => .ub
  | .give i =>
    match c.fn.sig.getD i .int with
    | .result k =>
      match P.alloc s.heap k with
      | none => .abort
      | some q =>
        if (s.mem (c.arg i)).isSome then
          .ok { s with heap := Function.update s.heap q (some k), mem := Function.update s.mem (c.arg i) (some (q, 0)) }
        else .ub
    | _ => .ub
  -- buffer.rs:18-27: the vector is leaked with its capacity, the buffer remembers its length
  | .giveBytes i =>
    match P.alloc s.heap (.bytes c.cap) with
    | none => .abort
    | some q =>
      if (s.mem (c.arg i)).isSome then
        .ok { s with
          heap := Function.update s.heap q (some (.bytes c.cap))
          mem := Function.update s.mem (c.arg i) (some (q, c.len)) }
      else .ub
  -- buffer.rs:58: a vector must be rebuilt with the capacity it was allocated with
  | .freeBytes _ =>
    if s.heap s.reg.1 = some (.bytes s.reg.2) then .ok { s with heap := Function.update s.heap s.reg.1 none } else .ub

/-- The statements of the body, one after the other. -/
def run (P : Platform) (c : Call) : List Stmt → St → Res
  | [], s => .ok s
  | t :: ts, s =>
    match exec P c s t with
    | .ok s' => run P c ts s'
    | r => r

/-- What the caller sees: a returned code with the heap and the memory, undefined behaviour, or an abort. -/
inductive End where
  | ret (code : Nat) (h : Heap) (m : Mem) | ub | abort

/-- The box held by the function is dropped when the function is left, normally or by a panic. -/
def St.leave (s : St) : Heap :=
  match s.held with
  | none => s.heap
  | some q => Function.update s.heap q none

/-- utils.rs:4-12 (`catch_panic`): the body is run, 0 is returned if it ends normally and 1 if it panics. -/
def call (P : Platform) (h : Heap) (m : Mem) (c : Call) : End :=
  match run P c c.fn.body ⟨h, m, (0, 0), none⟩ with
  | .ok s => .ret 0 s.leave s.mem
  | .panic s => .ret 1 s.leave s.mem
  | .ub => .ub
  | .abort => .abort

/-- Whether the engine accepts to transform an LWE secret key of the given dimension into a GLWE secret key with
polynomials of the given size (concrete-core/src/specification/engines/lwe_to_glwe_secret_key_transformation.rs:20-38,
`perform_generic_checks`). This is the only function consuming a key whose engine call has an error case. -/
def lweToGlweAccepts (dimension polynomialSize : Nat) : Bool :=
  polynomialSize != 0 && polynomialSize != 1 && dimension % polynomialSize == 0

end Verif.Ffi
