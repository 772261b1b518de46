import Mathlib.Data.BitVec
/-
The bit representation of an unsigned integer: concrete-core/src/commons/numeric/unsigned.rs:82-95.
-/
namespace Verif.Numeric

variable {w : Nat}

/-- `format!("{:0Wb}", self)` (unsigned.rs:83-90) for an integer of `W = w` bits: its `w` binary digits, most significant first.
The formatting of the standard library is taken at its specification. -/
def digits (x : BitVec w) : List Char := (List.range w).map fun i => if x.getMsbD i then '1' else '0'

/-- `String::insert`, on a string of ASCII characters: `none` is the panic for an index past the end. -/
def insert (s : List Char) (i : Nat) (c : Char) : Option (List Char) :=
  if i ≤ s.length then some (s.take i ++ c :: s.drop i) else none

/-- unsigned.rs:91-93, the loop over the indices in the given order. -/
def insertAll (b : Nat) : List Nat → List Char → Option (List Char)
  | [], s => some s
  | i :: is, s =>
    match insert s (i * b) ' ' with
    | none => none
    | some s' => insertAll b is s'

/-- unsigned.rs:82-95 `to_bits_string`. The division panics for `break_every = 0`. -/
def toBitsString (x : BitVec w) (b : Nat) : Option (List Char) :=
  if b = 0 then none else insertAll b (List.range' 1 (w / b - 1)).reverse (digits x)

end Verif.Numeric
