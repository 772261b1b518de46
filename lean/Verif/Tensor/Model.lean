import Verif.Csprng.Model
/-
Model of the operations of `Tensor` (/repo/concrete-core/src/commons/math/tensor/tensor.rs).

A tensor is the list of its elements, a panic is `none`. The operation applied to the elements may itself panic.
-/
namespace Verif.Tensor

export Verif.Csprng (Build)

variable {α β γ δ : Type}

/-- tensor/mod.rs:127-143 `ck_dim_eq!`: a `debug_assert!`. -/
def ckDimEq (m : Build) (a b : Nat) : Option Unit :=
  match m with
  | .debug => if a = b then some () else none
  | .release => some ()

/-- The loop `for (o, (a, b)) in zip!(out.iter_mut(), lhs.iter(), rhs.iter())`: it ends with the shortest. -/
def loop3 (f : γ → α → β → Option γ) : List γ → List α → List β → Option (List γ)
  | o :: os, a :: as, b :: bs => do
    let x ← f o a b
    let xs ← loop3 f os as bs
    some (x :: xs)
  | os, _, _ => some os

/-- The loop `for (o, a) in zip!(out.iter_mut(), other.iter())`. -/
def loop2 (f : γ → α → Option γ) : List γ → List α → Option (List γ)
  | o :: os, a :: as => do
    let x ← f o a
    let xs ← loop2 f os as
    some (x :: xs)
  | os, _ => some os

/-- The loop `for (x, (y, a)) in zip!(first.iter_mut(), second.iter_mut(), one.iter())`. -/
def loopTwo (f : γ → δ → α → Option (γ × δ)) : List γ → List δ → List α → Option (List γ × List δ)
  | x :: xs, y :: ys, a :: as => do
    let (x', y') ← f x y a
    let (xs', ys') ← loopTwo f xs ys as
    some (x' :: xs', y' :: ys')
  | xs, ys, _ => some (xs, ys)

/-- tensor.rs:771-779 `fill_with_copy`: `copy_from_slice` panics in all builds when the lengths differ. -/
def fillWithCopy (out other : List α) : Option (List α) := if out.length = other.length then some other else none

/-- tensor.rs:794-816 `fill_two_with_one`. -/
def fillTwoWithOne (m : Build) (f : α → Option (γ × δ)) (first : List γ) (second : List δ) (one : List α) :
    Option (List γ × List δ) := do
  ckDimEq m first.length one.length
  ckDimEq m second.length one.length
  loopTwo (fun _ _ a => f a) first second one

/-- tensor.rs:831-853 `fill_with_two`. -/
def fillWithTwo (m : Build) (f : α → β → Option γ) (out : List γ) (lhs : List α) (rhs : List β) :
    Option (List γ) := do
  ckDimEq m out.length lhs.length
  ckDimEq m out.length rhs.length
  loop3 (fun _ a b => f a b) out lhs rhs

/-- tensor.rs:867-879 `fill_with_one`. -/
def fillWithOne (m : Build) (f : α → Option γ) (out : List γ) (other : List α) : Option (List γ) := do
  ckDimEq m out.length other.length
  loop2 (fun _ a => f a) out other

/-- tensor.rs:891-899 `fill_with_element`, 916-923 `fill_with`. -/
def fillWithElement (out : List γ) (x : γ) : List γ := out.map fun _ => x

/-- tensor.rs:974-993 `update_two_with_one`. -/
def updateTwoWithOne (m : Build) (f : γ → δ → α → Option (γ × δ)) (first : List γ) (second : List δ)
    (one : List α) : Option (List γ × List δ) := do
  ckDimEq m first.length one.length
  ckDimEq m second.length one.length
  loopTwo f first second one

/-- tensor.rs:1008-1031 `update_with_two`. -/
def updateWithTwo (m : Build) (f : γ → α → β → Option γ) (out : List γ) (first : List α) (second : List β) :
    Option (List γ) := do
  ckDimEq m out.length first.length
  ckDimEq m out.length second.length
  loop3 f out first second

/-- tensor.rs:1045-1057 `update_with_one`. -/
def updateWithOne (m : Build) (f : γ → α → Option γ) (out : List γ) (other : List α) : Option (List γ) := do
  ckDimEq m out.length other.length
  loop2 f out other

/-- tensor.rs:1069-1080 `update_with_element`, 1097-1104 `update_with`. -/
def updateWithElement (f : γ → Option γ) (out : List γ) : Option (List γ) := out.mapM f

/-! ### Operations on words -/

/-- The operations of the macros `fill_with!`, `fill_with_wrapping!`, `update_with!` and so on. -/
inductive Op where
  | and | or | xor | shl | shr | add | sub | mul | div
  deriving DecidableEq

/-- Rust's `<<` and `>>` on unsigned words of `w` bits: the amount is checked in debug builds and reduced modulo
`w` in release builds. -/
def shiftBy {w : Nat} (m : Build) (b : BitVec w) : Option Nat :=
  match m with
  | .debug => if b.toNat < w then some b.toNat else none
  | .release => some (b.toNat % w)

/-- The element operations of tensor.rs:947-956 (and 1106-1131): `&`, `|`, `^`, `<<`, `>>`, `wrapping_add`,
`wrapping_sub`, `wrapping_mul`, `wrapping_div` (which panics when dividing by zero). -/
def Op.run {w : Nat} (m : Build) (o : Op) (a b : BitVec w) : Option (BitVec w) :=
  match o with
  | .and => some (a &&& b)
  | .or => some (a ||| b)
  | .xor => some (a ^^^ b)
  | .shl => (shiftBy m b).map fun k => a <<< k
  | .shr => (shiftBy m b).map fun k => a >>> k
  | .add => some (a + b)
  | .sub => some (a - b)
  | .mul => some (a * b)
  | .div => if b = 0#w then none else some (a / b)

/-- tensor.rs:52-92, 947-956 `fill_with_bit_and` … `fill_with_wrapping_div`. -/
def fillWithOp {w : Nat} (m : Build) (o : Op) (out lhs rhs : List (BitVec w)) : Option (List (BitVec w)) := do
  ckDimEq m out.length lhs.length
  ckDimEq m out.length rhs.length
  fillWithTwo m (o.run m) out lhs rhs

/-- tensor.rs:94-125, 1106-1115 `update_with_and` … `update_with_wrapping_div`. -/
def updateWithOp {w : Nat} (m : Build) (o : Op) (out other : List (BitVec w)) : Option (List (BitVec w)) := do
  ckDimEq m out.length other.length
  updateWithOne m (o.run m) out other

/-- tensor.rs:127-155, 1117-1131 `update_with_scalar_and` … `update_with_wrapping_scalar_div`. -/
def updateWithScalarOp {w : Nat} (m : Build) (o : Op) (out : List (BitVec w)) (x : BitVec w) :
    Option (List (BitVec w)) :=
  updateWithElement (fun s => o.run m s x) out

/-- tensor.rs:1143-1149 `update_with_wrapping_neg`. -/
def updateWithNeg {w : Nat} (out : List (BitVec w)) : Option (List (BitVec w)) :=
  updateWithElement (fun a => some (-a)) out

/-- tensor.rs:1164-1175 `fill_with_wrapping_element_mul`. -/
def fillWithElementMul {w : Nat} (m : Build) (out t : List (BitVec w)) (x : BitVec w) :
    Option (List (BitVec w)) := do
  ckDimEq m out.length t.length
  fillWithOne m (fun a => some (a * x)) out t

/-- tensor.rs:1190-1201 `update_with_wrapping_sub_element_mul`. -/
def updateWithSubElementMul {w : Nat} (m : Build) (out t : List (BitVec w)) (x : BitVec w) :
    Option (List (BitVec w)) := do
  ckDimEq m out.length t.length
  updateWithOne m (fun s a => some (s - a * x)) out t

/-- tensor.rs:1216-1227 `update_with_wrapping_add_element_mul`. -/
def updateWithAddElementMul {w : Nat} (m : Build) (out t : List (BitVec w)) (x : BitVec w) :
    Option (List (BitVec w)) := do
  ckDimEq m out.length t.length
  updateWithOne m (fun s a => some (s + a * x)) out t

/-- tensor.rs:1242-1260 `fold_with_one`. -/
def foldWithOne (m : Build) (f : γ → α → β → γ) (acc : γ) (t : List α) (other : List β) : Option γ := do
  ckDimEq m t.length other.length
  some ((t.zip other).foldl (fun acc p => f acc p.1 p.2) acc)

/-- tensor.rs:1272-1277 `reverse`. -/
def reverse (t : List α) : List α := t.reverse

/-- tensor.rs:1306-1311 `rotate_left`: `slice::rotate_left` panics when `n` exceeds the length. -/
def rotateLeft (t : List α) (n : Nat) : Option (List α) :=
  if n ≤ t.length then some (t.drop n ++ t.take n) else none

/-- tensor.rs:1289-1294 `rotate_right`. -/
def rotateRight (t : List α) (n : Nat) : Option (List α) :=
  if n ≤ t.length then some (t.drop (t.length - n) ++ t.take (t.length - n)) else none

end Verif.Tensor
