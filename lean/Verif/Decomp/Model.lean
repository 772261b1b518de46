/-
Model of the signed decomposition.

Source: /repo/concrete-core/src/commons/math/decomposition/{decomposer,iter,term}.rs.
A scalar `u32`/`u64` is a `BitVec w`. The shift amounts used by the code are all `< w` under the
assertion of `SignedDecomposer::new` (decomposer.rs:40-43) together with `base_log ≥ 1`, so Rust's
shift overflow never happens there; the boundary case `base_log * level_count = BITS`, which the
engines accept, is modelled separately (`closestRepresentableRaw`).
-/
namespace Verif.Decomp

variable {w : Nat}

/-- decomposer.rs:98-115 `closest_representable` (`b` = base log, `l` = level count). -/
def closestRepresentable (b l : Nat) (input : BitVec w) : BitVec w :=
  let nonRepBitCount := w - l * b
  let nonRepMask := 1#w <<< (nonRepBitCount - 1)
  let nonRepBits := input &&& nonRepMask
  let nonRepMsb := nonRepBits >>> (nonRepBitCount - 1)
  let res := input >>> nonRepBitCount
  let res := res + nonRepMsb
  res <<< nonRepBitCount

/-- iter.rs:276-283 `decompose_one_level`; returns the digit and the new state. -/
def decomposeOneLevel (baseLog : Nat) (state modBMask : BitVec w) : BitVec w × BitVec w :=
  let res := state &&& modBMask
  let state := state >>> baseLog
  let carry := ((res - 1#w) ||| state) &&& res
  let carry := carry >>> (baseLog - 1)
  let state := state + carry
  (res - (carry <<< baseLog), state)

/-- term.rs:15-22 `DecompositionTerm`. -/
structure Term (w : Nat) where
  level : Nat
  baseLog : Nat
  value : BitVec w
  deriving DecidableEq, Repr

/-- term.rs:56-59 `to_recomposition_summand`. -/
def Term.toRecompositionSummand (t : Term w) : BitVec w :=
  t.value <<< (w - t.baseLog * t.level)

/-- iter.rs:167-186 `SignedDecompositionIter` (the stored copies of the input and level count, which
are only read back, are left out). -/
structure Iter (w : Nat) where
  baseLog : Nat
  state : BitVec w
  currentLevel : Nat
  modBMask : BitVec w
  fresh : Bool
  deriving DecidableEq, Repr

/-- iter.rs:192-206 `SignedDecompositionIter::new`. -/
def Iter.new (input : BitVec w) (b l : Nat) : Iter w :=
  { baseLog := b, state := input >>> (w - b * l), currentLevel := l,
    modBMask := (1#w <<< b) - 1#w, fresh := true }

/-- iter.rs:257-273 `Iterator::next`. -/
def Iter.next (it : Iter w) : Option (Term w) × Iter w :=
  let it := { it with fresh := false }
  if it.currentLevel = 0 then (none, it)
  else
    let r := decomposeOneLevel it.baseLog it.state it.modBMask
    (some { level := it.currentLevel - 1 + 1, baseLog := it.baseLog, value := r.1 },
     { it with state := r.2, currentLevel := it.currentLevel - 1 })

/-- decomposer.rs:168-176 `decompose`. -/
def decompose (b l : Nat) (input : BitVec w) : Iter w :=
  Iter.new (closestRepresentable b l input) b l

/-- Exhausting the iterator with `next` (a Rust `for` / `fold`), at most `fuel` calls. -/
def Iter.collect : Nat → Iter w → List (Term w)
  | 0, _ => []
  | fuel + 1, it =>
    match it.next with
    | (none, _) => []
    | (some t, it') => t :: Iter.collect fuel it'

/-- All terms of an iterator: it yields at most `currentLevel` terms, one more call sees `None`. -/
def Iter.terms (it : Iter w) : List (Term w) := it.collect (it.currentLevel + 1)

/-- decomposer.rs:195-203 `recompose`. -/
def recompose (it : Iter w) : Option (BitVec w) :=
  if it.fresh then
    some (it.terms.foldl (fun acc t => acc + t.toRecompositionSummand) 0#w)
  else none

/-! ### Tensors -/

/-- iter.rs:25-47 `TensorSignedDecompositionIter`. -/
structure TIter (w : Nat) where
  baseLog : Nat
  currentLevel : Nat
  modBMask : BitVec w
  states : List (BitVec w)
  outputs : List (BitVec w)
  fresh : Bool
  deriving DecidableEq, Repr

/-- iter.rs:54-73 `TensorSignedDecompositionIter::new`. -/
def TIter.new (input : List (BitVec w)) (b l : Nat) : TIter w :=
  { baseLog := b, currentLevel := l, modBMask := (1#w <<< b) - 1#w,
    states := input.map fun (i : BitVec w) => i >>> (w - b * l),
    outputs := List.replicate input.length 0#w, fresh := true }

/-- term.rs:103-111 `DecompositionTermTensor`. -/
structure TTerm (w : Nat) where
  level : Nat
  baseLog : Nat
  tensor : List (BitVec w)
  deriving DecidableEq, Repr

/-- iter.rs:140-158 `next_term`: outputs and states are updated elementwise. -/
def TIter.nextTerm (it : TIter w) : Option (TTerm w) × TIter w :=
  let it := { it with fresh := false }
  if it.currentLevel = 0 then (none, it)
  else
    let rs := (it.outputs.zip it.states).map fun p => decomposeOneLevel it.baseLog p.2 it.modBMask
    let it := { it with outputs := rs.map (·.1), states := rs.map (·.2),
                        currentLevel := it.currentLevel - 1 }
    (some { level := it.currentLevel + 1, baseLog := it.baseLog, tensor := it.outputs }, it)

/-- decomposer.rs:134-142, 239-252 `decompose_tensor`. -/
def decomposeTensor (b l : Nat) (input : List (BitVec w)) : TIter w :=
  TIter.new (input.map (closestRepresentable b l)) b l

/-- All terms of a tensor iterator. -/
def TIter.collect : Nat → TIter w → List (TTerm w)
  | 0, _ => []
  | fuel + 1, it =>
    match it.nextTerm with
    | (none, _) => []
    | (some t, it') => t :: TIter.collect fuel it'

/-- As `Iter.terms`. -/
def TIter.terms (it : TIter w) : List (TTerm w) := it.collect (it.currentLevel + 1)

/-- term.rs:161-173 `update_tensor_with_recomposition_summand_wrapping_addition` (`update_with_one`
zips output and input). -/
def TTerm.addSummand (t : TTerm w) (output : List (BitVec w)) : List (BitVec w) :=
  (output.zip t.tensor).map fun (p : BitVec w × BitVec w) =>
    p.1 + (p.2 <<< (w - t.baseLog * t.level))

/-- decomposer.rs:277-294 `fill_tensor_with_recompose`: returns the new content of `output`. -/
def fillTensorWithRecompose (it : TIter w) (output : List (BitVec w)) :
    Option (List (BitVec w)) :=
  if it.fresh then some (it.terms.foldl (fun out t => t.addSummand out) output) else none

/-! ### Boundary case `base_log * level_count = BITS` -/

/-- decomposer.rs:98-115 as compiled without overflow checks for `l * b ≤ w`, `w` a power of two at
most 64: shift amounts are computed modulo `2^64` and then taken modulo `w` (Rust release builds mask
shift amounts). -/
def closestRepresentableRaw (b l : Nat) (input : BitVec w) : BitVec w :=
  let nonRepBitCount := w - l * b
  let sh := (nonRepBitCount + 2 ^ 64 - 1) % 2 ^ 64 % w
  let nonRepMask := 1#w <<< sh
  let nonRepBits := input &&& nonRepMask
  let nonRepMsb := nonRepBits >>> sh
  let res := input >>> (nonRepBitCount % w)
  let res := res + nonRepMsb
  res <<< (nonRepBitCount % w)

end Verif.Decomp
