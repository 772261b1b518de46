import Verif.Util.Containers
import Verif.Util.BitVecRing
/-
Model of /repo/concrete-core/src/commons/math/polynomial/polynomial.rs and list.rs.

A polynomial is the list of its coefficients, constant term first, over an arbitrary commutative ring
(wrapping arithmetic on machine words is the ring `BitVec w`). The size checks `ck_dim_eq!` are made in
debug builds only; the functions are modelled for operands of equal sizes (an out-of-range update, which
would panic, is ignored by `List.modify`; with equal sizes there is none).
-/
namespace Verif.Poly

variable {R : Type} [CommRing R]

/-- One step of the loops of polynomial.rs:304-319 and 548-567: `degree` is `size - 1`. -/
def addMulStep (degree : Nat) (acc : List R) (i j : Nat) (x y : R) : List R :=
  if i + j ≤ degree then acc.modify (i + j) (fun a => a + x * y)
  else acc.modify ((i + j) % (degree + 1)) (fun a => a - x * y)

/-- polynomial.rs:532-568 `update_with_wrapping_add_mul` (the product `*lhs * *rhs` wraps in release
builds; see `addMulDebug`). -/
def addMul (acc p q : List R) : List R :=
  (List.range p.length).foldl (fun acc i =>
    (List.range q.length).foldl (fun acc j =>
      addMulStep (p.length - 1) acc i j (p.getD i 0) (q.getD j 0)) acc) acc

/-- polynomial.rs:291-320 `fill_with_wrapping_mul`: clears the output, then the same loop. -/
def mul (out p q : List R) : List R := addMul (out.map fun _ => 0) p q

/-- One step of the loop of polynomial.rs:601-622. -/
def subMulStep (degree : Nat) (acc : List R) (i j : Nat) (x y : R) : List R :=
  if i + j ≤ degree then acc.modify (i + j) (fun a => a - x * y)
  else acc.modify ((i + j) % (degree + 1)) (fun a => a + x * y)

/-- polynomial.rs:585-623 `update_with_wrapping_sub_mul`. -/
def subMul (acc p q : List R) : List R :=
  (List.range p.length).foldl (fun acc i =>
    (List.range q.length).foldl (fun acc j =>
      subMulStep (p.length - 1) acc i j (p.getD i 0) (q.getD j 0)) acc) acc

/-- polynomial.rs:451-466 `update_with_wrapping_add_multisum` on two lists of polynomials. -/
def addMultisum (acc : List R) (ps qs : List (List R)) : List R :=
  (ps.zip qs).foldl (fun acc x => addMul acc x.1 x.2) acc

/-- polynomial.rs:500-515 `update_with_wrapping_sub_multisum`. -/
def subMultisum (acc : List R) (ps qs : List (List R)) : List R :=
  (ps.zip qs).foldl (fun acc x => subMul acc x.1 x.2) acc

/-- polynomial.rs:638-650 `update_with_wrapping_add`. -/
def add (out p : List R) : List R := zipUpdate (fun a b => a + b) out p
/-- polynomial.rs:674-686 `update_with_wrapping_sub`. -/
def sub (out p : List R) : List R := zipUpdate (fun a b => a - b) out p
/-- polynomial.rs:775-787 `update_with_wrapping_add_several`. -/
def addSeveral (out : List R) (ps : List (List R)) : List R := ps.foldl add out
/-- polynomial.rs:812-824 `update_with_wrapping_sub_several`. -/
def subSeveral (out : List R) (ps : List (List R)) : List R := ps.foldl sub out

/-- `slice::rotate_right(k)`, for `k ≤ len`. -/
def rotateRight (l : List R) (k : Nat) : List R := l.drop (l.length - k) ++ l.take (l.length - k)
/-- `slice::rotate_left(k)`, for `k ≤ len`. -/
def rotateLeft (l : List R) (k : Nat) : List R := l.drop k ++ l.take k
/-- `iter_mut().take(k).for_each(wrapping_neg)`. -/
def negFirst (l : List R) (k : Nat) : List R := (l.take k).map (fun a => -a) ++ l.drop k
/-- `iter_mut().rev().take(k).for_each(wrapping_neg)`. -/
def negLast (l : List R) (k : Nat) : List R :=
  l.take (l.length - k) ++ (l.drop (l.length - k)).map (fun a => -a)

/-- polynomial.rs:701-722 `update_with_wrapping_monic_monomial_mul`. -/
def monomialMul (p : List R) (d : Nat) : List R :=
  let p := if d / p.length % 2 ≠ 0 then p.map (fun a => -a) else p
  let r := d % p.length
  negFirst (rotateRight p r) r

/-- polynomial.rs:737-759 `update_with_wrapping_unit_monomial_div`. -/
def monomialDiv (p : List R) (d : Nat) : List R :=
  let p := if d / p.length % 2 ≠ 0 then p.map (fun a => -a) else p
  let r := d % p.length
  negLast (rotateLeft p r) r

/-- list.rs:326-334 `update_with_wrapping_monic_monomial_mul` on a flat list of polynomials of size
`N`. -/
def listMonomialMul (N : Nat) (ps : List R) (d : Nat) : List R :=
  ((chunks N ps).map fun p => monomialMul p d).flatten
/-- list.rs:351-359 `update_with_wrapping_monic_monomial_div`. -/
def listMonomialDiv (N : Nat) (ps : List R) (d : Nat) : List R :=
  ((chunks N ps).map fun p => monomialDiv p d).flatten

/-! ### Karatsuba -/

/-- polynomial.rs:14 `KARATUSBA_STOP`. -/
def karatsubaStop : Nat := 32

/-- `res.get_sub_mut(a..b)` updated pointwise with `ys`. -/
def updRange (f : R → R → R) (res : List R) (a b : Nat) (ys : List R) : List R :=
  res.take a ++ zipUpdate f ((res.drop a).take (b - a)) ys ++ res.drop b

/-- `get_sub(a..b)`. -/
def sub' (l : List R) (a b : Nat) : List R := (l.drop a).take (b - a)

/-- polynomial.rs:836-843, the schoolbook product into `res`. -/
def schoolbook (res p q : List R) : List R :=
  (List.range p.length).foldl (fun acc i =>
    (List.range q.length).foldl (fun acc j =>
      acc.modify (i + j) (fun a => a + p.getD i 0 * q.getD j 0)) acc) res

/-- polynomial.rs:828-892 `induction_karatsuba`. The recursion stops only at length exactly 32, so the
function is not structurally terminating: `fuel` bounds the recursion depth, and `none` means that the
bound was reached (for the code: a stack overflow when it is reached for every bound). -/
def karatsubaInd : Nat → List R → List R → List R → Option (List R)
  | 0, _, _, _ => none
  | fuel + 1, res, p, q =>
    if p.length = karatsubaStop then some (schoolbook res p q)
    else
      let n := res.length
      let zeros := List.replicate (n / 2) (0 : R)
      let zeros4 := List.replicate (n / 4) (0 : R)
      match karatsubaInd fuel zeros (sub' p 0 (n / 4)) (sub' q 0 (n / 4)),
        karatsubaInd fuel zeros (sub' p (n / 4) (n / 2)) (sub' q (n / 4) (n / 2)),
        karatsubaInd fuel zeros
          (zipUpdate (fun _ b => b) zeros4
            (List.zipWith (fun a b => a + b) (sub' p 0 (n / 4)) (sub' p (n / 4) (n / 2))))
          (zipUpdate (fun _ b => b) zeros4
            (List.zipWith (fun a b => a + b) (sub' q 0 (n / 4)) (sub' q (n / 4) (n / 2)))) with
      | some a0, some a1, some a2 =>
        let res := updRange (fun _ b => b) res (n / 4) (3 * n / 4) (List.zipWith (fun a b => a - b) a2 a0)
        let res := updRange (fun a b => a - b) res (n / 4) (3 * n / 4) a1
        let res := updRange (fun a b => a + b) res 0 (n / 2) a0
        some (updRange (fun a b => a + b) res (n / 2) n a1)
      | _, _, _ => none

/-- polynomial.rs:339-418 `fill_with_karatsuba_mul`, with the same fuel convention. -/
def karatsuba (fuel : Nat) (out p q : List R) : Option (List R) :=
  let n := out.length
  let zeros := List.replicate n (0 : R)
  let zeros2 := List.replicate (n / 2) (0 : R)
  match karatsubaInd fuel zeros (sub' p 0 (n / 2)) (sub' q 0 (n / 2)),
    karatsubaInd fuel zeros (sub' p (n / 2) n) (sub' q (n / 2) n),
    karatsubaInd fuel zeros
      (zipUpdate (fun _ b => b) zeros2
        (List.zipWith (fun a b => a + b) (sub' p 0 (n / 2)) (sub' p (n / 2) n)))
      (zipUpdate (fun _ b => b) zeros2
        (List.zipWith (fun a b => a + b) (sub' q 0 (n / 2)) (sub' q (n / 2) n))) with
  | some a0, some a1, some a2 =>
    let res := zipUpdate (fun _ b => b) out (List.zipWith (fun a b => a - b) a0 a1)
    let res := updRange (fun a b => a - b) res 0 (n / 2) (sub' a2 (n / 2) n)
    let res := updRange (fun a b => a + b) res 0 (n / 2) (sub' a0 (n / 2) n)
    let res := updRange (fun a b => a + b) res 0 (n / 2) (sub' a1 (n / 2) n)
    let res := updRange (fun a b => a + b) res (n / 2) n (sub' a2 0 (n / 2))
    let res := updRange (fun a b => a - b) res (n / 2) n (sub' a0 0 (n / 2))
    some (updRange (fun a b => a - b) res (n / 2) n (sub' a1 0 (n / 2)))
  | _, _, _ => none

/-- The loop of polynomial.rs:548-567 in debug builds: the product `*lhs * *rhs` is checked. -/
def addMulDebug {w : Nat} (acc p q : List (BitVec w)) : Option (List (BitVec w)) :=
  if (∀ x ∈ p, ∀ y ∈ q, x.toNat * y.toNat < 2 ^ w) then some (addMul acc p q) else none

end Verif.Poly
