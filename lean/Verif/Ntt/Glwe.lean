import Verif.Ntt.Model
/-
GLWE ciphertexts in the NTT domain: concrete-core/src/backends/ntt/private/crypto/glwe/ntt.rs.
-/
namespace Verif.Ntt

variable {W w : Nat}

/-- One pass over the polynomials of two containers, as written by the loops of glwe/ntt.rs:169-173 and 225-231: the
polynomials are zipped to the shorter of the two lists, the remaining output polynomials keep their content, and
`none` is the panic of `assert_eq!` on the two polynomial sizes (transform.rs:133 and 275). -/
def transformPolys (f : List β → List α) : List (List α) → List (List β) → Option (List (List α))
  | o :: os, p :: ps =>
    if o.length = p.length then (transformPolys f os ps).map (f p :: ·) else none
  | os, _ => some os

/-- glwe/ntt.rs:159-174 `fill_with_forward_ntt`: `out` is the content of the NTT ciphertext (of polynomial size
`Nn`) before the call, `ct` the GLWE ciphertext (of polynomial size `N`). The lengths are multiples of the polynomial
sizes (`from_container`, 70-81, checks it). The polynomial size is that of the tables (`Ntt::new`): the
buffer, of that size, is wholly overwritten. The check of `ALLOWED_POLY_SIZE` (transform.rs:128-132, debug builds only)
is left out: the shipped tables satisfy it. -/
def fillForward (q : BitVec W) (T : Tables (ModQ W)) (Nn N : Nat) (out : List (ModQ W)) (ct : List (BitVec w)) :
    Option (List (ModQ W)) :=
  (transformPolys (forwardModSwitch q T) (chunks Nn out) (chunks N ct)).map List.flatten

/-- glwe/ntt.rs:215-232 `fill_with_backward_ntt`: `out` is the content of the GLWE ciphertext before the call. -/
def fillBackward (q : BitVec W) (T : Tables (ModQ W)) (Nn N : Nat) (out : List (BitVec w)) (n : List (ModQ W)) :
    Option (List (BitVec w)) :=
  (transformPolys (backwardModSwitch w q T) (chunks N out) (chunks Nn n)).map List.flatten

end Verif.Ntt
