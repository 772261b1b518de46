import Verif.Cuda.Nsmfft
import Mathlib.Algebra.BigOperators.Ring.Finset
/-
The Fourier transform of the GPU as a function: what C82 says that the threads compute.
-/
namespace Verif.Cuda.Nsm
open Finset

variable {V : Type}

/-- A level of butterflies between the elements `p` and `p + t` of each group of `2 t` elements. `f` gets the number of
the butterfly and that of the group. -/
def level (t : Nat) (f : Nat → Nat → V → V → V × V) (A : Nat → V) (p : Nat) : V :=
  let q := p / (2 * t)
  let r := p % (2 * t)
  if r < t then (f (q * t + r) q (A p) (A (p + t))).1 else (f (q * t + (r - t)) q (A (p - t)) (A p)).2

/-- The levels of the direct transform, from the first one. -/
def direct (ops : Ops V) (tw : Nat → V) (n : Nat) (A : Nat → V) : Nat → V :=
  (fwdLevels (n / 2) 1).foldl (fun A x => level x.1 (fun tid q => ops.fwd x.2 tid (tw (q + x.2))) A)
    (level (n / 2) (fun tid _ => ops.first tid) A)

/-- The inverse transform. -/
def inverse (ops : Ops V) (tw : Nat → V) (n : Nat) (A : Nat → V) : Nat → V :=
  (invLevels n 1).foldl (fun A x => level x.1 (fun tid q => ops.inv x.2 tid (tw (q + x.2))) A)
    (fun p => ops.scale n p (A p))

/-- The exact arithmetic of a commutative ring; `W` is the root of the first level, `conj` the inverse of a twiddle
factor and `inv2 n` the inverse of `n`. -/
def exactOps {R : Type} [CommRing R] (W : R) (conj : R → R) (invn : R) : Ops R where
  first _ a b := (a + W * b, a - W * b)
  fwd _ _ w a b := (a + w * b, a - w * b)
  inv _ _ w a b := (a + b, (a - b) * conj w)
  scale _ _ a := a * invn

/-- The points at which the direct transform evaluates: `pt 1` is the root of `X^n - pt 1`, and the points `2 h` and
`2 h + 1` are the square roots of the point `h`. -/
def pts {R : Type} [CommRing R] (I : R) (W : Nat → R) (h : Nat) : R :=
  if h ≤ 1 then I else if h % 2 = 0 then W (h / 2) else -W (h / 2)

end Verif.Cuda.Nsm
