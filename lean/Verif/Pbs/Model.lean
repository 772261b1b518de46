import Verif.Glwe.Model
import Verif.Decomp.Model
/-
Model of the external product, the CMUX, the modulus switch, the blind rotation and the programmable
bootstrap, which have the same structure in the FFT and in the NTT backends.

Source: /repo/concrete-core/src/backends/fft/private/crypto/{ggsw,bootstrap}.rs and
/repo/concrete-core/src/backends/ntt/private/crypto/{ggsw/ntt.rs,bootstrap/ntt/mod.rs}.

The transform (FFT or NTT) is a parameter `Transform`: a type of transformed polynomials with the four
operations the code uses. The NTT instance is modelled exactly in Verif.Ntt; the FFT one uses
floating-point arithmetic, which is not modelled, and enters the theorems only through an explicit
error hypothesis. Scratch memory (`DynStack`, buffers) has no observable effect and is not modelled.
-/
namespace Verif.Pbs

variable {w : Nat}

/-- The operations of a transform used by the external product. -/
structure Transform (w : Nat) where
  /-- transformed polynomials: `[c64]` (fft) or `[ModQ]` (ntt) -/
  E : Type
  /-- the initial content of an accumulator: fft/ggsw.rs:372-376 (implicitly zero, the first product is
  written), ntt.rs:467-468 -/
  zero : E
  /-- transform of a polynomial of the GGSW: fft/ggsw.rs:276-282 `forward_as_torus`, ntt.rs:424 -/
  fwdGgsw : List (BitVec w) → E
  /-- transform of a polynomial of digits: fft/ggsw.rs:423-429 `forward_as_integer`, ntt.rs:498 -/
  fwdDigit : List (BitVec w) → E
  /-- `acc + ggsw * digit`: fft/ggsw.rs:619-638, ntt.rs:509 -/
  mulAcc : E → E → E → E
  /-- adds the inverse transform to a polynomial: fft/ggsw.rs:467 `add_backward_as_torus`, ntt.rs:522 -/
  addBack : List (BitVec w) → E → List (BitVec w)

/-- fft/ggsw.rs:262-284, ntt.rs:402-426 `fill_with_forward_*`: every polynomial is transformed. -/
def convert (T : Transform w) (N : Nat) (coefs : List (BitVec w)) : List T.E :=
  (chunks N coefs).map T.fwdGgsw

/-- fft/ggsw.rs:648-681 `update_with_fmadd`, ntt.rs:501-510: one row times one digit polynomial is added
to the buffer. -/
def rowAcc (T : Transform w) (buf row : List T.E) (digits : List (BitVec w)) : List T.E :=
  zipUpdate (fun acc a => T.mulAcc acc a (T.fwdDigit digits)) buf row

/-- fft/ggsw.rs:412-446, ntt.rs:489-511: one level matrix (`k + 1` rows of `k + 1` polynomials) times the
digits of the level. -/
def levelAcc (T : Transform w) (N k : Nat) (buf matrix : List T.E) (digits : List (BitVec w)) : List T.E :=
  ((chunks (k + 1) matrix).zip (chunks N digits)).foldl (fun buf x => rowAcc T buf x.1 x.2) buf

/-- fft/ggsw.rs:392-447, ntt.rs:471-512: the levels from the last to the first, in step with the
decomposition iterator. -/
def accumulate (T : Transform w) (N k : Nat) (fggsw : List T.E) (terms : List (Decomp.TTerm w)) : List T.E :=
  ((chunks ((k + 1) * (k + 1)) fggsw).reverse.zip terms).foldl
    (fun buf x => levelAcc T N k buf x.1 x.2.tensor) (List.replicate (k + 1) T.zero)

/-- fft/ggsw.rs:458-468, ntt.rs:517-523: the buffer is brought back and added to the output. -/
def addOut (T : Transform w) (N : Nat) (out : List (BitVec w)) (buf : List T.E) : List (BitVec w) :=
  (zipUpdate T.addBack (chunks N out) buf).flatten

/-- fft/ggsw.rs:347-470 `external_product` (the iterator is fft/math/decomposition.rs:27-86 on the rounded
input): adds `ggsw ⊡ ct` to `out`. `fggsw` is the transformed GGSW, of `l` levels in base `2^b`. -/
def externalProduct (T : Transform w) (N k b l : Nat) (out : List (BitVec w)) (fggsw : List T.E)
    (ct : List (BitVec w)) : List (BitVec w) :=
  addOut T N out (accumulate T N k fggsw
    (Decomp.TIter.new (ct.map (Decomp.closestRepresentable b l)) b l).terms)

/-- ntt.rs:428-524 `external_product`: the same, but the input is rounded before it is decomposed, which
rounds again. -/
def externalProductNtt (T : Transform w) (N k b l : Nat) (out : List (BitVec w)) (fggsw : List T.E)
    (ct : List (BitVec w)) : List (BitVec w) :=
  addOut T N out (accumulate T N k fggsw
    (Decomp.decomposeTensor b l (ct.map (Decomp.closestRepresentable b l))).terms)

/-- fft_engine/glwe_ciphertext_ggsw_ciphertext_discarding_external_product.rs:102-131 (117: the output is
cleared first). -/
def discardExternalProduct (T : Transform w) (N k b l : Nat) (out : List (BitVec w)) (fggsw : List T.E)
    (ct : List (BitVec w)) : List (BitVec w) :=
  externalProduct T N k b l (out.map fun _ => 0#w) fggsw ct

/-- fft/ggsw.rs:693-708, ntt.rs:527-543 `cmux`; `ep` is the external product. Returns the new `ct0` and
`ct1`. -/
def cmux (ep : List (BitVec w) → List (BitVec w) → List (BitVec w)) (ct0 ct1 : List (BitVec w)) :
    List (BitVec w) × List (BitVec w) :=
  let ct1 := zipUpdate (fun c1 c0 => c1 - c0) ct1 ct0
  (ep ct0 ct1, ct1)

/-- fft/bootstrap.rs:281-298, ntt/bootstrap/ntt/mod.rs:519-539 `pbs_modulus_switch`, for a polynomial size
`2^logN`. `none`: a shift amount not below the width, or the checked addition, panics (debug builds). -/
def pbsModulusSwitch (x : BitVec w) (logN offset lutLog : Nat) : Option Nat :=
  if w < logN + 2 then none
  else
    let sh := w - logN - 2 + lutLog
    if offset < w ∧ sh < w ∧ lutLog < w then
      let o := (x <<< offset) >>> sh
      let r := o &&& 1#w
      if o.toNat + r.toNat < 2 ^ w then some ((((o + r) >>> 1) <<< lutLog).toNat) else none
    else none

/-- The switch of the blind rotation: `offset = lut_count_log = 0`. In the range of parameters where it
does not panic (`logN + 2 < w`, see `pbsModulusSwitch`). -/
def switchDegree (x : BitVec w) (logN : Nat) : Nat := (pbsModulusSwitch x logN 0 0).getD 0

/-- fft/bootstrap.rs:214-249, ntt/bootstrap/ntt/mod.rs:484-510: the loop over the mask and the GGSWs of
the key. `cm ggsw ct0 ct1` is the CMUX. -/
def blindRotateLoop {G : Type} (cm : G → List (BitVec w) → List (BitVec w) → List (BitVec w)) (N logN : Nat) :
    List (BitVec w) → List G → List (BitVec w) → List (BitVec w)
  | a :: as, ggsw :: gs, ct0 =>
    if a ≠ 0#w then
      blindRotateLoop cm N logN as gs (cm ggsw ct0 (Poly.listMonomialMul N ct0 (switchDegree a logN)))
    else blindRotateLoop cm N logN as gs ct0
  | _, _, ct0 => ct0

/-- fft/bootstrap.rs:188-250, ntt/bootstrap/ntt/mod.rs:454-511 `blind_rotate`. `none`: empty ciphertext. -/
def blindRotate {G : Type} (cm : G → List (BitVec w) → List (BitVec w) → List (BitVec w)) (N logN : Nat)
    (lut : List (BitVec w)) (bsk : List G) (lwe : List (BitVec w)) : Option (List (BitVec w)) :=
  match lwe.getLast? with
  | none => none
  | some body =>
    some (blindRotateLoop cm N logN lwe.dropLast bsk
      (Poly.listMonomialDiv N lut (switchDegree body logN)))

/-- fft/bootstrap.rs:252-273, ntt/bootstrap/ntt/mod.rs:654-681 `bootstrap`. -/
def bootstrap {G : Type} (cm : G → List (BitVec w) → List (BitVec w) → List (BitVec w)) (N logN : Nat)
    (lweOut lweIn acc : List (BitVec w)) (bsk : List G) : Option (List (BitVec w)) :=
  match blindRotate cm N logN acc bsk lweIn with
  | none => none
  | some ct => Glwe.sampleExtract N ct lweOut 0

/-- The CMUX with a transformed GGSW of the FFT backend. -/
def cmuxFft (T : Transform w) (N k b l : Nat) (fggsw : List T.E) (ct0 ct1 : List (BitVec w)) : List (BitVec w) :=
  (cmux (fun o c => externalProduct T N k b l o fggsw c) ct0 ct1).1

/-- The CMUX with a transformed GGSW of the NTT backend. -/
def cmuxNtt (T : Transform w) (N k b l : Nat) (fggsw : List T.E) (ct0 ct1 : List (BitVec w)) : List (BitVec w) :=
  (cmux (fun o c => externalProductNtt T N k b l o fggsw c) ct0 ct1).1

/-- fft/bootstrap.rs:68-84 `into_ggsw_iter`, 152-163, ntt/bootstrap/ntt/mod.rs:379-400 `ggsw_iter`: the transformed
bootstrap key is cut into GGSWs of `l (k+1)^2` polynomials. -/
def bskGgsws (T : Transform w) (N k l : Nat) (bsk : List (BitVec w)) : List (List T.E) :=
  chunks (l * ((k + 1) * (k + 1))) (convert T N bsk)

end Verif.Pbs
