import Verif.Pbs.Model
import Verif.Pks.Cbs
/-
Model of the operations without padding: bit extraction, circuit bootstrap, CMUX tree, vertical packing.

Source: /repo/concrete-core/src/backends/fft/private/crypto/wop_pbs/mod.rs.

The external product is a parameter `ep g out ct` (adds `g ⊡ ct` to `out`), instantiated with
`Pbs.externalProduct`; lists of transformed GGSW ciphertexts are lists of their chunks
(`into_ggsw_iter`, mod.rs:576-589). Scratch memory is not modelled (`stack.make_aligned_with` fills with
zeros, which is). `none` is a panic.
-/
namespace Verif.Wop
open Verif.Csprng (Build)

variable {w : Nat} {G : Type}

/-! ### CMUX tree -/

/-- mod.rs:669-685: the accumulators `t_0[j]`, `t_1[j]` and the counter `t_fill[j]` of one layer. -/
structure Layer (w : Nat) where
  t0 : List (BitVec w)
  t1 : List (BitVec w)
  fill : Nat

/-- mod.rs:705-711 `get_mut_body().fill_with_copy`: only the body changes. -/
def setBody (N : Nat) (ct p : List (BitVec w)) : List (BitVec w) :=
  Glwe.maskOf N ct ++ zipUpdate (fun _ x => x) (Glwe.bodyOf N ct) p

/-- mod.rs:715-762: the loop that carries full layers up. The GGSWs come in reverse order, in step with the
layers; the last layer is the one without a next layer (727). -/
def treeCarry (ep : G → List (BitVec w) → List (BitVec w) → List (BitVec w)) :
    List G → List (Layer w) → List (BitVec w) → List (Layer w) × List (BitVec w)
  | g :: gs, L :: L' :: Ls, out =>
    if L.fill = 2 then
      let r := ep g L.t0 (List.zipWith (fun a b => a - b) L.t1 L.t0)
      let next : Layer w := if L'.fill = 0 then { L' with t0 := r, fill := L'.fill + 1 }
        else { L' with t1 := r, fill := L'.fill + 1 }
      let res := treeCarry ep gs (next :: Ls) out
      ({ L with fill := 0 } :: res.1, res.2)
    else (L :: L' :: Ls, out)
  | g :: _, [L], out =>
    if L.fill = 2 then ([L], ep g L.t0 (List.zipWith (fun a b => a - b) L.t1 L.t0)) else ([L], out)
  | _, Ls, out => (Ls, out)

/-- mod.rs:688-763: the loop over pairs of lookup tables. -/
def treeLoop (ep : G → List (BitVec w) → List (BitVec w) → List (BitVec w)) (N : Nat) (gs : List G) :
    List (List (BitVec w)) → List (Layer w) → List (BitVec w) → List (BitVec w)
  | even :: odd :: luts, L :: Ls, out =>
    let res := treeCarry ep gs
      ({ t0 := setBody N L.t0 even, t1 := setBody N L.t1 odd, fill := 2 } :: Ls) out
    treeLoop ep N gs luts res.1 res.2
  | _, _, out => out

/-- mod.rs:646-774 `cmux_tree_memory_optimized` on the list of polynomials `luts`. In debug builds the
number of polynomials must be `2^(number of GGSWs)` (653). Without GGSWs (764-773) the output is the trivial
encryption of the tables' words. -/
def cmuxTree (bld : Build) (ep : G → List (BitVec w) → List (BitVec w) → List (BitVec w)) (N k : Nat)
    (out : List (BitVec w)) (luts : List (List (BitVec w))) (ggsws : List G) : Option (List (BitVec w)) :=
  if bld = .debug ∧ luts.length ≠ 2 ^ ggsws.length then none
  else if 0 < ggsws.length then
    some (treeLoop ep N ggsws.reverse luts (List.replicate ggsws.length
      { t0 := List.replicate (N * (k + 1)) 0#w, t1 := List.replicate (N * (k + 1)) 0#w, fill := 0 }) out)
  else some (Glwe.fillTrivialGlwe N out luts.flatten)

/-! ### Vertical packing -/

/-- mod.rs:1040-1051: the loop of `blind_rotate`, on the GGSWs in reverse order. `cm g ct0 ct1` is the CMUX.
The degree is a 64-bit `usize`. -/
def rotateLoop (cm : G → List (BitVec w) → List (BitVec w) → List (BitVec w)) (N : Nat) :
    List G → Nat → List (BitVec w) → List (BitVec w)
  | [], _, ct => ct
  | g :: gs, degree, ct =>
    rotateLoop cm N gs (degree * 2 % 2 ^ 64) (cm g ct (Poly.listMonomialDiv N ct degree))

/-- mod.rs:1032-1052 `blind_rotate`. -/
def blindRotate (cm : G → List (BitVec w) → List (BitVec w) → List (BitVec w)) (N : Nat)
    (lut : List (BitVec w)) (ggsws : List G) : List (BitVec w) :=
  rotateLoop cm N ggsws.reverse 1 lut

/-- mod.rs:979-982: `Scalar::BITS - 1 - count.leading_zeros()`, where the count is a 64-bit `usize`. The
subtraction panics in debug builds and wraps in release builds. -/
def logLutNumber (bld : Build) (w count : Nat) : Option Nat :=
  let lz := 64 - Nat.size count
  if lz + 1 ≤ w then some (w - 1 - lz)
  else match bld with
    | .debug => none
    | .release => some (2 ^ 64 + w - 1 - lz)

/-- mod.rs:961-1019 `vertical_packing`. `ep` is the external product, of which the CMUX is made. In debug
builds the output must have dimension `k N` (972-977). -/
def verticalPacking (bld : Build) (ep : G → List (BitVec w) → List (BitVec w) → List (BitVec w)) (N k : Nat)
    (luts : List (List (BitVec w))) (lweOut : List (BitVec w)) (ggsws : List G) : Option (List (BitVec w)) :=
  if bld = .debug ∧ lweOut.length - 1 ≠ N * k then none
  else
    match logLutNumber bld w luts.length with
    | none => none
    | some r0 =>
      let r := if ggsws.length < r0 then 0 else r0
      match cmuxTree bld ep N k (List.replicate (N * (k + 1)) 0#w) luts (ggsws.take r) with
      | none => none
      | some ct =>
        Glwe.sampleExtract N (blindRotate (fun g c0 c1 => (Pbs.cmux (ep g) c0 c1).1) N ct (ggsws.drop r)) lweOut 0

/-! ### Sign bootstrap: the step shared by the circuit bootstrap and the bit extraction -/

/-- `*body += x` on the last element: mod.rs:170-171, 194-196, 364-367, 400-403. -/
def addBody (ct : List (BitVec w)) (x : BitVec w) : List (BitVec w) := ct.modify (ct.length - 1) (· + x)

/-- mod.rs:173-182 and 369-386: the accumulator, of mask zero and of body `-alpha` everywhere. -/
def signAccumulator (N k : Nat) (alpha : BitVec w) : List (BitVec w) :=
  List.replicate (k * N) 0#w ++ List.replicate N (0#w - alpha)

/-! ### Circuit bootstrap -/

/-- mod.rs:339-404 `homomorphic_shift_boolean` at the level `level`. `pbs out in acc` is the bootstrap. The
shift amounts `w - delta - 1`, `w - 2` and `w - 1 - base*level` must not be negative: a debug build panics
(in release builds the shift wraps, which is not modelled: `none`). -/
def homomorphicShift (pbs : List (BitVec w) → List (BitVec w) → List (BitVec w) → Option (List (BitVec w)))
    (N k level b delta : Nat) (lweOut lweIn : List (BitVec w)) : Option (List (BitVec w)) :=
  if w < delta + 1 ∨ w < 2 ∨ w < b * level + 1 then none
  else
    let shifted := Lwe.fillWithScalarMul (List.replicate lweIn.length 0#w) lweIn (1#w <<< (w - delta - 1))
    let shifted := addBody shifted (1#w <<< (w - 2))
    let alpha := 1#w <<< (w - 1 - b * level)
    (pbs lweOut shifted (signAccumulator N k alpha)).map (addBody · alpha)

/-- mod.rs:309-312: the private keyswitches of one level, one per key of the list. `ks key out in` is the
private functional keyswitch; the outputs are the next ciphertexts of the GGSW. -/
def cbsKeyswitches (ks : List (BitVec w) → List (BitVec w) → List (BitVec w) → Option (List (BitVec w)))
    (lwe : List (BitVec w)) : List (List (BitVec w)) → List (List (BitVec w)) →
    Option (List (List (BitVec w)) × List (List (BitVec w)))
  | [], rest => some ([], rest)
  | _ :: _, [] => none
  | key :: keys, out :: rest =>
    match ks key out lwe with
    | none => none
    | some r =>
      match cbsKeyswitches ks lwe keys rest with
      | none => none
      | some (rs, rest') => some (r :: rs, rest')

/-- mod.rs:297-313: the loop over the levels, from `level` on, for `n` levels. The LWE buffer is passed from
level to level. -/
def cbsLevels (pbs : List (BitVec w) → List (BitVec w) → List (BitVec w) → Option (List (BitVec w)))
    (ks : List (BitVec w) → List (BitVec w) → List (BitVec w) → Option (List (BitVec w)))
    (N k b delta : Nat) (keys : List (List (BitVec w))) (lweIn : List (BitVec w)) :
    Nat → Nat → List (BitVec w) → List (List (BitVec w)) → Option (List (List (BitVec w)))
  | 0, _, _, outs => some outs
  | n + 1, level, buf, outs =>
    match homomorphicShift pbs N k level b delta buf lweIn with
    | none => none
    | some buf' =>
      match cbsKeyswitches ks buf' keys outs with
      | none => none
      | some (rs, rest) =>
        match cbsLevels pbs ks N k b delta keys lweIn n (level + 1) buf' rest with
        | none => none
        | some tail => some (rs ++ tail)

/-- mod.rs:223-314 `circuit_bootstrap_boolean`. `N`, `k` are the parameters of the bootstrap key and `N'`,
`k'` those of the output GGSW, of base `2^b` and `l` levels; `keys` are the private functional keys. The
debug assertions (235-282) are the parameters of the theorem; only that on the number of keys can fail here.
-/
def circuitBootstrap (bld : Build)
    (pbs : List (BitVec w) → List (BitVec w) → List (BitVec w) → Option (List (BitVec w)))
    (ks : List (BitVec w) → List (BitVec w) → List (BitVec w) → Option (List (BitVec w)))
    (N k N' k' b l delta : Nat) (ggswOut : List (BitVec w)) (keys : List (List (BitVec w)))
    (lweIn : List (BitVec w)) : Option (List (BitVec w)) :=
  if bld = .debug ∧ (l = 0 ∨ b = 0 ∨ keys.length ≠ k' + 1) then none
  else
    (cbsLevels pbs ks N k b delta keys lweIn l 1 (List.replicate (k * N + 1) 0#w)
      (chunks ((k' + 1) * N') ggswOut)).map List.flatten

/-- mod.rs:893-908: the circuit bootstraps of the input ciphertexts into the buffer `buf`, each followed by
the transform `conv`. -/
def cbsAll (cbs : List (BitVec w) → List (BitVec w) → Option (List (BitVec w))) (conv : List (BitVec w) → G) :
    List (List (BitVec w)) → List (BitVec w) → Option (List G)
  | [], _ => some []
  | c :: cs, buf =>
    match cbs buf c with
    | none => none
    | some r => (cbsAll cbs conv cs r).map (conv r :: ·)

/-- mod.rs:916-921: one vertical packing per output. -/
def packAll (vp : List (List (BitVec w)) → List (BitVec w) → Option (List (BitVec w))) :
    List (List (List (BitVec w))) → List (List (BitVec w)) → Option (List (List (BitVec w)))
  | lut :: luts, o :: os =>
    match vp lut o with
    | none => none
    | some r => (packAll vp luts os).map (r :: ·)
  | _, os => some os

/-- mod.rs:829-922 `circuit_bootstrap_boolean_vertical_packing`: the lookup tables are split evenly over the
outputs (`count / 0` panics, as does a chunk size of zero). `cbs buf in` is the circuit bootstrap with
`delta = w - 1`, `vp luts out ggsws` the vertical packing, `ggswSize` the size of the GGSW buffer. In debug
builds the outputs must have the dimension `pbsDim` of the bootstrap output (855-860). -/
def cbsVerticalPacking (bld : Build) (cbs : List (BitVec w) → List (BitVec w) → Option (List (BitVec w)))
    (conv : List (BitVec w) → G)
    (vp : List (List (BitVec w)) → List (BitVec w) → List G → Option (List (BitVec w))) (N ggswSize pbsDim outSize inSize : Nat)
    (bigLut lweListOut lweListIn : List (BitVec w)) : Option (List (BitVec w)) :=
  let ins := chunks inSize lweListIn
  let outs := chunks outSize lweListOut
  if bld = .debug ∧ (ins.length = 0 ∨ outSize - 1 ≠ pbsDim) then none
  else
    match cbsAll cbs conv ins (List.replicate ggswSize 0#w) with
    | none => none
    | some ggsws =>
      if outs.length = 0 then none
      else
        let luts := chunks N bigLut
        let small := luts.length / outs.length
        if small = 0 then none
        else
          (packAll (fun lut o => vp lut o ggsws) (chunks small luts) outs).map List.flatten

/-! ### Bit extraction -/

/-- mod.rs:181 `delta_log.0 - 1 + bit_idx` and 196 `delta_log.0 + bit_idx - 1`, as a shift amount. With
`delta = 0` the first subtraction panics in debug builds; in release builds the 64-bit result wraps and the
shift is taken modulo the width. -/
def alphaShift (bld : Build) (w delta i : Nat) : Option Nat :=
  if 0 < delta then some (delta - 1 + i)
  else match bld with
    | .debug => none
    | .release => some ((2 ^ 64 - 1 + i) % 2 ^ 64 % w)

/-- mod.rs:138-204: the loop over the output ciphertexts, last one first, from bit `i` on. `buf` is the input
buffer, `ksBuf` and `pbsBuf` the output buffers of the keyswitch and of the bootstrap. Returns the new
outputs in the order of the loop. -/
def extractLoop (bld : Build) (ks : List (BitVec w) → List (BitVec w) → Option (List (BitVec w)))
    (pbs : List (BitVec w) → List (BitVec w) → List (BitVec w) → Option (List (BitVec w)))
    (N k delta nbits : Nat) :
    List (List (BitVec w)) → Nat → List (BitVec w) → List (BitVec w) → List (BitVec w) →
    Option (List (List (BitVec w)))
  | [], _, _, _, _ => some []
  | o :: os, i, buf, ksBuf, pbsBuf =>
    match ks ksBuf (buf.map fun s : BitVec w => s <<< (w - delta - i - 1)) with
    | none => none
    | some r =>
      if o.length ≠ r.length then none -- `copy_from_slice`
      else if i + 1 = nbits then some (r :: os)
      else
        match alphaShift bld w delta i with
        | none => none
        | some sh =>
          let alpha := 1#w <<< sh
          let r' := addBody r (1#w <<< (w - 2))
          match pbs pbsBuf r' (signAccumulator N k alpha) with
          | none => none
          | some p =>
            let p' := addBody p alpha
            (extractLoop bld ks pbs N k delta nbits os (i + 1) (zipUpdate (fun a x => a - x) buf p') r' p').map (r :: ·)

/-- mod.rs:66-205 `extract_bits`, on an output list of ciphertexts of `outSize` words. `nbits + delta > w` is
a panic in debug builds (79-87; in release builds shift amounts wrap, which is not modelled: `none`). The
other debug assertions are the sizes of the theorem. -/
def extractBits (bld : Build) (ks : List (BitVec w) → List (BitVec w) → Option (List (BitVec w)))
    (pbs : List (BitVec w) → List (BitVec w) → List (BitVec w) → Option (List (BitVec w)))
    (N k delta nbits outSize : Nat) (lweListOut lweIn : List (BitVec w)) : Option (List (BitVec w)) :=
  if w < nbits + delta then none
  else if bld = .debug ∧ (chunks outSize lweListOut).length ≠ nbits then none
  else
    (extractLoop bld ks pbs N k delta nbits (chunks outSize lweListOut).reverse 0 lweIn
      (List.replicate outSize 0#w) (List.replicate (k * N + 1) 0#w)).map fun rs => rs.reverse.flatten

end Verif.Wop
