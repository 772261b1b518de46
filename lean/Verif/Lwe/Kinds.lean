import Verif.Session.Decrypt
import Verif.Random.Disp
/-
Model of the secret keys of the four kinds, and of the LWE encryption in debug and in release builds.

Sources, under /repo/concrete-core/src/commons: crypto/secret/lwe.rs, crypto/secret/glwe.rs,
crypto/secret/generators/secret.rs, math/random/generator.rs, math/torus/mod.rs, crypto/lwe/ciphertext.rs.

The kind is a type parameter of the keys that no function inspects (`PhantomData`): after its generation a key is
its list of coefficients. `f64::ln` and `f64::powf` are parameters, as in Random/Gauss and Random/Disp.
-/
namespace Verif.Lwe.Kinds
open Verif.Random Verif.Float
open Verif.Csprng (Build)
variable {w : Nat}

/-- specification/key_kinds.rs:8-20. -/
inductive Kind
  | binary | ternary | gaussian | uniform
deriving DecidableEq

/-- math/torus/mod.rs:97, 101 `GAUSSIAN_KEY_LOG_STD`, for words of 32 and of 64 bits. -/
def gaussianKeyLogStd : Nat → F64
  | 32 => ofRat (-30.32192809488736)
  | 64 => ofRat (-62.32192809488736)
  | _ => .nan

/-- secret/generators/secret.rs:47-54: the standard deviation of the coefficients of a gaussian key. -/
def gaussianKeyStd (m : Disp.Libm) (w : Nat) : F64 := (Disp.Noise.logStd (gaussianKeyLogStd w)).getStd m

/-- secret/lwe.rs:61-69 `generate_binary`, 93-101 `generate_ternary`, 126-134 `generate_gaussian`, 158-166
`generate_uniform`, with secret/generators/secret.rs:23-54; `n` is the dimension. The allocating functions of
math/random/generator.rs (`random_uniform_tensor` and its variants) fill a new tensor element by element. -/
def generateLwe (m : Disp.Libm) (ln : F64 → F64) : Kind → (n : Nat) → Samp (List (BitVec w))
  | .binary, n => rep n (uniformBinary w)
  | .ternary, n => rep n (uniformTernary w)
  | .gaussian, n => randomNoiseTensor (Gauss.fn w ln (gaussianKeyStd m w) (.fin 0)) n
  | .uniform, n => rep n (uniform w)

/-- secret/glwe.rs:63-73 `generate_binary`, 100-110 `generate_ternary`, 138-148 `generate_gaussian`, 175-185
`generate_uniform`: one tensor for the `k` polynomials of `N` coefficients. -/
def generateGlwe (m : Disp.Libm) (ln : F64 → F64) (kind : Kind) (k N : Nat) : Samp (List (BitVec w)) :=
  generateLwe m ln kind (N * k)

/-- secret/lwe.rs:307-333, 372-393 `encrypt_lwe` in the build `bld`: the sum of products of the mask and the key is
the one of lwe/ciphertext.rs:801-813, whose products are checked in debug builds. -/
def encryptIn (bld : Build) (f : GaussianFn w) (key out : List (BitVec w)) (msg : BitVec w) (g : EncGen) :
    Option (List (BitVec w) × EncGen) :=
  if out.length = 0 then none
  else match rep (out.length - 1) (uniform w) g.mask with
    | none => none
    | some (mask, gm) =>
      match randomNoise f g.noise with
      | none => none
      | some (e, gn) =>
        match Session.multisumIn bld mask key with
        | none => none
        | some s => some (mask ++ [e + s + msg], { mask := gm, noise := gn })

end Verif.Lwe.Kinds
