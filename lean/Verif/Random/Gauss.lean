import Verif.Float.Sqrt
import Verif.Encode.Model
import Verif.Random.Model
/-
Model of the floating point part of the gaussian sampler (polar method of Box and Muller) and of the noise
parameters, in IEEE 754 double precision.

Sources, under /repo/concrete-core/src: commons/math/random/gaussian.rs, specification/dispersion.rs,
commons/crypto/secret/generators/encryption.rs.

`f64::ln` is a parameter. `powi(2)` is the product of the number with itself, rounded once (the specification of Rust
leaves its precision open; this is what compilers emit).
-/
namespace Verif.Random.Gauss
open Verif.Float Verif.Encode

/-- gaussian.rs:34-36: `i64::from_le_bytes(..).cast_into()`, then the product with `2^-63`. -/
def unit (x : BitVec 64) : F64 := (ofRat (x.toInt : ℚ)).mul (F64.powi2 (-64 + 1))

/-- gaussian.rs:38: `u.powi(2) + v.powi(2)`. -/
def radius (u v : F64) : F64 := (u.mul u).add (v.mul v)

/-- gaussian.rs:39: whether the pair is accepted. -/
def accept (x y : BitVec 64) : Bool :=
  (F64.fin 0).lt (radius (unit x) (unit y)) && (radius (unit x) (unit y)).lt (.fin 1)

/-- gaussian.rs:40: the factor of an accepted pair. -/
def factor (ln : F64 → F64) (std s : F64) : F64 := std.mul (((F64.fin (-2)).mul (ln s)).div s).sqrt

/-- gaussian.rs:41: the two numbers computed from an accepted pair. -/
def sample (ln : F64 → F64) (std mean : F64) (x y : BitVec 64) : F64 × F64 :=
  let cst := factor ln std (radius (unit x) (unit y))
  (((unit x).mul cst).add mean, ((unit y).mul cst).add mean)

/-- gaussian.rs:55-69: the pair of torus elements. -/
def fn (w : Nat) (ln : F64 → F64) (std mean : F64) : GaussianFn w where
  accept := accept
  value x y := (fromTorus w (sample ln std mean x y).1, fromTorus w (sample ln std mean x y).2)

/-- dispersion.rs:114, 165: a `StandardDev` and a `Variance`. -/
inductive Dispersion
  | standardDev (x : F64)
  | variance (x : F64)

/-- dispersion.rs:129-131, 180-182 `get_standard_dev`. -/
def Dispersion.std : Dispersion → F64
  | .standardDev x => x
  | .variance x => x.sqrt

/-- dispersion.rs:132-134, 183-185 `get_variance`. -/
def Dispersion.var : Dispersion → F64
  | .standardDev x => x.mul x
  | .variance x => x

/-- encryption.rs:169-196: the sampler of `random_noise` and `fill_tensor_with_random_noise`, with mean 0. -/
def noiseFn (w : Nat) (ln : F64 → F64) (d : Dispersion) : GaussianFn w := fn w ln d.std (.fin 0)

end Verif.Random.Gauss
