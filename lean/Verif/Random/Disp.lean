import Verif.Random.Gauss
/-
Model of the noise parameters: specification/dispersion.rs under /repo/concrete-core/src, in IEEE 754 double precision.

`f64::powf` with base 2 and `f64::log2` are functions of the mathematical library of the platform: they are parameters.
`powi(2)` as in `Random/Gauss`.
-/
namespace Verif.Random.Disp
open Verif.Float

/-- `2_f64.powf(x)` and `x.log2()`. -/
structure Libm where
  pow2 : F64 → F64
  log2 : F64 → F64

/-- dispersion.rs:64, 116, 167: `LogStandardDev`, `StandardDev` and `Variance`. -/
inductive Noise
  | logStd (p : F64)
  | std (x : F64)
  | var (v : F64)

/-- dispersion.rs:77-79, 129-131, 180-182 `get_standard_dev`. -/
def Noise.getStd (m : Libm) : Noise → F64
  | .logStd p => m.pow2 p
  | .std x => x
  | .var v => v.sqrt

/-- dispersion.rs:80-82, 132-134, 183-185 `get_variance`. -/
def Noise.getVar (m : Libm) : Noise → F64
  | .logStd p => m.pow2 (p.mul (.fin 2))
  | .std x => x.mul x
  | .var v => v

/-- dispersion.rs:83-85, 135-137, 186-188 `get_log_standard_dev`. -/
def Noise.getLog (m : Libm) : Noise → F64
  | .logStd p => p
  | .std x => m.log2 x
  | .var v => m.log2 v.sqrt

/-- dispersion.rs:86-88, 138-140, 189-191 `get_modular_standard_dev`; `k` is `log2_modulus`. -/
def Noise.getModStd (m : Libm) (k : Nat) : Noise → F64
  | .logStd p => m.pow2 ((F64.ofNat k).add p)
  | .std x => m.pow2 ((F64.ofNat k).add (m.log2 x))
  | .var v => m.pow2 ((F64.ofNat k).add (m.log2 v.sqrt))

/-- dispersion.rs:89-91, 141-143, 192-194 `get_modular_variance`. -/
def Noise.getModVar (m : Libm) (k : Nat) : Noise → F64
  | .logStd p => m.pow2 (((F64.ofNat k).add p).mul (.fin 2))
  | .std x => m.pow2 ((F64.fin 2).mul ((F64.ofNat k).add (m.log2 x)))
  | .var v => m.pow2 ((F64.fin 2).mul ((F64.ofNat k).add (m.log2 v.sqrt)))

/-- dispersion.rs:92-94, 144-146, 195-197 `get_modular_log_standard_dev`. -/
def Noise.getModLog (m : Libm) (k : Nat) : Noise → F64
  | .logStd p => (F64.ofNat k).add p
  | .std x => (F64.ofNat k).add (m.log2 x)
  | .var v => (F64.ofNat k).add (m.log2 v.sqrt)

/-- dispersion.rs:71-73 `from_modular_log_standard_dev`. -/
def fromModLog (p : F64) (k : Nat) : Noise := .logStd (p.sub (F64.ofNat k))

/-- dispersion.rs:123-125 `from_modular_standard_dev`. -/
def fromModStd (m : Libm) (x : F64) (k : Nat) : Noise := .std (x.div (m.pow2 (F64.ofNat k)))

/-- dispersion.rs:174-176 `from_modular_variance`. -/
def fromModVar (m : Libm) (v : F64) (k : Nat) : Noise := .var (v.div (m.pow2 ((F64.ofNat k).mul (.fin 2))))

end Verif.Random.Disp
