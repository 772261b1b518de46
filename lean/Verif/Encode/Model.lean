import Verif.Float.Ieee
import Verif.Csprng.Model
import Verif.Decomp.Model
import Verif.Util.Containers
/-
Model of the conversions between `f64` and the discretized torus and of the float encoders.

Sources, under /repo/concrete-core/src:
  commons/math/torus/mod.rs (`IntoTorus`, `FromTorus`),
  commons/crypto/encoding/encoder.rs (`FloatEncoder`),
  backends/default/implementation/entities/encoder.rs (configurations),
  backends/default/implementation/engines/default_engine/{encoder_creation, encoder_vector_creation,
  cleartext_encoding, cleartext_vector_encoding, plaintext_decoding}.rs.

`f64` is `Verif.Float.F64`; a plaintext scalar `u32`/`u64` is a `BitVec w`. A panic is `none` in the
commons functions and `Res.panic` in the engine functions. `Build` is the profile: a debug build checks
shift amounts, `usize` subtractions and `debug_assert!`s, a release build masks or wraps.
-/
namespace Verif.Encode
open Verif.Float

export Verif.Csprng (Build)

/-- `x << k` on an unsigned integer of `w` bits (`w` a power of two). -/
def shl {w : Nat} (m : Build) (x : BitVec w) (k : Nat) : Option (BitVec w) :=
  match m with
  | .debug => if k < w then some (x <<< k) else none
  | .release => some (x <<< (k % w))

/-- `x >> k` on an unsigned integer of `w` bits. -/
def shr {w : Nat} (m : Build) (x : BitVec w) (k : Nat) : Option (BitVec w) :=
  match m with
  | .debug => if k < w then some (x >>> k) else none
  | .release => some (x >>> (k % w))

/-- `a - b` on `usize`. -/
def subUsize (m : Build) (a b : Nat) : Option Nat :=
  match m with
  | .debug => if b ≤ a then some (a - b) else none
  | .release => some ((a + 2 ^ 64 - b % 2 ^ 64) % 2 ^ 64)

/-- decomposer.rs:36-49 `SignedDecomposer::new` with one level of `b` bits, then decomposer.rs:98-115
`closest_representable`, for every `b`. -/
def roundTo {w : Nat} (m : Build) (b : Nat) (x : BitVec w) : Option (BitVec w) := do
  if m = .debug ∧ ¬ b < w then none
  let n ← subUsize m w b
  let n1 ← subUsize m n 1
  let mask ← shl m 1#w n1
  let msb ← shr m (x &&& mask) n1
  let res ← shr m x n
  shl m (res + msb) n

/-! ### Conversions -/

/-- torus/mod.rs:52-55 `into_torus`. -/
def intoTorus {w : Nat} (x : BitVec w) : F64 := (F64.ofNat x.toNat).mul (F64.powi2 (-(w : ℤ)))

/-- torus/mod.rs:63-69 `from_torus`. -/
def fromTorus (w : Nat) (input : F64) : BitVec w :=
  let fract := input.sub input.round
  let fract := fract.mul (F64.powi2 w)
  let fract := fract.round
  BitVec.ofInt w (fract.toSigned w)

/-! ### `FloatEncoder` -/

/-- encoder.rs:120-126 `FloatEncoder`. -/
structure FloatEncoder where
  o : F64
  delta : F64
  precision : Nat
  padding : Nat
  round : Bool
  deriving DecidableEq

/-- entities/encoder.rs:27-32 `FloatEncoderMinMaxConfig`. -/
structure MinMax where
  min : F64
  max : F64
  precision : Nat
  padding : Nat

/-- entities/encoder.rs:59-64 `FloatEncoderCenterRadiusConfig`. -/
structure CenterRadius where
  center : F64
  radius : F64
  precision : Nat
  padding : Nat

/-- `p as i32` for a `usize`. -/
def asI32 (p : Nat) : ℤ := (BitVec.ofNat 32 p).toInt

/-- entities/encoder.rs:35-53 `to_commons`; `none` is a failed assertion. -/
def MinMax.toCommons (c : MinMax) : Option FloatEncoder :=
  if c.min.lt c.max = false then none
  else if c.precision = 0 then none
  else
    let margin := (c.max.sub c.min).div ((F64.powi2 (asI32 c.precision)).sub (.fin 1))
    some
      { o := c.min
        delta := (c.max.sub c.min).add margin
        precision := c.precision
        padding := c.padding
        round := false }

/-- entities/encoder.rs:67-80 `to_commons`. -/
def CenterRadius.toCommons (c : CenterRadius) : Option FloatEncoder :=
  if (F64.fin 0).lt c.radius = false then none
  else if c.precision = 0 then none
  else
    MinMax.toCommons
      { min := c.center.sub c.radius
        max := c.center.add c.radius
        precision := c.precision
        padding := c.padding }

/-- encoder.rs:129-147 `FloatEncoder::new` and, with `round := true`, encoder.rs:148-171
`new_rounding_context`; `none` is a panic. -/
def FloatEncoder.new (min max : F64) (precision padding : Nat) (round : Bool) :
    Option FloatEncoder :=
  if max.le min then none
  else if precision = 0 then none
  else
    let margin := (max.sub min).div ((F64.powi2 (asI32 precision)).sub (.fin 1))
    some
      { o := min
        delta := (max.sub min).add margin
        precision := precision
        padding := padding
        round := round }

/-- encoder.rs:213-215 `is_valid`. -/
def FloatEncoder.isValid (e : FloatEncoder) : Bool := !(e.precision == 0 || e.delta.le (.fin 0))

/-- encoder.rs:217-219 `is_message_out_of_range`. -/
def FloatEncoder.outOfRange (e : FloatEncoder) (message : F64) : Bool :=
  message.lt e.o || (e.o.add e.delta).lt message

/-- encoder.rs:242-248, 259-267 the optional rounding to `b` bits. -/
def roundIf {w : Nat} (round : Bool) (m : Build) (b : Nat) (x : BitVec w) : Option (BitVec w) :=
  if round then roundTo m b x else some x

/-- encoder.rs:249-251: the padding is inserted when there is some. -/
def addPadding {w : Nat} (m : Build) (x : BitVec w) (padding : Nat) : Option (BitVec w) :=
  if padding > 0 then shr m x padding else some x

/-- encoder.rs:269-272: the padding is removed when there is some. -/
def removePadding {w : Nat} (m : Build) (x : BitVec w) (padding : Nat) : Option (BitVec w) :=
  if padding > 0 then shl m x padding else some x

/-- encoder.rs:228-253 `encode`. -/
def FloatEncoder.encode (w : Nat) (m : Build) (e : FloatEncoder) (raw : F64) :
    Option (BitVec w) := do
  if e.outOfRange raw then none
  if e.isValid = false then none
  let res := fromTorus w ((raw.sub e.o).div e.delta)
  let res ← roundIf e.round m e.precision res
  addPadding m res e.padding

/-- encoder.rs:255-294 `decode`. -/
def FloatEncoder.decode {w : Nat} (m : Build) (e : FloatEncoder) (encoded : BitVec w) :
    Option F64 := do
  if e.isValid = false then none
  let tmp ← roundIf e.round m (e.precision + e.padding) encoded
  let tmp ← removePadding m tmp e.padding
  let a ← shl m 1#w (e.precision + 1)
  let n ← subUsize m w e.precision
  let start ← shl m (a - 1#w) n
  -- the decomposer is built (and its assertion checked) whether or not it is used
  let rounded ← roundTo m e.precision tmp
  let tmp := if start < tmp then rounded else tmp
  some (((intoTorus tmp).mul e.delta).add e.o)

/-! ### Engine functions -/

/-- The errors of the encoder engines: `DefaultError` (default_engine/mod.rs:26-48) and the generic
`EncoderCountMismatch`. -/
inductive EncErr where
  | minMaxOrder | nullPrecision | nullRadius | outsideInterval | encoderCountMismatch
  deriving DecidableEq, Repr

/-- A panic inside an engine call. -/
def ofOption {α : Type} : Option α → Res EncErr α
  | some a => .ok a
  | none => .panic

/-- encoder_creation.rs:29-50 `create_encoder_from` for a `FloatEncoderMinMaxConfig`. -/
def createEncoderMinMax (c : MinMax) : Res EncErr FloatEncoder :=
  if c.max.le c.min then .err .minMaxOrder
  else if c.precision = 0 then .err .nullPrecision
  else ofOption c.toCommons

/-- encoder_creation.rs:76-97 `create_encoder_from` for a `FloatEncoderCenterRadiusConfig`. -/
def createEncoderCenterRadius (c : CenterRadius) : Res EncErr FloatEncoder :=
  if c.radius.le (.fin 0) then .err .nullRadius
  else if c.precision = 0 then .err .nullPrecision
  else ofOption c.toCommons

/-- encoder_vector_creation.rs:35-61 `create_encoder_vector_from` for `FloatEncoderMinMaxConfig`s. -/
def createEncoderVectorMinMax (cs : List MinMax) : Res EncErr (List FloatEncoder) :=
  if cs.any (fun c => c.max.le c.min) then .err .minMaxOrder
  else if cs.any (fun c => c.precision == 0) then .err .nullPrecision
  else ofOption (cs.mapM MinMax.toCommons)

/-- encoder_vector_creation.rs:92-118 `create_encoder_vector_from` for
`FloatEncoderCenterRadiusConfig`s. -/
def createEncoderVectorCenterRadius (cs : List CenterRadius) : Res EncErr (List FloatEncoder) :=
  if cs.any (fun c => c.radius.le (.fin 0)) then .err .nullRadius
  else if cs.any (fun c => c.precision == 0) then .err .nullPrecision
  else ofOption (cs.mapM CenterRadius.toCommons)

/-- cleartext_encoding.rs:32-51, 79-98 `encode_cleartext` (`w = 32`, `64`). -/
def encodeCleartext (w : Nat) (m : Build) (e : FloatEncoder) (x : F64) : Res EncErr (BitVec w) :=
  if e.outOfRange x then .err .outsideInterval
  else ofOption (e.encode w m x)

/-- cleartext_vector_encoding.rs:43-75, 114-146 `encode_cleartext_vector`. -/
def encodeCleartextVector (w : Nat) (m : Build) (es : List FloatEncoder) (xs : List F64) :
    Res EncErr (List (BitVec w)) :=
  if es.length ≠ xs.length then .err .encoderCountMismatch
  else if (es.zip xs).any (fun p => p.1.outOfRange p.2) then .err .outsideInterval
  else ofOption ((es.zip xs).mapM fun p => p.1.encode w m p.2)

/-- plaintext_decoding.rs:33-47, 76-90 `decode_plaintext`. -/
def decodePlaintext {w : Nat} (m : Build) (e : FloatEncoder) (x : BitVec w) : Res EncErr F64 :=
  ofOption (e.decode m x)

/-- plaintext_vector_decoding.rs:45-66, 107-128 `decode_plaintext_vector`: the generic check is not
called. -/
def decodePlaintextVector {w : Nat} (m : Build) (es : List FloatEncoder) (xs : List (BitVec w)) :
    Res EncErr (List F64) :=
  ofOption ((es.zip xs).mapM fun p => p.1.decode m p.2)

end Verif.Encode
