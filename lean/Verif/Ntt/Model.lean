import Verif.Util.Containers
import Verif.Pbs.Model
/-
Model of the number theoretic transform.

Source: /repo/concrete-core/src/backends/ntt/private/math/{mod_q,transform,polynomial}.rs.

`ModQ` is modelled on machine words of width `W` (`u64` for 32-bit tori, `u128` for 64-bit ones), with
wrapping operations; C37 proves that nothing wraps. The loops of the transform are written once, over
abstract operations `Ops`, and used both with the operations of `ModQ` and with those of a ring.
-/
namespace Verif.Ntt

/-! ### mod_q.rs -/

/-- mod_q.rs:6-10. -/
structure ModQ (W : Nat) where
  val : BitVec W
  q : BitVec W
  deriving DecidableEq

variable {W w : Nat}

/-- mod_q.rs:16-23. The two debug assertions (17-18) are not modelled. -/
def ModQ.add (a b : ModQ W) : ModQ W := ⟨(a.val + b.val) % a.q, a.q⟩

/-- mod_q.rs:35-42. -/
def ModQ.mul (a b : ModQ W) : ModQ W := ⟨(a.val * b.val) % a.q, a.q⟩

/-- mod_q.rs:54-60. -/
def ModQ.neg (a : ModQ W) : ModQ W := ⟨(a.q - a.val) % a.q, a.q⟩

/-- mod_q.rs:66-71. -/
def ModQ.sub (a b : ModQ W) : ModQ W := ⟨(a.add b.neg).val % a.q, a.q⟩

/-- mod_q.rs:112-116. -/
def ModQ.new (val q : BitVec W) : ModQ W := ⟨val % q, q⟩

/-- mod_q.rs:95-102. -/
def ModQ.set (a : ModQ W) (input : BitVec W) : ModQ W := ⟨input % a.q, a.q⟩

/-- mod_q.rs:83-86, to a torus of `w` bits (`cast_from` truncates). -/
def ModQ.modSwitchFrom (w : Nat) (a : ModQ W) : BitVec w :=
  (((a.val <<< w) ||| (a.q >>> 1)) / a.q).setWidth w

/-- mod_q.rs:90-93, from a torus of `w` bits. -/
def ModQ.modSwitchInto (a : ModQ W) (input : BitVec w) : ModQ W :=
  a.set ((input.setWidth W * a.q + 1#W <<< (w - 1)) >>> w)

/-! ### transform.rs -/

/-- The operations of the elements of a transform. -/
structure Ops (α : Type) where
  zero : α
  add : α → α → α
  sub : α → α → α
  mul : α → α → α

/-- The operations of `ModQ` modulo `q`; `zero` is transform.rs:71-73 `get_zero_mod_q`. -/
def modqOps (q : BitVec W) : Ops (ModQ W) := ⟨ModQ.new 0 q, ModQ.add, ModQ.sub, ModQ.mul⟩

variable {α : Type}

/-- transform.rs:242-245: one butterfly at index `j`. Indices out of range panic in the code; `getD` and
`set` are used here, and `index_safe` shows that all indices are in range. -/
def fwdButterfly (o : Ops α) (t : Nat) (s : α) (buf : List α) (j : Nat) : List α :=
  let u := buf.getD j o.zero
  let v := o.mul (buf.getD (j + t) o.zero) s
  (buf.set j (o.add u v)).set (j + t) (o.sub u v)

/-- transform.rs:237-246: block `i` of a scale. -/
def fwdBlock (o : Ops α) (roots : List α) (t m : Nat) (buf : List α) (i : Nat) : List α :=
  (List.range' (2 * i * t) t).foldl (fwdButterfly o t (roots.getD (m + i) o.zero)) buf

/-- transform.rs:236-247: one scale. -/
def fwdScale (o : Ops α) (roots : List α) (t m : Nat) (buf : List α) : List α :=
  (List.range m).foldl (fwdBlock o roots t m) buf

/-- transform.rs:223-257 `forward_from_buffer`. -/
def forwardBuf (o : Ops α) (roots : List α) (log : Nat) (buf : List α) : List α :=
  (List.range log).foldl (fun buf scale => fwdScale o roots (2 ^ (log - 1 - scale)) (2 ^ scale) buf) buf

/-- transform.rs:367-370. -/
def bwdButterfly (o : Ops α) (t : Nat) (s : α) (buf : List α) (j : Nat) : List α :=
  let u := buf.getD j o.zero
  let v := buf.getD (j + t) o.zero
  (buf.set j (o.add u v)).set (j + t) (o.mul (o.sub u v) s)

/-- transform.rs:363-371: block `i` of a scale; `j1` (360, 373) is `2 t i`. -/
def bwdBlock (o : Ops α) (rootsInv : List α) (t h : Nat) (buf : List α) (i : Nat) : List α :=
  (List.range' (i * (2 * t)) t).foldl (bwdButterfly o t (rootsInv.getD (h + i) o.zero)) buf

/-- transform.rs:362-374. -/
def bwdScale (o : Ops α) (rootsInv : List α) (t h : Nat) (buf : List α) : List α :=
  (List.range h).foldl (bwdBlock o rootsInv t h) buf

/-- transform.rs:340-376 `backwards_into_buffer`. -/
def backwardBuf (o : Ops α) (rootsInv : List α) (log : Nat) (buf : List α) : List α :=
  (List.range log).foldl (fun buf scale => bwdScale o rootsInv (2 ^ scale) (2 ^ (log - 1 - scale)) buf) buf

/-- transform.rs:17-23: the parameters of a transform (the buffer is a local value here). -/
structure Tables (α : Type) where
  logSize : Nat
  roots : List α
  rootsInv : List α
  nInv : α

/-- transform.rs:195-220 `forward`: the input is copied to the buffer, the buffer to the output. The two
sizes are equal (208 asserts it). -/
def forward (o : Ops α) (T : Tables α) (p : List α) : List α := forwardBuf o T.roots T.logSize p

/-- transform.rs:315-337 `backward`. -/
def backward (o : Ops α) (T : Tables α) (p : List α) : List α :=
  (backwardBuf o T.rootsInv T.logSize p).map fun c => o.mul c T.nInv

/-- transform.rs:119-145 `forward_w_mod_switch`. The buffer holds elements modulo `q` (60-61). -/
def forwardModSwitch (q : BitVec W) (T : Tables (ModQ W)) (p : List (BitVec w)) : List (ModQ W) :=
  forwardBuf (modqOps q) T.roots T.logSize (p.map fun x => (ModQ.new 0 q).modSwitchInto x)

/-- transform.rs:264-285 `backward_w_mod_switch`. -/
def backwardModSwitch (w : Nat) (q : BitVec W) (T : Tables (ModQ W)) (p : List (ModQ W)) : List (BitVec w) :=
  (backwardBuf (modqOps q) T.rootsInv T.logSize p).map fun c => (c.mul T.nInv).modSwitchFrom w

/-- transform.rs:287-309 `add_backward_w_mod_switch`. -/
def addBackwardModSwitch (q : BitVec W) (T : Tables (ModQ W)) (out : List (BitVec w)) (p : List (ModQ W)) :
    List (BitVec w) :=
  zipUpdate (fun o c => o + (c.mul T.nInv).modSwitchFrom w) out (backwardBuf (modqOps q) T.rootsInv T.logSize p)

/-! ### polynomial.rs -/

/-- polynomial.rs:277-295 `update_with_multiply_accumulate`. -/
def mulAcc (o : Ops α) (acc p1 p2 : List α) : List α :=
  zipUpdate (fun res x => o.add res (o.mul x.1 x.2)) acc (p1.zip p2)

/-- The NTT as a transform for the external product (see Verif.Pbs.Model). -/
def nttTransform (w : Nat) (q : BitVec W) (T : Tables (ModQ W)) : Pbs.Transform w where
  E := List (ModQ W)
  zero := List.replicate (2 ^ T.logSize) (ModQ.new 0 q)
  fwdGgsw := forwardModSwitch q T
  fwdDigit := forwardModSwitch q T
  mulAcc := mulAcc (modqOps q)
  addBack := addBackwardModSwitch q T

end Verif.Ntt
