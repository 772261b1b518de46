import Verif.Csprng.Model
/-
Specification vocabulary for the generator: the table of bytes and positions in it.
-/
namespace Verif.Csprng

/-- Total number of bytes of the table (`2^128` AES blocks of 16 bytes; csprng/src/lib.rs, `M`). -/
def TABLE : Nat := 2 ^ 132

/-- Byte number `p` of the table. -/
def tableByte {α : Type} (aes : Cipher α) (p : Nat) : α := aes (p / 16) (p % 16)

/-- Position of an index in the table. -/
def TableIndex.pos (t : TableIndex) : Nat := t.aes * 16 + t.byte

/-- A well formed index: what the Rust types (and the assertion in `new`) guarantee. -/
def TableIndex.WF (t : TableIndex) : Prop := t.aes < 2 ^ 128 ∧ t.byte < 16

/-- What `n` draws from the range `[start, bound)` must return. -/
def expectedDraws {α : Type} (aes : Cipher α) (start bound n : Nat) : List (Option α) :=
  (List.range n).map fun i =>
    if start + i < bound then some (tableByte aes (start + i)) else none

end Verif.Csprng

namespace Verif.Csprng

/-- Generators that can be obtained with the API: created on some range, advanced with `next`, left
after a fork, or obtained as a child of a fork. No restriction on the arguments of the forks. -/
inductive Reachable {α : Type} [Inhabited α] (m : Build) (aes : Cipher α) : Gen α → Prop
  | create {start bound : TableIndex} {g : Gen α} (hs : start.WF) (hb : bound.WF)
      (h : fromBlockCipher start bound = some g) : Reachable m aes g
  | next {g g' : Gen α} {o : Option α} (hr : Reachable m aes g)
      (h : g.next m aes = some (o, g')) : Reachable m aes g'
  | parent {g p : Gen α} {n b : Nat} {cs : List (Option (Gen α))} (hr : Reachable m aes g)
      (h : g.tryFork m n b = .ok cs p) : Reachable m aes p
  | child {g p c : Gen α} {n b : Nat} {cs : List (Option (Gen α))} (hr : Reachable m aes g)
      (h : g.tryFork m n b = .ok cs p) (hc : some c ∈ cs) : Reachable m aes c

/-- Operations of a client on the family of generators it owns, addressed by number. -/
inductive Op where
  | next (i : Nat)
  | fork (i : Nat) (n b : Nat)
  deriving DecidableEq, Repr

/-- All elements of a list of options, if all present. -/
def allSome {β : Type} : List (Option β) → Option (List β)
  | [] => some []
  | none :: _ => none
  | some x :: l => (allSome l).map (x :: ·)

/-- Run a history. `none` when some call panics. The result is the family of generators (children of
a fork are appended at the end) and the list of bytes returned so far, oldest first. -/
def runOps {α : Type} [Inhabited α] (m : Build) (aes : Cipher α) :
    List Op → List (Gen α) → Option (List (Gen α) × List α)
  | [], gs => some (gs, [])
  | .next i :: ops, gs =>
    match gs[i]? with
    | none => runOps m aes ops gs
    | some g =>
      match g.next m aes with
      | none => none
      | some (o, g') => (runOps m aes ops (gs.set i g')).map fun r => (r.1, o.toList ++ r.2)
  | .fork i n b :: ops, gs =>
    match gs[i]? with
    | none => runOps m aes ops gs
    | some g =>
      match g.tryFork m n b with
      | .panic => none
      | .err _ g' => runOps m aes ops (gs.set i g')
      | .ok cs p =>
        match allSome cs with
        | none => none
        | some cs => runOps m aes ops (gs.set i p ++ cs)

/-- Number of bytes a history asks for. -/
def requested : List Op → Nat
  | [] => 0
  | .next _ :: ops => 1 + requested ops
  | .fork _ n b :: ops => n * b + requested ops

/-- No fork of the history overflows `usize`. -/
def forksFit (ops : List Op) : Prop := ∀ i n b, Op.fork i n b ∈ ops → n * b < 2 ^ 64

end Verif.Csprng
