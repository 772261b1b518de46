import Verif.Ntt.Conv
import Mathlib.Data.ZMod.Basic
/-
The operations on machine words compute in `ZMod q`, and so does the transform built on them.
-/
set_option linter.unusedSectionVars false
namespace Verif.Ntt

variable {W w : Nat}

/-- `a` is the reduced representation of `x` modulo `q`. -/
structure Rel (q : BitVec W) (a : ModQ W) (x : ZMod q.toNat) : Prop where
  mod : a.q = q
  red : a.val.toNat < q.toNat
  val : (a.val.toNat : ZMod q.toNat) = x

theorem Room.double {q : BitVec W} (h : Room q) : q.toNat + q.toNat ≤ 2 ^ W := by
  have := h.pos; have := h.sq
  have : 2 * q.toNat ≤ q.toNat * q.toNat := Nat.mul_le_mul_right _ h.pos
  omega

section
variable {q : BitVec W} (hq : Room q) {a b : ModQ W} {x y : ZMod q.toNat}

include hq in
theorem toNat_add_mod (ha : Rel q a x) (hb : Rel q b y) :
    (a.add b).val.toNat = (a.val.toNat + b.val.toNat) % q.toNat := by
  have := hq.double; have := ha.red; have := hb.red
  rw [ModQ.add, ha.mod]
  simp only [BitVec.toNat_umod, BitVec.toNat_add]
  rw [Nat.mod_eq_of_lt (by omega : _ < 2 ^ W)]

include hq in
theorem toNat_mul_mod (ha : Rel q a x) (hb : Rel q b y) :
    (a.mul b).val.toNat = (a.val.toNat * b.val.toNat) % q.toNat := by
  have := hq.sq; have := ha.red; have := hb.red
  have : a.val.toNat * b.val.toNat < q.toNat * q.toNat := Nat.mul_lt_mul'' ha.red hb.red
  rw [ModQ.mul, ha.mod]
  simp only [BitVec.toNat_umod, BitVec.toNat_mul]
  rw [Nat.mod_eq_of_lt (by omega : _ < 2 ^ W)]

theorem toNat_neg_mod (ha : Rel q a x) : a.neg.val.toNat = (q.toNat - a.val.toNat) % q.toNat := by
  have := ha.red
  rw [ModQ.neg, ha.mod]
  simp only [BitVec.toNat_umod]
  rw [BitVec.toNat_sub_of_le (by rw [BitVec.le_def]; omega)]

include hq

theorem Rel.add (ha : Rel q a x) (hb : Rel q b y) : Rel q (a.add b) (x + y) := by
  have := hq.pos
  refine ⟨ha.mod, ?_, ?_⟩
  · rw [toNat_add_mod hq ha hb]; exact Nat.mod_lt _ (by omega)
  · rw [toNat_add_mod hq ha hb, ZMod.natCast_mod, Nat.cast_add, ha.val, hb.val]

theorem Rel.mul (ha : Rel q a x) (hb : Rel q b y) : Rel q (a.mul b) (x * y) := by
  have := hq.pos
  refine ⟨ha.mod, ?_, ?_⟩
  · rw [toNat_mul_mod hq ha hb]; exact Nat.mod_lt _ (by omega)
  · rw [toNat_mul_mod hq ha hb, ZMod.natCast_mod, Nat.cast_mul, ha.val, hb.val]

theorem Rel.neg (ha : Rel q a x) : Rel q a.neg (-x) := by
  have := hq.pos
  refine ⟨ha.mod, ?_, ?_⟩
  · rw [toNat_neg_mod ha]; exact Nat.mod_lt _ (by omega)
  · rw [toNat_neg_mod ha, ZMod.natCast_mod, Nat.cast_sub ha.red.le, ha.val]; simp

theorem Rel.sub (ha : Rel q a x) (hb : Rel q b y) : Rel q (a.sub b) (x - y) := by
  have h := ha.add hq (hb.neg hq)
  have : a.sub b = a.add b.neg := by
    have h2 := h.red
    rw [ModQ.sub]
    refine (ModQ.mk.injEq ..).mpr ⟨?_, rfl⟩
    apply BitVec.eq_of_toNat_eq
    rw [BitVec.toNat_umod, ha.mod, Nat.mod_eq_of_lt h2, ModQ.add, ha.mod]
  rw [this, sub_eq_add_neg]
  exact h

theorem Rel.new (v : BitVec W) : Rel q (ModQ.new v q) (v.toNat : ZMod q.toNat) := by
  have := hq.pos
  refine ⟨rfl, ?_, ?_⟩
  · rw [ModQ.new]; simp only [BitVec.toNat_umod]; exact Nat.mod_lt _ (by omega)
  · rw [ModQ.new]; simp only [BitVec.toNat_umod, ZMod.natCast_mod]

theorem Rel.zero : Rel q (ModQ.new 0 q) (0 : ZMod q.toNat) := by
  have := Rel.new hq 0
  simpa using this

end

/-- The reduced representation is unique. -/
theorem Rel.inj {q : BitVec W} {a b : ModQ W} {x : ZMod q.toNat} (ha : Rel q a x) (hb : Rel q b x) : a = b := by
  obtain ⟨av, aq⟩ := a
  obtain ⟨bv, bq⟩ := b
  obtain ⟨a1, a2, a3⟩ := ha
  obtain ⟨b1, b2, b3⟩ := hb
  simp only at a1 a2 a3 b1 b2 b3
  subst a1 b1
  refine (ModQ.mk.injEq ..).mpr ⟨?_, rfl⟩
  apply BitVec.eq_of_toNat_eq
  have := a3.trans b3.symm
  rw [ZMod.natCast_eq_natCast_iff'] at this
  rwa [Nat.mod_eq_of_lt a2, Nat.mod_eq_of_lt b2] at this

/-! ### Lists of related elements -/

/-- Related lists. -/
abbrev RelL (q : BitVec W) : List (ModQ W) → List (ZMod q.toNat) → Prop := List.Forall₂ (Rel q)

section
variable {q : BitVec W} (hq : Room q)

theorem RelL.inj {l m : List (ModQ W)} {x : List (ZMod q.toNat)} (h1 : RelL q l x) (h2 : RelL q m x) : l = m := by
  induction h1 generalizing m with
  | nil => cases h2; rfl
  | cons h _ ih => cases h2 with | cons h' t' => rw [h.inj h', ih t']

include hq

theorem RelL.getD {l : List (ModQ W)} {x : List (ZMod q.toNat)} (h : RelL q l x) (i : Nat) :
    Rel q (l.getD i (modqOps q).zero) (x.getD i (ringOps (ZMod q.toNat)).zero) := by
  induction h generalizing i with
  | nil => simpa [ringOps, modqOps] using Rel.zero hq
  | cons h _ ih => cases i with
    | zero => simpa using h
    | succ i => simpa using ih i

omit hq in
theorem RelL.set {l : List (ModQ W)} {x : List (ZMod q.toNat)} (h : RelL q l x) {a : ModQ W} {y : ZMod q.toNat}
    (ha : Rel q a y) (i : Nat) : RelL q (l.set i a) (x.set i y) := by
  induction h generalizing i with
  | nil => simp [RelL]
  | cons h t ih => cases i with
    | zero => exact .cons ha t
    | succ i => exact .cons h (ih i)

omit hq in
theorem foldl_rel {β : Type} {f : List (ModQ W) → β → List (ModQ W)}
    {g : List (ZMod q.toNat) → β → List (ZMod q.toNat)}
    (hfg : ∀ l x b, RelL q l x → RelL q (f l b) (g x b)) (bs : List β) {l : List (ModQ W)}
    {x : List (ZMod q.toNat)} (h : RelL q l x) : RelL q (bs.foldl f l) (bs.foldl g x) := by
  induction bs generalizing l x with
  | nil => exact h
  | cons b bs ih => exact ih (hfg _ _ _ h)

theorem replicate_rel (n : Nat) : RelL q (List.replicate n (ModQ.new 0 q)) (List.replicate n 0) := by
  induction n with
  | zero => exact .nil
  | succ n ih => exact .cons (Rel.zero hq) ih

theorem forwardBuf_rel {roots : List (ModQ W)} {roots' : List (ZMod q.toNat)} (hr : RelL q roots roots')
    (log : Nat) {l : List (ModQ W)} {x : List (ZMod q.toNat)} (h : RelL q l x) :
    RelL q (forwardBuf (modqOps q) roots log l) (forwardBuf (ringOps (ZMod q.toNat)) roots' log x) := by
  refine foldl_rel (fun l x s h => ?_) _ h
  refine foldl_rel (fun l x i h => ?_) _ h
  refine foldl_rel (fun l x j h => ?_) _ h
  have hs := hr.getD hq (2 ^ s + i)
  have hu := h.getD hq j
  have hv := (h.getD hq (j + 2 ^ (log - 1 - s))).mul hq hs
  exact (h.set (hu.add hq hv) _).set (hu.sub hq hv) _

theorem backwardBuf_rel {roots : List (ModQ W)} {roots' : List (ZMod q.toNat)} (hr : RelL q roots roots')
    (log : Nat) {l : List (ModQ W)} {x : List (ZMod q.toNat)} (h : RelL q l x) :
    RelL q (backwardBuf (modqOps q) roots log l) (backwardBuf (ringOps (ZMod q.toNat)) roots' log x) := by
  refine foldl_rel (fun l x s h => ?_) _ h
  refine foldl_rel (fun l x i h => ?_) _ h
  refine foldl_rel (fun l x j h => ?_) _ h
  have hs := hr.getD hq (2 ^ (log - 1 - s) + i)
  have hu := h.getD hq j
  have hv := h.getD hq (j + 2 ^ s)
  exact (h.set (hu.add hq hv) _).set ((hu.sub hq hv).mul hq hs) _

theorem mulAcc_rel {l m r : List (ModQ W)} {x y z : List (ZMod q.toNat)} (h1 : RelL q l x) (h2 : RelL q m y)
    (h3 : RelL q r z) : RelL q (mulAcc (modqOps q) l m r) (mulAcc (ringOps (ZMod q.toNat)) x y z) := by
  induction h1 generalizing m r y z with
  | nil => simp [mulAcc, zipUpdate, RelL]
  | cons ha ta ih =>
    cases h2 with
    | nil => simpa [mulAcc, zipUpdate] using List.Forall₂.cons ha ta
    | cons hb tb =>
      cases h3 with
      | nil => simpa [mulAcc, zipUpdate] using List.Forall₂.cons ha ta
      | cons hc tc =>
        have := ih tb tc
        simp only [mulAcc, List.zip_cons_cons, zipUpdate] at this ⊢
        exact .cons (ha.add hq (hb.mul hq hc)) this

end

/-! ### Tables -/

theorem Reduced.rel {q : BitVec W} {a : ModQ W} (h : Reduced q a) : Rel q a (toZ q a) := ⟨h.1, h.2, rfl⟩

theorem rel_list {q : BitVec W} {l : List (ModQ W)} (h : ∀ a ∈ l, Reduced q a) : RelL q l (l.map (toZ q)) := by
  induction l with
  | nil => exact .nil
  | cons a l ih =>
    exact .cons (h a (List.mem_cons_self ..)).rel (ih fun b hb => h b (List.mem_cons_of_mem _ hb))

theorem RelL.map_toZ {q : BitVec W} {l : List (ModQ W)} {x : List (ZMod q.toNat)} (h : RelL q l x) :
    l.map (toZ q) = x := by
  induction h with
  | nil => rfl
  | cons h _ ih => rw [List.map_cons, ih, toZ, h.val]

theorem RelL.reduced {q : BitVec W} {l : List (ModQ W)} {x : List (ZMod q.toNat)} (h : RelL q l x) :
    ∀ a ∈ l, Reduced q a := by
  induction h with
  | nil => simp
  | cons h _ ih =>
    intro a ha
    rcases List.mem_cons.mp ha with rfl | ha
    · exact ⟨h.mod, h.red⟩
    · exact ih a ha

section
variable {q : BitVec W} (hq : Room q) {T : Tables (ModQ W)} (hT : T.Reduced q)
include hq hT

theorem forward_rel {l : List (ModQ W)} {x : List (ZMod q.toNat)} (h : RelL q l x) :
    RelL q (forward (modqOps q) T l) (forward (ringOps (ZMod q.toNat)) (T.toZ q) x) :=
  forwardBuf_rel hq (rel_list hT.roots) _ h

theorem backward_rel {l : List (ModQ W)} {x : List (ZMod q.toNat)} (h : RelL q l x) :
    RelL q (backward (modqOps q) T l) (backward (ringOps (ZMod q.toNat)) (T.toZ q) x) := by
  have := backwardBuf_rel hq (rel_list hT.rootsInv) T.logSize h
  exact List.rel_map (fun _ _ h => h.mul hq hT.nInv.rel) this

end
end Verif.Ntt
