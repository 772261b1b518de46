import Verif.Decomp.Lemmas
import Verif.Decomp.Spec
import Mathlib.Algebra.BigOperators.Ring.Finset
/-
Helper lemmas on the decomposition: full iterators, tensors.
-/
namespace Verif.Decomp
open Verif.BV

variable {w : Nat}

/-! ### Rounding, in signed terms -/

theorem closest_signed (b l : Nat) (h : ValidParams w b l) (x : BitVec w) :
    Representable b l (closestRepresentable b l x) ∧
    -(2 ^ (w - b * l - 1) : Int) ≤ signedDiff x (closestRepresentable b l x) ∧
    signedDiff x (closestRepresentable b l x) < 2 ^ (w - b * l - 1) := by
  have hbl : l * b < w := by rw [Nat.mul_comm]; exact h.fits
  obtain ⟨q, e, hc, hx, hlo, hhi⟩ := closest_spec b l x hbl
  have hcomm : w - b * l = w - l * b := by rw [Nat.mul_comm]
  refine ⟨?_, ?_⟩
  · rw [Representable, hcomm, hc, toNat_cast]
    exact (Nat.dvd_mod_iff (Nat.pow_dvd_pow 2 (by omega))).2 (Nat.dvd_mul_left _ _)
  · have hd : signedDiff x (closestRepresentable b l x) = e := by
      rw [signedDiff, hc]
      have : x - ((q * 2 ^ (w - l * b) : Nat) : BitVec w) = ((e : Int) : BitVec w) := by
        have h1 : x = (((q * 2 ^ (w - l * b) + e : Int)) : BitVec w) := by
          rw [← hx]; simp
        rw [h1]; push_cast; ring
      rw [this]
      have hmono : (2 ^ (w - l * b - 1) : Int) ≤ 2 ^ (w - 1) := by
        exact_mod_cast Nat.pow_le_pow_right (by omega) (by omega)
      exact toInt_cast_of_bounds e (by linarith) (by linarith) (by have := h.fits; omega)
    rw [hd, hcomm]
    exact ⟨hlo, hhi⟩

theorem representable_diff (b l : Nat) (h : ValidParams w b l) (x c y : BitVec w)
    (hc : Representable b l c) (hy : Representable b l y) :
    ∃ k : Int, signedDiff x y = signedDiff x c + 2 ^ (w - b * l) * k := by
  obtain ⟨qc, hqc⟩ := hc
  obtain ⟨qy, hqy⟩ := hy
  have e1 : ((signedDiff x y - signedDiff x c - 2 ^ (w - b * l) * ((qc : Int) - qy) : Int)
      : BitVec w) = ((0 : Int) : BitVec w) := by
    push_cast
    rw [signedDiff, signedDiff, intCast_toInt, intCast_toInt]
    have hcc : c = (2 ^ (w - b * l) : BitVec w) * (qc : BitVec w) := by
      rw [← natCast_toNat c, hqc]; push_cast; rfl
    have hyy : y = (2 ^ (w - b * l) : BitVec w) * (qy : BitVec w) := by
      rw [← natCast_toNat y, hqy]; push_cast; rfl
    generalize hp : (2 ^ (w - b * l) : BitVec w) = p at *
    rw [hcc, hyy]; ring
  obtain ⟨k, hk⟩ := (intCast_eq_iff _ _).1 e1
  refine ⟨(qc : Int) - qy + 2 ^ (b * l) * k, ?_⟩
  have hw : (2 ^ w : Int) = 2 ^ (w - b * l) * 2 ^ (b * l) := by
    rw [← pow_add]; congr 1; have := h.fits; omega
  rw [hw] at hk
  have : signedDiff x y = signedDiff x c + 2 ^ (w - b * l) * ((qc : Int) - qy) +
      2 ^ (w - b * l) * 2 ^ (b * l) * k := by linarith
  rw [this]; ring

/-! ### Digits -/

/-- The successive digits of a state. -/
def digits (b : Nat) : Nat → BitVec w → List (BitVec w)
  | 0, _ => []
  | n + 1, s =>
    (decomposeOneLevel b s ((1#w <<< b) - 1#w)).1 ::
      digits b n (decomposeOneLevel b s ((1#w <<< b) - 1#w)).2

theorem digits_length (b n : Nat) : ∀ s : BitVec w, (digits b n s).length = n := by
  induction n with
  | zero => intro s; rfl
  | succ n ih => intro s; simp [digits, ih]

theorem collect_digits (b : Nat) :
    ∀ (n : Nat) (it : Iter w), it.Ok b → it.currentLevel = n →
      it.collect (n + 1) = (List.range n).map (fun j =>
          { level := n - j, baseLog := b, value := (digits b n it.state).getD j 0#w }) := by
  intro n
  induction n with
  | zero => intro it _ h0; simp [Iter.collect, Iter.next_zero it h0]
  | succ n ih =>
    intro it ⟨h1, h2⟩ h0
    have hnext : it.next = (some ⟨n + 1, b, (decomposeOneLevel b it.state ((1#w <<< b) - 1#w)).1⟩,
        { it with fresh := false, state := (decomposeOneLevel b it.state ((1#w <<< b) - 1#w)).2,
                  currentLevel := n }) := by
      simp only [Iter.next, h0, h1, h2]
      simp [← h1]
    rw [Iter.collect, hnext]
    simp only
    rw [ih ⟨it.baseLog, (decomposeOneLevel b it.state ((1#w <<< b) - 1#w)).2, n, it.modBMask,
      false⟩ ⟨h1, h2⟩ rfl]
    rw [List.range_succ_eq_map, List.map_cons, List.map_map]
    simp [Function.comp_def, digits]

theorem decompose_terms (b l : Nat) (x : BitVec w) :
    (decompose b l x).terms = (List.range l).map (fun j =>
      { level := l - j, baseLog := b,
        value := (digits b l (closestRepresentable b l x >>> (w - b * l))).getD j 0#w }) :=
  collect_digits b l (decompose b l x) ⟨rfl, rfl⟩ rfl

theorem digits_spec (b l : Nat) (h : ValidParams w b l) (s : BitVec w) :
    ∃ ds : List Int, ds.length = l ∧
      (∀ j < l, (digits b l s).getD j 0#w = ((ds.getD j 0 : Int) : BitVec w)) ∧
      (∀ d ∈ ds, -(2 ^ (b - 1) : Int) ≤ d ∧ d ≤ 2 ^ (b - 1)) ∧
      ∃ r : Int, (s.toNat : Int) =
        ((List.range l).map fun j => ds.getD j 0 * 2 ^ (b * j)).sum + 2 ^ (b * l) * r := by
  have hbw : b < w := by
    have h1 := h.fits
    have h2 := Nat.le_mul_of_pos_right b h.level
    omega
  obtain ⟨ds, hlen, hcol, hbd, hr⟩ := collect_spec b h.base hbw l
    { baseLog := b, state := s, currentLevel := l, modBMask := (1#w <<< b) - 1#w, fresh := true }
    ⟨rfl, rfl⟩ rfl
  rw [collect_digits b l _ ⟨rfl, rfl⟩ rfl] at hcol
  refine ⟨ds, hlen, ?_, hbd, hr⟩
  intro j hj
  have := congrArg (fun L => (L[j]?).map Term.value) hcol
  simpa [List.getElem?_map, List.getElem?_range hj] using this

/-- Sum of the recomposition summands. -/
theorem digits_recompose (b l : Nat) (h : ValidParams w b l) (c : BitVec w)
    (hc : Representable b l c) :
    ((List.range l).map fun j =>
      (digits b l (c >>> (w - b * l))).getD j 0#w * ((2 ^ (w - b * (l - j)) : Nat) : BitVec w)).sum
      = c := by
  obtain ⟨ds, hlen, hv, _, r, hr⟩ := digits_spec b l h (c >>> (w - b * l))
  have hs : c.toNat = (c >>> (w - b * l)).toNat * 2 ^ (w - b * l) := by
    rw [BitVec.toNat_ushiftRight, Nat.shiftRight_eq_div_pow, Nat.div_mul_cancel hc]
  have hc' : c = (((((c >>> (w - b * l)).toNat : Int) * 2 ^ (w - b * l)) : Int) : BitVec w) := by
    conv_lhs => rw [← natCast_toNat c, hs]
    push_cast; rfl
  have hz : (((2 ^ (b * l) * r * 2 ^ (w - b * l) : Int)) : BitVec w) = 0 := by
    have : (2 ^ (b * l) * r * 2 ^ (w - b * l) : Int) = 0 + 2 ^ w * r := by
      have : (2 ^ w : Int) = 2 ^ (b * l) * 2 ^ (w - b * l) := by
        rw [← pow_add]; congr 1; have := h.fits; omega
      rw [this]; ring
    have := (intCast_eq_iff (w := w) _ 0).2 ⟨r, this⟩
    simpa using this
  conv_rhs => rw [hc', hr, add_mul, Int.cast_add, hz, add_zero, ← List.sum_map_mul_right]
  rw [Int.cast_list_sum, List.map_map]
  congr 1
  apply List.map_congr_left
  intro j hj
  have hj' := List.mem_range.1 hj
  rw [hv j hj']
  have e : w - b * (l - j) = b * j + (w - b * l) := by
    have h1 : b * l = b * (l - j) + b * j := by rw [← Nat.mul_add]; congr 1; omega
    have := h.fits
    omega
  rw [e, Nat.pow_add]
  simp only [Function.comp]
  push_cast
  ring

theorem foldl_add_eq_sum {α : Type} (f : α → BitVec w) (l : List α) (a : BitVec w) :
    l.foldl (fun acc t => acc + f t) a = a + (l.map f).sum := by
  induction l generalizing a with
  | nil => simp
  | cons x l ih => rw [List.foldl_cons, ih, List.map_cons, List.sum_cons]; ring

/-! ### Tensors -/

theorem tcollect_digits (b : Nat) :
    ∀ (n : Nat) (it : TIter w), it.baseLog = b → it.modBMask = (1#w <<< b) - 1#w →
      it.currentLevel = n → it.outputs.length = it.states.length →
      it.collect (n + 1) = (List.range n).map (fun j =>
          { level := n - j, baseLog := b,
            tensor := it.states.map fun s => (digits b n s).getD j 0#w }) := by
  intro n
  induction n with
  | zero => intro it _ _ h0 _; simp [TIter.collect, TIter.nextTerm, h0]
  | succ n ih =>
    intro it h1 h2 h0 hlen
    have hz : (it.outputs.zip it.states).map
        (fun p => decomposeOneLevel b p.2 ((1#w <<< b) - 1#w)) =
        it.states.map (fun s => decomposeOneLevel b s ((1#w <<< b) - 1#w)) := by
      have : it.states = (it.outputs.zip it.states).map Prod.snd := by
        rw [List.map_snd_zip]; omega
      conv_rhs => rw [this, List.map_map]
      rfl
    have hnext : it.nextTerm = (some
          ⟨n + 1, b, it.states.map fun s => (decomposeOneLevel b s ((1#w <<< b) - 1#w)).1⟩,
        { it with fresh := false, currentLevel := n,
                  outputs := it.states.map fun s =>
                    (decomposeOneLevel b s ((1#w <<< b) - 1#w)).1,
                  states := it.states.map fun s =>
                    (decomposeOneLevel b s ((1#w <<< b) - 1#w)).2 }) := by
      simp only [TIter.nextTerm, h0, h1, h2, hz]
      simp [← h1, Function.comp_def]
    rw [TIter.collect, hnext]
    simp only
    rw [ih ⟨it.baseLog, n, it.modBMask,
      it.states.map fun s => (decomposeOneLevel b s ((1#w <<< b) - 1#w)).2,
      it.states.map fun s => (decomposeOneLevel b s ((1#w <<< b) - 1#w)).1, false⟩ h1 h2 rfl
      (by simp)]
    rw [List.range_succ_eq_map, List.map_cons, List.map_map]
    simp [Function.comp_def, digits]

theorem decomposeTensor_terms (b l : Nat) (xs : List (BitVec w)) :
    (decomposeTensor b l xs).terms = (List.range l).map (fun j =>
      { level := l - j, baseLog := b,
        tensor := xs.map fun x =>
          (digits b l (closestRepresentable b l x >>> (w - b * l))).getD j 0#w }) := by
  have := tcollect_digits b l (decomposeTensor b l xs) rfl rfl rfl
    (by simp [decomposeTensor, TIter.new])
  rw [TIter.terms]
  refine this.trans ?_
  apply List.map_congr_left
  intro j _
  simp [decomposeTensor, TIter.new]

/-- Adding summands elementwise. -/
theorem foldl_addSummand (xs : List (BitVec w)) (f : Nat → BitVec w → BitVec w) (b : Nat)
    (lv : Nat → Nat) (js : List Nat) :
    ∀ (out : List (BitVec w)), out.length = xs.length →
    (js.map fun j => ({ level := lv j, baseLog := b, tensor := xs.map (f j) } : TTerm w)).foldl
        (fun out t => t.addSummand out) out =
      List.zipWith (fun o x => o + (js.map fun j =>
        f j x * ((2 ^ (w - b * lv j) : Nat) : BitVec w)).sum) out xs := by
  induction js with
  | nil =>
    intro out h
    simp only [List.map_nil, List.foldl_nil, List.sum_nil, add_zero]
    apply List.ext_getElem
    · simp [h]
    · intro i h1 h2; simp
  | cons j js ih =>
    intro out h
    rw [List.map_cons, List.foldl_cons, ih]
    · apply List.ext_getElem
      · simp [TTerm.addSummand]
      · intro i h1 h2
        simp only [TTerm.addSummand, List.getElem_zipWith, List.getElem_map, List.getElem_zip,
          List.map_cons, List.sum_cons, shl_eq_mul]
        ring
    · simp [TTerm.addSummand, h]

end Verif.Decomp
