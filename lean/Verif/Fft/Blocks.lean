import Verif.Fft.Model
import Verif.Fft.SimdLemmas
/-
The vectorised loops compute every element independently: the lane permutations put each result in its
place, provided that the number of elements is a multiple of the number of lanes.
-/
namespace Verif.Fft
open Verif.Float Verif.Encode

variable {w : Nat}

theorem storeBlocks_eq {α : Type} (L n : Nat) (hL : 0 < L) (hn : L ∣ n) (block : Nat → List α)
    (old : List α) (hold : old.length ≤ n) (g : Nat → α)
    (h : ∀ i, i < n / L → block (L * i) = (List.range L).map fun j => g (L * i + j)) :
    storeBlocks L n block old = (List.range n).map g := by
  obtain ⟨m, rfl⟩ := hn
  rw [Nat.mul_div_cancel_left m hL] at h
  unfold storeBlocks
  rw [Nat.mul_div_cancel_left m hL, List.drop_eq_nil_of_le hold, List.append_nil]
  clear hold
  induction m with
  | zero => simp
  | succ m ih =>
    rw [List.range_succ, List.flatMap_append, ih fun i hi => h i (by omega)]
    simp only [List.flatMap_cons, List.flatMap_nil, List.append_nil]
    rw [h m (by omega), Nat.mul_succ, List.range_add, List.map_append, List.map_map]
    rfl

theorem loadu_eq {α : Type} (L : Nat) (xs : List α) (i : Nat) (d : α) (h : i + L ≤ xs.length) :
    loadu L xs i = (List.range L).map fun j => xs.getD (i + j) d := by
  unfold loadu
  apply List.ext_getElem?
  intro j
  rw [List.getElem?_take, List.getElem?_drop, List.getElem?_map]
  by_cases hj : j < L
  · rw [if_pos hj, List.getElem?_range hj, List.getElem?_eq_getElem (by omega)]
    simp [List.getD_eq_getElem?_getD, List.getElem?_eq_getElem (show i + j < xs.length by omega)]
  · rw [if_neg hj]
    have : (List.range L)[j]? = none := by rw [List.getElem?_eq_none_iff, List.length_range]; omega
    rw [this]; rfl

theorem getD_map_re (tw : List C64) (i : Nat) :
    (tw.map C64.re).getD i (.fin 0) = (tw.getD i ⟨.fin 0, .fin 0⟩).re := by
  rw [List.getD_eq_getElem?_getD, List.getElem?_map, List.getD_eq_getElem?_getD]
  cases tw[i]? <;> rfl

theorem getD_map_im (tw : List C64) (i : Nat) :
    (tw.map C64.im).getD i (.fin 0) = (tw.getD i ⟨.fin 0, .fin 0⟩).im := by
  rw [List.getD_eq_getElem?_getD, List.getElem?_map, List.getD_eq_getElem?_getD]
  cases tw[i]? <;> rfl

/-- Element `i` of a list of complex numbers. -/
abbrev at' (zs : List C64) (i : Nat) : C64 := zs.getD i ⟨.fin 0, .fin 0⟩

theorem zipWith_range {α β γ : Type} (f : α → β → γ) (xs : List α) (ys : List β) (n : Nat) (a : α) (b : β)
    (hx : xs.length = n) (hy : ys.length = n) :
    List.zipWith f xs ys = (List.range n).map fun i => f (xs.getD i a) (ys.getD i b) := by
  apply List.ext_getElem?
  intro i
  rw [List.getElem?_zipWith, List.getElem?_map]
  by_cases hi : i < n
  · rw [List.getElem?_range hi, List.getElem?_eq_getElem (by omega), List.getElem?_eq_getElem (by omega)]
    simp [List.getD_eq_getElem?_getD, List.getElem?_eq_getElem (show i < xs.length by omega),
      List.getElem?_eq_getElem (show i < ys.length by omega)]
  · have : (List.range n)[i]? = none := by rw [List.getElem?_eq_none_iff, List.length_range]; omega
    rw [this, List.getElem?_eq_none (by omega)]; rfl

/-! ### Forward conversions -/

/-- Complex product with fused operations (x86.rs:230-232, 299-301, 366-368, 433-435). -/
def mulFused (re im : F64) (t : C64) : C64 :=
  ⟨F64.fma re t.re (F64.mul im t.im).neg, F64.fma re t.im (F64.mul im t.re)⟩

theorem forwardTorus_eq (n : Nat) (re im : List (BitVec w)) (tw : List C64) (hr : re.length = n)
    (hi : im.length = n) (ht : tw.length = n) :
    convertForwardTorus re im tw = (List.range n).map fun j => torusElt (re.getD j 0) (im.getD j 0) (at' tw j) := by
  unfold convertForwardTorus
  rw [zipWith_range _ _ _ n (0, 0) ⟨.fin 0, .fin 0⟩ (by simp [hr, hi]) ht]
  apply List.map_congr_left
  intro j hj
  rw [List.mem_range] at hj
  have : (re.zip im).getD j (0, 0) = (re.getD j 0, im.getD j 0) := by
    simp [List.getD_eq_getElem?_getD, List.getElem?_eq_getElem (show j < re.length by omega),
      List.getElem?_eq_getElem (show j < im.length by omega),
      List.getElem?_eq_getElem (show j < (re.zip im).length by simp; omega)]
  rw [this]

theorem forwardIntegerScalar_eq (n : Nat) (re im : List (BitVec w)) (tw : List C64) (hr : re.length = n)
    (hi : im.length = n) (ht : tw.length = n) :
    convertForwardIntegerScalar re im tw =
      (List.range n).map fun j => integerElt (re.getD j 0) (im.getD j 0) (at' tw j) := by
  unfold convertForwardIntegerScalar
  rw [zipWith_range _ _ _ n (0, 0) ⟨.fin 0, .fin 0⟩ (by simp [hr, hi]) ht]
  apply List.map_congr_left
  intro j hj
  rw [List.mem_range] at hj
  have : (re.zip im).getD j (0, 0) = (re.getD j 0, im.getD j 0) := by
    simp [List.getD_eq_getElem?_getD, List.getElem?_eq_getElem (show j < re.length by omega),
      List.getElem?_eq_getElem (show j < im.length by omega),
      List.getElem?_eq_getElem (show j < (re.zip im).length by simp; omega)]
  rw [this]

theorem cvtIntFma_eq (x : BitVec w) : cvtIntFma x = ofSigned x := by
  unfold cvtIntFma
  split
  · rename_i h
    subst h
    rw [cvtepi64Pd_eq]; rfl
  · rfl

theorem forwardIntegerFma_eq (n : Nat) (h4 : 4 ∣ n) (re im : List (BitVec w)) (tw : List C64) (hr : re.length = n)
    (hi : im.length = n) (ht : tw.length = n) :
    convertForwardIntegerFma re im tw =
      (List.range n).map fun j => mulFused (ofSigned (re.getD j 0)) (ofSigned (im.getD j 0)) (at' tw j) := by
  unfold convertForwardIntegerFma
  rw [hr]
  apply storeBlocks_eq 4 n (by norm_num) h4 _ _ (by simp)
  intro i hi'
  have hb : 4 * i + 4 ≤ n := by omega
  rw [loadu_eq 4 re _ 0 (by omega), loadu_eq 4 im _ 0 (by omega),
    loadu_eq 4 (tw.map C64.re) _ (.fin 0) (by simpa [ht] using hb),
    loadu_eq 4 (tw.map C64.im) _ (.fin 0) (by simpa [ht] using hb)]
  simp only [getD_map_re, getD_map_im, funext (cvtIntFma_eq (w := w))]
  rfl

theorem forwardIntegerAvx512_eq (n : Nat) (h8 : 8 ∣ n) (re im : List (BitVec w)) (tw : List C64) (hr : re.length = n)
    (hi : im.length = n) (ht : tw.length = n) :
    convertForwardIntegerAvx512 re im tw =
      (List.range n).map fun j => mulFused (ofSigned (re.getD j 0)) (ofSigned (im.getD j 0)) (at' tw j) := by
  unfold convertForwardIntegerAvx512
  rw [hr]
  apply storeBlocks_eq 8 n (by norm_num) h8 _ _ (by simp)
  intro i hi'
  have hb : 8 * i + 8 ≤ n := by omega
  rw [loadu_eq 8 re _ 0 (by omega), loadu_eq 8 im _ 0 (by omega),
    loadu_eq 8 (tw.map C64.re) _ (.fin 0) (by simpa [ht] using hb),
    loadu_eq 8 (tw.map C64.im) _ (.fin 0) (by simpa [ht] using hb)]
  simp only [getD_map_re, getD_map_im]
  rfl

/-! ### Backward conversions -/

/-- Product by the conjugate of the twisting factor over `n`, with fused operations (x86.rs:483-507,
649-677). -/
def backFused (n : Nat) (z t : C64) : C64 :=
  let normalization := (F64.fin 1).div (F64.ofNat n)
  let wr := normalization.mul t.re
  let wi := normalization.mul t.im
  ⟨F64.fma z.re wr (z.im.mul wi), F64.fma z.re.neg wi (z.im.mul wr)⟩

/-- The fractional part, scaled and rounded (x86.rs:513-517, 683-687). -/
def fracFused (w : Nat) (x : F64) : F64 := ((F64.powi2 w).mul (x.sub x.roundEven)).roundEven

theorem loadu_one (inp : List C64) (i : Nat) (h : i < inp.length) : loadu 1 inp i = [at' inp i] := by
  rw [loadu_eq 1 inp i ⟨.fin 0, .fin 0⟩ (by omega)]; rfl

theorem backwardFma_eq (n : Nat) (h4 : 4 ∣ n) (re im : List (BitVec w)) (inp tw : List C64) (hr : re.length = n)
    (hi : im.length = n) (hz : inp.length = n) (ht : tw.length = n) :
    convertAddBackwardTorusFma re im inp tw =
      ((List.range n).map fun j => re.getD j 0 + cvtTorusFma w (fracFused w (backFused n (at' inp j) (at' tw j)).re),
       (List.range n).map fun j => im.getD j 0 + cvtTorusFma w (fracFused w (backFused n (at' inp j) (at' tw j)).im)) := by
  unfold convertAddBackwardTorusFma
  dsimp only
  rw [hr]
  rw [Prod.mk.injEq]
  constructor
  · apply storeBlocks_eq 4 n (by norm_num) h4 _ _ (by omega)
    intro i hi'
    have hb : 4 * i + 4 ≤ n := by omega
    simp only [BitVec.add_comm (re.getD _ 0)]
    unfold prologueFma
    rw [loadu_one _ _ (by omega), loadu_one _ _ (by omega), loadu_one _ _ (by omega), loadu_one _ _ (by omega),
      loadu_eq 4 re _ 0 (by omega),
      loadu_eq 4 (tw.map C64.re) _ (.fin 0) (by simpa [ht] using hb),
      loadu_eq 4 (tw.map C64.im) _ (.fin 0) (by simpa [ht] using hb)]
    simp only [getD_map_re, getD_map_im]
    rfl
  · apply storeBlocks_eq 4 n (by norm_num) h4 _ _ (by omega)
    intro i hi'
    have hb : 4 * i + 4 ≤ n := by omega
    simp only [BitVec.add_comm (im.getD _ 0)]
    unfold prologueFma
    rw [loadu_one _ _ (by omega), loadu_one _ _ (by omega), loadu_one _ _ (by omega), loadu_one _ _ (by omega),
      loadu_eq 4 im _ 0 (by omega),
      loadu_eq 4 (tw.map C64.re) _ (.fin 0) (by simpa [ht] using hb),
      loadu_eq 4 (tw.map C64.im) _ (.fin 0) (by simpa [ht] using hb)]
    simp only [getD_map_re, getD_map_im]
    rfl

theorem backwardAvx512_eq (n : Nat) (h8 : 8 ∣ n) (re im : List (BitVec w)) (inp tw : List C64) (hr : re.length = n)
    (hi : im.length = n) (hz : inp.length = n) (ht : tw.length = n) :
    convertAddBackwardTorusAvx512 re im inp tw =
      ((List.range n).map fun j => re.getD j 0 + cvtTorusAvx512 w (fracFused w (backFused n (at' inp j) (at' tw j)).re),
       (List.range n).map fun j => im.getD j 0 + cvtTorusAvx512 w (fracFused w (backFused n (at' inp j) (at' tw j)).im)) := by
  unfold convertAddBackwardTorusAvx512
  dsimp only
  rw [hr]
  rw [Prod.mk.injEq]
  constructor
  · apply storeBlocks_eq 8 n (by norm_num) h8 _ _ (by omega)
    intro i hi'
    have hb : 8 * i + 8 ≤ n := by omega
    simp only [BitVec.add_comm (re.getD _ 0)]
    unfold prologueAvx512
    rw [loadu_eq 4 inp _ ⟨.fin 0, .fin 0⟩ (by omega), loadu_eq 4 inp (8 * i + 4) ⟨.fin 0, .fin 0⟩ (by omega),
      loadu_eq 8 re _ 0 (by omega),
      loadu_eq 8 (tw.map C64.re) _ (.fin 0) (by simpa [ht] using hb),
      loadu_eq 8 (tw.map C64.im) _ (.fin 0) (by simpa [ht] using hb)]
    simp only [getD_map_re, getD_map_im]
    rfl
  · apply storeBlocks_eq 8 n (by norm_num) h8 _ _ (by omega)
    intro i hi'
    have hb : 8 * i + 8 ≤ n := by omega
    simp only [BitVec.add_comm (im.getD _ 0)]
    unfold prologueAvx512
    rw [loadu_eq 4 inp _ ⟨.fin 0, .fin 0⟩ (by omega), loadu_eq 4 inp (8 * i + 4) ⟨.fin 0, .fin 0⟩ (by omega),
      loadu_eq 8 im _ 0 (by omega),
      loadu_eq 8 (tw.map C64.re) _ (.fin 0) (by simpa [ht] using hb),
      loadu_eq 8 (tw.map C64.im) _ (.fin 0) (by simpa [ht] using hb)]
    simp only [getD_map_re, getD_map_im]
    rfl

theorem backwardScalar_eq (n : Nat) (re im : List (BitVec w)) (inp tw : List C64) (hr : re.length = n)
    (hi : im.length = n) (hz : inp.length = n) (ht : tw.length = n) :
    convertAddBackwardTorusScalar re im inp tw =
      ((List.range n).map fun j => re.getD j 0 + fromTorus w (backElt n (at' inp j) (at' tw j)).re,
       (List.range n).map fun j => im.getD j 0 + fromTorus w (backElt n (at' inp j) (at' tw j)).im) := by
  unfold convertAddBackwardTorusScalar
  dsimp only
  rw [zipWith_range _ inp tw n ⟨.fin 0, .fin 0⟩ ⟨.fin 0, .fin 0⟩ hz ht, hz]
  have hg : ∀ j, j < n → ((List.range n).map fun i => backElt n (at' inp i) (at' tw i)).getD j ⟨.fin 0, .fin 0⟩ =
      backElt n (at' inp j) (at' tw j) := by
    intro j hj
    rw [List.getD_eq_getElem?_getD, List.getElem?_map, List.getElem?_range hj]; rfl
  rw [zipWith_range _ re _ n 0 ⟨.fin 0, .fin 0⟩ hr (by simp), zipWith_range _ im _ n 0 ⟨.fin 0, .fin 0⟩ hi (by simp)]
  rw [Prod.mk.injEq]
  constructor
  · apply List.map_congr_left
    intro j hj
    rw [List.mem_range] at hj
    rw [hg j hj]
  · apply List.map_congr_left
    intro j hj
    rw [List.mem_range] at hj
    rw [hg j hj]

/-! ### Products -/

/-- Complex product in a block (ggsw.rs:526-529, 587-590). -/
def mulFused2 (a x : C64) : C64 :=
  ⟨F64.fma a.re x.re (F64.mul a.im x.im).neg, F64.fma a.re x.im (F64.mul a.im x.re)⟩

/-- Complex multiply-add in a block (ggsw.rs:539-546, 600-607). -/
def mulAddFused (o a x : C64) : C64 :=
  ⟨F64.fma a.re x.re (F64.fma a.im x.im o.re.neg).neg, F64.fma a.re x.im (F64.fma a.im x.re o.im)⟩

theorem fmaddScalar_none (n : Nat) (a x : List C64) (ha : a.length = n) (hx : x.length = n) :
    fmaddScalar none a x = (List.range n).map fun j => (at' a j).mul (at' x j) :=
  zipWith_range _ _ _ n _ _ ha hx

theorem fmaddScalar_some (n : Nat) (o a x : List C64) (ho : o.length = n) (ha : a.length = n) (hx : x.length = n) :
    fmaddScalar (some o) a x = (List.range n).map fun j => (at' o j).add ((at' a j).mul (at' x j)) := by
  show List.zipWith C64.add o (List.zipWith C64.mul a x) = _
  rw [zipWith_range C64.mul a x n ⟨.fin 0, .fin 0⟩ ⟨.fin 0, .fin 0⟩ ha hx,
    zipWith_range _ o _ n ⟨.fin 0, .fin 0⟩ ⟨.fin 0, .fin 0⟩ ho (by simp)]
  apply List.map_congr_left
  intro j hj
  rw [List.mem_range] at hj
  congr 1
  rw [List.getD_eq_getElem?_getD, List.getElem?_map, List.getElem?_range hj]; rfl

theorem fmaddSimd_none (L n : Nat) (hL : L = 2 ∨ L = 4) (hn : L ∣ n) (a x : List C64) (ha : a.length = n)
    (hx : x.length = n) :
    fmaddSimd L none a x = (List.range n).map fun j => mulFused2 (at' a j) (at' x j) := by
  unfold fmaddSimd
  rcases hL with rfl | rfl <;> dsimp only <;> rw [ha]
  · apply storeBlocks_eq 2 n (by norm_num) hn _ _ (by simp)
    intro i hi
    rw [loadu_eq 2 a _ ⟨.fin 0, .fin 0⟩ (by omega), loadu_eq 2 x _ ⟨.fin 0, .fin 0⟩ (by omega)]
    rfl
  · apply storeBlocks_eq 4 n (by norm_num) hn _ _ (by simp)
    intro i hi
    rw [loadu_eq 4 a _ ⟨.fin 0, .fin 0⟩ (by omega), loadu_eq 4 x _ ⟨.fin 0, .fin 0⟩ (by omega)]
    rfl

theorem fmaddSimd_some (L n : Nat) (hL : L = 2 ∨ L = 4) (hn : L ∣ n) (o a x : List C64) (ho : o.length = n)
    (ha : a.length = n) (hx : x.length = n) :
    fmaddSimd L (some o) a x = (List.range n).map fun j => mulAddFused (at' o j) (at' a j) (at' x j) := by
  unfold fmaddSimd
  rcases hL with rfl | rfl <;> dsimp only <;> rw [ho]
  · apply storeBlocks_eq 2 n (by norm_num) hn _ _ (by omega)
    intro i hi
    rw [loadu_eq 2 a _ ⟨.fin 0, .fin 0⟩ (by omega), loadu_eq 2 x _ ⟨.fin 0, .fin 0⟩ (by omega),
      loadu_eq 2 o _ ⟨.fin 0, .fin 0⟩ (by omega)]
    rfl
  · apply storeBlocks_eq 4 n (by norm_num) hn _ _ (by omega)
    intro i hi
    rw [loadu_eq 4 a _ ⟨.fin 0, .fin 0⟩ (by omega), loadu_eq 4 x _ ⟨.fin 0, .fin 0⟩ (by omega),
      loadu_eq 4 o _ ⟨.fin 0, .fin 0⟩ (by omega)]
    rfl

end Verif.Fft
