import Verif.Pbs.Spec
import Verif.Poly.Small
import Verif.Glwe.Lemmas
import Verif.Decomp.Props
import Verif.Util.ParChunks
/-
Lemmas on the external product.
-/
set_option linter.unusedSectionVars false
namespace Verif.Pbs
open Verif.Poly Verif.Glwe Verif.Decomp

variable {w : Nat}

/-- The content of one accumulator polynomial after a list of products. -/
def accPoly (T : Transform w) (ps : List (List (BitVec w) × List (BitVec w))) : T.E :=
  ps.foldl (fun acc x => T.mulAcc acc (T.fwdGgsw x.1) (T.fwdDigit x.2)) T.zero

theorem rowAcc_length (T : Transform w) (buf row : List T.E) (d : List (BitVec w)) :
    (rowAcc T buf row d).length = buf.length := zipUpdate_length _ _ _

theorem foldRow (T : Transform w) (n : Nat) : ∀ (xs : List (List T.E × List (BitVec w))) (buf : List T.E),
    buf.length = n → (∀ x ∈ xs, x.1.length = n) →
    (xs.foldl (fun buf x => rowAcc T buf x.1 x.2) buf).length = n ∧
    ∀ p, p < n → (xs.foldl (fun buf x => rowAcc T buf x.1 x.2) buf).getD p T.zero =
      xs.foldl (fun acc x => T.mulAcc acc (x.1.getD p T.zero) (T.fwdDigit x.2)) (buf.getD p T.zero)
  | [], buf, hb, _ => ⟨hb, fun p _ => rfl⟩
  | x :: xs, buf, hb, hx => by
    have hb' : (rowAcc T buf x.1 x.2).length = n := by rw [rowAcc_length, hb]
    obtain ⟨h1, h2⟩ := foldRow T n xs _ hb' (fun y hy => hx y (List.mem_cons_of_mem _ hy))
    refine ⟨h1, fun p hp => ?_⟩
    rw [List.foldl_cons, h2 p hp, List.foldl_cons]
    congr 1
    rw [rowAcc, zipUpdate_getD _ _ _ _ T.zero T.zero (by omega) (by
      rw [hx x (List.mem_cons_self ..)]; exact hp)]

/-- The pairs of polynomials multiplied into output polynomial `p`: level by level from the last, row by
row. -/
def pairs (N k b l : Nat) (ggsw ct : List (BitVec w)) (p : Nat) : List (List (BitVec w) × List (BitVec w)) :=
  (List.range l).flatMap fun t => (List.range (k + 1)).map fun r =>
    (block N (ggswRow N k ggsw (l - 1 - t) r) p,
     block N (ct.map fun x => (digits b l (closestRepresentable b l x >>> (w - b * l))).getD t 0#w) r)

theorem block_size {α : Type} (n m i : Nat) (l : List α) (h : l.length = m * n) (hi : i < m) :
    (block n l i).length = n := by
  apply block_length
  rw [h]
  exact Nat.mul_le_mul_right _ hi

theorem sum_flatMap' {α S : Type} [AddCommMonoid S] (l : List α) (f : α → List S) :
    (l.flatMap f).sum = (l.map fun x => (f x).sum).sum := by
  induction l with
  | nil => rfl
  | cons a l ih => rw [List.flatMap_cons, List.sum_append, ih, List.map_cons, List.sum_cons]

theorem zip_map_range {α β : Type} (n : Nat) (f : Nat → α) (g : Nat → β) :
    ((List.range n).map f).zip ((List.range n).map g) = (List.range n).map fun i => (f i, g i) := by
  rw [List.zip_map']

theorem reverse_map_range {α : Type} (n : Nat) (f : Nat → α) :
    ((List.range n).map f).reverse = (List.range n).map fun i => f (n - 1 - i) := by
  apply List.ext_getElem
  · simp
  · intro i h1 h2
    simp only [List.length_reverse, List.length_map, List.length_range] at h1
    simp [List.getElem_reverse]

theorem accumulate_spec (T : Transform w) (N k b l : Nat) (hN : 0 < N) (ggsw ct : List (BitVec w))
    (hg : ggsw.length = l * ((k + 1) * ((k + 1) * N))) (hc : ct.length = (k + 1) * N) :
    (accumulate T N k (convert T N ggsw)
      (TIter.new (ct.map (closestRepresentable b l)) b l).terms).length = k + 1 ∧
    ∀ p, p < k + 1 → (accumulate T N k (convert T N ggsw)
      (TIter.new (ct.map (closestRepresentable b l)) b l).terms).getD p T.zero =
        accPoly T (pairs N k b l ggsw ct p) := by
  have hk2 : 0 < (k + 1) * (k + 1) := Nat.mul_pos (by omega) (by omega)
  have hg' : ggsw.length = l * ((k + 1) * (k + 1)) * N := by rw [hg]; simp only [Nat.mul_assoc]
  have hconv : convert T N ggsw = (List.range (l * ((k + 1) * (k + 1)))).map
      (fun i => T.fwdGgsw (block N ggsw i)) := by
    rw [convert, chunks_eq N hN _ _ hg', List.map_map]; rfl
  have hcl : (convert T N ggsw).length = l * ((k + 1) * (k + 1)) := by rw [hconv]; simp
  have hterms := decomposeTensor_terms b l ct
  rw [decomposeTensor] at hterms
  rw [hterms]
  have hmat : ∀ j, j < l → (block ((k + 1) * (k + 1)) (convert T N ggsw) j).length = (k + 1) * (k + 1) :=
    fun j hj => block_size _ _ j _ hcl hj
  have hrow : ∀ j, j < l → ∀ r, r < k + 1 →
      (block (k + 1) (block ((k + 1) * (k + 1)) (convert T N ggsw) j) r).length = k + 1 :=
    fun j hj r hr => block_size _ _ r _ (hmat j hj) hr
  have hacc : accumulate T N k (convert T N ggsw) ((List.range l).map (fun t =>
      { level := l - t, baseLog := b, tensor := ct.map fun x =>
          (digits b l (closestRepresentable b l x >>> (w - b * l))).getD t 0#w })) =
    ((List.range l).flatMap fun t => (List.range (k + 1)).map fun r =>
      (block (k + 1) (block ((k + 1) * (k + 1)) (convert T N ggsw) (l - 1 - t)) r,
       block N (ct.map fun x => (digits b l (closestRepresentable b l x >>> (w - b * l))).getD t 0#w) r)).foldl
      (fun buf x => rowAcc T buf x.1 x.2) (List.replicate (k + 1) T.zero) := by
    rw [accumulate, chunks_eq _ hk2 l _ hcl, reverse_map_range, zip_map_range, List.foldl_map,
      List.foldl_flatMap]
    apply List.foldl_ext
    intro buf t ht
    have htl : t < l := List.mem_range.1 ht
    rw [levelAcc, chunks_eq (k + 1) (by omega) (k + 1) _ (hmat _ (by omega)),
      chunks_eq N hN (k + 1) _ (by simpa using hc), zip_map_range]
  rw [hacc]
  obtain ⟨h1, h2⟩ := foldRow T (k + 1) ((List.range l).flatMap fun t => (List.range (k + 1)).map fun r =>
      (block (k + 1) (block ((k + 1) * (k + 1)) (convert T N ggsw) (l - 1 - t)) r,
       block N (ct.map fun x => (digits b l (closestRepresentable b l x >>> (w - b * l))).getD t 0#w) r))
    (List.replicate (k + 1) T.zero) (by simp) (by
      intro x hx
      obtain ⟨t, ht, hx⟩ := List.mem_flatMap.1 hx
      obtain ⟨r, hr, rfl⟩ := List.mem_map.1 hx
      have := List.mem_range.1 ht
      exact hrow _ (by omega) r (List.mem_range.1 hr))
  refine ⟨h1, fun p hp => ?_⟩
  rw [h2 p hp, accPoly, pairs, List.foldl_flatMap, List.foldl_flatMap,
    show (List.replicate (k + 1) T.zero).getD p T.zero = T.zero by
      simp [List.getD_eq_getElem?_getD, hp]]
  apply List.foldl_ext
  intro acc t ht
  have htl : t < l := List.mem_range.1 ht
  rw [List.foldl_map, List.foldl_map]
  apply List.foldl_ext
  intro acc r hr
  have hr := List.mem_range.1 hr
  congr 1
  have hj : l - 1 - t < l := by omega
  generalize l - 1 - t = j at hj
  rw [block_getD _ _ _ _ _ hp, block_getD _ _ _ _ _ (by
    calc r * (k + 1) + p < r * (k + 1) + (k + 1) := by omega
      _ = (r + 1) * (k + 1) := by rw [Nat.add_mul r, Nat.one_mul]
      _ ≤ (k + 1) * (k + 1) := Nat.mul_le_mul_right _ hr)]
  have hidx : j * ((k + 1) * (k + 1)) + (r * (k + 1) + p) < l * ((k + 1) * (k + 1)) := by
    have h1 : r * (k + 1) + p < (k + 1) * (k + 1) := by
      calc r * (k + 1) + p < r * (k + 1) + (k + 1) := by omega
        _ = (r + 1) * (k + 1) := by rw [Nat.add_mul r, Nat.one_mul]
        _ ≤ (k + 1) * (k + 1) := Nat.mul_le_mul_right _ hr
    calc j * ((k + 1) * (k + 1)) + (r * (k + 1) + p) < j * ((k + 1) * (k + 1)) + (k + 1) * (k + 1) := by omega
      _ = (j + 1) * ((k + 1) * (k + 1)) := by rw [Nat.add_mul j, Nat.one_mul]
      _ ≤ l * ((k + 1) * (k + 1)) := Nat.mul_le_mul_right _ hj
  rw [hconv]
  simp only [List.getD_eq_getElem?_getD, List.getElem?_map, List.getElem?_range hidx, Option.map_some,
    Option.getD_some]
  congr 1
  rw [ggswRow, block_block N (k + 1) _ r p hp]
  have h1 : r * (k + 1) + p < (k + 1) * (k + 1) := by
    calc r * (k + 1) + p < r * (k + 1) + (k + 1) := by omega
      _ = (r + 1) * (k + 1) := by rw [Nat.add_mul r, Nat.one_mul]
      _ ≤ (k + 1) * (k + 1) := Nat.mul_le_mul_right _ hr
  have h2 := block_block N ((k + 1) * (k + 1)) ggsw j (r * (k + 1) + p) h1
  rw [Nat.mul_assoc] at h2
  exact h2.symm

theorem phase_eq (N k : Nat) (key ct : List (BitVec w)) :
    glwePhase N k key ct =
      ∑ p ∈ Finset.range (k + 1), rowFactor N k key p * toRq N (block N ct p) := by
  rw [Finset.sum_range_succ, glwePhase]
  have e : rowFactor N k key k = 1 := by simp [rowFactor]
  have : ∑ p ∈ Finset.range k, rowFactor N k key p * toRq N (block N ct p) =
      ∑ i ∈ Finset.range k, -(toRq N (block N ct i) * toRq N (block N key i)) :=
    Finset.sum_congr rfl fun i hi => by
      rw [rowFactor, if_pos (Finset.mem_range.1 hi)]; ring
  rw [this, Finset.sum_neg_distrib, e]
  ring

/-- The polynomial of the digits of row `r` at level `j + 1`. -/
noncomputable def digitPoly (N b l : Nat) (ct : List (BitVec w)) (j r : Nat) : Rq (BitVec w) N :=
  toRq N (block N (ct.map fun x =>
    (digits b l (closestRepresentable b l x >>> (w - b * l))).getD (l - 1 - j) 0#w) r)

theorem digit_bound (b l : Nat) (h : ValidParams w b l) (x : BitVec w) (t : Nat) (ht : t < l) :
    |((digits b l (closestRepresentable b l x >>> (w - b * l))).getD t 0#w).toInt| ≤ 2 ^ (b - 1) := by
  obtain ⟨ds, hlen, hv, hbd, _⟩ := digits_spec b l h (closestRepresentable b l x >>> (w - b * l))
  rw [hv t ht]
  refine (abs_toInt_le _).trans ?_
  rw [List.getD_eq_getElem?_getD, List.getElem?_eq_getElem (by omega)]
  have := hbd _ (List.getElem_mem (show t < ds.length by omega))
  exact abs_le.2 this

theorem mem_block_map {α β : Type} {f : α → β} {n r : Nat} {l : List α} {c : β}
    (h : c ∈ block n (l.map f) r) : ∃ x ∈ l, c = f x := by
  have h1 := List.mem_of_mem_drop (List.mem_of_mem_take h)
  obtain ⟨x, hx, e⟩ := List.mem_map.1 h1
  exact ⟨x, hx, e.symm⟩

theorem digitPoly_small (N k b l : Nat) (h : ValidParams w b l) (ct : List (BitVec w)) (hc : ct.length = (k + 1) * N)
    (j r : Nat) (hj : j < l) (hr : r < k + 1) : Small N (2 ^ (b - 1)) (digitPoly N b l ct j r) := by
  apply small_toRq N _ (block_len N _ r _ (by simpa using hc) hr)
  intro c hc'
  obtain ⟨x, _, rfl⟩ := mem_block_map hc'
  exact digit_bound b l h x _ (by omega)

/-- The digits recompose into the rounded ciphertext. -/
theorem digitPoly_recompose (N k b l : Nat) (h : ValidParams w b l) (ct : List (BitVec w))
    (hc : ct.length = (k + 1) * N) (r : Nat) (hr : r < k + 1) :
    ∑ j ∈ Finset.range l, digitPoly N b l ct j r * 2 ^ (w - b * (j + 1)) =
      toRq N (block N (ct.map (closestRepresentable b l)) r) := by
  have hlen : ∀ f : BitVec w → BitVec w, (block N (ct.map f) r).length = N := fun f =>
    block_len N _ r _ (by simpa using hc) hr
  simp only [digitPoly]
  conv_rhs => rw [toRq_sum, hlen]
  have : ∀ j ∈ Finset.range l, toRq N (block N (ct.map fun x =>
      (digits b l (closestRepresentable b l x >>> (w - b * l))).getD (l - 1 - j) 0#w) r) *
        (2 : Rq (BitVec w) N) ^ (w - b * (j + 1)) =
      ∑ i ∈ Finset.range N, AdjoinRoot.of _ ((block N (ct.map fun x =>
        (digits b l (closestRepresentable b l x >>> (w - b * l))).getD (l - 1 - j) 0#w) r).getD i 0 *
          ((2 ^ (w - b * (j + 1)) : Nat) : BitVec w)) * Xq (BitVec w) N ^ i := by
    intro j _
    rw [toRq_sum, hlen, Finset.sum_mul]
    refine Finset.sum_congr rfl fun i _ => ?_
    rw [map_mul, map_natCast]
    push_cast
    ring
  rw [Finset.sum_congr rfl this, Finset.sum_comm]
  refine Finset.sum_congr rfl fun i hi => ?_
  have hi := Finset.mem_range.1 hi
  rw [← Finset.sum_mul, ← map_sum]
  congr 2
  have hget : ∀ f : BitVec w → BitVec w, (block N (ct.map f) r).getD i 0 = f (ct.getD (r * N + i) 0) := by
    intro f
    have hlt : r * N + i < ct.length := by
      rw [hc]
      calc r * N + i < r * N + N := by omega
        _ = (r + 1) * N := by rw [Nat.add_mul r, Nat.one_mul]
        _ ≤ (k + 1) * N := Nat.mul_le_mul_right _ hr
    rw [block_getD _ _ _ _ _ hi]
    simp only [List.getD_eq_getElem?_getD, List.getElem?_map, List.getElem?_eq_getElem hlt, Option.map_some,
      Option.getD_some]
  rw [hget]
  have hrec := digits_recompose b l h (closestRepresentable b l (ct.getD (r * N + i) 0))
    (closest_signed b l h _).1
  conv_rhs => rw [← hrec]
  rw [list_sum_range, ← Finset.sum_range_reflect]
  refine Finset.sum_congr rfl fun j hj => ?_
  have hj := Finset.mem_range.1 hj
  rw [hget, show l - 1 - (l - 1 - j) = j by omega, show l - 1 - j + 1 = l - j by omega]

/-- The phase of polynomials that are, up to errors `δ`, those of an output plus the products of the GGSW and the digits
of `ct`. -/
theorem products_phase (N k b l : Nat) (hN : 0 < N) (key out ggsw ct : List (BitVec w)) (res : Nat → List (BitVec w))
    (δ : Nat → Rq (BitVec w) N) (hδ : ∀ p, p < k + 1 → (res p).length = N ∧
      toRq N (res p) = toRq N (block N out p) +
        ((pairs N k b l ggsw ct p).map fun x => toRq N x.1 * toRq N x.2).sum + δ p) :
    CtFits N k ((List.range (k + 1)).map res).flatten ∧
      glwePhase N k key ((List.range (k + 1)).map res).flatten =
        glwePhase N k key out +
        ∑ j ∈ Finset.range l, ∑ r ∈ Finset.range (k + 1),
          digitPoly N b l ct j r * glwePhase N k key (ggswRow N k ggsw j r) +
        ∑ p ∈ Finset.range (k + 1), rowFactor N k key p * δ p := by
  have hall : ∀ x ∈ (List.range (k + 1)).map res, x.length = N := by
    intro x hx
    obtain ⟨p, hp, rfl⟩ := List.mem_map.1 hx
    exact (hδ p (List.mem_range.1 hp)).1
  refine ⟨by rw [CtFits, flatten_length_uniform N _ hall]; simp, ?_⟩
  rw [phase_eq, phase_eq]
  have hp : ∀ p ∈ Finset.range (k + 1), rowFactor N k key p * toRq N (block N ((List.range (k + 1)).map res).flatten p) =
      rowFactor N k key p * toRq N (block N out p) +
      ∑ j ∈ Finset.range l, ∑ r ∈ Finset.range (k + 1),
        digitPoly N b l ct j r * (rowFactor N k key p * toRq N (block N (ggswRow N k ggsw j r) p)) +
      rowFactor N k key p * δ p := by
    intro p hp
    have hp := Finset.mem_range.1 hp
    rw [block_flatten N hN _ hall p _ (by simp only [List.getElem?_map, List.getElem?_range hp]; rfl),
      (hδ p hp).2]
    have hs : ((pairs N k b l ggsw ct p).map fun x => toRq N x.1 * toRq N x.2).sum =
        ∑ j ∈ Finset.range l, ∑ r ∈ Finset.range (k + 1),
          digitPoly N b l ct j r * toRq N (block N (ggswRow N k ggsw j r) p) := by
      rw [pairs, List.map_flatMap, sum_flatMap', list_sum_range, ← Finset.sum_range_reflect]
      refine Finset.sum_congr rfl fun j hj => ?_
      have hj := Finset.mem_range.1 hj
      rw [List.map_map, list_sum_range]
      refine Finset.sum_congr rfl fun r _ => ?_
      simp only [Function.comp, digitPoly]
      rw [show l - 1 - (l - 1 - j) = j by omega, mul_comm]
    rw [hs, mul_add, mul_add, Finset.mul_sum]
    congr 2
    refine Finset.sum_congr rfl fun j _ => ?_
    rw [Finset.mul_sum]
    exact Finset.sum_congr rfl fun r _ => by ring
  rw [Finset.sum_congr rfl hp, Finset.sum_add_distrib, Finset.sum_add_distrib]
  congr 2
  rw [Finset.sum_comm]
  refine Finset.sum_congr rfl fun j _ => ?_
  rw [Finset.sum_comm]
  refine Finset.sum_congr rfl fun r _ => ?_
  rw [phase_eq, Finset.mul_sum]

/-- The exact phase of an external product. -/
theorem externalProduct_phase (T : Transform w) (N k b l : Nat) (hN : 0 < N) (D B : Int)
    (hT : T.Accurate N (l * (k + 1)) D B) (hD : 2 ^ (b - 1) ≤ D) (h : ValidParams w b l)
    (key out ggsw ct : List (BitVec w)) (ho : CtFits N k out) (hc : CtFits N k ct)
    (hg : ggsw.length = l * ((k + 1) * ((k + 1) * N))) :
    CtFits N k (externalProduct T N k b l out (convert T N ggsw) ct) ∧
    ∃ δ : Nat → Rq (BitVec w) N, (∀ p, p < k + 1 → Small N B (δ p)) ∧
      glwePhase N k key (externalProduct T N k b l out (convert T N ggsw) ct) =
        glwePhase N k key out +
        ∑ j ∈ Finset.range l, ∑ r ∈ Finset.range (k + 1),
          digitPoly N b l ct j r * glwePhase N k key (ggswRow N k ggsw j r) +
        ∑ p ∈ Finset.range (k + 1), rowFactor N k key p * δ p := by
  obtain ⟨a1, a2⟩ := accumulate_spec T N k b l hN ggsw ct hg hc
  have hrowlen : ∀ j, j < l → ∀ r, r < k + 1 → (ggswRow N k ggsw j r).length = (k + 1) * N := by
    intro j hj r hr
    exact block_len _ _ r _ (block_len _ _ j _ hg hj) hr
  have hpl : ∀ p, (pairs N k b l ggsw ct p).length ≤ l * (k + 1) := by
    intro p
    simp [pairs, List.length_flatMap]
  have hpm : ∀ p, p < k + 1 → ∀ x ∈ pairs N k b l ggsw ct p,
      x.1.length = N ∧ x.2.length = N ∧ ∀ c ∈ x.2, |c.toInt| ≤ D := by
    intro p hp x hx
    obtain ⟨t, ht, hx⟩ := List.mem_flatMap.1 hx
    obtain ⟨r, hr, rfl⟩ := List.mem_map.1 hx
    have ht := List.mem_range.1 ht
    have hr := List.mem_range.1 hr
    refine ⟨block_len _ _ p _ (hrowlen _ (by omega) r hr) hp, block_len N _ r _ (by simpa using (show ct.length = _ from hc)) hr, ?_⟩
    intro c hc'
    obtain ⟨y, _, rfl⟩ := mem_block_map hc'
    exact (digit_bound b l h y t ht).trans hD
  have hout : ∀ p, p < k + 1 → (block N out p).length = N := fun p hp => block_len N _ p _ ho hp
  have key' : ∀ p, ∃ δ : Rq (BitVec w) N, p < k + 1 →
      (T.addBack (block N out p) (accPoly T (pairs N k b l ggsw ct p))).length = N ∧ Small N B δ ∧
      toRq N (T.addBack (block N out p) (accPoly T (pairs N k b l ggsw ct p))) = toRq N (block N out p) +
        ((pairs N k b l ggsw ct p).map fun x => toRq N x.1 * toRq N x.2).sum + δ := by
    intro p
    by_cases hp : p < k + 1
    · obtain ⟨h1, δ, h2, h3⟩ := hT (block N out p) (pairs N k b l ggsw ct p) (hout p hp) (hpl p) (hpm p hp)
      exact ⟨δ, fun _ => ⟨h1, h2, h3⟩⟩
    · exact ⟨0, fun h => absurd h hp⟩
  choose δ hδ using key'
  have hres : externalProduct T N k b l out (convert T N ggsw) ct =
      ((List.range (k + 1)).map fun p =>
        T.addBack (block N out p) (accPoly T (pairs N k b l ggsw ct p))).flatten := by
    rw [externalProduct, addOut]
    congr 1
    apply List.ext_getElem?
    intro p
    rw [zipUpdate_getElem?, chunks_eq N hN (k + 1) _ ho]
    by_cases hp : p < k + 1
    · have hb : (accumulate T N k (convert T N ggsw)
        (TIter.new (ct.map (closestRepresentable b l)) b l).terms)[p]? =
          some (accPoly T (pairs N k b l ggsw ct p)) := by
        rw [← a2 p hp, List.getD_eq_getElem?_getD, List.getElem?_eq_getElem (by omega)]
        rfl
      rw [hb]
      simp [hp]
    · rw [List.getElem?_eq_none (by simpa using hp), List.getElem?_eq_none (l := List.map _ _)
        (by simpa using hp)]
  rw [hres]
  obtain ⟨c1, c2⟩ := products_phase N k b l hN key out ggsw ct
    (fun p => T.addBack (block N out p) (accPoly T (pairs N k b l ggsw ct p))) δ
    (fun p hp => ⟨(hδ p hp).1, (hδ p hp).2.2⟩)
  exact ⟨c1, δ, fun p hp => (hδ p hp).2.1, c2⟩

end Verif.Pbs
