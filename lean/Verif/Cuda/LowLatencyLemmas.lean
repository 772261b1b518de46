import Verif.Cuda.LowLatency
import Verif.Cuda.AmortizedLemmas
import Verif.Cuda.Props6
/-
Lemmas on the low latency bootstrap of CUDA: an iteration selects, whatever the order in which the products are added.
-/
set_option linter.unusedSectionVars false
namespace Verif.Cuda.Am
open Verif.Pbs Verif.Poly Verif.Glwe Verif.Decomp
open Verif.Cuda.Thr (stateAfter stateAfter_succ levelDigit_state)

variable {w : Nat}

/-- `e` is a sum of the products of the pairs `ps`, with the additions in any order. -/
inductive IsSum (G : GpuTransform w) : List (List (BitVec w) × List (BitVec w)) → G.E → Prop
  | zero : IsSum G [] G.zero
  | one (a d : List (BitVec w)) : IsSum G [(a, d)] (G.mul (G.fwdDigit d) (G.fwdGgsw a))
  | add {ps qs e f} : IsSum G ps e → IsSum G qs f → IsSum G (ps ++ qs) (G.add e f)

/-- What is required of the transform of the GPU: a sum, in any order, of at most `M` products of polynomials of size
`N`, whose second factors have coefficients of absolute value at most `D`, is added to the output with an error of at most
`B` on each coefficient. -/
def GpuTransform.Accurate (G : GpuTransform w) (N M : Nat) (D B : Int) : Prop :=
  ∀ (out : List (BitVec w)) (ps : List (List (BitVec w) × List (BitVec w))) (e : G.E), out.length = N →
    ps.length ≤ M → (∀ x ∈ ps, x.1.length = N ∧ x.2.length = N ∧ ∀ c ∈ x.2, |c.toInt| ≤ D) → IsSum G ps e →
    (G.addBack out e).length = N ∧ ∃ δ : Rq (BitVec w) N, Small N B δ ∧
      toRq N (G.addBack out e) = toRq N out + (ps.map fun x => toRq N x.1 * toRq N x.2).sum + δ

/-- The amortized bootstrap adds the products one after the other. -/
theorem GpuTransform.Accurate.toTransform {G : GpuTransform w} {N M : Nat} {D B : Int} (h : G.Accurate N M D B) :
    G.toTransform.Accurate N M D B := by
  intro out ps ho hl hp
  refine h out ps _ ho hl hp ?_
  suffices H : ∀ (ps qs : List (List (BitVec w) × List (BitVec w))) (e : G.E), IsSum G qs e →
      IsSum G (qs ++ ps) (ps.foldl (fun acc x => G.add acc (G.mul (G.fwdDigit x.2) (G.fwdGgsw x.1))) e) from by
    have := H ps [] G.zero .zero
    rwa [List.nil_append] at this
  intro ps
  induction ps with
  | nil => intro qs e he; simpa using he
  | cons x ps ih =>
    intro qs e he
    have := ih (qs ++ [x]) _ (.add he (.one x.1 x.2))
    rw [List.append_assoc] at this
    exact this

theorem lastDigits_eq (b : Nat) : ∀ (n : Nat) (state : List (BitVec w)),
    lastDigits b (n + 1) state = state.map fun s => castDigit (levelDigit b n s)
  | 0, state => rfl
  | n + 1, state => by
    rw [lastDigits, lastDigits_eq b n]
    simp only [nextDigits, List.map_map]
    rfl

theorem isSum_fold (G : GpuTransform w) (f : Nat → List (List (BitVec w) × List (BitVec w))) (g : Nat → G.E)
    (ps : List (List (BitVec w) × List (BitVec w))) (e : G.E) (he : IsSum G ps e) : ∀ n,
    (∀ i, i < n → IsSum G (f i) (g i)) →
    IsSum G (ps ++ (List.range n).flatMap f) ((List.range n).foldl (fun s i => G.add s (g i)) e)
  | 0, _ => by simpa using he
  | n + 1, h => by
    have := IsSum.add (isSum_fold G f g ps e he n (fun i hi => h i (by omega))) (h n (by omega))
    rw [List.range_succ, List.flatMap_append, List.foldl_append, List.flatMap_singleton, ← List.append_assoc]
    exact this

/-- The pair of polynomials multiplied by block `(v, y)` into polynomial `c`. -/
def pair (N k b l : Nat) (ggsw ct : List (BitVec w)) (c v y : Nat) : List (BitVec w) × List (BitVec w) :=
  (block N (ggswRow N k ggsw v y) c,
   block N (ct.map fun x => (digits b l (closestRepresentable b l x >>> (w - b * l))).getD (l - 1 - v) 0#w) y)

/-- The pairs of level `v`, in the order of the low latency bootstrap. -/
def levelPairs (N k b l : Nat) (ggsw ct : List (BitVec w)) (c v : Nat) :
    List (List (BitVec w) × List (BitVec w)) :=
  pair N k b l ggsw ct c v c ::
    (List.range k).map fun j => pair N k b l ggsw ct c v ((c + (k + 1) - (j + 1)) % (k + 1))

/-- All pairs, in the order of the low latency bootstrap. -/
def lowPairs (N k b l : Nat) (ggsw ct : List (BitVec w)) (c : Nat) : List (List (BitVec w) × List (BitVec w)) :=
  (List.range l).flatMap (levelPairs N k b l ggsw ct c)

/-- They are the pairs of the CPU. -/
theorem lowPairs_sum (N k b l : Nat) (ggsw ct : List (BitVec w)) (c : Nat) (hc : c < k + 1) {R : Type}
    [AddCommMonoid R] (f : List (BitVec w) × List (BitVec w) → R) :
    ((lowPairs N k b l ggsw ct c).map f).sum = ((pairs N k b l ggsw ct c).map f).sum := by
  rw [lowPairs, pairs, List.map_flatMap, List.map_flatMap, sum_flatMap', sum_flatMap', list_sum_range, list_sum_range,
    ← Finset.sum_range_reflect]
  refine Finset.sum_congr rfl fun v hv => ?_
  have hv := Finset.mem_range.1 hv
  rw [List.map_map, list_sum_range, levelPairs, List.map_cons, List.sum_cons, List.map_map, list_sum_range]
  have e0 : f (pair N k b l ggsw ct c (l - 1 - v) c) =
      f (pair N k b l ggsw ct c (l - 1 - v) ((c + (k + 1) - 0) % (k + 1))) := by
    rw [Nat.sub_zero, Nat.add_mod_right, Nat.mod_eq_of_lt hc]
  simp only [Function.comp]
  rw [e0, add_comm,
    ← Finset.sum_range_succ' (fun j => f (pair N k b l ggsw ct c (l - 1 - v) ((c + (k + 1) - j) % (k + 1))))]
  refine Finset.sum_bij' (fun j _ => (c + (k + 1) - j) % (k + 1)) (fun y _ => (c + (k + 1) - y) % (k + 1))
    ?_ ?_ ?_ ?_ ?_
  · intro j _; exact Finset.mem_range.mpr (Nat.mod_lt _ (Nat.succ_pos k))
  · intro j _; exact Finset.mem_range.mpr (Nat.mod_lt _ (Nat.succ_pos k))
  · intro j hj
    rw [Finset.mem_range] at hj
    exact Low.twice k c j (by omega) (by omega)
  · intro j hj
    rw [Finset.mem_range] at hj
    exact Low.twice k c j (by omega) (by omega)
  · intro j _
    rw [pair, show l - 1 - (l - 1 - v) = v by omega]

theorem pair_mem (N k b l : Nat) (h : ValidParams w b l) (D : Int) (hD : 2 ^ (b - 1) ≤ D) (ggsw ct : List (BitVec w))
    (hg : ggsw.length = l * ((k + 1) * ((k + 1) * N))) (hct : ct.length = (k + 1) * N) (c v y : Nat) (hc : c < k + 1)
    (hv : v < l) (hy : y < k + 1) :
    (pair N k b l ggsw ct c v y).1.length = N ∧ (pair N k b l ggsw ct c v y).2.length = N ∧
      ∀ x ∈ (pair N k b l ggsw ct c v y).2, |x.toInt| ≤ D := by
  have hrow : (ggswRow N k ggsw v y).length = (k + 1) * N := block_len _ _ y _ (block_len _ _ v _ hg hv) hy
  refine ⟨block_len _ _ c _ hrow hc, block_len N _ y _ (by simpa using hct) hy, ?_⟩
  intro x hx
  obtain ⟨z, _, rfl⟩ := mem_block_map hx
  exact (digit_bound b l h z _ (by omega)).trans hD

theorem lowPairs_mem (N k b l : Nat) (h : ValidParams w b l) (D : Int) (hD : 2 ^ (b - 1) ≤ D)
    (ggsw ct : List (BitVec w)) (hg : ggsw.length = l * ((k + 1) * ((k + 1) * N))) (hct : ct.length = (k + 1) * N)
    (c : Nat) (hc : c < k + 1) : (lowPairs N k b l ggsw ct c).length ≤ l * (k + 1) ∧
    ∀ x ∈ lowPairs N k b l ggsw ct c, x.1.length = N ∧ x.2.length = N ∧ ∀ d ∈ x.2, |d.toInt| ≤ D := by
  constructor
  · simp [lowPairs, levelPairs, List.length_flatMap]
  · intro x hx
    obtain ⟨v, hv, hx⟩ := List.mem_flatMap.1 hx
    have hv := List.mem_range.1 hv
    rw [levelPairs, List.mem_cons, List.mem_map] at hx
    rcases hx with rfl | ⟨j, _, rfl⟩
    · exact pair_mem N k b l h D hD ggsw ct hg hct c v c hc hv hc
    · exact pair_mem N k b l h D hD ggsw ct hg hct c v _ hc hv (Nat.mod_lt _ (Nat.succ_pos k))

/-- The iteration of the low latency bootstrap on the polynomials of a ciphertext, without blocks. -/
def lowStep (G : GpuTransform w) (N k b l : Nat) (key : List G.E) (it : Nat) (acc : List (BitVec w)) (a : Nat) :
    List (BitVec w) :=
  let p (v y c : Nat) := G.mul (G.fwdDigit (lastDigits b (l - v) (gadgetState b l (rotateSub (block N acc y) a))))
    (key.getD (keyIndex k l it v y c) G.zero)
  let j (v c : Nat) := (List.range k).foldl (fun s i => G.add s (p v ((c + (k + 1) - (i + 1)) % (k + 1)) c)) (p v c c)
  ((List.range (k + 1)).map fun c =>
    G.addBack (block N acc c) ((List.range (l - 1)).foldl (fun s v => G.add s (j (v + 1) c)) (j 0 c))).flatten

theorem lowStep_selects (G : GpuTransform w) (N k b l : Nat) (hN : 0 < N) (hw : 32 ≤ w) (hb : b ≤ 31)
    (D B S E : Int) (hG : G.Accurate N (l * (k + 1)) D B) (hD : 2 ^ (b - 1) ≤ D) (h : ValidParams w b l)
    (hS0 : 0 ≤ S) (lweKey key bsk : List (BitVec w))
    (hk : KeyFits N k key) (hS : KeyBound S key) (hs : Lwe.BinaryKey lweKey) (hbsk : BskEnc N k b l lweKey key bsk E) :
    Selects N k (lowStep G N k b l (convert G.toTransform N bsk)) lweKey key (epBound w N k b l S E B 1) := by
  intro it hit acc hacc a
  obtain ⟨err, g1, g2⟩ := hbsk.2 it hit
  obtain ⟨⟨m1, m2⟩, _⟩ := phase_mono N k hN key acc hacc a
  set ct := zipUpdate (fun c1 c0 => c1 - c0) (listMonomialMul N acc a) acc with hct
  set ggsw := block (l * ((k + 1) * ((k + 1) * N))) bsk it with hggsw
  have hl0 := h.level
  have hcl : ct.length = (k + 1) * N := by rw [hct, zipUpdate_length]; exact m1
  have hgl : ggsw.length = l * ((k + 1) * ((k + 1) * N)) := g2.1
  have hprod : ∀ v y c, v < l → y < k + 1 → c < k + 1 → IsSum G [pair N k b l ggsw ct c v y]
      (G.mul (G.fwdDigit (lastDigits b (l - v) (gadgetState b l (rotateSub (block N acc y) a))))
        ((convert G.toTransform N bsk).getD (keyIndex k l it v y c) G.zero)) := by
    intro v y c hv hy hc
    have hK : bsk.length = lweKey.length * (l * ((k + 1) * (k + 1))) * N := by rw [hbsk.1]; ring
    have hkey : (convert G.toTransform N bsk).getD (keyIndex k l it v y c) G.zero =
        G.fwdGgsw (block N (ggswRow N k ggsw v y) c) := by
      rw [convert, chunks_eq N hN _ bsk hK, List.map_map]
      refine (getD_map_range (α := G.E) _ _ _ _ (keyIndex_lt k l it v y c _ hit hv hy hc)).trans ?_
      simp only [Function.comp]
      rw [key_block N k l it v y c hv hy hc]
      rfl
    have hdig : lastDigits b (l - v) (gadgetState b l (rotateSub (block N acc y) a)) =
        block N (ct.map fun x => (digits b l (closestRepresentable b l x >>> (w - b * l))).getD (l - 1 - v) 0#w) y := by
      have hbm : ∀ f : BitVec w → BitVec w, block N (ct.map f) y = (block N ct y).map f := by
        intro f
        simp only [block, List.map_drop, List.map_take]
      rw [show l - v = l - 1 - v + 1 by omega, lastDigits_eq, hbm, hct, rotateSub_block N k hN acc hacc a y hy,
        gadgetState, List.map_map]
      refine List.map_congr_left fun x _ => ?_
      exact cast_digit b l hw h hb x _ (by omega)
    rw [hkey, hdig]
    exact .one _ _
  have hjoin : ∀ v c, v < l → c < k + 1 → IsSum G (levelPairs N k b l ggsw ct c v)
      ((List.range k).foldl (fun s i => G.add s
        (G.mul (G.fwdDigit (lastDigits b (l - v) (gadgetState b l
          (rotateSub (block N acc ((c + (k + 1) - (i + 1)) % (k + 1))) a))))
          ((convert G.toTransform N bsk).getD (keyIndex k l it v ((c + (k + 1) - (i + 1)) % (k + 1)) c) G.zero)))
        (G.mul (G.fwdDigit (lastDigits b (l - v) (gadgetState b l (rotateSub (block N acc c) a))))
          ((convert G.toTransform N bsk).getD (keyIndex k l it v c c) G.zero))) := by
    intro v c hv hc
    have := isSum_fold G (fun i => [pair N k b l ggsw ct c v ((c + (k + 1) - (i + 1)) % (k + 1))]) _ _ _
      (hprod v c c hv hc hc) k (fun i _ => hprod v ((c + (k + 1) - (i + 1)) % (k + 1)) c hv
        (Nat.mod_lt _ (Nat.succ_pos k)) hc)
    rw [← List.map_eq_flatMap] at this
    exact this
  have hext : ∀ c, c < k + 1 → IsSum G (lowPairs N k b l ggsw ct c) _ := fun c hc => by
    have := isSum_fold G (fun v => levelPairs N k b l ggsw ct c (v + 1)) _ _ _ (hjoin 0 c hl0 hc) (l - 1)
      (fun v hv => hjoin (v + 1) c (by omega) hc)
    have e : lowPairs N k b l ggsw ct c = levelPairs N k b l ggsw ct c 0 ++
        (List.range (l - 1)).flatMap fun v => levelPairs N k b l ggsw ct c (v + 1) := by
      obtain ⟨m, rfl⟩ := Nat.exists_eq_succ_of_ne_zero hl0.ne'
      rw [lowPairs, List.range_succ_eq_map, List.flatMap_cons, List.flatMap_map]
      rfl
    rw [e]
    exact this
  have hres : ∀ c, ∃ δ : Rq (BitVec w) N, c < k + 1 → Small N B δ ∧ _ ∧ _ := fun c => by
    by_cases hc : c < k + 1
    · obtain ⟨p1, p2⟩ := lowPairs_mem N k b l h D hD ggsw ct hgl hcl c hc
      obtain ⟨q1, δ, q2, q3⟩ := hG (block N acc c) _ _ (block_len N _ c acc hacc hc) p1 p2 (hext c hc)
      rw [lowPairs_sum N k b l ggsw ct c hc] at q3
      exact ⟨δ, fun _ => ⟨q2, q1, q3⟩⟩
    · exact ⟨0, fun h => absurd h hc⟩
  choose δ hδ using hres
  obtain ⟨c1, c2⟩ := products_phase N k b l hN key acc ggsw ct _ δ (fun p hp => (hδ p hp).2)
  have hxm : lweKey.getD it 0 = 0 ∨ lweKey.getD it 0 = 1 := by
    rw [List.getD_eq_getElem?_getD, List.getElem?_eq_getElem (by omega)]
    exact hs _ (List.getElem_mem _)
  generalize lweKey.getD it 0 = x at *
  have hx : x = (((if x = 1 then 1 else 0 : Int)) : BitVec w) := by
    by_cases hx1 : x = 1
    · rw [if_pos hx1, Int.cast_one, hx1]
    · rw [if_neg hx1, Int.cast_zero]
      exact hxm.resolve_right hx1
  rw [hx] at g2
  obtain ⟨e, e1, e2⟩ := external_phase_bound N k b l hN B S E h key acc ggsw ct _ _ err hk hS hcl g2 g1 δ
    (fun p hp => (hδ p (by omega)).1) c2
  refine ⟨c1, e, e1.mono (epBound_mono N k b l hS0 ?_), ?_⟩
  · split <;> norm_num
  · refine e2.trans ?_
    rw [← hx, hct, phase_sub N k key _ acc m1 hacc, m2]
    by_cases hx1 : x = 1
    · rw [if_pos hx1, hx1, map_one]
      ring
    · rw [if_neg hx1, hxm.resolve_right hx1, map_zero]
      ring

end Verif.Cuda.Am
