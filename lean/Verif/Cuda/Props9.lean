import Verif.Cuda.ThreadRuns
import Verif.Glwe.Props
/-
C79: the functions by which the threads of a CUDA block work together on the polynomials of a bootstrap compute,
for every interleaving of the accesses of the threads, what the corresponding functions of the CPU compute.
-/
namespace Verif.Cuda.Thr
open Grid Verif.Poly

variable {w : Nat}

/-- The threads that execute `code` from memory `m` and any registers: however the threads have moved so far, they
can all reach the end, and whenever they all have, the memory satisfies `P`. -/
def Always (T : Nat) (code : Nat → Code w) (m : Loc → BitVec w) (P : (Loc → BitVec w) → Prop) : Prop :=
  ∀ x : Fin T → Regs w,
    (∀ moved : List (Fin T), ∃ more, Done (program T code) (run (program T code) (moved ++ more)
      (start (program T code) m x))) ∧
    ∀ moved : List (Fin T), Done (program T code) (run (program T code) moved (start (program T code) m x)) →
      P (run (program T code) moved (start (program T code) m x)).mem

theorem always_one {T : Nat} (hT : 0 < T) {code : Nat → List (Ins w)} {own : Loc → Option (Fin T)}
    {val : Loc → (Loc → BitVec w) → BitVec w} (h : Phase (fun t : Fin T => code t) own val) (m : Loc → BitVec w)
    (P : (Loc → BitVec w) → Prop) (hP : P (Phase.effect own val m)) :
    Always T (fun t => plain (code t)) m P := by
  have : Nonempty (Fin T) := ⟨⟨0, hT⟩⟩
  have hs : ∀ t : Fin T, program T (fun t => plain (code t)) t = [code t] := fun t => segments_plain _
  intro x
  refine ⟨can_finish _ 1 (fun t => by rw [hs]; rfl) (by omega) m x, fun moved hd => ?_⟩
  rw [run_phases [((fun t : Fin T => code t), own, val)] (by
    intro p hp
    rw [List.mem_singleton.1 hp]
    exact h) _ (fun t => by rw [hs]; rfl) m x moved hd]
  exact hP

theorem word_lt (N np z c : Nat) (hz : z < np) (hc : c < N) : z * N + c < np * N := by
  have : (z + 1) * N ≤ np * N := Nat.mul_le_mul_right _ hz
  rw [Nat.add_mul, Nat.one_mul] at this
  omega

theorem word_div (N z c : Nat) (hc : c < N) : (z * N + c) / N = z ∧ (z * N + c) % N = c := by
  rw [Nat.mul_comm]
  exact ⟨by rw [Nat.mul_add_div (by omega), Nat.div_eq_of_lt hc, Nat.add_zero],
    by rw [Nat.mul_add_mod, Nat.mod_eq_of_lt hc]⟩

/-- C79: the division of the polynomials of the lookup table by `X^j`, for every interleaving. -/
theorem C79_divide (T opt np j : Nat) (hT : 0 < T) (hj : j ≤ 2 * (T * opt)) (m : Loc → BitVec w) :
    Always T (fun t => plain (divideByMonomial T opt np j false t)) m fun m' =>
      ∀ z, z < np → poly m' .acc (T * opt) z = monomialDiv (poly m .lut (T * opt) z) j := by
  refine always_one hT (divide_phase T opt np j hT false hj) m _ fun z hz => ?_
  apply List.ext_getElem
  · rw [monomialDiv_length, poly_length, poly_length]
  intro c hc hc'
  rw [poly_length] at hc
  have e : ∀ (l : List (BitVec w)) (h : c < l.length), l[c] = l.getD c 0 := fun l h => by
    rw [List.getD_eq_getElem?_getD, List.getElem?_eq_getElem h]; rfl
  rw [e _ (by rw [poly_length]; exact hc), e _ hc', poly_getD _ _ _ _ _ hc, Phase.effect,
    if_pos ((ownOf_isSome (hT := hT) (A := .acc) (ℓ := (.acc, _))).2 ⟨rfl, word_lt _ np z c hz hc⟩)]
  simp only [word_div _ z c hc, divideVal]
  rfl

/-- C79: the accumulator of the mask, for a trivial encryption of the lookup table, is set to zero. -/
theorem C79_zero (T opt np j : Nat) (hT : 0 < T) (hj : j ≤ 2 * (T * opt)) (m : Loc → BitVec w) :
    Always T (fun t => plain (divideByMonomial T opt np j true t)) m fun m' =>
      ∀ z, z < np → poly m' .acc (T * opt) z = List.replicate (T * opt) 0#w := by
  refine always_one hT (divide_phase T opt np j hT true hj) m _ fun z hz => ?_
  apply List.ext_getElem
  · rw [poly_length, List.length_replicate]
  intro c hc hc'
  rw [poly_length] at hc
  have e : ∀ (l : List (BitVec w)) (h : c < l.length), l[c] = l.getD c 0 := fun l h => by
    rw [List.getD_eq_getElem?_getD, List.getElem?_eq_getElem h]; rfl
  rw [e _ (by rw [poly_length]; exact hc), poly_getD _ _ _ _ _ hc, Phase.effect,
    if_pos ((ownOf_isSome (hT := hT) (A := .acc) (ℓ := (.acc, _))).2 ⟨rfl, word_lt _ np z c hz hc⟩), List.getElem_replicate]
  rfl

/-- C79: the rotated accumulator minus the accumulator, for every interleaving; the accumulator is unchanged. -/
theorem C79_rotate (T opt np j : Nat) (hT : 0 < T) (hj : j ≤ 2 * (T * opt)) (m : Loc → BitVec w) :
    Always T (fun t => plain (multiplyByMonomialAndSub T opt np j t)) m fun m' =>
      ∀ z, z < np → poly m' .acc (T * opt) z = poly m .acc (T * opt) z ∧
        poly m' .rot (T * opt) z =
          List.zipWith (· - ·) (monomialMul (poly m .acc (T * opt) z) j) (poly m .acc (T * opt) z) := by
  refine always_one hT (rotate_phase T opt np j hT hj) m _ fun z hz => ⟨?_, ?_⟩
  · refine List.map_congr_left fun c _ => ?_
    rw [Phase.effect, if_neg (fun h => by have := (ownOf_isSome.1 h).1; cases this)]
  have hml : (monomialMul (poly m .acc (T * opt) z) j).length = T * opt := by rw [monomialMul_length, poly_length]
  apply List.ext_getElem
  · rw [List.length_zipWith, hml, poly_length, poly_length, min_self]
  intro c hc hc'
  rw [poly_length] at hc
  have e : ∀ (l : List (BitVec w)) (h : c < l.length), l[c] = l.getD c 0 := fun l h => by
    rw [List.getD_eq_getElem?_getD, List.getElem?_eq_getElem h]; rfl
  rw [List.getElem_zipWith, e _ (by rw [poly_length]; exact hc), e _ (by rw [hml]; exact hc),
    e (poly m .acc _ z) (by rw [poly_length]; exact hc), poly_getD _ _ _ _ _ hc, Phase.effect,
    if_pos ((ownOf_isSome (hT := hT) (A := .rot) (ℓ := (.rot, _))).2 ⟨rfl, word_lt _ np z c hz hc⟩)]
  simp only [word_div _ z c hc, rotateVal]

/-- The difference of the rotated polynomial and of the polynomial, the input of the external product of a bootstrap. -/
def difference (p : List (BitVec w)) (j : Nat) : List (BitVec w) := List.zipWith (· - ·) (monomialMul p j) p

theorem difference_getD (N j c : Nat) (hc : c < N) (p : List (BitVec w)) (hp : p.length = N) :
    (difference p j).getD c 0 = (monomialMul p j).getD c 0 - p.getD c 0 := by
  have hml : (monomialMul p j).length = N := by rw [monomialMul_length, hp]
  have hdl : (difference p j).length = N := by rw [difference, List.length_zipWith, hml, hp, min_self]
  have e : ∀ (l : List (BitVec w)) (h : c < l.length), l.getD c 0 = l[c] := fun l h => by
    rw [List.getD_eq_getElem?_getD, List.getElem?_eq_getElem h]; rfl
  rw [e _ (by omega), e _ (by omega), e _ (by omega)]
  simp [difference]

/-- A level of the digits of the GPU. -/
theorem prepare_always (T h b l j level : Nat) (hT : 0 < T) (hh : 0 < h) (hj : j ≤ 2 * (T * (2 * h)))
    (hl : level < l) (m : Loc → BitVec w) :
    Always T (prepare T (2 * h) b l j level) m fun m' =>
      ∀ q, q < T * (2 * h) → m' (.dig, q) =
        castDigit (gpuDigit b l ((difference (poly m .acc (T * (2 * h)) 0) j).getD (coeffAt (T * (2 * h)) q) 0)
          (l - level - 1)) := by
  intro x
  refine ⟨can_finish _ (prepPhases (w := w) T h hT b l j level).length
    (fun t => by rw [prepare_segments T h hT, List.length_map]) (by simp [prepPhases]) m x, fun moved hd q hq => ?_⟩
  rw [prepare_run T h hT hh b l j level hj hl m x moved hd q hq]
  have hTh : 0 < T * h := Nat.mul_pos hT hh
  have hN : T * (2 * h) = 2 * (T * h) := by ring
  have hc : coeffAt (T * (2 * h)) q < T * (2 * h) := by
    unfold coeffAt
    split_ifs <;> omega
  rw [difference_getD _ j _ hc _ (poly_length _ _ _ _)]
  rfl

/-- C79: what a block of the low latency bootstrap prepares for the Fourier transform, for every interleaving: element
`i` has the coefficients `i` and `i + N/2` of one of the polynomials of the decomposition by the CPU (C09) of the
rotated polynomial minus the polynomial, that of `level + 1`. The base has at most 31 bits. -/
theorem C79_prepare_partial (T h b l j level : Nat) (hT : 0 < T) (hh : 0 < h) (hj : j ≤ 2 * (T * (2 * h)))
    (hw : 32 ≤ w) (hv : Decomp.ValidParams w b l) (hb : b ≤ 31) (hl : level < l) (m : Loc → BitVec w) :
    Always T (prepare T (2 * h) b l j level) m fun m' =>
      ∃ term ∈ (Decomp.decomposeTensor b l (difference (poly m .acc (T * (2 * h)) 0) j)).terms,
        term.level = level + 1 ∧ term.tensor.length = T * (2 * h) ∧
        ∀ i, i < T * h → m' (.dig, 2 * i) = term.tensor.getD i 0 ∧
          m' (.dig, 2 * i + 1) = term.tensor.getD (i + T * h) 0 := by
  intro x
  obtain ⟨hf, hr⟩ := prepare_always T h b l j level hT hh hj hl m x
  refine ⟨hf, fun moved hd => ?_⟩
  have hr := hr moved hd
  generalize (run (program T (prepare T (2 * h) b l j level)) moved
    (start (program T (prepare T (2 * h) b l j level)) m x)).mem = m' at *
  set D := difference (poly m .acc (T * (2 * h)) 0) j with hD
  have hDl : D.length = T * (2 * h) := by
    rw [hD, difference, List.length_zipWith, monomialMul_length, poly_length, min_self]
  have hN : T * (2 * h) = 2 * (T * h) := by ring
  rw [Decomp.decomposeTensor_terms]
  refine ⟨_, List.mem_map.2 ⟨l - level - 1, List.mem_range.2 (by omega), rfl⟩, by simp only; omega, by simp [hDl], ?_⟩
  have key : ∀ c, c < T * (2 * h) → castDigit (gpuDigit b l (D.getD c 0) (l - level - 1)) =
      (D.map fun x => (Decomp.digits b l (Decomp.closestRepresentable b l x >>> (w - b * l))).getD
        (l - level - 1) 0#w).getD c 0 := by
    intro c hc
    rw [gpuDigit_eq b l hv _ _ (by omega)]
    have hg : (D.map fun x => (Decomp.digits b l (Decomp.closestRepresentable b l x >>> (w - b * l))).getD
        (l - level - 1) 0#w).getD c 0 =
        (Decomp.digits b l (Decomp.closestRepresentable b l (D.getD c 0) >>> (w - b * l))).getD (l - level - 1) 0#w := by
      have hDc : D.getD c 0 = D[c] := by
        rw [List.getD_eq_getElem?_getD, List.getElem?_eq_getElem (by omega)]; rfl
      rw [hDc, List.getD_eq_getElem?_getD, List.getElem?_map, List.getElem?_eq_getElem (by omega)]
      rfl
    rw [hg, Lwe.ksDigit]
    have hcl := (Decomp.C08_closest_representable b l hv (D.getD c 0)).1
    rw [(Decomp.C08_closest_representable b l hv _).2.2.2 hcl]
    obtain ⟨ds, hdl, hde, hdb, _⟩ := Decomp.digits_spec b l hv
      (Decomp.closestRepresentable b l (D.getD c 0) >>> (w - b * l))
    rw [hde _ (by omega)]
    have hmem : ds.getD (l - level - 1) 0 ∈ ds := by
      rw [List.getD_eq_getElem?_getD, List.getElem?_eq_getElem (by omega)]
      exact List.getElem_mem _
    obtain ⟨g1, g2⟩ := hdb _ hmem
    have hp : (2 : Int) ^ (b - 1) ≤ 2 ^ 30 := pow_le_pow_right₀ (by norm_num) (by omega)
    generalize ds.getD (l - level - 1) 0 = d at *
    generalize (2 : Int) ^ (b - 1) = P at *
    exact castDigit_int hw d (by omega) (by omega)
  intro i hi
  rw [hr _ (by omega), hr _ (by omega), key _ (by unfold coeffAt; split_ifs <;> omega),
    key _ (by unfold coeffAt; split_ifs <;> omega)]
  have h1 : coeffAt (T * (2 * h)) (2 * i) = i := by unfold coeffAt; rw [if_pos (by omega)]; omega
  have h2 : coeffAt (T * (2 * h)) (2 * i + 1) = i + T * h := by unfold coeffAt; rw [if_neg (by omega)]; omega
  rw [h1, h2]
  exact ⟨rfl, rfl⟩

/-- C79: with a base of 33 bits, the conversion of the digits to `int32_t` loses a bit: there is an accumulator of two
coefficients of 64 bits for which, whatever the interleaving, the digit of level 1 and the coefficient differ by
half of the torus, `2^63`, in place of at most `2^30`. -/
theorem C79_prepare_violated : ∃ m : Loc → BitVec 64, ∃ c : BitVec 64,
    (difference (poly m .acc 2 0) 2).getD 0 0 = c ∧
    Always 1 (prepare 1 2 33 1 2 0) m fun m' => c - m' (.dig, 0) * 2#64 ^ (64 - 33) = 2#64 ^ 63 := by
  refine ⟨fun ℓ => if ℓ = (.acc, 0) then -(2#64 ^ 61) else 0, 2#64 ^ 62, by decide +kernel, ?_⟩
  intro x
  obtain ⟨h1, h2⟩ := prepare_always 1 1 33 1 2 0 (by decide) (by decide) (by decide) (by decide)
    (fun ℓ : Loc => if ℓ = (.acc, 0) then -(2#64 ^ 61) else 0) x
  refine ⟨h1, fun moved hd => ?_⟩
  have := h2 moved hd 0 (by decide)
  simp only [Nat.mul_one] at this
  beta_reduce
  rw [this]
  decide +kernel

/-- C79: the extraction at the end of a bootstrap, for every interleaving: the output is that of the extraction of the
constant coefficient by the CPU (C25). -/
theorem C79_extract (T opt k : Nat) (hT : 0 < T) (hopt : 0 < opt) (hk : 0 < k) (m : Loc → BitVec w) (lwe : List (BitVec w))
    (hlwe : lwe.length = k * (T * opt) + 1) :
    Always T (extractSample T opt k) m fun m' =>
      Glwe.sampleExtract (T * opt) ((List.range ((k + 1) * (T * opt))).map fun i => m (.acc, i)) lwe 0 =
        some ((List.range (k * (T * opt) + 1)).map fun i => m' (.out, i)) := by
  intro x
  refine ⟨can_finish _ ((xNext (w := w) T opt k 0 0) :: (sFrom T opt hT k k).map fun p => p.1 ⟨0, hT⟩).length
    (fun t => by rw [program, segments_extract T opt hT k t t.isLt]; simp) (by simp) m x, fun moved hd => ?_⟩
  obtain ⟨h1, h2⟩ := extract_run T opt hT k hk m x moved hd
  generalize (run (program T (extractSample T opt k)) moved
    (start (program T (extractSample T opt k)) m x)).mem = m' at *
  have hN : 0 < T * opt := Nat.mul_pos hT hopt
  generalize T * opt = N at *
  set ct := (List.range ((k + 1) * N)).map fun i => m (.acc, i) with hct
  have hfit : Glwe.CtFits N k ct := by
    simp [Glwe.CtFits, hct]
  have hctg : ∀ q, q < (k + 1) * N → ct.getD q 0 = m (.acc, q) := by
    intro q hq
    rw [hct, List.getD_eq_getElem?_getD, List.getElem?_map, List.getElem?_range hq]; rfl
  cases hr : Glwe.sampleExtract N ct lwe 0 with
  | none => exact absurd ⟨hN, hlwe⟩ ((Glwe.C25_panics N k ct lwe hfit 0).1 hr)
  | some r =>
    obtain ⟨_, hrl, hb, hm⟩ := Glwe.C25_words N k ct lwe r hfit 0 hr
    congr 1
    apply List.ext_getElem
    · simp [hrl]
    intro q hq _
    rw [List.getElem_map, List.getElem_range]
    have e : r[q] = r.getD q 0 := by rw [List.getD_eq_getElem?_getD, List.getElem?_eq_getElem hq]; rfl
    rw [e]
    rw [hrl] at hq
    have hk1 : (k + 1) * N = k * N + N := by rw [Nat.add_mul, Nat.one_mul]
    rcases Nat.lt_or_ge q (k * N) with hlt | hge
    · have hz : q / N < k := Nat.div_lt_of_lt_mul (by rw [Nat.mul_comm]; exact hlt)
      have hc : q % N < N := Nat.mod_lt _ hN
      have hs : q / N * N + q % N = q := by rw [Nat.mul_comm]; exact Nat.div_add_mod _ _
      have hlt' := word_lt N k (q / N) (q % N) hz hc
      rw [← hs, hm _ _ hz hc, h1 _ _ hz hc]
      have hzN : (q / N + 1) * N ≤ k * N := Nat.mul_le_mul_right _ hz
      rw [Nat.add_mul, Nat.one_mul] at hzN
      split_ifs with hc0 hc1 hc1
      · rw [hctg _ (by omega)]
        simp
      · omega
      · omega
      · rw [hctg _ (by omega), Nat.add_zero]
    · have : q = k * N := by omega
      subst this
      rw [hb, h2, hctg _ (by omega), Nat.add_zero]

/-- The hypotheses of C79 are met: the sizes of two instances of the kernels (`params::degree` 512 with 4 coefficients
for each of 128 threads, 2048 with 8 for each of 256), decompositions with bases `2^7` and `2^31`. -/
example : 128 * (2 * 2) = 512 ∧ 256 * (2 * 4) = 2048 ∧ 1000 ≤ 2 * (128 * (2 * 2)) ∧
    Decomp.ValidParams 64 7 3 ∧ Decomp.ValidParams 64 31 2 ∧ Decomp.ValidParams 32 7 3 :=
  ⟨by decide, by decide, by decide, ⟨by decide, by decide, by decide⟩, ⟨by decide, by decide, by decide⟩,
    ⟨by decide, by decide, by decide⟩⟩

/-- A case: two threads with two coefficients each, 8-bit words, extraction of the polynomial `[1, 2, 3, 4]` with body
`5` when thread 1 always moves first. -/
example : let code : Nat → Code 8 := extractSample 2 2 1
    let m : Loc → BitVec 8 := fun ℓ => if ℓ.1 = .acc then BitVec.ofNat 8 (ℓ.2 + 1) else 0
    let sched := (List.replicate 40 [(1 : Fin 2), 0]).flatten
    let s := run (program 2 code) sched (start (program 2 code) m fun _ _ => 0)
    (∀ t, (s.blk t).epoch = 5 ∧ (s.blk t).rest.length = 0) ∧ (List.range 5).map (fun i => s.mem (.out, i)) = [1, -4, -3, -2, 5] := by
  decide +kernel

end Verif.Cuda.Thr
