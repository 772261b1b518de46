import Verif.Cuda.VerticalPacking
import Verif.Cuda.AmortizedLemmas
import Verif.Wop.Sign
/-
Lemmas on the vertical packing of CUDA: its CMUX is that of the CPU on a shifted difference.
-/
namespace Verif.Cuda.Vp
open Verif.Pbs Verif.Poly Verif.Glwe Verif.Decomp Verif.Wop

variable {w : Nat}

/-- Half of the last place of the decomposition. -/
def half (w b l : Nat) : BitVec w := 1#w <<< (w - b * l - 1)

theorem half_eq (b l : Nat) (h : ValidParams w b l) : (half w b l).toNat = 2 ^ (w - b * l - 1) := by
  have h1 := h.fits
  have h2 : 0 < b * l := Nat.mul_pos h.base h.level
  rw [half, BitVec.toNat_shiftLeft, BitVec.toNat_ofNat, Nat.shiftLeft_eq,
    Nat.mod_eq_of_lt (Nat.one_lt_two_pow (by omega)), Nat.one_mul,
    Nat.mod_eq_of_lt (Nat.pow_lt_pow_right (by norm_num) (by omega))]

/-- Truncating is rounding after subtracting half of the last place. -/
theorem trunc_eq (b l : Nat) (h : ValidParams w b l) (x : BitVec w) :
    x >>> (w - b * l) = roundToClosestMultiple b l (x - half w b l) >>> (w - b * l) := by
  have h1 := h.fits
  have h2 : 0 < b * l := Nat.mul_pos h.base h.level
  have hr := closest_toNat b l (x - half w b l) (by rw [Nat.mul_comm]; exact h1)
  rw [show roundToClosestMultiple b l (x - half w b l) = closestRepresentable b l (x - half w b l) from rfl]
  apply BitVec.eq_of_toNat_eq
  rw [BitVec.toNat_ushiftRight, BitVec.toNat_ushiftRight, hr, BitVec.toNat_sub, half_eq b l h, Nat.mul_comm l b,
    Nat.shiftRight_eq_div_pow, Nat.shiftRight_eq_div_pow]
  have hx := x.isLt
  generalize x.toNat = y at *
  obtain ⟨n, hn⟩ : ∃ n, w - b * l = n + 1 := ⟨w - b * l - 1, by omega⟩
  have hw : 2 ^ w = 2 ^ (b * l) * 2 ^ (n + 1) := by rw [← pow_add]; congr 1; omega
  have hlt : 2 ^ n < 2 ^ w := Nat.pow_lt_pow_right (by norm_num) (by omega)
  rw [hn, Nat.add_sub_cancel]
  have hp : 0 < 2 ^ (n + 1) := by positivity
  have hq : y / 2 ^ (n + 1) * 2 ^ (n + 1) < 2 ^ w := lt_of_le_of_lt (Nat.div_mul_le_self _ _) hx
  have key : ((2 ^ w - 2 ^ n + y) % 2 ^ w + 2 ^ n) / 2 ^ (n + 1) * 2 ^ (n + 1) % 2 ^ w =
      y / 2 ^ (n + 1) * 2 ^ (n + 1) := by
    by_cases hy : 2 ^ n ≤ y
    · rw [show 2 ^ w - 2 ^ n + y = y - 2 ^ n + 2 ^ w by omega, Nat.add_mod_right,
        Nat.mod_eq_of_lt (by omega : y - 2 ^ n < 2 ^ w), Nat.sub_add_cancel hy, Nat.mod_eq_of_lt hq]
    · rw [Nat.mod_eq_of_lt (by omega : 2 ^ w - 2 ^ n + y < 2 ^ w), show 2 ^ w - 2 ^ n + y + 2 ^ n = y + 2 ^ w by omega]
      conv_lhs => rw [hw]
      rw [Nat.add_mul_div_right _ _ hp, Nat.add_mul, Nat.add_mod_right, ← hw, Nat.mod_eq_of_lt hq]
  rw [key, Nat.mul_div_cancel _ hp]

/-- The external product of the CMUX of the GPU, in terms of that of the CPU. -/
def epTrunc (T : Transform w) (N k b l : Nat) (g : List T.E) (out ct : List (BitVec w)) : List (BitVec w) :=
  externalProduct T N k b l out g (ct.map (· - half w b l))

/-- The levels of the GPU compute the external product of the CPU. -/
theorem levelLoop_eq (T : Transform w) (N k b l n it : Nat) (hN : 0 < N) (hw : 32 ≤ w) (hv : ValidParams w b l)
    (hb : b ≤ 31) (bsk acc ct : List (BitVec w)) (hbsk : bsk.length = n * (l * ((k + 1) * ((k + 1) * N)))) (hit : it < n)
    (hct : CtFits N k ct) :
    (zipUpdate T.addBack (chunks N acc) (Am.levelLoop T k b l (convert T N bsk) it
      ((List.range (k + 1)).map fun r => Am.gadgetState b l (block N ct r), List.replicate (k + 1) T.zero)).2).flatten =
      externalProduct T N k b l acc (convert T N (block (l * ((k + 1) * ((k + 1) * N))) bsk it)) ct := by
  have hc : ct.length = (k + 1) * N := hct
  have hbl := block_size _ _ it bsk hbsk hit
  obtain ⟨s1, s2⟩ := accumulate_spec T N k b l hN _ ct hbl hc
  rw [externalProduct, addOut]
  congr 2
  rw [Am.outer]
  simp only
  apply List.ext_getElem
  · rw [s1]; simp
  · intro p h1 h2
    rw [s1] at h2
    have hg := s2 p h2
    rw [List.getD_eq_getElem?_getD, List.getElem?_eq_getElem (by omega), Option.getD_some] at hg
    rw [hg, List.getElem_map, List.getElem_range, accPoly, pairs, List.foldl_flatMap]
    apply List.foldl_ext
    intro acc' t ht
    have ht := List.mem_range.1 ht
    rw [List.foldl_map]
    apply List.foldl_ext
    intro acc'' r hr
    have hr := List.mem_range.1 hr
    have hK : bsk.length = n * (l * ((k + 1) * (k + 1))) * N := by rw [hbsk]; ring
    rw [convert, chunks_eq N hN _ bsk hK, List.map_map,
      Am.getD_map_range _ _ _ _ (Am.keyIndex_lt k l it (l - 1 - t) r p n hit (by omega) hr h2)]
    simp only [Function.comp]
    rw [Am.key_block N k l it (l - 1 - t) r p (by omega) hr h2]
    congr 2
    have hbm : ∀ f : BitVec w → BitVec w, block N (ct.map f) r = (block N ct r).map f := by
      intro f
      simp only [block, List.map_drop, List.map_take]
    rw [hbm, Am.gadgetState, List.map_map]
    refine List.map_congr_left fun x _ => ?_
    exact Am.cast_digit b l hw hv hb x t ht

/-- The CMUX of the GPU is the CMUX of the CPU with the external product `epTrunc`. -/
theorem cmux_eq (T : Transform w) (N k b l n it : Nat) (hN : 0 < N) (hw : 32 ≤ w) (hv : ValidParams w b l)
    (hb : b ≤ 31) (ggsws m0 m1 : List (BitVec w)) (hg : ggsws.length = n * (l * ((k + 1) * ((k + 1) * N)))) (hit : it < n)
    (h0 : CtFits N k m0) (h1 : CtFits N k m1) :
    cmux T N k b l (convert T N ggsws) it m0 m1 =
      (Pbs.cmux (epTrunc T N k b l (convert T N (block (l * ((k + 1) * ((k + 1) * N))) ggsws it))) m0 m1).1 := by
  have a0 : m0.length = (k + 1) * N := h0
  have a1 : m1.length = (k + 1) * N := h1
  set ct := (zipUpdate (fun c1 c0 => c1 - c0) m1 m0).map (· - half w b l) with hct
  have hc : CtFits N k ct := by rw [CtFits, hct, List.length_map, zipUpdate_length, a1]
  rw [Pbs.cmux]
  simp only [epTrunc]
  rw [← hct, ← levelLoop_eq T N k b l n it hN hw hv hb ggsws m0 ct hg hit hc, cmux]
  congr 5
  rw [chunks_eq N hN _ m0 a0, chunks_eq N hN _ m1 a1, List.zipWith_map, List.zipWith_self, List.map_map]
  refine List.map_congr_left fun r hr => ?_
  have hbm : block N ct r = (block N (zipUpdate (fun c1 c0 => c1 - c0) m1 m0) r).map (· - half w b l) := by
    simp only [hct, block, List.map_drop, List.map_take]
  simp only [Function.comp]
  rw [hbm, truncState, Am.gadgetState, List.map_map, zipUpdate_eq_zipWith _ m1 m0 (by omega)]
  have : block N (List.zipWith (fun c1 c0 => c1 - c0) m1 m0) r =
      List.zipWith (fun c1 c0 => c1 - c0) (block N m1 r) (block N m0 r) := by
    simp only [block, List.drop_zipWith, List.take_zipWith]
  rw [this]
  exact List.map_congr_left fun x _ => trunc_eq b l hv x

/-- The shift of the input changes its phase by a small error. -/
theorem phase_shift (N k b l : Nat) (hN : 0 < N) (h : ValidParams w b l) (S : Int)
    (key ct : List (BitVec w)) (hk : KeyFits N k key) (hS : KeyBound S key) (hc : CtFits N k ct) :
    ∃ ρ : Rq (BitVec w) N, Small N ((k * (N * S) + 1) * 2 ^ (w - b * l - 1)) ρ ∧
      glwePhase N k key (ct.map (· - half w b l)) = glwePhase N k key ct - ρ := by
  have hr : CtFits N k (List.replicate ((k + 1) * N) (half w b l)) := by rw [CtFits, List.length_replicate]
  refine ⟨glwePhase N k key (List.replicate ((k + 1) * N) (half w b l)), ?_, ?_⟩
  · apply small_key_comb hN hk hS
      (fun p => toRq N (block N (List.replicate ((k + 1) * N) (half w b l)) p))
    intro p hp
    apply small_toRq N _ (block_len N _ p _ hr (by omega))
    intro c hc'
    have hc' := List.eq_of_mem_replicate (List.mem_of_mem_drop (List.mem_of_mem_take hc'))
    have e : c = (((2 : Int) ^ (w - b * l - 1) : Int) : BitVec w) := by
      rw [hc', half, one_shl]
    rw [e]
    refine (abs_toInt_le _).trans (le_of_eq (abs_of_nonneg (by positivity)))
  · rw [← phase_sub N k key ct _ hc hr]
    congr 1
    have : ct.length = (k + 1) * N := hc
    rw [zipUpdate_eq_zipWith _ _ _ (by simp [this])]
    apply List.ext_getElem
    · simp [this]
    · intro i h1 h2
      simp

/-- The bound on the error of a CMUX of the GPU: the rounding term counts twice. -/
theorem epTrunc_ok (T : Transform w) (N k b l : Nat) (hN : 0 < N) (D B S E : Int)
    (hT : T.Accurate N (l * (k + 1)) D B) (hD : 2 ^ (b - 1) ≤ D) (h : ValidParams w b l) (hS0 : 0 ≤ S)
    (key : List (BitVec w)) (hk : KeyFits N k key) (hS : KeyBound S key) (ggsws : List (List (BitVec w)))
    (bits : List Bool) (hg : BitsEnc N k b l key ggsws bits E) :
    CmuxOk (epTrunc T N k b l) N k key (epBound w N k b l S E B 2) (ggsws.map (convert T N)) bits := by
  intro i g β hi hβ c0 c1 h0 h1
  have hib : i < bits.length := (List.getElem?_eq_some_iff.1 hβ).1
  have hig : i < ggsws.length := by rw [hg.1]; exact hib
  obtain ⟨err, e1, e2⟩ := hg.2 i hib
  rw [List.getElem?_map, List.getElem?_eq_getElem hig, Option.map_some, Option.some.injEq] at hi
  have e3 : ggsws.getD i [] = ggsws[i] := by
    rw [List.getD_eq_getElem?_getD, List.getElem?_eq_getElem hig]; rfl
  have e4 : bits.getD i false = β := by
    rw [List.getD_eq_getElem?_getD, hβ]; rfl
  rw [e3, e4, ← of_bit] at e2
  subst hi
  have hsub : CtFits N k (zipUpdate (fun c1 c0 => c1 - c0) c1 c0) := by
    rw [CtFits, zipUpdate_length]; exact h1
  have hsub' : CtFits N k ((zipUpdate (fun c1 c0 => c1 - c0) c1 c0).map (· - half w b l)) := by
    rw [CtFits, List.length_map]; exact hsub
  obtain ⟨a1, e, a2, a3⟩ := C27_error_bound T N k b l hN D B S E hT hD h key c0 ggsws[i] _ _ err hk hS h0 hsub' e2 e1
  obtain ⟨ρ, r1, r2⟩ := phase_shift N k b l hN h S key _ hk hS hsub
  have hx : 0 ≤ (k * (N * S) + 1) * (2 : Int) ^ (w - b * l - 1) := by positivity
  refine ⟨a1, e - (if β then ρ else 0), ?_, ?_⟩
  · have hz : Small N ((if β then 1 else 0 : Int) * ((k * (N * S) + 1) * 2 ^ (w - b * l - 1))) (if β then ρ else 0) := by
      cases β
      · exact small_zero N _ (by simp)
      · simpa using r1
    refine (a2.sub hz).mono ?_
    simp only [epBound]
    generalize (k * (N * S) + 1) * (2 : Int) ^ (w - b * l - 1) = X at hx ⊢
    cases β <;> simp <;> linarith
  · show glwePhase N k key (externalProduct _ _ _ _ _ _ _ _) = _
    rw [a3, r2, phase_sub N k key c1 c0 h1 h0, of_bit]
    cases β
    · simp
    · simp; ring

end Verif.Cuda.Vp
