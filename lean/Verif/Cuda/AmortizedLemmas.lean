import Verif.Cuda.Amortized
import Verif.Cuda.ThreadRuns
import Verif.Cuda.KeyswitchValue
import Verif.Pbs.Props2
/-
Lemmas on the amortized bootstrap of CUDA: one turn of its loop is the CMUX of the CPU, and the phase of the result
for any exponents.
-/
set_option linter.unusedSectionVars false
namespace Verif.Cuda.Am
open Verif.Pbs Verif.Poly Verif.Glwe Verif.Decomp
open Verif.Cuda.Thr (stateAfter stateAfter_succ levelDigit_state)

variable {w : Nat}

/-- The digit of the GPU is that of the CPU. -/
theorem cast_digit (b l : Nat) (hw : 32 ≤ w) (hv : ValidParams w b l) (hb : b ≤ 31) (x : BitVec w) (t : Nat)
    (ht : t < l) : castDigit (levelDigit b t (roundToClosestMultiple b l x >>> (w - b * l))) =
      (digits b l (closestRepresentable b l x >>> (w - b * l))).getD t 0#w := by
  have hg := gpuDigit_eq b l hv x t ht
  rw [gpuDigit] at hg
  rw [hg, Lwe.ksDigit]
  have hcl := (C08_closest_representable b l hv x).1
  rw [(C08_closest_representable b l hv _).2.2.2 hcl]
  obtain ⟨ds, hdl, hde, hdb, _⟩ := digits_spec b l hv (closestRepresentable b l x >>> (w - b * l))
  rw [hde _ (by omega)]
  have hmem : ds.getD t 0 ∈ ds := by
    rw [List.getD_eq_getElem?_getD, List.getElem?_eq_getElem (by omega)]
    exact List.getElem_mem _
  obtain ⟨g1, g2⟩ := hdb _ hmem
  have hp : (2 : Int) ^ (b - 1) ≤ 2 ^ 30 := pow_le_pow_right₀ (by norm_num) (by omega)
  generalize ds.getD t 0 = d at *
  generalize (2 : Int) ^ (b - 1) = P at *
  exact Thr.castDigit_int hw d (by omega) (by omega)

theorem getD_map_range {α : Type} (n i : Nat) (f : Nat → α) (d : α) (h : i < n) :
    ((List.range n).map f).getD i d = f i := by
  simp [List.getD_eq_getElem?_getD, h]

theorem set_map_range {α : Type} (n i : Nat) (f : Nat → α) (x : α) :
    ((List.range n).map f).set i x = (List.range n).map fun j => if j = i then x else f j := by
  apply List.ext_getElem
  · simp
  · intro j h1 h2
    rw [List.getElem_set]
    simp only [List.getElem_map, List.getElem_range, eq_comm]

section
variable (T : Transform w) (k b l : Nat) (key : List T.E) (it : Nat) (ρ : Nat → List (BitVec w))

/-- The polynomials of a level. -/
theorem inner (t level : Nat) (g : Nat → T.E) : ∀ n, n ≤ k + 1 →
    (List.range n).foldl (polyStep T k b l key it level)
      ((List.range (k + 1)).map fun r => (ρ r).map (stateAfter b t), (List.range (k + 1)).map g) =
    ((List.range (k + 1)).map fun r => (ρ r).map (stateAfter b (if r < n then t + 1 else t)),
     (List.range (k + 1)).map fun j => (List.range n).foldl (fun acc i =>
       T.mulAcc acc (key.getD (keyIndex k l it level i j) T.zero)
         (T.fwdDigit ((ρ i).map fun s => castDigit (levelDigit b t s)))) (g j)) := by
  intro n
  induction n with
  | zero => intro _; simp
  | succ n ih =>
    intro hn
    rw [List.range_succ (n := n), List.foldl_append, ih (by omega), List.foldl_cons, List.foldl_nil, polyStep]
    simp only
    rw [getD_map_range _ _ _ _ (by omega), if_neg (by omega), set_map_range]
    simp only [nextDigits, List.map_map]
    refine Prod.ext ?_ ?_
    · refine List.map_congr_left fun r hr => ?_
      by_cases h : r = n
      · subst h
        rw [if_pos rfl, if_pos (by omega)]
        refine List.map_congr_left fun s _ => ?_
        rw [stateAfter_succ]; rfl
      · rw [if_neg h]
        congr 2
        by_cases h2 : r < n
        · rw [if_pos h2, if_pos (by omega)]
        · rw [if_neg h2, if_neg (by omega)]
    · refine List.map_congr_left fun j hj => ?_
      have hj := List.mem_range.1 hj
      rw [List.foldl_append, getD_map_range _ _ _ _ hj]
      simp only [List.foldl_cons, List.foldl_nil, Function.comp_def, levelDigit_state]

/-- The levels. -/
theorem outer : levelLoop T k b l key it ((List.range (k + 1)).map ρ, List.replicate (k + 1) T.zero) =
    ((List.range (k + 1)).map fun r => (ρ r).map (stateAfter b l),
     (List.range (k + 1)).map fun j => (List.range l).foldl (fun acc t => (List.range (k + 1)).foldl (fun acc i =>
       T.mulAcc acc (key.getD (keyIndex k l it (l - 1 - t) i j) T.zero)
         (T.fwdDigit ((ρ i).map fun s => castDigit (levelDigit b t s)))) acc) T.zero) := by
  have hrev : (List.range l).reverse = (List.range l).map fun t => l - 1 - t := by
    have := reverse_map_range l id
    simpa using this
  rw [levelLoop, hrev, List.foldl_map]
  have key' : ∀ n, (List.range n).foldl (fun s t => (List.range (k + 1)).foldl
      (polyStep T k b l key it (l - 1 - t)) s) ((List.range (k + 1)).map ρ, List.replicate (k + 1) T.zero) =
    ((List.range (k + 1)).map fun r => (ρ r).map (stateAfter b n),
     (List.range (k + 1)).map fun j => (List.range n).foldl (fun acc t => (List.range (k + 1)).foldl (fun acc i =>
       T.mulAcc acc (key.getD (keyIndex k l it (l - 1 - t) i j) T.zero)
         (T.fwdDigit ((ρ i).map fun s => castDigit (levelDigit b t s)))) acc) T.zero) := by
    intro n
    induction n with
    | zero =>
      simp only [List.range_zero, List.foldl_nil]
      refine Prod.ext ?_ ?_
      · refine List.map_congr_left fun r _ => ?_
        have : (stateAfter b 0 : BitVec w → BitVec w) = id := rfl
        rw [this, List.map_id]
      · simp [List.map_const']
    | succ n ih =>
      rw [List.range_succ (n := n), List.foldl_append, ih, List.foldl_cons, List.foldl_nil, inner T k b l key it ρ _ _ _ _ le_rfl]
      refine Prod.ext ?_ ?_
      · refine List.map_congr_left fun r hr => ?_
        rw [if_pos (List.mem_range.1 hr)]
      · refine List.map_congr_left fun j _ => ?_
        rw [List.foldl_append]; rfl
  exact key' l

end

theorem keyIndex_lt (k l it level i j n : Nat) (hi : it < n) (hl : level < l) (hr : i < k + 1) (hj : j < k + 1) :
    keyIndex k l it level i j < n * (l * ((k + 1) * (k + 1))) := by
  unfold keyIndex
  generalize hK : (k + 1) * (k + 1) = K
  have h1 : i * (k + 1) + j < K := by
    rw [← hK]
    calc i * (k + 1) + j < i * (k + 1) + (k + 1) := by omega
      _ = (i + 1) * (k + 1) := by rw [Nat.add_mul i, Nat.one_mul]
      _ ≤ (k + 1) * (k + 1) := Nat.mul_le_mul_right _ hr
  have h2 : (level + 1) * K ≤ l * K := Nat.mul_le_mul_right _ hl
  have h3 : (it + 1) * (l * K) ≤ n * (l * K) := Nat.mul_le_mul_right _ hi
  rw [Nat.add_mul, Nat.one_mul] at h2 h3
  rw [Nat.mul_comm K l]
  omega

/-- The polynomial of the key used by the GPU is that of the GGSW of the mask element. -/
theorem key_block (N k l it level i j : Nat) (hl : level < l) (hi : i < k + 1) (hj : j < k + 1)
    (bsk : List (BitVec w)) :
    block N bsk (keyIndex k l it level i j) =
      block N (ggswRow N k (block (l * ((k + 1) * ((k + 1) * N))) bsk it) level i) j := by
  rw [ggswRow, block_block ((k + 1) * ((k + 1) * N)) l bsk it level hl, block_block ((k + 1) * N) (k + 1) _ _ _ hi,
    block_block N (k + 1) _ _ _ hj]
  congr 1
  unfold keyIndex
  ring

theorem rotateSub_block (N k : Nat) (hN : 0 < N) (acc : List (BitVec w)) (hacc : CtFits N k acc) (a r : Nat)
    (hr : r < k + 1) :
    block N (zipUpdate (fun c1 c0 => c1 - c0) (listMonomialMul N acc a) acc) r = rotateSub (block N acc r) a := by
  have hl : (listMonomialMul N acc a).length = (k + 1) * N := (phase_mono N k hN acc acc hacc a).1.1
  have ha : acc.length = (k + 1) * N := hacc
  have hb := (C23_list N (k + 1) hN acc ha a r hr).1
  have hbl := block_len N (k + 1) r acc ha hr
  have hml : (monomialMul (block N acc r) a).length = N := by rw [monomialMul_length, hbl]
  have hrl : (rotateSub (block N acc r) a).length = N := by
    rw [rotateSub, List.length_zipWith, hml, hbl, Nat.min_self]
  have hzl : (zipUpdate (fun c1 c0 => c1 - c0) (listMonomialMul N acc a) acc).length = (k + 1) * N := by
    rw [zipUpdate_length, hl]
  have hle : r * N + N ≤ (k + 1) * N := by rw [← Nat.succ_mul]; exact Nat.mul_le_mul_right _ hr
  have e : ∀ (p : List (BitVec w)) c (h : c < p.length), p[c] = p.getD c 0 := fun p c h => by
    rw [List.getD_eq_getElem?_getD, List.getElem?_eq_getElem h]; rfl
  apply List.ext_getElem
  · rw [block_len N (k + 1) r _ hzl hr, hrl]
  · intro c h1 h2
    rw [hrl] at h2
    rw [e, block_getD _ _ _ _ _ h2, zipUpdate_getD _ _ _ _ 0 0 (by omega) (by omega)]
    simp only [rotateSub, List.getElem_zipWith]
    rw [e, e, ← hb, block_getD _ _ _ _ _ h2, block_getD _ _ _ _ _ h2]

/-- One turn of the loop of the GPU is the CMUX of the CPU with the GGSW of the mask element. -/
theorem maskStep_eq (T : Transform w) (N k b l n it : Nat) (hN : 0 < N) (hw : 32 ≤ w) (hv : ValidParams w b l)
    (hb : b ≤ 31) (bsk acc : List (BitVec w)) (hbsk : bsk.length = n * (l * ((k + 1) * ((k + 1) * N)))) (hit : it < n)
    (hacc : CtFits N k acc) (a : Nat) :
    maskStep T N k b l (convert T N bsk) it acc a =
      cmuxFft T N k b l (convert T N (block (l * ((k + 1) * ((k + 1) * N))) bsk it)) acc (listMonomialMul N acc a) := by
  rw [cmuxFft, cmux]
  simp only
  set ct := zipUpdate (fun c1 c0 => c1 - c0) (listMonomialMul N acc a) acc with hct
  have hl : (listMonomialMul N acc a).length = (k + 1) * N := (phase_mono N k hN acc acc hacc a).1.1
  have hc : ct.length = (k + 1) * N := by rw [hct, zipUpdate_length, hl]
  have ha : acc.length = (k + 1) * N := hacc
  have hbl := block_size _ _ it bsk hbsk hit
  obtain ⟨s1, s2⟩ := accumulate_spec T N k b l hN _ ct hbl hc
  rw [externalProduct, addOut]
  simp only [maskStep]
  congr 2
  rw [chunks_eq N hN (k + 1) acc ha, List.map_map,
    show (fun p => gadgetState b l (rotateSub p a)) ∘ block N acc = fun r => gadgetState b l (rotateSub (block N acc r) a)
      from rfl, outer]
  simp only
  apply List.ext_getElem
  · rw [s1]; simp
  · intro p h1 h2
    rw [s1] at h2
    have hg := s2 p h2
    rw [List.getD_eq_getElem?_getD, List.getElem?_eq_getElem (by omega), Option.getD_some] at hg
    rw [hg, List.getElem_map, List.getElem_range, accPoly, pairs, List.foldl_flatMap]
    apply List.foldl_ext
    intro acc' t ht
    have ht := List.mem_range.1 ht
    rw [List.foldl_map]
    apply List.foldl_ext
    intro acc'' r hr
    have hr := List.mem_range.1 hr
    have hK : bsk.length = n * (l * ((k + 1) * (k + 1))) * N := by rw [hbsk]; ring
    rw [convert, chunks_eq N hN _ bsk hK, List.map_map,
      getD_map_range _ _ _ _ (keyIndex_lt k l it (l - 1 - t) r p n hit (by omega) hr h2)]
    simp only [Function.comp]
    rw [key_block N k l it (l - 1 - t) r p (by omega) hr h2]
    congr 2
    have hbm : ∀ f : BitVec w → BitVec w, block N (ct.map f) r = (block N ct r).map f := by
      intro f
      simp only [block, List.map_drop, List.map_take]
    rw [hbm, hct, rotateSub_block N k hN acc hacc a r hr, gadgetState, List.map_map]
    refine List.map_congr_left fun x _ => ?_
    exact cast_digit b l hw hv hb x t ht

/-- What is required of a turn of the loop: it selects the rotated accumulator, or not, up to an error `C`. -/
def Selects (N k : Nat) (step : Nat → List (BitVec w) → Nat → List (BitVec w)) (lweKey key : List (BitVec w))
    (C : Int) : Prop :=
  ∀ i, i < lweKey.length → ∀ c, CtFits N k c → ∀ a, CtFits N k (step i c a) ∧ ∃ e : Rq (BitVec w) N, Small N C e ∧
    glwePhase N k key (step i c a) =
      (if lweKey.getD i 0 = 1 then Xq (BitVec w) N ^ a * glwePhase N k key c else glwePhase N k key c) + e

/-- The CMUX with a GGSW of the bootstrap key selects. -/
theorem cmux_selects (T : Transform w) (N k b l : Nat) (hN : 0 < N) (hw : 0 < w)
    (D B S E : Int) (hT : T.Accurate N (l * (k + 1)) D B) (hD : 2 ^ (b - 1) ≤ D) (h : ValidParams w b l)
    (hS0 : 0 ≤ S) (lweKey key bsk : List (BitVec w))
    (hk : KeyFits N k key) (hS : KeyBound S key) (hs : Lwe.BinaryKey lweKey) (hbsk : BskEnc N k b l lweKey key bsk E) :
    Selects N k (fun i c a => cmuxFft T N k b l (convert T N (block (l * ((k + 1) * ((k + 1) * N))) bsk i)) c
      (listMonomialMul N c a)) lweKey key (epBound w N k b l S E B 1) := by
  intro n hn r r2 a
  obtain ⟨err, g1, g2⟩ := hbsk.2 n hn
  obtain ⟨⟨m1, m2⟩, _⟩ := phase_mono N k hN key r r2 a
  have hxm : lweKey.getD n 0 = 0 ∨ lweKey.getD n 0 = 1 := by
    rw [List.getD_eq_getElem?_getD, List.getElem?_eq_getElem (by omega)]
    exact hs _ (List.getElem_mem _)
  generalize lweKey.getD n 0 = x at *
  rw [show (AdjoinRoot.of _ x : Rq (BitVec w) N) = if decide (x = 1) then 1 else 0 from ?_] at g2
  · obtain ⟨a1, ⟨e', a2, a3⟩, _⟩ := C28_cmux T N k b l hN D B S E hT hD h key _ r _ (decide (x = 1)) err hk hS r2 m1
      g2 g1
    refine ⟨a1, e', a2.mono (epBound_mono N k b l hS0 (m' := 1) (by split <;> norm_num)), ?_⟩
    rw [a3, m2]
    by_cases hx1 : x = 1 <;> simp [hx1]
  · by_cases hx1 : x = 1
    · rw [hx1, map_one]; simp
    · rw [hxm.resolve_right hx1, map_zero]
      rw [if_neg]
      rw [← hxm.resolve_right hx1]
      simpa using hx1

/-- The loop with given exponents. -/
theorem loop_spec (N k : Nat) (hN : 0 < N) (hw : 0 < w) (step : Nat → List (BitVec w) → Nat → List (BitVec w))
    (lweKey key : List (BitVec w)) (C : Int) (hs : Lwe.BinaryKey lweKey) (hstep : Selects N k step lweKey key C)
    (deg : Nat → Nat) (lut : List (BitVec w)) (hlut : CtFits N k lut) :
    ∀ n, n ≤ lweKey.length → ∃ r, (List.range n).foldl (fun acc it => step it acc (deg it)) lut = r ∧
      CtFits N k r ∧ ∃ e : Rq (BitVec w) N, Small N (n * C) e ∧
      glwePhase N k key r =
        Xq (BitVec w) N ^ (∑ i ∈ Finset.range n, deg i * (lweKey.getD i 0).toNat) * glwePhase N k key lut + e := by
  intro n
  induction n with
  | zero => intro _; exact ⟨lut, rfl, hlut, 0, by simpa using small_zero N 0 le_rfl, by simp⟩
  | succ n ih =>
    intro hn
    obtain ⟨r, r1, r2, e, r3, r4⟩ := ih (by omega)
    rw [List.range_succ, List.foldl_append, r1]
    simp only [List.foldl_cons, List.foldl_nil]
    obtain ⟨a1, e', a2, a3⟩ := hstep n (by omega) r r2 (deg n)
    have hxm : lweKey.getD n 0 = 0 ∨ lweKey.getD n 0 = 1 := by
      rw [List.getD_eq_getElem?_getD, List.getElem?_eq_getElem (by omega)]
      exact hs _ (List.getElem_mem _)
    have hbit := bit_toNat hw _ hxm
    generalize hx : lweKey.getD n 0 = x at *
    refine ⟨_, rfl, a1, Xq (BitVec w) N ^ (deg n * x.toNat) * e + e', ?_, ?_⟩
    · refine ((r3.monomial hN _).add a2).mono (le_of_eq ?_)
      push_cast; ring
    · rw [a3, Finset.sum_range_succ, hx, pow_add, hbit]
      by_cases hx1 : x = 1
      · simp only [hx1, eq_self_iff_true, if_true, r4, Nat.mul_one]
        ring
      · simp only [hx1, if_false, r4, Nat.mul_zero, pow_zero]
        ring

/-- With known exponents the loop is a fold of the steps. -/
theorem rotateWith_eq (step : Nat → List (BitVec w) → Nat → List (BitVec w)) (N n : Nat) (lut lwe : List (BitVec w))
    (hlen : lwe.length = n + 1) (deg : Nat → Nat)
    (hdeg : ∀ i, i ≤ n → rescaleTorusElement (lwe.getD i 0) (2 * N) = some (deg i)) :
    rotateWith step N lut lwe =
      some ((List.range n).foldl (fun acc it => step it acc (deg it)) (listMonomialDiv N lut (deg n))) := by
  have hlast : lwe.getLast? = some (lwe.getD n 0) := by
    rw [List.getLast?_eq_getElem?, hlen, List.getD_eq_getElem?_getD]
    simp only [Nat.add_sub_cancel]
    rw [List.getElem?_eq_getElem (by omega)]; rfl
  rw [rotateWith, hlast]
  simp only
  rw [hdeg n le_rfl, Option.bind_some, hlen, Nat.add_sub_cancel, listMonomialDiv]
  generalize ((chunks N lut).map fun p => monomialDiv p (deg n)).flatten = c
  suffices H : ∀ m, m ≤ n → (List.range m).foldl (fun acc iteration => acc.bind fun acc =>
        (rescaleTorusElement (lwe.getD iteration 0) (2 * N)).map fun aHat => step iteration acc aHat) (some c) =
      some ((List.range m).foldl (fun acc it => step it acc (deg it)) c) from H n le_rfl
  intro m
  induction m with
  | zero => intro _; rfl
  | succ m ih =>
    intro hm
    rw [List.range_succ, List.foldl_append, List.foldl_append, ih (by omega)]
    simp only [List.foldl_cons, List.foldl_nil, Option.bind_some]
    rw [hdeg m (by omega)]
    rfl

/-- The bootstrap with given exponents: the phase of the output is coefficient `d` of the table, for `d` the switched
phase with these exponents. -/
theorem bootstrap_spec (step : Nat → List (BitVec w) → Nat → List (BitVec w)) (N k : Nat) (hN : 0 < N) (hw : 0 < w)
    (C : Int) (lweKey key lut v lweIn lweOut : List (BitVec w)) (hk : KeyFits N k key) (hs : Lwe.BinaryKey lweKey)
    (hstep : Selects N k step lweKey key C)
    (hlut : CtFits N k lut) (hv : v.length = N) (hphase : glwePhase N k key lut = toRq N v)
    (hin : Lwe.Fits lweKey lweIn) (hout : lweOut.length = k * N + 1) (deg : Nat → Nat)
    (hdeg : ∀ i, i ≤ lweKey.length → rescaleTorusElement (lweIn.getD i 0) (2 * N) = some (deg i)) :
    ∃ r, ((rotateWith step N lut lweIn).bind fun acc => sampleExtract N acc lweOut 0) = some r ∧ Lwe.Fits key r ∧
      ∀ d, d + ∑ i ∈ Finset.range lweKey.length, deg i * (lweKey.getD i 0).toNat ≡ deg lweKey.length [MOD 2 * N] →
        |(Lwe.phase key r - ext N v d).toInt| ≤ lweKey.length * C := by
  rw [rotateWith_eq step N lweKey.length lut lweIn hin deg hdeg, Option.bind_some]
  obtain ⟨_, m1, m2⟩ := phase_mono N k hN key lut hlut (deg lweKey.length)
  obtain ⟨g, g1, g2, e, g3, g4⟩ := loop_spec N k hN hw step lweKey key C hs hstep deg _ m1 _ le_rfl
  rw [g1]
  obtain ⟨r, r1, r2, r3⟩ := sampleExtract_spec N k hN key (List.replicate N 0) g lweOut hk g2 (by simp) hout 0 hN
  refine ⟨r, r1, r2, fun d hd => ?_⟩
  obtain ⟨q1, q2⟩ := decryptGlwe_spec N k hN key (List.replicate N 0) g hk g2 (by simp)
  rw [r3]
  generalize hS' : ∑ i ∈ Finset.range lweKey.length, deg i * (lweKey.getD i 0).toNat = s at *
  generalize deg lweKey.length = dn at *
  have hX : Xq (BitVec w) N ^ dn = Xq (BitVec w) N ^ (d + s) := by
    have hper : ∀ n : Nat, Xq (BitVec w) N ^ n = Xq (BitVec w) N ^ (n % (2 * N)) := by
      intro n
      conv_lhs => rw [← Nat.div_add_mod n (2 * N)]
      rw [pow_add, pow_mul, mul_comm 2 N, pow_mul, Xq_pow]
      simp
    rw [hper, hper (d + s), hd]
  have hu : Xq (BitVec w) N ^ s * (-(Xq (BitVec w) N ^ (N - 1))) ^ s = 1 := by
    rw [← mul_pow, Xq_unit N hN, one_pow]
  have hd1 : Xq (BitVec w) N ^ d * (-(Xq (BitVec w) N ^ (N - 1))) ^ d = 1 := by
    rw [← mul_pow, Xq_unit N hN, one_pow]
  have hdiv := monomialDiv_toRq N hN v hv d
  have hinv : -(Xq (BitVec w) N ^ (N - 1)) = Xq (BitVec w) N ^ (2 * N - 1) := by
    have : 2 * N - 1 = N + (N - 1) := by omega
    rw [this, pow_add, Xq_pow]; ring
  have hg : Xq (BitVec w) N ^ dn * glwePhase N k key g =
      Xq (BitVec w) N ^ s * toRq N v + Xq (BitVec w) N ^ dn * e := by
    rw [g4, ← hphase, ← m2]; ring
  have hfin : toRq N (decryptGlwe N key (List.replicate N 0) g) - toRq N (monomialDiv v d) = e := by
    rw [q2]
    have hg' := hg
    rw [hX, ← hdiv, pow_add] at hg'
    linear_combination ((-(Xq (BitVec w) N ^ (N - 1))) ^ s * (-(Xq (BitVec w) N ^ (N - 1))) ^ d) * hg' -
      (glwePhase N k key g - toRq N (monomialDiv v d) - e) * hu *
        (Xq (BitVec w) N ^ d * (-(Xq (BitVec w) N ^ (N - 1))) ^ d) -
      (glwePhase N k key g - toRq N (monomialDiv v d) - e) * hd1
  have hml : (monomialDiv v d).length = N := by rw [monomialDiv_length, hv]
  rw [← hfin, ← toRq_sub N _ _ (by rw [q1, hml])] at g3
  have hc := g3.coeff hN _ (by rw [Poly.sub, zipUpdate_length, q1]) rfl 0
  rw [Poly.sub, zipUpdate_getD _ _ _ 0 0 0 (by omega) (by omega), monomialDiv_getD N hN v hv d 0 hN, Nat.zero_add] at hc
  exact hc

/-- Exponents within `η` of the exact ones give a switched phase close to the phase. -/
theorem phase_close (logN : Nat) (hN : logN + 1 ≤ w) (s ct : List (BitVec w)) (deg : Nat → Nat) (η : Int)
    (hdeg : ∀ i, i ≤ s.length → |((deg i * 2 ^ (w - logN - 1) : Nat) : Int) - (ct.getD i 0).toNat| ≤ η) :
    (∃ d, d < 2 * 2 ^ logN ∧
      d + ∑ i ∈ Finset.range s.length, deg i * (s.getD i 0).toNat ≡ deg s.length [MOD 2 * 2 ^ logN]) ∧
    ∀ d, d + ∑ i ∈ Finset.range s.length, deg i * (s.getD i 0).toNat ≡ deg s.length [MOD 2 * 2 ^ logN] →
      |((d * 2 ^ (w - logN - 1) : Nat) - Lwe.phase s ct : BitVec w).toInt| ≤ (1 + weight s) * η := by
  constructor
  · have hp : 0 < 2 * 2 ^ logN := by positivity
    generalize ∑ i ∈ Finset.range s.length, deg i * (s.getD i 0).toNat = S
    refine ⟨(deg s.length + S * (2 * 2 ^ logN - 1)) % (2 * 2 ^ logN), Nat.mod_lt _ hp, ?_⟩
    have : deg s.length + S * (2 * 2 ^ logN - 1) + S = deg s.length + S * (2 * 2 ^ logN) := by
      obtain ⟨m, hm⟩ : ∃ m, 2 * 2 ^ logN = m + 1 := ⟨2 * 2 ^ logN - 1, by omega⟩
      rw [hm]; simp only [Nat.add_sub_cancel]; ring
    rw [Nat.ModEq, Nat.mod_add_mod, this, Nat.add_mul_mod_self_right]
  intro d hd
  let q : Nat := 2 ^ (w - logN - 1)
  let ε : Nat → Int := fun i => ((deg i * q : Nat) : Int) - (ct.getD i 0).toNat
  have hε : ∀ i, i ≤ s.length → |ε i| ≤ η := hdeg
  have hcast : ∀ i, ((deg i * q : Nat) : BitVec w) = ct.getD i 0 + ((ε i : Int) : BitVec w) := by
    intro i
    have : (((ct.getD i 0).toNat : Int) : BitVec w) = ct.getD i 0 := by
      rw [Int.cast_natCast]; exact BV.natCast_toNat _
    calc ((deg i * q : Nat) : BitVec w)
        = (((deg i * q : Nat) : Int) : BitVec w) := by rw [Int.cast_natCast]
      _ = ((((ct.getD i 0).toNat : Int) + ε i : Int) : BitVec w) := by congr 1; simp only [ε]; ring
      _ = _ := by rw [Int.cast_add, this]
  clear_value ε
  have hq : ((2 * 2 ^ logN * q : Nat) : BitVec w) = 0 := by
    have : 2 * 2 ^ logN * q = 2 ^ w := by
      simp only [q]; rw [← pow_succ', ← pow_add]; congr 1; omega
    rw [this]; exact BV.two_pow_self
  have hmod : ((d * q : Nat) : BitVec w) = ((deg s.length * q : Nat) : BitVec w) -
      ∑ i ∈ Finset.range s.length, ((deg i * q : Nat) : BitVec w) * s.getD i 0 := by
    have hz : ∀ a b : Nat, a ≡ b [MOD 2 * 2 ^ logN] → ((a * q : Nat) : BitVec w) = ((b * q : Nat) : BitVec w) := by
      have key : ∀ a : Nat, ((a * q : Nat) : BitVec w) = ((a % (2 * 2 ^ logN) * q : Nat) : BitVec w) := by
        intro a
        conv_lhs => rw [← Nat.div_add_mod a (2 * 2 ^ logN)]
        rw [Nat.add_mul, Nat.cast_add, Nat.mul_right_comm, Nat.cast_mul, hq, zero_mul, zero_add]
      intro a b hab
      rw [key a, key b, hab]
    have h1 := hz _ _ hd
    rw [Nat.add_mul, Nat.cast_add, Finset.sum_mul, Nat.cast_sum] at h1
    rw [← h1, Finset.sum_congr rfl (g := fun i => ((deg i * q : Nat) : BitVec w) * s.getD i 0)]
    · ring
    · intro i _
      rw [Nat.mul_right_comm, Nat.cast_mul (deg i * q)]
      congr 1
      exact BV.natCast_toNat _
  have hfin : ((d * q : Nat) : BitVec w) - Lwe.phase s ct =
      (((ε s.length - ∑ i ∈ Finset.range s.length, ε i * ((s.getD i 0).toNat : Int)) : Int) : BitVec w) := by
    rw [hmod, hcast, Lwe.phase, Int.cast_sub, Int.cast_sum]
    have : ∀ i ∈ Finset.range s.length, ((deg i * q : Nat) : BitVec w) * s.getD i 0 =
        ct.getD i 0 * s.getD i 0 + ((ε i * ((s.getD i 0).toNat : Int) : Int) : BitVec w) := by
      intro i _
      rw [hcast, Int.cast_mul, Int.cast_natCast, BV.natCast_toNat]; ring
    rw [Finset.sum_congr rfl this, Finset.sum_add_distrib]
    ring
  show |(((d * q : Nat) : BitVec w) - Lwe.phase s ct).toInt| ≤ _
  rw [hfin]
  refine (Poly.abs_toInt_le _).trans ((abs_sub _ _).trans ?_)
  rw [Int.add_mul, one_mul, weight]
  refine add_le_add (hε _ le_rfl) ((Finset.abs_sum_le_sum_abs _ _).trans ?_)
  push_cast
  rw [Finset.sum_mul]
  refine Finset.sum_le_sum fun i hi => ?_
  rw [abs_mul, mul_comm, Nat.abs_cast]
  exact mul_le_mul_of_nonneg_left (hε _ (Finset.mem_range.1 hi).le) (by positivity)

end Verif.Cuda.Am
