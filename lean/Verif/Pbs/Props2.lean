import Verif.Pbs.Props
import Verif.Pbs.Switch
import Verif.Poly.Props
/-
Properties C29 (modulus switch), C30 (blind rotation) and C31 (programmable bootstrap).
-/
set_option linter.unusedSectionVars false
namespace Verif.Pbs
open Verif.Poly Verif.Glwe Verif.Decomp

variable {w : Nat}

/-! ### C29 -/

/-- C29: the modulus switch of `x`, with no offset and one table, is the nearest integer to `x * 2N / 2^w`
(ties up). It lies in `0..2N`, and `2N` rotates like `0`. -/
theorem C29_modulus_switch (x : BitVec w) (logN : Nat) (hN : logN + 2 < w) :
    pbsModulusSwitch x logN 0 0 = some (nearestDegree logN x) ∧ nearestDegree logN x ≤ 2 * 2 ^ logN ∧
    (∀ m : Nat, |2 * ((nearestDegree logN x : Int) * 2 ^ w - x.toNat * (2 * 2 ^ logN))| ≤ 2 ^ w ∧
      |(nearestDegree logN x : Int) * 2 ^ w - x.toNat * (2 * 2 ^ logN)| ≤
        |(m : Int) * 2 ^ w - x.toNat * (2 * 2 ^ logN)|) ∧
    (nearestDegree logN x = 2 * 2 ^ logN → ∀ p : List (BitVec w), p.length = 2 ^ logN →
      monomialMul p (nearestDegree logN x) = monomialMul p 0 ∧
      monomialDiv p (nearestDegree logN x) = monomialDiv p 0) := by
  refine ⟨?_, (nearest_error logN (by omega) x).2, fun m => ?_, fun h p hp => ?_⟩
  · rw [← switchDegree_eq x logN hN, switchDegree,
      switch_eq x logN 0 0 (by omega) (by omega) (by omega) (by omega) (by omega)]
    rfl
  · have h := Nat.div_add_mod (2 * (x.toNat * 2 ^ (logN + 1)) + 2 ^ w) (2 * 2 ^ w)
    have h2 := Nat.mod_lt (2 * (x.toNat * 2 ^ (logN + 1)) + 2 ^ w) (show 0 < 2 * 2 ^ w by positivity)
    rw [← nearestDegree] at h
    have e1 : ((2 : Int) ^ w) = ((2 ^ w : Nat) : Int) := by push_cast; rfl
    have e2 : (x.toNat : Int) * (2 * 2 ^ logN) = ((x.toNat * 2 ^ (logN + 1) : Nat) : Int) := by
      push_cast; ring
    rw [e1, e2]
    generalize nearestDegree logN x = d at *
    generalize (2 * (x.toNat * 2 ^ (logN + 1)) + 2 ^ w) % (2 * 2 ^ w) = r at *
    generalize x.toNat * 2 ^ (logN + 1) = y at *
    generalize 2 ^ w = q at *
    have e3 : 2 * q * d = 2 * (d * q) := by ring
    rw [e3] at h
    have hk : (d : Int) * (q : Int) = ((d * q : Nat) : Int) := by push_cast; rfl
    have hm : (m : Int) * (q : Int) = ((m * q : Nat) : Int) := by push_cast; rfl
    rw [hk, hm]
    have hc : |2 * (((d * q : Nat) : Int) - (y : Int))| ≤ q := by rw [abs_le]; omega
    refine ⟨hc, ?_⟩
    rcases Nat.lt_trichotomy m d with hlt | rfl | hgt
    · have : m * q + q ≤ d * q := by rw [← Nat.succ_mul]; exact Nat.mul_le_mul_right _ hlt
      have a1 := abs_cases (((d * q : Nat) : Int) - (y : Int))
      have a2 := abs_cases (((m * q : Nat) : Int) - (y : Int))
      rw [abs_le] at hc
      omega
    · exact le_rfl
    · have : d * q + q ≤ m * q := by rw [← Nat.succ_mul]; exact Nat.mul_le_mul_right _ hgt
      have a1 := abs_cases (((d * q : Nat) : Int) - (y : Int))
      have a2 := abs_cases (((m * q : Nat) : Int) - (y : Int))
      rw [abs_le] at hc
      omega
  · obtain ⟨_, _, h1, h2, h3, h4⟩ := C23_period (2 ^ logN) (by positivity) p hp 0 0
    rw [h]
    exact ⟨by rw [← h3, Nat.zero_add], by rw [← h4, Nat.zero_add]⟩

/-- C29: with an offset `θ` (the `θ` most significant bits are dropped) and `2^ϑ` tables: the result is
`2^ϑ` times the nearest integer to `y * 2N / (2^ϑ 2^w)` with `y = x * 2^θ mod 2^w`. -/
theorem C29_offset (x : BitVec w) (logN offset lutLog : Nat) (hN : logN + 2 < w) (ho : offset < w)
    (hl : lutLog ≤ logN + 1) :
    pbsModulusSwitch x logN offset lutLog =
      some ((2 * (x.toNat * 2 ^ offset % 2 ^ w * (2 * 2 ^ logN)) + 2 ^ lutLog * 2 ^ w) / (2 * (2 ^ lutLog * 2 ^ w)) *
        2 ^ lutLog) := by
  rw [switch_eq x logN offset lutLog (by omega) ho (by omega) (by omega) (by omega)]
  congr 2
  generalize x.toNat * 2 ^ offset % 2 ^ w = y
  have e1 : 2 ^ lutLog * (2 : Nat) ^ w = 2 ^ (w - logN - 2 + lutLog) * 2 ^ (logN + 2) := by
    rw [← pow_add, ← pow_add]; congr 1; omega
  have e2 : 2 * (2 ^ lutLog * (2 : Nat) ^ w) = 2 ^ (w - logN - 2 + lutLog + 1) * 2 ^ (logN + 2) := by
    rw [e1, pow_succ]; ring
  rw [e2, e1, show 2 * (y * (2 * 2 ^ logN)) = y * 2 ^ (logN + 2) by ring, ← Nat.add_mul,
    Nat.mul_div_mul_right _ _ (by positivity)]

/-- C29: the parameters for which the switch panics (in a debug build) for every input. -/
theorem C29_panics (x : BitVec w) (logN offset lutLog : Nat)
    (h : w < logN + 2 ∨ w ≤ offset ∨ logN + 1 < lutLog) : pbsModulusSwitch x logN offset lutLog = none := by
  rw [pbsModulusSwitch]
  split
  · rfl
  · rename_i hw
    simp only
    rw [if_neg]
    omega

/-- C29: at the limit `2N = 2^(w-1)`, the rounding overflows on the largest inputs. -/
theorem C29_limit_overflow (logN : Nat) (hN : logN + 2 = w) :
    pbsModulusSwitch (BitVec.allOnes w) logN 0 0 = none := by
  subst hN
  have e : logN + 2 - logN - 2 + 0 = 0 := by omega
  rw [pbsModulusSwitch, if_neg (by omega)]
  simp only [e]
  rw [if_pos (by omega), if_neg]
  have h1 : ((BitVec.allOnes (logN + 2) <<< 0) >>> 0 : BitVec (logN + 2)) = BitVec.allOnes (logN + 2) := by simp
  rw [h1]
  have h2 : (BitVec.allOnes (logN + 2) &&& 1#(logN + 2)) = 1#(logN + 2) := by simp
  rw [h2, BitVec.toNat_allOnes]
  have : 2 ≤ 2 ^ (logN + 2) := by
    rw [pow_succ]; have : 0 < 2 ^ (logN + 1) := by positivity
    omega
  simp
  omega

example : pbsModulusSwitch (200#8) 3 0 0 = some 13 ∧ pbsModulusSwitch (248#8) 3 0 0 = some 16 ∧
    pbsModulusSwitch (200#8) 3 1 1 = some 10 := by decide

/-! ### C30 -/

theorem phase_mono (N k : Nat) (hN : 0 < N) (key ct : List (BitVec w)) (hc : CtFits N k ct) (d : Nat) :
    (CtFits N k (listMonomialMul N ct d) ∧
      glwePhase N k key (listMonomialMul N ct d) = Xq (BitVec w) N ^ d * glwePhase N k key ct) ∧
    (CtFits N k (listMonomialDiv N ct d) ∧
      Xq (BitVec w) N ^ d * glwePhase N k key (listMonomialDiv N ct d) = glwePhase N k key ct) := by
  have hc' : ct.length = (k + 1) * N := hc
  have hb : ∀ p, p < k + 1 → (block N ct p).length = N := fun p hp => block_len N _ p ct hc hp
  refine ⟨⟨?_, ?_⟩, ?_, ?_⟩
  · exact (map_chunks_block (fun p => monomialMul p d) (k + 1) N hN ct hc'
      (fun c h => by rw [monomialMul_length, h])).1
  · have h1 : ∀ p, p < k + 1 → toRq N (block N (listMonomialMul N ct d) p) =
        Xq (BitVec w) N ^ d * toRq N (block N ct p) := fun p hp => by
      rw [(C23_list N (k + 1) hN ct hc' d p hp).1, monomialMul_toRq N hN _ (hb p hp)]
    rw [glwePhase, glwePhase, h1 k (by omega), mul_sub, Finset.mul_sum]
    congr 1
    refine Finset.sum_congr rfl fun i hi => ?_
    rw [h1 i (by have := Finset.mem_range.1 hi; omega)]; ring
  · exact (map_chunks_block (fun p => monomialDiv p d) (k + 1) N hN ct hc'
      (fun c h => by rw [monomialDiv_length, h])).1
  · have h1 : ∀ p, p < k + 1 → Xq (BitVec w) N ^ d * toRq N (block N (listMonomialDiv N ct d) p) =
        toRq N (block N ct p) := fun p hp => by
      rw [(C23_list N (k + 1) hN ct hc' d p hp).2, monomialDiv_toRq N hN _ (hb p hp)]
    rw [glwePhase, glwePhase, mul_sub, h1 k (by omega), Finset.mul_sum]
    congr 1
    refine Finset.sum_congr rfl fun i hi => ?_
    rw [← mul_assoc, h1 i (by have := Finset.mem_range.1 hi; omega)]

theorem bit_toNat (hw : 0 < w) (x : BitVec w) (h : x = 0 ∨ x = 1) :
    x.toNat = if x = 1 then 1 else 0 := by
  have h1 : (1 : BitVec w).toNat = 1 := by
    show (BitVec.ofNat w 1).toNat = 1
    rw [BitVec.toNat_ofNat]
    exact Nat.mod_eq_of_lt (Nat.one_lt_two_pow (by omega))
  rcases h with rfl | rfl
  · rw [if_neg]
    · show (BitVec.ofNat w 0).toNat = 0
      simp
    · intro h
      have := congrArg BitVec.toNat h
      rw [h1] at this
      simp at this
  · rw [if_pos rfl, h1]

/-- The loop, for any CMUX that selects up to an error `C`. -/
theorem blindRotateLoop_spec {G : Type} (cm : G → List (BitVec w) → List (BitVec w) → List (BitVec w))
    (N k logN : Nat) (hN : 0 < N) (hlog : logN + 2 < w) (key : List (BitVec w)) (C : Int) (hC : 0 ≤ C) :
    ∀ (s mask : List (BitVec w)) (gs : List G), mask.length = s.length → gs.length = s.length →
    Lwe.BinaryKey s →
    (∀ (i : Nat) (g : G) (x : BitVec w), gs[i]? = some g → s[i]? = some x → ∀ c0 c1, CtFits N k c0 → CtFits N k c1 →
      CtFits N k (cm g c0 c1) ∧ ∃ e : Rq (BitVec w) N, Small N C e ∧
        glwePhase N k key (cm g c0 c1) = (if x = 1 then glwePhase N k key c1 else glwePhase N k key c0) + e) →
    ∀ ct, CtFits N k ct → CtFits N k (blindRotateLoop cm N logN mask gs ct) ∧
      ∃ e : Rq (BitVec w) N, Small N (s.length * C) e ∧
        glwePhase N k key (blindRotateLoop cm N logN mask gs ct) =
          Xq (BitVec w) N ^ (∑ i ∈ Finset.range s.length, nearestDegree logN (mask.getD i 0) * (s.getD i 0).toNat) *
            glwePhase N k key ct + e := by
  intro s
  induction s with
  | nil =>
    intro mask gs hm hg _ _ ct hc
    have : mask = [] := by simpa using hm
    subst this
    refine ⟨by rw [blindRotateLoop]; exact hc; simp, 0, by simpa using small_zero N 0 le_rfl, ?_⟩
    rw [blindRotateLoop]; simp
    simp
  | cons x s ih =>
    intro mask gs hm hg hs hcm ct hc
    obtain ⟨a, mask, rfl⟩ : ∃ a m, mask = a :: m := List.exists_cons_of_length_pos (by rw [hm]; simp)
    obtain ⟨g, gs, rfl⟩ : ∃ a m, gs = a :: m := List.exists_cons_of_length_pos (by rw [hg]; simp)
    have hx := hs x (List.mem_cons_self ..)
    have hrest := ih mask gs (by simpa using hm) (by simpa using hg)
      (fun y hy => hs y (List.mem_cons_of_mem _ hy)) (fun i g y h1 h2 => hcm (i + 1) g y (by simpa using h1) (by simpa using h2))
    rw [blindRotateLoop, List.length_cons, Finset.sum_range_succ']
    simp only [List.getD_cons_succ, List.getD_cons_zero]
    generalize hS : ∑ i ∈ Finset.range s.length, nearestDegree logN (mask.getD i 0) * (s.getD i 0).toNat = S at *
    by_cases ha : a = 0#w
    · rw [if_neg (by simpa using ha), ha]
      obtain ⟨h1, e, h2, h3⟩ := hrest ct hc
      refine ⟨h1, e, h2.mono ?_, ?_⟩
      · push_cast; rw [add_mul]; linarith
      · rw [h3, nearest_zero, Nat.zero_mul, Nat.add_zero]
    · rw [if_pos ha]
      obtain ⟨⟨m1, m2⟩, _⟩ := phase_mono N k hN key ct hc (switchDegree a logN)
      obtain ⟨c1, e, c2, c3⟩ := hcm 0 g x (by simp) (by simp) ct _ hc m1
      obtain ⟨h1, e', h2, h3⟩ := hrest _ c1
      refine ⟨h1, Xq (BitVec w) N ^ S * e + e', ?_, ?_⟩
      · refine ((c2.monomial hN S).add h2).mono (le_of_eq ?_)
        push_cast; ring
      · rw [h3, c3, m2, switchDegree_eq a logN hlog, bit_toNat (by omega) x hx]
        split
        · rw [Nat.mul_one, pow_add]; ring
        · rw [Nat.mul_zero, Nat.add_zero]; ring

theorem chunks_of_chunks {α : Type} (N m q : Nat) (hN : 0 < N) (hm : 0 < m) (l : List α)
    (hl : l.length = q * (m * N)) (f : List α → β) :
    chunks m ((chunks N l).map f) = (List.range q).map fun i => (chunks N (block (m * N) l i)).map f := by
  have h := chunks_chunks N m q hN hm l hl
  rw [← h, List.map_flatten, chunks_of_flatten m hm]
  · rw [chunks_eq (m * N) (Nat.mul_pos hm hN) q l hl]
    simp [Function.comp_def]
  · intro x hx
    rw [chunks_eq (m * N) (Nat.mul_pos hm hN) q l hl] at hx
    simp only [List.map_map, List.mem_map, List.mem_range, Function.comp] at hx
    obtain ⟨i, hi, rfl⟩ := hx
    rw [List.length_map]
    apply chunks_length N hN m
    exact block_length _ _ _ (by rw [hl]; exact Nat.mul_le_mul_right _ hi)

theorem bskGgsws_eq (T : Transform w) (N k l n : Nat) (hN : 0 < N) (hl : 0 < l) (bsk : List (BitVec w))
    (hb : bsk.length = n * (l * ((k + 1) * ((k + 1) * N)))) :
    bskGgsws T N k l bsk = (List.range n).map fun i => convert T N (block (l * ((k + 1) * ((k + 1) * N))) bsk i) := by
  have e : l * ((k + 1) * ((k + 1) * N)) = l * ((k + 1) * (k + 1)) * N := by ring
  rw [bskGgsws, convert, e, chunks_of_chunks N (l * ((k + 1) * (k + 1))) n hN (by positivity) bsk (by rw [hb, e])]
  rfl

/-- The CMUX of the two backends are the same function. -/
theorem cmuxNtt_eq (T : Transform w) (N k b l : Nat) (h : ValidParams w b l) :
    cmuxNtt T N k b l = cmuxFft T N k b l := by
  funext g c0 c1
  rw [cmuxNtt, cmuxFft, cmux, cmux, C27_ntt_rounding T N k b l h]

theorem epBound_nonneg (N k b l : Nat) {S E B m : Int} (hS : 0 ≤ S) (hE : 0 ≤ E) (hB : 0 ≤ B) (hm : 0 ≤ m) :
    0 ≤ epBound w N k b l S E B m := by
  rw [epBound]; positivity

theorem epBound_mono (N k b l : Nat) {S E B m m' : Int} (hS : 0 ≤ S) (hm : m ≤ m') :
    epBound w N k b l S E B m ≤ epBound w N k b l S E B m' := by
  rw [epBound, epBound]
  have : (0 : Int) ≤ (k * (N * S) + 1) * 2 ^ (w - b * l - 1) := by positivity
  have := mul_le_mul_of_nonneg_right hm this
  linarith

/-- C30: the blind rotation of `lut` by `lwe`, under a bootstrap key of the binary key `lweKey`, has a phase
`r` with `X^(b') * r = X^(Σ a'_i s_i) * phase(lut)` up to `n` times the CMUX error. Both backends. -/
theorem C30_blind_rotation (T : Transform w) (N k b l logN : Nat) (hNN : N = 2 ^ logN) (hlog : logN + 2 < w)
    (D B S E : Int) (hT : T.Accurate N (l * (k + 1)) D B) (hD : 2 ^ (b - 1) ≤ D) (h : ValidParams w b l)
    (hB : 0 ≤ B) (hS0 : 0 ≤ S) (hE : 0 ≤ E) (lweKey key bsk lut lwe : List (BitVec w))
    (hk : KeyFits N k key) (hS : KeyBound S key) (hs : Lwe.BinaryKey lweKey) (hbsk : BskEnc N k b l lweKey key bsk E)
    (hlut : CtFits N k lut) (hlwe : Lwe.Fits lweKey lwe) :
    ∃ r, blindRotate (cmuxFft T N k b l) N logN lut (bskGgsws T N k l bsk) lwe = some r ∧
      blindRotate (cmuxNtt T N k b l) N logN lut (bskGgsws T N k l bsk) lwe = some r ∧
      CtFits N k r ∧ ∃ e : Rq (BitVec w) N, Small N (lweKey.length * epBound w N k b l S E B 1) e ∧
      Xq (BitVec w) N ^ nearestDegree logN (lwe.getD lweKey.length 0) * glwePhase N k key r =
        Xq (BitVec w) N ^ (∑ i ∈ Finset.range lweKey.length,
          nearestDegree logN (lwe.getD i 0) * (lweKey.getD i 0).toNat) * glwePhase N k key lut + e := by
  have hN : 0 < N := by rw [hNN]; positivity
  have hlen : lwe.length = lweKey.length + 1 := hlwe
  have hlast : lwe.getLast? = some (lwe.getD lweKey.length 0) := by
    rw [List.getLast?_eq_getElem?, hlen, List.getD_eq_getElem?_getD]
    simp only [Nat.add_sub_cancel]
    rw [List.getElem?_eq_getElem (by omega)]; rfl
  have hgs := bskGgsws_eq T N k l lweKey.length hN h.level bsk hbsk.1
  obtain ⟨_, m1, m2⟩ := phase_mono N k hN key lut hlut (switchDegree (lwe.getD lweKey.length 0) logN)
  have hcm : ∀ (i : Nat) (g : List T.E) (x : BitVec w), (bskGgsws T N k l bsk)[i]? = some g → lweKey[i]? = some x →
      ∀ c0 c1, CtFits N k c0 → CtFits N k c1 →
      CtFits N k (cmuxFft T N k b l g c0 c1) ∧ ∃ e : Rq (BitVec w) N, Small N (epBound w N k b l S E B 1) e ∧
        glwePhase N k key (cmuxFft T N k b l g c0 c1) =
          (if x = 1 then glwePhase N k key c1 else glwePhase N k key c0) + e := by
    intro i g x hg hx c0 c1 h0 h1
    have hi : i < lweKey.length := (List.getElem?_eq_some_iff.1 hx).1
    rw [hgs] at hg
    simp only [List.getElem?_map, List.getElem?_range hi, Option.map_some, Option.some.injEq] at hg
    subst hg
    obtain ⟨err, g1, g2⟩ := hbsk.2 i hi
    have hgx : lweKey.getD i 0 = x := by rw [List.getD_eq_getElem?_getD, hx]; rfl
    have hxm := hs x (List.mem_of_getElem? hx)
    have hw : 0 < w := by omega
    have hbit := bit_toNat hw x hxm
    rw [hgx, show (AdjoinRoot.of _ x : Rq (BitVec w) N) = if decide (x = 1) then 1 else 0 from ?_] at g2
    · obtain ⟨a1, ⟨e, a2, a3⟩, _⟩ := C28_cmux T N k b l hN D B S E hT hD h key _ c0 c1 (decide (x = 1)) err hk hS h0 h1
        g2 g1
      refine ⟨a1, e, a2.mono (epBound_mono N k b l hS0 ?_), ?_⟩
      · split <;> norm_num
      · simpa using a3
    · by_cases hx1 : x = 1
      · rw [hx1, map_one]; simp
      · rw [hxm.resolve_right hx1, map_zero]
        rw [if_neg]
        rw [← hxm.resolve_right hx1]
        simpa using hx1
  obtain ⟨r1, e, r2, r3⟩ := blindRotateLoop_spec (cmuxFft T N k b l) N k logN hN hlog key
    (epBound w N k b l S E B 1) (epBound_nonneg N k b l hS0 hE hB (by norm_num)) lweKey lwe.dropLast
    (bskGgsws T N k l bsk) (by simp [hlen]) (by rw [hgs]; simp) hs hcm _ m1
  refine ⟨_, ?_, ?_, r1, Xq (BitVec w) N ^ nearestDegree logN (lwe.getD lweKey.length 0) * e, r2.monomial hN _, ?_⟩
  · rw [blindRotate, hlast]
  · rw [cmuxNtt_eq T N k b l h, blindRotate, hlast]
  · rw [r3, ← m2, switchDegree_eq _ logN hlog]
    have : ∀ i ∈ Finset.range lweKey.length, nearestDegree logN (lwe.dropLast.getD i 0) * (lweKey.getD i 0).toNat =
        nearestDegree logN (lwe.getD i 0) * (lweKey.getD i 0).toNat := by
      intro i hi
      have hi := Finset.mem_range.1 hi
      rw [List.getD_eq_getElem?_getD, List.getElem?_dropLast, if_pos (by omega), ← List.getD_eq_getElem?_getD]
    rw [Finset.sum_congr rfl this]
    ring

/-! ### C31 -/

/-- C31: the bootstrap succeeds, and the phase of its output under the extracted key is, up to `n` times
the CMUX error, coefficient `d` of the plaintext of the accumulator (extended by `v_(i+N) = -v_i`), for the
switched phase `d` of the input. -/
theorem C31_bootstrap (T : Transform w) (N k b l logN : Nat) (hNN : N = 2 ^ logN) (hlog : logN + 2 < w)
    (D B S E : Int) (hT : T.Accurate N (l * (k + 1)) D B) (hD : 2 ^ (b - 1) ≤ D) (h : ValidParams w b l)
    (hB : 0 ≤ B) (hS0 : 0 ≤ S) (hE : 0 ≤ E) (lweKey key bsk acc v lweIn lweOut : List (BitVec w))
    (hk : KeyFits N k key) (hS : KeyBound S key) (hs : Lwe.BinaryKey lweKey) (hbsk : BskEnc N k b l lweKey key bsk E)
    (hacc : CtFits N k acc) (hv : v.length = N) (hphase : glwePhase N k key acc = toRq N v)
    (hin : Lwe.Fits lweKey lweIn) (hout : lweOut.length = k * N + 1) :
    ∃ r, bootstrap (cmuxFft T N k b l) N logN lweOut lweIn acc (bskGgsws T N k l bsk) = some r ∧
      bootstrap (cmuxNtt T N k b l) N logN lweOut lweIn acc (bskGgsws T N k l bsk) = some r ∧
      Lwe.Fits key r ∧
      ∀ d, IsSwitchedPhase logN lweKey lweIn d →
        |(Lwe.phase key r - ext N v d).toInt| ≤ lweKey.length * epBound w N k b l S E B 1 := by
  have hN : 0 < N := by rw [hNN]; positivity
  obtain ⟨g, g1, g1', g2, e, g3, g4⟩ := C30_blind_rotation T N k b l logN hNN hlog D B S E hT hD h hB hS0 hE lweKey key
    bsk acc lweIn hk hS hs hbsk hacc hin
  obtain ⟨r, r1, r2, r3⟩ := sampleExtract_spec N k hN key (List.replicate N 0) g lweOut hk g2 (by simp) hout 0 hN
  refine ⟨r, by rw [bootstrap, g1]; exact r1, by rw [bootstrap, g1']; exact r1, r2, fun d hd => ?_⟩
  obtain ⟨q1, q2⟩ := decryptGlwe_spec N k hN key (List.replicate N 0) g hk g2 (by simp)
  rw [r3]
  generalize hS' : ∑ i ∈ Finset.range lweKey.length, nearestDegree logN (lweIn.getD i 0) * (lweKey.getD i 0).toNat = s
    at g4
  have hX : Xq (BitVec w) N ^ nearestDegree logN (lweIn.getD lweKey.length 0) = Xq (BitVec w) N ^ (d + s) := by
    have hper : ∀ n : Nat, Xq (BitVec w) N ^ n = Xq (BitVec w) N ^ (n % (2 * N)) := by
      intro n
      conv_lhs => rw [← Nat.div_add_mod n (2 * N)]
      rw [pow_add, pow_mul, mul_comm 2 N, pow_mul, Xq_pow]
      simp
    rw [IsSwitchedPhase, hS', ← hNN] at hd
    rw [hper, hper (d + s), hd]
  have hu : Xq (BitVec w) N ^ s * (-(Xq (BitVec w) N ^ (N - 1))) ^ s = 1 := by
    rw [← mul_pow, Xq_unit N hN, one_pow]
  have hd1 : Xq (BitVec w) N ^ d * (-(Xq (BitVec w) N ^ (N - 1))) ^ d = 1 := by
    rw [← mul_pow, Xq_unit N hN, one_pow]
  -- the phase is `X^(-d) v` plus a rotated error
  have hdiv := monomialDiv_toRq N hN v hv d
  have hinv : -(Xq (BitVec w) N ^ (N - 1)) = Xq (BitVec w) N ^ (2 * N - 1) := by
    have : 2 * N - 1 = N + (N - 1) := by omega
    rw [this, pow_add, Xq_pow]; ring
  have hfin : toRq N (decryptGlwe N key (List.replicate N 0) g) - toRq N (monomialDiv v d) =
      Xq (BitVec w) N ^ ((2 * N - 1) * s + (2 * N - 1) * d) * e := by
    rw [q2, pow_add, pow_mul, pow_mul, ← hinv]
    rw [hX, hphase, ← hdiv, pow_add] at g4
    linear_combination ((-(Xq (BitVec w) N ^ (N - 1))) ^ s * (-(Xq (BitVec w) N ^ (N - 1))) ^ d) * g4 -
      (glwePhase N k key g - toRq N (monomialDiv v d)) * hu * (Xq (BitVec w) N ^ d * (-(Xq (BitVec w) N ^ (N - 1))) ^ d) -
      (glwePhase N k key g - toRq N (monomialDiv v d)) * hd1
  have hml : (monomialDiv v d).length = N := by rw [monomialDiv_length, hv]
  have hsm := g3.monomial hN ((2 * N - 1) * s + (2 * N - 1) * d)
  rw [← hfin, ← toRq_sub N _ _ (by rw [q1, hml])] at hsm
  have hc := hsm.coeff hN _ (by rw [Poly.sub, zipUpdate_length, q1]) rfl 0
  rw [Poly.sub, zipUpdate_getD _ _ _ 0 0 0 (by omega) (by omega), monomialDiv_getD N hN v hv d 0 hN, Nat.zero_add] at hc
  exact hc

/-- C31: some `d < 2N` is the switched phase, and it is close to the phase of the input: at most
`(1 + weight) / 2` steps of `2^w / 2N`. -/
theorem C31_switched_phase (logN : Nat) (hlog : logN + 2 < w) (lweKey lweIn : List (BitVec w)) :
    (∃ d, d < 2 * 2 ^ logN ∧ IsSwitchedPhase logN lweKey lweIn d) ∧
    ∀ d, IsSwitchedPhase logN lweKey lweIn d →
      |((d * 2 ^ (w - logN - 1) : Nat) - Lwe.phase lweKey lweIn : BitVec w).toInt| ≤
        (1 + weight lweKey) * 2 ^ (w - logN - 2) :=
  ⟨exists_switched_phase logN lweKey lweIn, switched_phase_close logN (by omega) lweKey lweIn⟩

/-- C31, for the user of a lookup table: if the plaintext of the accumulator is `y` at every position `d`
that is within `(1 + weight) / 2` steps of the phase of the input, the bootstrap returns a ciphertext of `y`
up to `n` times the CMUX error. -/
theorem C31_lookup (T : Transform w) (N k b l logN : Nat) (hNN : N = 2 ^ logN) (hlog : logN + 2 < w)
    (D B S E : Int) (hT : T.Accurate N (l * (k + 1)) D B) (hD : 2 ^ (b - 1) ≤ D) (h : ValidParams w b l)
    (hB : 0 ≤ B) (hS0 : 0 ≤ S) (hE : 0 ≤ E) (lweKey key bsk acc v lweIn lweOut : List (BitVec w))
    (hk : KeyFits N k key) (hS : KeyBound S key) (hs : Lwe.BinaryKey lweKey) (hbsk : BskEnc N k b l lweKey key bsk E)
    (hacc : CtFits N k acc) (hv : v.length = N) (hphase : glwePhase N k key acc = toRq N v)
    (hin : Lwe.Fits lweKey lweIn) (hout : lweOut.length = k * N + 1) (y : BitVec w)
    (hy : ∀ d, d < 2 * N → |((d * 2 ^ (w - logN - 1) : Nat) - Lwe.phase lweKey lweIn : BitVec w).toInt| ≤
        (1 + weight lweKey) * 2 ^ (w - logN - 2) → ext N v d = y) :
    ∃ r, bootstrap (cmuxFft T N k b l) N logN lweOut lweIn acc (bskGgsws T N k l bsk) = some r ∧
      bootstrap (cmuxNtt T N k b l) N logN lweOut lweIn acc (bskGgsws T N k l bsk) = some r ∧
      Lwe.Fits key r ∧ |(Lwe.phase key r - y).toInt| ≤ lweKey.length * epBound w N k b l S E B 1 := by
  obtain ⟨r, r1, r1', r2, r3⟩ := C31_bootstrap T N k b l logN hNN hlog D B S E hT hD h hB hS0 hE lweKey key bsk acc v
    lweIn lweOut hk hS hs hbsk hacc hv hphase hin hout
  obtain ⟨⟨d, d1, d2⟩, d3⟩ := C31_switched_phase logN hlog lweKey lweIn
  refine ⟨r, r1, r1', r2, ?_⟩
  rw [← hy d (by rw [hNN]; exact d1) (d3 d d2)]
  exact r3 d d2

/-- A trivial accumulator has the phase of its body. -/
theorem C31_trivial_accumulator (N k : Nat) (hN : 0 < N) (key v : List (BitVec w)) (hv : v.length = N) :
    CtFits N k (List.replicate (k * N) 0#w ++ v) ∧
    glwePhase N k key (List.replicate (k * N) 0#w ++ v) = toRq N v := by
  have hl : (List.replicate (k * N) 0#w).length = k * N := by simp
  refine ⟨by rw [CtFits, List.length_append, hl, hv]; ring, ?_⟩
  have h1 : block N (List.replicate (k * N) 0#w ++ v) k = v := by
    rw [block, List.drop_left' hl, List.take_of_length_le (by omega)]
  have h2 : ∀ i ∈ Finset.range k, toRq N (block N (List.replicate (k * N) 0#w ++ v) i) * toRq N (block N key i) = 0 := by
    intro i hi
    have hi := Finset.mem_range.1 hi
    have hle : i * N + N ≤ k * N := by rw [← Nat.succ_mul]; exact Nat.mul_le_mul_right _ hi
    have : block N (List.replicate (k * N) 0#w ++ v) i = List.replicate N 0#w := by
      rw [block, List.drop_append_of_le_length (by omega), List.drop_replicate,
        List.take_append_of_le_length (by simp; omega), List.take_replicate]
      congr 1; omega
    rw [this, show toRq N (List.replicate N 0#w) = 0 from toRq_zero N N, zero_mul]
  rw [glwePhase, h1, Finset.sum_eq_zero h2, sub_zero]

end Verif.Pbs
