import Verif.Ntt.Spec
import Verif.Poly.Lemmas
import Mathlib.Tactic.Ring
import Mathlib.Tactic.LinearCombination
/-
The loops of the transform over a commutative ring.
-/
set_option linter.unusedSectionVars false
namespace Verif.Ntt

variable {α : Type}

theorem getD_set (l : List α) (i j : Nat) (a d : α) (hi : i < l.length) :
    (l.set i a).getD j d = if j = i then a else l.getD j d := by
  simp only [List.getD_eq_getElem?_getD, List.getElem?_set]
  by_cases h : i = j
  · subst h; simp [hi]
  · rw [if_neg h, if_neg (fun e => h e.symm)]

section loops
variable (o : Ops α)

/-- One block of butterflies given by two functions of the pair `(b[j], b[j+t])`. -/
theorem block_loop (f g : α → α → α) (t : Nat) (step : List α → Nat → List α)
    (hstep : ∀ b j, step b j = (b.set j (f (b.getD j o.zero) (b.getD (j + t) o.zero))).set (j + t)
      (g (b.getD j o.zero) (b.getD (j + t) o.zero))) (j1 : Nat) (buf : List α) :
    ∀ n, n ≤ t → j1 + 2 * t ≤ buf.length →
    ((List.range' j1 n).foldl step buf).length = buf.length ∧
    ∀ x, ((List.range' j1 n).foldl step buf).getD x o.zero =
      if j1 ≤ x ∧ x < j1 + n then f (buf.getD x o.zero) (buf.getD (x + t) o.zero)
      else if j1 + t ≤ x ∧ x < j1 + t + n then g (buf.getD (x - t) o.zero) (buf.getD x o.zero)
      else buf.getD x o.zero := by
  intro n
  induction n with
  | zero =>
    intro _ _
    refine ⟨rfl, fun x => ?_⟩
    rw [if_neg (by omega), if_neg (by omega)]; rfl
  | succ n ih =>
    intro hn hl
    obtain ⟨h1, h2⟩ := ih (by omega) hl
    rw [List.range'_concat, List.foldl_append, List.foldl_cons, List.foldl_nil, hstep]
    generalize hb : (List.range' j1 n).foldl step buf = b at *
    rw [Nat.one_mul]
    refine ⟨by simp [h1], fun x => ?_⟩
    have e1 : b.getD (j1 + n) o.zero = buf.getD (j1 + n) o.zero := by
      rw [h2, if_neg (by omega), if_neg (by omega)]
    have e2 : b.getD (j1 + n + t) o.zero = buf.getD (j1 + n + t) o.zero := by
      rw [h2, if_neg (by omega), if_neg (by omega)]
    rw [e1, e2, getD_set _ _ _ _ _ (by simp; omega), getD_set _ _ _ _ _ (by omega), h2]
    by_cases hx : x = j1 + n + t
    · subst hx
      rw [if_pos rfl, if_neg (by omega), if_pos (by omega), show j1 + n + t - t = j1 + n by omega]
    · rw [if_neg hx]
      by_cases hx2 : x = j1 + n
      · subst hx2
        rw [if_pos rfl, if_pos (by omega)]
      · rw [if_neg hx2]
        by_cases hA : j1 ≤ x ∧ x < j1 + n
        · rw [if_pos hA, if_pos (by omega)]
        · rw [if_neg hA]
          by_cases hB : j1 + t ≤ x ∧ x < j1 + t + n
          · rw [if_pos hB, if_neg (by omega), if_pos (by omega)]
          · rw [if_neg hB, if_neg (by omega), if_neg (by omega)]

/-- All blocks of a scale. -/
theorem scale_loop (f g : Nat → α → α → α) (t : Nat) (ht : 0 < t) (blk : List α → Nat → List α)
    (hblk : ∀ b i, i * (2 * t) + 2 * t ≤ b.length → (blk b i).length = b.length ∧
      ∀ x, (blk b i).getD x o.zero =
        if i * (2 * t) ≤ x ∧ x < i * (2 * t) + t then f i (b.getD x o.zero) (b.getD (x + t) o.zero)
        else if i * (2 * t) + t ≤ x ∧ x < i * (2 * t) + t + t then g i (b.getD (x - t) o.zero) (b.getD x o.zero)
        else b.getD x o.zero) (buf : List α) :
    ∀ m, m * (2 * t) ≤ buf.length →
    ((List.range m).foldl blk buf).length = buf.length ∧
    ∀ x, ((List.range m).foldl blk buf).getD x o.zero =
      if x < m * (2 * t) then
        if x % (2 * t) < t then f (x / (2 * t)) (buf.getD x o.zero) (buf.getD (x + t) o.zero)
        else g (x / (2 * t)) (buf.getD (x - t) o.zero) (buf.getD x o.zero)
      else buf.getD x o.zero := by
  intro m
  induction m with
  | zero => intro _; refine ⟨rfl, fun x => ?_⟩; rw [if_neg (by omega)]; rfl
  | succ m ih =>
    intro hl
    rw [Nat.add_mul, Nat.one_mul] at hl
    obtain ⟨h1, h2⟩ := ih (by omega)
    rw [List.range_succ, List.foldl_append, List.foldl_cons, List.foldl_nil]
    generalize hb : (List.range m).foldl blk buf = b at *
    obtain ⟨g1, g2⟩ := hblk b m (by omega)
    refine ⟨by rw [g1, h1], fun x => ?_⟩
    rw [g2, Nat.add_mul, Nat.one_mul]
    have e : ∀ y, m * (2 * t) ≤ y → b.getD y o.zero = buf.getD y o.zero := fun y hy => by
      rw [h2, if_neg (by omega)]
    by_cases hx : x < m * (2 * t)
    · rw [if_neg (by omega), if_neg (by omega), h2, if_pos hx, if_pos (show x < m * (2 * t) + 2 * t by omega)]
    · by_cases hx2 : x < m * (2 * t) + 2 * t
      · have hq : x / (2 * t) = m := by
          rw [Nat.div_eq_iff (by omega)]
          constructor <;> [skip; skip] <;> (have := Nat.mul_comm m (2 * t)) <;> omega
        have hr : x % (2 * t) = x - m * (2 * t) := by
          have := Nat.div_add_mod x (2 * t)
          rw [hq, Nat.mul_comm] at this
          omega
        rw [if_pos hx2, hr, hq]
        by_cases hx3 : x < m * (2 * t) + t
        · rw [if_pos (by omega), if_pos (by omega), e x (by omega), e _ (by omega)]
        · rw [if_neg (by omega), if_pos (by omega), if_neg (by omega), e x (by omega), e _ (by omega)]
      · rw [if_neg (by omega), if_neg (by omega), if_neg hx2, e x (by omega)]

end loops

theorem fwdScale_spec (o : Ops α) (roots : List α) (t m : Nat) (ht : 0 < t) (buf : List α)
    (hl : buf.length = m * (2 * t)) :
    (fwdScale o roots t m buf).length = buf.length ∧ ∀ x, x < buf.length →
    (fwdScale o roots t m buf).getD x o.zero =
      let s := roots.getD (m + x / (2 * t)) o.zero
      if x % (2 * t) < t then o.add (buf.getD x o.zero) (o.mul (buf.getD (x + t) o.zero) s)
      else o.sub (buf.getD (x - t) o.zero) (o.mul (buf.getD x o.zero) s) := by
  obtain ⟨h1, h2⟩ := scale_loop o (fun i u v => o.add u (o.mul v (roots.getD (m + i) o.zero)))
    (fun i u v => o.sub u (o.mul v (roots.getD (m + i) o.zero))) t ht (fwdBlock o roots t m) (fun b i hb => by
      have := block_loop o (fun u v => o.add u (o.mul v (roots.getD (m + i) o.zero)))
        (fun u v => o.sub u (o.mul v (roots.getD (m + i) o.zero))) t
        (fwdButterfly o t (roots.getD (m + i) o.zero)) (fun _ _ => rfl) (i * (2 * t)) b t le_rfl hb
      rw [fwdBlock, show 2 * i * t = i * (2 * t) by ring]
      exact this) buf m (by omega)
  refine ⟨h1, fun x hx => ?_⟩
  rw [fwdScale, h2 x, if_pos (by omega)]

theorem bwdScale_spec (o : Ops α) (roots : List α) (t m : Nat) (ht : 0 < t) (buf : List α)
    (hl : buf.length = m * (2 * t)) :
    (bwdScale o roots t m buf).length = buf.length ∧ ∀ x, x < buf.length →
    (bwdScale o roots t m buf).getD x o.zero =
      if x % (2 * t) < t then o.add (buf.getD x o.zero) (buf.getD (x + t) o.zero)
      else o.mul (o.sub (buf.getD (x - t) o.zero) (buf.getD x o.zero)) (roots.getD (m + x / (2 * t)) o.zero) := by
  obtain ⟨h1, h2⟩ := scale_loop o (fun i u v => o.add u v)
    (fun i u v => o.mul (o.sub u v) (roots.getD (m + i) o.zero)) t ht (bwdBlock o roots t m) (fun b i hb => by
      have := block_loop o (fun u v => o.add u v)
        (fun u v => o.mul (o.sub u v) (roots.getD (m + i) o.zero)) t
        (bwdButterfly o t (roots.getD (m + i) o.zero)) (fun _ _ => rfl) (i * (2 * t)) b t le_rfl hb
      rw [bwdBlock]
      exact this) buf m (by omega)
  refine ⟨h1, fun x hx => ?_⟩
  rw [bwdScale, h2 x, if_pos (by omega)]

/-! ### Over a ring -/

variable {F : Type} [CommRing F]

theorem fwdScale_ring (roots : List F) (t m : Nat) (ht : 0 < t) (buf : List F)
    (hl : buf.length = m * (2 * t)) :
    (fwdScale (ringOps F) roots t m buf).length = buf.length ∧ ∀ x, x < buf.length →
    (fwdScale (ringOps F) roots t m buf).getD x 0 =
      if x % (2 * t) < t then buf.getD x 0 + buf.getD (x + t) 0 * roots.getD (m + x / (2 * t)) 0
      else buf.getD (x - t) 0 - buf.getD x 0 * roots.getD (m + x / (2 * t)) 0 :=
  fwdScale_spec (ringOps F) roots t m ht buf hl

theorem bwdScale_ring (roots : List F) (t m : Nat) (ht : 0 < t) (buf : List F)
    (hl : buf.length = m * (2 * t)) :
    (bwdScale (ringOps F) roots t m buf).length = buf.length ∧ ∀ x, x < buf.length →
    (bwdScale (ringOps F) roots t m buf).getD x 0 =
      if x % (2 * t) < t then buf.getD x 0 + buf.getD (x + t) 0
      else (buf.getD (x - t) 0 - buf.getD x 0) * roots.getD (m + x / (2 * t)) 0 :=
  bwdScale_spec (ringOps F) roots t m ht buf hl

/-- The relations of the tables, in one formula. -/
theorem Valid.sq {T : Tables F} (h : Valid T) (k : Nat) (h1 : 1 ≤ k) (hk : k < 2 ^ T.logSize) :
    T.roots.getD k 0 ^ 2 = nodeConst T.roots k := by
  rw [nodeConst]
  by_cases hk1 : k = 1
  · subst hk1; rw [if_pos rfl]; exact h.one hk
  · rw [if_neg hk1]
    by_cases he : k % 2 = 0
    · rw [if_pos he]
      have e : k = 2 * (k / 2) := by omega
      have := h.even (k / 2) (by omega) (by omega)
      rwa [← e] at this
    · rw [if_neg he]
      have e : k = 2 * (k / 2) + 1 := by omega
      have := h.odd (k / 2) (by omega) (by omega)
      rwa [← e] at this

theorem nodeConst_children (roots : List F) (k : Nat) (hk : 1 ≤ k) :
    nodeConst roots (2 * k) = roots.getD k 0 ∧ nodeConst roots (2 * k + 1) = - roots.getD k 0 := by
  constructor
  · rw [nodeConst, if_neg (by omega), if_pos (by omega), show 2 * k / 2 = k by omega]
  · rw [nodeConst, if_neg (by omega), if_neg (by omega), show (2 * k + 1) / 2 = k by omega]

/-- The buffer after the first scales. -/
def partialFwd (T : Tables F) (p : List F) (s : Nat) : List F :=
  (List.range s).foldl (fun buf scale => fwdScale (ringOps F) T.roots (2 ^ (T.logSize - 1 - scale)) (2 ^ scale) buf) p

theorem partialFwd_succ (T : Tables F) (p : List F) (s : Nat) :
    partialFwd T p (s + 1) =
      fwdScale (ringOps F) T.roots (2 ^ (T.logSize - 1 - s)) (2 ^ s) (partialFwd T p s) := by
  rw [partialFwd, List.range_succ, List.foldl_append, List.foldl_cons, List.foldl_nil, ← partialFwd]

theorem size_split (L s : Nat) (h : s < L) : 2 ^ L = 2 ^ s * (2 * 2 ^ (L - 1 - s)) := by
  rw [← pow_succ', ← pow_add]; congr 1; omega

theorem partialFwd_length (T : Tables F) (p : List F) (hp : p.length = 2 ^ T.logSize) :
    ∀ s, s ≤ T.logSize → (partialFwd T p s).length = 2 ^ T.logSize := by
  intro s
  induction s with
  | zero => intro _; exact hp
  | succ s ih =>
    intro hs
    have h := ih (by omega)
    rw [partialFwd_succ, (fwdScale_spec (ringOps F) T.roots _ _ (by positivity) _ (by
      rw [h]; exact size_split _ _ hs)).1, h]

/-- The invariant of the forward transform: after `s` scales, block `i` (of size `2^(L-s)`) represents the
polynomial modulo `X^(2^(L-s)) - c` with `c` the constant of node `2^s + i`. -/
theorem partialFwd_eval {T : Tables F} (h : Valid T) (p : List F) (hp : p.length = 2 ^ T.logSize) :
    ∀ s, s ≤ T.logSize → ∀ i, i < 2 ^ s → ∀ z : F, z ^ (2 ^ (T.logSize - s)) = nodeConst T.roots (2 ^ s + i) →
    ∑ j ∈ Finset.range (2 ^ (T.logSize - s)), (partialFwd T p s).getD (i * 2 ^ (T.logSize - s) + j) 0 * z ^ j =
      evalAt p z ∧ z ^ (2 ^ T.logSize) = -1 := by
  intro s
  induction s with
  | zero =>
    intro _ i hi z hz
    have : i = 0 := by simpa using hi
    subst this
    refine ⟨?_, ?_⟩
    · rw [evalAt, hp]
      simp only [Nat.sub_zero, Nat.zero_mul, Nat.zero_add]
      rfl
    · rw [Nat.sub_zero] at hz
      rw [hz]; simp [nodeConst]
  | succ s ih =>
    intro hs i hi z hz
    have hk1 : 1 ≤ 2 ^ s + i / 2 := by have : 0 < 2 ^ s := by positivity
                                       omega
    have hpow : 2 ^ (s + 1) = 2 * 2 ^ s := by rw [pow_succ']
    have hi2 : i / 2 < 2 ^ s := by omega
    have hkN : 2 ^ s + i / 2 < 2 ^ T.logSize := by
      have h2 : 2 ^ (s + 1) ≤ 2 ^ T.logSize := Nat.pow_le_pow_right (by omega) hs
      omega
    have hsz : T.logSize - s = (T.logSize - (s + 1)) + 1 := by omega
    have ht : T.logSize - 1 - s = T.logSize - (s + 1) := by omega
    generalize htt : 2 ^ (T.logSize - (s + 1)) = t at *
    have htp : 0 < t := by rw [← htt]; positivity
    have hc : 2 ^ (T.logSize - s) = 2 * t := by rw [hsz, pow_succ', htt]
    have hz2 : z ^ (2 ^ (T.logSize - s)) = nodeConst T.roots (2 ^ s + i / 2) := by
      rw [hc, ← h.sq _ hk1 hkN, Nat.mul_comm, pow_mul, hz]
      obtain ⟨c1, c2⟩ := nodeConst_children T.roots (2 ^ s + i / 2) hk1
      by_cases he : i % 2 = 0
      · rw [show 2 ^ (s + 1) + i = 2 * (2 ^ s + i / 2) by omega, c1]
      · rw [show 2 ^ (s + 1) + i = 2 * (2 ^ s + i / 2) + 1 by omega, c2]; ring
    obtain ⟨ih1, ih2⟩ := ih (by omega) (i / 2) hi2 z hz2
    refine ⟨?_, ih2⟩
    rw [← ih1, partialFwd_succ, ht, hc, htt]
    have hlen := partialFwd_length T p hp s (by omega)
    have hL : (partialFwd T p s).length = 2 ^ s * (2 * t) := by
      rw [hlen, size_split _ _ (show s < T.logSize by omega), ht, htt]
    obtain ⟨_, f2⟩ := fwdScale_ring T.roots t (2 ^ s) htp _ hL
    generalize partialFwd T p s = b at *
    have hsum : ∀ f : Nat → F, ∑ j ∈ Finset.range (2 * t), f j = ∑ j ∈ Finset.range t, (f j + f (t + j)) := by
      intro f
      rw [two_mul, Finset.sum_range_add, Finset.sum_add_distrib]
    rw [hsum]
    have hbound : i / 2 * (2 * t) + 2 * t ≤ b.length := by
      rw [hL, ← Nat.succ_mul]; exact Nat.mul_le_mul_right _ hi2
    refine Finset.sum_congr rfl fun j hj => ?_
    have hj := Finset.mem_range.1 hj
    obtain ⟨c1, c2⟩ := nodeConst_children T.roots (2 ^ s + i / 2) hk1
    by_cases he : i % 2 = 0
    · have e1 : i * t = i / 2 * (2 * t) := by
        conv_lhs => rw [show i = 2 * (i / 2) by omega]
        ring
      have e2 : (i * t + j) / (2 * t) = i / 2 := by
        rw [e1, Nat.mul_comm (i / 2), Nat.mul_add_div (by omega), Nat.div_eq_of_lt (show j < 2 * t by omega), Nat.add_zero]
      have e3 : (i * t + j) % (2 * t) = j := by
        rw [e1, Nat.mul_comm (i / 2), Nat.mul_add_mod, Nat.mod_eq_of_lt (by omega)]
      have hzt : z ^ t = T.roots.getD (2 ^ s + i / 2) 0 := by
        rw [hz, show 2 ^ (s + 1) + i = 2 * (2 ^ s + i / 2) by omega, c1]
      rw [f2 (i * t + j) (by rw [e1]; omega), e2, e3, if_pos hj, e1, pow_add, hzt,
        show i / 2 * (2 * t) + j + t = i / 2 * (2 * t) + (t + j) by omega]
      ring
    · have e1 : i * t = i / 2 * (2 * t) + t := by
        conv_lhs => rw [show i = 2 * (i / 2) + 1 by omega]
        ring
      have e2 : (i * t + j) / (2 * t) = i / 2 := by
        rw [e1, Nat.mul_comm (i / 2), Nat.add_assoc, Nat.mul_add_div (by omega), Nat.div_eq_of_lt (show t + j < 2 * t by omega), Nat.add_zero]
      have e3 : (i * t + j) % (2 * t) = t + j := by
        rw [e1, Nat.mul_comm (i / 2), Nat.add_assoc, Nat.mul_add_mod, Nat.mod_eq_of_lt (by omega)]
      have hzt : z ^ t = - T.roots.getD (2 ^ s + i / 2) 0 := by
        rw [hz, show 2 ^ (s + 1) + i = 2 * (2 ^ s + i / 2) + 1 by omega, c2]
      rw [f2 (i * t + j) (by rw [e1]; omega), e2, e3, if_neg (by omega), e1, pow_add, hzt,
        show i / 2 * (2 * t) + t + j - t = i / 2 * (2 * t) + j by omega,
        show i / 2 * (2 * t) + t + j = i / 2 * (2 * t) + (t + j) by omega]
      ring

/-- The forward transform evaluates at the roots of `X^N + 1` given by the leaves of the tree. -/
theorem forward_eval {T : Tables F} (h : Valid T) (p : List F) (hp : p.length = 2 ^ T.logSize) :
    (forward (ringOps F) T p).length = 2 ^ T.logSize ∧ ∀ i, i < 2 ^ T.logSize →
      (forward (ringOps F) T p).getD i 0 = evalAt p (nodeConst T.roots (2 ^ T.logSize + i)) ∧
      nodeConst T.roots (2 ^ T.logSize + i) ^ (2 ^ T.logSize) = -1 := by
  refine ⟨partialFwd_length T p hp _ le_rfl, fun i hi => ?_⟩
  obtain ⟨h1, h2⟩ := partialFwd_eval h p hp T.logSize le_rfl i hi (nodeConst T.roots (2 ^ T.logSize + i)) (by simp)
  refine ⟨?_, h2⟩
  rw [← h1]
  simp only [Nat.sub_self, pow_zero, Finset.range_one, Finset.sum_singleton, Nat.add_zero, mul_one]
  rfl

/-! ### Round trip -/

/-- A backward scale undoes the forward scale, up to a factor 2. -/
theorem bwd_fwd_scale {T : Tables F} (h : Valid T) (s : Nat) (hs : s < T.logSize) (c : F) (b b' : List F)
    (hb : b.length = 2 ^ T.logSize) (hb' : b'.length = 2 ^ T.logSize)
    (hc : ∀ x, x < 2 ^ T.logSize → b'.getD x 0 =
      c * (fwdScale (ringOps F) T.roots (2 ^ (T.logSize - 1 - s)) (2 ^ s) b).getD x 0) :
    (bwdScale (ringOps F) T.rootsInv (2 ^ (T.logSize - 1 - s)) (2 ^ s) b').length = 2 ^ T.logSize ∧
    ∀ x, x < 2 ^ T.logSize →
      (bwdScale (ringOps F) T.rootsInv (2 ^ (T.logSize - 1 - s)) (2 ^ s) b').getD x 0 = (2 * c) * b.getD x 0 := by
  have hsz := size_split _ _ hs
  generalize htt : 2 ^ (T.logSize - 1 - s) = t at *
  have htp : 0 < t := by rw [← htt]; positivity
  obtain ⟨_, f2⟩ := fwdScale_ring T.roots t (2 ^ s) htp b (by rw [hb, hsz])
  obtain ⟨g1, g2⟩ := bwdScale_ring T.rootsInv t (2 ^ s) htp b' (by rw [hb', hsz])
  refine ⟨by rw [g1, hb'], fun x hx => ?_⟩
  rw [g2 x (by omega)]
  have hd := Nat.div_add_mod x (2 * t)
  have hq : x / (2 * t) < 2 ^ s := by
    rw [Nat.div_lt_iff_lt_mul (by omega), ← hsz]; exact hx
  have hq2 : (x / (2 * t)) * (2 * t) + 2 * t ≤ 2 ^ T.logSize := by
    rw [hsz, ← Nat.succ_mul]; exact Nat.mul_le_mul_right _ hq
  rw [Nat.mul_comm] at hd
  have hm := Nat.mod_lt x (show 0 < 2 * t by omega)
  have hN1 : 1 ≤ 2 ^ s + x / (2 * t) := by
    have : 0 < 2 ^ s := by positivity
    exact Nat.le_trans this (Nat.le_add_right _ _)
  have hN2 : 2 ^ s + x / (2 * t) < 2 ^ T.logSize := by
    rw [hsz]
    calc 2 ^ s + x / (2 * t) < 2 ^ s * 2 := by omega
      _ ≤ 2 ^ s * (2 * t) := Nat.mul_le_mul_left _ (by omega)
  have hinv := h.inv _ hN1 hN2
  by_cases hlt : x % (2 * t) < t
  · rw [if_pos hlt, hc x hx, hc (x + t) (by omega), f2 x (by omega), f2 (x + t) (by omega), if_pos hlt]
    have e1 : (x + t) / (2 * t) = x / (2 * t) := by
      generalize x / (2 * t) = d at *
      generalize x % (2 * t) = r at *
      rw [← hd, Nat.add_assoc, Nat.mul_comm d, Nat.mul_add_div (by omega), Nat.div_eq_of_lt (show r + t < 2 * t by omega), Nat.add_zero]
    have e2 : (x + t) % (2 * t) = x % (2 * t) + t := by
      generalize x / (2 * t) = d at *
      generalize x % (2 * t) = r at *
      rw [← hd, Nat.add_assoc, Nat.mul_comm d, Nat.mul_add_mod, Nat.mod_eq_of_lt (show r + t < 2 * t by omega)]
    rw [e1, e2, if_neg (by omega), show x + t - t = x by omega]
    ring
  · rw [if_neg hlt, hc x hx, hc (x - t) (by omega), f2 x (by omega), f2 (x - t) (by omega), if_neg hlt]
    have e0 : x - t = x / (2 * t) * (2 * t) + (x % (2 * t) - t) := by omega
    have e1 : (x - t) / (2 * t) = x / (2 * t) := by
      rw [e0]
      generalize x / (2 * t) = d at *
      generalize x % (2 * t) = r at *
      rw [Nat.mul_comm d, Nat.mul_add_div (by omega), Nat.div_eq_of_lt (show r - t < 2 * t by omega), Nat.add_zero]
    have e2 : (x - t) % (2 * t) = x % (2 * t) - t := by
      rw [e0]
      generalize x / (2 * t) = d at *
      generalize x % (2 * t) = r at *
      rw [Nat.mul_comm d, Nat.mul_add_mod, Nat.mod_eq_of_lt (show r - t < 2 * t by omega)]
    rw [e1, e2, if_pos (by omega), show x - t + t = x by omega]
    linear_combination (2 * c * b.getD x 0) * hinv

theorem partialBwd {T : Tables F} (h : Valid T) (p : List F) (hp : p.length = 2 ^ T.logSize) :
    ∀ n, n ≤ T.logSize →
    let b := (List.range n).foldl (fun buf scale => bwdScale (ringOps F) T.rootsInv (2 ^ scale)
      (2 ^ (T.logSize - 1 - scale)) buf) (forward (ringOps F) T p)
    b.length = 2 ^ T.logSize ∧ ∀ x, x < 2 ^ T.logSize →
      b.getD x 0 = 2 ^ n * (partialFwd T p (T.logSize - n)).getD x 0 := by
  intro n
  induction n with
  | zero =>
    intro _
    refine ⟨(forward_eval h p hp).1, fun x hx => ?_⟩
    rw [pow_zero, one_mul]; rfl
  | succ n ih =>
    intro hn
    obtain ⟨h1, h2⟩ := ih (by omega)
    simp only
    rw [List.range_succ, List.foldl_append, List.foldl_cons, List.foldl_nil]
    generalize (List.range n).foldl (fun buf scale => bwdScale (ringOps F) T.rootsInv (2 ^ scale)
      (2 ^ (T.logSize - 1 - scale)) buf) (forward (ringOps F) T p) = b at *
    have hs : T.logSize - n = (T.logSize - (n + 1)) + 1 := by omega
    rw [hs, partialFwd_succ] at h2
    obtain ⟨g1, g2⟩ := bwd_fwd_scale h (T.logSize - (n + 1)) (by omega) (2 ^ n) _ b
      (partialFwd_length T p hp _ (by omega)) h1 h2
    have e1 : T.logSize - 1 - (T.logSize - (n + 1)) = n := by omega
    have e2 : T.logSize - 1 - n = T.logSize - (n + 1) := by omega
    rw [e1] at g1 g2
    rw [e2]
    refine ⟨g1, fun x hx => ?_⟩
    rw [g2 x hx, pow_succ]; ring

/-- Round trip over a ring. -/
theorem backward_forward {T : Tables F} (h : Valid T) (p : List F) (hp : p.length = 2 ^ T.logSize) :
    backward (ringOps F) T (forward (ringOps F) T p) = p := by
  obtain ⟨h1, h2⟩ := partialBwd h p hp T.logSize le_rfl
  apply Poly.list_ext_getD
  · rw [backward, List.length_map, backwardBuf, h1, hp]
  · intro i hi
    rw [backward, List.length_map, backwardBuf, h1] at hi
    have h3 := h2 i hi
    have hm : ∀ (l : List F), (l.map fun c => (ringOps F).mul c T.nInv).getD i 0 = l.getD i 0 * T.nInv := by
      intro l
      simp only [List.getD_eq_getElem?_getD, List.getElem?_map, ringOps]
      cases l[i]? <;> simp
    rw [backward, hm, backwardBuf, h3, Nat.sub_self]
    have : partialFwd T p 0 = p := rfl
    rw [this]
    linear_combination (p.getD i 0) * h.ninv

end Verif.Ntt
