import Verif.Cuda.KeyswitchBlock
/-
The keyswitch over the blocks of a launch and over the GPUs.
-/
namespace Verif.Cuda
open Lwe (keyswitchCiphertext)

variable {w : Nat}

theorem runBlocks_ok (b l dimIn dimOut : Nat) (input ksk : DVec (BitVec w)) (sched : Nat → List Nat)
    (z : DVec (BitVec w)) (O : Nat → DVec (BitVec w)) : ∀ (m k : Nat),
    (∀ j, k ≤ j → j < k + m → ∃ st, runBlock ⟨b, l, dimIn, dimOut, input, ksk, j⟩ (sched j) z = .ok st ∧
      st.out = O j) →
    runBlocks b l dimIn dimOut input ksk sched k (List.replicate m z) = .ok ((List.range' k m).map O) := by
  intro m
  induction m with
  | zero => intro k _; rfl
  | succ m ih =>
    intro k h
    obtain ⟨st, e, ho⟩ := h k (le_refl _) (by omega)
    rw [List.replicate_succ, runBlocks, e, Out.bind_ok, ih (k + 1) fun j h1 h2 => h j (by omega) (by omega),
      Out.bind_ok, ho, List.range'_succ]
    rfl

/-- The GPU and the block of a ciphertext. -/
theorem gpu_of (A n i k : Nat) (hi : i < A) (hr : n % A < n / A)
    (hk : k < n / A + if i = A - 1 then n % A else 0) :
    min ((i * (n / A) + k) / (n / A)) (A - 1) = i := by
  have hq : 0 < n / A := by omega
  rw [Nat.mul_comm i, Nat.mul_add_div hq]
  by_cases h : i = A - 1
  · generalize k / (n / A) = d
    omega
  · rw [if_neg h] at hk
    rw [Nat.div_eq_of_lt (by omega)]
    omega

/-- All ciphertexts of a keyswitch; see `C71_keyswitch_outcomes`. -/
theorem executeKeyswitch_general (maxShared : Nat) (sched : Nat → Nat → List Nat) (A n b l dimIn dimOut : Nat)
    (hv : Decomp.ValidParams w b l) (ksk xs : List (BitVec w)) (H : Nat → Option (BitVec w))
    (hA : 0 < A) (hAn : A ≤ n)
    (hd : 0 < dimIn) (hfo : n * (dimOut + 1) < 2 ^ 31)
    (hfk : dimIn * (l * (dimOut + 1)) < 2 ^ 31) (hsh : w / 8 * (dimOut + 1) ≤ maxShared)
    (hr : n % A < n / A)
    (lk : ksk.length = dimIn * (l * (dimOut + 1))) (lx : xs.length = n * (dimIn + 1)) :
    ∃ r : List (BitVec w), r.length = n * (dimOut + 1) ∧
      executeKeyswitch maxShared sched b l dimIn dimOut A n (shares A (dimIn + 1) n fun i => xs[i]?)
        (List.replicate A (ksk.map some)) (shares A (dimOut + 1) n H) =
        .ok (shares A (dimOut + 1) n fun i => r[i]?) ∧
      ∀ i, i < n → ∀ after : List (BitVec w), after.length = dimOut + 1 →
        (keyswitchCiphertext b l (dimOut + 1) ksk after (block (dimIn + 1) xs i) =
            some (block (dimOut + 1) r i) ∨
          dimOut % 128 ≠ 0 ∧ keyswitchCiphertext b l (dimOut + 1) ksk after
            (withoutBody (block (dimIn + 1) xs i)) = some (block (dimOut + 1) r i)) ∧
        ((∀ i k, sched i k = bodyFirst (w := w) ⟨b, l, dimIn, dimOut, [], [], k⟩) → dimOut % 128 ≠ 0 →
          keyswitchCiphertext b l (dimOut + 1) ksk after (withoutBody (block (dimIn + 1) xs i)) =
            some (block (dimOut + 1) r i)) := by
  have hq : 0 < n / A := by omega
  set z : DVec (BitVec w) := List.replicate (dimOut + 1) (some 0#w) with hz
  have hzl : z.length = dimOut + 1 := by rw [hz]; simp
  -- every block
  have hblk : ∀ i k, i < A → k < n / A + (if i = A - 1 then n % A else 0) → ∃ r : List (BitVec w),
      (∃ st, runBlock ⟨b, l, dimIn, dimOut, words (fun i => xs[i]?) (i * (n / A * (dimIn + 1)))
        ((n / A + if i = A - 1 then n % A else 0) * (dimIn + 1)), ksk.map some, k⟩ (sched i k) z = .ok st ∧
        st.out = r.map some) ∧ r.length = dimOut + 1 ∧
      ((∀ after : List (BitVec w), after.length = dimOut + 1 →
          keyswitchCiphertext b l (dimOut + 1) ksk after (block (dimIn + 1) xs (i * (n / A) + k)) = some r) ∨
        dimOut % 128 ≠ 0 ∧ ∀ after : List (BitVec w), after.length = dimOut + 1 →
          keyswitchCiphertext b l (dimOut + 1) ksk after
            (withoutBody (block (dimIn + 1) xs (i * (n / A) + k))) = some r) ∧
      ((∀ i k, sched i k = bodyFirst (w := w) ⟨b, l, dimIn, dimOut, [], [], k⟩) → dimOut % 128 ≠ 0 →
        ∀ after : List (BitVec w), after.length = dimOut + 1 →
          keyswitchCiphertext b l (dimOut + 1) ksk after
            (withoutBody (block (dimIn + 1) xs (i * (n / A) + k))) = some r) := by
    intro i k hi hk
    have hg := share_le A n i hi
    have hgk : (i * (n / A) + k + 1) * (dimIn + 1) ≤ n * (dimIn + 1) := Nat.mul_le_mul_right _ (by omega)
    set m := n / A + if i = A - 1 then n % A else 0 with hm
    have hkm : (k + 1) * (dimIn + 1) ≤ m * (dimIn + 1) := Nat.mul_le_mul_right _ hk
    have hlen : (block (dimIn + 1) xs (i * (n / A) + k)).length = dimIn + 1 :=
      block_length _ _ _ (by rw [lx]; exact hgk)
    obtain ⟨st, r, e1, e2, e3, e4, e5⟩ := runBlock_ct
      ⟨b, l, dimIn, dimOut, words (fun i => xs[i]?) (i * (n / A * (dimIn + 1))) (m * (dimIn + 1)),
        ksk.map some, k⟩
      ⟨hd, by rw [words_length]; exact hkm, by
        rw [List.length_map, lk, Nat.mul_assoc]⟩ hv ksk (block (dimIn + 1) xs (i * (n / A) + k))
      rfl lk hlen (by
        intro j hj
        simp only at hj
        unfold inWord
        simp only
        rw [Nat.add_mul, Nat.one_mul] at hkm hgk
        rw [words_getElem?, if_pos (by omega), Option.getD_some, block_getD _ _ _ _ _ (by omega)]
        have e : i * (n / A * (dimIn + 1)) + (k * (dimIn + 1) + j) =
            (i * (n / A) + k) * (dimIn + 1) + j := by ring
        rw [e]
        exact getElem?_getD xs _ (by rw [lx]; omega)) (sched i k) z hzl
    refine ⟨r, ⟨st, e1, e2⟩, e3, e4, ?_⟩
    intro hs
    exact e5 (hs i k)
  choose! F hF1 hF2 hF3 hF4 using hblk
  set gi : Nat → Nat := fun g => min (g / (n / A)) (A - 1) with hgi
  set res : Nat → List (BitVec w) := fun g => F (gi g) (g - gi g * (n / A)) with hres
  have hresF : ∀ i k, i < A → k < n / A + (if i = A - 1 then n % A else 0) →
      res (i * (n / A) + k) = F i k := by
    intro i k hi hk
    have := gpu_of A n i k hi hr hk
    simp only [hres, hgi, this, Nat.add_sub_cancel_left]
  have hback : ∀ g, g < n → ∃ i k, i < A ∧ k < n / A + (if i = A - 1 then n % A else 0) ∧
      g = i * (n / A) + k := by
    intro g hg
    have hdm := Nat.div_add_mod n A
    by_cases h : g / (n / A) < A - 1
    · refine ⟨g / (n / A), g % (n / A), by omega, ?_, ?_⟩
      · have := Nat.mod_lt g hq; omega
      · rw [Nat.mul_comm]; exact (Nat.div_add_mod g (n / A)).symm
    · have h1 : (A - 1) * (n / A) ≤ g := by
        have := Nat.div_mul_le_self g (n / A)
        exact le_trans (Nat.mul_le_mul_right _ (by omega)) this
      refine ⟨A - 1, g - (A - 1) * (n / A), by omega, ?_, by omega⟩
      rw [if_pos rfl]
      have : A * (n / A) = (A - 1) * (n / A) + n / A := by
        rw [Nat.sub_mul, Nat.one_mul, Nat.sub_add_cancel]
        exact Nat.le_mul_of_pos_left _ hA
      omega
  set g0 : Nat → BitVec w := fun x => (res (x / (dimOut + 1))).getD (x % (dimOut + 1)) 0 with hg0
  set r := tabulate (n * (dimOut + 1)) g0 with hrdef
  have hl : r.length = n * (dimOut + 1) := tabulate_length _ _
  have hrl : ∀ g, g < n → (res g).length = dimOut + 1 := by
    intro g hg
    obtain ⟨i, k, hi, hk, rfl⟩ := hback g hg
    rw [hresF i k hi hk]; exact hF2 i k hi hk
  have hrb : ∀ g, g < n → block (dimOut + 1) r g = res g := by
    intro g hg
    have hbl : (block (dimOut + 1) r g).length = dimOut + 1 := by
      apply block_length
      rw [hl]; exact Nat.mul_le_mul_right _ hg
    apply List.ext_getElem?
    intro j
    by_cases hj : j < dimOut + 1
    · rw [getElem?_getD _ j (by omega), getElem?_getD (res g) j (by rw [hrl g hg]; exact hj),
        tabulate_block _ n g0 g j hg hj]
      simp only [hg0]
      rw [Nat.mul_comm g, Nat.mul_add_div (by omega), Nat.mul_add_mod, Nat.div_eq_of_lt hj,
        Nat.mod_eq_of_lt hj, Nat.add_zero]
    · rw [List.getElem?_eq_none (by omega), List.getElem?_eq_none (by rw [hrl g hg]; omega)]
  refine ⟨r, hl, ?_, ?_⟩
  · refine forGpus_shares A (dimOut + 1) n _ _ _ hA hAn fun i hi out hout => ?_
    obtain ⟨p1, p2⟩ := share_pos (size := dimOut + 1) (n := n) i hi (by omega) hr
    have p3 := share_le_words A (dimOut + 1) n i hi
    have hg := share_le A n i hi
    have hvk : getVec (List.replicate A (ksk.map some)) i = .ok (ksk.map some) := by
      rw [getVec, List.getElem?_replicate, if_pos hi]
    rw [getVec_shares A (dimIn + 1) n _ i hi, Out.bind_ok, hvk, Out.bind_ok, hostKeyswitch]
    have hF1' := fun k hk => hF1 i k hi hk
    have hF2' := fun k hk => hF2 i k hi hk
    have hresF' := fun k hk => hresF i k hi hk
    set m := n / A + if i = A - 1 then n % A else 0 with hm
    have hm0 : m ≠ 0 := by intro h; rw [h] at p1; simp at p1
    rw [if_neg (by rw [Nat.mul_comm, Nat.mul_assoc]; omega),
      if_neg (by rw [Nat.mul_comm]; omega), if_neg (by omega),
      runBlocks_ok b l dimIn dimOut _ _ (sched i) _ (fun k => (F i k).map some) m 0
        (fun j _ hj => hF1' j (by omega)), Out.bind_ok,
      List.drop_eq_nil_of_le (by rw [hout, Nat.mul_comm]), List.append_nil]
    congr 1
    apply List.ext_getElem?
    intro j
    rw [getElem?_flatten_uniform (dimOut + 1) (by omega) _ (by
      intro x hx
      obtain ⟨k, hk, rfl⟩ := List.mem_map.1 hx
      have := List.mem_range'_1.1 hk
      rw [List.length_map]; exact hF2' k (by omega)), words_getElem?, List.getElem?_map]
    by_cases hj : j < m * (dimOut + 1)
    · have hjd : j / (dimOut + 1) < m := (Nat.div_lt_iff_lt_mul (by omega)).2 hj
      have hjm := Nat.mod_lt j (show 0 < dimOut + 1 by omega)
      rw [if_pos hj, List.getElem?_range' hjd]
      simp only [Option.map_some, Option.bind_some, Nat.zero_add, Nat.one_mul]
      rw [List.getElem?_map, getElem?_getD (F i (j / (dimOut + 1))) _ (by rw [hF2' _ hjd]; exact hjm),
        hrdef, tabulate_getElem? _ _ _ (by omega)]
      simp only [hg0, Option.map_some]
      have ed : (i * (n / A * (dimOut + 1)) + j) / (dimOut + 1) = i * (n / A) + j / (dimOut + 1) := by
        rw [← Nat.mul_assoc, Nat.mul_comm _ (dimOut + 1), Nat.mul_add_div (by omega)]
      have em : (i * (n / A * (dimOut + 1)) + j) % (dimOut + 1) = j % (dimOut + 1) := by
        rw [← Nat.mul_assoc, Nat.mul_comm _ (dimOut + 1), Nat.mul_add_mod]
      rw [ed, em, hresF' _ hjd]
    · rw [if_neg hj, List.getElem?_eq_none (by
        rw [List.length_range']
        exact (Nat.le_div_iff_mul_le (by omega)).2 (by omega))]
      rfl
  · intro g hg after ha
    rw [hrb g hg]
    obtain ⟨i, k, hi, hk, rfl⟩ := hback g hg
    rw [hresF i k hi hk]
    refine ⟨?_, fun hs h => hF4 i k hi hk hs h after ha⟩
    rcases hF3 i k hi hk with h | ⟨h1, h2⟩
    · exact Or.inl (h after ha)
    · exact Or.inr ⟨h1, h2 after ha⟩

end Verif.Cuda
