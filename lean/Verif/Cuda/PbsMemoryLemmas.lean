import Verif.Cuda.PbsMemory
import Mathlib.Tactic.Ring
import Mathlib.Tactic.NormNum
import Mathlib.Tactic.SplitIfs
/-
Lemmas for C75: the sizes and positions of the arrays of the CUDA bootstraps in closed form.
-/
namespace Verif.Cuda

theorem pbsSizes_mod {N : Nat} (h : N ∈ pbsSizes) : ∃ m, N = 16 * m ∧ 0 < m ∧ N ≤ 8192 := by
  simp only [pbsSizes, List.mem_cons, List.not_mem_nil, or_false] at h
  rcases h with rfl | rfl | rfl | rfl | rfl | rfl
  exacts [⟨16, by norm_num⟩, ⟨32, by norm_num⟩, ⟨64, by norm_num⟩, ⟨128, by norm_num⟩, ⟨256, by norm_num⟩,
    ⟨512, by norm_num⟩]

theorem u32_of_lt {x : Nat} (h : x < 2 ^ 32) : u32 x = x := Nat.mod_eq_of_lt h

/-- Slices of the same size do not overlap. -/
theorem slices (D b c : Nat) (h : b ≠ c) : b * D + D ≤ c * D ∨ c * D + D ≤ b * D := by
  rcases Nat.lt_or_gt_of_ne h with h | h
  · left
    calc b * D + D = (b + 1) * D := by ring
      _ ≤ c * D := Nat.mul_le_mul_right _ h
  · right
    calc c * D + D = (c + 1) * D := by ring
      _ ≤ b * D := Nat.mul_le_mul_right _ h

theorem slice_le (D b n : Nat) (h : b < n) : b * D + D ≤ D * n := by
  calc b * D + D = (b + 1) * D := by ring
    _ ≤ n * D := Nat.mul_le_mul_right _ h
    _ = D * n := by ring

/-- The sizes of the amortized bootstrap in terms of `A`, the bytes of an accumulator. -/
theorem amortized_sizes (T N k : Nat) (hT : T = 4 ∨ T = 8) (hN : N ∈ pbsSizes) (hk : (k + 1) * N < 2 ^ 32) :
    ∃ A m, T * ((k + 1) * N) = A ∧ 16 ∣ A ∧ N = 16 * m ∧ u32 (k + 1) = k + 1 ∧
      u32 (u32 (k + 1) * N) = (k + 1) * N ∧ 16 * ((k + 1) * N / (16 / T)) = A ∧
      16 * ((k + 1) * N / 2) = 128 * ((k + 1) * m) ∧ 16 * (N / 2) = 128 * m ∧ amortizedPart N = 128 * m ∧
      amortizedFull T N k = A + A + 128 * m + 128 * ((k + 1) * m) := by
  obtain ⟨m, rfl, hm, hN8⟩ := pbsSizes_mod hN
  have hk1 : k + 1 < 2 ^ 32 := lt_of_le_of_lt (Nat.le_mul_of_pos_right _ (by omega)) hk
  have h1 : u32 (k + 1) = k + 1 := u32_of_lt hk1
  have e : (k + 1) * (16 * m) = 16 * ((k + 1) * m) := by ring
  rw [amortizedFull, amortizedPart, h1, u32_of_lt hk]
  refine ⟨_, m, rfl, ?_, rfl, rfl, rfl, ?_, ?_, by omega, by omega, ?_⟩
  · rw [e]; exact ⟨T * ((k + 1) * m), by ring⟩
  · rw [e]; rcases hT with rfl | rfl <;> norm_num <;> omega
  · rw [e]; omega
  · have e2 : T * (16 * m) * (k + 1) = T * ((k + 1) * (16 * m)) := by ring
    have e3 : 16 * (16 * m) / 2 = 128 * m := by omega
    rw [e2, e3]; ring

theorem mul_mod16 (D n : Nat) (h : 16 ∣ D) : D * n % 16 = 0 :=
  Nat.mod_eq_zero_of_dvd (h.mul_right n)

theorem dvd_T {T x : Nat} (hT : T = 4 ∨ T = 8) (h : 16 ∣ x) : T ∣ x := by
  rcases hT with rfl | rfl
  · exact Dvd.dvd.trans (by norm_num) h
  · exact Dvd.dvd.trans (by norm_num) h

/-- The arrays of block `b` of the amortized kernel, one after the other from byte `p`. -/
def amortizedAt (T A R F : Nat) (sp fsp : Space) (p q : Nat) : AmortizedName → Region
  | .accumulator => ⟨sp, p, A, T⟩
  | .rotated => ⟨sp, p + A, A, T⟩
  | .resFft => ⟨sp, p + A + A, R, 16⟩
  | .fft => ⟨fsp, q, F, 16⟩

/-- The arrays of a block of the low latency kernel. -/
def lowAt (T P F : Nat) (sp fsp : Space) (p q : Nat) : LowName → Region
  | .fft => ⟨fsp, q, F, 16⟩
  | .accumulator => ⟨sp, p + F, P, T⟩
  | .rotated => ⟨sp, p + F + P, P, T⟩

theorem radix_lt {a b m n : Nat} (ha : a < m) (hb : b < n) : a + b * m < n * m := by
  calc a + b * m < m + b * m := by omega
    _ = (b + 1) * m := by ring
    _ ≤ n * m := Nat.mul_le_mul_right _ hb

theorem radix_inj {a b a' b' m : Nat} (ha : a < m) (ha' : a' < m) (h : a + b * m = a' + b' * m) :
    a = a' ∧ b = b' := by
  have h1 : (a + b * m) % m = a := by rw [Nat.add_mul_mod_self_right, Nat.mod_eq_of_lt ha]
  have h2 : (a' + b' * m) % m = a' := by rw [Nat.add_mul_mod_self_right, Nat.mod_eq_of_lt ha']
  have e : a = a' := by rw [← h1, ← h2, h]
  subst e
  refine ⟨rfl, ?_⟩
  have : b * m = b' * m := by omega
  exact Nat.eq_of_mul_eq_mul_right (by omega) this

/-- The number of a block is below the number of blocks. -/
theorem lowBlock_lt (k l n x y z : Nat) (hx : x < l) (hy : y ≤ k) (hz : z < n) :
    lowBlock k l x y z < l * (k + 1) * n := by
  have e : lowBlock k l x y z = (x + y * l) + z * ((k + 1) * l) := by unfold lowBlock; ring
  rw [e]
  have := radix_lt (radix_lt hx (Nat.lt_succ_of_le hy)) hz
  calc _ < n * ((k + 1) * l) := this
    _ = _ := by ring

theorem lowBlock_inj (k l x y z x' y' z' : Nat) (hx : x < l) (hy : y ≤ k) (hx' : x' < l) (hy' : y' ≤ k)
    (h : lowBlock k l x y z = lowBlock k l x' y' z') : x = x' ∧ y = y' ∧ z = z' := by
  have e : ∀ x y z, lowBlock k l x y z = (x + y * l) + z * ((k + 1) * l) := by
    intro x y z; unfold lowBlock; ring
  rw [e, e] at h
  obtain ⟨h1, h2⟩ := radix_inj (radix_lt hx (Nat.lt_succ_of_le hy)) (radix_lt hx' (Nat.lt_succ_of_le hy')) h
  obtain ⟨h3, h4⟩ := radix_inj hx hx' h1
  exact ⟨h3, h4, h2⟩

/-- The number of a polynomial of the join buffers. -/
def slot (k l z v c : Nat) : Nat := c + (v + z * l) * (k + 1)

theorem slot_lt (k l n z v c : Nat) (hz : z < n) (hv : v < l) (hc : c ≤ k) : slot k l z v c < l * (k + 1) * n := by
  have := radix_lt (Nat.lt_succ_of_le hc) (radix_lt hv hz)
  calc _ < n * l * (k + 1) := this
    _ = _ := by ring

theorem slot_inj (k l z v c z' v' c' : Nat) (hv : v < l) (hc : c ≤ k) (hv' : v' < l) (hc' : c' ≤ k)
    (h : slot k l z v c = slot k l z' v' c') : z = z' ∧ v = v' ∧ c = c' := by
  obtain ⟨h1, h2⟩ := radix_inj (Nat.lt_succ_of_le hc) (Nat.lt_succ_of_le hc') h
  obtain ⟨h3, h4⟩ := radix_inj hv hv' h2
  exact ⟨h4, h3, h1⟩

/-- The sizes of the low latency bootstrap in terms of `P`, the bytes of an accumulator, and `m = N / 16`. -/
theorem low_sizes (T N k l n : Nat) (hT : T = 4 ∨ T = 8) (hN : N ∈ pbsSizes)
    (hk : (k + 1) * l * n * N < 2 ^ 32) (hl : 0 < l) (hn : 0 < n) :
    ∃ P m, T * N = P ∧ 16 ∣ P ∧ N = 16 * m ∧ 0 < m ∧ u32 (k + 1) = k + 1 ∧
      u32 (u32 (k + 1) * l * n * N) / 2 * 16 = 128 * m * (l * (k + 1) * n) ∧
      T * (16 * N / 2 / T) = 128 * m ∧ 16 * (N / 2) = 128 * m ∧ lowPart N = 128 * m ∧
      lowFull T N = P + P + 128 * m ∧
      ∀ z v c, z < n → v < l → c ≤ k →
        16 * (u32 (z * l * (k + 1) * N) / 2 + u32 (v * (k + 1) * N) / 2 + u32 (c * N) / 2) =
          slot k l z v c * (128 * m) := by
  obtain ⟨m, rfl, hm, hN8⟩ := pbsSizes_mod hN
  have hpos : 0 < l * n * (16 * m) := by positivity
  have hk1 : k + 1 < 2 ^ 32 := by
    refine lt_of_le_of_lt (Nat.le_mul_of_pos_right (k + 1) hpos) ?_
    calc (k + 1) * (l * n * (16 * m)) = (k + 1) * l * n * (16 * m) := by ring
      _ < _ := hk
  have h1 : u32 (k + 1) = k + 1 := u32_of_lt hk1
  refine ⟨_, m, rfl, ?_, rfl, hm, h1, ?_, ?_, by omega, ?_, ?_, ?_⟩
  · exact ⟨T * m, by ring⟩
  · rw [h1, u32_of_lt hk]
    have e : (k + 1) * l * n * (16 * m) = 2 * (8 * (m * (l * (k + 1) * n))) := by ring
    rw [e, Nat.mul_div_cancel_left _ (by norm_num)]; ring
  · rcases hT with rfl | rfl <;> omega
  · unfold lowPart; omega
  · unfold lowFull; omega
  · intro z v c hz hv hc
    have hs := slot_lt k l n z v c hz hv hc
    have hle : slot k l z v c * (16 * m) ≤ l * (k + 1) * n * (16 * m) := Nat.mul_le_mul_right _ hs.le
    have ht : l * (k + 1) * n * (16 * m) = (k + 1) * l * n * (16 * m) := by ring
    have e : slot k l z v c * (16 * m) = z * l * (k + 1) * (16 * m) + v * (k + 1) * (16 * m) + c * (16 * m) := by
      unfold slot; ring
    rw [u32_of_lt (by omega), u32_of_lt (by omega), u32_of_lt (by omega)]
    have e1 : z * l * (k + 1) * (16 * m) = 2 * (8 * (z * l * (k + 1) * m)) := by ring
    have e2 : v * (k + 1) * (16 * m) = 2 * (8 * (v * (k + 1) * m)) := by ring
    have e3 : c * (16 * m) = 2 * (8 * (c * m)) := by ring
    rw [e1, e2, e3, Nat.mul_div_cancel_left _ (by norm_num), Nat.mul_div_cancel_left _ (by norm_num),
      Nat.mul_div_cancel_left _ (by norm_num)]
    unfold slot; ring

/-- The arrays of all the blocks and the join buffers of the low latency kernel in closed form. -/
theorem low_layout (T N k l n sm : Nat) (hT : T = 4 ∨ T = 8) (hN : N ∈ pbsSizes)
    (hk : (k + 1) * l * n * N < 2 ^ 32) (hl : 0 < l) (hn : 0 < n) :
    ∃ P F D, 16 ∣ P ∧ 16 ∣ F ∧ 0 < F ∧ P * 2 = 2 * T * N ∧ F = 8 * N ∧ lowShared T N sm ≤ sm ∧
      lowScratch T N k l n sm = D * (l * (k + 1) * n) + F * (l * (k + 1) * n) ∧
      (∀ z v c, z < n → v < l → c ≤ k → lowJoin T N k l n sm z v c =
        ⟨.scratch, D * (l * (k + 1) * n) + slot k l z v c * F, F, 16⟩) ∧
      ((lowMode T N sm = .noSm ∧ D = P + P + F ∧
          ∀ b, lowRegion T N sm b = lowAt T P F .scratch .scratch (b * D) (b * D)) ∨
       (lowMode T N sm = .partialSm ∧ D = P + P ∧ lowShared T N sm = F ∧
          ∀ b, lowRegion T N sm b = lowAt T P F .scratch (.shared b) (b * D) 0) ∨
       (lowMode T N sm = .fullSm ∧ D = 0 ∧ lowShared T N sm = P + P + F ∧
          ∀ b, lowRegion T N sm b = lowAt T P F (.shared b) (.shared b) 0 0)) := by
  obtain ⟨P, m, hP, dP, hm, hm0, h1, h2, h3, h4, hpart, hfull, hj⟩ := low_sizes T N k l n hT hN hk hl hn
  generalize hB : l * (k + 1) * n = B at *
  have hF : 128 * m = 8 * N := by omega
  have dB : 16 ∣ 128 * m * B := ⟨8 * m * B, by ring⟩
  have key : ∀ D, 16 ∣ D → lowScratch T N k l n sm = D * B + 128 * m * B →
      ∀ z v c, z < n → v < l → c ≤ k → lowJoin T N k l n sm z v c =
        ⟨.scratch, D * B + slot k l z v c * (128 * m), 128 * m, 16⟩ := by
    intro D dD hs z v c hz hv hc
    have d1 : 16 ∣ D * B := dD.mul_right B
    have : lowJoinStart T N k l n sm = D * B := by
      unfold lowJoinStart
      rw [hs]
      omega
    rw [lowJoin, this, hj z v c hz hv hc, h4]
  by_cases c1 : sm < 128 * m
  · have hmode : lowMode T N sm = .noSm := by simp [lowMode, hpart, c1]
    have hs : lowScratch T N k l n sm = (P + P + 128 * m) * B + 128 * m * B := by
      have e : lowFull T N * n * l * u32 (k + 1) = (P + P + 128 * m) * B := by rw [hfull, h1, ← hB]; ring
      have d1 : 16 ∣ (P + P + 128 * m) * B := Dvd.dvd.mul_right (by omega) B
      simp only [lowScratch, hpart, c1, if_true, h2, e]
      omega
    refine ⟨P, 128 * m, P + P + 128 * m, dP, by omega, by omega, ?_, hF, ?_, hs, key _ (by omega) hs,
      Or.inl ⟨hmode, rfl, ?_⟩⟩
    · rw [← hP]; ring
    · simp [lowShared, hmode]
    · intro b; funext x
      cases x <;> simp [lowRegion, lowAt, lowPerBlock, hmode, h3, h4, hP, hfull]
  · by_cases c2 : sm < P + P + 128 * m
    · have hmode : lowMode T N sm = .partialSm := by simp [lowMode, hpart, hfull, c1, c2]
      have hs : lowScratch T N k l n sm = (P + P) * B + 128 * m * B := by
        have e : (lowFull T N - lowPart N) * n * l * u32 (k + 1) = (P + P) * B := by
          rw [hfull, hpart, h1, ← hB, Nat.add_sub_cancel]; ring
        rw [hfull, hpart] at e
        have d1 : 16 ∣ (P + P) * B := Dvd.dvd.mul_right (by omega) B
        simp only [lowScratch, hpart, hfull, c1, c2, if_true, if_false, h2, e]
        omega
      have hsh : lowShared T N sm = 128 * m := by simp [lowShared, hmode, hpart]
      refine ⟨P, 128 * m, P + P, dP, by omega, by omega, ?_, hF, ?_, hs, key _ (by omega) hs,
        Or.inr (Or.inl ⟨hmode, rfl, hsh, ?_⟩)⟩
      · rw [← hP]; ring
      · rw [hsh]; omega
      · intro b; funext x
        cases x <;> simp [lowRegion, lowAt, lowPerBlock, hmode, h3, h4, hP, hfull, hpart]
    · have hmode : lowMode T N sm = .fullSm := by simp [lowMode, hpart, hfull, c1, c2]
      have hs : lowScratch T N k l n sm = 0 * B + 128 * m * B := by
        simp only [lowScratch, hpart, hfull, c1, c2, if_false, h2]
        omega
      have hsh : lowShared T N sm = P + P + 128 * m := by simp [lowShared, hmode, hfull]
      refine ⟨P, 128 * m, 0, dP, by omega, by omega, ?_, hF, ?_, hs, key _ (by omega) hs,
        Or.inr (Or.inr ⟨hmode, rfl, hsh, ?_⟩)⟩
      · rw [← hP]; ring
      · rw [hsh]; omega
      · intro b; funext x
        cases x <;> simp [lowRegion, lowAt, hmode, h3, h4, hP]

end Verif.Cuda
