import Verif.Cuda.PbsMemoryLemmas
/-
C75: the memory of the CUDA bootstraps. While a bootstrap runs, the arrays of its blocks lie inside the memory
that was allocated for them, at addresses with the right alignment, and two arrays never share a byte.

The first three definitions are the specification. In the theorems `T` is the number of bytes of a
torus element, `N` the polynomial size, `k` the GLWE dimension, `l` the number of levels, `n` the number of
ciphertexts on the GPU and `sm` the number of bytes of shared memory that a block may use.
-/
namespace Verif.Cuda

/-- The two ranges share no byte. -/
def Region.Apart (r s : Region) : Prop :=
  r.space ≠ s.space ∨ r.start + r.bytes ≤ s.start ∨ s.start + s.bytes ≤ r.start

/-- The range lies in its memory, of `scratch` bytes for the scratch buffer and of `shared` bytes for the
shared memory of a block. -/
def Region.Inside (r : Region) (scratch shared : Nat) : Prop :=
  r.start + r.bytes ≤ match r.space with
    | .shared _ => shared
    | .scratch => scratch

/-- The range starts at a multiple of its alignment. -/
def Region.Aligned (r : Region) : Prop := r.align ∣ r.start

/-- C75, amortized bootstrap: the arrays of the blocks lie inside the allocated memory, are aligned and do not
overlap, for every shared memory size. -/
theorem C75_amortized (T N k n sm : Nat) (hT : T = 4 ∨ T = 8) (hN : N ∈ pbsSizes) (hk : (k + 1) * N < 2 ^ 32) :
    amortizedShared T N k sm ≤ sm ∧
    (∀ b x, b < n →
      (amortizedRegion T N k sm b x).Inside (amortizedScratch T N k n sm) (amortizedShared T N k sm) ∧
      (amortizedRegion T N k sm b x).Aligned) ∧
    ∀ b x c y, b < n → c < n → (b, x) ≠ (c, y) →
      (amortizedRegion T N k sm b x).Apart (amortizedRegion T N k sm c y) := by
  obtain ⟨A, m, hA, dA, hm, h1, h2, h3, h4, h5, hP, hF⟩ := amortized_sizes T N k hT hN hk
  have hAT := dvd_T hT dA
  generalize hR : 128 * ((k + 1) * m) = R at *
  have dR : 16 ∣ R := ⟨8 * ((k + 1) * m), by rw [← hR]; ring⟩
  have hT0 : T ∣ 0 := ⟨0, rfl⟩
  by_cases c1 : sm < 128 * m
  · -- everything in the scratch buffer
    have hmode : amortizedMode T N k sm = .noSm := by simp [amortizedMode, hP, c1]
    generalize hD : A + A + 128 * m + R = D at *
    have dD : 16 ∣ D := by omega
    have hreg : ∀ b, amortizedRegion T N k sm b =
        amortizedAt T A R (128 * m) .scratch .scratch (b * D) (b * D + A + A + R) := by
      intro b; funext x
      cases x <;> simp [amortizedRegion, amortizedAt, amortizedPerSample, hmode, h2, h3, h4, h5, hA, hF]
    have hscr : amortizedScratch T N k n sm = D * n := by
      simp [amortizedScratch, hP, c1, hF, mul_mod16 D n dD]
    have hsh : amortizedShared T N k sm = 0 := by simp [amortizedShared, hmode]
    rw [hscr, hsh]
    refine ⟨Nat.zero_le _, ?_, ?_⟩
    · intro b x hb
      have s1 := slice_le D b n hb
      have d1 : 16 ∣ b * D := dD.mul_left b
      have t1 := dvd_T hT d1
      rw [hreg]
      generalize b * D = p at *
      generalize D * n = q at *
      cases x
      · exact ⟨show p + A ≤ q by omega, t1⟩
      · exact ⟨show p + A + A ≤ q by omega, Nat.dvd_add t1 hAT⟩
      · exact ⟨show p + A + A + R ≤ q by omega, show 16 ∣ p + A + A by omega⟩
      · exact ⟨show p + A + A + R + 128 * m ≤ q by omega, show 16 ∣ p + A + A + R by omega⟩
    · intro b x c y hb hc hne
      have s1 := fun h : b ≠ c => slices D b c h
      rw [hreg, hreg]
      by_cases e : b = c
      · subst e
        have hxy : x ≠ y := fun h => hne (by rw [h])
        right
        cases x <;> cases y <;> first | exact absurd rfl hxy | (simp only [amortizedAt]; omega)
      · have s2 := s1 e
        generalize b * D = p at *
        generalize c * D = q at *
        right
        cases x <;> cases y <;> (simp only [amortizedAt]; omega)
  · by_cases c2 : sm < A + A + 128 * m + R
    · have hmode : amortizedMode T N k sm = .partialSm := by simp [amortizedMode, hP, hF, c1, c2]
      generalize hD : A + A + R = D at *
      have hD2 : A + A + 128 * m + R - 128 * m = D := by omega
      have dD : 16 ∣ D := by omega
      have hreg : ∀ b, amortizedRegion T N k sm b =
          amortizedAt T A R (128 * m) .scratch (.shared b) (b * D) 0 := by
        intro b; funext x
        cases x <;>
          simp [amortizedRegion, amortizedAt, amortizedPerSample, hmode, h2, h3, h4, h5, hA, hF, hP, hD2]
      have hscr : amortizedScratch T N k n sm = D * n := by
        simp [amortizedScratch, hP, c1, c2, hF, hD2, mul_mod16 D n dD]
      have hsh : amortizedShared T N k sm = 128 * m := by simp [amortizedShared, hmode, hP]
      rw [hscr, hsh]
      refine ⟨by omega, ?_, ?_⟩
      · intro b x hb
        have s1 := slice_le D b n hb
        have d1 : 16 ∣ b * D := dD.mul_left b
        have t1 := dvd_T hT d1
        rw [hreg]
        generalize b * D = p at *
        generalize D * n = q at *
        cases x
        · exact ⟨show p + A ≤ q by omega, t1⟩
        · exact ⟨show p + A + A ≤ q by omega, Nat.dvd_add t1 hAT⟩
        · exact ⟨show p + A + A + R ≤ q by omega, show 16 ∣ p + A + A by omega⟩
        · exact ⟨show 0 + 128 * m ≤ 128 * m by omega, show 16 ∣ 0 by omega⟩
      · intro b x c y hb hc hne
        have s1 := fun h : b ≠ c => slices D b c h
        rw [hreg, hreg]
        by_cases e : b = c
        · subst e
          have hxy : x ≠ y := fun h => hne (by rw [h])
          cases x <;> cases y <;> first
            | exact absurd rfl hxy
            | (left; simp [amortizedAt]; done)
            | (right; simp only [amortizedAt]; omega)
        · have s2 := s1 e
          generalize b * D = p at *
          generalize c * D = q at *
          cases x <;> cases y <;> first
            | (left; simp [amortizedAt, e]; done)
            | (right; simp only [amortizedAt]; omega)
    · have hmode : amortizedMode T N k sm = .fullSm := by simp [amortizedMode, hP, hF, c1, c2]
      have hreg : ∀ b, amortizedRegion T N k sm b =
          amortizedAt T A R (128 * m) (.shared b) (.shared b) 0 (A + A + R) := by
        intro b; funext x
        cases x <;> simp [amortizedRegion, amortizedAt, hmode, h2, h3, h4, h5, hA]
      have hsh : amortizedShared T N k sm = A + A + 128 * m + R := by simp [amortizedShared, hmode, hF]
      rw [hsh]
      refine ⟨by omega, ?_, ?_⟩
      · intro b x _
        rw [hreg]
        cases x
        · exact ⟨show 0 + A ≤ A + A + 128 * m + R by omega, hT0⟩
        · exact ⟨show 0 + A + A ≤ A + A + 128 * m + R by omega, show T ∣ 0 + A by simpa using hAT⟩
        · exact ⟨show 0 + A + A + R ≤ A + A + 128 * m + R by omega, show 16 ∣ 0 + A + A by omega⟩
        · exact ⟨show A + A + R + 128 * m ≤ A + A + 128 * m + R by omega, show 16 ∣ A + A + R by omega⟩
      · intro b x c y hb hc hne
        rw [hreg, hreg]
        by_cases e : b = c
        · subst e
          have hxy : x ≠ y := fun h => hne (by rw [h])
          right
          cases x <;> cases y <;> first | exact absurd rfl hxy | (simp only [amortizedAt]; omega)
        · left
          cases x <;> cases y <;> simp [amortizedAt, e]

/-- C75, low latency bootstrap: the arrays of the blocks and the polynomials of the join buffers lie inside
the allocated memory, are aligned and do not overlap, except the arrays of the last block and the first
polynomial of the join buffers when only a part of the arrays fits in the shared memory. -/
theorem C75_low_latency_partial (T N k l n sm : Nat) (hT : T = 4 ∨ T = 8) (hN : N ∈ pbsSizes)
    (hk : (k + 1) * l * n * N < 2 ^ 32) :
    (0 < l → 0 < n → lowShared T N sm ≤ sm) ∧
    (∀ x y z a, x < l → y ≤ k → z < n →
      (lowRegion T N sm (lowBlock k l x y z) a).Inside (lowScratch T N k l n sm) (lowShared T N sm) ∧
      (lowRegion T N sm (lowBlock k l x y z) a).Aligned) ∧
    (∀ v c z, v < l → c ≤ k → z < n →
      (lowJoin T N k l n sm z v c).Inside (lowScratch T N k l n sm) (lowShared T N sm) ∧
      (lowJoin T N k l n sm z v c).Aligned) ∧
    (∀ x y z a x' y' z' a', x < l → y ≤ k → z < n → x' < l → y' ≤ k → z' < n →
      (x, y, z, a) ≠ (x', y', z', a') →
      (lowRegion T N sm (lowBlock k l x y z) a).Apart (lowRegion T N sm (lowBlock k l x' y' z') a')) ∧
    (∀ v c z v' c' z', v < l → c ≤ k → z < n → v' < l → c' ≤ k → z' < n → (v, c, z) ≠ (v', c', z') →
      (lowJoin T N k l n sm z v c).Apart (lowJoin T N k l n sm z' v' c')) ∧
    (∀ x y z a v c z', x < l → y ≤ k → z < n → v < l → c ≤ k → z' < n →
      ¬ (lowMode T N sm = .partialSm ∧ (x, y, z) = (l - 1, k, n - 1) ∧ (v, c, z') = (0, 0, 0)) →
      (lowRegion T N sm (lowBlock k l x y z) a).Apart (lowJoin T N k l n sm z' v c)) := by
  rcases Nat.eq_zero_or_pos l with rfl | hl
  · refine ⟨?_, ?_, ?_, ?_, ?_, ?_⟩ <;> intros <;> omega
  rcases Nat.eq_zero_or_pos n with rfl | hn
  · refine ⟨?_, ?_, ?_, ?_, ?_, ?_⟩ <;> intros <;> omega
  obtain ⟨P, F, D, dP, dF, hF0, hPT, hF, hsm, hscr, hjoin, hcase⟩ := low_layout T N k l n sm hT hN hk hl hn
  have tP := dvd_T hT dP
  have tF := dvd_T hT dF
  have hlt := fun x y z (hx : x < l) (hy : y ≤ k) (hz : z < n) => lowBlock_lt k l n x y z hx hy hz
  have hB : 0 < l * (k + 1) * n := by positivity
  have hlast : lowBlock k l (l - 1) k (n - 1) = l * (k + 1) * n - 1 := by
    obtain ⟨l, rfl⟩ := Nat.exists_eq_succ_of_ne_zero hl.ne'
    obtain ⟨n, rfl⟩ := Nat.exists_eq_succ_of_ne_zero hn.ne'
    simp only [lowBlock, Nat.succ_eq_add_one, Nat.add_sub_cancel]
    have : (l + 1) * (k + 1) * (n + 1) = l + k * (l + 1) + n * (l + 1) * (k + 1) + 1 := by ring
    omega
  have hslot := fun z v c (hz : z < n) (hv : v < l) (hc : c ≤ k) => slot_lt k l n z v c hz hv hc
  refine ⟨fun _ _ => hsm, ?_, ?_, ?_, ?_, ?_⟩
  · intro x y z a hx hy hz
    have hb := hlt x y z hx hy hz
    generalize lowBlock k l x y z = b at *
    generalize l * (k + 1) * n = B at *
    rw [hscr]
    rcases hcase with ⟨_, hD, hr⟩ | ⟨_, hD, hs, hr⟩ | ⟨_, hD, hs, hr⟩ <;> rw [hr]
    · have s1 := slice_le D b B hb
      have d1 : 16 ∣ b * D := Dvd.dvd.mul_left (by omega) b
      have t1 := dvd_T hT d1
      generalize b * D = p at *
      generalize D * B = q at *
      cases a
      · exact ⟨show p + F ≤ q + F * B by omega, d1⟩
      · exact ⟨show p + F + P ≤ q + F * B by omega, Nat.dvd_add t1 tF⟩
      · exact ⟨show p + F + P + P ≤ q + F * B by omega, Nat.dvd_add (Nat.dvd_add t1 tF) tP⟩
    · have s1 := slice_le D b B hb
      have s2 : F ≤ F * B := Nat.le_mul_of_pos_right F hB
      have d1 : 16 ∣ b * D := Dvd.dvd.mul_left (by omega) b
      have t1 := dvd_T hT d1
      rw [hs]
      generalize b * D = p at *
      generalize D * B = q at *
      cases a
      · exact ⟨show 0 + F ≤ F by omega, show 16 ∣ 0 by omega⟩
      · exact ⟨show p + F + P ≤ q + F * B by omega, Nat.dvd_add t1 tF⟩
      · exact ⟨show p + F + P + P ≤ q + F * B by omega, Nat.dvd_add (Nat.dvd_add t1 tF) tP⟩
    · rw [hs]
      cases a
      · exact ⟨show 0 + F ≤ P + P + F by omega, show 16 ∣ 0 by omega⟩
      · exact ⟨show 0 + F + P ≤ P + P + F by omega, show T ∣ 0 + F by simpa using tF⟩
      · exact ⟨show 0 + F + P + P ≤ P + P + F by omega, show T ∣ 0 + F + P by simpa using Nat.dvd_add tF tP⟩
  · intro v c z hv hc hz
    have hb := hslot z v c hz hv hc
    rw [hscr, hjoin z v c hz hv hc]
    generalize slot k l z v c = b at *
    generalize l * (k + 1) * n = B at *
    have s1 := slice_le F b B hb
    have d1 : 16 ∣ b * F := Dvd.dvd.mul_left dF b
    have d2 : 16 ∣ D * B := by
      refine Dvd.dvd.mul_right ?_ B
      rcases hcase with ⟨_, hD, _⟩ | ⟨_, hD, _⟩ | ⟨_, hD, _⟩ <;> omega
    exact ⟨show D * B + b * F + F ≤ D * B + F * B by omega, Nat.dvd_add d2 d1⟩
  · intro x y z a x' y' z' a' hx hy hz hx' hy' hz' hne
    by_cases e : lowBlock k l x y z = lowBlock k l x' y' z'
    · have haa : a ≠ a' := by
        rintro rfl
        obtain ⟨rfl, rfl, rfl⟩ := lowBlock_inj k l x y z x' y' z' hx hy hx' hy' e
        exact hne rfl
      rw [← e]
      generalize lowBlock k l x y z = b at *
      rcases hcase with ⟨_, hD, hr⟩ | ⟨_, hD, hs, hr⟩ | ⟨_, hD, hs, hr⟩ <;> rw [hr]
      · right
        cases a <;> cases a' <;> first | exact absurd rfl haa | (simp only [lowAt]; omega)
      · cases a <;> cases a' <;> first
          | exact absurd rfl haa
          | (left; simp [lowAt]; done)
          | (right; simp only [lowAt]; omega)
      · right
        cases a <;> cases a' <;> first | exact absurd rfl haa | (simp only [lowAt]; omega)
    · have s1 := slices D _ _ e
      generalize lowBlock k l x y z = b at *
      generalize lowBlock k l x' y' z' = b' at *
      rcases hcase with ⟨_, hD, hr⟩ | ⟨_, hD, hs, hr⟩ | ⟨_, hD, hs, hr⟩ <;> rw [hr, hr]
      · right
        generalize b * D = p at *
        generalize b' * D = q at *
        cases a <;> cases a' <;> (simp only [lowAt]; omega)
      · generalize b * D = p at *
        generalize b' * D = q at *
        cases a <;> cases a' <;> first
          | (left; simp [lowAt, e]; done)
          | (right; simp only [lowAt]; omega)
      · left
        cases a <;> cases a' <;> simp [lowAt, e]
  · intro v c z v' c' z' hv hc hz hv' hc' hz' hne
    have e : slot k l z v c ≠ slot k l z' v' c' := by
      intro e
      obtain ⟨rfl, rfl, rfl⟩ := slot_inj k l z v c z' v' c' hv hc hv' hc' e
      exact hne rfl
    rw [hjoin z v c hz hv hc, hjoin z' v' c' hz' hv' hc']
    have s1 := slices F _ _ e
    right
    show D * (l * (k + 1) * n) + slot k l z v c * F + F ≤ D * (l * (k + 1) * n) + slot k l z' v' c' * F ∨
      D * (l * (k + 1) * n) + slot k l z' v' c' * F + F ≤ D * (l * (k + 1) * n) + slot k l z v c * F
    omega
  · intro x y z a v c z' hx hy hz hv hc hz' hne
    have hb := hlt x y z hx hy hz
    rw [hjoin z' v c hz' hv hc]
    rcases hcase with ⟨_, hD, hr⟩ | ⟨hm, hD, hs, hr⟩ | ⟨_, hD, hs, hr⟩ <;> rw [hr]
    · have s1 := slice_le D _ _ hb
      right; left
      generalize slot k l z' v c * F = j
      generalize lowBlock k l x y z * D = p at *
      generalize D * (l * (k + 1) * n) = q at *
      cases a <;> (simp only [lowAt]; omega)
    · by_cases e : (x, y, z) = (l - 1, k, n - 1)
      · have h0 : slot k l z' v c ≠ 0 := by
          intro h0
          have : (v, c, z') = (0, 0, 0) := by
            obtain ⟨rfl, rfl, rfl⟩ := slot_inj k l z' v c 0 0 0 hv hc hl (by omega) (by rw [h0]; simp [slot])
            rfl
          exact hne ⟨hm, e, this⟩
        have s1 := slice_le D _ _ hb
        have s2 : F ≤ slot k l z' v c * F := Nat.le_mul_of_pos_left F (by omega)
        generalize slot k l z' v c * F = j at *
        generalize lowBlock k l x y z * D = p at *
        generalize D * (l * (k + 1) * n) = q at *
        cases a
        · left; simp [lowAt]
        · right; left; simp only [lowAt]; omega
        · right; left; simp only [lowAt]; omega
      · have hb2 : lowBlock k l x y z + 1 < l * (k + 1) * n := by
          have : lowBlock k l x y z ≠ lowBlock k l (l - 1) k (n - 1) := by
            intro h
            obtain ⟨rfl, rfl, rfl⟩ := lowBlock_inj k l x y z _ _ _ hx hy (by omega) le_rfl h
            exact e rfl
          rw [hlast] at this
          omega
        have s1 := slice_le D _ _ hb2
        have s3 : (lowBlock k l x y z + 1) * D = lowBlock k l x y z * D + D := by ring
        have hFP : F ≤ P + P := by
          rcases hT with rfl | rfl <;> omega
        generalize slot k l z' v c * F = j at *
        rw [s3] at s1
        generalize lowBlock k l x y z * D = p at *
        generalize D * (l * (k + 1) * n) = q at *
        cases a
        · left; simp [lowAt]
        · right; left; simp only [lowAt]; omega
        · right; left; simp only [lowAt]; omega
    · left
      cases a <;> simp [lowAt]

/-- C75 is violated by the low latency bootstrap: whenever only a part of the arrays fits in the shared
memory, the rotated accumulator of the last block overlaps the first polynomial of the join buffer of the first
ciphertext, which every block (0, y, 0) reads and writes. With 32-bit elements the accumulator of the last
block lies there too. -/
theorem C75_low_latency_violated (T N k l n sm : Nat) (hT : T = 4 ∨ T = 8) (hN : N ∈ pbsSizes)
    (hk : (k + 1) * l * n * N < 2 ^ 32) (hl : 0 < l) (hn : 0 < n) (hm : lowMode T N sm = .partialSm) :
    ¬ (lowRegion T N sm (lowBlock k l (l - 1) k (n - 1)) .rotated).Apart (lowJoin T N k l n sm 0 0 0) ∧
    (T = 4 →
      ¬ (lowRegion T N sm (lowBlock k l (l - 1) k (n - 1)) .accumulator).Apart (lowJoin T N k l n sm 0 0 0)) := by
  obtain ⟨P, F, D, dP, dF, hF0, hPT, hF, hsm, hscr, hjoin, hcase⟩ := low_layout T N k l n sm hT hN hk hl hn
  obtain ⟨hN0⟩ : 0 < N ∧ True := ⟨by omega, trivial⟩
  have hlast : lowBlock k l (l - 1) k (n - 1) + 1 = l * (k + 1) * n := by
    obtain ⟨l, rfl⟩ := Nat.exists_eq_succ_of_ne_zero hl.ne'
    obtain ⟨n, rfl⟩ := Nat.exists_eq_succ_of_ne_zero hn.ne'
    simp only [lowBlock, Nat.succ_eq_add_one, Nat.add_sub_cancel]
    ring
  rw [hjoin 0 0 0 hn hl (Nat.zero_le _), ← hlast]
  rcases hcase with ⟨h, _⟩ | ⟨_, hD, _, hr⟩ | ⟨h, _⟩
  · rw [hm] at h; exact absurd h (by decide)
  · rw [hr]
    have e : D * (lowBlock k l (l - 1) k (n - 1) + 1) = lowBlock k l (l - 1) k (n - 1) * D + D := by ring
    have e0 : slot k l 0 0 0 * F = 0 := by simp [slot]
    rw [e, e0]
    generalize lowBlock k l (l - 1) k (n - 1) * D = p at *
    refine ⟨?_, ?_⟩
    · simp only [Region.Apart, lowAt, ne_eq, not_true_eq_false, false_or]
      rcases hT with rfl | rfl <;> omega
    · rintro rfl
      simp only [Region.Apart, lowAt, ne_eq, not_true_eq_false, false_or]
      omega
  · rw [hm] at h; exact absurd h (by decide)

/-- The hypotheses are met: the case of 64-bit elements, polynomials of 4096 coefficients and 48 kB of shared
memory. -/
example : lowMode 8 4096 49152 = .partialSm := by decide

example : ¬ (lowRegion 8 4096 49152 (lowBlock 1 2 1 1 2) .rotated).Apart (lowJoin 8 4096 1 2 3 49152 0 0 0) :=
  (C75_low_latency_violated 8 4096 1 2 3 49152 (.inr rfl) (by decide) (by norm_num) (by norm_num) (by norm_num)
    (by decide)).1

/-- Both other kernels are also used. -/
example : lowMode 8 1024 49152 = .fullSm ∧ lowMode 8 8192 49152 = .noSm ∧
    amortizedMode 8 1024 1 49152 = .partialSm ∧ amortizedMode 8 512 1 49152 = .fullSm ∧
    amortizedMode 8 8192 1 49152 = .noSm := by decide

example : (amortizedRegion 8 1024 1 49152 2 .rotated).Apart (amortizedRegion 8 1024 1 49152 1 .resFft) :=
  (C75_amortized 8 1024 1 3 49152 (.inr rfl) (by decide) (by norm_num)).2.2 2 _ 1 _ (by norm_num) (by norm_num)
    (by decide)

end Verif.Cuda
