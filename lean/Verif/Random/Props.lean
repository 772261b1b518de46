import Verif.Random.Lemmas
import Verif.Random.Refine
/-
Properties of the samplers (C20) and of the encryption generator forks (C50).
-/
namespace Verif.Random
open Verif.Csprng (ForkError Build)

/-! ### C20 -/

/-- C20 (uniform words). For a word size of `w = 8 k` bits: the sampler returns the little-endian
reading of the next `k` bytes and consumes exactly them; it panics exactly when fewer remain. -/
theorem C20_uniform (k : Nat) (g : Src) (hg : g.pos ≤ g.bound) :
    (g.pos + k ≤ g.bound → ∃ x, uniform (8 * k) g = some (x, g.skip k) ∧
      x.toNat = leValue g.table g.pos k) ∧
    (¬ g.pos + k ≤ g.bound → uniform (8 * k) g = none) := by
  have e : 8 * k / 8 = k := by omega
  constructor
  · intro h
    refine ⟨_, uniform_some (8 * k) g (by rw [e]; exact h) |>.trans (by rw [e]), ?_⟩
    rw [wordAt, e, BitVec.toNat_ofNat]
    exact Nat.mod_eq_of_lt (leValue_lt _ _ _)
  · intro h
    exact uniform_none _ g hg (by rw [e]; exact h)

/-- C20 (uniform tensors): element `i` of a tensor of `n` words is the reading of the `i`-th group of
`k` bytes. -/
theorem C20_uniform_tensor (k n : Nat) (g : Src) (hg : g.pos ≤ g.bound) :
    (g.pos + n * k ≤ g.bound → ∃ xs, rep n (uniform (8 * k)) g = some (xs, g.skip (n * k)) ∧
      xs.length = n ∧ ∀ i, i < n → ∃ x, xs[i]? = some x ∧
        x.toNat = leValue g.table (g.pos + i * k) k) ∧
    (¬ g.pos + n * k ≤ g.bound → rep n (uniform (8 * k)) g = none) := by
  have e : 8 * k / 8 = k := by omega
  rw [rep_uniform _ _ _ hg, e]
  constructor
  · intro h
    simp only [h, if_true]
    refine ⟨_, rfl, by simp, ?_⟩
    intro i hi
    refine ⟨wordAt (8 * k) g.table (g.pos + i * k), by simp [hi], ?_⟩
    rw [wordAt, e, BitVec.toNat_ofNat]
    exact Nat.mod_eq_of_lt (leValue_lt _ _ _)
  · intro h
    simp only [h, if_false]

/-- C20 (binary): one byte is consumed; the sample is its lowest bit. -/
theorem C20_uniform_binary (w : Nat) (hw : 0 < w) (g : Src) :
    (g.pos < g.bound → ∃ x, uniformBinary w g = some (x, g.skip 1) ∧
      x.toNat = (g.table g.pos).toNat % 2) ∧
    (¬ g.pos < g.bound → uniformBinary w g = none) := by
  have hb : ∀ b : BitVec 8, (b &&& 1#8 = 1#8) ↔ b.toNat % 2 = 1 := by decide
  constructor
  · intro h
    rw [uniformBinary, next_eq, if_pos (by omega)]
    refine ⟨_, rfl, ?_⟩
    have h2 : 2 ≤ 2 ^ w := by
      calc 2 = 2 ^ 1 := rfl
        _ ≤ 2 ^ w := Nat.pow_le_pow_right (by omega) hw
    by_cases h1 : g.table g.pos &&& 1#8 = 1#8
    · rw [if_pos h1, (hb _).1 h1]
      simp only [BitVec.toNat_ofNat]
      exact Nat.mod_eq_of_lt (by omega)
    · rw [if_neg h1]
      have := (hb (g.table g.pos)).not.1 h1
      simp only [BitVec.toNat_ofNat, Nat.zero_mod]
      omega
  · intro h
    rw [uniformBinary, next_eq, if_neg (by omega)]

/-- C20 (ternary): the sample is decided by the first byte, at distance `j`, whose two low bits are not
both set: `0 ↦ 0`, `1 ↦ 1`, `2 ↦ -1`; it consumes `j + 1` bytes. There is a panic exactly when no such
byte is left. In particular a sample is always in `{0, 1, -1}`. -/
theorem C20_uniform_ternary (w : Nat) (hw : 1 < w) (g : Src) :
    (∀ j, g.pos + j < g.bound → (∀ i, i < j → (g.table (g.pos + i)).toNat % 4 = 3) →
      (g.table (g.pos + j)).toNat % 4 ≠ 3 →
      ∃ x, uniformTernary w g = some (x, g.skip (j + 1)) ∧
        ((g.table (g.pos + j)).toNat % 4 = 0 → x.toInt = 0) ∧
        ((g.table (g.pos + j)).toNat % 4 = 1 → x.toInt = 1) ∧
        ((g.table (g.pos + j)).toNat % 4 = 2 → x.toInt = -1)) ∧
    ((∀ i, g.pos + i < g.bound → (g.table (g.pos + i)).toNat % 4 = 3) →
      uniformTernary w g = none) := by
  have hb : ∀ b : BitVec 8, b &&& 3#8 = BitVec.ofNat 8 (b.toNat % 4) := by decide
  have h3 : ∀ b : BitVec 8, (b &&& 3#8 = 3#8) ↔ b.toNat % 4 = 3 := by decide
  have h4 : 4 ≤ 2 ^ w := by
    calc 4 = 2 ^ 2 := rfl
      _ ≤ 2 ^ w := Nat.pow_le_pow_right (by omega) hw
  constructor
  · intro j hj hall hne
    refine ⟨_, (ternaryLoop_eq w (g.bound - g.pos + 1) g).1 j (fun i hi => (h3 _).2 (hall i hi))
      (fun h => hne ((h3 _).1 h)) hj (by omega), ?_, ?_, ?_⟩
    · intro h
      rw [hb, h]
      simp
    · intro h
      rw [hb, h]
      have e : ¬ (BitVec.ofNat 8 1 = 0#8) := by decide
      simp only [e, if_false, if_true]
      rw [BitVec.toInt_eq_toNat_cond]
      have : (1 : Nat) % 2 ^ w = 1 := Nat.mod_eq_of_lt (by omega)
      simp only [BitVec.toNat_ofNat, this]
      rw [if_pos (by omega)]; rfl
    · intro h
      rw [hb, h]
      have e : ¬ (BitVec.ofNat 8 2 = 0#8) := by decide
      have e' : ¬ (BitVec.ofNat 8 2 = 1#8) := by decide
      simp only [e, e', if_false]
      rw [BitVec.toInt_eq_toNat_cond]
      have e1 : (1 : Nat) % 2 ^ w = 1 := Nat.mod_eq_of_lt (by omega)
      have e2 : (2 ^ w - 1) % 2 ^ w = 2 ^ w - 1 := Nat.mod_eq_of_lt (by omega)
      simp only [BitVec.toNat_sub, BitVec.toNat_ofNat, e1, Nat.zero_mod, Nat.add_zero, e2]
      rw [if_neg (by omega)]
      push_cast [Nat.cast_sub (show 1 ≤ 2 ^ w by omega)]
      ring
  · intro hall
    exact (ternaryLoop_eq w _ g).2 (fun i hi => (h3 _).2 (hall i hi))

theorem shiftAmount_eq (m : Build) (w n : Nat) (hw : w < 2 ^ 64) (hn : 1 ≤ n) (hnk : n ≤ w) :
    shiftAmount m w n = some (w - n) := by
  cases m
  · simp only [shiftAmount]; exact if_pos ⟨hnk, by omega⟩
  · simp only [shiftAmount]
    have e1 : (2 ^ 64 + w - n) = 2 ^ 64 + (w - n) := by omega
    rw [e1, Nat.add_mod_left, Nat.mod_eq_of_lt (by omega : w - n < 2 ^ 64),
      Nat.mod_eq_of_lt (by omega)]

/-- C20 (`n` low bits, `1 ≤ n ≤ BITS`): the sample is below `2^n`; it is the value of the top `n` bits
of the uniform word. -/
theorem C20_uniform_lsb (m : Build) (k n : Nat) (hk : 8 * k < 2 ^ 64) (hn : 1 ≤ n) (hnk : n ≤ 8 * k)
    (g : Src) (hg : g.pos + k ≤ g.bound) :
    ∃ x, uniformLsb m (8 * k) n g = some (x, g.skip k) ∧ x.toNat < 2 ^ n ∧
      x.toNat = leValue g.table g.pos k / 2 ^ (8 * k - n) := by
  obtain ⟨y, e, hy⟩ := (C20_uniform k g (by omega)).1 hg
  refine ⟨y >>> (8 * k - n), ?_, ?_, ?_⟩
  · rw [uniformLsb, e, shiftAmount_eq m _ _ hk hn hnk]
  · rw [BitVec.toNat_ushiftRight, Nat.shiftRight_eq_div_pow]
    apply Nat.div_lt_of_lt_mul
    rw [← Nat.pow_add, show 8 * k - n + n = 8 * k by omega]
    exact y.isLt
  · rw [BitVec.toNat_ushiftRight, Nat.shiftRight_eq_div_pow, hy]

/-- C20 (`n` high bits, `1 ≤ n ≤ BITS`): the sample is a multiple of `2^(BITS - n)`; its top `n` bits
are the low `n` bits of the uniform word. -/
theorem C20_uniform_msb (m : Build) (k n : Nat) (hk : 8 * k < 2 ^ 64) (hn : 1 ≤ n) (hnk : n ≤ 8 * k)
    (g : Src) (hg : g.pos + k ≤ g.bound) :
    ∃ x, uniformMsb m (8 * k) n g = some (x, g.skip k) ∧
      x.toNat = leValue g.table g.pos k % 2 ^ n * 2 ^ (8 * k - n) := by
  obtain ⟨y, e, hy⟩ := (C20_uniform k g (by omega)).1 hg
  refine ⟨y <<< (8 * k - n), ?_, ?_⟩
  · rw [uniformMsb, e, shiftAmount_eq m _ _ hk hn hnk]
  · rw [BitVec.toNat_shiftLeft, Nat.shiftLeft_eq, hy]
    rw [show 2 ^ (8 * k) = 2 ^ n * 2 ^ (8 * k - n) by
      rw [← Nat.pow_add, show n + (8 * k - n) = 8 * k by omega]]
    rw [Nat.mul_mod_mul_right]

/-- Finding (C20): asking for `0` low bits (the sampler takes any `usize`) does not give `0`. In release
builds the shift by `BITS` is a shift by nothing and the sample is the whole uniform word; in debug
builds it panics. -/
theorem C20_zero_lsb_release_wrong :
    (uniformLsb .release 32 0 ⟨fun _ => 255#8, 1, 100⟩).map (fun r => r.1.toNat) = some (2 ^ 32 - 1) ∧
    (uniformLsb .debug 32 0 ⟨fun _ => 255#8, 1, 100⟩).map (fun r => r.1.toNat) = none := by
  decide

/-- C20 (gaussian draws): whatever the acceptance test, the pair returned is computed from the first
accepted pair of 64-bit words; every attempt consumes 16 bytes; there is a panic exactly when no
complete accepted pair is left. -/
theorem C20_gaussian_pair {w : Nat} (f : GaussianFn w) (g : Src) (hg : g.pos ≤ g.bound) :
    let u := fun i => BitVec.ofNat 64 (leValue g.table (g.pos + 16 * i) 8)
    let v := fun i => BitVec.ofNat 64 (leValue g.table (g.pos + 16 * i + 8) 8)
    (∀ j, (∀ i, i < j → f.accept (u i) (v i) = false) → f.accept (u j) (v j) = true →
      g.pos + 16 * (j + 1) ≤ g.bound →
      gaussianPair f g = some (f.value (u j) (v j), g.skip (16 * (j + 1)))) ∧
    ((∀ i, g.pos + 16 * (i + 1) ≤ g.bound → f.accept (u i) (v i) = false) →
      gaussianPair f g = none) := by
  intro u v
  refine ⟨?_, (gaussianLoop_eq f _ g hg).2⟩
  intro j h1 h2 h3
  exact (gaussianLoop_eq f _ g hg).1 j h1 h2 h3 (by omega)

-- The hypotheses are met: a source of 100 bytes.
example : ∃ x, uniform 32 ⟨fun p => BitVec.ofNat 8 p, 1, 100⟩ =
    some (x, Src.skip ⟨fun p => BitVec.ofNat 8 p, 1, 100⟩ 4) ∧ x.toNat = 1 + 512 + 3 * 65536 + 4 * 2 ^ 24 := by
  obtain ⟨x, e, h⟩ := (C20_uniform 4 ⟨fun p => BitVec.ofNat 8 p, 1, 100⟩ (by decide)).1 (by decide)
  exact ⟨x, e, h.trans (by decide)⟩
example : (uniformTernary 32 ⟨fun p => BitVec.ofNat 8 (5 - p), 2, 100⟩).map (fun r => (r.1.toInt, r.2.pos)) =
    some (-1, 4) := by decide
example : uniformTernary 32 ⟨fun _ => 7#8, 2, 10⟩ = none := rfl
example : (uniformBinary 32 ⟨fun _ => 7#8, 2, 10⟩).map (fun r => (r.1.toNat, r.2.pos)) = some (1, 3) := by
  decide
example : (uniformLsb .debug 32 5 ⟨fun _ => 255#8, 2, 10⟩).map (fun r => r.1.toNat) = some 31 := by decide
example : (uniformMsb .debug 32 5 ⟨fun _ => 255#8, 2, 10⟩).map (fun r => r.1.toNat) =
    some (31 * 2 ^ 27) := by decide

/-! ### C50 -/

/-- The outcome of a fork of a byte source, in words: it fails for a zero count or size, or when the
children would read past the bound. -/
theorem Src.tryFork_ok_iff (g : Src) (n b : Nat) :
    (∃ r, g.tryFork n b = .ok r) ↔ 0 < n ∧ 0 < b ∧ g.pos + n * b ≤ g.bound := by
  simp only [Src.tryFork]
  constructor
  · rintro ⟨r, h⟩
    split at h
    · cases h
    · split at h
      · cases h
      · split at h
        · exact ⟨by omega, by omega, ‹_›⟩
        · cases h
  · rintro ⟨h1, h2, h3⟩
    rw [if_neg (by omega), if_neg (by omega), if_pos h3]
    exact ⟨_, rfl⟩

/-- C50, the part that holds: a failed fork never advances the noise stream, and it does not advance the
mask stream either when the mask fork is what fails (in particular for a zero children count).
Missing: when only the noise stream is too short the mask stream advances (`C50_violated`). -/
theorem C50_fork_failure_partial (g : EncGen) (n a b : Nat) (e : ForkError) (g' : EncGen)
    (h : g.tryFork n a b = (.error e, g')) :
    g'.noise = g.noise ∧ g'.mask.table = g.mask.table ∧ g'.mask.bound = g.mask.bound ∧
    (¬ (0 < n ∧ 0 < a ∧ g.mask.pos + n * a ≤ g.mask.bound) → g' = g) ∧
    (0 < n ∧ 0 < a ∧ g.mask.pos + n * a ≤ g.mask.bound → g'.mask.pos = g.mask.pos + n * a) := by
  simp only [EncGen.tryFork] at h
  cases hm : g.mask.tryFork n a with
  | error e' =>
    simp only [hm, Prod.mk.injEq] at h
    obtain ⟨_, rfl⟩ := h
    refine ⟨rfl, rfl, rfl, fun _ => rfl, fun hc => ?_⟩
    obtain ⟨r, hr⟩ := (g.mask.tryFork_ok_iff n a).2 hc
    rw [hm] at hr
    cases hr
  | ok r =>
    obtain ⟨ms, m⟩ := r
    have hc := (g.mask.tryFork_ok_iff n a).1 ⟨_, hm⟩
    have hpos : m = { g.mask with pos := g.mask.pos + n * a } := by
      simp only [Src.tryFork] at hm
      rw [if_neg (by omega), if_neg (by omega), if_pos hc.2.2] at hm
      simp only [Except.ok.injEq, Prod.mk.injEq] at hm
      exact hm.2.symm
    simp only [hm] at h
    split at h
    · simp only [Prod.mk.injEq] at h
      obtain ⟨_, rfl⟩ := h
      subst hpos
      exact ⟨rfl, rfl, rfl, fun hn => absurd hc hn, fun _ => rfl⟩
    · simp at h

/-- C50 is false as stated: here the noise stream has 10 bytes left and 30 are needed. The call returns
`ForkTooLarge`, but the mask stream has skipped 12 bytes. -/
theorem C50_violated :
    let t : Nat → BitVec 8 := fun _ => 0
    let g : EncGen := { mask := ⟨t, 1, 1000⟩, noise := ⟨t, 1, 11⟩ }
    (match (g.tryFork 3 4 10).1 with | .error e => some e | .ok _ => none) = some ForkError.forkTooLarge ∧
      (g.tryFork 3 4 10).2.mask.pos = 13 ∧ (g.tryFork 3 4 10).2.noise.pos = 1 := by
  decide

example : ∃ e g', ({ mask := ⟨fun _ => 0, 1, 1000⟩, noise := ⟨fun _ => 0, 1, 11⟩ } : EncGen).tryFork 3 4 10 =
    (.error e, g') := ⟨_, _, rfl⟩

end Verif.Random
