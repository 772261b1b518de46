import Verif.Lwe.Kinds
import Verif.Lwe.Props
import Verif.Glwe.Props
import Verif.Random.GaussProps
import Verif.Random.DispProps
import Verif.Random.CountWords
import Mathlib.Data.Fintype.BigOperators
import Mathlib.Data.List.GetD
/-
C113: secret keys of the four kinds.
-/
namespace Verif.Lwe.Kinds
open Verif.Random Verif.Float
open Verif.Csprng (Build)
variable {w : Nat}

/-! ### Specification -/

/-- The values that the coefficients of a key of each kind may take, as signed integers. -/
def Allowed : Kind → ℤ → Prop
  | .binary, x => x = 0 ∨ x = 1
  | .ternary, x => x = -1 ∨ x = 0 ∨ x = 1
  | .gaussian, x => |x| ≤ 42
  | .uniform, _ => True

/-- No product of a word of the mask with a coefficient of the key, both read as numbers without sign, reaches
`2^w`. -/
def NoOverflow (mask key : List (BitVec w)) : Prop :=
  ∀ i, i < key.length → (mask.getD i 0).toNat * (key.getD i 0).toNat < 2 ^ w

/-- The number of masks, among all `2^(w * n)`, with which a debug build computes the sum of products with `key`. -/
def masksWithoutPanic (key : List (BitVec w)) : ℕ :=
  ((Finset.univ : Finset (Fin key.length → BitVec w)).filter fun a =>
    (Session.multisumIn .debug (List.ofFn a) key).isSome).card

/-! ### Auxiliary -/

theorem toInt_zero' (w : ℕ) : (0#w).toInt = 0 := by simp

theorem toInt_one' {w : ℕ} (hw : 2 ≤ w) : (1#w).toInt = 1 := by
  have h4 : 4 ≤ 2 ^ w := by
    calc 4 = 2 ^ 2 := rfl
      _ ≤ 2 ^ w := Nat.pow_le_pow_right (by omega) hw
  have e1 : (1 : Nat) % 2 ^ w = 1 := Nat.mod_eq_of_lt (by omega)
  rw [BitVec.toInt_eq_toNat_cond]
  simp only [BitVec.toNat_ofNat, e1]
  rw [if_pos (by omega)]; rfl

theorem toInt_neg_one' {w : ℕ} (hw : 2 ≤ w) : (0#w - 1#w).toInt = -1 := by
  have h4 : 4 ≤ 2 ^ w := by
    calc 4 = 2 ^ 2 := rfl
      _ ≤ 2 ^ w := Nat.pow_le_pow_right (by omega) hw
  have e1 : (1 : Nat) % 2 ^ w = 1 := Nat.mod_eq_of_lt (by omega)
  have e2 : (2 ^ w - 1) % 2 ^ w = 2 ^ w - 1 := Nat.mod_eq_of_lt (by omega)
  rw [BitVec.toInt_eq_toNat_cond]
  simp only [BitVec.toNat_sub, BitVec.toNat_ofNat, e1, Nat.zero_mod, Nat.add_zero, e2]
  rw [if_neg (by omega)]
  push_cast [Nat.cast_sub (show 1 ≤ 2 ^ w by omega)]
  ring

theorem binary_mem (hw : 2 ≤ w) (g : Src) (a : BitVec w) (g' : Src) (h : uniformBinary w g = some (a, g')) :
    Allowed .binary a.toInt := by
  unfold uniformBinary at h
  split at h
  · cases h
  · simp only [Option.some.injEq, Prod.mk.injEq] at h
    rw [← h.1]
    split
    · exact .inr (toInt_one' hw)
    · exact .inl (toInt_zero' w)

theorem ternaryLoop_mem (hw : 2 ≤ w) : ∀ (n : ℕ) (g : Src) (a : BitVec w) (g' : Src),
    uniformTernaryLoop w n g = some (a, g') → Allowed .ternary a.toInt := by
  intro n
  induction n with
  | zero => intro g a g' h; cases h
  | succ n ih =>
    intro g a g' h
    unfold uniformTernaryLoop at h
    split at h
    · cases h
    · split at h
      · simp only [Option.some.injEq, Prod.mk.injEq] at h
        rw [← h.1]; exact .inr (.inl (toInt_zero' w))
      · split at h
        · simp only [Option.some.injEq, Prod.mk.injEq] at h
          rw [← h.1]; exact .inr (.inr (toInt_one' hw))
        · split at h
          · simp only [Option.some.injEq, Prod.mk.injEq] at h
            rw [← h.1]; exact .inl (toInt_neg_one' hw)
          · exact ih _ _ _ h

/-- The logarithm of the standard deviation of a gaussian key is representable and close to the logarithm of
`3.2 / 2^w`. -/
theorem logStd_eq (hw : w = 32 ∨ w = 64) :
    ∃ p : ℚ, gaussianKeyLogStd w = .fin p ∧ Rep p ∧ |p| ≤ 500 ∧ (p : ℚ) + w ≤ 42 / 25 := by
  rcases hw with rfl | rfl
  · refine ⟨rnd (-30.32192809488736), ofRat_fin _ (by decide +kernel), rep_rnd _, ?_, ?_⟩ <;> decide +kernel
  · refine ⟨rnd (-62.32192809488736), ofRat_fin _ (by decide +kernel), rep_rnd _, ?_, ?_⟩ <;> decide +kernel

/-- The standard deviation of a gaussian key is a positive number below `3.21 / 2^w`. -/
theorem std_eq {m : Disp.Libm} (hm : m.Accurate) (hw : w = 32 ∨ w = 64) :
    ∃ s : ℚ, gaussianKeyStd m w = .fin s ∧ 0 ≤ s ∧ s ≤ 1 ∧ (s : ℝ) * 2 ^ w ≤ 3.21 := by
  obtain ⟨p, h1, h2, h3, h4⟩ := logStd_eq hw
  obtain ⟨s, v, e1, -, hs, -⟩ := Disp.C94_log m hm p h2 h3
  have hpos : (0 : ℝ) < 2 ^ (p : ℝ) := Real.rpow_pos_of_pos (by norm_num) _
  have hle : (2 : ℝ) ^ (p : ℝ) * 2 ^ w ≤ 3.205 := by
    rw [← Real.rpow_natCast 2 w, ← Real.rpow_add (by norm_num)]
    have h5 : (p : ℝ) + (w : ℝ) ≤ 42 / 25 := by
      have := (Rat.cast_le (K := ℝ)).2 h4
      push_cast at this
      exact this
    refine (Real.rpow_le_rpow_of_exponent_le (by norm_num) h5).trans ?_
    have h6 : ((2 : ℝ) ^ (42 / 25 : ℝ)) ^ (25 : ℕ) ≤ (3.205 : ℝ) ^ (25 : ℕ) := by
      rw [← Real.rpow_natCast, ← Real.rpow_mul (by norm_num)]
      norm_num
    exact le_of_pow_le_pow_left₀ (by norm_num) (by norm_num) h6
  have hs1 := (abs_le.1 hs).1
  have hs2 := (abs_le.1 hs).2
  have hw32 : (2 : ℝ) ^ 32 ≤ 2 ^ w := by
    rcases hw with rfl | rfl <;> norm_num
  have h0 : (0 : ℝ) ≤ s := by nlinarith
  have hb : (s : ℝ) ≤ 2 ^ (p : ℝ) * (1 + 1 / 2 ^ 50) := by linarith
  have hfin : (s : ℝ) * 2 ^ w ≤ 3.21 := by
    have : (s : ℝ) * 2 ^ w ≤ 2 ^ (p : ℝ) * (1 + 1 / 2 ^ 50) * 2 ^ w := mul_le_mul_of_nonneg_right hb (by positivity)
    have h7 : 2 ^ (p : ℝ) * (1 + 1 / 2 ^ 50) * (2 : ℝ) ^ w = (2 ^ (p : ℝ) * 2 ^ w) * (1 + 1 / 2 ^ 50) := by ring
    rw [h7] at this
    refine this.trans ((mul_le_mul_of_nonneg_right hle (by positivity)).trans ?_)
    norm_num
  refine ⟨s, ?_, by exact_mod_cast h0, ?_, hfin⟩
  · unfold gaussianKeyStd
    rw [h1, e1]
  · have : (s : ℝ) ≤ 1 := by
      by_contra hc
      push Not at hc
      have : (2 : ℝ) ^ 32 ≤ s * 2 ^ w := by nlinarith
      norm_num at this hfin
      linarith
    exact_mod_cast this

theorem noiseFn_std (ln : F64 → F64) (x : F64) :
    Gauss.fn w ln x (.fin 0) = Gauss.noiseFn w ln (.standardDev x) := rfl

theorem gaussian_mem {m : Disp.Libm} (hm : m.Accurate) {ln : F64 → F64} (hln : Gauss.LnAccurate ln)
    (hw : w = 32 ∨ w = 64) {n : ℕ} {g g' : Src} {key : List (BitVec w)}
    (h : generateLwe m ln .gaussian n g = some (key, g')) : ∀ x ∈ key, Allowed .gaussian x.toInt := by
  obtain ⟨s, e, h0, h1, h2⟩ := std_eq hm hw
  have h' : randomNoiseTensor (Gauss.noiseFn w ln (.standardDev (.fin s))) n g = some (key, g') := by
    rw [← e]; exact h
  have hv : (Gauss.Dispersion.standardDev (.fin s)).Valid := by
    refine ⟨h0, h1.trans ?_⟩
    exact one_le_pow₀ (by norm_num)
  intro x hx
  have hb := (Gauss.C91_noise_bounded hln (by omega) (by omega) hv g g').2 n key h' x hx
  have hn : Gauss.noiseBound w (.standardDev (.fin s)) ≤ 42 := by
    unfold Gauss.noiseBound
    have : (13.22 : ℝ) * (Gauss.Dispersion.standardDev (.fin s)).sigma * 2 ^ w + 1 / 2 < 43 := by
      show (13.22 : ℝ) * (s : ℝ) * 2 ^ w + 1 / 2 < 43
      rw [mul_assoc]
      norm_num at h2 ⊢
      linarith
    have h3 := (Nat.floor_lt' (n := 43) (by norm_num)).2 (this.trans_le (by norm_num))
    omega
  show |x.toInt| ≤ 42
  exact hb.trans (by exact_mod_cast hn)

/-! ### The values -/

/-- C113. A generated key has the asked dimension, and its coefficients are those of its kind; the ones of a gaussian
key are at most 42 in absolute value (13.22 times the standard deviation of 3.2). -/
theorem C113_values {m : Disp.Libm} (hm : m.Accurate) {ln : F64 → F64} (hln : Gauss.LnAccurate ln)
    (hw : w = 32 ∨ w = 64) (kind : Kind) (n : ℕ) (g g' : Src) (key : List (BitVec w))
    (h : generateLwe m ln kind n g = some (key, g')) :
    key.length = n ∧ ∀ x ∈ key, Allowed kind x.toInt := by
  cases kind with
  | binary => exact ⟨rep_length _ _ _ _ _ h, Gauss.rep_mem _ (fun x : BitVec w => Allowed .binary x.toInt)
      (fun g a g' => binary_mem (by omega) g a g') _ _ _ _ h⟩
  | ternary => exact ⟨rep_length _ _ _ _ _ h, Gauss.rep_mem _ (fun x : BitVec w => Allowed .ternary x.toInt)
      (fun g a g' => ternaryLoop_mem (by omega) _ g a g') _ _ _ _ h⟩
  | gaussian => exact ⟨Glwe.noiseTensor_length h, gaussian_mem hm hln hw h⟩
  | uniform => exact ⟨rep_length _ _ _ _ _ h, fun _ _ => trivial⟩

/-- The products that the debug build checks. -/
theorem multisumDebug_eq (mask key : List (BitVec w)) :
    multisumDebug mask key =
      if ∀ p ∈ mask.zip key, p.1.toNat * p.2.toNat < 2 ^ w then some (multisum mask key) else none := by
  unfold multisumDebug multisum
  generalize mask.zip key = l
  have hnone : ∀ l : List (BitVec w × BitVec w), l.foldl (fun acc p => match acc with
        | none => none
        | some a => if p.1.toNat * p.2.toNat < 2 ^ w then some (a + p.1 * p.2) else none) none = none := by
    intro l
    induction l with
    | nil => rfl
    | cons p l ih => exact ih
  generalize (0 : BitVec w) = a
  induction l generalizing a with
  | nil => simp
  | cons p l ih =>
    simp only [List.foldl_cons, List.forall_mem_cons]
    by_cases hp : p.1.toNat * p.2.toNat < 2 ^ w
    · simp only [hp, if_true, true_and]
      exact ih _
    · simp only [hp, if_false, false_and]
      exact hnone l

theorem zip_iff (mask key : List (BitVec w)) (hl : mask.length = key.length) :
    (∀ p ∈ mask.zip key, p.1.toNat * p.2.toNat < 2 ^ w) ↔ NoOverflow mask key := by
  constructor
  · intro h i hi
    have hz : (mask[i]'(by omega), key[i]) ∈ mask.zip key := by
      rw [List.mem_iff_getElem]
      exact ⟨i, by rw [List.length_zip]; omega, List.getElem_zip⟩
    have := h _ hz
    rw [List.getD_eq_getElem _ _ (by omega), List.getD_eq_getElem _ _ hi]
    exact this
  · rintro h p hp
    obtain ⟨i, hi, rfl⟩ := List.mem_iff_getElem.1 hp
    rw [List.length_zip] at hi
    have := h i (by omega)
    rw [List.getD_eq_getElem _ _ (by omega), List.getD_eq_getElem _ _ (by omega)] at this
    rw [List.getElem_zip]
    exact this

theorem multisumIn_debug (mask key : List (BitVec w)) (hl : mask.length = key.length) :
    (NoOverflow mask key → Session.multisumIn .debug mask key = some (multisum mask key)) ∧
    (¬ NoOverflow mask key → Session.multisumIn .debug mask key = none) := by
  unfold Session.multisumIn
  dsimp only
  rw [if_pos hl, multisumDebug_eq, ← zip_iff mask key hl]
  exact ⟨fun h => if_pos h, fun h => if_neg h⟩

theorem multisumIn_release (mask key : List (BitVec w)) :
    Session.multisumIn .release mask key = some (multisum mask key) := rfl

theorem encryptIn_release (f : GaussianFn w) (key out : List (BitVec w)) (msg : BitVec w) (g : EncGen) :
    encryptIn .release f key out msg g = encryptLwe f key out msg g := by
  unfold encryptIn encryptLwe fillMaskAndBody
  simp only [multisumIn_release]
  split
  · rfl
  · cases rep (out.length - 1) (uniform w) g.mask with
    | none => rfl
    | some x =>
      dsimp only
      cases randomNoise f g.noise with
      | none => rfl
      | some y => rfl

/-! ### Encryption and decryption -/

/-- C113. In a release build, what is encrypted under a key of any kind decrypts to the message plus the noise that
the call drew. -/
theorem C113_release (f : GaussianFn w) (key out ct : List (BitVec w)) (msg : BitVec w) (g g' : EncGen)
    (ho : Fits key out) (h : encryptIn .release f key out msg g = some (ct, g')) :
    ∃ e, randomNoise f g.noise = some (e, g'.noise) ∧ Session.decryptWord .release key ct = some (msg + e) := by
  rw [encryptIn_release] at h
  obtain ⟨e, hn, hd⟩ := (C12_encrypt_decrypt f key out msg g ho).1 ct g' h
  refine ⟨e, hn, ?_⟩
  rw [← hd]
  unfold Session.decryptWord decryptLwe
  cases ct.getLast? <;> rfl

/-- C113. In a debug build the same call gives the same ciphertext when no product of a word of the mask with a
coefficient of the key overflows, and panics otherwise. -/
theorem C113_debug_partial (f : GaussianFn w) (key out ct : List (BitVec w)) (msg : BitVec w) (g g' : EncGen)
    (ho : Fits key out) (h : encryptIn .release f key out msg g = some (ct, g')) :
    (NoOverflow ct key → encryptIn .debug f key out msg g = some (ct, g') ∧
      Session.decryptWord .debug key ct = Session.decryptWord .release key ct) ∧
    (¬ NoOverflow ct key → encryptIn .debug f key out msg g = none ∧ Session.decryptWord .debug key ct = none) := by
  unfold encryptIn at h ⊢
  split at h
  · cases h
  rename_i h0
  rw [if_neg h0]
  revert h
  cases hr : rep (out.length - 1) (uniform w) g.mask with
  | none => intro h; cases h
  | some x =>
    obtain ⟨mask, gm⟩ := x
    dsimp only
    cases randomNoise f g.noise with
    | none => intro h; cases h
    | some y =>
      obtain ⟨e, gn⟩ := y
      dsimp only
      rw [multisumIn_release]
      dsimp only
      intro h
      simp only [Option.some.injEq, Prod.mk.injEq] at h
      obtain ⟨rfl, rfl⟩ := h
      have hl : mask.length = key.length := by
        rw [rep_length _ _ _ _ _ hr]
        have := ho
        unfold Fits at this
        omega
      have hno : NoOverflow (mask ++ [e + multisum mask key + msg]) key ↔ NoOverflow mask key := by
        unfold NoOverflow
        refine forall_congr' fun i => forall_congr' fun hi => ?_
        rw [List.getD_append _ _ _ _ (by omega)]
      have hd : ∀ bld, Session.decryptWord bld key (mask ++ [e + multisum mask key + msg]) =
          (Session.multisumIn bld mask key).map fun s => e + multisum mask key + msg - s := by
        intro bld
        unfold Session.decryptWord
        rw [List.getLast?_concat, List.dropLast_concat]
      rw [hno, hd, hd]
      obtain ⟨m1, m2⟩ := multisumIn_debug mask key hl
      constructor
      · intro hov
        rw [m1 hov, multisumIn_release]
        exact ⟨rfl, rfl⟩
      · intro hov
        rw [m2 hov]
        exact ⟨rfl, rfl⟩

/-- The words that can be multiplied by `c` without overflow. -/
theorem card_words (c : ℕ) :
    ((Finset.univ : Finset (BitVec w)).filter fun x => x.toNat * c < 2 ^ w).card =
      if c = 0 then 2 ^ w else (2 ^ w - 1) / c + 1 := by
  have h1 : ((Finset.univ : Finset (BitVec w)).filter fun x => x.toNat * c < 2 ^ w).card =
      ((Finset.range (2 ^ w)).filter fun i => i * c < 2 ^ w).card := by
    rw [Finset.card_filter, Finset.card_filter]
    exact Random.sum_bitVec w fun i => if i * c < 2 ^ w then 1 else 0
  rw [h1]
  have hp : 0 < 2 ^ w := Nat.two_pow_pos w
  generalize 2 ^ w = q at *
  split
  · rename_i hc
    rw [hc, Finset.filter_true_of_mem (fun i _ => by simpa using hp), Finset.card_range]
  · rename_i hc
    have hc0 : 0 < c := Nat.pos_of_ne_zero hc
    have : (Finset.range q).filter (fun i => i * c < q) = Finset.range ((q - 1) / c + 1) := by
      ext i
      rw [Finset.mem_filter, Finset.mem_range, Finset.mem_range, Nat.lt_succ_iff, Nat.le_div_iff_mul_le hc0]
      constructor
      · rintro ⟨-, h⟩; omega
      · intro h
        have : i ≤ i * c := Nat.le_mul_of_pos_right i hc0
        omega
    rw [this, Finset.card_range]

/-- C113. Of the `2^(w * n)` masks, a debug build can use the product over the coefficients `c` of the key, read
without sign, of the number of multiples of `c` below `2^w`. -/
theorem C113_debug_masks (key : List (BitVec w)) :
    masksWithoutPanic key =
      (key.map fun c => if c.toNat = 0 then 2 ^ w else (2 ^ w - 1) / c.toNat + 1).prod := by
  unfold masksWithoutPanic
  have h1 : (Finset.univ : Finset (Fin key.length → BitVec w)).filter (fun a =>
      (Session.multisumIn .debug (List.ofFn a) key).isSome) =
      Fintype.piFinset fun i : Fin key.length =>
        (Finset.univ : Finset (BitVec w)).filter fun x => x.toNat * (key.get i).toNat < 2 ^ w := by
    ext a
    simp only [Finset.mem_filter, Finset.mem_univ, true_and, Fintype.mem_piFinset]
    have hl : (List.ofFn a).length = key.length := List.length_ofFn
    obtain ⟨m1, m2⟩ := multisumIn_debug (List.ofFn a) key hl
    have hno : NoOverflow (List.ofFn a) key ↔ ∀ i : Fin key.length, (a i).toNat * (key.get i).toNat < 2 ^ w := by
      unfold NoOverflow
      constructor
      · intro h i
        have := h i i.2
        rw [List.getD_eq_getElem _ _ (by omega), List.getD_eq_getElem _ _ i.2, List.getElem_ofFn] at this
        exact this
      · intro h i hi
        rw [List.getD_eq_getElem _ _ (by omega), List.getD_eq_getElem _ _ hi, List.getElem_ofFn]
        exact h ⟨i, hi⟩
    rw [← hno]
    by_cases hh : NoOverflow (List.ofFn a) key
    · rw [m1 hh]; simp [hh]
    · rw [m2 hh]; simp [hh]
  rw [h1, Fintype.card_piFinset]
  simp only [card_words]
  conv_rhs => rw [← List.ofFn_get key, List.map_ofFn, List.prod_ofFn]
  rfl

/-- C113. With a binary key a debug build can use every mask. -/
theorem C113_debug_binary (hw : 2 ≤ w) (key : List (BitVec w)) (hk : ∀ x ∈ key, Allowed .binary x.toInt) :
    masksWithoutPanic key = (2 ^ w) ^ key.length := by
  rw [C113_debug_masks]
  have hp : 0 < 2 ^ w := Nat.two_pow_pos w
  have hpt : ∀ x ∈ key, (if x.toNat = 0 then 2 ^ w else (2 ^ w - 1) / x.toNat + 1) = 2 ^ w := by
    intro x hx
    rcases hk x hx with h | h
    · have : x = 0#w := BitVec.eq_of_toInt_eq (by rw [h, toInt_zero'])
      rw [this]; simp
    · have : x = 1#w := BitVec.eq_of_toInt_eq (by rw [h, toInt_one' hw])
      have e1 : (1#w).toNat = 1 := by
        rw [BitVec.toNat_ofNat]
        exact Nat.mod_eq_of_lt (Nat.one_lt_two_pow (by omega))
      rw [this, e1, if_neg (by norm_num), Nat.div_one]
      omega
  rw [List.map_congr_left hpt, List.map_const', List.prod_replicate]

/-- Finding (C113): with a ternary key, the number of masks that a debug build can use is divided by `2^(w-1)` for
each coefficient `-1`: with one such coefficient, 2 masks in `2^w`. The other encryptions panic. -/
theorem C113_debug_ternary_violated (hw : 2 ≤ w) (key : List (BitVec w)) (hk : ∀ x ∈ key, Allowed .ternary x.toInt) :
    masksWithoutPanic key * (2 ^ (w - 1)) ^ (key.countP fun x => x.toInt = -1) = (2 ^ w) ^ key.length := by
  rw [C113_debug_masks]
  have hp : 0 < 2 ^ w := Nat.two_pow_pos w
  induction key with
  | nil => rfl
  | cons x key ih =>
    have ih := ih fun y hy => hk y (List.mem_cons_of_mem _ hy)
    rw [List.map_cons, List.prod_cons, List.countP_cons, List.length_cons, pow_succ, ← ih]
    generalize (List.map (fun c : BitVec w => if c.toNat = 0 then 2 ^ w else (2 ^ w - 1) / c.toNat + 1) key).prod = A
    generalize List.countP _ key = c
    rcases hk x List.mem_cons_self with h | h | h
    · have hx : x = 0#w - 1#w := BitVec.eq_of_toInt_eq (by rw [h, toInt_neg_one' hw])
      have h4 : 4 ≤ 2 ^ w := by
        calc 4 = 2 ^ 2 := rfl
          _ ≤ 2 ^ w := Nat.pow_le_pow_right (by omega) hw
      have en : (0#w - 1#w).toNat = 2 ^ w - 1 := by
        have e1 : (1 : Nat) % 2 ^ w = 1 := Nat.mod_eq_of_lt (by omega)
        simp only [BitVec.toNat_sub, BitVec.toNat_ofNat, e1, Nat.zero_mod, Nat.add_zero]
        exact Nat.mod_eq_of_lt (by omega)
      have hs : 2 ^ w = 2 * 2 ^ (w - 1) := by rw [← pow_succ']; congr 1; omega
      have hc : (if decide (x.toInt = -1) = true then 1 else 0) = 1 := by simp [h]
      rw [hc, hx, en, if_neg (by omega), Nat.div_self (by omega), pow_succ, hs]
      ring
    · have hx : x = 0#w := BitVec.eq_of_toInt_eq (by rw [h, toInt_zero'])
      have hc : (if decide (x.toInt = -1) = true then 1 else 0) = 0 := by simp [h]
      rw [hc, hx]
      simp only [BitVec.toNat_ofNat, Nat.zero_mod, if_true, Nat.add_zero]
      ring
    · have hx : x = 1#w := BitVec.eq_of_toInt_eq (by rw [h, toInt_one' hw])
      have e1 : (1#w).toNat = 1 := by
        rw [BitVec.toNat_ofNat]
        exact Nat.mod_eq_of_lt (Nat.one_lt_two_pow (by omega))
      have hc : (if decide (x.toInt = -1) = true then 1 else 0) = 0 := by simp [h]
      rw [hc, hx, e1, if_neg (by norm_num), Nat.div_one, Nat.sub_add_cancel hp]
      ring

/-- C113 for GLWE: the products of polynomials wrap in every build, so that what is encrypted under a generated key
of any kind decrypts to the message plus the noise of the call, coefficient by coefficient. -/
theorem C113_glwe (m : Disp.Libm) (ln : F64 → F64) (kind : Kind) (f : GaussianFn w) (N k : ℕ) (hN : 0 < N)
    (key out msg ct buf : List (BitVec w)) (gs gs' : Src) (g g' : EncGen)
    (hgen : generateGlwe m ln kind k N gs = some (key, gs')) (ho : Glwe.CtFits N k out) (hm : msg.length = N)
    (hb : buf.length = N) (h : Glwe.encryptGlwe f key N out msg g = some (ct, g')) :
    ∃ e, randomNoiseTensor f N g.noise = some (e, g'.noise) ∧ e.length = N ∧
      ∀ i, i < N → (Glwe.decryptGlwe N key buf ct).getD i 0 = msg.getD i 0 + e.getD i 0 := by
  have hl : key.length = N * k := by
    unfold generateGlwe at hgen
    cases kind with
    | gaussian => exact Glwe.noiseTensor_length hgen
    | binary => exact rep_length _ _ _ _ _ hgen
    | ternary => exact rep_length _ _ _ _ _ hgen
    | uniform => exact rep_length _ _ _ _ _ hgen
  have hk : Glwe.KeyFits N k key := by
    unfold Glwe.KeyFits
    rw [hl, Nat.mul_comm]
  obtain ⟨-, -, h3⟩ := Glwe.C24_decrypt_encrypt f N k hN key out msg ct buf g g' hk ho hm hb h
  exact h3

/-! ### Examples -/

/-- A source of bytes 0, 1, 2, 3, 0, 1, … -/
def exampleSrc : Src := ⟨fun p => BitVec.ofNat 8 (p % 4), 0, 100⟩

/-- A ternary key is generated: the byte 3 is skipped. -/
example : ∀ (m : Disp.Libm) (ln : F64 → F64), ∃ g', generateLwe (w := 32) m ln .ternary 4 exampleSrc =
    some ([0#32, 1#32, 0#32 - 1#32, 0#32], g') := by
  intro m ln
  refine ⟨_, rfl⟩

/-- With the key `(0, 1, -1, 0)` of 32 bits a debug build uses one mask in `2^31`. -/
example : masksWithoutPanic [0#32, 1#32, 0#32 - 1#32, 0#32] = 2 ^ 32 * (2 ^ 32 * (2 * 2 ^ 32)) := by
  rw [C113_debug_masks]
  decide +kernel

/-- An encryption that succeeds in release and panics in debug, and one that succeeds in both. -/
example :
    let f : GaussianFn 32 := { accept := fun _ _ => true, value := fun _ _ => (3#32, 4#32) }
    let g : EncGen := { mask := exampleSrc, noise := exampleSrc }
    (encryptIn .release f [0#32 - 1#32] [0, 0] 5#32 g).isSome = true ∧
      (encryptIn .debug f [0#32 - 1#32] [0, 0] 5#32 g).isSome = false ∧
      (encryptIn .debug f [1#32] [0, 0] 5#32 g).isSome = true := by
  decide +kernel

end Verif.Lwe.Kinds
