import Verif.Random.GaussProps
/-
The gaussian sampler is an odd function of the words it reads.
-/
namespace Verif.Random.Gauss
open Verif.Float Verif.Encode

theorem ofRat_neg (q : ℚ) : ofRat (-q) = (ofRat q).neg := by
  unfold ofRat
  dsimp only
  rw [rnd_neg]
  have hp : (0 : ℚ) < 2 ^ (1024 : ℤ) := two_zpow_pos _
  generalize (2 : ℚ) ^ (1024 : ℤ) = A at *
  by_cases h1 : A ≤ rnd q
  · rw [if_neg (by linarith), if_pos (by linarith), if_pos h1]; rfl
  · by_cases h2 : rnd q ≤ -A
    · rw [if_pos (by linarith), if_neg h1, if_pos h2]; rfl
    · rw [if_neg (by intro h; exact h2 (by linarith)), if_neg (by intro h; exact h1 (by linarith)), if_neg h1, if_neg h2]
      rfl

theorem infMul_neg (s : Bool) (q : ℚ) : F64.infMul s (-q) = (F64.infMul s q).neg := by
  unfold F64.infMul
  rcases lt_trichotomy q 0 with h | h | h
  · have h1 : ¬ -q < 0 := by linarith
    have h2 : -q ≠ 0 := by linarith
    cases s <;> simp [h, h1, h2, h.ne, F64.neg]
  · subst h; simp [F64.neg]
  · have h1 : -q < 0 := by linarith
    have h2 : ¬ q < 0 := by linarith
    cases s <;> simp [h1, h2, h.ne', F64.neg]

theorem infMul_not (s : Bool) (q : ℚ) : F64.infMul (!s) q = (F64.infMul s q).neg := by
  unfold F64.infMul
  by_cases h : q = 0
  · simp [h, F64.neg]
  · by_cases h1 : q < 0 <;> cases s <;> simp [h, h1, F64.neg]

theorem mul_neg_left (a b : F64) : a.neg.mul b = (a.mul b).neg := by
  cases a <;> cases b <;> simp only [F64.neg, F64.mul]
  · rw [neg_mul, ofRat_neg]; rfl
  · exact infMul_neg _ _
  · exact infMul_neg _ _
  · exact infMul_not false _
  · exact infMul_not true _

theorem mul_neg_neg (a : F64) : a.neg.mul a.neg = a.mul a := by
  cases a <;> simp only [F64.neg, F64.mul]
  rw [neg_mul_neg]

theorem add_neg_neg (a b : F64) : a.neg.add b.neg = (a.add b).neg := by
  cases a <;> cases b <;> simp only [F64.neg, F64.add]
  rw [show ∀ a b : ℚ, -a + -b = -(a + b) by intros; ring, ofRat_neg]; rfl

theorem add_zero_neg (a : F64) : a.neg.add (.fin 0) = (a.add (.fin 0)).neg := by
  have := add_neg_neg a (.fin 0)
  rwa [show (F64.fin 0).neg = .fin 0 by simp [F64.neg]] at this

theorem neg_neg (a : F64) : a.neg.neg = a := by cases a <;> simp [F64.neg]

theorem sub_neg_neg (a b : F64) : a.neg.sub b.neg = (a.sub b).neg := add_neg_neg a b.neg

theorem round_neg (a : F64) : a.neg.round = a.round.neg := by
  cases a <;> simp only [F64.neg, F64.round]
  rename_i q
  rcases lt_trichotomy q 0 with h | h | h
  · rw [if_pos (by linarith), if_neg (by linarith)]
    simp only
    congr 1
    rw [show -q + 1 / 2 = -(q - 1 / 2) by ring, Int.floor_neg]; push_cast; rfl
  · subst h; norm_num
  · rw [if_neg (by linarith), if_pos h.le]
    simp only
    congr 1
    rw [show -q - 1 / 2 = -(q + 1 / 2) by ring, Int.ceil_neg]; push_cast; rfl

theorem toSigned_range (w : Nat) (a : F64) :
    -2 ^ (w - 1) ≤ a.toSigned w ∧ a.toSigned w ≤ 2 ^ (w - 1) - 1 := by
  have hp : (0 : ℤ) < 2 ^ (w - 1) := by positivity
  cases a <;> simp only [F64.toSigned]
  · generalize (2 : ℤ) ^ (w - 1) = A at *
    split_ifs <;> omega
  · generalize (2 : ℤ) ^ (w - 1) = A at *
    omega
  · generalize (2 : ℤ) ^ (w - 1) = A at *
    omega
  · generalize (2 : ℤ) ^ (w - 1) = A at *
    omega

theorem toSigned_neg (w : Nat) (a : F64) (h : |a.toSigned w| < 2 ^ (w - 1) - 1) :
    a.neg.toSigned w = -a.toSigned w := by
  have hp : (0 : ℤ) < 2 ^ (w - 1) := by positivity
  cases a <;> simp only [F64.neg, F64.toSigned] at h ⊢
  · rename_i q
    have e : (if 0 ≤ -q then ⌊-q⌋ else ⌈-q⌉) = -(if 0 ≤ q then ⌊q⌋ else ⌈q⌉) := by
      rcases lt_trichotomy q 0 with h | h | h
      · rw [if_pos (by linarith), if_neg (by linarith), Int.floor_neg]
      · subst h; simp
      · rw [if_neg (by linarith), if_pos h.le, Int.ceil_neg]
    rw [e]
    generalize (if 0 ≤ q then ⌊q⌋ else ⌈q⌉) = t at *
    generalize (2 : ℤ) ^ (w - 1) = A at *
    rw [abs_lt] at h
    split_ifs at h ⊢ <;> omega
  · exfalso
    rw [abs_lt] at h; omega
  · exfalso
    rw [abs_lt] at h; omega
  · simp

/-- The conversion to the torus is odd, except where it saturates. -/
theorem fromTorus_neg (w : Nat) (hw : 1 ≤ w) (a : F64) (h : |(fromTorus w a).toInt| < 2 ^ (w - 1) - 1) :
    fromTorus w a.neg = -fromTorus w a := by
  unfold fromTorus at h ⊢
  dsimp only at h ⊢
  rw [round_neg, sub_neg_neg, mul_neg_left, round_neg]
  generalize ((a.sub a.round).mul (F64.powi2 w)).round = y at *
  obtain ⟨r1, r2⟩ := toSigned_range w y
  have hpw : (2 : ℤ) ^ w = 2 * 2 ^ (w - 1) := by rw [← pow_succ']; congr 1; omega
  have ht : (BitVec.ofInt w (y.toSigned w)).toInt = y.toSigned w := by
    rw [BitVec.toInt_ofInt, Int.bmod_eq_of_le] <;> push_cast <;> rw [hpw] <;> omega
  rw [ht] at h
  rw [toSigned_neg w y h, BitVec.ofInt_neg]

theorem unit_neg (x : BitVec 64) (h : x ≠ BitVec.intMin 64) : unit (-x) = (unit x).neg := by
  unfold unit
  rw [BitVec.toInt_neg_of_ne_intMin h, Int.cast_neg, ofRat_neg, mul_neg_left]

theorem unit_min : unit (BitVec.intMin 64) = .fin (-1) := by
  unfold unit
  have e : (BitVec.intMin 64).toInt = -2 ^ 63 := by decide
  have r1 : Rep (((-2 ^ 63 : ℤ)) : ℚ) := by
    have := (rep_pow 63 (by norm_num)).neg
    push_cast
    exact_mod_cast this
  rw [e, ofRat_rep r1 (by
    push_cast; rw [abs_neg, abs_of_pos (by positivity)]
    exact pow_le_1022 63 (by norm_num)), show (-64 + 1 : ℤ) = -63 from rfl,
    powi2_eq _ (by norm_num) (by norm_num)]
  show ofRat _ = _
  rw [show (((-2 ^ 63 : ℤ)) : ℚ) * 2 ^ (-63 : ℤ) = ((-1 : ℤ) : ℚ) by norm_num,
    ofRat_rep (rep_int (-1) (by norm_num)) (by push_cast; rw [abs_neg, abs_one]; exact one_le_1022)]
  norm_num

/-- The word `-2^63`, which has no opposite, is never accepted. -/
theorem accept_min_left (y : BitVec 64) : accept (BitVec.intMin 64) y = false := by
  unfold accept radius
  rw [unit_min]
  obtain ⟨V, hV, -, V1, -⟩ := unit_eq y
  rw [hV]
  have one : Rep (1 : ℚ) := by simpa using rep_int 1 (by norm_num)
  have e1 : (F64.fin (-1)).mul (.fin (-1)) = .fin 1 := by
    show ofRat _ = _
    rw [show (-1 : ℚ) * -1 = 1 by norm_num, ofRat_rep one (by rw [abs_one]; exact one_le_1022)]
  have hv2 : V * V ≤ 1 := by rw [← abs_mul_abs_self]; exact mul_le_one₀ V1 (abs_nonneg _) V1
  have hv0 : 0 ≤ V * V := mul_self_nonneg V
  have e2 : (F64.fin V).mul (.fin V) = .fin (rnd (V * V)) :=
    ofRat_fin _ (by rw [abs_of_nonneg hv0]; exact hv2.trans one_le_1022)
  have h0 := rnd_nonneg hv0
  have h1 : rnd (V * V) ≤ 1 := rnd_le_of_rep one hv2
  have e3 : (F64.fin 1).add (.fin (rnd (V * V))) = .fin (rnd (1 + rnd (V * V))) :=
    ofRat_fin _ (by
      rw [abs_of_nonneg (by linarith)]
      have : (2 : ℚ) ^ 1 ≤ 2 ^ 1022 := pow_le_pow_right₀ (by norm_num) (by norm_num)
      generalize (2 : ℚ) ^ 1022 = A at *
      linarith)
  rw [e1, e2, e3]
  have h2 : 1 ≤ rnd (1 + rnd (V * V)) := le_rnd_of_rep one (by linarith)
  have : (F64.fin (rnd (1 + rnd (V * V)))).lt (.fin 1) = false := by
    simp only [F64.lt, decide_eq_false_iff_not, not_lt]; exact h2
  rw [this, Bool.and_false]

theorem add_comm' (a b : F64) : a.add b = b.add a := by
  cases a <;> cases b <;> simp only [F64.add]
  rw [add_comm]

theorem radius_comm (a b : F64) : radius a b = radius b a := add_comm' _ _

theorem accept_comm (x y : BitVec 64) : accept x y = accept y x := by
  unfold accept; rw [radius_comm]

theorem radius_neg (a b : F64) : radius a.neg b = radius a b := by unfold radius; rw [mul_neg_neg]

theorem accept_neg_left (x y : BitVec 64) : accept (-x) y = accept x y := by
  by_cases h : x = BitVec.intMin 64
  · subst h; rw [BitVec.neg_intMin]
  · unfold accept; rw [unit_neg x h, radius_neg]

theorem accept_neg_right (x y : BitVec 64) : accept x (-y) = accept x y := by
  rw [accept_comm, accept_neg_left, accept_comm]

/-- Changing the sign of the first word changes the sign of the first value, and nothing else. -/
theorem value_neg_left {ln : F64 → F64} (hln : LnAccurate ln) {w : ℕ} (hw0 : 1 ≤ w) (hw : w ≤ 128) {d : Dispersion}
    (hd : d.Valid) (hb : (noiseBound w d : ℤ) < 2 ^ (w - 1) - 1) (x y : BitVec 64)
    (ha : (noiseFn w ln d).accept x y = true) :
    (noiseFn w ln d).value (-x) y = (-((noiseFn w ln d).value x y).1, ((noiseFn w ln d).value x y).2) := by
  have hb1 := (noise_le hln hw0 hw hd x y ha).1
  have hx : x ≠ BitVec.intMin 64 := by
    rintro rfl
    have : accept (BitVec.intMin 64) y = true := ha
    rw [accept_min_left] at this; cases this
  unfold noiseFn fn sample at hb1 ⊢
  dsimp only at hb1 ⊢
  rw [unit_neg x hx, radius_neg, mul_neg_left, add_zero_neg, fromTorus_neg w hw0 _ (by omega)]

/-- The same for the second word. -/
theorem value_neg_right {ln : F64 → F64} (hln : LnAccurate ln) {w : ℕ} (hw0 : 1 ≤ w) (hw : w ≤ 128) {d : Dispersion}
    (hd : d.Valid) (hb : (noiseBound w d : ℤ) < 2 ^ (w - 1) - 1) (x y : BitVec 64)
    (ha : (noiseFn w ln d).accept x y = true) :
    (noiseFn w ln d).value x (-y) = (((noiseFn w ln d).value x y).1, -((noiseFn w ln d).value x y).2) := by
  have h := value_neg_left hln hw0 hw hd hb y x (by
    show accept y x = true
    rw [accept_comm]; exact ha)
  have e : ∀ x y, (noiseFn w ln d).value x y = (((noiseFn w ln d).value y x).2, ((noiseFn w ln d).value y x).1) := by
    intro x y
    unfold noiseFn fn sample
    dsimp only
    rw [radius_comm]
  rw [e x (-y), h, e x y]

end Verif.Random.Gauss
