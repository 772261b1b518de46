import Verif.Random.GaussLemmas
import Verif.Lwe.Props2
import Verif.Glwe.Props
import Verif.Circuit.Props
/-
C91: the noise that encryptions draw never exceeds 13.22 standard deviations, so that decryption of fresh
ciphertexts is exact for all random bytes.
-/
namespace Verif.Random.Gauss
open Verif.Float Verif.Encode Verif.Lwe Verif.Decomp

/-! ### Specification -/

/-- The standard deviation that a noise parameter stands for. -/
noncomputable def Dispersion.sigma : Dispersion → ℝ
  | .standardDev (.fin q) => q
  | .variance (.fin q) => √(q : ℝ)
  | _ => 0

/-- A noise parameter that is a number, not negative and not astronomically large. -/
def Dispersion.Valid : Dispersion → Prop
  | .standardDev (.fin q) => 0 ≤ q ∧ q ≤ 2 ^ 900
  | .variance (.fin q) => 0 ≤ q ∧ q ≤ 2 ^ 900
  | _ => False

/-- 13.22 standard deviations, in units of the torus of `w` bits, rounded to the nearest integer. -/
noncomputable def noiseBound (w : ℕ) (d : Dispersion) : ℕ := ⌊13.22 * d.sigma * 2 ^ w + 1 / 2⌋₊

/-! ### The standard deviation that is used -/

theorem std_valid {d : Dispersion} (h : d.Valid) :
    ∃ σ : ℚ, d.std = .fin σ ∧ 0 ≤ σ ∧ σ ≤ 2 ^ 900 ∧ (σ : ℝ) ≤ d.sigma * (1 + 1 / 2 ^ 53) := by
  match d, h with
  | .standardDev (.fin q), h =>
    refine ⟨q, rfl, h.1, h.2, ?_⟩
    show (q : ℝ) ≤ q * (1 + 1 / 2 ^ 53)
    have : (0 : ℝ) ≤ q := by exact_mod_cast h.1
    have : (0 : ℝ) ≤ (q : ℝ) * (1 / 2 ^ 53) := mul_nonneg this (by norm_num)
    linarith
  | .variance (.fin q), h =>
    by_cases h0 : q = 0
    · refine ⟨0, ?_, le_refl _, pow_nonneg (by norm_num) _, ?_⟩
      · show (if q < 0 then _ else if q = 0 then _ else _) = _
        rw [h0]; rfl
      · show ((0 : ℚ) : ℝ) ≤ √(q : ℝ) * _
        rw [Rat.cast_zero]; exact mul_nonneg (Real.sqrt_nonneg _) (by norm_num)
    · have hq : 0 < q := lt_of_le_of_ne h.1 (Ne.symm h0)
      have hb := (abs_le.1 (abs_sqrtRnd_sub_le q hq)).2
      refine ⟨sqrtRnd q, ?_, sqrtRnd_nonneg q, ?_, ?_⟩
      · show (if q < 0 then _ else if q = 0 then _ else _) = _
        rw [if_neg (not_lt.2 h.1), if_neg h0]
      · have h1 : √(q : ℝ) ≤ 2 ^ 450 := by
          rw [Real.sqrt_le_left (pow_nonneg (by norm_num) _), ← pow_mul]
          exact_mod_cast h.2
        have h2 : (sqrtRnd q : ℝ) ≤ 2 * 2 ^ 450 := by
          have : √(q : ℝ) / 2 ^ 53 ≤ √(q : ℝ) := div_le_self (Real.sqrt_nonneg _) (by norm_num)
          generalize (2 : ℝ) ^ 450 = A at *
          linarith
        have h3 : (2 : ℝ) * 2 ^ 450 ≤ 2 ^ 900 := by
          rw [← pow_succ']; exact pow_le_pow_right₀ (by norm_num) (by norm_num)
        have h4 : (sqrtRnd q : ℝ) ≤ ((2 ^ 900 : ℚ) : ℝ) := by push_cast; exact h2.trans h3
        exact_mod_cast h4
      · show (sqrtRnd q : ℝ) ≤ √(q : ℝ) * _
        rw [mul_add, mul_one, mul_one_div]; linarith

theorem sigma_nonneg {d : Dispersion} (h : d.Valid) : 0 ≤ d.sigma := by
  match d, h with
  | .standardDev (.fin q), h => show (0 : ℝ) ≤ q; exact_mod_cast h.1
  | .variance (.fin q), h => exact Real.sqrt_nonneg _

theorem noise_le {ln : F64 → F64} (hln : LnAccurate ln) {w : ℕ} (hw0 : 1 ≤ w) (hw : w ≤ 128) {d : Dispersion}
    (hd : d.Valid) (x y : BitVec 64) (ha : (noiseFn w ln d).accept x y = true) :
    |((noiseFn w ln d).value x y).1.toInt| ≤ noiseBound w d ∧
    |((noiseFn w ln d).value x y).2.toInt| ≤ noiseBound w d := by
  obtain ⟨σ, hσ, h0, h1, h2⟩ := std_valid hd
  have key : ∀ z : ℤ, |(z : ℚ)| ≤ 13219 / 1000 * σ * 2 ^ w + 1 / 2 → |z| ≤ noiseBound w d := by
    intro z hz
    have hz' : |(z : ℝ)| ≤ 13219 / 1000 * σ * 2 ^ w + 1 / 2 := by
      have : ((|(z : ℚ)| : ℚ) : ℝ) ≤ ((13219 / 1000 * σ * 2 ^ w + 1 / 2 : ℚ) : ℝ) := by exact_mod_cast hz
      push_cast at this
      exact this
    have hs := sigma_nonneg hd
    have h3 : 13219 / 1000 * (σ : ℝ) ≤ 13.22 * d.sigma := by
      have h4 : d.sigma * (1 / 2 ^ 53) ≤ d.sigma * (1 / 10 ^ 10) := mul_le_mul_of_nonneg_left (by norm_num) hs
      have h5 : (σ : ℝ) ≤ d.sigma + d.sigma * (1 / 10 ^ 10) := by linarith
      norm_num at h5 ⊢
      linarith
    have h6 := mul_le_mul_of_nonneg_right h3 (by positivity : (0 : ℝ) ≤ 2 ^ w)
    have h7 : ((z.natAbs : ℕ) : ℝ) ≤ 13.22 * d.sigma * 2 ^ w + 1 / 2 := by
      rw [Nat.cast_natAbs, Int.cast_abs]
      linarith
    have h8 : z.natAbs ≤ noiseBound w d := Nat.le_floor h7
    rw [Int.abs_eq_natAbs]
    exact_mod_cast h8
  unfold noiseFn at *
  rw [hσ] at *
  obtain ⟨a, b⟩ := value_bound hln w hw0 hw σ h0 h1 x y ha
  exact ⟨key _ a, key _ b⟩

/-! ### C91 -/

/-- C91. Every noise value, and every coefficient of every noise polynomial, that an encryption draws is at most 13.22
standard deviations, whatever bytes the generator gives. -/
theorem C91_noise_bounded {ln : F64 → F64} (hln : LnAccurate ln) {w : ℕ} (hw0 : 1 ≤ w) (hw : w ≤ 128) {d : Dispersion}
    (hd : d.Valid) (g g' : Src) :
    (∀ e, randomNoise (noiseFn w ln d) g = some (e, g') → |e.toInt| ≤ noiseBound w d) ∧
    (∀ n es, randomNoiseTensor (noiseFn w ln d) n g = some (es, g') → ∀ e ∈ es, |e.toInt| ≤ noiseBound w d) :=
  ⟨fun _ h => randomNoise_mem _ (fun e => |e.toInt| ≤ noiseBound w d)
      (fun x y ha => (noise_le hln hw0 hw hd x y ha).1) h,
    fun _ _ h => randomNoiseTensor_mem _ (fun e => |e.toInt| ≤ noiseBound w d)
      (fun x y ha => noise_le hln hw0 hw hd x y ha) h⟩

/-- C91. A standard deviation below `2^-w / 26.44` adds no noise at all. -/
theorem C91_no_noise {ln : F64 → F64} (hln : LnAccurate ln) {w : ℕ} (hw0 : 1 ≤ w) (hw : w ≤ 128) {d : Dispersion}
    (hd : d.Valid) (hsmall : 26.44 * d.sigma * 2 ^ w < 1) (g g' : Src) (e : BitVec w)
    (h : randomNoise (noiseFn w ln d) g = some (e, g')) : e = 0 := by
  have h1 := (C91_noise_bounded hln hw0 hw hd g g').1 e h
  have h2 : noiseBound w d = 0 := by
    unfold noiseBound
    rw [Nat.floor_eq_zero]
    norm_num at hsmall ⊢
    linarith
  rw [h2] at h1
  have h3 : e.toInt = 0 := by
    have := abs_nonneg e.toInt
    have h4 : |e.toInt| = 0 := le_antisymm (by exact_mod_cast h1) this
    exact abs_eq_zero.1 h4
  apply BitVec.eq_of_toInt_eq
  rw [h3]; simp

theorem toInt_cast {w : ℕ} (e : BitVec w) : ((e.toInt : ℤ) : BitVec w) = e := by
  apply BitVec.eq_of_toInt_eq
  rw [show ((e.toInt : ℤ) : BitVec w) = BitVec.ofInt w e.toInt from rfl, BitVec.ofInt_toInt]

/-- C91. Decryption of a fresh LWE ciphertext gives back the message for all bytes of the generators, if 13.22 standard
deviations are less than half of the distance between messages. -/
theorem C91_lwe {ln : F64 → F64} (hln : LnAccurate ln) {w : ℕ} (hw0 : 1 ≤ w) (hw : w ≤ 128) {d : Dispersion}
    (hd : d.Valid) {k : ℕ} (hk : k ≤ w) (hsmall : 2 * noiseBound w d < 2 ^ k) (key out ct : List (BitVec w)) (m : ℤ)
    (g g' : EncGen) (ho : Fits key out)
    (h : encryptLwe (noiseFn w ln d) key out ((2 ^ k * m : ℤ) : BitVec w) g = some (ct, g')) :
    ∃ x, decryptLwe key ct = some x ∧ (Circuit.decode k x : ℤ) = m % 2 ^ (w - k) := by
  obtain ⟨e, hn, hf, hp⟩ := encryptLwe_phase ho h
  have hb := (C91_noise_bounded hln hw0 hw hd _ _).1 e hn
  refine ⟨_, decryptLwe_eq hf, ?_⟩
  rw [hp, ← toInt_cast e, ← Int.cast_add]
  exact Circuit.decode_spec hk m e.toInt (by
    have : (2 * noiseBound w d : ℤ) < 2 ^ k := by exact_mod_cast hsmall
    omega)

/-- C91. The same for every coefficient of a fresh GLWE ciphertext. -/
theorem C91_glwe {ln : F64 → F64} (hln : LnAccurate ln) {w : ℕ} (hw0 : 1 ≤ w) (hw : w ≤ 128) {d : Dispersion}
    (hd : d.Valid) {k : ℕ} (hk : k ≤ w) (hsmall : 2 * noiseBound w d < 2 ^ k) (N kg : ℕ) (hN : 0 < N)
    (key out ct buf : List (BitVec w)) (ms : List ℤ) (g g' : EncGen) (hkey : Glwe.KeyFits N kg key)
    (ho : Glwe.CtFits N kg out) (hm : ms.length = N) (hb : buf.length = N)
    (h : Glwe.encryptGlwe (noiseFn w ln d) key N out (ms.map fun m => ((2 ^ k * m : ℤ) : BitVec w)) g = some (ct, g')) :
    ∀ i, i < N →
      (Circuit.decode k ((Glwe.decryptGlwe N key buf ct).getD i 0) : ℤ) = ms.getD i 0 % 2 ^ (w - k) := by
  obtain ⟨-, -, e, he, hl, hv⟩ := Glwe.C24_decrypt_encrypt _ N kg hN key out _ ct buf g g' hkey ho
    (by rw [List.length_map, hm]) hb h
  intro i hi
  have hmem : e.getD i 0 ∈ e := by
    rw [List.getD_eq_getElem?_getD, List.getElem?_eq_getElem (by omega)]
    exact List.getElem_mem _
  have hbnd := (C91_noise_bounded hln hw0 hw hd _ _).2 _ e he _ hmem
  have hmi : (ms.map fun m => ((2 ^ k * m : ℤ) : BitVec w)).getD i 0 = ((2 ^ k * ms.getD i 0 : ℤ) : BitVec w) := by
    simp only [List.getD_eq_getElem?_getD, List.getElem?_map, List.getElem?_eq_getElem (show i < ms.length by omega),
      Option.map_some, Option.getD_some]
  rw [hv i hi, hmi, ← toInt_cast (e.getD i 0), ← Int.cast_add]
  exact Circuit.decode_spec hk _ _ (by
    have : (2 * noiseBound w d : ℤ) < 2 ^ k := by exact_mod_cast hsmall
    omega)

/-- C91. A ciphertext encrypted with one key and switched with a generated keyswitching key decrypts with the other key
to the message, for all bytes of all generators. -/
theorem C91_keyswitch {ln : F64 → F64} (hln : LnAccurate ln) {w : ℕ} (hw0 : 1 ≤ w) (hw : w ≤ 128) {d dk : Dispersion}
    (hd : d.Valid) (hdk : dk.Valid) {k : ℕ} (hk : k ≤ w) (b l : ℕ) (hv : ValidParams w b l)
    (s s' out ct ksk0 ksk after : List (BitVec w)) (m : ℤ) (g g' gk gk' : EncGen)
    (hsmall : 2 * (noiseBound w d + s.length * 2 ^ (w - b * l - 1) + s.length * l * 2 ^ (b - 1) * noiseBound w dk) < 2 ^ k)
    (hs : BinaryKey s) (ho : Fits s out) (ha : Fits s' after)
    (hk0 : ksk0.length = s.length * (l * (s'.length + 1)))
    (henc : encryptLwe (noiseFn w ln d) s out ((2 ^ k * m : ℤ) : BitVec w) g = some (ct, g'))
    (hgen : fillKeyswitchKey (noiseFn w ln dk) s s' b l (s'.length + 1) ksk0 gk = some (ksk, gk')) :
    ∃ r x, keyswitchCiphertext b l (s'.length + 1) ksk after ct = some r ∧ decryptLwe s' r = some x ∧
      (Circuit.decode k x : ℤ) = m % 2 ^ (w - k) := by
  obtain ⟨e, hn, hf, hp⟩ := encryptLwe_phase ho henc
  have hb := (C91_noise_bounded hln hw0 hw hd _ _).1 e hn
  obtain ⟨es, hes, hlen, hrow⟩ := fillKsk_spec hv.level hk0 hgen
  have hes' := rep_mem _ (fun e : BitVec w => |e.toInt| ≤ (noiseBound w dk : ℤ))
    (fun g a g' ha => (C91_noise_bounded hln hw0 hw hdk g g').1 a ha) _ _ _ _ hes
  have hel : es.length = s.length * l := rep_length _ _ _ _ _ hes
  obtain ⟨r, E, hr, hfr, hpr, hE⟩ := C16_error_bound b l hv s s' ksk after ct
    (fun i j => (es.getD (i * l + j) 0).toInt) (noiseBound w dk) hlen
    (fun i hi j hj => by rw [hrow i hi j hj, toInt_cast])
    (fun i hi j hj => by
      apply hes'
      have hij : i * l + j < es.length := by
        rw [hel]
        calc i * l + j < i * l + l := by omega
          _ = (i + 1) * l := by ring
          _ ≤ s.length * l := Nat.mul_le_mul_right _ hi
      rw [List.getD_eq_getElem?_getD, List.getElem?_eq_getElem hij]
      exact List.getElem_mem _)
    hs ha hf
  refine ⟨r, _, hr, decryptLwe_eq hfr, ?_⟩
  rw [hpr, hp, ← toInt_cast e, ← Int.cast_add, ← Int.cast_add, add_assoc]
  apply Circuit.decode_spec hk
  have h1 : (2 * (noiseBound w d + s.length * 2 ^ (w - b * l - 1) + s.length * l * 2 ^ (b - 1) * noiseBound w dk) : ℤ)
      < 2 ^ k := by exact_mod_cast hsmall
  have h2 := abs_add_le e.toInt E
  linarith

/-- C91, violated for parameters that are no variance: with a negative variance or a NaN, the library encrypts without
any noise and reports nothing. -/
theorem C91_invalid_violated (ln : F64 → F64) (w : ℕ) (d : Dispersion)
    (hd : (∃ q, q < 0 ∧ d = .variance (.fin q)) ∨ d = .variance .nan ∨ d = .standardDev .nan) (g g' : Src)
    (e : BitVec w) (h : randomNoise (noiseFn w ln d) g = some (e, g')) : e = 0 := by
  have hstd : d.std = .nan := by
    rcases hd with ⟨q, hq, rfl⟩ | rfl | rfl
    · show (if q < 0 then _ else if q = 0 then _ else _) = _
      rw [if_pos hq]
    · rfl
    · rfl
  refine randomNoise_mem _ (fun e => e = 0) (fun x y _ => ?_) h
  show fromTorus w (sample ln d.std (.fin 0) x y).1 = 0
  obtain ⟨U, hU, -⟩ := unit_eq x
  have : (sample ln d.std (.fin 0) x y).1 = .nan := by
    unfold sample factor
    dsimp only
    rw [hstd, hU]
    rfl
  rw [this]
  show BitVec.ofInt w _ = 0
  have : ((((F64.nan).sub (F64.nan).round).mul (F64.powi2 w)).round).toSigned w = 0 := by
    have e1 : (F64.nan).sub (F64.nan).round = .nan := rfl
    rw [e1]
    cases F64.powi2 w <;> rfl
  exact (congrArg (BitVec.ofInt w) this).trans (by simp)

/-- C91: the bound is reached up to 0.2 percent. When the generator gives the words 1 and 0, the number drawn is at
least 13.2 standard deviations. -/
theorem C91_bound_reached {ln : F64 → F64} (hln : LnAccurate ln) (σ : ℚ) (hσ0 : 1 / 2 ^ 900 ≤ σ) (hσ1 : σ ≤ 2 ^ 900) :
    accept 1#64 0#64 = true ∧
      ∃ p : ℚ, (sample ln (.fin σ) (.fin 0) 1#64 0#64).1 = .fin p ∧ 13.2 * σ ≤ p := by
  have hu : unit 1#64 = .fin (1 / 2 ^ 63) := by decide +kernel
  have hr : radius (unit 1#64) (unit 0#64) = .fin (1 / 2 ^ 126) := by decide +kernel
  have rep : ∀ (k e : ℤ), |k| ≤ 2 ^ 53 → -1074 ≤ e → Rep ((k : ℚ) * 2 ^ e) := fun k e h1 h2 => ⟨k, e, h1, h2, rfl⟩
  have hs : Rep (1 / 2 ^ 126 : ℚ) := by
    have := rep 1 (-126) (by norm_num) (by norm_num)
    norm_num at this ⊢
    exact this
  refine ⟨by decide +kernel, ?_⟩
  obtain ⟨l, hl, hacc⟩ := hln _ hs (by norm_num) (by norm_num)
  have hlog : Real.log ((1 / 2 ^ 126 : ℚ) : ℝ) = -(126 * Real.log 2) := by
    push_cast
    rw [one_div, Real.log_inv, Real.log_pow]
    norm_num
  have g1 := Real.log_two_gt_d9
  have g2 := Real.log_two_lt_d9
  rw [hlog, abs_neg, abs_of_pos (by linarith : 0 < 126 * Real.log 2)] at hacc
  have hsm : 126 * Real.log 2 / 2 ^ 50 ≤ 1 / 1000 := by
    rw [div_le_iff₀ (by norm_num)]
    norm_num
    linarith
  have hb := abs_le.1 hacc
  have l1 : l ≤ -(8732 / 100) := by
    have : (l : ℝ) ≤ ((-(8732 / 100) : ℚ) : ℝ) := by push_cast; linarith
    exact_mod_cast this
  have l2 : -88 ≤ l := by
    have : ((-88 : ℚ) : ℝ) ≤ (l : ℝ) := by push_cast; linarith
    exact_mod_cast this
  clear hacc hb hsm hlog
  -- the product by -2
  have e1 : (F64.fin (-2)).mul (.fin l) = .fin (rnd (-2 * l)) := by
    show ofRat _ = _
    rw [ofRat_fin]
    rw [abs_of_nonneg (by linarith)]
    exact le_trans (by norm_num; linarith) (pow_le_1022 10 (by norm_num))
  have a1 : 349 / 2 ≤ rnd (-2 * l) := by
    apply le_rnd_of_rep _ (by linarith)
    have := rep 349 (-1) (by norm_num) (by norm_num)
    norm_num at this ⊢
    exact this
  have a2 : rnd (-2 * l) ≤ 176 := by
    apply rnd_le_of_rep _ (by linarith)
    have := rep 176 0 (by norm_num) (by norm_num)
    norm_num at this ⊢
    exact this
  generalize rnd (-2 * l) = a at *
  -- the quotient
  have e2 : (F64.fin a).div (.fin (1 / 2 ^ 126)) = .fin (rnd (a / (1 / 2 ^ 126))) := by
    show (if (1 / 2 ^ 126 : ℚ) = 0 then _ else ofRat _) = _
    rw [if_neg (by norm_num), ofRat_fin]
    rw [abs_of_nonneg (div_nonneg (by linarith) (by norm_num))]
    refine le_trans ?_ (pow_le_1022 140 (by norm_num))
    rw [div_le_iff₀ (by norm_num)]
    norm_num
    linarith
  have b1 : 349 / 2 * 2 ^ 126 ≤ rnd (a / (1 / 2 ^ 126)) := by
    apply le_rnd_of_rep
    · have := rep 349 125 (by norm_num) (by norm_num)
      norm_num at this ⊢
      exact this
    · rw [le_div_iff₀ (by norm_num)]
      norm_num
      linarith
  have b2 : rnd (a / (1 / 2 ^ 126)) ≤ 2 ^ 140 := by
    apply rnd_le_of_rep
    · exact_mod_cast rep_pow 140 (by norm_num)
    · rw [div_le_iff₀ (by norm_num)]
      norm_num
      linarith
  generalize rnd (a / (1 / 2 ^ 126)) = b at *
  have hb0 : 0 < b := lt_of_lt_of_le (by norm_num) b1
  -- the square root
  have e3 : (F64.fin b).sqrt = .fin (sqrtRnd b) := by
    show (if b < 0 then _ else if b = 0 then _ else _) = _
    rw [if_neg (not_lt.2 hb0.le), if_neg hb0.ne']
  have hsq := abs_le.1 (abs_sqrtRnd_sub_le b hb0)
  have c1 : (1320 / 100 + 5 / 1000) * 2 ^ 63 ≤ sqrtRnd b := by
    have h1 : (1320 / 100 + 8 / 1000) * 2 ^ 63 ≤ √(b : ℝ) := by
      apply Real.le_sqrt_of_sq_le
      have h2 : (((349 / 2 * 2 ^ 126 : ℚ)) : ℝ) ≤ (b : ℝ) := by exact_mod_cast b1
      refine le_trans ?_ h2
      push_cast
      norm_num
    have h3 : √(b : ℝ) * (1 - 1 / 2 ^ 53) ≤ (sqrtRnd b : ℝ) := by
      rw [mul_sub, mul_one, mul_one_div]; linarith
    have h4 : (1320 / 100 + 8 / 1000) * 2 ^ 63 * (1 - 1 / 2 ^ 53) ≤ √(b : ℝ) * (1 - 1 / 2 ^ 53) :=
      mul_le_mul_of_nonneg_right h1 (by norm_num)
    have h5 : (((1320 / 100 + 5 / 1000) * 2 ^ 63 : ℚ) : ℝ) ≤ (sqrtRnd b : ℝ) := by
      push_cast
      refine le_trans ?_ (h4.trans h3)
      norm_num
    exact_mod_cast h5
  have c2 : sqrtRnd b ≤ 2 ^ 71 := by
    have h1 : √(b : ℝ) ≤ 2 ^ 70 := by
      rw [Real.sqrt_le_left (by norm_num), ← pow_mul]
      exact_mod_cast b2
    have h2 : √(b : ℝ) / 2 ^ 53 ≤ √(b : ℝ) := div_le_self (Real.sqrt_nonneg _) (by norm_num)
    have h3 : (sqrtRnd b : ℝ) ≤ ((2 ^ 71 : ℚ) : ℝ) := by push_cast; linarith
    exact_mod_cast h3
  generalize sqrtRnd b = c at *
  -- the two products
  have hη := eta_pos
  have hη2 : eta ≤ σ / 2 ^ 100 := by
    have h1 := eta_le 1000 (by norm_num)
    have h2 : (1 : ℚ) / 2 ^ 1000 = 1 / 2 ^ 900 / 2 ^ 100 := by
      rw [show (1000 : ℕ) = 900 + 100 from rfl, pow_add]
      generalize (2 : ℚ) ^ 900 = A
      rw [div_div]
    rw [h2] at h1
    generalize (1 : ℚ) / 2 ^ 900 = B at *
    exact h1.trans (div_le_div_of_nonneg_right hσ0 (by norm_num))
  have hσp : 0 < σ := by
    have : (0 : ℚ) < 1 / 2 ^ 900 := div_pos one_pos (pow_pos (by norm_num) _)
    exact lt_of_lt_of_le this hσ0
  have hc0 : 0 < c := lt_of_lt_of_le (by norm_num) c1
  have m1 : σ * c ≤ 2 ^ 971 := by
    calc σ * c ≤ 2 ^ 900 * 2 ^ 71 := mul_le_mul hσ1 c2 hc0.le (pow_nonneg (by norm_num) _)
      _ = 2 ^ 971 := by rw [← pow_add]
  have e4 : (F64.fin σ).mul (.fin c) = .fin (rnd (σ * c)) := by
    show ofRat _ = _
    rw [ofRat_fin]
    rw [abs_of_nonneg (mul_nonneg hσp.le hc0.le)]
    exact m1.trans (pow_le_1022 971 (by norm_num))
  have t0 : 0 ≤ rnd (σ * c) := rnd_nonneg (mul_nonneg hσp.le hc0.le)
  have t1 : rnd (σ * c) ≤ 2 ^ 971 := by
    apply rnd_le_of_rep _ m1
    exact_mod_cast rep_pow 971 (by norm_num)
  have t2 : σ * c - σ * c / 2 ^ 53 - σ / 2 ^ 100 ≤ rnd (σ * c) := by
    have h := (abs_le.1 (rnd_err (σ * c))).1
    rw [abs_of_pos (mul_pos hσp hc0)] at h
    linarith
  generalize rnd (σ * c) = t at *
  have z0 : 0 ≤ 1 / 2 ^ 63 * t := mul_nonneg (by norm_num) t0
  have z1 : 1 / 2 ^ 63 * t ≤ 2 ^ 971 := by
    refine le_trans ?_ t1
    have : (1 / 2 ^ 63 : ℚ) ≤ 1 := by norm_num
    calc 1 / 2 ^ 63 * t ≤ 1 * t := mul_le_mul_of_nonneg_right this t0
      _ = t := one_mul t
  have e5 : (F64.fin (1 / 2 ^ 63)).mul (.fin t) = .fin (rnd (1 / 2 ^ 63 * t)) := by
    show ofRat _ = _
    rw [ofRat_fin]
    rw [abs_of_nonneg z0]
    exact z1.trans (pow_le_1022 971 (by norm_num))
  have p0 : 0 ≤ rnd (1 / 2 ^ 63 * t) := rnd_nonneg z0
  have p1 : rnd (1 / 2 ^ 63 * t) ≤ 2 ^ 971 := by
    apply rnd_le_of_rep _ z1
    exact_mod_cast rep_pow 971 (by norm_num)
  have p2 := (abs_le.1 (rnd_err (1 / 2 ^ 63 * t))).1
  rw [abs_of_nonneg z0] at p2
  refine ⟨rnd (1 / 2 ^ 63 * t), ?_, ?_⟩
  · unfold sample factor
    dsimp only
    rw [hr, hl, e1, e2, e3, e4, hu, e5]
    show ofRat _ = _
    rw [add_zero, ofRat_rep (rep_rnd _)]
    rw [abs_of_nonneg p0]
    exact p1.trans (pow_le_1022 971 (by norm_num))
  · have k1 : σ * ((1320 / 100 + 5 / 1000) * 2 ^ 63) ≤ σ * c := mul_le_mul_of_nonneg_left c1 hσp.le
    have k2 : σ / 2 ^ 100 ≤ σ / 10 ^ 10 := div_le_div_of_nonneg_left hσp.le (by norm_num) (by norm_num)
    generalize rnd (1 / 2 ^ 63 * t) = p at *
    norm_num at *
    linarith

/-- There are logarithms with the assumed accuracy. -/
theorem exists_ln : ∃ ln : F64 → F64, LnAccurate ln := by
  have : ∀ s : ℚ, ∃ l : ℚ, 0 < s → s < 1 → |(l : ℝ) - Real.log s| ≤ |Real.log s| / 2 ^ 50 := by
    intro s
    by_cases h : 0 < s ∧ s < 1
    · have hl : Real.log s < 0 := Real.log_neg (by exact_mod_cast h.1) (by exact_mod_cast h.2)
      have hp : 0 < |Real.log s| / 2 ^ 50 := div_pos (abs_pos.2 hl.ne) (by norm_num)
      obtain ⟨l, h1, h2⟩ := exists_rat_btwn (show Real.log s < Real.log s + |Real.log s| / 2 ^ 50 by linarith)
      exact ⟨l, fun _ _ => by rw [abs_of_pos (by linarith)]; linarith⟩
    · exact ⟨0, fun a b => absurd ⟨a, b⟩ h⟩
  choose l hl using this
  refine ⟨fun x => match x with | .fin s => .fin (l s) | x => x, fun s _ h0 h1 => ⟨l s, rfl, hl s h0 h1⟩⟩

/-- C91 is not vacuous: an accepted draw, with the noise parameters of an encryption of 64 bits. -/
example : ∃ ln, LnAccurate ln ∧ (Dispersion.variance (.fin (1 / 2 ^ 60))).Valid ∧
    2 * noiseBound 64 (Dispersion.variance (.fin (1 / 2 ^ 60))) < 2 ^ 60 ∧
    ∃ g e g', randomNoise (noiseFn 64 ln (Dispersion.variance (.fin (1 / 2 ^ 60)))) g = some (e, g') := by
  obtain ⟨ln, hln⟩ := exists_ln
  refine ⟨ln, hln, ⟨by norm_num, ?_⟩, ?_, ⟨fun _ => 1#8, 0, 100⟩, ?_⟩
  · exact le_trans (by norm_num) (one_le_pow₀ (by norm_num) : (1 : ℚ) ≤ 2 ^ 900)
  · have : noiseBound 64 (Dispersion.variance (.fin (1 / 2 ^ 60))) ≤ 14 * 2 ^ 34 + 1 := by
      apply Nat.floor_le_of_le
      have : (Dispersion.variance (.fin (1 / 2 ^ 60))).sigma = 1 / 2 ^ 30 := by
        show √(((1 / 2 ^ 60 : ℚ) : ℝ)) = _
        rw [show (((1 / 2 ^ 60 : ℚ) : ℝ)) = (1 / 2 ^ 30) ^ 2 by push_cast; norm_num]
        exact Real.sqrt_sq (by norm_num)
      rw [this]
      push_cast
      norm_num
    omega
  · have ha : (noiseFn 64 ln (Dispersion.variance (.fin (1 / 2 ^ 60)))).accept
        0x0101010101010101#64 0x0101010101010101#64 = true := by
      show accept _ _ = true
      decide +kernel
    refine ⟨((noiseFn 64 ln (Dispersion.variance (.fin (1 / 2 ^ 60)))).value
        0x0101010101010101#64 0x0101010101010101#64).1, ⟨fun _ => 1#8, 16, 100⟩, ?_⟩
    have h1 : uniform 64 ⟨fun _ => 1#8, 0, 100⟩ = some (0x0101010101010101#64, ⟨fun _ => 1#8, 8, 100⟩) := by rfl
    have h2 : uniform 64 ⟨fun _ => 1#8, 8, 100⟩ = some (0x0101010101010101#64, ⟨fun _ => 1#8, 16, 100⟩) := by rfl
    unfold randomNoise gaussianPair
    have h3 : ∀ fuel, gaussianLoop (noiseFn 64 ln (Dispersion.variance (.fin (1 / 2 ^ 60)))) (fuel + 1)
        ⟨fun _ => 1#8, 0, 100⟩ = some ((noiseFn 64 ln (Dispersion.variance (.fin (1 / 2 ^ 60)))).value
        0x0101010101010101#64 0x0101010101010101#64, ⟨fun _ => 1#8, 16, 100⟩) := by
      intro fuel
      rw [gaussianLoop, h1]
      dsimp only
      rw [h2]
      dsimp only
      rw [if_pos ha]
    rw [h3]

end Verif.Random.Gauss
