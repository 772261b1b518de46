import Verif.Random.CountAux
import Verif.Lwe.Lemmas
/-
C110: the distribution of what is sampled, when the bytes of the generator are uniform.

`ways s L a` (Random/CountSpec) is the number of strings of `L` bytes on which the sampler `s` gives `a`, so that the
probability of `a` is `ways s L a / 256^L`.
-/
namespace Verif.Random
open Verif.Csprng (Build)
open Verif.Random.Gauss Verif.Float

/-! ### Words, bits and parts of words -/

/-- C110. Uniform words are uniform and independent: every list of `n` words of `w` bits comes from exactly one string of
`n w / 8` bytes. -/

theorem C110_words (w n : Nat) (h8 : 8 ∣ w) (as : List (BitVec w)) (hl : as.length = n) :
    ways (rep n (uniform w)) (n * (w / 8)) as = 1 := by
  rw [((sim_uniform w).rep n).ways, lways_rep (fixed_uniform w), if_pos hl]
  have : lways (luniform w) (w / 8) = fun _ => 1 := funext (lways_uniform w h8)
  rw [this]
  simp

/-- C110. Binary values are uniform and independent: every list of `n` bits comes from exactly `128^n` of the `256^n`
strings of `n` bytes, and nothing else is drawn. -/

theorem C110_bits (w n : Nat) (hw : 0 < w) (as : List (BitVec w)) :
    ways (rep n (uniformBinary w)) n as = if as.length = n ∧ ∀ a ∈ as, a = 0 ∨ a = 1#w then 128 ^ n else 0 := by
  have h := lways_rep (fixed_binary w) n as
  rw [Nat.mul_one] at h
  rw [((sim_binary w).rep n).ways, h]
  by_cases hl : as.length = n
  · rw [if_pos hl]
    by_cases ha : ∀ a ∈ as, a = 0 ∨ a = 1#w
    · rw [if_pos ⟨hl, ha⟩, prod_const _ 128 as fun a hm => by rw [lways_binary w hw, if_pos (ha a hm)], hl]
    · rw [if_neg fun h => ha h.2]
      push Not at ha
      obtain ⟨a, hm, h1⟩ := ha
      rw [List.prod_eq_zero_iff, List.mem_map]
      exact ⟨a, hm, by rw [lways_binary w hw, if_neg (by rintro (h | h); exacts [h1.1 h, h1.2 h])]⟩
  · rw [if_neg hl, if_neg fun h => hl h.1]

/-- C110. Words with `k` random least significant bits: every list of `n` integers below `2^k` comes from exactly
`2^((w-k) n)` strings of bytes. -/

theorem C110_lsb (m : Build) (w k n : Nat) (h8 : 8 ∣ w) (hw : w < 2 ^ 64) (h0 : 0 < k) (hk : k ≤ w) (as : List (BitVec w))
    (hl : as.length = n) (ha : ∀ a ∈ as, a.toNat < 2 ^ k) :
    ways (rep n (uniformLsb m w k)) (n * (w / 8)) as = (2 ^ (w - k)) ^ n := by
  rw [((sim_lsb m h0 hk hw).rep n).ways, lways_rep (fixed_shift w _), if_pos hl,
    prod_const _ (2 ^ (w - k)) as fun a hm => by rw [lways_lsb w k h8 hk, if_pos (ha a hm)], hl]

/-- C110. Words with `k` random most significant bits: every list of `n` multiples of `2^(w-k)` comes from exactly
`2^((w-k) n)` strings of bytes. -/

theorem C110_msb (m : Build) (w k n : Nat) (h8 : 8 ∣ w) (hw : w < 2 ^ 64) (h0 : 0 < k) (hk : k ≤ w) (as : List (BitVec w))
    (hl : as.length = n) (ha : ∀ a ∈ as, 2 ^ (w - k) ∣ a.toNat) :
    ways (rep n (uniformMsb m w k)) (n * (w / 8)) as = (2 ^ (w - k)) ^ n := by
  rw [((sim_msb m h0 hk hw).rep n).ways, lways_rep (fixed_shift w _), if_pos hl,
    prod_const _ (2 ^ (w - k)) as fun a hm => by rw [lways_msb w k h8 hk, if_pos (ha a hm)], hl]

/-! ### Ternary values -/

/-- C110. Ternary values are uniform and independent: all the lists of `n` values among -1, 0 and 1 come from the same
number of strings of `L` bytes, for every `L`. -/

theorem C110_ternary (w n L : Nat) (hw : 2 ≤ w) (as : List (BitVec w)) (hl : as.length = n)
    (ha : ∀ a ∈ as, a = 0 ∨ a = 1#w ∨ a = -1#w) :
    ways (rep n (uniformTernary w)) L as = ternaryWays n L := by
  rw [((sim_tern w).rep n).ways]
  exact lways_tern w hw L n as hl ha

/-! ### Secret keys and masks -/

/-- C110. Secret keys are uniform: the generation of a binary LWE secret key of dimension `n` gives each of the `2^n` keys
for exactly `128^n` of the `256^n` strings of bytes of the secret generator, and a GLWE secret key likewise. -/

theorem C110_secret_key (w : Nat) (hw : 0 < w) (key : List (BitVec w)) (hb : ∀ x ∈ key, x = 0 ∨ x = 1#w) :
    (∀ n, 0 < n → key.length = n →
      Nat.card {bs : Fin n → BitVec 8 // ∃ g,
        (Session.SecretCall.lweKey (w := w) n).run (srcOf (List.ofFn bs)) = .ok (.key key, g)} = 128 ^ n) ∧
    (∀ k N, 0 < k → 1 < N → key.length = N * k →
      Nat.card {bs : Fin (N * k) → BitVec 8 // ∃ g,
        (Session.SecretCall.glweKey (w := w) k N).run (srcOf (List.ofFn bs)) = .ok (.key key, g)} = 128 ^ (N * k)) := by
  have run_iff : ∀ (c : Session.SecretCall w) (g : Src) (r), c.check = .ok () → (c.run g = .ok r ↔ c.exec g = some r) := by
    intro c g r h
    rw [Session.SecretCall.run, h]
    simp only
    cases c.exec g <;> simp
  constructor
  · intro n hn hl
    have hc : (Session.SecretCall.lweKey (w := w) n).check = .ok () := by
      have : (n == 0) = false := by simp; omega
      simp [Session.SecretCall.check, Engine.Checks.lweSecretKeyGeneration, Engine.bad, Engine.checks, this]
    rw [card_ways (rep n (uniformBinary w)) n key _ fun bs => ?_, C110_bits w n hw, if_pos ⟨hl, hb⟩]
    rw [← key_iff]
    exact exists_congr fun g => run_iff _ _ _ hc
  · intro k N hk hN hl
    have hc : (Session.SecretCall.glweKey (w := w) k N).check = .ok () := by
      have h1 : (k == 0) = false := by simp; omega
      have h2 : (N == 0) = false := by simp; omega
      have h3 : (N == 1) = false := by simp; omega
      simp [Session.SecretCall.check, Engine.Checks.glweSecretKeyGeneration, Engine.bad, Engine.checks, h1, h2, h3]
    rw [card_ways (rep (N * k) (uniformBinary w)) (N * k) key _ fun bs => ?_, C110_bits w (N * k) hw, if_pos ⟨hl, hb⟩]
    rw [← key_iff]
    exact exists_congr fun g => run_iff _ _ _ hc

/-- C110. Masks are uniform, whatever the key, the message and the noise: in an LWE encryption each mask comes from exactly
one string of bytes of the mask generator. -/

theorem C110_mask {w : Nat} (h8 : 8 ∣ w) (f : GaussianFn w) (key out : List (BitVec w)) (msg : BitVec w) (hf : Lwe.Fits key out)
    (noise noise' : Src) (e : BitVec w) (hn : randomNoise f noise = some (e, noise')) (mask : List (BitVec w))
    (hl : mask.length = key.length) :
    Nat.card {bs : Fin (key.length * (w / 8)) → BitVec 8 // ∃ ct g,
      Lwe.encryptLwe f key out msg ⟨srcOf (List.ofFn bs), noise⟩ = some (ct, g) ∧ ct.dropLast = mask} = 1 := by
  have ho : out.length - 1 = key.length := by rw [hf]; rfl
  rw [card_ways (rep key.length (uniform w)) _ mask _ fun bs => ?_, C110_words w _ h8 mask hl]
  constructor
  · rintro ⟨ct, g, h, rfl⟩
    obtain ⟨m, e', h1, -, -, rfl, -⟩ := Lwe.encryptLwe_eq h
    rw [ho] at h1
    rw [result, h1]
    simp
  · intro h
    obtain ⟨ct, hct⟩ := Lwe.encryptLwe_ok f key out msg ⟨srcOf (List.ofFn bs), noise⟩ hf (by simp [srcOf]) e noise' hn
    refine ⟨ct, _, hct, ?_⟩
    obtain ⟨m, e', h1, -, -, rfl, -⟩ := Lwe.encryptLwe_eq hct
    rw [ho] at h1
    rw [result, h1] at h
    simpa using h

/-! ### Noise -/

/-- C110. The noise is symmetric, each value separately: when no noise can wrap, changing the signs of any of the values
of a list of noises changes nothing to the number of strings of bytes that give it. This holds for the noises drawn one by
one and for those of a polynomial or a tensor, drawn in pairs. -/

theorem C110_noise_signs {ln : F64 → F64} (hln : LnAccurate ln) {w : ℕ} (hw0 : 1 ≤ w) (hw : w ≤ 128) {d : Dispersion}
    (hd : d.Valid) (hb : (noiseBound w d : ℤ) < 2 ^ (w - 1) - 1) (n L : Nat) (es : List (BitVec w)) (σ : Nat → Bool) :
    ways (rep n (randomNoise (noiseFn w ln d))) L (flip σ es) = ways (rep n (randomNoise (noiseFn w ln d))) L es ∧
    ways (randomNoiseTensor (noiseFn w ln d) n) L (flip σ es) = ways (randomNoiseTensor (noiseFn w ln d) n) L es :=
  have h := signSym hln hw0 hw hd hb
  ⟨(ways_noises h σ n L es).symm, (ways_tensor h σ n L es).symm⟩

/-- C110. The noise has mean zero and the noises are uncorrelated: over all the strings of `L` bytes, the values drawn at
position `i` sum to zero, and so do the products of the values at two positions. The noises may be drawn one by one or
together. -/

theorem C110_noise_mean {ln : F64 → F64} (hln : LnAccurate ln) {w : ℕ} (hw0 : 1 ≤ w) (hw : w ≤ 128) {d : Dispersion}
    (hd : d.Valid) (hb : (noiseBound w d : ℤ) < 2 ^ (w - 1) - 1) (n L : Nat) (s : Samp (List (BitVec w)))
    (hs : s = rep n (randomNoise (noiseFn w ln d)) ∨ s = randomNoiseTensor (noiseFn w ln d) n) (i j : Nat) (hij : i ≠ j) :
    (∑ bs : Fin L → BitVec 8, ((result s (List.ofFn bs)).map fun es => (es.getD i 0).toInt).getD 0) = 0 ∧
    (∑ bs : Fin L → BitVec 8, ((result s (List.ofFn bs)).map fun es => (es.getD i 0).toInt * (es.getD j 0).toInt).getD 0) = 0 := by
  have hways : ∀ σ es, ways s L (flip σ es) = ways s L es := by
    intro σ es
    have := C110_noise_signs hln hw0 hw hd hb n L es σ
    rcases hs with rfl | rfl
    exacts [this.1, this.2]
  have hsmall : ∀ es, ways s L es ≠ 0 → ∀ k, (-(es.getD k 0)).toInt = -(es.getD k 0).toInt := by
    intro es hne k
    rw [ways, Finset.card_ne_zero] at hne
    obtain ⟨bs, h⟩ := hne
    replace h : result s (List.ofFn bs) = some es := by simpa using h
    rw [result, Option.map_eq_some_iff] at h
    obtain ⟨⟨es', g'⟩, h, rfl⟩ := h
    have hall : ∀ e ∈ es', |e.toInt| ≤ (noiseBound w d : ℤ) := by
      rcases hs with rfl | rfl
      · exact rep_mem _ (fun e : BitVec w => |e.toInt| ≤ (noiseBound w d : ℤ))
          (fun g e g' h => (C91_noise_bounded hln hw0 hw hd g g').1 e h) _ _ _ _ h
      · exact (C91_noise_bounded hln hw0 hw hd _ g').2 n es' h
    dsimp only
    rw [List.getD_eq_getElem?_getD]
    cases hk : es'[k]? with
    | none => simp
    | some e =>
      exact toInt_neg_of_small e _ (hall e (List.mem_of_getElem? hk)) hb
  constructor
  · refine sum_zero s L (flip fun k => decide (k = i)) (flip_flip _) (hways _) _ fun es hne => ?_
    rw [flip_get, if_pos (by simp), hsmall es hne i]
  · refine sum_zero s L (flip fun k => decide (k = i)) (flip_flip _) (hways _) _ fun es hne => ?_
    rw [flip_get, flip_get, if_pos (by simp), if_neg (by simpa using Ne.symm hij), hsmall es hne i]
    ring

/-! ### The hypotheses can be met -/

/-- Key of three bits, words of 32 bits, and values of each kind. -/

example : ways (rep 2 (uniform 32)) 8 [5#32, 7#32] = 1 ∧ ways (rep 3 (uniformBinary 32)) 3 [1#32, 0#32, 1#32] = 128 ^ 3 ∧
    ways (rep 2 (uniformLsb .debug 32 5)) 8 [31#32, 0#32] = (2 ^ 27) ^ 2 ∧
    ways (rep 1 (uniformMsb .release 32 5)) 4 [3#32 <<< 27] = 2 ^ 27 ∧
    ways (rep 2 (uniformTernary 32)) 3 [1#32, -1#32] = 64 * 64 * 256 + 2 * (64 * 64 * 64) := by
  refine ⟨C110_words 32 2 (by decide) _ rfl, ?_, C110_lsb .debug 32 5 2 (by decide) (by decide) (by decide) (by decide) _ rfl ?_,
    (C110_msb .release 32 5 1 (by decide) (by decide) (by decide) (by decide) _ rfl ?_).trans (by norm_num), ?_⟩
  · rw [C110_bits 32 3 (by decide), if_pos ⟨rfl, by simp⟩]
  · simp
  · simp
  · rw [C110_ternary 32 2 3 (by decide) _ rfl (by simp)]; rfl

/-- An accurate logarithm and a variance whose noise cannot wrap. -/

example : ∃ ln : F64 → F64, LnAccurate ln ∧ (Dispersion.variance (.fin (1 / 2 ^ 60))).Valid ∧
    (noiseBound 64 (Dispersion.variance (.fin (1 / 2 ^ 60))) : ℤ) < 2 ^ (64 - 1) - 1 := by
  obtain ⟨ln, hln⟩ := exists_ln
  refine ⟨ln, hln, ⟨by norm_num, ?_⟩, ?_⟩
  · exact le_trans (by norm_num) (one_le_pow₀ (by norm_num) : (1 : ℚ) ≤ 2 ^ 900)
  · have : noiseBound 64 (Dispersion.variance (.fin (1 / 2 ^ 60))) ≤ 14 * 2 ^ 34 + 1 := by
      apply Nat.floor_le_of_le
      have : (Dispersion.variance (.fin (1 / 2 ^ 60))).sigma = 1 / 2 ^ 30 := by
        show √(((1 / 2 ^ 60 : ℚ) : ℝ)) = _
        rw [Real.sqrt_eq_iff_mul_self_eq (by norm_num) (by norm_num)]
        norm_num
      rw [this]
      norm_num
    have h2 : (noiseBound 64 (Dispersion.variance (.fin (1 / 2 ^ 60))) : ℤ) ≤ 14 * 2 ^ 34 + 1 := by exact_mod_cast this
    norm_num at h2 ⊢
    omega

end Verif.Random
