import Verif.Lwe.Lemmas2
import Verif.Decomp.Props
import Mathlib.Algebra.Order.BigOperators.Ring.Finset
/-
Property C16: keyswitch. `Representable` and `signedDiff` are defined in `Verif.Decomp.Spec`.
-/
set_option linter.unusedSectionVars false
namespace Verif.Lwe
open Verif.Random Verif.Decomp

variable {w : Nat}

/-- The digits of the keyswitch recompose to the rounded mask element. -/
theorem ksDigit_spec (b l : Nat) (hv : ValidParams w b l) (a : BitVec w) :
    ∃ d : Nat → Int, (∀ k, k < l → -(2 ^ (b - 1) : Int) ≤ d k ∧ d k ≤ 2 ^ (b - 1)) ∧
      (∀ j, j < l → ksDigit b l a j = ((d (l - 1 - j) : Int) : BitVec w)) ∧
      ∑ k ∈ Finset.range l, ((d k : Int) : BitVec w) * ((2 ^ (w - b * (k + 1)) : Nat) : BitVec w) =
        closestRepresentable b l a := by
  have hc := (C08_closest_representable b l hv a).1
  have hid : closestRepresentable b l (closestRepresentable b l a) = closestRepresentable b l a :=
    (C08_closest_representable b l hv _).2.2.2 hc
  obtain ⟨ds, hlen, hval, hbd, _⟩ := digits_spec b l hv (closestRepresentable b l a >>> (w - b * l))
  have hrec := digits_recompose b l hv _ hc
  have hdig : ∀ j, j < l → ksDigit b l a j = ((ds.getD j 0 : Int) : BitVec w) := by
    intro j hj
    rw [ksDigit, hid, hval j hj]
  refine ⟨fun k => ds.getD (l - 1 - k) 0, ?_, ?_, ?_⟩
  · intro k hk
    have hlt : l - 1 - k < ds.length := by omega
    have : ds.getD (l - 1 - k) 0 ∈ ds := by
      simp [List.getD_eq_getElem?_getD, List.getElem?_eq_getElem hlt]
    exact hbd _ this
  · intro j hj
    show _ = ((ds.getD (l - 1 - (l - 1 - j)) 0 : Int) : BitVec w)
    rw [hdig j hj, show l - 1 - (l - 1 - j) = j by omega]
  · rw [← hrec, list_sum_range, ← Finset.sum_range_reflect]
    apply Finset.sum_congr rfl
    intro j hj
    have := Finset.mem_range.1 hj
    show ((ds.getD (l - 1 - (l - 1 - j)) 0 : Int) : BitVec w) * _ = _
    rw [hval j this, show l - 1 - (l - 1 - j) = j by omega, show l - 1 - j + 1 = l - j by omega]

/-- C16. Keyswitching any ciphertext of dimension `n` with a key whose row `(i, k)` encrypts
`s_i · 2^(w - b(k+1))` with noise `e i k`: the result has phase
`phase_s(before) + Σ_i s_i (a_i - c_i) - Σ_{i,k} d_{i,k} e_{i,k}`, where `c_i` is a representable value
nearest to the mask element `a_i` and the `d_{i,k}` are its signed digits. -/
theorem C16_keyswitch (b l : Nat) (hv : ValidParams w b l) (s s' ksk after before : List (BitVec w))
    (e : Nat → Nat → BitVec w) (hk : ksk.length = s.length * (l * (s'.length + 1)))
    (hrow : ∀ i, i < s.length → ∀ k, k < l → phase s' (block (s'.length + 1) ksk (i * l + k)) =
      s.getD i 0 * ((2 ^ (w - b * (k + 1)) : Nat) : BitVec w) + e i k)
    (ha : Fits s' after) (hb : Fits s before) :
    ∃ (r : List (BitVec w)) (c : Nat → BitVec w) (d : Nat → Nat → Int),
      keyswitchCiphertext b l (s'.length + 1) ksk after before = some r ∧ Fits s' r ∧
      (∀ i, i < s.length → Representable b l (c i) ∧
        -(2 ^ (w - b * l - 1) : Int) ≤ signedDiff (before.getD i 0) (c i) ∧
        signedDiff (before.getD i 0) (c i) < 2 ^ (w - b * l - 1)) ∧
      (∀ i, i < s.length →
        ∑ k ∈ Finset.range l, ((d i k : Int) : BitVec w) * ((2 ^ (w - b * (k + 1)) : Nat) : BitVec w) = c i) ∧
      (∀ i k, i < s.length → k < l → -(2 ^ (b - 1) : Int) ≤ d i k ∧ d i k ≤ 2 ^ (b - 1)) ∧
      phase s' r = phase s before +
        ∑ i ∈ Finset.range s.length, s.getD i 0 * (before.getD i 0 - c i) -
        ∑ i ∈ Finset.range s.length, ∑ k ∈ Finset.range l, ((d i k : Int) : BitVec w) * e i k := by
  obtain ⟨mask, body, rfl, hm⟩ := exists_split hb
  obtain ⟨r, hr, hf, hp⟩ := keyswitch_phase b l hv.level s.length s' ksk after mask body hk ha hm
  have hmask : ∀ i, i < s.length → (mask ++ [body]).getD i 0 = mask.getD i 0 := by
    intro i hi
    simp only [List.getD_eq_getElem?_getD, List.getElem?_append_left (show i < mask.length by omega)]
  choose d hd1 hd2 hd3 using fun i : Nat => ksDigit_spec b l hv (mask.getD i 0)
  refine ⟨r, fun i => closestRepresentable b l (mask.getD i 0), d, hr, hf, ?_, fun i _ => hd3 i,
    fun i k _ hk' => hd1 i k hk', ?_⟩
  · intro i hi
    rw [hmask i hi]
    exact closest_signed b l hv _
  · rw [hp, phase]
    have hbody : (mask ++ [body]).getD s.length 0 = body := by
      simp [List.getD_eq_getElem?_getD, ← hm]
    have hin : ∀ i ∈ Finset.range s.length, (mask ++ [body]).getD i 0 * s.getD i 0 =
        mask.getD i 0 * s.getD i 0 := fun i hi => by rw [hmask i (Finset.mem_range.1 hi)]
    have hin2 : ∀ i ∈ Finset.range s.length,
        s.getD i 0 * ((mask ++ [body]).getD i 0 - closestRepresentable b l (mask.getD i 0)) =
        mask.getD i 0 * s.getD i 0 - s.getD i 0 * closestRepresentable b l (mask.getD i 0) :=
      fun i hi => by rw [hmask i (Finset.mem_range.1 hi)]; ring
    rw [hbody, Finset.sum_congr rfl hin, Finset.sum_congr rfl hin2, Finset.sum_sub_distrib]
    have hsum : ∀ i ∈ Finset.range s.length,
        ∑ j ∈ Finset.range l, phase s' (block (s'.length + 1) ksk (i * l + (l - 1 - j))) *
          ksDigit b l (mask.getD i 0) j =
        s.getD i 0 * closestRepresentable b l (mask.getD i 0) +
          ∑ k ∈ Finset.range l, ((d i k : Int) : BitVec w) * e i k := by
      intro i hi
      rw [← Finset.sum_range_reflect]
      have : ∀ k ∈ Finset.range l,
          phase s' (block (s'.length + 1) ksk (i * l + (l - 1 - (l - 1 - k)))) *
            ksDigit b l (mask.getD i 0) (l - 1 - k) =
          s.getD i 0 * (((d i k : Int) : BitVec w) * ((2 ^ (w - b * (k + 1)) : Nat) : BitVec w)) +
            ((d i k : Int) : BitVec w) * e i k := by
        intro k hk'
        have hk'' := Finset.mem_range.1 hk'
        rw [show l - 1 - (l - 1 - k) = k by omega, hrow i (Finset.mem_range.1 hi) k hk'',
          hd2 i (l - 1 - k) (by omega), show l - 1 - (l - 1 - k) = k by omega]
        ring
      rw [Finset.sum_congr rfl this, Finset.sum_add_distrib, ← Finset.mul_sum, hd3 i]
    rw [Finset.sum_congr rfl hsum, Finset.sum_add_distrib]
    ring

/-- C16, error bound: with a binary input key and key noises at most `B` in absolute value, the
keyswitch changes the phase by an integer of absolute value at most
`n · 2^(w-bl-1) + n · l · 2^(b-1) · B`. In particular with a noiseless key (`B = 0`) the error is at
most `n · 2^(w-bl-1)`. -/
theorem C16_error_bound (b l : Nat) (hv : ValidParams w b l) (s s' ksk after before : List (BitVec w))
    (e : Nat → Nat → Int) (B : Nat) (hk : ksk.length = s.length * (l * (s'.length + 1)))
    (hrow : ∀ i, i < s.length → ∀ k, k < l → phase s' (block (s'.length + 1) ksk (i * l + k)) =
      s.getD i 0 * ((2 ^ (w - b * (k + 1)) : Nat) : BitVec w) + ((e i k : Int) : BitVec w))
    (he : ∀ i, i < s.length → ∀ k, k < l → |e i k| ≤ B)
    (hs : BinaryKey s) (ha : Fits s' after) (hb : Fits s before) :
    ∃ (r : List (BitVec w)) (E : Int),
      keyswitchCiphertext b l (s'.length + 1) ksk after before = some r ∧ Fits s' r ∧
      phase s' r = phase s before + (E : BitVec w) ∧
      |E| ≤ s.length * 2 ^ (w - b * l - 1) + s.length * l * 2 ^ (b - 1) * B := by
  obtain ⟨r, c, d, hr, hf, hc, -, hd, hp⟩ := C16_keyswitch b l hv s s' ksk after before
    (fun i k => ((e i k : Int) : BitVec w)) hk hrow ha hb
  have hbit : ∀ i, ∃ t : Int, (t = 0 ∨ t = 1) ∧ s.getD i 0 = (t : BitVec w) := by
    intro i
    by_cases hi : i < s.length
    · have : s.getD i 0 ∈ s := by
        simp [List.getD_eq_getElem?_getD, List.getElem?_eq_getElem hi]
      rcases hs _ this with h | h
      · exact ⟨0, Or.inl rfl, by rw [h]; simp⟩
      · exact ⟨1, Or.inr rfl, by rw [h]; simp⟩
    · exact ⟨0, Or.inl rfl, by
        simp [List.getD_eq_getElem?_getD, List.getElem?_eq_none (show s.length ≤ i by omega)]⟩
  choose t ht1 ht2 using hbit
  refine ⟨r, ∑ i ∈ Finset.range s.length, t i * signedDiff (before.getD i 0) (c i) -
    ∑ i ∈ Finset.range s.length, ∑ k ∈ Finset.range l, d i k * e i k, hr, hf, ?_, ?_⟩
  · rw [hp]
    push_cast
    rw [add_sub_assoc]
    congr 2
    apply Finset.sum_congr rfl
    intro i _
    rw [ht2 i, signedDiff, BV.intCast_toInt]
  · have h1 : |∑ i ∈ Finset.range s.length, t i * signedDiff (before.getD i 0) (c i)| ≤
        s.length * 2 ^ (w - b * l - 1) := by
      calc _ ≤ ∑ i ∈ Finset.range s.length, |t i * signedDiff (before.getD i 0) (c i)| :=
            Finset.abs_sum_le_sum_abs _ _
        _ ≤ ∑ i ∈ Finset.range s.length, (2 ^ (w - b * l - 1) : Int) := by
            apply Finset.sum_le_sum
            intro i hi
            obtain ⟨-, hl, hu⟩ := hc i (Finset.mem_range.1 hi)
            have hpos : (0 : Int) ≤ 2 ^ (w - b * l - 1) := by positivity
            rcases ht1 i with h | h
            · rw [h]; simpa using hpos
            · rw [h, one_mul, abs_le]; exact ⟨hl, hu.le⟩
        _ = _ := by simp
    have h2 : |∑ i ∈ Finset.range s.length, ∑ k ∈ Finset.range l, d i k * e i k| ≤
        s.length * l * 2 ^ (b - 1) * B := by
      calc _ ≤ ∑ i ∈ Finset.range s.length, |∑ k ∈ Finset.range l, d i k * e i k| :=
            Finset.abs_sum_le_sum_abs _ _
        _ ≤ ∑ i ∈ Finset.range s.length, ∑ k ∈ Finset.range l, (2 ^ (b - 1) * B : Int) := by
            apply Finset.sum_le_sum
            intro i hi
            refine (Finset.abs_sum_le_sum_abs _ _).trans ?_
            apply Finset.sum_le_sum
            intro k hk'
            rw [abs_mul]
            have h3 := hd i k (Finset.mem_range.1 hi) (Finset.mem_range.1 hk')
            have h4 := he i (Finset.mem_range.1 hi) k (Finset.mem_range.1 hk')
            exact mul_le_mul (abs_le.2 h3) h4 (abs_nonneg _) (by positivity)
        _ = _ := by simp; ring
    exact (abs_sub _ _).trans (add_le_add h1 h2)

/-- C16, end to end: generate a keyswitching key from `s` to `s'` and use it on any ciphertext. The
generation draws `n · l` noises; the phase changes by the rounding error of the mask minus the digits
times these noises. -/
theorem C16_generated_key (f : GaussianFn w) (b l : Nat) (hv : ValidParams w b l)
    (s s' ksk0 ksk after before : List (BitVec w)) (g g' : EncGen)
    (hk : ksk0.length = s.length * (l * (s'.length + 1)))
    (hgen : fillKeyswitchKey f s s' b l (s'.length + 1) ksk0 g = some (ksk, g'))
    (ha : Fits s' after) (hb : Fits s before) :
    ∃ (es r : List (BitVec w)) (c : Nat → BitVec w) (d : Nat → Nat → Int),
      rep (s.length * l) (randomNoise f) g.noise = some (es, g'.noise) ∧
      keyswitchCiphertext b l (s'.length + 1) ksk after before = some r ∧ Fits s' r ∧
      (∀ i, i < s.length → Representable b l (c i) ∧
        -(2 ^ (w - b * l - 1) : Int) ≤ signedDiff (before.getD i 0) (c i) ∧
        signedDiff (before.getD i 0) (c i) < 2 ^ (w - b * l - 1)) ∧
      (∀ i k, i < s.length → k < l → -(2 ^ (b - 1) : Int) ≤ d i k ∧ d i k ≤ 2 ^ (b - 1)) ∧
      phase s' r = phase s before +
        ∑ i ∈ Finset.range s.length, s.getD i 0 * (before.getD i 0 - c i) -
        ∑ i ∈ Finset.range s.length, ∑ k ∈ Finset.range l,
          ((d i k : Int) : BitVec w) * es.getD (i * l + k) 0 := by
  obtain ⟨es, he, hlen, hrow⟩ := fillKsk_spec hv.level hk hgen
  obtain ⟨r, c, d, h1, h2, h3, -, h4, h5⟩ := C16_keyswitch b l hv s s' ksk after before
    (fun i k => es.getD (i * l + k) 0) hlen hrow ha hb
  exact ⟨es, r, c, d, he, h1, h2, h3, h4, h5⟩

/-- C16 is not vacuous: width 16, base `2^4`, two levels, from a key of dimension 2 to a key of
dimension 1. The generation succeeds and the keyswitched ciphertext decrypts close to the original
phase (`0x5000`); the parameters are valid. -/
example :
    let f : GaussianFn 16 := { accept := fun _ _ => true, value := fun _ _ => (1#16, 0#16) }
    let g : EncGen := { mask := ⟨fun p => BitVec.ofNat 8 (p * p + 7), 1, 1000⟩, noise := ⟨fun _ => 1#8, 1, 1000⟩ }
    let s := [1#16, 1#16]
    let s' := [1#16]
    ((fillKeyswitchKey f s s' 4 2 2 (List.replicate 8 0#16) g).bind fun k =>
      keyswitchCiphertext 4 2 2 k.1 [0#16, 0#16] [0x1234#16, 0x0f81#16, 0x71b5#16]).bind
        (fun r => decryptLwe s' r) = some 0x4fb1#16 ∧
    phase s [0x1234#16, 0x0f81#16, 0x71b5#16] = 0x5000#16 ∧ ValidParams 16 4 2 := by
  refine ⟨by decide +kernel, by decide, ⟨by omega, by omega, by omega⟩⟩

end Verif.Lwe
