import Verif.Cuda.Props16
/-
C87, continued: the indexes of the tables of the circuit bootstrap, the cases that the code does not handle, and the
memory of the bit extraction and of the whole wop-PBS.
-/
namespace Verif.Cuda.Wm
open Verif Verif.Wop

/-- The array of the indexes ends at the end of the buffer, except for the padding. -/
theorem indexes_end (T N k n l logN r tau sm luts blocks tree total : Nat) (hT : T = 4 ∨ T = 8) (hN : N ∈ pbsSizes)
    (hlog : logN < 2 ^ 31) (hr : r < 31) (htree : treeSize T N k l r tau sm = some tree)
    (htotal : totalSize T N k n l logN (r + logN) tau sm = some total) :
    (region T N k n l (r + logN) r tau sm luts blocks tree .indexes).start + T * ((r + logN) * l) +
      T * ((r + logN) * l) % 16 = total := by
  obtain ⟨m, hm, hm0, -⟩ := pbsSizes_mod hN
  obtain ⟨c1, c2, c3, c4, c5, c6⟩ := cmux_bytes T N k m hT hm
  have hlc : Vp.layerCount (r + logN) logN = r := by rw [Vp.layerCount]; omega
  rw [totalSize, hlc, htree] at htotal
  simp only [Option.map_some, Option.some.injEq] at htotal
  have dfft : 16 ∣ fftBytes N sm := by rw [fftBytes, hm]; split_ifs <;> omega
  have drb : 16 ∣ rotateBlocks T N k tau sm := by
    rw [rotateBlocks]; split_ifs
    · exact Dvd.dvd.mul_right c5 _
    · exact ⟨0, rfl⟩
  have eg : ∀ s x, x * ggswBytes s N k l = 16 * (x * (s * (l * ((k + 1) * ((k + 1) * m))))) := fun s x => by
    rw [ggswBytes, hm]; ring
  have et : ∀ x, x * ((k + 1) * N) = 16 * (x * ((k + 1) * m)) := fun x => by rw [hm]; ring
  rw [← htotal]
  simp only [show r + logN - r = logN by omega, region, rotateSize, cbsVpSize, ggswStart, eg, et, pad]
  generalize cbsBytes T N k n l (r + logN) = c
  generalize (r + logN) * (T * (l * ((k + 1) * ((k + 1) * m)))) = g
  generalize logN * (8 * (l * ((k + 1) * ((k + 1) * m)))) = rf
  generalize tau * ((k + 1) * m) = t2
  generalize amortizedScratch T N k ((r + logN) * l) sm = A at *
  generalize (r + logN) * l = count
  generalize fftBytes N sm = ff at *
  generalize rotateBlocks T N k tau sm = rb at *
  clear eg et htree hlc c1 c2 c3 c4 c5 c6 hN hm hm0 hr hlog htotal
  rcases hT with rfl | rfl <;> omega

/-- C87, the indexes: if the indexes fill a multiple of 16 bytes, the circuit bootstrap of the host function finds index
`z % l` for the table of each bootstrap `z`, as C86 asks. -/
theorem C87_indexes_partial (T N k n l logN r tau sm luts blocks tree total : Nat) (buf : Nat → Nat)
    (hT : T = 4 ∨ T = 8) (hN : N ∈ pbsSizes) (hlog : logN < 2 ^ 31) (hr : r < 31)
    (htree : treeSize T N k l r tau sm = some tree)
    (htotal : totalSize T N k n l logN (r + logN) tau sm = some total) (h16 : 16 ∣ T * ((r + logN) * l)) (z : Nat)
    (hz : z < (r + logN) * l) :
    withIndexes T l (r + logN) total buf
      ((region T N k n l (r + logN) r tau sm luts blocks tree .indexes).start + T * z) = z % l := by
  have h1 := indexes_end T N k n l logN r tau sm luts blocks tree total hT hN hlog hr htree htotal
  generalize (region T N k n l (r + logN) r tau sm luts blocks tree .indexes).start = s at *
  have h2 : T * z + T ≤ T * ((r + logN) * l) := by
    calc T * z + T = T * (z + 1) := by ring
      _ ≤ _ := Nat.mul_le_mul_left _ hz
  have h3 : 0 < T := by omega
  simp only [withIndexes]
  generalize T * ((r + logN) * l) = q at *
  rw [show total - q = s by omega, show s + T * z - s = T * z by omega, Nat.mul_mod_right, Nat.mul_div_cancel_left _ h3,
    if_pos ⟨by omega, by omega, rfl⟩]

/-- C87 fails otherwise: the scratch function writes the indexes `d` words after the place where the host function reads
them. The first `d` bootstraps use an index that was never written, and bootstrap `z + d` uses the index of bootstrap
`z`, a wrong one if `d` is not a multiple of the number of levels. -/
theorem C87_indexes_violated (T N k n l logN r tau sm luts blocks tree total d : Nat) (buf : Nat → Nat)
    (hT : T = 4 ∨ T = 8) (hN : N ∈ pbsSizes) (hlog : logN < 2 ^ 31) (hr : r < 31)
    (htree : treeSize T N k l r tau sm = some tree)
    (htotal : totalSize T N k n l logN (r + logN) tau sm = some total) (hd : T * ((r + logN) * l) % 16 = T * d) :
    (∀ z, z < d → withIndexes T l (r + logN) total buf
      ((region T N k n l (r + logN) r tau sm luts blocks tree .indexes).start + T * z) =
        buf ((region T N k n l (r + logN) r tau sm luts blocks tree .indexes).start + T * z)) ∧
    (∀ z, z < (r + logN) * l → withIndexes T l (r + logN) total buf
      ((region T N k n l (r + logN) r tau sm luts blocks tree .indexes).start + T * (z + d)) = z % l) ∧
    (¬ l ∣ d → ∀ z, z % l ≠ (z + d) % l) := by
  have h1 := indexes_end T N k n l logN r tau sm luts blocks tree total hT hN hlog hr htree htotal
  generalize (region T N k n l (r + logN) r tau sm luts blocks tree .indexes).start = s at *
  have h3 : 0 < T := by omega
  rw [hd] at h1
  refine ⟨fun z hz => ?_, fun z hz => ?_, fun hl z he => hl ?_⟩
  · have h2 : T * z + T ≤ T * d := by
      calc T * z + T = T * (z + 1) := by ring
        _ ≤ _ := Nat.mul_le_mul_left _ hz
    simp only [withIndexes]
    generalize T * ((r + logN) * l) = q at *
    rw [if_neg (by omega)]
  · have h2 : T * z + T ≤ T * ((r + logN) * l) := by
      calc T * z + T = T * (z + 1) := by ring
        _ ≤ _ := Nat.mul_le_mul_left _ hz
    simp only [withIndexes, Nat.mul_add]
    generalize T * ((r + logN) * l) = q at *
    rw [show s + (T * z + T * d) - (total - q) = T * z by omega, Nat.mul_mod_right, Nat.mul_div_cancel_left _ h3,
      if_pos ⟨by omega, by omega, rfl⟩]
  · have := (Nat.modEq_iff_dvd' (Nat.le_add_right z d)).1 he
    rwa [Nat.add_sub_cancel_left] at this

/-- C87 fails for as many bits as a polynomial has coefficients in `log2` if the shared memory is too small for a CMUX, and
for fewer bits: the sizes need a shift by a number that is not below 31. -/
theorem C87_no_layer_violated (T N k n l logN inputs tau sm : Nat) (hlog : logN < 2 ^ 31) :
    (sm < cmuxBytes T N k → totalSize T N k n l logN logN tau sm = none) ∧
    (inputs < logN → totalSize T N k n l logN inputs tau sm = none) := by
  constructor
  · intro h
    have h1 : Vp.layerCount logN logN = 0 := by rw [Vp.layerCount]; omega
    simp [totalSize, h1, treeSize, treeBlocks, if_pos h, shl1]
  · intro h
    have h1 : ¬ Vp.layerCount inputs logN < 31 := by rw [Vp.layerCount]; omega
    simp [totalSize, treeSize, shl1, h1]

/-- C87 fails for 32-bit words if the size of the first part is not a multiple of 8: the array of the transformed GGSWs, of
elements of 16 bytes, starts at an address that is not a multiple of 16. -/
theorem C87_alignment_32_violated (N k n l inputs r tau sm luts blocks tree : Nat) (hN : N ∈ pbsSizes)
    (hk : (k + 1) * N < 2 ^ 32) (h4 : cbsBytes 4 N k n l inputs % 8 = 4) :
    ¬ (region 4 N k n l inputs r tau sm luts blocks tree .treeFft).Aligned := by
  obtain ⟨m, hm, hm0, -⟩ := pbsSizes_mod hN
  have hA := amortized_dvd 4 N k (inputs * l) sm (Or.inl rfl) hN hk
  have eg : inputs * ggswBytes 4 N k l = 16 * (inputs * (4 * (l * ((k + 1) * ((k + 1) * m))))) := by
    rw [ggswBytes, hm]; ring
  simp only [Region.Aligned, region, ggswStart, pad, eg]
  omega

/-- C87 fails if the shared memory is too small for a transform: the transform of the GGSWs uses the content of a byte as an
address. The address is then not in the buffer, nor in any other memory that does not contain the first or last 128
bytes of the address space. -/
theorem C87_fft_memory_violated (bytes : BitVec 64 → BitVec 8) (deviceMem : BitVec 64) (b N base size : Nat)
    (h1 : 128 ≤ base) (h2 : base + size ≤ 2 ^ 64 - 128) :
    ¬ (base ≤ (fftAddress bytes deviceMem b N).toNat ∧ (fftAddress bytes deviceMem b N).toNat < base + size) := by
  rw [fftAddress]
  generalize bytes _ = v
  rw [BitVec.toNat_signExtend]
  have hv := v.isLt
  rw [BitVec.toNat_setWidth]
  rw [Nat.mod_eq_of_lt (by omega)]
  cases hmsb : v.msb
  · have := BitVec.msb_eq_false_iff_two_mul_lt.1 hmsb
    simp only [Bool.false_eq_true, if_false]
    omega
  · have := BitVec.msb_eq_true_iff_two_mul_ge.1 hmsb
    simp only [if_true]
    omega

/-! ### The bit extraction and the whole wop-PBS -/

theorem low_dvd (T N k l n sm : Nat) (hT : T = 4 ∨ T = 8) (hN : N ∈ pbsSizes) (hk : (k + 1) * l * n * N < 2 ^ 32)
    (hl : 0 < l) (hn : 0 < n) : 16 ∣ lowScratch T N k l n sm := by
  obtain ⟨P, F, D, dP, dF, -, -, -, -, hs, -, hD⟩ := low_layout T N k l n sm hT hN hk hl hn
  rw [hs]
  refine Dvd.dvd.add (Dvd.dvd.mul_right ?_ _) (Dvd.dvd.mul_right dF _)
  rcases hD with ⟨-, h, -⟩ | ⟨-, h, -⟩ | ⟨-, h, -⟩ <;> omega

/-- C87, the bit extraction of one ciphertext: its arrays lie inside the allocated buffer, are aligned and do not overlap. -/
theorem C87_extract_partial (T N k n lb sm : Nat) (hT : T = 4 ∨ T = 8) (hN : N ∈ pbsSizes)
    (hk : (k + 1) * lb * 1 * N < 2 ^ 32) (hl : 0 < lb) :
    (∀ a, (extractRegion T N k n lb 1 sm a).Inside (extractPart T N k n lb 1 sm) 0 ∧
      (extractRegion T N k n lb 1 sm a).Aligned) ∧
    ∀ a a', a ≠ a' → (extractRegion T N k n lb 1 sm a).Apart (extractRegion T N k n lb 1 sm a') := by
  have hd := low_dvd T N k lb 1 sm hT hN hk hl (by norm_num)
  simp only [extractRegion, extractPart, extractSize, pad, Nat.one_mul, Nat.mul_one]
  generalize lowScratch T N k lb 1 sm = L at *
  generalize (k + 1) * N = a
  generalize k * N + 1 = b
  generalize n + 1 = c
  constructor
  · intro x
    rcases hT with rfl | rfl <;> cases x <;> simp only [Region.Inside, Region.Aligned] <;> omega
  · intro x y hxy
    rcases hT with rfl | rfl <;> cases x <;> cases y <;>
      first | exact absurd rfl hxy | (simp only [Region.Apart]; right; omega)

/-- C87 fails for more ciphertexts, which the bit extraction of the library takes as a parameter: the bootstrap writes its
outputs over the indexes of the tables and beyond the end of the buffer. -/
theorem C87_extract_violated (T N k n lb samples sm : Nat) (hT : T = 4 ∨ T = 8) (hN : N ∈ pbsSizes)
    (hk : (k + 1) * lb * samples * N < 2 ^ 32) (hl : 0 < lb) (hk0 : 0 < k) (hs : 2 ≤ samples) :
    ¬ (extractRegion T N k n lb samples sm .pbs).Inside (extractPart T N k n lb samples sm) 0 ∧
    ¬ (extractRegion T N k n lb samples sm .pbs).Apart (extractRegion T N k n lb samples sm .indexes) := by
  have hd := low_dvd T N k lb samples sm hT hN hk hl (by omega)
  have h256 : 256 ≤ k * N := by
    have : 256 ≤ N := by
      simp only [pbsSizes, List.mem_cons, List.not_mem_nil, or_false] at hN
      omega
    calc 256 ≤ N := this
      _ ≤ k * N := Nat.le_mul_of_pos_left N hk0
  obtain ⟨q, rfl⟩ : ∃ q, samples = q + 2 := ⟨samples - 2, by omega⟩
  have e : (q + 2) * (k * N + 1) = q * (k * N + 1) + 2 * (k * N + 1) := by ring
  have e2 : 2 * q ≤ q * (k * N + 1) := by
    rw [Nat.mul_comm]; exact Nat.mul_le_mul_left q (by omega)
  simp only [extractRegion, extractPart, extractSize, pad, e, Region.Inside, Region.Apart]
  generalize lowScratch T N k lb (q + 2) sm = L at *
  generalize q * (k * N + 1) = Q at *
  generalize (k + 1) * N = a
  generalize k * N = b at *
  rcases hT with rfl | rfl <;>
    exact ⟨by omega, by rintro (h | h | h); exacts [h rfl, by omega, by omega]⟩

/-- C87, the wop-PBS: the scratch function and the host function agree on the place of the part of the circuit bootstrap.
The bit extraction needs a table whose masks are zero, which nothing writes but the scratch function: it does if the
output of the bit extraction is not larger than the memory of the bootstrap. -/
theorem C87_wop_partial (T N k n lb bits inputs sm : Nat)
    (h : wopSize T n bits ≤ lutStart T N k lb inputs sm) :
    cbsVpScratch T N k n lb bits inputs sm = cbsVpHost T N k n lb bits inputs sm ∧
    ∀ i, i < T * (k * N) → zeroed T N k n lb bits inputs sm (lutStart T N k lb inputs sm + i) := by
  refine ⟨by rw [cbsVpScratch, cbsVpHost]; omega, fun i hi => ⟨by omega, ?_⟩⟩
  have e : T * ((k + 1) * N) = T * (k * N) + T * N := by ring
  have h1 : lutStart T N k lb inputs sm ≤ lowScratch T N k lb inputs sm := by
    rw [lutStart]; exact Nat.mul_div_le _ _
  rw [extractPart, extractSize, pad, e]
  generalize T * (k * N) = a at *
  omega

/-- C87 fails otherwise: the first bytes of the masks keep what was in the memory before. With 10 bits, an LWE dimension of
1000, a bootstrap key of 3 levels and polynomials of 1024 coefficients, no byte of the masks is set to zero. -/
theorem C87_wop_violated (T N k n lb bits inputs sm : Nat) (h : lutStart T N k lb inputs sm < wopSize T n bits) :
    ¬ zeroed T N k n lb bits inputs sm (lutStart T N k lb inputs sm) ∧
    ∀ i, i < 8 * (1 * 1024) → ¬ zeroed 8 1024 1 1000 3 10 1 49152 (lutStart 8 1024 1 3 1 49152 + i) := by
  refine ⟨fun hz => ?_, fun i hi hz => ?_⟩
  · have := hz.1
    omega
  · have h1 := hz.1
    rw [show wopSize 8 1000 10 = 80080 by decide +kernel, show lutStart 8 1024 1 3 1 49152 = 49152 by decide +kernel] at h1
    omega

/-! ### Examples: the hypotheses are met by concrete parameters -/

example : (1024 : Nat) ∈ pbsSizes ∧ (1 + 1) * 1024 < 2 ^ 32 ∧ ¬ 49152 < cmuxBytes 8 1024 1 ∧ 49152 < cmuxBytes 8 2048 1 := by
  decide +kernel

-- 12 bits, 4 tables, with 4 levels: everything fits, and the indexes fill 384 bytes
example : treeSize 8 1024 1 4 2 4 49152 = some 786432 ∧
    totalSize 8 1024 1 600 4 10 (2 + 10) 4 49152 = some 7867264 ∧ 16 ∣ 8 * ((2 + 10) * 4) := by
  decide +kernel

-- 11 bits with 3 levels: the indexes are one word too late
example : totalSize 8 1024 1 600 3 10 (1 + 10) 1 49152 = some 4960240 ∧ 8 * ((1 + 10) * 3) % 16 = 8 * 1 ∧ ¬ 3 ∣ 1 := by
  decide +kernel

example : cbsBytes 4 1024 1 601 3 11 % 8 = 4 := by decide +kernel

example : 49152 < 8 * 8192 ∧ (8192 : Nat) ∈ pbsSizes := by decide +kernel

example : wopSize 8 500 5 ≤ lutStart 8 1024 1 3 1 49152 ∧ lutStart 8 1024 1 3 1 49152 < wopSize 8 1000 10 := by
  decide +kernel

end Verif.Cuda.Wm
