import Verif.Cuda.NsmFinal
import Verif.Cuda.Props11
/-
C83: the Fourier transform of the GPU in double precision. With every choice of fused operations by the compiler, a sum
of products of polynomials of the key and of digits is added to the output with an error that is bounded by an explicit
formula; hence the bootstraps of C80 and C81 hold of the code of the GPU without a hypothesis on its transform.
-/
namespace Verif.Cuda.Nsm
open Verif.Float Verif.Fft Finset Verif.Poly Verif.Ntt Verif.BV Verif.Cuda.Am Verif.Cuda.Grid Verif.Pbs Verif.Glwe Verif.Decomp

variable {w : Nat}

theorem const_small (M : Nat) (hM : M ≤ 2 ^ 40) : (1 : ℝ) / 2 ^ 44 + (M + 1) / 2 ^ 48 ≤ 1 / 100 := by
  have h : (M : ℝ) ≤ 2 ^ 40 := by exact_mod_cast hM
  have h2 : ((M : ℝ) + 1) / 2 ^ 48 ≤ (2 ^ 40 + 1) / 2 ^ 48 := div_le_div_of_nonneg_right (by linarith) (by positivity)
  refine (add_le_add_right h2 _).trans ?_
  norm_num

/-- C83: for words of 32 and 64 bits, all sizes `N = 2^(K+2)` up to 8192 (those of the table of constants), every choice
`ch` of the fused operations, every number `M` of products and every bound `D` of the digits: the GPU adds to the output
the sum of at most `M` negacyclic products, the additions being in any order, with an error of at most `gpuError w N M D`
units in the last place on each coefficient. -/
theorem C83_products (hw : w = 32 ∨ w = 64) (ch : Contract) (K : Nat) (hK : K + 2 ≤ 13) (M : Nat) (hM : 1 ≤ M)
    (hM2 : M ≤ 2 ^ 40) (D : ℤ) (hD : 1 ≤ D) (hD2 : D ≤ 2 ^ 64) (B : ℤ) (hB : gpuError w (2 ^ (K + 2)) M D ≤ B) :
    (gpuTransform w ch (2 ^ (K + 1))).Accurate (2 ^ (K + 2)) M D B :=
  gpu_accurate hw ch K (by omega) M hM (const_small M hM2) D hD hD2 B hB

/-- What the formula gives: `N = 1024`, six products, digits of at most 64, 32-bit words. Of this, `393216` comes from
the use of `2^32 - 1` in the place of `2^32`. -/
theorem gpuError_32 : gpuError 32 1024 6 64 ≤ 394629 := by
  rw [gpuError, if_pos rfl]; norm_num

/-- `N = 2048`, six products, digits of at most `2^22`, 64-bit words: an error of less than `2^-4` of the torus. -/
theorem gpuError_64 : gpuError 64 2048 6 (2 ^ 22) ≤ 2 ^ 60 := by
  rw [gpuError, if_neg (by decide)]; norm_num

example (ch : Contract) : (gpuTransform 32 ch 512).Accurate 1024 6 64 394629 :=
  C83_products (.inl rfl) ch 8 (by omega) 6 (by norm_num) (by norm_num) 64 (by norm_num) (by norm_num) 394629
    (by exact_mod_cast gpuError_32)

example (ch : Contract) : (gpuTransform 64 ch 1024).Accurate 2048 6 (2 ^ 22) (2 ^ 60) :=
  C83_products (.inr rfl) ch 9 (by omega) 6 (by norm_num) (by norm_num) (2 ^ 22) (by norm_num) (by norm_num) (2 ^ 60)
    (by exact_mod_cast gpuError_64)

theorem level_le {w b l : Nat} (h : ValidParams w b l) : b ≤ w := by
  have := h.fits
  have h1 := h.level
  have : b * 1 ≤ b * l := Nat.mul_le_mul_left _ h1
  omega

theorem digit_bounds {w b l : Nat} (hw : w = 32 ∨ w = 64) (h : ValidParams w b l) :
    (1 : ℤ) ≤ 2 ^ (b - 1) ∧ (2 : ℤ) ^ (b - 1) ≤ 2 ^ 64 := by
  have := level_le h
  refine ⟨one_le_pow₀ (by norm_num), pow_le_pow_right₀ (by norm_num) ?_⟩
  rcases hw with rfl | rfl <;> omega

theorem addBack_length (w : Nat) (ch : Contract) (K : Nat) (p : List (BitVec w)) (e : (gpuTransform w ch (2 ^ (K + 1))).E) :
    ((gpuTransform w ch (2 ^ (K + 1))).addBack p e).length = 2 ^ (K + 2) := by
  show (addToTorus ch _ _ _).length = _
  rw [addToTorus, List.length_map, List.length_range]; ring

/-- C83: the amortized bootstrap of the GPU on 32-bit words, with its own Fourier transform: if the plaintext of the
table is `y` at every position within `(1 + weight) / 2` steps of the phase of the input, the result is a ciphertext of
`y` up to `n` times the error of a CMUX with `B`, the error of the transform. -/
theorem C83_amortized_32 (ch : Contract) (K k b l : Nat) (hK : K + 2 ≤ 13) (hkl : l * (k + 1) ≤ 2 ^ 40)
    (B S E : Int) (hB : gpuError 32 (2 ^ (K + 2)) (l * (k + 1)) (2 ^ (b - 1)) ≤ B) (h : ValidParams 32 b l)
    (hS0 : 0 ≤ S) (lweKey key bsk lut v lweIn lweOut : List (BitVec 32))
    (hk : KeyFits (2 ^ (K + 2)) k key) (hS : KeyBound S key) (hs : Lwe.BinaryKey lweKey)
    (hbsk : BskEnc (2 ^ (K + 2)) k b l lweKey key bsk E)
    (hlut : CtFits (2 ^ (K + 2)) k lut) (hv : v.length = 2 ^ (K + 2))
    (hphase : glwePhase (2 ^ (K + 2)) k key lut = toRq (2 ^ (K + 2)) v)
    (hin : Lwe.Fits lweKey lweIn) (hout : lweOut.length = k * 2 ^ (K + 2) + 1) (y : BitVec 32)
    (hy : ∀ d, d < 2 * 2 ^ (K + 2) → |((d * 2 ^ (31 - (K + 2)) : Nat) - Lwe.phase lweKey lweIn : BitVec 32).toInt| ≤
        (1 + weight lweKey) * 2 ^ (30 - (K + 2)) → ext (2 ^ (K + 2)) v d = y) :
    let T := (gpuTransform 32 ch (2 ^ (K + 1))).toTransform
    ∃ r, bootstrap T (2 ^ (K + 2)) k b l (convert T (2 ^ (K + 2)) bsk) lut lweIn lweOut = some r ∧ Lwe.Fits key r ∧
      |(Lwe.phase key r - y).toInt| ≤ lweKey.length * epBound 32 (2 ^ (K + 2)) k b l S E B 1 := by
  have hd := digit_bounds (.inl rfl) h
  have hM : 1 ≤ l * (k + 1) := Nat.mul_pos h.level (by omega)
  exact C80_lookup_32 _ (2 ^ (K + 2)) k b l (K + 2) rfl (by omega) (2 ^ (b - 1)) B S E
    (C83_products (.inl rfl) ch K hK _ hM hkl _ hd.1 hd.2 B (by exact_mod_cast hB)).toTransform le_rfl h hS0 lweKey key bsk
    lut v lweIn lweOut hk hS hs hbsk hlut hv hphase hin hout y hy

/-- C83: the amortized bootstrap of the GPU on 64-bit words. Missing for the full statement: the distance of the CPU
(C78) and bases of more than 31 bits (C79). -/
theorem C83_amortized_64_partial (ch : Contract) (K k b l : Nat) (hK : K + 2 ≤ 13) (hkl : l * (k + 1) ≤ 2 ^ 40)
    (hb : b ≤ 31) (B S E : Int) (hB : gpuError 64 (2 ^ (K + 2)) (l * (k + 1)) (2 ^ (b - 1)) ≤ B) (h : ValidParams 64 b l)
    (hS0 : 0 ≤ S) (lweKey key bsk lut v lweIn lweOut : List (BitVec 64))
    (hk : KeyFits (2 ^ (K + 2)) k key) (hS : KeyBound S key) (hs : Lwe.BinaryKey lweKey)
    (hbsk : BskEnc (2 ^ (K + 2)) k b l lweKey key bsk E)
    (hlut : CtFits (2 ^ (K + 2)) k lut) (hv : v.length = 2 ^ (K + 2))
    (hphase : glwePhase (2 ^ (K + 2)) k key lut = toRq (2 ^ (K + 2)) v)
    (hin : Lwe.Fits lweKey lweIn) (hout : lweOut.length = k * 2 ^ (K + 2) + 1) (y : BitVec 64)
    (hy : ∀ d, d < 2 * 2 ^ (K + 2) → |((d * 2 ^ (63 - (K + 2)) : Nat) - Lwe.phase lweKey lweIn : BitVec 64).toInt| ≤
        (1 + weight lweKey) * (2 ^ (62 - (K + 2)) + 2 ^ 10) → ext (2 ^ (K + 2)) v d = y) :
    let T := (gpuTransform 64 ch (2 ^ (K + 1))).toTransform
    ∃ r, bootstrap T (2 ^ (K + 2)) k b l (convert T (2 ^ (K + 2)) bsk) lut lweIn lweOut = some r ∧ Lwe.Fits key r ∧
      |(Lwe.phase key r - y).toInt| ≤ lweKey.length * epBound 64 (2 ^ (K + 2)) k b l S E B 1 := by
  have hd := digit_bounds (.inr rfl) h
  have hM : 1 ≤ l * (k + 1) := Nat.mul_pos h.level (by omega)
  exact C80_lookup_64_partial _ (2 ^ (K + 2)) k b l (K + 2) rfl (by omega) hb (2 ^ (b - 1)) B S E
    (C83_products (.inr rfl) ch K hK _ hM hkl _ hd.1 hd.2 B (by exact_mod_cast hB)).toTransform le_rfl h hS0 lweKey key bsk
    lut v lweIn lweOut hk hS hs hbsk hlut hv hphase hin hout y hy

/-- C83: the low-latency bootstrap of the GPU on 32-bit words, with its own Fourier transform. Missing for the full
statement: the schedules of C76 in which a block is overtaken. -/
theorem C83_low_latency_32_partial (ch : Contract) (K k b l m : Nat) (hK : K + 2 ≤ 13) (hkl : l * (k + 1) ≤ 2 ^ 40)
    (G : GpuTransform 32) (hG : G = gpuTransform 32 ch (2 ^ (K + 1)))
    (B S E : Int) (hB : gpuError 32 (2 ^ (K + 2)) (l * (k + 1)) (2 ^ (b - 1)) ≤ B) (h : ValidParams 32 b l)
    (hS0 : 0 ≤ S) (lweKey key bsk v lweOut : List (BitVec 32)) (lut lwe : Nat → List (BitVec 32))
    (hk : KeyFits (2 ^ (K + 2)) k key) (hS : KeyBound S key) (hs : Lwe.BinaryKey lweKey)
    (hbsk : BskEnc (2 ^ (K + 2)) k b l lweKey key bsk E)
    (z : Fin m) (hlut : CtFits (2 ^ (K + 2)) k (lut z)) (hv : v.length = 2 ^ (K + 2))
    (hphase : glwePhase (2 ^ (K + 2)) k key (lut z) = toRq (2 ^ (K + 2)) v)
    (hin : Lwe.Fits lweKey (lwe z)) (hout : lweOut.length = k * 2 ^ (K + 2) + 1)
    (mem : Low.Place → G.E) (regs : Low.Block k l m → Low.Regs G.E (List (BitVec 32)))
    (hr : ∀ bl, (regs bl).acc = firstAcc (2 ^ (K + 2)) lweKey.length lut lwe bl.1 bl.2.1 bl.2.2)
    (sched : List (Low.Block k l m)) (p : Low.Block k l m → Prog Low.Place G.E (Low.Regs G.E (List (BitVec 32))))
    (hp : p = Low.program (kernel G (2 ^ (K + 2)) k b l (convert G.toTransform (2 ^ (K + 2)) bsk) lwe) lweKey.length k l m)
    (hcalm : l ≤ 1 ∨ lweKey.length ≤ 1 ∨ Calm p sched (start p mem regs))
    (hdone : Done p (run p sched (start p mem regs))) (y : BitVec 32)
    (hy : ∀ d, d < 2 * 2 ^ (K + 2) → |((d * 2 ^ (31 - (K + 2)) : Nat) - Lwe.phase lweKey (lwe z) : BitVec 32).toInt| ≤
        (1 + weight lweKey) * 2 ^ (30 - (K + 2)) → ext (2 ^ (K + 2)) v d = y) :
    ∃ r, sampleExtract (2 ^ (K + 2)) (accumulators h.level (run p sched (start p mem regs)) z) lweOut 0 = some r ∧
      Lwe.Fits key r ∧ |(Lwe.phase key r - y).toInt| ≤ lweKey.length * epBound 32 (2 ^ (K + 2)) k b l S E B 1 := by
  have hd := digit_bounds (.inl rfl) h
  have hM : 1 ≤ l * (k + 1) := Nat.mul_pos h.level (by omega)
  subst hG
  exact C81_lookup_32_partial _ (2 ^ (K + 2)) k b l m (K + 2) rfl (by omega) (2 ^ (b - 1)) B S E
    (C83_products (.inl rfl) ch K hK _ hM hkl _ hd.1 hd.2 B (by exact_mod_cast hB))
    (fun p e _ => addBack_length 32 ch K p e) le_rfl h hS0 lweKey key bsk v lweOut lut lwe hk hS hs hbsk z hlut hv hphase
    hin hout mem regs hr sched p hp hcalm hdone y hy

/-- C83: the low-latency bootstrap of the GPU on 64-bit words. Missing for the full statement: the schedules of C76, the
distance of the CPU (C78) and bases of more than 31 bits (C79). -/
theorem C83_low_latency_64_partial (ch : Contract) (K k b l m : Nat) (hK : K + 2 ≤ 13) (hkl : l * (k + 1) ≤ 2 ^ 40)
    (hb : b ≤ 31) (G : GpuTransform 64) (hG : G = gpuTransform 64 ch (2 ^ (K + 1)))
    (B S E : Int) (hB : gpuError 64 (2 ^ (K + 2)) (l * (k + 1)) (2 ^ (b - 1)) ≤ B) (h : ValidParams 64 b l)
    (hS0 : 0 ≤ S) (lweKey key bsk v lweOut : List (BitVec 64)) (lut lwe : Nat → List (BitVec 64))
    (hk : KeyFits (2 ^ (K + 2)) k key) (hS : KeyBound S key) (hs : Lwe.BinaryKey lweKey)
    (hbsk : BskEnc (2 ^ (K + 2)) k b l lweKey key bsk E)
    (z : Fin m) (hlut : CtFits (2 ^ (K + 2)) k (lut z)) (hv : v.length = 2 ^ (K + 2))
    (hphase : glwePhase (2 ^ (K + 2)) k key (lut z) = toRq (2 ^ (K + 2)) v)
    (hin : Lwe.Fits lweKey (lwe z)) (hout : lweOut.length = k * 2 ^ (K + 2) + 1)
    (mem : Low.Place → G.E) (regs : Low.Block k l m → Low.Regs G.E (List (BitVec 64)))
    (hr : ∀ bl, (regs bl).acc = firstAcc (2 ^ (K + 2)) lweKey.length lut lwe bl.1 bl.2.1 bl.2.2)
    (sched : List (Low.Block k l m)) (p : Low.Block k l m → Prog Low.Place G.E (Low.Regs G.E (List (BitVec 64))))
    (hp : p = Low.program (kernel G (2 ^ (K + 2)) k b l (convert G.toTransform (2 ^ (K + 2)) bsk) lwe) lweKey.length k l m)
    (hcalm : l ≤ 1 ∨ lweKey.length ≤ 1 ∨ Calm p sched (start p mem regs))
    (hdone : Done p (run p sched (start p mem regs))) (y : BitVec 64)
    (hy : ∀ d, d < 2 * 2 ^ (K + 2) → |((d * 2 ^ (63 - (K + 2)) : Nat) - Lwe.phase lweKey (lwe z) : BitVec 64).toInt| ≤
        (1 + weight lweKey) * (2 ^ (62 - (K + 2)) + 2 ^ 10) → ext (2 ^ (K + 2)) v d = y) :
    ∃ r, sampleExtract (2 ^ (K + 2)) (accumulators h.level (run p sched (start p mem regs)) z) lweOut 0 = some r ∧
      Lwe.Fits key r ∧ |(Lwe.phase key r - y).toInt| ≤ lweKey.length * epBound 64 (2 ^ (K + 2)) k b l S E B 1 := by
  have hd := digit_bounds (.inr rfl) h
  have hM : 1 ≤ l * (k + 1) := Nat.mul_pos h.level (by omega)
  subst hG
  exact C81_lookup_64_partial _ (2 ^ (K + 2)) k b l m (K + 2) rfl (by omega) hb (2 ^ (b - 1)) B S E
    (C83_products (.inr rfl) ch K hK _ hM hkl _ hd.1 hd.2 B (by exact_mod_cast hB))
    (fun p e _ => addBack_length 64 ch K p e) le_rfl h hS0 lweKey key bsk v lweOut lut lwe hk hS hs hbsk z hlut hv hphase
    hin hout mem regs hr sched p hp hcalm hdone y hy

/-- The value `q` of the inverse transform stands for `q (2^32 - 1)`, because the key was divided by `2^32 - 1`. When `q`
is an integer nothing is added to the output. -/
theorem word_integer (ch : Contract) (k : Nat) (second : Bool) (q : Nat) (hq : q < 2 ^ 53) :
    torusWord 32 ch k second (.fin q) = 0#32 := by
  have z0 : ofRat 0 = .fin 0 := by decide +kernel
  have hfl : floorF (.fin (q : ℚ)) = .fin q := by rw [floorF, Int.floor_natCast]; rfl
  have hfr : (F64.fin (q : ℚ)).sub (floorF (.fin (q : ℚ))) = .fin 0 := by rw [hfl, fsub_fin, add_neg_cancel, z0]
  have hfl0 : floorF (.fin 0) = .fin 0 := by rw [floorF, Int.floor_zero]; rfl
  have hbelow : ∃ r : Nat, r < 2 ^ 53 ∧ (if second then floorF (.fin (q : ℚ)) else floorF (.fin 0)) = .fin (r : ℚ) := by
    cases second
    · exact ⟨0, by norm_num, by simpa using hfl0⟩
    · exact ⟨q, hq, by simpa using hfl⟩
  have hadd : ∀ (f : Bool) (r : ℚ), Rep r → |r| ≤ 2 ^ 1022 → addProd f (.fin r) (.fin 0) (.fin (scaleQ 32)) = .fin r := by
    intro f r hr hb
    cases f
    · show (F64.fin r).add ((F64.fin 0).mul (.fin (scaleQ 32))) = _
      rw [fmul_fin, zero_mul, z0, fadd_fin, add_zero, ofRat_rep hr hb]
    · show ofRat (0 * scaleQ 32 + r) = _
      rw [zero_mul, zero_add, ofRat_rep hr hb]
  rw [torusWord]
  simp only [hfr, maxTorus_eq (.inl rfl), fmul_fin, zero_mul, z0]
  obtain ⟨r, hr, hb⟩ := hbelow
  rw [hb]
  have hr' : Rep (-(r : ℚ)) := by
    have := (rep_int (r : ℤ) (by rw [abs_of_nonneg (by omega)]; exact_mod_cast hr.le)).neg
    simpa using this
  have hrb : |(-(r : ℚ))| ≤ 2 ^ 1022 := by
    rw [abs_neg, abs_of_nonneg (by positivity)]
    have : (r : ℚ) ≤ 2 ^ 53 := by exact_mod_cast hr.le
    exact this.trans (pow_le_pow_right₀ (by norm_num) (by norm_num))
  rw [show (F64.fin (r : ℚ)).neg = .fin (-(r : ℚ)) from rfl, hadd _ _ hr' hrb]
  have hle : F64.le (.fin (1 / 2)) (.fin (-(r : ℚ))) = false := by
    have h0 : (0 : ℚ) ≤ r := Nat.cast_nonneg r
    rw [F64.le, decide_eq_false_iff_not]; linarith
  rw [hle, if_neg (by decide), hadd _ _ (by have := rep_int 0 (by norm_num); simpa using this) (by norm_num)]
  decide +kernel

/-- C83 (violated part): "the error comes from the rounding only" is false on 32-bit words: the GPU computes modulo
`2^32 - 1`. If the exact value of a coefficient is `c = q (2^32 - 1)` and the transforms made no error at all, the output
changes by `0`, not by `c`, which is `-q` modulo `2^32`: an error of `q` units, for every `q` below `2^31`. -/
theorem C83_modulus_violated (ch : Contract) (n k q : Nat) (hk : k < n) (hq : q < 2 ^ 31) (out : List (BitVec 32))
    (zs : List C64) (c : Int) (hc : c = q * (2 ^ 32 - 1)) (hz : (at' zs k).re = .fin (c / (2 ^ 32 - 1) : ℚ)) :
    (addToTorus ch n out zs).getD k 0 = out.getD k 0 ∧
    ((addToTorus ch n out zs).getD k 0 - (out.getD k 0 + (c : BitVec 32))).toInt = q := by
  have hq' : (c / (2 ^ 32 - 1) : ℚ) = q := by
    rw [hc]; push_cast; norm_num
  have h1 : (addToTorus ch n out zs).getD k 0 = out.getD k 0 := by
    rw [addToTorus, List.getD_eq_getElem?_getD, List.getElem?_map, List.getElem?_range (by omega)]
    simp only [Option.map_some, Option.getD_some, if_pos hk, hz, hq']
    rw [word_integer ch k false q (by omega)]
    exact BitVec.add_zero _
  refine ⟨h1, ?_⟩
  rw [h1]
  have h2 : (c : BitVec 32) = -((q : Int) : BitVec 32) := by
    rw [hc, show (q : Int) * (2 ^ 32 - 1) = 2 ^ 32 * q + -q by ring, Int.cast_add, two_pow_cast, zero_add, Int.cast_neg]
  rw [h2, show ∀ a b : BitVec 32, a - (a + -b) = b from fun a b => by ring]
  exact toInt_cast_of_bounds (w := 32) q (by norm_num) (by norm_num; omega) (by norm_num)

/-- The hypotheses hold of an array whose first element is 1000: the output is wrong by 1000 units. -/
example (ch : Contract) : ((addToTorus ch 1 [0#32, 0] [⟨.fin 1000, .fin 0⟩]).getD 0 0 -
    ((0 : BitVec 32) + ((1000 * (2 ^ 32 - 1) : Int) : BitVec 32))).toInt = 1000 :=
  (C83_modulus_violated ch 1 0 1000 (by norm_num) (by norm_num) [0, 0] [⟨.fin 1000, .fin 0⟩] _ rfl
    (by show F64.fin 1000 = _; norm_num)).2

/-- The hypotheses of the theorems on bootstraps can be met: `N = 1024`, three levels of seven bits, a key for the LWE
secret key `[1, 0, 1]`, and a table of equal elements. -/
example : ∃ bsk : List (BitVec 32), BskEnc (2 ^ (8 + 2)) 1 7 3 [1, 0, 1] (List.replicate 1024 1) bsk 0 ∧
    gpuError 32 (2 ^ (8 + 2)) (3 * (1 + 1)) (2 ^ (7 - 1)) ≤ ((394629 : Int) : ℝ) ∧ ValidParams 32 7 3 ∧
    KeyFits (2 ^ (8 + 2)) 1 (List.replicate 1024 1#32) ∧ Lwe.BinaryKey [1#32, 0, 1] ∧
    CtFits (2 ^ (8 + 2)) 1 (List.replicate 1024 0#32 ++ List.replicate 1024 0x10000000#32) ∧
    Lwe.Fits [1#32, 0, 1] [0x20000000#32, 0x60000000, 0xA0000000, 0] := by
  obtain ⟨bsk, h⟩ := exists_bsk (2 ^ (8 + 2)) 1 7 3 (by norm_num) (by norm_num) [1#32, 0, 1] (List.replicate 1024 1)
  refine ⟨bsk, h, by exact_mod_cast gpuError_32, ⟨by norm_num, by norm_num, by norm_num⟩, List.length_replicate, ?_, by
    rw [CtFits, List.length_append, List.length_replicate, List.length_replicate]; norm_num, rfl⟩
  intro x hx
  simp only [List.mem_cons, List.not_mem_nil, or_false] at hx
  rcases hx with rfl | rfl | rfl <;> simp

end Verif.Cuda.Nsm
