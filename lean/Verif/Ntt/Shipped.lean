import Verif.Ntt.Params.P32_128
import Verif.Ntt.Params.P32_256
import Verif.Ntt.Params.P32_512
import Verif.Ntt.Params.P32_1024
import Verif.Ntt.Params.P32_2048
import Verif.Ntt.Params.P32_4096
import Verif.Ntt.Params.P64_128
import Verif.Ntt.Params.P64_256
import Verif.Ntt.Params.P64_512
import Verif.Ntt.Params.P64_1024
import Verif.Ntt.Params.P64_2048
import Verif.Ntt.Params.P64_4096
import Verif.Pbs.Examples
/-
C36 for all the shipped parameter sets, and what C31, C34 and C35 give for them.
-/
namespace Verif.Ntt
open Verif.Poly Verif.Pbs Verif.Glwe Verif.Decomp

/-- The parameter sets of params/params_32_*.rs, by increasing size (math/mod.rs:6 `ALLOWED_POLY_SIZE`). -/
def shipped32 : List Params :=
  [P32_128.params, P32_256.params, P32_512.params, P32_1024.params, P32_2048.params, P32_4096.params]

/-- The parameter sets of params/params_64_*.rs. -/
def shipped64 : List Params :=
  [P64_128.params, P64_256.params, P64_512.params, P64_1024.params, P64_2048.params, P64_4096.params]

/-- C36: the shipped tables cover the sizes 128, ..., 4096, share the moduli `MOD_32` and `MOD_64`, and are correct. -/
theorem C36_shipped :
    shipped32.map (fun P => 2 ^ P.log) = [128, 256, 512, 1024, 2048, 4096] ∧
    shipped64.map (fun P => 2 ^ P.log) = [128, 256, 512, 1024, 2048, 4096] ∧
    (∀ P ∈ shipped32, P.q = MOD_32.toNat ∧ TableCorrect 32 P) ∧
    (∀ P ∈ shipped64, P.q = MOD_64.toNat ∧ TableCorrect 64 P) := by
  refine ⟨rfl, rfl, ?_, ?_⟩
  · intro P hP
    simp only [shipped32, List.mem_cons, List.not_mem_nil, or_false] at hP
    rcases hP with rfl | rfl | rfl | rfl | rfl | rfl
    exacts [⟨rfl, P32_128.C36_table⟩, ⟨rfl, P32_256.C36_table⟩, ⟨rfl, P32_512.C36_table⟩, ⟨rfl, P32_1024.C36_table⟩,
      ⟨rfl, P32_2048.C36_table⟩, ⟨rfl, P32_4096.C36_table⟩]
  · intro P hP
    simp only [shipped64, List.mem_cons, List.not_mem_nil, or_false] at hP
    rcases hP with rfl | rfl | rfl | rfl | rfl | rfl
    exacts [⟨rfl, P64_128.C36_table⟩, ⟨rfl, P64_256.C36_table⟩, ⟨rfl, P64_512.C36_table⟩, ⟨rfl, P64_1024.C36_table⟩,
      ⟨rfl, P64_2048.C36_table⟩, ⟨rfl, P64_4096.C36_table⟩]

/-- The hypotheses of C34 and C35 hold of the tables built from the shipped parameters. -/
theorem shipped32_valid (P : Params) (hP : P ∈ shipped32) :
    Suits 32 MOD_32 ∧ (P.tables 64).Reduced MOD_32 ∧ Valid ((P.tables 64).toZ MOD_32) := by
  obtain ⟨h1, h2⟩ := C36_shipped.2.2.1 P hP
  have := h2.valid (W := 64) (by decide) (by decide)
  rw [h1] at this
  exact this

theorem shipped64_valid (P : Params) (hP : P ∈ shipped64) :
    Suits 64 MOD_64 ∧ (P.tables 128).Reduced MOD_64 ∧ Valid ((P.tables 128).toZ MOD_64) := by
  obtain ⟨h1, h2⟩ := C36_shipped.2.2.2 P hP
  have := h2.valid (W := 128) (by decide) (by decide)
  rw [h1] at this
  exact this

/-- C34 for the shipped tables. -/
theorem C34_shipped :
    (∀ P ∈ shipped32, ∀ p : List (ModQ 64), p.length = 2 ^ P.log → (∀ a ∈ p, Reduced MOD_32 a) →
      backward (modqOps MOD_32) (P.tables 64) (forward (modqOps MOD_32) (P.tables 64) p) = p) ∧
    (∀ P ∈ shipped64, ∀ p : List (ModQ 128), p.length = 2 ^ P.log → (∀ a ∈ p, Reduced MOD_64 a) →
      backward (modqOps MOD_64) (P.tables 128) (forward (modqOps MOD_64) (P.tables 128) p) = p) := by
  constructor
  · intro P hP p hp hr
    obtain ⟨h1, h2, h3⟩ := shipped32_valid P hP
    exact C34_round_trip MOD_32 h1.toRoom _ h2 h3 p hp hr
  · intro P hP p hp hr
    obtain ⟨h1, h2, h3⟩ := shipped64_valid P hP
    exact C34_round_trip MOD_64 h1.toRoom _ h2 h3 p hp hr

/-- C35 for the shipped tables, one product. -/
theorem C35_shipped :
    (∀ P ∈ shipped32, ∀ x y : List (ModQ 64), x.length = 2 ^ P.log → y.length = 2 ^ P.log →
      (∀ a ∈ x, Reduced MOD_32 a) → (∀ a ∈ y, Reduced MOD_32 a) → ∀ k, k < 2 ^ P.log →
      ((backward (modqOps MOD_32) (P.tables 64) (mulAcc (modqOps MOD_32) (List.replicate (2 ^ P.log) (ModQ.new 0 MOD_32))
        (forward (modqOps MOD_32) (P.tables 64) x) (forward (modqOps MOD_32) (P.tables 64) y))).map (toZ MOD_32)).getD k 0 =
      negaConv (2 ^ P.log) (x.map (toZ MOD_32)) (y.map (toZ MOD_32)) k) ∧
    (∀ P ∈ shipped64, ∀ x y : List (ModQ 128), x.length = 2 ^ P.log → y.length = 2 ^ P.log →
      (∀ a ∈ x, Reduced MOD_64 a) → (∀ a ∈ y, Reduced MOD_64 a) → ∀ k, k < 2 ^ P.log →
      ((backward (modqOps MOD_64) (P.tables 128) (mulAcc (modqOps MOD_64) (List.replicate (2 ^ P.log) (ModQ.new 0 MOD_64))
        (forward (modqOps MOD_64) (P.tables 128) x) (forward (modqOps MOD_64) (P.tables 128) y))).map (toZ MOD_64)).getD k 0 =
      negaConv (2 ^ P.log) (x.map (toZ MOD_64)) (y.map (toZ MOD_64)) k) := by
  constructor
  · intro P hP x y hx hy rx ry k hk
    obtain ⟨h1, h2, h3⟩ := shipped32_valid P hP
    exact C35_product MOD_32 h1.toRoom _ h2 h3 x y hx hy rx ry k hk
  · intro P hP x y hx hy rx ry k hk
    obtain ⟨h1, h2, h3⟩ := shipped64_valid P hP
    exact C35_product MOD_64 h1.toRoom _ h2 h3 x y hx hy rx ry k hk

/-- C31 for the NTT backend with the shipped 64-bit tables, for decomposition bases up to `2^47`: no hypothesis on
the transform remains. -/
theorem C31_ntt_shipped64 (P : Params) (hP : P ∈ shipped64) (k b l : Nat) (hb : b ≤ 47) (S E : Int)
    (h : ValidParams 64 b l) (hS0 : 0 ≤ S) (hE : 0 ≤ E) (lweKey key bsk acc v lweIn lweOut : List (BitVec 64))
    (hk : KeyFits (2 ^ P.log) k key) (hS : KeyBound S key) (hs : Lwe.BinaryKey lweKey)
    (hbsk : BskEnc (2 ^ P.log) k b l lweKey key bsk E)
    (hacc : CtFits (2 ^ P.log) k acc) (hv : v.length = 2 ^ P.log)
    (hphase : glwePhase (2 ^ P.log) k key acc = toRq (2 ^ P.log) v)
    (hin : Lwe.Fits lweKey lweIn) (hout : lweOut.length = k * 2 ^ P.log + 1) :
    ∃ r, bootstrap (cmuxNtt (nttTransform 64 MOD_64 (P.tables 128)) (2 ^ P.log) k b l) (2 ^ P.log) P.log lweOut lweIn acc
        (bskGgsws (nttTransform 64 MOD_64 (P.tables 128)) (2 ^ P.log) k l bsk) = some r ∧
      Lwe.Fits key r ∧
      ∀ d, IsSwitchedPhase P.log lweKey lweIn d →
        |(Lwe.phase key r - ext (2 ^ P.log) v d).toInt| ≤
          lweKey.length * epBound 64 (2 ^ P.log) k b l S E
            (nttError 64 MOD_64.toNat (2 ^ P.log) (l * (k + 1)) (2 ^ (b - 1))) 1 := by
  obtain ⟨h1, h2, h3⟩ := shipped64_valid P hP
  have hlog : P.log + 2 < 64 := by
    have : P.log ∈ shipped64.map (fun P => P.log) := List.mem_map_of_mem hP
    rw [show shipped64.map (fun P => P.log) = [7, 8, 9, 10, 11, 12] from rfl] at this
    simp only [List.mem_cons, List.not_mem_nil, or_false] at this
    omega
  have hdig : 2 ^ (b - 1) * (2 ^ 64 - (MOD_64.toNat : Int)) < 2 ^ (64 - 1) := by
    have e : (2 ^ 64 - (MOD_64.toNat : Int)) = 114687 := by decide
    have : (2 : Int) ^ (b - 1) ≤ 2 ^ 46 := pow_le_pow_right₀ (by decide) (by omega)
    rw [e]; omega
  exact C31_ntt MOD_64 h1 (P.tables 128) h2 h3 k b l hlog S E hdig h hS0 hE lweKey key bsk acc v lweIn lweOut hk hS hs hbsk
    hacc hv hphase hin hout

/-- C31 for the NTT backend with the shipped 32-bit tables, for decomposition bases up to `2^14` (see
`C38_digit_violated` for larger ones). -/
theorem C31_ntt_shipped32 (P : Params) (hP : P ∈ shipped32) (k b l : Nat) (hb : b ≤ 14) (S E : Int)
    (h : ValidParams 32 b l) (hS0 : 0 ≤ S) (hE : 0 ≤ E) (lweKey key bsk acc v lweIn lweOut : List (BitVec 32))
    (hk : KeyFits (2 ^ P.log) k key) (hS : KeyBound S key) (hs : Lwe.BinaryKey lweKey)
    (hbsk : BskEnc (2 ^ P.log) k b l lweKey key bsk E)
    (hacc : CtFits (2 ^ P.log) k acc) (hv : v.length = 2 ^ P.log)
    (hphase : glwePhase (2 ^ P.log) k key acc = toRq (2 ^ P.log) v)
    (hin : Lwe.Fits lweKey lweIn) (hout : lweOut.length = k * 2 ^ P.log + 1) :
    ∃ r, bootstrap (cmuxNtt (nttTransform 32 MOD_32 (P.tables 64)) (2 ^ P.log) k b l) (2 ^ P.log) P.log lweOut lweIn acc
        (bskGgsws (nttTransform 32 MOD_32 (P.tables 64)) (2 ^ P.log) k l bsk) = some r ∧
      Lwe.Fits key r ∧
      ∀ d, IsSwitchedPhase P.log lweKey lweIn d →
        |(Lwe.phase key r - ext (2 ^ P.log) v d).toInt| ≤
          lweKey.length * epBound 32 (2 ^ P.log) k b l S E
            (nttError 32 MOD_32.toNat (2 ^ P.log) (l * (k + 1)) (2 ^ (b - 1))) 1 := by
  obtain ⟨h1, h2, h3⟩ := shipped32_valid P hP
  have hlog : P.log + 2 < 32 := by
    have : P.log ∈ shipped32.map (fun P => P.log) := List.mem_map_of_mem hP
    rw [show shipped32.map (fun P => P.log) = [7, 8, 9, 10, 11, 12] from rfl] at this
    simp only [List.mem_cons, List.not_mem_nil, or_false] at this
    omega
  have hdig : 2 ^ (b - 1) * (2 ^ 32 - (MOD_32.toNat : Int)) < 2 ^ (32 - 1) := by
    have e : (2 ^ 32 - (MOD_32.toNat : Int)) = 139263 := by decide
    have : (2 : Int) ^ (b - 1) ≤ 2 ^ 13 := pow_le_pow_right₀ (by decide) (by omega)
    rw [e]; omega
  exact C31_ntt MOD_32 h1 (P.tables 64) h2 h3 k b l hlog S E hdig h hS0 hE lweKey key bsk acc v lweIn lweOut hk hS hs hbsk
    hacc hv hphase hin hout

/-! ### Satisfiability -/

/-- A small parameter set: `N = 4` modulo 17, where `4^2 = -1`, `2^2 = 4`, `8^2 = -4`. -/
def small : Params := ⟨2, 17, 13, [1, 4, 2, 8], [1, 13, 9, 15]⟩

theorem small_correct : TableCorrect 8 small := check_sound (by decide)

example : forward (modqOps 17#16) (small.tables 16) ([1, 2, 3, 4].map fun v => ModQ.new v 17#16) ≠
    ([1, 2, 3, 4].map fun v => ModQ.new v 17#16) ∧
  backward (modqOps 17#16) (small.tables 16) (forward (modqOps 17#16) (small.tables 16)
    ([1, 2, 3, 4].map fun v => ModQ.new v 17#16)) = [1, 2, 3, 4].map fun v => ModQ.new v 17#16 := by
  decide +kernel

/-- `(1 + X^3)(1 + X) = 1 + X + X^3 + X^4 = X + X^3` modulo `X^4 + 1`. -/
example : backward (modqOps 17#16) (small.tables 16) (mulAcc (modqOps 17#16) (List.replicate 4 (ModQ.new 0 17#16))
    (forward (modqOps 17#16) (small.tables 16) ([1, 0, 0, 1].map fun v => ModQ.new v 17#16))
    (forward (modqOps 17#16) (small.tables 16) ([1, 1, 0, 0].map fun v => ModQ.new v 17#16))) =
    [0, 1, 0, 1].map fun v => ModQ.new v 17#16 := by
  decide +kernel

/-- The hypotheses of `C31_ntt_shipped64` are met: keys of ones, a bootstrap key of gadget ciphertexts, the trivial
accumulator of a constant table. -/
example : ∃ (bsk : List (BitVec 64)), BskEnc 128 1 8 3 (List.replicate 5 1) (List.replicate 128 1) bsk 0 ∧
    KeyFits 128 1 (List.replicate 128 1#64) ∧ KeyBound 1 (List.replicate 128 1#64) ∧ Lwe.BinaryKey (List.replicate 5 1#64) ∧
    CtFits 128 1 (List.replicate (1 * 128) 0#64 ++ List.replicate 128 7) ∧ ValidParams 64 8 3 ∧
    glwePhase 128 1 (List.replicate 128 1#64) (List.replicate (1 * 128) 0#64 ++ List.replicate 128 7) =
      toRq 128 (List.replicate 128 7) ∧ P64_128.params ∈ shipped64 := by
  obtain ⟨bsk, h⟩ := exists_bsk 128 1 8 3 (by decide) (by decide) (List.replicate 5 1#64) (List.replicate 128 1)
  obtain ⟨a1, a2⟩ := C31_trivial_accumulator 128 1 (by decide) (List.replicate 128 1#64) (List.replicate 128 7) (by simp)
  refine ⟨bsk, h, by simp [KeyFits], ?_, ?_, a1, ⟨by decide, by decide, by decide⟩, a2, by simp [shipped64]⟩
  · intro x hx
    rw [List.eq_of_mem_replicate hx]; decide
  · intro x hx
    rw [List.eq_of_mem_replicate hx]; decide

end Verif.Ntt
