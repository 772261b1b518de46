import Verif.Wop.CallsProps
/-
A history that makes the keys of C109, and the two calls with them.
-/
namespace Verif.Wop
open Verif.Engine Verif.Entity Verif.Pbs
open Verif.Csprng (Build)

/-- A key of 32 bits. -/
def wopKey : GlweKey (BitVec 64) := ⟨32, [1, 0, 1, 1, 0, 0, 1, 0, 1, 0, 1, 1, 0, 0, 1, 0, 1, 0, 1, 1, 0, 0, 1, 0, 1, 0, 1, 1, 0, 0,
  1, 0]⟩

/-- A noise sampler that always accepts. -/
def wopNoise : Random.GaussianFn 64 :=
  { accept := fun _ _ => true, value := fun u v => (u.setWidth 64 >>> 60, v.setWidth 64 >>> 60) }

/-- A bootstrap key from the key bit 1 to `wopKey`, the keyswitch key back and the circuit bootstrap keys. -/
def wopCalls : List Session.Call :=
  [.enc (w := 64) (.bsk wopNoise [1] wopKey 15 2), .enc (w := 64) (.ksk wopNoise wopKey.data [1] 2 8),
   .enc (w := 64) (.cbs wopNoise wopKey.data wopKey 15 2)]

/-- The top bits of `msg * 2 ^ delta` plus a small error, extracted with the keys of a history and decrypted. -/
def wopBits (n msg delta : Nat) : List Session.Out → Option (Res FErr (List (BitVec 64)))
  | [.cts (w := 64) b, .cts (w := 64) q] =>
    match convertBsk (exactTransform 64 32) .debug ⟨b.data, 32, 2, 2, 15⟩ with
    | .ok f =>
      match extractBitsCall (exactTransform 64 32) .debug ⟨List.replicate (2 * n) 7#64, 2⟩
          (List.replicate 32 0#64 ++ [BitVec.ofNat 64 (msg * 2 ^ delta + 5)]) f ⟨q.data, 8, 2, 2⟩ n delta with
      | .ok bits => some (.ok ((chunks 2 bits.tensor).map fun c =>
          (c.getD 1 0 - c.getD 0 0 + (1#64 <<< 62)) >>> 63))
      | .err e => some (.err e)
      | .panic => some .panic
    | .err e => some (.err e)
    | .panic => some .panic
  | _ => none

set_option maxRecDepth 100000 in
example : ((Session.newDefault Session.exTable 9).bind (Session.run Session.exTable .debug (wopCalls.take 2))).map
    (fun r => wopBits 2 2 62 r.1) = some (some (.ok [1, 0])) := by
  decide +kernel

set_option maxRecDepth 100000 in
example : ((Session.newDefault Session.exTable 9).bind (Session.run Session.exTable .debug (wopCalls.take 2))).map
    (fun r => (wopBits 2 1 0 r.1, wopBits 3 1 62 r.1)) =
    some (some .panic, some (.err (.generic .notEnoughBitsToExtract))) := by
  decide +kernel

theorem wopNoise_bound : NoiseBound wopNoise (15 : Nat) := by
  intro u v _
  have h : ∀ x : BitVec 64, |(x >>> 60).toInt| ≤ (15 : Int) := by
    intro x
    have h1 : (x >>> 60).toNat ≤ 15 := by
      rw [BitVec.toNat_ushiftRight, Nat.shiftRight_eq_div_pow]
      have := x.isLt
      omega
    rw [BitVec.toInt_eq_toNat_of_lt (by omega), abs_of_nonneg (by omega)]
    omega
  exact ⟨h _, h _⟩

/-- The outputs of the history are three vectors of ciphertexts. -/
def wopOuts : List Session.Out → Bool
  | [.cts (w := 64) _, .cts (w := 64) _, .cts (w := 64) _] => true
  | _ => false

set_option maxRecDepth 100000 in
theorem wop_runs : ((Session.newDefault Session.exTable 9).bind (Session.run Session.exTable .debug wopCalls)).map
    (fun r => wopOuts r.1) = some true := by
  decide +kernel

/-- The hypotheses of `C109_history` are met by this history: an encryption of `21 * 2^59` with an error of 5 is looked
up in the table of the numbers `t 2^58`, and the decryption differs from `21 * 2^58` by less than half of the step of the
table. -/
example : ∃ e e' ctb ctq ctc, Session.run Session.exTable .debug wopCalls e =
      some ([.cts (w := 64) ctb, .cts (w := 64) ctq, .cts (w := 64) ctc], e') ∧
    ∃ bsk, convertBsk (exactTransform 64 32) .debug ⟨ctb.data, 32, 2, 2, 15⟩ = .ok bsk ∧
    ∃ bits, extractBitsCall (exactTransform 64 32) .debug ⟨List.replicate 10 7#64, 2⟩
      (List.replicate 32 0#64 ++ [BitVec.ofNat 64 (21 * 2 ^ 59 + 5)]) bsk ⟨ctq.data, 8, 2, 2⟩ 5 59 = .ok bits ∧
    ∃ res, verticalPackingCall (exactTransform 64 32) .debug ⟨List.replicate 33 9#64, 33⟩ bits bsk
      ((List.range 32).map fun t => BitVec.ofNat 64 (t * 2 ^ 58)) 2 8 ⟨ctc.data, 15, 2, 33, 2, 32⟩ = .ok res ∧
    ∃ z, Session.decryptLwe .debug wopKey.data (block 33 res.tensor 0) = .ok z ∧
      |(z - 21#64 * 2 ^ 58).toInt| < 2 ^ 57 := by
  have h := wop_runs
  rw [Option.map_eq_some_iff] at h
  obtain ⟨⟨os, e'⟩, h, ho⟩ := h
  rw [Option.bind_eq_some_iff] at h
  obtain ⟨e, -, h⟩ := h
  dsimp only at ho
  unfold wopOuts at ho
  split at ho
  case h_2 => exact absurd ho (by decide)
  rename_i ctb ctq ctc
  refine ⟨e, e', ctb, ctq, ctc, h, ?_⟩
  have hbin : Lwe.BinaryKey wopKey.data := by
    intro x hx
    simp only [wopKey, List.mem_cons, List.not_mem_nil, or_false] at hx
    have : x = 1 ∨ x = 0 := by tauto
    tauto
  have hlog : Nat.log2 32 = 5 := by decide
  obtain ⟨bsk, h1, bits, h2, res, h3, h4⟩ := C109_history (exactTransform 64 32) rfl Session.exTable .debug wopCalls e e' _ h
    0 1 2 _ _ wopNoise wopNoise wopNoise [1] wopKey wopKey 15 2 8 2 15 2 ctb ctq ctc
    rfl rfl trivial rfl rfl rfl rfl rfl trivial rfl (15 : Nat) (by norm_num) wopNoise_bound 15 wopNoise_bound (15 : Nat)
    wopNoise_bound ⟨by decide, by decide⟩ ⟨by decide, by decide⟩ rfl rfl (by intro x hx; simp at hx; tauto) hbin hbin
    ⟨by decide, by decide, by decide⟩ ⟨by decide, by decide, by decide⟩ ⟨by decide, by decide, by decide⟩
    ⟨5, le_rfl, rfl⟩ (by decide) 8 2 ⟨by decide, by decide, by decide⟩ (by decide) (2 ^ 14) 0 (2 ^ 7) 0 le_rfl
    (exact_accurate 32 _ (by norm_num) _) (by norm_num) (exact_accurate 32 _ (by norm_num) _) (by norm_num)
    (by decide) (by decide) (by decide) 59 0 1 21 (by decide) (by decide) (by decide) (by decide)
    ⟨List.replicate 10 7#64, 2⟩ ⟨List.replicate 33 9#64, 33⟩
    (List.replicate 32 0#64 ++ [BitVec.ofNat 64 (21 * 2 ^ 59 + 5)])
    ((List.range 32).map fun t => BitVec.ofNat 64 (t * 2 ^ 58))
    ⟨rfl, by decide, by decide⟩ ⟨rfl, by decide, by decide⟩ (by decide) rfl 5 5 (by norm_num)
    (by decide +kernel) _ _ rfl rfl (by
      intro i hi
      have hi : i < 5 := hi
      have hw : weight ([1] : List (BitVec 64)) = 1 := by decide
      rw [hw]
      interval_cases i <;> decide +kernel)
  refine ⟨bsk, h1, bits, h2, res, h3, ?_⟩
  obtain ⟨z, h5, h6⟩ := h4 0 (by norm_num)
  refine ⟨z, h5, lt_of_le_of_lt (le_trans (le_of_eq ?_) h6) ?_⟩
  · congr 2
  · decide +kernel

end Verif.Wop
