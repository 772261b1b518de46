import Verif.Cuda.BgLemmas
/-
C90: the Boolean gates of the CUDA library compute the gates on encrypted bits, for every order of the threads; gates can be
composed to circuits of any size.

A bit is encrypted as 1/8 (true) or -1/8 (false) of the torus, with an error.
-/
namespace Verif.Cuda.Bg
open Verif.Wop Verif.Pbs Verif.Glwe Verif.Decomp
open Lwe (phase)

/-! ### Specification -/

/-- What the gates compute. -/
def Gate.eval : Gate → Bool → Bool → Bool
  | .and, x, y => x && y
  | .nand, x, y => !(x && y)
  | .nor, x, y => !(x || y)
  | .or, x, y => x || y
  | .xor, x, y => x != y
  | .xnor, x, y => x == y

/-- The torus element of a bit. -/
def bitValue (x : Bool) : Int := if x then 2 ^ 29 else -2 ^ 29

/-- `c` is an encryption of the bit `x` with error `e`. -/
def EncBit (s c : List (BitVec 32)) (x : Bool) (e : Int) : Prop := phase s c = ((bitValue x + e : Int) : BitVec 32)

/-- Decryption: the bit is true if the phase is in the first half of the torus. -/
def decryptBit (s c : List (BitVec 32)) : Bool := decide ((phase s c).toNat < 2 ^ 31)

/-- Circuits over the gates; `input i` is the input number `i`. -/
inductive Circuit
  | input (i : Nat)
  | not (a : Circuit)
  | gate (g : Gate) (a b : Circuit)

/-- The value of a circuit. -/
def Circuit.eval (x : Nat → Bool) : Circuit → Bool
  | .input i => x i
  | .not a => !(a.eval x)
  | .gate g a b => g.eval (a.eval x) (b.eval x)

/-- The evaluation of a circuit on the device: every gate is one call on the vectors of its inputs, `ins i` being the
vector of input `i`. `R p` are the choices of the device for the gate at position `p`, `o p` is the previous content of
its output. -/
def Circuit.onGpu (P : Params) (ins : Nat → DVec (BitVec 32)) :
    Circuit → (List Nat → Runs) → (List Nat → DVec (BitVec 32)) → Out (DVec (BitVec 32))
  | .input i, _, _ => .ok (ins i)
  | .not a, R, o => (a.onGpu P ins (fun p => R (0 :: p)) (fun p => o (0 :: p))).bind fun x =>
      (runNot P (R []) x (o [])).bind fun m => m.get .out
  | .gate g a b, R, o => (a.onGpu P ins (fun p => R (0 :: p)) (fun p => o (0 :: p))).bind fun x =>
      (b.onGpu P ins (fun p => R (1 :: p)) (fun p => o (1 :: p))).bind fun y =>
        (runGate P (R []) g x y (o [])).bind fun m => m.get .out

/-! ### Proofs -/

theorem cast_shift (a b t : Int) (h : a = b + 2 ^ 32 * t) : (a : BitVec 32) = (b : BitVec 32) := by
  subst h
  push_cast
  rw [show (0#32 : BitVec 32) = 0 from rfl, zero_mul, add_zero]

theorem true_cast : plainTrue = ((2 ^ 29 : Int) : BitVec 32) := by decide
theorem false_cast : plainFalse = ((-2 ^ 29 : Int) : BitVec 32) := by decide
theorem two_cast : (2#32 : BitVec 32) = ((2 : Int) : BitVec 32) := by decide

theorem decrypt_of_enc (s c : List (BitVec 32)) (x : Bool) (e : Int) (h : EncBit s c x e) (he : |e| < 2 ^ 29) :
    decryptBit s c = x := by
  rw [abs_lt] at he
  have h1 : (phase s c).toNat = ((bitValue x + e) % 2 ^ 32).toNat := by
    rw [h, ← BV.ofInt_eq_cast, BitVec.toNat_ofInt]
    norm_num
  rw [decryptBit, h1]
  cases x
  · rw [decide_eq_false_iff_not]
    have : (bitValue false + e) % 2 ^ 32 = -2 ^ 29 + e + 2 ^ 32 := by
      rw [show bitValue false = -2 ^ 29 from rfl]
      omega
    rw [this]; omega
  · rw [decide_eq_true_eq]
    have : (bitValue true + e) % 2 ^ 32 = 2 ^ 29 + e := by
      rw [show bitValue true = 2 ^ 29 from rfl]
      omega
    rw [this]; omega

variable {P : Params} {R : Runs} {s' : List (BitVec 32)}

/-- The phases before the bootstrap of the gate. -/
def linear (g : Gate) (a b : Int) : Int :=
  match g with
  | .and => a + b - 2 ^ 29
  | .nand => -(a + b) + 2 ^ 29
  | .nor => -(a + b) - 2 ^ 29
  | .or => a + b + 2 ^ 29
  | .xor => (a + b + 2 ^ 29) * 2
  | .xnor => -(a + b + 2 ^ 29) * 2

/-- The phase before the bootstrap is in the half of the torus of the result. -/
theorem linear_sign (g : Gate) (x y : Bool) (e1 e2 Q : Int) (hQ : 0 ≤ Q) (h : |e1| + |e2| + Q < 2 ^ 29) :
    ∃ e : Int, ((linear g (bitValue x + e1) (bitValue y + e2) : Int) : BitVec 32) =
        (((if !(g.eval x y) then 2 ^ 31 else 0) + 2 ^ 30 + e : Int) : BitVec 32) ∧ |e| + Q < 2 ^ 30 := by
  have h1 := abs_le.1 (le_refl |e1|)
  have h2 := abs_le.1 (le_refl |e2|)
  have fin : ∀ e : Int, (-(2 ^ 29 + (|e1| + |e2|)) ≤ e ∧ e ≤ 2 ^ 29 + (|e1| + |e2|)) ∨
      (-(2 * (|e1| + |e2|)) ≤ e ∧ e ≤ 2 * (|e1| + |e2|)) → |e| + Q < 2 ^ 30 := by
    intro e he
    have : |e| < 2 ^ 30 - Q := by
      rw [abs_lt]
      omega
    omega
  have t : ∀ k e : Int, linear g (bitValue x + e1) (bitValue y + e2) =
      ((if !(g.eval x y) then 2 ^ 31 else 0) + 2 ^ 30 + e) + 2 ^ 32 * k →
      ((-(2 ^ 29 + (|e1| + |e2|)) ≤ e ∧ e ≤ 2 ^ 29 + (|e1| + |e2|)) ∨
      (-(2 * (|e1| + |e2|)) ≤ e ∧ e ≤ 2 * (|e1| + |e2|))) →
      ∃ e : Int, ((linear g (bitValue x + e1) (bitValue y + e2) : Int) : BitVec 32) =
        (((if !(g.eval x y) then 2 ^ 31 else 0) + 2 ^ 30 + e : Int) : BitVec 32) ∧ |e| + Q < 2 ^ 30 :=
    fun k e hk he => ⟨e, cast_shift _ _ k hk, fin e he⟩
  set L := linear g (bitValue x + e1) (bitValue y + e2) with hL
  set b : Int := (if !(g.eval x y) then 2 ^ 31 else 0) + 2 ^ 30 with hb
  have hk : ∃ k : Int, (-(2 ^ 29 + (|e1| + |e2|)) ≤ L - b - 2 ^ 32 * k ∧ L - b - 2 ^ 32 * k ≤ 2 ^ 29 + (|e1| + |e2|)) ∨
      (-(2 * (|e1| + |e2|)) ≤ L - b - 2 ^ 32 * k ∧ L - b - 2 ^ 32 * k ≤ 2 * (|e1| + |e2|)) := by
    rw [hL, hb]
    clear t fin hL hb L b
    cases g <;> cases x <;> cases y <;> simp only [linear, bitValue, Gate.eval] <;>
      first
        | exact ⟨0, by simp; omega⟩
        | exact ⟨-1, by simp; omega⟩
        | exact ⟨1, by simp; omega⟩
        | exact ⟨-2, by simp; omega⟩
  obtain ⟨k, hk⟩ := hk
  exact t k (L - b - 2 ^ 32 * k) (by ring) hk

/-- The buffer that the gates give to the bootstrap. -/
def lastBuf : Gate → Buf
  | .and | .or => .lwe2
  | .nand | .nor | .xor => .lwe3
  | .xnor => .lwe4

/-- The calls of a gate before the bootstrap. -/
theorem run_linear (h : Sized P R s') (g : Gate) (xs ys : List (BitVec 32)) (out : DVec (BitVec 32))
    (lx : xs.length = P.count * (P.n + 1)) (ly : ys.length = P.count * (P.n + 1)) :
    ∃ (m : Memory) (zs : List (BitVec 32)),
      runGate P R g (xs.map some) (ys.map some) out = run P R (finish P (lastBuf g)) m ∧
      m (lastBuf g) = some (zs.map some) ∧ zs.length = P.count * (P.n + 1) ∧ m .out = some out ∧
      (∀ b, b ≠ .out → (if b = lastBuf g ∨ b = .lut ∨ b = .indexes ∨ b = .pbs then none else m b) =
        if b = .clear ∧ (g = .xor ∨ g = .xnor) then some ((List.replicate P.count 2#32).map some)
        else startMemory (xs.map some) (ys.map some) out b) ∧
      ∀ i, i < P.count → ∀ a b : Int, phase s' (block (P.n + 1) xs i) = (a : BitVec 32) →
        phase s' (block (P.n + 1) ys i) = (b : BitVec 32) →
        phase s' (block (P.n + 1) zs i) = ((linear g a b : Int) : BitVec 32) := by
  cases g
  · obtain ⟨r1, e1, l1, p1⟩ := run_add h .lwe1 .in1 .in2 (by decide) (by decide) xs ys
      (startMemory (xs.map some) (ys.map some) out) rfl rfl lx ly
    obtain ⟨r2, e2, l2, p2⟩ := run_addPlain h .lwe2 .lwe1 .plain (by decide) (by decide) r1 plainFalse
      (((startMemory (xs.map some) (ys.map some) out).set .lwe1 (some (r1.map some))).set .plain (some ((List.replicate P.count plainFalse).map some))) rfl rfl l1
    refine ⟨((((((startMemory (xs.map some) (ys.map some) out).set .lwe1 (some (r1.map some))).set .plain (some ((List.replicate P.count plainFalse).map some))).set .lwe2 (some (r2.map some))).set .lwe1 none).set .plain none), r2, ?_, rfl, l2, rfl, ?_, ?_⟩
    · simp only [runGate, gateOps, andOps, List.cons_append, List.nil_append]
      rw [e1, run_upload P R _ _ _ _ _ (by simp) h.counted, e2, run_drop P R _ _ _ _ rfl, run_drop P R _ _ _ _ rfl]
      rfl
    · intro b hb
      cases b <;> first | exact absurd rfl hb | rfl
    · intro i hi a b ha hb
      rw [p2 i hi, p1 i hi, ha, hb, linear, false_cast, sub_eq_add_neg]
      push_cast
      ring
  · obtain ⟨r1, e1, l1, p1⟩ := run_add h .lwe1 .in1 .in2 (by decide) (by decide) xs ys
      (startMemory (xs.map some) (ys.map some) out) rfl rfl lx ly
    obtain ⟨r2, e2, l2, p2⟩ := run_negate h .lwe2 .lwe1 (by decide) r1
      ((startMemory (xs.map some) (ys.map some) out).set .lwe1 (some (r1.map some))) rfl l1
    obtain ⟨r3, e3, l3, p3⟩ := run_addPlain h .lwe3 .lwe2 .plain (by decide) (by decide) r2 plainTrue
      (((((startMemory (xs.map some) (ys.map some) out).set .lwe1 (some (r1.map some))).set .lwe2 (some (r2.map some))).set .lwe1 none).set .plain (some ((List.replicate P.count plainTrue).map some))) rfl rfl l2
    refine ⟨((((((((startMemory (xs.map some) (ys.map some) out).set .lwe1 (some (r1.map some))).set .lwe2 (some (r2.map some))).set .lwe1 none).set .plain (some ((List.replicate P.count plainTrue).map some))).set .lwe3 (some (r3.map some))).set .lwe2 none).set .plain none), r3, ?_, rfl, l3, rfl, ?_, ?_⟩
    · simp only [runGate, gateOps, nandOps, List.cons_append, List.nil_append]
      rw [e1, e2, run_drop P R _ _ _ _ rfl, run_upload P R _ _ _ _ _ (by simp) h.counted, e3, run_drop P R _ _ _ _ rfl, run_drop P R _ _ _ _ rfl]
      rfl
    · intro b hb
      cases b <;> first | exact absurd rfl hb | rfl
    · intro i hi a b ha hb
      rw [p3 i hi, p2 i hi, p1 i hi, ha, hb, linear, true_cast]
      push_cast
      ring
  · obtain ⟨r1, e1, l1, p1⟩ := run_add h .lwe1 .in1 .in2 (by decide) (by decide) xs ys
      (startMemory (xs.map some) (ys.map some) out) rfl rfl lx ly
    obtain ⟨r2, e2, l2, p2⟩ := run_negate h .lwe2 .lwe1 (by decide) r1
      ((startMemory (xs.map some) (ys.map some) out).set .lwe1 (some (r1.map some))) rfl l1
    obtain ⟨r3, e3, l3, p3⟩ := run_addPlain h .lwe3 .lwe2 .plain (by decide) (by decide) r2 plainFalse
      (((((startMemory (xs.map some) (ys.map some) out).set .lwe1 (some (r1.map some))).set .lwe2 (some (r2.map some))).set .lwe1 none).set .plain (some ((List.replicate P.count plainFalse).map some))) rfl rfl l2
    refine ⟨((((((((startMemory (xs.map some) (ys.map some) out).set .lwe1 (some (r1.map some))).set .lwe2 (some (r2.map some))).set .lwe1 none).set .plain (some ((List.replicate P.count plainFalse).map some))).set .lwe3 (some (r3.map some))).set .lwe2 none).set .plain none), r3, ?_, rfl, l3, rfl, ?_, ?_⟩
    · simp only [runGate, gateOps, norOps, List.cons_append, List.nil_append]
      rw [e1, e2, run_drop P R _ _ _ _ rfl, run_upload P R _ _ _ _ _ (by simp) h.counted, e3, run_drop P R _ _ _ _ rfl, run_drop P R _ _ _ _ rfl]
      rfl
    · intro b hb
      cases b <;> first | exact absurd rfl hb | rfl
    · intro i hi a b ha hb
      rw [p3 i hi, p2 i hi, p1 i hi, ha, hb, linear, false_cast, sub_eq_add_neg]
      push_cast
      ring
  · obtain ⟨r1, e1, l1, p1⟩ := run_add h .lwe1 .in1 .in2 (by decide) (by decide) xs ys
      (startMemory (xs.map some) (ys.map some) out) rfl rfl lx ly
    obtain ⟨r2, e2, l2, p2⟩ := run_addPlain h .lwe2 .lwe1 .plain (by decide) (by decide) r1 plainTrue
      (((startMemory (xs.map some) (ys.map some) out).set .lwe1 (some (r1.map some))).set .plain (some ((List.replicate P.count plainTrue).map some))) rfl rfl l1
    refine ⟨((((((startMemory (xs.map some) (ys.map some) out).set .lwe1 (some (r1.map some))).set .plain (some ((List.replicate P.count plainTrue).map some))).set .lwe2 (some (r2.map some))).set .lwe1 none).set .plain none), r2, ?_, rfl, l2, rfl, ?_, ?_⟩
    · simp only [runGate, gateOps, orOps, List.cons_append, List.nil_append]
      rw [e1, run_upload P R _ _ _ _ _ (by simp) h.counted, e2, run_drop P R _ _ _ _ rfl, run_drop P R _ _ _ _ rfl]
      rfl
    · intro b hb
      cases b <;> first | exact absurd rfl hb | rfl
    · intro i hi a b ha hb
      rw [p2 i hi, p1 i hi, ha, hb, linear, true_cast]
      push_cast
      ring
  · obtain ⟨r1, e1, l1, p1⟩ := run_add h .lwe1 .in1 .in2 (by decide) (by decide) xs ys
      (startMemory (xs.map some) (ys.map some) out) rfl rfl lx ly
    obtain ⟨r2, e2, l2, p2⟩ := run_addPlain h .lwe2 .lwe1 .plain (by decide) (by decide) r1 plainTrue
      (((startMemory (xs.map some) (ys.map some) out).set .lwe1 (some (r1.map some))).set .plain (some ((List.replicate P.count plainTrue).map some))) rfl rfl l1
    obtain ⟨r3, e3, l3, p3⟩ := run_mult h .lwe3 .lwe2 .clear (by decide) (by decide) r2 2#32
      (((((((startMemory (xs.map some) (ys.map some) out).set .lwe1 (some (r1.map some))).set .plain (some ((List.replicate P.count plainTrue).map some))).set .lwe2 (some (r2.map some))).set .lwe1 none).set .plain none).set .clear (some ((List.replicate P.count 2#32).map some))) rfl rfl l2
    refine ⟨(((((((((startMemory (xs.map some) (ys.map some) out).set .lwe1 (some (r1.map some))).set .plain (some ((List.replicate P.count plainTrue).map some))).set .lwe2 (some (r2.map some))).set .lwe1 none).set .plain none).set .clear (some ((List.replicate P.count 2#32).map some))).set .lwe3 (some (r3.map some))).set .lwe2 none), r3, ?_, rfl, l3, rfl, ?_, ?_⟩
    · simp only [runGate, gateOps, xorOps, List.cons_append, List.nil_append]
      rw [e1, run_upload P R _ _ _ _ _ (by simp) h.counted, e2, run_drop P R _ _ _ _ rfl, run_drop P R _ _ _ _ rfl, run_upload P R _ _ _ _ _ (by simp) h.counted, e3, run_drop P R _ _ _ _ rfl]
      rfl
    · intro b hb
      cases b <;> first | exact absurd rfl hb | rfl
    · intro i hi a b ha hb
      rw [p3 i hi, p2 i hi, p1 i hi, ha, hb, linear, two_cast, true_cast]
      push_cast
      ring
  · obtain ⟨r1, e1, l1, p1⟩ := run_add h .lwe1 .in1 .in2 (by decide) (by decide) xs ys
      (startMemory (xs.map some) (ys.map some) out) rfl rfl lx ly
    obtain ⟨r2, e2, l2, p2⟩ := run_addPlain h .lwe2 .lwe1 .plain (by decide) (by decide) r1 plainTrue
      (((startMemory (xs.map some) (ys.map some) out).set .lwe1 (some (r1.map some))).set .plain (some ((List.replicate P.count plainTrue).map some))) rfl rfl l1
    obtain ⟨r3, e3, l3, p3⟩ := run_negate h .lwe3 .lwe2 (by decide) r2
      ((((((startMemory (xs.map some) (ys.map some) out).set .lwe1 (some (r1.map some))).set .plain (some ((List.replicate P.count plainTrue).map some))).set .lwe2 (some (r2.map some))).set .lwe1 none).set .plain none) rfl l2
    obtain ⟨r4, e4, l4, p4⟩ := run_mult h .lwe4 .lwe3 .clear (by decide) (by decide) r3 2#32
      (((((((((startMemory (xs.map some) (ys.map some) out).set .lwe1 (some (r1.map some))).set .plain (some ((List.replicate P.count plainTrue).map some))).set .lwe2 (some (r2.map some))).set .lwe1 none).set .plain none).set .lwe3 (some (r3.map some))).set .lwe2 none).set .clear (some ((List.replicate P.count 2#32).map some))) rfl rfl l3
    refine ⟨(((((((((((startMemory (xs.map some) (ys.map some) out).set .lwe1 (some (r1.map some))).set .plain (some ((List.replicate P.count plainTrue).map some))).set .lwe2 (some (r2.map some))).set .lwe1 none).set .plain none).set .lwe3 (some (r3.map some))).set .lwe2 none).set .clear (some ((List.replicate P.count 2#32).map some))).set .lwe4 (some (r4.map some))).set .lwe3 none), r4, ?_, rfl, l4, rfl, ?_, ?_⟩
    · simp only [runGate, gateOps, xnorOps, List.cons_append, List.nil_append]
      rw [e1, run_upload P R _ _ _ _ _ (by simp) h.counted, e2, run_drop P R _ _ _ _ rfl, run_drop P R _ _ _ _ rfl, e3, run_drop P R _ _ _ _ rfl, run_upload P R _ _ _ _ _ (by simp) h.counted, e4, run_drop P R _ _ _ _ rfl]
      rfl
    · intro b hb
      cases b <;> first | exact absurd rfl hb | rfl
    · intro i hi a b ha hb
      rw [p4 i hi, p3 i hi, p2 i hi, p1 i hi, ha, hb, linear, two_cast, true_cast]
      push_cast
      ring

/-- The rows of a keyswitching key: encryptions under `s'` of the bits of `key`, with errors of at most `Bk`. -/
def KskEnc (P : Params) (key s' : List (BitVec 32)) (Bk : Nat) : Prop :=
  ∃ e : Nat → Nat → Int, (∀ i, i < key.length → ∀ j, j < P.ksLevel → |e i j| ≤ Bk) ∧
    ∀ i, i < key.length → ∀ j, j < P.ksLevel → phase s' (block (P.n + 1) P.ksk (i * P.ksLevel + j)) =
      key.getD i 0 * ((2 ^ (32 - P.ksBase * (j + 1)) : Nat) : BitVec 32) + ((e i j : Int) : BitVec 32)

/-- The error that a keyswitch adds. -/
def ksBound (P : Params) (Bk : Nat) : Int :=
  (P.k * P.N : Nat) * 2 ^ (32 - P.ksBase * P.ksLevel - 1) + (P.k * P.N : Nat) * P.ksLevel * 2 ^ (P.ksBase - 1) * Bk

/-- All about a gate: the bootstrapped ciphertexts `c`, and the result of the keyswitch. -/
theorem gate_general (h : Sized P R s') {key : List (BitVec 32)} {Q B : Int} (hQ : 0 ≤ Q) (hk : Keys P R s' key Q B) (g : Gate)
    (xs ys : List (BitVec 32)) (out : DVec (BitVec 32)) (lx : xs.length = P.count * (P.n + 1))
    (ly : ys.length = P.count * (P.n + 1)) (lo : out.length = P.count * (P.n + 1)) (x y : Nat → Bool) (e1 e2 : Nat → Int)
    (hx : ∀ i, i < P.count → EncBit s' (block (P.n + 1) xs i) (x i) (e1 i))
    (hy : ∀ i, i < P.count → EncBit s' (block (P.n + 1) ys i) (y i) (e2 i))
    (he : ∀ i, i < P.count → |e1 i| + |e2 i| + Q < 2 ^ 29) :
    ∃ (m : Memory) (c r : List (BitVec 32)), runGate P R g (xs.map some) (ys.map some) out = .ok m ∧
      m .out = some (r.map some) ∧ r.length = P.count * (P.n + 1) ∧
      (∀ b, b ≠ .out → m b = if b = .clear ∧ (g = .xor ∨ g = .xnor) then some ((List.replicate P.count 2#32).map some)
        else startMemory (xs.map some) (ys.map some) out b) ∧
      (∀ i, i < P.count → Lwe.Fits key (block (P.k * P.N + 1) c i) ∧ ∃ f : Int, |f| ≤ B ∧
        EncBit key (block (P.k * P.N + 1) c i) (g.eval (x i) (y i)) f) ∧
      ∀ i, i < P.count → ∀ after : List (BitVec 32), after.length = P.n + 1 →
        (Lwe.keyswitchCiphertext P.ksBase P.ksLevel (P.n + 1) P.ksk after (block (P.k * P.N + 1) c i) =
            some (block (P.n + 1) r i) ∨ P.n % 128 ≠ 0) ∧
        ((∀ j, R.ks j = bodyFirst (w := 32) ⟨P.ksBase, P.ksLevel, P.k * P.N, P.n, [], [], j⟩) → P.n % 128 ≠ 0 →
          Lwe.keyswitchCiphertext P.ksBase P.ksLevel (P.n + 1) P.ksk after (withoutBody (block (P.k * P.N + 1) c i)) =
            some (block (P.n + 1) r i)) := by
  obtain ⟨m, zs, q1, q2, q3, q4, q5, q6⟩ := run_linear h g xs ys out lx ly
  have hsign : ∀ i, ∃ e : Int, i < P.count → phase s' (block (P.n + 1) zs i) =
      (((if !(g.eval (x i) (y i)) then 2 ^ 31 else 0) + 2 ^ 30 + e : Int) : BitVec 32) ∧ |e| + Q < 2 ^ 30 := by
    intro i
    by_cases hi : i < P.count
    · obtain ⟨e, t1, t2⟩ := linear_sign g (x i) (y i) (e1 i) (e2 i) Q hQ (he i hi)
      exact ⟨e, fun _ => ⟨by rw [q6 i hi _ _ (hx i hi) (hy i hi), t1], t2⟩⟩
    · exact ⟨0, fun h => absurd h hi⟩
  choose e hE using hsign
  obtain ⟨m', c, r, r1, r2, r3, r4, r5, r6, r7⟩ := run_finish h hk (lastBuf g) (by cases g <;> decide) (by cases g <;> decide)
    (by cases g <;> decide) (by cases g <;> decide) zs out m q2 q4 q3 lo (fun i => !(g.eval (x i) (y i))) e
    (fun i hi => (hE i hi).1) (fun i hi => (hE i hi).2)
  refine ⟨m', c, r, by rw [q1, r1], r2, r4, fun b hb => by rw [r3 b hb, q5 b hb], fun i hi => ?_, r7⟩
  obtain ⟨t1, f, t2, t3⟩ := r6 i hi
  refine ⟨t1, f, t2, ?_⟩
  rw [EncBit, t3]
  cases g.eval (x i) (y i)
  · simp only [Bool.not_false, if_true]
    rw [false_cast, bitValue, if_neg (by decide)]; push_cast; rfl
  · simp only [Bool.not_true, Bool.false_eq_true, if_false]
    rw [true_cast, bitValue, if_pos rfl]; push_cast; rfl

/-- The gates with bootstraps that compute signs; see `C90_gates_partial`. -/
theorem gate_spec (h : Sized P R s') {key : List (BitVec 32)} {Q B : Int} (hQ : 0 ≤ Q) (hk : Keys P R s' key Q B) (Bk : Nat)
    (hb : Lwe.BinaryKey key) (hksk : KskEnc P key s' Bk) (hdim : P.n % 128 = 0) (g : Gate)
    (xs ys : List (BitVec 32)) (out : DVec (BitVec 32)) (lx : xs.length = P.count * (P.n + 1))
    (ly : ys.length = P.count * (P.n + 1)) (lo : out.length = P.count * (P.n + 1)) (x y : Nat → Bool) (e1 e2 : Nat → Int)
    (hx : ∀ i, i < P.count → EncBit s' (block (P.n + 1) xs i) (x i) (e1 i))
    (hy : ∀ i, i < P.count → EncBit s' (block (P.n + 1) ys i) (y i) (e2 i))
    (he : ∀ i, i < P.count → |e1 i| + |e2 i| + Q < 2 ^ 29) :
    ∃ (m : Memory) (r : List (BitVec 32)), runGate P R g (xs.map some) (ys.map some) out = .ok m ∧
      m .out = some (r.map some) ∧ r.length = P.count * (P.n + 1) ∧
      (∀ i, i < P.count → ∃ f : Int, |f| ≤ B + ksBound P Bk ∧ EncBit s' (block (P.n + 1) r i) (g.eval (x i) (y i)) f) ∧
      ∀ b, b ≠ .out → (g = .xor ∨ g = .xnor → b ≠ .clear) → m b = startMemory (xs.map some) (ys.map some) out b := by
  obtain ⟨m, c, r, r1, r2, r3, r4, r5, r6⟩ := gate_general h hQ hk g xs ys out lx ly lo x y e1 e2 hx hy he
  refine ⟨m, r, r1, r2, r3, fun i hi => ?_, fun b hb hc => ?_⟩
  · obtain ⟨t1, f, t2, t3⟩ := r5 i hi
    obtain ⟨ek, k1, k2⟩ := hksk
    have hdl := h.dim
    obtain ⟨r', F, w1, -, w3, w4⟩ := Lwe.C16_error_bound P.ksBase P.ksLevel hk.decomp key s' P.ksk
      (List.replicate (P.n + 1) 0) (block (P.k * P.N + 1) c i) ek Bk (by rw [hk.kskLen, hk.keyLen, hdl])
      (by rw [hdl]; exact k2) k1 hb (by rw [Lwe.Fits, List.length_replicate, hdl]) t1
    rw [hdl] at w1
    rcases (r6 i hi (List.replicate (P.n + 1) 0) (by simp)).1 with hks | hks
    · rw [w1] at hks
      rw [← Option.some.inj hks]
      refine ⟨f + F, ?_, ?_⟩
      · rw [hk.keyLen] at w4
        exact le_trans (abs_add_le f F) (add_le_add t2 w4)
      · rw [EncBit, w3, t3, bitValue]; push_cast; ring
    · exact absurd hdim hks
  · rw [r4 b hb]
    exact if_neg fun ⟨c1, c2⟩ => hc c2 c1

/-- C90, gates: with `count` pairs of encryptions of bits, the gate gives encryptions of the results of the gate, for every
order of the threads and every previous content of the buffers, if the errors of the two inputs are together less than 1/8
of the torus, minus the error of the rescaling in the bootstrap. The error of the results does not depend on that of the
inputs: it is the one of the bootstrap and of the keyswitch. The inputs are not changed, and all the memory that the gate
allocated is given back, except one buffer of XOR and XNOR. Missing: LWE dimensions that are not multiples of 128 (see
`C90_body_lost_violated`), no ciphertext at all (see `C90_empty_violated`), and that buffer (see `C90_leak_violated`). -/
theorem C90_gates_partial (P : Params) (R : Runs) (T : Transform 32) (b l logN : Nat) (hNN : P.N = 2 ^ logN)
    (hlog : logN + 2 < 32) (hk0 : 0 < P.k) (D B S E : Int) (hT : T.Accurate P.N (l * (P.k + 1)) D B) (hD : 2 ^ (b - 1) ≤ D)
    (hv : ValidParams 32 b l) (hS0 : 0 ≤ S) (s' key bsk : List (BitVec 32)) (hkey : KeyFits P.N P.k key)
    (hS : KeyBound S key) (hs' : Lwe.BinaryKey s') (hs : Lwe.BinaryKey key) (hbsk : BskEnc P.N P.k b l s' key bsk E)
    (hpbs : P.pbs = fun o c a => Am.bootstrap T P.N P.k b l (convert T P.N bsk) a c o)
    (hvk : ValidParams 32 P.ksBase P.ksLevel) (Bk : Nat) (hksk : KskEnc P key s' Bk)
    (lk : P.ksk.length = P.k * P.N * (P.ksLevel * (P.n + 1))) (hsh : 4 * (P.n + 1) ≤ P.maxShared)
    (hn : s'.length = P.n) (hdim : P.n % 128 = 0) (hc : 0 < P.count) (hf1 : P.count * (P.n + 1) ≤ 2 ^ 31 - 512)
    (hf2 : P.count * (P.k * P.N + 1) < 2 ^ 32) (hf3 : (P.k + 1) * P.N < 2 ^ 32)
    (hf4 : P.k * P.N * (P.ksLevel * (P.n + 1)) < 2 ^ 31) (hσ : ∀ b, (R.order b).Complete)
    (hprev : R.prev.length = P.k * P.N + 1) (g : Gate)
    (xs ys : List (BitVec 32)) (out : DVec (BitVec 32)) (lx : xs.length = P.count * (P.n + 1))
    (ly : ys.length = P.count * (P.n + 1)) (lo : out.length = P.count * (P.n + 1)) (x y : Nat → Bool) (e1 e2 : Nat → Int)
    (hx : ∀ i, i < P.count → EncBit s' (block (P.n + 1) xs i) (x i) (e1 i))
    (hy : ∀ i, i < P.count → EncBit s' (block (P.n + 1) ys i) (y i) (e2 i))
    (he : ∀ i, i < P.count → |e1 i| + |e2 i| + (1 + weight s') * 2 ^ (30 - logN) < 2 ^ 29) :
    ∃ (m : Memory) (r : List (BitVec 32)), runGate P R g (xs.map some) (ys.map some) out = .ok m ∧
      m .out = some (r.map some) ∧ r.length = P.count * (P.n + 1) ∧
      (∀ i, i < P.count → ∃ f : Int, |f| ≤ P.n * epBound 32 P.N P.k b l S E B 1 + ksBound P Bk ∧
        EncBit s' (block (P.n + 1) r i) (g.eval (x i) (y i)) f) ∧
      ∀ b, b ≠ .out → (g = .xor ∨ g = .xnor → b ≠ .clear) → m b = startMemory (xs.map some) (ys.map some) out b := by
  have hN : 0 < P.N := by rw [hNN]; positivity
  have hsg := Cbs.signPbs_32 T P.N P.k b l logN hNN hlog D B S E hT hD hv hS0 s' key bsk hkey hS hs' hbsk
  rw [hn, ← hpbs] at hsg
  exact gate_spec ⟨hn, hc, hf1, hσ⟩ (by positivity) ⟨Nat.mul_pos hk0 hN, hkey, hprev, hsg, hf3, hf2, hvk, hf4, hsh, lk⟩ Bk hs
    hksk hdim g xs ys out lx ly lo x y e1 e2 hx hy he

/-- C90, the gate NOT, for every dimension: the opposite bits, with the opposite errors. -/
theorem C90_not (P : Params) (R : Runs) (s' : List (BitVec 32)) (hn : s'.length = P.n) (hc : 0 < P.count)
    (hf : P.count * (P.n + 1) ≤ 2 ^ 31 - 512) (hσ : ∀ b, (R.order b).Complete) (xs : List (BitVec 32))
    (out : DVec (BitVec 32)) (lx : xs.length = P.count * (P.n + 1)) (lo : out.length = P.count * (P.n + 1)) :
    ∃ (m : Memory) (r : List (BitVec 32)), runNot P R (xs.map some) out = .ok m ∧
      m .out = some (r.map some) ∧ r.length = P.count * (P.n + 1) ∧
      (∀ i, i < P.count → ∀ x e, EncBit s' (block (P.n + 1) xs i) x e → EncBit s' (block (P.n + 1) r i) (!x) (-e)) ∧
      ∀ b, b ≠ .out → m b = startMemory (xs.map some) [] out b := by
  obtain ⟨r, r1, r2, r3⟩ := negation_ok (R.order .out) (hσ .out) P.count s' xs out hc (by rw [hn]; exact hf)
    (by rw [hn]; exact lx) (by rw [hn]; exact lo)
  rw [hn] at r1 r2 r3
  have h1 : startMemory (xs.map some) [] out .in1 = some (xs.map some) := rfl
  have h2 : startMemory (xs.map some) [] out .out = some out := rfl
  refine ⟨(startMemory (xs.map some) [] out).set .out (some (r.map some)), r, ?_, rfl, r2, fun i hi x e hx => ?_,
    fun b hb => ?_⟩
  · rw [runNot, notOps, run, exec, Memory.get_some h1, Out.bind_ok, Memory.get_some h2, Out.bind_ok, r1]
    rfl
  · rw [EncBit] at hx
    rw [EncBit, r3 i hi, hx, ← Int.cast_neg]
    congr 1
    cases x <;> simp only [bitValue, Bool.not_true, Bool.not_false, if_true, Bool.false_eq_true, if_false] <;> ring
  · rw [Memory.set, if_neg hb]

/-- Circuits with bootstraps that compute signs; see `C90_circuit_partial`. -/
theorem circuit_spec {key : List (BitVec 32)} {Q B M : Int} (hQ : 0 ≤ Q) (Bk : Nat) (hb : Lwe.BinaryKey key)
    (hksk : KskEnc P key s' Bk) (hdim : P.n % 128 = 0) (hM : B + ksBound P Bk ≤ M) (hE : 2 * M + Q < 2 ^ 29)
    (ins : Nat → List (BitVec 32)) (lin : ∀ j, (ins j).length = P.count * (P.n + 1)) (x : Nat → Nat → Bool)
    (hin : ∀ j i, i < P.count → ∃ e : Int, |e| ≤ M ∧ EncBit s' (block (P.n + 1) (ins j) i) (x j i) e) (C : Circuit)
    (R : List Nat → Runs) (o : List Nat → DVec (BitVec 32)) (h : ∀ p, Sized P (R p) s') (hk : ∀ p, Keys P (R p) s' key Q B)
    (lo : ∀ p, (o p).length = P.count * (P.n + 1)) :
    ∃ r : List (BitVec 32), C.onGpu P (fun j => (ins j).map some) R o = .ok (r.map some) ∧
      r.length = P.count * (P.n + 1) ∧ ∀ i, i < P.count → ∃ e : Int, |e| ≤ M ∧
        EncBit s' (block (P.n + 1) r i) (C.eval fun j => x j i) e := by
  induction C generalizing R o with
  | input j => exact ⟨ins j, rfl, lin j, hin j⟩
  | not a ih =>
    obtain ⟨r, r1, r2, r3⟩ := ih (fun p => R (0 :: p)) (fun p => o (0 :: p)) (fun p => h _) (fun p => hk _) (fun p => lo _)
    obtain ⟨m, t, t1, t2, t3, t4, -⟩ := C90_not P (R []) s' (h []).dim (h []).count (h []).fits (h []).orders r (o []) r2 (lo [])
    refine ⟨t, ?_, t3, fun i hi => ?_⟩
    · rw [Circuit.onGpu, r1, Out.bind_ok, t1, Out.bind_ok, Memory.get_some t2]
    · obtain ⟨e, e1, e2⟩ := r3 i hi
      exact ⟨-e, by rw [abs_neg]; exact e1, t4 i hi _ _ e2⟩
  | gate g a b iha ihb =>
    obtain ⟨r, r1, r2, r3⟩ := iha (fun p => R (0 :: p)) (fun p => o (0 :: p)) (fun p => h _) (fun p => hk _) (fun p => lo _)
    obtain ⟨u, u1, u2, u3⟩ := ihb (fun p => R (1 :: p)) (fun p => o (1 :: p)) (fun p => h _) (fun p => hk _) (fun p => lo _)
    choose! e1 e1b e1e using r3
    choose! e2 e2b e2e using u3
    obtain ⟨m, t, t1, t2, t3, t4, -⟩ := gate_spec (h []) hQ (hk []) Bk hb hksk hdim g r u (o []) r2 u2 (lo []) _ _ e1 e2 e1e e2e
      (fun i hi => by have := e1b i hi; have := e2b i hi; omega)
    refine ⟨t, ?_, t3, fun i hi => ?_⟩
    · rw [Circuit.onGpu, r1, Out.bind_ok, u1, Out.bind_ok, t1, Out.bind_ok, Memory.get_some t2]
    · obtain ⟨f, f1, f2⟩ := t4 i hi
      exact ⟨f, le_trans f1 hM, f2⟩

/-- C90, circuits: if `M` bounds the errors of the inputs and those that the gates give, and twice `M` leaves the margin of
the gates, then circuits of any size and depth decrypt to the value of the circuit, for `count` assignments at once. -/
theorem C90_circuit_partial (P : Params) (T : Transform 32) (b l logN : Nat) (hNN : P.N = 2 ^ logN)
    (hlog : logN + 2 < 32) (hk0 : 0 < P.k) (D B S E : Int) (hT : T.Accurate P.N (l * (P.k + 1)) D B) (hD : 2 ^ (b - 1) ≤ D)
    (hv : ValidParams 32 b l) (hS0 : 0 ≤ S) (s' key bsk : List (BitVec 32)) (hkey : KeyFits P.N P.k key)
    (hS : KeyBound S key) (hs' : Lwe.BinaryKey s') (hs : Lwe.BinaryKey key) (hbsk : BskEnc P.N P.k b l s' key bsk E)
    (hpbs : P.pbs = fun o c a => Am.bootstrap T P.N P.k b l (convert T P.N bsk) a c o)
    (hvk : ValidParams 32 P.ksBase P.ksLevel) (Bk : Nat) (hksk : KskEnc P key s' Bk)
    (lk : P.ksk.length = P.k * P.N * (P.ksLevel * (P.n + 1))) (hsh : 4 * (P.n + 1) ≤ P.maxShared)
    (hn : s'.length = P.n) (hdim : P.n % 128 = 0) (hc : 0 < P.count) (hf1 : P.count * (P.n + 1) ≤ 2 ^ 31 - 512)
    (hf2 : P.count * (P.k * P.N + 1) < 2 ^ 32) (hf3 : (P.k + 1) * P.N < 2 ^ 32)
    (hf4 : P.k * P.N * (P.ksLevel * (P.n + 1)) < 2 ^ 31) (M : Int)
    (hM : P.n * epBound 32 P.N P.k b l S E B 1 + ksBound P Bk ≤ M)
    (hE : 2 * M + (1 + weight s') * 2 ^ (30 - logN) < 2 ^ 29)
    (R : List Nat → Runs) (hσ : ∀ p b, ((R p).order b).Complete) (hprev : ∀ p, (R p).prev.length = P.k * P.N + 1)
    (o : List Nat → DVec (BitVec 32)) (lo : ∀ p, (o p).length = P.count * (P.n + 1))
    (ins : Nat → List (BitVec 32)) (lin : ∀ j, (ins j).length = P.count * (P.n + 1)) (x : Nat → Nat → Bool)
    (hin : ∀ j i, i < P.count → ∃ e : Int, |e| ≤ M ∧ EncBit s' (block (P.n + 1) (ins j) i) (x j i) e) (C : Circuit) :
    ∃ r : List (BitVec 32), C.onGpu P (fun j => (ins j).map some) R o = .ok (r.map some) ∧
      ∀ i, i < P.count → decryptBit s' (block (P.n + 1) r i) = C.eval fun j => x j i := by
  have hN : 0 < P.N := by rw [hNN]; positivity
  have hsg := Cbs.signPbs_32 T P.N P.k b l logN hNN hlog D B S E hT hD hv hS0 s' key bsk hkey hS hs' hbsk
  rw [hn, ← hpbs] at hsg
  have hQ : 0 ≤ (1 + weight s' : Int) * 2 ^ (30 - logN) := by positivity
  obtain ⟨r, r1, -, r3⟩ := circuit_spec hQ Bk hs hksk hdim hM hE ins lin x hin C R o (fun p => ⟨hn, hc, hf1, hσ p⟩)
    (fun p => ⟨Nat.mul_pos hk0 hN, hkey, hprev p, hsg, hf3, hf2, hvk, hf4, hsh, lk⟩) lo
  refine ⟨r, r1, fun i hi => ?_⟩
  obtain ⟨e, e1, e2⟩ := r3 i hi
  have := abs_nonneg e
  exact decrypt_of_enc _ _ _ e e2 (by omega)

/-- C90 is violated: XOR and XNOR return without giving back the array of the cleartexts, `count` words per call. -/
theorem C90_leak_violated (P : Params) (R : Runs) (s' key : List (BitVec 32)) (Q B : Int) (h : Sized P R s') (hQ : 0 ≤ Q)
    (hk : Keys P R s' key Q B) (g : Gate) (hg : g = .xor ∨ g = .xnor)
    (xs ys : List (BitVec 32)) (out : DVec (BitVec 32)) (lx : xs.length = P.count * (P.n + 1))
    (ly : ys.length = P.count * (P.n + 1)) (lo : out.length = P.count * (P.n + 1)) (x y : Nat → Bool) (e1 e2 : Nat → Int)
    (hx : ∀ i, i < P.count → EncBit s' (block (P.n + 1) xs i) (x i) (e1 i))
    (hy : ∀ i, i < P.count → EncBit s' (block (P.n + 1) ys i) (y i) (e2 i))
    (he : ∀ i, i < P.count → |e1 i| + |e2 i| + Q < 2 ^ 29) :
    startMemory (xs.map some) (ys.map some) out .clear = none ∧
    ∃ (m : Memory) (v : DVec (BitVec 32)), runGate P R g (xs.map some) (ys.map some) out = .ok m ∧ m .clear = some v ∧
      v.length = P.count := by
  obtain ⟨m, c, r, r1, -, -, r4, -⟩ := gate_general h hQ hk g xs ys out lx ly lo x y e1 e2 hx hy he
  refine ⟨rfl, m, (List.replicate P.count 2#32).map some, r1, ?_, by simp⟩
  rw [r4 .clear (by decide), if_pos ⟨rfl, hg⟩]

/-- C90 is violated: for a dimension that is not a multiple of 128 there are schedules of the keyswitch that lose the bodies
(C71). The bootstrap gave encryptions of the right bits, but the phase of every result is wrong by the body of the
bootstrapped ciphertext. -/
theorem C90_body_lost_violated (P : Params) (R : Runs) (s' key : List (BitVec 32)) (Q B : Int) (h : Sized P R s') (hQ : 0 ≤ Q)
    (hk : Keys P R s' key Q B) (hdim : P.n % 128 ≠ 0)
    (hks : ∀ j, R.ks j = bodyFirst (w := 32) ⟨P.ksBase, P.ksLevel, P.k * P.N, P.n, [], [], j⟩) (g : Gate)
    (xs ys : List (BitVec 32)) (out : DVec (BitVec 32)) (lx : xs.length = P.count * (P.n + 1))
    (ly : ys.length = P.count * (P.n + 1)) (lo : out.length = P.count * (P.n + 1)) (x y : Nat → Bool) (e1 e2 : Nat → Int)
    (hx : ∀ i, i < P.count → EncBit s' (block (P.n + 1) xs i) (x i) (e1 i))
    (hy : ∀ i, i < P.count → EncBit s' (block (P.n + 1) ys i) (y i) (e2 i))
    (he : ∀ i, i < P.count → |e1 i| + |e2 i| + Q < 2 ^ 29) :
    ∃ (m : Memory) (r : List (BitVec 32)), runGate P R g (xs.map some) (ys.map some) out = .ok m ∧
      m .out = some (r.map some) ∧
      ∀ i, i < P.count → ∃ (c good : List (BitVec 32)) (f : Int), |f| ≤ B ∧ EncBit key c (g.eval (x i) (y i)) f ∧
        Lwe.keyswitchCiphertext P.ksBase P.ksLevel (P.n + 1) P.ksk (List.replicate (P.n + 1) 0) c = some good ∧
        phase s' (block (P.n + 1) r i) = phase s' good - c.getD (P.k * P.N) 0 := by
  obtain ⟨m, c, r, r1, r2, -, -, r5, r6⟩ := gate_general h hQ hk g xs ys out lx ly lo x y e1 e2 hx hy he
  refine ⟨m, r, r1, r2, fun i hi => ?_⟩
  obtain ⟨t1, f, t2, t3⟩ := r5 i hi
  have hlost := (r6 i hi (List.replicate (P.n + 1) 0) (by simp)).2 hks hdim
  have hfz : Lwe.Fits s' (List.replicate (P.n + 1) (0 : BitVec 32)) := by rw [Lwe.Fits, List.length_replicate, h.dim]
  obtain ⟨mask, body, hsplit, hm⟩ := Lwe.exists_split (s := key) t1
  have hl : P.ksk.length = key.length * (P.ksLevel * (s'.length + 1)) := by rw [hk.kskLen, hk.keyLen, h.dim]
  obtain ⟨d, c1, _, c3⟩ := Lwe.keyswitch_phase P.ksBase P.ksLevel hk.decomp.level key.length s' P.ksk
    (List.replicate (P.n + 1) 0) mask body hl hfz hm
  obtain ⟨d', d1, _, d3⟩ := Lwe.keyswitch_phase P.ksBase P.ksLevel hk.decomp.level key.length s' P.ksk
    (List.replicate (P.n + 1) 0) mask 0 hl hfz hm
  rw [h.dim] at c1 d1
  rw [hsplit] at t3 hlost
  rw [withoutBody, List.dropLast_concat, show (0#32 : BitVec 32) = 0 from rfl, d1] at hlost
  refine ⟨_, d, f, t2, t3, c1, ?_⟩
  rw [← Option.some.inj hlost, d3, c3, List.getD_eq_getElem?_getD, ← hk.keyLen, ← hm,
    List.getElem?_append_right le_rfl, Nat.sub_self]
  simp only [List.getElem?_cons_zero, Option.getD_some]
  ring

/-- C90 is violated: a gate on no ciphertext terminates the process. -/
theorem C90_empty_violated (P : Params) (R : Runs) (hc : P.count = 0) (g : Gate) (x y out : DVec (BitVec 32)) :
    runGate P R g x y out = .exit ∧ runNot P R x out = .exit := by
  have h1 : ∀ ops, run P R (.alloc .lwe1 ((P.n + 1) * P.count) :: .add .lwe1 .in1 .in2 :: ops) (startMemory x y out) = .exit := by
    intro ops
    simp only [run, exec, Out.bind_ok, Memory.get, Memory.set, startMemory, reduceCtorEq, if_false, if_true, hostAddition, hc,
      Nat.zero_mul, launch_zero]
    rfl
  refine ⟨by cases g <;> exact h1 _, ?_⟩
  simp only [runNot, notOps, run, exec, Out.bind_ok, Memory.get, startMemory, hostNegation, hc, Nat.zero_mul, launch_zero]
  rfl

/-! ### The hypotheses can be met -/

/-- The hypotheses of C90 hold together: dimension 128, `N = 512`, two lanes, inputs with errors of 1000 and -1000. -/
example : ∃ (P : Params) (R : Runs) (s' key bsk : List (BitVec 32)) (xs ys : List (BitVec 32)) (M : Int),
    P.N = 2 ^ 9 ∧ 0 < P.k ∧ (exactTransform 32 512).Accurate P.N (3 * (P.k + 1)) (2 ^ 9) 0 ∧ ValidParams 32 10 3 ∧
    KeyFits P.N P.k key ∧ KeyBound 1 key ∧ Lwe.BinaryKey s' ∧ Lwe.BinaryKey key ∧ BskEnc P.N P.k 10 3 s' key bsk 0 ∧
    (P.pbs = fun o c a => Am.bootstrap (exactTransform 32 512) P.N P.k 10 3 (convert (exactTransform 32 512) P.N bsk) a c o) ∧
    ValidParams 32 P.ksBase P.ksLevel ∧ KskEnc P key s' 0 ∧ P.ksk.length = P.k * P.N * (P.ksLevel * (P.n + 1)) ∧
    4 * (P.n + 1) ≤ P.maxShared ∧ s'.length = P.n ∧ P.n % 128 = 0 ∧ P.count = 2 ∧ (∀ b, (R.order b).Complete) ∧
    R.prev.length = P.k * P.N + 1 ∧ xs.length = P.count * (P.n + 1) ∧ ys.length = P.count * (P.n + 1) ∧
    (∀ i, i < P.count → EncBit s' (block (P.n + 1) xs i) (i == 0) 1000) ∧
    (∀ i, i < P.count → EncBit s' (block (P.n + 1) ys i) true (-1000)) ∧ 1000 ≤ M ∧
    P.n * epBound 32 P.N P.k 10 3 1 0 0 1 + ksBound P 0 ≤ M ∧ 2 * M + (1 + weight s') * 2 ^ (30 - 9) < 2 ^ 29 := by
  let s' : List (BitVec 32) := 1 :: List.replicate 127 0
  let key : List (BitVec 32) := List.replicate 512 1
  obtain ⟨ksk, h1, h2⟩ := Be.exists_ksk 4 6 key s'
  obtain ⟨xs, h3, h4⟩ := exists_blocks (α := BitVec 32) 2 (s'.length + 1) (by omega)
    (fun i c => EncBit s' c (i == 0) 1000) (fun i _ => ⟨List.replicate s'.length 0 ++ [((bitValue (i == 0) + 1000 : Int) : BitVec 32)],
      by simp, by rw [EncBit, Lwe.phase_append s' _ _ (by simp), Lwe.multisum_zero, sub_zero]⟩)
  obtain ⟨ys, h5, h6⟩ := exists_blocks (α := BitVec 32) 2 (s'.length + 1) (by omega)
    (fun i c => EncBit s' c true (-1000)) (fun i _ => ⟨List.replicate s'.length 0 ++ [((bitValue true + -1000 : Int) : BitVec 32)],
      by simp, by rw [EncBit, Lwe.phase_append s' _ _ (by simp), Lwe.multisum_zero, sub_zero]⟩)
  have hl : s'.length = 128 := by simp only [s', List.length_cons, List.length_replicate]
  have hkl : key.length = 512 := by simp only [key, List.length_replicate]
  have hwt : weight s' = 1 := by
    have : weight (1#32 :: List.replicate 127 0#32) = 1 := by decide +kernel
    exact this
  rw [hl] at h1 h2 h3 h4 h5 h6
  rw [hkl] at h1
  refine ⟨⟨128, 1, 512, 2, 1000, 4, 6, ksk, fun o c a => Am.bootstrap (exactTransform 32 512) 512 1 10 3
      (convert (exactTransform 32 512) 512 (s'.map (gadgetGgsw 512 1 10 3)).flatten) a c o⟩,
    ⟨fun _ => List.range, fun _ => [], fun _ => 0, List.replicate 513 0⟩, s', key,
    (s'.map (gadgetGgsw 512 1 10 3)).flatten, xs, ys, 2 ^ 26, by norm_num, by norm_num,
    exact_accurate _ _ (by norm_num) _, ⟨by norm_num, by norm_num, by norm_num⟩, ?_, ?_, ?_, ?_,
    gadget_bsk 512 1 10 3 (by norm_num) (by norm_num) s' key, rfl, ⟨by norm_num, by norm_num, by norm_num⟩,
    ⟨fun _ _ => 0, fun _ _ _ _ => by simp, fun i hi j hj => h2 i hi j hj⟩, h1.trans (by norm_num), by norm_num, hl, by norm_num, rfl,
    fun _ _ => List.Perm.refl _, by rw [List.length_replicate]; norm_num, h3, h5, h4, h6, by norm_num, ?_, ?_⟩
  · rw [KeyFits, hkl]; norm_num
  · intro x hx
    rw [List.eq_of_mem_replicate hx]; decide
  · intro x hx
    rcases List.mem_cons.1 hx with h | h
    · exact .inr h
    · exact .inl (List.eq_of_mem_replicate h)
  · intro x hx
    rw [List.eq_of_mem_replicate hx]; right; rfl
  · have : (128 : Int) * epBound 32 512 1 10 3 1 0 0 1 + (((1 * 512 : Nat) : Int) * 2 ^ (32 - 4 * 6 - 1) +
        ((1 * 512 : Nat) : Int) * (6 : Nat) * 2 ^ (4 - 1) * (0 : Nat)) ≤ 2 ^ 26 := by decide +kernel
    exact this
  · rw [hwt]; norm_num

/-- A circuit with a value that depends on all its inputs: the majority of three. -/
example : ∀ x : Nat → Bool, (Circuit.gate .or (.gate .and (.input 0) (.input 1))
    (.gate .and (.input 2) (.gate .or (.input 0) (.not (.not (.input 1)))))).eval x =
      ((x 0 && x 1) || (x 2 && (x 0 || x 1))) := by
  intro x
  simp [Circuit.eval, Gate.eval]

end Verif.Cuda.Bg
