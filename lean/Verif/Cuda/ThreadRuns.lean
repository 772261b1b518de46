import Verif.Cuda.ThreadExtract
import Verif.Cuda.KeyswitchValue
/-
Lemmas on the runs of the threads of a block: the preparation of the digits of one level.
-/
namespace Verif.Cuda.Thr
open Grid Verif.Poly

variable {w : Nat}

/-- The state of a decomposition after `n` levels. -/
def stateAfter (b : Nat) : Nat → BitVec w → BitVec w
  | 0, s => s
  | n + 1, s => stateAfter b n (decomposeOne s ((1#w <<< b) - 1#w) b).2

theorem stateAfter_succ (b n : Nat) : ∀ s : BitVec w,
    stateAfter b (n + 1) s = (decomposeOne (stateAfter b n s) ((1#w <<< b) - 1#w) b).2 := by
  induction n with
  | zero => intro s; rfl
  | succ n ih => intro s; rw [stateAfter, ih]; rfl

theorem levelDigit_state (b n : Nat) : ∀ s : BitVec w,
    levelDigit b n s = (decomposeOne (stateAfter b n s) ((1#w <<< b) - 1#w) b).1 := by
  induction n with
  | zero => intro s; rfl
  | succ n ih => intro s; rw [levelDigit, ih]; rfl

abbrev PhaseOf (w T : Nat) :=
  (Fin T → List (Ins w)) × (Loc → Option (Fin T)) × (Loc → (Loc → BitVec w) → BitVec w)

section
variable (T h : Nat) (hT : 0 < T)

/-- The phases of the decomposition of the only polynomial. -/
def decPhase (b : Nat) : PhaseOf w T :=
  (fun t => decomposePolynomial T (2 * h) b 0 0 t, ownDec T (T * (2 * h)) 0 0 hT, decVal (T * (2 * h)) b 0 0)

def runPhase (m : Loc → BitVec w) (p : PhaseOf w T) : Loc → BitVec w := Phase.effect p.2.1 p.2.2 m

/-- The effect of `n` levels. -/
theorem dec_levels (hh : 0 < h) (b n : Nat) : ∀ (m : Loc → BitVec w),
    let m' := (List.replicate n (decPhase T h hT b)).foldl (runPhase T) m
    (∀ c, c < T * (2 * h) → m' (.rot, c) = stateAfter b n (m (.rot, c))) ∧
    (∀ q, q < T * (2 * h) → 0 < n → m' (.dig, q) = castDigit (levelDigit b (n - 1) (m (.rot, coeffAt (T * (2 * h)) q)))) := by
  induction n with
  | zero =>
    intro m m'
    exact ⟨fun c _ => rfl, fun q _ hn => by omega⟩
  | succ n ih =>
    intro m m'
    obtain ⟨h1, _⟩ := ih m
    have hm' : m' = runPhase T ((List.replicate n (decPhase T h hT b)).foldl (runPhase T) m) (decPhase T h hT b) := by
      simp only [m', List.replicate_succ', List.foldl_append, List.foldl_cons, List.foldl_nil]
    generalize (List.replicate n (decPhase T h hT b)).foldl (runPhase T) m = m1 at *
    have hTh : 0 < T * h := Nat.mul_pos hT hh
    have hN : T * (2 * h) = 2 * (T * h) := by ring
    constructor
    · intro c hc
      rw [hm', runPhase, Phase.effect, if_pos (by simp [decPhase, ownDec]; omega)]
      simp only [decPhase, decVal]
      rw [h1 c hc, stateAfter_succ]
    · intro q hq _
      rw [hm', runPhase, Phase.effect, if_pos (by simp [decPhase, ownDec]; omega)]
      simp only [decPhase, decVal, Nat.zero_mul, Nat.zero_add, Nat.sub_zero]
      rw [h1 _ (by
        unfold coeffAt
        split_ifs <;> omega), Nat.add_sub_cancel, levelDigit_state]

theorem segments_level (b l level t : Nat) :
    segments (decomposeLevel (w := w) T (2 * h) 1 b l level t) =
      List.replicate (l - level) (decomposePolynomial T (2 * h) b 0 0 t) ++ [[]] := by
  rw [decomposeLevel]
  have : ∀ n, segments ((List.range n).flatMap fun _ => decomposeNext (w := w) T (2 * h) 1 b t) =
      List.replicate n (decomposePolynomial T (2 * h) b 0 0 t) ++ [[]] := by
    intro n
    induction n with
    | zero => rfl
    | succ n ih =>
      rw [List.range_succ_eq_map, List.flatMap_cons, List.flatMap_map]
      have e : (decomposeNext (w := w) T (2 * h) 1 b t) = plain (decomposePolynomial T (2 * h) b 0 0 t) ++ [.sync] := by
        simp [decomposeNext]
      rw [show ∀ c, decomposeNext (w := w) T (2 * h) 1 b t ++ c =
          plain (decomposePolynomial T (2 * h) b 0 0 t) ++ .sync :: c from fun c => by
        rw [e, List.append_assoc, List.singleton_append], segments_plain_sync, ih, List.replicate_succ]
      rfl
  exact this _

/-- The phases of the preparation. -/
def prepPhases (b l j level : Nat) : List (PhaseOf w T) :=
  (fun t => multiplyByMonomialAndSub T (2 * h) 1 j t ++ roundInplace T (2 * h) 1 b l t,
      ownOf T (1 * (T * (2 * h))) hT .rot,
      fun (ℓ : Loc) (m : Loc → BitVec w) => roundToClosestMultiple b l (Phase.effect (ownOf T (1 * (T * (2 * h))) hT .rot)
        (fun ℓ m => rotateVal (T * (2 * h)) j (ℓ.2 / (T * (2 * h))) (ℓ.2 % (T * (2 * h))) m) m
        (.rot, ℓ.2 / (T * (2 * h)) * (T * (2 * h)) + ℓ.2 % (T * (2 * h))))) ::
  (fun t => gadgetInit T (2 * h) 1 b l t, ownOf T (1 * (T * (2 * h))) hT .rot,
      fun (ℓ : Loc) (m : Loc → BitVec w) =>
        m (.rot, ℓ.2 / (T * (2 * h)) * (T * (2 * h)) + ℓ.2 % (T * (2 * h))) >>> (w - b * l)) ::
  (List.replicate (l - level) (decPhase T h hT b) ++ [(fun _ => [], fun _ => none, fun ℓ m => m ℓ)])

theorem prepare_segments (b l j level : Nat) (t : Fin T) :
    program T (prepare (w := w) T (2 * h) b l j level) t = (prepPhases T h hT b l j level).map fun p => p.1 t := by
  rw [program, prepare]
  have hpl : ∀ a c : List (Ins w), plain a ++ plain c = plain (a ++ c) := fun a c => by simp [plain]
  simp only [hpl, List.append_assoc, List.cons_append, List.nil_append]
  rw [segments_plain_sync, segments_plain_sync, segments_level]
  simp [prepPhases, decPhase]

theorem prepPhases_phase (hh : 0 < h) (b l j level : Nat) (hj : j ≤ 2 * (T * (2 * h))) :
    ∀ p ∈ prepPhases (w := w) T h hT b l j level, Phase p.1 p.2.1 p.2.2 := by
  intro p hp
  simp only [prepPhases, List.mem_append, List.mem_cons, List.not_mem_nil, or_false, List.mem_replicate] at hp
  rcases hp with rfl | rfl | ⟨_, rfl⟩ | rfl
  · refine Phase.append (rotate_phase T (2 * h) 1 j hT hj) (round_phase T (2 * h) 1 b l hT) ?_
    intro ℓ m m' ho hm
    obtain ⟨ha, hq⟩ := ownOf_isSome.1 ho
    have : (Arr.rot, ℓ.2 / (T * (2 * h)) * (T * (2 * h)) + ℓ.2 % (T * (2 * h))) = ℓ := by
      refine Prod.ext ha.symm ?_
      simp only
      rw [Nat.mul_comm]; exact Nat.div_add_mod _ _
    simp only [this, hm]
  · exact shift_phase T (2 * h) 1 b l hT
  · exact decompose_phase T h b 0 0 hT hh
  · exact ⟨fun b i hi => by simp at hi, fun b m r ℓ ho => by simp at ho⟩

theorem prepare_run (hT : 0 < T) (hh : 0 < h) (b l j level : Nat) (hj : j ≤ 2 * (T * (2 * h))) (hl : level < l) (m : Loc → BitVec w)
    (x : Fin T → Regs w) (bs : List (Fin T))
    (hd : Done (program T (prepare T (2 * h) b l j level)) (run (program T (prepare T (2 * h) b l j level)) bs
      (start (program T (prepare T (2 * h) b l j level)) m x))) (q : Nat) (hq : q < T * (2 * h)) :
    (run (program T (prepare T (2 * h) b l j level)) bs (start (program T (prepare T (2 * h) b l j level)) m x)).mem
      (.dig, q) = castDigit (gpuDigit b l (rotateVal (T * (2 * h)) j 0 (coeffAt (T * (2 * h)) q) m) (l - level - 1)) := by
  have : Nonempty (Fin T) := ⟨⟨0, hT⟩⟩
  rw [run_phases (prepPhases T h hT b l j level) (prepPhases_phase T h hT hh b l j level hj) _
    (prepare_segments T h hT b l j level) m x bs hd]
  have hTh : 0 < T * h := Nat.mul_pos hT hh
  have hN : T * (2 * h) = 2 * (T * h) := by ring
  have hc : coeffAt (T * (2 * h)) q < T * (2 * h) := by
    unfold coeffAt
    split_ifs <;> omega
  rw [prepPhases, List.foldl_cons, List.foldl_cons, List.foldl_append, List.foldl_cons, List.foldl_nil]
  rw [Phase.effect, if_neg (by simp)]
  obtain ⟨_, h2⟩ := dec_levels T h hT hh b (l - level)
    (Phase.effect (ownOf T (1 * (T * (2 * h))) hT .rot)
      (fun ℓ m => m (.rot, ℓ.2 / (T * (2 * h)) * (T * (2 * h)) + ℓ.2 % (T * (2 * h))) >>> (w - b * l))
      (Phase.effect (ownOf T (1 * (T * (2 * h))) hT .rot)
        (fun ℓ m => roundToClosestMultiple b l (Phase.effect (ownOf T (1 * (T * (2 * h))) hT .rot)
          (fun ℓ m => rotateVal (T * (2 * h)) j (ℓ.2 / (T * (2 * h))) (ℓ.2 % (T * (2 * h))) m) m
          (.rot, ℓ.2 / (T * (2 * h)) * (T * (2 * h)) + ℓ.2 % (T * (2 * h))))) m))
  refine (h2 q hq (by omega)).trans ?_
  have hown : ∀ c, c < T * (2 * h) → (ownOf T (1 * (T * (2 * h))) hT .rot (.rot, c)).isSome = true := fun c hc =>
    ownOf_isSome.2 ⟨rfl, by simpa using hc⟩
  have hdm : ∀ c, c / (T * (2 * h)) * (T * (2 * h)) + c % (T * (2 * h)) = c := fun c => by
    rw [Nat.mul_comm]; exact Nat.div_add_mod _ _
  generalize coeffAt (T * (2 * h)) q = c at *
  simp only [Phase.effect, hown c hc, if_true, hdm, gpuDigit, Nat.zero_mul, Nat.zero_add, Nat.div_eq_of_lt hc, Nat.mod_eq_of_lt hc]

end

/-- The conversion to `int32_t` does not change a digit of at most 31 bits. -/
theorem castDigit_int (hw : 32 ≤ w) (d : Int) (h1 : -(2 ^ 31) ≤ d) (h2 : d < 2 ^ 31) :
    castDigit ((d : BitVec w)) = (d : BitVec w) := by
  rw [castDigit]
  have e : ((d : BitVec w).setWidth 32) = BitVec.ofInt 32 d := by
    rw [← BV.ofInt_eq_cast]
    apply BitVec.eq_of_toNat_eq
    rw [BitVec.toNat_setWidth, BitVec.toNat_ofInt, BitVec.toNat_ofInt]
    obtain ⟨k, rfl⟩ := Nat.exists_eq_add_of_le hw
    have h32 : (0 : Int) < 4294967296 := by norm_num
    have hk : (0 : Int) < 2 ^ (32 + k) := by positivity
    apply Int.ofNat.inj
    simp only [Int.ofNat_eq_natCast]
    push_cast
    rw [Int.toNat_of_nonneg (Int.emod_nonneg _ hk.ne'), Int.toNat_of_nonneg (Int.emod_nonneg _ h32.ne')]
    exact Int.emod_emod_of_dvd d ⟨2 ^ k, by rw [pow_add]; norm_num⟩
  rw [e]
  apply BitVec.eq_of_toInt_eq
  rw [BitVec.toInt_signExtend_of_le hw, BitVec.toInt_ofInt, ← BV.ofInt_eq_cast, BitVec.toInt_ofInt,
    Int.bmod_eq_of_le (by norm_num; omega) (by norm_num; omega)]
  symm
  have hp : (2 : Int) ^ 32 ≤ 2 ^ w := pow_le_pow_right₀ (by norm_num) hw
  have hp' : ((2 ^ w : Nat) : Int) = 2 ^ w := by push_cast; rfl
  generalize (2 ^ w : Nat) = P at *
  exact Int.bmod_eq_of_le (by omega) (by omega)

end Verif.Cuda.Thr
