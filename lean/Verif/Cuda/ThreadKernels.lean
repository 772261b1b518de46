import Verif.Cuda.ThreadLemmas
import Verif.Cuda.Keyswitch
import Verif.Poly.Props
/-
Lemmas on the functions of Verif.Cuda.Threads: what each does to the arrays of the block.
-/
namespace Verif.Cuda.Thr
open Grid Verif.Poly

variable {w : Nat}

/-- Polynomial `z` of an array. -/
def poly (m : Loc → BitVec w) (A : Arr) (N z : Nat) : List (BitVec w) := (List.range N).map fun i => m (A, z * N + i)

theorem poly_length (m : Loc → BitVec w) (A : Arr) (N z : Nat) : (poly m A N z).length = N := by simp [poly]

theorem poly_getD (m : Loc → BitVec w) (A : Arr) (N z i : Nat) (hi : i < N) :
    (poly m A N z).getD i 0 = m (A, z * N + i) := by
  rw [List.getD_eq_getElem?_getD, poly, List.getElem?_map, List.getElem?_range hi]
  rfl

/-- Reduction of an index below `3N`. -/
theorem div_cases (N q : Nat) (h : q < 3 * N) : (q < N ∧ q / N = 0 ∧ q % N = q) ∨
    (N ≤ q ∧ q < 2 * N ∧ q / N = 1 ∧ q % N = q - N) ∨ (2 * N ≤ q ∧ q / N = 2 ∧ q % N = q - 2 * N) := by
  rcases Nat.lt_or_ge q N with h1 | h1
  · exact .inl ⟨h1, Nat.div_eq_of_lt h1, Nat.mod_eq_of_lt h1⟩
  · rcases Nat.lt_or_ge q (2 * N) with h2 | h2
    · have e : q / N = 1 := by
        rw [Nat.div_eq_iff (by omega)]
        constructor <;> omega
      refine .inr (.inl ⟨h1, h2, e, ?_⟩)
      have := Nat.div_add_mod q N
      rw [e] at this; omega
    · have e : q / N = 2 := by
        rw [Nat.div_eq_iff (by omega)]
        constructor <;> omega
      refine .inr (.inr ⟨h2, e, ?_⟩)
      have := Nat.div_add_mod q N
      rw [e] at this; omega

/-- The coefficients of a division by a monomial of degree at most `2N`. -/
theorem div_coeff (N j c : Nat) (hj : j ≤ 2 * N) (p : List (BitVec w)) (hp : p.length = N) (hc : c < N) :
    (monomialDiv p j).getD c 0 =
      if j < N then (if c < N - j then p.getD (c + j) 0 else -p.getD (c + j - N) 0)
      else (if c < N - (j - N) then -p.getD (c + (j - N)) 0 else p.getD (c + (j - N) - N) 0) := by
  rw [monomialDiv_getD N (by omega) p hp j c hc, ext]
  rcases div_cases N (c + j) (by omega) with ⟨h, e1, e2⟩ | ⟨h, h', e1, e2⟩ | ⟨h, e1, e2⟩
  · rw [e1, e2, if_pos (by omega), if_pos (by omega)]; simp
  · rw [e1, e2]
    by_cases hjN : j < N
    · rw [if_pos hjN, if_neg (by omega)]; simp
    · rw [if_neg hjN, if_pos (by omega), show c + j - N = c + (j - N) by omega]; simp
  · rw [e1, e2, if_neg (by omega), if_neg (by omega), show c + j - 2 * N = c + (j - N) - N by omega, neg_one_sq, one_mul]

/-- The coefficients of a product with a monomial of degree at most `2N`. -/
theorem mul_coeff (N j c : Nat) (hj : j ≤ 2 * N) (p : List (BitVec w)) (hp : p.length = N) (hc : c < N) :
    (monomialMul p j).getD c 0 =
      if j < N then (if c < j then -p.getD (c + N - j) 0 else p.getD (c - j) 0)
      else (if c < j - N then p.getD (c + N - (j - N)) 0 else -p.getD (c - (j - N)) 0) := by
  have hN : 0 < N := by omega
  set g : Nat → BitVec w := fun c => if j < N then (if c < j then -p.getD (c + N - j) 0 else p.getD (c - j) 0)
      else (if c < j - N then p.getD (c + N - (j - N)) 0 else -p.getD (c - (j - N)) 0) with hg
  set q : List (BitVec w) := (List.range N).map g with hq
  have hql : q.length = N := by simp [hq]
  have hqg : ∀ i, i < N → q.getD i 0 = g i := by
    intro i hi
    rw [List.getD_eq_getElem?_getD, hq, List.getElem?_map, List.getElem?_range hi]
    rfl
  have hd : monomialDiv q j = p := by
    apply List.ext_getElem
    · rw [monomialDiv_length, hql, hp]
    · intro i h1 h2
      have hi : i < N := by rw [hp] at h2; exact h2
      have e1 : (monomialDiv q j)[i] = (monomialDiv q j).getD i 0 := by
        rw [List.getD_eq_getElem?_getD, List.getElem?_eq_getElem h1]; rfl
      have e2 : p[i] = p.getD i 0 := by rw [List.getD_eq_getElem?_getD, List.getElem?_eq_getElem h2]; rfl
      rw [e1, e2, monomialDiv_getD N hN q hql j i hi, ext]
      rcases div_cases N (i + j) (by omega) with ⟨h, f1, f2⟩ | ⟨h, h', f1, f2⟩ | ⟨h, f1, f2⟩
      · rw [f1, f2, hqg _ (by omega), hg]
        simp only
        rw [if_pos (by omega), if_neg (by omega), Nat.add_sub_cancel]; simp
      · rw [f1, f2, hqg _ (by omega), hg]
        simp only
        by_cases hjN : j < N
        · rw [if_pos hjN, if_pos (by omega), show i + j - N + N - j = i by omega]; simp
        · rw [if_neg hjN, if_neg (by omega), show i + j - N - (j - N) = i by omega]; simp
      · rw [f1, f2, hqg _ (by omega), hg]
        simp only
        rw [if_neg (by omega), if_pos (by omega), show i + j - 2 * N + N - (j - N) = i by omega, neg_one_sq, one_mul]
  have hm : monomialMul p j = q := by rw [← hd]; exact (C23_inverse N hN q hql j).2
  rw [hm, hqg c hc]

/-! ### The phases -/

/-- The value that the division writes. -/
def divideVal (N j : Nat) (zeroAcc : Bool) (z c : Nat) (m : Loc → BitVec w) : BitVec w :=
  if zeroAcc then 0#w else (monomialDiv (poly m .lut N z) j).getD c 0

theorem divide_phase (T opt np j : Nat) (hT : 0 < T) (zeroAcc : Bool) (hj : j ≤ 2 * (T * opt)) :
    Phase (fun t : Fin T => divideByMonomial (w := w) T opt np j zeroAcc t) (ownOf T (np * (T * opt)) hT .acc)
      (fun ℓ m => divideVal (T * opt) j zeroAcc (ℓ.2 / (T * opt)) (ℓ.2 % (T * opt)) m) := by
  refine phase_loops T opt np hT .acc _ (divideVal (T * opt) j zeroAcc) ?_ ?_ ?_
  · intro z c _ _ i hi
    simp only [divideCell] at hi
    split_ifs at hi <;>
      · simp only [List.mem_cons, List.not_mem_nil, or_false] at hi
        first
        | (subst hi; exact rfl)
        | (rcases hi with rfl | rfl
           · exact .inr (by simp)
           · exact rfl)
  · intro z c hz hc m r
    rw [divideVal]
    cases zeroAcc with
    | true => simp [divideCell, solo, wr, Instr.run]
    | false =>
      simp only [Bool.false_eq_true, if_false]
      rw [div_coeff (T * opt) j c hj _ (poly_length _ _ _ _) hc]
      simp only [divideCell, Bool.false_eq_true, if_false]
      split_ifs with h1 h2 h2
      · rw [poly_getD _ _ _ _ _ (by omega)]; simp [solo, rd, wr, Instr.run]
      · rw [poly_getD _ _ _ _ _ (by omega)]; simp [solo, rd, wr, Instr.run]
      · rw [poly_getD _ _ _ _ _ (by omega)]; simp [solo, rd, wr, Instr.run]
      · rw [poly_getD _ _ _ _ _ (by omega)]; simp [solo, rd, wr, Instr.run]
  · intro z c hz hc m m' h
    rw [divideVal, divideVal]
    have : poly m .lut (T * opt) z = poly m' .lut (T * opt) z := by
      apply List.map_congr_left
      intro i _
      exact h _ (.inr (by simp))
    rw [this]

/-- The value that the rotation writes. -/
def rotateVal (N j z c : Nat) (m : Loc → BitVec w) : BitVec w :=
  (monomialMul (poly m .acc N z) j).getD c 0 - (poly m .acc N z).getD c 0

theorem rotate_phase (T opt np j : Nat) (hT : 0 < T) (hj : j ≤ 2 * (T * opt)) :
    Phase (fun t : Fin T => multiplyByMonomialAndSub (w := w) T opt np j t) (ownOf T (np * (T * opt)) hT .rot)
      (fun ℓ m => rotateVal (T * opt) j (ℓ.2 / (T * opt)) (ℓ.2 % (T * opt)) m) := by
  refine phase_loops T opt np hT .rot _ (rotateVal (T * opt) j) ?_ ?_ ?_
  · intro z c _ _ i hi
    simp only [rotateCell] at hi
    split_ifs at hi <;>
      · simp only [List.mem_cons, List.not_mem_nil, or_false] at hi
        rcases hi with rfl | rfl | rfl
        · exact .inr (by simp)
        · exact .inr (by simp)
        · exact rfl
  · intro z c hz hc m r
    rw [rotateVal, mul_coeff (T * opt) j c hj _ (poly_length _ _ _ _) hc, poly_getD m .acc (T * opt) z c hc]
    simp only [rotateCell]
    split_ifs with h1 h2 h2
    · rw [poly_getD _ _ _ _ _ (by omega)]; simp [solo, rd, wr, Instr.run]
    · rw [poly_getD _ _ _ _ _ (by omega)]; simp [solo, rd, wr, Instr.run]
    · rw [poly_getD _ _ _ _ _ (by omega)]; simp [solo, rd, wr, Instr.run]
    · rw [poly_getD _ _ _ _ _ (by omega)]; simp [solo, rd, wr, Instr.run]
  · intro z c hz hc m m' h
    rw [rotateVal, rotateVal]
    have : poly m .acc (T * opt) z = poly m' .acc (T * opt) z := by
      apply List.map_congr_left
      intro i _
      exact h _ (.inr (by simp))
    rw [this]

theorem round_phase (T opt np b l : Nat) (hT : 0 < T) :
    Phase (fun t : Fin T => roundInplace (w := w) T opt np b l t) (ownOf T (np * (T * opt)) hT .rot)
      (fun ℓ m => roundToClosestMultiple b l
        (m (.rot, ℓ.2 / (T * opt) * (T * opt) + ℓ.2 % (T * opt)))) := by
  refine phase_loops T opt np hT .rot _ (fun z c m => roundToClosestMultiple b l (m (.rot, z * (T * opt) + c))) ?_ ?_ ?_
  · intro z c _ _ i hi
    simp only [roundCell, List.mem_cons, List.not_mem_nil, or_false] at hi
    rcases hi with rfl | rfl | rfl | rfl | rfl | rfl
    · exact .inl rfl
    · trivial
    · trivial
    · trivial
    · trivial
    · exact rfl
  · intro z c hz hc m r
    simp [roundCell, solo, rd, wr, op, Instr.run, roundToClosestMultiple]
  · intro z c hz hc m m' h
    rw [h _ (.inl rfl)]

theorem shift_phase (T opt np b l : Nat) (hT : 0 < T) :
    Phase (fun t : Fin T => gadgetInit (w := w) T opt np b l t) (ownOf T (np * (T * opt)) hT .rot)
      (fun ℓ m => m (.rot, ℓ.2 / (T * opt) * (T * opt) + ℓ.2 % (T * opt)) >>> (w - b * l)) := by
  refine phase_loops T opt np hT .rot _ (fun z c m => m (.rot, z * (T * opt) + c) >>> (w - b * l)) ?_ ?_ ?_
  · intro z c _ _ i hi
    simp only [shiftCell, List.mem_cons, List.not_mem_nil, or_false] at hi
    rcases hi with rfl | rfl
    · exact .inl rfl
    · exact rfl
  · intro z c hz hc m r
    simp [shiftCell, solo, rd, wr, Instr.run]
  · intro z c hz hc m m' h
    rw [h _ (.inl rfl)]

/-- The conversion of a digit to a double and back to a word. -/
def castDigit (x : BitVec w) : BitVec w := (x.setWidth 32).signExtend w

/-- The owners of the words during the decomposition of polynomial `z` into `slot`. -/
def ownDec (T N z slot : Nat) (hT : 0 < T) (ℓ : Loc) : Option (Fin T) :=
  if ℓ.1 = .rot ∧ z * N ≤ ℓ.2 ∧ ℓ.2 < z * N + N then some ⟨(ℓ.2 - z * N) % T, Nat.mod_lt _ hT⟩
  else if ℓ.1 = .dig ∧ slot * N ≤ ℓ.2 ∧ ℓ.2 < slot * N + N then some ⟨(ℓ.2 - slot * N) / 2 % T, Nat.mod_lt _ hT⟩
  else none

/-- The coefficient whose digit is at position `q` of a polynomial of digits. -/
def coeffAt (N q : Nat) : Nat := q / 2 + if q % 2 = 0 then 0 else N / 2

/-- The values that the decomposition writes. -/
def decVal (N b z slot : Nat) (ℓ : Loc) (m : Loc → BitVec w) : BitVec w :=
  match ℓ.1 with
  | .rot => (decomposeOne (m ℓ) ((1#w <<< b) - 1#w) b).2
  | .dig => castDigit (decomposeOne (m (.rot, z * N + coeffAt N (ℓ.2 - slot * N))) ((1#w <<< b) - 1#w) b).1
  | _ => m ℓ

/-- The words of cell `tid`. -/
def decCell (N z slot tid : Nat) (ℓ : Loc) : Prop :=
  ℓ = (.rot, z * N + tid) ∨ ℓ = (.rot, z * N + (tid + N / 2)) ∨ ℓ = (.dig, slot * N + 2 * tid) ∨
    ℓ = (.dig, slot * N + (2 * tid + 1))

theorem dec_solo (N b z slot tid : Nat) (hN : 0 < N / 2) (m : Loc → BitVec w) (r : Regs w) (ℓ : Loc) :
    (decCell N z slot tid ℓ → (solo (decomposeCell N b z slot tid) (m, r)).1 ℓ = decVal N b z slot ℓ m) ∧
    (¬ decCell N z slot tid ℓ → (solo (decomposeCell N b z slot tid) (m, r)).1 ℓ = m ℓ) := by
  have hne : z * N + (tid + N / 2) ≠ z * N + tid := by omega
  have hne2 : slot * N + (2 * tid + 1) ≠ slot * N + 2 * tid := by omega
  have hN1 : ¬ N ≤ 1 := by omega
  constructor
  · rintro (rfl | rfl | rfl | rfl)
    · simp [decomposeCell, solo, rd, wr, op, Instr.run, decVal, decomposeOne, Function.update, hN1]
    · simp [decomposeCell, solo, rd, wr, op, Instr.run, decVal, decomposeOne, Function.update, hN1]
    · have e : coeffAt N (slot * N + 2 * tid - slot * N) = tid := by
        rw [Nat.add_sub_cancel_left, coeffAt, if_pos (by omega)]; omega
      simp only [decVal, e]
      simp [decomposeCell, solo, rd, wr, op, Instr.run, decomposeOne, Function.update, hN1, hne2, hne2.symm,
        castDigit]
    · have e : coeffAt N (slot * N + (2 * tid + 1) - slot * N) = tid + N / 2 := by
        rw [Nat.add_sub_cancel_left, coeffAt, if_neg (by omega)]; omega
      simp only [decVal, e]
      simp [decomposeCell, solo, rd, wr, op, Instr.run, decomposeOne, Function.update, hN1, hne2, hne2.symm,
        castDigit]
  · intro h
    simp only [decCell, not_or] at h
    refine solo_other _ ℓ (fun f hf => ?_) _
    simp only [decomposeCell, List.mem_cons, List.not_mem_nil, or_false] at hf
    rcases hf with h' | h' | h' | h' | h' | h' | h' | h' | h' | h' | h' | h' | h' | h' | h' | h' | h' | h' | h' | h' |
        h' | h' <;> simp only [rd, wr, op, reduceCtorEq, Instr.write.injEq] at h'
    · exact h.1 h'.1
    · exact h.2.1 h'.1
    · exact h.1 h'.1
    · exact h.2.1 h'.1
    · exact h.2.2.1 h'.1
    · exact h.2.2.2 h'.1

theorem own_dec (T h z slot t tid : Nat) (hT : 0 < T) (ht : t < T) (i : Nat) (hi : i < h) (htid : tid = t + i * T)
    (ℓ : Loc) (hW : decCell (T * (2 * h)) z slot tid ℓ) : ownDec T (T * (2 * h)) z slot hT ℓ = some ⟨t, ht⟩ := by
  have hN : T * (2 * h) = 2 * (T * h) := by ring
  have hlt : tid < T * h := by
    rw [htid]
    have : (i + 1) * T ≤ h * T := Nat.mul_le_mul_right _ hi
    rw [Nat.add_mul, Nat.one_mul] at this
    rw [Nat.mul_comm T h]; omega
  have hmod : tid % T = t := by rw [htid, Nat.add_mul_mod_self_right, Nat.mod_eq_of_lt ht]
  rw [hN] at hW ⊢
  generalize hM : T * h = M at *
  have hhalf : 2 * M / 2 = M := by omega
  rw [decCell, hhalf] at hW
  rw [ownDec]
  rcases hW with rfl | rfl | rfl | rfl
  · rw [if_pos ⟨rfl, by simp, by simp only; omega⟩]
    simp only [Nat.add_sub_cancel_left, hmod]
  · rw [if_pos ⟨rfl, by simp, by simp only; omega⟩]
    simp only [Nat.add_sub_cancel_left]
    congr 2
    rw [← hM, Nat.add_mul_mod_self_left, hmod]
  · rw [if_neg (by simp), if_pos ⟨rfl, by simp, by simp only; omega⟩]
    simp only [Nat.add_sub_cancel_left]
    congr 2
    rw [Nat.mul_div_cancel_left _ (by omega), hmod]
  · rw [if_neg (by simp), if_pos ⟨rfl, by simp, by simp only; omega⟩]
    simp only [Nat.add_sub_cancel_left]
    congr 2
    rw [show (2 * tid + 1) / 2 = tid by omega, hmod]

theorem dec_own (T h z slot : Nat) (hT : 0 < T) (t : Fin T) (ℓ : Loc)
    (ho : ownDec T (T * (2 * h)) z slot hT ℓ = some t) :
    ∃ i, i < h ∧ decCell (T * (2 * h)) z slot (t + i * T) ℓ := by
  have hN : T * (2 * h) = 2 * (T * h) := by ring
  obtain ⟨A, q⟩ := ℓ
  have key : ∀ c, c < T * h → c % T = t → ∃ i, i < h ∧ c = t + i * T := by
    intro c hc hm
    refine ⟨c / T, Nat.div_lt_of_lt_mul hc, ?_⟩
    have := Nat.div_add_mod c T
    rw [hm, Nat.mul_comm] at this
    omega
  have hMT : ∀ c, (c + T * h) % T = c % T := fun c => by rw [Nat.add_mul_mod_self_left]
  rw [hN] at ho ⊢
  generalize T * h = M at *
  have hhalf : 2 * M / 2 = M := by omega
  simp only [decCell, hhalf]
  rw [ownDec] at ho
  split_ifs at ho with h1 h2
  · obtain ⟨rfl, h3, h4⟩ := h1
    simp only at h3 h4
    have hm : (q - z * (2 * M)) % T = t := congrArg Fin.val (Option.some.inj ho)
    rcases Nat.lt_or_ge (q - z * (2 * M)) M with h5 | h5
    · obtain ⟨i, hi, e⟩ := key _ h5 hm
      refine ⟨i, hi, .inl ?_⟩
      rw [← e]; congr 1; omega
    · have hm' : (q - z * (2 * M) - M) % T = t := by
        rw [← hm, ← hMT (q - z * (2 * M) - M), Nat.sub_add_cancel h5]
      obtain ⟨i, hi, e⟩ := key _ (by omega) hm'
      refine ⟨i, hi, .inr (.inl ?_)⟩
      rw [← e]; congr 1; omega
  · obtain ⟨rfl, h3, h4⟩ := h2
    simp only at h3 h4
    have hm : (q - slot * (2 * M)) / 2 % T = t := congrArg Fin.val (Option.some.inj ho)
    obtain ⟨i, hi, e⟩ := key _ (by omega) hm
    refine ⟨i, hi, .inr (.inr ?_)⟩
    rw [← e]
    rcases Nat.mod_two_eq_zero_or_one (q - slot * (2 * M)) with h5 | h5
    · left; congr 1; omega
    · right; congr 1; omega

theorem dec_disjoint (N z slot a c : Nat) (ha : a < N / 2) (hc : c < N / 2) (ℓ : Loc) (h1 : decCell N z slot a ℓ)
    (h2 : decCell N z slot c ℓ) : a = c := by
  rcases h1 with rfl | rfl | rfl | rfl <;> rcases h2 with h | h | h | h <;>
    first
    | (simp at h; done)
    | (have := (Prod.mk.inj h).2; omega)

theorem decompose_phase (T h b z slot : Nat) (hT : 0 < T) (hh : 0 < h) :
    Phase (fun t : Fin T => decomposePolynomial (w := w) T (2 * h) b z slot t) (ownDec T (T * (2 * h)) z slot hT)
      (decVal (T * (2 * h)) b z slot) := by
  have hN : T * (2 * h) = 2 * (T * h) := by ring
  have hTh : 0 < T * h := Nat.mul_pos hT hh
  have hhalf : T * (2 * h) / 2 = T * h := by rw [hN]; omega
  have hlt : ∀ (t : Fin T) i, i < h → t + i * T < T * (2 * h) / 2 := by
    intro t i hi
    have : (i + 1) * T ≤ h * T := Nat.mul_le_mul_right _ hi
    rw [Nat.add_mul, Nat.one_mul] at this
    rw [hhalf, Nat.mul_comm T h]
    have := t.isLt
    omega
  refine ⟨fun t i hi => ?_, fun t m r ℓ ho => ?_⟩
  · rw [decomposePolynomial, loop, Nat.mul_div_cancel_left _ (by omega)] at hi
    obtain ⟨a, ha, hi⟩ := List.mem_flatMap.1 hi
    have ha := List.mem_range.1 ha
    have hown := own_dec T h z slot t (t + a * T) hT t.isLt a ha rfl
    have hrot1 := hown (.rot, _) (.inl rfl)
    have hrot2 := hown (.rot, _) (.inr (.inl rfl))
    have hd1 := hown (.dig, _) (.inr (.inr (.inl rfl)))
    have hd2 := hown (.dig, _) (.inr (.inr (.inr rfl)))
    simp only [decomposeCell, List.mem_cons, List.not_mem_nil, or_false] at hi
    rcases hi with h' | h' | h' | h' | h' | h' | h' | h' | h' | h' | h' | h' | h' | h' | h' | h' | h' | h' | h' | h' |
        h' | h' <;> subst h' <;>
      first
      | trivial
      | exact hrot1
      | exact hrot2
      | exact hd1
      | exact hd2
      | exact .inl hrot1
      | exact .inl hrot2
  · rw [decomposePolynomial, loop, Nat.mul_div_cancel_left _ (by omega)]
    obtain ⟨i, hi, hW⟩ := dec_own T h z slot hT t ℓ ho
    refine (solo_cells (fun i => decomposeCell (T * (2 * h)) b z slot (t + i * T))
      (fun i ℓ => decCell (T * (2 * h)) z slot (t + i * T) ℓ) (decVal (T * (2 * h)) b z slot) (List.range h)
      List.nodup_range ?_ ?_ ?_ m r ℓ).1 i (List.mem_range.2 hi) hW
    · intro i _ m r ℓ
      exact dec_solo (T * (2 * h)) b z slot _ (by omega) m r ℓ
    · intro i hi ℓ hW m m' hm
      have hi := List.mem_range.1 hi
      have hself : ∀ ℓ', decCell (T * (2 * h)) z slot (t + i * T) ℓ' → m ℓ' = m' ℓ' := by
        intro ℓ' h'
        refine hm ℓ' fun j hj hWj => ?_
        have hj := List.mem_range.1 hj
        have := dec_disjoint _ z slot _ _ (hlt t j hj) (hlt t i hi) ℓ' hWj h'
        exact Nat.eq_of_mul_eq_mul_right hT (by omega)
      rcases hW with rfl | rfl | rfl | rfl
      · simp only [decVal]; rw [hself _ (.inl rfl)]
      · simp only [decVal]; rw [hself _ (.inr (.inl rfl))]
      · have e : coeffAt (T * (2 * h)) (slot * (T * (2 * h)) + 2 * (t + i * T) - slot * (T * (2 * h))) = t + i * T := by
          rw [Nat.add_sub_cancel_left, coeffAt, if_pos (by omega)]; omega
        simp only [decVal, e]; rw [hself _ (.inl rfl)]
      · have e : coeffAt (T * (2 * h)) (slot * (T * (2 * h)) + (2 * (t + i * T) + 1) - slot * (T * (2 * h))) =
            t + i * T + T * (2 * h) / 2 := by
          rw [Nat.add_sub_cancel_left, coeffAt, if_neg (by omega)]; omega
        simp only [decVal, e]; rw [hself _ (.inr (.inl rfl))]
    · intro i hi j hj ℓ h1 h2
      have := dec_disjoint _ z slot _ _ (hlt t i (List.mem_range.1 hi)) (hlt t j (List.mem_range.1 hj)) ℓ h1 h2
      exact Nat.eq_of_mul_eq_mul_right hT (by omega)

end Verif.Cuda.Thr
