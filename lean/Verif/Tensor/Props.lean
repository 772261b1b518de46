import Verif.Tensor.Lemmas
/-
C104: the operations of `Tensor` act element by element.
-/
namespace Verif.Tensor

variable {α β γ δ : Type} {w : Nat}

/-! ### Generic operations -/

/-- C104, operations on one output with operations of the caller. -/
theorem C104_fill_with_two (m : Build) (f : α → β → Option γ) (out : List γ) (lhs : List α) (rhs : List β) :
    Elementwise m [lhs.length, rhs.length]
      (fun i => do let _ ← out[i]?; let a ← lhs[i]?; let b ← rhs[i]?; f a b) out (fillWithTwo m f out lhs rhs) :=
  elementwise_two m _ _ _ _ _ (loop3_pointwise _ out lhs rhs)

theorem C104_update_with_two (m : Build) (f : γ → α → β → Option γ) (out : List γ) (lhs : List α) (rhs : List β) :
    Elementwise m [lhs.length, rhs.length]
      (fun i => do let o ← out[i]?; let a ← lhs[i]?; let b ← rhs[i]?; f o a b) out
      (updateWithTwo m f out lhs rhs) :=
  elementwise_two m _ _ _ _ _ (loop3_pointwise _ out lhs rhs)

theorem C104_fill_with_one (m : Build) (f : α → Option γ) (out : List γ) (other : List α) :
    Elementwise m [other.length] (fun i => do let _ ← out[i]?; let a ← other[i]?; f a) out
      (fillWithOne m f out other) :=
  elementwise_one m _ _ _ _ (loop2_pointwise _ out other)

theorem C104_update_with_one (m : Build) (f : γ → α → Option γ) (out : List γ) (other : List α) :
    Elementwise m [other.length] (fun i => do let o ← out[i]?; let a ← other[i]?; f o a) out
      (updateWithOne m f out other) :=
  elementwise_one m _ _ _ _ (loop2_pointwise _ out other)

/-- C104, operations on two outputs. -/
theorem C104_update_two_with_one (m : Build) (f : γ → δ → α → Option (γ × δ)) (first : List γ) (second : List δ)
    (one : List α) :
    (first.length = one.length → second.length = one.length →
      Pointwise one.length
        (fun i => do let x ← first[i]?; let y ← second[i]?; let a ← one[i]?; (f x y a).map Prod.fst) first
        ((updateTwoWithOne m f first second one).map Prod.fst) ∧
      Pointwise one.length
        (fun i => do let x ← first[i]?; let y ← second[i]?; let a ← one[i]?; (f x y a).map Prod.snd) second
        ((updateTwoWithOne m f first second one).map Prod.snd)) ∧
    (first.length ≠ one.length ∨ second.length ≠ one.length → updateTwoWithOne .debug f first second one = none) := by
  refine ⟨fun h1 h2 => ?_, fun h => ?_⟩
  · have hc : updateTwoWithOne m f first second one = loopTwo f first second one := by
      cases m <;> simp [updateTwoWithOne, ckDimEq, h1, h2]
    rw [hc]
    have := loopTwo_pointwise f first second one
    rw [h1, h2] at this
    simpa using this
  · by_cases h1 : first.length = one.length
    · have h2 : second.length ≠ one.length := by
        rcases h with h | h
        · exact absurd h1 h
        · exact h
      simp [updateTwoWithOne, ckDimEq, h1, h2]
    · simp [updateTwoWithOne, ckDimEq, h1]

theorem C104_fill_two_with_one (m : Build) (f : α → Option (γ × δ)) (first : List γ) (second : List δ)
    (one : List α) :
    (first.length = one.length → second.length = one.length →
      Pointwise one.length (fun i => do let a ← one[i]?; (f a).map Prod.fst) first
        ((fillTwoWithOne m f first second one).map Prod.fst) ∧
      Pointwise one.length (fun i => do let a ← one[i]?; (f a).map Prod.snd) second
        ((fillTwoWithOne m f first second one).map Prod.snd)) ∧
    (first.length ≠ one.length ∨ second.length ≠ one.length → fillTwoWithOne .debug f first second one = none) := by
  have h := C104_update_two_with_one m (fun _ _ a => f a) first second one
  refine ⟨fun h1 h2 => ?_, h.2⟩
  obtain ⟨a, b⟩ := h.1 h1 h2
  have key : ∀ {ε : Type} (g : γ × δ → ε) (out : List ε) (res : Option (List ε)),
      Pointwise one.length
        (fun i => do let _ ← first[i]?; let _ ← second[i]?; let a ← one[i]?; (f a).map g) out res →
      Pointwise one.length (fun i => do let a ← one[i]?; (f a).map g) out res := by
    intro ε g out res hp
    have hv : ∀ i, i < one.length →
        (do let _ ← first[i]?; let _ ← second[i]?; let a ← one[i]?; (f a).map g : Option ε) =
          (do let a ← one[i]?; (f a).map g) := by
      intro i hi
      rw [List.getElem?_eq_getElem (h1 ▸ hi), List.getElem?_eq_getElem (h2 ▸ hi)]
      rfl
    refine ⟨fun l hl => ⟨(hp.1 l hl).1, fun i hi => ((hp.1 l hl).2.1 i hi).trans (hv i hi), (hp.1 l hl).2.2⟩, ?_⟩
    rw [hp.2]
    exact exists_congr fun i => and_congr_right fun hi => by
      show (_ : Option ε) = none ↔ (_ : Option ε) = none
      exact iff_of_eq (congrArg (· = none) (hv i hi))
  exact ⟨key Prod.fst _ _ a, key Prod.snd _ _ b⟩

/-- C104, copies and constants: a copy needs the same length in all builds. -/
theorem C104_copy (out other : List α) (x : α) :
    (out.length = other.length → fillWithCopy out other = some other) ∧
    (out.length ≠ other.length → fillWithCopy out other = none) ∧
    (fillWithElement out x).length = out.length ∧ ∀ i, i < out.length → (fillWithElement out x)[i]? = some x := by
  refine ⟨fun h => if_pos h, fun h => if_neg h, by simp [fillWithElement], fun i hi => ?_⟩
  simp [fillWithElement, hi]

/-! ### Operations on words -/

/-- C104. Each word operation is the operation on numbers modulo `2^w`. In debug builds shifts by `w` or more panic;
in release builds the amount is reduced modulo `w`. A division by zero panics in all builds. -/
theorem C104_op (o : Op) (a b : BitVec w) (hw : 0 < w) :
    (o.run .debug a b).map BitVec.toNat = o.value w a.toNat b.toNat ∧
    (∀ x, o.value w a.toNat b.toNat = some x → (o.run .release a b).map BitVec.toNat = some x) ∧
    (o ≠ .shl → o ≠ .shr → (o.run .release a b).map BitVec.toNat = o.value w a.toNat b.toNat) ∧
    (o = .shl ∨ o = .shr →
      (o.run .release a b).map BitVec.toNat = o.value w a.toNat (b.toNat % w)) := by
  have ha := a.isLt
  have hb := b.isLt
  have hmod := Nat.mod_lt b.toNat hw
  have hsub : (2 ^ w - b.toNat + a.toNat) % 2 ^ w = (a.toNat + 2 ^ w - b.toNat) % 2 ^ w := by
    congr 1; omega
  have hz : b = 0#w ↔ b.toNat = 0 := by
    rw [← BitVec.toNat_inj]; simp
  cases o <;>
    simp only [Op.run, Op.value, shiftBy, Option.map_some, BitVec.toNat_and, BitVec.toNat_or, BitVec.toNat_xor,
      BitVec.toNat_add, BitVec.toNat_sub, BitVec.toNat_mul, hsub, ne_eq, reduceCtorEq, not_false_eq_true,
      not_true_eq_false, forall_const, false_implies, or_self, or_true, true_or, and_self, and_true, true_and,
      imp_self, implies_true, hmod, if_true, Option.map_some, BitVec.toNat_shiftLeft, BitVec.toNat_ushiftRight,
      Nat.shiftLeft_eq, Nat.shiftRight_eq_div_pow]
  · refine ⟨?_, ?_⟩
    · split <;> simp [BitVec.toNat_shiftLeft, Nat.shiftLeft_eq]
    · intro x hx
      split at hx
      · rename_i h; rw [Nat.mod_eq_of_lt h]; exact hx
      · cases hx
  · refine ⟨?_, ?_⟩
    · split <;> simp [BitVec.toNat_ushiftRight, Nat.shiftRight_eq_div_pow]
    · intro x hx
      split at hx
      · rename_i h; rw [Nat.mod_eq_of_lt h]; exact hx
      · cases hx
  · by_cases h : b = 0#w
    · simp [h]
    · have h' : b.toNat ≠ 0 := fun c => h (hz.2 c)
      simp [h, h', BitVec.toNat_udiv]

/-- C104. `fill_with_*`. -/
theorem C104_fill_with_op (m : Build) (o : Op) (out lhs rhs : List (BitVec w)) :
    Elementwise m [lhs.length, rhs.length]
      (fun i => do let _ ← out[i]?; let a ← lhs[i]?; let b ← rhs[i]?; o.run m a b) out
      (fillWithOp m o out lhs rhs) := by
  have h := C104_fill_with_two m (o.run m) out lhs rhs
  have e : fillWithOp m o out lhs rhs = fillWithTwo m (o.run m) out lhs rhs := by
    rw [fillWithOp, fillWithTwo]
    cases ckDimEq m out.length lhs.length <;> simp
    cases ckDimEq m out.length rhs.length <;> simp
  rwa [e]

/-- C104. `update_with_*`. -/
theorem C104_update_with_op (m : Build) (o : Op) (out other : List (BitVec w)) :
    Elementwise m [other.length] (fun i => do let s ← out[i]?; let a ← other[i]?; o.run m s a) out
      (updateWithOp m o out other) := by
  have h := C104_update_with_one m (o.run m) out other
  have e : updateWithOp m o out other = updateWithOne m (o.run m) out other := by
    rw [updateWithOp, updateWithOne]
    cases ckDimEq m out.length other.length <;> simp
  rwa [e]

/-- C104. `update_with_scalar_*` and `update_with_wrapping_neg`. -/
theorem C104_update_with_scalar (m : Build) (o : Op) (out : List (BitVec w)) (x : BitVec w) :
    Pointwise out.length (fun i => do let s ← out[i]?; o.run m s x) out (updateWithScalarOp m o out x) ∧
    Pointwise out.length (fun i => do let s ← out[i]?; some (0 - s)) out (updateWithNeg out) := by
  refine ⟨mapM_pointwise _ out, ?_⟩
  simpa [updateWithNeg, updateWithElement, BitVec.zero_sub] using mapM_pointwise (fun a => some (-a)) out

/-- C104. The operations with the product of a tensor by an element. -/
theorem C104_element_mul (m : Build) (out t : List (BitVec w)) (x : BitVec w) :
    Elementwise m [t.length] (fun i => do let _ ← out[i]?; let a ← t[i]?; some (a * x)) out
      (fillWithElementMul m out t x) ∧
    Elementwise m [t.length] (fun i => do let s ← out[i]?; let a ← t[i]?; some (s - a * x)) out
      (updateWithSubElementMul m out t x) ∧
    Elementwise m [t.length] (fun i => do let s ← out[i]?; let a ← t[i]?; some (s + a * x)) out
      (updateWithAddElementMul m out t x) := by
  have e1 : fillWithElementMul m out t x = fillWithOne m (fun a => some (a * x)) out t := by
    rw [fillWithElementMul, fillWithOne]
    cases ckDimEq m out.length t.length <;> simp
  have e2 : updateWithSubElementMul m out t x = updateWithOne m (fun s a => some (s - a * x)) out t := by
    rw [updateWithSubElementMul, updateWithOne]
    cases ckDimEq m out.length t.length <;> simp
  have e3 : updateWithAddElementMul m out t x = updateWithOne m (fun s a => some (s + a * x)) out t := by
    rw [updateWithAddElementMul, updateWithOne]
    cases ckDimEq m out.length t.length <;> simp
  rw [e1, e2, e3]
  exact ⟨C104_fill_with_one m _ out t, C104_update_with_one m _ out t, C104_update_with_one m _ out t⟩

/-! ### Folds and permutations -/

/-- C104. A fold combines the pairs of elements from the first to the last. -/
theorem C104_fold (m : Build) (f : γ → α → β → γ) (acc : γ) (t : List α) (other : List β)
    (hl : t.length = other.length) :
    ∃ s : Nat → γ, s 0 = acc ∧ foldWithOne m f acc t other = some (s t.length) ∧
      ∀ i a b, t[i]? = some a → other[i]? = some b → s (i + 1) = f (s i) a b := by
  have hc : foldWithOne m f acc t other = some ((t.zip other).foldl (fun acc p => f acc p.1 p.2) acc) := by
    cases m <;> simp [foldWithOne, ckDimEq, hl]
  refine ⟨fun i => ((t.zip other).take i).foldl (fun acc p => f acc p.1 p.2) acc, rfl, ?_, ?_⟩
  · rw [hc]
    show _ = some (((t.zip other).take t.length).foldl _ acc)
    rw [List.take_of_length_le (by simp [hl])]
  · intro i a b ha hb
    have hz : (t.zip other)[i]? = some (a, b) := by
      rw [List.getElem?_zip_eq_some]; exact ⟨ha, hb⟩
    simp only
    rw [List.take_add_one, hz]
    simp

/-- C104. `reverse`, `rotate_left` and `rotate_right`. -/
theorem C104_rotations (t : List α) (n : Nat) :
    ((reverse t).length = t.length ∧ ∀ i, i < t.length → (reverse t)[i]? = t[t.length - 1 - i]?) ∧
    (t.length < n → rotateLeft t n = none ∧ rotateRight t n = none) ∧
    (n ≤ t.length → ∃ l r, rotateLeft t n = some l ∧ rotateRight t n = some r ∧ l.length = t.length ∧
      r.length = t.length ∧ ∀ i, i < t.length → l[i]? = t[(i + n) % t.length]? ∧ r[(i + n) % t.length]? = t[i]?) := by
  refine ⟨⟨by simp [reverse], fun i hi => by simp [reverse, List.getElem?_reverse hi]⟩,
    fun h => ⟨if_neg (by omega), if_neg (by omega)⟩, fun h => ?_⟩
  refine ⟨_, _, if_pos h, if_pos h, by simp; omega, by simp, fun i hi => ⟨?_, ?_⟩⟩
  · by_cases hc : i + n < t.length
    · rw [Nat.mod_eq_of_lt hc, List.getElem?_append_left (by simp; omega), List.getElem?_drop, Nat.add_comm]
    · rw [Nat.mod_eq_sub_mod (by omega), Nat.mod_eq_of_lt (by omega), List.getElem?_append_right (by simp; omega),
        List.length_drop, List.getElem?_take_of_lt (by omega)]
      congr 1; omega
  · by_cases hc : i + n < t.length
    · rw [Nat.mod_eq_of_lt hc, List.getElem?_append_right (by simp; omega), List.length_drop,
        List.getElem?_take_of_lt (by omega)]
      congr 1; omega
    · rw [Nat.mod_eq_sub_mod (by omega), Nat.mod_eq_of_lt (by omega), List.getElem?_append_left (by simp; omega),
        List.getElem?_drop]
      congr 1; omega

-- concrete cases: an addition that wraps, a division by zero, tensors of different lengths
example : fillWithOp .debug .add [0#8, 0#8] [250#8, 1#8] [10#8, 2#8] = some [4#8, 3#8] := by decide
example : updateWithOp .release .div [7#8, 9#8] [2#8, 0#8] = none := by decide
example : updateWithOp .release .sub [7#8, 9#8] [2#8] = some [5#8, 9#8] ∧
    updateWithOp .debug .sub [7#8, 9#8] [2#8] = none := by decide
example : (Op.shl.run .release 1#8 9#8 : Option (BitVec 8)) = some 2#8 ∧ (Op.shl.run .debug 1#8 9#8) = none := by
  decide
example : rotateLeft [1, 2, 3] 1 = some [2, 3, 1] ∧ rotateRight [1, 2, 3] 1 = some [3, 1, 2] := by decide

end Verif.Tensor
