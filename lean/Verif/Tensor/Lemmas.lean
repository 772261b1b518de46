import Verif.Tensor.Spec
namespace Verif.Tensor

variable {α β γ δ : Type}

theorem pointwise_zero (v : Nat → Option γ) (out : List γ) : Pointwise 0 v out (some out) :=
  ⟨fun l h => by cases h; exact ⟨rfl, fun i hi => absurd hi (by omega), fun _ _ => rfl⟩, by simp⟩

/-- One more element in front. -/
theorem pointwise_succ (n : Nat) (v : Nat → Option γ) (o : γ) (os : List γ) (res : Option (List γ))
    (h : Pointwise n (fun i => v (i + 1)) os res) :
    Pointwise (n + 1) v (o :: os) (do let x ← v 0; let xs ← res; some (x :: xs)) := by
  obtain ⟨h1, h2⟩ := h
  cases hv : v 0 with
  | none => exact ⟨fun l hl => by simp at hl, by simpa using ⟨0, by omega, hv⟩⟩
  | some x =>
    cases hr : res with
    | none =>
      obtain ⟨i, hi, hn⟩ := h2.1 hr
      exact ⟨fun l hl => by simp at hl, by simpa using ⟨i + 1, by omega, hn⟩⟩
    | some xs =>
      obtain ⟨a, b, c⟩ := h1 xs hr
      have hno : ∀ i, i < n → v (i + 1) ≠ none := fun i hi hc => by
        have := h2.2 ⟨i, hi, hc⟩
        rw [hr] at this; cases this
      refine ⟨fun l hl => ?_, ?_⟩
      · simp at hl
        subst hl
        refine ⟨by simp [a], fun i hi => ?_, fun i hi => ?_⟩
        · cases i with
          | zero => simp [hv]
          | succ i => simpa using b i (by omega)
        · cases i with
          | zero => omega
          | succ i => simpa using c i (by omega)
      · simp only [Option.bind_eq_bind, Option.bind_some, reduceCtorEq, false_iff]
        rintro ⟨i, hi, hc⟩
        cases i with
        | zero => rw [hv] at hc; cases hc
        | succ i => exact hno i (by omega) hc

theorem loop3_pointwise (f : γ → α → β → Option γ) : ∀ (os : List γ) (as : List α) (bs : List β),
    Pointwise (min (min os.length as.length) bs.length)
      (fun i => do let o ← os[i]?; let a ← as[i]?; let b ← bs[i]?; f o a b) os (loop3 f os as bs)
  | [], as, bs => by simpa [loop3] using pointwise_zero _ _
  | o :: os, [], bs => by simpa [loop3] using pointwise_zero _ _
  | o :: os, a :: as, [] => by simpa [loop3] using pointwise_zero _ _
  | o :: os, a :: as, b :: bs => by
    have := pointwise_succ _ (fun i => do
      let o ← (o :: os)[i]?; let a ← (a :: as)[i]?; let b ← (b :: bs)[i]?; f o a b) o os _
      (by simpa using loop3_pointwise f os as bs)
    simpa [loop3, Nat.add_min_add_right] using this

theorem loop2_pointwise (f : γ → α → Option γ) : ∀ (os : List γ) (as : List α),
    Pointwise (min os.length as.length) (fun i => do let o ← os[i]?; let a ← as[i]?; f o a) os (loop2 f os as)
  | [], as => by simpa [loop2] using pointwise_zero _ _
  | o :: os, [] => by simpa [loop2] using pointwise_zero _ _
  | o :: os, a :: as => by
    have := pointwise_succ _ (fun i => do let o ← (o :: os)[i]?; let a ← (a :: as)[i]?; f o a) o os _
      (by simpa using loop2_pointwise f os as)
    simpa [loop2, Nat.add_min_add_right] using this

theorem mapM_pointwise (f : γ → Option γ) : ∀ os : List γ,
    Pointwise os.length (fun i => do let o ← os[i]?; f o) os (os.mapM f)
  | [] => by simpa using pointwise_zero _ _
  | o :: os => by
    have := pointwise_succ _ (fun i => do let o ← (o :: os)[i]?; f o) o os _ (by simpa using mapM_pointwise f os)
    simpa using this

/-- The loop over two outputs, as two loops. -/
theorem loopTwo_pointwise (f : γ → δ → α → Option (γ × δ)) : ∀ (xs : List γ) (ys : List δ) (as : List α),
    Pointwise (min (min xs.length ys.length) as.length)
      (fun i => do let x ← xs[i]?; let y ← ys[i]?; let a ← as[i]?; (f x y a).map Prod.fst) xs
      ((loopTwo f xs ys as).map Prod.fst) ∧
    Pointwise (min (min xs.length ys.length) as.length)
      (fun i => do let x ← xs[i]?; let y ← ys[i]?; let a ← as[i]?; (f x y a).map Prod.snd) ys
      ((loopTwo f xs ys as).map Prod.snd)
  | [], ys, as => by constructor <;> simpa [loopTwo] using pointwise_zero _ _
  | x :: xs, [], as => by constructor <;> simpa [loopTwo] using pointwise_zero _ _
  | x :: xs, y :: ys, [] => by constructor <;> simpa [loopTwo] using pointwise_zero _ _
  | x :: xs, y :: ys, a :: as => by
    have ih := loopTwo_pointwise f xs ys as
    have h1 := pointwise_succ _ (fun i => do
      let x ← (x :: xs)[i]?; let y ← (y :: ys)[i]?; let a ← (a :: as)[i]?; (f x y a).map Prod.fst) x xs _
      (by simpa using ih.1)
    have h2 := pointwise_succ _ (fun i => do
      let x ← (x :: xs)[i]?; let y ← (y :: ys)[i]?; let a ← (a :: as)[i]?; (f x y a).map Prod.snd) y ys _
      (by simpa using ih.2)
    have e1 : (loopTwo f (x :: xs) (y :: ys) (a :: as)).map Prod.fst =
        (do let x' ← (f x y a).map Prod.fst; let t ← (loopTwo f xs ys as).map Prod.fst; some (x' :: t)) := by
      rw [loopTwo]
      cases f x y a <;> simp
      cases loopTwo f xs ys as <;> simp
    have e2 : (loopTwo f (x :: xs) (y :: ys) (a :: as)).map Prod.snd =
        (do let x' ← (f x y a).map Prod.snd; let t ← (loopTwo f xs ys as).map Prod.snd; some (x' :: t)) := by
      rw [loopTwo]
      cases f x y a <;> simp
      cases loopTwo f xs ys as <;> simp
    rw [e1, e2]
    constructor
    · simpa [Nat.add_min_add_right] using h1
    · simpa [Nat.add_min_add_right] using h2

theorem elementwise_one (m : Build) (n : Nat) (v : Nat → Option γ) (out : List γ) (res : Option (List γ))
    (h : Pointwise (min out.length n) v out res) :
    Elementwise m [n] v out (do ckDimEq m out.length n; res) := by
  refine ⟨fun hl => ?_, fun ⟨k, hk, hne⟩ => ?_⟩
  · have : n = out.length := hl n (by simp)
    subst this
    have : ckDimEq m out.length out.length = some () := by cases m <;> simp [ckDimEq]
    simpa [this] using h
  · simp only [List.mem_singleton] at hk
    subst hk
    cases m with
    | debug => simp [ckDimEq, Ne.symm hne]
    | release => simpa [ckDimEq] using h

theorem elementwise_two (m : Build) (n k : Nat) (v : Nat → Option γ) (out : List γ) (res : Option (List γ))
    (h : Pointwise (min (min out.length n) k) v out res) :
    Elementwise m [n, k] v out (do ckDimEq m out.length n; ckDimEq m out.length k; res) := by
  refine ⟨fun hl => ?_, fun ⟨j, hj, hne⟩ => ?_⟩
  · have h1 : n = out.length := hl n (by simp)
    have h2 : k = out.length := hl k (by simp)
    subst h1; subst h2
    have : ckDimEq m out.length out.length = some () := by cases m <;> simp [ckDimEq]
    simpa [this] using h
  · cases m with
    | debug =>
      by_cases h1 : out.length = n
      · have h2 : out.length ≠ k := by
          rintro rfl
          simp only [List.mem_cons, List.not_mem_nil, or_false] at hj
          omega
        simp [ckDimEq, h1]
        omega
      · simp [ckDimEq, h1]
    | release => simpa [ckDimEq] using h

end Verif.Tensor
