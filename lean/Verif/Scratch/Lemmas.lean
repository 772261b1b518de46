import Verif.Scratch.Model
import Mathlib.Algebra.Order.Group.Nat
import Mathlib.Tactic.Linarith
import Mathlib.Tactic.Ring
/-
Helpers about scratch memory: the last address a function reaches, and the last address of what it announces.
-/
namespace Verif.Scratch

open Verif Verif.Csprng Verif.Engine

/-! ### Alignment -/

theorem le_alignUp (n : Nat) {a : Nat} (ha : 0 < a) : n ≤ alignUp n a := by
  unfold alignUp
  have h := Nat.div_add_mod (n + (a - 1)) a
  have h2 := Nat.mod_lt (n + (a - 1)) ha
  rw [Nat.mul_comm] at h
  omega

theorem dvd_alignUp (n a : Nat) : a ∣ alignUp n a := ⟨_, Nat.mul_comm _ _⟩

theorem alignUp_le {n m a : Nat} (hm : n ≤ m) (hd : a ∣ m) : alignUp n a ≤ m := by
  obtain ⟨k, rfl⟩ := hd
  unfold alignUp
  rcases Nat.eq_zero_or_pos a with rfl | ha
  · simp
  · have : (n + (a - 1)) / a ≤ k := by
      rw [Nat.div_le_iff_le_mul_add_pred ha]; omega
    calc _ ≤ k * a := Nat.mul_le_mul_right _ this
      _ = _ := Nat.mul_comm _ _

theorem alignUp_mono {n m a : Nat} (ha : 0 < a) (h : n ≤ m) : alignUp n a ≤ alignUp m a :=
  alignUp_le (h.trans (le_alignUp m ha)) (dvd_alignUp m a)

theorem alignUp_lt (n : Nat) {a : Nat} (_ : 0 < a) : alignUp n a ≤ n + (a - 1) := by
  unfold alignUp
  exact Nat.div_mul_le_self _ _

/-- Alignments are powers of two. -/
def Req.Pow2 (r : Req) : Prop := ∃ k, r.align = 2 ^ k

theorem Req.Pow2.pos {r : Req} (h : r.Pow2) : 0 < r.align := by
  obtain ⟨k, hk⟩ := h; rw [hk]; positivity

/-! ### The last address -/

/-- The end of `r` when it is placed from `addr` on. -/
def bound (r : Req) (addr : Nat) : Nat := alignUp addr r.align + r.size

/-- The last address a function reaches. -/
def Use.top : Use → Nat → Nat
  | .skip, addr => addr
  | .alloc elt count align k, addr => k.top (bound ⟨elt * count, align⟩ addr)
  | .both a b, addr => max (a.top addr) (b.top addr)
  | .hold r, addr => bound r addr

/-- Alignments are positive. -/
def Use.Aligned : Use → Prop
  | .skip => True
  | .alloc _ _ align k => 0 < align ∧ k.Aligned
  | .both a b => a.Aligned ∧ b.Aligned
  | .hold r => 0 < r.align

theorem le_bound (r : Req) (addr : Nat) (h : 0 < r.align) : addr ≤ bound r addr := by
  unfold bound; have := le_alignUp addr h; omega

theorem bound_mono {r : Req} (h : 0 < r.align) {a b : Nat} (hab : a ≤ b) : bound r a ≤ bound r b := by
  unfold bound; have := alignUp_mono h hab; omega

theorem canHold_iff {r : Req} (h : 0 < r.align) (addr len : Nat) :
    canHold r addr len = true ↔ bound r addr ≤ addr + len := by
  have := le_alignUp addr h
  simp only [canHold, bound, Bool.and_eq_true, decide_eq_true_eq]
  omega

theorem le_top {u : Use} (h : u.Aligned) (addr : Nat) : addr ≤ u.top addr := by
  induction u generalizing addr with
  | skip => exact le_rfl
  | alloc e c a k ih => exact (le_bound ⟨e * c, a⟩ addr h.1).trans (ih h.2 _)
  | both a b iha ihb => exact (iha h.1 addr).trans (le_max_left _ _)
  | hold r => exact le_bound r addr h

theorem fits_iff {u : Use} (h : u.Aligned) (addr len : Nat) :
    u.fits addr len = true ↔ u.top addr ≤ addr + len := by
  induction u generalizing addr len with
  | skip => simp [Use.fits, Use.top]
  | alloc e c a k ih =>
    have h1 := le_alignUp addr h.1
    simp only [Use.fits, Use.top, Bool.and_eq_true, decide_eq_true_eq]
    have h2 := le_top h.2 (bound ⟨e * c, a⟩ addr)
    have e2 : addr + (alignUp addr a - addr) + e * c = bound ⟨e * c, a⟩ addr := by simp only [bound]; omega
    rw [e2]
    rw [ih h.2]
    simp only [bound] at h2 ⊢
    generalize e * c = n at *
    generalize k.top (alignUp addr a + n) = t at *
    omega
  | both a b iha ihb =>
    simp only [Use.fits, Use.top, Bool.and_eq_true, iha h.1, ihb h.2]; omega
  | hold r => exact canHold_iff h addr len

/-! ### The operations of dyn_stack -/

theorem checked_eq {n m : Nat} (h : checked n = some m) : m = n := by
  unfold checked at h; split at h <;> simp_all

theorem tryNew_eq {e c a : Nat} {r : Req} (h : Req.tryNewAligned e c a = some r) : r = ⟨e * c, a⟩ := by
  simp only [Req.tryNewAligned, Option.map_eq_some_iff] at h
  obtain ⟨s, hs, rfl⟩ := h
  rw [checked_eq hs]

theorem tryAnd_eq {r s t : Req} (h : r.tryAnd s = some t) :
    t = ⟨alignUp r.size (max r.align s.align) + alignUp s.size (max r.align s.align), max r.align s.align⟩ := by
  simp only [Req.tryAnd, Option.bind_eq_bind, Option.bind_eq_some_iff, Option.pure_def, Option.some.injEq] at h
  obtain ⟨l, hl, r', hr', z, hz, rfl⟩ := h
  have h1 := checked_eq hl; have h2 := checked_eq hr'; have h3 := checked_eq hz
  subst h1 h2 h3; rfl

theorem tryOr_eq {r s t : Req} (h : r.tryOr s = some t) :
    t = ⟨max (alignUp r.size (max r.align s.align)) (alignUp s.size (max r.align s.align)), max r.align s.align⟩ := by
  simp only [Req.tryOr, Option.bind_eq_bind, Option.bind_eq_some_iff, Option.pure_def, Option.some.injEq] at h
  obtain ⟨l, hl, r', hr', rfl⟩ := h
  have h1 := checked_eq hl; have h2 := checked_eq hr'
  subst h1 h2; rfl

theorem pow2_max {a b : Nat} (ha : ∃ k, a = 2 ^ k) (hb : ∃ k, b = 2 ^ k) :
    (∃ k, max a b = 2 ^ k) ∧ a ∣ max a b ∧ b ∣ max a b := by
  obtain ⟨i, rfl⟩ := ha; obtain ⟨j, rfl⟩ := hb
  rcases le_total i j with h | h
  · have := Nat.pow_le_pow_right (n := 2) (by omega) h
    rw [max_eq_right this]
    exact ⟨⟨_, rfl⟩, pow_dvd_pow 2 h, dvd_rfl⟩
  · have := Nat.pow_le_pow_right (n := 2) (by omega) h
    rw [max_eq_left this]
    exact ⟨⟨_, rfl⟩, dvd_rfl, pow_dvd_pow 2 h⟩

theorem tryAnd_pow2 {r s t : Req} (h : r.tryAnd s = some t) (hr : r.Pow2) (hs : s.Pow2) : t.Pow2 := by
  rw [tryAnd_eq h]; exact (pow2_max hr hs).1

theorem tryOr_pow2 {r s t : Req} (h : r.tryOr s = some t) (hr : r.Pow2) (hs : s.Pow2) : t.Pow2 := by
  rw [tryOr_eq h]; exact (pow2_max hr hs).1

theorem alignUp_dvd_le {n a b : Nat} (hb : 0 < b) (h : a ∣ b) : alignUp n a ≤ alignUp n b :=
  alignUp_le (le_alignUp n hb) (h.trans (dvd_alignUp n b))

theorem and_core {r s : Req} {a : Nat} (ha : 0 < a) (h1 : r.align ∣ a) (h2 : s.align ∣ a) (x : Nat) :
    bound s (bound r x) ≤ alignUp x a + (alignUp r.size a + alignUp s.size a) := by
  have e1 : alignUp x r.align ≤ alignUp x a := alignUp_dvd_le ha h1
  have e2 := le_alignUp r.size ha
  have e3 := le_alignUp s.size ha
  have e4 : alignUp (alignUp x r.align + r.size) s.align ≤ alignUp x a + alignUp r.size a :=
    alignUp_le (by omega) (h2.trans (Nat.dvd_add (dvd_alignUp _ _) (dvd_alignUp _ _)))
  simp only [bound]; omega

theorem tryAnd_bound {r s t : Req} (h : r.tryAnd s = some t) (hr : r.Pow2) (hs : s.Pow2) (x : Nat) :
    bound s (bound r x) ≤ bound t x := by
  obtain ⟨⟨k, hk⟩, h1, h2⟩ := pow2_max hr hs
  rw [tryAnd_eq h]
  exact and_core (by rw [hk]; positivity) h1 h2 x

theorem tryAnd_bound' {r s t : Req} (h : r.tryAnd s = some t) (hr : r.Pow2) (hs : s.Pow2) (x : Nat) :
    bound r (bound s x) ≤ bound t x := by
  obtain ⟨⟨k, hk⟩, h1, h2⟩ := pow2_max hr hs
  rw [tryAnd_eq h]
  have := and_core (r := s) (s := r) (by rw [hk]; positivity) h2 h1 x
  simp only [bound] at this ⊢
  omega

theorem tryOr_bound {r s t : Req} (h : r.tryOr s = some t) (hr : r.Pow2) (hs : s.Pow2) (x : Nat) :
    bound r x ≤ bound t x ∧ bound s x ≤ bound t x := by
  obtain ⟨⟨k, hk⟩, h1, h2⟩ := pow2_max hr hs
  have hp : 0 < max r.align s.align := by rw [hk]; positivity
  rw [tryOr_eq h]
  have e1 := alignUp_dvd_le (n := x) hp h1
  have e2 := alignUp_dvd_le (n := x) hp h2
  have e3 := le_alignUp r.size hp
  have e4 := le_alignUp s.size hp
  simp only [bound]
  omega

theorem pow2_one : Req.Pow2 ⟨0, 1⟩ := ⟨0, rfl⟩

theorem bound_zero (x : Nat) : bound ⟨0, 1⟩ x = x := by simp [bound, alignUp]

theorem tryAllOf_aux (l : List Req) : ∀ (r t : Req), r.Pow2 → (∀ s ∈ l, s.Pow2) → l.foldlM Req.tryAnd r = some t →
    t.Pow2 ∧ ∀ x, l.foldl (fun a s => bound s a) (bound r x) ≤ bound t x := by
  induction l with
  | nil =>
    intro r t hr _ h
    simp at h; subst h; exact ⟨hr, fun _ => le_rfl⟩
  | cons s l ih =>
    intro r t hr hl h
    simp only [List.foldlM_cons, Option.bind_eq_bind, Option.bind_eq_some_iff] at h
    obtain ⟨u, hu, h⟩ := h
    have hs := hl s (by simp)
    obtain ⟨h1, h2⟩ := ih u t (tryAnd_pow2 hu hr hs) (fun q hq => hl q (by simp [hq])) h
    refine ⟨h1, fun x => ?_⟩
    have mono : ∀ (l : List Req), (∀ s ∈ l, s.Pow2) → ∀ a b : Nat, a ≤ b →
        l.foldl (fun a s => bound s a) a ≤ l.foldl (fun a s => bound s a) b := by
      intro l
      induction l with
      | nil => intro _ a b h; exact h
      | cons s l ih =>
        intro hl a b h
        exact ih (fun q hq => hl q (by simp [hq])) _ _ (bound_mono (hl s (by simp)).pos h)
    exact (mono l (fun q hq => hl q (by simp [hq])) _ _ (tryAnd_bound hu hr hs x)).trans (h2 x)

theorem tryAllOf_bound {l : List Req} {t : Req} (h : Req.tryAllOf l = some t) (hl : ∀ s ∈ l, s.Pow2) :
    t.Pow2 ∧ ∀ x, l.foldl (fun a s => bound s a) x ≤ bound t x := by
  have := tryAllOf_aux l ⟨0, 1⟩ t pow2_one hl h
  simpa only [bound_zero] using this

theorem tryAnyOf_aux (l : List Req) : ∀ (r t : Req), r.Pow2 → (∀ s ∈ l, s.Pow2) → l.foldlM Req.tryOr r = some t →
    t.Pow2 ∧ ∀ x, bound r x ≤ bound t x ∧ ∀ s ∈ l, bound s x ≤ bound t x := by
  induction l with
  | nil =>
    intro r t hr _ h
    simp at h; subst h; exact ⟨hr, fun _ => ⟨le_rfl, by simp⟩⟩
  | cons s l ih =>
    intro r t hr hl h
    simp only [List.foldlM_cons, Option.bind_eq_bind, Option.bind_eq_some_iff] at h
    obtain ⟨u, hu, h⟩ := h
    have hs := hl s (by simp)
    obtain ⟨h1, h2⟩ := ih u t (tryOr_pow2 hu hr hs) (fun q hq => hl q (by simp [hq])) h
    refine ⟨h1, fun x => ⟨(tryOr_bound hu hr hs x).1.trans (h2 x).1, ?_⟩⟩
    intro q hq
    rcases List.mem_cons.1 hq with rfl | hq
    · exact (tryOr_bound hu hr hs x).2.trans (h2 x).1
    · exact (h2 x).2 q hq

theorem tryAnyOf_bound {l : List Req} {t : Req} (h : Req.tryAnyOf l = some t) (hl : ∀ s ∈ l, s.Pow2) :
    t.Pow2 ∧ ∀ x, ∀ s ∈ l, bound s x ≤ bound t x := by
  obtain ⟨h1, h2⟩ := tryAnyOf_aux l ⟨0, 1⟩ t pow2_one hl h
  exact ⟨h1, fun x => (h2 x).2⟩

/-! ### What a function needs -/

/-- `r` is enough for `u`. -/
def Enough (u : Use) (r : Req) : Prop := u.Aligned ∧ r.Pow2 ∧ ∀ x, u.top x ≤ bound r x

theorem Enough.fits {u : Use} {r : Req} (h : Enough u r) {addr len : Nat} (hc : canHold r addr len = true) :
    u.fits addr len = true :=
  (fits_iff h.1 addr len).2 ((h.2.2 addr).trans ((canHold_iff h.2.1.pos addr len).1 hc))

theorem Enough.mono {u : Use} {r s : Req} (h : Enough u r) (hs : s.Pow2) (hb : ∀ x, bound r x ≤ bound s x) :
    Enough u s := ⟨h.1, hs, fun x => (h.2.2 x).trans (hb x)⟩

theorem enough_skip {r : Req} (h : r.Pow2) : Enough .skip r := ⟨trivial, h, fun x => le_bound r x h.pos⟩

theorem enough_hold {r : Req} (h : r.Pow2) : Enough (.hold r) r := ⟨h.pos, h, fun _ => le_rfl⟩

theorem enough_both {u v : Use} {r : Req} (hu : Enough u r) (hv : Enough v r) : Enough (.both u v) r :=
  ⟨⟨hu.1, hv.1⟩, hu.2.1, fun x => max_le (hu.2.2 x) (hv.2.2 x)⟩

theorem enough_seq {l : List Use} {r : Req} (hr : r.Pow2) (h : ∀ u ∈ l, Enough u r) : Enough (.seq l) r := by
  induction l with
  | nil => exact enough_skip hr
  | cons u l ih =>
    exact enough_both (h u (by simp)) (ih fun v hv => h v (by simp [hv]))

theorem enough_loop {n : Nat} {u : Use} {r : Req} (h : Enough u r) : Enough (.loop n u) r :=
  enough_seq h.2.1 fun v hv => by rw [List.eq_of_mem_replicate hv]; exact h

theorem enough_ite {c : Prop} [Decidable c] {u v : Use} {r : Req} (hu : Enough u r) (hv : Enough v r) :
    Enough (if c then u else v) r := by split <;> assumption

/-- An allocation, then the rest. -/
theorem enough_alloc {e c a : Nat} {k : Use} {r s t : Req} (hk : Enough k r) (hs : s.Pow2) (ha : s.align = a)
    (hc : e * c ≤ s.size) (ht : t.Pow2) (hb : ∀ x, bound r (bound s x) ≤ bound t x) : Enough (.alloc e c a k) t := by
  refine ⟨⟨ha ▸ hs.pos, hk.1⟩, ht, fun x => ?_⟩
  refine (hk.2.2 _).trans ((bound_mono hk.2.1.pos ?_).trans (hb x))
  simp only [bound, ha]; omega

theorem pow2_cacheline (n : Nat) : Req.Pow2 ⟨n, cacheline⟩ := ⟨7, rfl⟩

theorem pow2_new {e c : Nat} {r : Req} (h : Req.tryNewAligned e c cacheline = some r) : r.Pow2 := by
  rw [tryNew_eq h]; exact pow2_cacheline _

/-- An allocation of the cache line alignment and the rest, announced with `try_and`, in one order or the other. -/
theorem enough_and {e c c' : Nat} {k : Use} {r s t : Req} (hk : Enough k r)
    (hs : Req.tryNewAligned e c cacheline = some s) (hc : c' ≤ c) (h : s.tryAnd r = some t ∨ r.tryAnd s = some t) :
    Enough (.alloc e c' cacheline k) t := by
  have hs2 := pow2_new hs
  have e1 := tryNew_eq hs
  refine enough_alloc hk hs2 (by rw [e1]) (by rw [e1]; exact Nat.mul_le_mul_left _ hc) ?_ ?_
  · rcases h with h | h
    · exact tryAnd_pow2 h hs2 hk.2.1
    · exact tryAnd_pow2 h hk.2.1 hs2
  · intro x
    rcases h with h | h
    · exact tryAnd_bound h hs2 hk.2.1 x
    · exact tryAnd_bound' h hk.2.1 hs2 x

end Verif.Scratch
