import Verif.Session.Step
import Verif.Random.Props
/-
C60: in every history of calls of an engine, no byte of a generator is used by two calls, and the result of a
call depends on the bytes it uses only.
-/
namespace Verif.Session
open Verif.Random Verif.Engine
open Verif.Csprng (Build)
variable {w : Nat} (T : BitVec 128 → Nat → BitVec 8) (bld : Build)

/-- C60, one call: the generators advance, over the same bytes. -/
theorem C60_advance (c : Call) (e e' : Engine) (o : Out) (h : step T bld c e = some (o, e')) : e.Advances e' := by
  rcases step_cases h with ⟨x, rfl, rfl⟩ | ⟨w, s, rfl, g, hs, rfl⟩ | ⟨w, s, rfl, x, g, hs, rfl, rfl⟩ |
    ⟨w, s, rfl, x, g, hs, rfl, rfl⟩
  · exact advances_refl _
  · obtain ⟨l, _⟩ := local_secret s _ _ _ (secret_run_ok hs).2
    exact ⟨l.self, ⟨rfl, Nat.le_refl _⟩, ⟨rfl, Nat.le_refl _⟩, ⟨rfl, Nat.le_refl _⟩⟩
  · obtain ⟨_, d, hd, _⟩ := enc_run_ok hs
    obtain ⟨l, _⟩ := localE_exec bld s _ _ _ hd
    exact ⟨⟨rfl, Nat.le_refl _⟩, l.mask.self, l.noise.self, ⟨rfl, Nat.le_refl _⟩⟩
  · obtain ⟨_, s1, g1, s2, b, q, h1, h2, _⟩ := seeded_run_ok hs
    have l := (local_seed _ _ _ h1).1.trans (local_seed _ _ _ h2).1
    exact ⟨⟨rfl, Nat.le_refl _⟩, ⟨rfl, Nat.le_refl _⟩, ⟨rfl, Nat.le_refl _⟩, l.self⟩

/-- C60, one call: its result is a function of its arguments and of the bytes between the positions of the
generators before it and after it. Any other byte may be replaced. -/
theorem C60_step (c : Call) (e e' : Engine) (o : Out) (h : step T bld c e = some (o, e'))
    (s m n d : Nat → BitVec 8) (hb : e.SameBytes e' s m n d) :
    step T bld c (e.withTables s m n d) = some (o, e'.withTables s m n d) := by
  rcases step_cases h with ⟨x, rfl, rfl⟩ | ⟨w, s, rfl, g, hs, rfl⟩ | ⟨w, s, rfl, x, g, hs, rfl, rfl⟩ |
    ⟨w, s, rfl, x, g, hs, rfl, rfl⟩
  · exact step_err h _
  · obtain ⟨hc, hx⟩ := secret_run_ok hs
    have k := (local_secret s _ _ _ hx).2 _ hb.secret
    simp only [step, SecretCall.run, hc, Engine.withTables]
    simp only [reTable] at k
    rw [k]
  · obtain ⟨hc, d, hd, rfl⟩ := enc_run_ok hs
    have k := (localE_exec bld s _ _ _ hd).2 _ _ ⟨hb.mask, hb.noise⟩
    simp only [step, EncCall.run, hc, Engine.withTables]
    simp only [reTable, reTables] at k
    rw [k]
  · obtain ⟨hc, s1, g1, s2, b, q, h1, h2, h3, rfl⟩ := seeded_run_ok hs
    have hb' : Same e.seeder g d := hb.seeder
    have l1 := (local_seed _ _ _ h1).1
    have l2 := (local_seed _ _ _ h2).1
    have k1 := (local_seed _ _ _ h1).2 _ (hb'.left l2)
    have k2 := (local_seed _ _ _ h2).2 _ (hb'.right l1)
    simp only [reTable] at k1 k2
    simp only [step, SeededCall.run, hc, Engine.withTables, k1, newEncGen, k2, h3]

/-- C60, errors: a call that returns an error leaves the engine unchanged, and whether it does and the error
do not depend on the state of the engine. -/
theorem C60_error (c : Call) (e e' : Engine) (x : EErr) (h : step T bld c e = some (.err x, e')) :
    e' = e ∧ ∀ e2, step T bld c e2 = some (.err x, e2) := by
  have k := step_err h
  refine ⟨?_, k⟩
  have := (h.symm.trans (k e))
  simp only [Option.some.injEq, Prod.mk.injEq] at this
  exact this.2

theorem run_cons {c : Call} {cs : List Call} {e e' : Engine} {os : List Out}
    (h : run T bld (c :: cs) e = some (os, e')) :
    ∃ o e1 os', step T bld c e = some (o, e1) ∧ run T bld cs e1 = some (os', e') ∧ os = o :: os' := by
  simp only [run] at h
  cases h1 : step T bld c e with
  | none => rw [h1] at h; cases h
  | some r =>
    simp only [h1] at h
    cases h2 : run T bld cs r.2 with
    | none => rw [h2] at h; cases h
    | some q =>
      simp only [h2, Option.some.injEq, Prod.mk.injEq] at h
      exact ⟨r.1, r.2, q.1, rfl, by rw [h2, ← h.2], h.1.symm⟩

/-- A history is its first part followed by its second part. -/
theorem run_append : ∀ (as bs : List Call) {e e' : Engine} {os : List Out},
    run T bld (as ++ bs) e = some (os, e') →
    ∃ os1 e1 os2, run T bld as e = some (os1, e1) ∧ run T bld bs e1 = some (os2, e') ∧ os = os1 ++ os2 ∧
      os1.length = as.length
  | [], bs, e, e', os, h => ⟨[], e, os, rfl, h, rfl, rfl⟩
  | a :: as, bs, e, e', os, h => by
    obtain ⟨o, e1, os', h1, h2, rfl⟩ := run_cons T bld h
    obtain ⟨os1, e2, os2, k1, k2, rfl, k4⟩ := run_append as bs h2
    exact ⟨o :: os1, e2, os2, by simp only [run, h1, k1], k2, rfl, by simp [k4]⟩

/-- C60: the generators only advance along a history. -/
theorem C60_run_advance : ∀ (cs : List Call) (e e' : Engine) (os : List Out),
    run T bld cs e = some (os, e') → e.Advances e'
  | [], e, e', os, h => by
    simp only [run, Option.some.injEq, Prod.mk.injEq] at h
    obtain ⟨_, rfl⟩ := h
    exact advances_refl _
  | c :: cs, e, e', os, h => by
    obtain ⟨o, e1, os', h1, h2, rfl⟩ := run_cons T bld h
    exact (C60_advance T bld c e e1 o h1).trans (C60_run_advance cs e1 e' os' h2)

/-- C60, disjointness: for any two calls of a history, the bytes used by the first one (those between the
positions of the generators of `e1` and of `e2`) come before the bytes used by the second one (between `e3` and
`e4`), for each generator of the engine. With `C60_step`, no byte contributes to both results. -/
theorem C60_disjoint (as bs cs : List Call) (c c' : Call) (e e' : Engine) (os : List Out)
    (h : run T bld (as ++ c :: (bs ++ c' :: cs)) e = some (os, e')) :
    ∃ e1 e2 e3 e4 o o', step T bld c e1 = some (o, e2) ∧ step T bld c' e3 = some (o', e4) ∧
      os[as.length]? = some o ∧ os[as.length + 1 + bs.length]? = some o' ∧
      e.Advances e1 ∧ e1.Advances e2 ∧ e2.Advances e3 ∧ e3.Advances e4 ∧ e4.Advances e' := by
  obtain ⟨os1, e1, os2, h1, h2, rfl, l1⟩ := run_append T bld as _ h
  obtain ⟨o, e2, os3, h3, h4, rfl⟩ := run_cons T bld h2
  obtain ⟨os4, e3, os5, h5, h6, rfl, l2⟩ := run_append T bld bs _ h4
  obtain ⟨o', e4, os6, h7, h8, rfl⟩ := run_cons T bld h6
  refine ⟨e1, e2, e3, e4, o, o', h3, h7, ?_, ?_, C60_run_advance T bld _ _ _ _ h1, C60_advance T bld _ _ _ _ h3,
    C60_run_advance T bld _ _ _ _ h5, C60_advance T bld _ _ _ _ h7, C60_run_advance T bld _ _ _ _ h8⟩
  · rw [List.getElem?_append_right (by omega), l1, Nat.sub_self]; rfl
  · rw [List.getElem?_append_right (by omega), l1, show as.length + 1 + bs.length - as.length = bs.length + 1 by omega,
      List.getElem?_cons_succ, List.getElem?_append_right (by omega), l2, Nat.sub_self]; rfl

/-- C60, whole histories: they do not depend on the bytes they do not use. -/
theorem C60_run : ∀ (cs : List Call) (e e' : Engine) (os : List Out), run T bld cs e = some (os, e') →
    ∀ s m n d : Nat → BitVec 8, e.SameBytes e' s m n d →
    run T bld cs (e.withTables s m n d) = some (os, e'.withTables s m n d)
  | [], e, e', os, h, s, m, n, d, _ => by
    simp only [run, Option.some.injEq, Prod.mk.injEq] at h ⊢
    exact ⟨h.1, by rw [h.2]⟩
  | c :: cs, e, e', os, h, s, m, n, d, hb => by
    obtain ⟨o, e1, os', h1, h2, rfl⟩ := run_cons T bld h
    have a1 := C60_advance T bld c e e1 o h1
    have a2 := C60_run_advance T bld cs e1 e' os' h2
    have k1 := C60_step T bld c e e1 o h1 s m n d
      ⟨fun p x y => hb.secret p x (by have := a2.secret.2; omega), fun p x y => hb.mask p x (by have := a2.mask.2; omega),
        fun p x y => hb.noise p x (by have := a2.noise.2; omega), fun p x y => hb.seeder p x (by have := a2.seeder.2; omega)⟩
    have k2 := C60_run cs e1 e' os' h2 s m n d
      ⟨fun p x y => by rw [a1.secret.1]; exact hb.secret p (by have := a1.secret.2; omega) y,
        fun p x y => by rw [a1.mask.1]; exact hb.mask p (by have := a1.mask.2; omega) y,
        fun p x y => by rw [a1.noise.1]; exact hb.noise p (by have := a1.noise.2; omega) y,
        fun p x y => by rw [a1.seeder.1]; exact hb.seeder p (by have := a1.seeder.2; omega) y⟩
    simp only [run, k1, k2]

end Verif.Session
