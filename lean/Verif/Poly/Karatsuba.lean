import Verif.Poly.Lemmas
/-
Lemmas on the Karatsuba product.
-/
set_option linter.unusedSectionVars false
namespace Verif.Poly
open Polynomial

variable {R : Type} [CommRing R]

theorem sub'_length (l : List R) (a b : Nat) (hb : b ≤ l.length) : (sub' l a b).length = b - a := by
  simp [sub']; omega

theorem updRange_length (f : R → R → R) (res : List R) (a b : Nat) (ys : List R) (hab : a ≤ b)
    (hb : b ≤ res.length) : (updRange f res a b ys).length = res.length := by
  simp [updRange, zipUpdate_length]; omega

theorem toPoly_split3 (l : List R) (a b : Nat) (hab : a ≤ b) (hb : b ≤ l.length) :
    toPoly l = toPoly (l.take a) + X ^ a * toPoly ((l.drop a).take (b - a)) + X ^ b * toPoly (l.drop b) := by
  have h1 := toPoly_take_drop l a (by omega)
  have h2 := toPoly_take_drop (l.drop a) (b - a) (by simp; omega)
  rw [h1, h2, List.drop_drop, mul_add, ← mul_assoc, ← pow_add]
  rw [show a + (b - a) = b by omega]
  ring

theorem toPoly_updRange (f : R → R → R) (res : List R) (a b : Nat) (ys : List R) (hab : a ≤ b)
    (hb : b ≤ res.length) :
    toPoly (updRange f res a b ys) = toPoly (res.take a) +
      X ^ a * toPoly (zipUpdate f ((res.drop a).take (b - a)) ys) + X ^ b * toPoly (res.drop b) := by
  have l1 : (res.take a).length = a := by simp; omega
  have l2 : (zipUpdate f ((res.drop a).take (b - a)) ys).length = b - a := by
    rw [zipUpdate_length]; simp; omega
  rw [updRange, toPoly_append, toPoly_append, List.length_append, l1, l2,
    show a + (b - a) = b by omega]

theorem toPoly_updRange_add (res : List R) (a b : Nat) (ys : List R) (hab : a ≤ b)
    (hb : b ≤ res.length) (hy : ys.length = b - a) :
    toPoly (updRange (fun x y => x + y) res a b ys) = toPoly res + X ^ a * toPoly ys := by
  rw [toPoly_updRange _ _ _ _ _ hab hb, toPoly_add _ _ (by simp; omega), toPoly_split3 res a b hab hb]
  ring

theorem toPoly_updRange_sub (res : List R) (a b : Nat) (ys : List R) (hab : a ≤ b)
    (hb : b ≤ res.length) (hy : ys.length = b - a) :
    toPoly (updRange (fun x y => x - y) res a b ys) = toPoly res - X ^ a * toPoly ys := by
  rw [toPoly_updRange _ _ _ _ _ hab hb, toPoly_sub _ _ (by simp; omega), toPoly_split3 res a b hab hb]
  ring

theorem toPoly_updRange_set_zero (n a b : Nat) (ys : List R) (hab : a ≤ b)
    (hb : b ≤ n) (hy : ys.length = b - a) :
    toPoly (updRange (fun _ y => y) (List.replicate n 0) a b ys) = X ^ a * toPoly ys := by
  rw [toPoly_updRange _ _ _ _ _ hab (by simpa using hb), zipUpdate_snd _ _ (by simp; omega)]
  simp only [List.take_replicate, List.drop_replicate, toPoly_replicate_zero]
  ring

theorem zipWith_eq_zipUpdate (f : R → R → R) (p q : List R) (h : p.length = q.length) :
    List.zipWith f p q = zipUpdate f p q := by
  rw [zipUpdate_eq_zipWith _ _ _ (by omega)]

theorem toPoly_zipWith_add (p q : List R) (h : p.length = q.length) :
    toPoly (List.zipWith (fun a b => a + b) p q) = toPoly p + toPoly q := by
  rw [zipWith_eq_zipUpdate _ _ _ h, toPoly_add _ _ h]

theorem toPoly_zipWith_sub (p q : List R) (h : p.length = q.length) :
    toPoly (List.zipWith (fun a b => a - b) p q) = toPoly p - toPoly q := by
  rw [zipWith_eq_zipUpdate _ _ _ h, toPoly_sub _ _ h]

theorem schoolbook_spec (n m : Nat) (p q : List R) (hp : p.length = m) (hq : q.length = m)
    (hn : 2 * m ≤ n) :
    (schoolbook (List.replicate n 0) p q).length = n ∧
    toPoly (schoolbook (List.replicate n 0) p q) = toPoly p * toPoly q := by
  have inner : ∀ i ∈ List.range m, ∀ acc : List R, acc.length = n →
      ((List.range m).foldl (fun acc j => acc.modify (i + j) (fun a => a + p.getD i 0 * q.getD j 0)) acc).length = n ∧
      toPoly ((List.range m).foldl (fun acc j => acc.modify (i + j) (fun a => a + p.getD i 0 * q.getD j 0)) acc) =
        toPoly acc + ((List.range m).map fun j => C (p.getD i 0) * X ^ i * (C (q.getD j 0) * X ^ j)).sum := by
    intro i hi acc ha
    exact foldl_measure (fun acc j => acc.modify (i + j) (fun a => a + p.getD i 0 * q.getD j 0))
      (fun a => a.length = n) toPoly (fun j => C (p.getD i 0) * X ^ i * (C (q.getD j 0) * X ^ j))
      (List.range m) acc ha (by
        intro s j hj hs
        have h1 := List.mem_range.1 hi
        have h2 := List.mem_range.1 hj
        refine ⟨by rw [List.length_modify, hs], ?_⟩
        rw [toPoly_modify_add _ _ _ (by omega), C_mul, pow_add]; ring)
  have outer := foldl_measure (fun acc i => (List.range m).foldl (fun acc j =>
      acc.modify (i + j) (fun a => a + p.getD i 0 * q.getD j 0)) acc)
    (fun a => a.length = n) toPoly
    (fun i => ((List.range m).map fun j => C (p.getD i 0) * X ^ i * (C (q.getD j 0) * X ^ j)).sum)
    (List.range m) (List.replicate n 0) (by simp) (fun s i hi hs => inner i hi s hs)
  rw [schoolbook, hp, hq]
  refine ⟨outer.1, ?_⟩
  rw [outer.2, toPoly_replicate_zero, zero_add, list_sum_range]
  simp only [list_sum_range]
  rw [← Finset.sum_mul_sum, toPoly, toPoly, hp, hq]

theorem toPoly_halves (p : List R) (h n : Nat) (hp : p.length = n) (hh : n = 2 * h) :
    toPoly p = toPoly (sub' p 0 h) + X ^ h * toPoly (sub' p h n) := by
  rw [toPoly_take_drop p h (by omega), sub', sub', List.drop_zero, Nat.sub_zero,
    List.take_of_length_le (l := p.drop h) (by simp; omega)]

theorem karatsubaInd_spec : ∀ (k fuel n : Nat) (p q : List R), k < fuel → p.length = 32 * 2 ^ k →
    q.length = 32 * 2 ^ k → n = 2 * (32 * 2 ^ k) →
    ∃ r, karatsubaInd fuel (List.replicate n 0) p q = some r ∧ r.length = n ∧
      toPoly r = toPoly p * toPoly q
  | 0, fuel + 1, n, p, q, _, hp, hq, hn => by
    have e : p.length = karatsubaStop := by simpa [karatsubaStop] using hp
    refine ⟨schoolbook (List.replicate n 0) p q, ?_, ?_⟩
    · simp only [karatsubaInd, e, if_true]
    · exact schoolbook_spec n 32 p q (by simpa using hp) (by simpa using hq) (by simp at hn; omega)
  | k + 1, fuel + 1, n, p, q, hk, hp, hq, hn => by
    obtain ⟨m, hm⟩ : ∃ m, m = 32 * 2 ^ k := ⟨_, rfl⟩
    have hm32 : 32 ≤ m := by
      have := Nat.one_le_two_pow (n := k); omega
    have hpm : p.length = 2 * m := by rw [hp, pow_succ]; omega
    have hqm : q.length = 2 * m := by rw [hq, pow_succ]; omega
    have hnm : n = 4 * m := by rw [hn, pow_succ]; omega
    have ne : ¬ p.length = karatsubaStop := by simp only [karatsubaStop]; omega
    have n4 : n / 4 = m := by omega
    have n2 : n / 2 = 2 * m := by omega
    have n34 : 3 * n / 4 = 3 * m := by omega
    have lp0 : (sub' p 0 m).length = m := by rw [sub'_length _ _ _ (by omega)]; omega
    have lp1 : (sub' p m (2 * m)).length = m := by rw [sub'_length _ _ _ (by omega)]; omega
    have lq0 : (sub' q 0 m).length = m := by rw [sub'_length _ _ _ (by omega)]; omega
    have lq1 : (sub' q m (2 * m)).length = m := by rw [sub'_length _ _ _ (by omega)]; omega
    have lps : (List.zipWith (fun a b => a + b) (sub' p 0 m) (sub' p m (2 * m))).length = m := by
      simp [lp0, lp1]
    have lqs : (List.zipWith (fun a b => a + b) (sub' q 0 m) (sub' q m (2 * m))).length = m := by
      simp [lq0, lq1]
    obtain ⟨a0, e0, l0, t0⟩ := karatsubaInd_spec k fuel (2 * m) (sub' p 0 m) (sub' q 0 m) (by omega)
      (by omega) (by omega) (by omega)
    obtain ⟨a1, e1, l1, t1⟩ := karatsubaInd_spec k fuel (2 * m) (sub' p m (2 * m)) (sub' q m (2 * m))
      (by omega) (by omega) (by omega) (by omega)
    obtain ⟨a2, e2, l2, t2⟩ := karatsubaInd_spec k fuel (2 * m)
      (List.zipWith (fun a b => a + b) (sub' p 0 m) (sub' p m (2 * m)))
      (List.zipWith (fun a b => a + b) (sub' q 0 m) (sub' q m (2 * m))) (by omega)
      (by omega) (by omega) (by omega)
    rw [toPoly_zipWith_add _ _ (by omega), toPoly_zipWith_add _ _ (by omega)] at t2
    simp only [karatsubaInd, ne, if_false, List.length_replicate, n4, n2, n34]
    rw [zipUpdate_snd (List.replicate m (0 : R)) _ (by rw [lps]; simp),
      zipUpdate_snd (List.replicate m (0 : R)) _ (by rw [lqs]; simp), e0, e1, e2]
    refine ⟨_, rfl, ?_, ?_⟩
    · have lz : (List.replicate n (0 : R)).length = n := by simp
      have u1 := updRange_length (fun _ b => b) (List.replicate n (0 : R)) m (3 * m)
        (List.zipWith (fun a b => a - b) a2 a0) (by omega) (by omega)
      have u2 := updRange_length (fun a b => a - b) _ m (3 * m) a1 (by omega)
        (show 3 * m ≤ (updRange (fun _ b => b) (List.replicate n (0 : R)) m (3 * m)
          (List.zipWith (fun a b => a - b) a2 a0)).length by omega)
      have u3 := updRange_length (fun a b => a + b) _ 0 (2 * m) a0 (by omega) (show 2 * m ≤
        (updRange (fun a b => a - b) (updRange (fun _ b => b) (List.replicate n (0 : R)) m (3 * m)
          (List.zipWith (fun a b => a - b) a2 a0)) m (3 * m) a1).length by omega)
      rw [updRange_length _ _ _ _ _ (by omega) (by omega), u3, u2, u1, lz]
    · have lz : (List.replicate n (0 : R)).length = n := by simp
      have u1 := updRange_length (fun _ b => b) (List.replicate n (0 : R)) m (3 * m)
        (List.zipWith (fun a b => a - b) a2 a0) (by omega) (by omega)
      have u2 := updRange_length (fun a b => a - b) _ m (3 * m) a1 (by omega)
        (show 3 * m ≤ (updRange (fun _ b => b) (List.replicate n (0 : R)) m (3 * m)
          (List.zipWith (fun a b => a - b) a2 a0)).length by omega)
      have u3 := updRange_length (fun a b => a + b) _ 0 (2 * m) a0 (by omega) (show 2 * m ≤
        (updRange (fun a b => a - b) (updRange (fun _ b => b) (List.replicate n (0 : R)) m (3 * m)
          (List.zipWith (fun a b => a - b) a2 a0)) m (3 * m) a1).length by omega)
      rw [toPoly_updRange_add _ _ _ _ (by omega) (by omega) (by omega),
        toPoly_updRange_add _ _ _ _ (by omega) (by omega) (by omega),
        toPoly_updRange_sub _ _ _ _ (by omega) (by omega) (by omega),
        toPoly_updRange_set_zero _ _ _ _ (by omega) (by omega) (by simp [l2, l0]; omega),
        toPoly_zipWith_sub _ _ (by omega), t0, t1, t2,
        toPoly_halves p m (2 * m) hpm rfl, toPoly_halves q m (2 * m) hqm rfl]
      rw [show 2 * m = m + m by omega, pow_add]
      ring

theorem karatsuba_spec (k fuel N : Nat) (hk : k < fuel) (hN : N = 64 * 2 ^ k) (out p q : List R)
    (ho : out.length = N) (hp : p.length = N) (hq : q.length = N) :
    ∃ r, karatsuba fuel out p q = some r ∧ r.length = N ∧ toRq N r = toRq N p * toRq N q := by
  obtain ⟨m, hm⟩ : ∃ m, m = 32 * 2 ^ k := ⟨_, rfl⟩
  have hNm : N = 2 * m := by omega
  have n2 : N / 2 = m := by omega
  have lp0 : (sub' p 0 m).length = m := by rw [sub'_length _ _ _ (by omega)]; omega
  have lp1 : (sub' p m N).length = m := by rw [sub'_length _ _ _ (by omega)]; omega
  have lq0 : (sub' q 0 m).length = m := by rw [sub'_length _ _ _ (by omega)]; omega
  have lq1 : (sub' q m N).length = m := by rw [sub'_length _ _ _ (by omega)]; omega
  have lps : (List.zipWith (fun a b => a + b) (sub' p 0 m) (sub' p m N)).length = m := by
    simp [lp0, lp1]
  have lqs : (List.zipWith (fun a b => a + b) (sub' q 0 m) (sub' q m N)).length = m := by
    simp [lq0, lq1]
  obtain ⟨a0, e0, l0, t0⟩ := karatsubaInd_spec k fuel N (sub' p 0 m) (sub' q 0 m) hk
    (by omega) (by omega) (by omega)
  obtain ⟨a1, e1, l1, t1⟩ := karatsubaInd_spec k fuel N (sub' p m N) (sub' q m N)
    hk (by omega) (by omega) (by omega)
  obtain ⟨a2, e2, l2, t2⟩ := karatsubaInd_spec k fuel N
    (List.zipWith (fun a b => a + b) (sub' p 0 m) (sub' p m N))
    (List.zipWith (fun a b => a + b) (sub' q 0 m) (sub' q m N)) hk
    (by omega) (by omega) (by omega)
  rw [toPoly_zipWith_add _ _ (by omega), toPoly_zipWith_add _ _ (by omega)] at t2
  simp only [karatsuba, ho, n2]
  rw [zipUpdate_snd (List.replicate m (0 : R)) _ (by rw [lps]; simp),
    zipUpdate_snd (List.replicate m (0 : R)) _ (by rw [lqs]; simp), e0, e1, e2]
  have ld : (List.zipWith (fun a b => a - b) a0 a1).length = N := by simp [l0, l1]
  simp only [zipUpdate_snd out _ (by rw [ld, ho])]
  have s0 : ∀ l : List R, l.length = N → (sub' l 0 m).length = m := fun l h => by
    rw [sub'_length _ _ _ (by omega)]; omega
  have s1 : ∀ l : List R, l.length = N → (sub' l m N).length = m := fun l h => by
    rw [sub'_length _ _ _ (by omega)]; omega
  refine ⟨_, rfl, ?_⟩
  generalize hr0 : List.zipWith (fun a b => a - b) a0 a1 = r0 at *
  have v1 := updRange_length (fun a b => a - b) r0 0 m (sub' a2 m N) (by omega) (by omega)
  have w1 := toPoly_updRange_sub r0 0 m (sub' a2 m N) (by omega) (by omega) (by rw [s1 _ l2]; omega)
  generalize updRange (fun a b => a - b) r0 0 m (sub' a2 m N) = r1 at *
  have v2 := updRange_length (fun a b => a + b) r1 0 m (sub' a0 m N) (by omega) (by omega)
  have w2 := toPoly_updRange_add r1 0 m (sub' a0 m N) (by omega) (by omega) (by rw [s1 _ l0]; omega)
  generalize updRange (fun a b => a + b) r1 0 m (sub' a0 m N) = r2 at *
  have v3 := updRange_length (fun a b => a + b) r2 0 m (sub' a1 m N) (by omega) (by omega)
  have w3 := toPoly_updRange_add r2 0 m (sub' a1 m N) (by omega) (by omega) (by rw [s1 _ l1]; omega)
  generalize updRange (fun a b => a + b) r2 0 m (sub' a1 m N) = r3 at *
  have v4 := updRange_length (fun a b => a + b) r3 m N (sub' a2 0 m) (by omega) (by omega)
  have w4 := toPoly_updRange_add r3 m N (sub' a2 0 m) (by omega) (by omega) (by rw [s0 _ l2]; omega)
  generalize updRange (fun a b => a + b) r3 m N (sub' a2 0 m) = r4 at *
  have v5 := updRange_length (fun a b => a - b) r4 m N (sub' a0 0 m) (by omega) (by omega)
  have w5 := toPoly_updRange_sub r4 m N (sub' a0 0 m) (by omega) (by omega) (by rw [s0 _ l0]; omega)
  generalize updRange (fun a b => a - b) r4 m N (sub' a0 0 m) = r5 at *
  have v6 := updRange_length (fun a b => a - b) r5 m N (sub' a1 0 m) (by omega) (by omega)
  have w6 := toPoly_updRange_sub r5 m N (sub' a1 0 m) (by omega) (by omega) (by rw [s0 _ l1]; omega)
  generalize updRange (fun a b => a - b) r5 m N (sub' a1 0 m) = r6 at *
  refine ⟨by omega, ?_⟩
  have w0 : toPoly r0 = toPoly a0 - toPoly a1 := by
    rw [← hr0, toPoly_zipWith_sub _ _ (by omega)]
  -- everything as classes
  have h0 := toPoly_halves a0 m N l0 hNm
  have h1 := toPoly_halves a1 m N l1 hNm
  have h2 := toPoly_halves a2 m N l2 hNm
  have hP := toPoly_halves p m N hp hNm
  have hQ := toPoly_halves q m N hq hNm
  have key : toPoly r6 - toPoly p * toPoly q =
      (X ^ N + 1) * (- toPoly a1 + toPoly (sub' a0 m N) + toPoly (sub' a1 m N) - toPoly (sub' a2 m N)) := by
    rw [w6, w5, w4, w3, w2, w1, w0, hP, hQ]
    rw [show N = m + m by omega] at *
    rw [pow_add, pow_zero]
    linear_combination (X ^ m) * t2 - (X ^ m) * t0 - (X ^ m) * t1 - (X ^ m) * h2 + (X^m) * h0 + (X ^ m) * h1 + X^m * X^m * t1 + t0
  have : AdjoinRoot.mk (X ^ N + 1 : R[X]) (toPoly r6) = AdjoinRoot.mk (X ^ N + 1 : R[X]) (toPoly p * toPoly q) := by
    rw [AdjoinRoot.mk_eq_mk]
    exact ⟨_, key⟩
  rw [toRq, this, map_mul]; rfl

theorem karatsubaInd_none : ∀ (fuel : Nat) (res p q : List R), p.length < 32 → res.length < 64 →
    karatsubaInd fuel res p q = none
  | 0, _, _, _, _, _ => rfl
  | fuel + 1, res, p, q, hp, hr => by
    have ne : ¬ p.length = karatsubaStop := by simp only [karatsubaStop]; omega
    simp only [karatsubaInd, ne, if_false]
    rw [karatsubaInd_none fuel (List.replicate (res.length / 2) 0) (sub' p 0 (res.length / 4))
      (sub' q 0 (res.length / 4)) (by simp [sub']; omega) (by simp; omega)]

end Verif.Poly
