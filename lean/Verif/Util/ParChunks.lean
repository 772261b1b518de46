import Verif.Util.Par
import Mathlib.Tactic.Choose
import Verif.Util.Containers
/-
Parallel loops over the chunks of a flat container.
-/
namespace Verif

variable {α : Type}

/-- A complete parallel loop over the `m` blocks of size `n` of a container, each job keeping the size
of its block: the result is the container whose blocks are the results of the jobs. -/
theorem parFor_chunks (job : Nat → List α → Option (List α)) (m n : Nat) (hn : 0 < n) (out : List α)
    (hl : out.length = m * n) (sched : List Nat) (hp : sched.Perm (List.range m))
    (hjob : ∀ i c c', i < m → c.length = n → job i c = some c' → c'.length = n) (res : List α) :
    (parFor job sched (chunks n out)).map List.flatten = some res ↔
      res.length = m * n ∧ ∀ i, i < m → job i (block n out i) = some (block n res i) := by
  have hcl := chunks_length n hn m out hl
  have hget : ∀ i, i < m → (chunks n out)[i]? = some (block n out i) := by
    intro i hi
    rw [chunks_eq n hn m out hl]; simp [hi]
  have hbl : ∀ i, i < m → (block n out i).length = n := fun i hi =>
    block_length n out i (by rw [hl]; exact Nat.mul_le_mul_right n hi)
  obtain ⟨a, _⟩ := parFor_complete job sched (chunks n out) (by rw [hcl]; exact hp)
  constructor
  · intro h
    obtain ⟨r, hr, rfl⟩ := Option.map_eq_some_iff.1 h
    obtain ⟨h1, h2⟩ := (a r).1 hr
    rw [hcl] at h1
    have hr' : ∀ i, i < m → ∃ c', job i (block n out i) = some c' ∧ r[i]? = some c' := fun i hi =>
      h2 i _ (hget i hi)
    have hrl : ∀ x ∈ r, x.length = n := by
      intro x hx
      obtain ⟨i, hi⟩ := List.mem_iff_getElem?.1 hx
      have him : i < m := by rw [← h1]; exact (List.getElem?_eq_some_iff.1 hi).1
      obtain ⟨c', e1, e2⟩ := hr' i him
      rw [hi] at e2; cases e2
      exact hjob i _ _ him (hbl i him) e1
    refine ⟨by rw [flatten_length_uniform n r hrl, h1], fun i hi => ?_⟩
    obtain ⟨c', e1, e2⟩ := hr' i hi
    rw [block_flatten n hn r hrl i c' e2, e1]
  · rintro ⟨h1, h2⟩
    refine Option.map_eq_some_iff.2 ⟨chunks n res, (a _).2 ⟨?_, ?_⟩, chunks_flatten n hn res⟩
    · rw [chunks_length n hn m res h1, hcl]
    · intro i c hc
      have hi : i < m := by rw [← hcl]; exact (List.getElem?_eq_some_iff.1 hc).1
      rw [hget i hi] at hc; cases hc
      refine ⟨_, h2 i hi, ?_⟩
      rw [chunks_eq n hn m res h1]; simp [hi]

theorem block_block (n m : Nat) (out : List α) (i j : Nat) (hj : j < m) :
    block n (block (m * n) out i) j = block n out (i * m + j) := by
  apply List.ext_getElem?
  intro t
  by_cases ht : t < n
  · rw [block_getElem? n _ j t ht, block_getElem? (m * n) out i, block_getElem? n out _ t ht]
    · congr 1; rw [Nat.add_mul, Nat.mul_assoc]; omega
    · calc j * n + t < j * n + n := by omega
        _ = (j + 1) * n := by rw [Nat.add_mul, Nat.one_mul]
        _ ≤ m * n := Nat.mul_le_mul_right n hj
  · rw [List.getElem?_eq_none, List.getElem?_eq_none]
    · simp only [block, List.length_take]; omega
    · simp only [block, List.length_take]; omega

/-- Two containers of the same size with the same blocks are equal. -/
theorem ext_block (m n : Nat) (hn : 0 < n) (a b : List α) (ha : a.length = m * n) (hb : b.length = m * n)
    (h : ∀ i, i < m → block n a i = block n b i) : a = b := by
  rw [← chunks_flatten n hn a, ← chunks_flatten n hn b, chunks_eq n hn m a ha, chunks_eq n hn m b hb]
  congr 1
  exact List.map_congr_left fun i hi => h i (List.mem_range.1 hi)

/-- The blocks of a container rebuilt from its blocks. -/
theorem mapIdx_chunks_block (f : Nat → List α → List α) (m n : Nat) (hn : 0 < n) (l : List α)
    (hl : l.length = m * n) (hf : ∀ i c, i < m → c.length = n → (f i c).length = n) :
    ((chunks n l).mapIdx f).flatten.length = m * n ∧
    ∀ i, i < m → block n ((chunks n l).mapIdx f).flatten i = f i (block n l i) := by
  have hcl := chunks_length n hn m l hl
  have hbl : ∀ i, i < m → (block n l i).length = n := fun i hi =>
    block_length n l i (by rw [hl]; exact Nat.mul_le_mul_right n hi)
  have hget : ∀ i, i < m → ((chunks n l).mapIdx f)[i]? = some (f i (block n l i)) := by
    intro i hi
    rw [List.getElem?_mapIdx, chunks_eq n hn m l hl]; simp [hi]
  have hlen : ∀ x ∈ (chunks n l).mapIdx f, x.length = n := by
    intro x hx
    obtain ⟨i, hi⟩ := List.mem_iff_getElem?.1 hx
    have him : i < m := by
      have := (List.getElem?_eq_some_iff.1 hi).1
      rw [List.length_mapIdx, hcl] at this; exact this
    rw [hget i him] at hi; cases hi
    exact hf i _ him (hbl i him)
  exact ⟨by rw [flatten_length_uniform n _ hlen, List.length_mapIdx, hcl],
    fun i hi => block_flatten n hn _ hlen i _ (hget i hi)⟩

theorem map_chunks_block (f : List α → List α) (m n : Nat) (hn : 0 < n) (l : List α)
    (hl : l.length = m * n) (hf : ∀ c, c.length = n → (f c).length = n) :
    ((chunks n l).map f).flatten.length = m * n ∧
    ∀ i, i < m → block n ((chunks n l).map f).flatten i = f (block n l i) := by
  have := mapIdx_chunks_block (fun _ => f) m n hn l hl (fun _ c _ => hf c)
  have e : (chunks n l).mapIdx (fun _ => f) = (chunks n l).map f := by
    apply List.ext_getElem <;> simp
  rwa [e] at this

/-- Chunks of chunks. -/
theorem chunks_chunks (n m q : Nat) (hn : 0 < n) (hm : 0 < m) (l : List α) (hl : l.length = q * (m * n)) :
    ((chunks (m * n) l).map (chunks n)).flatten = chunks n l := by
  have hmn : 0 < m * n := Nat.mul_pos hm hn
  have hl' : l.length = (q * m) * n := by rw [hl, Nat.mul_assoc]
  have hbl : ∀ i, i < q → (block (m * n) l i).length = m * n := fun i hi =>
    block_length _ l i (by rw [hl]; exact Nat.mul_le_mul_right _ hi)
  have e : (chunks (m * n) l).map (chunks n) =
      (List.range q).map fun i => (List.range m).map fun j => block n l (i * m + j) := by
    rw [chunks_eq _ hmn q l hl, List.map_map]
    apply List.map_congr_left
    intro i hi
    have hi := List.mem_range.1 hi
    simp only [Function.comp]
    rw [chunks_eq n hn m _ (hbl i hi)]
    apply List.map_congr_left
    intro j hj
    exact block_block n m l i j (List.mem_range.1 hj)
  have hlen : ∀ x ∈ (List.range q).map fun i => (List.range m).map fun j => block n l (i * m + j),
      x.length = m := by
    intro x hx
    obtain ⟨i, _, rfl⟩ := List.mem_map.1 hx
    simp
  rw [e, chunks_eq n hn (q * m) l hl']
  apply ext_block q m hm
  · rw [flatten_length_uniform m _ hlen]; simp
  · simp
  · intro i hi
    rw [block_flatten m hm _ hlen i _ (by rw [List.getElem?_map, List.getElem?_range hi]; rfl)]
    apply List.ext_getElem?
    intro j
    by_cases hj : j < m
    · have : i * m + j < q * m :=
        calc i * m + j < i * m + m := by omega
          _ = (i + 1) * m := by rw [Nat.add_mul, Nat.one_mul]
          _ ≤ q * m := Nat.mul_le_mul_right m hi
      rw [block_getElem? m _ i j hj]
      simp [hj, this]
    · rw [List.getElem?_eq_none (by simp; omega), List.getElem?_eq_none]
      simp only [block, List.length_take]; omega

/-- A container can be built from its blocks. -/
theorem exists_blocks (m n : Nat) (hn : 0 < n) (P : Nat → List α → Prop)
    (h : ∀ t, t < m → ∃ c, c.length = n ∧ P t c) :
    ∃ res : List α, res.length = m * n ∧ ∀ t, t < m → P t (block n res t) := by
  have h' : ∀ t, ∃ c, t < m → c.length = n ∧ P t c := by
    intro t
    by_cases ht : t < m
    · obtain ⟨c, hc⟩ := h t ht
      exact ⟨c, fun _ => hc⟩
    · exact ⟨[], fun h => absurd h ht⟩
  choose c hc using h'
  have hlen : ∀ x ∈ (List.range m).map c, x.length = n := by
    intro x hx
    obtain ⟨t, ht, rfl⟩ := List.mem_map.1 hx
    exact (hc t (List.mem_range.1 ht)).1
  refine ⟨((List.range m).map c).flatten, by rw [flatten_length_uniform n _ hlen]; simp, fun t ht => ?_⟩
  rw [block_flatten n hn _ hlen t (c t) (by simp [ht])]
  exact (hc t ht).2

end Verif
