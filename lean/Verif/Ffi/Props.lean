import Verif.Ffi.Demo
import Verif.Ffi.Spec
/-
C73 and C74: the memory and the return codes of the C interface.
-/
namespace Verif.Ffi

/-! ## C73: the caller knows what they own -/

/-- C73 (partial). However the checked functions are called, in any order and with any arguments that the
documentation allows (null and misaligned pointers included), on any machine: what the caller thinks they own from
the returned codes and from their own variables is exactly what is alive in the library, so that nothing is leaked,
freed twice or left dangling; and the next call that respects the documentation is free of undefined behaviour and
returns 0 or 1 (or the process runs out of memory).
Missing: histories in which the engine fails in a function that consumes a key (`C73_transform_violated`), and
null `BufferView`s (`C74_view_violated`). That serialized vectors have no spare capacity is trusted
(`C73_capacity_needed`). -/
theorem C73_ledger_partial {P h own} (hr : Reach P Table.checked Lucky h own) :
    own = h ∧ ∀ m c, c.fn ∈ Table.checked → Lucky c → Legal P own m c →
      call P h m c = .abort ∨ ∃ code h' m', (code = 0 ∨ code = 1) ∧ call P h m c = .ret code h' m' := by
  obtain ⟨rfl, hp⟩ := reach_exact hr
  refine ⟨rfl, fun m c hf hu hl => ?_⟩
  rcases call_safe hf hl hu hp.zero with ha | ⟨code, h', m', h1, -, h2⟩
  · exact Or.inl ha
  · exact Or.inr ⟨code, h', m', h2.imp id And.left, h1⟩

/-- The destroy functions. -/
theorem destroyer (k : Kind) (hk : ∀ n, k ≠ .bytes n) : ⟨[.destroyed k], [.check 0, .free 0]⟩ ∈ Table.checked := by
  cases k <;> first | decide +kernel | exact absurd rfl (hk _)

/-- C73 (partial). At any point of such a history, every object alive can be destroyed by one call of a checked
function, which returns 0 and leaves the other objects alone. -/
theorem C73_destroy_partial {P h own} (hr : Reach P Table.checked Lucky h own) {p k} (ho : own p = some k)
    (hk : ∀ n, k ≠ .bytes n) :
    ∃ f ∈ Table.checked, ∀ m good len cap, Legal P own m ⟨f, [p], good, len, cap⟩ ∧
      call P h m ⟨f, [p], good, len, cap⟩ = .ret 0 (Function.update h p none) m := by
  obtain ⟨rfl, hp⟩ := reach_exact hr
  obtain ⟨h1, h2⟩ := hp p k ho
  refine ⟨_, destroyer k hk, fun m good len cap => ⟨⟨?_, ?_⟩, ?_⟩⟩
  · intro i t ht
    rcases i with _ | i
    · simp only [List.getElem?_cons_zero, Option.some.injEq] at ht
      subst ht
      exact Or.inr ho
    · simp at ht
  · intro i j t u hij hi hj
    rcases i with _ | i
    · rcases j with _ | j
      · exact absurd rfl hij
      · simp at hj
    · simp at hi
  · have hb : bad (P.align k) p = false := (not_bad_iff _ _).2 (fun hb => hb.elim h1 (fun hb => hb h2))
    simp [call, run, exec, Call.arg, ArgTy.align, hb, ho, St.leave]

/-- C73 (partial). The same for the buffers. -/
theorem C73_destroy_buffer_partial {P h own} (hr : Reach P Table.checked Lucky h own) {p n}
    (ho : own p = some (.bytes n)) {m x} (hx : m x = some (p, n)) (hb : ¬ Bad 8 x) (good len cap) :
    Legal P own m ⟨Table.destroy_buffer, [x], good, len, cap⟩ ∧
    call P h m ⟨Table.destroy_buffer, [x], good, len, cap⟩ =
      .ret 0 (Function.update h p none) (Function.update m x (some (0, 0))) := by
  obtain ⟨rfl, hp⟩ := reach_exact hr
  obtain ⟨h1, h2⟩ := hp p _ ho
  refine ⟨⟨?_, ?_⟩, ?_⟩
  · intro i t ht
    rcases i with _ | i
    · simp only [Table.destroy_buffer, List.getElem?_cons_zero, Option.some.injEq] at ht
      subst ht
      exact Or.inr ⟨p, n, hx, Or.inr ho⟩
    · simp [Table.destroy_buffer] at ht
  · intro i j t u hij hi hj
    rcases i with _ | i
    · rcases j with _ | j
      · exact absurd rfl hij
      · simp [Table.destroy_buffer] at hj
    · simp [Table.destroy_buffer] at hi
  · have hb8 : bad 8 x = false := (not_bad_iff _ _).2 hb
    have hb1 : bad 1 p = false := (not_bad_iff _ _).2 (fun hb => hb.elim h1 (fun hb => hb (Nat.mod_one p)))
    simp [call, run, exec, Call.arg, ArgTy.align, ArgTy.loadedAlign, Table.destroy_buffer, hb8, hb1, hx, ho,
      St.leave]

/-- The function of `C73_transform_violated`. -/
abbrev toGlwe : Fn := Table.default_engine_transform_lwe_secret_key_to_glwe_secret_key_u64

/-- C73 is violated: when the engine refuses to transform an LWE secret key into a GLWE secret key (for instance
because the polynomial size does not divide the dimension), the function returns 1 having destroyed the key, and the
variable of the caller still points to it. -/
theorem transform_fails {P h m e x r n z} {q N : Nat} (he : h e = some .defaultEngine) (heb : ¬ Bad (P.align .defaultEngine) e)
    (hx : m x = some (q, n)) (hxb : ¬ Bad 8 x) (hq : h q = some .lweSecretKey) (hqb : ¬ Bad (P.align .lweSecretKey) q)
    (hr : m r = some z) (hrb : ¬ Bad 8 r) (hxr : x ≠ r) (len cap) :
    call P h m ⟨toGlwe, [e, x, N, r], fun _ => false, len, cap⟩ =
      .ret 1 (Function.update h q none) (Function.update m r (some (0, 0))) := by
  have e1 := (not_bad_iff _ _).2 heb
  have e2 := (not_bad_iff _ _).2 hxb
  have e3 := (not_bad_iff _ _).2 hqb
  have e4 := (not_bad_iff _ _).2 hrb
  simp [call, run, exec, Call.arg, ArgTy.align, ArgTy.loadedAlign, toGlwe,
    Table.default_engine_transform_lwe_secret_key_to_glwe_secret_key_u64, e1, e2, e3, e4, he, hx, hq, hr, St.leave,
    Function.update_of_ne hxr]

/-- The same call with a null engine returns the same code and leaves the same memory to the caller. -/
theorem transform_null {P h m x r z} {N : Nat} (hr : m r = some z) (hrb : ¬ Bad 8 r) (good len cap) :
    call P h m ⟨toGlwe, [0, x, N, r], good, len, cap⟩ = .ret 1 h (Function.update m r (some (0, 0))) := by
  have e4 := (not_bad_iff _ _).2 hrb
  have e0 : ∀ a, bad a 0 = true := fun a => (bad_iff _ _).2 (Or.inl rfl)
  simp [call, run, exec, Call.arg, ArgTy.align, toGlwe,
    Table.default_engine_transform_lwe_secret_key_to_glwe_secret_key_u64, e0, e4, hr, St.leave]

/-- C73 is violated. On some machine, after a history in which everything went well, a caller owns an LWE secret key
(of dimension 3) and asks to transform it with the polynomial size 2, which the engine refuses. The call respects the
documentation and returns 1. The variable of the caller still points to the key, so that for the caller the key is
theirs; but it has been freed, and destroying it, a call that respects the documentation, is undefined behaviour.
Nor could another reading of the documentation help: the same call with a null engine returns the same code with the
same memory, and there the key is alive. -/
theorem C73_transform_violated :
    ∃ (P : Platform) (h own : Heap) (m m' : Mem) (e x r q : Nat),
      Reach P Table.checked Lucky h own ∧ m x = some (q, 0) ∧
      Legal P own m ⟨toGlwe, [e, x, 2, r], fun _ => lweToGlweAccepts 3 2, 0, 0⟩ ∧
      call P h m ⟨toGlwe, [e, x, 2, r], fun _ => lweToGlweAccepts 3 2, 0, 0⟩ =
        .ret 1 (Function.update h q none) m' ∧
      m' x = some (q, 0) ∧
      Legal P (noteCall ⟨toGlwe, [e, x, 2, r], fun _ => lweToGlweAccepts 3 2, 0, 0⟩ 1 m m' own) m'
        (fine Table.destroy_lwe_secret_key_u64 [q]) ∧
      call P (Function.update h q none) m' (fine Table.destroy_lwe_secret_key_u64 [q]) = .ub ∧
      Legal P own m ⟨toGlwe, [0, x, 2, r], fun _ => true, 0, 0⟩ ∧
      call P h m ⟨toGlwe, [0, x, 2, r], fun _ => true, 0, 0⟩ = .ret 1 h m' ∧ h q = some .lweSecretKey := by
  have hb : ∀ {p : Nat}, p ≠ 0 → p % 8 = 0 → ¬ Bad 8 p := fun h1 h2 hb => hb.elim h1 (fun h => h h2)
  refine ⟨demo, demoHeap, demoHeap, vars (8, 0) (16, 0) (24, 0) (0, 0),
    Function.update (vars (8, 0) (16, 0) (24, 0) (0, 0)) 1024 (some (0, 0)), 16, 1016, 1024, 24, demo_reach, rfl,
    ?_, ?_, by simp [vars], ?_, ?_, ?_, ?_, rfl⟩
  · refine legal_of ?_ (by decide +kernel)
    intro i hi
    have hi : i < 4 := hi
    rcases i with _ | _ | _ | _ | i
    · exact Or.inr rfl
    · exact Or.inr ⟨24, 0, rfl, Or.inr rfl⟩
    · trivial
    · exact Or.inr rfl
    · omega
  · exact transform_fails rfl (hb (by decide) (by decide)) rfl (hb (by decide) (by decide)) rfl
      (hb (by decide) (by decide)) rfl (hb (by decide) (by decide)) (by decide) _ _
  · refine legal_of ?_ (by decide +kernel)
    intro i hi
    have hi : i < 1 := hi
    rcases i with _ | i
    · exact Or.inr rfl
    · omega
  · simp [call, run, exec, fine, Table.destroy_lwe_secret_key_u64, Call.arg, ArgTy.align, bad,
      show demo.align .lweSecretKey = 8 from rfl]
  · refine legal_of ?_ (by decide +kernel)
    intro i hi
    have hi : i < 4 := hi
    rcases i with _ | _ | _ | _ | i
    · exact Or.inl (Or.inl rfl)
    · exact Or.inr ⟨24, 0, rfl, Or.inr rfl⟩
    · trivial
    · exact Or.inr rfl
    · omega
  · exact transform_null rfl (hb (by decide) (by decide)) _ _ _

/-- The trusted fact about serialization: a `Buffer` remembers the length of the serialized vector, not its capacity,
and is freed with its length. Whenever the vector has spare capacity, destroying the buffer (a call that respects the
documentation) is undefined behaviour. -/
theorem C73_capacity_needed {P h m e k x z q} (he : h e = some .defaultSerializationEngine)
    (heb : ¬ Bad (P.align .defaultSerializationEngine) e) (hk : h k = some .lweSecretKey)
    (hkb : ¬ Bad (P.align .lweSecretKey) k) (hx : m x = some z) (hxb : ¬ Bad 8 x) {len cap : Nat} (hne : len ≠ cap)
    (hq : P.alloc h (.bytes cap) = some q) :
    ∃ h' m', call P h m ⟨Table.default_serialization_engine_serialize_lwe_secret_key_u64, [e, k, x],
        fun _ => true, len, cap⟩ = .ret 0 h' m' ∧
      noteCall ⟨Table.default_serialization_engine_serialize_lwe_secret_key_u64, [e, k, x], fun _ => true, len, cap⟩
        0 m m' h q = some (.bytes len) ∧
      m' x = some (q, len) ∧ call P h' m' (fine Table.destroy_buffer [x]) = .ub := by
  have e1 := (not_bad_iff _ _).2 heb
  have e2 := (not_bad_iff _ _).2 hkb
  have e3 := (not_bad_iff _ _).2 hxb
  have e4 : bad 1 q = false :=
    (not_bad_iff _ _).2 (fun hb => hb.elim (P.alloc_ne_zero _ _ _ hq) (fun hb => hb (Nat.mod_one q)))
  refine ⟨Function.update h q (some (.bytes cap)), Function.update m x (some (q, len)), ?_, ?_, by simp, ?_⟩
  · simp [call, run, exec, Call.arg, ArgTy.align, Table.default_serialization_engine_serialize_lwe_secret_key_u64,
      e1, e2, e3, he, hk, hx, hq, St.leave]
  · simp [noteCall, note, Table.default_serialization_engine_serialize_lwe_secret_key_u64, Call.arg]
  · simp [call, run, exec, fine, Call.arg, ArgTy.align, ArgTy.loadedAlign, Table.destroy_buffer, e3, e4, Ne.symm hne]

/-- The history of `C73_transform_violated` up to the failure is one of those of the partial theorems. -/
example : Reach demo Table.checked Lucky demoHeap demoHeap ∧ demoHeap 24 = some .lweSecretKey := ⟨demo_reach, rfl⟩

/-! ## C74: return codes, refused pointers, results -/

/-- C74 (partial). A checked function given a null or misaligned pointer, or a variable holding one where it reads it,
returns 1 and changes nothing, apart from setting result variables to null: whatever the other arguments (as long as
the documentation allows them) and whatever the engine would do.
Missing: the pointer of a `BufferView` (`C74_view_violated`). -/
theorem C74_refused_partial {P h m c} (hf : c.fn ∈ Table.checked) (hl : Legal P h m c)
    (hv : ∀ i : Nat, c.fn.sig[i]? = some ArgTy.view → c.arg i ≠ 0) (hr : Refused P m c) :
    ∃ m', call P h m c = .ret 1 h m' ∧ ∀ p, m' p = m p ∨
      ∃ i k, c.fn.sig[i]? = some (.result k) ∧ c.arg i = p ∧ m' p = some (0, 0) :=
  refuse hf hl hv hr

/-- The null engine of `C73_transform_violated` is refused. -/
example : Refused demo (vars (8, 0) (16, 0) (24, 0) (0, 0)) ⟨toGlwe, [0, 1016, 2, 1024], fun _ => true, 0, 0⟩ :=
  .arg (i := 0) (t := .ref .defaultEngine) rfl rfl (Or.inl rfl)

/-- C74 is violated: the documentation says that checked functions check every pointer, but a `BufferView` whose pointer
is null goes to the deserialization, which is undefined behaviour. -/
theorem C74_view_violated {P h m e r z} (he : h e = some .defaultSerializationEngine)
    (heb : ¬ Bad (P.align .defaultSerializationEngine) e) (hr : m r = some z) (hrb : ¬ Bad 8 r) (good len cap) :
    Legal P h m ⟨Table.default_serialization_engine_deserialize_lwe_secret_key_u64, [e, 0, r], good, len, cap⟩ ∧
    call P h m ⟨Table.default_serialization_engine_deserialize_lwe_secret_key_u64, [e, 0, r], good, len, cap⟩ = .ub := by
  have e1 := (not_bad_iff _ _).2 heb
  have e2 := (not_bad_iff _ _).2 hrb
  refine ⟨legal_of ?_ ?_, ?_⟩
  · intro i hi
    have hi : i < 3 := hi
    rcases i with _ | _ | _ | i
    · exact Or.inr he
    · trivial
    · exact Or.inr (by simp [Call.arg, hr])
    · omega
  · simp [Table.default_serialization_engine_deserialize_lwe_secret_key_u64, List.range_succ, ArgTy.isSlot]
  · simp [call, run, exec, Call.arg, ArgTy.align, Table.default_serialization_engine_deserialize_lwe_secret_key_u64,
      e1, e2, he, hr]

/-- C74. If no pointer is to be refused and every computation goes well, a checked function returns 0 (or the process
runs out of memory). -/
theorem C74_success {P h m c} (hf : c.fn ∈ Table.checked) (hl : Legal P h m c) (hu : Lucky c)
    (hr : ¬ Refused P m c) (hg : ∀ j, c.good j = true) :
    call P h m c = .abort ∨ ∃ h' m', call P h m c = .ret 0 h' m' := succeed hf hl hu hr hg

/-- C74. When a checked function returns 0, each of its results is a new object of the announced type, at an address
that is not null and aligned. -/
theorem C74_result_ok {P h m c h' m'} (hf : c.fn ∈ Table.checked) (hl : Legal P h m c) (hu : Lucky c)
    (hc : call P h m c = .ret 0 h' m') {i k} (ht : c.fn.sig[i]? = some (.result k)) :
    ∃ q n, m' (c.arg i) = some (q, n) ∧ q ≠ 0 ∧ q % P.align k = 0 ∧ h q = none ∧ h' q = some k := by
  unfold call at hc
  cases hr : run P c c.fn.body ⟨h, m, (0, 0), none⟩ with
  | ok s =>
    rw [hr] at hc
    injection hc with _ e2 e3
    subst e2; subst e3
    exact ok_result hf hl hu hr ht
  | panic s => rw [hr] at hc; simp at hc
  | ub => rw [hr] at hc; cases hc
  | abort => rw [hr] at hc; cases hc

/-- C74. When a checked function returns 1, its result variables, if they are valid, are null: also when the engine fails
after a key was consumed. The functions returning seeder builders do not set the variable to null, but their
computations cannot fail. -/
theorem C74_result_failed {P h m c h' m'} (hf : c.fn ∈ Table.checked) (hl : Legal P h m c)
    (hv : ∀ i : Nat, c.fn.sig[i]? = some ArgTy.view → c.arg i ≠ 0)
    (hc : call P h m c = .ret 1 h' m') {i k} (ht : c.fn.sig[i]? = some (.result k)) (hk : k ≠ .seederBuilder)
    (hb : ¬ Bad 8 (c.arg i)) : m' (c.arg i) = some (0, 0) := by
  unfold call at hc
  cases hr : run P c c.fn.body ⟨h, m, (0, 0), none⟩ with
  | ok s => rw [hr] at hc; simp at hc
  | panic s =>
    rw [hr] at hc
    injection hc with _ _ e3
    subst e3
    exact fail_result hf hl hv hr ht hk hb
  | ub => rw [hr] at hc; cases hc
  | abort => rw [hr] at hc; cases hc

/-- C74. On calls where a checked function has nothing to refuse and everything goes well, its unchecked version does
exactly the same: same code, same heap, same memory. -/
theorem C74_unchecked {P h m c g} (hp : (c.fn, g) ∈ Table.pairs) (hl : Legal P h m c)
    (hv : ∀ i : Nat, c.fn.sig[i]? = some ArgTy.view → c.arg i ≠ 0)
    (hr : ¬ Refused P m c) (hg : ∀ j, c.good j = true) :
    call P h m { c with fn := g } = call P h m c := call_unchecked hp hl hv hr hg

/-- Such a call: the third of the history. -/
example : Legal demo (three (some .seederBuilder) (some .defaultEngine) none) (vars (8, 0) (16, 0) (0, 0) (0, 0))
      (fine Table.default_engine_generate_new_lwe_secret_key_u64 [16, 3, 1016]) ∧
    ¬ Refused demo (vars (8, 0) (16, 0) (0, 0) (0, 0))
      (fine Table.default_engine_generate_new_lwe_secret_key_u64 [16, 3, 1016]) := by
  refine ⟨legal_of ?_ (by decide +kernel), ?_⟩
  · intro i hi
    have hi : i < 3 := hi
    rcases i with _ | _ | _ | i
    · exact Or.inr rfl
    · trivial
    · exact Or.inr rfl
    · omega
  · rintro (⟨ht, hp, hb⟩ | ⟨ht, hs, hm, hb⟩)
    · rename_i i t
      rcases i with _ | _ | _ | i
      · injection ht with ht; subst ht
        rcases hb with hb | hb
        · cases hb
        · exact hb rfl
      · injection ht with ht; subst ht; cases hp
      · injection ht with ht; subst ht
        rcases hb with hb | hb
        · cases hb
        · exact hb rfl
      · cases ht
    · rename_i i t q
      rcases i with _ | _ | _ | i
      · injection ht with ht; subst ht; cases hs
      · injection ht with ht; subst ht; cases hs
      · injection ht with ht; subst ht; cases hs
      · cases ht

end Verif.Ffi
