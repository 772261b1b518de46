import Verif.Cuda.FpKeyswitch
import Verif.Cuda.KeyswitchGpus
import Verif.Cuda.Props2
import Verif.Pks.Lemmas
/-
Lemmas for the private functional packing keyswitch on the GPUs.
-/
namespace Verif.Cuda
open Lwe (ksDigit keyswitchCiphertext)
open Pks (privateKeyswitchOne)

variable {w : Nat}

/-- The private keyswitch of the CPU is the LWE keyswitch of a ciphertext with one more element, 0. -/
theorem private_eq (b l N k : Nat) (hG : 0 < (k + 1) * N) (ksk after before : List (BitVec w))
    (ha : after.length = (k + 1) * N) :
    privateKeyswitchOne b l N k ksk after before =
      keyswitchCiphertext b l ((k + 1) * N) ksk after (before ++ [0#w]) := by
  unfold privateKeyswitchOne keyswitchCiphertext
  simp only [List.getLast?_append, List.getLast?_singleton, Option.some_or]
  rw [if_neg (by omega), List.dropLast_append_of_ne_nil (by simp)]
  simp only [List.dropLast_singleton, List.append_nil]
  congr 1
  have : after.map (fun _ => 0#w) = List.replicate (after.length - 1) 0#w ++ [0#w] := by
    rw [List.map_const']
    conv_lhs => rw [show after.length = after.length - 1 + 1 by omega, List.replicate_succ']
  rw [this]
  rfl

theorem private_coeff (b l N k n : Nat) (hl : 0 < l) (hG : 0 < (k + 1) * N)
    (ksk after before : List (BitVec w)) (hk : ksk.length = n * (l * ((k + 1) * N)))
    (ha : after.length = (k + 1) * N) (hb : before.length = n) :
    ∃ r, privateKeyswitchOne b l N k ksk after before = some r ∧ r.length = (k + 1) * N ∧
      ∀ idx, idx < (k + 1) * N → r.getD idx 0 = 0 -
        ∑ i ∈ Finset.range n, ∑ j ∈ Finset.range l,
          ksk.getD ((i * l + (l - 1 - j)) * ((k + 1) * N) + idx) 0 * ksDigit b l (before.getD i 0) j := by
  rw [private_eq b l N k hG ksk after before ha]
  obtain ⟨m, hm⟩ := Nat.exists_eq_succ_of_ne_zero (show (k + 1) * N ≠ 0 by omega)
  rw [Nat.succ_eq_add_one] at hm
  rw [hm] at hk ha ⊢
  obtain ⟨r, h1, h2, h3⟩ := keyswitch_coeff b l hl n m ksk after before 0#w hk ha hb
  refine ⟨r, h1, h2, fun idx hidx => ?_⟩
  rw [h3 idx (by omega)]
  congr 1
  split <;> rfl

/-- The value of a thread. -/
theorem fpValue_ok (b l dimIn glweSize N keys : Nat) (hv : Decomp.ValidParams w b l)
    (input : DVec (BitVec w)) (ksk cts : List (BitVec w)) (ct pos : Nat) (hK : 0 < keys)
    (hk : ksk.length = keys * ((dimIn + 1) * (l * (glweSize * N)))) (hpos : pos < glweSize * N)
    (hin : ∀ i, i ≤ dimIn → DVec.read input (ct * (dimIn + 1) + i) = .ok (some (cts.getD i 0))) :
    fpValue b l dimIn glweSize N keys input (ksk.map some) ct pos =
      .ok (some (0 - ∑ i ∈ Finset.range (dimIn + 1), ∑ j ∈ Finset.range l,
        (block ((dimIn + 1) * (l * (glweSize * N))) ksk (ct % keys)).getD
          ((i * l + (l - 1 - j)) * (glweSize * N) + pos) 0 * ksDigit b l (cts.getD i 0) j)) := by
  set G := glweSize * N with hG
  have hread : ∀ i j, i ≤ dimIn → j < l →
      DVec.read (ksk.map some) (ct % keys * ((dimIn + 1) * l * glweSize * N) + i * (glweSize * N * l) +
        (l - j - 1) * glweSize * N + pos) =
      .ok (some ((block ((dimIn + 1) * (l * G)) ksk (ct % keys)).getD
        ((i * l + (l - 1 - j)) * G + pos) 0)) := by
    intro i j hi hj
    have hlt : (i * l + (l - 1 - j)) * G + pos < (dimIn + 1) * (l * G) := by
      have h1 : (i * l + (l - 1 - j) + 1) * G ≤ (dimIn + 1) * l * G := by
        apply Nat.mul_le_mul_right
        have : (i + 1) * l ≤ (dimIn + 1) * l := Nat.mul_le_mul_right _ (by omega)
        rw [Nat.add_mul, Nat.one_mul] at this
        omega
      rw [Nat.add_mul _ 1, Nat.one_mul, Nat.mul_assoc] at h1
      omega
    have hmod := Nat.mod_lt ct hK
    have hlt2 : ct % keys * ((dimIn + 1) * (l * G)) + ((i * l + (l - 1 - j)) * G + pos) < ksk.length := by
      have : (ct % keys + 1) * ((dimIn + 1) * (l * G)) ≤ keys * ((dimIn + 1) * (l * G)) :=
        Nat.mul_le_mul_right _ hmod
      rw [Nat.add_mul, Nat.one_mul] at this
      omega
    have e : ct % keys * ((dimIn + 1) * l * glweSize * N) + i * (G * l) +
        (l - j - 1) * glweSize * N + pos =
        ct % keys * ((dimIn + 1) * (l * G)) + ((i * l + (l - 1 - j)) * G + pos) := by
      rw [show l - j - 1 = l - 1 - j by omega, hG]; ring
    rw [e, block_getD _ _ _ _ _ hlt, DVec.read, List.getElem?_map, getElem?_getD ksk _ hlt2]
    rfl
  have inner : ∀ i, i ≤ dimIn → ∀ n, n ≤ l → ∀ v : BitVec w,
      (List.range n).foldl (fun (acc : Out (Option (BitVec w))) j =>
        acc.bind fun v : Option (BitVec w) =>
          (DVec.read (ksk.map some) (ct % keys * ((dimIn + 1) * l * glweSize * N) + i * (glweSize * N * l) +
            (l - j - 1) * glweSize * N + pos)).bind fun q =>
            .ok (v.bind fun v => (some (cts.getD i 0)).bind fun a => q.map fun q => v - gpuDigit b l a j * q))
        (.ok (some v)) =
      .ok (some (v - ∑ j ∈ Finset.range n, (block ((dimIn + 1) * (l * G)) ksk (ct % keys)).getD
          ((i * l + (l - 1 - j)) * G + pos) 0 * ksDigit b l (cts.getD i 0) j)) := by
    intro i hi n
    induction n with
    | zero => intro _ v; simp
    | succ n ih =>
      intro hn v
      rw [List.range_succ, List.foldl_append, ih (by omega) v, Finset.sum_range_succ, List.foldl_cons,
        List.foldl_nil, Out.bind_ok, hread i n hi (by omega), Out.bind_ok]
      simp only [Option.bind_some, Option.map_some]
      rw [gpuDigit_eq b l hv _ n (by omega), sub_sub, mul_comm (ksDigit b l _ n)]
  have outer : ∀ n, n ≤ dimIn + 1 →
      (List.range n).foldl (fun (acc : Out (Option (BitVec w))) i =>
        acc.bind fun v : Option (BitVec w) => (DVec.read input (ct * (dimIn + 1) + i)).bind fun a =>
          (List.range l).foldl (fun (acc : Out (Option (BitVec w))) j =>
            acc.bind fun v : Option (BitVec w) =>
              (DVec.read (ksk.map some) (ct % keys * ((dimIn + 1) * l * glweSize * N) + i * (glweSize * N * l) +
                (l - j - 1) * glweSize * N + pos)).bind fun q =>
                .ok (v.bind fun v => a.bind fun a => q.map fun q => v - gpuDigit b l a j * q)) (.ok v))
        (.ok (some 0#w)) =
      .ok (some (0 - ∑ i ∈ Finset.range n, ∑ j ∈ Finset.range l,
        (block ((dimIn + 1) * (l * G)) ksk (ct % keys)).getD
          ((i * l + (l - 1 - j)) * G + pos) 0 * ksDigit b l (cts.getD i 0) j)) := by
    intro n
    induction n with
    | zero => intro _; simp
    | succ n ih =>
      intro hn
      rw [List.range_succ, List.foldl_append, ih (by omega), Finset.sum_range_succ, List.foldl_cons,
        List.foldl_nil, Out.bind_ok, hin n (by omega), Out.bind_ok, inner n (by omega) l (le_refl _), sub_sub]
  exact outer _ (le_refl _)

/-- The words written by a launch on an output with room for all ciphertexts. -/
theorem hostFp_words (σ : Order) (hσ : σ.Complete) (b l dimIn glweSize N samples keys : Nat)
    (hv : Decomp.ValidParams w b l) (input : DVec (BitVec w)) (ksk xs : List (BitVec w)) (hK : 0 < keys)
    (hk : ksk.length = keys * ((dimIn + 1) * (l * (glweSize * N))))
    (hin : ∀ i, i < samples * (dimIn + 1) → DVec.read input i = .ok (some (xs.getD i 0)))
    (hs : samples ≤ 65535) (out : DVec (BitVec w)) (ho : out.length = samples * (glweSize * N)) :
    ∃ r, hostFpKeyswitch σ b l dimIn glweSize N samples keys input (ksk.map some) out = .ok r ∧
      r.length = out.length ∧
      (∀ ct pos, ct < samples → pos < glweSize * N / 256 * 256 → r[ct * (glweSize * N) + pos]? =
        some (some (0 - ∑ i ∈ Finset.range (dimIn + 1), ∑ j ∈ Finset.range l,
          (block ((dimIn + 1) * (l * (glweSize * N))) ksk (ct % keys)).getD
            ((i * l + (l - 1 - j)) * (glweSize * N) + pos) 0 *
            ksDigit b l ((block (dimIn + 1) xs ct).getD i 0) j))) ∧
      ∀ ct pos, ct < samples → pos < glweSize * N → glweSize * N / 256 * 256 ≤ pos →
        r[ct * (glweSize * N) + pos]? = out[ct * (glweSize * N) + pos]? := by
  set G := glweSize * N with hG
  unfold hostFpKeyswitch
  simp only
  rw [← hG]
  by_cases h0 : G / 256 = 0 ∨ samples = 0
  · rw [if_pos (by omega)]
    refine ⟨out, rfl, rfl, ?_, fun _ _ _ _ _ => rfl⟩
    intro ct pos h1 h2
    rcases h0 with h | h
    · rw [h] at h2; omega
    · omega
  · rw [if_neg (by omega)]
    set B := G / 256 * 256 with hB
    have hBpos : 0 < B := by omega
    have hBle : B ≤ G := Nat.div_mul_le_self _ _
    set val : Nat → Nat → BitVec w := fun ct pos => 0 - ∑ i ∈ Finset.range (dimIn + 1), ∑ j ∈ Finset.range l,
          (block ((dimIn + 1) * (l * G)) ksk (ct % keys)).getD
            ((i * l + (l - 1 - j)) * G + pos) 0 * ksDigit b l ((block (dimIn + 1) xs ct).getD i 0) j with hval
    have hdiv : ∀ t, t < B * samples → t / B < samples := by
      intro t ht
      rw [Nat.mul_comm] at ht
      exact (Nat.div_lt_iff_lt_mul hBpos).2 ht
    have hinj : ∀ a p a' p', p < G → p' < G → a * G + p = a' * G + p' → a = a' ∧ p = p' := by
      intro a p a' p' h1 h2 h
      have e1 : (a * G + p) / G = a := by
        rw [Nat.mul_comm, Nat.mul_add_div (by omega), Nat.div_eq_of_lt h1, Nat.add_zero]
      have e2 : (a' * G + p') / G = a' := by
        rw [Nat.mul_comm, Nat.mul_add_div (by omega), Nat.div_eq_of_lt h2, Nat.add_zero]
      have : a = a' := by rw [← e1, ← e2, h]
      subst this
      exact ⟨rfl, by omega⟩
    have hperm := hσ (B * samples)
    have hmem : ∀ t, t ∈ σ (B * samples) ↔ t < B * samples := fun t => by
      rw [hperm.mem_iff, List.mem_range]
    set kernel : Nat → DVec (BitVec w) → Out (DVec (BitVec w)) := fun t out =>
      (fpValue b l dimIn glweSize N keys input (ksk.map some) (t / B) (t % B)).bind fun v =>
          DVec.write out (t / B * glweSize * N + t % B) v with hkern
    have hkernel : ∀ t o, t < B * samples →
        kernel t o = DVec.write o (t / B * G + t % B) (some (val (t / B) (t % B))) := by
      intro t o ht
      rw [hkern]
      simp only
      have hp : t % B < G := lt_of_lt_of_le (Nat.mod_lt _ hBpos) hBle
      rw [fpValue_ok b l dimIn glweSize N keys hv input ksk (block (dimIn + 1) xs (t / B)) (t / B) (t % B)
        hK hk hp ?_, Out.bind_ok, Nat.mul_assoc, ← hG]
      intro i hi
      rw [hin _ ?_, block_getD _ _ _ _ _ (by omega)]
      have := hdiv t ht
      have h3 : (t / B + 1) * (dimIn + 1) ≤ samples * (dimIn + 1) := Nat.mul_le_mul_right _ this
      rw [Nat.add_mul, Nat.one_mul] at h3
      omega
    obtain ⟨r, e, hl, h1, h2⟩ := run_writes (B * samples)
      (fun t o => if t < B * samples then kernel t o else .ok o)
      (fun t => t / B * G + t % B) (fun t => some (val (t / B) (t % B))) out.length
      (fun t o _ => by
        by_cases ht : t < B * samples
        · simp only [ht, if_true]; exact hkernel t o ht
        · simp only [ht, if_false])
      (fun t ht => by
        have hp : t % B < G := lt_of_lt_of_le (Nat.mod_lt _ hBpos) hBle
        have h3 : (t / B + 1) * G ≤ samples * G := Nat.mul_le_mul_right _ (hdiv t ht)
        rw [Nat.add_mul, Nat.one_mul] at h3
        rw [ho]
        show t / B * G + t % B < _
        omega)
      (fun t u ht hu h => by
        have hp : t % B < G := lt_of_lt_of_le (Nat.mod_lt _ hBpos) hBle
        have hp' : u % B < G := lt_of_lt_of_le (Nat.mod_lt _ hBpos) hBle
        obtain ⟨e1, e2⟩ := hinj _ _ _ _ hp hp' h
        rw [← Nat.div_add_mod t B, ← Nat.div_add_mod u B, e1, e2])
      (σ (B * samples)) (hperm.nodup_iff.2 List.nodup_range) out rfl
    refine ⟨r, ?_, hl, ?_, ?_⟩
    · rw [← e]
      refine List.foldl_ext _ _ _ fun acc t ht => ?_
      have := (hmem t).1 ht
      simp only [this, if_true]
      rfl
    · intro ct pos hct hpos
      have hlt : ct * B + pos < B * samples := by
        have h3 : (ct + 1) * B ≤ samples * B := Nat.mul_le_mul_right _ hct
        rw [Nat.add_mul, Nat.one_mul, Nat.mul_comm samples] at h3
        omega
      have e1 : (ct * B + pos) / B = ct := by
        rw [Nat.mul_comm, Nat.mul_add_div hBpos, Nat.div_eq_of_lt hpos, Nat.add_zero]
      have e2 : (ct * B + pos) % B = pos := by
        rw [Nat.mul_comm, Nat.mul_add_mod, Nat.mod_eq_of_lt hpos]
      have := h1 (ct * B + pos) ((hmem _).2 hlt) hlt
      simp only [e1, e2] at this
      exact this
    · intro ct pos hct hpos hge
      refine h2 _ fun t ht htl h => ?_
      have hp : t % B < B := Nat.mod_lt _ hBpos
      obtain ⟨_, e2⟩ := hinj _ _ _ _ (lt_of_lt_of_le hp hBle) hpos h
      omega

/-- A step that either keeps the length of the output or accesses memory out of the allocations. -/
def Tame (o : DVec (BitVec w)) (x : Out (DVec (BitVec w))) : Prop :=
  x = .overrun ∨ ∃ r : DVec (BitVec w), x = .ok r ∧ r.length = o.length

theorem foldl_overrun {β γ : Type} (f : γ → β → Out β) (ts : List γ) :
    ts.foldl (fun (acc : Out β) t => acc.bind (f t)) .overrun = .overrun := by
  induction ts with
  | nil => rfl
  | cons t ts ih => exact ih

theorem run_tame {γ : Type} (f : γ → DVec (BitVec w) → Out (DVec (BitVec w)))
    (hf : ∀ t o, Tame o (f t o)) (ts : List γ) :
    ∀ o : DVec (BitVec w), Tame o (ts.foldl (fun (acc : Out (DVec (BitVec w))) t => acc.bind (f t)) (.ok o)) := by
  induction ts with
  | nil => intro o; exact Or.inr ⟨o, rfl, rfl⟩
  | cons t ts ih =>
    intro o
    rw [List.foldl_cons, Out.bind_ok]
    rcases hf t o with h | ⟨r, h, hl⟩
    · rw [h, foldl_overrun]; exact Or.inl rfl
    · rw [h]
      rcases ih r with h' | ⟨r', h', hl'⟩
      · exact Or.inl h'
      · exact Or.inr ⟨r', h', hl'.trans hl⟩

theorem run_overrun {γ : Type} (f : γ → DVec (BitVec w) → Out (DVec (BitVec w)))
    (hf : ∀ t o, Tame o (f t o)) (L : Nat) (t₀ : γ)
    (hbad : ∀ o : DVec (BitVec w), o.length = L → f t₀ o = .overrun) (ts : List γ) (hm : t₀ ∈ ts) :
    ∀ o : DVec (BitVec w), o.length = L →
      ts.foldl (fun (acc : Out (DVec (BitVec w))) t => acc.bind (f t)) (.ok o) = .overrun := by
  induction ts with
  | nil => simp at hm
  | cons t ts ih =>
    intro o ho
    rw [List.foldl_cons, Out.bind_ok]
    rcases List.mem_cons.1 hm with rfl | hm'
    · rw [hbad o ho, foldl_overrun]
    · rcases hf t o with h | ⟨r, h, hl⟩
      · rw [h, foldl_overrun]
      · rw [h]; exact ih hm' r (hl.trans ho)

theorem write_tame (o : DVec (BitVec w)) (i : Nat) (x : Option (BitVec w)) : Tame o (DVec.write o i x) := by
  unfold DVec.write
  split
  · exact Or.inr ⟨_, rfl, by simp⟩
  · exact Or.inl rfl

theorem read_cases (v : DVec (BitVec w)) (i : Nat) :
    DVec.read v i = .overrun ∨ ∃ x, DVec.read v i = .ok x := by
  unfold DVec.read
  cases v[i]? with
  | none => exact Or.inl rfl
  | some x => exact Or.inr ⟨x, rfl⟩

theorem foldl_cases {β γ : Type} (f : γ → β → Out β) (hf : ∀ t v, f t v = .overrun ∨ ∃ x, f t v = .ok x)
    (ts : List γ) : ∀ v, ts.foldl (fun (acc : Out β) t => acc.bind (f t)) (.ok v) = .overrun ∨
      ∃ x, ts.foldl (fun (acc : Out β) t => acc.bind (f t)) (.ok v) = .ok x := by
  induction ts with
  | nil => intro v; exact Or.inr ⟨v, rfl⟩
  | cons t ts ih =>
    intro v
    rw [List.foldl_cons, Out.bind_ok]
    rcases hf t v with h | ⟨x, h⟩
    · rw [h, foldl_overrun]; exact Or.inl rfl
    · rw [h]; exact ih x

/-- A thread ends or reads out of the allocations. -/
theorem fpValue_cases (b l dimIn glweSize N keys : Nat) (input ksk : DVec (BitVec w)) (ct pos : Nat) :
    fpValue b l dimIn glweSize N keys input ksk ct pos = .overrun ∨
    ∃ x, fpValue b l dimIn glweSize N keys input ksk ct pos = .ok x := by
  refine foldl_cases _ (fun i v => ?_) _ _
  rcases read_cases input (ct * (dimIn + 1) + i) with h | ⟨a, h⟩
  · rw [h]; exact Or.inl rfl
  · rw [h, Out.bind_ok]
    refine foldl_cases _ (fun j v => ?_) _ _
    rcases read_cases ksk (ct % keys * ((dimIn + 1) * l * glweSize * N) + i * (glweSize * N * l) +
      (l - j - 1) * glweSize * N + pos) with h | ⟨q, h⟩
    · rw [h]; exact Or.inl rfl
    · rw [h, Out.bind_ok]; exact Or.inr ⟨_, rfl⟩

theorem thread_tame (b l dimIn glweSize N keys : Nat) (input ksk : DVec (BitVec w)) (ct pos i : Nat)
    (o : DVec (BitVec w)) :
    Tame o ((fpValue b l dimIn glweSize N keys input ksk ct pos).bind fun v => DVec.write o i v) := by
  rcases fpValue_cases b l dimIn glweSize N keys input ksk ct pos with h | ⟨x, h⟩
  · rw [h]; exact Or.inl rfl
  · rw [h, Out.bind_ok]; exact write_tame o i x

theorem hostFp_tame (σ : Order) (b l dimIn glweSize N samples keys : Nat) (input ksk out : DVec (BitVec w)) :
    Tame out (hostFpKeyswitch σ b l dimIn glweSize N samples keys input ksk out) := by
  unfold hostFpKeyswitch
  simp only
  split
  · exact Or.inr ⟨out, rfl, rfl⟩
  · exact run_tame _ (fun t o => thread_tame b l dimIn glweSize N keys input ksk _ _ _ o) _ out

/-- Two ciphertexts or more on an output for one: the second is written out of the allocation. -/
theorem hostFp_overrun (σ : Order) (hσ : σ.Complete) (b l dimIn glweSize N samples keys : Nat)
    (input ksk out : DVec (BitVec w)) (hG : 256 ≤ glweSize * N) (hs : 2 ≤ samples) (hs' : samples ≤ 65535)
    (ho : out.length = glweSize * N) :
    hostFpKeyswitch σ b l dimIn glweSize N samples keys input ksk out = .overrun := by
  unfold hostFpKeyswitch
  simp only
  rw [if_neg (by omega)]
  set B := glweSize * N / 256 * 256 with hB
  have hBpos : 0 < B := by omega
  refine run_overrun _ (fun t o => thread_tame b l dimIn glweSize N keys input ksk _ _ _ o) (glweSize * N) B ?_ _
    ?_ out ho
  · intro o hol
    rw [Nat.div_self hBpos, Nat.mod_self]
    rcases fpValue_cases b l dimIn glweSize N keys input ksk 1 0 with h | ⟨x, h⟩
    · rw [h]; rfl
    · rw [h, Out.bind_ok, DVec.write, if_neg (by rw [Nat.one_mul]; omega)]
  · rw [(hσ _).mem_iff, List.mem_range]
    calc B < B * 2 := by omega
      _ ≤ B * samples := Nat.mul_le_mul_left _ hs

/-- Multiplying by the monomial of degree 0 changes nothing. -/
theorem monomialMul_zero (p : List (BitVec w)) : Poly.monomialMul p 0 = p := by
  simp [Poly.monomialMul, Poly.rotateRight, Poly.negFirst]

theorem listMonomialMul_zero (N : Nat) (hN : 0 < N) (p : List (BitVec w)) :
    Poly.listMonomialMul N p 0 = p := by
  unfold Poly.listMonomialMul
  simp only [monomialMul_zero, List.map_id']
  exact chunks_flatten N hN p

/-- The packing keyswitch of one ciphertext. -/
theorem packing_one (bld : Csprng.Build) (b l N k n : Nat) (hN : 0 < N) (hl : 0 < l)
    (ksk output ct : List (BitVec w)) (hk : ksk.length = (n + 1) * (l * ((k + 1) * N)))
    (ho : output.length = (k + 1) * N) (hc : ct.length = n + 1) (r : List (BitVec w))
    (h : privateKeyswitchOne b l N k ksk output ct = some r) :
    Pks.privatePackingKeyswitch bld b l N k (n + 1) ksk output ct = some r := by
  have hch : chunks (n + 1) ct = [ct] := by
    rw [chunks_eq (n + 1) (by omega) 1 ct (by omega)]
    simp [block, ← hc]
  have hG : 0 < (k + 1) * N := Nat.mul_pos (by omega) hN
  obtain ⟨r', h1, h2, h3⟩ := private_coeff b l N k (n + 1) hl hG ksk output ct hk ho hc
  have hr : r.length = (k + 1) * N := by
    rw [h] at h1; rw [Option.some.inj h1]; exact h2
  rw [Pks.privatePackingKeyswitch, hch, if_neg (by simp; omega), Pks.packLoop]
  have hz : privateKeyswitchOne b l N k ksk (output.map fun _ => 0#w) ct = some r := by
    rw [← h]; simp [privateKeyswitchOne]
  rw [hz]
  simp only [Pks.packLoop]
  rw [listMonomialMul_zero N hN r, Option.some.injEq]
  have hlen : (output.map fun _ => 0#w).length = r.length := by rw [List.length_map, ho, hr]
  rw [List.map_const', ho, ← hr]
  refine List.ext_getElem? fun i => ?_
  rw [zipUpdate_getElem?]
  by_cases hi : i < r.length
  · simp [hi]
  · simp [hi]

theorem onGpus_length {A size n : Nat} {xs : List (BitVec w)} {vecs : List (DVec (BitVec w))} (hA : 0 < A)
    (hz : 0 < size) (hn : 0 < n) (hfit : n * size < 2 ^ 32) (hx : xs.length = n * size)
    (h : OnGpus A size xs vecs) : vecs.length = min n A := by
  by_cases hAn : A ≤ n
  · obtain ⟨_, rfl⟩ := onGpus_shares hA hz hAn hfit hx h
    rw [shares_length]; omega
  · have hm : min n A = n := by omega
    rw [OnGpus, toGpus_ok A size n xs hA hz hn hx hfit
      (by rw [hm, Nat.mod_self, Nat.div_self hn]; exact Nat.one_pos)] at h
    rw [← Out.ok.inj h, List.length_map, layout_length]

/-- One ciphertext on one GPU. -/
theorem execute_one (σ : Nat → Order) (b l N k : Nat) (s ksk ct : List (BitVec w))
    (vx vk : List (DVec (BitVec w))) (out : DVec (BitVec w)) (hfk : ksk.length < 2 ^ 32)
    (hfi : s.length + 1 < 2 ^ 32) (hb : Lwe.Fits s ct) (hx : OnGpus 1 (s.length + 1) ct vx)
    (hk : broadcast 1 ksk = .ok vk) :
    executeFpKeyswitch σ b l s.length (k + 1) N 1 1 1 vx vk out =
      hostFpKeyswitch (σ 0) b l s.length (k + 1) N 1 1 (ct.map some) (ksk.map some) out := by
  have hc : ct.length = s.length + 1 := hb
  rw [broadcast_ok 1 ksk hfk] at hk
  obtain rfl := Out.ok.inj hk
  rw [OnGpus, toGpus_ok 1 (s.length + 1) 1 ct (by omega) (by omega) (by omega) (by omega) (by omega) (by simp)] at hx
  obtain rfl := Out.ok.inj hx
  simp [executeFpKeyswitch, activeGpus, samplesOnGpu, getVec, layout]

end Verif.Cuda
