import Verif.Cuda.BooleanGates
import Verif.Cuda.Props2
import Verif.Cuda.KeyswitchGpus
import Verif.Cuda.PbsTablesLemmas
import Verif.Cuda.Props18
/-
The operations of the Boolean gates on one device, for outputs with any previous content.
-/
namespace Verif.Cuda.Bg
open Verif.Wop
open Lwe (phase)

section
variable {R : Type} [CommRing R]

omit [CommRing R] in
theorem words_all (r : List R) (len : Nat) (h : r.length = len) : words (fun i => r[i]?) 0 len = r.map some := by
  apply List.ext_getElem?
  intro i
  rw [words_getElem?, List.getElem?_map, Nat.zero_add]
  split
  · next hi => rw [List.getElem?_eq_getElem (by omega)]; rfl
  · next hi => rw [List.getElem?_eq_none (by omega)]; rfl

theorem read_map (xs : List R) (i : Nat) (h : i < xs.length) : DVec.read (xs.map some) i = .ok (some (xs.getD i 0)) := by
  rw [DVec.read, List.getElem?_map, getElem?_getD xs i h]; rfl

theorem getD_rep (n : Nat) (c : R) (i : Nat) (h : i < n) : (List.replicate n c).getD i 0 = c := by
  rw [List.getD_eq_getElem?_getD, List.getElem?_replicate, if_pos h]; rfl

theorem addition_ok (σ : Order) (hσ : σ.Complete) (n : Nat) (s xs ys : List R) (out : DVec R) (hn : 0 < n)
    (hfit : n * (s.length + 1) ≤ 2 ^ 31 - 512) (lx : xs.length = n * (s.length + 1)) (ly : ys.length = n * (s.length + 1))
    (lo : out.length = n * (s.length + 1)) :
    ∃ r, hostAddition σ (s.length + 1) n (xs.map some) (ys.map some) out = .ok (r.map some) ∧
      r.length = n * (s.length + 1) ∧
      ∀ i, i < n → phase s (block (s.length + 1) r i) =
        phase s (block (s.length + 1) xs i) + phase s (block (s.length + 1) ys i) := by
  set size := s.length + 1 with hsz
  have hz : 0 < size := by omega
  have hp : 0 < n * size := Nat.mul_pos hn hz
  set g : Nat → R := fun i => xs.getD i 0 + ys.getD i 0
  refine ⟨tabulate (n * size) g, ?_, tabulate_length _ _, fun i hi => ?_⟩
  · rw [hostAddition, ← words_all _ _ (tabulate_length (n * size) g)]
    refine launch_words σ hσ _ _ _ hp hfit _ out lo fun t o _ => ?_
    split
    · next ht =>
      rw [read_map xs t (by omega), Out.bind_ok, read_map ys t (by omega), Out.bind_ok, Nat.zero_add,
        tabulate_getElem? _ _ _ ht]
      rfl
    · rfl
  · have e := Lwe.phase_lin (s := s) (x := block size xs i) (y := block size ys i)
      (z := block size (tabulate (n * size) g) i) 1 1 fun j hj => by
        rw [tabulate_block size n g i j hi (by omega), block_getD _ _ _ _ _ (by omega), block_getD _ _ _ _ _ (by omega)]
        simp only [g]; ring
    rw [e]; ring

theorem negation_ok (σ : Order) (hσ : σ.Complete) (n : Nat) (s xs : List R) (out : DVec R) (hn : 0 < n)
    (hfit : n * (s.length + 1) ≤ 2 ^ 31 - 512) (lx : xs.length = n * (s.length + 1))
    (lo : out.length = n * (s.length + 1)) :
    ∃ r, hostNegation σ (s.length + 1) n (xs.map some) out = .ok (r.map some) ∧ r.length = n * (s.length + 1) ∧
      ∀ i, i < n → phase s (block (s.length + 1) r i) = - phase s (block (s.length + 1) xs i) := by
  set size := s.length + 1 with hsz
  have hz : 0 < size := by omega
  have hp : 0 < n * size := Nat.mul_pos hn hz
  set g : Nat → R := fun i => - xs.getD i 0
  refine ⟨tabulate (n * size) g, ?_, tabulate_length _ _, fun i hi => ?_⟩
  · rw [hostNegation, ← words_all _ _ (tabulate_length (n * size) g)]
    refine launch_words σ hσ _ _ _ hp hfit _ out lo fun t o _ => ?_
    split
    · next ht =>
      rw [read_map xs t (by omega), Out.bind_ok, Nat.zero_add, tabulate_getElem? _ _ _ ht]
      rfl
    · rfl
  · have e := Lwe.phase_lin (s := s) (x := block size xs i) (y := block size xs i)
      (z := block size (tabulate (n * size) g) i) (-1) 0 fun j hj => by
        rw [tabulate_block size n g i j hi (by omega), block_getD _ _ _ _ _ (by omega)]
        simp only [g]; ring
    rw [e]; ring

theorem mult_ok (σ : Order) (hσ : σ.Complete) (n : Nat) (s xs : List R) (c : R) (out : DVec R) (hn : 0 < n)
    (hfit : n * (s.length + 1) ≤ 2 ^ 31 - 512) (lx : xs.length = n * (s.length + 1))
    (lo : out.length = n * (s.length + 1)) :
    ∃ r, hostCleartextMultiplication σ (s.length + 1) n (xs.map some) ((List.replicate n c).map some) out =
        .ok (r.map some) ∧ r.length = n * (s.length + 1) ∧
      ∀ i, i < n → phase s (block (s.length + 1) r i) = phase s (block (s.length + 1) xs i) * c := by
  set size := s.length + 1 with hsz
  have hz : 0 < size := by omega
  have hp : 0 < n * size := Nat.mul_pos hn hz
  set g : Nat → R := fun i => xs.getD i 0 * c
  refine ⟨tabulate (n * size) g, ?_, tabulate_length _ _, fun i hi => ?_⟩
  · rw [hostCleartextMultiplication, ← words_all _ _ (tabulate_length (n * size) g)]
    refine launch_words σ hσ _ _ _ hp hfit _ out lo fun t o _ => ?_
    split
    · next ht =>
      have hd : t / size < n := (Nat.div_lt_iff_lt_mul hz).2 ht
      rw [read_map xs t (by omega), Out.bind_ok, read_map _ _ (by simpa using hd), Out.bind_ok, Nat.zero_add,
        tabulate_getElem? _ _ _ ht, getD_rep _ _ _ hd]
      rfl
    · rfl
  · have e := Lwe.phase_lin (s := s) (x := block size xs i) (y := block size xs i)
      (z := block size (tabulate (n * size) g) i) c 0 fun j hj => by
        rw [tabulate_block size n g i j hi (by omega), block_getD _ _ _ _ _ (by omega)]
        simp only [g]; ring
    rw [e]; ring

theorem plaintext_ok (σ : Order) (hσ : σ.Complete) (n : Nat) (s xs : List R) (p : R) (out : DVec R) (hn : 0 < n)
    (hfit : n * (s.length + 1) ≤ 2 ^ 31 - 512) (lx : xs.length = n * (s.length + 1))
    (lo : out.length = n * (s.length + 1)) :
    ∃ r, hostPlaintextAddition σ (s.length + 1) n (xs.map some) ((List.replicate n p).map some) out =
        .ok (r.map some) ∧ r.length = n * (s.length + 1) ∧
      ∀ i, i < n → phase s (block (s.length + 1) r i) = phase s (block (s.length + 1) xs i) + p := by
  set size := s.length + 1 with hsz
  have hz : 0 < size := by omega
  have hn1 : n * 1 ≤ n * size := Nat.mul_le_mul_left _ hz
  set g : Nat → R := fun i => if i % size = size - 1 then xs.getD i 0 + p else xs.getD i 0 with hg
  have hpos : ∀ t, t < n → t * size + (size - 1) < n * size := by
    intro t ht
    have : (t + 1) * size ≤ n * size := Nat.mul_le_mul_right _ ht
    rw [Nat.add_mul, Nat.one_mul] at this
    omega
  have hmod : ∀ t, (t * size + (size - 1)) % size = size - 1 := fun t => by
    rw [Nat.mul_comm, Nat.mul_add_mod, Nat.mod_eq_of_lt (by omega)]
  refine ⟨tabulate (n * size) g, ?_, tabulate_length _ _, fun i hi => ?_⟩
  · rw [hostPlaintextAddition, if_neg (by omega), memcpyDevice, if_pos ⟨by omega, by simp [lx]⟩, Out.bind_ok,
      List.take_of_length_le (by simp [lx]), List.drop_eq_nil_of_le (by omega), List.append_nil]
    obtain ⟨r', e', hl', h1, h2⟩ := launch_writes σ hσ n hn (by omega)
      (fun p' out => if p' < n then
          (DVec.read (xs.map some) (p' * size + (size - 1))).bind fun x =>
            (DVec.read ((List.replicate n p).map some) p').bind fun y =>
              DVec.write out (p' * size + (size - 1)) (x.bind fun x => y.map fun y => x + y) else .ok out)
      (fun t => t * size + (size - 1)) (fun t => some (g (t * size + (size - 1)))) (xs.map some)
      (fun t o ho => by
        split
        · next ht =>
          have := hpos t ht
          rw [read_map xs _ (by omega), Out.bind_ok, read_map _ _ (by simpa using ht), Out.bind_ok]
          simp only [hg, hmod, if_pos, getD_rep _ _ _ ht]
          rfl
        · rfl)
      (fun t ht => by rw [List.length_map, lx]; exact hpos t ht)
      (fun t u _ _ h => Nat.eq_of_mul_eq_mul_right hz (by omega))
    rw [e']
    congr 1
    apply List.ext_getElem?
    intro q
    rw [List.getElem?_map]
    by_cases hq : q < n * size
    · rw [tabulate_getElem? _ _ _ hq]
      have hdm := Nat.div_add_mod q size
      by_cases hqm : q % size = size - 1
      · have hqn : q / size < n := (Nat.div_lt_iff_lt_mul hz).2 hq
        have eq : q = q / size * size + (size - 1) := by rw [Nat.mul_comm] at hdm; omega
        have := h1 (q / size) hqn
        rw [← eq] at this
        exact this
      · rw [h2 q fun t ht he => hqm (by rw [← he, hmod]), List.getElem?_map, getElem?_getD xs _ (by omega)]
        simp only [hg]; rw [if_neg hqm]
    · rw [List.getElem?_eq_none (by rw [hl', List.length_map]; omega),
        List.getElem?_eq_none (by rw [tabulate_length]; omega)]
      rfl
  · have hblk : ∀ j, j < size → (block size (tabulate (n * size) g) i).getD j 0 =
        if j = size - 1 then (block size xs i).getD j 0 + p else (block size xs i).getD j 0 := by
      intro j hj
      rw [tabulate_block size n g i j hi hj, block_getD _ _ _ _ _ hj]
      simp only [hg]
      rw [Nat.mul_comm i size, Nat.mul_add_mod, Nat.mod_eq_of_lt hj]
    unfold Lwe.phase
    rw [hblk s.length (by omega), if_pos (by omega),
      Finset.sum_congr rfl fun j hj => by
        rw [hblk j (by have := Finset.mem_range.1 hj; omega),
          if_neg (by have := Finset.mem_range.1 hj; omega)]]
    ring
end

variable {w : Nat}

/-- The keyswitch of a vector of ciphertexts on one device, for every schedule. -/
theorem keyswitch_ok (maxShared : Nat) (sched : Nat → List Nat) (n b l dimIn dimOut : Nat)
    (hv : Decomp.ValidParams w b l) (ksk xs : List (BitVec w)) (out : DVec (BitVec w)) (hn : 0 < n)
    (hd : 0 < dimIn) (hfo : n * (dimOut + 1) < 2 ^ 31) (hfk : dimIn * (l * (dimOut + 1)) < 2 ^ 31)
    (hsh : w / 8 * (dimOut + 1) ≤ maxShared) (lk : ksk.length = dimIn * (l * (dimOut + 1)))
    (lx : xs.length = n * (dimIn + 1)) (lo : out.length = n * (dimOut + 1)) :
    ∃ r : List (BitVec w), r.length = n * (dimOut + 1) ∧
      hostKeyswitch maxShared sched b l dimIn dimOut n (xs.map some) (ksk.map some) out = .ok (r.map some) ∧
      ∀ i, i < n → ∀ after : List (BitVec w), after.length = dimOut + 1 →
        (Lwe.keyswitchCiphertext b l (dimOut + 1) ksk after (block (dimIn + 1) xs i) = some (block (dimOut + 1) r i) ∨
          dimOut % 128 ≠ 0) ∧
        ((∀ j, sched j = bodyFirst (w := w) ⟨b, l, dimIn, dimOut, [], [], j⟩) → dimOut % 128 ≠ 0 →
          Lwe.keyswitchCiphertext b l (dimOut + 1) ksk after (withoutBody (block (dimIn + 1) xs i)) =
            some (block (dimOut + 1) r i)) := by
  obtain ⟨r, h1, h2, h3⟩ := executeKeyswitch_general maxShared (fun _ => sched) 1 n b l dimIn dimOut hv ksk xs
    (fun i => (out[i]?).getD none) Nat.one_pos hn hd hfo hfk hsh (by rw [Nat.mod_one, Nat.div_one]; exact hn) lk lx
  refine ⟨r, h1, ?_, fun i hi after ha => ?_⟩
  · have sh : ∀ (size : Nat) (G : Nat → Option (BitVec w)), shares 1 size n G = [words G 0 (n * size)] := by
      intro size G
      apply List.ext_getElem?
      intro i
      rcases Nat.eq_zero_or_pos i with rfl | hi
      · rw [shares_getElem? 1 size n G 0 Nat.one_pos]
        simp [Nat.mod_one]
      · rw [List.getElem?_eq_none (by simp [shares]; omega), List.getElem?_eq_none (by simp; omega)]
    rw [sh, sh, sh, words_all xs _ lx, words_all r _ h1] at h2
    have ho : words (fun i => (out[i]?).getD none) 0 (n * (dimOut + 1)) = out := by
      apply List.ext_getElem?
      intro i
      rw [words_getElem?, Nat.zero_add]
      split
      · next hi => rw [List.getElem?_eq_getElem (by omega)]; rfl
      · next hi => rw [List.getElem?_eq_none (by omega)]
    rw [ho] at h2
    have ha : activeGpus 1 n = 1 := by rw [activeGpus, if_neg (by omega)]
    simp only [executeKeyswitch, forGpus, ha, Nat.one_pos, if_true, samplesOnGpu, Nat.one_ne_zero, if_false, Nat.div_one,
      Nat.mod_one, Nat.sub_self, Nat.add_zero, Out.bind_ok, getVec, List.replicate_one, List.getElem?_cons_zero,
      Nat.zero_add, Nat.lt_irrefl] at h2
    generalize hostKeyswitch maxShared sched b l dimIn dimOut n (xs.map some) (ksk.map some) out = res at h2 ⊢
    cases res with
    | ok v => simpa [Out.bind] using h2
    | panic => simp [Out.bind] at h2
    | exit => simp [Out.bind] at h2
    | overrun => simp [Out.bind] at h2
  · obtain ⟨q1, q2⟩ := h3 i hi after ha
    refine ⟨?_, fun hs hm => q2 (fun _ k => hs k) hm⟩
    rcases q1 with h | h
    · exact .inl h
    · exact .inr h.1

theorem lutWords_eq (k N : Nat) : lutWords k N = signAccumulator N k (-plainTrue) := by
  apply List.ext_getElem?
  intro i
  rw [lutWords, signAccumulator, List.getElem?_map, List.getElem?_append, List.length_replicate, List.getElem?_replicate,
    List.getElem?_replicate]
  have e : (k + 1) * N = k * N + N := by ring
  by_cases h : i < k * N
  · rw [List.getElem?_range (by omega), if_pos h, if_pos h]
    simp [h]
  · rw [if_neg h]
    by_cases h2 : i < (k + 1) * N
    · rw [List.getElem?_range h2, if_pos (by omega)]
      simp [h]
    · rw [List.getElem?_eq_none (by simp; omega), if_neg (by omega)]
      rfl

theorem negTrue : -plainTrue = plainFalse := by decide

/-- The bootstraps of a vector of ciphertexts, for every order of the threads. -/
theorem bootstrap_ok (σ : Order) (hσ : σ.Complete) (junk : Nat → Nat) (count n k N : Nat) (hNpos : 0 < N)
    (pbs : List (BitVec 32) → List (BitVec 32) → List (BitVec 32) → Option (List (BitVec 32)))
    (lweKey key prev xs : List (BitVec 32)) (Q B : Int) (hpbs : SignPbs pbs N k lweKey key Q B) (hlk : lweKey.length = n)
    (hkey : key.length = k * N) (hprev : prev.length = k * N + 1) (out : DVec (BitVec 32))
    (lx : xs.length = count * (n + 1)) (lo : out.length = count * (k * N + 1)) (β : Nat → Bool) (e : Nat → Int)
    (hp : ∀ i, i < count → phase lweKey (block (n + 1) xs i) =
      (((if β i then 2 ^ 31 else 0) + 2 ^ 30 + e i : Int) : BitVec 32))
    (he : ∀ i, i < count → |e i| + Q < 2 ^ 30) :
    ∃ r, hostPbs σ (fun table ct j => ((pbs prev ct table).getD []).getD j 0) 32 (n + 1) ((k + 1) * N) (k * N + 1) count 0
        junk (((List.replicate count 0#32).map some).map (Option.map BitVec.toNat)) ((lutWords k N).map some)
        (xs.map some) out = .ok (r.map some) ∧ r.length = count * (k * N + 1) ∧
      ∀ i, i < count → Lwe.Fits key (block (k * N + 1) r i) ∧ ∃ f : Int, |f| ≤ B ∧
        phase key (block (k * N + 1) r i) = (if β i then plainFalse else plainTrue) + (f : BitVec 32) := by
  have hll : (lutWords k N).length = 1 * ((k + 1) * N) := by rw [lutWords]; simp
  have hlx : ∀ i, i < count → (block (n + 1) xs i).length = n + 1 := fun i hi =>
    block_length _ _ _ (by rw [lx]; exact Nat.mul_le_mul_right _ hi)
  have h := hostPbs_ok σ hσ (fun table ct j => ((pbs prev ct table).getD []).getD j 0) 32 (n + 1) ((k + 1) * N) (k * N + 1)
    count 0 0 1 (fun _ => 0) junk (((List.replicate count 0#32).map some).map (Option.map BitVec.toNat)) (lutWords k N) xs out
    (by omega) hll (by rw [Nat.zero_add, lx]) lo
    (fun z hz => by
      rw [lutIndex, DVec.read, Nat.zero_add, List.getElem?_map, List.getElem?_map, List.getElem?_replicate, if_pos hz]; rfl)
    (fun z _ => by simp) (fun z _ => by omega)
  rw [Nat.zero_mul, Nat.zero_mul, words_all xs _ lx] at h
  have hblk : block ((k + 1) * N) (lutWords k N) 0 = lutWords k N := by
    rw [block, Nat.zero_mul, List.drop_zero, List.take_of_length_le (by rw [hll, Nat.one_mul])]
  set g : Nat → BitVec 32 := fun i => pbsWord (fun table ct j => ((pbs prev ct table).getD []).getD j 0) (n + 1)
    ((k + 1) * N) (k * N + 1) (fun _ => 0) (lutWords k N) xs i with hg
  refine ⟨tabulate (count * (k * N + 1)) g, ?_, tabulate_length _ _, fun i hi => ?_⟩
  · rw [h, ← words_all _ _ (tabulate_length (count * (k * N + 1)) g)]
    congr 1
    apply List.ext_getElem?
    intro i
    rw [words_getElem?, words_getElem?, Nat.zero_add]
    split
    · next hi => rw [tabulate_getElem? _ _ _ hi]
    · rfl
  · obtain ⟨r, r1, r2, f, r3, r4⟩ := hpbs prev (block (n + 1) xs i) (-plainTrue) (β i) (e i) hprev
      (by rw [Lwe.Fits, hlx i hi, hlk]) (hp i hi) (he i hi)
    have hrl : r.length = k * N + 1 := by rw [Lwe.Fits] at r2; rw [r2, hkey]
    have hr : block (k * N + 1) (tabulate (count * (k * N + 1)) g) i = r := by
      apply List.ext_getElem (by
        rw [hrl]; exact block_length _ _ _ (by rw [tabulate_length]; exact Nat.mul_le_mul_right _ hi))
      intro j h1 h2
      have e1 := tabulate_block (k * N + 1) count g i j hi (by omega)
      rw [List.getD_eq_getElem?_getD, List.getElem?_eq_getElem h1, Option.getD_some] at e1
      rw [e1, hg]
      simp only [pbsWord]
      rw [Nat.mul_comm i, Nat.mul_add_div (by omega), Nat.mul_add_mod, Nat.div_eq_of_lt (by omega),
        Nat.mod_eq_of_lt (by omega), hblk, lutWords_eq, Nat.add_zero i, r1, Option.getD_some, List.getD_eq_getElem?_getD,
        List.getElem?_eq_getElem h2, Option.getD_some]
    rw [hr]
    refine ⟨r2, f, r3, ?_⟩
    rw [r4, neg_neg, negTrue]

/-! ### The calls -/

theorem Memory.get_some {m : Memory} {b : Buf} {v : DVec (BitVec 32)} (h : m b = some v) : m.get b = .ok v := by
  rw [Memory.get, h]

theorem malloc_length (len : Nat) (h : len < 2 ^ 32) : (malloc len : DVec (BitVec 32)).length = len := by
  rw [malloc, List.length_replicate, Nat.mod_eq_of_lt h]

theorem run_append (P : Params) (R : Runs) (p q : List Op) (m : Memory) :
    run P R (p ++ q) m = (run P R p m).bind fun m => run P R q m := by
  induction p generalizing m with
  | nil => rfl
  | cons op p ih =>
    rw [List.cons_append, run, run]
    cases exec P R op m with
    | ok m' => exact ih m'
    | panic => rfl
    | exit => rfl
    | overrun => rfl

/-- Allocating a buffer and filling it. -/
theorem run_upload (P : Params) (R : Runs) (b : Buf) (src : List (BitVec 32)) (len : Nat) (ops : List Op) (m : Memory)
    (h : src.length = len) (hlen : len < 2 ^ 32) :
    run P R (.alloc b len :: .upload b src :: ops) m = run P R ops (m.set b (some (src.map some))) := by
  have hm : (m.set b (some (malloc len))) b = some (malloc len) := by simp [Memory.set]
  rw [run, exec, Out.bind_ok, run, exec, Memory.get_some hm, Out.bind_ok, copyToGpu,
    if_pos (by rw [malloc_length len hlen, h]), Out.bind_ok,
    List.drop_eq_nil_of_le (by rw [malloc_length len hlen, h]), List.append_nil, Out.bind_ok]
  congr 1
  funext x
  simp only [Memory.set]
  split <;> rfl

theorem run_drop (P : Params) (R : Runs) (b : Buf) (ops : List Op) (m : Memory) (v : DVec (BitVec 32)) (h : m b = some v) :
    run P R (.drop b :: ops) m = run P R ops (m.set b none) := by
  rw [run, exec, Memory.get_some h]; rfl

/-- The parameters fit in the 32-bit sizes, and a launch has at least one ciphertext. -/
structure Sized (P : Params) (R : Runs) (s' : List (BitVec 32)) : Prop where
  dim : s'.length = P.n
  count : 0 < P.count
  fits : P.count * (P.n + 1) ≤ 2 ^ 31 - 512
  orders : ∀ b, (R.order b).Complete

variable {P : Params} {R : Runs} {s' : List (BitVec 32)}

theorem Sized.words (h : Sized P R s') : (malloc ((P.n + 1) * P.count) : DVec (BitVec 32)).length = P.count * (P.n + 1) := by
  have := h.fits
  rw [Nat.mul_comm, malloc_length _ (by omega)]

theorem Sized.counted (h : Sized P R s') : P.count < 2 ^ 32 := by
  have h1 := h.fits
  have h2 : P.count * 1 ≤ P.count * (P.n + 1) := Nat.mul_le_mul_left _ (by omega)
  omega

theorem run_add (h : Sized P R s') (o a b : Buf) (ha : a ≠ o) (hb : b ≠ o) (xs ys : List (BitVec 32))
    (m : Memory) (hx : m a = some (xs.map some)) (hy : m b = some (ys.map some)) (lx : xs.length = P.count * (P.n + 1))
    (ly : ys.length = P.count * (P.n + 1)) :
    ∃ r, (∀ ops, run P R (.alloc o ((P.n + 1) * P.count) :: .add o a b :: ops) m = run P R ops (m.set o (some (r.map some)))) ∧
      r.length = P.count * (P.n + 1) ∧ ∀ i, i < P.count → phase s' (block (P.n + 1) r i) =
        phase s' (block (P.n + 1) xs i) + phase s' (block (P.n + 1) ys i) := by
  obtain ⟨r, r1, r2, r3⟩ := addition_ok (R.order o) (h.orders o) P.count s' xs ys (malloc ((P.n + 1) * P.count)) h.count
    (by rw [h.dim]; exact h.fits) (by rw [h.dim]; exact lx) (by rw [h.dim]; exact ly) (by rw [h.dim]; exact h.words)
  rw [h.dim] at r1 r2 r3
  refine ⟨r, fun ops => ?_, r2, r3⟩
  have hm : (m.set o (some (malloc ((P.n + 1) * P.count)))) o = some (malloc ((P.n + 1) * P.count)) := by simp [Memory.set]
  have h1 : (m.set o (some (malloc ((P.n + 1) * P.count)))) a = some (xs.map some) := by simp [Memory.set, ha, hx]
  have h2 : (m.set o (some (malloc ((P.n + 1) * P.count)))) b = some (ys.map some) := by simp [Memory.set, hb, hy]
  rw [run, exec, Out.bind_ok, run, exec, Memory.get_some h1, Out.bind_ok, Memory.get_some h2, Out.bind_ok,
    Memory.get_some hm, Out.bind_ok, r1, Out.bind_ok, Out.bind_ok]
  congr 1
  funext x
  simp only [Memory.set]
  split <;> rfl

theorem run_addPlain (h : Sized P R s') (o a p : Buf) (ha : a ≠ o) (hp : p ≠ o) (xs : List (BitVec 32)) (c : BitVec 32)
    (m : Memory) (hx : m a = some (xs.map some)) (hy : m p = some ((List.replicate P.count c).map some))
    (lx : xs.length = P.count * (P.n + 1)) :
    ∃ r, (∀ ops, run P R (.alloc o ((P.n + 1) * P.count) :: .addPlain o a p :: ops) m = run P R ops (m.set o (some (r.map some)))) ∧
      r.length = P.count * (P.n + 1) ∧ ∀ i, i < P.count → phase s' (block (P.n + 1) r i) =
        phase s' (block (P.n + 1) xs i) + c := by
  obtain ⟨r, r1, r2, r3⟩ := plaintext_ok (R.order o) (h.orders o) P.count s' xs c (malloc ((P.n + 1) * P.count)) h.count
    (by rw [h.dim]; exact h.fits) (by rw [h.dim]; exact lx) (by rw [h.dim]; exact h.words)
  rw [h.dim] at r1 r2 r3
  refine ⟨r, fun ops => ?_, r2, r3⟩
  have hm : (m.set o (some (malloc ((P.n + 1) * P.count)))) o = some (malloc ((P.n + 1) * P.count)) := by simp [Memory.set]
  have h1 : (m.set o (some (malloc ((P.n + 1) * P.count)))) a = some (xs.map some) := by simp [Memory.set, ha, hx]
  have h2 : (m.set o (some (malloc ((P.n + 1) * P.count)))) p = some ((List.replicate P.count c).map some) := by
    simp only [Memory.set, hp, if_false]; exact hy
  rw [run, exec, Out.bind_ok, run, exec, Memory.get_some h1, Out.bind_ok, Memory.get_some h2, Out.bind_ok,
    Memory.get_some hm, Out.bind_ok, r1, Out.bind_ok, Out.bind_ok]
  congr 1
  funext x
  simp only [Memory.set]
  split <;> rfl

theorem run_mult (h : Sized P R s') (o a p : Buf) (ha : a ≠ o) (hp : p ≠ o) (xs : List (BitVec 32)) (c : BitVec 32)
    (m : Memory) (hx : m a = some (xs.map some)) (hy : m p = some ((List.replicate P.count c).map some))
    (lx : xs.length = P.count * (P.n + 1)) :
    ∃ r, (∀ ops, run P R (.alloc o ((P.n + 1) * P.count) :: .mult o a p :: ops) m = run P R ops (m.set o (some (r.map some)))) ∧
      r.length = P.count * (P.n + 1) ∧ ∀ i, i < P.count → phase s' (block (P.n + 1) r i) =
        phase s' (block (P.n + 1) xs i) * c := by
  obtain ⟨r, r1, r2, r3⟩ := mult_ok (R.order o) (h.orders o) P.count s' xs c (malloc ((P.n + 1) * P.count)) h.count
    (by rw [h.dim]; exact h.fits) (by rw [h.dim]; exact lx) (by rw [h.dim]; exact h.words)
  rw [h.dim] at r1 r2 r3
  refine ⟨r, fun ops => ?_, r2, r3⟩
  have hm : (m.set o (some (malloc ((P.n + 1) * P.count)))) o = some (malloc ((P.n + 1) * P.count)) := by simp [Memory.set]
  have h1 : (m.set o (some (malloc ((P.n + 1) * P.count)))) a = some (xs.map some) := by simp [Memory.set, ha, hx]
  have h2 : (m.set o (some (malloc ((P.n + 1) * P.count)))) p = some ((List.replicate P.count c).map some) := by
    simp only [Memory.set, hp, if_false]; exact hy
  rw [run, exec, Out.bind_ok, run, exec, Memory.get_some h1, Out.bind_ok, Memory.get_some h2, Out.bind_ok,
    Memory.get_some hm, Out.bind_ok, r1, Out.bind_ok, Out.bind_ok]
  congr 1
  funext x
  simp only [Memory.set]
  split <;> rfl

theorem run_negate (h : Sized P R s') (o a : Buf) (ha : a ≠ o) (xs : List (BitVec 32))
    (m : Memory) (hx : m a = some (xs.map some)) (lx : xs.length = P.count * (P.n + 1)) :
    ∃ r, (∀ ops, run P R (.alloc o ((P.n + 1) * P.count) :: .negate o a :: ops) m = run P R ops (m.set o (some (r.map some)))) ∧
      r.length = P.count * (P.n + 1) ∧ ∀ i, i < P.count → phase s' (block (P.n + 1) r i) =
        - phase s' (block (P.n + 1) xs i) := by
  obtain ⟨r, r1, r2, r3⟩ := negation_ok (R.order o) (h.orders o) P.count s' xs (malloc ((P.n + 1) * P.count)) h.count
    (by rw [h.dim]; exact h.fits) (by rw [h.dim]; exact lx) (by rw [h.dim]; exact h.words)
  rw [h.dim] at r1 r2 r3
  refine ⟨r, fun ops => ?_, r2, r3⟩
  have hm : (m.set o (some (malloc ((P.n + 1) * P.count)))) o = some (malloc ((P.n + 1) * P.count)) := by simp [Memory.set]
  have h1 : (m.set o (some (malloc ((P.n + 1) * P.count)))) a = some (xs.map some) := by simp [Memory.set, ha, hx]
  rw [run, exec, Out.bind_ok, run, exec, Memory.get_some h1, Out.bind_ok, Memory.get_some hm, Out.bind_ok, r1,
    Out.bind_ok, Out.bind_ok]
  congr 1
  funext x
  simp only [Memory.set]
  split <;> rfl

/-- The keys of the gates: bootstraps that compute signs, and the sizes of the keyswitch. -/
structure Keys (P : Params) (R : Runs) (s' key : List (BitVec 32)) (Q B : Int) : Prop where
  poly : 0 < P.k * P.N
  keyLen : key.length = P.k * P.N
  prev : R.prev.length = P.k * P.N + 1
  sign : SignPbs P.pbs P.N P.k s' key Q B
  lutFits : (P.k + 1) * P.N < 2 ^ 32
  pbsFits : P.count * (P.k * P.N + 1) < 2 ^ 32
  decomp : Decomp.ValidParams 32 P.ksBase P.ksLevel
  kskFits : P.k * P.N * (P.ksLevel * (P.n + 1)) < 2 ^ 31
  shared : 4 * (P.n + 1) ≤ P.maxShared
  kskLen : P.ksk.length = P.k * P.N * (P.ksLevel * (P.n + 1))

theorem run_finish (h : Sized P R s') {key : List (BitVec 32)} {Q B : Int} (hk : Keys P R s' key Q B) (a : Buf)
    (h1 : a ≠ .lut) (h2 : a ≠ .indexes) (h3 : a ≠ .pbs) (h4 : a ≠ .out) (xs : List (BitVec 32)) (out : DVec (BitVec 32))
    (m : Memory) (hx : m a = some (xs.map some)) (ho : m .out = some out) (lx : xs.length = P.count * (P.n + 1))
    (lo : out.length = P.count * (P.n + 1)) (β : Nat → Bool) (e : Nat → Int)
    (hp : ∀ i, i < P.count → phase s' (block (P.n + 1) xs i) =
      (((if β i then 2 ^ 31 else 0) + 2 ^ 30 + e i : Int) : BitVec 32))
    (he : ∀ i, i < P.count → |e i| + Q < 2 ^ 30) :
    ∃ (m' : Memory) (c r : List (BitVec 32)), run P R (finish P a) m = .ok m' ∧ m' .out = some (r.map some) ∧
      (∀ b, b ≠ .out → m' b = if b = a ∨ b = .lut ∨ b = .indexes ∨ b = .pbs then none else m b) ∧
      r.length = P.count * (P.n + 1) ∧ c.length = P.count * (P.k * P.N + 1) ∧
      (∀ i, i < P.count → Lwe.Fits key (block (P.k * P.N + 1) c i) ∧ ∃ f : Int, |f| ≤ B ∧
        phase key (block (P.k * P.N + 1) c i) = (if β i then plainFalse else plainTrue) + (f : BitVec 32)) ∧
      ∀ i, i < P.count → ∀ after : List (BitVec 32), after.length = P.n + 1 →
        (Lwe.keyswitchCiphertext P.ksBase P.ksLevel (P.n + 1) P.ksk after (block (P.k * P.N + 1) c i) =
            some (block (P.n + 1) r i) ∨ P.n % 128 ≠ 0) ∧
        ((∀ j, R.ks j = bodyFirst (w := 32) ⟨P.ksBase, P.ksLevel, P.k * P.N, P.n, [], [], j⟩) → P.n % 128 ≠ 0 →
          Lwe.keyswitchCiphertext P.ksBase P.ksLevel (P.n + 1) P.ksk after (withoutBody (block (P.k * P.N + 1) c i)) =
            some (block (P.n + 1) r i)) := by
  have hNpos : 0 < P.N := Nat.pos_of_mul_pos_left hk.poly
  have hpl : (malloc ((P.k * P.N + 1) * P.count) : DVec (BitVec 32)).length = P.count * (P.k * P.N + 1) := by
    have := hk.pbsFits
    rw [Nat.mul_comm, malloc_length _ (by omega)]
  obtain ⟨c, c1, c2, c3⟩ := bootstrap_ok (R.order .pbs) (h.orders .pbs) R.junk P.count P.n P.k P.N hNpos P.pbs s' key R.prev xs
    Q B hk.sign h.dim hk.keyLen hk.prev (malloc ((P.k * P.N + 1) * P.count)) lx hpl β e hp he
  obtain ⟨r, r1, r2, r3⟩ := keyswitch_ok P.maxShared R.ks P.count P.ksBase P.ksLevel (P.k * P.N) P.n hk.decomp P.ksk c out
    h.count hk.poly (by have := h.fits; omega) hk.kskFits hk.shared hk.kskLen c2 lo
  rw [finish, run_upload P R _ _ _ _ _ (by simp [lutWords]) hk.lutFits, run_upload P R _ _ _ _ _ (by simp) h.counted, run,
    exec, Out.bind_ok]
  set m1 : Memory := ((m.set .lut (some ((lutWords P.k P.N).map some))).set .indexes
    (some ((List.replicate P.count 0#32).map some))).set .pbs (some (malloc ((P.k * P.N + 1) * P.count))) with hm1
  have g1 : m1 .lut = some ((lutWords P.k P.N).map some) := by rw [hm1]; rfl
  have g2 : m1 .indexes = some ((List.replicate P.count 0#32).map some) := by rw [hm1]; rfl
  have g3 : m1 .pbs = some (malloc ((P.k * P.N + 1) * P.count)) := by rw [hm1]; rfl
  have g4 : m1 a = some (xs.map some) := by simp [hm1, Memory.set, h1, h2, h3, hx]
  have g5 : m1 .out = some out := by rw [hm1]; exact ho
  rw [run, exec, Memory.get_some g1, Out.bind_ok, Memory.get_some g2, Out.bind_ok, Memory.get_some g4, Out.bind_ok,
    Memory.get_some g3, Out.bind_ok, c1, Out.bind_ok, Out.bind_ok]
  rw [run_drop P R a _ _ (xs.map some) (by simp only [Memory.set, h3, if_false]; exact g4),
    run_drop P R .lut _ _ ((lutWords P.k P.N).map some) (by
      simp only [Memory.set, Ne.symm h1, reduceCtorEq, if_false]; exact g1),
    run_drop P R .indexes _ _ ((List.replicate P.count 0#32).map some) (by
      simp only [Memory.set, Ne.symm h2, reduceCtorEq, if_false]; exact g2)]
  rw [run, exec, Memory.get_some (v := c.map some) (by simp [Memory.set, Ne.symm h3]), Out.bind_ok,
    Memory.get_some (v := out) (by simp only [Memory.set, Ne.symm h4, reduceCtorEq, if_false]; exact g5), Out.bind_ok, r2,
    Out.bind_ok, Out.bind_ok, run_drop P R .pbs _ _ (c.map some) (by simp [Memory.set, Ne.symm h3])]
  refine ⟨_, c, r, rfl, ?_, ?_, r1, c2, c3, r3⟩
  · simp [Memory.set]
  · intro b hb
    simp only [Memory.set, hb, if_false, hm1]
    by_cases e1 : b = .pbs
    · simp [e1]
    · by_cases e2 : b = .indexes
      · simp [e2]
      · by_cases e3 : b = .lut
        · simp [e3]
        · by_cases e4 : b = a <;> simp [e1, e2, e3, e4]

end Verif.Cuda.Bg
