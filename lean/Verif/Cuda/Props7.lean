import Verif.Cuda.PbsTablesLemmas
/-
C77: the bootstrap of a vector of ciphertexts with CUDA applies the lookup table `i` to the ciphertext `i`
(documentation of the engine trait `LweCiphertextVectorDiscardingBootstrapEngine`: as many lookup tables as input
ciphertexts, element-wise bootstrap).

`boot table ct` are the words of the bootstrap of one ciphertext. `A` is the number of GPUs, `n` the number of
ciphertexts, `accs` the words of the lookup tables, `xs` those of the input and `os` the previous words of the output.
`junk g p` is what the memory of GPU `g` held at the place of the index `p`, when this place was allocated.
-/
namespace Verif.Cuda

variable {α : Type}

/-- The specification: ciphertext `i` of `r` is the bootstrap of ciphertext `i` of `xs` with the table `f i`. -/
def Bootstrapped (boot : List α → List α → Nat → α) (sizeIn sizeLut sizeOut n : Nat) (f : Nat → Nat)
    (accs xs r : List α) : Prop :=
  r.length = n * sizeOut ∧
  ∀ i, i < n → block sizeOut r i =
    (List.range sizeOut).map (boot (block sizeLut accs (f i)) (block sizeIn xs i))

theorem bootstrapped_tabulate (boot : List α → List α → Nat → α) (sizeIn sizeLut sizeOut n : Nat) (ho : 0 < sizeOut)
    (f : Nat → Nat) (accs xs : List α) :
    Bootstrapped boot sizeIn sizeLut sizeOut n f accs xs
      (tabulate (n * sizeOut) (pbsWord boot sizeIn sizeLut sizeOut f accs xs)) := by
  refine ⟨tabulate_length _ _, fun i hi => ?_⟩
  have hle : (i + 1) * sizeOut ≤ n * sizeOut := Nat.mul_le_mul_right _ hi
  rw [Nat.add_mul, Nat.one_mul] at hle
  apply List.ext_getElem?
  intro j
  by_cases hj : j < sizeOut
  · rw [block_getElem? _ _ _ _ hj, tabulate_getElem? _ _ _ (by omega), List.getElem?_map, List.getElem?_range hj,
      pbsWord, show i * sizeOut + j = j + i * sizeOut from by omega, Nat.add_mul_div_right _ _ ho,
      Nat.add_mul_mod_self_right, Nat.div_eq_of_lt hj, Nat.mod_eq_of_lt hj, Nat.zero_add]
    rfl
  · rw [List.getElem?_eq_none, List.getElem?_eq_none]
    · rw [List.length_map, List.length_range]; omega
    · rw [block_length _ _ _ (by rw [tabulate_length, Nat.add_mul, Nat.one_mul]; exact hle)]; omega

/-- What the two executions give on the vectors of the GPUs. -/
theorem pbs_on_gpus (σ : Nat → Order) (hσ : ∀ g, (σ g).Complete) (boot : List α → List α → Nat → α)
    (w sizeIn sizeLut sizeOut A n : Nat) (f : Nat → Nat) (junk : Nat → Nat → Nat) (accs xs os : List α)
    (vl vx vo : List (DVec α)) (base : Nat → Nat) (len : Nat → Nat)
    (hA : 0 < A) (hn : 0 < n) (hi : 0 < sizeIn) (hlut : 0 < sizeLut) (ho : 0 < sizeOut)
    (hw : n * sizeLut ≤ 2 ^ w) (fl : n * sizeLut < 2 ^ 32) (fx : n * sizeIn < 2 ^ 32) (fo : n * sizeOut < 2 ^ 32)
    (la : accs.length = n * sizeLut) (lx : xs.length = n * sizeIn) (lo : os.length = n * sizeOut)
    (hl : broadcast A accs = .ok vl) (hx : OnGpus A sizeIn xs vx) (ho' : OnGpus A sizeOut os vo)
    (hlen : ∀ m, m ≤ n → len m < 2 ^ 32)
    (hb : ∀ g, g < min n A → base g + (n / min n A + if g = min n A - 1 then n % min n A else 0) ≤
      len (n / min n A + if g = min n A - 1 then n % min n A else 0))
    (hj : ∀ g z, g < min n A → z < n / min n A + (if g = min n A - 1 then n % min n A else 0) →
      junk g (base g + z) = f (g * (n / min n A) + z))
    (hf : ∀ i, i < n → f i < n) :
    ∃ vr r, forGpus (min n A) n (fun g samples out =>
        (copyToGpu (malloc (len samples)) (lutIndexes (len samples))).bind fun idx =>
          (getVec vl g).bind fun lut => (getVec vx g).bind fun input =>
            hostPbs (σ g) boot w sizeIn sizeLut sizeOut samples (base g) (junk g) idx lut input out) 0 vo = .ok vr ∧
      OnGpus A sizeOut r vr ∧ Bootstrapped boot sizeIn sizeLut sizeOut n f accs xs r := by
  obtain ⟨hr, rfl⟩ := onGpus_shares_min hA hi hn fx lx hx
  obtain ⟨_, rfl⟩ := onGpus_shares_min hA ho hn fo lo ho'
  rw [broadcast_ok A accs (by rw [la]; exact fl)] at hl
  obtain rfl := Out.ok.inj hl
  set B := min n A with hB
  have hB0 : 0 < B := by omega
  have hBn : B ≤ n := by omega
  set r := tabulate (n * sizeOut) (pbsWord boot sizeIn sizeLut sizeOut f accs xs) with hrdef
  have spec := bootstrapped_tabulate boot sizeIn sizeLut sizeOut n ho f accs xs
  have hon := onGpus_min (xs := r) hA ho hn fo spec.1 hr
  rw [← hB] at hon
  rw [shares_congr B sizeOut n (fun i => r[i]?) (fun i => some (pbsWord boot sizeIn sizeLut sizeOut f accs xs i))
    (fun i hi => by rw [hrdef]; exact tabulate_getElem? _ _ _ hi)] at hon
  refine ⟨_, r, ?_, hon, spec⟩
  refine forGpus_shares B sizeOut n _ _ _ hB0 hBn fun g hg out hout => ?_
  have hsh := share_le B n g hg
  have hbg := hb g hg
  have hjg := hj g
  set m := n / B + if g = B - 1 then n % B else 0 with hm
  have hmn : m ≤ n := by omega
  rw [indexes_unwritten _ _ (hlen m hmn), Out.bind_ok, getVec, List.getElem?_replicate, if_pos (by omega)]
  simp only [Out.bind_ok]
  rw [getVec_shares B sizeIn n _ g hg, ← hm, Out.bind_ok, ← Nat.mul_assoc, ← Nat.mul_assoc]
  refine hostPbs_ok (σ g) (hσ g) boot w sizeIn sizeLut sizeOut m (base g) (g * (n / B)) n f (junk g) _ accs xs out
    ho la ?_ hout (fun z hz => ?_) (fun z hz => ?_) (fun z hz => hf _ (by omega))
  rotate_left
  · rw [lutIndex_unwritten _ _ _ (by omega), hjg z hg hz]
  · have : (f (g * (n / B) + z) + 1) * sizeLut ≤ n * sizeLut := Nat.mul_le_mul_right _ (hf _ (by omega))
    rw [Nat.add_mul, Nat.one_mul] at this
    omega
  rw [lx]
  exact Nat.mul_le_mul_right _ hsh

/-- C77, low latency: whatever the number of GPUs, ciphertext `i` is bootstrapped with the table whose number was in
the memory of its GPU, if there is such a table: the code does not write the indexes. -/
theorem C77_low_latency_tables (σ : Nat → Order) (hσ : ∀ g, (σ g).Complete) (boot : List α → List α → Nat → α)
    (w sizeIn sizeLut sizeOut A n : Nat) (f : Nat → Nat) (junk : Nat → Nat → Nat) (accs xs os : List α)
    (vl vx vo : List (DVec α)) (hA : 0 < A) (hn : 0 < n) (hi : 0 < sizeIn) (hlut : 0 < sizeLut) (ho : 0 < sizeOut)
    (hw : n * sizeLut ≤ 2 ^ w) (fl : n * sizeLut < 2 ^ 32) (fx : n * sizeIn < 2 ^ 32) (fo : n * sizeOut < 2 ^ 32)
    (la : accs.length = n * sizeLut) (lx : xs.length = n * sizeIn) (lo : os.length = n * sizeOut)
    (hl : broadcast A accs = .ok vl) (hx : OnGpus A sizeIn xs vx) (ho' : OnGpus A sizeOut os vo)
    (hj : ∀ g z, g < min n A → z < n / min n A + (if g = min n A - 1 then n % min n A else 0) →
      junk g z = f (g * (n / min n A) + z))
    (hf : ∀ i, i < n → f i < n) :
    ∃ vr r, executeLow σ boot w sizeIn sizeLut sizeOut A n junk vl vx vo = .ok vr ∧
      OnGpus A sizeOut r vr ∧ Bootstrapped boot sizeIn sizeLut sizeOut n f accs xs r := by
  have h32 : n < 2 ^ 32 := lt_of_le_of_lt (Nat.le_mul_of_pos_right n hi) fx
  obtain ⟨vr, r, e, h⟩ := pbs_on_gpus σ hσ boot w sizeIn sizeLut sizeOut A n f junk accs xs os vl vx vo (fun _ => 0) id
    hA hn hi hlut ho hw fl fx fo la lx lo hl hx ho' (fun m h => by simp only [id]; omega) (fun g _ => by simp)
    (fun g z hg hz => by rw [Nat.zero_add]; exact hj g z hg hz) hf
  refine ⟨vr, r, ?_, h⟩
  rw [executeLow, activeGpus_eq]
  exact e

/-- C77, amortized: the same. -/
theorem C77_amortized_tables (σ : Nat → Order) (hσ : ∀ g, (σ g).Complete) (boot : List α → List α → Nat → α)
    (w sizeIn sizeLut sizeOut A n : Nat) (f : Nat → Nat) (junk : Nat → Nat → Nat) (accs xs os : List α)
    (vl vx vo : List (DVec α)) (hA : 0 < A) (hn : 0 < n) (hi : 0 < sizeIn) (hlut : 0 < sizeLut) (ho : 0 < sizeOut)
    (hw : n * sizeLut ≤ 2 ^ w) (fl : n * sizeLut < 2 ^ 32) (fx : n * sizeIn < 2 ^ 32) (fo : n * sizeOut < 2 ^ 32)
    (la : accs.length = n * sizeLut) (lx : xs.length = n * sizeIn) (lo : os.length = n * sizeOut)
    (hl : broadcast A accs = .ok vl) (hx : OnGpus A sizeIn xs vx) (ho' : OnGpus A sizeOut os vo)
    (hj : ∀ g p, g < min n A → p < n → junk g p = f p) (hf : ∀ i, i < n → f i < n) :
    ∃ vr r, executeAmortized σ boot w sizeIn sizeLut sizeOut A n junk vl vx vo = .ok vr ∧
      OnGpus A sizeOut r vr ∧ Bootstrapped boot sizeIn sizeLut sizeOut n f accs xs r := by
  have h32 : n < 2 ^ 32 := lt_of_le_of_lt (Nat.le_mul_of_pos_right n hi) fx
  have hB : 0 < min n A := by omega
  have hr := (onGpus_shares_min hA hi hn fx lx hx).1
  obtain ⟨vr, r, e, h⟩ := pbs_on_gpus σ hσ boot w sizeIn sizeLut sizeOut A n f junk accs xs os vl vx vo
    (fun g => g * (n / min n A)) (fun _ => n)
    hA hn hi hlut ho hw fl fx fo la lx lo hl hx ho' (fun m h => h32) (fun g hg => share_le _ n g hg)
    (fun g z hg hz => by
      have := share_le (min n A) n g hg
      exact hj g _ hg (by omega)) hf
  refine ⟨vr, r, ?_, h⟩
  rw [executeAmortized, activeGpus_eq, ← e]
  rcases Nat.lt_or_ge 1 (min n A) with h1 | h1
  · rw [samplesOnGpu, if_neg (by omega), Out.bind_ok, if_neg (by omega)]
    simp only [Nat.add_zero]
    congr 1
    funext g samples out
    rw [Nat.mul_comm]
  · have h1 : min n A = 1 := by omega
    rw [h1, samplesOnGpu, if_neg (by omega), Out.bind_ok, if_pos rfl]
    simp only [Nat.mod_one, Nat.add_zero]
    congr 1
    funext g samples out
    rw [Nat.mul_comm]

/-- C77 for one ciphertext: the bootstrap with one lookup table is right. -/
theorem C77_single (σ : Order) (hσ : σ.Complete) (boot : List α → List α → Nat → α)
    (w sizeIn sizeLut sizeOut : Nat) (junk : Nat → Nat) (acc x o : List α)
    (ho : 0 < sizeOut) (la : acc.length = sizeLut) (lx : x.length = sizeIn) (lo : o.length = sizeOut) :
    executeSingle σ boot w sizeIn sizeLut sizeOut junk (acc.map some) (x.map some) (o.map some) =
      .ok (((List.range sizeOut).map (boot acc x)).map some) := by
  have ex : x.map some = words (fun i => x[i]?) (0 * sizeIn) (1 * sizeIn) := by
    apply List.ext_getElem?
    intro i
    rw [words_getElem?, List.getElem?_map, Nat.one_mul, Nat.zero_mul, Nat.zero_add]
    split
    · next h => rw [List.getElem?_eq_getElem (by omega)]; rfl
    · next h => rw [List.getElem?_eq_none (by omega)]; rfl
  have hc : copyToGpu (malloc 1) [0] = .ok [some 0] := by decide
  rw [executeSingle, hc, Out.bind_ok, ex, hostPbs_ok σ hσ boot w sizeIn sizeLut sizeOut 1 0 0 1 (fun _ => 0) junk _ acc x
    (o.map some) ho (by omega) (by omega) (by rw [List.length_map]; omega) ?_
    (fun z _ => by rw [Nat.zero_mul]; exact Nat.two_pow_pos w) (fun z _ => by omega)]
  · congr 1
    apply List.ext_getElem?
    intro j
    rw [words_getElem?, List.map_map, List.getElem?_map, Nat.one_mul, Nat.zero_mul, Nat.zero_add]
    split
    · next h =>
      rw [List.getElem?_range h, pbsWord, Nat.div_eq_of_lt h, Nat.mod_eq_of_lt h, block, block, Nat.zero_mul,
        Nat.zero_mul, List.drop_zero, List.drop_zero, List.take_of_length_le (by omega),
        List.take_of_length_le (by omega)]
      rfl
    · next h => rw [List.getElem?_eq_none (by rw [List.length_range]; omega)]; rfl
  · intro z hz
    have hz : z = 0 := by omega
    subst hz
    rfl

/-- C77, amortized, proved part: if the memory happens to hold the numbers `0, 1, …` that the code meant to write,
ciphertext `i` is bootstrapped with table `i`, on any number of GPUs. Missing: any other content of the memory
(`C77_tables_violated`). -/
theorem C77_amortized_partial (σ : Nat → Order) (hσ : ∀ g, (σ g).Complete) (boot : List α → List α → Nat → α)
    (w sizeIn sizeLut sizeOut A n : Nat) (junk : Nat → Nat → Nat) (accs xs os : List α)
    (vl vx vo : List (DVec α)) (hA : 0 < A) (hn : 0 < n) (hi : 0 < sizeIn) (hlut : 0 < sizeLut) (ho : 0 < sizeOut)
    (hw : n * sizeLut ≤ 2 ^ w) (fl : n * sizeLut < 2 ^ 32) (fx : n * sizeIn < 2 ^ 32) (fo : n * sizeOut < 2 ^ 32)
    (la : accs.length = n * sizeLut) (lx : xs.length = n * sizeIn) (lo : os.length = n * sizeOut)
    (hl : broadcast A accs = .ok vl) (hx : OnGpus A sizeIn xs vx) (ho' : OnGpus A sizeOut os vo)
    (hj : ∀ g p, g < min n A → p < n → junk g p = p) :
    ∃ vr r, executeAmortized σ boot w sizeIn sizeLut sizeOut A n junk vl vx vo = .ok vr ∧
      OnGpus A sizeOut r vr ∧ Bootstrapped boot sizeIn sizeLut sizeOut n id accs xs r :=
  C77_amortized_tables σ hσ boot w sizeIn sizeLut sizeOut A n id junk accs xs os vl vx vo hA hn hi hlut ho hw fl fx fo
    la lx lo hl hx ho' hj fun _ h => h

/-- C77, low latency, proved part: on one GPU, if the memory happens to hold the numbers `0, 1, …`. Missing: any other
content, and more GPUs (`C77_low_latency_filled_violated`). -/
theorem C77_low_latency_partial (σ : Nat → Order) (hσ : ∀ g, (σ g).Complete) (boot : List α → List α → Nat → α)
    (w sizeIn sizeLut sizeOut n : Nat) (junk : Nat → Nat → Nat) (accs xs os : List α)
    (vl vx vo : List (DVec α)) (hn : 0 < n) (hi : 0 < sizeIn) (hlut : 0 < sizeLut) (ho : 0 < sizeOut)
    (hw : n * sizeLut ≤ 2 ^ w) (fl : n * sizeLut < 2 ^ 32) (fx : n * sizeIn < 2 ^ 32) (fo : n * sizeOut < 2 ^ 32)
    (la : accs.length = n * sizeLut) (lx : xs.length = n * sizeIn) (lo : os.length = n * sizeOut)
    (hl : broadcast 1 accs = .ok vl) (hx : OnGpus 1 sizeIn xs vx) (ho' : OnGpus 1 sizeOut os vo)
    (hj : ∀ p, p < n → junk 0 p = p) :
    ∃ vr r, executeLow σ boot w sizeIn sizeLut sizeOut 1 n junk vl vx vo = .ok vr ∧
      OnGpus 1 sizeOut r vr ∧ Bootstrapped boot sizeIn sizeLut sizeOut n id accs xs r := by
  have h1 : min n 1 = 1 := by omega
  refine C77_low_latency_tables σ hσ boot w sizeIn sizeLut sizeOut 1 n id junk accs xs os vl vx vo (by omega) hn hi hlut
    ho hw fl fx fo la lx lo hl hx ho' (fun g z hg hz => ?_) fun _ h => h
  rw [h1] at hg hz
  have hg : g = 0 := by omega
  subst hg
  simp only [Nat.div_one, Nat.mod_one, Nat.add_zero, ite_self] at hz
  rw [Nat.zero_mul, Nat.zero_add]
  exact hj z hz

/-- C77 is violated by both bootstraps of vectors: for two ciphertexts or more, with some contents of the memory the
first ciphertext is bootstrapped with the second table (and all the others too). -/
theorem C77_tables_violated (σ : Nat → Order) (hσ : ∀ g, (σ g).Complete) (boot : List α → List α → Nat → α)
    (w sizeIn sizeLut sizeOut A n : Nat) (accs xs os : List α)
    (vl vx vo : List (DVec α)) (hA : 0 < A) (hn : 2 ≤ n) (hi : 0 < sizeIn) (hlut : 0 < sizeLut) (ho : 0 < sizeOut)
    (hw : n * sizeLut ≤ 2 ^ w) (fl : n * sizeLut < 2 ^ 32) (fx : n * sizeIn < 2 ^ 32) (fo : n * sizeOut < 2 ^ 32)
    (la : accs.length = n * sizeLut) (lx : xs.length = n * sizeIn) (lo : os.length = n * sizeOut)
    (hl : broadcast A accs = .ok vl) (hx : OnGpus A sizeIn xs vx) (ho' : OnGpus A sizeOut os vo) :
    ∃ junk : Nat → Nat → Nat,
      (∃ vr r, executeAmortized σ boot w sizeIn sizeLut sizeOut A n junk vl vx vo = .ok vr ∧ OnGpus A sizeOut r vr ∧
        Bootstrapped boot sizeIn sizeLut sizeOut n (fun _ => 1) accs xs r) ∧
      (∃ vr r, executeLow σ boot w sizeIn sizeLut sizeOut A n junk vl vx vo = .ok vr ∧ OnGpus A sizeOut r vr ∧
        Bootstrapped boot sizeIn sizeLut sizeOut n (fun _ => 1) accs xs r) :=
  ⟨fun _ _ => 1,
    C77_amortized_tables σ hσ boot w sizeIn sizeLut sizeOut A n _ _ accs xs os vl vx vo hA (by omega) hi hlut ho hw fl
      fx fo la lx lo hl hx ho' (fun _ _ _ _ => rfl) (fun _ _ => by omega),
    C77_low_latency_tables σ hσ boot w sizeIn sizeLut sizeOut A n _ _ accs xs os vl vx vo hA (by omega) hi hlut ho hw fl
      fx fo la lx lo hl hx ho' (fun _ _ _ _ => rfl) (fun _ _ => by omega)⟩

/-- C77, the memory may hold any number: with the number `n`, which is no table, both bootstraps of vectors read memory
outside of the lookup tables. -/
theorem C77_overrun_violated (σ : Nat → Order) (hσ : ∀ g, (σ g).Complete) (boot : List α → List α → Nat → α)
    (w sizeIn sizeLut sizeOut A n : Nat) (accs xs os : List α)
    (vl vx vo : List (DVec α)) (hA : 0 < A) (hn : 0 < n) (hi : 0 < sizeIn) (hlut : 0 < sizeLut) (ho : 0 < sizeOut)
    (hw : n * sizeLut < 2 ^ w) (fl : n * sizeLut < 2 ^ 32) (fx : n * sizeIn < 2 ^ 32) (fo : n * sizeOut < 2 ^ 32)
    (la : accs.length = n * sizeLut) (lx : xs.length = n * sizeIn) (lo : os.length = n * sizeOut)
    (hl : broadcast A accs = .ok vl) (hx : OnGpus A sizeIn xs vx) (ho' : OnGpus A sizeOut os vo) :
    executeAmortized σ boot w sizeIn sizeLut sizeOut A n (fun _ _ => n) vl vx vo = .overrun ∧
    executeLow σ boot w sizeIn sizeLut sizeOut A n (fun _ _ => n) vl vx vo = .overrun := by
  have h32 : n < 2 ^ 32 := lt_of_le_of_lt (Nat.le_mul_of_pos_right n hi) fx
  obtain ⟨hr, rfl⟩ := onGpus_shares_min hA hi hn fx lx hx
  obtain ⟨_, rfl⟩ := onGpus_shares_min hA ho hn fo lo ho'
  rw [broadcast_ok A accs (by rw [la]; exact fl)] at hl
  obtain rfl := Out.ok.inj hl
  have first : ∀ (len base : Nat → Nat), (∀ m, m ≤ n → len m < 2 ^ 32) →
      base 0 + (n / min n A + if 0 = min n A - 1 then n % min n A else 0) ≤
        len (n / min n A + if 0 = min n A - 1 then n % min n A else 0) →
      forGpus (min n A) n (fun g samples out =>
        (copyToGpu (malloc (len samples)) (lutIndexes (len samples))).bind fun idx =>
          (getVec (List.replicate A (accs.map some)) g).bind fun lut =>
            (getVec (shares (min n A) sizeIn n fun i => xs[i]?) g).bind fun input =>
              hostPbs (σ g) boot w sizeIn sizeLut sizeOut samples (base g) (fun _ => n) idx lut input out) 0
        (shares (min n A) sizeOut n fun i => os[i]?) = .overrun := by
    intro len base hlen hb
    set B := min n A with hB
    have hB0 : 0 < B := by omega
    have hsh := share_le B n 0 hB0
    cases hs : (shares B sizeOut n fun i => os[i]?) with
    | nil =>
      have := congrArg List.length hs
      rw [shares_length, List.length_nil] at this
      omega
    | cons out outs =>
      rw [forGpus, if_pos (by rw [activeGpus_eq]; omega), samplesOnGpu, if_neg (by omega), Out.bind_ok]
      have hpos : 0 < n / B := by omega
      set m := n / B + if 0 = B - 1 then n % B else 0 with hm
      have hm0 : 0 < m := by omega
      rw [indexes_unwritten _ _ (hlen m (by omega)), Out.bind_ok, getVec, List.getElem?_replicate, if_pos (by omega)]
      simp only [Out.bind_ok]
      rw [getVec_shares B sizeIn n _ 0 hB0, Out.bind_ok, hostPbs_overrun (σ 0) (hσ 0) _ _ _ _ _ _ _ _ _ _ _ _
        (Nat.mul_pos hm0 ho) fun z hz => ⟨n, lutIndex_unwritten _ _ _ (by omega), by
          rw [Nat.mod_eq_of_lt hw, List.length_map, la]; omega⟩]
      rfl
  have hB : 0 < min n A := by omega
  constructor
  · rw [executeAmortized, activeGpus_eq]
    rw [samplesOnGpu, if_neg (by omega), Out.bind_ok]
    refine first (fun _ => n) (fun g => (n / min n A + if 0 = min n A - 1 then n % min n A else 0) * g)
      (fun _ _ => h32) ?_
    have := share_le (min n A) n 0 hB
    omega
  · rw [executeLow, activeGpus_eq]
    exact first id (fun _ => 0) (fun m hm => by simp only [id]; omega) (by simp)

/-- C77, low latency, would be violated even if the indexes were written as meant (`0, 1, …` on every GPU): on several
GPUs, the first ciphertext of GPU 1, which is ciphertext `n / A`, is bootstrapped with table 0. -/
theorem C77_low_latency_filled_violated (σ : Nat → Order) (hσ : ∀ g, (σ g).Complete) (boot : List α → List α → Nat → α)
    (w sizeIn sizeLut sizeOut A n : Nat) (accs xs os : List α)
    (vl vx vo : List (DVec α)) (hA : 2 ≤ A) (hn : A ≤ n) (hi : 0 < sizeIn) (hlut : 0 < sizeLut) (ho : 0 < sizeOut)
    (hw : n * sizeLut ≤ 2 ^ w) (fl : n * sizeLut < 2 ^ 32) (fx : n * sizeIn < 2 ^ 32) (fo : n * sizeOut < 2 ^ 32)
    (la : accs.length = n * sizeLut) (lx : xs.length = n * sizeIn) (lo : os.length = n * sizeOut)
    (hl : broadcast A accs = .ok vl) (hx : OnGpus A sizeIn xs vx) (ho' : OnGpus A sizeOut os vo) :
    ∃ vr r, executeLow σ boot w sizeIn sizeLut sizeOut A n (fun _ p => p) vl vx vo = .ok vr ∧ OnGpus A sizeOut r vr ∧
      block sizeOut r (n / A) = (List.range sizeOut).map (boot (block sizeLut accs 0) (block sizeIn xs (n / A))) := by
  have hm : min n A = A := by omega
  have hr := (onGpus_shares_min (by omega) hi (by omega) fx lx hx).1
  rw [hm] at hr
  have hq : 0 < n / A := by omega
  have hj : ∀ g z, g < min n A → z < n / min n A + (if g = min n A - 1 then n % min n A else 0) →
      z = (fun i => i - min (i / (n / A)) (A - 1) * (n / A)) (g * (n / min n A) + z) := by
    intro g z hg hz
    rw [hm] at hg hz ⊢
    have hd : (g * (n / A) + z) / (n / A) = g + z / (n / A) := by
      rw [Nat.add_comm, Nat.add_mul_div_right _ _ hq, Nat.add_comm]
    have hg' : min ((g * (n / A) + z) / (n / A)) (A - 1) = g := by
      rw [hd]
      by_cases h : g = A - 1
      · rw [← h]; exact Nat.min_eq_right (Nat.le_add_right _ _)
      · rw [if_neg h, Nat.add_zero] at hz
        rw [Nat.div_eq_of_lt hz]; omega
    simp only [hg']
    omega
  obtain ⟨vr, r, e, h1, h2⟩ := C77_low_latency_tables σ hσ boot w sizeIn sizeLut sizeOut A n
    (fun i => i - min (i / (n / A)) (A - 1) * (n / A)) (fun _ p => p) accs xs os vl vx vo (by omega) (by omega) hi hlut
    ho hw fl fx fo la lx lo hl hx ho' hj (fun i h => lt_of_le_of_lt (Nat.sub_le _ _) h)
  refine ⟨vr, r, e, h1, ?_⟩
  have hlt : n / A < n := Nat.div_lt_self (by omega) (by omega)
  rw [h2.2 _ hlt]
  simp only [Nat.div_self hq]
  rw [show min 1 (A - 1) = 1 from by omega, Nat.one_mul, Nat.sub_self]

/-- A toy bootstrap for the examples: the first word of the table times 10, plus the first word of the input. -/
def toyBoot (table ct : List Nat) (_ : Nat) : Nat := table.headD 0 * 10 + ct.headD 0

/-- The hypotheses are met, with 4 ciphertexts on 2 GPUs; the tables are 0, 1, 2, 3 and the inputs 5, 6, 7, 8. If the
indexes were written as meant, the amortized bootstrap would give 5, 16, 27, 38, the low latency one 5, 16, 7, 18. -/
example : OnGpus 2 2 [5, 0, 6, 0, 7, 0, 8, 0] [[some 5, some 0, some 6, some 0], [some 7, some 0, some 8, some 0]] ∧
    broadcast 2 [0, 1, 2, 3] = .ok [[some 0, some 1, some 2, some 3], [some 0, some 1, some 2, some 3]] ∧
    OnGpus 2 1 [0, 0, 0, 0] [[some 0, some 0], [some 0, some 0]] ∧
    (let run := fun (execute : (Nat → Order) → (List Nat → List Nat → Nat → Nat) → Nat → Nat → Nat → Nat → Nat → Nat →
        (Nat → Nat → Nat) → List (DVec Nat) → List (DVec Nat) → List (DVec Nat) → Out (List (DVec Nat))) junk =>
      execute (fun _ => List.range) toyBoot 32 2 1 1 2 4 junk
        [[some 0, some 1, some 2, some 3], [some 0, some 1, some 2, some 3]]
        [[some 5, some 0, some 6, some 0], [some 7, some 0, some 8, some 0]] [[some 0, some 0], [some 0, some 0]]
    run executeAmortized (fun _ p => p) = .ok [[some 5, some 16], [some 27, some 38]] ∧
    run executeLow (fun _ p => p) = .ok [[some 5, some 16], [some 7, some 18]] ∧
    run executeLow (fun _ _ => 3) = .ok [[some 35, some 36], [some 37, some 38]] ∧
    run executeAmortized (fun _ _ => 4) = .overrun) := by
  refine ⟨?_, ?_, ?_, ?_, ?_, ?_, ?_⟩ <;> first | (unfold OnGpus; decide +kernel) | decide +kernel

end Verif.Cuda
