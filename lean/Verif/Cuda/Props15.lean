import Verif.Cuda.CbsLemmas
import Verif.Cuda.Props
import Verif.Cuda.Props10
import Verif.Cuda.Props14
/-
C86: the circuit bootstrap of CUDA, alone and followed by the vertical packing.
-/
namespace Verif.Cuda.Cbs
open Verif Verif.Poly Verif.Glwe Verif.Pbs Verif.Decomp Verif.Pks Verif.Wop

variable {w : Nat}

theorem mapM_range {α : Type} (f : Nat → Option α) (g : Nat → α) (l : List Nat) (h : ∀ z ∈ l, f z = some (g z)) :
    l.mapM f = some (l.map g) := by
  induction l with
  | nil => rfl
  | cons z l ih =>
    rw [List.mapM_cons, h z (by simp), ih (fun y hy => h y (by simp [hy]))]; rfl

theorem part_ofList (l : List (BitVec w)) (len i : Nat) (h : (i + 1) * len ≤ l.length) :
    part (ofList l) len i = block len l i := by
  apply List.ext_getElem?
  intro j
  by_cases hj : j < len
  · rw [part_getElem? _ _ _ _ hj, block_getElem? _ _ _ _ hj, ofList, List.getD_eq_getElem?_getD]
    rw [Nat.succ_mul] at h
    rw [List.getElem?_eq_getElem (by omega)]; rfl
  · rw [List.getElem?_eq_none (by rw [part_length]; omega), List.getElem?_eq_none (by rw [block_length _ _ _ h]; omega)]

theorem block_part {α : Type} (mem : Nat → α) (len n i : Nat) (hi : i < n) :
    block len (part mem (n * len) 0) i = part mem len i := by
  have h : (i + 1) * len ≤ n * len := Nat.mul_le_mul_right _ hi
  apply List.ext_getElem?
  intro j
  by_cases hj : j < len
  · rw [block_getElem? _ _ _ _ hj, part_getElem? _ _ _ _ hj, part_getElem? _ _ _ _ (by rw [Nat.succ_mul] at h; omega)]
    congr 2; omega
  · rw [List.getElem?_eq_none (by rw [block_length _ _ _ (by rw [part_length]; exact h)]; omega),
      List.getElem?_eq_none (by rw [part_length]; omega)]

/-- The private keyswitch of a row: from an encryption of `β 2^(w - bc j)` to that of its product with the factor of
the row. -/
theorem row_spec (N k bk lk : Nat) (hN : 0 < N) (hbk : ValidParams w bk lk) (s key ksks lwe : List (BitVec w))
    (hs : Lwe.BinaryKey s) (hk : KeyFits N k key) (P A Bk : Int) (hA : 1 ≤ A) (hS : KeyBound A key)
    (hksks : CbsKeys N k bk lk s key ksks Bk) (β x : Nat) (hβ : β = 0 ∨ β = 1) (f : Int) (hf : |f| ≤ P)
    (hfit : Lwe.Fits s lwe)
    (hp : Lwe.phase s lwe = (((if β = 1 then 2 ^ x else 0) + f : Int) : BitVec w)) (i : Nat) (hi : i < k + 1)
    (o : List (BitVec w)) (ho : CtFits N k o) :
    ∃ r, privateKeyswitchOne bk lk N k (block ((s.length + 1) * (lk * ((k + 1) * N))) ksks i) o lwe = some r ∧ CtFits N k r ∧
      ∃ e' : Rq (BitVec w) N, Small N (cbsBound w s.length bk lk P A Bk) e' ∧ glwePhase N k key r =
        (if β = 1 then 1 else 0) * 2 ^ x * rowFactor N k key i + e' := by
  obtain ⟨err, e1, e2⟩ := hksks.2 i (by omega)
  obtain ⟨Pl, -, hPl⟩ := exists_toRq hN (rowFactor N k key i)
  have hrf := small_rowFactor hN hk hA hS i
  have hone : const N (1 : BitVec w) = 1 := map_one _
  obtain ⟨e', s1, s2⟩ := C33_error_bound hN bk lk hbk s key _ Pl lwe 1 err A Bk (by
    refine ⟨e2.1, fun i' hi' j hj => ?_⟩
    rw [e2.2 i' hi' j hj, hPl]
    beta_reduce
    rw [one_mul]) e1 (by rw [hPl, hone, one_mul]; exact hrf) hs hfit
  obtain ⟨r, r1, r2, r3⟩ := s2 o ho
  refine ⟨r, r1, r2, (f : Rq (BitVec w) N) * rowFactor N k key i + e', ?_, ?_⟩
  · refine Small.add ((small_int_mul f hrf).mono ?_) s1
    exact mul_le_mul_of_nonneg_right hf (by omega)
  · rw [r3, hPl, hone, one_mul, hp]
    have hcast : ∀ z : Int, const N ((z : Int) : BitVec w) = (z : Rq (BitVec w) N) := fun z => map_intCast _ z
    rw [hcast]
    rcases hβ with h | h
    · rw [h, if_neg (by decide), if_neg (by decide)]; push_cast; ring
    · rw [h, if_pos (by decide), if_pos (by decide)]; push_cast; ring

/-- C86 for every bootstrap that computes signs. -/
theorem circuitBootstrap_spec (σ : Sched (BitVec w)) (hσ : σ.Fair) (τ : Order) (hτ : τ.Complete)
    (pbs : List (BitVec w) → List (BitVec w) → List (BitVec w) → Option (List (BitVec w)))
    (N k opt bk lk bc lc delta inputs : Nat) (hN : 0 < N) (hk0 : 0 < k) (hopt : opt ∣ N) (hw2 : 2 ≤ w)
    (hd : delta < w) (hlc : 0 < lc) (hfit : bc * lc < w) (hbk : ValidParams w bk lk) (hdiv : 256 ∣ (k + 1) * N)
    (hsm : inputs * lc * (k + 1) ≤ 65535)
    (lweKey s key ksks : List (BitVec w)) (hsl : s.length = k * N) (Q P A Bk : Int)
    (hpbs : SignPbs (fun o c a => pbs a c o) N k lweKey s Q P) (hs : Lwe.BinaryKey s) (hk : KeyFits N k key) (hA : 1 ≤ A)
    (hS : KeyBound A key) (hksks : CbsKeys N k bk lk s key ksks Bk) (indexes : Nat → Nat)
    (hidx : ∀ z, z < inputs * lc → indexes z = z % lc) (mem : Nat → Nat → BitVec w) (lweIn : Nat → BitVec w)
    (ggswOut : DVec (BitVec w)) (ho : ggswOut.length = inputs * (lc * ((k + 1) * ((k + 1) * N))))
    (m : Nat → Nat) (e : Nat → Int)
    (hp : ∀ i, i < inputs → Lwe.phase lweKey (part lweIn (lweKey.length + 1) i) = ((m i * 2 ^ delta + e i : Int) : BitVec w))
    (hQ : ∀ i, i < inputs → |e i| * 2 ^ (w - delta - 1) + Q < 2 ^ (w - 2)) :
    ∃ res : List (BitVec w), circuitBootstrap σ τ pbs N k lweKey.length opt bk lk bc lc delta inputs indexes mem lweIn ksks
        ggswOut = some (.ok (res.map some)) ∧ res.length = inputs * (lc * ((k + 1) * ((k + 1) * N))) ∧
      ∀ i, i < inputs → ∃ err : Nat → Nat → Rq (BitVec w) N,
        (∀ j r, j < lc → r ≤ k → Small N (cbsBound w s.length bk lk P A Bk) (err j r)) ∧
        GgswEnc N k bc lc key (block (lc * ((k + 1) * ((k + 1) * N))) res i) (if m i % 2 = 1 then 1 else 0) err := by
  rw [circuitBootstrap, if_neg (by omega)]
  simp only
  generalize hsh : store (σ (shiftWrites lc inputs (lweKey.length + 1) (1#w <<< (w - delta - 1)) lweIn)) (mem 1) = sh
  have hshift : ∀ z, z < inputs * lc → _ := fun z hz =>
    shifted_part σ hσ lc inputs lweKey.length (1#w <<< (w - delta - 1)) (1#w <<< (w - 2)) lweIn (mem 1) z hz
  rw [hsh] at hshift
  have hlut : ∀ x, x < lc → _ := fun x hx => lut_part σ hσ N k opt bc lc hopt (mem 2) x hx
  -- the bootstraps
  have hboot : ∀ z, ∃ p : List (BitVec w), z < inputs * lc →
      pbs (part (store (σ (lutWrites w N k opt bc lc)) fun i => if i < lc * (k + 1) * N then 0#w else mem 2 i) ((k + 1) * N)
        (indexes z)) (part (store (σ (bodyWrites (inputs * lc) lweKey.length (1#w <<< (w - 2)) sh)) sh)
          (lweKey.length + 1) z) (part (mem 0) (k * N + 1) z) = some p ∧ p.length = k * N + 1 ∧
      Lwe.Fits s (addBody p (1#w <<< (w - 1 - bc * (z % lc + 1)))) ∧
      ∃ f : Int, |f| ≤ P ∧ Lwe.phase s (addBody p (1#w <<< (w - 1 - bc * (z % lc + 1)))) =
        (((if m (z / lc) % 2 = 1 then 2 ^ (w - bc * (z % lc + 1)) else 0) + f : Int) : BitVec w) := by
    intro z
    by_cases hz : z < inputs * lc
    swap
    · exact ⟨[], fun h => absurd h hz⟩
    have hzi : z / lc < inputs := Nat.div_lt_of_lt_mul (by rw [Nat.mul_comm]; exact hz)
    have hzl : z % lc < lc := Nat.mod_lt _ hlc
    have hbl : bc * (z % lc + 1) + 1 ≤ w := by
      have : bc * (z % lc + 1) ≤ bc * lc := Nat.mul_le_mul_left _ hzl
      omega
    obtain ⟨r, r1, r2, f, f1, f2⟩ := homomorphicShift_spec (fun o c a => pbs a c o) N k (z % lc + 1) bc delta lweKey s Q P hpbs
      hw2 (by omega) hbl (part (mem 0) (k * N + 1) z) (part lweIn (lweKey.length + 1) (z / lc)) (part_length _ _ _)
      (part_length _ _ _) (m (z / lc)) (e (z / lc)) (hp _ hzi) (hQ _ hzi)
    rw [homomorphicShift, if_neg (by omega)] at r1
    have hsmul : Lwe.fillWithScalarMul (List.replicate (part lweIn (lweKey.length + 1) (z / lc)).length 0#w)
        (part lweIn (lweKey.length + 1) (z / lc)) (1#w <<< (w - delta - 1)) =
        (part lweIn (lweKey.length + 1) (z / lc)).map fun x => x * (1#w <<< (w - delta - 1)) := by
      rw [Lwe.fillWithScalarMul, zipUpdate_eq_zipWith _ _ _ (by simp)]
      apply List.ext_getElem (by simp)
      intro i h1 h2
      simp
    simp only [hsmul, Option.map_eq_some_iff] at r1
    obtain ⟨p, p1, p2⟩ := r1
    refine ⟨p, fun _ => ⟨?_, ?_, by rw [p2]; exact r2, f, f1, by rw [p2]; exact f2⟩⟩
    · rw [hidx z hz, hlut _ hzl, hshift z hz]
      exact p1
    · have h1 : r.length = s.length + 1 := r2
      rw [← p2, addBody, List.length_modify] at h1
      omega
  choose p hboot using hboot
  have hall := mapM_range _ p (List.range (inputs * lc)) (fun z hz => (hboot z (List.mem_range.1 hz)).1)
  rw [bootstrapAll, hall, Option.map_some]
  have hpl : ∀ x ∈ (List.range (inputs * lc)).map p, x.length = k * N + 1 := by
    intro x hx
    obtain ⟨z, hz, rfl⟩ := List.mem_map.1 hx
    exact (hboot z (List.mem_range.1 hz)).2.1
  have hfl : ((List.range (inputs * lc)).map p).flatten.length = inputs * lc * (k * N + 1) := by
    rw [flatten_length_uniform _ _ hpl, List.length_map, List.length_range]
  set xs := part (store (σ (copyWrites N k opt bc lc (inputs * lc) (ofList ((List.range (inputs * lc)).map p).flatten))) (mem 3))
    (inputs * lc * (k + 1) * (k * N + 1)) 0 with hxs
  have hrow : ∀ d, d < inputs * lc * (k + 1) → block (k * N + 1) xs d =
      addBody (p (d / (k + 1))) (1#w <<< (w - 1 - bc * (d / (k + 1) % lc + 1))) := by
    intro d hd
    have hdz : d / (k + 1) < inputs * lc := Nat.div_lt_of_lt_mul (by rw [Nat.mul_comm]; exact hd)
    rw [hxs, block_part _ _ _ _ hd, copy_part σ hσ N k opt bc lc _ hopt hN hk0 _ _ d hd,
      part_ofList _ _ _ (by rw [hfl]; exact Nat.mul_le_mul_right _ hdz),
      block_flatten _ (by omega) _ hpl _ (p (d / (k + 1))) (by simp [hdz])]
  have hkN : 0 < (k + 1) * N := Nat.mul_pos (by omega) hN
  obtain ⟨r, r1, r2, r3⟩ := C72_launch τ hτ bk lk (k * N) k N (inputs * lc * (k + 1)) (k + 1) hbk ksks xs ggswOut hN (by omega)
    (by rw [hksks.1, hsl]) (by rw [hxs, part_length]) hsm (by rw [ho]; ring) hdiv
  refine ⟨r, by rw [r1], by rw [r2]; ring, fun i hi => ?_⟩
  have hd : ∀ j q, j < lc → q ≤ k → (i * lc + j) * (k + 1) + q < inputs * lc * (k + 1) := by
    intro j q hj hq
    have h1 : (i + 1) * lc ≤ inputs * lc := Nat.mul_le_mul_right _ hi
    rw [Nat.succ_mul] at h1
    have h2 : (i * lc + j + 1) * (k + 1) ≤ inputs * lc * (k + 1) := Nat.mul_le_mul_right _ (by omega)
    rw [Nat.succ_mul] at h2
    omega
  have hex : ∀ j q, ∃ e' : Rq (BitVec w) N, j < lc → q ≤ k → Small N (cbsBound w s.length bk lk P A Bk) e' ∧
      glwePhase N k key (ggswRow N k (block (lc * ((k + 1) * ((k + 1) * N))) r i) j q) =
        (if m i % 2 = 1 then 1 else 0) * 2 ^ (w - bc * (j + 1)) * rowFactor N k key q + e' := by
    intro j q
    by_cases hjq : j < lc ∧ q ≤ k
    swap
    · exact ⟨0, fun h1 h2 => absurd ⟨h1, h2⟩ hjq⟩
    obtain ⟨hj, hq⟩ := hjq
    have hdj := hd j q hj hq
    have hz : i * lc + j < inputs * lc := by
      have h1 : (i + 1) * lc ≤ inputs * lc := Nat.mul_le_mul_right _ hi
      rw [Nat.succ_mul] at h1
      omega
    obtain ⟨-, -, b1, f, f1, f2⟩ := hboot (i * lc + j) hz
    rw [div_of hj, mod_of hj] at f2
    rw [mod_of hj] at b1
    obtain ⟨x, x1, x2, e', x3, x4⟩ := row_spec N k bk lk hN hbk s key ksks _ hs hk P A Bk hA hS hksks (m i % 2)
      (w - bc * (j + 1)) (Nat.mod_two_eq_zero_or_one _) f f1 b1 f2 q (by omega) (List.replicate ((k + 1) * N) 0)
      (by simp [CtFits])
    have h3 := r3 _ hdj (List.replicate ((k + 1) * N) 0) (by simp)
    rw [hrow _ hdj, div_of (show q < k + 1 by omega), mod_of (show q < k + 1 by omega), mod_of hj, ← hsl, x1] at h3
    refine ⟨e', fun _ _ => ⟨x3, ?_⟩⟩
    rw [ggswRow, block_block _ _ _ _ _ hj, block_block _ _ _ _ _ (by omega), ← Option.some.inj h3]
    exact x4
  choose err herr using hex
  exact ⟨err, fun j q hj hq => (herr j q hj hq).1, block_len _ inputs i r (by rw [r2]; ring) hi,
    fun j hj q hq => (herr j q hj hq).2⟩

/-- The amortized bootstrap of 64-bit words (C80) computes signs. -/
theorem signPbs_64 (T : Transform 64) (N k b l logN : Nat) (hNN : N = 2 ^ logN) (hlog : logN + 1 < 32) (hb : b ≤ 31)
    (D B S E : Int) (hT : T.Accurate N (l * (k + 1)) D B) (hD : 2 ^ (b - 1) ≤ D) (h : ValidParams 64 b l)
    (hS0 : 0 ≤ S) (lweKey s bsk : List (BitVec 64)) (hk : KeyFits N k s) (hS : KeyBound S s)
    (hs : Lwe.BinaryKey lweKey) (hbsk : BskEnc N k b l lweKey s bsk E) :
    SignPbs (fun o c a => Am.bootstrap T N k b l (convert T N bsk) a c o) N k lweKey s
      ((1 + weight lweKey) * (2 ^ (62 - logN) + 2 ^ 10)) (lweKey.length * epBound 64 N k b l S E B 1) := by
  intro out c α β e ho hc hp he
  have hN0 : 0 < N := by rw [hNN]; positivity
  obtain ⟨t1, t2⟩ := C31_trivial_accumulator N k hN0 s (List.replicate N (0#64 - α)) (by simp)
  obtain ⟨r, r1, r2, r3⟩ := Am.C80_lookup_64_partial T N k b l logN hNN hlog hb D B S E hT hD h hS0 lweKey s bsk
    (signAccumulator N k α) (List.replicate N (0#64 - α)) c out hk hS hs hbsk t1 (by simp) t2 hc ho
    (if β then α else -α) (fun d hd hcl => sign_position hNN (by omega) _ α β e _ hp he d hd (by
      rw [show 64 - logN - 1 = 63 - logN by omega]; exact hcl))
  refine ⟨r, r1, r2, _, r3, ?_⟩
  rw [BV.intCast_toInt]; ring

/-- The amortized bootstrap of 32-bit words (C80) computes signs. -/
theorem signPbs_32 (T : Transform 32) (N k b l logN : Nat) (hNN : N = 2 ^ logN) (hlog : logN + 2 < 32)
    (D B S E : Int) (hT : T.Accurate N (l * (k + 1)) D B) (hD : 2 ^ (b - 1) ≤ D) (h : ValidParams 32 b l)
    (hS0 : 0 ≤ S) (lweKey s bsk : List (BitVec 32)) (hk : KeyFits N k s) (hS : KeyBound S s)
    (hs : Lwe.BinaryKey lweKey) (hbsk : BskEnc N k b l lweKey s bsk E) :
    SignPbs (fun o c a => Am.bootstrap T N k b l (convert T N bsk) a c o) N k lweKey s
      ((1 + weight lweKey) * 2 ^ (30 - logN)) (lweKey.length * epBound 32 N k b l S E B 1) := by
  intro out c α β e ho hc hp he
  have hN0 : 0 < N := by rw [hNN]; positivity
  obtain ⟨t1, t2⟩ := C31_trivial_accumulator N k hN0 s (List.replicate N (0#32 - α)) (by simp)
  obtain ⟨r, r1, r2, r3⟩ := Am.C80_lookup_32 T N k b l logN hNN hlog D B S E hT hD h hS0 lweKey s bsk
    (signAccumulator N k α) (List.replicate N (0#32 - α)) c out hk hS hs hbsk t1 (by simp) t2 hc ho
    (if β then α else -α) (fun d hd hcl => sign_position hNN hlog _ α β e _ hp he d hd (by
      rw [show 32 - logN - 1 = 31 - logN by omega]; exact hcl))
  refine ⟨r, r1, r2, _, r3, ?_⟩
  rw [BV.intCast_toInt]; ring

/-- C86, 64-bit words: input `i` is an encryption of `m i` at position `delta`. If its error is below the bound of the
sign, then for every order of the threads, GGSW `i` of the output is an encryption of the lowest bit of `m i` under
the key of the packing keyswitch, with the error of the bootstrap amplified by one private keyswitch. The previous
contents of the buffers do not matter. Missing: `b > 31`, `(k + 1) N` not a multiple of 256, more than 65535 rows. -/
theorem C86_circuit_bootstrap_64_partial (σ : Sched (BitVec 64)) (hσ : σ.Fair) (τ : Order) (hτ : τ.Complete)
    (T : Transform 64) (N k b l logN : Nat) (hNN : N = 2 ^ logN) (hlog : logN + 1 < 32) (hb : b ≤ 31) (hk0 : 0 < k)
    (D B S E : Int) (hT : T.Accurate N (l * (k + 1)) D B) (hD : 2 ^ (b - 1) ≤ D) (h : ValidParams 64 b l) (hS0 : 0 ≤ S)
    (opt bk lk bc lc delta inputs : Nat) (hopt : opt ∣ N) (hd : delta < 64) (hlc : 0 < lc) (hfit : bc * lc < 64)
    (hbk : ValidParams 64 bk lk) (hdiv : 256 ∣ (k + 1) * N) (hsm : inputs * lc * (k + 1) ≤ 65535)
    (lweKey s key bsk ksks : List (BitVec 64)) (hs' : Lwe.BinaryKey lweKey) (hsk : KeyFits N k s) (hSs : KeyBound S s)
    (hbsk : BskEnc N k b l lweKey s bsk E) (hs : Lwe.BinaryKey s) (hk : KeyFits N k key) (A Bk : Int) (hA : 1 ≤ A)
    (hS : KeyBound A key) (hksks : CbsKeys N k bk lk s key ksks Bk) (indexes : Nat → Nat)
    (hidx : ∀ z, z < inputs * lc → indexes z = z % lc) (mem : Nat → Nat → BitVec 64) (lweIn : Nat → BitVec 64)
    (ggswOut : DVec (BitVec 64)) (ho : ggswOut.length = inputs * (lc * ((k + 1) * ((k + 1) * N))))
    (m : Nat → Nat) (e : Nat → Int)
    (hp : ∀ i, i < inputs → Lwe.phase lweKey (part lweIn (lweKey.length + 1) i) = ((m i * 2 ^ delta + e i : Int) : BitVec 64))
    (hQ : ∀ i, i < inputs →
      |e i| * 2 ^ (63 - delta) + (1 + weight lweKey) * (2 ^ (62 - logN) + 2 ^ 10) < 2 ^ 62) :
    ∃ res : List (BitVec 64), circuitBootstrap σ τ (fun a c o => Am.bootstrap T N k b l (convert T N bsk) a c o) N k
        lweKey.length opt bk lk bc lc delta inputs indexes mem lweIn ksks ggswOut = some (.ok (res.map some)) ∧
      res.length = inputs * (lc * ((k + 1) * ((k + 1) * N))) ∧
      ∀ i, i < inputs → ∃ err : Nat → Nat → Rq (BitVec 64) N,
        (∀ j r, j < lc → r ≤ k →
          Small N (cbsBound 64 s.length bk lk (lweKey.length * epBound 64 N k b l S E B 1) A Bk) (err j r)) ∧
        GgswEnc N k bc lc key (block (lc * ((k + 1) * ((k + 1) * N))) res i) (if m i % 2 = 1 then 1 else 0) err :=
  circuitBootstrap_spec σ hσ τ hτ _ N k opt bk lk bc lc delta inputs (by rw [hNN]; positivity) hk0 hopt (by omega) hd hlc
    hfit hbk hdiv hsm lweKey s key ksks hsk _ _ A Bk
    (signPbs_64 T N k b l logN hNN hlog hb D B S E hT hD h hS0 lweKey s bsk hsk hSs hs' hbsk) hs hk hA hS hksks indexes hidx
    mem lweIn ggswOut ho m e hp (fun i hi => by
      rw [show 64 - delta - 1 = 63 - delta by omega]; exact hQ i hi)

/-- C86, 32-bit words. -/
theorem C86_circuit_bootstrap_32_partial (σ : Sched (BitVec 32)) (hσ : σ.Fair) (τ : Order) (hτ : τ.Complete)
    (T : Transform 32) (N k b l logN : Nat) (hNN : N = 2 ^ logN) (hlog : logN + 2 < 32) (hk0 : 0 < k)
    (D B S E : Int) (hT : T.Accurate N (l * (k + 1)) D B) (hD : 2 ^ (b - 1) ≤ D) (h : ValidParams 32 b l) (hS0 : 0 ≤ S)
    (opt bk lk bc lc delta inputs : Nat) (hopt : opt ∣ N) (hd : delta < 32) (hlc : 0 < lc) (hfit : bc * lc < 32)
    (hbk : ValidParams 32 bk lk) (hdiv : 256 ∣ (k + 1) * N) (hsm : inputs * lc * (k + 1) ≤ 65535)
    (lweKey s key bsk ksks : List (BitVec 32)) (hs' : Lwe.BinaryKey lweKey) (hsk : KeyFits N k s) (hSs : KeyBound S s)
    (hbsk : BskEnc N k b l lweKey s bsk E) (hs : Lwe.BinaryKey s) (hk : KeyFits N k key) (A Bk : Int) (hA : 1 ≤ A)
    (hS : KeyBound A key) (hksks : CbsKeys N k bk lk s key ksks Bk) (indexes : Nat → Nat)
    (hidx : ∀ z, z < inputs * lc → indexes z = z % lc) (mem : Nat → Nat → BitVec 32) (lweIn : Nat → BitVec 32)
    (ggswOut : DVec (BitVec 32)) (ho : ggswOut.length = inputs * (lc * ((k + 1) * ((k + 1) * N))))
    (m : Nat → Nat) (e : Nat → Int)
    (hp : ∀ i, i < inputs → Lwe.phase lweKey (part lweIn (lweKey.length + 1) i) = ((m i * 2 ^ delta + e i : Int) : BitVec 32))
    (hQ : ∀ i, i < inputs → |e i| * 2 ^ (31 - delta) + (1 + weight lweKey) * 2 ^ (30 - logN) < 2 ^ 30) :
    ∃ res : List (BitVec 32), circuitBootstrap σ τ (fun a c o => Am.bootstrap T N k b l (convert T N bsk) a c o) N k
        lweKey.length opt bk lk bc lc delta inputs indexes mem lweIn ksks ggswOut = some (.ok (res.map some)) ∧
      res.length = inputs * (lc * ((k + 1) * ((k + 1) * N))) ∧
      ∀ i, i < inputs → ∃ err : Nat → Nat → Rq (BitVec 32) N,
        (∀ j r, j < lc → r ≤ k →
          Small N (cbsBound 32 s.length bk lk (lweKey.length * epBound 32 N k b l S E B 1) A Bk) (err j r)) ∧
        GgswEnc N k bc lc key (block (lc * ((k + 1) * ((k + 1) * N))) res i) (if m i % 2 = 1 then 1 else 0) err :=
  circuitBootstrap_spec σ hσ τ hτ _ N k opt bk lk bc lc delta inputs (by rw [hNN]; positivity) hk0 hopt (by omega) hd hlc
    hfit hbk hdiv hsm lweKey s key ksks hsk _ _ A Bk
    (signPbs_32 T N k b l logN hNN hlog D B S E hT hD h hS0 lweKey s bsk hsk hSs hs' hbsk) hs hk hA hS hksks indexes hidx
    mem lweIn ggswOut ho m e hp (fun i hi => by
      rw [show 32 - delta - 1 = 31 - delta by omega]; exact hQ i hi)

/-- C86, the whole operation on 64-bit words: encryptions of `r + log2 N` bits at the top bit, `tau` tables of `2^r N`
entries. Output `t` is an encryption of the entry of table `t` whose index is spelled by the bits, in the order of C85
(the first `r` bits reversed). `b`, `l` and `T` are those of the bootstrap, `bc`, `lc` and `T'` those of the GGSWs. -/
theorem C86_pipeline_64_partial (σ : Sched (BitVec 64)) (hσ : σ.Fair) (τ : Order) (hτ : τ.Complete)
    (T T' : Transform 64) (N k b l logN : Nat) (hNN : N = 2 ^ logN) (hlog : logN + 1 < 32) (hb : b ≤ 31) (hk0 : 0 < k)
    (D B S E : Int) (hT : T.Accurate N (l * (k + 1)) D B) (hD : 2 ^ (b - 1) ≤ D) (h : ValidParams 64 b l) (hS0 : 0 ≤ S)
    (opt bk lk bc lc r tau : Nat) (hopt : opt ∣ N) (hc : ValidParams 64 bc lc) (hbc : bc ≤ 31) (hfit : bc * lc < 64)
    (D' B' : Int) (hT' : T'.Accurate N (lc * (k + 1)) D' B') (hD' : 2 ^ (bc - 1) ≤ D')
    (hbk : ValidParams 64 bk lk) (hdiv : 256 ∣ (k + 1) * N)
    (lweKey s key bsk ksks : List (BitVec 64)) (hs' : Lwe.BinaryKey lweKey) (hsk : KeyFits N k s) (hSs : KeyBound S s)
    (hbsk : BskEnc N k b l lweKey s bsk E) (hs : Lwe.BinaryKey s) (hk : KeyFits N k key) (A Bk : Int) (hA : 1 ≤ A)
    (hS : KeyBound A key) (hksks : CbsKeys N k bk lk s key ksks Bk)
    (bits : List Bool) (hbits : bits.length = r + logN) (hb0 : 0 < bits.length) (hr : r < 31)
    (hsm : bits.length * lc * (k + 1) ≤ 65535) (indexes : Nat → Nat)
    (hidx : ∀ z, z < bits.length * lc → indexes z = z % lc) (mem : Nat → Nat → BitVec 64) (treeMem : Nat → List (BitVec 64))
    (lweIn : Nat → BitVec 64) (lut : List (BitVec 64)) (hlut : lut.length = tau * (2 ^ r * N)) (ggswMem : DVec (BitVec 64))
    (ho : ggswMem.length = bits.length * (lc * ((k + 1) * ((k + 1) * N)))) (lweOuts : List (List (BitVec 64)))
    (hlo : lweOuts.length = tau) (hlol : ∀ o ∈ lweOuts, o.length = k * N + 1) (e : Nat → Int)
    (hp : ∀ i, i < bits.length → Lwe.phase lweKey (part lweIn (lweKey.length + 1) i) =
      (((if bits.getD i false then 2 ^ 63 else 0) + e i : Int) : BitVec 64))
    (hQ : ∀ i, i < bits.length → |e i| + (1 + weight lweKey) * (2 ^ (62 - logN) + 2 ^ 10) < 2 ^ 62) :
    ∃ outs, cbsVerticalPacking σ τ (fun a c o => Am.bootstrap T N k b l (convert T N bsk) a c o) T' N k lweKey.length opt
        logN bk lk bc lc 63 bits.length tau indexes mem treeMem lweIn ksks lut ggswMem lweOuts = some (.ok outs) ∧
      outs.length = tau ∧ ∀ t, t < tau → Lwe.Fits key (outs.getD t []) ∧
        |(Lwe.phase key (outs.getD t []) -
          (block (2 ^ r * N) lut t).getD (indexOf ((bits.take r).reverse ++ bits.drop r)) 0).toInt| ≤
            bits.length * epBound 64 N k bc lc A
              (cbsBound 64 s.length bk lk (lweKey.length * epBound 64 N k b l S E B 1) A Bk) B' 2 := by
  have hN0 : 0 < N := by rw [hNN]; positivity
  have hlc := hc.level
  obtain ⟨res, r1, r2, r3⟩ := C86_circuit_bootstrap_64_partial σ hσ τ hτ T N k b l logN hNN hlog hb hk0 D B S E hT hD h hS0
    opt bk lk bc lc 63 bits.length hopt (by omega) hlc hfit hbk hdiv hsm lweKey s key bsk ksks hs' hsk hSs hbsk hs hk A Bk
    hA hS hksks indexes hidx mem lweIn ggswMem ho (fun i => if bits.getD i false then 1 else 0) e
    (fun i hi => by rw [hp i hi]; congr 1; cases bits.getD i false <;> simp)
    (fun i hi => by rw [show 63 - 63 = 0 from rfl, pow_zero, mul_one]; exact hQ i hi)
  obtain ⟨outs, o1, o2, o3⟩ := Vp.C85_vertical_packing_partial T' N logN k bc lc r tau hNN (by omega) hc hbc D' B' A
    (cbsBound 64 s.length bk lk (lweKey.length * epBound 64 N k b l S E B 1) A Bk) hT' hD' (by omega) key hk hS res bits hbits
    hr (by omega) r2 (by
      refine ⟨by simp, fun i hi => ?_⟩
      rw [Am.getD_map_range _ _ _ _ hi]
      obtain ⟨err, e1, e2⟩ := r3 i hi
      refine ⟨err, e1, ?_⟩
      have hbit : ((if bits.getD i false = true then 1 else 0 : Nat) % 2 = 1) ↔ bits.getD i false = true := by
        cases bits.getD i false <;> simp
      simp only [hbit] at e2
      exact e2) lut hlut treeMem lweOuts hlo hlol
  refine ⟨outs, ?_, o2, o3⟩
  have hpos : 0 < (k + 1) * N := Nat.mul_pos (by omega) hN0
  have hge : 256 ≤ (k + 1) * N := Nat.le_of_dvd hpos hdiv
  have hcount : 0 < bits.length * lc * (k + 1) := Nat.mul_pos (Nat.mul_pos hb0 hlc) (by omega)
  rw [cbsVerticalPacking, if_neg (by omega), r1]
  simp only
  rw [Vp.mapM_id_some _ res rfl, Option.bind_some, o1]
  rfl

/-- C86 is violated: a decomposition with the full precision of the words passes the checks of the engine
(`DecompositionTooLarge` needs more); the GPU shifts by a negative number. -/
theorem C86_full_precision_violated (σ : Sched (BitVec w)) (τ : Order)
    (pbs : List (BitVec w) → List (BitVec w) → List (BitVec w) → Option (List (BitVec w)))
    (N k n opt bk lk bc lc delta inputs : Nat) (hfull : bc * lc = w) (indexes : Nat → Nat)
    (mem : Nat → Nat → BitVec w) (lweIn : Nat → BitVec w) (ksk : List (BitVec w)) (ggswOut : DVec (BitVec w)) :
    circuitBootstrap σ τ pbs N k n opt bk lk bc lc delta inputs indexes mem lweIn ksk ggswOut = none := by
  rw [circuitBootstrap, if_pos (by omega)]

/-- C86 is violated: more than 65535 rows end the process. -/
theorem C86_many_inputs_violated (σ : Sched (BitVec w)) (τ : Order)
    (pbs : List (BitVec w) → List (BitVec w) → List (BitVec w) → Option (List (BitVec w)))
    (T : Transform w) (N k n opt logN bk lk bc lc delta inputs tau : Nat) (hmany : 65535 < inputs * lc * (k + 1))
    (indexes : Nat → Nat) (mem : Nat → Nat → BitVec w) (treeMem : Nat → List (BitVec w)) (lweIn : Nat → BitVec w)
    (ksk lut : List (BitVec w)) (ggswMem : DVec (BitVec w)) (lweOuts : List (List (BitVec w))) :
    cbsVerticalPacking σ τ pbs T N k n opt logN bk lk bc lc delta inputs tau indexes mem treeMem lweIn ksk lut ggswMem
      lweOuts = some .exit := by
  rw [cbsVerticalPacking, if_pos (by omega)]

/-- C86 is violated: the engine gives the GPU its first vector and the number of ciphertexts on all GPUs. With two GPUs
or more and two ciphertexts or more the first vector ends before the last ciphertext. -/
theorem C86_multi_gpu_violated {α : Type} (A size n : Nat) (xs : List α) (hA : 2 ≤ A) (hn : 2 ≤ n) (hz : 0 < size)
    (hx : xs.length = n * size) (hfit : n * size < 2 ^ 32) (hr : n % min n A < n / min n A) :
    ∃ vecs v, toGpus A size xs = .ok vecs ∧ vecs[0]? = some v ∧ v[(n - 1) * size]? = none := by
  refine ⟨_, (block (n / min n A * size) xs 0).map some, toGpus_ok A size n xs (by omega) hz (by omega) hx hfit hr, ?_, ?_⟩
  · rw [List.getElem?_map, layout, List.getElem?_map, List.getElem?_range (by omega)]
    simp only [Option.map_some]
    rw [if_neg (by omega)]
  · apply List.getElem?_eq_none
    have h2 : n / min n A ≤ n - 1 := by
      have : n / min n A < n := Nat.div_lt_self (by omega) (by omega)
      omega
    rw [List.length_map, block, List.length_take]
    calc min _ _ ≤ n / min n A * size := Nat.min_le_left _ _
      _ ≤ (n - 1) * size := Nat.mul_le_mul_right _ h2

/-! ### The hypotheses can be met -/

/-- Noiseless keys of a circuit bootstrap exist for all keys. -/
theorem exists_cbsKeys (N k b l : Nat) (hN : 0 < N) (hl : 0 < l) (s key : List (BitVec w)) :
    ∃ ksks, CbsKeys N k b l s key ksks 0 := by
  have hG : 0 < (k + 1) * N := Nat.mul_pos (by omega) hN
  obtain ⟨ksks, h1, h2⟩ := exists_blocks (α := BitVec w) (k + 1) ((s.length + 1) * (l * ((k + 1) * N)))
    (Nat.mul_pos (by omega) (Nat.mul_pos hl hG))
    (fun r c => KeyEnc N k b l (s.length + 1) key c (fun i => const N ((s ++ [-1]).getD i 0) * rowFactor N k key r)
      (fun _ _ => 0)) (fun r _ => by
      obtain ⟨c, c1, c2⟩ := exists_blocks (α := BitVec w) ((s.length + 1) * l) ((k + 1) * N) hG
        (fun t c => glwePhase N k key c = const N ((s ++ [-1]).getD (t / l) 0) * rowFactor N k key r *
          2 ^ (w - b * (t % l + 1))) (fun t _ => by
          obtain ⟨v, v1, v2⟩ := exists_toRq hN (const N ((s ++ [-1]).getD (t / l) 0) * rowFactor N k key r *
            2 ^ (w - b * (t % l + 1)) : Rq (BitVec w) N)
          obtain ⟨t1, t2⟩ := C31_trivial_accumulator N k hN key v v1
          exact ⟨_, t1, by rw [t2, v2]⟩)
      refine ⟨c, by rw [c1]; ring, by rw [c1]; ring, fun i hi j hj => ?_⟩
      have := c2 (i * l + j) (by
        have : (i + 1) * l ≤ (s.length + 1) * l := Nat.mul_le_mul_right _ hi
        rw [Nat.succ_mul] at this
        omega)
      rw [div_of hj, mod_of hj] at this
      rw [this, add_zero])
  exact ⟨ksks, h1, fun r hr => ⟨_, fun _ _ _ _ => small_zero N 0 le_rfl, h2 r (by omega)⟩⟩

/-- Two threads in the order of their numbers, and in the other order. -/
example : Sched.Fair (α := BitVec 64) (fun ws => ws) ∧ Sched.Fair (α := BitVec 64) List.reverse :=
  ⟨fun _ => .refl _, fun ws => ws.reverse_perm⟩

/-- The hypotheses of C86 hold together: `N = 128`, eight bits of which the first and the last are one, an error of
1000 per input, two tables, a mask `-1` that the key does not see and one that it sees. -/
example : ∃ (bsk ksks : List (BitVec 64)) (lweIn : Nat → BitVec 64),
    BskEnc 128 1 3 2 [1, 0] (List.replicate 128 1) bsk 0 ∧
    CbsKeys 128 1 4 3 (List.replicate 128 1#64) (List.replicate 128 0#64) ksks 0 ∧
    (exactTransform 64 128).Accurate 128 (2 * (1 + 1)) 4 0 ∧ (exactTransform 64 128).Accurate 128 (5 * (1 + 1)) 16 0 ∧
    ValidParams 64 3 2 ∧ ValidParams 64 4 3 ∧ ValidParams 64 5 5 ∧ 256 ∣ (1 + 1) * 128 ∧ 4 ∣ 128 ∧ 128 = 2 ^ 7 ∧
    8 * 5 * (1 + 1) ≤ 65535 ∧ Lwe.BinaryKey [1#64, 0] ∧ Lwe.BinaryKey (List.replicate 128 1#64) ∧
    KeyFits 128 1 (List.replicate 128 1#64) ∧ KeyBound 1 (List.replicate 128 1#64) ∧
    KeyFits 128 1 (List.replicate 128 0#64) ∧ KeyBound 1 (List.replicate 128 0#64) ∧
    (∀ i, i < 8 → Lwe.phase [1#64, 0] (part lweIn ([1#64, 0].length + 1) i) =
      (((if [true, false, false, false, false, false, false, true].getD i false then 2 ^ 63 else 0) + 1000 : Int) :
        BitVec 64)) ∧
    |(1000 : Int)| + (1 + weight [1#64, 0]) * (2 ^ (62 - 7) + 2 ^ 10) < 2 ^ 62 := by
  obtain ⟨bsk, h1⟩ := exists_bsk 128 1 3 2 (by decide) (by decide) [1#64, 0] (List.replicate 128 1)
  obtain ⟨ksks, h2⟩ := exists_cbsKeys 128 1 4 3 (by decide) (by decide) (List.replicate 128 1#64) (List.replicate 128 0#64)
  refine ⟨bsk, ksks, fun p => if p % 3 = 0 then 5 else if p % 3 = 1 then -1 else
      (if p / 3 = 0 ∨ p / 3 = 7 then 2 ^ 63 else 0) + 1005, h1, h2, exact_accurate _ _ (by decide) _,
    exact_accurate _ _ (by decide) _, ⟨by decide, by decide, by decide⟩, ⟨by decide, by decide, by decide⟩,
    ⟨by decide, by decide, by decide⟩, by decide, by decide, by decide, by decide, ?_, ?_, ?_, ?_, ?_, ?_, ?_, ?_⟩
  · intro x hx
    simp only [List.mem_cons, List.not_mem_nil, or_false] at hx
    rcases hx with rfl | rfl <;> simp
  · intro x hx
    rw [List.eq_of_mem_replicate hx]; right; rfl
  · rw [KeyFits, List.length_replicate]
  · intro x hx
    rw [List.eq_of_mem_replicate hx]; decide
  · rw [KeyFits, List.length_replicate]
  · intro x hx
    rw [List.eq_of_mem_replicate hx]; decide
  · decide +kernel
  · have : weight [1#64, 0] = 1 := by decide +kernel
    rw [this]; norm_num

/-- The three launches that only copy, evaluated on small buffers. -/
example : part (store (shiftWrites 2 2 3 8#16 fun i => BitVec.ofNat 16 (i + 1)) fun _ => 7) 3 2 = [32#16, 40, 48] ∧
    part (store (lutWrites 16 4 1 2 3 2).reverse fun _ => 0#16) 8 1 =
      [0#16, 0, 0, 0, 0#16 - 512#16, 0#16 - 512#16, 0#16 - 512#16, 0#16 - 512#16] ∧
    part (store (copyWrites 2 1 1 3 2 2 fun i => BitVec.ofNat 16 i) fun _ => 0#16) 3 3 = [3#16, 4, 5 + 512] := by
  decide +kernel

/-- C86 on five ciphertexts and two GPUs: the first vector has two of them. -/
example : ∃ vecs v, toGpus 2 2 [1, 2, 3, 4, 5, 6, 7, 8, 9, 10] = .ok vecs ∧ vecs[0]? = some v ∧
    v = [some 1, some 2, some 3, some 4] := ⟨_, _, rfl, rfl, by decide⟩

end Verif.Cuda.Cbs
