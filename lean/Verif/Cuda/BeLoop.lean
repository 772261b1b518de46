import Verif.Cuda.BeLemmas
import Verif.Wop.Props3
/-
The loop of the bit extraction of CUDA, for every keyswitch and every bootstrap of signs.
-/
namespace Verif.Cuda.Be
open Verif Verif.Poly Verif.Glwe Verif.Pbs Verif.Decomp Verif.Wop
open Verif.Cuda.Cbs

variable {w : Nat}

/-- The output after the copy of ciphertext `id`. -/
theorem small_part (σ : Sched (BitVec w)) (hσ : σ.Fair) (size id : Nat) (src mem : Nat → BitVec w) :
    part (store (σ (smallWrites size id src)) mem) size id = first src size := by
  refine List.map_congr_left fun j hj => ?_
  have := List.mem_range.1 hj
  rw [small_word σ hσ, if_pos (by omega), Nat.add_sub_cancel_left]

/-- One iteration before the last: what the buffers hold after it. -/
theorem step_spec (σ : Sched (BitVec w)) (hσ : σ.Fair)
    (pbs : List (BitVec w) → List (BitVec w) → List (BitVec w) → Option (List (BitVec w)))
    (N k n opt delta nbits i m : Nat) (hopt : opt ∣ N) (hN : 0 < N) (s s' : List (BitVec w)) (hs : s.length = k * N)
    (hs' : s'.length = n) (Q P : Int) (hpbs : SignPbs pbs N k s' s Q P) (hw : delta + nbits ≤ w)
    (hd : 0 < delta) (hi : i + 1 < nbits) (state ksBuf lut pbsBuf shifted : Nat → BitVec w) (e g : Int)
    (hp : Lwe.phase s (first state (k * N + 1)) = (((m / 2 ^ i : Nat) * 2 ^ (delta + i) + e : Int) : BitVec w))
    (hz : ∀ q, q < k * N → lut q = 0#w)
    (hr : Lwe.phase s' (first ksBuf (n + 1)) =
      (((if m / 2 ^ i % 2 = 1 then 2 ^ (w - 1) else 0) + g : Int) : BitVec w)) (hg : |g| + Q < 2 ^ (w - 2)) :
    let ksBuf' := store (σ (bodyWrites 1 n (1#w <<< (w - 2)) ksBuf)) ksBuf
    let lut' := store (σ (fillWrites N k opt ((0#w - 1#w) <<< (delta - 1 + i)))) lut
    (∀ q, q < k * N → lut' q = 0#w) ∧
    ∃ p, pbs (first pbsBuf (k * N + 1)) (first ksBuf' (n + 1)) (first lut' ((k + 1) * N)) = some p ∧
      let pbs' := overwrite p pbsBuf
      let add := 1#w <<< (delta - 1 + i)
      let mul := 1#w <<< (w - delta - i - 2)
      let state' := store (σ (updates N k opt (fun j => state j - pbs' j) fun j => state j - (pbs' j + add))) state
      first (store (σ (updates N k opt (fun j => (state j - pbs' j) * mul)
          fun j => (state j - (pbs' j + add)) * mul)) shifted) (k * N + 1) =
        (first state' (k * N + 1)).map (fun x : BitVec w => x <<< (w - delta - (i + 1) - 1)) ∧
      ∃ g' : Int, |g'| ≤ P ∧ Lwe.phase s (first state' (k * N + 1)) =
        (((m / 2 ^ (i + 1) : Nat) * 2 ^ (delta + (i + 1)) + (e - g') : Int) : BitVec w) := by
  intro ksBuf' lut'
  obtain ⟨l1, l2⟩ := fill_first σ hσ N k opt hopt ((0#w - 1#w) <<< (delta - 1 + i)) lut hz
  refine ⟨l1, ?_⟩
  have hfk : Lwe.Fits s' (first ksBuf (n + 1)) := by rw [Lwe.Fits, first_length, hs']
  have hfb : Lwe.Fits s (first state (k * N + 1)) := by rw [Lwe.Fits, first_length, hs]
  obtain ⟨a1, a2⟩ := addBody_spec (1#w <<< (w - 2)) hfk
  have hk' : first ksBuf' (n + 1) = addBody (first ksBuf (n + 1)) (1#w <<< (w - 2)) := body_first σ hσ n _ ksBuf
  have hl' : first lut' ((k + 1) * N) = signAccumulator N k (1#w <<< (delta - 1 + i)) := by
    rw [signAccumulator, ← neg_shl]; exact l2
  obtain ⟨p, p1, p2, g', g1, g2⟩ := hpbs (first pbsBuf (k * N + 1)) (addBody (first ksBuf (n + 1)) (1#w <<< (w - 2)))
    (1#w <<< (delta - 1 + i)) (decide (m / 2 ^ i % 2 = 1)) g (first_length _ _) a1 (by
      rw [a2, hr, one_shl, ← Int.cast_add]
      congr 1
      simp only [decide_eq_true_eq]; ring) hg
  rw [hk', hl']
  refine ⟨p, p1, ?_⟩
  intro pbs' add mul state'
  have hpl : p.length = k * N + 1 := by rw [← hs]; exact p2
  have hfp : first pbs' (k * N + 1) = p := by
    rw [← hpl]; exact first_overwrite p pbsBuf
  obtain ⟨u1, u2⟩ := updates_first σ hσ N k opt hopt hN state pbs' state shifted add mul
  rw [hfp] at u1 u2
  refine ⟨?_, g', g1, ?_⟩
  · rw [u2, ← u1]
    refine List.map_congr_left fun x _ => ?_
    simp only [mul]
    rw [BV.shl_eq_mul x, BV.shl_eq_mul, show w - delta - (i + 1) - 1 = w - delta - i - 2 by omega,
      show (1#w : BitVec w) = 1 from rfl, one_mul]
  · obtain ⟨b1, b2⟩ := addBody_spec add p2
    have hnb := Lwe.phase_sub hfb b1
    have hst : Lwe.phase s (first state' (k * N + 1)) =
        Lwe.phase s (first state (k * N + 1)) - Lwe.phase s (addBody p add) := by
      rw [u1]; exact hnb
    have hadd : add = (((2 : Int) ^ (delta - 1 + i) : Int) : BitVec w) := one_shl _
    rw [hst, hp, b2, g2, hadd, one_shl]
    have h3 : ((m / 2 ^ i : Nat) : Int) = 2 * ((m / 2 ^ (i + 1) : Nat) : Int) + ((m / 2 ^ i % 2 : Nat) : Int) := by
      rw [pow_succ, ← Nat.div_div_eq_div_mul]
      exact_mod_cast (Nat.div_add_mod (m / 2 ^ i) 2).symm
    have h4 : (2 : Int) ^ (delta + (i + 1)) = 4 * 2 ^ (delta - 1 + i) := by
      rw [show (4 : Int) = 2 ^ 2 by norm_num, ← pow_add]; congr 1; omega
    have h5 : (2 : Int) ^ (delta + i) = 2 * 2 ^ (delta - 1 + i) := by
      rw [← pow_succ']; congr 1; omega
    rw [h3, h4, h5]
    generalize ((m / 2 ^ (i + 1) : Nat) : Int) = q
    generalize (2 : Int) ^ (delta - 1 + i) = A
    rcases Nat.mod_two_eq_zero_or_one (m / 2 ^ i) with h | h
    · rw [h, if_neg (by decide)]; push_cast; ring
    · rw [h, if_pos (by decide)]; push_cast; ring

/-- The loop: the bits from `nbits - left` on, each in its place of the output, and nothing beyond. -/
theorem loop_spec (σ : Sched (BitVec w)) (hσ : σ.Fair) (ks : Nat → List (BitVec w) → List (BitVec w) → Option (List (BitVec w)))
    (pbs : Nat → List (BitVec w) → List (BitVec w) → List (BitVec w) → Option (List (BitVec w)))
    (N k n opt delta nbits m : Nat) (hopt : opt ∣ N) (hN : 0 < N) (s s' : List (BitVec w)) (hs : s.length = k * N)
    (hs' : s'.length = n) (E0 K Q P : Int) (hks : ∀ i, KsOk (ks i) s s' K) (hpbs : ∀ i, SignPbs (pbs i) N k s' s Q P)
    (hw : delta + nbits ≤ w) (hd : 0 < delta ∨ nbits ≤ 1)
    (hQ : ∀ i, i + 1 < nbits → (E0 + i * P) * 2 ^ (w - delta - i - 1) + K + Q < 2 ^ (w - 2)) :
    ∀ (left i : Nat) (B : Bufs w) (e : Int), left + i = nbits → |e| ≤ E0 + i * P →
    Lwe.phase s (first B.state (k * N + 1)) = (((m / 2 ^ i : Nat) * 2 ^ (delta + i) + e : Int) : BitVec w) →
    first B.shifted (k * N + 1) = (first B.state (k * N + 1)).map (fun x : BitVec w => x <<< (w - delta - i - 1)) →
    (∀ q, q < k * N → B.lut q = 0#w) →
    ∃ B', loop σ ks pbs N k n opt delta nbits left B = some B' ∧ (∀ q, left * (n + 1) ≤ q → B'.out q = B.out q) ∧
      ∀ j, i ≤ j → j < nbits → ∃ f : Int, |f| ≤ (E0 + j * P) * 2 ^ (w - delta - j - 1) + K ∧
        Lwe.phase s' (part B'.out (n + 1) (nbits - 1 - j)) =
          (((if m / 2 ^ j % 2 = 1 then 2 ^ (w - 1) else 0) + f : Int) : BitVec w)
  | 0, i, B, e, hi, _, _, _, _ => ⟨B, rfl, fun _ _ => rfl, fun j h1 h2 => by omega⟩
  | left + 1, i, B, e, hi, he, hp, hsh, hz => by
    have hii : nbits - (left + 1) = i := by omega
    have hfs : Lwe.Fits s (first B.shifted (k * N + 1)) := by rw [Lwe.Fits, first_length, hs]
    obtain ⟨r, r1, r2, f, f1, f2⟩ := hks i (first B.ks (n + 1)) _ (by rw [Lwe.Fits, first_length, hs']) hfs
    have hpow : (2 : Int) ^ (delta + i) * 2 ^ (w - delta - i - 1) = 2 ^ (w - 1) := by
      rw [← pow_add]; congr 1; omega
    have hfe : |e * 2 ^ (w - delta - i - 1) + f| ≤ (E0 + i * P) * 2 ^ (w - delta - i - 1) + K := by
      refine (abs_add_le _ _).trans (add_le_add ?_ f1)
      rw [abs_mul, abs_of_pos (by positivity : (0 : Int) < 2 ^ (w - delta - i - 1))]
      exact mul_le_mul_of_nonneg_right he (by positivity)
    have hr : Lwe.phase s' r = (((if m / 2 ^ i % 2 = 1 then 2 ^ (w - 1) else 0) +
        (e * 2 ^ (w - delta - i - 1) + f) : Int) : BitVec w) := by
      rw [Int.cast_add, ← top_bit (by omega) (m / 2 ^ i), ← Int.cast_add, f2, hsh, phase_shl, hp, ← Int.cast_mul,
        ← Int.cast_add]
      congr 1
      rw [← hpow]; ring
    have hrl : r.length = n + 1 := by rw [← hs']; exact r2
    have hfr : first (overwrite r B.ks) (n + 1) = r := by rw [← hrl]; exact first_overwrite r B.ks
    have hhead : ∀ mem, Lwe.phase s' (part (store (σ (smallWrites (n + 1) (nbits - i - 1) (overwrite r B.ks))) mem)
        (n + 1) (nbits - 1 - i)) = (((if m / 2 ^ i % 2 = 1 then 2 ^ (w - 1) else 0) +
        (e * 2 ^ (w - delta - i - 1) + f) : Int) : BitVec w) := by
      intro mem
      rw [show nbits - 1 - i = nbits - i - 1 by omega, small_part σ hσ, hfr, hr]
    have hid : nbits - i - 1 = left := by omega
    rw [loop]
    simp only [hii, r1]
    by_cases hlast : i + 1 = nbits
    · rw [if_pos hlast]
      have hl0 : left = 0 := by omega
      refine ⟨_, rfl, fun q hq => ?_, fun j h1 h2 => ?_⟩
      · simp only
        rw [small_word σ hσ, hid, if_neg]
        rw [Nat.succ_mul] at hq
        omega
      · have : j = i := by omega
        subst this
        exact ⟨_, hfe, hhead B.out⟩
    · rw [if_neg hlast]
      have hd0 : 0 < delta := by omega
      rw [if_neg (by omega)]
      obtain ⟨l1, p, p1, sh1, g', g1, g2⟩ := step_spec σ hσ (pbs i) N k n opt delta nbits i m hopt hN s s' hs hs' Q P
        (hpbs i) hw hd0 (by omega) B.state (overwrite r B.ks) B.lut B.pbs B.shifted e
        (e * 2 ^ (w - delta - i - 1) + f) hp hz (by rw [hfr]; exact hr)
        (lt_of_le_of_lt (add_le_add_left hfe _) (hQ i (by omega)))
      rw [p1]
      simp only
      obtain ⟨B', b1, b2, b3⟩ := loop_spec σ hσ ks pbs N k n opt delta nbits m hopt hN s s' hs hs' E0 K Q P hks hpbs hw hd
        hQ left (i + 1) ⟨_, _, _, _, _, _⟩ (e - g') (by omega) (by
          have := abs_sub e g'
          push_cast
          linarith) g2 sh1 l1
      refine ⟨B', b1, fun q hq => ?_, fun j h1 h2 => ?_⟩
      · rw [Nat.succ_mul] at hq
        rw [b2 q (by omega)]
        simp only
        rw [small_word σ hσ, hid, if_neg (by omega)]
      · by_cases hj : j = i
        · subst hj
          refine ⟨_, hfe, ?_⟩
          rw [← hhead B.out]
          congr 1
          refine List.map_congr_left fun y _ => ?_
          rw [b2 _ ?_]
          rw [show nbits - 1 - j = left by omega]
          omega
        · exact b3 j (by omega) h2

/-- The bit extraction with any previous contents of its buffers, if the masks of the table are zero. -/
theorem hostExtract_spec (σ : Sched (BitVec w)) (hσ : σ.Fair)
    (ks : Nat → List (BitVec w) → List (BitVec w) → Option (List (BitVec w)))
    (pbs : Nat → List (BitVec w) → List (BitVec w) → List (BitVec w) → Option (List (BitVec w)))
    (N k n opt delta nbits m : Nat) (hopt : opt ∣ N) (hN : 0 < N) (hk : 0 < k) (s s' : List (BitVec w))
    (hs : s.length = k * N) (hs' : s'.length = n) (E0 K Q P e : Int) (hks : ∀ i, KsOk (ks i) s s' K)
    (hpbs : ∀ i, SignPbs (pbs i) N k s' s Q P) (hw : delta + nbits ≤ w) (hdw : delta < w) (hd : 0 < delta ∨ nbits ≤ 1)
    (hQ : ∀ i, i + 1 < nbits → (E0 + i * P) * 2 ^ (w - delta - i - 1) + K + Q < 2 ^ (w - 2))
    (lweIn : List (BitVec w)) (hin : Lwe.Fits s lweIn) (he : |e| ≤ E0)
    (hp : Lwe.phase s lweIn = ((m * 2 ^ delta + e : Int) : BitVec w)) (B : Bufs w) (hz : ∀ q, q < k * N → B.lut q = 0#w) :
    ∃ out, hostExtractBits σ ks pbs N k n opt delta nbits B (fun i => lweIn.getD i 0) = some out ∧
      ∀ i, i < nbits → ∃ f : Int, |f| ≤ (E0 + i * P) * 2 ^ (w - delta - i - 1) + K ∧
        Lwe.phase s' (part out (n + 1) (nbits - 1 - i)) =
          (((if m.testBit i then 2 ^ (w - 1) else 0) + f : Int) : BitVec w) := by
  have hfl : first (fun i => if i < k * N + 1 then lweIn.getD i 0 else B.state i) (k * N + 1) = lweIn := by
    have hl : lweIn.length = k * N + 1 := by rw [← hs]; exact hin
    apply List.ext_getElem (by rw [first_length, hl])
    intro j h1 h2
    have h2' := h2
    rw [hl] at h2'
    simp only [first, List.getElem_map, List.getElem_range, if_pos h2', List.getD_eq_getElem?_getD,
      List.getElem?_eq_getElem h2, Option.getD_some]
  obtain ⟨B', b1, -, b3⟩ := loop_spec σ hσ ks pbs N k n opt delta nbits m hopt hN s s' hs hs' E0 K Q P hks hpbs hw hd hQ
    nbits 0 ⟨fun i => if i < k * N + 1 then lweIn.getD i 0 else B.state i,
      store (σ (shiftWrites k N opt (1#w <<< (w - delta - 1)) fun i => lweIn.getD i 0)) B.shifted, B.ks, B.lut, B.pbs,
      B.out⟩ e rfl (by simpa using he) (by rw [hfl, hp]; simp) (by
      simp only [first, List.map_map]
      refine List.map_congr_left fun j hj => ?_
      have hj := List.mem_range.1 hj
      rw [shift_word σ hσ N k opt hopt hN hk _ _ _ j hj]
      simp only [Function.comp, if_pos hj]
      rw [BV.shl_eq_mul (1#w), show (1#w : BitVec w) = 1 from rfl, one_mul, BV.shl_eq_mul, Nat.sub_zero]) hz
  refine ⟨B'.out, ?_, fun i hi => ?_⟩
  · rw [hostExtractBits, if_neg (by omega)]
    simp only
    rw [b1]; rfl
  · obtain ⟨f, f1, f2⟩ := b3 i (by omega) hi
    refine ⟨f, f1, ?_⟩
    rw [f2]
    congr 2
    simp only [Nat.testBit_eq_decide_div_mod_eq, decide_eq_true_eq]

/-- The whole extraction, for every keyswitch and every bootstrap of signs. -/
theorem extract_spec (σ : Sched (BitVec w)) (hσ : σ.Fair)
    (ks : Nat → List (BitVec w) → List (BitVec w) → Option (List (BitVec w)))
    (pbs : Nat → List (BitVec w) → List (BitVec w) → List (BitVec w) → Option (List (BitVec w)))
    (N k n opt delta nbits m : Nat) (hopt : opt ∣ N) (hN : 0 < N) (hk : 0 < k) (s s' : List (BitVec w))
    (hs : s.length = k * N) (hs' : s'.length = n) (E0 K Q P e : Int) (hks : ∀ i, KsOk (ks i) s s' K)
    (hpbs : ∀ i, SignPbs (pbs i) N k s' s Q P) (hw : delta + nbits ≤ w) (hdw : delta < w) (hd : 0 < delta ∨ nbits ≤ 1)
    (hQ : ∀ i, i + 1 < nbits → (E0 + i * P) * 2 ^ (w - delta - i - 1) + K + Q < 2 ^ (w - 2))
    (lweIn : List (BitVec w)) (hin : Lwe.Fits s lweIn) (he : |e| ≤ E0)
    (hp : Lwe.phase s lweIn = ((m * 2 ^ delta + e : Int) : BitVec w)) (o : DVec (BitVec w)) (rest : List (DVec (BitVec w)))
    (ho : nbits * (n + 1) ≤ o.length) (junk : Nat → BitVec w) :
    ∃ res : List (BitVec w), executeExtractBits σ ks pbs N k n opt delta nbits lweIn (o :: rest) junk =
        some (.ok ((res.map some ++ o.drop (nbits * (n + 1))) :: rest)) ∧ res.length = nbits * (n + 1) ∧
      ∀ i, i < nbits → ∃ f : Int, |f| ≤ (E0 + i * P) * 2 ^ (w - delta - i - 1) + K ∧
        Lwe.phase s' (block (n + 1) res (nbits - 1 - i)) =
          (((if m.testBit i then 2 ^ (w - 1) else 0) + f : Int) : BitVec w) := by
  obtain ⟨out, b1, b3⟩ := hostExtract_spec σ hσ ks pbs N k n opt delta nbits m hopt hN hk s s' hs hs' E0 K Q P e hks hpbs hw
    hdw hd hQ lweIn hin he hp ⟨fun _ => 0#w, fun _ => 0#w, fun _ => 0#w, fun _ => 0#w, fun _ => 0#w, junk⟩ (fun _ _ => rfl)
  refine ⟨first out (nbits * (n + 1)), ?_, first_length _ _, fun i hi => ?_⟩
  · rw [executeExtractBits, if_neg (by omega)]
    simp only
    rw [b1]; rfl
  · obtain ⟨f, f1, f2⟩ := b3 i hi
    refine ⟨f, f1, ?_⟩
    have hfp : first out (nbits * (n + 1)) = part out (nbits * (n + 1)) 0 := by simp [first, part]
    have hbp : block (n + 1) (part out (nbits * (n + 1)) 0) (nbits - 1 - i) = part out (n + 1) (nbits - 1 - i) := by
      have h : (nbits - 1 - i + 1) * (n + 1) ≤ nbits * (n + 1) := Nat.mul_le_mul_right _ (by omega)
      apply List.ext_getElem?
      intro j
      by_cases hj : j < n + 1
      · rw [block_getElem? _ _ _ _ hj, part_getElem? _ _ _ _ hj,
          part_getElem? _ _ _ _ (by rw [Nat.succ_mul] at h; omega)]
        congr 2; omega
      · rw [List.getElem?_eq_none (by rw [block_length _ _ _ (by rw [part_length]; exact h)]; omega),
          List.getElem?_eq_none (by rw [part_length]; omega)]
    rw [hfp, hbp, f2]

end Verif.Cuda.Be
