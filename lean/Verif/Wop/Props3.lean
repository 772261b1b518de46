import Verif.Wop.Sign
/-
C45: bit extraction.
-/
namespace Verif.Wop
open Verif Verif.Poly Verif.Glwe Verif.Pbs Verif.Decomp
open Verif.Csprng (Build)

variable {w : Nat}

/-- What the extraction needs from the keyswitch: it changes the phase by at most `K`. -/
def KsOk (ks : List (BitVec w) → List (BitVec w) → Option (List (BitVec w))) (s s' : List (BitVec w)) (K : Int) : Prop :=
  ∀ o c, Lwe.Fits s' o → Lwe.Fits s c → ∃ r, ks o c = some r ∧ Lwe.Fits s' r ∧
    ∃ f : Int, |f| ≤ K ∧ Lwe.phase s' r = Lwe.phase s c + (f : BitVec w)

theorem phase_shl (s c : List (BitVec w)) (n : Nat) :
    Lwe.phase s (c.map fun x : BitVec w => x <<< n) = Lwe.phase s c * (((2 : Int) ^ n : Int) : BitVec w) := by
  have : (fun x : BitVec w => x <<< n) = fun x : BitVec w => x * (((2 : Int) ^ n : Int) : BitVec w) := by
    funext x
    rw [BV.shl_eq_mul]; push_cast; rfl
  rw [this, Lwe.phase_map]

theorem extractLoop_spec (bld : Build) (ks : List (BitVec w) → List (BitVec w) → Option (List (BitVec w)))
    (pbs : List (BitVec w) → List (BitVec w) → List (BitVec w) → Option (List (BitVec w)))
    (N k delta nbits m : Nat) (s s' : List (BitVec w)) (hk : s.length = k * N) (E0 K Q P : Int)
    (hks : KsOk ks s s' K) (hpbs : SignPbs pbs N k s' s Q P) (hw : delta + nbits ≤ w) (hd : 0 < delta ∨ nbits ≤ 1)
    (hQ : ∀ i, i + 1 < nbits → (E0 + i * P) * 2 ^ (w - delta - i - 1) + K + Q < 2 ^ (w - 2)) :
    ∀ (os : List (List (BitVec w))) (i : Nat) (buf ksBuf pbsBuf : List (BitVec w)) (e : Int),
    os.length + i = nbits → (∀ o ∈ os, Lwe.Fits s' o) → Lwe.Fits s buf → Lwe.Fits s' ksBuf →
    pbsBuf.length = k * N + 1 → |e| ≤ E0 + i * P →
    Lwe.phase s buf = (((m / 2 ^ i : Nat) * 2 ^ (delta + i) + e : Int) : BitVec w) →
    ∃ rs, extractLoop bld ks pbs N k delta nbits os i buf ksBuf pbsBuf = some rs ∧ rs.length = os.length ∧
      ∀ j (hj : j < rs.length), Lwe.Fits s' rs[j] ∧
        ∃ f : Int, |f| ≤ (E0 + (i + j : Nat) * P) * 2 ^ (w - delta - (i + j) - 1) + K ∧
          Lwe.phase s' rs[j] = (((if m / 2 ^ (i + j) % 2 = 1 then 2 ^ (w - 1) else 0) + f : Int) : BitVec w)
  | [], i, buf, ksBuf, pbsBuf, e, _, _, _, _, _, _, _ => ⟨[], rfl, rfl, fun j hj => by simp at hj⟩
  | o :: os, i, buf, ksBuf, pbsBuf, e, hi, ho, hb, hkb, hpb, he, hp => by
    simp only [List.length_cons] at hi
    have hsf : Lwe.Fits s (buf.map fun x : BitVec w => x <<< (w - delta - i - 1)) := by
      rw [Lwe.Fits, List.length_map]; exact hb
    obtain ⟨r, r1, r2, f, f1, f2⟩ := hks ksBuf _ hkb hsf
    have hpow : (2 : Int) ^ (delta + i) * 2 ^ (w - delta - i - 1) = 2 ^ (w - 1) := by
      rw [← pow_add]; congr 1; omega
    have hfe : |e * 2 ^ (w - delta - i - 1) + f| ≤ (E0 + i * P) * 2 ^ (w - delta - i - 1) + K := by
      refine (abs_add_le _ _).trans (add_le_add ?_ f1)
      rw [abs_mul, abs_of_pos (by positivity : (0 : Int) < 2 ^ (w - delta - i - 1))]
      exact mul_le_mul_of_nonneg_right he (by positivity)
    have hr : Lwe.phase s' r = (((if m / 2 ^ i % 2 = 1 then 2 ^ (w - 1) else 0) +
        (e * 2 ^ (w - delta - i - 1) + f) : Int) : BitVec w) := by
      rw [Int.cast_add, ← top_bit (by omega) (m / 2 ^ i), ← Int.cast_add, f2, phase_shl, hp, ← Int.cast_mul,
        ← Int.cast_add]
      congr 1
      rw [← hpow]; ring
    have hlen : o.length = r.length := by rw [ho o (by simp), r2]
    have hhead : Lwe.Fits s' r ∧ ∃ f : Int, |f| ≤ (E0 + i * P) * 2 ^ (w - delta - i - 1) + K ∧
        Lwe.phase s' r = (((if m / 2 ^ i % 2 = 1 then 2 ^ (w - 1) else 0) + f : Int) : BitVec w) :=
      ⟨r2, _, hfe, hr⟩
    rw [extractLoop, r1]
    simp only
    rw [if_neg (by rw [hlen]; simp)]
    by_cases hlast : i + 1 = nbits
    · rw [if_pos hlast]
      have hos : os = [] := List.length_eq_zero_iff.1 (by omega)
      subst hos
      refine ⟨_, rfl, rfl, fun j hj => ?_⟩
      have : j = 0 := by simp at hj; exact hj
      subst this
      exact hhead
    · rw [if_neg hlast]
      have hd0 : 0 < delta := by omega
      have hsh : alphaShift bld w delta i = some (delta - 1 + i) := by simp only [alphaShift, if_pos hd0]
      rw [hsh]
      simp only
      obtain ⟨a1, a2⟩ := addBody_spec (1#w <<< (w - 2)) r2
      obtain ⟨p, p1, p2, g, g1, g2⟩ := hpbs pbsBuf (addBody r (1#w <<< (w - 2))) (1#w <<< (delta - 1 + i))
        (decide (m / 2 ^ i % 2 = 1)) (e * 2 ^ (w - delta - i - 1) + f) hpb a1 (by
          rw [a2, hr, one_shl, ← Int.cast_add]
          congr 1
          simp only [decide_eq_true_eq]; ring) (lt_of_le_of_lt (add_le_add_left hfe _) (hQ i (by omega)))
      rw [p1]
      simp only
      obtain ⟨b1, b2⟩ := addBody_spec (1#w <<< (delta - 1 + i)) p2
      have hnb := Lwe.phase_sub hb b1
      have hfz := Lwe.fits_zipUpdate (fun a x : BitVec w => a - x) hb
        (y := addBody p (1#w <<< (delta - 1 + i)))
      have hstep : Lwe.phase s (zipUpdate (fun a x : BitVec w => a - x) buf (addBody p (1#w <<< (delta - 1 + i)))) =
          (((m / 2 ^ (i + 1) : Nat) * 2 ^ (delta + (i + 1)) + (e - g) : Int) : BitVec w) := by
        refine hnb.trans ?_
        rw [hp, b2, g2, one_shl]
        have h3 : ((m / 2 ^ i : Nat) : Int) = 2 * ((m / 2 ^ (i + 1) : Nat) : Int) + ((m / 2 ^ i % 2 : Nat) : Int) := by
          rw [pow_succ, ← Nat.div_div_eq_div_mul]
          exact_mod_cast (Nat.div_add_mod (m / 2 ^ i) 2).symm
        have h4 : (2 : Int) ^ (delta + (i + 1)) = 4 * 2 ^ (delta - 1 + i) := by
          rw [show (4 : Int) = 2 ^ 2 by norm_num, ← pow_add]; congr 1; omega
        have h5 : (2 : Int) ^ (delta + i) = 2 * 2 ^ (delta - 1 + i) := by
          rw [← pow_succ']; congr 1; omega
        rw [h3, h4, h5]
        generalize ((m / 2 ^ (i + 1) : Nat) : Int) = q
        generalize (2 : Int) ^ (delta - 1 + i) = A
        rcases Nat.mod_two_eq_zero_or_one (m / 2 ^ i) with h | h
        · rw [h, if_neg (by decide)]; push_cast; ring
        · rw [h, if_pos (by decide)]; push_cast; ring
      obtain ⟨rs, q1, q2, q3⟩ := extractLoop_spec bld ks pbs N k delta nbits m s s' hk E0 K Q P hks hpbs hw hd hQ os (i + 1)
        _ (addBody r (1#w <<< (w - 2))) (addBody p (1#w <<< (delta - 1 + i))) (e - g) (by omega)
        (fun o ho' => ho o (by simp [ho'])) hfz a1 (by rw [← hk]; exact b1) (by
          have := abs_sub e g
          push_cast
          linarith) hstep
      refine ⟨r :: rs, by rw [q1]; rfl, by simp [q2], fun j hj => ?_⟩
      cases j with
      | zero => exact hhead
      | succ j =>
        have := q3 j (by simpa using hj)
        rw [show i + (j + 1) = i + 1 + j by omega]
        exact this

/-- C45: on an encryption of `m 2^delta` with an error at most `E0`, the extraction of `nbits` bits outputs
ciphertexts of the bits of `m` at the top bit, most significant first. Each subtracted bit adds the error of
one bootstrap (`P`), and `K` is the error of the keyswitch. The condition `hQ` says that the errors leave
the bootstrapped phases on the right side: it is needed for every bit but the last one (the most
significant), which is not bootstrapped. -/
theorem C45_extract_bits (bld : Build) (T : Transform w) (N k b l logN bk lk : Nat) (hNN : N = 2 ^ logN)
    (hlog : logN + 2 < w) (D B S E : Int) (hT : T.Accurate N (l * (k + 1)) D B) (hD : 2 ^ (b - 1) ≤ D)
    (h : ValidParams w b l) (hB : 0 ≤ B) (hS0 : 0 ≤ S) (hE : 0 ≤ E) (hbk : ValidParams w bk lk)
    (s s' bsk ksk lweIn outs : List (BitVec w)) (hk : KeyFits N k s) (hS : KeyBound S s) (hs : Lwe.BinaryKey s)
    (hs' : Lwe.BinaryKey s') (hbsk : BskEnc N k b l s' s bsk E)
    (hksk : ksk.length = s.length * (lk * (s'.length + 1))) (eks : Nat → Nat → Int) (Bk : Nat)
    (hrow : ∀ i, i < s.length → ∀ j, j < lk → Lwe.phase s' (block (s'.length + 1) ksk (i * lk + j)) =
      s.getD i 0 * ((2 ^ (w - bk * (j + 1)) : Nat) : BitVec w) + ((eks i j : Int) : BitVec w))
    (heks : ∀ i, i < s.length → ∀ j, j < lk → |eks i j| ≤ Bk)
    (delta nbits m : Nat) (hw : delta + nbits ≤ w) (hd : 0 < delta ∨ nbits ≤ 1)
    (hin : Lwe.Fits s lweIn) (houts : outs.length = nbits * (s'.length + 1)) (E0 e : Int) (he : |e| ≤ E0)
    (hp : Lwe.phase s lweIn = ((m * 2 ^ delta + e : Int) : BitVec w)) (K P : Int)
    (hK : K = s.length * 2 ^ (w - bk * lk - 1) + s.length * lk * 2 ^ (bk - 1) * Bk)
    (hP : P = s'.length * epBound w N k b l S E B 1)
    (hQ : ∀ i, i + 1 < nbits → (E0 + i * P) * 2 ^ (w - delta - i - 1) + K +
      (1 + weight s') * 2 ^ (w - logN - 2) < 2 ^ (w - 2)) :
    ∃ res, extractBits bld (fun o c => Lwe.keyswitchCiphertext bk lk (s'.length + 1) ksk o c)
        (fun o c a => bootstrap (cmuxFft T N k b l) N logN o c a (bskGgsws T N k l bsk)) N k delta nbits
        (s'.length + 1) outs lweIn = some res ∧ res.length = nbits * (s'.length + 1) ∧
      ∀ i, i < nbits → ∃ f : Int, |f| ≤ (E0 + i * P) * 2 ^ (w - delta - i - 1) + K ∧
        Lwe.phase s' (block (s'.length + 1) res (nbits - 1 - i)) =
          (((if m.testBit i then 2 ^ (w - 1) else 0) + f : Int) : BitVec w) := by
  have hpos : 0 < s'.length + 1 := by omega
  have hks : KsOk (fun o c => Lwe.keyswitchCiphertext bk lk (s'.length + 1) ksk o c) s s' K := by
    intro o c ho hc
    obtain ⟨r, F, r1, r2, r3, r4⟩ := Lwe.C16_error_bound bk lk hbk s s' ksk o c eks Bk hksk hrow heks hs ho hc
    exact ⟨r, r1, r2, F, by rw [hK]; exact r4, r3⟩
  have hpbs := signPbs_of_bsk T N k b l logN hNN hlog D B S E hT hD h hB hS0 hE s' s bsk hk hS hs' hbsk
  rw [← hP] at hpbs
  have hcl := chunks_length _ hpos nbits outs houts
  have hchunk : ∀ o ∈ (chunks (s'.length + 1) outs).reverse, Lwe.Fits s' o := by
    intro o ho
    rw [List.mem_reverse, chunks_eq _ hpos _ _ houts] at ho
    obtain ⟨t, ht, rfl⟩ := List.mem_map.1 ho
    exact block_len _ nbits t outs houts (List.mem_range.1 ht)
  obtain ⟨rs, r1, r2, r3⟩ := extractLoop_spec bld _ _ N k delta nbits m s s' hk E0 K _ P hks hpbs hw hd hQ
    (chunks (s'.length + 1) outs).reverse 0 lweIn (List.replicate (s'.length + 1) 0#w) (List.replicate (k * N + 1) 0#w) e
    (by simp [hcl]) hchunk hin (by simp [Lwe.Fits]) (by simp) (by push_cast; linarith) (by rw [hp]; simp)
  have hrl : rs.length = nbits := by rw [r2]; simp [hcl]
  have hru : ∀ x ∈ rs.reverse, x.length = s'.length + 1 := by
    intro x hx
    obtain ⟨j, hj, rfl⟩ := List.getElem_of_mem (List.mem_reverse.1 hx)
    exact (r3 j hj).1
  refine ⟨rs.reverse.flatten, ?_, ?_, fun i hi => ?_⟩
  · rw [extractBits, if_neg (by omega), if_neg (by rintro ⟨_, h'⟩; exact h' hcl), r1]
    rfl
  · rw [flatten_length_uniform _ _ hru, List.length_reverse, hrl]
  · have hi' : i < rs.length := by omega
    obtain ⟨-, f, f1, f2⟩ := r3 i hi'
    rw [Nat.zero_add] at f1 f2
    refine ⟨f, f1, ?_⟩
    have hb : (i + 1 : Nat) ≤ nbits := hi
    rw [block_flatten _ hpos _ hru (nbits - 1 - i) rs[i] (by
      rw [List.getElem?_reverse (by omega), hrl, show nbits - 1 - (nbits - 1 - i) = i by omega,
        List.getElem?_eq_getElem hi']), f2]
    congr 2
    simp only [Nat.testBit_eq_decide_div_mod_eq, decide_eq_true_eq]

/-- C45: with `delta = 0`, a debug build panics as soon as two bits are extracted (`delta_log.0 - 1`). -/
theorem C45_delta_zero_panics (ks : List (BitVec w) → List (BitVec w) → Option (List (BitVec w)))
    (pbs : List (BitVec w) → List (BitVec w) → List (BitVec w) → Option (List (BitVec w))) (N k nbits outSize : Nat)
    (hn : 1 < nbits) (outs lweIn : List (BitVec w)) (hs : 0 < outSize) (ho : outs.length = nbits * outSize) :
    extractBits .debug ks pbs N k 0 nbits outSize outs lweIn = none := by
  have hcl := chunks_length _ hs nbits outs ho
  rw [extractBits]
  split
  · rfl
  · rw [if_neg (by rintro ⟨_, h'⟩; exact h' hcl)]
    have hl : (chunks outSize outs).reverse.length = nbits := by simp [hcl]
    cases hc : (chunks outSize outs).reverse with
    | nil => rw [hc] at hl; simp at hl; omega
    | cons o os =>
      rw [extractLoop]
      split
      · rfl
      · split
        · rfl
        · rw [if_neg (by omega)]
          simp [alphaShift]

/-- C45: asking for more bits than there are above `delta` panics (debug builds). -/
theorem C45_too_many_bits (ks : List (BitVec w) → List (BitVec w) → Option (List (BitVec w)))
    (pbs : List (BitVec w) → List (BitVec w) → List (BitVec w) → Option (List (BitVec w)))
    (N k delta nbits outSize : Nat) (outs lweIn : List (BitVec w)) (h : w < nbits + delta) :
    extractBits .debug ks pbs N k delta nbits outSize outs lweIn = none := by
  rw [extractBits, if_pos h]

end Verif.Wop
