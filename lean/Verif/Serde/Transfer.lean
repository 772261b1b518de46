import Verif.Serde.Props
/-
A Fourier entity written on one machine and read on another.

Source: /repo/concrete-core/src/backends/fft/private/math/fft/mod.rs, lines 531-658, and the documentation of the external
functions they call, `concrete_fft::unordered::Plan::{serialize_fourier_buffer, deserialize_fourier_buffer}`: an unordered
plan keeps the coefficients of a transform in an order of its own, which depends on the algorithm the plan has chosen by
measuring its speed (mod.rs:160-168, `Method::Measure`); the serialized form lists them in the standard order.
-/
namespace Verif.Serde

/-- The order in which a plan of each size keeps the coefficients: position `k` holds coefficient number `ord n k`, and
coefficient number `i` is at position `inv n i`. -/
structure Order where
  ord : Nat → Nat → Nat
  inv : Nat → Nat → Nat
  ord_lt : ∀ {n k}, k < n → ord n k < n
  inv_lt : ∀ {n i}, i < n → inv n i < n
  inv_ord : ∀ {n k}, k < n → inv n (ord n k) = k
  ord_inv : ∀ {n i}, i < n → ord n (inv n i) = i

/-- The serialized form of a buffer in the standard order, common to all plans (external). -/
structure Wire where
  planOk : Nat → Bool
  enc : Nat → List C64 → List Byte
  dec : Nat → List Byte → Option (List C64 × List Byte)

/-- A buffer in standard order survives a round trip. -/
def Wire.Faithful (W : Wire) : Prop :=
  ∀ n s c, W.planOk n = true → s.length = n → W.dec n (W.enc n s ++ c) = some (s, c)

/-- `serialize_fourier_buffer` and `deserialize_fourier_buffer` (external, called from mod.rs:551, 624 through 350-367) of a plan with the
order `o`: the buffer is listed in the standard order, and coefficient number `ord n k` is stored at position `k`. -/
def Wire.codec (W : Wire) (o : Order) : PlanCodec where
  planOk := W.planOk
  enc n buf := W.enc n ((List.range n).map fun i => buf.getD (o.inv n i) (0, 0))
  dec n bs := (W.dec n bs).map fun x => ((List.range n).map fun k => x.1.getD (o.ord n k) (0, 0), x.2)

/-- What a buffer becomes when it is written by a plan with the order `o` and read by a plan with the order `o'`. -/
def reorder (o o' : Order) (n : Nat) (buf : List C64) : List C64 :=
  (List.range n).map fun k => buf.getD (o.inv n (o'.ord n k)) (0, 0)

theorem reorder_length (o o' : Order) (n : Nat) (buf : List C64) : (reorder o o' n buf).length = n := by simp [reorder]

theorem codec_round (W : Wire) (hW : W.Faithful) (o o' : Order) (n : Nat) (buf : List C64) (c : List Byte)
    (hn : W.planOk n = true) :
    (W.codec o').dec n ((W.codec o).enc n buf ++ c) = some (reorder o o' n buf, c) := by
  simp only [Wire.codec]
  rw [hW n _ c hn (by simp)]
  simp only [Option.map_some, reorder, Option.some.injEq, Prod.mk.injEq, and_true]
  apply List.map_congr_left
  intro k hk
  have hk := o'.ord_lt (List.mem_range.1 hk)
  simp [List.getD_eq_getElem?_getD, hk]

theorem fillChunks_reorder (W : Wire) (hW : W.Faithful) (o o' : Order) (n : Nat) (hn : W.planOk n = true) :
    ∀ (l : List (List C64)) (left : Nat) (c : List Byte), l.length ≤ left →
      fillChunks (W.codec o') n l.length left (l.flatMap ((W.codec o).enc n) ++ c) =
        some (l.flatMap (reorder o o' n), c)
  | [], left, c, _ => by simp [fillChunks]
  | b :: l, 0, c, h => by simp at h
  | b :: l, left + 1, c, h => by
    simp only [List.length_cons, fillChunks, List.flatMap_cons, List.append_assoc]
    rw [codec_round W hW o o' n b _ hn]
    simp only [fillChunks_reorder W hW o o' n hn l left c (by simp at h; omega)]

/-- The list of Fourier polynomials read by the second machine. -/
theorem fourier_transfer (W : Wire) (hW : W.Faithful) (o o' : Order) (bld : Csprng.Build) (x : FourierList)
    (count : Nat) (hx : x.Valid (W.codec o) count) :
    ∃ b, x.enc (W.codec o) = some b ∧ ∀ c, FourierList.dec (W.codec o') bld (b ++ c) =
      .ok (⟨(chunks (x.polySize / 2) x.data).flatMap (reorder o o' (x.polySize / 2)), x.polySize⟩, c) := by
  obtain ⟨hN, hN64, hl, hl64, hc64, hok⟩ := hx
  have hok1 : W.planOk (x.polySize / 2) = true := hok
  have hok2 : (W.codec o').planOk (x.polySize / 2) = true := hok
  have hn : 0 < x.polySize / 2 := by omega
  have hcount : x.data.length / (x.polySize / 2) = count := by rw [hl]; exact Nat.mul_div_cancel _ hn
  have hmul : ∀ bld : Csprng.Build, bld.mulUsize (x.polySize / 2) count =
      some (x.polySize / 2 * count) := fun bld =>
    Csprng.mulUsize_ok bld (by rw [Nat.mul_comm, ← hl]; exact hl64)
  have e1 : ofLe (leBytes 8 (2 + count)) = count + 1 + 1 := by
    rw [ofLe_leBytes 8 _ (by omega)]; omega
  have e2 : ofLe (leBytes 8 x.polySize) = x.polySize := ofLe_leBytes 8 _ (by omega)
  have e3 : ofLe (leBytes 8 count) = count := ofLe_leBytes 8 _ (by omega)
  by_cases hc : count = 0
  · refine ⟨leBytes 8 (2 + count) ++ leBytes 8 x.polySize ++ leBytes 8 count, ?_, ?_⟩
    · simp only [FourierList.enc, hcount]
      rw [if_neg (by omega), if_neg (by omega), if_pos hc]
    · intro c
      simp only [FourierList.dec, List.append_assoc, takeBytes_le, e1, e2, e3, hmul, if_pos hc]
      have hd : x.data = [] := List.length_eq_zero_iff.mp (by rw [hl, hc, Nat.zero_mul])
      rw [hd]
      rfl
  · refine ⟨leBytes 8 (2 + count) ++ leBytes 8 x.polySize ++ leBytes 8 count ++
        (chunks (x.polySize / 2) x.data).flatMap ((W.codec o).enc (x.polySize / 2)), ?_, ?_⟩
    · simp only [FourierList.enc, hcount]
      rw [if_neg (by omega), if_neg (by omega), if_neg hc, if_pos hok,
        show x.data.length / count = x.polySize / 2 by
          rw [hl, Nat.mul_comm]; exact Nat.mul_div_cancel _ (Nat.pos_of_ne_zero hc)]
    · intro c
      have hd : x.polySize / 2 * count / count = x.polySize / 2 :=
        Nat.mul_div_cancel _ (Nat.pos_of_ne_zero hc)
      have hch := chunks_length _ hn _ _ hl
      have hfill := fillChunks_reorder W hW o o' (x.polySize / 2) hok1 (chunks (x.polySize / 2) x.data) count c
        (by rw [hch])
      rw [hch] at hfill
      simp only [FourierList.dec, List.append_assoc, takeBytes_le, e1, e2, e3, hmul, if_neg hc, hok2,
        hd]
      rw [if_neg (by simp), if_neg (by omega)]
      simp only [hfill]

/-- The polynomials read by the second machine. -/
theorem chunks_reorder (o o' : Order) (n : Nat) (hn : 0 < n) (data : List C64) :
    chunks n ((chunks n data).flatMap (reorder o o' n)) = (chunks n data).map (reorder o o' n) := by
  rw [List.flatMap_def]
  refine chunks_of_flatten n hn _ fun x hx => ?_
  obtain ⟨y, _, rfl⟩ := List.mem_map.1 hx
  exact reorder_length o o' n y

/-- The whole entity. -/
theorem entity_transfer (W : Wire) (hW : W.Faithful) (o o' : Order) (bld : Csprng.Build) (tail : Schema)
    (x : FourierEntity tail) (count : Nat) (hx : x.fourier.Valid (W.codec o) count) (hf : Fits tail x.fields) :
    ∃ bytes, fourierSerialize (W.codec o) tail x = .ok bytes ∧ ∀ rest,
      fourierDeserialize (W.codec o') bld tail (bytes ++ rest) =
        .ok ⟨⟨(chunks (x.fourier.polySize / 2) x.fourier.data).flatMap (reorder o o' (x.fourier.polySize / 2)),
          x.fourier.polySize⟩, x.fields⟩ := by
  obtain ⟨b, hb, hd⟩ := fourier_transfer W hW o o' bld x.fourier count hx
  refine ⟨leBytes 4 Version.v0.tag ++ b ++ enc tail x.fields, by simp only [fourierSerialize, hb], fun rest => ?_⟩
  simp only [fourierDeserialize, List.append_assoc, takeBytes_le, hd, dec_enc _ _ rest hf]
  rfl

end Verif.Serde
