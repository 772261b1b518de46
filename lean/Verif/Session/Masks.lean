import Verif.Session.Spec
import Verif.Session.LocalCrypto
import Verif.Lwe.Props3
import Verif.Pks.Budget
/-
The masks of everything an encryption call outputs are consecutive words of the mask stream.
-/
namespace Verif.Session
open Verif.Random Verif.Engine
variable {w : Nat}

theorem streamWords_add (g : Src) (a b : Nat) :
    streamWords w g (a + b) = streamWords w g a ++ streamWords w (g.skip (a * (w / 8))) b := by
  simp only [streamWords, List.range_add, List.map_append, List.map_map]
  congr 1
  apply List.map_congr_left
  intro i _
  simp only [Function.comp, Src.skip, Nat.add_mul, Nat.add_assoc]

theorem chunks_nil (n : Nat) : chunks n ([] : List (BitVec w)) = [] := rfl

theorem chunks_append (n : Nat) (hn : 0 < n) (a b : Nat) (x y : List (BitVec w)) (hx : x.length = a * n)
    (hy : y.length = b * n) : chunks n (x ++ y) = chunks n x ++ chunks n y := by
  have e1 := chunks_flatten n hn x
  have e2 := chunks_flatten n hn y
  have l1 : ∀ c ∈ chunks n x, c.length = n := by
    rw [chunks_eq n hn a x hx]
    intro c hc
    obtain ⟨i, hi, rfl⟩ := List.mem_map.1 hc
    exact block_length _ _ _ (by rw [hx]; exact Nat.mul_le_mul_right _ (List.mem_range.1 hi))
  have l2 : ∀ c ∈ chunks n y, c.length = n := by
    rw [chunks_eq n hn b y hy]
    intro c hc
    obtain ⟨i, hi, rfl⟩ := List.mem_map.1 hc
    exact block_length _ _ _ (by rw [hy]; exact Nat.mul_le_mul_right _ (List.mem_range.1 hi))
  conv_lhs => rw [← e1, ← e2, ← List.flatten_append]
  apply chunks_of_flatten n hn
  intro c hc
  rcases List.mem_append.1 hc with h | h
  · exact l1 c h
  · exact l2 c h

theorem chunks_uniform (n : Nat) (hn : 0 < n) (a : Nat) (x : List (BitVec w)) (hx : x.length = a * n) :
    ∀ c ∈ chunks n x, c.length = n := by
  rw [chunks_eq n hn a x hx]
  intro c hc
  obtain ⟨i, hi, rfl⟩ := List.mem_map.1 hc
  exact block_length _ _ _ (by rw [hx]; exact Nat.mul_le_mul_right _ (List.mem_range.1 hi))

theorem masks_append (n size : Nat) (hn : 0 < size) (a b : Nat) (x y : List (BitVec w)) (hx : x.length = a * size)
    (hy : y.length = b * size) : masks n size (x ++ y) = masks n size x ++ masks n size y := by
  simp only [masks, chunks_append size hn a b x y hx hy, List.flatMap_append]

theorem masks_one (n size : Nat) (hn : 0 < size) (x : List (BitVec w)) (hx : x.length = size) :
    masks n size x = x.take n := by
  have : chunks size x = [x] := by
    have := chunks_of_flatten size hn [x] (by simpa using hx)
    simpa using this
  simp [masks, this]

/-- An action that outputs `count` ciphertexts whose masks are the next `count * n` words of the mask stream,
and advances the mask stream past them. -/
def MaskE (n size count : Nat) (s : Act (List (BitVec w))) : Prop :=
  ∀ g d g', s g = some (d, g') → g.mask.pos ≤ g.mask.bound →
    d.length = count * size ∧ masks n size d = streamWords w g.mask (count * n) ∧
    g'.mask = g.mask.skip (count * n * (w / 8)) ∧ g'.mask.pos ≤ g'.mask.bound

theorem maskE_congr {n size count : Nat} {s s' : Act (List (BitVec w))} (h : ∀ g, s g = s' g)
    (k : MaskE n size count s') : MaskE n size count s := by
  rw [funext h]; exact k

theorem maskE_nil (n size : Nat) : MaskE n size 0 (fun g => some (([] : List (BitVec w)), g)) := by
  intro g d g' h hb
  simp only [Option.some.injEq, Prod.mk.injEq] at h
  obtain ⟨rfl, rfl⟩ := h
  refine ⟨by simp, by simp [masks, chunks_nil, streamWords], by simp [Src.skip], hb⟩

theorem maskE_append {n size a b : Nat} (hn : 0 < size) {s t : Act (List (BitVec w))} (hs : MaskE n size a s)
    (ht : MaskE n size b t) :
    MaskE n size (a + b) (fun g => (s g).bind fun r => (t r.2).map fun q => (r.1 ++ q.1, q.2)) := by
  intro g d g' h hb
  obtain ⟨⟨d1, g1⟩, e1, h⟩ := Option.bind_eq_some_iff.1 h
  obtain ⟨⟨d2, g2⟩, e2, h⟩ := Option.map_eq_some_iff.1 h
  simp only [Prod.mk.injEq] at h
  obtain ⟨rfl, rfl⟩ := h
  obtain ⟨p1, p2, p3, p4⟩ := hs _ _ _ e1 hb
  obtain ⟨q1, q2, q3, q4⟩ := ht _ _ _ e2 p4
  dsimp only at q1 q2 q3 q4 p3 p4
  refine ⟨by rw [List.length_append, p1, q1, Nat.add_mul], ?_, ?_, q4⟩
  · rw [masks_append n size hn a b _ _ p1 q1, p2, q2, p3, Nat.add_mul, streamWords_add]
  · rw [q3, p3, skip_skip, Nat.add_mul, Nat.add_mul]

/-- A parallel loop over the children of a fork, where the budget of each child is the mask bytes of its block. -/
theorem maskE_par {n size cnt blk : Nat} (hsz : 0 < size) (s : Act (List (BitVec w))) (m a b : Nat)
    (job : List EncGen → Nat → List (BitVec w) → Option (List (BitVec w)))
    (sched : List Nat) (l : List (List (BitVec w)))
    (hs : ∀ g g' e, g.tryFork m a b = (.error e, g') → s g = none)
    (hs' : ∀ g g' gens, g.tryFork m a b = (.ok gens, g') →
      s g = (parFor (job gens) sched l).map fun r => (r.flatten, g'))
    (act : Nat → List (BitVec w) → Act (List (BitVec w)))
    (ha : a = cnt * n * (w / 8)) (hl : 0 < a → l.length = m) (hblk : ∀ c ∈ l, c.length = blk)
    (hp : sched.Perm (List.range m))
    (hact : ∀ i c, i < m → c.length = blk → MaskE n size cnt (act i c))
    (hjob : ∀ (gens : List EncGen) (i : Nat) (c : List (BitVec w)) (g : EncGen), i < m → gens[i]? = some g →
      job gens i c = (act i c g).map (·.1)) : MaskE n size (m * cnt) s := by
  intro g d g' h hb
  rcases e : g.tryFork m a b with ⟨r | gens, g1⟩
  · rw [hs _ _ _ e] at h; cases h
  rw [hs' _ _ _ e] at h
  obtain ⟨r, hr, h⟩ := Option.map_eq_some_iff.1 h
  simp only [Prod.mk.injEq] at h
  obtain ⟨rfl, rfl⟩ := h
  obtain ⟨p1, p2, p3, p4, p5, rfl, rfl⟩ := encFork_ok e
  have hlen := hl p2
  obtain ⟨hrl, hri⟩ := ((parFor_complete _ sched l (by rw [hlen]; exact hp)).1 r).1 hr
  have key : ∀ i, (hi : i < m) → ∃ c, r[i]? = some c ∧ c.length = cnt * size ∧
      masks n size c = streamWords w (g.mask.skip (i * a)) (cnt * n) := by
    intro i hi
    have hi' : i < l.length := by rw [hlen]; exact hi
    obtain ⟨c', hj, hc'⟩ := hri i l[i] (List.getElem?_eq_getElem hi')
    rw [hjob _ i _ (g.slice a b i) hi (by rw [List.getElem?_map, List.getElem?_range hi]; rfl)] at hj
    obtain ⟨⟨x, gx⟩, hx, rfl⟩ := Option.map_eq_some_iff.1 hj
    obtain ⟨q1, q2, _, _⟩ := hact i _ hi (hblk _ (List.getElem_mem hi')) _ _ _ hx
      (Nat.add_le_add_left (Nat.mul_le_mul_right _ (Nat.le_succ _)) _)
    exact ⟨x, hc', q1, q2⟩
  have hpre : ∀ j, j ≤ m → (r.take j).flatten.length = j * cnt * size ∧
      masks n size (r.take j).flatten = streamWords w g.mask (j * cnt * n) := by
    intro j
    induction j with
    | zero => intro _; simp [masks, chunks_nil, streamWords]
    | succ j ih =>
      intro hj
      obtain ⟨c, hc, c1, c2⟩ := key j hj
      obtain ⟨i1, i2⟩ := ih (by omega)
      have ht : r.take (j + 1) = r.take j ++ [c] := by
        rw [List.take_add_one, hc]; rfl
      rw [ht, List.flatten_append, List.flatten_singleton]
      refine ⟨by rw [List.length_append, i1, c1, Nat.add_mul, Nat.add_mul, Nat.one_mul], ?_⟩
      have hja : j * a = j * cnt * n * (w / 8) := by rw [ha]; ring
      rw [masks_append n size hsz _ _ _ _ i1 c1, i2, c2, Nat.add_mul, Nat.add_mul, Nat.one_mul, streamWords_add, hja]
  have hfin := hpre m (Nat.le_refl _)
  rw [List.take_of_length_le (by omega)] at hfin
  refine ⟨hfin.1, hfin.2, ?_, p4⟩
  show g.mask.skip (m * a) = _
  rw [ha]; congr 1; ring

/-! ### LWE -/

theorem maskE_encryptLwe (f : GaussianFn w) (key out : List (BitVec w)) (msg : BitVec w)
    (ho : out.length = key.length + 1) : MaskE key.length (key.length + 1) 1 (Lwe.encryptLwe f key out msg) := by
  intro g d g' h hb
  obtain ⟨h1, h2, h3⟩ := Lwe.encrypt_mask ho hb h
  have hl : d.length = key.length + 1 := by
    obtain ⟨mask, e, _, _, hl, rfl, _⟩ := Lwe.encryptLwe_eq h
    simp [hl, ho]
  refine ⟨by rw [hl, Nat.one_mul], ?_, by rw [h2, Nat.one_mul], h3⟩
  rw [masks_one _ _ (by omega) d hl, h1, Nat.one_mul]
  rfl

theorem maskE_encryptLweListAux (f : GaussianFn w) (key : List (BitVec w)) :
    ∀ (cs : List (List (BitVec w))) (ms : List (BitVec w)), (∀ c ∈ cs, c.length = key.length + 1) →
    cs.length = ms.length → MaskE key.length (key.length + 1) cs.length
      (fun g => (Lwe.encryptLweListAux f key cs ms g).map fun r => (r.1.flatten, r.2))
  | c :: cs, m :: ms, hc, hl => by
    rw [List.length_cons, Nat.add_comm cs.length 1]
    refine maskE_congr (fun g => ?_) (maskE_append (by omega) (maskE_encryptLwe f key c m (hc c (by simp)))
      (maskE_encryptLweListAux f key cs ms (fun x hx => hc x (by simp [hx])) (by simpa using hl)))
    simp only [Lwe.encryptLweListAux]
    cases Lwe.encryptLwe f key c m g with
    | none => rfl
    | some r => cases hn : Lwe.encryptLweListAux f key cs ms r.2 <;> simp [hn]
  | [], [], _, _ => maskE_nil _ _
  | c :: cs, [], _, hl => by simp at hl
  | [], m :: ms, _, hl => by simp at hl

theorem maskE_encryptLweList (f : GaussianFn w) (key : List (BitVec w)) (out ms : List (BitVec w))
    (ho : out.length = ms.length * (key.length + 1)) :
    MaskE key.length (key.length + 1) ms.length (Lwe.encryptLweList f key (key.length + 1) out ms) := by
  have hl := chunks_length _ (Nat.succ_pos key.length) _ _ ho
  have h := maskE_encryptLweListAux f key (chunks (key.length + 1) out) ms
    (chunks_uniform _ (Nat.succ_pos _) _ _ ho) hl
  rw [hl] at h
  refine maskE_congr (fun g => ?_) h
  simp only [Lwe.encryptLweList]
  cases Lwe.encryptLweListAux f key (chunks (key.length + 1) out) ms g <;> rfl

theorem maskE_parEncryptLweList (f : GaussianFn w) (key : List (BitVec w)) (out ms : List (BitVec w))
    (ho : out.length = ms.length * (key.length + 1)) (sched : List Nat) (hp : sched.Perm (List.range ms.length)) :
    MaskE key.length (key.length + 1) ms.length
      (fun g => Lwe.parEncryptLweList f key (key.length + 1) out ms g sched) := by
  have hl := chunks_length _ (Nat.succ_pos key.length) _ _ ho
  rw [show ms.length = ms.length * 1 from (Nat.mul_one _).symm]
  refine maskE_par (cnt := 1) (blk := key.length + 1) (Nat.succ_pos _) _ ms.length
    (maskBytesPerLwe w (key.length + 1 - 1)) noiseBytesPerLwe
    (Lwe.parEncryptJob f key ms) sched (chunks (key.length + 1) out) ?_ ?_
    (fun i c => match ms[i]? with
      | none => fun g => some (c, g)
      | some m => Lwe.encryptLwe f key c m) ?_ (fun _ => hl)
    (chunks_uniform _ (Nat.succ_pos _) _ _ ho) hp ?_ ?_
  · intro g g' e h
    simp only [Lwe.parEncryptLweList, EncGen.forkLweListToLwe, hl, h]
  · intro g g' gens h
    simp only [Lwe.parEncryptLweList, EncGen.forkLweListToLwe, hl, h]
    cases parFor (Lwe.parEncryptJob f key ms gens) sched (chunks (key.length + 1) out) <;> rfl
  · rw [Nat.one_mul]; rfl
  · intro i c hi hc
    rw [List.getElem?_eq_getElem hi]
    exact maskE_encryptLwe f key c _ hc
  · intro gens i c g hi h2
    simp only [Lwe.parEncryptJob, List.getElem?_eq_getElem hi, h2]

theorem maskE_zeroEncryptVec (f : GaussianFn w) (key : List (BitVec w)) (count : Nat) :
    MaskE key.length (key.length + 1) count
      (fun g => (zeroEncryptVec f key count g).map fun r => (r.1.data, r.2)) := by
  have h := maskE_encryptLweList f key (List.replicate ((key.length + 1) * count) 0) (List.replicate count 0)
    (by simp [Nat.mul_comm])
  rw [List.length_replicate] at h
  refine maskE_congr (fun g => ?_) h
  simp only [zeroEncryptVec]
  cases Lwe.encryptLweList f key (key.length + 1) (List.replicate ((key.length + 1) * count) 0)
    (List.replicate count 0) g <;> rfl

theorem maskE_fillKeyswitchKeyAux (f : GaussianFn w) (key : List (BitVec w)) (b l : Nat) :
    ∀ (bits : List (BitVec w)) (blks : List (List (BitVec w))),
    (∀ c ∈ blks, c.length = l * (key.length + 1)) → bits.length = blks.length →
    MaskE key.length (key.length + 1) (bits.length * l)
      (fun g => (Lwe.fillKeyswitchKeyAux f key b l (key.length + 1) bits blks g).map fun r => (r.1.flatten, r.2))
  | bit :: bits, blk :: blks, hc, hl => by
    rw [List.length_cons, Nat.add_mul, Nat.one_mul, Nat.add_comm (bits.length * l) l]
    have hm : (Lwe.kskMessages b l bit).length = l := by simp [Lwe.kskMessages]
    have h1 := maskE_encryptLweList f key blk (Lwe.kskMessages b l bit) (by rw [hm]; exact hc blk (by simp))
    rw [hm] at h1
    refine maskE_congr (fun g => ?_) (maskE_append (by omega) h1
      (maskE_fillKeyswitchKeyAux f key b l bits blks (fun x hx => hc x (by simp [hx])) (by simpa using hl)))
    simp only [Lwe.fillKeyswitchKeyAux]
    cases Lwe.encryptLweList f key (key.length + 1) blk (Lwe.kskMessages b l bit) g with
    | none => rfl
    | some r => cases hn : Lwe.fillKeyswitchKeyAux f key b l (key.length + 1) bits blks r.2 <;> simp [hn]
  | [], [], _, _ => by
    refine maskE_congr (fun g => ?_) (by rw [List.length_nil, Nat.zero_mul]; exact maskE_nil _ _)
    simp [Lwe.fillKeyswitchKeyAux]
  | c :: cs, [], _, hl => by simp at hl
  | [], m :: ms, _, hl => by simp at hl

theorem maskE_fillKeyswitchKey (f : GaussianFn w) (s key : List (BitVec w)) (b l : Nat) (hl0 : 0 < l)
    (ksk : List (BitVec w)) (ho : ksk.length = s.length * (l * (key.length + 1))) :
    MaskE key.length (key.length + 1) (s.length * l) (Lwe.fillKeyswitchKey f s key b l (key.length + 1) ksk) := by
  have hpos : 0 < l * (key.length + 1) := Nat.mul_pos hl0 (Nat.succ_pos _)
  have hl := chunks_length _ hpos _ _ ho
  refine maskE_congr (fun g => ?_) (maskE_fillKeyswitchKeyAux f key b l s (chunks (l * (key.length + 1)) ksk)
    (chunks_uniform _ hpos _ _ ho) hl.symm)
  simp only [Lwe.fillKeyswitchKey]
  cases Lwe.fillKeyswitchKeyAux f key b l (key.length + 1) s (chunks (l * (key.length + 1)) ksk) g <;> rfl

/-! ### GLWE -/

theorem maskE_encryptGlwe (f : GaussianFn w) (key out msg : List (BitVec w)) (N k : Nat) (hN : 0 < N)
    (hk : key.length = k * N) (ho : out.length = (k + 1) * N) :
    MaskE (k * N) ((k + 1) * N) 1 (Glwe.encryptGlwe f key N out msg) := by
  intro g d g' h hb
  obtain ⟨h1, h2, h3⟩ := Glwe.encrypt_mask ho hb h
  have hmul : k * N * (w / 8) = Glwe.mB w k N := Nat.mul_assoc _ _ _
  have hl : d.length = (k + 1) * N := by
    obtain ⟨mask, e, q1, _, q3, rfl⟩ := Glwe.encryptGlwe_eq h
    have hml : mask.length = k * N := by rw [q3, ho, Nat.add_mul, Nat.one_mul]; omega
    obtain ⟨a1, _⟩ := Glwe.addMultisum_chunks N k hN e mask key (Glwe.noiseTensor_length q1) hml hk
    rw [List.length_append, hml, Poly.add, zipUpdate_length, a1, Nat.add_mul, Nat.one_mul]
  refine ⟨by rw [hl, Nat.one_mul], ?_, by rw [h3, Nat.one_mul, hmul], by rw [h3]; exact h2⟩
  rw [masks_one _ _ (Nat.mul_pos (Nat.succ_pos _) hN) d hl, h1, Nat.one_mul]
  rfl

theorem maskE_encryptZeroGlwe (f : GaussianFn w) (key out : List (BitVec w)) (N k : Nat) (hN : 0 < N)
    (hk : key.length = k * N) (ho : out.length = (k + 1) * N) :
    MaskE (k * N) ((k + 1) * N) 1 (Glwe.encryptZeroGlwe f key N out) := by
  intro g d g' h hb
  have hol : out.length - N = k * N := by rw [ho, Nat.add_mul, Nat.one_mul]; omega
  simp only [Glwe.encryptZeroGlwe, hol, rep_uniform _ _ _ hb] at h
  split at h
  · cases h
  rename_i e gn hn
  split at h
  · cases h
  rename_i mask gm hm
  split at hm
  · rename_i hle
    simp only [Option.some.injEq, Prod.mk.injEq] at hm h
    obtain ⟨rfl, rfl⟩ := hm
    obtain ⟨rfl, rfl⟩ := h
    have hml : (streamWords w g.mask (k * N)).length = k * N := by simp [streamWords]
    obtain ⟨a1, _⟩ := Glwe.addMultisum_chunks N k hN e (streamWords w g.mask (k * N)) key
      (Glwe.noiseTensor_length hn) hml hk
    have hl : (streamWords w g.mask (k * N) ++ Poly.addMultisum e (chunks N (streamWords w g.mask (k * N)))
        (chunks N key)).length = (k + 1) * N := by
      rw [List.length_append, hml, a1, Nat.add_mul, Nat.one_mul]
    refine ⟨by rw [Nat.one_mul]; exact hl, ?_, by rw [Nat.one_mul], hle⟩
    refine (masks_one _ _ (Nat.mul_pos (Nat.succ_pos _) hN) _ hl).trans ?_
    rw [List.take_left' hml, Nat.one_mul]
  · cases hm

theorem maskE_encryptGlweListAux (f : GaussianFn w) (key : List (BitVec w)) (N k : Nat) (hN : 0 < N)
    (hk : key.length = k * N) :
    ∀ (cs ms : List (List (BitVec w))), (∀ c ∈ cs, c.length = (k + 1) * N) →
    cs.length = ms.length → MaskE (k * N) ((k + 1) * N) cs.length
      (fun g => (Glwe.encryptGlweListAux f key N cs ms g).map fun r => (r.1.flatten, r.2))
  | c :: cs, m :: ms, hc, hl => by
    rw [List.length_cons, Nat.add_comm cs.length 1]
    refine maskE_congr (fun g => ?_) (maskE_append (Nat.mul_pos (Nat.succ_pos _) hN)
      (maskE_encryptGlwe f key c m N k hN hk (hc c (by simp)))
      (maskE_encryptGlweListAux f key N k hN hk cs ms (fun x hx => hc x (by simp [hx])) (by simpa using hl)))
    simp only [Glwe.encryptGlweListAux]
    cases Glwe.encryptGlwe f key N c m g with
    | none => rfl
    | some r => cases hn : Glwe.encryptGlweListAux f key N cs ms r.2 <;> simp [hn]
  | [], [], _, _ => maskE_nil _ _
  | c :: cs, [], _, hl => by simp at hl
  | [], m :: ms, _, hl => by simp at hl

theorem maskE_encryptGlweList (f : GaussianFn w) (key : List (BitVec w)) (N k count : Nat) (hN : 0 < N)
    (hk : key.length = k * N) (out ms : List (BitVec w)) (ho : out.length = count * ((k + 1) * N))
    (hm : ms.length = count * N) :
    MaskE (k * N) ((k + 1) * N) count (Glwe.encryptGlweList f key N k out ms) := by
  have hpos : 0 < (k + 1) * N := Nat.mul_pos (Nat.succ_pos _) hN
  have hl := chunks_length _ hpos _ _ ho
  have h := maskE_encryptGlweListAux f key N k hN hk (chunks ((k + 1) * N) out) (chunks N ms)
    (chunks_uniform _ hpos _ _ ho) (by rw [hl, chunks_length _ hN _ _ hm])
  rw [hl] at h
  refine maskE_congr (fun g => ?_) h
  simp only [Glwe.encryptGlweList]
  cases Glwe.encryptGlweListAux f key N (chunks ((k + 1) * N) out) (chunks N ms) g <;> rfl

theorem maskE_encryptZeroGlweListAux (f : GaussianFn w) (key : List (BitVec w)) (N k : Nat) (hN : 0 < N)
    (hk : key.length = k * N) :
    ∀ (cs : List (List (BitVec w))), (∀ c ∈ cs, c.length = (k + 1) * N) →
    MaskE (k * N) ((k + 1) * N) cs.length
      (fun g => (encryptZeroGlweListAux f key N cs g).map fun r => (r.1.flatten, r.2))
  | c :: cs, hc => by
    rw [List.length_cons, Nat.add_comm cs.length 1]
    refine maskE_congr (fun g => ?_) (maskE_append (Nat.mul_pos (Nat.succ_pos _) hN)
      (maskE_encryptZeroGlwe f key c N k hN hk (hc c (by simp)))
      (maskE_encryptZeroGlweListAux f key N k hN hk cs (fun x hx => hc x (by simp [hx]))))
    simp only [encryptZeroGlweListAux]
    cases Glwe.encryptZeroGlwe f key N c g with
    | none => rfl
    | some r => cases hn : encryptZeroGlweListAux f key N cs r.2 <;> simp [hn]
  | [], _ => maskE_nil _ _

theorem maskE_encryptZeroGlweList (f : GaussianFn w) (key : List (BitVec w)) (N k count : Nat) (hN : 0 < N)
    (hk : key.length = k * N) (out : List (BitVec w)) (ho : out.length = count * ((k + 1) * N)) :
    MaskE (k * N) ((k + 1) * N) count (encryptZeroGlweList f key N k out) := by
  have hpos : 0 < (k + 1) * N := Nat.mul_pos (Nat.succ_pos _) hN
  have hl := chunks_length _ hpos _ _ ho
  have h := maskE_encryptZeroGlweListAux f key N k hN hk (chunks ((k + 1) * N) out)
    (chunks_uniform _ hpos _ _ ho)
  rw [hl] at h
  refine maskE_congr (fun g => ?_) h
  simp only [encryptZeroGlweList]
  cases encryptZeroGlweListAux f key N (chunks ((k + 1) * N) out) g <;> rfl

/-! ### GGSW and bootstrap keys -/

theorem maskE_levelAct (f : GaussianFn w) (key : List (BitVec w)) (N k : Nat) (hN : 0 < N)
    (hk : key.length = k * N) (factor : BitVec w) (sched : List Nat) (hp : sched.Perm (List.range (k + 1)))
    (rows : List (BitVec w)) (hr : rows.length = (k + 1) * ((k + 1) * N)) :
    MaskE (k * N) ((k + 1) * N) (k + 1)
      (levelAct (fun m row => Glwe.encryptGlwe f key N row m) key N k factor sched (chunks ((k + 1) * N) rows)) := by
  have hpos : 0 < (k + 1) * N := Nat.mul_pos (Nat.succ_pos _) hN
  have main : MaskE (k * N) ((k + 1) * N) ((k + 1) * 1)
      (levelAct (fun m row => Glwe.encryptGlwe f key N row m) key N k factor sched (chunks ((k + 1) * N) rows)) := by
    refine maskE_par (cnt := 1) (blk := (k + 1) * N) hpos _ (k + 1)
       (maskBytesPerGlwe w (k + 1 - 1) N) (noiseBytesPerGlwe N)
       (Glwe.ggswRowJob (fun m g row => (Glwe.encryptGlwe f key N row m g).map (·.1)) key N k factor) sched
       (chunks ((k + 1) * N) rows) ?_ ?_
       (fun r row => Glwe.encryptGlwe f key N row (Glwe.rowPlaintext key N k factor r)) ?_
       (fun _ => chunks_length _ hpos _ _ hr) (chunks_uniform _ hpos _ _ hr) hp
       (fun i c _ hc => maskE_encryptGlwe f key c _ N k hN hk hc) ?_
    · intro g g' e h
      simp only [levelAct, EncGen.forkGgswLevelToGlwe, h]
    · intro g g' gens h
      simp only [levelAct, EncGen.forkGgswLevelToGlwe, h]
      cases parFor (Glwe.ggswRowJob (fun m g row => (Glwe.encryptGlwe f key N row m g).map (·.1)) key N k factor gens)
         sched (chunks ((k + 1) * N) rows) <;> rfl
    · rw [Nat.one_mul, maskBytesPerGlwe, Nat.add_sub_cancel, maskBytesPerPolynomial, maskBytesPerCoef, Nat.mul_assoc]
    · intro gens i c g hi h2
      simp only [Glwe.ggswRowJob, h2]
  rw [Nat.mul_one] at main
  exact main

theorem maskE_parEncryptGgsw (f : GaussianFn w) (key : List (BitVec w)) (N k b level : Nat) (hN : 0 < N)
    (hk : key.length = k * N) (sched : List Nat) (hp : sched.Perm (List.range level))
    (rowSched : Nat → List Nat) (hq : ∀ j, j < level → (rowSched j).Perm (List.range (k + 1)))
    (out : List (BitVec w)) (ho : out.length = level * ((k + 1) * ((k + 1) * N))) (msg : BitVec w) :
    MaskE (k * N) ((k + 1) * N) (level * (k + 1)) (Glwe.parEncryptGgsw f key N k b sched rowSched out msg) := by
  have hpos : 0 < (k + 1) * N := Nat.mul_pos (Nat.succ_pos _) hN
  have hpos2 : 0 < (k + 1) * ((k + 1) * N) := Nat.mul_pos (Nat.succ_pos _) hpos
  have hlev : out.length / ((k + 1) * ((k + 1) * N)) = level := by rw [ho, Nat.mul_div_cancel _ hpos2]
  refine maskE_par (blk := (k + 1) * ((k + 1) * N)) hpos _ level (maskBytesPerGgswLevel w (k + 1) N)
    (noiseBytesPerGgswLevel (k + 1) N)
    (fun gens => Glwe.ggswLevelJob (fun m g row => (Glwe.encryptGlwe f key N row m g).map (·.1)) ((k + 1) * N)
      key N k b msg gens rowSched)
    sched (chunks ((k + 1) * ((k + 1) * N)) out) ?_ ?_
    (fun j matrix => levelAct (fun m row => Glwe.encryptGlwe f key N row m) key N k
      (-msg * Glwe.gadget w b (j + 1)) (rowSched j) (chunks ((k + 1) * N) matrix)) ?_
    (fun _ => chunks_length _ hpos2 _ _ ho) (chunks_uniform _ hpos2 _ _ ho) hp
    (fun i c hi hc => maskE_levelAct f key N k hN hk _ _ (hq i hi) c hc) ?_
  · intro g g' e h
    simp only [Glwe.parEncryptGgsw, Glwe.ggswFill, EncGen.forkGgswToGgswLevels, hlev, h]
  · intro g g' gens h
    simp only [Glwe.parEncryptGgsw, Glwe.ggswFill, EncGen.forkGgswToGgswLevels, hlev, h]
    show (match parFor (Glwe.ggswLevelJob (fun m g row => (Glwe.encryptGlwe f key N row m g).map (·.1)) ((k + 1) * N)
      key N k b msg gens rowSched) sched (chunks ((k + 1) * ((k + 1) * N)) out) with
      | none => none
      | some ms => some (ms.flatten, g')) = _
    cases parFor (Glwe.ggswLevelJob (fun m g row => (Glwe.encryptGlwe f key N row m g).map (·.1)) ((k + 1) * N)
      key N k b msg gens rowSched) sched (chunks ((k + 1) * ((k + 1) * N)) out) <;> rfl
  · rw [maskBytesPerGgswLevel, maskBytesPerGlwe, Nat.add_sub_cancel, maskBytesPerPolynomial, maskBytesPerCoef]
    ring
  · intro gens j c g hj h2
    simp only [Glwe.ggswLevelJob, h2]
    rcases hf : g.forkGgswLevelToGlwe w (k + 1) N with ⟨r | gens', g'⟩
    · simp only [levelAct, hf]; rfl
    · simp only [levelAct, hf]
      cases parFor (Glwe.ggswRowJob (fun m g row => (Glwe.encryptGlwe f key N row m g).map (·.1)) key N k
          (-msg * Glwe.gadget w b (j + 1)) gens') (rowSched j) (chunks ((k + 1) * N) c) <;> rfl

theorem maskE_encryptGgsw (f : GaussianFn w) (key : List (BitVec w)) (N k b level : Nat) (hN : 0 < N)
    (hk : key.length = k * N) (out : List (BitVec w)) (ho : out.length = level * ((k + 1) * ((k + 1) * N)))
    (msg : BitVec w) :
    MaskE (k * N) ((k + 1) * N) (level * (k + 1)) (Glwe.encryptGgsw f key N k b out msg) :=
  maskE_congr (fun g => Glwe.encryptGgsw_eq_par f key N k b level hN out msg g ho)
    (maskE_parEncryptGgsw f key N k b level hN hk _ (List.Perm.refl _) _ (fun _ _ => List.Perm.refl _) out ho msg)

theorem maskE_bskFill (fill : Nat → List (BitVec w) → BitVec w → Act (List (BitVec w))) (N k level : Nat)
    (hN : 0 < N) (hL : 0 < level) (lweKey : List (BitVec w))
    (hfill : ∀ i c s, i < lweKey.length → c.length = level * ((k + 1) * ((k + 1) * N)) →
      MaskE (k * N) ((k + 1) * N) (level * (k + 1)) (fill i c s))
    (sched : List Nat) (hp : sched.Perm (List.range lweKey.length))
    (out : List (BitVec w)) (ho : out.length = lweKey.length * (level * ((k + 1) * ((k + 1) * N)))) :
    MaskE (k * N) ((k + 1) * N) (lweKey.length * (level * (k + 1)))
      (Glwe.bskFill fill (level * ((k + 1) * ((k + 1) * N))) lweKey N k level sched out) := by
  have hpos : 0 < (k + 1) * N := Nat.mul_pos (Nat.succ_pos _) hN
  have hpos2 : 0 < level * ((k + 1) * ((k + 1) * N)) := Nat.mul_pos hL (Nat.mul_pos (Nat.succ_pos _) hpos)
  have ho' : (out.map fun _ => 0#w).length = lweKey.length * (level * ((k + 1) * ((k + 1) * N))) := by
    rw [List.length_map, ho]
  refine maskE_par (blk := level * ((k + 1) * ((k + 1) * N))) hpos _ lweKey.length
    (maskBytesPerGgsw w level (k + 1) N) (noiseBytesPerGgsw level (k + 1) N)
    (Glwe.bskJob fill lweKey) sched (chunks (level * ((k + 1) * ((k + 1) * N))) (out.map fun _ => 0#w)) ?_ ?_
    (fun i c => match lweKey[i]? with
      | none => fun g => some (c, g)
      | some s => fill i c s) ?_
    (fun _ => chunks_length _ hpos2 _ _ ho') (chunks_uniform _ hpos2 _ _ ho') hp ?_ ?_
  · intro g g' e h
    simp only [Glwe.bskFill, EncGen.forkBskToGgsw, h]
  · intro g g' gens h
    simp only [Glwe.bskFill, EncGen.forkBskToGgsw, h]
    cases parFor (Glwe.bskJob fill lweKey gens) sched
      (chunks (level * ((k + 1) * ((k + 1) * N))) (out.map fun _ => 0#w)) <;> rfl
  · rw [maskBytesPerGgsw, maskBytesPerGgswLevel, maskBytesPerGlwe, Nat.add_sub_cancel, maskBytesPerPolynomial,
      maskBytesPerCoef]
    ring
  · intro i c hi hc
    rw [List.getElem?_eq_getElem hi]
    exact hfill i c _ hi hc
  · intro gens i c g hi h2
    simp only [Glwe.bskJob, List.getElem?_eq_getElem hi, h2]

/-! ### Packing keyswitch keys -/

theorem packingMessages_length (b l N : Nat) (bit : BitVec w) : (Pks.packingMessages b l N bit).length = l * N := by
  rw [Pks.packingMessages, flatten_length_uniform N _ (by
    intro x hx
    obtain ⟨j, _, rfl⟩ := List.mem_map.1 hx
    simp)]
  simp

theorem privateMessages_length (b l N : Nat) (fone : BitVec w) (P : List (BitVec w)) (bit : BitVec w) :
    (Pks.privateMessages b l N fone P bit).length = l * N := by
  rw [Pks.privateMessages, flatten_length_uniform N _ (by
    intro x hx
    obtain ⟨j, _, rfl⟩ := List.mem_map.1 hx
    rw [zipUpdate_length]; simp)]
  simp

theorem maskE_fillPackingKeyAux (f : GaussianFn w) (key : List (BitVec w)) (b l N k : Nat) (hN : 0 < N)
    (hk : key.length = k * N) :
    ∀ (bits : List (BitVec w)) (blks : List (List (BitVec w))),
    (∀ c ∈ blks, c.length = l * ((k + 1) * N)) → bits.length = blks.length →
    MaskE (k * N) ((k + 1) * N) (bits.length * l)
      (fun g => (Pks.fillPackingKeyAux f key b l N k bits blks g).map fun r => (r.1.flatten, r.2))
  | bit :: bits, blk :: blks, hc, hl => by
    rw [List.length_cons, Nat.add_mul bits.length 1 l, Nat.one_mul, Nat.add_comm (bits.length * l) l]
    refine maskE_congr (fun g => ?_) (maskE_append (Nat.mul_pos (Nat.succ_pos _) hN)
      (maskE_encryptGlweList f key N k l hN hk blk (Pks.packingMessages b l N bit) (hc blk (by simp))
        (packingMessages_length b l N bit))
      (maskE_fillPackingKeyAux f key b l N k hN hk bits blks (fun x hx => hc x (by simp [hx])) (by simpa using hl)))
    simp only [Pks.fillPackingKeyAux]
    cases Glwe.encryptGlweList f key N k blk (Pks.packingMessages b l N bit) g with
    | none => rfl
    | some r => cases hn : Pks.fillPackingKeyAux f key b l N k bits blks r.2 <;> simp [hn]
  | [], [], _, _ => by
    refine maskE_congr (fun g => ?_) (by rw [List.length_nil, Nat.zero_mul]; exact maskE_nil _ _)
    simp [Pks.fillPackingKeyAux]
  | c :: cs, [], _, hl => by simp at hl
  | [], m :: ms, _, hl => by simp at hl

theorem maskE_fillPackingKey (f : GaussianFn w) (s key : List (BitVec w)) (b l N k : Nat) (hN : 0 < N) (hl0 : 0 < l)
    (hk : key.length = k * N) (ksk : List (BitVec w)) (ho : ksk.length = s.length * (l * ((k + 1) * N))) :
    MaskE (k * N) ((k + 1) * N) (s.length * l) (Pks.fillPackingKey f s key b l N k ksk) := by
  have hpos : 0 < l * ((k + 1) * N) := Nat.mul_pos hl0 (Nat.mul_pos (Nat.succ_pos _) hN)
  have hl := chunks_length _ hpos _ _ ho
  refine maskE_congr (fun g => ?_) (maskE_fillPackingKeyAux f key b l N k hN hk s (chunks (l * ((k + 1) * N)) ksk)
    (chunks_uniform _ hpos _ _ ho) hl.symm)
  simp only [Pks.fillPackingKey]
  cases Pks.fillPackingKeyAux f key b l N k s (chunks (l * ((k + 1) * N)) ksk) g <;> rfl

theorem maskE_parFillPrivateKey (f : GaussianFn w) (s key : List (BitVec w)) (b l N k : Nat) (hN : 0 < N)
    (hl0 : 0 < l) (hk : key.length = k * N) (fone : BitVec w) (P : List (BitVec w)) (sched : List Nat)
    (hp : sched.Perm (List.range (s.length + 1))) (ksk : List (BitVec w))
    (ho : ksk.length = (s.length + 1) * (l * ((k + 1) * N))) :
    MaskE (k * N) ((k + 1) * N) ((s.length + 1) * l) (Pks.parFillPrivateKey f s key b l N k fone P sched ksk) := by
  have hpos0 : 0 < (k + 1) * N := Nat.mul_pos (Nat.succ_pos _) hN
  have hpos : 0 < l * ((k + 1) * N) := Nat.mul_pos hl0 hpos0
  refine maskE_par (blk := l * ((k + 1) * N)) hpos0 _ (s.length + 1)
    (maskBytesPerPfpkskChunk w l (k + 1) N) (noiseBytesPerPfpkskChunk l N)
    (Pks.privateJob f key b l N k fone P (s ++ [BitVec.allOnes w])) sched
    (chunks (l * ((k + 1) * N)) ksk) ?_ ?_
    (fun i blk => match (s ++ [BitVec.allOnes w])[i]? with
      | none => fun g => some (blk, g)
      | some bit => Glwe.encryptGlweList f key N k blk (Pks.privateMessages b l N fone P bit)) ?_
    (fun _ => chunks_length _ hpos _ _ ho) (chunks_uniform _ hpos _ _ ho) hp ?_ ?_
  · intro g g' e h
    simp only [Pks.parFillPrivateKey, EncGen.forkPfpkskToChunks, h]
  · intro g g' gens h
    simp only [Pks.parFillPrivateKey, EncGen.forkPfpkskToChunks, h]
    cases parFor (Pks.privateJob f key b l N k fone P (s ++ [BitVec.allOnes w]) gens) sched
      (chunks (l * ((k + 1) * N)) ksk) <;> rfl
  · rw [maskBytesPerPfpkskChunk, maskBytesPerGlwe, Nat.add_sub_cancel, maskBytesPerPolynomial,
      maskBytesPerCoef]
    ring
  · intro i c hi hc
    rw [List.getElem?_eq_getElem (by simpa using hi)]
    exact maskE_encryptGlweList f key N k l hN hk c _ hc (privateMessages_length _ _ _ _ _ _)
  · intro gens i c g hi h2
    have hi' : i < (s ++ [BitVec.allOnes w]).length := by simpa using hi
    simp only [Pks.privateJob, List.getElem?_eq_getElem hi', h2]

theorem maskE_parFillCbsKeys (bld : Csprng.Build) (f : GaussianFn w) (s key : List (BitVec w))
    (b l N k : Nat) (hN : 0 < N) (hl0 : 0 < l) (hk : key.length = k * N) (sched : List Nat)
    (hp : sched.Perm (List.range (k + 1))) (inner : Nat → List Nat)
    (hi : ∀ i, i < k + 1 → (inner i).Perm (List.range (s.length + 1))) (ksks : List (BitVec w))
    (ho : ksks.length = (k + 1) * ((s.length + 1) * (l * ((k + 1) * N)))) :
    MaskE (k * N) ((k + 1) * N) ((k + 1) * ((s.length + 1) * l))
      (Pks.parFillCbsKeys bld f s key b l N k (k + 1) sched inner ksks) := by
  have hpos0 : 0 < (k + 1) * N := Nat.mul_pos (Nat.succ_pos _) hN
  have hpos : 0 < (s.length + 1) * (l * ((k + 1) * N)) := Nat.mul_pos (Nat.succ_pos _) (Nat.mul_pos hl0 hpos0)
  have hd : ¬ (bld = .debug ∧ k + 1 ≠ k + 1) := by simp
  have hcp : (Pks.cbsPolynomials N key).length = k + 1 := by
    rw [Pks.cbsPolynomials, List.length_append, chunks_length N hN k key hk]; rfl
  refine maskE_par (blk := (s.length + 1) * (l * ((k + 1) * N))) hpos0 _ (k + 1)
    (maskBytesPerPfpksk w l (k + 1) N (s.length + 1)) (noiseBytesPerPfpksk l N (s.length + 1))
    (Pks.cbsJob f s key b l N k inner) sched
    (chunks ((s.length + 1) * (l * ((k + 1) * N))) ksks) ?_ ?_
    (fun i ksk => match (Pks.cbsPolynomials N key)[i]? with
      | none => fun g => some (ksk, g)
      | some P => Pks.parFillPrivateKey f s key b l N k (0#w - 1#w) P (inner i) ksk) ?_
    (fun _ => chunks_length _ hpos _ _ ho) (chunks_uniform _ hpos _ _ ho) hp ?_ ?_
  · intro g g' e h
    simp only [Pks.parFillCbsKeys, EncGen.forkCbsPfpkskToPfpksk, h, if_neg hd]
  · intro g g' gens h
    simp only [Pks.parFillCbsKeys, EncGen.forkCbsPfpkskToPfpksk, h, if_neg hd]
    cases parFor (Pks.cbsJob f s key b l N k inner gens) sched
      (chunks ((s.length + 1) * (l * ((k + 1) * N))) ksks) <;> rfl
  · rw [maskBytesPerPfpksk, maskBytesPerPfpkskChunk, maskBytesPerGlwe, Nat.add_sub_cancel, maskBytesPerPolynomial,
      maskBytesPerCoef]
    ring
  · intro i c hi' hc
    rw [List.getElem?_eq_getElem (by rw [hcp]; exact hi')]
    exact maskE_parFillPrivateKey f s key b l N k hN hl0 hk _ _ _ (hi i hi') c hc
  · intro gens i c g hi' h2
    have hi2 : i < (Pks.cbsPolynomials N key).length := by rw [hcp]; exact hi'
    simp only [Pks.cbsJob, List.getElem?_eq_getElem hi2, h2]

end Verif.Session
