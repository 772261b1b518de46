import Verif.Cuda.WopMemory
import Verif.Cuda.Props5
import Verif.Cuda.Props15
/-
C87: the memory of the wop-PBS of CUDA. The specification is that of C75: `Region.Inside`, `Region.Aligned` and
`Region.Apart`.
-/
namespace Verif.Cuda.Wm
open Verif Verif.Wop

/-- The position of an array in the list of arrays. -/
def Name.rank : Name → Nat
  | .pbsScratch => 0
  | .pbsOut => 1
  | .shifted => 2
  | .luts => 3
  | .fpksIn => 4
  | .ggsws => 5
  | .treeFft => 6
  | .treeBlocks => 7
  | .treeFftMem => 8
  | .tree1 => 9
  | .tree2 => 10
  | .treeOut => 11
  | .rotFft => 12
  | .rotFftMem => 13
  | .rotBlocks => 14
  | .indexes => 15

/-- Arrays of which each one ends before the next one starts do not overlap. -/
theorem apart_of_chain (f : Name → Region)
    (h : ∀ x y : Name, y.rank = x.rank + 1 → (f x).start + (f x).bytes ≤ (f y).start) (x y : Name) (hxy : x ≠ y) :
    (f x).Apart (f y) := by
  have hinj : ∀ x y : Name, x.rank = y.rank → x = y := by
    intro x y; cases x <;> cases y <;> simp [Name.rank]
  have hprev : ∀ y : Name, 0 < y.rank → ∃ x : Name, y.rank = x.rank + 1 := by
    intro y hy
    cases y
    · exact absurd hy (by decide)
    all_goals first
      | exact ⟨.pbsScratch, rfl⟩ | exact ⟨.pbsOut, rfl⟩ | exact ⟨.shifted, rfl⟩ | exact ⟨.luts, rfl⟩
      | exact ⟨.fpksIn, rfl⟩ | exact ⟨.ggsws, rfl⟩ | exact ⟨.treeFft, rfl⟩ | exact ⟨.treeBlocks, rfl⟩
      | exact ⟨.treeFftMem, rfl⟩ | exact ⟨.tree1, rfl⟩ | exact ⟨.tree2, rfl⟩ | exact ⟨.treeOut, rfl⟩
      | exact ⟨.rotFft, rfl⟩ | exact ⟨.rotFftMem, rfl⟩ | exact ⟨.rotBlocks, rfl⟩
  have hlt : ∀ (d : Nat) (x y : Name), y.rank = x.rank + 1 + d → (f x).start + (f x).bytes ≤ (f y).start := by
    intro d
    induction d with
    | zero => exact fun x y => h x y
    | succ d ih =>
      intro x y hr
      obtain ⟨z, hz⟩ := hprev y (by omega)
      have h1 := ih x z (by omega)
      have h2 := h z y hz
      omega
  rcases Nat.lt_or_gt_of_ne (fun he => hxy (hinj x y he)) with h1 | h1
  · exact Or.inr (Or.inl (hlt (y.rank - x.rank - 1) x y (by omega)))
  · exact Or.inr (Or.inr (hlt (x.rank - y.rank - 1) y x (by omega)))

theorem amortized_dvd (T N k n sm : Nat) (hT : T = 4 ∨ T = 8) (hN : N ∈ pbsSizes) (hk : (k + 1) * N < 2 ^ 32) :
    16 ∣ amortizedScratch T N k n sm := by
  obtain ⟨A, m, hA, dA, hm, h1, h2, h3, h4, h5, hP, hF⟩ := amortized_sizes T N k hT hN hk
  have dR : 16 ∣ 128 * ((k + 1) * m) := ⟨8 * ((k + 1) * m), by ring⟩
  have e1 := mul_mod16 (amortizedFull T N k) n (by rw [hF]; omega)
  have e2 := mul_mod16 (amortizedFull T N k - amortizedPart N) n (by rw [hF, hP]; omega)
  unfold amortizedScratch
  simp only
  split_ifs <;> omega

theorem cmux_bytes (T N k m : Nat) (hT : T = 4 ∨ T = 8) (hm : N = 16 * m) :
    16 ∣ cmuxBytes T N k ∧ cmuxBytes T N k = T * ((k + 1) * N) + 16 * ((k + 1) * N / 2) + 16 * (N / 2) ∧
      16 ∣ T * ((k + 1) * N) ∧ 16 * ((k + 1) * N / (16 / T)) = T * ((k + 1) * N) ∧ 16 ∣ rotateBytes T N k ∧
      rotateBytes T N k = T * ((k + 1) * N) + T * ((k + 1) * N) + cmuxBytes T N k := by
  have e1 : T * N * (k + 1) = T * ((k + 1) * N) := by ring
  have e2 : 16 * N / 2 * (k + 1) = 128 * ((k + 1) * m) := by
    rw [hm, show 16 * (16 * m) / 2 = 128 * m by omega]; ring
  have e3 : (k + 1) * N = 16 * ((k + 1) * m) := by rw [hm]; ring
  rw [rotateBytes, cmuxBytes, e1, e2, e3]
  generalize (k + 1) * m = q
  rcases hT with rfl | rfl <;> norm_num <;> omega

set_option maxHeartbeats 800000 in
/-- C87, the arrays: with at least `log2 N` bits (`r` more), every array of the circuit bootstrap and vertical packing
lies inside the allocated buffer, and no two of them share a byte. They are aligned for 64-bit words, and for 32-bit words
if the size of the first part is a multiple of 8. Missing: no layer (`r = 0`) with a shared memory too small for a
CMUX, 31 layers or more, and products beyond 32 bits. -/
theorem C87_arrays_partial (T N k n l logN r tau sm : Nat) (hT : T = 4 ∨ T = 8) (hN : N ∈ pbsSizes)
    (hk : (k + 1) * N < 2 ^ 32) (hlog : logN < 2 ^ 31) (hr : r < 31) (hsm : sm < cmuxBytes T N k → 0 < r) :
    ∃ luts blocks tree total, shl1 r = some luts ∧ treeBlocks T N k r tau sm = some blocks ∧
      treeSize T N k l r tau sm = some tree ∧ totalSize T N k n l logN (r + logN) tau sm = some total ∧
      (∀ x, (region T N k n l (r + logN) r tau sm luts blocks tree x).Inside total 0 ∧
        (T = 8 ∨ 8 ∣ cbsBytes T N k n l (r + logN) →
          (region T N k n l (r + logN) r tau sm luts blocks tree x).Aligned)) ∧
      ∀ x y, x ≠ y → (region T N k n l (r + logN) r tau sm luts blocks tree x).Apart
        (region T N k n l (r + logN) r tau sm luts blocks tree y) := by
  obtain ⟨m, hm, hm0, -⟩ := pbsSizes_mod hN
  obtain ⟨c1, c2, c3, c4, c5, c6⟩ := cmux_bytes T N k m hT hm
  have hA := amortized_dvd T N k ((r + logN) * l) sm hT hN hk
  have hlc : Vp.layerCount (r + logN) logN = r := by rw [Vp.layerCount]; omega
  have hblocks : ∃ blocks, treeBlocks T N k r tau sm = some blocks ∧ 16 ∣ blocks := by
    rw [treeBlocks]
    by_cases h : sm < cmuxBytes T N k
    · have := hsm h
      rw [if_pos h, shl1, if_pos (by omega), Option.map_some]
      exact ⟨_, rfl, Dvd.dvd.mul_right (Dvd.dvd.mul_right c1 _) _⟩
    · rw [if_neg h]
      exact ⟨0, rfl, ⟨0, rfl⟩⟩
  obtain ⟨blocks, hb, db⟩ := hblocks
  have hs1 : shl1 r = some (2 ^ r) := by rw [shl1, if_pos hr]
  have htree : treeSize T N k l r tau sm = some (pad (r * ggswBytes 8 N k l + T * (2 ^ r * tau * ((k + 1) * N)) +
      T * (2 ^ r * tau * ((k + 1) * N)) + (blocks + fftBytes N sm))) := by
    rw [treeSize, hs1, hb]; rfl
  refine ⟨_, _, _, _, hs1, hb, htree, by rw [totalSize, hlc, htree, Option.map_some], ?_⟩
  have dfft : 16 ∣ fftBytes N sm := by rw [fftBytes, hm]; split_ifs <;> omega
  have drb : 16 ∣ rotateBlocks T N k tau sm := by
    rw [rotateBlocks]; split_ifs
    · exact Dvd.dvd.mul_right c5 _
    · exact ⟨0, rfl⟩
  have eg : ∀ s x, x * ggswBytes s N k l = 16 * (x * (s * (l * ((k + 1) * ((k + 1) * m))))) := fun s x => by
    rw [ggswBytes, hm]; ring
  have el : l * (k + 1) * N = 16 * (l * (k + 1) * m) := by rw [hm]; ring
  have et : ∀ x, x * ((k + 1) * N) = 16 * (x * ((k + 1) * m)) := fun x => by rw [hm]; ring
  simp only [show r + logN - r = logN by omega, region, rotateSize, cbsVpSize, ggswStart, cbsBytes, eg, el, et, pad]
  generalize (r + logN) * l * (k * N + 1) = a
  generalize (r + logN) * l * (n + 1) = b
  generalize (r + logN) * l * (k + 1) * (k * N + 1) = d
  generalize l * (k + 1) * m = c
  generalize (r + logN) * (T * (l * ((k + 1) * ((k + 1) * m)))) = g
  generalize r * (8 * (l * ((k + 1) * ((k + 1) * m)))) = tf
  generalize logN * (8 * (l * ((k + 1) * ((k + 1) * m)))) = rf
  generalize 2 ^ r * tau * ((k + 1) * m) = t1
  generalize tau * ((k + 1) * m) = t2
  generalize amortizedScratch T N k ((r + logN) * l) sm = A at *
  generalize (r + logN) * l = count
  generalize fftBytes N sm = ff at *
  generalize rotateBlocks T N k tau sm = rb at *
  clear eg el et htree hs1 hb hlc hsm c1 c2 c3 c4 c5 c6 hk hN hm hm0 hr hlog
  constructor
  · intro x
    rcases hT with rfl | rfl <;> cases x <;> simp only [Region.Inside, Region.Aligned] <;>
      exact ⟨by omega, by omega⟩
  · refine apart_of_chain _ fun x y hxy => ?_
    rcases hT with rfl | rfl <;> cases x <;> cases y <;>
      first
        | exact absurd hxy (by decide)
        | (simp only; omega)

theorem pow_slice {r layer x y tau : Nat} (hx : x < 2 ^ (r - 1 - layer)) (hy : y < tau) :
    treeBlockId r layer x y < 2 ^ (r - 1) * tau := by
  have h1 : 2 ^ (r - 1 - layer) ≤ 2 ^ (r - 1) := Nat.pow_le_pow_right (by norm_num) (by omega)
  have h2 := slice_le (2 ^ (r - 1 - layer)) y tau hy
  have h3 : 2 ^ (r - 1 - layer) * tau ≤ 2 ^ (r - 1) * tau := Nat.mul_le_mul_right _ h1
  rw [treeBlockId]
  omega

theorem block_inj {q x y x' y' : Nat} (hx : x < q) (hx' : x' < q) (h : (x, y) ≠ (x', y')) :
    x + y * q ≠ x' + y' * q := by
  intro e
  have h1 : y = y' := by
    by_contra hne
    rcases slices q y y' hne with h | h <;> omega
  subst h1
  exact h (by rw [show x = x' by omega])

/-- C87, the blocks of a layer of the trees: the arrays of the blocks lie in the memory that is kept for the blocks, or
in the shared memory of the launch, which a block may use. They are aligned and no two of them share a byte. -/
theorem C87_tree_blocks (T N k r tau sm mem blocks layer : Nat) (hT : T = 4 ∨ T = 8) (hN : N ∈ pbsSizes) (hr : 0 < r)
    (hr2 : r < 2 ^ 32) (hb : treeBlocks T N k r tau sm = some blocks) (ha : 16 ∣ mem) :
    treeShared T N k sm ≤ sm ∧
    (∀ x y a, x < 2 ^ (r - 1 - layer) → y < tau →
      (treeBlock T N k sm mem (treeBlockId r layer x y) a).Inside (mem + blocks) (treeShared T N k sm) ∧
      (sm < cmuxBytes T N k → mem ≤ (treeBlock T N k sm mem (treeBlockId r layer x y) a).start) ∧
      (treeBlock T N k sm mem (treeBlockId r layer x y) a).Aligned) ∧
    (∀ x y a x' y' a', x < 2 ^ (r - 1 - layer) → x' < 2 ^ (r - 1 - layer) → (x, y, a) ≠ (x', y', a') →
      (treeBlock T N k sm mem (treeBlockId r layer x y) a).Apart
        (treeBlock T N k sm mem (treeBlockId r layer x' y') a')) := by
  obtain ⟨m, hm, hm0, -⟩ := pbsSizes_mod hN
  obtain ⟨c1, c2, c3, c4, -, -⟩ := cmux_bytes T N k m hT hm
  have dA := dvd_T hT c3
  have dF : 16 * (N / 2) = 128 * m := by omega
  have dR : 16 ∣ 16 * ((k + 1) * N / 2) := ⟨_, rfl⟩
  rw [c2] at c1
  rw [treeBlocks] at hb
  by_cases h : sm < cmuxBytes T N k
  · simp only [treeShared, treeBlock, h, if_true] at hb ⊢
    have hrm : (r + 2 ^ 32 - 1) % 2 ^ 32 = r - 1 := by omega
    rw [hrm, shl1] at hb
    split_ifs at hb with hr31
    swap
    · simp at hb
    simp only [Option.map_some, Option.some.injEq] at hb
    refine ⟨Nat.zero_le _, ?_, ?_⟩
    · intro x y a hx hy
      have s1 := slice_le (cmuxBytes T N k) _ _ (pow_slice hx hy)
      rw [show cmuxBytes T N k * (2 ^ (r - 1) * tau) = blocks by rw [← hb]; ring] at s1
      have d1 : 16 ∣ treeBlockId r layer x y * cmuxBytes T N k := Dvd.dvd.mul_left (by rw [c2]; exact c1) _
      have t1 := dvd_T hT d1
      have t2 := dvd_T hT ha
      generalize treeBlockId r layer x y * cmuxBytes T N k = p at *
      rw [c2] at s1
      cases a <;> simp only [cmuxRegion, Region.Inside, Region.Aligned, c4] <;>
        generalize T * ((k + 1) * N) = A at * <;> generalize 16 * ((k + 1) * N / 2) = R at * <;>
        refine ⟨by omega, fun _ => by omega, ?_⟩ <;> first | omega | exact Nat.one_dvd _ | exact Nat.dvd_add t2 t1
    · intro x y a x' y' a' hx hx' hne
      by_cases e : (x, y) = (x', y')
      · obtain ⟨rfl, rfl⟩ := Prod.mk.inj e
        have hab : a ≠ a' := fun h => hne (by rw [h])
        generalize treeBlockId r layer x y * cmuxBytes T N k = p at *
        cases a <;> cases a' <;> first | exact absurd rfl hab | (simp only [cmuxRegion, Region.Apart, c4]; omega)
      · have s1 := slices (cmuxBytes T N k) _ _ (block_inj hx hx' e)
        simp only [treeBlockId] at *
        generalize (x + y * 2 ^ (r - 1 - layer)) * cmuxBytes T N k = p at *
        generalize (x' + y' * 2 ^ (r - 1 - layer)) * cmuxBytes T N k = p' at *
        rw [c2] at s1
        cases a <;> cases a' <;> simp only [cmuxRegion, Region.Apart, c4] <;>
          generalize T * ((k + 1) * N) = A at * <;> generalize 16 * ((k + 1) * N / 2) = R at * <;> omega
  · simp only [treeShared, treeBlock, h, if_false]
    refine ⟨by omega, ?_, ?_⟩
    · intro x y a hx hy
      rw [c2]
      cases a <;> simp only [cmuxRegion, Region.Inside, Region.Aligned, c4] <;>
        generalize T * ((k + 1) * N) = A at * <;> generalize 16 * ((k + 1) * N / 2) = R at * <;>
        refine ⟨by omega, fun hf => absurd hf (by simp), ?_⟩ <;>
        first | omega | exact Nat.one_dvd _ | exact Dvd.intro 0 rfl
    · intro x y a x' y' a' hx hx' hne
      by_cases e : (x, y) = (x', y')
      · obtain ⟨rfl, rfl⟩ := Prod.mk.inj e
        have hab : a ≠ a' := fun h => hne (by rw [h])
        cases a <;> cases a' <;> first | exact absurd rfl hab | (simp only [cmuxRegion, Region.Apart, c4]; omega)
      · have hne2 := block_inj hx hx' e
        left
        cases a <;> cases a' <;> simp only [cmuxRegion, treeBlockId, ne_eq, Space.shared.injEq] <;> exact hne2

/-- C87, the blocks of the blind rotation: as above. -/
theorem C87_rotation_blocks (T N k tau sm mem : Nat) (hT : T = 4 ∨ T = 8) (hN : N ∈ pbsSizes) (ha : 16 ∣ mem) :
    rotShared T N k sm ≤ sm ∧
    (∀ b a, b < tau →
      (rotBlock T N k sm mem b a).Inside (mem + rotateBlocks T N k tau sm) (rotShared T N k sm) ∧
      (sm < rotateBytes T N k → mem ≤ (rotBlock T N k sm mem b a).start) ∧ (rotBlock T N k sm mem b a).Aligned) ∧
    (∀ b a b' a', (b, a) ≠ (b', a') → (rotBlock T N k sm mem b a).Apart (rotBlock T N k sm mem b' a')) := by
  obtain ⟨m, hm, hm0, -⟩ := pbsSizes_mod hN
  obtain ⟨c1, c2, c3, c4, c5, c6⟩ := cmux_bytes T N k m hT hm
  have dA := dvd_T hT c3
  have dF : 16 * (N / 2) = 128 * m := by omega
  have dR : 16 ∣ 16 * ((k + 1) * N / 2) := ⟨_, rfl⟩
  rw [c2] at c6
  by_cases h : sm < rotateBytes T N k
  · simp only [rotShared, rotBlock, rotateBlocks, h, if_true]
    refine ⟨Nat.zero_le _, ?_, ?_⟩
    · intro b a hb
      have s1 := slice_le (rotateBytes T N k) b tau hb
      have d1 : 16 ∣ b * rotateBytes T N k := c5.mul_left _
      have t1 := dvd_T hT d1
      have t2 := dvd_T hT ha
      generalize b * rotateBytes T N k = p at *
      generalize rotateBytes T N k * tau = q at *
      rw [c6] at s1
      cases a <;> simp only [cmuxRegion, Region.Inside, Region.Aligned, c4] <;>
        generalize T * ((k + 1) * N) = A at * <;> generalize 16 * ((k + 1) * N / 2) = R at * <;>
        refine ⟨by omega, fun _ => by omega, ?_⟩ <;>
        first
          | omega
          | exact Nat.dvd_add t2 t1
          | exact Nat.dvd_add (Nat.dvd_add t2 t1) dA
          | exact Nat.dvd_add (Nat.dvd_add (Nat.dvd_add t2 t1) dA) dA
    · intro b a b' a' hne
      by_cases e : b = b'
      · subst e
        have hab : a ≠ a' := fun h => hne (by rw [h])
        generalize b * rotateBytes T N k = p at *
        cases a <;> cases a' <;> first | exact absurd rfl hab | (simp only [cmuxRegion, Region.Apart, c4]; omega)
      · have s1 := slices (rotateBytes T N k) _ _ e
        generalize b * rotateBytes T N k = p at *
        generalize b' * rotateBytes T N k = p' at *
        rw [c6] at s1
        cases a <;> cases a' <;> simp only [cmuxRegion, Region.Apart, c4] <;>
          generalize T * ((k + 1) * N) = A at * <;> generalize 16 * ((k + 1) * N / 2) = R at * <;> omega
  · simp only [rotShared, rotBlock, rotateBlocks, h, if_false]
    refine ⟨by omega, ?_, ?_⟩
    · intro b a hb
      rw [c6]
      cases a <;> simp only [cmuxRegion, Region.Inside, Region.Aligned, c4] <;>
        generalize T * ((k + 1) * N) = A at * <;> generalize 16 * ((k + 1) * N / 2) = R at * <;>
        refine ⟨by omega, fun hf => absurd hf (by simp), ?_⟩ <;>
        first
          | omega
          | exact Dvd.intro 0 rfl
          | exact Nat.dvd_add (Dvd.intro 0 rfl) dA
          | exact Nat.dvd_add (Nat.dvd_add (Dvd.intro 0 rfl) dA) dA
    · intro b a b' a' hne
      by_cases e : b = b'
      · subst e
        have hab : a ≠ a' := fun h => hne (by rw [h])
        cases a <;> cases a' <;> first | exact absurd rfl hab | (simp only [cmuxRegion, Region.Apart, c4]; omega)
      · left
        cases a <;> cases a' <;> simp only [cmuxRegion, ne_eq, Space.shared.injEq] <;> exact e

end Verif.Cuda.Wm
