import Verif.Model.Motion
import Verif.Props.Quadtree
/-
Geometry for C85 and C86: blocks to the left of and above a coding unit have been decoded before it, and so has the block to the top right if the
table says so.
-/
namespace Davs2.Mo
open Davs2.Qt Davs2.Spec

theorem z_mono (k : Nat) : ∀ x y a b : Nat, x < 2 ^ k → y < 2 ^ k → a < 2 ^ k → b < 2 ^ k → x ≤ a → y ≤ b →
    zOrder k x y ≤ zOrder k a b := by
  induction k with
  | zero => intros; exact Nat.le_refl _
  | succ k ih =>
    intro x y a b hx hy ha hb h1 h2
    have hp := Nat.two_pow_pos k
    rw [Nat.pow_succ] at hx hy ha hb
    have d : ∀ v, v < 2 ^ k * 2 → (v < 2 ^ k ∧ v / 2 ^ k % 2 = 0) ∨
        (2 ^ k ≤ v ∧ v / 2 ^ k % 2 = 1) := by
      intro v hv
      by_cases h : v < 2 ^ k
      · exact Or.inl ⟨h, by rw [Nat.div_eq_of_lt h]⟩
      · refine Or.inr ⟨by omega, ?_⟩
        rw [show v / 2 ^ k = 1 by apply Nat.div_eq_of_lt_le <;> omega]
    have m : ∀ v w, zOrder k v w = zOrder k (v % 2 ^ k) (w % 2 ^ k) := fun v w => (z_mod k v w).symm
    have r : ∀ v, v < 2 ^ k * 2 → 2 ^ k ≤ v → v % 2 ^ k = v - 2 ^ k := by
      intro v h1 h2
      rw [Nat.mod_eq_sub_mod h2, Nat.mod_eq_of_lt (by omega)]
    have b1 := z_lt k x y
    have b2 := z_lt k a b
    simp only [zOrder]
    have p4 := Nat.pow_pos (n := k) (show 0 < 4 by omega)
    have up : ∀ i j : Nat, i < j → ∀ s t : Nat, s < 4 ^ k → 4 ^ k * i + s ≤ 4 ^ k * j + t := by
      intro i j hij s t hs
      have := Nat.mul_le_mul_left (4 ^ k) (show i + 1 ≤ j from hij)
      rw [Nat.mul_add] at this
      omega
    have same : x / 2 ^ k % 2 = a / 2 ^ k % 2 → y / 2 ^ k % 2 = b / 2 ^ k % 2 →
        zOrder k x y ≤ zOrder k a b := by
      intro e1 e2
      rw [m x y, m a b]
      have c : ∀ v w, v ≤ w → v < 2 ^ k * 2 → w < 2 ^ k * 2 → v / 2 ^ k % 2 = w / 2 ^ k % 2 → v % 2 ^ k ≤ w % 2 ^ k := by
        intro v w hvw hv hw e
        rcases d v hv with ⟨c1, c2⟩ | ⟨c1, c2⟩ <;> rcases d w hw with ⟨c3, c4⟩ | ⟨c3, c4⟩
        · rw [Nat.mod_eq_of_lt c1, Nat.mod_eq_of_lt c3]; exact hvw
        · omega
        · omega
        · rw [r v hv c1, r w hw c3]; omega
      exact ih _ _ _ _ (Nat.mod_lt _ hp) (Nat.mod_lt _ hp) (Nat.mod_lt _ hp) (Nat.mod_lt _ hp)
        (c x a h1 hx ha e1) (c y b h2 hy hb e2)
    rcases d x hx with ⟨c1, c2⟩ | ⟨c1, c2⟩ <;> rcases d a ha with ⟨c3, c4⟩ | ⟨c3, c4⟩ <;>
      rcases d y hy with ⟨c5, c6⟩ | ⟨c5, c6⟩ <;> rcases d b hb with ⟨c7, c8⟩ | ⟨c7, c8⟩ <;>
      first
      | omega
      | (rw [c2, c4, c6, c8]; exact Nat.add_le_add_left (same (by rw [c2, c4]) (by rw [c6, c8])) _)
      | (rw [c2, c4, c6, c8]; exact up _ _ (by omega) _ _ b1)

/-- Monotone within a coding tree. -/
theorem z_mono_tree (k lx ly px py ax ay : Nat) (h1 : lx * 2 ^ k ≤ px) (h2 : ly * 2 ^ k ≤ py) (h3 : px ≤ ax) (h4 : py ≤ ay)
    (h5 : ax < lx * 2 ^ k + 2 ^ k) (h6 : ay < ly * 2 ^ k + 2 ^ k) : zOrder k px py ≤ zOrder k ax ay := by
  obtain ⟨a, rfl⟩ := Nat.exists_eq_add_of_le h1
  obtain ⟨b, rfl⟩ := Nat.exists_eq_add_of_le h2
  obtain ⟨c, rfl⟩ := Nat.exists_eq_add_of_le (Nat.le_trans h1 h3)
  obtain ⟨d, rfl⟩ := Nat.exists_eq_add_of_le (Nat.le_trans h2 h4)
  rw [z_tree, z_tree]
  apply z_mono <;> omega

/-- A point of the coding tree that is not to the right of or below some point of `c`, and not in `c`, lies in an earlier coding unit. -/
theorem earlier {w h lcu lx ly : Nat} (hw : 8 ∣ w) (hh : 8 ∣ h) (h3 : 3 ≤ lcu)
    (split : Nat → Nat → Nat → Bool) (h1 : lx * 2 ^ lcu < w) (h2 : ly * 2 ^ lcu < h) (pre post : List Cu) (c : Cu)
    (hl : parse w h split (lcu - 3) (lx * 2 ^ lcu) (ly * 2 ^ lcu) = pre ++ c :: post)
    {px py ax ay : Nat} (hp : lx * 2 ^ lcu ≤ px) (hp' : ly * 2 ^ lcu ≤ py) (hx : px ≤ ax) (hy : py ≤ ay)
    (ha : c.has ax ay) (hn : ¬ c.has px py) : ∃ d ∈ pre, d.has px py := by
  have hc : c ∈ parse w h split (lcu - 3) (lx * 2 ^ lcu) (ly * 2 ^ lcu) := by rw [hl]; simp
  have f := tree_fits hw hh h3 split h1 h2 c hc
  have bef := tree_before hw hh h3 split h1 h2
  rw [hl] at bef
  have e : lcu - 3 + 3 = lcu := by omega
  obtain ⟨a1, a2, a3, a4⟩ := ha
  have x2 := f.x2
  have y2 := f.y2
  have iw := f.inw
  have ih := f.inh
  obtain ⟨d, hd, hd'⟩ := parse_cover (w := w) (h := h) split (lcu - 3) (lx * 2 ^ lcu) (ly * 2 ^ lcu) px py hp
    (by rw [e]; omega) hp' (by rw [e]; omega) (by omega) (by omega)
  rw [hl] at hd
  rw [List.pairwise_append, List.pairwise_cons] at bef
  obtain ⟨b1, ⟨b2, b3⟩, b4⟩ := bef
  rw [List.mem_append, List.mem_cons] at hd
  rcases hd with hd | rfl | hd
  · exact ⟨d, hd, hd'⟩
  · exact absurd hd' hn
  · have := b2 d hd ax ay px py ⟨a1, a2, a3, a4⟩ hd'
    have := z_mono_tree lcu lx ly px py ax ay hp hp' hx hy (by omega) (by omega)
    omega

/-- The table has an entry for every block of a coding unit. -/
theorem tr_some {w h lcu lx ly : Nat} (hw : 8 ∣ w) (hh : 8 ∣ h) (h4 : 4 ≤ lcu) (h6 : lcu ≤ 6)
    (split : Nat → Nat → Nat → Bool) (h1 : lx * 2 ^ lcu < w) (h2 : ly * 2 ^ lcu < h) (c : Cu)
    (hc : c ∈ parse w h split (lcu - 3) (lx * 2 ^ lcu) (ly * 2 ^ lcu))
    (bx by_ bw : Nat) (hb : 0 < bw) (b1 : c.x ≤ 4 * bx) (b2 : 4 * (bx + bw) ≤ c.x + 2 ^ c.l) :
    ∃ b, availTR lcu bx by_ bw = some b := by
  have f := tree_fits hw hh (by omega) split h1 h2 c hc
  obtain ⟨f1, f2, f3, f4, f5, f6, f7, f8, f9, f10⟩ := f
  have hu := tree_unit h4
  have hn := Nat.two_pow_pos (lcu - 2)
  have hm : lcu ∈ [4, 5, 6] := by simp only [List.mem_cons, List.not_mem_nil, or_false]; omega
  have ex : lx * 2 ^ lcu = 4 * (lx * 2 ^ (lcu - 2)) := by rw [hu]; ring
  obtain ⟨rx, hrx⟩ := Nat.exists_eq_add_of_le (show lx * 2 ^ (lcu - 2) ≤ bx by omega)
  have m1 : bx % 2 ^ (lcu - 2) = rx := by
    rw [hrx, Nat.mul_comm lx, Nat.mul_add_mod, Nat.mod_eq_of_lt (by omega)]
  have t := table_TR lcu hm (rx + bw - 1) (by omega) (by_ % 2 ^ (lcu - 2)) (Nat.mod_lt _ hn)
  refine ⟨_, by unfold availTR; rw [m1]; exact t⟩

end Davs2.Mo
