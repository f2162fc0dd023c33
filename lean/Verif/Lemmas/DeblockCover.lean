import Verif.Lemmas.DeblockOrder
import Mathlib.Data.List.Range
/-
The edges visited by `davs2_lcu_deblock` over a whole picture.
-/
namespace Davs2.Db

theorem mem_rect {x y w h : Nat} {d d' : Dir} {a b : Nat} :
    (d', a, b) ∈ rect x y w h d ↔ d' = d ∧ x ≤ a ∧ a < x + w ∧ y ≤ b ∧ b < y + h := by
  unfold rect
  simp only [List.mem_flatMap, List.mem_map, List.mem_range, Prod.mk.injEq]
  constructor
  · rintro ⟨j, hj, i, hi, rfl, rfl, rfl⟩
    refine ⟨rfl, ?_, ?_, ?_, ?_⟩ <;> omega
  · rintro ⟨rfl, h1, h2, h3, h4⟩
    refine ⟨b - y, by omega, a - x, by omega, rfl, ?_, ?_⟩ <;> omega

theorem nodup_rect (x y w h : Nat) (d : Dir) : (rect x y w h d).Nodup := by
  unfold rect
  rw [List.nodup_flatMap]
  refine ⟨?_, ?_⟩
  · intro j _
    refine List.Nodup.map ?_ List.nodup_range
    intro a b hab
    simp only [Prod.mk.injEq] at hab
    omega
  · refine List.Pairwise.imp ?_ (List.nodup_range (n := h))
    intro a b hab e h1 h2
    simp only [List.mem_map] at h1 h2
    obtain ⟨i, _, rfl⟩ := h1
    obtain ⟨j, _, h3⟩ := h2
    simp only [Prod.mk.injEq] at h3
    omega

theorem mem_lcu_ver {w h n lx ly a b : Nat} :
    (Dir.ver, a, b) ∈ lcuDeblock w h n lx ly ↔
      lx * n ≤ a ∧ a < lx * n + n ∧ a < w ∧ ly * n ≤ b ∧ b < ly * n + n ∧ b < h := by
  unfold lcuDeblock
  generalize lx * n = sx
  generalize ly * n = sy
  dsimp only
  split
  · simp only [List.mem_append, mem_rect, reduceCtorEq, false_and, or_false, true_and]; omega
  · split <;> simp only [List.mem_append, mem_rect, reduceCtorEq, false_and, or_false, true_and] <;> omega

/-- Range of columns of the horizontal edges of a coding tree. -/
theorem mem_lcu_hor {w h n lx ly a b : Nat} (hl : lx * n < w) (hn : 0 < n) :
    (Dir.hor, a, b) ∈ lcuDeblock w h n lx ly ↔
      (lx * n ≤ a + 1 ∧ (a + 1 < lx * n + n ∧ a + 1 < w ∨ 0 < lx ∧ w ≤ lx * n + n ∧ a < w)) ∧
        ly * n ≤ b ∧ b < ly * n + n ∧ b < h := by
  have h0 : lx = 0 ↔ lx * n = 0 := by
    constructor
    · rintro rfl; simp
    · intro h; rcases Nat.mul_eq_zero.mp h with h | h <;> omega
  unfold lcuDeblock
  generalize lx * n = sx at *
  generalize ly * n = sy
  dsimp only
  split
  · rename_i h1
    simp only [List.mem_append, mem_rect, reduceCtorEq, false_and, false_or, true_and]
    have := h0.mpr h1
    omega
  · rename_i h1
    have : lx ≠ 0 := fun h => h1 (h0.mp h)
    split <;> simp only [List.mem_append, mem_rect, reduceCtorEq, false_and, false_or, true_and] <;> omega

theorem nodup_lcu (w h n lx ly : Nat) : (lcuDeblock w h n lx ly).Nodup := by
  unfold lcuDeblock
  dsimp only
  rw [List.nodup_append]
  refine ⟨nodup_rect _ _ _ _ _, ?_, ?_⟩
  · split
    · exact nodup_rect _ _ _ _ _
    · split <;> exact nodup_rect _ _ _ _ _
  · rintro ⟨d, a, b⟩ ha ⟨d', a', b'⟩ hb heq
    obtain rfl : d = .ver := (mem_rect.mp ha).1
    have : d' = .hor := by
      split at hb
      · exact (mem_rect.mp hb).1
      · split at hb <;> exact (mem_rect.mp hb).1
    subst this
    simp at heq

theorem lt_ceil {w n l : Nat} (hn : 0 < n) : l < (w + n - 1) / n ↔ l * n < w := by
  rw [Nat.lt_div_iff_mul_lt hn]
  omega

theorem step_le {n a b : Nat} (h : a < b) : a * n + n ≤ b * n := by
  have := Nat.mul_le_mul_right n (show a + 1 ≤ b from h)
  rw [Nat.add_mul] at this
  omega

theorem mem_pic {w h n : Nat} (hn : 0 < n) {e : Dir × Nat × Nat} :
    e ∈ picDeblock w h n ↔ ∃ ly lx, ly * n < h ∧ lx * n < w ∧ e ∈ lcuDeblock w h n lx ly := by
  unfold picDeblock
  simp only [List.mem_flatMap, List.mem_range, lt_ceil hn]
  constructor
  · rintro ⟨ly, h1, lx, h2, h3⟩; exact ⟨ly, lx, h1, h2, h3⟩
  · rintro ⟨ly, lx, h1, h2, h3⟩; exact ⟨ly, h1, lx, h2, h3⟩

theorem div_bounds (a n : Nat) (hn : 0 < n) : a / n * n ≤ a ∧ a < a / n * n + n := by
  have h1 := Nat.div_add_mod a n
  have h2 := Nat.mod_lt a hn
  rw [Nat.mul_comm] at h1
  omega

theorem pic_ver {w h n x y : Nat} (hn : 0 < n) : (Dir.ver, x, y) ∈ picDeblock w h n ↔ x < w ∧ y < h := by
  rw [mem_pic hn]
  constructor
  · rintro ⟨ly, lx, _, _, h3⟩
    rw [mem_lcu_ver] at h3
    omega
  · rintro ⟨h1, h2⟩
    have b1 := div_bounds x n hn
    have b2 := div_bounds y n hn
    refine ⟨y / n, x / n, by omega, by omega, ?_⟩
    rw [mem_lcu_ver]
    omega

theorem pic_hor {w h n x y : Nat} (hn : 0 < n) :
    (Dir.hor, x, y) ∈ picDeblock w h n ↔ x < w ∧ y < h ∧ (n < w ∨ x + 1 < w) := by
  rw [mem_pic hn]
  constructor
  · rintro ⟨ly, lx, h1, h2, h3⟩
    rw [mem_lcu_hor h2 hn] at h3
    rcases h3 with ⟨⟨h3, h4 | ⟨h4, h5, h6⟩⟩, h7, h8, h9⟩
    · omega
    · have := step_le (n := n) h4
      omega
  · rintro ⟨h1, h2, h3⟩
    have b2 := div_bounds y n hn
    by_cases hx : x + 1 < w
    · have b1 := div_bounds (x + 1) n hn
      refine ⟨y / n, (x + 1) / n, by omega, by omega, ?_⟩
      rw [mem_lcu_hor (by omega) hn]
      omega
    · have hw : n < w := by omega
      have b1 := div_bounds x n hn
      refine ⟨y / n, x / n, by omega, by omega, ?_⟩
      rw [mem_lcu_hor (by omega) hn]
      have : 0 < x / n := Nat.div_pos (by omega) hn
      omega

/-- Property of all pairs of edges in visiting order. -/
theorem pairwise_pic {w h n : Nat} (hn : 0 < n) (R : Dir × Nat × Nat → Dir × Nat × Nat → Prop)
    (h0 : ∀ lx ly, lx * n < w → ly * n < h → (lcuDeblock w h n lx ly).Pairwise R)
    (h1 : ∀ lx lx' ly, lx < lx' → lx' * n < w → ly * n < h →
      ∀ a ∈ lcuDeblock w h n lx ly, ∀ b ∈ lcuDeblock w h n lx' ly, R a b)
    (h2 : ∀ lx lx' ly ly', ly < ly' → lx * n < w → lx' * n < w → ly' * n < h →
      ∀ a ∈ lcuDeblock w h n lx ly, ∀ b ∈ lcuDeblock w h n lx' ly', R a b) :
    (picDeblock w h n).Pairwise R := by
  unfold picDeblock
  rw [List.pairwise_flatMap]
  refine ⟨?_, ?_⟩
  · intro ly hly
    rw [List.mem_range, lt_ceil hn] at hly
    rw [List.pairwise_flatMap]
    refine ⟨?_, ?_⟩
    · intro lx hlx
      rw [List.mem_range, lt_ceil hn] at hlx
      exact h0 lx ly hlx hly
    · refine List.Pairwise.imp_of_mem ?_ (List.pairwise_lt_range (n := (w + n - 1) / n))
      intro a b ha hb hab
      rw [List.mem_range, lt_ceil hn] at hb
      exact h1 a b ly hab hb hly
  · refine List.Pairwise.imp_of_mem ?_ (List.pairwise_lt_range (n := (h + n - 1) / n))
    intro a b ha hb hab x hx y hy
    rw [List.mem_range, lt_ceil hn] at hb
    rw [List.mem_flatMap] at hx hy
    obtain ⟨lx, h3, h4⟩ := hx
    obtain ⟨lx', h5, h6⟩ := hy
    rw [List.mem_range, lt_ceil hn] at h3 h5
    exact h2 lx lx' a b hab h3 h5 hb x h4 y h6

theorem mem_lcu_rows {w h n lx ly : Nat} (hn : 0 < n) (hl : lx * n < w) {e : Dir × Nat × Nat}
    (he : e ∈ lcuDeblock w h n lx ly) : ly * n ≤ e.2.2 ∧ e.2.2 < ly * n + n := by
  obtain ⟨d, a, b⟩ := e
  cases d
  · rw [mem_lcu_ver] at he; dsimp only; omega
  · rw [mem_lcu_hor hl hn] at he; dsimp only; omega

theorem nodup_pic {w h n : Nat} (hn : 0 < n) : (picDeblock w h n).Nodup := by
  apply pairwise_pic hn
  · intro lx ly _ _; exact nodup_lcu w h n lx ly
  · rintro lx lx' ly hl hw _ ⟨d, a, b⟩ ha ⟨d', a', b'⟩ hb heq
    cases heq
    have s := step_le (n := n) hl
    cases d
    · rw [mem_lcu_ver] at ha hb; omega
    · rw [mem_lcu_hor (by omega) hn] at ha hb; omega
  · intro lx lx' ly ly' hl hw hw' _ a ha b hb heq
    cases heq
    have s := step_le (n := n) hl
    have h1 := mem_lcu_rows hn hw ha
    have h2 := mem_lcu_rows hn hw' hb
    omega

/-- A horizontal edge is visited before a vertical edge only if they have no sample in common. -/
def HorVer (a b : Dir × Nat × Nat) : Prop :=
  a.1 = .hor → b.1 = .ver → ¬ ((b.2.1 = a.2.1 ∨ b.2.1 = a.2.1 + 1) ∧ (b.2.2 = a.2.2 ∨ b.2.2 + 1 = a.2.2))

theorem horVer_pic {w h n : Nat} (hn : 0 < n) : (picDeblock w h n).Pairwise HorVer := by
  apply pairwise_pic hn
  · intro lx ly _ _
    unfold lcuDeblock
    dsimp only
    have hv : ∀ x y w h, (rect x y w h .ver).Pairwise HorVer := by
      intro x y w h
      refine List.Pairwise.imp_of_mem ?_ (nodup_rect x y w h .ver)
      rintro ⟨d, a, b⟩ ⟨d', a', b'⟩ h1 _ _ e _
      rw [(mem_rect.mp h1).1] at e
      cases e
    have hh : ∀ x y w h, (rect x y w h .hor).Pairwise HorVer := by
      intro x y w h
      refine List.Pairwise.imp_of_mem ?_ (nodup_rect x y w h .hor)
      rintro ⟨d, a, b⟩ ⟨d', a', b'⟩ _ h1 _ _ e
      rw [(mem_rect.mp h1).1] at e
      cases e
    rw [List.pairwise_append]
    refine ⟨hv _ _ _ _, ?_, ?_⟩
    · split
      · exact hh _ _ _ _
      · split <;> exact hh _ _ _ _
    · rintro ⟨d, a, b⟩ h1 b' _ e _
      rw [(mem_rect.mp h1).1] at e
      cases e
  · rintro lx lx' ly hl hw _ ⟨d, a, b⟩ ha ⟨d', a', b'⟩ hb e1 e2
    dsimp only at e1 e2 ⊢
    subst e1 e2
    have s := step_le (n := n) hl
    rw [mem_lcu_hor (by omega) hn] at ha
    rw [mem_lcu_ver] at hb
    omega
  · intro lx lx' ly ly' hl hw hw' _ a ha b hb _ _
    have s := step_le (n := n) hl
    have h1 := mem_lcu_rows hn hw ha
    have h2 := mem_lcu_rows hn hw' hb
    omega

end Davs2.Db
