import Verif.Lemmas.Quadtree
/-
C45: the coding-tree split covers the picture; C46: availability tables and decoding order.
-/
namespace Davs2.Qt
open Davs2.Spec

theorem countP_one {α : Type _} (P : α → Bool) (l : List α) (h1 : ∃ c ∈ l, P c)
    (h2 : l.Pairwise fun c d => P c → ¬ P d) : l.countP P = 1 := by
  induction l with
  | nil => obtain ⟨c, hc, _⟩ := h1; simp at hc
  | cons a l ih =>
    rw [List.pairwise_cons] at h2
    by_cases ha : P a
    · rw [List.countP_cons_of_pos ha, List.countP_eq_zero.mpr]
      intro b hb
      exact h2.1 b hb ha
    · rw [List.countP_cons_of_neg ha]
      apply ih _ h2.2
      obtain ⟨c, hc, hp⟩ := h1
      rcases List.mem_cons.mp hc with e | e
      · rw [e] at hp; exact absurd hp ha
      · exact ⟨c, e, hp⟩

theorem lt_ceil {w n l : Nat} (hn : 0 < n) : l < (w + n - 1) / n ↔ l * n < w := by
  rw [Nat.lt_div_iff_mul_lt hn]
  omega

theorem picture_mem {w h lcu : Nat} {split : Nat → Nat → Nat → Bool} {c : Cu} :
    c ∈ picture w h lcu split ↔ ∃ lx ly, lx * 2 ^ lcu < w ∧ ly * 2 ^ lcu < h ∧
      c ∈ parse w h split (lcu - 3) (lx * 2 ^ lcu) (ly * 2 ^ lcu) := by
  unfold picture
  simp only [List.mem_flatMap, List.mem_range, lt_ceil (Nat.two_pow_pos lcu)]
  constructor
  · rintro ⟨ly, h1, lx, h2, h3⟩; exact ⟨lx, ly, h2, h1, h3⟩
  · rintro ⟨lx, ly, h2, h1, h3⟩; exact ⟨ly, h1, lx, h2, h3⟩

theorem tree_fits {w h lcu lx ly : Nat} (hw : 8 ∣ w) (hh : 8 ∣ h) (hl : 3 ≤ lcu) (split : Nat → Nat → Nat → Bool)
    (h1 : lx * 2 ^ lcu < w) (h2 : ly * 2 ^ lcu < h) (c : Cu)
    (hc : c ∈ parse w h split (lcu - 3) (lx * 2 ^ lcu) (ly * 2 ^ lcu)) :
    Fits w h lcu (lx * 2 ^ lcu) (ly * 2 ^ lcu) c := by
  have e : lcu - 3 + 3 = lcu := by omega
  have := parse_fits hw hh split (lcu - 3) (lx * 2 ^ lcu) (ly * 2 ^ lcu)
    (by rw [e]; exact Nat.dvd_mul_left _ _) (by rw [e]; exact Nat.dvd_mul_left _ _) h1 h2 c hc
  rwa [e] at this

theorem tree_before {w h lcu lx ly : Nat} (hw : 8 ∣ w) (hh : 8 ∣ h) (hl : 3 ≤ lcu) (split : Nat → Nat → Nat → Bool)
    (h1 : lx * 2 ^ lcu < w) (h2 : ly * 2 ^ lcu < h) :
    (parse w h split (lcu - 3) (lx * 2 ^ lcu) (ly * 2 ^ lcu)).Pairwise (Before lcu) := by
  have e : lcu - 3 + 3 = lcu := by omega
  have := parse_before hw hh split (lcu - 3) (lx * 2 ^ lcu) (ly * 2 ^ lcu)
    (by rw [e]; exact Nat.dvd_mul_left _ _) (by rw [e]; exact Nat.dvd_mul_left _ _) h1 h2
  rwa [e] at this

theorem step_le {n a b : Nat} (h : a < b) : a * n + n ≤ b * n := by
  have := Nat.mul_le_mul_right n (show a + 1 ≤ b from h)
  rw [Nat.add_mul] at this
  omega

theorem picture_disj {w h lcu : Nat} (hw : 8 ∣ w) (hh : 8 ∣ h) (hl : 3 ≤ lcu) (split : Nat → Nat → Nat → Bool) :
    (picture w h lcu split).Pairwise Disj := by
  unfold picture
  have hp := Nat.two_pow_pos lcu
  rw [List.pairwise_flatMap]
  refine ⟨?_, ?_⟩
  · intro ly hly
    rw [List.mem_range, lt_ceil hp] at hly
    rw [List.pairwise_flatMap]
    refine ⟨?_, ?_⟩
    · intro lx hlx
      rw [List.mem_range, lt_ceil hp] at hlx
      exact (tree_before hw hh hl split hlx hly).imp disj_of_before
    · refine List.Pairwise.imp_of_mem ?_ (List.pairwise_lt_range (n := (w + 2 ^ lcu - 1) / 2 ^ lcu))
      intro a b ha hb hab c hc d hd px py h1 h2
      rw [List.mem_range, lt_ceil hp] at ha hb
      have f1 := tree_fits hw hh hl split ha hly c hc
      have f2 := tree_fits hw hh hl split hb hly d hd
      have s := step_le (n := 2 ^ lcu) hab
      have g1 := f1.x2
      have g2 := f2.x1
      obtain ⟨p1, p2, _, _⟩ := h1
      obtain ⟨q1, q2, _, _⟩ := h2
      omega
  · refine List.Pairwise.imp_of_mem ?_ (List.pairwise_lt_range (n := (h + 2 ^ lcu - 1) / 2 ^ lcu))
    intro a b ha hb hab c hc d hd px py h1 h2
    rw [List.mem_range, lt_ceil hp] at ha hb
    rw [List.mem_flatMap] at hc hd
    obtain ⟨lx, hlx, hc⟩ := hc
    obtain ⟨lx', hlx', hd⟩ := hd
    rw [List.mem_range, lt_ceil hp] at hlx hlx'
    have f1 := tree_fits hw hh hl split hlx ha c hc
    have f2 := tree_fits hw hh hl split hlx' hb d hd
    have s := step_le (n := 2 ^ lcu) hab
    have g1 := f1.y2
    have g2 := f2.y1
    obtain ⟨_, _, p1, p2⟩ := h1
    obtain ⟨_, _, q1, q2⟩ := h2
    omega

/-- A bitstream that splits the nodes of level 5 and those of level 4 in their left half. -/
def someSplit : Nat → Nat → Nat → Bool := fun l x _ => l == 5 || (l == 4 && x % 32 == 0)

/-- **C45** Whatever the split flags, every sample of the picture belongs to exactly one coding unit. -/
theorem C45_cover (w h lcu : Nat) (hw : 8 ∣ w) (hh : 8 ∣ h) (hl : 3 ≤ lcu) (split : Nat → Nat → Nat → Bool)
    (px py : Nat) (hx : px < w) (hy : py < h) :
    (picture w h lcu split).countP (fun c => c.x ≤ px ∧ px < c.x + 2 ^ c.l ∧ c.y ≤ py ∧ py < c.y + 2 ^ c.l) = 1 := by
  apply countP_one
  · have hp := Nat.two_pow_pos lcu
    have b : ∀ a, a / 2 ^ lcu * 2 ^ lcu ≤ a ∧ a < a / 2 ^ lcu * 2 ^ lcu + 2 ^ lcu := by
      intro a
      have h1 := Nat.div_add_mod a (2 ^ lcu)
      have h2 := Nat.mod_lt a hp
      rw [Nat.mul_comm] at h1
      omega
    have bx := b px
    have bY := b py
    have e : lcu - 3 + 3 = lcu := by omega
    obtain ⟨c, hc, hm⟩ := parse_cover (w := w) (h := h) split (lcu - 3) (px / 2 ^ lcu * 2 ^ lcu) (py / 2 ^ lcu * 2 ^ lcu) px py
      bx.1 (by rw [e]; exact bx.2) bY.1 (by rw [e]; exact bY.2) hx hy
    refine ⟨c, picture_mem.mpr ⟨px / 2 ^ lcu, py / 2 ^ lcu, by omega, by omega, hc⟩, ?_⟩
    rw [decide_eq_true_eq]
    exact hm
  · refine (picture_disj hw hh hl split).imp ?_
    intro c d hcd h1 h2
    rw [decide_eq_true_eq] at h1 h2
    exact hcd px py h1 h2

example : (picture 72 40 5 someSplit).length = 33 ∧ ⟨64, 32, 3⟩ ∈ picture 72 40 5 someSplit := by decide +kernel

/-- **C45** All coding units lie inside the picture, start at a multiple of their size and are not smaller than 8x8 nor larger
than a coding tree. -/
theorem C45_inside (w h lcu : Nat) (hw : 8 ∣ w) (hh : 8 ∣ h) (hl : 3 ≤ lcu) (split : Nat → Nat → Nat → Bool)
    (c : Cu) (hc : c ∈ picture w h lcu split) :
    3 ≤ c.l ∧ c.l ≤ lcu ∧ 2 ^ c.l ∣ c.x ∧ 2 ^ c.l ∣ c.y ∧ c.x + 2 ^ c.l ≤ w ∧ c.y + 2 ^ c.l ≤ h := by
  obtain ⟨lx, ly, h1, h2, h3⟩ := picture_mem.mp hc
  have f := tree_fits hw hh hl split h1 h2 c h3
  exact ⟨f.lo, f.hi, f.dx, f.dy, f.inw, f.inh⟩

/-- Storing coding units in turn: the unit at the corner of each has its level in the end. -/
theorem store_corner (ok : Cu → Bool) (l : List Cu) (m : Levels)
    (h8 : ∀ c ∈ l, 3 ≤ c.l ∧ 8 ∣ c.x ∧ 8 ∣ c.y) (hd : l.Pairwise Disj) :
    (∀ c ∈ l, l.foldl (storeCu ok) m (c.x / 8) (c.y / 8) = c.l) ∧
    (∀ sx sy, (∀ c ∈ l, ¬ c.has (8 * sx) (8 * sy)) → l.foldl (storeCu ok) m sx sy = m sx sy) := by
  induction l generalizing m with
  | nil => exact ⟨fun c hc => absurd hc (by simp), fun _ _ _ => rfl⟩
  | cons a l ih =>
    rw [List.pairwise_cons] at hd
    obtain ⟨i1, i2⟩ := ih (storeCu ok m a) (fun c hc => h8 c (List.mem_cons_of_mem _ hc)) hd.2
    obtain ⟨a1, a2, a3⟩ := h8 a List.mem_cons_self
    have hpos := Nat.two_pow_pos a.l
    refine ⟨?_, ?_⟩
    · intro c hc
      rw [List.foldl_cons]
      rcases List.mem_cons.mp hc with e | e
      · subst e
        have ex : 8 * (c.x / 8) = c.x := by omega
        have ey : 8 * (c.y / 8) = c.y := by omega
        rw [i2 _ _ ?_]
        · simp [storeCu]
        · intro d hd' hh
          rw [ex, ey] at hh
          exact hd.1 d hd' c.x c.y ⟨Nat.le_refl _, by omega, Nat.le_refl _, by omega⟩ hh
      · exact i1 c e
    · intro sx sy hs
      rw [List.foldl_cons, i2 sx sy fun c hc => hs c (List.mem_cons_of_mem _ hc)]
      have ha := hs a List.mem_cons_self
      have e8 : (2 : Nat) ^ a.l = 8 * 2 ^ (a.l - 3) := by
        obtain ⟨d, hd⟩ := Nat.exists_eq_add_of_le a1
        rw [hd, Nat.pow_add, show 3 + d - 3 = d by omega]
      have hq := Nat.two_pow_pos (a.l - 3)
      unfold storeCu
      rw [if_neg, if_neg]
      · rintro ⟨_, h1, h2, h3, h4⟩
        apply ha
        refine ⟨?_, ?_, ?_, ?_⟩ <;> omega
      · rintro ⟨h1, h2⟩
        apply ha
        refine ⟨?_, ?_, ?_, ?_⟩ <;> omega

theorem recon_of_levels {w h : Nat} (hw : 8 ∣ w) (hh : 8 ∣ h) (split : Nat → Nat → Nat → Bool) (m : Levels) :
    ∀ k x y, 2 ^ (k + 3) ∣ x → 2 ^ (k + 3) ∣ y → x < w → y < h →
      (∀ c ∈ parse w h split k x y, m (c.x / 8) (c.y / 8) = c.l) → recon w h m k x y = parse w h split k x y := by
  intro k
  induction k with
  | zero => intros; rfl
  | succ k ih =>
    intro x y hx hy h1 h2 hm
    have e : (2 : Nat) ^ (k + 1 + 3) = 2 * 2 ^ (k + 3) := by rw [Nat.pow_succ]; ring
    have hp := Nat.two_pow_pos (k + 3)
    rcases parse_cases w h split k x y with ⟨hq, hin⟩ | hq
    · rw [hq] at hm ⊢
      have := hm _ (List.mem_singleton_self _)
      dsimp only at this
      simp only [recon]
      rw [if_neg (by omega)]
    · rw [hq] at hm ⊢
      have hx' := hx
      have hy' := hy
      rw [e] at hx' hy'
      have c0 := child_dvd (b := 0) hx'
      have c0' := child_dvd (b := 0) hy'
      rw [Nat.zero_mul, Nat.add_zero] at c0 c0'
      obtain ⟨c, hc, hh'⟩ := parse_cover (w := w) (h := h) split k x y x y (Nat.le_refl _) (by omega) (Nat.le_refl _) (by omega) h1 h2
      have f := parse_fits hw hh split k x y c0 c0' h1 h2 c hc
      have hmem : c ∈ quarters w h (parse w h split k) (2 ^ (k + 3)) x y := by
        rw [quarters, List.mem_flatMap]
        refine ⟨0, by simp, ?_⟩
        simp only [Nat.zero_mod, Nat.zero_div, Nat.zero_mul, Nat.add_zero]
        rw [if_pos ⟨h1, h2⟩]
        exact hc
      have hl := hm c hmem
      have ex : c.x = x := Nat.le_antisymm hh'.1 f.x1
      have ey : c.y = y := Nat.le_antisymm hh'.2.2.1 f.y1
      rw [ex, ey] at hl
      have := f.hi
      simp only [recon]
      rw [if_pos (by omega)]
      unfold quarters
      refine List.flatMap_congr ?_
      intro i hi
      rw [List.mem_range] at hi
      split
      · rename_i hin
        apply ih _ _ (child_dvd hx') (child_dvd hy') hin.1 hin.2
        intro d hd
        apply hm
        rw [quarters, List.mem_flatMap]
        refine ⟨i, List.mem_range.mpr hi, ?_⟩
        rw [if_pos hin]
        exact hd
      · rfl

/-- **C45** Reconstruction visits exactly the coding units that were parsed, in the same order, although it knows only the stored
levels, whatever was stored before (`m`) and whichever coding units could not be parsed completely (`ok`). -/
theorem C45_recon (w h lcu lx ly : Nat) (hw : 8 ∣ w) (hh : 8 ∣ h) (hl : 3 ≤ lcu) (split : Nat → Nat → Nat → Bool)
    (h1 : lx * 2 ^ lcu < w) (h2 : ly * 2 ^ lcu < h) (ok : Cu → Bool) (m : Levels) :
    recon w h ((parse w h split (lcu - 3) (lx * 2 ^ lcu) (ly * 2 ^ lcu)).foldl (storeCu ok) m) (lcu - 3)
      (lx * 2 ^ lcu) (ly * 2 ^ lcu) = parse w h split (lcu - 3) (lx * 2 ^ lcu) (ly * 2 ^ lcu) := by
  have e : lcu - 3 + 3 = lcu := by omega
  apply recon_of_levels hw hh split
  · rw [e]; exact Nat.dvd_mul_left _ _
  · rw [e]; exact Nat.dvd_mul_left _ _
  · exact h1
  · exact h2
  · apply (store_corner ok _ m ?_ ((tree_before hw hh hl split h1 h2).imp disj_of_before)).1
    intro c hc
    have f := tree_fits hw hh hl split h1 h2 c hc
    have d8 : 8 ∣ 2 ^ c.l := Nat.pow_dvd_pow 2 (m := 3) f.lo
    exact ⟨f.lo, d8.trans f.dx, d8.trans f.dy⟩

example : recon 40 40 ((parse 40 40 someSplit 2 32 0).foldl (storeCu fun _ => false) fun _ _ => 6) 2 32 0 =
    [⟨32, 0, 3⟩, ⟨32, 8, 3⟩, ⟨32, 16, 3⟩, ⟨32, 24, 3⟩] := by decide +kernel

theorem zigzag_table : ∀ lcu ∈ [3, 4, 5, 6], ∀ sx < 2 ^ (lcu - 3), ∀ sy < 2 ^ (lcu - 3),
    (zigzagTab[sy]?.bind fun row => row[sx]?) = some (zOrder lcu (8 * sx) (8 * sy) / 64) ∧
      zOrder lcu (8 * sx) (8 * sy) % 64 = 0 := by
  decide +kernel

/-- Coefficients start at the z-order position of the first sample of the unit. -/
theorem coeff_start {lcu : Nat} (h3 : 3 ≤ lcu) (h6 : lcu ≤ 6) (c : Cu) (hx : 8 ∣ c.x) (hy : 8 ∣ c.y) :
    ∃ z, zscan lcu c = some z ∧ z * 64 = zOrder lcu c.x c.y := by
  have hp := Nat.two_pow_pos (lcu - 3)
  have hm : lcu ∈ [3, 4, 5, 6] := by
    simp only [List.mem_cons, List.not_mem_nil, or_false]; omega
  obtain ⟨t1, t2⟩ := zigzag_table lcu hm (c.x / 8 % 2 ^ (lcu - 3)) (Nat.mod_lt _ hp) (c.y / 8 % 2 ^ (lcu - 3)) (Nat.mod_lt _ hp)
  have e8 : (2 : Nat) ^ lcu = 8 * 2 ^ (lcu - 3) := by
    obtain ⟨d, hd⟩ := Nat.exists_eq_add_of_le h3
    rw [hd, Nat.pow_add, show 3 + d - 3 = d by omega]
  have ex : ∀ x, 8 ∣ x → 8 * (x / 8 % 2 ^ (lcu - 3)) = x % 2 ^ lcu := by
    rintro x ⟨a, rfl⟩
    rw [e8, Nat.mul_div_cancel_left _ (by omega), Nat.mul_mod_mul_left]
  rw [ex _ hx, ex _ hy, z_mod] at t1 t2
  refine ⟨zOrder lcu c.x c.y / 64, ?_, by omega⟩
  unfold zscan
  exact t1

/-- **C45** The coefficients of the coding units of a tree are stored in ranges that do not overlap and lie within the buffer for
one coding tree of 64x64 samples. -/
theorem C45_storage (w h lcu lx ly : Nat) (hw : 8 ∣ w) (hh : 8 ∣ h) (hl : 3 ≤ lcu) (h6 : lcu ≤ 6)
    (split : Nat → Nat → Nat → Bool) (h1 : lx * 2 ^ lcu < w) (h2 : ly * 2 ^ lcu < h) :
    (∀ c ∈ parse w h split (lcu - 3) (lx * 2 ^ lcu) (ly * 2 ^ lcu),
      ∃ s n, coeffRange lcu c = some (s, n) ∧ n = 2 ^ c.l * 2 ^ c.l ∧ s + n ≤ 64 * 64 ∧
      ∃ s' n', coeffRangeC lcu c = some (s', n') ∧ n' = 2 ^ (c.l - 1) * 2 ^ (c.l - 1) ∧ s' + n' ≤ 32 * 32) ∧
    (parse w h split (lcu - 3) (lx * 2 ^ lcu) (ly * 2 ^ lcu)).Pairwise fun c d =>
      (∀ s n s' n', coeffRange lcu c = some (s, n) → coeffRange lcu d = some (s', n') → s + n ≤ s') ∧
      (∀ s n s' n', coeffRangeC lcu c = some (s, n) → coeffRangeC lcu d = some (s', n') → s + n ≤ s') := by
  have p4 : ∀ l, (4 : Nat) ^ l = 2 ^ l * 2 ^ l := fun l => by rw [← Nat.mul_pow]
  have q4 : ∀ l, 3 ≤ l → (4 : Nat) ^ l = 4 * 4 ^ (l - 1) := by
    intro l hl
    conv_lhs => rw [show l = (l - 1) + 1 by omega, Nat.pow_succ, Nat.mul_comm]
  have tree := fun c hc => tree_fits hw hh hl split h1 h2 c hc
  have dv : ∀ c ∈ parse w h split (lcu - 3) (lx * 2 ^ lcu) (ly * 2 ^ lcu), 8 ∣ c.x ∧ 8 ∣ c.y := by
    intro c hc
    have d8 : 8 ∣ 2 ^ c.l := Nat.pow_dvd_pow 2 (m := 3) (tree c hc).lo
    exact ⟨d8.trans (tree c hc).dx, d8.trans (tree c hc).dy⟩
  have last : ∀ c ∈ parse w h split (lcu - 3) (lx * 2 ^ lcu) (ly * 2 ^ lcu),
      zOrder lcu (c.x + (2 ^ c.l - 1)) (c.y + (2 ^ c.l - 1)) = zOrder lcu c.x c.y + (4 ^ c.l - 1) := by
    intro c hc
    have f := tree c hc
    have hp := Nat.two_pow_pos c.l
    rw [z_block f.dx f.dy (by omega) (by omega) (by omega) (by omega) f.hi, z_last _ _ _ f.dx f.dy]
  refine ⟨?_, ?_⟩
  · intro c hc
    have f := tree c hc
    obtain ⟨z, z1, z2⟩ := coeff_start hl h6 c (dv c hc).1 (dv c hc).2
    have b := z_lt lcu (c.x + (2 ^ c.l - 1)) (c.y + (2 ^ c.l - 1))
    have b4 : (4 : Nat) ^ lcu ≤ 4 ^ 6 := Nat.pow_le_pow_right (by omega) h6
    have hp := Nat.pow_pos (n := c.l) (show 0 < 4 by omega)
    rw [last c hc] at b
    have := q4 c.l f.lo
    refine ⟨z * 64, 4 ^ c.l, by simp [coeffRange, z1], p4 _, by omega, z * 16, 4 ^ (c.l - 1), by simp [coeffRangeC, z1], p4 _, by omega⟩
  · refine List.Pairwise.imp_of_mem ?_ (tree_before hw hh hl split h1 h2)
    intro c d hc hd hcd
    have f := tree c hc
    obtain ⟨z, z1, z2⟩ := coeff_start hl h6 c (dv c hc).1 (dv c hc).2
    obtain ⟨z', z1', z2'⟩ := coeff_start hl h6 d (dv d hd).1 (dv d hd).2
    have hp := Nat.two_pow_pos c.l
    have hp' := Nat.two_pow_pos d.l
    have hp4 := Nat.pow_pos (n := c.l) (show 0 < 4 by omega)
    have b := hcd (c.x + (2 ^ c.l - 1)) (c.y + (2 ^ c.l - 1)) d.x d.y ⟨by omega, by omega, by omega, by omega⟩
      ⟨by omega, by omega, by omega, by omega⟩
    rw [last c hc] at b
    have := q4 c.l f.lo
    refine ⟨?_, ?_⟩
    · intro s n s' n' e1 e2
      simp only [coeffRange, z1, z1', Option.map_some, Option.some.injEq, Prod.mk.injEq] at e1 e2
      omega
    · intro s n s' n' e1 e2
      simp only [coeffRangeC, z1, z1', Option.map_some, Option.some.injEq, Prod.mk.injEq] at e1 e2
      omega

example : coeffRange 6 ⟨32, 64 + 32, 5⟩ = some (3072, 1024) ∧ coeffRangeC 6 ⟨8, 8, 3⟩ = some (48, 16) := by decide +kernel

/-! ## C46 -/

theorem table_TR : ∀ lcu ∈ [4, 5, 6], ∀ x < 2 ^ (lcu - 2), ∀ y < 2 ^ (lcu - 2),
    entry (tabTR lcu) x y = some (decide (y = 0 ∨ (x + 1 < 2 ^ (lcu - 2) ∧
      zOrder lcu (4 * (x + 1)) (4 * (y - 1)) < zOrder lcu (4 * x) (4 * y)))) := by
  decide +kernel

theorem table_DL : ∀ lcu ∈ [4, 5, 6], ∀ x < 2 ^ (lcu - 2), ∀ y < 2 ^ (lcu - 2),
    entry (tabDL lcu) x y = some (decide (y + 1 < 2 ^ (lcu - 2) ∧
      (x = 0 ∨ zOrder lcu (4 * (x - 1)) (4 * (y + 1)) < zOrder lcu (4 * x) (4 * y)))) := by
  decide +kernel

theorem z_tree (k a b x y : Nat) : zOrder k (a * 2 ^ k + x) (b * 2 ^ k + y) = zOrder k x y := by
  rw [← z_mod k (a * 2 ^ k + x), Nat.mul_comm a, Nat.mul_comm b, Nat.mul_add_mod, Nat.mul_add_mod, z_mod]

/-- In a list ordered by `Before`, the points of coding units before `c` are those with a smaller position. -/
theorem before_iff {lcu : Nat} {pre post : List Cu} {c : Cu} (hp : (pre ++ c :: post).Pairwise (Before lcu))
    {px py ax ay : Nat} (hcov : ∃ d ∈ pre ++ c :: post, d.has px py) (ha : c.has ax ay) :
    zOrder lcu px py < zOrder lcu ax ay ↔
      (∃ d ∈ pre, d.has px py) ∨ (c.has px py ∧ zOrder lcu px py < zOrder lcu ax ay) := by
  rw [List.pairwise_append, List.pairwise_cons] at hp
  obtain ⟨h1, ⟨h2, h3⟩, h4⟩ := hp
  constructor
  · intro hz
    obtain ⟨d, hd, hh⟩ := hcov
    rw [List.mem_append, List.mem_cons] at hd
    rcases hd with hd | rfl | hd
    · exact Or.inl ⟨d, hd, hh⟩
    · exact Or.inr ⟨hh, hz⟩
    · have := h2 d hd ax ay px py ha hh
      omega
  · rintro (⟨d, hd, hh⟩ | ⟨_, hz⟩)
    · exact h4 d hd c List.mem_cons_self px py ax ay hh ha
    · exact hz

theorem tree_unit {lcu : Nat} (h4 : 4 ≤ lcu) : (2 : Nat) ^ lcu = 4 * 2 ^ (lcu - 2) := by
  obtain ⟨d, hd⟩ := Nat.exists_eq_add_of_le (show 2 ≤ lcu by omega)
  rw [hd, Nat.pow_add, show 2 + d - 2 = d by omega]

/-- **C46** Top-right neighbour of a block of `bw` 4x4 units at `(bx, by_)` inside coding unit `c` of coding tree `(lx, ly)`, whatever
the split decisions: it is considered available exactly if it lies above the coding tree, or inside the coding tree in a coding unit
that comes before `c`, or in `c` itself before the block in z-order. It is never considered available in a tree to the right. -/
theorem C46_top_right (w h lcu lx ly : Nat) (hw : 8 ∣ w) (hh : 8 ∣ h) (h4 : 4 ≤ lcu) (h6 : lcu ≤ 6)
    (split : Nat → Nat → Nat → Bool) (h1 : lx * 2 ^ lcu < w) (h2 : ly * 2 ^ lcu < h) (pre post : List Cu) (c : Cu)
    (hl : parse w h split (lcu - 3) (lx * 2 ^ lcu) (ly * 2 ^ lcu) = pre ++ c :: post)
    (bx by_ bw : Nat) (hb : 0 < bw) (b1 : c.x ≤ 4 * bx) (b2 : 4 * (bx + bw) ≤ c.x + 2 ^ c.l)
    (b3 : c.y ≤ 4 * by_) (b4 : 4 * by_ < c.y + 2 ^ c.l) (hpic : 4 * (bx + bw) < w) :
    ∃ b, availTR lcu bx by_ bw = some b ∧
      (b = true ↔ 4 * by_ = ly * 2 ^ lcu ∨
        (4 * (bx + bw) < (lx + 1) * 2 ^ lcu ∧
          ((∃ d ∈ pre, d.has (4 * (bx + bw)) (4 * (by_ - 1))) ∨
            (c.has (4 * (bx + bw)) (4 * (by_ - 1)) ∧
              zOrder lcu (4 * (bx + bw)) (4 * (by_ - 1)) < zOrder lcu (4 * (bx + bw - 1)) (4 * by_))))) := by
  have hc : c ∈ parse w h split (lcu - 3) (lx * 2 ^ lcu) (ly * 2 ^ lcu) := by rw [hl]; simp
  have f := tree_fits hw hh (by omega) split h1 h2 c hc
  have bef := tree_before hw hh (by omega) split h1 h2
  rw [hl] at bef
  obtain ⟨f1, f2, f3, f4, f5, f6, f7, f8, f9, f10⟩ := f
  have hu := tree_unit h4
  have hn := Nat.two_pow_pos (lcu - 2)
  have hm : lcu ∈ [4, 5, 6] := by simp only [List.mem_cons, List.not_mem_nil, or_false]; omega
  have ex : lx * 2 ^ lcu = 4 * (lx * 2 ^ (lcu - 2)) := by rw [hu]; ring
  have ey : ly * 2 ^ lcu = 4 * (ly * 2 ^ (lcu - 2)) := by rw [hu]; ring
  obtain ⟨rx, hrx⟩ := Nat.exists_eq_add_of_le (show lx * 2 ^ (lcu - 2) ≤ bx by omega)
  obtain ⟨ry, hry⟩ := Nat.exists_eq_add_of_le (show ly * 2 ^ (lcu - 2) ≤ by_ by omega)
  have m1 : bx % 2 ^ (lcu - 2) = rx := by
    rw [hrx, Nat.mul_comm lx, Nat.mul_add_mod, Nat.mod_eq_of_lt (by omega)]
  have m2 : by_ % 2 ^ (lcu - 2) = ry := by
    rw [hry, Nat.mul_comm ly, Nat.mul_add_mod, Nat.mod_eq_of_lt (by omega)]
  have t := table_TR lcu hm (rx + bw - 1) (by omega) ry (by omega)
  refine ⟨_, by unfold availTR; rw [m1, m2]; exact t, ?_⟩
  rw [decide_eq_true_eq]
  have top : ry = 0 ↔ 4 * by_ = ly * 2 ^ lcu := by omega
  rw [top]
  refine or_congr_right' ?_
  intro hnt
  have right : rx + bw - 1 + 1 < 2 ^ (lcu - 2) ↔ 4 * (bx + bw) < (lx + 1) * 2 ^ lcu := by
    rw [Nat.add_mul, ex, Nat.one_mul, hu]
    omega
  rw [right]
  refine and_congr_right ?_
  intro hr
  have z1 : zOrder lcu (4 * (bx + bw)) (4 * (by_ - 1)) = zOrder lcu (4 * (rx + bw - 1 + 1)) (4 * (ry - 1)) := by
    rw [← z_tree lcu lx ly (4 * (rx + bw - 1 + 1)), ex, ey]
    congr 1 <;> omega
  have z2 : zOrder lcu (4 * (bx + bw - 1)) (4 * by_) = zOrder lcu (4 * (rx + bw - 1)) (4 * ry) := by
    rw [← z_tree lcu lx ly (4 * (rx + bw - 1)), ex, ey]
    congr 1 <;> omega
  rw [← z1, ← z2]
  have e : lcu - 3 + 3 = lcu := by omega
  apply before_iff bef
  · rw [← hl]
    rw [Nat.add_mul] at hr
    apply parse_cover <;> first | (rw [e]; omega) | omega
  · refine ⟨?_, ?_, ?_, ?_⟩ <;> omega

/-- **C46** Bottom-left neighbour of a block of `bh` 4x4 units of height: available exactly if it lies to the left of the coding tree, or
inside the coding tree in a coding unit that comes before `c` (or in `c` itself before the block in z-order); never below the
coding tree. -/
theorem C46_bottom_left (w h lcu lx ly : Nat) (hw : 8 ∣ w) (hh : 8 ∣ h) (h4 : 4 ≤ lcu) (h6 : lcu ≤ 6)
    (split : Nat → Nat → Nat → Bool) (h1 : lx * 2 ^ lcu < w) (h2 : ly * 2 ^ lcu < h) (pre post : List Cu) (c : Cu)
    (hl : parse w h split (lcu - 3) (lx * 2 ^ lcu) (ly * 2 ^ lcu) = pre ++ c :: post)
    (bx by_ bh : Nat) (hb : 0 < bh) (b1 : c.x ≤ 4 * bx) (b2 : 4 * bx < c.x + 2 ^ c.l)
    (b3 : c.y ≤ 4 * by_) (b4 : 4 * (by_ + bh) ≤ c.y + 2 ^ c.l) (hpic : 4 * (by_ + bh) < h) :
    ∃ b, availDL lcu bx by_ bh = some b ∧
      (b = true ↔ 4 * (by_ + bh) < (ly + 1) * 2 ^ lcu ∧ (4 * bx = lx * 2 ^ lcu ∨
          ((∃ d ∈ pre, d.has (4 * (bx - 1)) (4 * (by_ + bh))) ∨
            (c.has (4 * (bx - 1)) (4 * (by_ + bh)) ∧
              zOrder lcu (4 * (bx - 1)) (4 * (by_ + bh)) < zOrder lcu (4 * bx) (4 * (by_ + bh - 1)))))) := by
  have hc : c ∈ parse w h split (lcu - 3) (lx * 2 ^ lcu) (ly * 2 ^ lcu) := by rw [hl]; simp
  have f := tree_fits hw hh (by omega) split h1 h2 c hc
  have bef := tree_before hw hh (by omega) split h1 h2
  rw [hl] at bef
  obtain ⟨f1, f2, f3, f4, f5, f6, f7, f8, f9, f10⟩ := f
  have hu := tree_unit h4
  have hn := Nat.two_pow_pos (lcu - 2)
  have hm : lcu ∈ [4, 5, 6] := by simp only [List.mem_cons, List.not_mem_nil, or_false]; omega
  have ex : lx * 2 ^ lcu = 4 * (lx * 2 ^ (lcu - 2)) := by rw [hu]; ring
  have ey : ly * 2 ^ lcu = 4 * (ly * 2 ^ (lcu - 2)) := by rw [hu]; ring
  obtain ⟨rx, hrx⟩ := Nat.exists_eq_add_of_le (show lx * 2 ^ (lcu - 2) ≤ bx by omega)
  obtain ⟨ry, hry⟩ := Nat.exists_eq_add_of_le (show ly * 2 ^ (lcu - 2) ≤ by_ by omega)
  have m1 : bx % 2 ^ (lcu - 2) = rx := by
    rw [hrx, Nat.mul_comm lx, Nat.mul_add_mod, Nat.mod_eq_of_lt (by omega)]
  have m2 : by_ % 2 ^ (lcu - 2) = ry := by
    rw [hry, Nat.mul_comm ly, Nat.mul_add_mod, Nat.mod_eq_of_lt (by omega)]
  have t := table_DL lcu hm rx (by omega) (ry + bh - 1) (by omega)
  refine ⟨_, by unfold availDL; rw [m1, m2]; exact t, ?_⟩
  rw [decide_eq_true_eq]
  have left : rx = 0 ↔ 4 * bx = lx * 2 ^ lcu := by omega
  have down : ry + bh - 1 + 1 < 2 ^ (lcu - 2) ↔ 4 * (by_ + bh) < (ly + 1) * 2 ^ lcu := by
    rw [Nat.add_mul, ey, Nat.one_mul, hu]
    omega
  rw [left, down]
  refine and_congr_right ?_
  intro hr
  refine or_congr_right' ?_
  intro hnt
  have z1 : zOrder lcu (4 * (bx - 1)) (4 * (by_ + bh)) = zOrder lcu (4 * (rx - 1)) (4 * (ry + bh - 1 + 1)) := by
    rw [← z_tree lcu lx ly (4 * (rx - 1)), ex, ey]
    congr 1 <;> omega
  have z2 : zOrder lcu (4 * bx) (4 * (by_ + bh - 1)) = zOrder lcu (4 * rx) (4 * (ry + bh - 1)) := by
    rw [← z_tree lcu lx ly (4 * rx), ex, ey]
    congr 1 <;> omega
  rw [← z1, ← z2]
  have e : lcu - 3 + 3 = lcu := by omega
  apply before_iff bef
  · rw [← hl]
    rw [Nat.add_mul] at hr
    apply parse_cover <;> first | (rw [e]; omega) | omega
  · refine ⟨?_, ?_, ?_, ?_⟩ <;> omega

/- A tree at (32, 0), with the last of four 8x8 units in focus. -/
example : parse 72 40 someSplit 2 32 0 = [⟨32, 0, 3⟩, ⟨40, 0, 3⟩, ⟨32, 8, 3⟩] ++ ⟨40, 8, 3⟩ :: [⟨48, 0, 4⟩, ⟨32, 16, 3⟩,
      ⟨40, 16, 3⟩, ⟨32, 24, 3⟩, ⟨40, 24, 3⟩, ⟨48, 16, 4⟩] ∧
    availTR 5 10 2 2 = some false ∧ availTR 5 8 2 2 = some true ∧ availDL 5 12 0 2 = some true ∧ availDL 5 10 2 2 = some false := by
  decide +kernel

end Davs2.Qt
