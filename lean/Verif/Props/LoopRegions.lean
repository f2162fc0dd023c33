import Verif.Lemmas.LoopRegions
import Mathlib.Tactic.IntervalCases
/-
C43: the regions of the in-loop filters.
-/
namespace Davs2.Lr

/-- Sizes as the decoder has them: trees of 16, 32 or 64 luma samples and planes of a multiple of 8 luma
samples; half of that for chroma. -/
def Lay.Ok (l : Lay) : Prop := 8 ≤ l.L ∧ 4 ∣ l.L ∧ 0 < l.W ∧ 4 ∣ l.W ∧ 0 < l.H ∧ 4 ∣ l.H

instance (l : Lay) : Decidable l.Ok := by unfold Lay.Ok; infer_instance

/-- Every sample of the picture is in exactly one region. -/
def Tiles (l : Lay) (r : Nat → Nat → Rect) : Prop :=
  ∀ x y : Int, 0 ≤ x → x < l.W → 0 ≤ y → y < l.H → ∃ i j, i < l.nW ∧ j < l.nH ∧ (r i j).Has x y ∧
    ∀ i' j', i' < l.nW → j' < l.nH → (r i' j').Has x y → i' = i ∧ j' = j

variable {l : Lay}

theorem right_lt (hl : l.Ok) {i : Nat} (h : l.right i = true) : ((i + 1) * l.L : Int) < l.W := by
  unfold Lay.right Lay.nW at h
  have := (lt_trees (S := l.W) (L := l.L) (by unfold Lay.Ok at hl; omega) (by unfold Lay.Ok at hl; omega) (i + 1)).1 (by simpa using h)
  exact_mod_cast this

theorem row_lt (hl : l.Ok) {j : Nat} (h : j < l.nH) : (j * l.L : Int) < l.H :=
  (lt_trees (by unfold Lay.Ok at hl; omega) (by unfold Lay.Ok at hl; omega) j).1 h

theorem col_lt (hl : l.Ok) {i : Nat} (h : i < l.nW) : (i * l.L : Int) < l.W :=
  (lt_trees (by unfold Lay.Ok at hl; omega) (by unfold Lay.Ok at hl; omega) i).1 h

theorem saoDown_lt (hl : l.Ok) {i j : Nat} (h : l.saoDown i j = true) : ((j + 1) * l.L : Int) < l.H := by
  unfold Lay.saoDown down at h
  have h' : j + 1 < l.nH := by simp at h; exact h.1
  exact_mod_cast row_lt hl h'

theorem sao_rect (hl : l.Ok) {i j : Nat} (hi : i < l.nW) (hj : j < l.nH) :
    l.sao i j = ⟨start l.L (l.left i) i, start l.L (l.saoTop i j) j, stop l.W l.L (l.right i) i - start l.L (l.left i) i,
      stop l.H l.L (l.saoDown i j) j - start l.L (l.saoTop i j) j⟩ := by
  unfold Lay.sao
  have h8 : 8 ≤ l.L := hl.1
  rw [region_eq h8 (col_lt hl hi) (right_lt hl), region_eq h8 (row_lt hl hj) (saoDown_lt hl)]

theorem alf_rect (hl : l.Ok) {i j : Nat} (hi : i < l.nW) (hj : j < l.nH) :
    l.alf i j = ⟨start l.L false i, start l.L (top l.cross (seen l.old l.new j) i j) j, stop l.W l.L false i - start l.L false i,
      stop l.H l.L (alfDown l.nH j) j - start l.L (top l.cross (seen l.old l.new j) i j) j⟩ := by
  have h8 : 8 ≤ l.L := hl.1
  have hx := col_lt hl hi
  have hy := row_lt hl hj
  have hd : alfDown l.nH j = true → ((j + 1) * l.L : Int) < l.H := by
    intro h
    have h' : j + 1 < l.nH := by simpa [alfDown] using h
    exact_mod_cast row_lt hl h'
  unfold Lay.alf start stop
  generalize top l.cross (seen l.old l.new j) i j = t
  generalize alfDown l.nH j = d at *
  have e : ((i : Int) + 1) * l.L = i * l.L + l.L := by ring
  have e' : ((j : Int) + 1) * l.L = j * l.L + l.L := by ring
  rw [e, e']
  rw [e'] at hd
  generalize (i : Int) * l.L = X at *
  generalize (j : Int) * l.L = Y at *
  simp only [Rect.mk.injEq]
  cases t <;> cases d <;> simp at hd ⊢ <;> refine ⟨?_, ?_⟩ <;> (try split) <;> omega

theorem has_iff {a b c d x y : Int} : (Rect.mk a c (b - a) (d - c)).Has x y ↔ (a ≤ x ∧ x < b) ∧ c ≤ y ∧ y < d := by
  unfold Rect.Has; dsimp only; omega

theorem tiles_of (hl : l.Ok) (r : Nat → Nat → Rect) (bx ax : Nat → Bool) (bt ad : Nat → Nat → Bool)
    (hr : ∀ i j, i < l.nW → j < l.nH → r i j = ⟨start l.L (bx i) i, start l.L (bt i j) j, stop l.W l.L (ax i) i - start l.L (bx i) i,
      stop l.H l.L (ad i j) j - start l.L (bt i j) j⟩)
    (hx0 : bx 0 = false) (hx1 : ax (l.nW - 1) = false) (hx : ∀ i, i + 1 < l.nW → ax i = bx (i + 1))
    (hy0 : ∀ i, bt i 0 = false) (hy1 : ∀ i, ad i (l.nH - 1) = false) (hy : ∀ i j, i < l.nW → j + 1 < l.nH → ad i j = bt i (j + 1)) :
    Tiles l r := by
  obtain ⟨h8, h4, hW, hW4, hH, hH4⟩ := hl
  intro x y x0 x1 y0 y1
  obtain ⟨i, hi, ⟨i1, i2⟩, iu⟩ := axis h8 hW hW4 h4 bx ax hx0 hx1 hx x x0 x1
  obtain ⟨j, hj, ⟨j1, j2⟩, ju⟩ := axis h8 hH hH4 h4 (bt i) (ad i) (hy0 i) (hy1 i) (fun j h => hy i j hi h) y y0 y1
  refine ⟨i, j, hi, hj, ?_, ?_⟩
  · rw [hr i j hi hj, has_iff]; exact ⟨⟨i1, i2⟩, j1, j2⟩
  · intro i' j' hi' hj' h
    rw [hr i' j' hi' hj', has_iff] at h
    obtain ⟨⟨k1, k2⟩, k3, k4⟩ := h
    have := iu i' hi' k1 k2
    subst this
    exact ⟨rfl, ju j' hj' k3 k4⟩

/-- C43, SAO: if filtering across slices is allowed, or if every tree compares to the tree below as it will
once that tree is decoded, the regions tile the picture.  Missing: pictures in several slices with
cross_loop_filter_flag 0 that follow a picture with other slices, see `C43_sao_violated`. -/
theorem C43_sao_partial (hl : l.Ok)
    (hs : l.cross = true ∨ ∀ i j, i < l.nW → j + 1 < l.nH → (l.old i (j + 1) = l.new i j ↔ l.new i (j + 1) = l.new i j)) :
    Tiles l l.sao := by
  have n0 : 0 < l.nH := (trees_bounds (by have := hl.1; omega) (by have := hl.2.2.2.2.1; omega)).1
  have m0 : 0 < l.nW := (trees_bounds (by have := hl.1; omega) (by have := hl.2.2.1; omega)).1
  refine tiles_of hl l.sao l.left l.right l.saoTop l.saoDown (fun i j hi hj => sao_rect hl hi hj) ?_ ?_ ?_ ?_ ?_ ?_
  · simp [Lay.left]
  · simp [Lay.right]; omega
  · intro i h; simp [Lay.left, Lay.right, h]
  · intro i; simp [Lay.saoTop, top]
  · intro i; simp [Lay.saoDown, down]; omega
  · intro i j hi hj
    unfold Lay.saoDown Lay.saoTop down top seen
    rcases hs with h | h
    · simp [h, hj]
    · have := h i j hi hj
      simp [hj, this]

/-- C43, ALF: if filtering across slices is allowed, or if no two trees above each other are of different
slices, the regions tile the picture.  Missing: `C43_alf_violated`. -/
theorem C43_alf_partial (hl : l.Ok) (hs : l.cross = true ∨ ∀ i j, i < l.nW → j + 1 < l.nH → l.new i (j + 1) = l.new i j) :
    Tiles l l.alf := by
  have n0 : 0 < l.nH := (trees_bounds (by have := hl.1; omega) (by have := hl.2.2.2.2.1; omega)).1
  have m0 : 0 < l.nW := (trees_bounds (by have := hl.1; omega) (by have := hl.2.2.1; omega)).1
  -- columns are not shifted, so they are cut at the trees themselves
  obtain ⟨h8, h4, hW, hW4, hH, hH4⟩ := hl
  intro x y x0 x1 y0 y1
  have key : ∀ i, i < l.nW → ((start l.L false i ≤ x ∧ x < stop l.W l.L false i) ↔ (i * l.L : Int) ≤ x ∧ x < i * l.L + l.L) := by
    intro i hi
    unfold start stop
    have e : ((i : Int) + 1) * l.L = i * l.L + l.L := by ring
    rw [e]
    generalize (i : Int) * l.L = X at *
    simp; omega
  have hLp : (0 : Int) < l.L := by exact_mod_cast (show 0 < l.L by omega)
  have hq0 : 0 ≤ x / (l.L : Int) := Int.ediv_nonneg x0 (by omega)
  obtain ⟨q, hq⟩ := Int.eq_ofNat_of_zero_le hq0
  have hq1 := Int.mul_ediv_self_le (x := x) (k := (l.L : Int)) (by omega)
  have hq2 := Int.lt_mul_ediv_self_add (x := x) (k := (l.L : Int)) hLp
  rw [hq, mul_comm] at hq1 hq2
  have hqn : q < l.nW := (lt_trees (by omega) hW q).2 (by omega)
  obtain ⟨j, hj, ⟨j1, j2⟩, ju⟩ := axis h8 hH hH4 h4 (fun j => top l.cross (seen l.old l.new j) q j) (fun j => alfDown l.nH j)
    (by simp [top]) (by show alfDown l.nH (l.nH - 1) = false; simp [alfDown]; omega) (by
      intro j hj
      have hj' : j + 1 < l.nH := hj
      unfold alfDown top seen
      rcases hs with h | h
      · simp [h, hj']
      · simp [hj', h q j hqn hj']) y y0 y1
  have hlo : l.Ok := ⟨h8, h4, hW, hW4, hH, hH4⟩
  refine ⟨q, j, hqn, hj, ?_, ?_⟩
  · rw [alf_rect hlo hqn hj, has_iff]
    exact ⟨(key q hqn).2 ⟨hq1, hq2⟩, j1, j2⟩
  · intro i' j' hi' hj' h
    rw [alf_rect hlo hi' hj', has_iff] at h
    obtain ⟨k1, k3, k4⟩ := h
    have k2 := (key i' hi').1 k1
    have : i' = q := by
      rcases Nat.lt_trichotomy i' q with c | c | c
      · have : ((i' + 1 : Nat) : Int) * l.L ≤ q * l.L := mul_le_mul_of_nonneg_right (by exact_mod_cast c) (by omega)
        push_cast at this
        have e : ((i' : Int) + 1) * l.L = i' * l.L + l.L := by ring
        omega
      · exact c
      · have : ((q + 1 : Nat) : Int) * l.L ≤ i' * l.L := mul_le_mul_of_nonneg_right (by exact_mod_cast c) (by omega)
        push_cast at this
        have e : ((q : Int) + 1) * l.L = q * l.L + l.L := by ring
        omega
    subst this
    exact ⟨rfl, ju j' hj' k3 k4⟩

/-- C43, extent: whatever the slices, every region lies in the picture and is at least four samples wide
and high, as the block filters need. -/
theorem C43_extent (hl : l.Ok) {i j : Nat} (hi : i < l.nW) (hj : j < l.nH) :
    (4 ≤ (l.sao i j).w ∧ 4 ≤ (l.sao i j).h ∧ 0 ≤ (l.sao i j).x ∧ 0 ≤ (l.sao i j).y ∧ (l.sao i j).x + (l.sao i j).w ≤ l.W ∧ (l.sao i j).y + (l.sao i j).h ≤ l.H) ∧
      4 ≤ (l.alf i j).w ∧ 4 ≤ (l.alf i j).h ∧ 0 ≤ (l.alf i j).x ∧ 0 ≤ (l.alf i j).y ∧ (l.alf i j).x + (l.alf i j).w ≤ l.W ∧ (l.alf i j).y + (l.alf i j).h ≤ l.H := by
  rw [sao_rect hl hi hj, alf_rect hl hi hj]
  dsimp only
  have gen : ∀ (S k : Nat) (b a : Bool), 4 ∣ S → (k * l.L : Int) < S → (b = true → k ≠ 0) → (a = true → ((k + 1) * l.L : Int) < S) →
      4 ≤ stop S l.L a k - start l.L b k ∧ 0 ≤ start l.L b k ∧ start l.L b k + (stop S l.L a k - start l.L b k) ≤ S := by
    intro S k b a h4 h1 h2 h3
    obtain ⟨h8, hL4, -⟩ := hl
    have e : ((k : Int) + 1) * l.L = k * l.L + l.L := by ring
    unfold start stop
    rw [e] at h3 ⊢
    have h5 : 4 ∣ (k * l.L : Int) := Dvd.dvd.mul_left (by exact_mod_cast hL4) _
    have h4' : (4 : Int) ∣ S := by exact_mod_cast h4
    have h7 : (0 : Int) ≤ k * l.L := by positivity
    have h6 : b = true → (l.L : Int) ≤ k * l.L := by
      intro hb
      have := h2 hb
      have : 1 * l.L ≤ k * l.L := Nat.mul_le_mul_right _ (by omega)
      have : l.L ≤ k * l.L := by omega
      exact_mod_cast this
    generalize (k : Int) * l.L = K at *
    cases a <;> cases b <;> simp at h3 h6 ⊢ <;> omega
  obtain ⟨h8, h4, hW, hW4, hH, hH4⟩ := id hl
  have g1 := gen l.W i (l.left i) (l.right i) hW4 (col_lt hl hi) (by simp [Lay.left]) (right_lt hl)
  have g2 := gen l.H j (l.saoTop i j) (l.saoDown i j) hH4 (row_lt hl hj) (by unfold Lay.saoTop top; simp; tauto) (saoDown_lt hl)
  have g3 := gen l.W i false false hW4 (col_lt hl hi) (by simp) (by simp)
  have g4 := gen l.H j (top l.cross (seen l.old l.new j) i j) (alfDown l.nH j) hH4 (row_lt hl hj) (by unfold top; simp; tauto) (by
    intro h
    have h' : j + 1 < l.nH := by simpa [alfDown] using h
    exact_mod_cast row_lt hl h')
  exact ⟨⟨g1.1, g2.1, g1.2.1, g2.2.1, g1.2.2, g2.2.2⟩, g3.1, g4.1, g3.2.1, g4.2.1, g3.2.2, g4.2.2⟩

/-! ### Violations -/

/-- 128 × 128 samples in trees of 64. -/
def lay2 (old new : Nat → Nat → Int) : Lay := ⟨128, 128, 64, false, old, new⟩

/-- One slice for the whole picture, one slice for each row. -/
def oneSlice : Nat → Nat → Int := fun _ _ => 0
def rowSlices : Nat → Nat → Int := fun _ j => j

/-- C43 fails for SAO: after a picture with one slice, four rows of a picture with two slices are in no
region; after a picture with two slices, four rows of a picture with one slice are in two regions. -/
theorem C43_sao_violated :
    (∀ i j, i < 2 → j < 2 → ¬ ((lay2 oneSlice rowSlices).sao i j).Has 10 61) ∧
    ((lay2 rowSlices oneSlice).sao 0 0).Has 10 61 ∧ ((lay2 rowSlices oneSlice).sao 0 1).Has 10 61 := by
  refine ⟨?_, by decide, by decide⟩
  intro i j hi hj
  interval_cases i <;> interval_cases j <;> decide

/-- C43 fails for ALF: wherever a tree is of another slice than the tree above it and filtering across
slices is not allowed, the last four rows of the upper tree are in no region. -/
theorem C43_alf_violated (hl : l.Ok) (hc : l.cross = false) {i j : Nat} (hi : i < l.nW) (hj : j + 1 < l.nH) (hs : l.new i (j + 1) ≠ l.new i j)
    {x y : Int} (hx : (i * l.L : Int) ≤ x ∧ x < i * l.L + l.L) (hy : ((j + 1) * l.L : Int) - 4 ≤ y ∧ y < (j + 1) * l.L) :
    ∀ i' j', i' < l.nW → j' < l.nH → ¬ (l.alf i' j').Has x y := by
  intro i' j' hi' hj' h
  have h8 : 8 ≤ l.L := hl.1
  rw [alf_rect hl hi' hj', has_iff] at h
  obtain ⟨⟨k1, k2⟩, k3, k4⟩ := h
  have e : ((i' : Int) + 1) * l.L = i' * l.L + l.L := by ring
  have e' : ((j' : Int) + 1) * l.L = j' * l.L + l.L := by ring
  have e2 : ((j : Int) + 1) * l.L = j * l.L + l.L := by ring
  unfold stop start at *
  rw [e] at k2
  rw [e'] at k4
  rw [e2] at hy
  simp only [Bool.false_eq_true, if_false] at k1 k2
  have hi2 : i' = i := by
    rcases Nat.lt_trichotomy i' i with c | c | c
    · have : ((i' + 1 : Nat) : Int) * l.L ≤ i * l.L := mul_le_mul_of_nonneg_right (by exact_mod_cast c) (by omega)
      push_cast at this
      omega
    · exact c
    · have : ((i + 1 : Nat) : Int) * l.L ≤ i' * l.L := mul_le_mul_of_nonneg_right (by exact_mod_cast c) (by omega)
      push_cast at this
      have e : ((i : Int) + 1) * l.L = i * l.L + l.L := by ring
      omega
  subst hi2
  rcases Nat.lt_trichotomy j' j with c | c | c
  · have : ((j' + 1 : Nat) : Int) * l.L ≤ j * l.L := mul_le_mul_of_nonneg_right (by exact_mod_cast c) (by omega)
    push_cast at this
    split at k4 <;> omega
  · subst c
    rw [if_pos (by simpa [alfDown] using hj)] at k4
    omega
  · have c' : j' = j + 1 ∨ j + 2 ≤ j' := by omega
    rcases c' with c' | c'
    · subst c'
      have : top l.cross (seen l.old l.new (j + 1)) i' (j + 1) = false := by
        unfold top seen; simp [hc, hs]
      rw [this] at k3
      push_cast at k3
      simp at k3
      omega
    · have : ((j + 2 : Nat) : Int) * l.L ≤ j' * l.L := mul_le_mul_of_nonneg_right (by exact_mod_cast c') (by omega)
      push_cast at this
      have e : ((j : Int) + 2) * l.L = j * l.L + l.L + l.L := by ring
      split at k3 <;> omega

/-! ### Examples -/

example : (lay2 rowSlices rowSlices).Ok ∧ Tiles (lay2 rowSlices rowSlices) (lay2 rowSlices rowSlices).sao :=
  ⟨by decide, C43_sao_partial (by decide) (Or.inr fun _ _ _ _ => Iff.rfl)⟩

example : (⟨200, 88, 32, true, oneSlice, rowSlices⟩ : Lay).Ok ∧ (⟨200, 88, 32, true, oneSlice, rowSlices⟩ : Lay).sao 6 2 = ⟨188, 60, 12, 28⟩ ∧
    (⟨200, 88, 32, true, oneSlice, rowSlices⟩ : Lay).alf 6 2 = ⟨192, 60, 8, 28⟩ := by refine ⟨by decide, ?_, ?_⟩ <;> rfl

example : ∀ i' j', i' < 2 → j' < 2 → ¬ ((lay2 rowSlices rowSlices).alf i' j').Has 10 61 :=
  C43_alf_violated (l := lay2 rowSlices rowSlices) (i := 0) (j := 0) (by decide) rfl (by decide) (by decide) (by decide) (by decide) (by decide)

end Davs2.Lr
