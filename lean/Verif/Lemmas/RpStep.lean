import Verif.Lemmas.RpFlags
/-
C88: reconstructing one block keeps the plane of the decoder equal to the unfiltered plane.
-/
namespace Davs2.Rp
open Davs2.Spec Davs2.Ip

theorem arm_congr {near far : Bool} {g : Int} {n : Nat} (hn : 0 < n) {f f' : Nat → Int} (h1 : near = true → ∀ k, 1 ≤ k → k ≤ n → f k = f' k)
    (h2 : far = true → ∀ k, n < k → k ≤ 2 * n → f k = f' k) {k : Nat} (hk : 1 ≤ k) : borderArm near far g n f k = borderArm near far g n f' k := by
  unfold borderArm
  by_cases c : k ≤ n
  · rw [if_pos c, if_pos c]
    cases near with
    | false => rfl
    | true => exact h1 rfl k hk c
  · rw [if_neg c, if_neg c]
    cases far with
    | true => exact h2 rfl _ (by omega) (by omega)
    | false => cases near with
      | false => rfl
      | true => exact h1 rfl n hn (Nat.le_refl _)

theorem border_congr {left top topLeft topRight leftDown : Bool} {g : Int} {w h : Nat} (hw : 0 < w) (hh : 0 < h) {f f' c c' : Nat → Int}
    (h1 : top = true → ∀ k, 1 ≤ k → k ≤ w → f k = f' k) (h2 : topRight = true → ∀ k, w < k → k ≤ 2 * w → f k = f' k)
    (h3 : left = true → ∀ k, 1 ≤ k → k ≤ h → c k = c' k) (h4 : leftDown = true → ∀ k, h < k → k ≤ 2 * h → c k = c' k)
    (h5 : topLeft = true → f 0 = f' 0) :
    border left top topLeft topRight leftDown g w h f c = border left top topLeft topRight leftDown g w h f' c' := by
  funext i
  unfold border
  by_cases i1 : 0 < i
  · rw [if_pos i1, if_pos i1]
    exact arm_congr hw h1 h2 (by omega)
  · rw [if_neg i1, if_neg i1]
    by_cases i2 : i < 0
    · rw [if_pos i2, if_pos i2]
      exact arm_congr hh h3 h4 (by omega)
    · rw [if_neg i2, if_neg i2]
      unfold borderCorner
      cases topLeft with
      | true => exact h5 rfl
      | false => cases top with
        | true => exact h1 rfl 1 (by omega) hw
        | false => cases left with
          | true => exact h3 rfl 1 (by omega) hh
          | false => rfl

variable {p : Pic} {k : Coded} {lx ly : Nat} {R : Nat → Nat → Prop} {st : St} {u : Part} {b : Blk} {dl tr : Bool} {cur : Nat}

/-- A usable sample, if its coordinates are at least those of the coding tree, is in `R`. -/
theorem usable_R (I : Inv p k lx ly R st u) {X Y : Nat} (h : usable (setting p k) u cur X Y = true) (hx : p.org lx ≤ X) (hy : p.org ly ≤ Y) : R X Y := by
  rw [usable_nat I.done] at h
  obtain ⟨_, _, h | h, _⟩ := h
  · exfalso
    have e1 := (lc_eq (p := p) (X := X)).mp rfl
    have e2 := (lc_eq (p := p) (X := Y)).mp rfl
    have m : ∀ a l : Nat, a < l → a * p.T + p.T ≤ p.org l := by
      intro a l h
      have := Nat.mul_le_mul_right p.T (show a + 1 ≤ l from h)
      rw [Nat.add_mul] at this
      show _ ≤ l * p.T
      omega
    rcases h with h | ⟨_, h⟩
    · have := m _ _ h; omega
    · have := m _ _ h; omega
  · exact h

/-- A usable sample does not lie below the coding tree. -/
theorem usable_row (I : Inv p k lx ly R st u) {X Y : Nat} (h : usable (setting p k) u cur X Y = true) : Y < p.org ly + p.T := by
  rw [usable_nat I.done] at h
  obtain ⟨_, _, h, _⟩ := h
  have e2 := (lc_eq (p := p) (X := Y)).mp rfl
  have m : ∀ a l : Nat, a ≤ l → a * p.T ≤ p.org l := fun a l h => Nat.mul_le_mul_right p.T h
  have : p.lc Y ≤ ly := by
    rcases h with h | h
    · unfold Bef at h; omega
    · rw [(I.inR _ _ h).2]
  have := m _ _ this
  omega

theorem usable_in (I : Inv p k lx ly R st u) {X Y : Nat} (h : usable (setting p k) u cur X Y = true) : X < p.pw ∧ Y < p.ph := by
  rw [usable_nat I.done] at h
  exact ⟨h.1, h.2.1⟩

theorem usable_pos {X Y : Int} (h : usable (setting p k) u cur X Y = true) : 0 ≤ X ∧ 0 ≤ Y := by
  by_contra hc
  rw [usable_neg (by omega)] at h
  cases h

theorem org_pos {l : Nat} (h : 0 < p.org l) : 0 < l := by
  rcases Nat.eq_zero_or_pos l with rfl | h'
  · unfold Pic.org at h; omega
  · exact h'

/-- Samples above the block. -/
theorem row_eq (I : Inv p k lx ly R st u) (G : Geo p lx ly R b dl tr) {j : Nat} (h1 : 1 ≤ j) (h2 : j ≤ 2 * b.w)
    (h : usable (setting p k) u cur ((p.org lx + b.x : Nat) - 1 + (j : Int)) ((p.org ly + b.y : Nat) - 1) = true) :
    (Source.mk (fun i => st.top (b.x - b.y + i)) (fun i j => st.plane ((p.org lx + b.x : Nat) - 1 + i) ((p.org ly + b.y : Nat) - 1 + j))).row (b.x == 0) (b.y == 0) j
      = u.val ((p.org lx + b.x : Nat) - 1 + (j : Int)) ((p.org ly + b.y : Nat) - 1) := by
  obtain ⟨p1, p2⟩ := usable_pos h
  have wr := G.wr; have gx := G.x2
  have ex : ((p.org lx + b.x : Nat) : Int) - 1 + (j : Int) = ((p.org lx + b.x - 1 + j : Nat) : Int) ∨ p.org lx + b.x = 0 := by omega
  have ey : ((p.org ly + b.y : Nat) : Int) - 1 = ((p.org ly + b.y - 1 : Nat) : Int) := by omega
  have ej : (j == 0) = false := by rw [beq_eq_false_iff_ne]; omega
  have e : ((p.org lx + b.x : Nat) : Int) - 1 + (j : Int) = ((p.org lx + b.x + j - 1 : Nat) : Int) := by omega
  unfold Source.row
  rw [ej, Bool.false_and, Bool.or_false]
  by_cases hb : b.y = 0
  · rw [if_pos (by rw [hb]; rfl), hb]
    have hl : 0 < ly := org_pos (p := p) (by omega)
    rw [e, ey] at h
    have hin := usable_in I h
    have := I.cache.row hl (b.x + j) (by omega) (by omega) (by omega)
    dsimp only
    rw [show (b.x : Int) - (0 : Nat) + (j : Int) = b.x + j by omega, this]
    congr 1 <;> omega
  · rw [if_neg (by rw [beq_iff_eq]; exact hb)]
    dsimp only
    rw [Int.add_zero, e, ey]
    rw [e, ey] at h
    exact I.same _ _ (usable_R I h (by omega) (by omega))

/-- Samples to the left of the block. -/
theorem col_eq (I : Inv p k lx ly R st u) (G : Geo p lx ly R b dl tr) {j : Nat} (h1 : 1 ≤ j)
    (h : usable (setting p k) u cur ((p.org lx + b.x : Nat) - 1) ((p.org ly + b.y : Nat) - 1 + (j : Int)) = true) :
    (Source.mk (fun i => st.top (b.x - b.y + i)) (fun i j => st.plane ((p.org lx + b.x : Nat) - 1 + i) ((p.org ly + b.y : Nat) - 1 + j))).column (b.x == 0) j
      = u.val ((p.org lx + b.x : Nat) - 1) ((p.org ly + b.y : Nat) - 1 + (j : Int)) := by
  obtain ⟨p1, p2⟩ := usable_pos h
  have ex : ((p.org lx + b.x : Nat) : Int) - 1 = ((p.org lx + b.x - 1 : Nat) : Int) := by omega
  have ey : ((p.org ly + b.y : Nat) : Int) - 1 + (j : Int) = ((p.org ly + b.y + j - 1 : Nat) : Int) := by omega
  unfold Source.column
  by_cases hb : b.x = 0
  · rw [if_pos (by rw [hb]; rfl), hb]
    have hl : 0 < lx := org_pos (p := p) (by omega)
    rw [ex, ey] at h
    have hin := usable_in I h
    have hrow := usable_row I h
    have := I.cache.col hl (b.y + j) (by omega) (by omega) (by omega)
    dsimp only
    rw [show ((0 : Nat) : Int) - b.y + -(j : Int) = -(b.y + j) by omega, this]
    congr 1 <;> omega
  · rw [if_neg (by rw [beq_iff_eq]; exact hb)]
    dsimp only
    rw [Int.add_zero, ex, ey]
    rw [ex, ey] at h
    exact I.same _ _ (usable_R I h (by omega) (by omega))

/-- The sample at the corner. -/
theorem corner_eq (I : Inv p k lx ly R st u) (G : Geo p lx ly R b dl tr)
    (h : usable (setting p k) u cur ((p.org lx + b.x : Nat) - 1) ((p.org ly + b.y : Nat) - 1) = true) :
    (Source.mk (fun i => st.top (b.x - b.y + i)) (fun i j => st.plane ((p.org lx + b.x : Nat) - 1 + i) ((p.org ly + b.y : Nat) - 1 + j))).row (b.x == 0) (b.y == 0) 0
      = u.val ((p.org lx + b.x : Nat) - 1) ((p.org ly + b.y : Nat) - 1) := by
  obtain ⟨p1, p2⟩ := usable_pos h
  have gx := G.x2; have gy := G.y2
  obtain ⟨hw0, hh0⟩ := shape_le G.shape
  have ex : ((p.org lx + b.x : Nat) : Int) - 1 = ((p.org lx + b.x - 1 : Nat) : Int) := by omega
  have ey : ((p.org ly + b.y : Nat) : Int) - 1 = ((p.org ly + b.y - 1 : Nat) : Int) := by omega
  have hin := usable_in I (by rw [ex, ey] at h; exact h)
  unfold Source.row
  by_cases hb : b.y = 0
  · have hl : 0 < ly := org_pos (p := p) (by omega)
    rw [if_pos (by rw [hb]; rfl)]
    dsimp only
    by_cases hb' : b.x = 0
    · have hl' : 0 < lx := org_pos (p := p) (by omega)
      have := I.cache.corner hl' hl
      rw [show (b.x : Int) - b.y + (0 : Nat) = 0 by omega, this]
      congr 1 <;> omega
    · have := I.cache.row hl b.x (by omega) (by omega) (by omega)
      rw [show (b.x : Int) - b.y + (0 : Nat) = b.x by omega, this]
      congr 1 <;> omega
  · by_cases hb' : b.x = 0
    · have hl' : 0 < lx := org_pos (p := p) (by omega)
      rw [if_pos (by rw [hb']; simp)]
      dsimp only
      have := I.cache.col hl' b.y (by omega) (by omega) (by omega)
      rw [show (b.x : Int) - b.y + (0 : Nat) = -b.y by omega, this]
      congr 1 <;> omega
    · rw [if_neg (by simp [hb, hb'])]
      dsimp only
      rw [Int.add_zero, show (((p.org lx + b.x : Nat) : Int) - 1 + ((0 : Nat) : Int)) = ((p.org lx + b.x - 1 : Nat) : Int) by omega, ex, ey]
      rw [ex, ey] at h
      exact I.same _ _ (usable_R I h (by omega) (by omega))

/-- The block as an area. -/
def InBlk (x y w h X Y : Nat) : Prop := x ≤ X ∧ X < x + w ∧ y ≤ Y ∧ Y < y + h

/-- Writing the same samples into both planes. -/
theorem Inv.write (I : Inv p k lx ly R st u) {x y w h : Nat} {f f' : Nat → Nat → Int} (hf : ∀ i j, i < w → j < h → f i j = f' i j)
    (hx : p.org lx ≤ x) (hx2 : x + w ≤ p.org lx + p.T) (hy : p.org ly ≤ y) (hy2 : y + h ≤ p.org ly + p.T) {ok : Bool}
    {u' : Part} (hv : ∀ X Y : Int, u'.val X Y = if (x : Int) ≤ X ∧ X < x + w ∧ (y : Int) ≤ Y ∧ Y < y + h then f' (X - x).toNat (Y - y).toNat else u.val X Y)
    (hd : ∀ X Y : Int, u'.done X Y = (decide ((x : Int) ≤ X ∧ X < x + w ∧ (y : Int) ≤ Y ∧ Y < y + h) || u.done X Y)) :
    Inv p k lx ly (fun X Y => R X Y ∨ InBlk x y w h X Y) { st with plane := Rp.write st.plane x y w h f, inTab := ok } u' := by
  have out : ∀ X Y : Int, X < p.org lx ∨ Y < p.org ly → u'.val X Y = u.val X Y := by
    intro X Y h
    rw [hv, if_neg (by omega)]
  refine ⟨I.slice, ?_, ?_, ?_, ?_⟩
  · intro X Y hX hY
    rw [hd, Bool.or_eq_true, decide_eq_true_eq, I.done X Y hX hY]
    unfold InBlk
    constructor
    · rintro (h | h | h)
      · exact Or.inr (Or.inr (by omega))
      · exact Or.inl h
      · exact Or.inr (Or.inl h)
    · rintro (h | h | h)
      · exact Or.inr (Or.inl h)
      · exact Or.inr (Or.inr h)
      · exact Or.inl (by omega)
  · rintro X Y (h | h)
    · exact I.inR X Y h
    · unfold InBlk at h
      exact ⟨lc_at (by omega) (by omega), lc_at (by omega) (by omega)⟩
  · intro X Y hR
    dsimp only
    unfold Rp.write
    rw [hv]
    by_cases c : (x : Int) ≤ X ∧ (X : Int) < x + w ∧ (y : Int) ≤ Y ∧ (Y : Int) < y + h
    · rw [if_pos c, if_pos c]
      exact hf _ _ (by omega) (by omega)
    · rw [if_neg c, if_neg c]
      rcases hR with hR | hR
      · exact I.same X Y hR
      · unfold InBlk at hR; omega
  · refine ⟨fun h1 h2 => ?_, fun h1 i i1 i2 i3 => ?_, fun h1 i i1 i2 i3 => ?_⟩
    · rw [out _ _ (by omega)]; exact I.cache.corner h1 h2
    · rw [out _ _ (by omega)]; exact I.cache.row h1 i i1 i2 i3
    · rw [out _ _ (by omega)]; exact I.cache.col h1 i i1 i2 i3

theorem org_slice (X Y : Nat) : (setting p k).slice X Y = k.slice (p.lc X) (p.lc Y) := rfl

theorem across_at {X Y : Int} {n : Nat} (h : across (setting p k) u cur X Y n = true) {i : Nat} (hi : i < n) : usable (setting p k) u cur (X + i) Y = true := by
  unfold across at h
  rw [List.all_eq_true] at h
  exact h i (List.mem_range.mpr hi)

theorem down_at {X Y : Int} {n : Nat} (h : down (setting p k) u cur X Y n = true) {i : Nat} (hi : i < n) : usable (setting p k) u cur X (Y + i) = true := by
  unfold down at h
  rw [List.all_eq_true] at h
  exact h i (List.mem_range.mpr hi)

/-- One intra predicted block. -/
theorem intra_step (hp : p.Ok) (hk : SlicesOk p k) (I : Inv p k lx ly R st u) (hc : k.slice lx ly < 255) (G : Geo p lx ly R b dl tr) (scratch : Border × Border)
    {mode : Nat} (hm : mode < 33) (fin : Bool → Bool → Nat → Nat → Int → Int) :
    Inv p k lx ly (fun X Y => R X Y ∨ InBlk (p.org lx + b.x) (p.org ly + b.y) b.w b.h X Y)
        (intraBlk p lx ly (int8 (k.slice lx ly)) scratch mode fin st b)
        (Block.step (setting p k) u ⟨p.org lx + b.x, p.org ly + b.y, b.w, b.h, .intra mode fin⟩) ∧
      (intraBlk p lx ly (int8 (k.slice lx ly)) scratch mode fin st b).inTab = st.inTab := by
  obtain ⟨hw0, hh0⟩ := shape_le G.shape
  have gx := G.x2; have gy := G.y2
  have hcur : (setting p k).slice (p.org lx + b.x : Nat) (p.org ly + b.y : Nat) = k.slice lx ly := by
    rw [org_slice, lc_at (l := lx) (by omega) (by omega), lc_at (l := ly) (by omega) (by omega)]
  constructor
  · unfold intraBlk
    dsimp only
    rw [flags hp hk I hc G]
    refine I.write (x := p.org lx + b.x) (y := p.org ly + b.y) (w := b.w) (h := b.h) (f' := ?_) ?_ (by omega) (by omega) (by omega) (by omega) ?_ ?_
    · exact fun x y => fin (specAvail p k u (k.slice lx ly) (p.org lx + b.x) (p.org ly + b.y) b.w b.h).top
        (specAvail p k u (k.slice lx ly) (p.org lx + b.x) (p.org ly + b.y) b.w b.h).left x y
        (general p.bd (specAvail p k u (k.slice lx ly) (p.org lx + b.x) (p.org ly + b.y) b.w b.h).top
          (specAvail p k u (k.slice lx ly) (p.org lx + b.x) (p.org ly + b.y) b.w b.h).left
          (border (specAvail p k u (k.slice lx ly) (p.org lx + b.x) (p.org ly + b.y) b.w b.h).left
            (specAvail p k u (k.slice lx ly) (p.org lx + b.x) (p.org ly + b.y) b.w b.h).top
            (specAvail p k u (k.slice lx ly) (p.org lx + b.x) (p.org ly + b.y) b.w b.h).topLeft
            (specAvail p k u (k.slice lx ly) (p.org lx + b.x) (p.org ly + b.y) b.w b.h).topRight
            (specAvail p k u (k.slice lx ly) (p.org lx + b.x) (p.org ly + b.y) b.w b.h).leftDown (2 ^ (p.bd - 1)) b.w b.h
            (fun j => u.val ((p.org lx + b.x : Nat) - 1 + j) ((p.org ly + b.y : Nat) - 1))
            (fun j => u.val ((p.org lx + b.x : Nat) - 1) ((p.org ly + b.y : Nat) - 1 + j))) mode b.w b.h x y)
    · intro i j hi hj
      congr 1
      rw [C64_predict p.bd _ _ _ _ _ _ _ G.shape hi hj hm]
      dsimp only [Option.getD]
      congr 1
      apply border_congr hw0 hh0
      · intro h j j1 j2
        refine row_eq I G j1 (by omega) (cur := k.slice lx ly) ?_
        have := across_at h (i := j - 1) (by omega)
        rwa [show ((p.org lx + b.x : Nat) : Int) + ((j - 1 : Nat) : Int) = (p.org lx + b.x : Nat) - 1 + j by omega] at this
      · intro h j j1 j2
        refine row_eq I G (by omega) j2 (cur := k.slice lx ly) ?_
        have := across_at h (i := j - b.w - 1) (by omega)
        rwa [show ((p.org lx + b.x : Nat) : Int) + b.w + ((j - b.w - 1 : Nat) : Int) = (p.org lx + b.x : Nat) - 1 + j by omega] at this
      · intro h j j1 j2
        refine col_eq I G j1 (cur := k.slice lx ly) ?_
        have := down_at h (i := j - 1) (by omega)
        rwa [show ((p.org ly + b.y : Nat) : Int) + ((j - 1 : Nat) : Int) = (p.org ly + b.y : Nat) - 1 + j by omega] at this
      · intro h j j1 j2
        refine col_eq I G (by omega) (cur := k.slice lx ly) ?_
        have := down_at h (i := j - b.h - 1) (by omega)
        rwa [show ((p.org ly + b.y : Nat) : Int) + b.h + ((j - b.h - 1 : Nat) : Int) = (p.org ly + b.y : Nat) - 1 + j by omega] at this
      · intro h
        rw [corner_eq I G (cur := k.slice lx ly) h]
        simp
    · intro X Y
      unfold Block.step
      rw [hcur]
      dsimp only [specAvail, setting]
      simp only [decide_eq_true_eq]
    · intro X Y
      rfl
  · unfold intraBlk
    dsimp only
    rw [G.tabs]
    simp

/-- One block that does not depend on this picture. -/
theorem other_step (I : Inv p k lx ly R st u) {x y w h : Nat} (val : Nat → Nat → Int)
    (hx : p.org lx ≤ x) (hx2 : x + w ≤ p.org lx + p.T) (hy : p.org ly ≤ y) (hy2 : y + h ≤ p.org ly + p.T) :
    Inv p k lx ly (fun X Y => R X Y ∨ InBlk x y w h X Y) { st with plane := Rp.write st.plane x y w h val }
      (Block.step (setting p k) u ⟨x, y, w, h, .other val⟩) := by
  refine I.write (ok := st.inTab) (f' := val) (fun _ _ _ _ => rfl) hx hx2 hy hy2 ?_ ?_
  · intro X Y
    unfold Block.step
    simp only [decide_eq_true_eq]
  · intro X Y
    rfl

end Davs2.Rp
