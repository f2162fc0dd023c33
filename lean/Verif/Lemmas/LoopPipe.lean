import Verif.Lemmas.LoopRegions
/-
Filters that run row by row, each some lines behind the previous one, give the same picture as filters
that run one after the other over the whole picture.  Stated for filters of which only is known which rows
they read and change.
-/
namespace Davs2.Lr
open Davs2.Sa (Plane)

/-- Lines between the filters of rows `k - 1` and `k`. -/
def cut (L S n k : Nat) : Int := if k = 0 then 0 else if k < n then k * L - 4 else S

def rowEnd (L S j : Nat) : Int := min (S : Int) ((j + 1) * L)

/-- Extension of all lines to the left and right. -/
def padded (W : Nat) (p : Plane) : Plane := fun x y => p (max 0 (min (W - 1) x)) y

/-- Three filters and their footprints. -/
structure Eng where
  W : Nat
  S : Nat
  L : Nat
  n : Nat
  son : Bool
  aon : Bool
  D : Nat → Plane → Plane
  F : Nat → Plane → Plane → Plane
  G : Nat → Plane → Plane → Plane
  hL : 8 ≤ L
  hW : 0 < W
  hn : 0 < n
  hS : (n - 1) * L < S
  hS' : S ≤ n * L
  D1 : ∀ j, j < n → ∀ (m : Plane) (x y : Int), (y < j * L - 3 ∨ rowEnd L S j ≤ y) → D j m x y = m x y
  D2 : ∀ j, j < n → ∀ m m' : Plane, (∀ x y : Int, (j * L : Int) - 4 ≤ y → y < rowEnd L S j → m x y = m' x y) →
    ∀ x y : Int, (j * L : Int) - 4 ≤ y → y < rowEnd L S j → D j m x y = D j m' x y
  F1 : ∀ j, j < n → ∀ t d x y, (y < cut L S n j ∨ cut L S n (j + 1) ≤ y) → F j t d x y = d x y
  F2 : ∀ j, j < n → ∀ t t' d d' : Plane,
    (∀ x y : Int, 0 ≤ x → x < W → 0 ≤ y → y < S → cut L S n j - 1 ≤ y → y < cut L S n (j + 1) + 1 → t x y = t' x y) →
    (∀ x y, cut L S n j ≤ y → y < cut L S n (j + 1) → d x y = d' x y) →
    ∀ x y, cut L S n j ≤ y → y < cut L S n (j + 1) → F j t d x y = F j t' d' x y
  G1 : ∀ j, j < n → ∀ t d x y, (y < cut L S n j ∨ cut L S n (j + 1) ≤ y) → G j t d x y = d x y
  G2 : ∀ j, j < n → ∀ t t' d d' : Plane,
    (∀ x y : Int, -8 ≤ x → x < W + 8 → cut L S n j ≤ y → y < cut L S n (j + 1) → t x y = t' x y) →
    (∀ x y, cut L S n j ≤ y → y < cut L S n (j + 1) → d x y = d' x y) →
    ∀ x y, cut L S n j ≤ y → y < cut L S n (j + 1) → G j t d x y = G j t' d' x y

namespace Eng
variable (e : Eng)

/-- Copy of the lines of a row of trees and of the four lines above it. -/
def copy (pad : Int) (j : Nat) (src dst : Plane) : Plane := fun x y =>
  if (j * e.L : Int) - 4 ≤ y ∧ y < rowEnd e.L e.S j ∧ -pad ≤ x ∧ x < e.W + pad then src (max 0 (min (e.W - 1) x)) y else dst x y

def row (p : Planes) (j : Nat) : Planes :=
  let dec := e.D j p.dec
  let ts := if e.son then e.copy 0 j dec p.sao else p.sao
  let dec := if e.son then e.F j ts dec else dec
  let ta := if e.aon then e.copy 8 j dec p.alf else p.alf
  let dec := if e.aon then e.G j ta dec else dec
  ⟨dec, ts, ta⟩

def rows (k : Nat) (p : Planes) : Planes := (List.range k).foldl e.row p

/-- First filter on rows `0 … k - 1`. -/
def stage1 (k : Nat) (m : Plane) : Plane := (List.range k).foldl (fun m j => e.D j m) m
/-- Second filter on rows `0 … k - 1` of a picture that is completely through the first. -/
def stage2 (k : Nat) (m : Plane) : Plane := if e.son then (List.range k).foldl (fun d j => e.F j m d) m else m
def stage3 (k : Nat) (m : Plane) : Plane := if e.aon then (List.range k).foldl (fun d j => e.G j (padded e.W m) d) m else m

theorem cut_step {j : Nat} (hj : j < e.n) :
    cut e.L e.S e.n j ≤ cut e.L e.S e.n (j + 1) ∧ cut e.L e.S e.n (j + 1) ≤ rowEnd e.L e.S j ∧
      (j * e.L : Int) - 4 ≤ cut e.L e.S e.n j ∧ 0 ≤ cut e.L e.S e.n j ∧ cut e.L e.S e.n (j + 1) ≤ e.S ∧
      (j + 1 < e.n → cut e.L e.S e.n (j + 1) = (j * e.L : Int) + e.L - 4 ∧ rowEnd e.L e.S j = (j * e.L : Int) + e.L) ∧
      (j + 1 = e.n → cut e.L e.S e.n (j + 1) = e.S ∧ rowEnd e.L e.S j = e.S) ∧ (0 < j → cut e.L e.S e.n j = j * e.L - 4) := by
  obtain ⟨hL, hn, hS, hS'⟩ := And.intro e.hL (And.intro e.hn (And.intro e.hS e.hS'))
  have hj' : j * e.L ≤ (e.n - 1) * e.L := Nat.mul_le_mul_right _ (by omega)
  have h1 : (j * e.L : Int) < e.S := by
    have : j * e.L < e.S := by omega
    exact_mod_cast this
  have h2 : 0 < j → (e.L : Int) ≤ j * e.L := by
    intro h
    have : 1 * e.L ≤ j * e.L := Nat.mul_le_mul_right _ h
    have : e.L ≤ j * e.L := by omega
    exact_mod_cast this
  have h3 : j + 1 < e.n → (j * e.L : Int) + e.L < e.S := by
    intro h
    have : (j + 1) * e.L ≤ (e.n - 1) * e.L := Nat.mul_le_mul_right _ (by omega)
    have h4 : (j + 1) * e.L < e.S := by omega
    have h5 : (j + 1) * e.L = j * e.L + e.L := by ring
    rw [h5] at h4
    exact_mod_cast h4
  have h6 : j + 1 = e.n → (e.S : Int) ≤ j * e.L + e.L := by
    intro h
    have : e.S ≤ j * e.L + e.L := by rw [← h] at hS'; linarith [show (j + 1) * e.L = j * e.L + e.L by ring]
    exact_mod_cast this
  have e1 : ((j : Int) + 1) * e.L = j * e.L + e.L := by ring
  have h7 : j = 0 → (j * e.L : Int) = 0 := by intro h; subst h; simp
  unfold cut rowEnd
  push_cast
  rw [e1]
  rw [if_pos hj]
  generalize (j : Int) * e.L = K at *
  by_cases c1 : j = 0
  · by_cases c2 : j + 1 < e.n
    · rw [if_pos c1, if_pos c2]; omega
    · rw [if_pos c1, if_neg c2]; omega
  · by_cases c2 : j + 1 < e.n
    · rw [if_neg c1, if_pos c2]; omega
    · rw [if_neg c1, if_neg c2]; omega

theorem cut_le {j k : Nat} (hj : j ≤ k) (hk : k ≤ e.n) : cut e.L e.S e.n j ≤ cut e.L e.S e.n k := by
  induction k with
  | zero => rw [show j = 0 by omega]
  | succ k ih =>
    rcases Nat.lt_or_ge j (k + 1) with c | c
    · have := ih (by omega) (by omega)
      have := (e.cut_step (j := k) (by omega)).1
      omega
    · rw [show j = k + 1 by omega]

theorem stage1_succ (k : Nat) (m : Plane) : e.stage1 (k + 1) m = e.D k (e.stage1 k m) := by
  unfold stage1; rw [List.range_succ, List.foldl_append]; rfl

theorem rows_succ (k : Nat) (p : Planes) : e.rows (k + 1) p = e.row (e.rows k p) k := by
  unfold rows; rw [List.range_succ, List.foldl_append]; rfl

/-- Lines that later rows of the first filter do not reach. -/
theorem stage1_done (m : Plane) {k k' : Nat} (h : k ≤ k') (hk : k' ≤ e.n) (x y : Int) (hy : k = e.n ∨ y < k * e.L - 3) :
    e.stage1 k' m x y = e.stage1 k m x y := by
  induction k' with
  | zero => rw [show k = 0 by omega]
  | succ k' ih =>
    rcases Nat.lt_or_ge k (k' + 1) with c | c
    · rw [stage1_succ, e.D1 k' (by omega), ih (by omega) (by omega)]
      left
      have : k * e.L ≤ k' * e.L := Nat.mul_le_mul_right _ (by omega)
      have : (k * e.L : Int) ≤ k' * e.L := by exact_mod_cast this
      omega
    · rw [show k = k' + 1 by omega]

/-- A stage that changes exactly the lines between its cuts, seen between the cuts. -/
theorem stage_cut (H : Nat → Plane → Plane) (m : Plane)
    (h1 : ∀ j, j < e.n → ∀ d x y, (y < cut e.L e.S e.n j ∨ cut e.L e.S e.n (j + 1) ≤ y) → H j d x y = d x y)
    (h2 : ∀ j, j < e.n → ∀ d d' : Plane, (∀ x y, cut e.L e.S e.n j ≤ y → y < cut e.L e.S e.n (j + 1) → d x y = d' x y) →
      ∀ x y, cut e.L e.S e.n j ≤ y → y < cut e.L e.S e.n (j + 1) → H j d x y = H j d' x y) (k : Nat) (hk : k ≤ e.n) :
    (∀ x y, cut e.L e.S e.n k ≤ y → (List.range k).foldl (fun d j => H j d) m x y = m x y) ∧
    (∀ j, j < k → ∀ x y, cut e.L e.S e.n j ≤ y → y < cut e.L e.S e.n (j + 1) → (List.range k).foldl (fun d j => H j d) m x y = H j m x y) ∧
    (∀ x y, y < 0 → (List.range k).foldl (fun d j => H j d) m x y = m x y) := by
  induction k with
  | zero => exact ⟨fun _ _ _ => rfl, fun j hj => by omega, fun _ _ _ => rfl⟩
  | succ k ih =>
    obtain ⟨i1, i2, i3⟩ := ih (by omega)
    have cs := e.cut_step (j := k) (by omega)
    have mono : ∀ j, j ≤ k → cut e.L e.S e.n j ≤ cut e.L e.S e.n k := fun j hj => e.cut_le hj (by omega)
    rw [List.range_succ, List.foldl_append]
    simp only [List.foldl_cons, List.foldl_nil]
    refine ⟨?_, ?_, ?_⟩
    · intro x y hy
      rw [h1 k (by omega) _ _ _ (Or.inr hy), i1 x y (by omega)]
    · intro j hj x y hy hy'
      rcases Nat.lt_or_ge j k with c | c
      · have := mono (j + 1) (by omega)
        rw [h1 k (by omega) _ _ _ (Or.inl (by omega)), i2 j c x y hy hy']
      · have : j = k := by omega
        subst this
        exact h2 j (by omega) _ _ (fun x y h _ => i1 x y h) x y hy hy'
    · intro x y hy
      rw [h1 k (by omega) _ _ _ (Or.inl (by omega)), i3 x y hy]

section
variable (p : Planes)

def P1 : Plane := e.stage1 e.n p.dec
def P2 : Plane := e.stage2 e.n (e.P1 p)
def P3 : Plane := e.stage3 e.n (e.P2 p)

theorem P2_cut {j : Nat} (hj : j < e.n) (x y : Int) (h1 : cut e.L e.S e.n j ≤ y) (h2 : y < cut e.L e.S e.n (j + 1)) :
    e.P2 p x y = if e.son then e.F j (e.P1 p) (e.P1 p) x y else e.P1 p x y := by
  unfold P2 stage2
  split
  · exact (e.stage_cut (fun j d => e.F j (e.P1 p) d) (e.P1 p) (fun j hj d x y h => e.F1 j hj _ d x y h)
      (fun j hj d d' h => e.F2 j hj _ _ d d' (fun _ _ _ _ _ _ _ _ => rfl) h) e.n (Nat.le_refl _)).2.1 j hj x y h1 h2
  · rfl

theorem P3_cut {j : Nat} (hj : j < e.n) (x y : Int) (h1 : cut e.L e.S e.n j ≤ y) (h2 : y < cut e.L e.S e.n (j + 1)) :
    e.P3 p x y = if e.aon then e.G j (padded e.W (e.P2 p)) (e.P2 p) x y else e.P2 p x y := by
  unfold P3 stage3
  split
  · exact (e.stage_cut (fun j d => e.G j (padded e.W (e.P2 p)) d) (e.P2 p) (fun j hj d x y h => e.G1 j hj _ d x y h)
      (fun j hj d d' h => e.G2 j hj _ _ d d' (fun _ _ _ _ _ _ => rfl) h) e.n (Nat.le_refl _)).2.1 j hj x y h1 h2
  · rfl

/-- What holds after `k` rows. -/
structure Inv (k : Nat) (st : Planes) : Prop where
  done : ∀ x y, 0 ≤ y → y < cut e.L e.S e.n k → st.dec x y = e.P3 p x y
  todo : ∀ x y, (y < 0 ∨ cut e.L e.S e.n k ≤ y) → st.dec x y = e.stage1 k p.dec x y
  tmp : e.son = true → ∀ x y : Int, 0 ≤ x → x < e.W → 0 ≤ y → y < e.S → y < k * e.L - 3 → st.sao x y = e.P1 p x y

theorem inv_step {k : Nat} (hk : k < e.n) {st : Planes} (h : e.Inv p k st) : e.Inv p (k + 1) (e.row st k) := by
  obtain ⟨done, todo, tmp⟩ := h
  obtain ⟨c1, c2, c3, c4, c5, c6, c7, c8⟩ := e.cut_step hk
  have hcp : ∀ (x : Int), 0 ≤ x → x < e.W → max 0 (min ((e.W : Int) - 1) x) = x := by intro x _ _; omega
  -- the first filter
  have d1 : ∀ x y, (k * e.L : Int) - 4 ≤ y → e.D k st.dec x y = e.stage1 (k + 1) p.dec x y := by
    intro x y hy
    rw [stage1_succ]
    by_cases hr : y < rowEnd e.L e.S k
    · refine e.D2 k hk _ _ ?_ x y hy hr
      intro x y h1 h2
      apply todo
      by_cases k0 : 0 < k
      · right; rw [c8 k0]; omega
      · have : k = 0 := by omega
        subst this
        unfold cut
        simp at h1 ⊢; omega
    · rw [e.D1 k hk _ x y (Or.inr (by omega)), e.D1 k hk _ x y (Or.inr (by omega))]
      exact todo x y (Or.inr (by omega))
  have d0 : ∀ x y, y < (k * e.L : Int) - 4 → e.D k st.dec x y = st.dec x y := fun x y hy => e.D1 k hk _ x y (Or.inl (by omega))
  -- rows which the first filter will not touch any more
  have fin : ∀ x y : Int, y < e.S → (k + 1 < e.n → y < (k * e.L : Int) + e.L - 3) → e.stage1 (k + 1) p.dec x y = e.P1 p x y := by
    intro x y hy hy'
    unfold P1
    by_cases hl : k + 1 < e.n
    · rw [e.stage1_done p.dec (k := k + 1) (k' := e.n) (by omega) (Nat.le_refl _) x y (Or.inr (by
        push_cast
        have : ((k : Int) + 1) * e.L = k * e.L + e.L := by ring
        have := hy' hl
        omega))]
    · rw [show k + 1 = e.n by omega]
  generalize e1 : e.D k st.dec = dec1 at d1 d0
  -- copy and second filter
  have t1 : e.son = true → ∀ x y : Int, 0 ≤ x → x < e.W → 0 ≤ y → y < e.S → (k + 1 < e.n → y < (k * e.L : Int) + e.L - 3) →
      e.copy 0 k dec1 st.sao x y = e.P1 p x y := by
    intro hs x y x0 x1 y0 y1 hy
    unfold copy
    by_cases hr : (k * e.L : Int) - 4 ≤ y
    · have : y < rowEnd e.L e.S k := by
        by_cases hl : k + 1 < e.n
        · rw [(c6 hl).2]; have := hy hl; omega
        · rw [(c7 (by omega)).2]; exact y1
      rw [if_pos ⟨hr, this, by omega, by omega⟩, hcp x x0 x1, d1 x y hr, fin x y y1 hy]
    · rw [if_neg (by omega)]
      exact tmp hs x y x0 x1 y0 y1 (by omega)
  have hdec1 : ∀ x y, cut e.L e.S e.n k ≤ y → y < cut e.L e.S e.n (k + 1) → dec1 x y = e.P1 p x y := by
    intro x y h1 h2
    rw [d1 x y (by omega)]
    exact fin x y (by omega) (fun hl => by rw [(c6 hl).1] at h2; omega)
  generalize e2 : (if e.son then e.copy 0 k dec1 st.sao else st.sao) = ts
  have d2 : ∀ x y, cut e.L e.S e.n k ≤ y → y < cut e.L e.S e.n (k + 1) → (if e.son then e.F k ts dec1 else dec1) x y = e.P2 p x y := by
    intro x y h1 h2
    rw [e.P2_cut p hk x y h1 h2]
    by_cases hs : e.son = true
    · rw [if_pos hs, if_pos hs]
      refine e.F2 k hk _ _ _ _ ?_ hdec1 x y h1 h2
      intro x y x0 x1 y0 y1 h3 h4
      rw [← e2, if_pos hs]
      exact t1 hs x y x0 x1 y0 y1 (fun hl => by rw [(c6 hl).1] at h4; omega)
    · rw [if_neg hs, if_neg hs]
      exact hdec1 x y h1 h2
  have d2o : ∀ x y, (y < cut e.L e.S e.n k ∨ cut e.L e.S e.n (k + 1) ≤ y) → (if e.son then e.F k ts dec1 else dec1) x y = dec1 x y := by
    intro x y h1
    split
    · exact e.F1 k hk _ _ x y h1
    · rfl
  generalize e3 : (if e.son then e.F k ts dec1 else dec1) = dec2 at d2 d2o
  generalize e4 : (if e.aon then e.copy 8 k dec2 st.alf else st.alf) = ta
  have d3 : ∀ x y, cut e.L e.S e.n k ≤ y → y < cut e.L e.S e.n (k + 1) → (if e.aon then e.G k ta dec2 else dec2) x y = e.P3 p x y := by
    intro x y h1 h2
    rw [e.P3_cut p hk x y h1 h2]
    by_cases hs : e.aon = true
    · rw [if_pos hs, if_pos hs]
      refine e.G2 k hk _ _ _ _ ?_ d2 x y h1 h2
      intro x y x0 x1 h3 h4
      rw [← e4, if_pos hs]
      unfold copy padded
      rw [if_pos ⟨by omega, by omega, by omega, by omega⟩]
      exact d2 _ y h3 h4
    · rw [if_neg hs, if_neg hs]
      exact d2 x y h1 h2
  have d3o : ∀ x y, (y < cut e.L e.S e.n k ∨ cut e.L e.S e.n (k + 1) ≤ y) → (if e.aon then e.G k ta dec2 else dec2) x y = dec2 x y := by
    intro x y h1
    split
    · exact e.G1 k hk _ _ x y h1
    · rfl
  have hrow : e.row st k = ⟨if e.aon then e.G k ta dec2 else dec2, ts, ta⟩ := by
    unfold row
    dsimp only
    rw [e1, e2, e3, e4]
  rw [hrow]
  refine ⟨?_, ?_, ?_⟩
  · intro x y y0 y1
    dsimp only
    by_cases hy : cut e.L e.S e.n k ≤ y
    · exact d3 x y hy y1
    · rw [d3o x y (Or.inl (by omega)), d2o x y (Or.inl (by omega))]
      rw [d0 x y (by
        by_cases k0 : 0 < k
        · rw [c8 k0] at hy; omega
        · have : k = 0 := by omega
          subst this
          unfold cut at hy
          simp at hy; omega)]
      exact done x y y0 (by omega)
  · intro x y hy
    dsimp only
    have hy' : y < cut e.L e.S e.n k ∨ cut e.L e.S e.n (k + 1) ≤ y := by omega
    rw [d3o x y hy', d2o x y hy']
    by_cases hr : (k * e.L : Int) - 4 ≤ y
    · exact d1 x y hr
    · rw [d0 x y (by omega), stage1_succ, e.D1 k hk _ x y (Or.inl (by omega))]
      exact todo x y (by omega)
  · intro hs x y x0 x1 y0 y1 hy
    dsimp only
    rw [← e2, if_pos hs]
    push_cast at hy
    have : ((k : Int) + 1) * e.L = k * e.L + e.L := by ring
    exact t1 hs x y x0 x1 y0 y1 (fun _ => by omega)

theorem inv_rows (k : Nat) (hk : k ≤ e.n) : e.Inv p k (e.rows k p) := by
  induction k with
  | zero =>
    refine ⟨?_, fun _ _ _ => rfl, ?_⟩
    · intro x y h0 h1
      unfold cut at h1
      simp at h1; omega
    · intro _ x y _ _ h0 _ h1
      simp at h1; omega
  | succ k ih =>
    rw [rows_succ]
    exact e.inv_step p (by omega) (ih (by omega))

/-- Row by row is the same as stage by stage. -/
theorem rows_eq (x y : Int) (h0 : 0 ≤ y) (h1 : y < e.S) : (e.rows e.n p).dec x y = e.P3 p x y := by
  refine (e.inv_rows p e.n (Nat.le_refl _)).done x y h0 ?_
  unfold cut
  rw [if_neg (by have := e.hn; omega), if_neg (by omega)]
  exact h1

end
end Eng
end Davs2.Lr
