import Verif.Lemmas.Sao
/-
C42: sample adaptive offset.
-/
namespace Davs2.Sa
open Davs2.Spec

variable {bd : Nat} {off : Int → Int} {av : Avail} {src : Plane} {w h : Int}

/-- Diagonal neighbours are available exactly if both sides are (sao.cc:485-488). -/
def Avail.Corners (av : Avail) : Prop :=
  av.tl = (av.t && av.l) ∧ av.tr = (av.t && av.r) ∧ av.dl = (av.d && av.l) ∧ av.dr = (av.d && av.r)

instance (av : Avail) : Decidable av.Corners := by unfold Avail.Corners; infer_instance

/-- What an edge filter has to leave behind: inside the block the definition, outside nothing changes. -/
def Filtered (bd : Nat) (off : Int → Int) (av : Avail) (src : Plane) (w h dx dy : Int) (dst d : Plane) : Prop :=
  ∀ x y, d x y = if 0 ≤ x ∧ x < w ∧ 0 ≤ y ∧ y < h
    then (edgeOffset bd off dx dy (visible av.l av.t av.r av.d w h) src x y).getD (dst x y) else dst x y

theorem filtered_of {dx dy : Int} {dst d : Plane} (P : Int → Int → Prop) [∀ x y, Decidable (P x y)]
    (hd : ∀ x y, d x y = if P x y then want bd off src dx dy x y else dst x y)
    (hp : ∀ x y, P x y ↔ (0 ≤ x ∧ x < w ∧ 0 ≤ y ∧ y < h) ∧ visible av.l av.t av.r av.d w h (x - dx) (y - dy) ∧
      visible av.l av.t av.r av.d w h (x + dx) (y + dy)) :
    Filtered bd off av src w h dx dy dst d := by
  intro x y
  rw [hd x y]
  unfold edgeOffset
  by_cases h1 : 0 ≤ x ∧ x < w ∧ 0 ≤ y ∧ y < h
  · rw [if_pos h1]
    by_cases h2 : visible av.l av.t av.r av.d w h (x - dx) (y - dy) ∧ visible av.l av.t av.r av.d w h (x + dx) (y + dy)
    · rw [if_pos h2, if_pos ((hp x y).2 ⟨h1, h2⟩)]; rfl
    · rw [if_neg h2, if_neg (fun c => h2 ((hp x y).1 c).2)]; rfl
  · rw [if_neg h1, if_neg (fun c => h1 ((hp x y).1 c).1)]

/-- C42, horizontal neighbours. -/
theorem C42_edge0 (hw : 1 ≤ w) (dst : Plane) : Filtered bd off av src w h 1 0 dst (eo0 bd off av src w h dst) := by
  have := (rows_done (bd := bd) (off := off) (src := src) (dx := 1) (dy := 0) (a0 := 0) (b0 := h) (fun _ => sx av)
    (fun _ => max (sx av) (ex av w)) (fun y d => eo0Row bd off av src w y d) id (fun _ _ => True) dst trivial
    (fun y s _ _ _ => ⟨trivial, eo0Row_done y s⟩)).2
  refine filtered_of _ this ?_
  intro x y
  unfold visible sx ex
  cases av.l <;> cases av.r <;> cases av.t <;> cases av.d <;> simp <;> omega

/-- C42, vertical neighbours. -/
theorem C42_edge90 (hh : 1 ≤ h) (dst : Plane) : Filtered bd off av src w h 0 1 dst (eo90 bd off av src w h dst) := by
  unfold eo90
  generalize ea : (if av.t = true then (0 : Int) else 1) = a
  generalize eb : (if av.d = true then h else h - 1) = b
  have := loop_inv (a := 0) (b := w) (f := fun x dst => eo90Col bd off av src h x dst) (s := dst)
    (P := fun x d => ∀ x' y', d x' y' = if (0 ≤ x' ∧ x' < x) ∧ a ≤ y' ∧ y' < max a b then want bd off src 0 1 x' y' else dst x' y')
    (fun x' y' => by rw [if_neg (by omega)]) (by
      intro x d h0 h1 i x' y'
      have := eo90Col_done (bd := bd) (off := off) (av := av) (src := src) (h := h) x d x' y'
      rw [ea, eb] at this
      rw [this]
      by_cases h : x' = x ∧ a ≤ y' ∧ y' < max a b
      · rw [if_pos h, if_pos (by omega)]
      · rw [if_neg h, i x' y']
        by_cases h2 : (0 ≤ x' ∧ x' < x) ∧ a ≤ y' ∧ y' < max a b
        · rw [if_pos h2, if_pos (by omega)]
        · rw [if_neg h2, if_neg (by omega)])
  refine filtered_of _ this ?_
  intro x y
  unfold visible
  subst ea eb
  cases av.l <;> cases av.r <;> cases av.t <;> cases av.d <;> simp <;> omega

theorem first135_cols (hc : av.Corners) (hw : 2 ≤ w) {x : Int} (h0 : (if av.tl then (0 : Int) else 1) ≤ x)
    (h1 : x < if av.t then (if av.r then w else w - 1) else 1) : sx av ≤ x ∧ x < ex av w := by
  obtain ⟨t, d, l, r, tl, tr, dl, dr⟩ := av
  obtain ⟨c1, c2, c3, c4⟩ := hc
  dsimp only at *
  subst c1 c2 c3 c4
  unfold sx ex at *
  cases l <;> cases r <;> cases t <;> cases d <;> simp at * <;> omega

theorem first45_cols (hc : av.Corners) (hw : 2 ≤ w) {x : Int} (h0 : (if av.t then (if av.l then (0 : Int) else 1) else w - 1) ≤ x)
    (h1 : x < if av.tr then w else w - 1) : sx av ≤ x ∧ x < ex av w := by
  obtain ⟨t, d, l, r, tl, tr, dl, dr⟩ := av
  obtain ⟨c1, c2, c3, c4⟩ := hc
  dsimp only at *
  subst c1 c2 c3 c4
  unfold sx ex at *
  cases l <;> cases r <;> cases t <;> cases d <;> simp at * <;> omega

theorem last135_cols (hc : av.Corners) (hw : 2 ≤ w)
    (h : (if av.d then (if av.l then (0 : Int) else 1) else w - 1) < if av.dr then w else w - 1) :
    (if av.d then (if av.l then (0 : Int) else 1) else w - 1) = sx av ∧ (if av.dr then w else w - 1) = ex av w := by
  obtain ⟨t, d, l, r, tl, tr, dl, dr⟩ := av
  obtain ⟨c1, c2, c3, c4⟩ := hc
  dsimp only at *
  subst c1 c2 c3 c4
  unfold sx ex at *
  cases l <;> cases r <;> cases t <;> cases d <;> simp at * <;> omega

theorem last45_cols (hc : av.Corners) (hw : 2 ≤ w)
    (h : (if av.dl then (0 : Int) else 1) < if av.d then (if av.r then w else w - 1) else 1) :
    (if av.dl then (0 : Int) else 1) = sx av ∧ (if av.d then (if av.r then w else w - 1) else 1) = ex av w := by
  obtain ⟨t, d, l, r, tl, tr, dl, dr⟩ := av
  obtain ⟨c1, c2, c3, c4⟩ := hc
  dsimp only at *
  subst c1 c2 c3 c4
  unfold sx ex at *
  cases l <;> cases r <;> cases t <;> cases d <;> simp at * <;> omega

theorem cover135 (hc : av.Corners) (hw : 2 ≤ w) (hh : 2 ≤ h) (x y : Int) :
    ((y = max 1 (h - 1) ∧ (if av.d then (if av.l then (0 : Int) else 1) else w - 1) ≤ x ∧
        x < max (if av.d then (if av.l then (0 : Int) else 1) else w - 1) (if av.dr then w else w - 1)) ∨
      (1 ≤ y ∧ y < h - 1 ∧ sx av ≤ x ∧ x < max (sx av) (ex av w)) ∨
      (y = 0 ∧ (if av.tl then (0 : Int) else 1) ≤ x ∧
        x < max (if av.tl then (0 : Int) else 1) (if av.t then (if av.r then w else w - 1) else 1))) ↔
    (0 ≤ x ∧ x < w ∧ 0 ≤ y ∧ y < h) ∧ visible av.l av.t av.r av.d w h (x - 1) (y - 1) ∧
      visible av.l av.t av.r av.d w h (x + 1) (y + 1) := by
  obtain ⟨t, d, l, r, tl, tr, dl, dr⟩ := av
  obtain ⟨c1, c2, c3, c4⟩ := hc
  dsimp only at *
  subst c1 c2 c3 c4
  unfold visible sx ex at *
  cases l <;> cases r <;> cases t <;> cases d <;> simp <;> omega

theorem cover45 (hc : av.Corners) (hw : 2 ≤ w) (hh : 2 ≤ h) (x y : Int) :
    ((y = max 1 (h - 1) ∧ (if av.dl then (0 : Int) else 1) ≤ x ∧
        x < max (if av.dl then (0 : Int) else 1) (if av.d then (if av.r then w else w - 1) else 1)) ∨
      (1 ≤ y ∧ y < h - 1 ∧ sx av ≤ x ∧ x < max (sx av) (ex av w)) ∨
      (y = 0 ∧ (if av.t then (if av.l then (0 : Int) else 1) else w - 1) ≤ x ∧
        x < max (if av.t then (if av.l then (0 : Int) else 1) else w - 1) (if av.tr then w else w - 1))) ↔
    (0 ≤ x ∧ x < w ∧ 0 ≤ y ∧ y < h) ∧ visible av.l av.t av.r av.d w h (x - -1) (y - 1) ∧
      visible av.l av.t av.r av.d w h (x + -1) (y + 1) := by
  obtain ⟨t, d, l, r, tl, tr, dl, dr⟩ := av
  obtain ⟨c1, c2, c3, c4⟩ := hc
  dsimp only at *
  subst c1 c2 c3 c4
  unfold visible sx ex at *
  cases l <;> cases r <;> cases t <;> cases d <;> simp <;> omega

/-- C42, neighbours top-left and bottom-right, with signs carried in the line buffer and in `reg`; whatever
the uninitialised buffer holds. -/
theorem C42_edge135 (hw : 2 ≤ w) (hh : 2 ≤ h) (hc : av.Corners) (junk : Int → Int) (dst : Plane) :
    Filtered bd off av src w h 1 1 dst (eo135 bd off av src w h junk dst) := by
  unfold eo135
  dsimp only
  have hu := init135_ok (av := av) (src := src) (w := w) junk
  generalize init135 av src w junk = up at hu
  -- first row
  generalize e0 : (if av.tl then (0 : Int) else 1) = a0
  generalize f0 : (if av.t then (if av.r then w else w - 1) else 1) = b0
  have d1 : RowDone bd off src 1 1 dst 0 a0 (max a0 b0) (first135 bd off av src w up dst) := by
    unfold first135
    rw [e0, f0]
    refine loop_inv (P := fun x d => RowDone bd off src 1 1 dst 0 a0 x d) (RowDone.start _ _ _ _ _) ?_
    intro x d h0 h1 i
    refine i.step h0 ?_
    rw [hu (x + 1) ?_ ?_, show x + 1 - 1 = x by omega, show (0 : Int) - 1 = -1 by omega, show (0 : Int) + 1 = 1 by omega,
      ← sgn_neg (src x 0)]
    · omega
    · have := first135_cols (x := x) hc hw (by rw [e0]; exact h0) (by rw [f0]; exact h1); omega
    · have := first135_cols (x := x) hc hw (by rw [e0]; exact h0) (by rw [f0]; exact h1); omega
  generalize first135 bd off av src w up dst = dd1 at d1
  -- middle rows
  obtain ⟨u2, d2⟩ := rows_done (bd := bd) (off := off) (src := src) (dx := 1) (dy := 1) (a0 := 1) (b0 := h - 1) (fun _ => sx av)
    (fun _ => max (sx av) (ex av w)) (fun y st => mid135 bd off av src w y st) (fun st => st.2.2)
    (fun y st => Up135 src (sx av) (ex av w) y st.1) (up, 0, dd1) (fun j h1 h2 => hu j h1 (by omega))
    (fun y s _ _ q => mid135_ok y s q)
  generalize loop 1 (h - 1) (fun y st => mid135 bd off av src w y st) (up, 0, dd1) = st2 at u2 d2
  -- last row
  generalize e3 : (if av.d then (if av.l then (0 : Int) else 1) else w - 1) = a3
  generalize f3 : (if av.dr then w else w - 1) = b3
  have hs : a3 < b3 → a3 = sx av ∧ b3 = ex av w := by
    subst e3 f3
    exact last135_cols hc hw
  have d3 : RowDone bd off src 1 1 st2.2.2 (max 1 (h - 1)) a3 (max a3 b3)
      (last135 bd off av src w (max 1 (h - 1)) (st2.1, st2.2.2)).2 := by
    unfold last135
    rw [e3, f3]
    refine (loop_inv (P := fun x (st : (Int → Int) × Plane) => (∀ j, x ≤ j → j < b3 → j ≠ sx av →
      st.1 j = sgn (src j (max 1 (h - 1)) - src (j - 1) (max 1 (h - 1) - 1))) ∧
      RowDone bd off src 1 1 st2.2.2 (max 1 (h - 1)) a3 x st.2) ⟨?_, RowDone.start _ _ _ _ _⟩ ?_).2
    · intro j h1 h2 h3
      have := hs (by omega)
      exact u2 j (by omega) (by omega)
    · intro x st h0 h1 ⟨i1, i2⟩
      dsimp only
      refine ⟨fun j hj hj2 hj3 => ?_, i2.step h0 ?_⟩
      · by_cases e : x = sx av
        · rw [if_pos e]; unfold put; rw [if_neg (by omega)]; exact i1 j (by omega) hj2 hj3
        · rw [if_neg e]; exact i1 j (by omega) hj2 hj3
      · have : (if x = sx av then put st.1 x (sgn (src x (max 1 (h - 1)) - src (x - 1) (max 1 (h - 1) - 1))) else st.1) x
            = sgn (src x (max 1 (h - 1)) - src (x - 1) (max 1 (h - 1) - 1)) := by
          by_cases e : x = sx av
          · rw [if_pos e]; unfold put; rw [if_pos rfl]
          · rw [if_neg e]; exact i1 x (Int.le_refl _) h1 e
        rw [this]; omega
  generalize (last135 bd off av src w (max 1 (h - 1)) (st2.1, st2.2.2)).2 = dd3 at d3
  refine filtered_of (fun x y => (y = max 1 (h - 1) ∧ a3 ≤ x ∧ x < max a3 b3) ∨ (1 ≤ y ∧ y < h - 1 ∧ sx av ≤ x ∧ x < max (sx av) (ex av w)) ∨
    (y = 0 ∧ a0 ≤ x ∧ x < max a0 b0)) ?_ ?_
  · intro x y
    rw [d3 x y]
    by_cases g1 : y = max 1 (h - 1) ∧ a3 ≤ x ∧ x < max a3 b3
    · rw [if_pos g1, if_pos (Or.inl g1)]
    · rw [if_neg g1, d2 x y]
      by_cases g2 : 1 ≤ y ∧ y < h - 1 ∧ sx av ≤ x ∧ x < max (sx av) (ex av w)
      · rw [if_pos g2, if_pos (Or.inr (Or.inl g2))]
      · rw [if_neg g2]
        dsimp only
        rw [d1 x y]
        by_cases g3 : y = 0 ∧ a0 ≤ x ∧ x < max a0 b0
        · rw [if_pos g3, if_pos (Or.inr (Or.inr g3))]
        · rw [if_neg g3, if_neg (by tauto)]
  · intro x y
    subst e0 f0 e3 f3
    exact cover135 hc hw hh x y

/-- C42, neighbours top-right and bottom-left. -/
theorem C42_edge45 (hw : 2 ≤ w) (hh : 2 ≤ h) (hc : av.Corners) (junk : Int → Int) (dst : Plane) :
    Filtered bd off av src w h (-1) 1 dst (eo45 bd off av src w h junk dst) := by
  unfold eo45
  dsimp only
  have hu := init45_ok (av := av) (src := src) (w := w) junk
  generalize init45 av src w junk = up at hu
  generalize e0 : (if av.t then (if av.l then (0 : Int) else 1) else w - 1) = a0
  generalize f0 : (if av.tr then w else w - 1) = b0
  have d1 : RowDone bd off src (-1) 1 dst 0 a0 (max a0 b0) (first45 bd off av src w up dst) := by
    unfold first45
    rw [e0, f0]
    refine loop_inv (P := fun x d => RowDone bd off src (-1) 1 dst 0 a0 x d) (RowDone.start _ _ _ _ _) ?_
    intro x d h0 h1 i
    refine i.step h0 ?_
    rw [hu (x - 1) ?_ ?_, show x - 1 + 1 = x by omega, show (0 : Int) - 1 = -1 by omega, show (0 : Int) + 1 = 1 by omega,
      show x - -1 = x + 1 by omega, show x + -1 = x - 1 by omega, show (1 : Int) - 1 = 0 by omega, ← sgn_neg (src x 0)]
    · omega
    · have := first45_cols (x := x) hc hw (by rw [e0]; exact h0) (by rw [f0]; exact h1); omega
    · have := first45_cols (x := x) hc hw (by rw [e0]; exact h0) (by rw [f0]; exact h1); omega
  generalize first45 bd off av src w up dst = dd1 at d1
  obtain ⟨u2, d2⟩ := rows_done (bd := bd) (off := off) (src := src) (dx := -1) (dy := 1) (a0 := 1) (b0 := h - 1) (fun _ => sx av)
    (fun _ => max (sx av) (ex av w)) (fun y st => mid45 bd off av src w y st) (fun st => st.2)
    (fun y st => Up45 src (sx av) (ex av w) y st.1) (up, dd1) hu
    (fun y s _ _ q => mid45_ok y s q)
  generalize loop 1 (h - 1) (fun y st => mid45 bd off av src w y st) (up, dd1) = st2 at u2 d2
  generalize e3 : (if av.dl then (0 : Int) else 1) = a3
  generalize f3 : (if av.d then (if av.r then w else w - 1) else 1) = b3
  have hs : a3 < b3 → a3 = sx av ∧ b3 = ex av w := by
    subst e3 f3
    exact last45_cols hc hw
  have d3 : RowDone bd off src (-1) 1 st2.2 (max 1 (h - 1)) a3 (max a3 b3)
      (last45 bd off av src w (max 1 (h - 1)) st2).2 := by
    unfold last45
    rw [e3, f3]
    refine (loop_inv (P := fun x (st : (Int → Int) × Plane) => (∀ j, x ≤ j → j < b3 → j ≠ ex av w - 1 →
      st.1 j = sgn (src j (max 1 (h - 1)) - src (j + 1) (max 1 (h - 1) - 1))) ∧
      RowDone bd off src (-1) 1 st2.2 (max 1 (h - 1)) a3 x st.2) ⟨?_, RowDone.start _ _ _ _ _⟩ ?_).2
    · intro j h1 h2 h3
      have := hs (by omega)
      exact u2 j (by omega) (by omega)
    · intro x st h0 h1 ⟨i1, i2⟩
      dsimp only
      refine ⟨fun j hj hj2 hj3 => ?_, i2.step h0 ?_⟩
      · by_cases e : x = ex av w - 1
        · rw [if_pos e]; unfold put; rw [if_neg (by omega)]; exact i1 j (by omega) hj2 hj3
        · rw [if_neg e]; exact i1 j (by omega) hj2 hj3
      · have : (if x = ex av w - 1 then put st.1 x (sgn (src x (max 1 (h - 1)) - src (x + 1) (max 1 (h - 1) - 1))) else st.1) x
            = sgn (src x (max 1 (h - 1)) - src (x + 1) (max 1 (h - 1) - 1)) := by
          by_cases e : x = ex av w - 1
          · rw [if_pos e]; unfold put; rw [if_pos rfl]
          · rw [if_neg e]; exact i1 x (Int.le_refl _) h1 e
        rw [this, show x - -1 = x + 1 by omega, show x + -1 = x - 1 by omega]; omega
  generalize (last45 bd off av src w (max 1 (h - 1)) st2).2 = dd3 at d3
  refine filtered_of (fun x y => (y = max 1 (h - 1) ∧ a3 ≤ x ∧ x < max a3 b3) ∨ (1 ≤ y ∧ y < h - 1 ∧ sx av ≤ x ∧ x < max (sx av) (ex av w)) ∨
    (y = 0 ∧ a0 ≤ x ∧ x < max a0 b0)) ?_ ?_
  · intro x y
    rw [d3 x y]
    by_cases g1 : y = max 1 (h - 1) ∧ a3 ≤ x ∧ x < max a3 b3
    · rw [if_pos g1, if_pos (Or.inl g1)]
    · rw [if_neg g1, d2 x y]
      by_cases g2 : 1 ≤ y ∧ y < h - 1 ∧ sx av ≤ x ∧ x < max (sx av) (ex av w)
      · rw [if_pos g2, if_pos (Or.inr (Or.inl g2))]
      · rw [if_neg g2]
        dsimp only
        rw [d1 x y]
        by_cases g3 : y = 0 ∧ a0 ≤ x ∧ x < max a0 b0
        · rw [if_pos g3, if_pos (Or.inr (Or.inr g3))]
        · rw [if_neg g3, if_neg (by tauto)]
  · intro x y
    subst e0 f0 e3 f3
    exact cover45 hc hw hh x y

/-- C42, band offset. -/
theorem C42_band (dst : Plane) (x y : Int) :
    bo bd off src w h dst x y = if 0 ≤ x ∧ x < w ∧ 0 ≤ y ∧ y < h then bandOffset bd off (src x y) else dst x y := by
  have row : ∀ (y : Int) (d : Plane) (x' y' : Int),
      loop 0 w (fun x dst => set dst x y (out bd off src x y (src x y / 2 ^ (bd - 5)))) d x' y'
        = if y' = y ∧ 0 ≤ x' ∧ x' < max 0 w then bandOffset bd off (src x' y') else d x' y' := by
    intro y d
    refine loop_inv (P := fun x (e : Plane) => ∀ x' y', e x' y' = if y' = y ∧ 0 ≤ x' ∧ x' < x then bandOffset bd off (src x' y') else d x' y')
      (fun x' y' => by rw [if_neg (by omega)]) ?_
    intro x e h0 h1 i x' y'
    unfold set
    by_cases h : x' = x ∧ y' = y
    · obtain ⟨rfl, rfl⟩ := h
      rw [if_pos ⟨rfl, rfl⟩, if_pos (by omega)]
      unfold out bandOffset
      rw [clip_saturate]
    · rw [if_neg h, i x' y']
      by_cases h2 : y' = y ∧ 0 ≤ x' ∧ x' < x
      · rw [if_pos h2, if_pos (by omega)]
      · rw [if_neg h2, if_neg (by omega)]
  have := loop_inv (a := 0) (b := h)
    (f := fun y dst => loop 0 w (fun x dst => set dst x y (out bd off src x y (src x y / 2 ^ (bd - 5)))) dst) (s := dst)
    (P := fun y (e : Plane) => ∀ x' y', e x' y' = if (0 ≤ y' ∧ y' < y) ∧ 0 ≤ x' ∧ x' < max 0 w then bandOffset bd off (src x' y') else dst x' y')
    (fun x' y' => by rw [if_neg (by omega)]) (by
      intro y e h0 h1 i x' y'
      rw [row y e x' y']
      by_cases h : y' = y ∧ 0 ≤ x' ∧ x' < max 0 w
      · rw [if_pos h, if_pos (by omega)]
      · rw [if_neg h, i x' y']
        by_cases h2 : (0 ≤ y' ∧ y' < y) ∧ 0 ≤ x' ∧ x' < max 0 w
        · rw [if_pos h2, if_pos (by omega)]
        · rw [if_neg h2, if_neg (by omega)])
  unfold bo
  rw [this x y]
  by_cases h1 : 0 ≤ x ∧ x < w ∧ 0 ≤ y ∧ y < h
  · rw [if_pos h1, if_pos (by omega)]
  · rw [if_neg h1, if_neg (by omega)]

/-! ### Parameters -/

theorem countZeros_le {m : Nat} (hm : 0 < m) : ∀ (bits : List Bool) (cnt : Nat), cnt < m → (countZeros m bits cnt).1 ≤ m
  | [], cnt, h => by simp only [countZeros]; omega
  | b :: bs, cnt, h => by
    simp only [countZeros]
    split
    · dsimp only; omega
    · split
      · dsimp only; omega
      · exact countZeros_le hm bs (cnt + 1) (by omega)

/-- C42: whatever the bits, the offset read for a class is found in the mapping table and lies within the
limits of its class (`saoclip`, sao.cc:52-60). -/
theorem C42_offset (type : Nat) (ht : type ∈ [0, 1, 3, 4, 5]) (bits : List Bool) :
    ∃ v rest, readOffset type bits = some (v, rest) ∧
      (type = 0 → -1 ≤ v ∧ v ≤ 6) ∧ (type = 1 → 0 ≤ v ∧ v ≤ 1) ∧ (type = 3 → -1 ≤ v ∧ v ≤ 0) ∧
      (type = 4 → -6 ≤ v ∧ v ≤ 1) ∧ (type = 5 → -7 ≤ v ∧ v ≤ 7) := by
  have map7 : ∀ c : Nat, c ≤ 7 → ∃ v, eoMap[c]? = some v ∧ -1 ≤ v ∧ v ≤ 6 := by decide
  simp only [List.mem_cons, List.not_mem_nil, or_false] at ht
  rcases ht with e | e | e | e | e <;> subst e
  · have h := countZeros_le (m := 7) (by decide) bits 0 (by decide)
    obtain ⟨v, hv, h1⟩ := map7 _ h
    refine ⟨v, (countZeros 7 bits 0).2, ?_, fun _ => h1, by omega, by omega, by omega, by omega⟩
    simp [readOffset, saoMax, hv]
  · have h := countZeros_le (m := 1) (by decide) bits 0 (by decide)
    refine ⟨_, (countZeros 1 bits 0).2, by simp [readOffset, saoMax]; rfl, by omega, fun _ => by omega, by omega, by omega, by omega⟩
  · have h := countZeros_le (m := 1) (by decide) bits 0 (by decide)
    refine ⟨_, (countZeros 1 bits 0).2, by simp [readOffset, saoMax]; rfl, by omega, by omega, fun _ => by omega, by omega, by omega⟩
  · have h := countZeros_le (m := 7) (by decide) bits 0 (by decide)
    obtain ⟨v, hv, h1⟩ := map7 _ h
    refine ⟨-v, (countZeros 7 bits 0).2, ?_, by omega, by omega, by omega, fun _ => by omega, by omega⟩
    simp [readOffset, saoMax, hv]
  · have h := countZeros_le (m := 7) (by decide) bits 0 (by decide)
    simp only [readOffset, saoMax, List.getD_cons_succ, List.getD_cons_zero]
    generalize countZeros 7 bits 0 = r at h
    obtain ⟨c, bs⟩ := r
    dsimp only at h ⊢
    by_cases hc : c = 0
    · subst hc
      exact ⟨0, bs, by simp, by omega, by omega, by omega, by omega, fun _ => by omega⟩
    · cases bs with
      | nil => exact ⟨c, [], by simp [hc], by omega, by omega, by omega, by omega, fun _ => by omega⟩
      | cons b bs =>
        cases b
        · exact ⟨c, bs, by simp [hc], by omega, by omega, by omega, by omega, fun _ => by omega⟩
        · exact ⟨-c, bs, by simp [hc], by omega, by omega, by omega, by omega, fun _ => by omega⟩

/-- What is read does not depend on the symbols that follow. -/
theorem countZeros_append (m : Nat) (rest : List Bool) : ∀ (n c : Nat), c < m → c + n ≤ m →
    countZeros m (List.replicate n false ++ (if c + n < m then [true] else []) ++ rest) c = (c + n, rest)
  | 0, c, h, _ => by simp [h, countZeros]
  | n + 1, c, h, h1 => by
    by_cases e : c + 1 = m
    · have : n = 0 := by omega
      subst this
      simp [List.replicate, countZeros, e]
    · have := countZeros_append m rest n (c + 1) (by omega) (by omega)
      rw [show c + 1 + n = c + (n + 1) by omega] at this
      simp only [List.replicate_succ, List.cons_append, countZeros, e, if_false, Bool.false_eq_true]
      exact this

/-- C42: every offset within the limits of its class has a code, and the code is read back as that offset, whatever follows. -/
theorem C42_codes (type : Nat) (v : Int) (rest : List Bool)
    (h : type = 0 ∧ -1 ≤ v ∧ v ≤ 6 ∨ type = 1 ∧ 0 ≤ v ∧ v ≤ 1 ∨ type = 3 ∧ -1 ≤ v ∧ v ≤ 0 ∨ type = 4 ∧ -6 ≤ v ∧ v ≤ 1 ∨
      type = 5 ∧ -7 ≤ v ∧ v ≤ 7) : readOffset type (offsetCode type v ++ rest) = some (v, rest) := by
  have tr : ∀ n m, 0 < m → n ≤ m → ∀ r, countZeros m (truncated n m ++ r) 0 = (n, r) := by
    intro n m h0 h1 r
    have := countZeros_append m r n 0 h0 (by omega)
    simp only [Nat.zero_add] at this
    exact this
  have num : ∀ n : Nat, n < 8 → eoMap[edgeNumber ((n : Int) - 1)]? = some ((n : Int) - 1) ∧ edgeNumber ((n : Int) - 1) ≤ 7 := by decide
  have num' : ∀ u : Int, -1 ≤ u → u ≤ 6 → eoMap[edgeNumber u]? = some u ∧ edgeNumber u ≤ 7 := by
    intro u h1 h2
    have := num (u + 1).toNat (by omega)
    rwa [show (((u + 1).toNat : Nat) : Int) - 1 = u by omega] at this
  rcases h with ⟨e, h1, h2⟩ | ⟨e, h1, h2⟩ | ⟨e, h1, h2⟩ | ⟨e, h1, h2⟩ | ⟨e, h1, h2⟩ <;> subst e
  · obtain ⟨a, b⟩ := num' v h1 h2
    simp [readOffset, saoMax, offsetCode, tr _ 7 (by decide) b, a]
  · simp [readOffset, saoMax, offsetCode, tr v.natAbs 1 (by decide) (by omega)]
    rw [← Int.natCast_natAbs]; omega
  · simp [readOffset, saoMax, offsetCode, tr v.natAbs 1 (by decide) (by omega)]
    rw [← Int.natCast_natAbs]; omega
  · obtain ⟨a, b⟩ := num' (-v) (by omega) (by omega)
    simp [readOffset, saoMax, offsetCode, tr _ 7 (by decide) b, a]
  · simp only [readOffset, saoMax, offsetCode, List.append_assoc, List.getD_cons_succ, List.getD_cons_zero]
    rw [tr v.natAbs 7 (by decide) (by omega)]
    by_cases hv : v = 0
    · subst hv; simp
    · by_cases hn : v < 0
      · simp [hv, hn]; rw [← Int.natCast_natAbs]; omega
      · simp [hv, hn]; rw [← Int.natCast_natAbs]; omega

example : offsetCode 4 (-6) = List.replicate 7 false ∧ offsetCode 0 (-1) = [false, false, false, true] ∧
    offsetCode 5 (-2) = [false, false, true, true] := by decide

/-- C42: the four transmitted offsets go to samples that are smaller than both neighbours, smaller than one and equal to the
other, larger than one and equal to the other, larger than both; the other samples keep their value. -/
theorem C42_classes (bd : Nat) (o0 o1 o2 o3 : Int) (dx dy : Int) (see : Int → Int → Prop) [∀ x y, Decidable (see x y)]
    (s : Int → Int → Int) (x y : Int) (h : see (x - dx) (y - dy) ∧ see (x + dx) (y + dy)) :
    let v := s x y
    let a := s (x - dx) (y - dy)
    let b := s (x + dx) (y + dy)
    let r := edgeOffset bd (edgeTable o0 o1 o2 o3) dx dy see s x y
    (v < a → v < b → r = some (saturate bd (v + o0))) ∧
    (v < a → v = b → r = some (saturate bd (v + o1))) ∧ (v = a → v < b → r = some (saturate bd (v + o1))) ∧
    (v > a → v = b → r = some (saturate bd (v + o2))) ∧ (v = a → v > b → r = some (saturate bd (v + o2))) ∧
    (v > a → v > b → r = some (saturate bd (v + o3))) ∧
    (v = a → v = b → r = some (saturate bd v)) ∧ (v < a → v > b → r = some (saturate bd v)) ∧
    (v > a → v < b → r = some (saturate bd v)) := by
  intro v a b r
  have hr : r = some (saturate bd (v + edgeTable o0 o1 o2 o3 (2 + comparison v a + comparison v b))) := by
    show edgeOffset bd _ dx dy see s x y = _
    unfold edgeOffset
    rw [if_pos h]
  rw [hr]
  have lt : ∀ p q : Int, p < q → comparison p q = -1 := fun p q h => if_pos h
  have eq : ∀ p q : Int, p = q → comparison p q = 0 := fun p q h => by unfold comparison; rw [if_neg (by omega), if_pos h]
  have gt : ∀ p q : Int, p > q → comparison p q = 1 := fun p q h => by unfold comparison; rw [if_neg (by omega), if_neg (by omega)]
  refine ⟨fun h1 h2 => ?_, fun h1 h2 => ?_, fun h1 h2 => ?_, fun h1 h2 => ?_, fun h1 h2 => ?_, fun h1 h2 => ?_, fun h1 h2 => ?_,
    fun h1 h2 => ?_, fun h1 h2 => ?_⟩
  · rw [lt _ _ h1, lt _ _ h2]; rfl
  · rw [lt _ _ h1, eq _ _ h2]; rfl
  · rw [eq _ _ h1, lt _ _ h2]; rfl
  · rw [gt _ _ h1, eq _ _ h2]; rfl
  · rw [eq _ _ h1, gt _ _ h2]; rfl
  · rw [gt _ _ h1, gt _ _ h2]; rfl
  · rw [eq _ _ h1, eq _ _ h2, show edgeTable o0 o1 o2 o3 (2 + 0 + 0) = 0 from rfl, Int.add_zero]
  · rw [lt _ _ h1, gt _ _ h2, show edgeTable o0 o1 o2 o3 (2 + -1 + 1) = 0 from rfl, Int.add_zero]
  · rw [gt _ _ h1, lt _ _ h2, show edgeTable o0 o1 o2 o3 (2 + 1 + -1) = 0 from rfl, Int.add_zero]

theorem typeRest_lt : ∀ (n : Nat) (bits : List Bool), typeRest n bits < 2 ^ n
  | 0, _ => by simp [typeRest]
  | n + 1, [] => by simp only [typeRest]; exact Nat.two_pow_pos _
  | n + 1, b :: bs => by
    have := typeRest_lt n bs
    rw [typeRest, Nat.pow_succ]
    cases b <;> simp <;> omega

theorem readFixed_lt : ∀ (n i : Nat) (bits : List Bool), readFixed n i bits + 2 ^ i ≤ 2 ^ (i + n)
  | 0, i, _ => by simp [readFixed]
  | n + 1, i, [] => by
    simp only [readFixed]
    rw [Nat.zero_add]
    exact Nat.pow_le_pow_right (by decide) (by omega)
  | n + 1, i, b :: bs => by
    have := readFixed_lt n (i + 1) bs
    rw [readFixed]
    rw [Nat.pow_succ, show i + 1 + n = i + (n + 1) by omega] at this
    cases b <;> simp <;> omega

/-- C42: the distance of the two pairs of bands is at most 14 (before 2 is added), the first band is below
32 and the direction below 4, whatever the bits. -/
theorem C42_types (bits : List Bool) : readDelta bits ≤ 14 ∧ readFixed 5 0 bits < 32 ∧ readFixed 2 0 bits < 4 := by
  have h5 := readFixed_lt 5 0 bits
  have h2 := readFixed_lt 2 0 bits
  refine ⟨?_, by simp at h5; omega, by simp at h2; omega⟩
  unfold readDelta
  match bits with
  | [] => simp [typePrefix, typeRest]
  | true :: bs =>
    have := typeRest_lt 1 bs
    simp [typePrefix]; omega
  | [false] => simp [typePrefix, typeRest]
  | false :: true :: bs =>
    have := typeRest_lt 2 bs
    simp [typePrefix]; omega
  | [false, false] => simp [typePrefix, typeRest]
  | false :: false :: true :: bs =>
    have := typeRest_lt 3 bs
    simp [typePrefix]; omega
  | false :: false :: false :: bs => simp [typePrefix, typeRest]

/-- C42: the four offsets land in four different bands: two adjacent ones from the first band on and two
adjacent ones from the second band on, counted modulo 32; all other bands are zero. -/
theorem C42_bands (s0 delta : Nat) (h0 : s0 < 32) (hd : delta ≤ 14) (o0 o1 o2 o3 : Int) (j : Nat) (hj : j < 32) :
    bandTable (s0 + (delta + 2) * 32) o0 o1 o2 o3 j =
      if (j + 32 - s0) % 32 = 0 then o0 else if (j + 32 - s0) % 32 = 1 then o1
      else if (j + 32 - s0) % 32 = delta + 2 then o2 else if (j + 32 - s0) % 32 = delta + 3 then o3 else 0 := by
  have e1 : (s0 + (delta + 2) * 32) / 32 = delta + 2 := by omega
  simp only [bandTable, e1]
  rw [show s0 + (delta + 2) * 32 - (delta + 2) * 32 = s0 by omega]
  split_ifs <;> first | rfl | (exfalso; omega)

/-- C42: parameters are only copied from a neighbour that may be used, and every choice can be made. -/
theorem C42_merge (left up b0 b1 : Bool) :
    (mergeFlag left up b0 b1 = 2 → left = true) ∧ (mergeFlag left up b0 b1 = 1 → up = true) ∧ mergeFlag left up b0 b1 ≤ 2 ∧
    (left = true → ∃ c0 c1, mergeFlag left up c0 c1 = 2) ∧ (up = true → ∃ c0 c1, mergeFlag left up c0 c1 = 1) ∧
    (∃ c0 c1, mergeFlag left up c0 c1 = 0) ∧ saoMode b0 b1 ∈ [0, 1, 3] := by
  revert left up b0 b1; decide

/-! ### Cases -/

def bump : Plane := fun x y => (x * 37 + y * 61 + x * y) % 256
def inner : Avail := ⟨true, true, true, true, true, true, true, true⟩
def corner : Avail := ⟨false, true, false, true, false, false, false, true⟩

example : inner.Corners ∧ corner.Corners := by decide
example : eo135 8 (edgeTable 5 1 (-1) (-4)) corner bump 6 5 (fun _ => 99) bump 3 3 ≠ bump 3 3 := by decide +kernel
example : eo135 8 (edgeTable 5 1 (-1) (-4)) corner bump 6 5 (fun _ => 99) bump 0 3 = bump 0 3 := by decide +kernel
example : (edgeOffset 8 (edgeTable 5 1 (-1) (-4)) (-1) 1 (visible true true true true 6 5) bump 5 4)
    = some (eo45 8 (edgeTable 5 1 (-1) (-4)) inner bump 6 5 (fun _ => 99) bump 5 4) := by decide +kernel
example : readOffset 5 [false, false, true, true] = some (-2, []) := by decide
example : bandTable (30 + (3 + 2) * 32) 1 2 3 4 31 = 2 ∧ bandTable (30 + (3 + 2) * 32) 1 2 3 4 3 = 3 := by decide

end Davs2.Sa
