import Verif.Model.Sao
import Verif.Spec.Sao
import Mathlib.Tactic.SplitIfs
/-
Loop invariants of the SAO block filters.
-/
namespace Davs2.Sa
open Davs2.Spec

theorem loop_inv {σ : Type} {a b : Int} {f : Int → σ → σ} {s : σ} (P : Int → σ → Prop) (h0 : P a s)
    (hs : ∀ x s, a ≤ x → x < b → P x s → P (x + 1) (f x s)) : P (max a b) (loop a b f s) := by
  have key : ∀ (n : Nat) (x : Int) (s : σ), a ≤ x → x + n ≤ max a b → P x s → P (x + n) (loopN f n x s) := by
    intro n
    induction n with
    | zero => intro x s _ _ h; simpa [loopN] using h
    | succ n ih =>
      intro x s h1 h2 h
      have := ih (x + 1) (f x s) (by omega) (by omega) (hs x s h1 (by omega) h)
      rw [show x + 1 + (n : Int) = x + ((n + 1 : Nat) : Int) by omega] at this
      exact this
  have := key (b - a).toNat a s (Int.le_refl _) (by omega) h0
  rw [show a + ((b - a).toNat : Int) = max a b by omega] at this
  exact this

theorem sgn_cmp (a b : Int) : sgn (a - b) = comparison a b := by
  unfold sgn comparison; split_ifs <;> omega

theorem sgn_neg (a b : Int) : -sgn (a - b) = sgn (b - a) := by
  unfold sgn; split_ifs <;> omega

theorem clip_saturate (bd : Nat) (v : Int) : clip3 0 (2 ^ bd - 1) v = saturate bd v := by
  have : (0 : Int) < 2 ^ bd := Int.pow_pos (by decide)
  unfold clip3 saturate; split_ifs <;> omega

/-- The sample that the definition puts at a position of the block. -/
def want (bd : Nat) (off : Int → Int) (src : Plane) (dx dy x y : Int) : Int :=
  saturate bd (src x y + off (2 + comparison (src x y) (src (x - dx) (y - dy)) + comparison (src x y) (src (x + dx) (y + dy))))

section
variable {bd : Nat} {off : Int → Int} {av : Avail} {src : Plane} {w h : Int}

theorem out_want {x y e dx dy : Int} (he : e = 2 + sgn (src x y - src (x - dx) (y - dy)) + sgn (src x y - src (x + dx) (y + dy))) :
    out bd off src x y e = want bd off src dx dy x y := by
  unfold out want
  rw [clip_saturate, he, sgn_cmp, sgn_cmp]

/-- The destination has been filtered in columns `a … x-1` of row `y`. -/
def RowDone (bd : Nat) (off : Int → Int) (src : Plane) (dx dy : Int) (d0 : Plane) (y a x : Int) (d : Plane) : Prop :=
  ∀ x' y', d x' y' = if y' = y ∧ a ≤ x' ∧ x' < x then want bd off src dx dy x' y' else d0 x' y'

theorem RowDone.start (dx dy : Int) (d0 : Plane) (y a : Int) : RowDone bd off src dx dy d0 y a a d0 := by
  intro x' y'; rw [if_neg (by omega)]

theorem RowDone.step {dx dy : Int} {d0 d : Plane} {y a x e : Int} (hd : RowDone bd off src dx dy d0 y a x d) (hx : a ≤ x)
    (he : e = 2 + sgn (src x y - src (x - dx) (y - dy)) + sgn (src x y - src (x + dx) (y + dy))) :
    RowDone bd off src dx dy d0 y a (x + 1) (set d x y (out bd off src x y e)) := by
  intro x' y'
  unfold set
  by_cases h : x' = x ∧ y' = y
  · obtain ⟨rfl, rfl⟩ := h
    rw [if_pos ⟨rfl, rfl⟩, if_pos (by omega)]
    exact out_want he
  · rw [if_neg h, hd x' y']
    by_cases h2 : y' = y ∧ a ≤ x' ∧ x' < x
    · rw [if_pos h2, if_pos (by omega)]
    · rw [if_neg h2, if_neg (by omega)]

theorem eo0Row_done (y : Int) (d0 : Plane) :
    RowDone bd off src 1 0 d0 y (sx av) (max (sx av) (ex av w)) (eo0Row bd off av src w y d0) := by
  unfold eo0Row
  refine (loop_inv (P := fun x (st : Int × Plane) => st.1 = sgn (src x y - src (x - 1) y) ∧ RowDone bd off src 1 0 d0 y (sx av) x st.2)
    ⟨rfl, RowDone.start _ _ _ _ _⟩ ?_).2
  intro x st h0 h1 ⟨i1, i2⟩
  dsimp only
  refine ⟨?_, i2.step h0 ?_⟩
  · rw [sgn_neg]; congr 2; rw [show x + 1 - 1 = x by omega]
  · rw [i1, Int.sub_zero, Int.add_zero]; omega

/-- As `RowDone` for a column. -/
def ColDone (bd : Nat) (off : Int → Int) (src : Plane) (dx dy : Int) (d0 : Plane) (x a y : Int) (d : Plane) : Prop :=
  ∀ x' y', d x' y' = if x' = x ∧ a ≤ y' ∧ y' < y then want bd off src dx dy x' y' else d0 x' y'

theorem eo90Col_done (x : Int) (d0 : Plane) :
    ColDone bd off src 0 1 d0 x (if av.t then 0 else 1) (max (if av.t then 0 else 1) (if av.d then h else h - 1))
      (eo90Col bd off av src h x d0) := by
  unfold eo90Col
  dsimp only
  generalize (if av.t = true then (0 : Int) else 1) = a
  generalize (if av.d = true then h else h - 1) = b
  refine (loop_inv (P := fun y (st : Int × Plane) => st.1 = sgn (src x y - src x (y - 1)) ∧ ColDone bd off src 0 1 d0 x a y st.2)
    ⟨rfl, ?_⟩ ?_).2
  · intro x' y'; rw [if_neg (by omega)]
  intro y st h0 h1 ⟨i1, i2⟩
  dsimp only
  refine ⟨?_, ?_⟩
  · rw [sgn_neg]; congr 2; rw [show y + 1 - 1 = y by omega]
  · intro x' y'
    unfold set
    by_cases h : x' = x ∧ y' = y
    · obtain ⟨rfl, rfl⟩ := h
      rw [if_pos ⟨rfl, rfl⟩, if_pos (by omega)]
      exact out_want (by rw [i1, Int.sub_zero, Int.add_zero]; omega)
    · rw [if_neg h, i2 x' y']
      by_cases h2 : x' = x ∧ a ≤ y' ∧ y' < y
      · rw [if_pos h2, if_pos (by omega)]
      · rw [if_neg h2, if_neg (by omega)]

/-- What a row filter does, row after row. -/
theorem rows_done {σ : Type} {dx dy a0 b0 : Int} (lo hi : Int → Int) (f : Int → σ → σ) (dst : σ → Plane) (Q : Int → σ → Prop) (s : σ)
    (hq : Q a0 s)
    (hf : ∀ y s, a0 ≤ y → y < b0 → Q y s → Q (y + 1) (f y s) ∧ RowDone bd off src dx dy (dst s) y (lo y) (hi y) (dst (f y s))) :
    Q (max a0 b0) (loop a0 b0 f s) ∧
    ∀ x' y', dst (loop a0 b0 f s) x' y' = if a0 ≤ y' ∧ y' < b0 ∧ lo y' ≤ x' ∧ x' < hi y' then want bd off src dx dy x' y' else dst s x' y' := by
  have := loop_inv (a := a0) (b := b0) (f := f) (s := s) (P := fun y t => Q y t ∧ ∀ x' y', dst t x' y' =
    if a0 ≤ y' ∧ y' < y ∧ lo y' ≤ x' ∧ x' < hi y' then want bd off src dx dy x' y' else dst s x' y')
    ⟨hq, fun x' y' => by rw [if_neg (by omega)]⟩ (by
      intro y t h0 h1 ⟨q, i⟩
      obtain ⟨q', r⟩ := hf y t h0 h1 q
      refine ⟨q', fun x' y' => ?_⟩
      rw [r x' y']
      by_cases h : y' = y ∧ lo y ≤ x' ∧ x' < hi y
      · obtain ⟨rfl, h⟩ := h
        rw [if_pos ⟨rfl, h⟩, if_pos (by omega)]
      · rw [if_neg h, i x' y']
        by_cases h2 : a0 ≤ y' ∧ y' < y ∧ lo y' ≤ x' ∧ x' < hi y'
        · rw [if_pos h2, if_pos (by omega)]
        · rw [if_neg h2, if_neg]
          rintro ⟨p1, p2, p3⟩
          by_cases e : y' = y
          · exact h ⟨e, e ▸ p3⟩
          · exact h2 ⟨p1, by omega, p3⟩)
  refine ⟨this.1, fun x' y' => ?_⟩
  rw [this.2 x' y']
  by_cases h : a0 ≤ y' ∧ y' < b0 ∧ lo y' ≤ x' ∧ x' < hi y'
  · rw [if_pos h, if_pos (by omega)]
  · rw [if_neg h, if_neg (by omega)]

/-- The line buffer of the 135 degree filter before row `y`. -/
def Up135 (src : Plane) (a b y : Int) (up : Int → Int) : Prop := ∀ j, a < j → j < b → up j = sgn (src j y - src (j - 1) (y - 1))

theorem init135_ok (junk : Int → Int) :
    ∀ j, sx av < j → j ≤ ex av w → init135 av src w junk j = sgn (src j 1 - src (j - 1) 0) := by
  have := loop_inv (a := sx av) (b := ex av w) (f := fun x up => put up (x + 1) (sgn (src (x + 1) 1 - src x 0))) (s := junk)
    (P := fun x up => ∀ j, sx av < j → j ≤ x → up j = sgn (src j 1 - src (j - 1) 0))
    (fun j h1 h2 => by omega) (by
      intro x up h0 h1 i j hj hj'
      unfold put
      by_cases e : j = x + 1
      · subst e; rw [if_pos rfl, show x + 1 - 1 = x by omega]
      · rw [if_neg e]; exact i j hj (by omega))
  intro j h1 h2
  exact this j h1 (by omega)

theorem mid135_ok (y : Int) (st : (Int → Int) × Int × Plane) (hu : Up135 src (sx av) (ex av w) y st.1) :
    Up135 src (sx av) (ex av w) (y + 1) (mid135 bd off av src w y st).1 ∧
    RowDone bd off src 1 1 st.2.2 y (sx av) (max (sx av) (ex av w)) (mid135 bd off av src w y st).2.2 := by
  unfold mid135
  have := loop_inv (a := sx av) (b := ex av w) (s := st) (f := fun x st =>
    let up := if x = sx av then put st.1 x (sgn (src x y - src (x - 1) (y - 1))) else st.1
    let ds := sgn (src x y - src (x + 1) (y + 1))
    (put up x st.2.1, -ds, set st.2.2 x y (out bd off src x y (ds + up x + 2))))
    (P := fun x t => (∀ j, x ≤ j → j < ex av w → j ≠ sx av → t.1 j = sgn (src j y - src (j - 1) (y - 1))) ∧
      (∀ j, sx av < j → j < x → t.1 j = sgn (src j (y + 1) - src (j - 1) y)) ∧
      (sx av < x → t.2.1 = sgn (src x (y + 1) - src (x - 1) y)) ∧
      RowDone bd off src 1 1 st.2.2 y (sx av) x t.2.2)
    ⟨fun j h1 h2 h3 => hu j (by omega) h2, fun j h1 h2 => by omega, fun h => by omega, RowDone.start _ _ _ _ _⟩ (by
      intro x t h0 h1 ⟨i1, i2, i3, i4⟩
      dsimp only
      have hup : (if x = sx av then put t.1 x (sgn (src x y - src (x - 1) (y - 1))) else t.1) x = sgn (src x y - src (x - 1) (y - 1)) := by
        by_cases e : x = sx av
        · rw [if_pos e]; unfold put; rw [if_pos rfl]
        · rw [if_neg e]; exact i1 x (Int.le_refl _) h1 e
      have hother : ∀ j, j ≠ x → (if x = sx av then put t.1 x (sgn (src x y - src (x - 1) (y - 1))) else t.1) j = t.1 j := by
        intro j hj
        by_cases e : x = sx av
        · rw [if_pos e]; unfold put; rw [if_neg hj]
        · rw [if_neg e]
      refine ⟨?_, ?_, ?_, ?_⟩
      · intro j hj hj2 hj3
        unfold put; rw [if_neg (by omega)]
        have := hother j (by omega)
        unfold put at this
        rw [this]
        exact i1 j (by omega) hj2 hj3
      · intro j hj hj2
        by_cases e : j = x
        · subst e
          unfold put; rw [if_pos rfl]
          exact i3 hj
        · have := hother j e
          unfold put at this ⊢
          rw [if_neg e, this]
          exact i2 j hj (by omega)
      · intro _
        rw [sgn_neg, show x + 1 - 1 = x by omega]
      · refine i4.step h0 ?_
        rw [hup]; omega)
  refine ⟨?_, this.2.2.2⟩
  intro j h1 h2
  rw [show y + 1 - 1 = y by omega]
  exact this.2.1 j h1 (by omega)

/-- The line buffer of the 45 degree filter before row `y`. -/
def Up45 (src : Plane) (a b y : Int) (up : Int → Int) : Prop := ∀ j, a - 1 ≤ j → j < b - 1 → up j = sgn (src j y - src (j + 1) (y - 1))

theorem init45_ok (junk : Int → Int) : Up45 src (sx av) (ex av w) 1 (init45 av src w junk) := by
  have := loop_inv (a := sx av) (b := ex av w) (f := fun x up => put up (x - 1) (sgn (src (x - 1) 1 - src x 0))) (s := junk)
    (P := fun x up => ∀ j, sx av - 1 ≤ j → j < x - 1 → up j = sgn (src j 1 - src (j + 1) 0))
    (fun j h1 h2 => by omega) (by
      intro x up h0 h1 i j hj hj'
      unfold put
      by_cases e : j = x - 1
      · subst e; rw [if_pos rfl, show x - 1 + 1 = x by omega]
      · rw [if_neg e]; exact i j hj (by omega))
  intro j h1 h2
  exact this j h1 (by omega)

theorem mid45_ok (y : Int) (st : (Int → Int) × Plane) (hu : Up45 src (sx av) (ex av w) y st.1) :
    Up45 src (sx av) (ex av w) (y + 1) (mid45 bd off av src w y st).1 ∧
    RowDone bd off src (-1) 1 st.2 y (sx av) (max (sx av) (ex av w)) (mid45 bd off av src w y st).2 := by
  unfold mid45
  have := loop_inv (a := sx av) (b := ex av w) (s := st) (f := fun x st =>
    let up := if x = ex av w - 1 then put st.1 x (sgn (src x y - src (x + 1) (y - 1))) else st.1
    let ds := sgn (src x y - src (x - 1) (y + 1))
    (put up (x - 1) (-ds), set st.2 x y (out bd off src x y (ds + up x + 2))))
    (P := fun x t => (∀ j, x ≤ j → j < ex av w - 1 → t.1 j = sgn (src j y - src (j + 1) (y - 1))) ∧
      (∀ j, sx av - 1 ≤ j → j < x - 1 → t.1 j = sgn (src j (y + 1) - src (j + 1) y)) ∧
      RowDone bd off src (-1) 1 st.2 y (sx av) x t.2)
    ⟨fun j h1 h2 => hu j (by omega) h2, fun j h1 h2 => by omega, RowDone.start _ _ _ _ _⟩ (by
      intro x t h0 h1 ⟨i1, i2, i3⟩
      dsimp only
      have hup : (if x = ex av w - 1 then put t.1 x (sgn (src x y - src (x + 1) (y - 1))) else t.1) x = sgn (src x y - src (x + 1) (y - 1)) := by
        by_cases e : x = ex av w - 1
        · rw [if_pos e]; unfold put; rw [if_pos rfl]
        · rw [if_neg e]; exact i1 x (Int.le_refl _) (by omega)
      have hother : ∀ j, j ≠ x → (if x = ex av w - 1 then put t.1 x (sgn (src x y - src (x + 1) (y - 1))) else t.1) j = t.1 j := by
        intro j hj
        by_cases e : x = ex av w - 1
        · rw [if_pos e]; unfold put; rw [if_neg hj]
        · rw [if_neg e]
      refine ⟨?_, ?_, ?_⟩
      · intro j hj hj2
        have := hother j (by omega)
        unfold put at this ⊢
        rw [if_neg (by omega), this]
        exact i1 j (by omega) hj2
      · intro j hj hj2
        by_cases e : j = x - 1
        · subst e
          unfold put; rw [if_pos rfl, sgn_neg, show x - 1 + 1 = x by omega]
        · have := hother j (by omega)
          unfold put at this ⊢
          rw [if_neg e, this]
          exact i2 j hj (by omega)
      · refine i3.step h0 ?_
        rw [hup, show x - -1 = x + 1 by omega, show x + -1 = x - 1 by omega]; omega)
  refine ⟨?_, this.2.2⟩
  intro j h1 h2
  rw [show y + 1 - 1 = y by omega]
  exact this.2.1 j h1 (by omega)

end

end Davs2.Sa
