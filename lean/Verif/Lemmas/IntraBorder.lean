import Verif.Model.Intra
import Verif.Spec.IntraBorder
import Mathlib.Data.Int.Cast.Basic
/-
What fillEdge leaves in the border.
-/
namespace Davs2.Ip
open Davs2.Spec

/-- How far the border is filled along an arm of length `n` when the other side is `m`. -/
def reach (n m : Nat) : Nat := max (2 * n) (n + m * 11 / 4 + 4)

theorem put_in {ep : Border} {a : Int} {n : Nat} {f : Int → Int} {i : Int} (h : a ≤ i ∧ i < a + n) :
    put ep a n f i = f i := if_pos h

theorem put_out {ep : Border} {a : Int} {n : Nat} {f : Int → Int} {i : Int} (h : ¬ (a ≤ i ∧ i < a + n)) :
    put ep a n f i = ep i := if_neg h

theorem fillTop_top (f : Nat → Int) (top : Int → Int) (ht : ∀ k : Nat, top k = f k) (av : Avail) (g : Int)
    (w h k : Nat) (ep : Border) (hw : 0 < w) (hk : 0 < k) (hr : k ≤ reach w h) :
    fillTop top av g w h ep k = borderArm av.top av.topRight g w f k := by
  obtain ⟨l, t, tl, tr, ld⟩ := av
  have hr : k ≤ max (2 * w) (w + h * 11 / 4 + 4) := hr
  have near : ∀ k : Nat, 0 < k → k ≤ w →
      (if t then put (put ep (-(h * 2)) ((h + w) * 2 + 1) fun _ => g) 1 w top
        else put ep (-(h * 2)) ((h + w) * 2 + 1) fun _ => g) k = if t then f k else g := by
    intro k h0 h1
    cases t
    · simp only [Bool.false_eq_true, if_false]
      exact put_in (by omega)
    · simp only [if_true]
      rw [put_in (by omega), ht]
  have far : ∀ k : Nat, w < k → k ≤ 2 * w →
      (if tr then put (if t then put (put ep (-(h * 2)) ((h + w) * 2 + 1) fun _ => g) 1 w top
        else put ep (-(h * 2)) ((h + w) * 2 + 1) fun _ => g) (w + 1) w top
      else put (if t then put (put ep (-(h * 2)) ((h + w) * 2 + 1) fun _ => g) 1 w top
        else put ep (-(h * 2)) ((h + w) * 2 + 1) fun _ => g) (w + 1) w
        (fun _ => (if t then put (put ep (-(h * 2)) ((h + w) * 2 + 1) fun _ => g) 1 w top
        else put ep (-(h * 2)) ((h + w) * 2 + 1) fun _ => g) w)) k = if tr then f k else if t then f w else g := by
    intro k h0 h1
    cases tr
    · simp only [Bool.false_eq_true, if_false]
      rw [put_in (by omega)]
      exact near w hw (Nat.le_refl _)
    · simp only [if_true]
      rw [put_in (by omega), ht]
  simp only [fillTop, borderArm]
  rcases (by omega : k ≤ w ∨ (w < k ∧ k ≤ 2 * w) ∨ 2 * w < k) with h1 | h1 | h1
  · rw [if_pos h1]
    have e : ∀ b : Border, (if tr then put b (w + 1) w top else put b (w + 1) w (fun _ => b w)) (k : Int) = b k := by
      intro b
      cases tr
      · simp only [Bool.false_eq_true, if_false]
        exact put_out (by omega)
      · simp only [if_true]
        exact put_out (by omega)
    split
    · rw [put_out (by omega), e]
      exact near k hk h1
    · rw [e]
      exact near k hk h1
  · rw [if_neg (show ¬ k ≤ w by omega), show min k (2 * w) = k by omega]
    by_cases hp : (0 : Int) < ((h * 11 / 4 : Nat) : Int) - (w : Int) + 4
    · rw [if_pos hp, put_out (by omega)]
      exact far k h1.1 h1.2
    · rw [if_neg hp]
      exact far k h1.1 h1.2
  · rw [if_neg (show ¬ k ≤ w by omega), show min k (2 * w) = 2 * w by omega,
      if_pos (show (0 : Int) < ((h * 11 / 4 : Nat) : Int) - (w : Int) + 4 by omega), put_in (by omega)]
    have := far (2 * w) (by omega) (Nat.le_refl _)
    rw [Nat.cast_mul] at this
    exact this

theorem fillTop_left (top : Int → Int) (av : Avail) (g : Int) (w h : Nat) (ep : Border) (i : Int)
    (h0 : -(2 * h) ≤ i) (h1 : i ≤ 0) : fillTop top av g w h ep i = g := by
  obtain ⟨l, t, tl, tr, ld⟩ := av
  have e1 : (put ep (-(h * 2)) ((h + w) * 2 + 1) fun _ => g) i = g := put_in (by omega)
  have e2 : ∀ b : Border, (if t then put b 1 w top else b) i = b i := by
    intro b
    cases t
    · rfl
    · simp only [if_true]
      exact put_out (by omega)
  have e3 : ∀ b : Border, (if tr then put b (w + 1) w top else put b (w + 1) w (fun _ => b w)) i = b i := by
    intro b
    cases tr
    · simp only [Bool.false_eq_true, if_false]
      exact put_out (by omega)
    · simp only [if_true]
      exact put_out (by omega)
  simp only [fillTop]
  by_cases hp : (0 : Int) < ((h * 11 / 4 : Nat) : Int) - (w : Int) + 4
  · rw [if_pos hp, put_out (by omega), e3, e2, e1]
  · rw [if_neg hp, e3, e2, e1]

theorem fillLeft_out (left : Int → Int) (av : Avail) (h : Nat) (ep : Border) (i : Int) (h0 : 0 ≤ i) :
    fillLeft left av h ep i = ep i := by
  obtain ⟨l, t, tl, tr, ld⟩ := av
  have e : ∀ b : Border, (if l then put b (-h) h left else b) i = b i := by
    intro b
    cases l
    · rfl
    · simp only [if_true]
      exact put_out (by omega)
  simp only [fillLeft]
  cases ld
  · simp only [Bool.false_eq_true, if_false]
    rw [put_out (by omega), e]
  · simp only [if_true]
    rw [put_out (by omega), e]

theorem fillLeft_in (f : Nat → Int) (left : Int → Int) (hl : ∀ k : Nat, left (-k) = f k) (av : Avail) (g : Int) (h k : Nat)
    (ep : Border) (hg : ∀ i : Int, -(2 * h) ≤ i → i ≤ 0 → ep i = g) (hh : 0 < h) (hk : 0 < k) (h2 : k ≤ 2 * h) :
    fillLeft left av h ep (-k) = borderArm av.left av.leftDown g h f k := by
  obtain ⟨l, t, tl, tr, ld⟩ := av
  have near : ∀ k : Nat, 0 < k → k ≤ h → (if l then put ep (-h) h left else ep) (-k) = if l then f k else g := by
    intro k h0 h1
    cases l
    · simp only [Bool.false_eq_true, if_false]
      exact hg _ (by omega) (by omega)
    · simp only [if_true]
      rw [put_in (by omega), hl]
  simp only [fillLeft, borderArm]
  by_cases h1 : k ≤ h
  · rw [if_pos h1]
    cases ld
    · simp only [Bool.false_eq_true, if_false]
      rw [put_out (by omega)]
      exact near k hk h1
    · simp only [if_true]
      rw [put_out (by omega)]
      exact near k hk h1
  · rw [if_neg h1, show min k (2 * h) = k by omega]
    cases ld
    · simp only [Bool.false_eq_true, if_false]
      rw [put_in (by omega)]
      exact near h hh (Nat.le_refl _)
    · simp only [if_true]
      rw [put_in (by omega), hl]

theorem fillCorner_out (own above beside : Int) (av : Avail) (ep : Border) (i : Int) (h : i ≠ 0) :
    fillCorner own above beside av ep i = ep i := by
  simp only [fillCorner]
  split
  · exact put_out (by omega)
  split
  · exact put_out (by omega)
  split
  · exact put_out (by omega)
  · rfl

theorem fillDown_out (w h : Nat) (ep : Border) (i : Int) (h0 : -(2 * h) ≤ i) : fillDown w h ep i = ep i := by
  simp only [fillDown]
  split
  · exact put_out (by omega)
  · rfl

theorem fill_top (ol ot : Bool) (src : Source) (av : Avail) (g : Int) (w h k : Nat) (ep : Border)
    (hw : 0 < w) (hk : 0 < k) (hr : k ≤ reach w h) :
    fillEdge ol ot src av g w h ep k = borderArm av.top av.topRight g w (fun k => if ot then src.lcu k else src.pic k 0) k := by
  simp only [fillEdge]
  rw [fillDown_out _ _ _ _ (by omega), fillCorner_out _ _ _ _ _ _ (by omega), fillLeft_out _ _ _ _ _ (by omega)]
  exact fillTop_top _ _ (fun _ => rfl) av g w h k ep hw hk hr

theorem fill_left (ol ot : Bool) (src : Source) (av : Avail) (g : Int) (w h k : Nat) (ep : Border)
    (hh : 0 < h) (hk : 0 < k) (hr : k ≤ reach h w) :
    fillEdge ol ot src av g w h ep (-k)
      = borderArm av.left av.leftDown g h (fun k => if ol then src.lcu (-k) else src.pic 0 k) k := by
  have hr : k ≤ max (2 * h) (h + w * 11 / 4 + 4) := hr
  simp only [fillEdge]
  have main : ∀ k : Nat, 0 < k → k ≤ 2 * h →
      fillCorner (if (ot || ol) = true then src.lcu 0 else src.pic 0 0) (if ot = true then src.lcu 1 else src.pic 1 0)
        (if ol = true then src.lcu (-1) else src.pic 0 (- -1)) av
        (fillLeft (fun i => if ol = true then src.lcu i else src.pic 0 (-i)) av h
          (fillTop (fun i => if ot = true then src.lcu i else src.pic i 0) av g w h ep)) (-k)
      = borderArm av.left av.leftDown g h (fun k => if ol then src.lcu (-k) else src.pic 0 k) k := by
    intro k h0 h1
    rw [fillCorner_out _ _ _ _ _ _ (by omega)]
    exact fillLeft_in _ _ (fun k => by simp) av g h k _ (fun i a b => fillTop_left _ av g w h ep i a b) hh h0 h1
  by_cases h2 : k ≤ 2 * h
  · rw [fillDown_out _ _ _ _ (by omega)]
    exact main k hk h2
  · simp only [fillDown]
    rw [if_pos (show (0 : Int) < ((w * 11 / 4 : Nat) : Int) - (h : Int) + 4 by omega), put_in (by omega)]
    have := main (2 * h) (by omega) (Nat.le_refl _)
    rw [Nat.cast_mul, ← Int.neg_mul] at this
    refine Eq.trans this ?_
    simp only [borderArm]
    rw [if_neg (show ¬ 2 * h ≤ h by omega), if_neg (show ¬ k ≤ h by omega), show min k (2 * h) = 2 * h by omega, Nat.min_self]

theorem fill_corner (ol ot : Bool) (src : Source) (av : Avail) (g : Int) (w h : Nat) (ep : Border) :
    fillEdge ol ot src av g w h ep 0
      = borderCorner av.topLeft av.top av.left g (if ot || ol then src.lcu 0 else src.pic 0 0)
          (if ot then src.lcu 1 else src.pic 1 0) (if ol then src.lcu (-1) else src.pic 0 1) := by
  simp only [fillEdge]
  rw [fillDown_out _ _ _ _ (by omega)]
  simp only [fillCorner, borderCorner]
  split
  · exact put_in (by omega)
  split
  · exact put_in (by omega)
  split
  · exact put_in (by omega)
  · rw [fillLeft_out _ _ _ _ _ (by omega)]
    exact fillTop_left _ av g w h ep 0 (by omega) (by omega)

end Davs2.Ip
