import Verif.Model.Deblock
import Mathlib.Algebra.Order.Ring.Abs
import Mathlib.Tactic.Linarith
import Mathlib.Tactic.Ring
/-
C40: the deblocking filter on one line of six samples.
-/
namespace Davs2.Db

/-- All six samples lie in `[lo, hi]`. -/
def Line.Within (s : Line) (lo hi : Int) : Prop :=
  (lo ≤ s.l2 ∧ s.l2 ≤ hi) ∧ (lo ≤ s.l1 ∧ s.l1 ≤ hi) ∧ (lo ≤ s.l0 ∧ s.l0 ≤ hi) ∧ (lo ≤ s.r0 ∧ s.r0 ≤ hi) ∧
    (lo ≤ s.r1 ∧ s.r1 ≤ hi) ∧ (lo ≤ s.r2 ∧ s.r2 ≤ hi)

/-- The line seen from the other side. -/
def Line.mirror (s : Line) : Line := ⟨s.r2, s.r1, s.r0, s.l0, s.l1, s.l2⟩

theorem le_pel {v lo hi : Int} (h0 : 0 ≤ lo) (h1 : hi ≤ 255) (a : lo ≤ v) (b : v ≤ hi) : lo ≤ pel v := by
  unfold pel; omega

theorem pel_le {v lo hi : Int} (h0 : 0 ≤ lo) (h1 : hi ≤ 255) (a : lo ≤ v) (b : v ≤ hi) : pel v ≤ hi := by
  unfold pel; omega

theorem pel_id {v : Int} (a : 0 ≤ v) (b : v ≤ 255) : pel v = v := by unfold pel; omega

theorem smooth_within (fs : Nat) (s : Line) (lo hi : Int) (h0 : 0 ≤ lo) (h1 : hi ≤ 255) (h : s.Within lo hi) :
    (smooth fs s).Within lo hi := by
  obtain ⟨⟨a1, a2⟩, ⟨b1, b2⟩, ⟨c1, c2⟩, ⟨d1, d2⟩, ⟨e1, e2⟩, f1, f2⟩ := h
  unfold smooth Line.Within
  split <;> (try dsimp only) <;> refine ⟨⟨?_, ?_⟩, ⟨?_, ?_⟩, ⟨?_, ?_⟩, ⟨?_, ?_⟩, ⟨?_, ?_⟩, ?_, ?_⟩ <;>
    first | assumption | exact le_pel h0 h1 (by omega) (by omega) | exact pel_le h0 h1 (by omega) (by omega)

/-- C40: every sample written by the filter lies between the smallest and the largest of the six samples read,
whatever the thresholds; in particular it is a legal sample. -/
theorem C40_range (chroma flag : Bool) (alpha beta : Int) (s : Line) (lo hi : Int) (h0 : 0 ≤ lo) (h1 : hi ≤ 255)
    (h : s.Within lo hi) : (filterLine chroma alpha beta flag s).Within lo hi := by
  unfold filterLine
  split
  · exact smooth_within _ _ _ _ h0 h1 h
  · exact h

example : (filterLine false 20 5 true ⟨100, 100, 100, 108, 108, 108⟩).Within 100 108 ∧
    filterLine false 20 5 true ⟨100, 100, 100, 108, 108, 108⟩ ≠ ⟨100, 100, 100, 108, 108, 108⟩ :=
  ⟨C40_range _ _ _ _ _ _ _ (by decide) (by decide) (by unfold Line.Within; decide), by decide⟩

/-- C40: edges with a small step (at most 1) or a large one (at least the threshold) and edges not marked are left
alone. -/
theorem C40_untouched (chroma flag : Bool) (alpha beta : Int) (s : Line)
    (h : flag = false ∨ |s.r0 - s.l0| ≤ 1 ∨ alpha ≤ |s.r0 - s.l0|) : filterLine chroma alpha beta flag s = s := by
  unfold filterLine
  rw [if_neg]
  rintro ⟨h1, h2, h3⟩
  rcases h with h | h | h
  · rw [h] at h1; cases h1
  · omega
  · omega

theorem strength_mirror (chroma : Bool) (beta : Int) (s : Line) : strength chroma beta s.mirror = strength chroma beta s := by
  unfold strength Line.mirror
  dsimp only
  rw [abs_sub_comm s.r1 s.r0, abs_sub_comm s.r2 s.r0, abs_sub_comm s.l0 s.l1, abs_sub_comm s.l0 s.l2,
    abs_sub_comm s.r1 s.l1]
  have he : (s.l1 = s.l0 ∧ s.r0 = s.r1) ↔ (s.r1 = s.r0 ∧ s.l0 = s.l1) :=
    ⟨fun h => ⟨h.2.symm, h.1.symm⟩, fun h => ⟨h.2.symm, h.1.symm⟩⟩
  simp only [he]
  by_cases h1 : |s.l1 - s.l0| < beta <;> by_cases h2 : |s.l2 - s.l0| < beta <;>
    by_cases h3 : |s.r0 - s.r1| < beta <;> by_cases h4 : |s.r0 - s.r2| < beta <;>
    simp only [h1, h2, h3, h4, if_true, if_false] <;> rfl

theorem smooth_mirror (fs : Nat) (s : Line) : smooth fs s.mirror = (smooth fs s).mirror := by
  unfold smooth Line.mirror
  split <;> simp only [Line.mk.injEq] <;> refine ⟨?_, ?_, ?_, ?_, ?_, ?_⟩ <;> first | trivial | rfl | (congr 2; ring)

/-- C40: the filter treats both sides alike. -/
theorem C40_symmetric (chroma flag : Bool) (alpha beta : Int) (s : Line) :
    filterLine chroma alpha beta flag s.mirror = (filterLine chroma alpha beta flag s).mirror := by
  unfold filterLine
  rw [strength_mirror, smooth_mirror]
  have : |s.mirror.r0 - s.mirror.l0| = |s.r0 - s.l0| := abs_sub_comm _ _
  rw [this]
  split <;> rfl

/-- Independent specification: the weights of the six samples for each changed sample; the result is the weighted
mean rounded to the nearest integer. -/
def Spec.weights : Nat → List (List Int)
  | 4 => [[3, 0, 4, 1, 0, 0], [6, 0, 7, 3, 0, 0], [9, 0, 9, 8, 0, 6]]
  | 3 => [[1, 0, 0, 0, 0, 0], [3, 8, 4, 1, 0, 0], [1, 4, 6, 4, 1, 0]]
  | 2 => [[1, 0, 0, 0, 0, 0], [0, 1, 0, 0, 0, 0], [0, 3, 10, 3, 0, 0]]
  | 1 => [[1, 0, 0, 0, 0, 0], [0, 1, 0, 0, 0, 0], [0, 0, 3, 1, 0, 0]]
  | _ => [[1, 0, 0, 0, 0, 0], [0, 1, 0, 0, 0, 0], [0, 0, 1, 0, 0, 0]]

def Spec.mean (w s : List Int) : Int := ((w.zipWith (· * ·) s).sum * 2 + w.sum) / (2 * w.sum)

/-- C40: each filtered sample is the rounded mean of the six samples with the weights of the filtering strength, the
other side being the mirror image. -/
theorem C40_weights (fs : Nat) (s : Line) (h : s.Within 0 255) :
    [(smooth fs s).l2, (smooth fs s).l1, (smooth fs s).l0] =
      (Spec.weights fs).map (fun w => Spec.mean w [s.l2, s.l1, s.l0, s.r0, s.r1, s.r2]) ∧
    [(smooth fs s).r2, (smooth fs s).r1, (smooth fs s).r0] =
      (Spec.weights fs).map (fun w => Spec.mean w [s.r2, s.r1, s.r0, s.l0, s.l1, s.l2]) := by
  obtain ⟨⟨a1, a2⟩, ⟨b1, b2⟩, ⟨c1, c2⟩, ⟨d1, d2⟩, ⟨e1, e2⟩, f1, f2⟩ := h
  unfold smooth Spec.weights
  split <;> simp only [List.map, Spec.mean, List.zipWith, List.sum_cons, List.sum_nil, List.cons.injEq, and_true] <;>
    refine ⟨⟨?_, ?_, ?_⟩, ?_, ?_, ?_⟩ <;> first | omega | (rw [pel_id (by omega) (by omega)]; omega)

/-- The strength as a function of its conditions. -/
def strengthB (chroma e b1 b2 b3 b4 b5 : Bool) : Nat :=
  let fl : Nat := (if b1 then 2 else 0) + (if b2 then 1 else 0)
  let fr : Nat := (if b3 then 2 else 0) + (if b4 then 1 else 0)
  let eq : Nat := if e then 1 else 0
  let fs : Nat :=
    match fl + fr with
    | 6 => 3 + eq
    | 5 => 2 + eq
    | 4 => 1 + (if fl = 2 then 1 else 0)
    | 3 => if b5 then 1 else 0
    | _ => 0
  fs - (if chroma ∧ fs > 0 then 1 else 0)

theorem strength_eq (chroma : Bool) (b : Int) (s : Line) : strength chroma b s =
    strengthB chroma (decide (s.r1 = s.r0 ∧ s.l0 = s.l1)) (decide (|s.l1 - s.l0| < b)) (decide (|s.l2 - s.l0| < b))
      (decide (|s.r0 - s.r1| < b)) (decide (|s.r0 - s.r2| < b)) (decide (|s.l1 - s.r1| < b)) := by
  unfold strength strengthB
  simp only [decide_eq_true_eq]
  rfl

/-- C40: a larger flatness threshold never gives a weaker filter. -/
theorem C40_strength_mono (chroma : Bool) (b b' : Int) (s : Line) (h : b ≤ b') :
    strength chroma b s ≤ strength chroma b' s := by
  have key : ∀ c e a1 a2 a3 a4 a5 b1 b2 b3 b4 b5 : Bool, (a1 → b1) → (a2 → b2) → (a3 → b3) → (a4 → b4) → (a5 → b5) →
      strengthB c e a1 a2 a3 a4 a5 ≤ strengthB c e b1 b2 b3 b4 b5 := by decide +kernel
  have m : ∀ x : Int, decide (x < b) = true → decide (x < b') = true := fun x hx =>
    decide_eq_true (lt_of_lt_of_le (of_decide_eq_true hx) h)
  rw [strength_eq, strength_eq]
  exact key _ _ _ _ _ _ _ _ _ _ _ _ (m _) (m _) (m _) (m _) (m _)

/-- C40: at most two samples on each side of a chroma edge change. -/
theorem C40_reach (flag : Bool) (alpha beta : Int) (s : Line) :
    (filterLine true alpha beta flag s).l2 = s.l2 ∧ (filterLine true alpha beta flag s).r2 = s.r2 := by
  unfold filterLine
  split
  · have h : strength true beta s ≤ 3 := by
      unfold strength
      dsimp only
      split <;> (try split) <;> (try split) <;> simp_all <;> omega
    generalize strength true beta s = fs at h
    unfold smooth
    split <;> first | exact ⟨rfl, rfl⟩ | omega
  · exact ⟨rfl, rfl⟩

/-- C40: the thresholds come from the tables for every pair of quantisers and every offset, and grow with the
quantisers. -/
theorem C40_thresholds (p q ao bo : Int) : ∃ a b, lumaThresholds p q ao bo = some (a, b) ∧ 0 ≤ a ∧ a ≤ 64 ∧ 0 ≤ b ∧ b ≤ 27 ∧
    ∀ p' q', p ≤ p' → q ≤ q' → ∃ a' b', lumaThresholds p' q' ao bo = some (a', b') ∧ a ≤ a' ∧ b ≤ b' := by
  have ta : ∀ i : Fin 64, ∀ j : Fin 64, i ≤ j → (match tabGet alphaTable i, tabGet alphaTable j with
    | some v, some w => decide (0 ≤ v ∧ v ≤ w ∧ w ≤ 64) | _, _ => false) = true := by decide +kernel
  have tb : ∀ i : Fin 64, ∀ j : Fin 64, i ≤ j → (match tabGet betaTable i, tabGet betaTable j with
    | some v, some w => decide (0 ≤ v ∧ v ≤ w ∧ w ≤ 27) | _, _ => false) = true := by decide +kernel
  have hc : ∀ x y : Int, x ≤ y → ∃ i j : Fin 64, clip3 0 63 x = ((i : Nat) : Int) ∧ clip3 0 63 y = ((j : Nat) : Int) ∧
      i ≤ j := by
    intro x y hxy
    have h1 : 0 ≤ clip3 0 63 x ∧ clip3 0 63 x ≤ 63 := by unfold clip3; split <;> (try split) <;> omega
    have h2 : 0 ≤ clip3 0 63 y ∧ clip3 0 63 y ≤ 63 := by unfold clip3; split <;> (try split) <;> omega
    have h3 : clip3 0 63 x ≤ clip3 0 63 y := by
      unfold clip3; split <;> split <;> (try split) <;> (try split) <;> omega
    refine ⟨⟨(clip3 0 63 x).toNat, by omega⟩, ⟨(clip3 0 63 y).toNat, by omega⟩, ?_, ?_, ?_⟩
    · dsimp only; omega
    · dsimp only; omega
    · exact Fin.mk_le_mk.mpr (by omega)
  have key : ∀ p q p' q' : Int, p ≤ p' → q ≤ q' → ∃ a b a' b', lumaThresholds p q ao bo = some (a, b) ∧
      lumaThresholds p' q' ao bo = some (a', b') ∧ 0 ≤ a ∧ a ≤ a' ∧ a' ≤ 64 ∧ 0 ≤ b ∧ b ≤ b' ∧ b' ≤ 27 := by
    intro p q p' q' hp hq
    have hqp : (p + q + 1) / 2 ≤ (p' + q' + 1) / 2 := by omega
    obtain ⟨i, j, hi, hj, hij⟩ := hc ((p + q + 1) / 2 + ao) ((p' + q' + 1) / 2 + ao) (by omega)
    obtain ⟨k, l, hk, hl, hkl⟩ := hc ((p + q + 1) / 2 + bo) ((p' + q' + 1) / 2 + bo) (by omega)
    have t1 := ta i j hij
    have t2 := tb k l hkl
    split at t1
    · rename_i a a' ha ha'
      split at t2
      · rename_i b b' hb hb'
        have t1' : 0 ≤ a ∧ a ≤ a' ∧ a' ≤ 64 := of_decide_eq_true t1
        have t2' : 0 ≤ b ∧ b ≤ b' ∧ b' ≤ 27 := of_decide_eq_true t2
        refine ⟨a, b, a', b', ?_, ?_, t1'.1, t1'.2.1, t1'.2.2, t2'.1, t2'.2.1, t2'.2.2⟩
        · unfold lumaThresholds; dsimp only; rw [hi, hk, ha, hb]; rfl
        · unfold lumaThresholds; dsimp only; rw [hj, hl, ha', hb']; rfl
      · cases t2
    · cases t1
  obtain ⟨a, b, a', b', h1, h2, h3⟩ := key p q p q le_rfl le_rfl
  rw [h1] at h2
  cases h2
  refine ⟨a, b, h1, by omega, by omega, by omega, by omega, ?_⟩
  intro p' q' hp hq
  obtain ⟨a2, b2, a3, b3, k1, k2, k3⟩ := key p q p' q' hp hq
  rw [h1] at k1
  cases k1
  exact ⟨a3, b3, k2, by omega, by omega⟩

end Davs2.Db
