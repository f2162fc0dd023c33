import Verif.Model.VecDeblock
import Verif.Lemmas.Vec
import Mathlib.Tactic.Ring
/-
Lemmas on the vector version of the deblocking filter.
-/
namespace Davs2.Vc
open Davs2.Db (Line EdgePrm pel smooth strength filterLine)

/-- Word `i` of `m` is all ones if `p` holds and zero otherwise. -/
def IsMask (m : V) (i : Nat) (p : Prop) : Prop :=
  (p → m (2 * i) = 255#8 ∧ m (2 * i + 1) = 255#8) ∧ (¬p → m (2 * i) = 0#8 ∧ m (2 * i + 1) = 0#8)

theorem isMask_ofW (f : Nat → Int) (i : Nat) (p : Prop) (h1 : p → f i = -1) (h0 : ¬p → f i = 0) : IsMask (ofW f) i p := by
  have e0 : ofW f (2 * i) = BitVec.ofInt 8 (f i) := by
    unfold ofW ofB; dsimp only; rw [if_pos (by omega), show 2 * i / 2 = i by omega]
  have e1 : ofW f (2 * i + 1) = BitVec.ofInt 8 (f i / 256) := by
    unfold ofW ofB; dsimp only; rw [if_neg (by omega), show (2 * i + 1) / 2 = i by omega]
  constructor
  · intro h; rw [e0, e1, h1 h]; exact ⟨rfl, rfl⟩
  · intro h; rw [e0, e1, h0 h]; exact ⟨rfl, rfl⟩

theorem isMask_gt (a b : V) (i : Nat) : IsMask (cmpgt16 a b) i (w16 a i > w16 b i) :=
  isMask_ofW _ _ _ (fun h => if_pos h) (fun h => if_neg h)

theorem isMask_eq (a b : V) (i : Nat) : IsMask (cmpeq16 a b) i (w16 a i = w16 b i) :=
  isMask_ofW _ _ _ (fun h => if_pos h) (fun h => if_neg h)

theorem and255 (b : BitVec 8) : b &&& 255#8 = b := BitVec.and_allOnes
theorem and255' (b : BitVec 8) : 255#8 &&& b = b := BitVec.allOnes_and

theorem IsMask.and {m n : V} {i : Nat} {p q : Prop} (h : IsMask m i p) (h' : IsMask n i q) : IsMask (Vc.and m n) i (p ∧ q) := by
  unfold Vc.and IsMask
  dsimp only
  constructor
  · intro ⟨hp, hq⟩
    rw [(h.1 hp).1, (h.1 hp).2, (h'.1 hq).1, (h'.1 hq).2]
    exact ⟨rfl, rfl⟩
  · intro hn
    by_cases hp : p
    · have hq : ¬q := fun hq => hn ⟨hp, hq⟩
      rw [(h'.2 hq).1, (h'.2 hq).2]
      exact ⟨BitVec.and_zero, BitVec.and_zero⟩
    · rw [(h.2 hp).1, (h.2 hp).2]
      exact ⟨BitVec.zero_and, BitVec.zero_and⟩

theorem w16_congr {a b : V} {i : Nat} (h0 : a (2 * i) = b (2 * i)) (h1 : a (2 * i + 1) = b (2 * i + 1)) : w16 a i = w16 b i := by
  unfold w16 u16 u8; rw [h0, h1]

theorem w16_zero {a : V} {i : Nat} (h0 : a (2 * i) = 0#8) (h1 : a (2 * i + 1) = 0#8) : w16 a i = 0 := by
  unfold w16 u16 u8; rw [h0, h1]; decide

open Classical in
theorem w16_mask_and {m : V} {i : Nat} {p : Prop} (h : IsMask m i p) (a : V) :
    w16 (Vc.and m a) i = if p then w16 a i else 0 := by
  by_cases hp : p
  · rw [if_pos hp]
    exact w16_congr (by unfold Vc.and; rw [(h.1 hp).1, and255']) (by unfold Vc.and; rw [(h.1 hp).2, and255'])
  · rw [if_neg hp]
    exact w16_zero (by unfold Vc.and; rw [(h.2 hp).1]; exact BitVec.zero_and) (by unfold Vc.and; rw [(h.2 hp).2]; exact BitVec.zero_and)

open Classical in
theorem w16_and_mask {m : V} {i : Nat} {p : Prop} (h : IsMask m i p) (a : V) :
    w16 (Vc.and a m) i = if p then w16 a i else 0 := by
  rw [← w16_mask_and h a]
  unfold Vc.and
  exact w16_congr (BitVec.and_comm _ _) (BitVec.and_comm _ _)

open Classical in
theorem w16_blendv {m : V} {i : Nat} {p : Prop} (h : IsMask m i p) (a b : V) :
    w16 (blendv a b m) i = if p then w16 b i else w16 a i := by
  unfold blendv
  by_cases hp : p
  · rw [if_pos hp]
    exact w16_congr (by rw [(h.1 hp).1]; rfl) (by rw [(h.1 hp).2]; rfl)
  · rw [if_neg hp]
    exact w16_congr (by rw [(h.2 hp).1]; rfl) (by rw [(h.2 hp).2]; rfl)

theorem w16_srli16 (a : V) (n i : Nat) (h : 0 ≤ w16 a i) : w16 (srli16 a n) i = w16 a i / 2 ^ n := by
  refine (w16_ofW _ i).trans ?_
  have e : u16 a i = w16 a i := by
    have := u16_range a i
    unfold w16 wrap16 at *
    omega
  rw [e]
  apply wrap16_id
  have h := w16_range a i
  have p : (1 : Int) ≤ 2 ^ n := by exact_mod_cast Nat.one_le_two_pow
  constructor
  · exact (Int.le_ediv_iff_mul_le (by omega)).2 (by nlinarith)
  · exact Int.ediv_le_of_le_mul (by omega) (by nlinarith)

/-- Line `i` of the registers is `t`. -/
structure At (s : Lines) (i : Nat) (t : Line) : Prop where
  l2 : w16 s.l2 i = t.l2
  l1 : w16 s.l1 i = t.l1
  l0 : w16 s.l0 i = t.l0
  r0 : w16 s.r0 i = t.r0
  r1 : w16 s.r1 i = t.r1
  r2 : w16 s.r2 i = t.r2

/-- Samples are bytes. -/
structure InRange (t : Line) : Prop where
  l2 : 0 ≤ t.l2 ∧ t.l2 ≤ 255
  l1 : 0 ≤ t.l1 ∧ t.l1 ≤ 255
  l0 : 0 ≤ t.l0 ∧ t.l0 ≤ 255
  r0 : 0 ≤ t.r0 ∧ t.r0 ≤ 255
  r1 : 0 ≤ t.r1 ∧ t.r1 ≤ 255
  r2 : 0 ≤ t.r2 ∧ t.r2 ≤ 255

section
variable {a0 a1 a2 b0 b1 b2 t2 : V} {i : Nat} {x0 x1 x2 y0 y1 y2 : Int}
  (h0 : w16 a0 i = x0) (h1 : w16 a1 i = x1) (h2 : w16 a2 i = x2) (g0 : w16 b0 i = y0) (g1 : w16 b1 i = y1) (g2 : w16 b2 i = y2)
  (r0 : 0 ≤ x0 ∧ x0 ≤ 255) (r1 : 0 ≤ x1 ∧ x1 ≤ 255) (r2 : 0 ≤ x2 ∧ x2 ≤ 255)
  (q0 : 0 ≤ y0 ∧ y0 ≤ 255) (q1 : 0 ≤ y1 ∧ y1 ≤ 255) (q2 : 0 ≤ y2 ∧ y2 ≤ 255)
  (ht : w16 t2 i = x0 + y0 + 2)

include h0 r0 q0 ht in
theorem w16_weak1 : w16 (dbWeak1 a0 t2) i = (x0 * 3 + y0 + 2) / 4 := by
  have e : w16 (add16 (slli16 a0 1) t2) i = x0 * 3 + y0 + 2 := by
    simp only [w16_add16, w16_slli16, h0, ht]
    simp (disch := omega) only [wrap16_id]
    omega
  unfold dbWeak1
  rw [w16_srli16 _ _ _ (by omega), e]
  rfl

include h0 h1 g0 r0 r1 q0 ht in
theorem w16_weak2 : w16 (dbWeak2 a0 a1 b0 t2) i = (x1 * 2 + x1 + x0 * 8 + x0 * 2 + y0 * 2 + y0 + 8) / 16 := by
  have e : w16 (add16 (add16 (slli16 a0 3) (add16 (add16 (slli16 a1 1) (add16 a1 b0)) (slli16 t2 1))) (c16 4)) i =
      x1 * 2 + x1 + x0 * 8 + x0 * 2 + y0 * 2 + y0 + 8 := by
    unfold c16
    simp only [w16_add16, w16_slli16, w16_set1, h0, h1, g0, ht]
    simp (disch := omega) only [wrap16_id]
    omega
  unfold dbWeak2
  rw [w16_srli16 _ _ _ (by omega), e]
  rfl

include h0 h1 h2 g1 r0 r1 r2 q0 q1 ht in
theorem w16_weak3 : w16 (dbWeak3 a0 a1 a2 b1 t2) i = (x2 + x1 * 4 + x0 * 4 + x0 * 2 + y0 * 4 + y1 + 8) / 16 := by
  have e : w16 (add16 (slli16 a0 1) (add16 (add16 (slli16 a1 2) (add16 a2 b1)) (slli16 (slli16 t2 1) 1))) i =
      x2 + x1 * 4 + x0 * 4 + x0 * 2 + y0 * 4 + y1 + 8 := by
    simp only [w16_add16, w16_slli16, w16_set1, h0, h1, h2, g1, ht]
    simp (disch := omega) only [wrap16_id]
    omega
  unfold dbWeak3
  rw [w16_srli16 _ _ _ (by omega), e]
  rfl

include h0 h1 h2 g0 r0 r1 r2 q0 in
theorem w16_second3 : w16 (dbSecond3 a0 a1 a2 b0) i = (x2 * 3 + x1 * 8 + x0 * 4 + y0 + 8) / 16 := by
  have e : w16 (add16 (add16 (add16 (add16 (add16 a2 b0) (slli16 a2 1)) (slli16 a1 3)) (slli16 a0 2)) (c16 8)) i =
      x2 * 3 + x1 * 8 + x0 * 4 + y0 + 8 := by
    unfold c16
    simp only [w16_add16, w16_slli16, w16_set1, h0, h1, h2, g0]
    simp (disch := omega) only [wrap16_id]
    omega
  unfold dbSecond3
  rw [w16_srli16 _ _ _ (by omega), e]
  rfl

include h0 h2 g0 g2 r0 r2 q0 q2 in
theorem w16_strong0 : w16 (dbStrong0 a0 a2 b0 b2) i = (x0 + (x0 + x2) * 8 + x2 + y0 * 8 + y2 * 4 + y2 * 2 + 16) / 32 := by
  have e : w16 (add16 (add16 (add16 (slli16 (add16 (add16 a0 a2) b0) 3) (c16 16)) (add16 a0 a2)) (add16 (slli16 b2 1) (slli16 b2 2))) i =
      x0 + (x0 + x2) * 8 + x2 + y0 * 8 + y2 * 4 + y2 * 2 + 16 := by
    unfold c16
    simp only [w16_add16, w16_slli16, w16_set1, h0, h2, g0, g2]
    simp (disch := omega) only [wrap16_id]
    omega
  unfold dbStrong0
  rw [w16_srli16 _ _ _ (by omega), e]
  rfl

include h0 h2 g0 r0 r2 q0 in
theorem w16_strong1 : w16 (dbStrong1 a0 a2 b0) i = (x0 * 8 - x0 + x2 * 4 + x2 * 2 + y0 + y0 * 2 + 8) / 16 := by
  have e : w16 (add16 (add16 (slli16 (add16 a2 b0) 1) (sub16 (slli16 a0 3) a0)) (add16 (slli16 a2 2) (add16 b0 (c16 8)))) i =
      x0 * 8 - x0 + x2 * 4 + x2 * 2 + y0 + y0 * 2 + 8 := by
    unfold c16
    simp only [w16_add16, w16_sub16, w16_slli16, w16_set1, h0, h2, g0]
    simp (disch := omega) only [wrap16_id]
    omega
  unfold dbStrong1
  rw [w16_srli16 _ _ _ (by omega), e]
  rfl

include h0 h2 g0 r0 r2 q0 in
theorem w16_strong2 : w16 (dbStrong2 a0 a2 b0) i = (x0 * 4 + x2 + x2 * 2 + y0 + 4) / 8 := by
  have e : w16 (add16 (add16 (slli16 a2 1) a2) (add16 (add16 (slli16 a0 2) b0) (c16 4))) i = x0 * 4 + x2 + x2 * 2 + y0 + 4 := by
    unfold c16
    simp only [w16_add16, w16_sub16, w16_slli16, w16_set1, h0, h2, g0]
    simp (disch := omega) only [wrap16_id]
    omega
  unfold dbStrong2
  rw [w16_srli16 _ _ _ (by omega), e]
  rfl

end

theorem w16_subabs {a b : V} {i : Nat} {x y : Int} (ha : w16 a i = x) (hb : w16 b i = y) (hx : 0 ≤ x ∧ x ≤ 255) (hy : 0 ≤ y ∧ y ≤ 255) :
    w16 (subabs a b) i = |x - y| := by
  unfold subabs
  rw [w16_abs16, w16_subs16, ha, hb, sat16_id (by omega), wrap16_id (by omega)]
  rfl

theorem w16_c16 (n : Int) (i : Nat) (h : 0 ≤ n ∧ n ≤ 255) : w16 (c16 n) i = n := by
  unfold c16; rw [w16_set1, wrap16_id (by omega)]

theorem w16_flat {beta a0 a1 a2 : V} {i : Nat} {be x0 x1 x2 : Int} (hb : w16 beta i = be) (h0 : w16 a0 i = x0) (h1 : w16 a1 i = x1)
    (h2 : w16 a2 i = x2) (r0 : 0 ≤ x0 ∧ x0 ≤ 255) (r1 : 0 ≤ x1 ∧ x1 ≤ 255) (r2 : 0 ≤ x2 ∧ x2 ≤ 255) :
    w16 (dbFlat beta a0 a1 a2) i = (if |x1 - x0| < be then 2 else 0) + (if |x2 - x0| < be then 1 else 0) := by
  unfold dbFlat
  have e : ∀ (a : V) (x n : Int), w16 a i = x → 0 ≤ x ∧ x ≤ 255 → 0 ≤ n ∧ n ≤ 255 →
      w16 (and (cmpgt16 beta (subabs a a0)) (c16 n)) i = if |x - x0| < be then n else 0 := by
    intro a x n ha hx hn
    rw [w16_mask_and (isMask_gt _ _ _), w16_c16 n i hn, w16_subabs ha h0 hx r0, hb]
    by_cases h : |x - x0| < be
    · rw [if_pos h, if_pos h]
    · rw [if_neg h, if_neg h]
  rw [w16_add16, e a2 x2 1 h2 r2 (by omega), e a1 x1 2 h1 r1 (by omega), wrap16_id (by split <;> split <;> omega), add_comm]

theorem strength_luma (p1 p2 q1 q2 e3 eq : Prop) [Decidable p1] [Decidable p2] [Decidable q1] [Decidable q2] [Decidable e3] [Decidable eq] :
    (if ((if p1 then (2 : Int) else 0) + (if p2 then 1 else 0)) + ((if q1 then 2 else 0) + (if q2 then 1 else 0)) = 3 then (if e3 then 1 else 0)
      else if ((if p1 then (2 : Int) else 0) + (if p2 then 1 else 0)) + ((if q1 then 2 else 0) + (if q2 then 1 else 0)) = 4 then
        (if (if p1 then (2 : Int) else 0) + (if p2 then 1 else 0) = 2 then 2 else 1)
      else if ((if p1 then (2 : Int) else 0) + (if p2 then 1 else 0)) + ((if q1 then 2 else 0) + (if q2 then 1 else 0)) > 4 then
        (if eq then ((if p1 then (2 : Int) else 0) + (if p2 then 1 else 0)) + ((if q1 then 2 else 0) + (if q2 then 1 else 0)) - 2
          else ((if p1 then (2 : Int) else 0) + (if p2 then 1 else 0)) + ((if q1 then 2 else 0) + (if q2 then 1 else 0)) - 3)
      else 0) =
    ((match ((if p1 then 2 else 0) + (if p2 then 1 else 0)) + ((if q1 then 2 else 0) + (if q2 then 1 else 0)) with
      | 6 => 3 + (if eq then 1 else 0)
      | 5 => 2 + (if eq then 1 else 0)
      | 4 => 1 + (if (if p1 then 2 else 0) + (if p2 then 1 else 0) = 2 then 1 else 0)
      | 3 => if e3 then 1 else 0
      | _ => 0 : Nat) : Int) := by
  by_cases p1 <;> by_cases p2 <;> by_cases q1 <;> by_cases q2 <;> by_cases e3 <;> by_cases eq <;> simp [*]

theorem strength_chroma (p1 p2 q1 q2 e3 eq : Prop) [Decidable p1] [Decidable p2] [Decidable q1] [Decidable q2] [Decidable e3] [Decidable eq] :
    (if ((if p1 then (2 : Int) else 0) + (if p2 then 1 else 0)) + ((if q1 then 2 else 0) + (if q2 then 1 else 0)) = 4 then
        (if (if p1 then (2 : Int) else 0) + (if p2 then 1 else 0) = 2 then 1 else 0)
      else if ((if p1 then (2 : Int) else 0) + (if p2 then 1 else 0)) + ((if q1 then 2 else 0) + (if q2 then 1 else 0)) > 4 then
        (if eq then ((if p1 then (2 : Int) else 0) + (if p2 then 1 else 0)) + ((if q1 then 2 else 0) + (if q2 then 1 else 0)) - 3
          else ((if p1 then (2 : Int) else 0) + (if p2 then 1 else 0)) + ((if q1 then 2 else 0) + (if q2 then 1 else 0)) - 4)
      else 0) =
    ((if ((if p1 then (2 : Int) else 0) + (if p2 then 1 else 0)) + ((if q1 then 2 else 0) + (if q2 then 1 else 0)) = 3 then (if e3 then 1 else 0)
      else if ((if p1 then (2 : Int) else 0) + (if p2 then 1 else 0)) + ((if q1 then 2 else 0) + (if q2 then 1 else 0)) = 4 then
        (if (if p1 then (2 : Int) else 0) + (if p2 then 1 else 0) = 2 then 2 else 1)
      else if ((if p1 then (2 : Int) else 0) + (if p2 then 1 else 0)) + ((if q1 then 2 else 0) + (if q2 then 1 else 0)) > 4 then
        (if eq then ((if p1 then (2 : Int) else 0) + (if p2 then 1 else 0)) + ((if q1 then 2 else 0) + (if q2 then 1 else 0)) - 2
          else ((if p1 then (2 : Int) else 0) + (if p2 then 1 else 0)) + ((if q1 then 2 else 0) + (if q2 then 1 else 0)) - 3)
      else 0) : Int) -
      (if ((if ((if p1 then (2 : Int) else 0) + (if p2 then 1 else 0)) + ((if q1 then 2 else 0) + (if q2 then 1 else 0)) = 3 then (if e3 then 1 else 0)
      else if ((if p1 then (2 : Int) else 0) + (if p2 then 1 else 0)) + ((if q1 then 2 else 0) + (if q2 then 1 else 0)) = 4 then
        (if (if p1 then (2 : Int) else 0) + (if p2 then 1 else 0) = 2 then 2 else 1)
      else if ((if p1 then (2 : Int) else 0) + (if p2 then 1 else 0)) + ((if q1 then 2 else 0) + (if q2 then 1 else 0)) > 4 then
        (if eq then ((if p1 then (2 : Int) else 0) + (if p2 then 1 else 0)) + ((if q1 then 2 else 0) + (if q2 then 1 else 0)) - 2
          else ((if p1 then (2 : Int) else 0) + (if p2 then 1 else 0)) + ((if q1 then 2 else 0) + (if q2 then 1 else 0)) - 3)
      else 0) : Int) > 0 then 1 else 0) := by
  by_cases p1 <;> by_cases p2 <;> by_cases q1 <;> by_cases q2 <;> by_cases e3 <;> by_cases eq <;> simp [*]

theorem strength_true (be : Int) (t : Line) : strength true be t = strength false be t - (if strength false be t > 0 then 1 else 0) := by
  unfold strength
  simp

/-- The strength of a line. -/
theorem w16_strength {sub : V → V → V} {chroma : Bool} {alpha beta m : V} {s : Lines} {i : Nat} {t : Line} {al be : Int} {flag : Prop}
    (hsub : ∀ a b, 0 ≤ w16 a i ∧ w16 a i ≤ 255 → 0 ≤ w16 b i ∧ w16 b i ≤ 255 → w16 (sub a b) i = w16 a i - w16 b i)
    (ha : w16 alpha i = al) (hb : w16 beta i = be) (hm : IsMask m i flag) (hs : At s i t) (hr : InRange t) [Decidable flag] :
    w16 (dbStrength sub chroma alpha beta m s) i =
      if flag ∧ |t.r0 - t.l0| < al ∧ |t.r0 - t.l0| > 1 then (strength chroma be t : Int) else 0 := by
  have d0 := w16_subabs hs.l0 hs.r0 hr.l0 hr.r0
  have d1 := w16_subabs hs.l1 hs.r1 hr.l1 hr.r1
  have fl := w16_flat hb hs.l0 hs.l1 hs.l2 hr.l0 hr.l1 hr.l2
  have fr := w16_flat hb hs.r0 hs.r1 hs.r2 hr.r0 hr.r1 hr.r2
  have m0 := hm.and ((isMask_gt (subabs s.l0 s.r0) (c16 1) i).and (isMask_gt alpha (subabs s.l0 s.r0) i))
  rw [d0, ha, w16_c16 1 i (by omega)] at m0
  have m1 := (isMask_eq s.r0 s.r1 i).and (isMask_eq s.l0 s.l1 i)
  rw [hs.r0, hs.r1, hs.l0, hs.l1] at m1
  have flt : w16 (add16 (dbFlat beta s.l0 s.l1 s.l2) (dbFlat beta s.r0 s.r1 s.r2)) i =
      ((if |t.l1 - t.l0| < be then 2 else 0) + (if |t.l2 - t.l0| < be then 1 else 0)) +
      ((if |t.r1 - t.r0| < be then 2 else 0) + (if |t.r2 - t.r0| < be then 1 else 0)) := by
    rw [w16_add16, fl, fr, wrap16_id (by repeat' split <;> omega)]
  have fltr : 0 ≤ w16 (add16 (dbFlat beta s.l0 s.l1 s.l2) (dbFlat beta s.r0 s.r1 s.r2)) i ∧
      w16 (add16 (dbFlat beta s.l0 s.l1 s.l2) (dbFlat beta s.r0 s.r1 s.r2)) i ≤ 255 := by
    rw [flt]; repeat' split <;> omega
  have hsn : ∀ n : Int, 0 ≤ n ∧ n ≤ 255 → w16 (sub (add16 (dbFlat beta s.l0 s.l1 s.l2) (dbFlat beta s.r0 s.r1 s.r2)) (c16 n)) i =
      w16 (add16 (dbFlat beta s.l0 s.l1 s.l2) (dbFlat beta s.r0 s.r1 s.r2)) i - n := by
    intro n hn
    rw [hsub _ _ fltr (by rw [w16_c16 n i hn]; exact hn), w16_c16 n i hn]
  unfold dbStrength
  dsimp only
  rw [w16_and_mask m0]
  have cond : (flag ∧ |t.l0 - t.r0| > 1 ∧ al > |t.l0 - t.r0|) ↔ (flag ∧ |t.r0 - t.l0| < al ∧ |t.r0 - t.l0| > 1) := by
    rw [abs_sub_comm t.l0 t.r0]; exact ⟨fun h => ⟨h.1, h.2.2, h.2.1⟩, fun h => ⟨h.1, h.2.2, h.2.1⟩⟩
  by_cases hc : flag ∧ |t.r0 - t.l0| < al ∧ |t.r0 - t.l0| > 1
  · rw [if_pos hc, if_pos (cond.2 hc)]
    have n := fun n (h : 0 ≤ n ∧ n ≤ 255) => w16_c16 n i h
    have e := hsn 2 (by omega)
    have e3 := hsn 3 (by omega)
    have e4 := hsn 4 (by omega)
    rw [flt] at e e3 e4
    cases chroma
    · simp only [Bool.false_eq_true, if_false, w16_blendv (isMask_gt _ _ i), w16_blendv (isMask_eq _ _ i), w16_blendv m1, e, e3, fl, flt,
        n 0 (by omega), n 1 (by omega), n 2 (by omega), n 3 (by omega), n 4 (by omega), d1, hb]
      have key := strength_luma (|t.l1 - t.l0| < be) (|t.l2 - t.l0| < be) (|t.r1 - t.r0| < be) (|t.r2 - t.r0| < be) (|t.l1 - t.r1| < be)
        (t.r0 = t.r1 ∧ t.l0 = t.l1)
      unfold strength
      rw [abs_sub_comm t.r0 t.r1, abs_sub_comm t.r0 t.r2]
      simp only [Bool.false_eq_true, false_and, if_false, Nat.sub_zero, @eq_comm _ t.r1 t.r0]
      exact Eq.trans (by congr) (key.trans (by congr))
    · simp only [if_true, w16_blendv (isMask_gt _ _ i), w16_blendv (isMask_eq _ _ i), w16_blendv m1, e3, e4, fl, flt,
        n 0 (by omega), n 1 (by omega), n 2 (by omega), n 3 (by omega), n 4 (by omega), d1, hb]
      have key := strength_chroma (|t.l1 - t.l0| < be) (|t.l2 - t.l0| < be) (|t.r1 - t.r0| < be) (|t.r2 - t.r0| < be) (|t.l1 - t.r1| < be)
        (t.r0 = t.r1 ∧ t.l0 = t.l1)
      have key2 := strength_luma (|t.l1 - t.l0| < be) (|t.l2 - t.l0| < be) (|t.r1 - t.r0| < be) (|t.r2 - t.r0| < be) (|t.l1 - t.r1| < be)
        (t.r0 = t.r1 ∧ t.l0 = t.l1)
      have luma : _ = ((strength false be t : Nat) : Int) := key2.trans (by
        unfold strength
        rw [abs_sub_comm t.r0 t.r1, abs_sub_comm t.r0 t.r2]
        simp only [Bool.false_eq_true, false_and, if_false, Nat.sub_zero, @eq_comm _ t.r1 t.r0]
        congr)
      rw [luma] at key
      rw [strength_true]
      have fin : ((strength false be t : Nat) : Int) - (if ((strength false be t : Nat) : Int) > 0 then 1 else 0) =
          ((strength false be t - (if strength false be t > 0 then 1 else 0) : Nat) : Int) := by
        by_cases h : strength false be t > 0
        · rw [if_pos h, if_pos (by omega)]; omega
        · rw [if_neg h, if_neg (by omega)]; omega
      exact Eq.trans (by congr) (key.trans fin)
  · rw [if_neg hc, if_neg (fun h => hc (cond.1 h))]

theorem testz_mask {m : V} {i : Nat} {p : Prop} (hi : i < 8) (h : IsMask m i p) (hz : testz m = true) : ¬p := by
  intro hp
  unfold testz at hz
  rw [List.all_eq_true] at hz
  have := hz (2 * i) (List.mem_range.2 (by omega))
  rw [(h.1 hp).1] at this
  revert this
  decide

theorem pel_id {v : Int} (h : 0 ≤ v ∧ v ≤ 255) : pel v = v := by unfold pel; omega

theorem smooth_range {t : Line} (hr : InRange t) (n : Nat) : InRange (smooth n t) := by
  have e : ∀ v : Int, 0 ≤ pel v ∧ pel v ≤ 255 := fun v => by unfold pel; omega
  obtain ⟨a, b, c, d, f, g⟩ := hr
  unfold smooth
  split <;> constructor <;> first | exact e _ | assumption

/-- The filtered line. -/
theorem at_filter {chroma : Bool} {fs : V} {s : Lines} {i : Nat} {t : Line} {n : Nat} (hi : i < 8) (hs : At s i t) (hr : InRange t)
    (hf : w16 fs i = n) (hn : n ≤ 4) (hc : chroma = true → n ≤ 3) : At (dbFilter chroma fs s) i (smooth n t) := by
  have ht : w16 (add16 (add16 s.l0 s.r0) (c16 2)) i = t.l0 + t.r0 + 2 := by
    obtain ⟨a, b⟩ := hr.l0; obtain ⟨c, d⟩ := hr.r0
    rw [w16_add16, w16_add16, w16_c16 2 i (by omega), hs.l0, hs.r0]
    simp (disch := omega) only [wrap16_id]
  have ht' : w16 (add16 (add16 s.l0 s.r0) (c16 2)) i = t.r0 + t.l0 + 2 := by rw [ht]; ring
  have eq : ∀ k : Int, 0 ≤ k ∧ k ≤ 255 → IsMask (cmpeq16 fs (c16 k)) i ((n : Int) = k) := by
    intro k hk
    have := isMask_eq fs (c16 k) i
    rwa [hf, w16_c16 k i hk] at this
  have b : ∀ (k : Int) (x y : V), 0 ≤ k ∧ k ≤ 255 → w16 (blendv x y (cmpeq16 fs (c16 k))) i = if (n : Int) = k then w16 y i else w16 x i := by
    intro k x y hk
    rw [w16_blendv (eq k hk)]
    by_cases h : (n : Int) = k
    · rw [if_pos h, if_pos h]
    · rw [if_neg h, if_neg h]
  have b1 := fun x y => b 1 x y (by omega)
  have b2 := fun x y => b 2 x y (by omega)
  have b3 := fun x y => b 3 x y (by omega)
  have b4 := fun x y => b 4 x y (by omega)
  have R := hr
  obtain ⟨q2, q1, q0, u0, u1, u2⟩ := R
  have W1 := w16_weak1 hs.l0 q0 u0 ht
  have W1' := w16_weak1 hs.r0 u0 q0 ht'
  have W2 := w16_weak2 hs.l0 hs.l1 hs.r0 q0 q1 u0 ht
  have W2' := w16_weak2 hs.r0 hs.r1 hs.l0 u0 u1 q0 ht'
  have W3 := w16_weak3 hs.l0 hs.l1 hs.l2 hs.r1 q0 q1 q2 u0 u1 ht
  have W3' := w16_weak3 hs.r0 hs.r1 hs.r2 hs.l1 u0 u1 u2 q0 q1 ht'
  have X3 := w16_second3 hs.l0 hs.l1 hs.l2 hs.r0 q0 q1 q2 u0
  have X3' := w16_second3 hs.r0 hs.r1 hs.r2 hs.l0 u0 u1 u2 q0
  have S0 := w16_strong0 hs.l0 hs.l2 hs.r0 hs.r2 q0 q2 u0 u2
  have S0' := w16_strong0 hs.r0 hs.r2 hs.l0 hs.l2 u0 u2 q0 q2
  have S1 := w16_strong1 hs.l0 hs.l2 hs.r0 q0 q2 u0
  have S1' := w16_strong1 hs.r0 hs.r2 hs.l0 u0 u2 q0
  have S2 := w16_strong2 hs.l0 hs.l2 hs.r0 q0 q2 u0
  have S2' := w16_strong2 hs.r0 hs.r2 hs.l0 u0 u2 q0
  have n4 : n = 4 → (chroma = false ∧ testz (cmpeq16 fs (c16 4)) = false) := by
    intro h
    refine ⟨by cases chroma; rfl; exact absurd (hc rfl) (by omega), ?_⟩
    cases hz : testz (cmpeq16 fs (c16 4))
    · rfl
    · exact absurd (by omega : (n : Int) = 4) (testz_mask hi (eq 4 (by omega)) hz)
  unfold dbFilter
  dsimp only
  by_cases hcond : chroma = false ∧ testz (cmpeq16 fs (c16 4)) = false
  · rw [if_pos hcond]
    interval_cases n <;>
    · unfold smooth
      constructor <;> simp only [b1, b2, b3, b4, W1, W1', W2, W2', W3, W3', X3, X3', S0, S0', S1, S1', S2, S2', hs.l0, hs.l1, hs.l2, hs.r0, hs.r1, hs.r2,
        Nat.cast_ofNat, Nat.cast_zero, Nat.cast_one, Int.reduceEq, if_true, if_false] <;> (try rw [pel_id (by omega)]) <;> (try omega)
  · rw [if_neg hcond]
    have : n ≠ 4 := fun h => hcond (n4 h)
    interval_cases n <;> first | omega | skip
    all_goals
      unfold smooth
      constructor <;> simp only [b1, b2, b3, b4, W1, W1', W2, W2', W3, W3', X3, X3', S0, S0', S1, S1', S2, S2', hs.l0, hs.l1, hs.l2, hs.r0, hs.r1, hs.r2,
        Nat.cast_ofNat, Nat.cast_zero, Nat.cast_one, Int.reduceEq, if_true, if_false] <;> (try rw [pel_id (by omega)]) <;> (try omega)

theorem strength_le (chroma : Bool) (be : Int) (t : Line) : strength chroma be t ≤ 4 ∧ (chroma = true → strength chroma be t ≤ 3) := by
  have h : strength false be t ≤ 4 := by
    unfold strength
    simp only [Bool.false_eq_true, false_and, if_false, Nat.sub_zero]
    have one : ∀ (p : Prop) [Decidable p], (if p then 1 else 0 : Nat) ≤ 1 := by intro p _; split <;> omega
    split <;> first
      | exact le_trans (Nat.add_le_add_left (one _) _) (by omega)
      | exact le_trans (one _) (by omega)
      | omega
  cases chroma
  · exact ⟨h, fun h => by cases h⟩
  · rw [strength_true]
    split <;> exact ⟨by omega, fun _ => by omega⟩

theorem at_lines {sub : V → V → V} {chroma : Bool} {alpha beta m : V} {s : Lines} {i : Nat} {t : Line} {al be : Int} {flag : Bool} (hi : i < 8)
    (hsub : ∀ a b, 0 ≤ w16 a i ∧ w16 a i ≤ 255 → 0 ≤ w16 b i ∧ w16 b i ≤ 255 → w16 (sub a b) i = w16 a i - w16 b i)
    (ha : w16 alpha i = al) (hb : w16 beta i = be) (hm : IsMask m i (flag = true)) (hs : At s i t) (hr : InRange t) :
    At (dbLines sub chroma alpha beta m s) i (filterLine chroma al be flag t) := by
  unfold dbLines filterLine
  have e := w16_strength (chroma := chroma) hsub ha hb hm hs hr
  have l := strength_le chroma be t
  by_cases hc : flag = true ∧ |t.r0 - t.l0| < al ∧ |t.r0 - t.l0| > 1
  · rw [if_pos hc] at e ⊢
    exact at_filter hi hs hr e l.1 l.2
  · rw [if_neg hc] at e ⊢
    exact at_filter (n := 0) hi hs hr e (by omega) (fun _ => by omega)

theorem filterLine_range {chroma : Bool} {al be : Int} {flag : Bool} {t : Line} (hr : InRange t) : InRange (filterLine chroma al be flag t) := by
  unfold filterLine
  split
  · exact smooth_range hr _
  · exact hr

end Davs2.Vc
