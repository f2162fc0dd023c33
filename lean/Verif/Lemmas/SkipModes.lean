import Verif.Model.SkipModes
import Verif.Spec.SkipModes
import Mathlib.Data.List.Induction
/- Lemmas for C91. -/
namespace Davs2.Mo

theorem find_rev (k : Blk → Bool) : ∀ l : List Blk, Spec.first k l.reverse = (l.filter k).getLast? := by
  intro l
  induction l with
  | nil => rfl
  | cons a l ih =>
    unfold Spec.first at ih ⊢
    rw [List.reverse_cons, List.find?_append, ih, List.filter_cons]
    by_cases h : k a
    · rw [if_pos h]
      cases hl : l.filter k with
      | nil => simp [h]
      | cons b t =>
        rw [List.getLast?_eq_some_getLast (by simp), List.getLast?_eq_some_getLast (by simp)]
        simp
    · rw [if_neg h]; simp [h]

theorem last_rev (k : Blk → Bool) : ∀ l : List Blk, Spec.last k l.reverse = (l.filter k).head? := by
  intro l
  induction l with
  | nil => rfl
  | cons a l ih =>
    unfold Spec.last at ih ⊢
    rw [List.reverse_cons, List.foldl_append, ih, List.filter_cons]
    by_cases h : k a
    · simp [h]
    · simp [h]

theorem dw_append (k : Blk → Bool) : ∀ (l : List Blk) (a : Blk),
    ((l ++ [a]).dropWhile fun b => !k b).tail.any k = ((l.dropWhile fun b => !k b).tail.any k || (l.any k && k a)) := by
  intro l a
  induction l with
  | nil => cases h : k a <;> simp [h]
  | cons b l ih =>
    cases h : k b
    · simp only [List.cons_append, List.dropWhile_cons, h, Bool.not_false, if_true, List.any_cons, Bool.false_or]
      exact ih
    · simp [List.dropWhile_cons, h, List.any_append]

theorem two_rev (k : Blk → Bool) : ∀ l : List Blk, Spec.two k l.reverse = decide (1 < (l.filter k).length) := by
  intro l
  induction l with
  | nil => rfl
  | cons a l ih =>
    unfold Spec.two at ih ⊢
    rw [List.reverse_cons, dw_append, ih, List.filter_cons, List.any_reverse]
    cases h : k a
    · simp
    · simp only [if_true, List.length_cons, Bool.and_true]
      have : l.any k = decide (0 < (l.filter k).length) := by
        rw [Bool.eq_iff_iff]; simp [List.length_filter_pos_iff]
      rw [this]
      rw [← Bool.decide_or]
      apply decide_eq_decide.2; omega

theorem bLoops_append (P : List Blk) (b : Blk) : ∀ (j : Nat) (s : BSt), bLoops (P ++ [b]) j s = bLoop (bLoops P j s) (j + P.length) b := by
  induction P with
  | nil => intro j s; rfl
  | cons a P ih => intro j s; show bLoops (P ++ [b]) (j + 1) _ = _; rw [ih]; simp only [List.length_cons]; rw [show j + 1 + P.length = j + (P.length + 1) by omega]; rfl

theorem fLoops_append (P : List Blk) (b : Blk) : ∀ (j : Nat) (s : FSt), fLoops (P ++ [b]) j s = fLoop (fLoops P j s) (j + P.length) b := by
  induction P with
  | nil => intro j s; rfl
  | cons a P ih => intro j s; show fLoops (P ++ [b]) (j + 1) _ = _; rw [ih]; simp only [List.length_cons]; rw [show j + 1 + P.length = j + (P.length + 1) by omega]; rfl

/-- The vector of the last block of a list, zero without one. -/
def lastV (l : List Blk) (f : Blk → Option Vec) : Option Vec := l.getLast?.elim (some (0, 0)) f
def lastR (l : List Blk) (f : Blk → Int) : Int := l.getLast?.elim 0 f

theorem lastV_app (l : List Blk) (b : Blk) (f : Blk → Option Vec) : lastV (l ++ [b]) f = f b := by simp [lastV]
theorem lastR_app (l : List Blk) (b : Blk) (f : Blk → Int) : lastR (l ++ [b]) f = f b := by simp [lastR]

/-- What the loop over `P` has computed. -/
structure BInv (P : List Blk) (s : BSt) : Prop where
  bid : s.bid = (P.filter fun b => b.dir = 3).length
  sym : s.sym = (P.filter fun b => b.dir = 2).length
  bw : s.bw = (P.filter fun b => b.dir = 1).length
  fw : s.fw = (P.filter fun b => b.dir = 0).length
  i2 : s.bid ≠ 0 → P[s.bid2]? = (P.filter fun b => b.dir = 3).head?
  m11 : s.m1 1 = lastV (P.filter fun b => b.dir = 3) Blk.v1
  m21 : s.m2 1 = lastV (P.filter fun b => b.dir = 3) Blk.v2
  m13 : s.m1 3 = lastV (P.filter fun b => b.dir = 2) Blk.v1
  m23 : s.m2 3 = lastV (P.filter fun b => b.dir = 2) Blk.v2
  m22 : s.m2 2 = lastV (P.filter fun b => b.dir = 1) Blk.v2
  m14 : s.m1 4 = lastV (P.filter fun b => b.dir = 0) Blk.v1
  m12 : s.m1 2 = some (0, 0)
  m24 : s.m2 4 = some (0, 0)

theorem filter_app (P : List Blk) (b : Blk) (k : Blk → Bool) : (P ++ [b]).filter k = if k b then P.filter k ++ [b] else P.filter k := by
  by_cases h : k b <;> simp [List.filter_append, h]

theorem fpos (P : List Blk) (b : Blk) (k : Blk → Bool) (h : k b = true) : (P ++ [b]).filter k = P.filter k ++ [b] := by rw [filter_app, if_pos h]
theorem fneg (P : List Blk) (b : Blk) (k : Blk → Bool) (h : k b = false) : (P ++ [b]).filter k = P.filter k := by rw [filter_app, h]; rfl

theorem get_app (P : List Blk) (b : Blk) (k : Blk → Bool) (i : Nat) (h : P.filter k ≠ []) (e : P[i]? = (P.filter k).head?) :
    (P ++ [b])[i]? = (P.filter k).head? := by
  obtain ⟨x, hx⟩ : ∃ x, (P.filter k).head? = some x := by cases hh : P.filter k with | nil => exact absurd hh h | cons x t => exact ⟨x, rfl⟩
  rw [hx] at e ⊢
  have : i < P.length := by
    by_contra hc
    rw [List.getElem?_eq_none (by omega)] at e; exact absurd e (by simp)
  rw [List.getElem?_append_left this]; exact e

theorem head_app (l : List Blk) (b : Blk) (h : l ≠ []) : (l ++ [b]).head? = l.head? := by
  cases l with | nil => exact absurd rfl h | cons a t => rfl

theorem idx_step (P : List Blk) (b : Blk) (k : Blk → Bool) (n i : Nat) (hn : n = (P.filter k).length) (hk : k b = true)
    (ih : n ≠ 0 → P[i]? = (P.filter k).head?) : (P ++ [b])[if n + 1 = 1 then P.length else i]? = (P.filter k ++ [b]).head? := by
  by_cases h0 : P.filter k = []
  · rw [h0] at hn ⊢
    rw [hn]; simp
  · have hl : n ≠ 0 := fun e => h0 (List.length_eq_zero_iff.1 (hn ▸ e))
    rw [if_neg (by omega), head_app _ _ h0]
    exact get_app P b k i h0 (ih hl)

theorem idx_keep (P : List Blk) (b : Blk) (k : Blk → Bool) (n i : Nat) (hn : n = (P.filter k).length)
    (ih : n ≠ 0 → P[i]? = (P.filter k).head?) (h : n ≠ 0) : (P ++ [b])[i]? = (P.filter k).head? :=
  get_app P b k i (fun e => h (by rw [hn, e]; rfl)) (ih h)

theorem bInv (P : List Blk) : BInv P (bLoops P 0 ⟨fun _ => some (0, 0), fun _ => some (0, 0), 0, 0, 0, 0, 0⟩) := by
  induction P using List.reverseRecOn with
  | nil => constructor <;> first | rfl | (intro h; exact absurd rfl h)
  | append_singleton P b ih =>
    rw [bLoops_append, Nat.zero_add]
    generalize bLoops P 0 _ = s at ih
    unfold bLoop
    by_cases h3 : b.dir = 3
    · rw [if_pos h3]
      constructor
      case i2 => intro _; rw [fpos _ _ _ (by simp [h3])]; exact idx_step P b _ _ _ ih.bid (by simp [h3]) ih.i2
      all_goals simp [filter_app, h3, put, lastV_app, ih.bid, ih.sym, ih.bw, ih.fw, ih.m13, ih.m23, ih.m22, ih.m14, ih.m12, ih.m24]
    · rw [if_neg h3]
      by_cases h2 : b.dir = 2
      · rw [if_pos h2]
        constructor
        case i2 => rw [fneg _ _ _ (by simp [h3])]; exact idx_keep P b _ _ _ ih.bid ih.i2
        all_goals simp [filter_app, h2, put, lastV_app, ih.bid, ih.sym, ih.bw, ih.fw, ih.m11, ih.m21, ih.m22, ih.m14, ih.m12, ih.m24]
      · rw [if_neg h2]
        by_cases h1 : b.dir = 1
        · rw [if_pos h1]
          constructor
          case i2 => rw [fneg _ _ _ (by simp [h3])]; exact idx_keep P b _ _ _ ih.bid ih.i2
          all_goals simp [filter_app, h1, put, lastV_app, ih.bid, ih.sym, ih.bw, ih.fw, ih.m11, ih.m21, ih.m13, ih.m23, ih.m14, ih.m12, ih.m24]
        · rw [if_neg h1]
          by_cases h0 : b.dir = 0
          · rw [if_pos h0]
            constructor
            case i2 => rw [fneg _ _ _ (by simp [h3])]; exact idx_keep P b _ _ _ ih.bid ih.i2
            all_goals simp [filter_app, h0, put, lastV_app, ih.bid, ih.sym, ih.bw, ih.fw, ih.m11, ih.m21, ih.m13, ih.m23, ih.m22, ih.m12, ih.m24]
          · rw [if_neg h0]
            constructor
            case i2 => rw [fneg _ _ _ (by simp [h3])]; exact idx_keep P b _ _ _ ih.bid ih.i2
            all_goals simp [filter_app, h0, h1, h2, h3, ih.bid, ih.sym, ih.bw, ih.fw, ih.m11, ih.m21, ih.m13, ih.m23, ih.m22, ih.m14, ih.m12, ih.m24]

/-- What the loop over `P` has computed. -/
structure FInv (P : List Blk) (s : FSt) : Prop where
  bid : s.bid = (P.filter fun b => decide (b.r1 ≠ -1 ∧ b.r2 ≠ -1)).length
  fw : s.fw = (P.filter fun b => decide (b.r1 ≠ -1 ∧ b.r2 = -1)).length
  i2 : s.bid ≠ 0 → P[s.bid2]? = (P.filter fun b => decide (b.r1 ≠ -1 ∧ b.r2 ≠ -1)).head?
  f2 : s.fw ≠ 0 → P[s.fw2]? = (P.filter fun b => decide (b.r1 ≠ -1 ∧ b.r2 = -1)).head?
  r11 : s.r1 1 = lastR (P.filter fun b => decide (b.r1 ≠ -1 ∧ b.r2 ≠ -1)) Blk.r1
  r21 : s.r2 1 = lastR (P.filter fun b => decide (b.r1 ≠ -1 ∧ b.r2 ≠ -1)) Blk.r2
  m11 : s.m1 1 = lastV (P.filter fun b => decide (b.r1 ≠ -1 ∧ b.r2 ≠ -1)) Blk.v1
  m21 : s.m2 1 = lastV (P.filter fun b => decide (b.r1 ≠ -1 ∧ b.r2 ≠ -1)) Blk.v2
  r13 : s.r1 3 = lastR (P.filter fun b => decide (b.r1 ≠ -1 ∧ b.r2 = -1)) Blk.r1
  m13 : s.m1 3 = lastV (P.filter fun b => decide (b.r1 ≠ -1 ∧ b.r2 = -1)) Blk.v1
  z : s.r1 2 = 0 ∧ s.r2 2 = 0 ∧ s.m1 2 = some (0, 0) ∧ s.m2 2 = some (0, 0) ∧ s.r1 4 = 0 ∧ s.m1 4 = some (0, 0)

theorem fInv (P : List Blk) : FInv P (fLoops P 0 ⟨fun _ => 0, fun _ => 0, fun _ => some (0, 0), fun _ => some (0, 0), 0, 0, 0, 0⟩) := by
  induction P using List.reverseRecOn with
  | nil => constructor <;> first | rfl | (intro h; exact absurd rfl h) | exact ⟨rfl, rfl, rfl, rfl, rfl, rfl⟩
  | append_singleton P b ih =>
    rw [fLoops_append, Nat.zero_add]
    generalize fLoops P 0 _ = s at ih
    obtain ⟨z1, z2, z3, z4, z5, z6⟩ := ih.z
    unfold fLoop
    by_cases h3 : b.r1 ≠ -1 ∧ b.r2 ≠ -1
    · rw [if_pos h3]
      constructor
      case i2 => intro _; rw [fpos _ _ _ (by simpa using h3)]; exact idx_step P b _ _ _ ih.bid (by simpa using h3) ih.i2
      case f2 => rw [fneg _ _ _ (by simp [h3])]; exact idx_keep P b _ _ _ ih.fw ih.f2
      all_goals simp [filter_app, h3, put, lastV_app, lastR_app, ih.bid, ih.fw, ih.r13, ih.m13, z1, z2, z3, z4, z5, z6]
    · rw [if_neg h3]
      by_cases h2 : b.r1 ≠ -1 ∧ b.r2 = -1
      · rw [if_pos h2]
        constructor
        case i2 => rw [fneg _ _ _ (by simp [h2])]; exact idx_keep P b _ _ _ ih.bid ih.i2
        case f2 => intro _; rw [fpos _ _ _ (by simpa using h2)]; exact idx_step P b _ _ _ ih.fw (by simpa using h2) ih.f2
        all_goals simp [filter_app, h2, put, lastV_app, lastR_app, ih.bid, ih.fw, ih.r11, ih.r21, ih.m11, ih.m21, z1, z2, z3, z4, z5, z6]
      · rw [if_neg h2]
        have e3 : decide (b.r1 ≠ -1 ∧ b.r2 ≠ -1) = false := decide_eq_false h3
        have e2 : decide (b.r1 ≠ -1 ∧ b.r2 = -1) = false := decide_eq_false h2
        constructor
        case i2 => rw [fneg _ _ _ e3]; exact idx_keep P b _ _ _ ih.bid ih.i2
        case f2 => rw [fneg _ _ _ e2]; exact idx_keep P b _ _ _ ih.fw ih.f2
        case z => exact ih.z
        all_goals (rw [filter_app]; simp only [e2, e3]; first | exact ih.bid | exact ih.fw | exact ih.r11 | exact ih.r21 | exact ih.m11 | exact ih.m21 | exact ih.r13 | exact ih.m13)

end Davs2.Mo
