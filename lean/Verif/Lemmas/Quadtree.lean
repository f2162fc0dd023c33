import Verif.Model.Quadtree
import Verif.Spec.ZOrder
import Mathlib.Data.List.Range
import Mathlib.Tactic.Ring
import Mathlib.Tactic.Linarith
/-
Lemmas on the coding-tree traversal and on the z-order.
-/
namespace Davs2.Qt
open Davs2.Spec

theorem z_lt (k x y : Nat) : zOrder k x y < 4 ^ k := by
  induction k with
  | zero => simp [zOrder]
  | succ k ih =>
    have h1 := Nat.mod_lt (y / 2 ^ k) (show 2 > 0 by omega)
    have h2 := Nat.mod_lt (x / 2 ^ k) (show 2 > 0 by omega)
    simp only [zOrder]
    have : 4 ^ k * (2 * (y / 2 ^ k % 2) + x / 2 ^ k % 2) ≤ 4 ^ k * 3 := Nat.mul_le_mul_left _ (by omega)
    rw [Nat.pow_succ]
    omega

theorem bit_mod (x k : Nat) : x % 2 ^ (k + 1) / 2 ^ k % 2 = x / 2 ^ k % 2 := by
  rw [Nat.pow_succ, Nat.mod_mul, Nat.add_mul_div_left _ _ (Nat.two_pow_pos k),
    Nat.div_eq_of_lt (Nat.mod_lt _ (Nat.two_pow_pos k)), Nat.zero_add, Nat.mod_mod]

theorem z_mod (k x y : Nat) : zOrder k (x % 2 ^ k) (y % 2 ^ k) = zOrder k x y := by
  have g : ∀ k j x y, k ≤ j → zOrder k (x % 2 ^ j) (y % 2 ^ j) = zOrder k x y := by
    intro k
    induction k with
    | zero => intros; rfl
    | succ k ih =>
      intro j x y hj
      simp only [zOrder]
      rw [ih j x y (by omega)]
      have hb : ∀ x, x % 2 ^ j / 2 ^ k % 2 = x / 2 ^ k % 2 := by
        intro x
        rw [← bit_mod (x % 2 ^ j) k, Nat.mod_mod_of_dvd _ (Nat.pow_dvd_pow 2 hj), bit_mod]
      rw [hb, hb]
  exact g k k x y (Nat.le_refl _)

/-- A multiple of `2 ^ l` and a point of the block starting there agree on all bits from `l` on. -/
theorem div_block {x p l L : Nat} (hx : 2 ^ l ∣ x) (h1 : x ≤ p) (h2 : p < x + 2 ^ l) (hL : l ≤ L) :
    p / 2 ^ L = x / 2 ^ L := by
  obtain ⟨a, rfl⟩ := hx
  have e : p / 2 ^ l = a := by
    apply Nat.div_eq_of_lt_le
    · rw [Nat.mul_comm]; exact h1
    · rw [Nat.add_mul, Nat.mul_comm a]; omega
  have e2 : 2 ^ l * a / 2 ^ l = a := Nat.mul_div_cancel_left _ (Nat.two_pow_pos l)
  obtain ⟨d, rfl⟩ := Nat.exists_eq_add_of_le hL
  rw [Nat.pow_add, ← Nat.div_div_eq_div_mul, ← Nat.div_div_eq_div_mul, e, e2]

theorem z_block {x y px py l L : Nat} (hx : 2 ^ l ∣ x) (hy : 2 ^ l ∣ y) (h1 : x ≤ px) (h2 : px < x + 2 ^ l)
    (h3 : y ≤ py) (h4 : py < y + 2 ^ l) (hL : l ≤ L) :
    zOrder L px py = zOrder L x y + zOrder l px py := by
  induction L, hL using Nat.le_induction with
  | base =>
    have : zOrder l x y = 0 := by
      have hz : ∀ k, zOrder k 0 0 = 0 := by
        intro k
        induction k with
        | zero => rfl
        | succ k ih => simp [zOrder, ih]
      rw [← z_mod, Nat.mod_eq_zero_of_dvd hx, Nat.mod_eq_zero_of_dvd hy, hz]
    omega
  | succ L hL ih =>
    simp only [zOrder]
    rw [div_block hx h1 h2 hL, div_block hy h3 h4 hL, ih]
    omega

theorem z_last (l x y : Nat) (hx : 2 ^ l ∣ x) (hy : 2 ^ l ∣ y) :
    zOrder l (x + (2 ^ l - 1)) (y + (2 ^ l - 1)) = 4 ^ l - 1 := by
  have hp := Nat.two_pow_pos l
  have m : ∀ x, 2 ^ l ∣ x → (x + (2 ^ l - 1)) % 2 ^ l = 2 ^ l - 1 := by
    rintro x ⟨a, rfl⟩
    rw [Nat.mul_add_mod, Nat.mod_eq_of_lt (by omega)]
  rw [← z_mod, m x hx, m y hy]
  clear hx hy m hp x y
  induction l with
  | zero => rfl
  | succ k ih =>
    have hp := Nat.two_pow_pos k
    have h4 := Nat.pow_pos (n := k) (show 0 < 4 by omega)
    have d : (2 ^ (k + 1) - 1) / 2 ^ k = 1 := by
      apply Nat.div_eq_of_lt_le <;> rw [Nat.pow_succ] <;> omega
    have m : (2 ^ (k + 1) - 1) % 2 ^ k = 2 ^ k - 1 := by
      rw [show 2 ^ (k + 1) - 1 = 2 ^ k * 1 + (2 ^ k - 1) by rw [Nat.pow_succ]; omega, Nat.mul_add_mod,
        Nat.mod_eq_of_lt (by omega)]
    simp only [zOrder]
    rw [d, ← z_mod k, m, ih, Nat.pow_succ]
    omega

/-- Points of a coding unit. -/
def Cu.has (c : Cu) (px py : Nat) : Prop := c.x ≤ px ∧ px < c.x + 2 ^ c.l ∧ c.y ≤ py ∧ py < c.y + 2 ^ c.l

instance (c : Cu) (px py : Nat) : Decidable (c.has px py) := by unfold Cu.has; infer_instance

/-- Bounds of the coding units of a node. -/
structure Fits (w h l x y : Nat) (c : Cu) : Prop where
  lo : 3 ≤ c.l
  hi : c.l ≤ l
  dx : 2 ^ c.l ∣ c.x
  dy : 2 ^ c.l ∣ c.y
  x1 : x ≤ c.x
  x2 : c.x + 2 ^ c.l ≤ x + 2 ^ l
  y1 : y ≤ c.y
  y2 : c.y + 2 ^ c.l ≤ y + 2 ^ l
  inw : c.x + 2 ^ c.l ≤ w
  inh : c.y + 2 ^ c.l ≤ h

theorem child_dvd {x S b : Nat} (h : 2 * S ∣ x) : S ∣ x + b * S := by
  obtain ⟨a, rfl⟩ := h
  exact ⟨2 * a + b, by ring⟩

/-- The four quarters of a node. -/
def quarters (w h : Nat) (f : Nat → Nat → List Cu) (S x y : Nat) : List Cu :=
  (List.range 4).flatMap fun i =>
    if x + (i % 2) * S < w ∧ y + (i / 2) * S < h then f (x + (i % 2) * S) (y + (i / 2) * S) else []

theorem parse_cases (w h : Nat) (split : Nat → Nat → Nat → Bool) (k x y : Nat) :
    (parse w h split (k + 1) x y = [⟨x, y, k + 4⟩] ∧ x + 2 ^ (k + 4) ≤ w ∧ y + 2 ^ (k + 4) ≤ h) ∨
    parse w h split (k + 1) x y = quarters w h (parse w h split k) (2 ^ (k + 3)) x y := by
  by_cases hin : x + 2 ^ (k + 4) ≤ w ∧ y + 2 ^ (k + 4) ≤ h
  · cases hs : split (k + 4) x y
    · left
      refine ⟨?_, hin⟩
      simp only [parse]
      rw [if_pos hin, hs]
      rfl
    · right
      simp only [parse, quarters]
      rw [if_pos hin, hs]
      rfl
  · right
    simp only [parse, quarters]
    rw [if_neg hin]
    rfl

theorem parse_fits {w h : Nat} (hw : 8 ∣ w) (hh : 8 ∣ h) (split : Nat → Nat → Nat → Bool) :
    ∀ k x y, 2 ^ (k + 3) ∣ x → 2 ^ (k + 3) ∣ y → x < w → y < h →
      ∀ c ∈ parse w h split k x y, Fits w h (k + 3) x y c := by
  intro k
  induction k with
  | zero =>
    intro x y hx hy h1 h2 c hc
    simp only [parse, List.mem_singleton] at hc
    subst hc
    simp only [Nat.zero_add, show (2 : Nat) ^ 3 = 8 from rfl] at hx hy
    constructor <;> simp only [show (2 : Nat) ^ 3 = 8 from rfl, Nat.zero_add] <;> first | omega | assumption
  | succ k ih =>
    intro x y hx hy h1 h2 c hc
    have e : (2 : Nat) ^ (k + 1 + 3) = 2 * 2 ^ (k + 3) := by rw [Nat.pow_succ]; ring
    rcases parse_cases w h split k x y with ⟨hq, hin⟩ | hq
    · rw [hq, List.mem_singleton] at hc
      subst hc
      exact ⟨by dsimp only; omega, by dsimp only; omega, hx, hy, Nat.le_refl _, Nat.le_refl _, Nat.le_refl _,
        Nat.le_refl _, hin.1, hin.2⟩
    · rw [hq, quarters, List.mem_flatMap] at hc
      obtain ⟨i, hi, hc⟩ := hc
      rw [List.mem_range] at hi
      split at hc
      · rename_i hin
        rw [e] at hx hy
        have f := ih _ _ (child_dvd hx) (child_dvd hy) hin.1 hin.2 c hc
        have := Nat.two_pow_pos (k + 3)
        have b1 : (i % 2) * 2 ^ (k + 3) ≤ 1 * 2 ^ (k + 3) := Nat.mul_le_mul_right _ (by omega)
        have b2 : (i / 2) * 2 ^ (k + 3) ≤ 1 * 2 ^ (k + 3) := Nat.mul_le_mul_right _ (by omega)
        obtain ⟨f1, f2, f3, f4, f5, f6, f7, f8, f9, f10⟩ := f
        refine ⟨f1, by omega, f3, f4, by omega, ?_, by omega, ?_, f9, f10⟩ <;> omega
      · simp at hc

theorem parse_cover {w h : Nat} (split : Nat → Nat → Nat → Bool) :
    ∀ k x y, ∀ px py, x ≤ px → px < x + 2 ^ (k + 3) → y ≤ py → py < y + 2 ^ (k + 3) → px < w → py < h →
      ∃ c ∈ parse w h split k x y, c.has px py := by
  intro k
  induction k with
  | zero =>
    intro x y px py h1 h2 h3 h4 _ _
    exact ⟨⟨x, y, 3⟩, by simp [parse], h1, h2, h3, h4⟩
  | succ k ih =>
    intro x y px py h1 h2 h3 h4 h5 h6
    have e : (2 : Nat) ^ (k + 1 + 3) = 2 * 2 ^ (k + 3) := by rw [Nat.pow_succ]; ring
    rcases parse_cases w h split k x y with ⟨hq, hin⟩ | hq
    · rw [hq]
      exact ⟨⟨x, y, k + 4⟩, by simp, h1, h2, h3, h4⟩
    · rw [hq]
      have pick : ∃ i < 4, x + (i % 2) * 2 ^ (k + 3) ≤ px ∧ px < x + (i % 2) * 2 ^ (k + 3) + 2 ^ (k + 3) ∧
          y + (i / 2) * 2 ^ (k + 3) ≤ py ∧ py < y + (i / 2) * 2 ^ (k + 3) + 2 ^ (k + 3) := by
        by_cases a : px < x + 2 ^ (k + 3) <;> by_cases b : py < y + 2 ^ (k + 3)
        · exact ⟨0, by omega, by norm_num; omega⟩
        · exact ⟨2, by omega, by norm_num; omega⟩
        · exact ⟨1, by omega, by norm_num; omega⟩
        · exact ⟨3, by omega, by norm_num; omega⟩
      obtain ⟨i, hi, p1, p2, p3, p4⟩ := pick
      obtain ⟨c, hc, hh⟩ := ih _ _ px py p1 p2 p3 p4 h5 h6
      refine ⟨c, ?_, hh⟩
      rw [quarters, List.mem_flatMap]
      refine ⟨i, List.mem_range.mpr hi, ?_⟩
      rw [if_pos ⟨by omega, by omega⟩]
      exact hc

/-- Order of two coding units: all points of the first come before all points of the second. -/
def Before (l : Nat) (c d : Cu) : Prop :=
  ∀ px py qx qy, c.has px py → d.has qx qy → zOrder l px py < zOrder l qx qy

theorem child_bit {x S b p : Nat} (hS : 0 < S) (h : 2 * S ∣ x) (hb : b < 2) (h1 : x + b * S ≤ p) (h2 : p < x + b * S + S) :
    p / S % 2 = b := by
  obtain ⟨a, rfl⟩ := h
  have : p / S = 2 * a + b := by
    apply Nat.div_eq_of_lt_le
    · calc (2 * a + b) * S = 2 * S * a + b * S := by ring
        _ ≤ p := h1
    · calc p < 2 * S * a + b * S + S := h2
        _ = (2 * a + b + 1) * S := by ring
  omega

theorem child_z {k x y i px py : Nat} (hx : 2 ^ (k + 4) ∣ x) (hy : 2 ^ (k + 4) ∣ y) (hi : i < 4)
    (h1 : x + (i % 2) * 2 ^ (k + 3) ≤ px) (h2 : px < x + (i % 2) * 2 ^ (k + 3) + 2 ^ (k + 3))
    (h3 : y + (i / 2) * 2 ^ (k + 3) ≤ py) (h4 : py < y + (i / 2) * 2 ^ (k + 3) + 2 ^ (k + 3)) :
    zOrder (k + 4) px py = 4 ^ (k + 3) * i + zOrder (k + 3) px py := by
  have e : (2 : Nat) ^ (k + 4) = 2 * 2 ^ (k + 3) := by rw [Nat.pow_succ]; ring
  rw [e] at hx hy
  have hp := Nat.two_pow_pos (k + 3)
  simp only [zOrder]
  rw [child_bit hp hx (by omega) h1 h2, child_bit hp hy (by omega) h3 h4]
  congr 2
  omega

theorem parse_before {w h : Nat} (hw : 8 ∣ w) (hh : 8 ∣ h) (split : Nat → Nat → Nat → Bool) :
    ∀ k x y, 2 ^ (k + 3) ∣ x → 2 ^ (k + 3) ∣ y → x < w → y < h →
      (parse w h split k x y).Pairwise (Before (k + 3)) := by
  intro k
  induction k with
  | zero => intro x y _ _ _ _; simp [parse]
  | succ k ih =>
    intro x y hx hy h1 h2
    have e : (2 : Nat) ^ (k + 1 + 3) = 2 * 2 ^ (k + 3) := by rw [Nat.pow_succ]; ring
    rcases parse_cases w h split k x y with ⟨hq, hin⟩ | hq
    · rw [hq]
      exact List.pairwise_singleton _ _
    · rw [hq]
      have child : ∀ i < 4, ∀ c, c ∈ (if x + i % 2 * 2 ^ (k + 3) < w ∧ y + i / 2 * 2 ^ (k + 3) < h then
          parse w h split k (x + i % 2 * 2 ^ (k + 3)) (y + i / 2 * 2 ^ (k + 3)) else []) →
          ∀ px py, c.has px py → zOrder (k + 4) px py = 4 ^ (k + 3) * i + zOrder (k + 3) px py := by
        intro i hi c hc px py hp
        split at hc
        · rename_i hin
          have hx' := hx
          have hy' := hy
          rw [e] at hx' hy'
          obtain ⟨f1, f2, f3, f4, f5, f6, f7, f8, f9, f10⟩ :=
            parse_fits hw hh split k _ _ (child_dvd hx') (child_dvd hy') hin.1 hin.2 c hc
          obtain ⟨p1, p2, p3, p4⟩ := hp
          exact child_z hx hy hi (by omega) (by omega) (by omega) (by omega)
        · simp at hc
      rw [quarters, List.pairwise_flatMap]
      refine ⟨?_, ?_⟩
      · intro i hi
        rw [List.mem_range] at hi
        split
        · rename_i hin
          have hx' := hx
          have hy' := hy
          rw [e] at hx' hy'
          refine List.Pairwise.imp_of_mem ?_ (ih _ _ (child_dvd hx') (child_dvd hy') hin.1 hin.2)
          intro c d hc hd hcd px py qx qy hp hq
          have hc' := child i hi c (by rw [if_pos hin]; exact hc) px py hp
          have hd' := child i hi d (by rw [if_pos hin]; exact hd) qx qy hq
          have := hcd px py qx qy hp hq
          show zOrder (k + 4) px py < zOrder (k + 4) qx qy
          omega
        · exact List.Pairwise.nil
      · refine List.Pairwise.imp_of_mem ?_ (List.pairwise_lt_range (n := 4))
        intro i j hi hj hij c hc d hd px py qx qy hp hq
        rw [List.mem_range] at hi hj
        have hc' := child i hi c hc px py hp
        have hd' := child j hj d hd qx qy hq
        have z1 := z_lt (k + 3) px py
        have m : 4 ^ (k + 3) * (i + 1) ≤ 4 ^ (k + 3) * j := Nat.mul_le_mul_left _ hij
        rw [Nat.mul_add] at m
        show zOrder (k + 4) px py < zOrder (k + 4) qx qy
        omega

/-- Coding units of a tree have no point in common. -/
def Disj (c d : Cu) : Prop := ∀ px py, c.has px py → ¬ d.has px py

theorem disj_of_before {l : Nat} {c d : Cu} (h : Before l c d) : Disj c d := fun px py h1 h2 =>
  absurd (h px py px py h1 h2) (Nat.lt_irrefl _)

end Davs2.Qt
