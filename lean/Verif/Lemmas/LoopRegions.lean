import Verif.Model.LoopRows
import Mathlib.Tactic.Linarith
import Mathlib.Tactic.Ring
/-
Lemmas on the regions of the in-loop filters.
-/
namespace Davs2.Lr
open Davs2.Sa (Plane Avail)

theorem trees_bounds {S L : Nat} (hL : 0 < L) (hS : 0 < S) :
    0 < trees S L ∧ (trees S L - 1) * L < S ∧ S ≤ trees S L * L := by
  unfold trees
  have h1 := Nat.div_mul_le_self (S + L - 1) L
  have h2 := Nat.lt_div_mul_add (a := S + L - 1) hL
  have h3 : 0 < (S + L - 1) / L := Nat.div_pos (by omega) hL
  refine ⟨h3, ?_, by omega⟩
  rw [Nat.sub_mul, Nat.one_mul]
  have : L ≤ (S + L - 1) / L * L := Nat.le_mul_of_pos_left _ h3
  omega

/-- `i < trees` in terms of positions. -/
theorem lt_trees {S L : Nat} (hL : 0 < L) (hS : 0 < S) (i : Nat) : i < trees S L ↔ (i * L : Int) < S := by
  obtain ⟨h0, h1, h2⟩ := trees_bounds hL hS
  constructor
  · intro h
    have : i * L ≤ (trees S L - 1) * L := Nat.mul_le_mul_right _ (by omega)
    have : i * L < S := by omega
    exact_mod_cast this
  · intro h
    have h' : i * L < S := by exact_mod_cast h
    by_contra c
    have : trees S L * L ≤ i * L := Nat.mul_le_mul_right _ (by omega)
    omega

/-- First sample of tree `i` after the shift. -/
def start (L : Nat) (before : Bool) (i : Nat) : Int := i * L - (if before then 4 else 0)

/-- End of tree `i` after the shift. -/
def stop (S L : Nat) (after : Bool) (i : Nat) : Int := if after then (i + 1) * L - 4 else min (S : Int) ((i + 1) * L)

theorem region_eq {S L i : Nat} {b a : Bool} (hL : 8 ≤ L) (hi : (i * L : Int) < S) (ha : a = true → ((i + 1) * L : Int) < S) :
    Sa.region S L i b a = (start L b i, stop S L a i - start L b i) := by
  unfold Sa.region start stop
  have e : ((i : Int) + 1) * L = i * L + L := by ring
  rw [e] at ha ⊢
  generalize (i : Int) * L = K at *
  cases a <;> cases b <;> simp at ha ⊢ <;> omega

/-- Exactly one of the intervals between increasing cuts holds a given point. -/
theorem cut_unique (cut : Nat → Int) (n : Nat) (mono : ∀ i, i < n → cut i < cut (i + 1)) (x : Int) (h0 : cut 0 ≤ x) (h1 : x < cut n) :
    ∃ i, i < n ∧ cut i ≤ x ∧ x < cut (i + 1) := by
  induction n with
  | zero => omega
  | succ n ih =>
    by_cases h : cut n ≤ x
    · exact ⟨n, by omega, h, h1⟩
    · obtain ⟨i, h2, h3⟩ := ih (fun i hi => mono i (by omega)) (by omega)
      exact ⟨i, by omega, h3⟩

theorem cut_mono (cut : Nat → Int) (n : Nat) (mono : ∀ i, i < n → cut i < cut (i + 1)) {i k : Nat} (h : i ≤ k) (hk : k ≤ n) : cut i ≤ cut k := by
  induction k with
  | zero => rw [show i = 0 by omega]
  | succ k ih =>
    rcases Nat.lt_or_ge i (k + 1) with h' | h'
    · have := ih (by omega) (by omega)
      have := mono k (by omega)
      omega
    · rw [show i = k + 1 by omega]

/-- One axis: intervals from `start` to `stop` with matching flags meet every sample exactly once. -/
theorem axis {S L : Nat} (hL : 8 ≤ L) (hS : 0 < S) (h4 : 4 ∣ S) (h4L : 4 ∣ L) (before after : Nat → Bool) (hb0 : before 0 = false)
    (hlast : after (trees S L - 1) = false) (hm : ∀ i, i + 1 < trees S L → after i = before (i + 1)) (x : Int) (h0 : 0 ≤ x) (h1 : x < S) :
    ∃ i, i < trees S L ∧ (start L (before i) i ≤ x ∧ x < stop S L (after i) i) ∧
      ∀ k, k < trees S L → start L (before k) k ≤ x → x < stop S L (after k) k → k = i := by
  obtain ⟨t0, t1, t2⟩ := trees_bounds (S := S) (L := L) (by omega) hS
  generalize hn : trees S L = n at *
  have st : ∀ i, i < n → start L (before i) i = (if i = 0 then 0 else start L (before i) i) := by
    intro i _
    split
    · rename_i e; subst e; unfold start; rw [hb0]; simp
    · rfl
  let cut : Nat → Int := fun i => if i < n then start L (before i) i else S
  have c0 : ∀ i, i < n → cut i = start L (before i) i := fun i h => if_pos h
  have c1 : ∀ i, i < n → cut (i + 1) = stop S L (after i) i := by
    intro i h
    by_cases hl : i + 1 < n
    · rw [c0 _ hl, hm i hl]
      have : (i + 1) * L ≤ (n - 1) * L := Nat.mul_le_mul_right _ (by omega)
      unfold start stop
      have h5 : ((i + 1) * L : Int) < S := by
        have : (i + 1) * L < S := by omega
        exact_mod_cast this
      push_cast
      cases before (i + 1) <;> simp <;> omega
    · have : i = n - 1 := by omega
      subst this
      rw [hlast]
      show (if n - 1 + 1 < n then _ else (S : Int)) = _
      rw [if_neg (by omega)]
      unfold stop
      have : S ≤ (n - 1 + 1) * L := by rw [Nat.sub_add_cancel t0]; exact t2
      have : (S : Int) ≤ ((n - 1 : Nat) + 1) * L := by exact_mod_cast this
      simp only [Bool.false_eq_true, if_false]
      omega
  have mono : ∀ i, i < n → cut i < cut (i + 1) := by
    intro i h
    rw [c1 i h, c0 i h]
    have hiS : i * L < S := by
      have : i * L ≤ (n - 1) * L := Nat.mul_le_mul_right _ (by omega)
      omega
    unfold start stop
    have hiS' : (i * L : Int) < S := by exact_mod_cast hiS
    have e : ((i : Int) + 1) * L = i * L + L := by ring
    rw [e]
    by_cases hl : i + 1 < n
    · generalize (i : Int) * L = K at *
      cases before i <;> cases after i <;> simp <;> omega
    · have : i = n - 1 := by omega
      have ha : after i = false := by rw [this]; exact hlast
      rw [ha]
      generalize (i : Int) * L = K at *
      cases before i <;> simp <;> omega
  have hcn : cut n = S := if_neg (by omega)
  have hc0 : cut 0 = 0 := by rw [c0 0 t0]; unfold start; rw [hb0]; simp
  obtain ⟨i, h2, h3, h4'⟩ := cut_unique cut n mono x (by omega) (by omega)
  refine ⟨i, h2, ⟨by rw [← c0 i h2]; exact h3, by rw [← c1 i h2]; exact h4'⟩, ?_⟩
  intro k hk a1 a2
  rw [← c0 k hk] at a1
  rw [← c1 k hk] at a2
  rcases Nat.lt_trichotomy k i with h | h | h
  · have := cut_mono cut n mono (i := k + 1) (k := i) (by omega) (by omega); omega
  · exact h
  · have := cut_mono cut n mono (i := i + 1) (k := k) (by omega) (by omega); omega

end Davs2.Lr
