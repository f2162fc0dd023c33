import Verif.Model.Transform
import Verif.Spec.Transform
import Mathlib.Algebra.Order.Ring.Abs
import Mathlib.Algebra.BigOperators.Group.List.Basic
import Mathlib.Algebra.BigOperators.Intervals
import Mathlib.Tactic.Ring
import Mathlib.Tactic.Linarith
/-
Evaluation of the butterflies with bounds: values exist (no overflow) and are known.
-/
namespace Davs2.Tr
open Spec Finset

/-- `x` has the value `v`, of magnitude at most `B`. -/
def Ev (x : Option Int) (v B : Int) : Prop := x = some v ∧ |v| ≤ B

theorem Ev.mono {x : Option Int} {v B C : Int} (h : Ev x v B) (hBC : B ≤ C) : Ev x v C := ⟨h.1, h.2.trans hBC⟩

theorem i32_of_abs {v B : Int} (h : |v| ≤ B) (hB : B < 2 ^ 31) : i32 v = some v := by
  obtain ⟨h1, h2⟩ := abs_le.mp h
  unfold i32; rw [if_pos ⟨by omega, by omega⟩]

theorem ev_add {x y : Option Int} {v w B C : Int} (hx : Ev x v B) (hy : Ev y w C) (h : B + C < 2 ^ 31) :
    Ev (add32 x y) (v + w) (B + C) := by
  have hb : |v + w| ≤ B + C := (abs_add_le v w).trans (add_le_add hx.2 hy.2)
  refine ⟨?_, hb⟩
  unfold add32
  rw [hx.1, hy.1]
  exact i32_of_abs hb h

theorem ev_sub {x y : Option Int} {v w B C : Int} (hx : Ev x v B) (hy : Ev y w C) (h : B + C < 2 ^ 31) :
    Ev (subO32 x y) (v - w) (B + C) := by
  have hb : |v - w| ≤ B + C := (abs_sub v w).trans (add_le_add hx.2 hy.2)
  refine ⟨?_, hb⟩
  unfold subO32
  rw [hx.1, hy.1]
  exact i32_of_abs hb h

theorem ev_mul {c M : Int} {y : Option Int} {w C : Int} (hc : |c| ≤ M) (hy : Ev y w C) (h : M * C < 2 ^ 31) :
    Ev (mul32 c y) (c * w) (M * C) := by
  have hb : |c * w| ≤ M * C := by
    rw [abs_mul]; exact mul_le_mul hc hy.2 (abs_nonneg w) ((abs_nonneg c).trans hc)
  refine ⟨?_, hb⟩
  unfold mul32
  rw [hy.1]
  exact i32_of_abs hb h

theorem ev_dot {t : Nat → Int} {s : Buf} {f : Nat → Int} {M C : Int} (hMC : 0 ≤ M * C) :
    ∀ (is : List Nat) (acc : Option Int) (a B : Int), Ev acc a B → (∀ i ∈ is, |t i| ≤ M ∧ Ev (s i) (f i) C) →
      B + is.length * (M * C) < 2 ^ 31 → 0 ≤ B →
      Ev (dot t s acc is) (a + (is.map fun i => t i * f i).sum) (B + is.length * (M * C))
  | [], acc, a, B, ha, _, _, _ => by simpa [dot] using ha
  | i :: is, acc, a, B, ha, hi, hB, h0 => by
    obtain ⟨h1, h2⟩ := hi i (by simp)
    have hl : B + (M * C) + is.length * (M * C) < 2 ^ 31 := by
      have : ((i :: is).length : Int) * (M * C) = M * C + is.length * (M * C) := by
        rw [List.length_cons, Nat.cast_add, add_mul]; ring
      omega
    have hn : 0 ≤ (is.length : Int) * (M * C) := mul_nonneg (by omega) hMC
    have e := ev_add ha (ev_mul h1 h2 (by omega)) (by omega)
    have r := ev_dot hMC is _ _ _ e (fun j hj => hi j (by simp [hj])) hl (by omega)
    unfold dot
    have g1 : a + ((i :: is).map fun i => t i * f i).sum = a + t i * f i + (is.map fun i => t i * f i).sum := by
      simp [add_assoc]
    have g2 : B + ((i :: is).length : Int) * (M * C) = B + M * C + is.length * (M * C) := by
      rw [List.length_cons, Nat.cast_add, add_mul]; simp; ring
    rw [g1, g2]; exact r

/-- The sum over rows `L` at position `k`. -/
def lsum (t : List (List Int)) (f : Nat → Int) (L : List Nat) (k : Nat) : Int := (L.map fun i => tab t i k * f i).sum

theorem ev_part {t : List (List Int)} {s : Buf} {f : Nat → Int} {L : List Nat} {k : Nat}
    (hL : L.length ≤ 32) (ht : ∀ i ∈ L, |tab t i k| ≤ 45) (hs : ∀ i ∈ L, Ev (s i) (f i) 32768) :
    Ev (part t s L k) (lsum t f L k) (L.length * 1474560) := by
  have := ev_dot (t := fun i => tab t i k) (s := s) (f := f) (M := 45) (C := 32768) (by norm_num) L (some 0) 0 0
    ⟨rfl, by simp⟩ (fun i hi => ⟨ht i hi, hs i hi⟩) (by omega) (le_refl _)
  simpa [part, lsum] using this

theorem ev_combine {t : List (List Int)} {f : Nat → Int} {Le Lo : List Nat} {n : Nat} {e o : Nat → Option Int}
    {Be Bo : Int} (he : ∀ k < n, Ev (e k) (lsum t f Le k) Be) (ho : ∀ k < n, Ev (o k) (lsum t f Lo k) Bo)
    (hs : ∀ k < n, (∀ i ∈ Le, tab t i (2 * n - 1 - k) = tab t i k) ∧ ∀ i ∈ Lo, tab t i (2 * n - 1 - k) = -tab t i k)
    (hB : Be + Bo < 2 ^ 31) : ∀ k < 2 * n, Ev (combine n e o k) (lsum t f (Le ++ Lo) k) (Be + Bo) := by
  intro k hk
  unfold combine
  have happ : ∀ k, lsum t f (Le ++ Lo) k = lsum t f Le k + lsum t f Lo k := by
    intro k; simp [lsum]
  split
  · rw [happ]; exact ev_add (he k ‹_›) (ho k ‹_›) hB
  · obtain ⟨h1, h2⟩ := hs (2 * n - 1 - k) (by omega)
    rw [show 2 * n - 1 - (2 * n - 1 - k) = k by omega] at h1 h2
    have e1 : lsum t f Le k = lsum t f Le (2 * n - 1 - k) := by
      unfold lsum; congr 1; apply List.map_congr_left; intro i hi; rw [h1 i hi]
    have e2 : lsum t f Lo k = -lsum t f Lo (2 * n - 1 - k) := by
      unfold lsum
      clear ho hs he h1 e1 happ
      induction Lo with
      | nil => simp
      | cons i Lo ih =>
        simp only [List.map_cons, List.sum_cons]
        rw [ih (fun j hj => h2 j (by simp [hj])), h2 i (by simp)]; ring
    rw [happ, e1, e2, ← sub_eq_add_neg]
    exact ev_sub (he _ (by omega)) (ho _ (by omega)) hB

theorem lsum_perm {t : List (List Int)} {f : Nat → Int} {L : List Nat} {n k : Nat} (h : L.Perm (List.range n))
    (ht : ∀ i < n, tab t i k = dctMat n i k) : lsum t f L k = ∑ i ∈ range n, dctMat n i k * f i := by
  have h1 : lsum t f L k = ((List.range n).map fun i => tab t i k * f i).sum := by
    unfold lsum; exact (h.map _).sum_eq
  rw [h1]
  have : ∀ m ≤ n, ((List.range m).map fun i => tab t i k * f i).sum = ∑ i ∈ range m, dctMat n i k * f i := by
    intro m
    induction m with
    | zero => intro _; simp
    | succ m ih =>
      intro hm
      rw [List.range_succ, List.map_append, List.sum_append, ih (by omega), Finset.sum_range_succ]
      simp [ht m (by omega)]
  exact this n (le_refl n)

theorem gT4_eq : ∀ i < 4, ∀ k < 4, tab gT4 i k = dctMat 4 i k := by decide +kernel
theorem gT8_eq : ∀ i < 8, ∀ k < 8, tab gT8 i k = dctMat 8 i k := by decide +kernel
theorem gT16_eq : ∀ i < 16, ∀ k < 16, tab gT16 i k = dctMat 16 i k := by decide +kernel
theorem gT32_eq : ∀ i < 32, ∀ k < 32, tab gT32 i k = dctMat 32 i k := by decide +kernel

theorem gT4_le : ∀ i < 4, ∀ k < 4, |tab gT4 i k| ≤ 45 := by decide +kernel
theorem gT8_le : ∀ i < 8, ∀ k < 8, |tab gT8 i k| ≤ 45 := by decide +kernel
theorem gT16_le : ∀ i < 16, ∀ k < 16, |tab gT16 i k| ≤ 45 := by decide +kernel
theorem gT32_le : ∀ i < 32, ∀ k < 32, |tab gT32 i k| ≤ 45 := by decide +kernel

theorem bf4_ev {s : Buf} {f : Nat → Int} (hs : ∀ i < 4, Ev (s i) (f i) 32768) :
    ∀ k < 4, Ev (bf4 s k) (∑ i ∈ range 4, dctMat 4 i k * f i) (4 * 1474560) := by
  intro k hk
  have hp : ∀ L : List Nat, (∀ i ∈ L, i < 4) → L.length ≤ 32 → ∀ k < 4,
      Ev (part gT4 s L k) (lsum gT4 f L k) (L.length * 1474560) := fun L hL hl k hk =>
    ev_part hl (fun i hi => gT4_le i (hL i hi) k hk) (fun i hi => hs i (hL i hi))
  have := ev_combine (n := 2) (fun k hk => hp [0, 2] (by decide) (by decide) k (by omega))
    (fun k hk => hp [1, 3] (by decide) (by decide) k (by omega)) (by decide +kernel) (by decide) k hk
  rw [lsum_perm (n := 4) (by decide) (fun i hi => gT4_eq i hi k hk)] at this
  exact this

theorem bf8_ev {s : Buf} {f : Nat → Int} (hs : ∀ i < 8, Ev (s i) (f i) 32768) :
    ∀ k < 8, Ev (bf8 s k) (∑ i ∈ range 8, dctMat 8 i k * f i) (8 * 1474560) := by
  intro k hk
  have hp : ∀ L : List Nat, (∀ i ∈ L, i < 8) → L.length ≤ 32 → ∀ k < 8,
      Ev (part gT8 s L k) (lsum gT8 f L k) (L.length * 1474560) := fun L hL hl k hk =>
    ev_part hl (fun i hi => gT8_le i (hL i hi) k hk) (fun i hi => hs i (hL i hi))
  have h1 := ev_combine (n := 2) (fun k hk => hp [0, 4] (by decide) (by decide) k (by omega))
    (fun k hk => hp [2, 6] (by decide) (by decide) k (by omega)) (by decide +kernel) (by decide)
  have := ev_combine (n := 4) h1
    (fun k hk => hp [1, 3, 5, 7] (by decide) (by decide) k (by omega)) (by decide +kernel) (by decide) k hk
  rw [lsum_perm (n := 8) (by decide) (fun i hi => gT8_eq i hi k hk)] at this
  exact this

theorem bf16_ev {s : Buf} {f : Nat → Int} (hs : ∀ i < 16, Ev (s i) (f i) 32768) :
    ∀ k < 16, Ev (bf16 s k) (∑ i ∈ range 16, dctMat 16 i k * f i) (16 * 1474560) := by
  intro k hk
  have hp : ∀ L : List Nat, (∀ i ∈ L, i < 16) → L.length ≤ 32 → ∀ k < 16,
      Ev (part gT16 s L k) (lsum gT16 f L k) (L.length * 1474560) := fun L hL hl k hk =>
    ev_part hl (fun i hi => gT16_le i (hL i hi) k hk) (fun i hi => hs i (hL i hi))
  have h1 := ev_combine (n := 2) (fun k hk => hp [0, 8] (by decide) (by decide) k (by omega))
    (fun k hk => hp [4, 12] (by decide) (by decide) k (by omega)) (by decide +kernel) (by decide)
  have h2 := ev_combine (n := 4) h1
    (fun k hk => hp [2, 6, 10, 14] (by decide) (by decide) k (by omega)) (by decide +kernel) (by decide)
  have := ev_combine (n := 8) h2
    (fun k hk => hp [1, 3, 5, 7, 9, 11, 13, 15] (by decide) (by decide) k (by omega)) (by decide +kernel) (by decide) k hk
  rw [lsum_perm (n := 16) (by decide) (fun i hi => gT16_eq i hi k hk)] at this
  exact this

theorem bf32_ev {s : Buf} {f : Nat → Int} (hs : ∀ i < 32, Ev (s i) (f i) 32768) :
    ∀ k < 32, Ev (bf32 s k) (∑ i ∈ range 32, dctMat 32 i k * f i) (32 * 1474560) := by
  intro k hk
  have hp : ∀ L : List Nat, (∀ i ∈ L, i < 32) → L.length ≤ 32 → ∀ k < 32,
      Ev (part gT32 s L k) (lsum gT32 f L k) (L.length * 1474560) := fun L hL hl k hk =>
    ev_part hl (fun i hi => gT32_le i (hL i hi) k hk) (fun i hi => hs i (hL i hi))
  have h1 := ev_combine (n := 2) (fun k hk => hp [0, 16] (by decide) (by decide) k (by omega))
    (fun k hk => hp [8, 24] (by decide) (by decide) k (by omega)) (by decide +kernel) (by decide)
  have h2 := ev_combine (n := 4) h1
    (fun k hk => hp [4, 12, 20, 28] (by decide) (by decide) k (by omega)) (by decide +kernel) (by decide)
  have h3 := ev_combine (n := 8) h2
    (fun k hk => hp [2, 6, 10, 14, 18, 22, 26, 30] (by decide) (by decide) k (by omega)) (by decide +kernel) (by decide)
  have := ev_combine (n := 16) h3
    (fun k hk => hp [1, 3, 5, 7, 9, 11, 13, 15, 17, 19, 21, 23, 25, 27, 29, 31] (by decide) (by decide) k (by omega))
    (by decide +kernel) (by decide) k hk
  rw [lsum_perm (n := 32) (by decide) (fun i hi => gT32_eq i hi k hk)] at this
  exact this

end Davs2.Tr
