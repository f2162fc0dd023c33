import Verif.Lemmas.VpStmt
import Verif.Model.Intra
import Mathlib.Tactic.IntervalCases
/-
What the check of Lemmas/VpSym says: a routine that passes writes the defined prediction, whatever the border.
-/
namespace Davs2.Vp.Sym

open Vc (V)
open Finset

/-! ### Cells with known digits -/

section
variable {σ : Nat → Nat} {W : Nat}

theorem dig_pow (n k : Nat) : dig (2 ^ (16 * n)) k = if k = n then 1 else 0 := by
  have h := dig_shl 1 n k
  rw [Nat.one_mul, ← pow16] at h
  rw [h, dig_small (by decide)]
  split_ifs <;> first | rfl | omega

/-- A cell with the single coefficient of sample `i`. -/
theorem num_pow {i : Nat} (hi : i + 3 < W) : num σ W (2 ^ (16 * (3 + i))) 0 = σ i := by
  unfold num
  rw [dig_pow, if_neg (by omega), Nat.zero_add, Finset.sum_eq_single i]
  · rw [dig_pow, if_pos (by omega), Nat.one_mul]
  · intro j _ hj; rw [dig_pow, if_neg (by omega), Nat.zero_mul]
  · intro hm; exact absurd (Finset.mem_range.mpr (by omega)) hm

theorem dig_65600 (k : Nat) : dig 65600 k = if k = 0 then 64 else if k = 1 then 1 else 0 := by
  cases k with
  | zero => rfl
  | succ k => rw [dig_succ, show 65600 / 65536 = 1 from rfl, dig_small (by decide)]; simp

theorem num_65600 : num σ W 65600 0 = 64 := by
  unfold num
  rw [dig_65600, if_pos (by omega), Finset.sum_eq_zero fun i _ => ?_]
  · rfl
  · rw [dig_65600, if_neg (by omega), if_neg (by omega), Nat.zero_mul]

theorem cl_lt (S N k : Nat) : cl S N k < 2 ^ S := by unfold cl; rw [low_eq]; exact Nat.mod_lt _ (Nat.two_pow_pos S)

theorem pow_lt_dig {i : Nat} (h : 2 ^ (16 * i) < 2 ^ (16 * W)) : i < W := by
  have := (Nat.pow_lt_pow_iff_right (by decide : 1 < 2)).mp h; omega

theorem okCell_ok (hW : 3 < W) {c e : Nat} (hc : c < 2 ^ (16 * W)) (h : okCell c e = true) (hu : Ut W e 0) : Ut W c 0 ∧ cv σ W c 0 = cv σ W e 0 := by
  simp only [okCell] at h
  rw [brec] at h
  by_cases h1 : Nat.beq c e = true
  · rw [Nat.beq_eq] at h1; subst h1; exact ⟨hu, rfl⟩
  · rw [if_neg h1, brec] at h
    generalize Nat.div (Nat.log2 c) 16 = k at h
    by_cases h2 : Nat.ble 3 k = true
    · rw [if_pos h2, brec] at h
      by_cases h3 : Nat.beq c (Nat.pow 2 (Nat.mul 16 k)) = true
      · rw [if_pos h3] at h
        rw [Nat.beq_eq] at h h3
        rw [Nat.ble_eq] at h2
        simp only [npow, nmul, nadd] at h h3
        obtain ⟨i, rfl⟩ : ∃ i, k = 3 + i := ⟨k - 3, by omega⟩
        have hi : i + 3 < W := by rw [h3] at hc; have := pow_lt_dig hc; omega
        have d : ∀ n, dig c n * 128 + dig 65600 n < 65536 := fun n => by
          rw [h3, dig_pow, dig_65600]; split_ifs <;> omega
        have d1 : ∀ n, dig c n * 128 < 65536 := fun n => by have := d n; omega
        have d2 : ∀ n, dig (c * 128) n + dig 65600 n < 65536 := fun n => by rw [dig_mul d1]; exact d n
        have hn : num σ W e 0 = σ i * 128 + 64 := by
          rw [h, num_add d2, num_mul d1, num_65600, h3, num_pow hi]
        have hf : dig e (W * 0 + 1) = 1 := by
          rw [h, dig_add d2, dig_mul d1, h3, dig_pow, dig_65600, if_neg (by omega), if_neg (by omega), if_pos (by omega)]
        have hg : dig c (W * 0 + 1) = 0 := by rw [h3, dig_pow, if_neg (by omega)]
        refine ⟨?_, ?_⟩
        · unfold Ut; rw [h3, dig_pow, if_neg (by omega)]
        · unfold cv
          rw [hf, hg, if_pos rfl, if_neg (by omega), hn, h3, num_pow hi]
          omega
      · rw [if_neg h3] at h; exact absurd h (by simp)
    · rw [if_neg h2] at h; exact absurd h (by simp)

theorem cellsOk_ok {S c e : Nat} : ∀ n, cellsOk S c e n = true → ∀ j < n, okCell (cl S c j) (cl S e j) = true
  | 0, _, j, hj => absurd hj (by omega)
  | n + 1, h, j, hj => by
    replace h : Bool.rec (motive := fun _ => Bool) false (cellsOk S c e n) (okCell (cl S c n) (cl S e n)) = true := h
    rw [brec] at h
    by_cases h1 : okCell (cl S c n) (cl S e n) = true
    · rw [if_pos h1] at h
      by_cases hjn : j = n
      · subst hjn; exact h1
      · exact cellsOk_ok n h j (by omega)
    · rw [if_neg h1] at h; exact absurd h (by simp)

/-- The cells of a row agree with the expected ones. -/
theorem cells_ok (hW : 3 < W) {c e n : Nat} (h : Bool.rec (motive := fun _ => Bool) (cellsOk (16 * W) c e n) true (Nat.beq (md (16 * W) c n) e) = true)
    {j : Nat} (hj : j < n) (hu : Ut W e j) : Ut W c j ∧ cv σ W c j = cv σ W e j := by
  rw [brec] at h
  by_cases h1 : Nat.beq (md (16 * W) c n) e = true
  · rw [Nat.beq_eq] at h1
    have hs := same_md (W := W) (N := c) hj
    rw [h1] at hs
    exact ⟨(hs.ut hW).mp hu, (hs.cv hW).symm⟩
  · rw [if_neg h1] at h
    have s1 := same_cl (W := W) c j
    have s2 := same_cl (W := W) e j
    have := okCell_ok (σ := σ) hW (cl_lt _ _ _) (cellsOk_ok n h j hj) ((s2.ut hW).mpr hu)
    exact ⟨(s1.ut hW).mp this.1, by rw [← s1.cv hW, ← s2.cv hW]; exact this.2⟩

/-! ### Cells expected to be known -/

theorem dig_land (N M k : Nat) : dig (N &&& M) k = dig N k &&& dig M k := by
  unfold dig
  rw [← pow16, show 65536 = 2 ^ 16 from rfl]
  apply Nat.eq_of_testBit_eq
  intro i
  simp only [Nat.testBit_and, Nat.testBit_mod_two_pow, Nat.testBit_div_two_pow]
  by_cases hi : i < 16 <;> simp [hi]

theorem dig_unk (k : Nat) : dig 281470681743360 k = if k = 2 then 65535 else 0 := by
  cases k with
  | zero => rfl
  | succ k => cases k with
    | zero => rfl
    | succ k => rw [dig_succ, dig_succ, show 281470681743360 / 65536 / 65536 = 65535 from rfl, dig_small (by decide)]; simp

theorem unk_ok (hW : 3 < W) {e n : Nat} (h : Nat.beq (Nat.land e (unk (16 * W) n)) 0 = true) {j : Nat} (hj : j < n) : Ut W e j := by
  rw [Nat.beq_eq, nland] at h
  have hd := dig_land e (unk (16 * W) n) (W * j + 2)
  have hb := same_build (W := W) (f := fun _ => 281470681743360) hj 0 2 (by omega)
  rw [h, dig_zero, unk, hb, dig_unk, if_pos (by omega)] at hd
  have h2 := Nat.and_two_pow_sub_one_eq_mod (dig e (W * j + 2)) 16
  have := dig_lt e (W * j + 2)
  rw [show 2 ^ 16 - 1 = 65535 from rfl, ← hd] at h2
  unfold Ut; omega

/-! ### Forms -/

/-- The value of a list of terms at place `j`. -/
def ev (f : Nat → BitVec 8) (j : Nat) : List (Nat × Nat) → Nat
  | [] => 0
  | (c, o) :: l => c * (f (o + j)).toNat + ev f j l

def csum : List (Nat × Nat) → Nat
  | [] => 0
  | (c, _) :: l => c + csum l

theorem slice_ok (hW : 3 < W) {cs : T CK} {f : Nat → BitVec 8} (ha : RA σ W ⟨640, true, cs, 0⟩ (640, f)) {o n N : Nat} (h : slice (16 * W) cs o n = some N) :
    RB σ W true 64 N (fun j => if j < n then f (o + j) else 0) := by
  simp only [slice, orec] at h
  obtain ⟨r, hr, h⟩ := h
  have hq := sload_ok hW (a := ⟨640, true, cs, 0⟩) hr ha
  have hp : ∃ N', r = .b true 64 N' := by
    simp only [sload, brec1, orec] at hr
    obtain ⟨-, x, -, hr⟩ := hr
    rw [brec] at hr
    split at hr
    · exact ⟨_, mkB_eq hr⟩
    · rw [orec] at hr
      obtain ⟨y, -, hr⟩ := hr
      exact ⟨_, mkB_eq hr⟩
  obtain ⟨N', rfl⟩ := hp
  simp only [Option.some.injEq] at h
  subst h
  exact hq

theorem lin_ok (hW : 3 < W) {cs : T CK} {f : Nat → BitVec 8} (ha : RA σ W ⟨640, true, cs, 0⟩ (640, f)) {n : Nat} (hn : n ≤ 64) :
    ∀ {l : List (Nat × Nat)} {N : Nat}, lin (16 * W) cs n l = some N → csum l ≤ 60000 →
      (∀ k, dig N k ≤ csum l + 64) ∧ ∀ j < n, dig N (W * j + 1) = 1 ∧ (Ut W N j → num σ W N j = ev f j l + 64)
  | [], N, h, _ => by
    simp only [lin, Option.some.injEq] at h
    subst h
    refine ⟨fun k => dig_build_le (by omega) (fun _ k => ?_) k, fun j hj => ?_⟩
    · rw [dig_65600]; simp only [csum]; split_ifs <;> omega
    · have hs := same_build (W := W) (f := fun _ => 65600) hj 0
      refine ⟨?_, fun _ => ?_⟩
      · rw [hs 1 (by omega), dig_65600, if_neg (by omega), if_pos (by omega)]
      · rw [hs.num hW, num_65600]; simp [ev]
  | (c, o) :: l, N, h, hc => by
    simp only [lin, orec, frc_eq, nadd, nmul, Option.some.injEq] at h
    obtain ⟨x, hx, y, hy, rfl⟩ := h
    simp only [csum] at hc ⊢
    have hs := slice_ok hW ha hx
    obtain ⟨i1, i2⟩ := lin_ok hW ha hn hy (by omega)
    have b1 : ∀ k, dig x k * c ≤ c := fun k => by
      have := Nat.mul_le_mul_right c (hs.one rfl k); omega
    have d1 : ∀ k, dig x k * c < 65536 := fun k => by have := b1 k; omega
    have d2 : ∀ k, dig (x * c) k + dig y k < 65536 := fun k => by
      rw [dig_mul d1]; have := b1 k; have := i1 k; omega
    refine ⟨fun k => ?_, fun j hj => ?_⟩
    · rw [dig_add d2, dig_mul d1]; have := b1 k; have := i1 k; omega
    · obtain ⟨f1, f2⟩ := i2 j hj
      refine ⟨?_, fun hu => ?_⟩
      · rw [dig_add d2, dig_mul d1, hs.flg rfl, f1]; omega
      · unfold Ut at hu
        rw [dig_add d2, dig_mul d1] at hu
        rw [num_add d2, num_mul d1, f2 (by unfold Ut; omega)]
        simp only [ev]
        have hm : dig x (W * j + 2) * c = 0 := by omega
        rcases Nat.mul_eq_zero.mp hm with hm | hm
        · have hv := hs.val j (by omega) hm
          rw [cv, if_pos (hs.flg rfl j), if_pos hj] at hv
          rw [hv, Nat.mul_comm c]; omega
        · rw [hm]; omega

theorem lin_cv (hW : 3 < W) {cs : T CK} {f : Nat → BitVec 8} (ha : RA σ W ⟨640, true, cs, 0⟩ (640, f)) {n N j : Nat} {l : List (Nat × Nat)} (hn : n ≤ 64)
    (hl : csum l ≤ 60000) (h : lin (16 * W) cs n l = some N) (hj : j < n) (hu : Ut W N j) : cv σ W N j = (ev f j l + 64) / 128 := by
  obtain ⟨a, b⟩ := (lin_ok hW ha hn h hl).2 j hj
  rw [cv, a, if_neg (by omega), b hu]

theorem slice_cv (hW : 3 < W) {cs : T CK} {f : Nat → BitVec 8} (ha : RA σ W ⟨640, true, cs, 0⟩ (640, f)) {o n N j : Nat} (hn : n ≤ 64)
    (h : slice (16 * W) cs o n = some N) (hj : j < n) (hu : Ut W N j) : cv σ W N j = (f (o + j)).toNat := by
  have := (slice_ok hW ha h).val j (by omega) hu
  rw [← this, if_pos hj]

/-! ### The expected rows and columns -/

theorem columns_ok {w h mode : Nat} : ∀ {n x : Nat} {l : List FN}, columns w h mode n x = some l →
    ∀ i < n, ∃ c, l[i]? = some ⟨thr mode (x + i), c⟩ ∧ colF w h mode (x + i) = some c
  | 0, x, l, _, i, hi => absurd hi (by omega)
  | n + 1, x, l, h, i, hi => by
    simp only [columns, orec, frc_eq, Option.some.injEq] at h
    obtain ⟨c, hc, l', hl, rfl⟩ := h
    cases i with
    | zero => exact ⟨c, by simp, hc⟩
    | succ i =>
      obtain ⟨d, h1, h2⟩ := columns_ok hl i (by omega)
      rw [show x + 1 + i = x + (i + 1) by omega] at h1 h2
      exact ⟨d, by simpa using h1, h2⟩

theorem expect_ok {y row : Nat} : ∀ {cols : List FN} {x i : Nat} {c : FN}, cols[i]? = some c →
    Same W (expect (16 * W) y row cols x) i (if y + 1 ≤ c.a then cl (16 * W) row (x + i) else cl (16 * W) c.b y) 0
  | [], x, i, c, h => by simp at h
  | d :: cols, x, i, c, h => by
    have he : expect (16 * W) y row (d :: cols) x
        = cat (16 * W) (if y + 1 ≤ d.a then cl (16 * W) row x else cl (16 * W) d.b y) 1 (expect (16 * W) y row cols (x + 1)) := by
      have h0 : expect (16 * W) y row (d :: cols) x
        = Nat.add (Bool.rec (motive := fun _ => Nat) (cl (16 * W) d.b y) (cl (16 * W) row x) (Nat.ble (Nat.succ y) d.a))
            (Nat.shiftLeft (expect (16 * W) y row cols (Nat.succ x)) (16 * W)) := rfl
      rw [h0, brec]
      simp only [Nat.ble_eq]
      have hlt : (if Nat.succ y ≤ d.a then cl (16 * W) row x else cl (16 * W) d.b y) < 2 ^ (16 * W) := by
        split_ifs <;> exact cl_lt _ _ _
      unfold cat sl md
      simp only [nmul, low_eq, Nat.mul_one]
      rw [Nat.mod_eq_of_lt hlt]
    rw [he]
    cases i with
    | zero =>
      simp only [List.getElem?_cons_zero, Option.some.injEq] at h
      subst h
      exact same_cat1 (by omega)
    | succ i =>
      have ih := expect_ok (y := y) (row := row) (x := x + 1) (i := i) (c := c) (cols := cols) (by simpa using h)
      rw [show x + (i + 1) = x + 1 + i by omega]
      exact (same_cat2 (by omega)).trans ih

theorem rowsOk_ok {w h mode mk : Nat} {cs : T CK} {cols : List FN} : ∀ {n y0 : Nat}, rowsOk w h mode mk cs cols n y0 = true → ∀ i < n,
    ∃ row c, rowF w h mode (y0 + i) = some row ∧ cs.get (y0 + i) = some c ∧
      Nat.beq (Nat.land (if mode ≤ 12 then row else expect (bits w h) (y0 + i) row cols 0) mk) 0 = true ∧
      Bool.rec (motive := fun _ => Bool) (cellsOk (bits w h) c.x (if mode ≤ 12 then row else expect (bits w h) (y0 + i) row cols 0) w) true
        (Nat.beq (md (bits w h) c.x w) (if mode ≤ 12 then row else expect (bits w h) (y0 + i) row cols 0)) = true
  | 0, y0, _, i, hi => absurd hi (by omega)
  | n + 1, y0, h', i, hi => by
    cases hr : rowF w h mode y0 with
    | none => simp [rowsOk, hr] at h'
    | some row =>
      cases hg : cs.get y0 with
      | none => simp [rowsOk, hr, hg] at h'
      | some c =>
        simp only [rowsOk, hr, hg, frc_eq] at h'
        have hb : Bool.rec (motive := fun _ => Nat) (expect (bits w h) y0 row cols 0) row (Nat.ble mode 12)
            = if mode ≤ 12 then row else expect (bits w h) y0 row cols 0 := by rw [brec]; simp only [Nat.ble_eq]
        rw [hb] at h'
        by_cases h1 : Nat.beq (Nat.land (if mode ≤ 12 then row else expect (bits w h) y0 row cols 0) mk) 0 = true
        · rw [brec, if_pos h1, brec] at h'
          by_cases h2 : Bool.rec (motive := fun _ => Bool) (cellsOk (bits w h) c.x (if mode ≤ 12 then row else expect (bits w h) y0 row cols 0) w) true
              (Nat.beq (md (bits w h) c.x w) (if mode ≤ 12 then row else expect (bits w h) y0 row cols 0)) = true
          · rw [if_pos h2] at h'
            cases i with
            | zero => exact ⟨row, c, hr, hg, h1, h2⟩
            | succ i =>
              have := rowsOk_ok h' i (by omega)
              rw [show y0 + 1 + i = y0 + (i + 1) by omega] at this
              exact this
          · rw [if_neg h2] at h'; exact absurd h' (by simp)
        · rw [brec, if_neg h1] at h'; exact absurd h' (by simp)

end

end Davs2.Vp.Sym
