import Verif.Lemmas.CuSyntax
import Verif.Lemmas.AecRead
/-
Neighbours, coded block pattern and the rest of a unit.
-/
namespace Davs2.Cs
open Davs2.Sx Davs2.Mo

variable {σ : Type} {m : Machine σ} {G : σ → Prop}

/-- The state of the decoder agrees with the maps at the 4x4 blocks in `D` (those that have been decoded and those outside of the
picture).  Intra modes are kept only at the right and lower ends of blocks; `D` may have neighbours that are not in `D` only there. -/
structure Rel (E : Env) (S : Pic) (P : Maps) (D : Int → Int → Prop) : Prop where
  out : ∀ x y : Int, (x < 0 ∨ y < 0 ∨ 2 * (E.w : Int) ≤ x ∨ 2 * (E.h : Int) ≤ y) →
    D x y ∧ P.coded x y = false ∧ P.cm x y = false ∧ P.qp x y = E.qp
  cell : ∀ x y : Nat, x < 2 * E.w → y < 2 * E.h → D x y →
    if (S.cu (x / 2) (y / 2)).slice = E.slice then
      cellFlag (S.cu (x / 2) (y / 2)) x y = P.coded x y ∧ decide ((S.cu (x / 2) (y / 2)).cmode ≠ 0) = P.cm x y ∧
        (S.cu (x / 2) (y / 2)).qp = P.qp x y
    else P.coded x y = false ∧ P.cm x y = false ∧ P.qp x y = E.qp
  edge : ∀ x y : Int, -1 ≤ x → x < 2 * E.w → -1 ≤ y → y < 2 * E.h → D x y → (¬ D (x + 1) y ∨ ¬ D x (y + 1)) →
    S.modes (Im.addr (2 * E.w) x y) = P.mode x y ∧ 0 ≤ P.mode x y ∧ P.mode x y < 33
  fresh : ∀ x y : Int, 0 ≤ x → x < 2 * E.w → 0 ≤ y → y < 2 * E.h → ¬ D x y → S.modes (Im.addr (2 * E.w) x y) = 0
  last : E.dqp = true → S.last = P.last
  stale : E.frame = 5 → ∀ i j, (S.cu i j).wsm = 0
  bord : ∀ x y : Int, x < 0 → P.mode x y = 0

/-- Where a unit can be read: inside the picture, at a multiple of its size, with the blocks to the left and above decoded and its
own not. -/
structure Spot (E : Env) (D : Int → Int → Prop) (level sx sy : Nat) : Prop where
  lo : 3 ≤ level
  hi : level ≤ 6
  alx : 2 ^ (level - 3) ∣ sx
  aly : 2 ^ (level - 3) ∣ sy
  inx : sx + 2 ^ (level - 3) ≤ E.w
  iny : sy + 2 ^ (level - 3) ≤ E.h
  own : ∀ p q : Int, InUnit level sx sy p q → ¬ D p q
  left : ∀ k : Nat, k < side level → D (2 * sx - 1) (2 * sy + k)
  up : ∀ k : Nat, k < side level → D (2 * sx + k) (2 * sy - 1)

theorem side_eq {level : Nat} (h : 3 ≤ level) : side level = 2 * 2 ^ (level - 3) := by
  unfold side
  obtain ⟨k, rfl⟩ := Nat.exists_eq_add_of_le h
  rw [show 3 + k - 2 = k + 1 by omega, show 3 + k - 3 = k by omega, Nat.pow_succ]
  omega

theorem side_pos (level : Nat) : 0 < side level := Nat.pow_pos (by decide)

/-- Flag of a decoded 4x4 block. -/
theorem flag_at {E : Env} {S : Pic} {P : Maps} {D : Int → Int → Prop} (rel : Rel E S P D) (cur : Cell) (hc : cur.slice = E.slice)
    (sx sy : Nat) (x y : Int) (hn : ¬ (2 * (sx : Int) ≤ x ∧ 2 * (sy : Int) ≤ y)) (hD : D x y) :
    neighbourFlag E S cur sx sy x y = P.coded x y := by
  unfold neighbourFlag
  by_cases ho : x < 0 ∨ y < 0 ∨ 2 * (E.w : Int) ≤ x ∨ 2 * (E.h : Int) ≤ y
  · rw [if_pos (by omega), (rel.out x y ho).2.1]
  · rw [if_neg (by omega), if_neg hn]
    have hx : ((x.toNat : Nat) : Int) = x := Int.toNat_of_nonneg (by omega)
    have hy : ((y.toNat : Nat) : Int) = y := Int.toNat_of_nonneg (by omega)
    have h := rel.cell x.toNat y.toNat (by omega) (by omega) (by rw [hx, hy]; exact hD)
    rw [hx, hy] at h
    dsimp only
    rw [hc]
    split
    · rw [if_pos ‹_›] at h; exact h.1
    · rw [if_neg ‹_›] at h; exact h.1.symm

/-- Position in a unit at a multiple of its size. -/
theorem mod_side {level sx : Nat} (h : 3 ≤ level) (al : 2 ^ (level - 3) ∣ sx) {d : Nat} (hd : d < side level) :
    (2 * sx + d) % 2 ^ (level - 2) = d := by
  have : side level ∣ 2 * sx := by
    rw [side_eq h]
    exact Nat.mul_dvd_mul_left 2 al
  show (2 * sx + d) % side level = d
  rw [Nat.add_mod, Nat.mod_eq_zero_of_dvd this, Nat.zero_add, Nat.mod_mod, Nat.mod_eq_of_lt hd]

/-- Strips occur only in units of at least 16x16 samples. -/
def ShapeOk (level trans : Nat) : Prop := trans < 4 ∧ (trans = 1 ∨ trans = 2 → 4 ≤ level)

theorem cellFlag_own {level sx sy : Nat} (h3 : 3 ≤ level) (h6 : level ≤ 6) (alx : 2 ^ (level - 3) ∣ sx) (aly : 2 ^ (level - 3) ∣ sy)
    (c : Cell) (hl : c.level = level) (ht : ShapeOk level c.trans) {dx dy : Nat} (hx : dx < side level) (hy : dy < side level) :
    cellFlag c (2 * sx + dx) (2 * sy + dy) = c.cbp.testBit (tbIndex level c.trans dx dy) := by
  unfold cellFlag tbIndex
  by_cases h0 : c.trans = 0
  · rw [if_pos h0, if_pos h0]
  · rw [if_neg h0, if_neg h0]
    dsimp only
    rw [hl, mod_side h3 alx hx, mod_side h3 aly hy]
    obtain ⟨t4, t12⟩ := ht
    unfold side at *
    have e : c.trans = 1 ∨ c.trans = 2 ∨ c.trans = 3 := by omega
    rcases e with e | e | e
    · rw [e] at t12 ⊢
      have := t12 (by omega)
      rw [if_neg (by decide), if_pos rfl, if_pos rfl]
      congr 1
      interval_cases level <;> simp only [Nat.reduceSub, Nat.reducePow] at * <;> omega
    · rw [e] at t12 ⊢
      have := t12 (by omega)
      rw [if_pos rfl, if_neg (by decide), if_pos rfl]
      congr 1
      interval_cases level <;> simp only [Nat.reduceSub, Nat.reducePow] at * <;> omega
    · rw [e]
      rw [if_neg (by decide), if_neg (by decide), if_neg (by decide), if_neg (by decide)]
      congr 1
      interval_cases level <;> simp only [Nat.reduceSub, Nat.reducePow] at * <;> omega

theorem corner_eq {level trans b : Nat} (h3 : 3 ≤ level) (h6 : level ≤ 6) (ht : ShapeOk level trans) (hb : b < 4)
    (hz : trans = 0 → b = 0) : blkOffset trans level b = tbCorner level trans b := by
  obtain ⟨t4, t12⟩ := ht
  unfold blkOffset tbCorner side
  interval_cases trans
  · rw [hz rfl]; simp
  · have := t12 (by omega)
    interval_cases level <;> interval_cases b <;> rfl
  · have := t12 (by omega)
    interval_cases level <;> interval_cases b <;> rfl
  · interval_cases level <;> interval_cases b <;> rfl

/-- Facts about the corners of blocks. -/
def CornerFacts (level trans b : Nat) : Prop :=
    (tbCorner level trans b).1 < side level ∧ (tbCorner level trans b).2 < side level ∧
    (trans = 2 → 0 < b → 0 < (tbCorner level trans b).1 ∧
      tbIndex level trans ((tbCorner level trans b).1 - 1) (tbCorner level trans b).2 = b - 1) ∧
    (trans = 1 → 0 < b → 0 < (tbCorner level trans b).2 ∧
      tbIndex level trans (tbCorner level trans b).1 ((tbCorner level trans b).2 - 1) = b - 1) ∧
    (trans ≠ 3 → (trans = 2 ∧ 0 < b ∨ (tbCorner level trans b).1 = 0) ∧
      (trans = 1 ∧ 0 < b ∨ (tbCorner level trans b).2 = 0))

instance (level trans b : Nat) : Decidable (CornerFacts level trans b) := by
  unfold CornerFacts
  infer_instance

def CornerAll (k trans : Nat) : Prop :=
  ∀ b, b < 4 → ((trans = 1 ∨ trans = 2) ∧ k = 0) ∨ (trans = 0 ∧ b ≠ 0) ∨ CornerFacts (3 + k) trans b

instance (k trans : Nat) : Decidable (CornerAll k trans) := by
  unfold CornerAll
  infer_instance

theorem corner_facts : ∀ k < 4, ∀ trans < 4, CornerAll k trans := by decide +kernel

theorem nbFlags_eq {E : Env} {S : Pic} {P : Maps} {D : Int → Int → Prop} (rel : Rel E S P D) {level sx sy : Nat}
    (sp : Spot E D level sx sy) {trans b : Nat} (ht : ShapeOk level trans) (hb : b < 4) (hz : trans = 0 → b = 0) (c : Nat) :
    nbFlags E S level sx sy trans b c = nearT P level sx sy trans b c := by
  obtain ⟨k, hk⟩ := Nat.exists_eq_add_of_le sp.lo
  have hi := sp.hi
  have hf : CornerFacts (3 + k) trans b := by
    rcases corner_facts k (by omega) trans ht.1 b hb with h | h | h
    · have := ht.2 h.1; omega
    · exact absurd (hz h.1) h.2
    · exact h
  obtain ⟨f1, f2, f3, f4, f5⟩ := hf
  rw [← hk] at f1 f2 f3 f4 f5
  unfold nbFlags nearT
  dsimp only
  rw [corner_eq sp.lo sp.hi ht hb hz]
  generalize hkx : (tbCorner level trans b).1 = kx at *
  generalize hky : (tbCorner level trans b).2 = ky at *
  have hL : ¬ (trans = 2 ∧ b > 0) → neighbourFlag E S ⟨E.slice, level, trans, c, 0, 0, 0⟩ sx sy (2 * sx + kx - 1) (2 * sy + ky) =
      if kx = 0 then P.coded (2 * sx - 1) (2 * sy + ky) else c.testBit (tbIndex level trans (kx - 1) ky) := by
    intro hn
    by_cases h0 : kx = 0
    · subst h0
      rw [if_pos rfl, show (2 * (sx : Int) + (0 : Nat) - 1) = 2 * sx - 1 by omega]
      exact flag_at rel _ rfl sx sy _ _ (by omega) (sp.left ky f2)
    · rw [if_neg h0]
      have h3 : trans = 3 := by
        by_contra hne
        rcases (f5 hne).1 with h | h
        · exact hn h
        · exact h0 h
      unfold neighbourFlag
      have hs := side_eq sp.lo
      have := sp.inx
      have := sp.iny
      rw [if_neg (by omega), if_pos (by omega)]
      have e1 : (2 * (sx : Int) + kx - 1).toNat = 2 * sx + (kx - 1) := by omega
      have e2 : (2 * (sy : Int) + ky).toNat = 2 * sy + ky := by omega
      rw [e1, e2]
      exact cellFlag_own sp.lo sp.hi sp.alx sp.aly _ rfl ht (by omega) f2
  have hU : ¬ (trans = 1 ∧ b > 0) → neighbourFlag E S ⟨E.slice, level, trans, c, 0, 0, 0⟩ sx sy (2 * sx + kx) (2 * sy + ky - 1) =
      if ky = 0 then P.coded (2 * sx + kx) (2 * sy - 1) else c.testBit (tbIndex level trans kx (ky - 1)) := by
    intro hn
    by_cases h0 : ky = 0
    · subst h0
      rw [if_pos rfl, show (2 * (sy : Int) + (0 : Nat) - 1) = 2 * sy - 1 by omega]
      exact flag_at rel _ rfl sx sy _ _ (by omega) (sp.up kx f1)
    · rw [if_neg h0]
      have h3 : trans = 3 := by
        by_contra hne
        rcases (f5 hne).2 with h | h
        · exact hn h
        · exact h0 h
      unfold neighbourFlag
      have hs := side_eq sp.lo
      have := sp.inx
      have := sp.iny
      rw [if_neg (by omega), if_pos (by omega)]
      have e1 : (2 * (sx : Int) + kx).toNat = 2 * sx + kx := by omega
      have e2 : (2 * (sy : Int) + ky - 1).toNat = 2 * sy + (ky - 1) := by omega
      rw [e1, e2]
      exact cellFlag_own sp.lo sp.hi sp.alx sp.aly _ rfl ht f1 (by omega)
  refine Prod.ext ?_ ?_
  · dsimp only
    by_cases h2 : trans = 2 ∧ b > 0
    · obtain ⟨g1, g2⟩ := f3 h2.1 h2.2
      rw [if_pos h2, if_neg (by omega), g2]
    · rw [if_neg h2, hL h2]
  · dsimp only
    by_cases h1 : trans = 1 ∧ b > 0
    · obtain ⟨g1, g2⟩ := f4 h1.1 h1.2
      rw [if_pos h1, if_neg (by omega), g2]
    · rw [if_neg h1, hU h1]

/-- Left neighbour. -/
theorem leftOf_eq {E : Env} {S : Pic} {P : Maps} {D : Int → Int → Prop} (rel : Rel E S P D) {level sx sy : Nat}
    (sp : Spot E D level sx sy) (hq : 0 ≤ E.qp ∧ E.qp ≤ 63) :
    leftOf E S sx sy = (P.cm (2 * sx - 1) (2 * sy), P.qp (2 * sx - 1) (2 * sy)) := by
  have hD := sp.left 0 (side_pos level)
  have hs := side_eq sp.lo
  have h2 := side_pos level
  have := sp.inx
  have := sp.iny
  have eq : toInt8 E.qp = E.qp := toInt8_id (by omega) (by omega)
  unfold leftOf
  rw [Int.natCast_zero, Int.add_zero] at hD
  by_cases h0 : 0 < sx
  · have e1 : ((2 * sx - 1 : Nat) : Int) = 2 * (sx : Int) - 1 := by omega
    have e2 : ((2 * sy : Nat) : Int) = 2 * (sy : Int) := by omega
    have h := rel.cell (2 * sx - 1) (2 * sy) (by omega) (by omega) (by rw [e1, e2]; exact hD)
    rw [e1, e2, show (2 * sx - 1) / 2 = sx - 1 by omega, show 2 * sy / 2 = sy by omega] at h
    by_cases hsl : (S.cu (sx - 1) sy).slice = E.slice
    · rw [if_pos hsl] at h
      rw [if_pos ⟨h0, hsl⟩, h.2.1, h.2.2]
    · rw [if_neg hsl] at h
      rw [if_neg (fun x => hsl x.2), h.2.1, h.2.2, eq]
  · rw [if_neg (fun x => h0 x.1), eq]
    have h := rel.out (2 * sx - 1) (2 * sy) (by omega)
    rw [h.2.2.1, h.2.2.2]

end Davs2.Cs
