import Verif.Model.Alf
import Verif.Spec.Alf
import Verif.Lemmas.Sao
import Mathlib.Tactic.Linarith
import Mathlib.Tactic.Ring
/-
Lemmas on the adaptive loop filter.
-/
namespace Davs2.Al
open Davs2.Spec Davs2.Sa

theorem block1_eq {bd : Nat} {c : Nat → Int} {src : Plane} {w h : Int} (dst : OPlane) (x y : Int) :
    block1 bd c src w h dst x y = if 0 ≤ x ∧ x < w ∧ 0 ≤ y ∧ y < h then sample1 bd c src w h x y else dst x y := by
  unfold block1
  have key := loop_inv (a := 0) (b := h)
    (f := fun y dst => loop 0 w (fun x dst => put dst x y (sample1 bd c src w h x y)) dst) (s := dst)
    (P := fun y (d : OPlane) => ∀ x' y', d x' y' = if 0 ≤ x' ∧ x' < w ∧ 0 ≤ y' ∧ y' < y then sample1 bd c src w h x' y' else dst x' y')
    (fun x' y' => by rw [if_neg (by omega)]) (by
      intro y d h0 h1 hd
      have row := loop_inv (a := 0) (b := w) (f := fun x dst => put dst x y (sample1 bd c src w h x y)) (s := d)
        (P := fun x (e : OPlane) => ∀ x' y', e x' y' = if 0 ≤ x' ∧ x' < x ∧ y' = y then sample1 bd c src w h x' y' else d x' y')
        (fun x' y' => by rw [if_neg (by omega)]) (by
          intro x e k0 k1 he x' y'
          unfold put
          by_cases hx : x' = x ∧ y' = y
          · rw [if_pos hx, if_pos (by omega), hx.1, hx.2]
          · rw [if_neg hx, he]
            by_cases hx2 : 0 ≤ x' ∧ x' < x ∧ y' = y
            · rw [if_pos hx2, if_pos (by omega)]
            · rw [if_neg hx2, if_neg (by omega)])
      intro x' y'
      rw [row x' y', hd x' y']
      by_cases hx : 0 ≤ x' ∧ x' < max 0 w ∧ y' = y
      · rw [if_pos hx, if_pos (by omega)]
      · rw [if_neg hx]
        by_cases hx2 : 0 ≤ x' ∧ x' < w ∧ 0 ≤ y' ∧ y' < y
        · rw [if_pos hx2, if_pos (by omega)]
        · rw [if_neg hx2, if_neg (by omega)])
  rw [key x y]
  by_cases hx : 0 ≤ x ∧ x < w ∧ 0 ≤ y ∧ y < h
  · rw [if_pos hx, if_pos (by omega)]
  · rw [if_neg hx, if_neg (by omega)]

theorem i32_some {v : Int} (h : -2147483648 ≤ v) (h' : v ≤ 2147483647) : i32 v = some v := by
  unfold i32; rw [if_pos ⟨h, h'⟩]

theorem mul_bound {c s A S : Int} (hc : -A ≤ c) (hc' : c ≤ A) (hs : 0 ≤ s) (hs' : s ≤ S) (hA : 0 ≤ A) :
    -(A * S) ≤ c * s ∧ c * s ≤ A * S := by
  constructor <;> nlinarith [mul_nonneg hs hA, mul_le_mul_of_nonneg_left hs' hA]

theorem pixel_some {bd : Nat} {c : Nat → Int} {s0 s1 s2 s3 s4 s7 s6 s5 s8 : Int}
    (hc : ∀ k < 8, -32768 ≤ c k ∧ c k ≤ 32768) (hc8 : -600000 ≤ c 8 ∧ c 8 ≤ 600000)
    (h : ∀ s ∈ [s0, s1, s2, s3, s4, s7, s6, s5], 0 ≤ s ∧ s ≤ 2046) (h8 : 0 ≤ s8 ∧ s8 ≤ 1023) :
    pixel bd c s0 s1 s2 s3 s4 s7 s6 s5 s8 = some (saturate bd ((c 0 * s0 + c 1 * s1 + c 2 * s2 + c 3 * s3 + c 4 * s4 +
      c 5 * s5 + c 6 * s6 + c 7 * s7 + c 8 * s8 + 32) / 64)) := by
  have m := fun k (hk : k < 8) s (hs : s ∈ [s0, s1, s2, s3, s4, s7, s6, s5]) =>
    mul_bound (hc k hk).1 (hc k hk).2 (h s hs).1 (h s hs).2 (by omega)
  have m0 := m 0 (by omega) s0 (by simp)
  have m1 := m 1 (by omega) s1 (by simp)
  have m2 := m 2 (by omega) s2 (by simp)
  have m3 := m 3 (by omega) s3 (by simp)
  have m4 := m 4 (by omega) s4 (by simp)
  have m5 := m 5 (by omega) s5 (by simp)
  have m6 := m 6 (by omega) s6 (by simp)
  have m7 := m 7 (by omega) s7 (by simp)
  have m8 := mul_bound hc8.1 hc8.2 h8.1 h8.2 (by omega)
  clear m h h8 hc hc8
  simp only [pixel, accum, Option.bind_eq_bind]
  generalize c 0 * s0 = p0 at *
  generalize c 1 * s1 = p1 at *
  generalize c 2 * s2 = p2 at *
  generalize c 3 * s3 = p3 at *
  generalize c 4 * s4 = p4 at *
  generalize c 5 * s5 = p5 at *
  generalize c 6 * s6 = p6 at *
  generalize c 7 * s7 = p7 at *
  generalize c 8 * s8 = p8 at *
  have e : ∀ v : Int, -2147483648 ≤ v → v ≤ 2147483647 → i32 v = some v := fun v => i32_some
  simp only [accum, Option.bind_eq_bind, e p0 (by omega) (by omega), Option.bind_some, e (0 + p0) (by omega) (by omega),
    e p1 (by omega) (by omega), e (0 + p0 + p1) (by omega) (by omega),
    e p2 (by omega) (by omega), e (0 + p0 + p1 + p2) (by omega) (by omega),
    e p3 (by omega) (by omega), e (0 + p0 + p1 + p2 + p3) (by omega) (by omega),
    e p4 (by omega) (by omega), e (0 + p0 + p1 + p2 + p3 + p4) (by omega) (by omega),
    e p7 (by omega) (by omega), e (0 + p0 + p1 + p2 + p3 + p4 + p7) (by omega) (by omega),
    e p6 (by omega) (by omega), e (0 + p0 + p1 + p2 + p3 + p4 + p7 + p6) (by omega) (by omega),
    e p5 (by omega) (by omega), e (0 + p0 + p1 + p2 + p3 + p4 + p7 + p6 + p5) (by omega) (by omega),
    e p8 (by omega) (by omega), e (0 + p0 + p1 + p2 + p3 + p4 + p7 + p6 + p5 + p8) (by omega) (by omega),
    e (0 + p0 + p1 + p2 + p3 + p4 + p7 + p6 + p5 + p8 + 32) (by omega) (by omega)]
  rw [clip_saturate]
  congr 3
  omega

/-- Weights small enough for the arithmetic. -/
def Small (raw : List Int) : Prop := raw.length = 9 ∧ ∀ v ∈ raw, -32768 ≤ v ∧ v ≤ 32767

instance (raw : List Int) : Decidable (Small raw) := by unfold Small; infer_instance

theorem recon_some {raw : List Int} (h : Small raw) :
    ∃ c, recon raw = some c ∧ (∀ k < 8, c k = raw.getD k 0) ∧ c 8 = 64 - 2 * (raw.take 8).sum + raw.getD 8 0 ∧
      (∀ k < 8, -32768 ≤ c k ∧ c k ≤ 32768) ∧ -600000 ≤ c 8 ∧ c 8 ≤ 600000 := by
  obtain ⟨h1, h2⟩ := h
  match raw, h1 with
  | [r0, r1, r2, r3, r4, r5, r6, r7, r8], _ =>
    simp only [List.mem_cons, List.not_mem_nil, or_false, forall_eq_or_imp, forall_eq] at h2
    have e : ∀ v : Int, -2147483648 ≤ v → v ≤ 2147483647 → i32 v = some v := fun v => i32_some
    refine ⟨fun k => if k = 8 then 64 - (0 + 2 * r0 + 2 * r1 + 2 * r2 + 2 * r3 + 2 * r4 + 2 * r5 + 2 * r6 + 2 * r7) + r8
      else [r0, r1, r2, r3, r4, r5, r6, r7, r8].getD k 0, ?_, ?_⟩
    · unfold recon
      simp only [List.take, coeffSum, Option.bind_eq_bind, Option.bind_some, List.getD_cons_succ, List.getD_cons_zero,
        e (2 * r0) (by omega) (by omega), e (0 + 2 * r0) (by omega) (by omega),
        e (2 * r1) (by omega) (by omega), e (0 + 2 * r0 + 2 * r1) (by omega) (by omega),
        e (2 * r2) (by omega) (by omega), e (0 + 2 * r0 + 2 * r1 + 2 * r2) (by omega) (by omega),
        e (2 * r3) (by omega) (by omega), e (0 + 2 * r0 + 2 * r1 + 2 * r2 + 2 * r3) (by omega) (by omega),
        e (2 * r4) (by omega) (by omega), e (0 + 2 * r0 + 2 * r1 + 2 * r2 + 2 * r3 + 2 * r4) (by omega) (by omega),
        e (2 * r5) (by omega) (by omega), e (0 + 2 * r0 + 2 * r1 + 2 * r2 + 2 * r3 + 2 * r4 + 2 * r5) (by omega) (by omega),
        e (2 * r6) (by omega) (by omega), e (0 + 2 * r0 + 2 * r1 + 2 * r2 + 2 * r3 + 2 * r4 + 2 * r5 + 2 * r6) (by omega) (by omega),
        e (2 * r7) (by omega) (by omega), e (0 + 2 * r0 + 2 * r1 + 2 * r2 + 2 * r3 + 2 * r4 + 2 * r5 + 2 * r6 + 2 * r7) (by omega) (by omega),
        e (64 - (0 + 2 * r0 + 2 * r1 + 2 * r2 + 2 * r3 + 2 * r4 + 2 * r5 + 2 * r6 + 2 * r7)) (by omega) (by omega),
        e (64 - (0 + 2 * r0 + 2 * r1 + 2 * r2 + 2 * r3 + 2 * r4 + 2 * r5 + 2 * r6 + 2 * r7) + r8) (by omega) (by omega)]
    · refine ⟨?_, ?_, ?_, ?_⟩
      · intro k hk
        dsimp only
        rw [if_neg (by omega)]
      · simp; omega
      · intro k hk
        dsimp only
        rw [if_neg (by omega)]
        have : k = 0 ∨ k = 1 ∨ k = 2 ∨ k = 3 ∨ k = 4 ∨ k = 5 ∨ k = 6 ∨ k = 7 := by omega
        rcases this with e | e | e | e | e | e | e | e <;> subst e <;> simp <;> omega
      · simp; omega

end Davs2.Al

namespace Davs2.Al
open Davs2.Spec Davs2.Sa

theorem tap_eq {s : Plane} {w h x y a b a' b' : Int} (dx dy : Int) (h1 : alfPos w h x y dx dy = (a, b))
    (h2 : alfPos w h x y (-dx) (-dy) = (a', b')) : s a b + s a' b' = alfTap s w h x y (dx, dy) := by
  unfold alfTap; dsimp only; rw [h1, h2]

theorem pos_eq {w h x y dx dy a b : Int} (h1 : 0 ≤ y + dy ∧ y + dy < h → a = x + dx ∧ b = y + dy)
    (h2 : ¬ (0 ≤ y + dy ∧ y + dy < h) → a = max 0 (min (w - 1) (x + dx)) ∧ b = max 0 (min (h - 1) (y + dy))) :
    alfPos w h x y dx dy = (a, b) := by
  unfold alfPos
  split
  · rename_i c; obtain ⟨e1, e2⟩ := h1 c; rw [e1, e2]
  · rename_i c; obtain ⟨e1, e2⟩ := h2 c; rw [e1, e2]

local macro "pos" : tactic => `(tactic| exact pos_eq (fun _ => by constructor <;> omega) (fun _ => by constructor <;> omega))

/-- The nine products of a sample in terms of the definition of the taps. -/
def wantPix (bd : Nat) (c : Nat → Int) (src : Plane) (w h x y : Int) : Option Int :=
  let t := fun dx dy => alfTap src w h x y (dx, dy)
  pixel bd c (t 0 3) (t 0 2) (t 1 1) (t 0 1) (t (-1) 1) (t 1 0) (t 2 0) (t 3 0) (src x y)

variable {bd : Nat} {c : Nat → Int} {src : Plane} {w h : Int}

theorem clip3_eq (lo hi v : Int) (h : lo ≤ hi) : clip3 lo hi v = max lo (min hi v) := by
  unfold clip3; split
  · omega
  · split <;> omega

/-- Away from the corners one pass is enough; at a corner it is if the sample beside the region is equal. -/
theorem sample1_want {x y : Int} (hx : 0 ≤ x) (hxw : x < w) (hy : 0 ≤ y) (hyh : y < h)
    (tl : x = 0 → y = 0 → src (-1) 0 = src 0 0) (tr : x = w - 1 → y = 0 → src w 0 = src (w - 1) 0)
    (dl : x = 0 → y = h - 1 → src (-1) (h - 1) = src 0 (h - 1))
    (dr : x = w - 1 → y = h - 1 → src w (h - 1) = src (w - 1) (h - 1)) :
    sample1 bd c src w h x y = wantPix bd c src w h x y := by
  have key : ∀ dx dy : Int, -1 ≤ dx → dx ≤ 1 → -1 ≤ dy → dy ≤ 1 →
      src (clip3 (-3) (w - 1 + 3) (x + dx)) (clip3 0 (h - 1) (y + dy)) = src (alfPos w h x y dx dy).1 (alfPos w h x y dx dy).2 := by
    intro dx dy h1 h2 h3 h4
    rw [clip3_eq _ _ _ (by omega), clip3_eq _ _ _ (by omega)]
    rw [show max (-3) (min (w - 1 + 3) (x + dx)) = x + dx by omega]
    by_cases hr : 0 ≤ y + dy ∧ y + dy < h
    · rw [show max 0 (min (h - 1) (y + dy)) = y + dy by omega]
      unfold alfPos; rw [if_pos hr]
    · unfold alfPos; rw [if_neg hr]
      by_cases hxx : 0 ≤ x + dx ∧ x + dx < w
      · dsimp only; rw [show max 0 (min (w - 1) (x + dx)) = x + dx by omega]
      · dsimp only
        by_cases hl : x + dx < 0
        · rw [show max 0 (min (w - 1) (x + dx)) = 0 by omega, show x + dx = -1 by omega]
          by_cases ht : y + dy < 0
          · rw [show max 0 (min (h - 1) (y + dy)) = 0 by omega]
            exact tl (by omega) (by omega)
          · rw [show max 0 (min (h - 1) (y + dy)) = h - 1 by omega]
            exact dl (by omega) (by omega)
        · rw [show max 0 (min (w - 1) (x + dx)) = w - 1 by omega, show x + dx = w by omega]
          by_cases ht : y + dy < 0
          · rw [show max 0 (min (h - 1) (y + dy)) = 0 by omega]
            exact tr (by omega) (by omega)
          · rw [show max 0 (min (h - 1) (y + dy)) = h - 1 by omega]
            exact dr (by omega) (by omega)
  have far : ∀ dy : Int, src x (clip3 0 (h - 1) (y + dy)) = src (alfPos w h x y 0 dy).1 (alfPos w h x y 0 dy).2 := by
    intro dy
    rw [clip3_eq _ _ _ (by omega)]
    rw [show alfPos w h x y 0 dy = (x, max 0 (min (h - 1) (y + dy))) by pos]
  have side : ∀ dx : Int, -3 ≤ dx → dx ≤ 3 → src (clip3 (-3) (w - 1 + 3) (x + dx)) y = src (alfPos w h x y dx 0).1 (alfPos w h x y dx 0).2 := by
    intro dx h1 h2
    rw [clip3_eq _ _ _ (by omega), show max (-3) (min (w - 1 + 3) (x + dx)) = x + dx by omega]
    rw [show alfPos w h x y dx 0 = (x + dx, y) by pos]
  unfold sample1 wantPix alfTap
  simp only [Int.sub_eq_add_neg, neg_zero, neg_neg] at *
  simp only [far, key 1 1 (by omega) (by omega) (by omega) (by omega), key (-1) (-1) (by omega) (by omega) (by omega) (by omega),
    key (-1) 1 (by omega) (by omega) (by omega) (by omega), key 1 (-1) (by omega) (by omega) (by omega) (by omega),
    side 1 (by omega) (by omega), side (-1) (by omega) (by omega), side 2 (by omega) (by omega), side (-2) (by omega) (by omega),
    side 3 (by omega) (by omega), side (-3) (by omega) (by omega)]

theorem corner_eq {P : Prop} [Decidable P] (d : OPlane) {a b x y : Int} {v u : Option Int} (hv : x = a → y = b → v = u) :
    (if P then put d a b v else d) x y = if P ∧ x = a ∧ y = b then u else d x y := by
  by_cases hP : P
  · rw [if_pos hP]
    unfold put
    by_cases hp : x = a ∧ y = b
    · rw [if_pos hp, if_pos ⟨hP, hp⟩, hv hp.1 hp.2]
    · rw [if_neg hp, if_neg (fun k => hp k.2)]
  · rw [if_neg hP, if_neg (fun k => hP k.1)]

theorem filter_want (hw : 2 ≤ w) (hh : 4 ≤ h) (dst : OPlane) (x y : Int) :
    filter bd c src w h dst x y = if 0 ≤ x ∧ x < w ∧ 0 ≤ y ∧ y < h then wantPix bd c src w h x y else dst x y := by
  have tl : ∀ d : OPlane, cornerTL bd c src  d x y = if src 0 0 ≠ src (-1) 0 ∧ x = 0 ∧ y = 0 then wantPix bd c src w h x y else d x y := by
    intro d
    unfold cornerTL
    refine corner_eq d ?_
    intro ex ey
    rw [ex, ey]
    unfold wantPix
    congr 1
    · exact tap_eq 0 3 (by pos) (by pos)
    · exact tap_eq 0 2 (by pos) (by pos)
    · exact tap_eq 1 1 (by pos) (by pos)
    · exact tap_eq 0 1 (by pos) (by pos)
    · exact tap_eq (-1) 1 (by pos) (by pos)
    · exact tap_eq 1 0 (by pos) (by pos)
    · exact tap_eq 2 0 (by pos) (by pos)
    · exact tap_eq 3 0 (by pos) (by pos)
  have tr : ∀ d : OPlane, cornerTR bd c src w d x y = if src (w - 1) 0 ≠ src (w - 1 + 1) 0 ∧ x = w - 1 ∧ y = 0 then wantPix bd c src w h x y else d x y := by
    intro d
    unfold cornerTR
    refine corner_eq d ?_
    intro ex ey
    rw [ex, ey]
    unfold wantPix
    congr 1
    · exact tap_eq 0 3 (by pos) (by pos)
    · exact tap_eq 0 2 (by pos) (by pos)
    · exact tap_eq 1 1 (by pos) (by pos)
    · exact tap_eq 0 1 (by pos) (by pos)
    · exact tap_eq (-1) 1 (by pos) (by pos)
    · exact tap_eq 1 0 (by pos) (by pos)
    · exact tap_eq 2 0 (by pos) (by pos)
    · exact tap_eq 3 0 (by pos) (by pos)
  have dl : ∀ d : OPlane, cornerDL bd c src h d x y = if src 0 (h - 1) ≠ src (-1) (h - 1) ∧ x = 0 ∧ y = h - 1 then wantPix bd c src w h x y else d x y := by
    intro d
    unfold cornerDL
    refine corner_eq d ?_
    intro ex ey
    rw [ex, ey]
    unfold wantPix
    congr 1
    · exact tap_eq 0 3 (by pos) (by pos)
    · exact tap_eq 0 2 (by pos) (by pos)
    · exact tap_eq 1 1 (by pos) (by pos)
    · exact tap_eq 0 1 (by pos) (by pos)
    · exact tap_eq (-1) 1 (by pos) (by pos)
    · exact tap_eq 1 0 (by pos) (by pos)
    · exact tap_eq 2 0 (by pos) (by pos)
    · exact tap_eq 3 0 (by pos) (by pos)
  have dr : ∀ d : OPlane, cornerDR bd c src w h d x y = if src (w - 1) (h - 1) ≠ src (w - 1 + 1) (h - 1) ∧ x = w - 1 ∧ y = h - 1 then wantPix bd c src w h x y else d x y := by
    intro d
    unfold cornerDR
    refine corner_eq d ?_
    intro ex ey
    rw [ex, ey]
    unfold wantPix
    congr 1
    · exact tap_eq 0 3 (by pos) (by pos)
    · exact tap_eq 0 2 (by pos) (by pos)
    · exact tap_eq 1 1 (by pos) (by pos)
    · exact tap_eq 0 1 (by pos) (by pos)
    · exact tap_eq (-1) 1 (by pos) (by pos)
    · exact tap_eq 1 0 (by pos) (by pos)
    · exact tap_eq 2 0 (by pos) (by pos)
    · exact tap_eq 3 0 (by pos) (by pos)
  unfold filter block2
  rw [dr, dl, tr, tl, block1_eq]
  rw [show w - 1 + 1 = w by omega]
  by_cases hin : 0 ≤ x ∧ x < w ∧ 0 ≤ y ∧ y < h
  · rw [if_pos hin, if_pos hin]
    split
    · rfl
    · rename_i c4
      split
      · rfl
      · rename_i c3
        split
        · rfl
        · rename_i c2
          split
          · rfl
          · rename_i c1
            apply sample1_want hin.1 hin.2.1 hin.2.2.1 hin.2.2.2
            · intro a b; by_contra k; exact c1 ⟨fun e => k e.symm, a, b⟩
            · intro a b; by_contra k; exact c2 ⟨fun e => k e.symm, a, b⟩
            · intro a b; by_contra k; exact c3 ⟨fun e => k e.symm, a, b⟩
            · intro a b; by_contra k; exact c4 ⟨fun e => k e.symm, a, b⟩
  · rw [if_neg hin, if_neg hin, if_neg (by omega), if_neg (by omega), if_neg (by omega), if_neg (by omega)]

end Davs2.Al
