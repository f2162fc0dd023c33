import Verif.Model.VecAdd
import Verif.Lemmas.VecIntraFlat
import Mathlib.Tactic.Ring
import Mathlib.Tactic.LinearCombination
/-
A checker for the routines of `Model/VecAdd.lean`: what each register holds is described by groups of eight lanes, each the
samples, residuals, sums or saturated sums of some columns of one row.  The checker is sound for every picture, residual and address.
-/
namespace Davs2.Va
open Davs2.Vc

/-- What the lanes of a register are. -/
inductive Kind where | pix | res | sum | byt
deriving DecidableEq

/-- Row, first column, number of lanes that are known (of eight). -/
abbrev Grp := Nat × Nat × Nat

structure Abs where
  reg : Nat → Kind × List Grp
  r0 : Nat
  r2 : Nat
  r3 : Nat
  done : List Grp

def hit (done : List Grp) (y x : Nat) : Bool := done.any fun g => g.1 == y && decide (g.2.1 ≤ x) && decide (x < g.2.1 + g.2.2)

def Abs.set (s : Abs) (a : Nat) (r : Kind × List Grp) : Abs := { s with reg := fun i => if i = a then r else s.reg i }

def free (W : Nat) (done : List Grp) (y x : Nat) : Bool := (List.range (min 8 (W - x))).all fun i => !hit done y (x + i)

/-- Same place, inside the block. -/
def same (W R : Nat) (ga gb : List Grp) : Bool := (ga.zip gb).all fun p =>
  (p.1.1 == p.2.1 && p.1.2.1 == p.2.2.1) && (decide (p.1.1 < R) && decide (p.1.2.1 + p.1.2.2 ≤ W))

def fits (gs : List Grp) (y off n : Nat) : Bool := (List.range n).all fun j =>
  match gs[j / 8]? with
  | some g => g.1 == y && g.2.1 + j % 8 == off + j && decide (j % 8 < g.2.2)
  | none => false

/-- One instruction on descriptions; `W` is the width of the block, `R` the number of rows of a round. -/
def astep (W R : Nat) (s : Abs) : Ins → Option Abs
  | .pmovzx wide a k off =>
    let y := s.r2 + k
    if wide then
      if free W s.done y off && free W s.done y (off + 8) then some (s.set a (.pix, [(y, off, min 8 (W - off)), (y, off + 8, min 8 (W - (off + 8)))])) else none
    else if free W s.done y off then some (s.set a (.pix, [(y, off, min 8 (W - off))])) else none
  | .ldres n a k off =>
    let y := s.r3 + k
    if off % 2 = 0 then
      if n = 8 then some (s.set a (.res, [(y, off / 2, 4)]))
      else if n = 16 then some (s.set a (.res, [(y, off / 2, 8)]))
      else if n = 32 then some (s.set a (.res, [(y, off / 2, 8), (y, off / 2 + 8, 8)]))
      else none
    else none
  | .paddw a b =>
    if (s.reg a).1 = .pix ∧ (s.reg b).1 = .res ∧ same W R (s.reg a).2 (s.reg b).2 = true then
      some (s.set a (.sum, List.zipWith (fun g h => (g.1, g.2.1, min g.2.2 h.2.2)) (s.reg a).2 (s.reg b).2))
    else none
  | .packus wide a b =>
    if (s.reg a).1 = .sum ∧ (s.reg b).1 = .sum then
      match wide, (s.reg a).2, (s.reg b).2 with
      | false, [g], [h] => some (s.set a (.byt, [g, h]))
      | true, [g0, g1], [h0, h1] => some (s.set a (.byt, [g0, h0, g1, h1]))
      | _, _, _ => none
    else none
  | .vpermq a b imm =>
    if (s.reg b).1 = .byt then
      match (s.reg b).2 with
      | [g0, g1, g2, g3] => some (s.set a (.byt, (List.range 4).map fun k => [g0, g1, g2, g3].getD (imm / 4 ^ k % 4) g0))
      | _ => none
    else none
  | .vextract a b =>
    if (s.reg b).1 = .byt then
      match (s.reg b).2 with
      | [_, _, g2, g3] => some (s.set a (.byt, [g2, g3]))
      | _ => none
    else none
  | .st n k off a =>
    if (s.reg a).1 = .byt ∧ off + n ≤ W ∧ fits (s.reg a).2 (s.r0 + k) off n = true then some { s with done := (s.r0 + k, off, n) :: s.done } else none
  | .lea0 k => some { s with r0 := s.r0 + k }
  | .lea2 k => some { s with r2 := s.r2 + k }
  | .lea3 k => some { s with r3 := s.r3 + k }

def aexec (W R : Nat) : List Ins → Abs → Option Abs
  | [], s => some s
  | i :: p, s => (astep W R s i).bind (aexec W R p)

/-- Nothing known. -/
def aInit : Abs := { reg := fun _ => (.byt, []), r0 := 0, r2 := 0, r3 := 0, done := [] }

/-- The verdict: exactly the cells of `W` columns and `R` rows are written; if `adv`, the pointers advance by `R` rows. -/
def good (W R : Nat) (adv : Bool) (p : List Ins) : Bool :=
  match aexec W R p aInit with
  | some s => ((List.range R).all fun y => (List.range W).all fun x => hit s.done y x) &&
      (s.done.all fun g => decide (g.1 < R)) && (!adv || (s.r0 == R && s.r2 == R && s.r3 == R))
  | none => false

/-! ### Meaning -/

section
variable (coef : Int → Int) (p : Int → Int) (a ds c ss : Int)

/-- Address of a sample and of a residual. -/
def ad (y x : Nat) : Int := a + y * ds + x
def rs (y x : Nat) : Int := c + y * ss + x

def val (k : Kind) (y x : Nat) : Int :=
  match k with
  | .pix => p (ad a ds y x)
  | .res => coef (rs c ss y x)
  | .sum => p (ad a ds y x) + coef (rs c ss y x)
  | .byt => satu8 (p (ad a ds y x) + coef (rs c ss y x))

def lane (k : Kind) (v : V) (j : Nat) : Int :=
  match k with
  | .byt => u8 v j
  | _ => w16 v j

def RelR (r : Kind × List Grp) (v : V) : Prop :=
  ∀ q g, r.2[q]? = some g → g.2.2 ≤ 8 ∧ ∀ i < g.2.2, lane r.1 v (8 * q + i) = val coef p a ds c ss r.1 g.1 (g.2.1 + i)

structure Inv (W : Nat) (x : Abs) (s : St) : Prop where
  r0 : s.r0 = a + x.r0 * ds
  r2 : s.r2 = a + x.r2 * ds
  r3 : s.r3 = 2 * (c + x.r3 * ss)
  reg : ∀ i, RelR coef p a ds c ss (x.reg i) (s.reg i)
  on : ∀ y j, j < W → hit x.done y j = true → s.m (ad a ds y j) = val coef p a ds c ss .byt y j
  off : ∀ z, (∀ y j, j < W → hit x.done y j = true → z ≠ ad a ds y j) → s.m z = p z
  byte : ∀ z, 0 ≤ s.m z ∧ s.m z ≤ 255
end

variable {coef : Int → Int} {p : Int → Int} {a ds c ss : Int} {W R : Nat}

theorem ad_inj (hW : (W : Int) ≤ ds) {y j y' j' : Nat} (hj : j < W) (hj' : j' < W) (e : ad a ds y j = ad a ds y' j') : y = y' ∧ j = j' := by
  unfold ad at e
  have hd : 0 < ds := by omega
  have h1 : (y : Int) * ds + j = y' * ds + j' := by omega
  have h2 : (y : Int) = y' := by
    have e1 : ((y : Int) * ds + j) / ds = y := by
      rw [mul_comm, Int.mul_add_ediv_left _ _ (by omega), Int.ediv_eq_zero_of_lt (by omega) (by omega)]; omega
    have e2 : ((y' : Int) * ds + j') / ds = y' := by
      rw [mul_comm, Int.mul_add_ediv_left _ _ (by omega), Int.ediv_eq_zero_of_lt (by omega) (by omega)]; omega
    rw [← e1, ← e2, h1]
  have h3 : y = y' := by exact_mod_cast h2
  subst h3
  exact ⟨rfl, by omega⟩

theorem Inv.set {x : Abs} {s : St} (h : Inv coef p a ds c ss W x s) {i : Nat} {r : Kind × List Grp} {v : V} (hr : RelR coef p a ds c ss r v) :
    Inv coef p a ds c ss W (x.set i r) (s.set i v) := by
  refine ⟨h.r0, h.r2, h.r3, ?_, h.on, h.off, h.byte⟩
  intro j
  show RelR coef p a ds c ss (if j = i then r else x.reg j) (if j = i then v else s.reg j)
  by_cases e : j = i
  · rw [if_pos e, if_pos e]; exact hr
  · rw [if_neg e, if_neg e]; exact h.reg j

/-- A cell that has not been written yet. -/
theorem Inv.pixel {x : Abs} {s : St} (h : Inv coef p a ds c ss W x s) (hW : (W : Int) ≤ ds) {y j : Nat} (hj : j < W) (hn : hit x.done y j = false) :
    s.m (ad a ds y j) = p (ad a ds y j) := by
  apply h.off
  intro y' j' hj' hh e
  obtain ⟨rfl, rfl⟩ := ad_inj hW hj hj' e
  rw [hn] at hh
  exact absurd hh (by decide)

theorem free_spec {done : List Grp} {y x i : Nat} (h : free W done y x = true) (hi : i < min 8 (W - x)) : hit done y (x + i) = false := by
  unfold free at h
  rw [List.all_eq_true] at h
  have := h i (List.mem_range.2 hi)
  simpa using this

theorem w16_cvt (v : V) (i : Nat) : w16 (cvtepu8_16 v) i = u8 v i := by
  refine (w16_ofW _ i).trans (wrap16_id ?_)
  have := u8_range v i
  omega

theorem u8_if {n : Nat} {f : Nat → Int} {j : Nat} (h : j < n) : u8 (fun j => if j < n then ofB f j else 0) j = f j % 256 := by
  rw [← u8_ofB]
  unfold u8
  dsimp only
  rw [if_pos h]

theorem w16_res {n : Nat} {z : Int} {i : Nat} (hn : 2 * i + 1 < n) (he : z % 2 = 0) (hc : -32768 ≤ coef (z / 2 + i) ∧ coef (z / 2 + i) ≤ 32767) :
    w16 (fun j => if j < n then ofB (fun j => byteOf coef (z + j)) j else 0) i = coef (z / 2 + i) := by
  unfold w16 u16
  rw [u8_if (by omega), u8_if hn]
  unfold byteOf
  rw [if_pos (by push_cast; omega), if_neg (by push_cast; omega), show (z + ((2 * i : Nat) : Int)) / 2 = z / 2 + i by push_cast; omega,
    show (z + ((2 * i + 1 : Nat) : Int)) / 2 = z / 2 + i by push_cast; omega]
  unfold wrap16
  omega

/-- **Soundness of one instruction.** -/
theorem step_sound (hW : (W : Int) ≤ ds) (hp : ∀ z, 0 ≤ p z ∧ p z ≤ 255) (h16 : ∀ z, -32768 ≤ coef z ∧ coef z ≤ 32767)
    (hc : ∀ y < R, ∀ j < W, coef (rs c ss y j) ≤ 32512) {x x' : Abs} {s : St}
    (h : Inv coef p a ds c ss W x s) (i : Ins) (e : astep W R x i = some x') : Inv coef p a ds c ss W x' (step coef ds ds (2 * ss) s i) := by
  cases i with
  | lea0 k =>
    simp only [astep, Option.some.injEq] at e; subst e
    exact ⟨by show s.r0 + k * ds = _; rw [h.r0]; push_cast; ring, h.r2, h.r3, h.reg, h.on, h.off, h.byte⟩
  | lea2 k =>
    simp only [astep, Option.some.injEq] at e; subst e
    exact ⟨h.r0, by show s.r2 + k * ds = _; rw [h.r2]; push_cast; ring, h.r3, h.reg, h.on, h.off, h.byte⟩
  | lea3 k =>
    simp only [astep, Option.some.injEq] at e; subst e
    exact ⟨h.r0, h.r2, by show s.r3 + k * (2 * ss) = _; rw [h.r3]; push_cast; ring, h.reg, h.on, h.off, h.byte⟩
  | pmovzx wide b k off =>
    have key : ∀ (y : Nat), y = x.r2 + k → ∀ o n q : Nat, o = off + 8 * q → 8 * q + 8 ≤ n → free W x.done y o = true → ∀ i < min 8 (W - o),
        lane .pix (cvtepu8_16 fun j => if j < n then ofB (fun j => s.m (s.r2 + k * ds + off + j)) j else 0) (8 * q + i) =
          val coef p a ds c ss .pix y (o + i) := by
      intro y hy o n q ho hn hf i hi
      show w16 _ _ = p _
      rw [w16_cvt, u8_if (by omega), show s.r2 + k * ds + off + ((8 * q + i : Nat) : Int) = ad a ds y (o + i) by
        rw [h.r2, hy, ho]; unfold ad; push_cast; ring]
      have hb := h.byte (ad a ds y (o + i))
      rw [Int.emod_eq_of_lt hb.1 (by omega), h.pixel hW (by omega) (free_spec hf hi)]
    cases wide with
    | false =>
      simp only [astep, Bool.false_eq_true, if_false] at e
      split at e
      · rename_i hf
        simp only [Option.some.injEq] at e; subst e
        refine h.set ?_
        intro q g hg
        match q, hg with
        | 0, hg =>
          simp only [List.getElem?_cons_zero, Option.some.injEq] at hg; subst hg
          exact ⟨Nat.min_le_left _ _, fun i hi => key _ rfl off 8 0 (by omega) (by omega) hf i hi⟩
        | q + 1, hg => simp at hg
      · exact absurd e (by simp)
    | true =>
      simp only [astep, if_true] at e
      split at e
      · rename_i hf
        rw [Bool.and_eq_true] at hf
        simp only [Option.some.injEq] at e; subst e
        refine h.set ?_
        intro q g hg
        match q, hg with
        | 0, hg =>
          simp only [List.getElem?_cons_zero, Option.some.injEq] at hg; subst hg
          exact ⟨Nat.min_le_left _ _, fun i hi => key _ rfl off 16 0 (by omega) (by omega) hf.1 i hi⟩
        | 1, hg =>
          simp only [List.getElem?_cons_succ, List.getElem?_cons_zero, Option.some.injEq] at hg; subst hg
          exact ⟨Nat.min_le_left _ _, fun i hi => key _ rfl (off + 8) 16 1 (by omega) (by omega) hf.2 i hi⟩
        | q + 2, hg => simp at hg
      · exact absurd e (by simp)
  | ldres n b k off =>
    have key : ∀ (y : Nat), y = x.r3 + k → off % 2 = 0 → ∀ o q i : Nat, o = off / 2 + 8 * q → 2 * (8 * q + i) + 1 < n →
        lane .res (fun j => if j < n then ofB (fun j => byteOf coef (s.r3 + k * (2 * ss) + off + j)) j else 0) (8 * q + i) =
          val coef p a ds c ss .res y (o + i) := by
      intro y hy he o q i ho hn
      show w16 _ _ = coef _
      obtain ⟨t, ht⟩ : ∃ t : Nat, off = 2 * t := ⟨off / 2, by omega⟩
      have e1 : s.r3 + k * (2 * ss) + (off : Int) = 2 * (c + ((x.r3 + k : Nat) : Int) * ss + t) := by
        rw [h.r3, ht]; push_cast; ring
      have e2 : (s.r3 + k * (2 * ss) + (off : Int)) / 2 + ((8 * q + i : Nat) : Int) = rs c ss y (o + i) := by
        rw [e1, Int.mul_ediv_cancel_left _ (by omega), hy, ho, ht, Nat.mul_div_cancel_left _ (by omega)]
        unfold rs; push_cast; ring
      have hc' := h16 (rs c ss y (o + i))
      rw [w16_res hn (by rw [e1]; omega) (by rw [e2]; omega), e2]
    simp only [astep] at e
    split at e
    · rename_i he
      split at e
      · rename_i hn
        simp only [Option.some.injEq] at e; subst e
        refine h.set ?_
        intro q g hg
        match q, hg with
        | 0, hg =>
          simp only [List.getElem?_cons_zero, Option.some.injEq] at hg; subst hg
          exact ⟨by dsimp only; omega, fun i hi => key _ rfl he (off / 2) 0 i (by omega) (by dsimp only at hi; omega)⟩
        | q + 1, hg => simp at hg
      · split at e
        · rename_i hn
          simp only [Option.some.injEq] at e; subst e
          refine h.set ?_
          intro q g hg
          match q, hg with
          | 0, hg =>
            simp only [List.getElem?_cons_zero, Option.some.injEq] at hg; subst hg
            exact ⟨by dsimp only; omega, fun i hi => key _ rfl he (off / 2) 0 i (by omega) (by dsimp only at hi; omega)⟩
          | q + 1, hg => simp at hg
        · split at e
          · rename_i hn
            simp only [Option.some.injEq] at e; subst e
            refine h.set ?_
            intro q g hg
            match q, hg with
            | 0, hg =>
              simp only [List.getElem?_cons_zero, Option.some.injEq] at hg; subst hg
              exact ⟨by dsimp only; omega, fun i hi => key _ rfl he (off / 2) 0 i (by omega) (by dsimp only at hi; omega)⟩
            | 1, hg =>
              simp only [List.getElem?_cons_succ, List.getElem?_cons_zero, Option.some.injEq] at hg; subst hg
              exact ⟨by dsimp only; omega, fun i hi => key _ rfl he (off / 2 + 8) 1 i (by omega) (by dsimp only at hi; omega)⟩
            | q + 2, hg => simp at hg
          · exact absurd e (by simp)
    · exact absurd e (by simp)
  | paddw u v =>
    simp only [astep] at e
    split at e
    · rename_i hk
      obtain ⟨k1, k2, k3⟩ := hk
      simp only [Option.some.injEq] at e; subst e
      refine h.set ?_
      intro q g hg
      dsimp only at hg ⊢
      rw [List.getElem?_zipWith] at hg
      cases h1 : (x.reg u).2[q]? with
      | none => rw [h1] at hg; exact absurd hg (by simp)
      | some g1 =>
        cases h2 : (x.reg v).2[q]? with
        | none => rw [h1, h2] at hg; exact absurd hg (by simp)
        | some g2 =>
          rw [h1, h2] at hg
          simp only [Option.some.injEq] at hg
          obtain ⟨a1, a2⟩ := h.reg u q g1 h1
          obtain ⟨b1, b2⟩ := h.reg v q g2 h2
          rw [k1] at a2; rw [k2] at b2
          have hs : (g1.1 = g2.1 ∧ g1.2.1 = g2.2.1) ∧ g1.1 < R ∧ g1.2.1 + g1.2.2 ≤ W := by
            unfold same at k3
            rw [List.all_eq_true] at k3
            have hm : (g1, g2) ∈ (x.reg u).2.zip (x.reg v).2 := by
              apply List.mem_of_getElem? (i := q)
              rw [List.getElem?_zip_eq_some]
              exact ⟨h1, h2⟩
            simpa using k3 _ hm
          subst hg
          refine ⟨by dsimp only; omega, ?_⟩
          intro i hi
          dsimp only at hi ⊢
          show w16 _ _ = p _ + coef _
          have e1 : w16 (s.reg u) (8 * q + i) = p _ := a2 i (by omega)
          have e2 : w16 (s.reg v) (8 * q + i) = coef _ := b2 i (by omega)
          rw [w16_add16, e1, e2, ← hs.1.1, ← hs.1.2]
          apply wrap16_id
          have := hp (ad a ds g1.1 (g1.2.1 + i))
          have := hc g1.1 hs.2.1 (g1.2.1 + i) (by omega)
          have := h16 (rs c ss g1.1 (g1.2.1 + i))
          omega
    · exact absurd e (by simp)
  | packus wide u v =>
    simp only [astep] at e
    split at e
    · rename_i hk
      obtain ⟨k1, k2⟩ := hk
      have hu := h.reg u
      have hv := h.reg v
      split at e
      · rename_i g g' e1 e2
        simp only [Option.some.injEq] at e; subst e
        refine h.set ?_
        intro q g3 hg
        match q, hg with
        | 0, hg =>
          simp only [List.getElem?_cons_zero, Option.some.injEq] at hg; subst hg
          obtain ⟨a1, a2⟩ := hu 0 g (by rw [e1]; rfl)
          rw [k1] at a2
          refine ⟨a1, fun i hi => ?_⟩
          have e3 : w16 (s.reg u) (8 * 0 + i) = _ := a2 i hi
          show u8 (packus16 (s.reg u) (s.reg v)) _ = satu8 _
          rw [u8_packus16, if_pos (by omega), e3]; rfl
        | 1, hg =>
          simp only [List.getElem?_cons_succ, List.getElem?_cons_zero, Option.some.injEq] at hg; subst hg
          obtain ⟨a1, a2⟩ := hv 0 g' (by rw [e2]; rfl)
          rw [k2] at a2
          refine ⟨a1, fun i hi => ?_⟩
          have e3 : w16 (s.reg v) (8 * 0 + i) = _ := a2 i hi
          show u8 (packus16 (s.reg u) (s.reg v)) _ = satu8 _
          rw [u8_packus16, if_neg (by omega), show 8 * 1 + i - 8 = 8 * 0 + i by omega, e3]; rfl
        | q + 2, hg => simp at hg
      · rename_i g0 g1 h0 h1 e1 e2
        simp only [Option.some.injEq] at e; subst e
        refine h.set ?_
        intro q g3 hg
        match q, hg with
        | 0, hg =>
          simp only [List.getElem?_cons_zero, Option.some.injEq] at hg; subst hg
          obtain ⟨a1, a2⟩ := hu 0 g0 (by rw [e1]; rfl)
          rw [k1] at a2
          refine ⟨a1, fun i hi => ?_⟩
          have e3 : w16 (s.reg u) (8 * 0 + i) = _ := a2 i hi
          show u8 (packus16y (s.reg u) (s.reg v)) _ = satu8 _
          rw [u8_packy, if_pos (by omega), show 8 * ((8 * 0 + i) / 16) + (8 * 0 + i) % 16 = 8 * 0 + i by omega, e3]; rfl
        | 1, hg =>
          simp only [List.getElem?_cons_succ, List.getElem?_cons_zero, Option.some.injEq] at hg; subst hg
          obtain ⟨a1, a2⟩ := hv 0 h0 (by rw [e2]; rfl)
          rw [k2] at a2
          refine ⟨a1, fun i hi => ?_⟩
          have e3 : w16 (s.reg v) (8 * 0 + i) = _ := a2 i hi
          show u8 (packus16y (s.reg u) (s.reg v)) _ = satu8 _
          rw [u8_packy, if_neg (by omega), show 8 * ((8 * 1 + i) / 16) + ((8 * 1 + i) % 16 - 8) = 8 * 0 + i by omega, e3]; rfl
        | 2, hg =>
          simp only [List.getElem?_cons_succ, List.getElem?_cons_zero, Option.some.injEq] at hg; subst hg
          obtain ⟨a1, a2⟩ := hu 1 g1 (by rw [e1]; rfl)
          rw [k1] at a2
          refine ⟨a1, fun i hi => ?_⟩
          have e3 : w16 (s.reg u) (8 * 1 + i) = _ := a2 i hi
          show u8 (packus16y (s.reg u) (s.reg v)) _ = satu8 _
          rw [u8_packy, if_pos (by omega), show 8 * ((8 * 2 + i) / 16) + (8 * 2 + i) % 16 = 8 * 1 + i by omega, e3]; rfl
        | 3, hg =>
          simp only [List.getElem?_cons_succ, List.getElem?_cons_zero, Option.some.injEq] at hg; subst hg
          obtain ⟨a1, a2⟩ := hv 1 h1 (by rw [e2]; rfl)
          rw [k2] at a2
          refine ⟨a1, fun i hi => ?_⟩
          have e3 : w16 (s.reg v) (8 * 1 + i) = _ := a2 i hi
          show u8 (packus16y (s.reg u) (s.reg v)) _ = satu8 _
          rw [u8_packy, if_neg (by omega), show 8 * ((8 * 3 + i) / 16) + ((8 * 3 + i) % 16 - 8) = 8 * 1 + i by omega, e3]; rfl
        | q + 4, hg => simp at hg
      · exact absurd e (by simp)
    · exact absurd e (by simp)
  | vpermq u v imm =>
    simp only [astep] at e
    split at e
    · rename_i k1
      have hv := h.reg v
      split at e
      · rename_i g0 g1 g2 g3 e1
        simp only [Option.some.injEq] at e; subst e
        refine h.set ?_
        intro q g hg
        have hq : q < 4 := by
          by_contra hq
          rw [List.getElem?_eq_none (by rw [List.length_map, List.length_range]; omega)] at hg
          exact absurd hg (by simp)
        rw [List.getElem?_map, List.getElem?_range hq, Option.map_some, Option.some.injEq] at hg
        have hr : imm / 4 ^ q % 4 < 4 := Nat.mod_lt _ (by omega)
        generalize hr' : imm / 4 ^ q % 4 = r at hg hr
        have hg' : (x.reg v).2[r]? = some g := by
          rw [e1, ← hg, List.getD_eq_getElem?_getD]
          have : r < [g0, g1, g2, g3].length := hr
          rw [List.getElem?_eq_getElem this]; rfl
        obtain ⟨a1, a2⟩ := hv r g hg'
        rw [k1] at a2
        refine ⟨a1, fun i hi => ?_⟩
        have e3 : u8 (s.reg v) (8 * r + i) = _ := a2 i hi
        show u8 (permute4x64 imm (s.reg v)) (8 * q + i) = _
        rw [← e3]
        unfold permute4x64 u8
        dsimp only
        rw [show (8 * q + i) / 8 = q by omega, hr', show (8 * q + i) % 8 = i by omega]
      · exact absurd e (by simp)
    · exact absurd e (by simp)
  | vextract u v =>
    simp only [astep] at e
    split at e
    · rename_i k1
      have hv := h.reg v
      split at e
      · rename_i g0 g1 g2 g3 e1
        simp only [Option.some.injEq] at e; subst e
        refine h.set ?_
        intro q g hg
        have key : ∀ q' , q' = q + 2 → q < 2 → (x.reg v).2[q']? = some g → g.2.2 ≤ 8 ∧
            ∀ i < g.2.2, lane .byt (high128 (s.reg v)) (8 * q + i) = val coef p a ds c ss .byt g.1 (g.2.1 + i) := by
          intro q' hq' hq hg'
          obtain ⟨a1, a2⟩ := hv q' g hg'
          rw [k1] at a2
          refine ⟨a1, fun i hi => ?_⟩
          have e3 : u8 (s.reg v) (8 * q' + i) = _ := a2 i hi
          show u8 (high128 (s.reg v)) (8 * q + i) = _
          rw [← e3]
          unfold high128 u8
          dsimp only
          rw [if_pos (by omega), show 16 + (8 * q + i) = 8 * q' + i by omega]
        match q, hg, key with
        | 0, hg, key => exact key 2 rfl (by omega) (by rw [e1]; exact hg)
        | 1, hg, key => exact key 3 rfl (by omega) (by rw [e1]; exact hg)
        | q + 2, hg, _ => simp at hg
      · exact absurd e (by simp)
    · exact absurd e (by simp)
  | st n k off u =>
    simp only [astep] at e
    split at e
    · rename_i hk
      obtain ⟨k1, k2, k3⟩ := hk
      simp only [Option.some.injEq] at e; subst e
      have hA : s.r0 + k * ds + off = ad a ds (x.r0 + k) off := by rw [h.r0]; unfold ad; push_cast; ring
      have hA' : ∀ j : Nat, ad a ds (x.r0 + k) (off + j) = ad a ds (x.r0 + k) off + j := by intro j; unfold ad; push_cast; ring
      have hval : ∀ j < n, u8 (s.reg u) j = val coef p a ds c ss .byt (x.r0 + k) (off + j) := by
        intro j hj
        unfold fits at k3
        rw [List.all_eq_true] at k3
        have k4 := k3 j (List.mem_range.2 hj)
        split at k4
        · rename_i g hg
          simp only [Bool.and_eq_true, beq_iff_eq, decide_eq_true_eq] at k4
          obtain ⟨⟨y1, y2⟩, y3⟩ := k4
          obtain ⟨_, a2⟩ := h.reg u (j / 8) g hg
          rw [k1] at a2
          have e3 : u8 (s.reg u) (8 * (j / 8) + j % 8) = _ := a2 (j % 8) y3
          rw [show 8 * (j / 8) + j % 8 = j by omega] at e3
          rw [e3, y1, y2]
        · exact absurd k4 (by decide)
      have hhit : ∀ y j, hit ((x.r0 + k, off, n) :: x.done) y j = true ↔ (y = x.r0 + k ∧ off ≤ j ∧ j < off + n) ∨ hit x.done y j = true := by
        intro y j
        unfold hit
        rw [List.any_cons]
        simp only [Bool.or_eq_true, Bool.and_eq_true, beq_iff_eq, decide_eq_true_eq]
        constructor
        · rintro (⟨⟨h1, h2⟩, h3⟩ | h1)
          · exact Or.inl ⟨h1.symm, h2, h3⟩
          · exact Or.inr h1
        · rintro (⟨h1, h2, h3⟩ | h1)
          · exact Or.inl ⟨⟨h1.symm, h2⟩, h3⟩
          · exact Or.inr h1
      refine ⟨h.r0, h.r2, h.r3, h.reg, ?_, ?_, ?_⟩
      · intro y j hj hh
        show put s.m (s.r0 + k * ds + off) n (s.reg u) (ad a ds y j) = _
        unfold put
        rw [hA]
        split
        · rename_i hz
          have e1 : ad a ds y j = ad a ds (x.r0 + k) (off + (ad a ds y j - ad a ds (x.r0 + k) off).toNat) := by rw [hA']; omega
          obtain ⟨e2, e3⟩ := ad_inj hW hj (by omega) e1
          rw [hval _ (by omega), ← e3, ← e2]
        · rename_i hz
          rcases (hhit y j).1 hh with ⟨h1, h2, h3⟩ | h1
          · exfalso
            apply hz
            have := hA' (j - off)
            rw [show off + (j - off) = j by omega] at this
            rw [h1, this]
            omega
          · exact h.on y j hj h1
      · intro z hz
        show put s.m (s.r0 + k * ds + off) n (s.reg u) z = _
        unfold put
        rw [hA]
        split
        · rename_i hz'
          exfalso
          refine hz (x.r0 + k) (off + (z - ad a ds (x.r0 + k) off).toNat) (by omega) ((hhit _ _).2 (Or.inl ⟨rfl, by omega, by omega⟩)) ?_
          rw [hA']
          omega
        · exact h.off z fun y j hj hh => hz y j hj ((hhit y j).2 (Or.inr hh))
      · intro z
        show 0 ≤ put s.m _ n (s.reg u) z ∧ put s.m _ n (s.reg u) z ≤ 255
        unfold put
        split
        · exact u8_range _ _
        · exact h.byte z
    · exact absurd e (by simp)

theorem exec_sound (hW : (W : Int) ≤ ds) (hp : ∀ z, 0 ≤ p z ∧ p z ≤ 255) (h16 : ∀ z, -32768 ≤ coef z ∧ coef z ≤ 32767)
    (hc : ∀ y < R, ∀ j < W, coef (rs c ss y j) ≤ 32512) (l : List Ins) :
    ∀ {x x' : Abs} {s : St}, Inv coef p a ds c ss W x s → aexec W R l x = some x' → Inv coef p a ds c ss W x' (exec coef ds ds (2 * ss) l s) := by
  induction l with
  | nil => intro x x' s h e; simp only [aexec, Option.some.injEq] at e; subst e; exact h
  | cons i l ih =>
    intro x x' s h e
    rw [aexec] at e
    cases hx : astep W R x i with
    | none => rw [hx] at e; exact absurd e (by simp)
    | some y =>
      rw [hx] at e
      exact ih (step_sound hW hp h16 hc h i hx) e

/-- One run of a body that passed the check. -/
theorem body_sound {adv : Bool} {l : List Ins} (hg : good W R adv l = true) (hW : (W : Int) ≤ ds) (hp : ∀ z, 0 ≤ p z ∧ p z ≤ 255)
    (h16 : ∀ z, -32768 ≤ coef z ∧ coef z ≤ 32767)
    (hc : ∀ y < R, ∀ j < W, coef (rs c ss y j) ≤ 32512) {s : St} (h0 : s.r0 = a) (h2 : s.r2 = a) (h3 : s.r3 = 2 * c) (hm : s.m = p) :
    let t := exec coef ds ds (2 * ss) l s
    (∀ y < R, ∀ j < W, t.m (ad a ds y j) = satu8 (p (ad a ds y j) + coef (rs c ss y j))) ∧
    (∀ z, (∀ y < R, ∀ j < W, z ≠ ad a ds y j) → t.m z = p z) ∧ (∀ z, 0 ≤ t.m z ∧ t.m z ≤ 255) ∧
    (adv = true → t.r0 = a + R * ds ∧ t.r2 = a + R * ds ∧ t.r3 = 2 * (c + R * ss)) := by
  have h : Inv coef p a ds c ss W aInit s := by
    refine ⟨by simp [h0, aInit], by simp [h2, aInit], by simp [h3, aInit], ?_, ?_, ?_, ?_⟩
    · intro i q g hg'; simp [aInit] at hg'
    · intro y j _ hh; exact absurd hh (by simp [aInit, hit])
    · intro z _; rw [hm]
    · intro z; rw [hm]; exact hp z
  unfold good at hg
  split at hg
  · rename_i x hx
    simp only [Bool.and_eq_true, List.all_eq_true, List.mem_range, decide_eq_true_eq, Bool.or_eq_true, beq_iff_eq] at hg
    obtain ⟨⟨g1, g2⟩, g3⟩ := hg
    have ht := exec_sound hW hp h16 hc l h hx
    refine ⟨fun y hy j hj => ht.on y j hj (g1 y hy j hj), ?_, ht.byte, ?_⟩
    · intro z hz
      refine ht.off z fun y j hj hh => hz y ?_ j hj
      unfold hit at hh
      rw [List.any_eq_true] at hh
      obtain ⟨g, gm, gh⟩ := hh
      simp only [Bool.and_eq_true, beq_iff_eq] at gh
      rw [← gh.1.1]
      exact g2 g gm
    · intro ha
      subst ha
      rcases g3 with g3 | ⟨⟨q0, q2⟩, q3⟩
      · exact absurd g3 (by decide)
      · exact ⟨by rw [ht.r0, q0], by rw [ht.r2, q2], by rw [ht.r3, q3]⟩
  · exact absurd hg (by decide)

end Davs2.Va
