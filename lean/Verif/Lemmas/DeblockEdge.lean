import Verif.Spec.Edges
import Mathlib.Data.List.Induction
import Mathlib.Tactic.Ring
/-
Lemmas on the marking of edges.
-/
namespace Davs2.De

open Db (Dir)
open Spec

theorem mark_ver (t : Nat) : ∀ (n x y : Nat) (f : Flags) (v : Nat), (∀ j, j < n → f .ver x (y + j) = v) →
    mark .ver t n x y f = fun d' x' y' => if v = 0 ∧ d' = .ver ∧ x' = x ∧ y ≤ y' ∧ y' < y + n then t else f d' x' y'
  | 0, x, y, f, v, _ => by
    funext d' x' y'
    rw [if_neg (by omega)]; rfl
  | n + 1, x, y, f, v, h => by
    have h0 : f .ver x y = v := h 0 (by omega)
    unfold mark
    by_cases hv : v = 0
    · rw [if_neg (by rw [h0]; omega)]
      show mark .ver t n x (y + 1) _ = _
      rw [mark_ver t n x (y + 1) _ 0 (fun j hj => ?_)]
      · funext d' x' y'
        by_cases c1 : d' = .ver ∧ x' = x
        · by_cases c2 : y' = y
          · rw [if_neg (by omega), if_pos (by refine ⟨hv, c1.1, c1.2, ?_, ?_⟩ <;> omega)]
            exact if_pos ⟨c1.1, c1.2, c2⟩
          · by_cases c3 : y ≤ y' ∧ y' < y + (n + 1)
            · rw [if_pos (by refine ⟨rfl, c1.1, c1.2, ?_, ?_⟩ <;> omega), if_pos ⟨hv, c1.1, c1.2, c3⟩]
            · rw [if_neg (by omega), if_neg (by omega)]
              exact if_neg (by omega)
        · rw [if_neg (by tauto), if_neg (by tauto)]
          exact if_neg (by tauto)
      · show (if _ then _ else _) = _
        rw [if_neg (by omega), Nat.add_assoc, Nat.add_comm 1 j, h (j + 1) (by omega)]
        exact hv
    · rw [if_pos (by rw [h0]; exact hv)]
      funext d' x' y'
      rw [if_neg (by tauto)]

theorem mark_hor (t : Nat) : ∀ (n x y : Nat) (f : Flags) (v : Nat), (∀ j, j < n → f .hor (x + j) y = v) →
    mark .hor t n x y f = fun d' x' y' => if v = 0 ∧ d' = .hor ∧ y' = y ∧ x ≤ x' ∧ x' < x + n then t else f d' x' y'
  | 0, x, y, f, v, _ => by
    funext d' x' y'
    rw [if_neg (by omega)]; rfl
  | n + 1, x, y, f, v, h => by
    have h0 : f .hor x y = v := h 0 (by omega)
    unfold mark
    by_cases hv : v = 0
    · rw [if_neg (by rw [h0]; omega)]
      show mark .hor t n (x + 1) y _ = _
      rw [mark_hor t n (x + 1) y _ 0 (fun j hj => ?_)]
      · funext d' x' y'
        by_cases c1 : d' = .hor ∧ y' = y
        · by_cases c2 : x' = x
          · rw [if_neg (by omega), if_pos (by refine ⟨hv, c1.1, c1.2, ?_, ?_⟩ <;> omega)]
            exact if_pos ⟨c1.1, c2, c1.2⟩
          · by_cases c3 : x ≤ x' ∧ x' < x + (n + 1)
            · rw [if_pos (by refine ⟨rfl, c1.1, c1.2, ?_, ?_⟩ <;> omega), if_pos ⟨hv, c1.1, c1.2, c3⟩]
            · rw [if_neg (by omega), if_neg (by omega)]
              exact if_neg (by omega)
        · rw [if_neg (by tauto), if_neg (by tauto)]
          exact if_neg (by tauto)
      · show (if _ then _ else _) = _
        rw [if_neg (by omega), Nat.add_assoc, Nat.add_comm 1 j, h (j + 1) (by omega)]
        exact hv
    · rw [if_pos (by rw [h0]; exact hv)]
      funext d' x' y'
      rw [if_neg (by tauto)]

/-- The type of the first call for direction `d` at distance `o`. -/
def look (l : List (Dir × Nat × Nat)) (d : Dir) (o : Nat) : Nat :=
  match l with
  | [] => 0
  | e :: l => if e.1 = d ∧ e.2.1 = o then e.2.2 else look l d o

/-- `barred` at a distance from the corner. -/
def barredAt (p : Pic) (x y : Nat) (d : Dir) (o : Nat) : Bool := match d with
  | .ver => barred p .ver (x + o) y
  | .hor => barred p .hor x (y + o)

/-- One call, as made by `setCu`. -/
def oneCall (p : Pic) (k x y : Nat) (f : Flags) (e : Dir × Nat × Nat) : Flags := match e.1 with
  | .ver => setEdge p k (x + e.2.1) y .ver e.2.2 f
  | .hor => setEdge p k x (y + e.2.1) .hor e.2.2 f

/-- The flags in a square depend on the distance from the border only. -/
def Uniform (k x y : Nat) (f : Flags) (g : Dir → Nat → Nat) : Prop :=
  ∀ d a b, a < 2 ^ k → b < 2 ^ k → f d (x + a) (y + b) = g d (along d a b)

theorem oneCall_uniform {p : Pic} {k x y : Nat} {f : Flags} {g : Dir → Nat → Nat} (hf : Uniform k x y f g)
    (e : Dir × Nat × Nat) (ho : e.2.1 < 2 ^ k)
    (hin : ∀ (d : Dir) (o : Nat), 0 < o → o < 2 ^ k → barredAt p x y d o = false) :
    Uniform k x y (oneCall p k x y f e)
      (fun d o => if g d o = 0 ∧ e.1 = d ∧ e.2.1 = o ∧ ¬ (o = 0 ∧ barred p d x y) then e.2.2 else g d o) ∧
    ∀ d X Y, ¬ ((x ≤ X ∧ X < x + 2 ^ k) ∧ y ≤ Y ∧ Y < y + 2 ^ k) → oneCall p k x y f e d X Y = f d X Y := by
  obtain ⟨d0, o, t⟩ := e
  simp only at ho
  cases d0 with
  | ver =>
    show Uniform k x y (setEdge p k (x + o) y .ver t f) _ ∧ ∀ d X Y, _ → setEdge p k (x + o) y .ver t f d X Y = _
    unfold setEdge
    by_cases hb : barred p .ver (x + o) y
    · have h0 : o = 0 := by
        by_contra hne
        have := hin .ver o (by omega) ho
        unfold barredAt at this
        dsimp only at this
        rw [this] at hb; exact absurd hb (by decide)
      subst h0
      rw [if_pos hb]
      refine ⟨fun d a b ha hb' => ?_, fun _ _ _ _ => rfl⟩
      rw [hf d a b ha hb']
      refine (if_neg ?_).symm
      rintro ⟨-, h2, h3, h4⟩
      subst h2
      exact h4 ⟨h3.symm, hb⟩
    · rw [if_neg hb, mark_ver t (2 ^ k) (x + o) y f (g .ver o) (fun j hj => hf .ver o j ho hj)]
      refine ⟨fun d a b ha hb' => ?_, fun d X Y hn => ?_⟩
      · show (if _ then _ else _) = if _ then _ else _
        by_cases hd : d = .ver
        · subst hd
          show (if _ then _ else _) = if _ then _ else _
          by_cases hao : a = o
          · subst hao
            have hbb : ¬ (a = 0 ∧ barred p .ver x y = true) := by
              rintro ⟨h, h'⟩; subst h; exact hb h'
            by_cases hg : g .ver a = 0
            · exact (if_pos ⟨hg, rfl, rfl, by omega, by omega⟩).trans (if_pos ⟨hg, rfl, rfl, hbb⟩).symm
            · exact (if_neg fun h => hg h.1).trans ((hf .ver a b ha hb').trans (if_neg fun h => hg h.1).symm)
          · rw [if_neg (by omega), if_neg (by rintro ⟨-, -, h, -⟩; exact hao h.symm)]
            exact hf .ver a b ha hb'
        · rw [if_neg (by tauto), if_neg (by rintro ⟨-, h, -⟩; exact hd h.symm)]
          exact hf d a b ha hb'
      · exact if_neg (by rintro ⟨-, h2, h3, h4⟩; omega)
  | hor =>
    show Uniform k x y (setEdge p k x (y + o) .hor t f) _ ∧ ∀ d X Y, _ → setEdge p k x (y + o) .hor t f d X Y = _
    unfold setEdge
    by_cases hb : barred p .hor x (y + o)
    · have h0 : o = 0 := by
        by_contra hne
        have := hin .hor o (by omega) ho
        unfold barredAt at this
        dsimp only at this
        rw [this] at hb; exact absurd hb (by decide)
      subst h0
      rw [if_pos hb]
      refine ⟨fun d a b ha hb' => ?_, fun _ _ _ _ => rfl⟩
      rw [hf d a b ha hb']
      refine (if_neg ?_).symm
      rintro ⟨-, h2, h3, h4⟩
      subst h2
      exact h4 ⟨h3.symm, hb⟩
    · rw [if_neg hb, mark_hor t (2 ^ k) x (y + o) f (g .hor o) (fun j hj => hf .hor j o hj ho)]
      refine ⟨fun d a b ha hb' => ?_, fun d X Y hn => ?_⟩
      · show (if _ then _ else _) = if _ then _ else _
        by_cases hd : d = .hor
        · subst hd
          by_cases hao : b = o
          · subst hao
            have hbb : ¬ (b = 0 ∧ barred p .hor x y = true) := by
              rintro ⟨h, h'⟩; subst h; exact hb h'
            by_cases hg : g .hor b = 0
            · exact (if_pos ⟨hg, rfl, rfl, by omega, by omega⟩).trans (if_pos ⟨hg, rfl, rfl, hbb⟩).symm
            · exact (if_neg fun h => hg h.1).trans ((hf .hor a b ha hb').trans (if_neg fun h => hg h.1).symm)
          · rw [if_neg (by omega), if_neg (by rintro ⟨-, -, h, -⟩; exact hao h.symm)]
            exact hf .hor a b ha hb'
        · rw [if_neg (by tauto), if_neg (by rintro ⟨-, h, -⟩; exact hd h.symm)]
          exact hf d a b ha hb'
      · exact if_neg (by rintro ⟨-, h2, h3, h4⟩; omega)

theorem calls_uniform {p : Pic} {k x y : Nat}
    (hin : ∀ (d : Dir) (o : Nat), 0 < o → o < 2 ^ k → barredAt p x y d o = false) :
    ∀ (l : List (Dir × Nat × Nat)) (f : Flags) (g : Dir → Nat → Nat), Uniform k x y f g →
    (∀ e ∈ l, e.2.1 < 2 ^ k ∧ e.2.2 ≠ 0) →
    Uniform k x y (l.foldl (oneCall p k x y) f)
      (fun d o => if g d o ≠ 0 then g d o else if o = 0 ∧ barred p d x y then 0 else look l d o) ∧
    ∀ d X Y, ¬ ((x ≤ X ∧ X < x + 2 ^ k) ∧ y ≤ Y ∧ Y < y + 2 ^ k) → l.foldl (oneCall p k x y) f d X Y = f d X Y
  | [], f, g, hf, _ => by
    refine ⟨fun d a b ha hb => ?_, fun _ _ _ _ => rfl⟩
    refine (hf d a b ha hb).trans ?_
    dsimp only [look]
    split_ifs <;> omega
  | e :: l, f, g, hf, hl => by
    obtain ⟨ho, ht⟩ := hl e (List.mem_cons_self ..)
    obtain ⟨h1, h2⟩ := oneCall_uniform hf e ho hin
    obtain ⟨h3, h4⟩ := calls_uniform hin l _ _ h1 (fun e' m => hl e' (List.mem_cons_of_mem _ m))
    refine ⟨fun d a b ha hb => ?_, fun d X Y hn => (h4 d X Y hn).trans (h2 d X Y hn)⟩
    refine (h3 d a b ha hb).trans ?_
    dsimp only
    generalize along d a b = o
    dsimp only [look]
    by_cases hg : g d o = 0
    · by_cases hm : e.1 = d ∧ e.2.1 = o
      · by_cases hb' : o = 0 ∧ barred p d x y
        · rw [if_neg (show ¬ (g d o = 0 ∧ e.1 = d ∧ e.2.1 = o ∧ ¬ (o = 0 ∧ barred p d x y)) from fun h => h.2.2.2 hb'), if_pos hb', if_pos hb']
        · rw [if_pos (show g d o = 0 ∧ e.1 = d ∧ e.2.1 = o ∧ _ from ⟨hg, hm.1, hm.2, hb'⟩), if_pos ht, if_neg (by tauto), if_neg hb', if_pos hm]
      · rw [if_neg (show ¬ (g d o = 0 ∧ e.1 = d ∧ e.2.1 = o ∧ _) by tauto), if_neg hm]
    · rw [if_neg (show ¬ (g d o = 0 ∧ e.1 = d ∧ e.2.1 = o ∧ _) by tauto), if_pos hg, if_pos hg]

/-- What the trees of a picture look like: `K` is the level of the coding trees minus 3, all 8x8 blocks of a coding unit hold the
same information, the units are aligned and inside the picture, the blocks of a coding tree are in one slice. -/
structure Pic.Tree (p : Pic) (K : Nat) : Prop where
  lev : ∀ x y, x < p.w → y < p.h → 3 ≤ (p.cu x y).level ∧ (p.cu x y).level ≤ K + 3
  fit : ∀ x y, x < p.w → y < p.h → x / 2 ^ ((p.cu x y).level - 3) * 2 ^ ((p.cu x y).level - 3) + 2 ^ ((p.cu x y).level - 3) ≤ p.w ∧
    y / 2 ^ ((p.cu x y).level - 3) * 2 ^ ((p.cu x y).level - 3) + 2 ^ ((p.cu x y).level - 3) ≤ p.h
  same : ∀ x y x' y', x < p.w → y < p.h → x' / 2 ^ ((p.cu x y).level - 3) = x / 2 ^ ((p.cu x y).level - 3) →
    y' / 2 ^ ((p.cu x y).level - 3) = y / 2 ^ ((p.cu x y).level - 3) → p.cu x' y' = p.cu x y
  slices : ∀ x y x' y', x < p.w → y < p.h → x' < p.w → y' < p.h → x / 2 ^ K = x' / 2 ^ K → y / 2 ^ K = y' / 2 ^ K →
    (p.cu x y).slice = (p.cu x' y').slice

/-- The flag that the tree sets for a block. -/
def want (p : Pic) (d : Dir) (x y : Nat) : Nat :=
  let c := p.cu x y
  let o := along d x y % 2 ^ (c.level - 3)
  if o = 0 ∧ barred p d x y then 0 else look (calls p.nsqt (c.level - 3) c) d o

theorem div_block {k x X : Nat} (hx : 2 ^ k ∣ x) (h1 : x ≤ X) (h2 : X < x + 2 ^ k) : X / 2 ^ k = x / 2 ^ k ∧ X % 2 ^ k = X - x := by
  obtain ⟨q, rfl⟩ := hx
  have e : X = 2 ^ k * q + (X - 2 ^ k * q) := by omega
  have h3 : X - 2 ^ k * q < 2 ^ k := by omega
  rw [Nat.mul_div_cancel_left _ (Nat.two_pow_pos k)]
  generalize X - 2 ^ k * q = r at e h3
  subst e
  rw [Nat.mul_add_div (Nat.two_pow_pos k), Nat.div_eq_of_lt h3, Nat.mul_add_mod, Nat.mod_eq_of_lt h3]
  exact ⟨rfl, rfl⟩

theorem div_le_level {k K a b : Nat} (hk : k ≤ K) (h : a / 2 ^ k = b / 2 ^ k) : a / 2 ^ K = b / 2 ^ K := by
  have e : 2 ^ K = 2 ^ k * 2 ^ (K - k) := by rw [← Nat.pow_add]; congr 1; omega
  rw [e, ← Nat.div_div_eq_div_mul, ← Nat.div_div_eq_div_mul, h]

/-- The leaf case. -/
theorem setCu_want {p : Pic} {K k x y : Nat} {f : Flags} (hp : p.Tree K) (hx : x < p.w) (hy : y < p.h) (hk : (p.cu x y).level = k + 3)
    (dx : 2 ^ k ∣ x) (dy : 2 ^ k ∣ y) (hc : ∀ e ∈ calls p.nsqt k (p.cu x y), e.2.1 < 2 ^ k ∧ e.2.2 ≠ 0)
    (hf : ∀ d X Y, (x ≤ X ∧ X < x + 2 ^ k) ∧ y ≤ Y ∧ Y < y + 2 ^ k → f d X Y = 0) (d : Dir) (X Y : Nat) :
    setCu p k x y f d X Y = if (x ≤ X ∧ X < x + 2 ^ k) ∧ y ≤ Y ∧ Y < y + 2 ^ k then want p d X Y else f d X Y := by
  have hk' : (p.cu x y).level - 3 = k := by omega
  have hkK : k ≤ K := by have := (hp.lev x y hx hy).2; omega
  have hsame : ∀ X Y, (x ≤ X ∧ X < x + 2 ^ k) ∧ y ≤ Y ∧ Y < y + 2 ^ k → p.cu X Y = p.cu x y := by
    rintro X Y ⟨⟨h1, h2⟩, h3, h4⟩
    refine hp.same x y X Y hx hy ?_ ?_ <;> rw [hk']
    · exact (div_block dx h1 h2).1
    · exact (div_block dy h3 h4).1
  have hfit := hp.fit x y hx hy
  rw [hk', Nat.div_mul_cancel dx, Nat.div_mul_cancel dy] at hfit
  have hp2 := Nat.two_pow_pos k
  have hin : ∀ (d : Dir) (o : Nat), 0 < o → o < 2 ^ k → barredAt p x y d o = false := by
    intro d o h0 ho
    cases d with
    | ver =>
      show barred p .ver (x + o) y = false
      unfold barred
      have e1 := hsame (x + o) y (by omega)
      have e2 := hsame (x + o - 1) y (by omega)
      simp only [e1, e2, bne_self_eq_false, Bool.and_false, Bool.or_false, beq_eq_false_iff_ne]
      omega
    | hor =>
      show barred p .hor x (y + o) = false
      unfold barred
      have e1 := hsame x (y + o) (by omega)
      have e2 := hsame x (y + o - 1) (by omega)
      simp only [e1, e2, bne_self_eq_false, Bool.and_false, Bool.or_false, beq_eq_false_iff_ne]
      omega
  have hu : Uniform k x y f (fun _ _ => 0) := fun d a b ha hb => hf d _ _ (by omega)
  obtain ⟨h1, h2⟩ := calls_uniform hin (calls p.nsqt k (p.cu x y)) f _ hu hc
  show (calls p.nsqt k (p.cu x y)).foldl (oneCall p k x y) f d X Y = _
  by_cases hR : (x ≤ X ∧ X < x + 2 ^ k) ∧ y ≤ Y ∧ Y < y + 2 ^ k
  · rw [if_pos hR]
    obtain ⟨⟨r1, r2⟩, r3, r4⟩ := hR
    have := h1 d (X - x) (Y - y) (by omega) (by omega)
    rw [show x + (X - x) = X by omega, show y + (Y - y) = Y by omega] at this
    rw [this]
    have e := hsame X Y ⟨⟨r1, r2⟩, r3, r4⟩
    have ho : along d X Y % 2 ^ k = along d (X - x) (Y - y) := by
      cases d with
      | ver => exact (div_block dx r1 r2).2
      | hor => exact (div_block dy r3 r4).2
    unfold want
    simp only [e, hk', ho]
    rw [if_neg (by omega)]
    have hbar : along d (X - x) (Y - y) = 0 → barred p d X Y = barred p d x y := by
      intro h0
      cases d with
      | ver =>
        have hX : X = x := by simp only [along] at h0; omega
        subst hX
        unfold barred
        dsimp only
        by_cases hz : X = 0
        · subst hz; rfl
        · have := hp.slices (X - 1) Y (X - 1) y (by omega) (by omega) (by omega) hy rfl
            (div_le_level hkK (div_block dy r3 r4).1)
          rw [e, this]
      | hor =>
        have hY : Y = y := by simp only [along] at h0; omega
        subst hY
        unfold barred
        dsimp only
        by_cases hz : Y = 0
        · subst hz; rfl
        · have := hp.slices X (Y - 1) x (Y - 1) (by omega) (by omega) hx (by omega)
            (div_le_level hkK (div_block dx r1 r2).1) rfl
          rw [e, this]
    by_cases h0 : along d (X - x) (Y - y) = 0
    · rw [hbar h0]
    · rw [if_neg (by tauto), if_neg (by tauto)]
  · rw [if_neg hR]
    exact h2 d X Y hR

/-- The whole tree. -/
theorem setTree_want {p : Pic} {K : Nat} (hp : p.Tree K)
    (hc : ∀ x y, x < p.w → y < p.h → ∀ e ∈ calls p.nsqt ((p.cu x y).level - 3) (p.cu x y), e.2.1 < 2 ^ ((p.cu x y).level - 3) ∧ e.2.2 ≠ 0) :
    ∀ (k x y : Nat) (f : Flags), k ≤ K → x < p.w → y < p.h → 2 ^ k ∣ x → 2 ^ k ∣ y → (p.cu x y).level ≤ k + 3 ∨ k = K →
    (∀ d X Y, (x ≤ X ∧ X < x + 2 ^ k) ∧ y ≤ Y ∧ Y < y + 2 ^ k → f d X Y = 0) →
    (∀ X Y, X < p.w → Y < p.h → (x ≤ X ∧ X < x + 2 ^ k) ∧ y ≤ Y ∧ Y < y + 2 ^ k → (p.cu X Y).level ≤ k + 3) →
    ∀ d X Y, setTree p k x y f d X Y =
      if (x ≤ X ∧ X < x + 2 ^ k) ∧ (y ≤ Y ∧ Y < y + 2 ^ k) ∧ X < p.w ∧ Y < p.h then want p d X Y else f d X Y
  | 0, x, y, f, hkK, hx, hy, dx, dy, _, hf, hl, d, X, Y => by
    have h1 := (hp.lev x y hx hy).1
    have h2 := hl x y hx hy (by simp)
    have e : (p.cu x y).level = 0 + 3 := by omega
    have := hc x y hx hy
    rw [e] at this
    show setCu p 0 x y f d X Y = _
    rw [setCu_want hp hx hy e dx dy this hf]
    by_cases hR : (x ≤ X ∧ X < x + 2 ^ 0) ∧ y ≤ Y ∧ Y < y + 2 ^ 0
    · rw [if_pos hR, if_pos (by simp only [Nat.pow_zero] at hR ⊢; omega)]
    · rw [if_neg hR, if_neg (by tauto)]
  | k + 1, x, y, f, hkK, hx, hy, dx, dy, _, hf, hl, d, X, Y => by
    unfold setTree
    have hpow : 2 ^ (k + 1) = 2 * 2 ^ k := by rw [Nat.pow_succ]; ring
    have hp2 := Nat.two_pow_pos k
    by_cases hs : (p.cu x y).level < k + 1 + 3
    · rw [if_pos hs]
      -- no block of the square belongs to a unit that covers the square
      have hlow : ∀ X Y, X < p.w → Y < p.h → (x ≤ X ∧ X < x + 2 ^ (k + 1)) ∧ y ≤ Y ∧ Y < y + 2 ^ (k + 1) → (p.cu X Y).level ≤ k + 3 := by
        intro X Y hX hY hR
        have := hl X Y hX hY hR
        by_contra hgt
        have e : (p.cu X Y).level - 3 = k + 1 := by omega
        have := hp.same X Y x y hX hY (by rw [e]; exact (div_block dx hR.1.1 hR.1.2).1.symm)
          (by rw [e]; exact (div_block dy hR.2.1 hR.2.2).1.symm)
        rw [this] at hs
        omega
      have step : ∀ (a b : Nat), a ≤ 1 → b ≤ 1 → ∀ g : Flags,
          (∀ d X Y, (x + a * 2 ^ k ≤ X ∧ X < x + a * 2 ^ k + 2 ^ k) ∧ y + b * 2 ^ k ≤ Y ∧ Y < y + b * 2 ^ k + 2 ^ k → g d X Y = 0) →
          ∀ d X Y, (if x + a * 2 ^ k ≥ p.w ∨ y + b * 2 ^ k ≥ p.h then g else setTree p k (x + a * 2 ^ k) (y + b * 2 ^ k) g) d X Y =
            if (x + a * 2 ^ k ≤ X ∧ X < x + a * 2 ^ k + 2 ^ k) ∧ (y + b * 2 ^ k ≤ Y ∧ Y < y + b * 2 ^ k + 2 ^ k) ∧ X < p.w ∧ Y < p.h
            then want p d X Y else g d X Y := by
        intro a b ha hb g hg d X Y
        by_cases ho : x + a * 2 ^ k ≥ p.w ∨ y + b * 2 ^ k ≥ p.h
        · rw [if_pos ho, if_neg (by omega)]
        · rw [if_neg ho]
          have ea : a * 2 ^ k ≤ 1 * 2 ^ k := Nat.mul_le_mul_right _ ha
          have eb : b * 2 ^ k ≤ 1 * 2 ^ k := Nat.mul_le_mul_right _ hb
          have d1 : 2 ^ k ∣ x := Dvd.dvd.trans ⟨2, by rw [hpow]; ring⟩ dx
          have d2 : 2 ^ k ∣ y := Dvd.dvd.trans ⟨2, by rw [hpow]; ring⟩ dy
          refine setTree_want hp hc k _ _ g (by omega) (by omega) (by omega) (Nat.dvd_add d1 (Nat.dvd_mul_left _ _))
            (Nat.dvd_add d2 (Nat.dvd_mul_left _ _)) (Or.inl ?_) hg ?_ d X Y
          · exact hlow _ _ (by omega) (by omega) (by rw [hpow]; omega)
          · intro X Y hX hY hR
            exact hlow X Y hX hY (by rw [hpow]; omega)
      simp only [List.foldl_cons, List.foldl_nil]
      have s1 := step 0 0 (by omega) (by omega) f (fun d X Y h => hf d X Y (by rw [hpow]; omega))
      generalize (if x + 0 * 2 ^ k ≥ p.w ∨ y + 0 * 2 ^ k ≥ p.h then f else setTree p k (x + 0 * 2 ^ k) (y + 0 * 2 ^ k) f) = f1 at s1 ⊢
      have s2 := step 1 0 (by omega) (by omega) f1 (fun d X Y h => by
        rw [s1, if_neg (by omega)]; exact hf d X Y (by rw [hpow]; omega))
      generalize (if x + 1 * 2 ^ k ≥ p.w ∨ y + 0 * 2 ^ k ≥ p.h then f1 else setTree p k (x + 1 * 2 ^ k) (y + 0 * 2 ^ k) f1) = f2 at s2 ⊢
      have s3 := step 0 1 (by omega) (by omega) f2 (fun d X Y h => by
        rw [s2, if_neg (by omega), s1, if_neg (by omega)]; exact hf d X Y (by rw [hpow]; omega))
      generalize (if x + 0 * 2 ^ k ≥ p.w ∨ y + 1 * 2 ^ k ≥ p.h then f2 else setTree p k (x + 0 * 2 ^ k) (y + 1 * 2 ^ k) f2) = f3 at s3 ⊢
      have s4 := step 1 1 (by omega) (by omega) f3 (fun d X Y h => by
        rw [s3, if_neg (by omega), s2, if_neg (by omega), s1, if_neg (by omega)]; exact hf d X Y (by rw [hpow]; omega))
      rw [s4, s3, s2, s1, hpow]
      split_ifs <;> first | rfl | omega
    · rw [if_neg hs]
      have e : (p.cu x y).level = k + 1 + 3 := by
        have := hl x y hx hy (by omega)
        omega
      have hc' := hc x y hx hy
      rw [e, show k + 1 + 3 - 3 = k + 1 by omega] at hc'
      have hfit := hp.fit x y hx hy
      rw [e, show k + 1 + 3 - 3 = k + 1 by omega, Nat.div_mul_cancel dx, Nat.div_mul_cancel dy] at hfit
      rw [setCu_want hp hx hy e dx dy hc' hf]
      split_ifs <;> first | rfl | omega

/-- Any coding trees of a picture, in any order. -/
theorem setPicture_want {p : Pic} {K : Nat} (hp : p.Tree K)
    (hc : ∀ x y, x < p.w → y < p.h → ∀ e ∈ calls p.nsqt ((p.cu x y).level - 3) (p.cu x y), e.2.1 < 2 ^ ((p.cu x y).level - 3) ∧ e.2.2 ≠ 0)
    (ts : List (Nat × Nat)) (hn : ts.Nodup) (hin : ∀ t ∈ ts, t.1 * 2 ^ K < p.w ∧ t.2 * 2 ^ K < p.h) (d : Dir) (X Y : Nat) :
    setPicture p K ts d X Y = if (X / 2 ^ K, Y / 2 ^ K) ∈ ts ∧ X < p.w ∧ Y < p.h then want p d X Y else 0 := by
  unfold setPicture
  induction ts using List.reverseRecOn generalizing d X Y with
  | nil => rw [if_neg (by simp)]; rfl
  | append_singleton ts t ih =>
    rw [List.foldl_append, List.foldl_cons, List.foldl_nil]
    have hn' := List.nodup_append.mp hn
    have hb := hin t (by simp)
    have hp2 := Nat.two_pow_pos K
    have iff : ∀ X Y, ((t.1 * 2 ^ K ≤ X ∧ X < t.1 * 2 ^ K + 2 ^ K) ∧ t.2 * 2 ^ K ≤ Y ∧ Y < t.2 * 2 ^ K + 2 ^ K) ↔ (X / 2 ^ K, Y / 2 ^ K) = t := by
      have one : ∀ a X, (a * 2 ^ K ≤ X ∧ X < a * 2 ^ K + 2 ^ K) ↔ X / 2 ^ K = a := by
        intro a X
        rw [Nat.div_eq_iff hp2]
        omega
      intro X Y
      rw [one, one, Prod.ext_iff]
    have ih' := ih hn'.1 (fun t m => hin t (List.mem_append_left _ m))
    rw [setTree_want hp hc K _ _ _ (le_refl _) hb.1 hb.2 (Nat.dvd_mul_left _ _) (Nat.dvd_mul_left _ _) (Or.inr rfl)
      (fun d X Y h => by
        rw [ih', if_neg]
        rintro ⟨h1, -⟩
        rw [(iff X Y).mp h] at h1
        exact hn'.2.2 t h1 t (by simp) rfl)
      (fun X Y hX hY _ => (hp.lev X Y hX hY).2), ih']
    by_cases h1 : (X / 2 ^ K, Y / 2 ^ K) = t
    · have h2 := (iff X Y).mpr h1
      by_cases h3 : X < p.w ∧ Y < p.h
      · rw [if_pos ⟨h2.1, h2.2, h3⟩, if_pos ⟨by rw [h1]; simp, h3⟩]
      · rw [if_neg (by tauto), if_neg (by tauto), if_neg (by tauto)]
    · have h2 := fun h => h1 ((iff X Y).mp h)
      rw [if_neg (by tauto)]
      have : (X / 2 ^ K, Y / 2 ^ K) ∈ ts ++ [t] ↔ (X / 2 ^ K, Y / 2 ^ K) ∈ ts := by
        simp [h1]
      simp only [this]

end Davs2.De
