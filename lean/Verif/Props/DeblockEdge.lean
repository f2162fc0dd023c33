import Verif.Lemmas.DeblockEdge
import Verif.Props.Quadtree
import Verif.Props.Units
import Verif.Props.DeblockOrder
import Verif.Props.LoopRows
/-
C78: which edges are deblocked.
-/
namespace Davs2.De

open Db (Dir)
open Spec

/-- A coding unit as parsing leaves it: an inter type with the transform split of `cu_set_tu_split_type`, or the type and split of
`aec_read_intra_cu_type`. -/
def CuInfo.Legal (nsqt : Bool) (c : CuInfo) : Prop :=
  3 ≤ c.level ∧ c.level ≤ 6 ∧ ((c.type < 8 ∧ ∃ flag, Un.tuSplit flag nsqt c.type c.level = some c.trans) ∨
    ∃ sdip split sym, Un.intraType sdip c.level split sym = (c.type, some c.trans))

/-- Intra strips with coefficients only if non-square transforms are enabled; see `C78_strips_violated`. -/
def CuInfo.Plain (nsqt : Bool) (c : CuInfo) : Prop := 10 ≤ c.type → nsqt = true ∨ c.cbp = false

theorem apart_pu : ∀ t, t < 12 → ∀ k, k < 4 → ∀ o, o < 2 ^ k → ∀ j, j < 8 * 2 ^ k →
    apart (Un.puUnits 0 0 t (3 + k)) (8 * o, j) (8 * o - 1, j) = apart (Un.puUnits 0 0 t (3 + k)) (8 * o, 0) (8 * o - 1, 0) ∧
    apart (Un.puUnits 0 0 t (3 + k)) (j, 8 * o) (j, 8 * o - 1) = apart (Un.puUnits 0 0 t (3 + k)) (0, 8 * o) (0, 8 * o - 1) := by
  decide +kernel

theorem apart_tu : ∀ t, t < 4 → ∀ k, k < 4 → ∀ o, o < 2 ^ k → ∀ j, j < 8 * 2 ^ k →
    apart (Un.tuUnits t (3 + k)) (8 * o, j) (8 * o - 1, j) = apart (Un.tuUnits t (3 + k)) (8 * o, 0) (8 * o - 1, 0) ∧
    apart (Un.tuUnits t (3 + k)) (j, 8 * o) (j, 8 * o - 1) = apart (Un.tuUnits t (3 + k)) (0, 8 * o) (0, 8 * o - 1) := by
  decide +kernel

/-- The edge at distance `o` of a unit, on the first line. -/
def line0 (c : CuInfo) (d : Dir) (o : Nat) : Nat := match d with
  | .ver => inner c .ver (8 * o) 0
  | .hor => inner c .hor 0 (8 * o)

def okUnit (nsqt : Bool) (k : Nat) (c : CuInfo) : Bool :=
  (calls nsqt k c).all (fun e => decide (e.2.1 < 2 ^ k ∧ e.2.2 ≠ 0)) &&
  (List.range (2 ^ k)).all fun o => o == 0 ||
    (look (calls nsqt k c) .ver o == line0 c .ver o && look (calls nsqt k c) .hor o == line0 c .hor o)

theorem inter_ok : ∀ nsqt flag cbp : Bool, ∀ t, t < 8 → ∀ k, k < 4 →
    (Un.tuSplit flag nsqt t (3 + k)).all (fun tr => okUnit nsqt k ⟨3 + k, t, tr, cbp, 0, 0⟩) = true := by
  decide +kernel

theorem intra_ok : ∀ nsqt sdip split sym cbp : Bool, ∀ k, k < 4 →
    (10 ≤ (Un.intraType sdip (3 + k) split sym).1 → nsqt = true ∨ cbp = false) →
    (Un.intraType sdip (3 + k) split sym).2.all
      (fun tr => okUnit nsqt k ⟨3 + k, (Un.intraType sdip (3 + k) split sym).1, tr, cbp, 0, 0⟩) = true := by
  decide +kernel

theorem legal_ok {nsqt : Bool} {c : CuInfo} (h : c.Legal nsqt) (hp : c.Plain nsqt) : okUnit nsqt (c.level - 3) c = true := by
  obtain ⟨l, t, tr, cbp, s, q⟩ := c
  obtain ⟨h3, h6, h⟩ := h
  simp only at h3 h6 h hp ⊢
  obtain ⟨k, rfl⟩ : ∃ k, l = 3 + k := ⟨l - 3, by omega⟩
  rw [show 3 + k - 3 = k by omega]
  show okUnit nsqt k ⟨3 + k, t, tr, cbp, 0, 0⟩ = true
  rcases h with ⟨ht, flag, e⟩ | ⟨sdip, split, sym, e⟩
  · have := inter_ok nsqt flag cbp t ht k (by omega)
    rw [e] at this
    exact this
  · have := intra_ok nsqt sdip split sym cbp k (by omega)
    rw [e] at this
    exact this hp

theorem legal_range {nsqt : Bool} {c : CuInfo} (h : c.Legal nsqt) : c.type < 12 ∧ c.trans < 4 := by
  obtain ⟨h3, h6, h⟩ := h
  rcases h with ⟨ht, flag, e⟩ | ⟨sdip, split, sym, e⟩
  · obtain ⟨t, e', h'⟩ := Un.C50_inter flag nsqt c.type c.level ht
    rw [e] at e'
    obtain rfl := Option.some.inj e'
    exact ⟨by omega, h'⟩
  · have key : ∀ sdip split sym : Bool, ∀ k, k < 4 → (Un.intraType sdip (3 + k) split sym).1 < 12 ∧
        (Un.intraType sdip (3 + k) split sym).2.all (fun t => decide (t < 4)) = true := by decide
    have := key sdip split sym (c.level - 3) (by omega)
    rw [show 3 + (c.level - 3) = c.level by omega, e] at this
    simpa using this

theorem inner_line {nsqt : Bool} {c : CuInfo} (h : c.Legal nsqt) (o j : Nat) (ho : o < 2 ^ (c.level - 3)) (hj : j < 2 ^ c.level) :
    inner c .ver (8 * o) j = line0 c .ver o ∧ inner c .hor j (8 * o) = line0 c .hor o := by
  obtain ⟨h1, h2⟩ := legal_range h
  have e : 3 + (c.level - 3) = c.level := by have := h.1; omega
  have e' : 8 * 2 ^ (c.level - 3) = 2 ^ c.level := by rw [← e, Nat.pow_add, e]
  have hk : c.level - 3 < 4 := by have := h.2.1; omega
  have a := apart_pu c.type h1 _ hk o ho j (by omega)
  have b := apart_tu c.trans h2 _ hk o ho j (by omega)
  rw [e] at a b
  unfold line0 inner before
  simp only [a.1, a.2, b.1, b.2, and_self]

theorem want_ver (p : Pic) (x y : Nat) : want p .ver x y = if x % 2 ^ ((p.cu x y).level - 3) = 0 ∧ barred p .ver x y then 0
    else look (calls p.nsqt ((p.cu x y).level - 3) (p.cu x y)) .ver (x % 2 ^ ((p.cu x y).level - 3)) := rfl

theorem want_hor (p : Pic) (x y : Nat) : want p .hor x y = if y % 2 ^ ((p.cu x y).level - 3) = 0 ∧ barred p .hor x y then 0
    else look (calls p.nsqt ((p.cu x y).level - 3) (p.cu x y)) .hor (y % 2 ^ ((p.cu x y).level - 3)) := rfl

theorem kind_ver (p : Pic) (X Y : Nat) : kind p .ver X Y = if X = 0 then 0
    else if !p.cross && (p.cu (X / 8) (Y / 8)).slice != (p.cu ((X - 1) / 8) (Y / 8)).slice then 0
    else if X % 2 ^ (p.cu (X / 8) (Y / 8)).level = 0 then 2
    else inner (p.cu (X / 8) (Y / 8)) .ver (X % 2 ^ (p.cu (X / 8) (Y / 8)).level) (Y % 2 ^ (p.cu (X / 8) (Y / 8)).level) := rfl

theorem kind_hor (p : Pic) (X Y : Nat) : kind p .hor X Y = if Y = 0 then 0
    else if !p.cross && (p.cu (X / 8) (Y / 8)).slice != (p.cu (X / 8) ((Y - 1) / 8)).slice then 0
    else if Y % 2 ^ (p.cu (X / 8) (Y / 8)).level = 0 then 2
    else inner (p.cu (X / 8) (Y / 8)) .hor (X % 2 ^ (p.cu (X / 8) (Y / 8)).level) (Y % 2 ^ (p.cu (X / 8) (Y / 8)).level) := rfl

theorem kind_want {p : Pic} {K : Nat} (hp : p.Tree K) (hl : ∀ x y, x < p.w → y < p.h → (p.cu x y).Legal p.nsqt ∧ (p.cu x y).Plain p.nsqt)
    {x y j : Nat} (hx : x < p.w) (hy : y < p.h) (hj : j < 8) :
    want p .ver x y = kind p .ver (8 * x) (8 * y + j) ∧ want p .hor x y = kind p .hor (8 * x + j) (8 * y) := by
  obtain ⟨hL, hP⟩ := hl x y hx hy
  have hok := legal_ok hL hP
  have e8 : 8 * 2 ^ ((p.cu x y).level - 3) = 2 ^ (p.cu x y).level := by
    have : 3 + ((p.cu x y).level - 3) = (p.cu x y).level := by have := hL.1; omega
    rw [← this, Nat.pow_add, this]
  have hp2 := Nat.two_pow_pos ((p.cu x y).level - 3)
  unfold okUnit at hok
  rw [Bool.and_eq_true, List.all_eq_true, List.all_eq_true] at hok
  have hlook : ∀ o, o < 2 ^ ((p.cu x y).level - 3) → o ≠ 0 →
      look (calls p.nsqt ((p.cu x y).level - 3) (p.cu x y)) .ver o = line0 (p.cu x y) .ver o ∧
      look (calls p.nsqt ((p.cu x y).level - 3) (p.cu x y)) .hor o = line0 (p.cu x y) .hor o := by
    intro o ho h0
    have := hok.2 o (List.mem_range.mpr ho)
    simpa [h0] using this
  have hz : look (calls p.nsqt ((p.cu x y).level - 3) (p.cu x y)) .ver 0 = 2 ∧
      look (calls p.nsqt ((p.cu x y).level - 3) (p.cu x y)) .hor 0 = 2 := ⟨rfl, rfl⟩
  have m8 : ∀ a, (8 * a) % 2 ^ (p.cu x y).level = 8 * (a % 2 ^ ((p.cu x y).level - 3)) := by
    intro a; rw [← e8, Nat.mul_mod_mul_left]
  have mlt : ∀ a, a % 2 ^ ((p.cu x y).level - 3) < 2 ^ ((p.cu x y).level - 3) := fun a => Nat.mod_lt _ hp2
  have mlt' : ∀ a, a % 2 ^ (p.cu x y).level < 2 ^ (p.cu x y).level := fun a => Nat.mod_lt _ (Nat.two_pow_pos _)
  -- inside a unit the slices agree
  have hinside : ∀ d, along d x y % 2 ^ ((p.cu x y).level - 3) ≠ 0 → barred p d x y = false := by
    intro d hd
    have back : ∀ a, a % 2 ^ ((p.cu x y).level - 3) ≠ 0 → (a - 1) / 2 ^ ((p.cu x y).level - 3) = a / 2 ^ ((p.cu x y).level - 3) := by
      intro a ha
      have h1 := Nat.div_add_mod a (2 ^ ((p.cu x y).level - 3))
      have h2 := mlt a
      rw [Nat.div_eq_iff hp2, Nat.mul_comm]
      omega
    cases d with
    | ver =>
      have hd' : x % 2 ^ ((p.cu x y).level - 3) ≠ 0 := hd
      have := hp.same x y (x - 1) y hx hy (back x hd') rfl
      unfold barred
      have h0 : x ≠ 0 := by rintro rfl; simp at hd'
      simp [this, h0]
    | hor =>
      have hd' : y % 2 ^ ((p.cu x y).level - 3) ≠ 0 := hd
      have := hp.same x y x (y - 1) hx hy rfl (back y hd')
      unfold barred
      have h0 : y ≠ 0 := by rintro rfl; simp at hd'
      simp [this, h0]
  constructor
  · rw [want_ver, kind_ver]
    have q1 : 8 * x / 8 = x := by omega
    have q2 : (8 * y + j) / 8 = y := by omega
    have q3 : x ≠ 0 → (8 * x - 1) / 8 = x - 1 := by omega
    rw [q1, q2]
    by_cases h0 : x = 0
    · subst h0
      rw [if_pos ⟨Nat.zero_mod _, rfl⟩, if_pos (by omega)]
    · rw [if_neg (show ¬ 8 * x = 0 by omega), q3 h0, m8]
      by_cases ho : x % 2 ^ ((p.cu x y).level - 3) = 0
      · by_cases hb : barred p .ver x y
        · rw [if_pos ⟨ho, hb⟩]
          unfold barred at hb
          simp only [beq_iff_eq, Bool.or_eq_true, h0, false_or] at hb
          rw [if_pos hb]
        · rw [if_neg (by tauto), ho, hz.1]
          unfold barred at hb
          simp only [Bool.not_eq_true, Bool.or_eq_false_iff] at hb
          rw [if_neg (by rw [hb.2]; decide), if_pos rfl]
      · have hb := hinside .ver ho
        rw [if_neg (by tauto), (hlook _ (mlt x) ho).1]
        unfold barred at hb
        simp only [Bool.or_eq_false_iff] at hb
        rw [if_neg (by rw [hb.2]; decide), if_neg (by omega)]
        exact ((inner_line hL _ _ (mlt x) (mlt' _)).1).symm
  · rw [want_hor, kind_hor]
    have q1 : 8 * y / 8 = y := by omega
    have q2 : (8 * x + j) / 8 = x := by omega
    have q3 : y ≠ 0 → (8 * y - 1) / 8 = y - 1 := by omega
    rw [q1, q2]
    by_cases h0 : y = 0
    · subst h0
      rw [if_pos ⟨Nat.zero_mod _, rfl⟩, if_pos (by omega)]
    · rw [if_neg (show ¬ 8 * y = 0 by omega), q3 h0, m8]
      by_cases ho : y % 2 ^ ((p.cu x y).level - 3) = 0
      · by_cases hb : barred p .hor x y
        · rw [if_pos ⟨ho, hb⟩]
          unfold barred at hb
          simp only [beq_iff_eq, Bool.or_eq_true, h0, false_or] at hb
          rw [if_pos hb]
        · rw [if_neg (by tauto), ho, hz.2]
          unfold barred at hb
          simp only [Bool.not_eq_true, Bool.or_eq_false_iff] at hb
          rw [if_neg (by rw [hb.2]; decide), if_pos rfl]
      · have hb := hinside .hor ho
        rw [if_neg (by tauto), (hlook _ (mlt y) ho).2]
        unfold barred at hb
        simp only [Bool.or_eq_false_iff] at hb
        rw [if_neg (by rw [hb.2]; decide), if_neg (by omega)]
        exact ((inner_line hL _ _ (mlt y) (mlt' _)).2).symm

theorem calls_small {p : Pic} (hl : ∀ x y, x < p.w → y < p.h → (p.cu x y).Legal p.nsqt ∧ (p.cu x y).Plain p.nsqt) :
    ∀ x y, x < p.w → y < p.h → ∀ e ∈ calls p.nsqt ((p.cu x y).level - 3) (p.cu x y), e.2.1 < 2 ^ ((p.cu x y).level - 3) ∧ e.2.2 ≠ 0 := by
  intro x y hx hy e he
  have hok := legal_ok (hl x y hx hy).1 (hl x y hx hy).2
  unfold okUnit at hok
  rw [Bool.and_eq_true, List.all_eq_true] at hok
  simpa using hok.1 e he

/-- C78: after any set of coding trees has been processed in any order, each line of each 8x8 block of these trees is marked at its left
and upper border exactly as the specification says of the edge between the two samples, and nothing else is marked.
Missing: intra strips with coefficients when non-square transforms are off. -/
theorem C78_marks_partial {p : Pic} {K : Nat} (hp : p.Tree K)
    (hl : ∀ x y, x < p.w → y < p.h → (p.cu x y).Legal p.nsqt ∧ (p.cu x y).Plain p.nsqt)
    (ts : List (Nat × Nat)) (hn : ts.Nodup) (hin : ∀ t ∈ ts, t.1 * 2 ^ K < p.w ∧ t.2 * 2 ^ K < p.h) (x y j : Nat) (hj : j < 8) :
    (setPicture p K ts .ver x y = if (x / 2 ^ K, y / 2 ^ K) ∈ ts ∧ x < p.w ∧ y < p.h then kind p .ver (8 * x) (8 * y + j) else 0) ∧
    (setPicture p K ts .hor x y = if (x / 2 ^ K, y / 2 ^ K) ∈ ts ∧ x < p.w ∧ y < p.h then kind p .hor (8 * x + j) (8 * y) else 0) := by
  constructor
  · rw [setPicture_want hp (calls_small hl) ts hn hin]
    split_ifs with h
    · exact (kind_want hp hl h.2.1 h.2.2 hj).1
    · rfl
  · rw [setPicture_want hp (calls_small hl) ts hn hin]
    split_ifs with h
    · exact (kind_want hp hl h.2.1 h.2.2 hj).2
    · rfl

/-- C78: each line of an edge is filtered or not as its own two samples say: the flags are those of the 4x4 blocks and
coding units of the sample and its neighbour. -/
theorem C78_skip (p : Pic) (x y j : Nat) (hj : j < 8) :
    (0 < x → ((if j < 4 then (filterFlags p .ver x y).1 else (filterFlags p .ver x y).2) = false ↔
      same p (8 * x, 8 * y + j) (8 * x - 1, 8 * y + j))) ∧
    (0 < y → ((if j < 4 then (filterFlags p .hor x y).1 else (filterFlags p .hor x y).2) = false ↔
      same p (8 * x + j, 8 * y) (8 * x + j, 8 * y - 1))) := by
  have ab : ∀ v : Int, |v| < 4 ↔ -4 < v ∧ v < 4 := fun v => by rw [← Int.natCast_natAbs]; omega
  constructor
  · intro h0
    have a1 : 8 * x / 8 = x := by omega
    have a2 : (8 * y + j) / 8 = y := by omega
    have a3 : (8 * x - 1) / 8 = x - 1 := by omega
    have a4 : 8 * x / 4 = 2 * x := by omega
    have a5 : (8 * x - 1) / 4 = 2 * x - 1 := by omega
    unfold same filterFlags skipFilter prev
    simp only [a1, a2, a3, a4, a5]
    by_cases h4 : j < 4
    · have a6 : (8 * y + j) / 4 = 2 * y := by omega
      rw [if_pos h4, a6]
      by_cases hf : p.frame = 1 ∨ p.frame = 4
      · rw [if_pos hf]
        simp [hf, ab]; tauto
      · rw [if_neg hf]
        simp [hf]
    · have a6 : (8 * y + j) / 4 = 2 * y + 1 := by omega
      rw [if_neg h4, a6]
      by_cases hf : p.frame = 1 ∨ p.frame = 4
      · rw [if_pos hf]
        simp [hf, ab]; tauto
      · rw [if_neg hf]
        simp [hf]
  · intro h0
    have a1 : 8 * y / 8 = y := by omega
    have a2 : (8 * x + j) / 8 = x := by omega
    have a3 : (8 * y - 1) / 8 = y - 1 := by omega
    have a4 : 8 * y / 4 = 2 * y := by omega
    have a5 : (8 * y - 1) / 4 = 2 * y - 1 := by omega
    unfold same filterFlags skipFilter prev
    simp only [a1, a2, a3, a4, a5]
    by_cases h4 : j < 4
    · have a6 : (8 * x + j) / 4 = 2 * x := by omega
      rw [if_pos h4, a6]
      by_cases hf : p.frame = 1 ∨ p.frame = 4
      · rw [if_pos hf]
        simp [hf, ab]; tauto
      · rw [if_neg hf]
        simp [hf]
    · have a6 : (8 * x + j) / 4 = 2 * x + 1 := by omega
      rw [if_neg h4, a6]
      by_cases hf : p.frame = 1 ∨ p.frame = 4
      · rw [if_pos hf]
        simp [hf, ab]; tauto
      · rw [if_neg hf]
        simp [hf]

/-- C78 in time: the flags of the edges that are filtered with a coding tree are not changed by any other trees, so they are final when they
are used, and do not depend on which of the other trees are done. -/
theorem C78_in_time_partial {p : Pic} {K : Nat} (hp : p.Tree K)
    (hl : ∀ x y, x < p.w → y < p.h → (p.cu x y).Legal p.nsqt ∧ (p.cu x y).Plain p.nsqt)
    (ts ts' : List (Nat × Nat)) (hn : ts.Nodup) (hin : ∀ t ∈ ts, t.1 * 2 ^ K < p.w ∧ t.2 * 2 ^ K < p.h)
    (hn' : ts'.Nodup) (hin' : ∀ t ∈ ts', t.1 * 2 ^ K < p.w ∧ t.2 * 2 ^ K < p.h) (lx ly : Nat)
    (h1 : (lx, ly) ∈ ts) (h2 : lx ≠ 0 → (lx - 1, ly) ∈ ts) (h1' : (lx, ly) ∈ ts') (h2' : lx ≠ 0 → (lx - 1, ly) ∈ ts')
    (e : Dir × Nat × Nat) (he : e ∈ Db.lcuDeblock p.w p.h (2 ^ K) lx ly) :
    setPicture p K ts e.1 e.2.1 e.2.2 = setPicture p K ts' e.1 e.2.1 e.2.2 := by
  have hp2 := Nat.two_pow_pos K
  have hx : ∀ a, lx * 2 ^ K ≤ a → a < lx * 2 ^ K + 2 ^ K → a / 2 ^ K = lx := by
    intro a b c; rw [Nat.div_eq_iff hp2]; omega
  have hy : ∀ a, ly * 2 ^ K ≤ a → a < ly * 2 ^ K + 2 ^ K → a / 2 ^ K = ly := by
    intro a b c; rw [Nat.div_eq_iff hp2]; omega
  have hb : lx ≠ 0 → (lx * 2 ^ K - 1) / 2 ^ K = lx - 1 := by
    intro h0
    obtain ⟨l, rfl⟩ : ∃ l, lx = l + 1 := ⟨lx - 1, by omega⟩
    rw [Nat.div_eq_iff hp2, Nat.add_mul, Nat.add_sub_cancel]
    omega
  have key : e.2.2 / 2 ^ K = ly ∧ (e.2.1 / 2 ^ K = lx ∨ (lx ≠ 0 ∧ e.2.1 / 2 ^ K = lx - 1)) := by
    have hrect : ∀ x y w h d, e ∈ Db.rect x y w h d → (x ≤ e.2.1 ∧ e.2.1 < x + w) ∧ y ≤ e.2.2 ∧ e.2.2 < y + h := by
      intro x y w h d hm
      unfold Db.rect at hm
      obtain ⟨j, hj, hm⟩ := List.mem_flatMap.mp hm
      obtain ⟨i, hi, rfl⟩ := List.mem_map.mp hm
      rw [List.mem_range] at hi hj
      dsimp only
      omega
    unfold Db.lcuDeblock at he
    dsimp only at he
    rcases List.mem_append.mp he with hm | hm
    · have := hrect _ _ _ _ _ hm
      exact ⟨hy _ this.2.1 (by omega), Or.inl (hx _ this.1.1 (by omega))⟩
    · have hl0 : lx * 2 ^ K ≠ 0 → lx ≠ 0 := by rintro h rfl; simp at h
      split_ifs at hm with c1 c2
      · have := hrect _ _ _ _ _ hm
        exact ⟨hy _ this.2.1 (by omega), Or.inl (hx _ this.1.1 (by omega))⟩
      all_goals
        have := hrect _ _ _ _ _ hm
        refine ⟨hy _ this.2.1 (by omega), ?_⟩
        by_cases hc : e.2.1 = lx * 2 ^ K - 1
        · right
          rw [hc]
          exact ⟨hl0 c1, hb (hl0 c1)⟩
        · left
          exact hx _ (by omega) (by omega)
  have hmem : (e.2.1 / 2 ^ K, e.2.2 / 2 ^ K) ∈ ts ∧ (e.2.1 / 2 ^ K, e.2.2 / 2 ^ K) ∈ ts' := by
    rw [key.1]
    rcases key.2 with h | ⟨h0, h⟩ <;> rw [h]
    · exact ⟨h1, h1'⟩
    · exact ⟨h2 h0, h2' h0⟩
  rw [setPicture_want hp (calls_small hl) ts hn hin, setPicture_want hp (calls_small hl) ts' hn' hin']
  simp only [hmem.1, hmem.2]

theorem trees_mem {w h n : Nat} (hn : 0 < n) (t : Nat × Nat) : t ∈ trees w h n ↔ t.1 * n < w ∧ t.2 * n < h := by
  unfold trees
  simp only [List.mem_flatMap, List.mem_map, List.mem_range, Qt.lt_ceil hn]
  constructor
  · rintro ⟨b, hb, a, ha, rfl⟩; exact ⟨ha, hb⟩
  · rintro ⟨h1, h2⟩; exact ⟨t.2, h2, t.1, h1, rfl⟩

theorem trees_nodup (w h n : Nat) : (trees w h n).Nodup := by
  unfold trees
  rw [List.nodup_flatMap]
  refine ⟨fun y _ => (List.nodup_range).map (fun a b h => by simpa using h), ?_⟩
  refine (List.nodup_range (n := (h + n - 1) / n)).imp ?_
  intro a b hab
  simp only [Function.onFun, List.disjoint_left]
  intro t h1 h2
  simp only [List.mem_map] at h1 h2
  obtain ⟨_, _, rfl⟩ := h1
  obtain ⟨_, _, h⟩ := h2
  exact hab (Prod.ext_iff.mp h).2.symm

/-- The trees before a tree in the order of decoding include its left neighbour. -/
theorem trees_left {w h n : Nat} (hn : 0 < n) {pre post : List (Nat × Nat)} {t : Nat × Nat} (e : trees w h n = pre ++ t :: post)
    (h0 : t.1 ≠ 0) : (t.1 - 1, t.2) ∈ pre := by
  have ord : (trees w h n).Pairwise fun a b => a.2 < b.2 ∨ (a.2 = b.2 ∧ a.1 < b.1) := by
    unfold trees
    rw [List.pairwise_flatMap]
    constructor
    · intro y _
      rw [List.pairwise_map]
      exact (List.pairwise_lt_range).imp fun h => Or.inr ⟨rfl, h⟩
    · refine (List.pairwise_lt_range).imp ?_
      intro a b hab x hx y hy
      simp only [List.mem_map] at hx hy
      obtain ⟨_, _, rfl⟩ := hx
      obtain ⟨_, _, rfl⟩ := hy
      exact Or.inl hab
  have ht : t ∈ trees w h n := by rw [e]; simp
  have hm : (t.1 - 1, t.2) ∈ trees w h n := by
    rw [trees_mem hn] at ht ⊢
    exact ⟨lt_of_le_of_lt (Nat.mul_le_mul_right n (Nat.sub_le _ _)) ht.1, ht.2⟩
  rw [e] at hm ord
  rcases List.mem_append.mp hm with h | h
  · exact h
  · rcases List.mem_cons.mp h with h | h
    · have := (Prod.ext_iff.mp h).1
      dsimp only at this
      omega
    · have := (List.pairwise_cons.mp (List.pairwise_append.mp ord).2.1).1 _ h
      dsimp only at this
      omega

/-- Filtering with the flags as they are when a tree is filtered is filtering with the final flags. -/
theorem run_final {p : Pic} {K : Nat} (hp : p.Tree K)
    (hl : ∀ x y, x < p.w → y < p.h → (p.cu x y).Legal p.nsqt ∧ (p.cu x y).Plain p.nsqt)
    (step : Flags → Dir × Nat × Nat → Db.Plane → Db.Plane)
    (hs : ∀ f g e m, f e.1 e.2.1 e.2.2 = g e.1 e.2.1 e.2.2 → step f e m = step g e m) (m : Db.Plane) :
    (runTrees p K step (trees p.w p.h (2 ^ K)) m).2 =
      Db.deblockPlane (step (setPicture p K (trees p.w p.h (2 ^ K)))) p.w p.h (2 ^ K) m := by
  have hp2 := Nat.two_pow_pos K
  have all_in : ∀ t ∈ trees p.w p.h (2 ^ K), t.1 * 2 ^ K < p.w ∧ t.2 * 2 ^ K < p.h := fun t h => (trees_mem hp2 t).mp h
  have hnd := trees_nodup p.w p.h (2 ^ K)
  have hpic : Db.picDeblock p.w p.h (2 ^ K) = (trees p.w p.h (2 ^ K)).flatMap fun t => Db.lcuDeblock p.w p.h (2 ^ K) t.1 t.2 := by
    unfold Db.picDeblock trees
    rw [List.flatMap_assoc]
    congr 1
    funext y
    rw [List.flatMap_map]
  have key : ∀ (pre post : List (Nat × Nat)), trees p.w p.h (2 ^ K) = pre ++ post →
      runTrees p K step pre m = (setPicture p K pre, (pre.flatMap fun t => Db.lcuDeblock p.w p.h (2 ^ K) t.1 t.2).foldl
        (fun m e => step (setPicture p K (trees p.w p.h (2 ^ K))) e m) m) := by
    intro pre
    induction pre using List.reverseRecOn with
    | nil => intro post _; rfl
    | append_singleton pre t ih =>
      intro post e
      have e' : trees p.w p.h (2 ^ K) = pre ++ t :: post := by rw [e]; simp
      have ih' := ih (t :: post) e'
      unfold runTrees at ih' ⊢
      rw [List.foldl_append, ih', List.foldl_cons, List.foldl_nil]
      dsimp only
      have ef : setTree p K (t.1 * 2 ^ K) (t.2 * 2 ^ K) (setPicture p K pre) = setPicture p K (pre ++ [t]) := by
        unfold setPicture
        rw [List.foldl_append, List.foldl_cons, List.foldl_nil]
      rw [ef, List.flatMap_append, List.foldl_append]
      congr 1
      rw [List.flatMap_cons, List.flatMap_nil, List.append_nil]
      apply Db.foldl_ext_mem
      intro m e0 he0
      apply hs
      have hsub : ∀ t' ∈ pre ++ [t], t' ∈ trees p.w p.h (2 ^ K) := by
        intro t' ht'; rw [e]; exact List.mem_append_left _ ht'
      refine C78_in_time_partial hp hl (pre ++ [t]) (trees p.w p.h (2 ^ K)) ?_ (fun t' ht' => all_in _ (hsub t' ht')) hnd all_in
        t.1 t.2 (by simp) (fun h0 => List.mem_append_left _ (trees_left hp2 e' h0)) (hsub t (by simp)) (fun h0 => ?_) e0 he0
      · rw [e] at hnd
        exact (List.nodup_append.mp hnd).1
      · exact hsub _ (List.mem_append_left _ (trees_left hp2 e' h0))
  have := key (trees p.w p.h (2 ^ K)) [] (by simp)
  rw [this]
  unfold Db.deblockPlane
  rw [hpic]

theorem pass_congr (d : Dir) (W H : Nat) (F G : Nat → Nat → Db.Line → Db.Line) (m : Db.Plane)
    (h : ∀ k r, (match d with | .ver => 8 * k < W ∧ r < H | .hor => 8 * k < H ∧ r < W) → F k r = G k r) :
    Db.Spec.pass d W H F m = Db.Spec.pass d W H G m := by
  funext x y
  cases d with
  | ver =>
    unfold Db.Spec.pass
    dsimp only
    split_ifs with c
    · rw [h]
      exact ⟨by omega, by omega⟩
    · rfl
  | hor =>
    unfold Db.Spec.pass
    dsimp only
    split_ifs with c
    · rw [h]
      exact ⟨by omega, by omega⟩
    · rfl

theorem picture_congr (W H : Nat) (F G : Dir → Nat → Nat → Db.Line → Db.Line) (m : Db.Plane)
    (hv : ∀ k r, 8 * k < W → r < H → F .ver k r = G .ver k r) (hh : ∀ k r, 8 * k < H → r < W → F .hor k r = G .hor k r) :
    Db.Spec.picture W H F m = Db.Spec.picture W H G m := by
  unfold Db.Spec.picture
  rw [pass_congr .ver W H (F .ver) (G .ver) m (fun k r h => hv k r h.1 h.2),
    pass_congr .hor W H (F .hor) (G .hor) _ (fun k r h => hh k r h.1 h.2)]

theorem filter_off (c : Bool) (a b : Int) : Db.filterLine c a b false = id := by
  funext s
  unfold Db.filterLine
  rw [if_neg (by simp)]
  rfl

/-- The line filter chosen through the parameters of its edge. -/
theorem line_of_flags (c : Bool) (j : Nat) (b : Bool × Bool) (t : Option (Int × Int)) :
    Db.Spec.line c (j / 4) (if !b.1 && !b.2 then none else t.map fun t => ⟨t.1, t.2, b.1, b.2⟩) =
      if (if j < 4 then b.1 else b.2) = false then id else
        match t with
        | some t => Db.filterLine c t.1 t.2 true
        | none => id := by
  obtain ⟨b1, b2⟩ := b
  have hj : j / 4 = 0 ↔ j < 4 := by omega
  cases t with
  | none =>
    by_cases h : j < 4 <;> cases b1 <;> cases b2 <;> simp [h, Db.Spec.line]
  | some t =>
    by_cases h : j < 4 <;> cases b1 <;> cases b2 <;> simp [h, hj, Db.Spec.line, filter_off]

theorem lumaLine_ver (p : Pic) (ao bo : Int) (k r : Nat) :
    (kind p .ver (8 * k) (r) = 0 ∨ same p (8 * k, r) (8 * k - 1, r) → lumaLine p ao bo .ver k r = id) ∧
    (¬ (kind p .ver (8 * k) (r) = 0 ∨ same p (8 * k, r) (8 * k - 1, r)) → lumaLine p ao bo .ver k r = match Db.lumaThresholds (p.cu ((8 * k - 1) / 8) ((r) / 8)).qp (p.cu ((8 * k) / 8) ((r) / 8)).qp ao bo with
      | some t => Db.filterLine false t.1 t.2 true
      | none => id) := ⟨fun h => if_pos h, fun h => if_neg h⟩

theorem lumaLine_hor (p : Pic) (ao bo : Int) (k r : Nat) :
    (kind p .hor (r) (8 * k) = 0 ∨ same p (r, 8 * k) (r, 8 * k - 1) → lumaLine p ao bo .hor k r = id) ∧
    (¬ (kind p .hor (r) (8 * k) = 0 ∨ same p (r, 8 * k) (r, 8 * k - 1)) → lumaLine p ao bo .hor k r = match Db.lumaThresholds (p.cu ((r) / 8) ((8 * k - 1) / 8)).qp (p.cu ((r) / 8) ((8 * k) / 8)).qp ao bo with
      | some t => Db.filterLine false t.1 t.2 true
      | none => id) := ⟨fun h => if_pos h, fun h => if_neg h⟩

theorem chromaLine_ver (p : Pic) (delta ao bo : Int) (k r : Nat) :
    (kind p .ver (8 * (2 * k)) ((2 * r)) ≠ 2 ∨ same p (8 * (2 * k), (2 * r)) (8 * (2 * k) - 1, (2 * r)) → chromaLine p delta ao bo .ver k r = id) ∧
    (¬ (kind p .ver (8 * (2 * k)) ((2 * r)) ≠ 2 ∨ same p (8 * (2 * k), (2 * r)) (8 * (2 * k) - 1, (2 * r))) → chromaLine p delta ao bo .ver k r = match chromaThresholds (p.cu ((8 * (2 * k) - 1) / 8) (((2 * r)) / 8)).qp (p.cu ((8 * (2 * k)) / 8) (((2 * r)) / 8)).qp delta ao bo with
      | some t => Db.filterLine true t.1 t.2 true
      | none => id) := ⟨fun h => if_pos h, fun h => if_neg h⟩

theorem chromaLine_hor (p : Pic) (delta ao bo : Int) (k r : Nat) :
    (kind p .hor ((2 * r)) (8 * (2 * k)) ≠ 2 ∨ same p ((2 * r), 8 * (2 * k)) ((2 * r), 8 * (2 * k) - 1) → chromaLine p delta ao bo .hor k r = id) ∧
    (¬ (kind p .hor ((2 * r)) (8 * (2 * k)) ≠ 2 ∨ same p ((2 * r), 8 * (2 * k)) ((2 * r), 8 * (2 * k) - 1)) → chromaLine p delta ao bo .hor k r = match chromaThresholds (p.cu (((2 * r)) / 8) ((8 * (2 * k) - 1) / 8)).qp (p.cu (((2 * r)) / 8) ((8 * (2 * k)) / 8)).qp delta ao bo with
      | some t => Db.filterLine true t.1 t.2 true
      | none => id) := ⟨fun h => if_pos h, fun h => if_neg h⟩

section
variable {p : Pic} {K : Nat}

theorem flag_all (hp : p.Tree K) (hl : ∀ x y, x < p.w → y < p.h → (p.cu x y).Legal p.nsqt ∧ (p.cu x y).Plain p.nsqt)
    {x y j : Nat} (hx : x < p.w) (hy : y < p.h) (hj : j < 8) :
    setPicture p K (trees p.w p.h (2 ^ K)) .ver x y = kind p .ver (8 * x) (8 * y + j) ∧
    setPicture p K (trees p.w p.h (2 ^ K)) .hor x y = kind p .hor (8 * x + j) (8 * y) := by
  have hp2 := Nat.two_pow_pos K
  have hm : (x / 2 ^ K, y / 2 ^ K) ∈ trees p.w p.h (2 ^ K) := by
    rw [trees_mem hp2]
    exact ⟨lt_of_le_of_lt (Nat.div_mul_le_self _ _) hx, lt_of_le_of_lt (Nat.div_mul_le_self _ _) hy⟩
  have := C78_marks_partial hp hl (trees p.w p.h (2 ^ K)) (trees_nodup _ _ _) (fun t h => (trees_mem hp2 t).mp h) x y j hj
  rwa [if_pos ⟨hm, hx, hy⟩, if_pos ⟨hm, hx, hy⟩] at this

theorem luma_line (hp : p.Tree K) (hl : ∀ x y, x < p.w → y < p.h → (p.cu x y).Legal p.nsqt ∧ (p.cu x y).Plain p.nsqt)
    (ao bo : Int) (d : Dir) (k r : Nat)
    (hk : match d with | .ver => k < p.w ∧ r < 8 * p.h | .hor => k < p.h ∧ r < 8 * p.w) :
    Db.Spec.luma (lumaPrm p (setPicture p K (trees p.w p.h (2 ^ K))) ao bo) d k r = lumaLine p ao bo d k r := by
  have hr : 8 * (r / 8) + r % 8 = r := Nat.div_add_mod r 8
  have hr8 : r % 8 < 8 := Nat.mod_lt _ (by decide)
  cases d with
  | ver =>
    have fl := (flag_all hp hl hk.1 (show r / 8 < p.h by have := hk.2; omega) hr8).1
    rw [hr] at fl
    show Db.Spec.line false (r % 8 / 4) (lumaPrm p _ ao bo .ver k (r / 8)) = _
    unfold lumaPrm
    have lo := (lumaLine_ver p ao bo k r).1
    have ln := (lumaLine_ver p ao bo k r).2
    rw [fl]
    by_cases h0 : kind p .ver (8 * k) r = 0
    · rw [if_pos h0, lo (Or.inl h0)]; rfl
    · have hk0 : 0 < k := by
        by_contra h; have : k = 0 := by omega
        subst this; exact h0 rfl
      rw [if_neg h0, line_of_flags]
      have sk := (C78_skip p k (r / 8) (r % 8) hr8).1 hk0
      rw [hr] at sk
      have e1 : (8 * k - 1) / 8 = k - 1 := by omega
      have e2 : 8 * k / 8 = k := by omega
      by_cases hs : same p (8 * k, r) (8 * k - 1, r)
      · rw [if_pos (sk.mpr hs), lo (Or.inr hs)]
      · rw [if_neg (fun h => hs (sk.mp h)), ln (by tauto), e1, e2]
        rfl
  | hor =>
    have fl := (flag_all hp hl (show r / 8 < p.w by have := hk.2; omega) hk.1 hr8).2
    rw [hr] at fl
    show Db.Spec.line false (r % 8 / 4) (lumaPrm p _ ao bo .hor (r / 8) k) = _
    unfold lumaPrm
    have lo := (lumaLine_hor p ao bo k r).1
    have ln := (lumaLine_hor p ao bo k r).2
    rw [fl]
    by_cases h0 : kind p .hor r (8 * k) = 0
    · rw [if_pos h0, lo (Or.inl h0)]; rfl
    · have hk0 : 0 < k := by
        by_contra h; have : k = 0 := by omega
        subst this; exact h0 rfl
      rw [if_neg h0, line_of_flags]
      have sk := (C78_skip p (r / 8) k (r % 8) hr8).2 hk0
      rw [hr] at sk
      have e1 : (8 * k - 1) / 8 = k - 1 := by omega
      have e2 : 8 * k / 8 = k := by omega
      by_cases hs : same p (r, 8 * k) (r, 8 * k - 1)
      · rw [if_pos (sk.mpr hs), lo (Or.inr hs)]
      · rw [if_neg (fun h => hs (sk.mp h)), ln (by tauto), e1, e2]
        rfl

theorem chroma_line (hp : p.Tree K) (hl : ∀ x y, x < p.w → y < p.h → (p.cu x y).Legal p.nsqt ∧ (p.cu x y).Plain p.nsqt)
    (delta ao bo : Int) (d : Dir) (k r : Nat)
    (hk : match d with | .ver => 2 * k < p.w ∧ r < 4 * p.h | .hor => 2 * k < p.h ∧ r < 4 * p.w) :
    Db.Spec.chroma (chromaPrm p (setPicture p K (trees p.w p.h (2 ^ K))) delta ao bo) d k r = chromaLine p delta ao bo d k r := by
  have hr : 8 * (r / 4) + 2 * (r % 4) = 2 * r := by have := Nat.div_add_mod r 4; omega
  have hr8 : 2 * (r % 4) < 8 := by have := Nat.mod_lt r (show 4 > 0 by decide); omega
  have hh : r % 4 / 2 = 2 * (r % 4) / 4 := by omega
  have hdrop : ∀ (b : Bool × Bool) (q : Option (Int × Int)) (c : Prop) [Decidable c],
      (if (!b.1 && !b.2) = true then none else if c then q.map fun t => (⟨t.1, t.2, b.1, b.2⟩ : Db.EdgePrm) else none) =
      if (!b.1 && !b.2) = true then none else (if c then q else none).map fun t => ⟨t.1, t.2, b.1, b.2⟩ := by
    intro b q c _
    by_cases h : c <;> simp [h]
  cases d with
  | ver =>
    have fl := (flag_all hp hl hk.1 (show r / 4 < p.h by have := hk.2; omega) hr8).1
    rw [hr] at fl
    show Db.Spec.line true (r % 4 / 2) (chromaPrm p _ delta ao bo .ver (2 * k) (r / 4)) = _
    unfold chromaPrm
    have lo := (chromaLine_ver p delta ao bo k r).1
    have ln := (chromaLine_ver p delta ao bo k r).2
    rw [fl, hh]
    by_cases h0 : kind p .ver (8 * (2 * k)) (2 * r) = 0
    · rw [if_pos h0, lo (Or.inl (by rw [h0]; decide))]; rfl
    · have hk0 : 0 < 2 * k := by
        by_contra h; have : k = 0 := by omega
        subst this; exact h0 rfl
      rw [if_neg h0, hdrop, line_of_flags]
      have sk := (C78_skip p (2 * k) (r / 4) (2 * (r % 4)) hr8).1 hk0
      rw [hr] at sk
      have e1 : (8 * (2 * k) - 1) / 8 = 2 * k - 1 := by omega
      have e2 : 8 * (2 * k) / 8 = 2 * k := by omega
      have e3 : 2 * r / 8 = r / 4 := by omega
      by_cases hs : same p (8 * (2 * k), 2 * r) (8 * (2 * k) - 1, 2 * r)
      · rw [if_pos (sk.mpr hs), lo (Or.inr hs)]
      · rw [if_neg (fun h => hs (sk.mp h))]
        by_cases h2 : kind p .ver (8 * (2 * k)) (2 * r) = 2
        · rw [if_pos h2, ln (by tauto), e1, e2, e3]
          rfl
        · rw [if_neg h2, lo (Or.inl h2)]
  | hor =>
    have fl := (flag_all hp hl (show r / 4 < p.w by have := hk.2; omega) hk.1 hr8).2
    rw [hr] at fl
    show Db.Spec.line true (r % 4 / 2) (chromaPrm p _ delta ao bo .hor (r / 4) (2 * k)) = _
    unfold chromaPrm
    have lo := (chromaLine_hor p delta ao bo k r).1
    have ln := (chromaLine_hor p delta ao bo k r).2
    rw [fl, hh]
    by_cases h0 : kind p .hor (2 * r) (8 * (2 * k)) = 0
    · rw [if_pos h0, lo (Or.inl (by rw [h0]; decide))]; rfl
    · have hk0 : 0 < 2 * k := by
        by_contra h; have : k = 0 := by omega
        subst this; exact h0 rfl
      rw [if_neg h0, hdrop, line_of_flags]
      have sk := (C78_skip p (r / 4) (2 * k) (2 * (r % 4)) hr8).2 hk0
      rw [hr] at sk
      have e1 : (8 * (2 * k) - 1) / 8 = 2 * k - 1 := by omega
      have e2 : 8 * (2 * k) / 8 = 2 * k := by omega
      have e3 : 2 * r / 8 = r / 4 := by omega
      by_cases hs : same p (2 * r, 8 * (2 * k)) (2 * r, 8 * (2 * k) - 1)
      · rw [if_pos (sk.mpr hs), lo (Or.inr hs)]
      · rw [if_neg (fun h => hs (sk.mp h))]
        by_cases h2 : kind p .hor (2 * r) (8 * (2 * k)) = 2
        · rw [if_pos h2, ln (by tauto), e1, e2, e3]
          rfl
        · rw [if_neg h2, lo (Or.inl h2)]

/-- **C78** (partial: intra strips as above, and pictures more than one coding tree wide). Marking and deblocking coding tree
by coding tree gives the picture in which each line is filtered as its own two samples say: all vertical edges, then all
horizontal ones. -/
theorem C78_luma_partial (hp : p.Tree K) (hl : ∀ x y, x < p.w → y < p.h → (p.cu x y).Legal p.nsqt ∧ (p.cu x y).Plain p.nsqt)
    (hw : 2 ^ K < p.w) (ao bo : Int) (m : Db.Plane) :
    (runTrees p K (fun f => Db.scuLuma (lumaPrm p f ao bo)) (trees p.w p.h (2 ^ K)) m).2 =
      Db.Spec.picture (8 * p.w) (8 * p.h) (lumaLine p ao bo) m := by
  rw [run_final hp hl _ (fun f g e m h => ?_), Db.C41_luma_partial _ _ _ _ (Nat.two_pow_pos K) hw]
  · apply picture_congr
    · intro k r h1 h2
      exact luma_line hp hl ao bo .ver k r ⟨by omega, h2⟩
    · intro k r h1 h2
      exact luma_line hp hl ao bo .hor k r ⟨by omega, h2⟩
  · show Db.scuLuma _ e m = Db.scuLuma _ e m
    unfold Db.scuLuma lumaPrm
    rw [h]

/-- The same for a chroma plane of a 4:2:0 picture. -/
theorem C78_chroma_partial (hp : p.Tree K) (hl : ∀ x y, x < p.w → y < p.h → (p.cu x y).Legal p.nsqt ∧ (p.cu x y).Plain p.nsqt)
    (hw : 2 ^ K < p.w) (delta ao bo : Int) (m : Db.Plane) :
    (runTrees p K (fun f => Db.scuChroma (chromaPrm p f delta ao bo)) (trees p.w p.h (2 ^ K)) m).2 =
      Db.Spec.picture (4 * p.w) (4 * p.h) (chromaLine p delta ao bo) m := by
  rw [run_final hp hl _ (fun f g e m h => ?_), Db.C41_chroma_partial _ _ _ _ (Nat.two_pow_pos K) hw]
  · apply picture_congr
    · intro k r h1 h2
      exact chroma_line hp hl delta ao bo .ver k r ⟨by omega, h2⟩
    · intro k r h1 h2
      exact chroma_line hp hl delta ao bo .hor k r ⟨by omega, h2⟩
  · show Db.scuChroma _ e m = Db.scuChroma _ e m
    unfold Db.scuChroma chromaPrm
    rw [h]

end

theorem entry_of {t : List Int} (ht : t.length = 64) (i : Int) : ∃ v, tabGet t (clip3 0 63 i) = some v ∧ Entry t i v := by
  have e : clip3 0 63 i = max 0 (min 63 i) := by unfold clip3; split <;> [skip; split] <;> omega
  have h0 : 0 ≤ max 0 (min 63 i) := by omega
  have hl : (max 0 (min 63 i)).toNat < t.length := by omega
  refine ⟨t[(max 0 (min 63 i)).toNat], ?_, List.getElem?_eq_getElem hl⟩
  rw [e]
  unfold tabGet
  rw [if_pos h0, List.getElem?_eq_getElem hl]

/-- **C78**: the thresholds are those of the mean `m` of the quantisers of the two sides, rounded up; for chroma the mean is taken of
the luma quantisers and then mapped to chroma. -/
theorem C78_thresholds (q1 q2 m delta ao bo : Int) (h : q1 + q2 ≤ 2 * m ∧ 2 * m ≤ q1 + q2 + 1) :
    (∃ a b, Db.lumaThresholds q1 q2 ao bo = some (a, b) ∧ Entry Db.alphaTable (m + ao) a ∧ Entry Db.betaTable (m + bo) b) ∧
    ∃ c a b, chromaThresholds q1 q2 delta ao bo = some (a, b) ∧ Entry qpScaleCr (m + delta) c ∧
      Entry Db.alphaTable (c + ao) a ∧ Entry Db.betaTable (c + bo) b := by
  have e : (q1 + q2 + 1) / 2 = m := by omega
  obtain ⟨a, ha, ha'⟩ := entry_of (t := Db.alphaTable) rfl (m + ao)
  obtain ⟨b, hb, hb'⟩ := entry_of (t := Db.betaTable) rfl (m + bo)
  obtain ⟨c, hc, hc'⟩ := entry_of (t := qpScaleCr) rfl (m + delta)
  obtain ⟨a2, ha2, ha2'⟩ := entry_of (t := Db.alphaTable) rfl (c + ao)
  obtain ⟨b2, hb2, hb2'⟩ := entry_of (t := Db.betaTable) rfl (c + bo)
  refine ⟨⟨a, b, ?_, ha', hb'⟩, c, a2, b2, ?_, hc', ha2', hb2'⟩
  · unfold Db.lumaThresholds
    simp only [e, ha, hb]; rfl
  · unfold chromaThresholds cuGetChromaQp
    rw [e, hc]
    show (do let a ← tabGet Db.alphaTable _; let b ← tabGet Db.betaTable _; some (a, b)) = _
    simp only [ha2, hb2]; rfl

/-- Quantisers 40 and 45: the mean is 43, mapped to 42 for chroma. -/
example : Db.lumaThresholds 40 45 0 0 = some (37, 11) ∧ chromaThresholds 40 45 0 0 0 = some (37, 10) := by decide +kernel

/-- No block at the left border is marked for vertical, none at the upper border for horizontal filtering. -/
def Border (f : Flags) : Prop := (∀ y, f .ver 0 y = 0) ∧ ∀ x, f .hor x 0 = 0

theorem mark_border (d : Dir) (t : Nat) : ∀ (n x y : Nat) (f : Flags), (match d with | .ver => x ≠ 0 | .hor => y ≠ 0) → Border f →
    Border (mark d t n x y f)
  | 0, _, _, _, _, hf => hf
  | n + 1, x, y, f, h, hf => by
    unfold mark
    split_ifs
    · exact hf
    · cases d with
      | ver =>
        dsimp only at h ⊢
        refine mark_border .ver t n x (y + 1) _ h ⟨fun y' => ?_, fun x' => ?_⟩
        · exact (if_neg (by omega)).trans (hf.1 y')
        · exact (if_neg (by simp)).trans (hf.2 x')
      | hor =>
        dsimp only at h ⊢
        refine mark_border .hor t n (x + 1) y _ h ⟨fun y' => ?_, fun x' => ?_⟩
        · exact (if_neg (by simp)).trans (hf.1 y')
        · exact (if_neg (by omega)).trans (hf.2 x')

theorem setEdge_border (p : Pic) (k x y : Nat) (d : Dir) (t : Nat) (f : Flags) (hf : Border f) : Border (setEdge p k x y d t f) := by
  unfold setEdge
  split_ifs with h
  · exact hf
  · apply mark_border _ _ _ _ _ _ _ hf
    cases d <;> (dsimp only; rintro rfl; exact h rfl)

theorem setCu_border (p : Pic) (k x y : Nat) (f : Flags) (hf : Border f) : Border (setCu p k x y f) := by
  unfold setCu
  generalize calls p.nsqt k (p.cu x y) = l
  induction l generalizing f with
  | nil => exact hf
  | cons e l ih =>
    rw [List.foldl_cons]
    apply ih
    obtain ⟨d, o, t⟩ := e
    cases d
    · exact setEdge_border _ _ _ _ _ _ _ hf
    · exact setEdge_border _ _ _ _ _ _ _ hf

theorem setTree_border (p : Pic) : ∀ (k x y : Nat) (f : Flags), Border f → Border (setTree p k x y f)
  | 0, x, y, f, hf => setCu_border p 0 x y f hf
  | k + 1, x, y, f, hf => by
    unfold setTree
    split_ifs
    · generalize [(0, 0), (1, 0), (0, 1), (1, 1)] = l
      induction l generalizing f with
      | nil => exact hf
      | cons q l ih =>
        rw [List.foldl_cons]
        apply ih
        dsimp only
        split_ifs
        · exact hf
        · exact setTree_border p k _ _ f hf
    · exact setCu_border p _ x y f hf

/-- C78: whatever the stored coding units hold, the borders of the picture are never deblocked (so no sample outside the
picture is used): this is what C65 and C66 assume. -/
theorem C78_border (p : Pic) (K : Nat) (ts : List (Nat × Nat)) (delta ao bo : Int) (x y : Nat) :
    lumaPrm p (setPicture p K ts) ao bo .ver 0 y = none ∧ lumaPrm p (setPicture p K ts) ao bo .hor x 0 = none ∧
    chromaPrm p (setPicture p K ts) delta ao bo .ver 0 y = none ∧ chromaPrm p (setPicture p K ts) delta ao bo .hor x 0 = none := by
  have h : Border (setPicture p K ts) := by
    unfold setPicture
    have h0 : Border (fun _ _ _ => 0) := ⟨fun _ => rfl, fun _ => rfl⟩
    generalize (fun _ _ _ => 0 : Flags) = f at h0
    induction ts generalizing f with
    | nil => exact h0
    | cons t ts ih =>
      rw [List.foldl_cons]
      exact ih _ (setTree_border p K _ _ f h0)
  unfold lumaPrm chromaPrm
  exact ⟨if_pos (h.1 y), if_pos (h.2 x), if_pos (h.1 y), if_pos (h.2 x)⟩

/-- The trees of C45 are such trees: if each coding unit of the picture, for any choice of split flags, has its information stored
in all its blocks, and slices consist of whole coding trees. -/
theorem tree_of_picture {p : Pic} {K : Nat} (split : Nat → Nat → Nat → Bool) (info : Qt.Cu → CuInfo)
    (hi : ∀ c, (info c).level = c.l)
    (hc : ∀ c ∈ Qt.picture (8 * p.w) (8 * p.h) (K + 3) split, ∀ x y, c.x ≤ 8 * x → 8 * x < c.x + 2 ^ c.l → c.y ≤ 8 * y →
      8 * y < c.y + 2 ^ c.l → p.cu x y = info c)
    (slice : Nat → Nat → Int) (hs : ∀ x y, x < p.w → y < p.h → (p.cu x y).slice = slice (x / 2 ^ K) (y / 2 ^ K)) : p.Tree K := by
  have cover : ∀ x y, x < p.w → y < p.h → ∃ c ∈ Qt.picture (8 * p.w) (8 * p.h) (K + 3) split, (c.x ≤ 8 * x ∧ 8 * x < c.x + 2 ^ c.l) ∧
      c.y ≤ 8 * y ∧ 8 * y < c.y + 2 ^ c.l := by
    intro x y hx hy
    have := Qt.C45_cover (8 * p.w) (8 * p.h) (K + 3) (Nat.dvd_mul_right _ _) (Nat.dvd_mul_right _ _) (by omega) split (8 * x) (8 * y)
      (by omega) (by omega)
    have h0 : 0 < (Qt.picture (8 * p.w) (8 * p.h) (K + 3) split).countP
        (fun c => c.x ≤ 8 * x ∧ 8 * x < c.x + 2 ^ c.l ∧ c.y ≤ 8 * y ∧ 8 * y < c.y + 2 ^ c.l) := by rw [this]; decide
    obtain ⟨c, hc, h⟩ := List.countP_pos_iff.mp h0
    simp only [decide_eq_true_eq] at h
    exact ⟨c, hc, ⟨h.1, h.2.1⟩, h.2.2⟩
  have key : ∀ x y, x < p.w → y < p.h → ∃ c ∈ Qt.picture (8 * p.w) (8 * p.h) (K + 3) split, p.cu x y = info c ∧
      (3 ≤ c.l ∧ c.l ≤ K + 3) ∧ ∃ X Y, c.x = 8 * (X * 2 ^ (c.l - 3)) ∧ c.y = 8 * (Y * 2 ^ (c.l - 3)) ∧ x / 2 ^ (c.l - 3) = X ∧ y / 2 ^ (c.l - 3) = Y ∧
      X * 2 ^ (c.l - 3) + 2 ^ (c.l - 3) ≤ p.w ∧ Y * 2 ^ (c.l - 3) + 2 ^ (c.l - 3) ≤ p.h := by
    intro x y hx hy
    obtain ⟨c, hm, hX, hY⟩ := cover x y hx hy
    obtain ⟨l1, l2, ⟨X, eX⟩, ⟨Y, eY⟩, f1, f2⟩ := Qt.C45_inside _ _ _ (Nat.dvd_mul_right _ _) (Nat.dvd_mul_right _ _) (by omega) split c hm
    have hp2 := Nat.two_pow_pos (c.l - 3)
    have e8 : 2 ^ c.l = 8 * 2 ^ (c.l - 3) := by
      conv => lhs; rw [show c.l = 3 + (c.l - 3) by omega, Nat.pow_add]
    have eX' : c.x = 8 * (X * 2 ^ (c.l - 3)) := by rw [eX, e8]; ring
    have eY' : c.y = 8 * (Y * 2 ^ (c.l - 3)) := by rw [eY, e8]; ring
    refine ⟨c, hm, hc c hm x y hX.1 hX.2 hY.1 hY.2, ⟨l1, l2⟩, X, Y, eX', eY', ?_, ?_, by omega, by omega⟩
    · rw [Nat.div_eq_iff hp2]; omega
    · rw [Nat.div_eq_iff hp2]; omega
  refine ⟨?_, ?_, ?_, ?_⟩
  · intro x y hx hy
    obtain ⟨c, -, e, h, -⟩ := key x y hx hy
    rw [e, hi]; exact h
  · intro x y hx hy
    obtain ⟨c, -, e, -, X, Y, -, -, h3, h4, h5, h6⟩ := key x y hx hy
    rw [e, hi, h3, h4]; exact ⟨h5, h6⟩
  · intro x y x' y' hx hy h1 h2
    obtain ⟨c, hm, e, hl, X, Y, e1, e2, h3, h4, -, -⟩ := key x y hx hy
    rw [e, hi] at h1 h2
    rw [e]
    have hp2 := Nat.two_pow_pos (c.l - 3)
    have e8 : 2 ^ c.l = 8 * 2 ^ (c.l - 3) := by
      conv => lhs; rw [show c.l = 3 + (c.l - 3) by omega, Nat.pow_add]
    rw [h3, Nat.div_eq_iff hp2] at h1
    rw [h4, Nat.div_eq_iff hp2] at h2
    exact hc c hm x' y' (by omega) (by omega) (by omega) (by omega)
  · intro x y x' y' hx hy hx' hy' h1 h2
    rw [hs x y hx hy, hs x' y' hx' hy', h1, h2]

/-- Two coding trees of 16x16 samples, two slices: an inter unit of two halves with a split transform, and four units of 8x8. -/
def demo : Pic where
  w := 4
  h := 2
  cross := false
  nsqt := true
  cu := fun x _ => if x < 2 then ⟨4, 2, 1, true, 0, 30⟩ else ⟨3, 8, 0, false, 1, 30⟩

theorem demo_tree : demo.Tree 1 := by
  have hcu : ∀ x y, demo.cu x y = if x < 2 then ⟨4, 2, 1, true, 0, 30⟩ else ⟨3, 8, 0, false, 1, 30⟩ := fun _ _ => rfl
  refine ⟨?_, ?_, ?_, ?_⟩
  · intro x y hx hy
    rw [hcu]; split_ifs <;> decide
  · have : ∀ x, x < 4 → ∀ y, y < 2 → x / 2 ^ ((demo.cu x y).level - 3) * 2 ^ ((demo.cu x y).level - 3) + 2 ^ ((demo.cu x y).level - 3) ≤ 4 ∧
      y / 2 ^ ((demo.cu x y).level - 3) * 2 ^ ((demo.cu x y).level - 3) + 2 ^ ((demo.cu x y).level - 3) ≤ 2 := by decide
    exact fun x y hx hy => this x hx y hy
  · intro x y x' y' hx hy h1 h2
    rw [hcu] at h1 h2
    rw [hcu, hcu]
    by_cases h : x < 2
    · rw [if_pos h] at h1 ⊢
      simp only at h1
      rw [if_pos (by omega)]
    · rw [if_neg h] at h1 ⊢
      simp only at h1
      rw [if_neg (by omega)]
  · intro x y x' y' hx hy hx' hy' h1 h2
    rw [hcu, hcu]
    by_cases h : x < 2
    · rw [if_pos h, if_pos (by omega)]
    · rw [if_neg h, if_neg (by omega)]

theorem demo_legal : ∀ x y, x < demo.w → y < demo.h → (demo.cu x y).Legal demo.nsqt ∧ (demo.cu x y).Plain demo.nsqt := by
  intro x y _ _
  have hcu : demo.cu x y = if x < 2 then ⟨4, 2, 1, true, 0, 30⟩ else ⟨3, 8, 0, false, 1, 30⟩ := rfl
  rw [hcu]
  split_ifs
  · exact ⟨⟨by decide, by decide, Or.inl ⟨by decide, true, rfl⟩⟩, fun h => absurd h (by decide)⟩
  · exact ⟨⟨by decide, by decide, Or.inr ⟨false, false, false, rfl⟩⟩, fun h => absurd h (by decide)⟩

/-- In `demo` the middle of the first unit is marked for luma and chroma, the edge between the slices is not, edges of the
small units are. -/
example : setPicture demo 1 [(0, 0), (1, 0)] .hor 1 1 = 2 ∧ setPicture demo 1 [(0, 0), (1, 0)] .ver 1 1 = 0 ∧
    setPicture demo 1 [(0, 0), (1, 0)] .ver 2 1 = 0 ∧ setPicture demo 1 [(0, 0), (1, 0)] .ver 3 1 = 2 ∧
    kind demo .hor 13 8 = 2 ∧ kind demo .ver 16 8 = 0 := by decide +kernel

example (ao bo : Int) (m : Db.Plane) := C78_luma_partial demo_tree demo_legal (by decide) ao bo m

/-- A unit of 16x16 samples predicted in four strips of 16x4, with coefficients, non-square transforms disabled. -/
def strips : Pic where
  w := 2
  h := 2
  cross := true
  nsqt := false
  cu := fun _ _ => ⟨4, 10, 1, true, 0, 30⟩

/-- What C78 excludes: for intra strips with coefficients, when non-square transforms are off, the code marks an edge across the
strips although it separates neither coding units nor prediction nor transform units. -/
theorem C78_strips_violated : (strips.cu 0 0).Legal strips.nsqt ∧
    setPicture strips 1 [(0, 0)] .ver 1 0 = 1 ∧ ∀ j, j < 8 → kind strips .ver 8 j = 0 := by
  refine ⟨⟨by decide, by decide, Or.inr ⟨true, true, true, rfl⟩⟩, by decide +kernel, by decide +kernel⟩

/-- The filter is left out between two halves with the same motion, and only there: a P picture, motion vectors 3 apart. -/
example : let p : Pic := { demo with frame := 1, cu := fun _ _ => ⟨3, 1, 0, false, 0, 30⟩,
                                     motion := fun x y => ⟨if x < 2 ∧ y < 1 then 3 else 0, if 1 ≤ y then 4 * x else 0, 0⟩ }
    filterFlags p .ver 1 0 = (false, true) ∧ same p (8, 0) (7, 0) ∧ ¬ same p (8, 4) (7, 4) := by
  refine ⟨by decide, ?_, ?_⟩ <;> unfold same <;> decide

end Davs2.De
