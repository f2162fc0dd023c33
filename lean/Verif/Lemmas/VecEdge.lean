import Verif.Lemmas.VecDeblock
/-
Lemmas on the vector versions of the filter of one edge: which samples they load and store.
-/
namespace Davs2.Vc
open Davs2.Db (Line EdgePrm pel smooth strength filterLine getLine putLine edgeCore Dir at_)
open Davs2.Sa (Plane)

/-! ### The C versions, sample by sample -/

/-- The flag that applies to line `i`. -/
def flagAt (chroma : Bool) (p : EdgePrm) (i : Nat) : Bool := if (if chroma then 2 * i else i) < 4 then p.flag0 else p.flag1

def lineVer (chroma : Bool) (p : EdgePrm) (m : Plane) (x y : Int) (i : Nat) : Line :=
  filterLine chroma p.alpha p.beta (flagAt chroma p i) (getLine m .ver x (y + i))

def lineHor (chroma : Bool) (p : EdgePrm) (m : Plane) (x y : Int) (i : Nat) : Line :=
  filterLine chroma p.alpha p.beta (flagAt chroma p i) (getLine m .hor (x + i) y)

def count (chroma : Bool) : Nat := if chroma then 4 else 8

theorem edgeCore_ver (chroma : Bool) (p : EdgePrm) (x y : Int) (m : Plane) (px py : Int) :
    edgeCore chroma p .ver x y m px py =
      if (x - 3 ≤ px ∧ px ≤ x + 2) ∧ y ≤ py ∧ py < y + count chroma then (lineVer chroma p m x y (py - y).toNat).get (px - x) else m px py := by
  have key : ∀ n : Nat, ∀ px py, (List.range n).foldl (fun m (i : Nat) =>
      putLine m .ver x (y + i) (filterLine chroma p.alpha p.beta (flagAt chroma p i) (getLine m .ver x (y + i)))) m px py =
      if (x - 3 ≤ px ∧ px ≤ x + 2) ∧ y ≤ py ∧ py < y + n then (lineVer chroma p m x y (py - y).toNat).get (px - x) else m px py := by
    intro n
    induction n with
    | zero => intro px py; rw [if_neg (by omega)]; rfl
    | succ n ih =>
      intro px py
      rw [List.range_succ, List.foldl_append]
      simp only [List.foldl_cons, List.foldl_nil]
      generalize List.foldl _ m (List.range n) = m' at ih ⊢
      unfold putLine
      dsimp only
      by_cases h : py = y + n ∧ x - 3 ≤ px ∧ px ≤ x + 2
      · rw [if_pos h, if_pos (by omega)]
        unfold lineVer
        have e : (py - y).toNat = n := by omega
        rw [e]
        congr 2
        unfold getLine
        simp only [at_, ih]
        have ni : ¬(y ≤ y + (n : Int) ∧ y + (n : Int) < y + n) := by omega
        simp only [ni, and_false, if_false]
      · rw [if_neg h, ih]
        by_cases h2 : (x - 3 ≤ px ∧ px ≤ x + 2) ∧ y ≤ py ∧ py < y + n
        · rw [if_pos h2, if_pos (by omega)]
        · rw [if_neg h2, if_neg (by omega)]
  exact key _ px py

theorem edgeCore_hor (chroma : Bool) (p : EdgePrm) (x y : Int) (m : Plane) (px py : Int) :
    edgeCore chroma p .hor x y m px py =
      if (y - 3 ≤ py ∧ py ≤ y + 2) ∧ x ≤ px ∧ px < x + count chroma then (lineHor chroma p m x y (px - x).toNat).get (py - y) else m px py := by
  have key : ∀ n : Nat, ∀ px py, (List.range n).foldl (fun m (i : Nat) =>
      putLine m .hor (x + i) y (filterLine chroma p.alpha p.beta (flagAt chroma p i) (getLine m .hor (x + i) y))) m px py =
      if (y - 3 ≤ py ∧ py ≤ y + 2) ∧ x ≤ px ∧ px < x + n then (lineHor chroma p m x y (px - x).toNat).get (py - y) else m px py := by
    intro n
    induction n with
    | zero => intro px py; rw [if_neg (by omega)]; rfl
    | succ n ih =>
      intro px py
      rw [List.range_succ, List.foldl_append]
      simp only [List.foldl_cons, List.foldl_nil]
      generalize List.foldl _ m (List.range n) = m' at ih ⊢
      unfold putLine
      dsimp only
      by_cases h : px = x + n ∧ y - 3 ≤ py ∧ py ≤ y + 2
      · rw [if_pos h, if_pos (by omega)]
        unfold lineHor
        have e : (px - x).toNat = n := by omega
        rw [e]
        congr 2
        unfold getLine
        simp only [at_, ih]
        have ni : ¬(x ≤ x + (n : Int) ∧ x + (n : Int) < x + n) := by omega
        simp only [ni, and_false, if_false]
      · rw [if_neg h, ih]
        by_cases h2 : (y - 3 ≤ py ∧ py ≤ y + 2) ∧ x ≤ px ∧ px < x + n
        · rw [if_pos h2, if_pos (by omega)]
        · rw [if_neg h2, if_neg (by omega)]
  exact key _ px py

/-! ### Transposition -/

theorem w16_lo (a : V) (i : Nat) : w16 (unpacklo8 a (c16 0)) i = u8 a i := by
  unfold w16 u16
  have z : u8 (c16 0) i = 0 := by unfold c16 set1_16 ofW; rw [u8_ofB]; split <;> rfl
  rw [(u8_unpacklo a _ i).1, (u8_unpacklo a _ i).2, z]
  have := u8_range a i
  unfold wrap16; omega

theorem w16_hi (a : V) (i : Nat) : w16 (unpackhi8 a (c16 0)) i = u8 a (8 + i) := by
  unfold w16 u16
  have z : u8 (c16 0) (8 + i) = 0 := by unfold c16 set1_16 ofW; rw [u8_ofB]; split <;> rfl
  rw [(u8_unpackhi a _ i).1, (u8_unpackhi a _ i).2, z]
  have := u8_range a (8 + i)
  unfold wrap16; omega

/-- Word `i` of column `j` is byte `j` of row `i`. -/
theorem transposeIn_lane (t : Nat → V) (i : Nat) (hi : i < 8) :
    w16 (transposeIn t).1 i = u8 (t i) 0 ∧ w16 (transposeIn t).2.1 i = u8 (t i) 1 ∧ w16 (transposeIn t).2.2.1 i = u8 (t i) 2 ∧
      w16 (transposeIn t).2.2.2.1 i = u8 (t i) 3 ∧ w16 (transposeIn t).2.2.2.2.1 i = u8 (t i) 4 ∧ w16 (transposeIn t).2.2.2.2.2.1 i = u8 (t i) 5 ∧
      w16 (transposeIn t).2.2.2.2.2.2.1 i = u8 (t i) 6 ∧ w16 (transposeIn t).2.2.2.2.2.2.2 i = u8 (t i) 7 := by
  unfold transposeIn
  dsimp only
  simp only [w16_lo, w16_hi]
  interval_cases i <;> exact ⟨rfl, rfl, rfl, rfl, rfl, rfl, rfl, rfl⟩

/-- Byte `j` of row `i` is word `i` of column `j`, limited to a byte. -/
theorem transposeOut_lane (l3 l2 l1 l0 r0 r1 r2 r3 : V) (i j : Nat) (hi : i < 8) (hj : j < 8) :
    u8 (transposeOut l3 l2 l1 l0 r0 r1 r2 r3 i) j =
      satu8 (w16 (([l3, l2, l1, l0, r0, r1, r2, r3] : List V).getD j l3) i) := by
  have low : ∀ a b : V, u8 (packus16 a b) i = satu8 (w16 a i) := fun a b => by rw [u8_packus16, if_pos hi]
  have high : ∀ a b : V, u8 (packus16 a b) (8 + i) = satu8 (w16 b i) := fun a b => by
    rw [u8_packus16, if_neg (by omega), Nat.add_sub_cancel_left]
  interval_cases j
  · rw [show ([l3, l2, l1, l0, r0, r1, r2, r3] : List V).getD 0 l3 = l3 from rfl, ← low l3 r0]; interval_cases i <;> rfl
  · rw [show ([l3, l2, l1, l0, r0, r1, r2, r3] : List V).getD 1 l3 = l2 from rfl, ← low l2 r1]; interval_cases i <;> rfl
  · rw [show ([l3, l2, l1, l0, r0, r1, r2, r3] : List V).getD 2 l3 = l1 from rfl, ← low l1 r2]; interval_cases i <;> rfl
  · rw [show ([l3, l2, l1, l0, r0, r1, r2, r3] : List V).getD 3 l3 = l0 from rfl, ← low l0 r3]; interval_cases i <;> rfl
  · rw [show ([l3, l2, l1, l0, r0, r1, r2, r3] : List V).getD 4 l3 = r0 from rfl, ← high l3 r0]; interval_cases i <;> rfl
  · rw [show ([l3, l2, l1, l0, r0, r1, r2, r3] : List V).getD 5 l3 = r1 from rfl, ← high l2 r1]; interval_cases i <;> rfl
  · rw [show ([l3, l2, l1, l0, r0, r1, r2, r3] : List V).getD 6 l3 = r2 from rfl, ← high l1 r2]; interval_cases i <;> rfl
  · rw [show ([l3, l2, l1, l0, r0, r1, r2, r3] : List V).getD 7 l3 = r3 from rfl, ← high l0 r3]; interval_cases i <;> rfl

/-! ### Masks of the flags -/

theorem isMask_flag (m : V) (i : Nat) (b : Bool) (h : w16 m i = flagInt b) : IsMask m i (b = true) := by
  have r0 := (m (2 * i)).isLt
  have r1 := (m (2 * i + 1)).isLt
  unfold w16 wrap16 u16 u8 flagInt at h
  constructor
  · intro hb
    rw [if_pos hb] at h
    constructor <;> (apply BitVec.eq_of_toNat_eq; change _ = 255; omega)
  · intro hb
    rw [if_neg hb] at h
    constructor <;> (apply BitVec.eq_of_toNat_eq; change _ = 0; omega)

theorem flag_luma (p : EdgePrm) (i : Nat) (hi : i < 8) : IsMask (maskLuma p) i (flagAt false p i = true) := by
  apply isMask_flag
  unfold maskLuma set32 ofD
  rw [w16_ofW]
  unfold flagAt
  obtain ⟨a, b, f0, f1⟩ := p
  cases f0 <;> cases f1 <;> interval_cases i <;> rfl

theorem flag_chroma (p : EdgePrm) (i : Nat) (hi : i < 4) : IsMask (maskChroma p) i (flagAt true p i = true) ∧
    IsMask (maskChroma p) (4 + i) (flagAt true p i = true) := by
  constructor <;>
  · apply isMask_flag
    unfold maskChroma set32 ofD
    rw [w16_ofW]
    unfold flagAt
    obtain ⟨a, b, f0, f1⟩ := p
    cases f0 <;> cases f1 <;> interval_cases i <;> rfl

/-! ### Stores -/

/-- Samples are bytes. -/
def Bytes' (m : Plane) : Prop := ∀ x y, 0 ≤ m x y ∧ m x y ≤ 255

theorem fold_storel (n : Nat) (out : Nat → V) (x y : Int) (m : Plane) (px py : Int) :
    (List.range n).foldl (fun m (i : Nat) => storel m x (y + i) (out i)) m px py =
      if (x ≤ px ∧ px < x + 8) ∧ y ≤ py ∧ py < y + n then u8 (out (py - y).toNat) (px - x).toNat else m px py := by
  induction n generalizing px py with
  | zero => rw [if_neg (by omega)]; rfl
  | succ n ih =>
    rw [List.range_succ, List.foldl_append]
    simp only [List.foldl_cons, List.foldl_nil]
    generalize List.foldl _ m (List.range n) = m' at ih ⊢
    unfold storel
    by_cases h : py = y + n ∧ x ≤ px ∧ px < x + 8
    · rw [if_pos h, if_pos (by omega), show (py - y).toNat = n by omega]
    · rw [if_neg h, ih]
      by_cases h2 : (x ≤ px ∧ px < x + 8) ∧ y ≤ py ∧ py < y + n
      · rw [if_pos h2, if_pos (by omega)]
      · rw [if_neg h2, if_neg (by omega)]

theorem u8_loadl {m : Plane} (hm : Bytes' m) (x y : Int) (j : Nat) (hj : j < 8) : u8 (loadl m x y) j = m (x + j) y := by
  unfold u8 loadl
  rw [if_pos hj]
  exact u8_load m x y j (hm _ _)

theorem satu8_id {v : Int} (h : 0 ≤ v ∧ v ≤ 255) : satu8 v = v := by unfold satu8; omega

theorem sub_ok (i : Nat) (a b : V) (ha : 0 ≤ w16 a i ∧ w16 a i ≤ 255) (hb : 0 ≤ w16 b i ∧ w16 b i ≤ 255) :
    w16 (sub16 a b) i = w16 a i - w16 b i := by rw [w16_sub16, wrap16_id (by omega)]

theorem subs_ok (i : Nat) (a b : V) (ha : 0 ≤ w16 a i ∧ w16 a i ≤ 255) (hb : 0 ≤ w16 b i ∧ w16 b i ≤ 255) :
    w16 (subs16 a b) i = w16 a i - w16 b i := by rw [w16_subs16, sat16_id (by omega)]

theorem w16_thr {v : Int} (h : 0 ≤ v ∧ v ≤ 255) (i : Nat) : w16 (set1_16 (v % 256)) i = v ∧ w16 (set1_16 v) i = v := by
  rw [w16_set1, w16_set1, wrap16_id (by omega), wrap16_id (by omega)]
  exact ⟨by omega, rfl⟩

theorem getLine_range {m : Plane} (hm : Bytes' m) (d : Dir) (x y : Int) : InRange (getLine m d x y) := by
  unfold getLine
  constructor <;> exact hm _ _

/-- A row of the result of a vertical edge. -/
theorem ver_row {chroma : Bool} {al be : Int} {flag : Bool} {alpha beta msk : V} {t : Nat → V} {m : Plane} (hm : Bytes' m) {x y : Int} {i j : Nat}
    (hi : i < 8) (hj : j < 8) (ht : ∀ k < 8, u8 (t i) k = m (x - 4 + k) y) (ha : w16 alpha i = al) (hb : w16 beta i = be)
    (hk : IsMask msk i (flag = true)) :
    let c := transposeIn t
    let s := dbLines sub16 chroma alpha beta msk ⟨c.2.1, c.2.2.1, c.2.2.2.1, c.2.2.2.2.1, c.2.2.2.2.2.1, c.2.2.2.2.2.2.1⟩
    u8 (transposeOut c.1 s.l2 s.l1 s.l0 s.r0 s.r1 s.r2 c.2.2.2.2.2.2.2 i) j =
      if 1 ≤ j ∧ j ≤ 6 then (filterLine chroma al be flag (getLine m .ver x y)).get (j - 4) else m (x - 4 + j) y := by
  intro c s
  obtain ⟨e0, e1, e2, e3, e4, e5, e6, e7⟩ := transposeIn_lane t i hi
  rw [ht 0 (by omega)] at e0
  rw [ht 1 (by omega)] at e1
  rw [ht 2 (by omega)] at e2
  rw [ht 3 (by omega)] at e3
  rw [ht 4 (by omega)] at e4
  rw [ht 5 (by omega)] at e5
  rw [ht 6 (by omega)] at e6
  rw [ht 7 (by omega)] at e7
  have at0 : At ⟨c.2.1, c.2.2.1, c.2.2.2.1, c.2.2.2.2.1, c.2.2.2.2.2.1, c.2.2.2.2.2.2.1⟩ i (getLine m .ver x y) := by
    unfold getLine at_
    constructor
    · exact e1.trans (congrArg (fun z => m z y) (by push_cast; omega))
    · exact e2.trans (congrArg (fun z => m z y) (by push_cast; omega))
    · exact e3.trans (congrArg (fun z => m z y) (by push_cast; omega))
    · exact e4.trans (congrArg (fun z => m z y) (by push_cast; omega))
    · exact e5.trans (congrArg (fun z => m z y) (by push_cast; omega))
    · exact e6.trans (congrArg (fun z => m z y) (by push_cast; omega))
  have gr := getLine_range hm .ver x y
  have at1 := at_lines (chroma := chroma) hi (sub_ok i) ha hb hk at0 gr
  have fr := filterLine_range (chroma := chroma) (al := al) (be := be) (flag := flag) gr
  rw [transposeOut_lane _ _ _ _ _ _ _ _ i j hi hj]
  obtain ⟨a, b, c', d, f, g⟩ := at1
  obtain ⟨a', b', c'', d', f', g'⟩ := fr
  interval_cases j
  · rw [if_neg (by omega)]
    exact (congrArg satu8 e0).trans (satu8_id (hm _ _))
  · rw [if_pos (by omega)]; exact (congrArg satu8 a).trans (satu8_id a')
  · rw [if_pos (by omega)]; exact (congrArg satu8 b).trans (satu8_id b')
  · rw [if_pos (by omega)]; exact (congrArg satu8 c').trans (satu8_id c'')
  · rw [if_pos (by omega)]; exact (congrArg satu8 d).trans (satu8_id d')
  · rw [if_pos (by omega)]; exact (congrArg satu8 f).trans (satu8_id f')
  · rw [if_pos (by omega)]; exact (congrArg satu8 g).trans (satu8_id g')
  · rw [if_neg (by omega)]
    exact (congrArg satu8 e7).trans (satu8_id (hm _ _))

end Davs2.Vc
