import Verif.Lemmas.LoopTree
/-
The row-by-row model as an instance of the generic pipeline, and its stages per sample.
-/
namespace Davs2.Lr
open Davs2.Sa (Plane Avail)
open Davs2.Spec

/-! ### Which tree a position belongs to -/

theorem shifted_iff {S L : Nat} (h8 : 8 ≤ L) (hS : 0 < S) (h4 : 4 ∣ S) (h4L : 4 ∣ L) {x : Int} (h0 : 0 ≤ x) (h1 : x < S) {k : Nat} (hk : k < trees S L) :
    (start L (decide (k ≠ 0)) k ≤ x ∧ x < stop S L (decide (k + 1 < trees S L)) k) ↔ k = shiftedTree S L x := by
  obtain ⟨t0, t1, t2⟩ := trees_bounds (S := S) (L := L) (by omega) hS
  have hLp : (0 : Int) < L := by exact_mod_cast (show 0 < L by omega)
  have hS' : shiftedTree S L x < trees S L ∧ (start L (decide (shiftedTree S L x ≠ 0)) (shiftedTree S L x) ≤ x ∧
      x < stop S L (decide (shiftedTree S L x + 1 < trees S L)) (shiftedTree S L x)) := by
    have hq0 : 0 ≤ (x + 4) / (L : Int) := Int.ediv_nonneg (by omega) (by omega)
    obtain ⟨q, hq⟩ := Int.eq_ofNat_of_zero_le hq0
    have hq1 := Int.mul_ediv_self_le (x := x + 4) (k := (L : Int)) (by omega)
    have hq2 := Int.lt_mul_ediv_self_add (x := x + 4) (k := (L : Int)) hLp
    rw [hq, mul_comm] at hq1 hq2
    have hst : shiftedTree S L x = min (trees S L - 1) q := by unfold shiftedTree; rw [hq]; rfl
    rw [hst]
    rcases Nat.lt_or_ge q (trees S L - 1) with c | c
    · rw [show min (trees S L - 1) q = q by omega]
      refine ⟨by omega, ?_, ?_⟩
      · unfold start
        by_cases z : q = 0
        · subst z; simpa using h0
        · simp [z]; omega
      · unfold stop
        rw [if_pos (by simp; omega)]
        have e : ((q : Int) + 1) * L = q * L + L := by ring
        omega
    · rw [show min (trees S L - 1) q = trees S L - 1 by omega]
      refine ⟨by omega, ?_, ?_⟩
      · unfold start
        by_cases z : trees S L - 1 = 0
        · rw [z]; simpa using h0
        · have : (trees S L - 1 : Nat) * (L : Int) ≤ q * L := mul_le_mul_of_nonneg_right (by exact_mod_cast c) (by omega)
          simp only [z, ne_eq, not_false_iff, decide_true, if_true]
          omega
      · unfold stop
        rw [if_neg (by simp; omega)]
        have : (S : Int) ≤ (trees S L : Nat) * L := by exact_mod_cast t2
        rw [show ((trees S L - 1 : Nat) : Int) + 1 = (trees S L : Nat) by omega]
        omega
  obtain ⟨i, hi, -, iu⟩ := axis (S := S) (L := L) h8 hS h4 h4L (fun k => decide (k ≠ 0)) (fun k => decide (k + 1 < trees S L)) (by simp)
    (by simp; omega) (by intro i h; simp [h]) x h0 h1
  constructor
  · rintro ⟨a, c⟩
    rw [iu k hk a c, iu _ hS'.1 hS'.2.1 hS'.2.2]
  · intro e
    subst e
    exact hS'.2

theorem shiftedTree_lt {S L : Nat} (h8 : 8 ≤ L) (hS : 0 < S) (x : Int) : shiftedTree S L x < trees S L := by
  have t0 := (trees_bounds (S := S) (L := L) (by omega) hS).1
  unfold shiftedTree
  have : (S + L - 1) / L = trees S L := rfl
  rw [this]
  omega

variable {l : Lay}

theorem sao_has (hl : l.Ok) (hc : l.cross = true) {i j : Nat} (hi : i < l.nW) (hj : j < l.nH) (x y : Int) :
    (l.sao i j).Has x y ↔ l.In x y ∧ i = shiftedTree l.W l.L x ∧ j = shiftedTree l.H l.L y := by
  obtain ⟨⟨-, -, e1, e2, e3, e4⟩, -⟩ := C43_extent hl hi hj
  obtain ⟨h8, h4, hW, hW4, hH, hH4⟩ := id hl
  have ht : l.saoTop i j = decide (j ≠ 0) := by unfold Lay.saoTop top; simp [hc]
  have hd : l.saoDown i j = decide (j + 1 < l.nH) := by unfold Lay.saoDown down; simp [hc]
  have hin : (l.sao i j).Has x y → l.In x y := by unfold Rect.Has Lay.In; omega
  constructor
  · intro h
    have hx := hin h
    refine ⟨hx, ?_⟩
    rw [sao_rect hl hi hj, has_iff, ht, hd] at h
    exact ⟨(shifted_iff h8 hW hW4 h4 hx.1.1 hx.1.2 hi).1 h.1, (shifted_iff h8 hH hH4 h4 hx.2.1 hx.2.2 hj).1 h.2⟩
  · rintro ⟨hx, a, c⟩
    rw [sao_rect hl hi hj, has_iff, ht, hd]
    exact ⟨(shifted_iff h8 hW hW4 h4 hx.1.1 hx.1.2 hi).2 a, (shifted_iff h8 hH hH4 h4 hx.2.1 hx.2.2 hj).2 c⟩

theorem alf_cols (hl : l.Ok) {i : Nat} (hi : i < l.nW) {x : Int} (h0 : 0 ≤ x) (h1 : x < l.W) :
    (start l.L false i ≤ x ∧ x < stop l.W l.L false i) ↔ i = (x / l.L).toNat := by
  have hLp : (0 : Int) < l.L := by exact_mod_cast (show 0 < l.L by have := hl.1; omega)
  have e : ((i : Int) + 1) * l.L = i * l.L + l.L := by ring
  have hq0 : 0 ≤ x / (l.L : Int) := Int.ediv_nonneg h0 (by omega)
  have : i = (x / l.L).toNat ↔ x / (l.L : Int) = i := by omega
  rw [this]
  unfold start stop
  simp only [Bool.false_eq_true, if_false, Int.sub_zero]
  rw [Int.ediv_eq_iff_of_pos hLp, e]
  omega

theorem alf_has (hl : l.Ok) (hc : l.cross = true) {i j : Nat} (hi : i < l.nW) (hj : j < l.nH) (x y : Int) :
    (l.alf i j).Has x y ↔ l.In x y ∧ i = (x / l.L).toNat ∧ j = shiftedTree l.H l.L y := by
  obtain ⟨-, -, -, e1, e2, e3, e4⟩ := C43_extent hl hi hj
  obtain ⟨h8, h4, hW, hW4, hH, hH4⟩ := id hl
  have ht : top l.cross (seen l.old l.new j) i j = decide (j ≠ 0) := by unfold top; simp [hc]
  have hd : alfDown l.nH j = decide (j + 1 < l.nH) := rfl
  have hin : (l.alf i j).Has x y → l.In x y := by unfold Rect.Has Lay.In; omega
  constructor
  · intro h
    have hx := hin h
    refine ⟨hx, ?_⟩
    rw [alf_rect hl hi hj, has_iff, ht, hd] at h
    exact ⟨(alf_cols hl hi hx.1.1 hx.1.2).1 h.1, (shifted_iff h8 hH hH4 h4 hx.2.1 hx.2.2 hj).1 h.2⟩
  · rintro ⟨hx, a, c⟩
    rw [alf_rect hl hi hj, has_iff, ht, hd]
    exact ⟨(alf_cols hl hi hx.1.1 hx.1.2).2 a, (shifted_iff h8 hH hH4 h4 hx.2.1 hx.2.2 hj).2 c⟩

theorem col_tree (hl : l.Ok) {x : Int} (h0 : 0 ≤ x) (h1 : x < l.W) : (x / l.L).toNat < l.nW := by
  have hLp : (0 : Int) < l.L := by exact_mod_cast (show 0 < l.L by have := hl.1; omega)
  refine (lt_trees (by have := hl.1; omega) (by have := hl.2.2.1; omega) _).2 ?_
  have hq0 : 0 ≤ x / (l.L : Int) := Int.ediv_nonneg h0 (by omega)
  have hq1 := Int.mul_ediv_self_le (x := x) (k := (l.L : Int)) (by omega)
  rw [Int.toNat_of_nonneg hq0, mul_comm]
  omega

theorem cut_first (hl : l.Ok) (hc : l.cross = true) {j : Nat} (hj : j < l.nH) :
    cut l.L l.H l.nH j = firstLine l.L j ∧ cut l.L l.H l.nH (j + 1) = lastLine l.H l.L j := by
  unfold cut firstLine lastLine
  refine ⟨?_, ?_⟩
  · by_cases c : j = 0
    · simp [c]
    · simp [c, hj]
  · rw [if_neg (by omega)]
    push_cast
    rfl

/-! ### SAO of a row of trees -/

/-- What a tree makes of a sample. -/
def saoVal (bd : Nat) (l : Lay) (prm : Option SaoPrm) (src : Plane) (d x y : Int) : Int :=
  match prm with
  | none => d
  | some p => if p.type < 4 then (edgeOffset bd p.off (saoDir p.type).1 (saoDir p.type).2 l.In src x y).getD d else bandOffset bd p.off (src x y)

theorem saoRow_eq {b : Job} (hl : b.lay.Ok) (hc : b.lay.cross = true) (junk : Int → Int) {j : Nat} (hj : j < b.lay.nH) (src dst : Plane) (x y : Int) :
    b.saoRow junk j src dst x y = if b.lay.In x y ∧ j = shiftedTree b.lay.H b.lay.L y
      then saoVal b.bd b.lay (b.sao (shiftedTree b.lay.W b.lay.L x) j) src (dst x y) x y else dst x y := by
  have main := fold_regions (fun (i : Nat) x y => (b.lay.sao i j).Has x y) (fun i d => saoTree b.bd b.lay junk b.sao i j src d)
    (fun i d x y => saoVal b.bd b.lay (b.sao i j) src d x y) (List.range b.lay.nW) (by
      intro i hi d x y
      have hi' := List.mem_range.1 hi
      rw [saoTree_eq hl junk b.sao hi' hj]
      unfold saoVal
      cases hp : b.sao i j with
      | none => simp
      | some p =>
        dsimp only
        by_cases hh : (b.lay.sao i j).Has x y
        · rw [if_pos hh, if_pos hh, edge_sees hl hc hi' hj hh]
        · rw [if_neg hh, if_neg hh]) (by
      intro i hi i' hi' x y h h'
      rw [((sao_has hl hc (List.mem_range.1 hi) hj x y).1 h).2.1, ((sao_has hl hc (List.mem_range.1 hi') hj x y).1 h').2.1])
    List.nodup_range dst x y
  have hW : 0 < b.lay.W := by have := hl.2.2.1; omega
  have hlt := shiftedTree_lt (S := b.lay.W) hl.1 hW x
  split
  · rename_i h
    exact main.1 (shiftedTree b.lay.W b.lay.L x) (List.mem_range.2 hlt) ((sao_has hl hc hlt hj x y).2 ⟨h.1, rfl, h.2⟩)
  · rename_i h
    exact main.2 (fun i hi hh => h ⟨((sao_has hl hc (List.mem_range.1 hi) hj x y).1 hh).1, ((sao_has hl hc (List.mem_range.1 hi) hj x y).1 hh).2.2⟩)

/-! ### ALF of a row of trees -/

def alfVal (bd : Nat) (l : Lay) (c : Option (Nat → Int)) (i j : Nat) (src : Plane) (d x y : Int) : Int :=
  match c with
  | none => d
  | some c => (Al.wantPix bd c (shift src (l.alf i j).x (l.alf i j).y) (l.alf i j).w (l.alf i j).h (x - (l.alf i j).x) (y - (l.alf i j).y)).getD 0

theorem alfTree_eq {bd : Nat} (hl : l.Ok) (c : Nat → Nat → Option (Nat → Int)) {i j : Nat} (hi : i < l.nW) (hj : j < l.nH) (src dst : Plane) (x y : Int) :
    alfTree bd l c i j src dst x y = if (l.alf i j).Has x y then alfVal bd l (c i j) i j src (dst x y) x y else dst x y := by
  obtain ⟨-, hw, hh, -⟩ := C43_extent hl hi hj
  unfold alfTree alfVal
  rcases hp : c i j with _ | c
  · simp
  · dsimp only
    generalize l.alf i j = r at hw hh
    show (Al.filter bd c (shift src r.x r.y) r.w r.h (fun x y => some (shift dst r.x r.y x y)) (x - r.x) (y - r.y)).getD 0 = _
    have hd : shift dst r.x r.y (x - r.x) (y - r.y) = dst x y := by unfold shift; rw [show x - r.x + r.x = x by omega, show y - r.y + r.y = y by omega]
    have hin : (0 ≤ x - r.x ∧ x - r.x < r.w ∧ 0 ≤ y - r.y ∧ y - r.y < r.h) ↔ r.Has x y := by unfold Rect.Has; omega
    rw [Al.filter_want (by omega) hh]
    by_cases h : r.Has x y
    · rw [if_pos (hin.2 h), if_pos h]
    · rw [if_neg (fun q => h (hin.1 q)), if_neg h, hd]; rfl

theorem alfRow_eq {b : Job} (hl : b.lay.Ok) (hc : b.lay.cross = true) {j : Nat} (hj : j < b.lay.nH) (src dst : Plane) (x y : Int) :
    b.alfRow j src dst x y = if b.lay.In x y ∧ j = shiftedTree b.lay.H b.lay.L y
      then alfVal b.bd b.lay (b.alf (x / b.lay.L).toNat j) (x / b.lay.L).toNat j src (dst x y) x y else dst x y := by
  have main := fold_regions (fun (i : Nat) x y => (b.lay.alf i j).Has x y) (fun i d => alfTree b.bd b.lay b.alf i j src d)
    (fun i d x y => alfVal b.bd b.lay (b.alf i j) i j src d x y) (List.range b.lay.nW) (by
      intro i hi d x y
      exact alfTree_eq hl b.alf (List.mem_range.1 hi) hj src d x y) (by
      intro i hi i' hi' x y h h'
      rw [((alf_has hl hc (List.mem_range.1 hi) hj x y).1 h).2.1, ((alf_has hl hc (List.mem_range.1 hi') hj x y).1 h').2.1])
    List.nodup_range dst x y
  split
  · rename_i h
    have hlt := col_tree hl h.1.1.1 h.1.1.2
    exact main.1 _ (List.mem_range.2 hlt) ((alf_has hl hc hlt hj x y).2 ⟨h.1, rfl, h.2⟩)
  · rename_i h
    exact main.2 (fun i hi hh => h ⟨((alf_has hl hc (List.mem_range.1 hi) hj x y).1 hh).1, ((alf_has hl hc (List.mem_range.1 hi) hj x y).1 hh).2.2⟩)

/-- Samples an output of the filter depends on. -/
theorem tap_dep {s s' : Plane} {w h x y : Int} (hx : 0 ≤ x ∧ x < w) (hy : 0 ≤ y ∧ y < h)
    (hs : ∀ u v : Int, -3 ≤ u - x → u - x ≤ 3 → 0 ≤ v → v < h → s u v = s' u v) {dx dy : Int} (hdx : -3 ≤ dx ∧ dx ≤ 3) (hdy : -3 ≤ dy ∧ dy ≤ 3) :
    alfTap s w h x y (dx, dy) = alfTap s' w h x y (dx, dy) := by
  unfold alfTap
  have a := Al.alfPos_near hx hy hdx hdy
  have c := Al.alfPos_near (dx := -dx) (dy := -dy) hx hy (by omega) (by omega)
  rw [hs _ _ a.1.1 a.1.2 a.2.2.2.1 a.2.2.2.2, hs _ _ c.1.1 c.1.2 c.2.2.2.1 c.2.2.2.2]

theorem wantPix_dep {bd : Nat} {c : Nat → Int} {s s' : Plane} {w h x y : Int} (hx : 0 ≤ x ∧ x < w) (hy : 0 ≤ y ∧ y < h)
    (hs : ∀ u v : Int, -3 ≤ u - x → u - x ≤ 3 → 0 ≤ v → v < h → s u v = s' u v) :
    Al.wantPix bd c s w h x y = Al.wantPix bd c s' w h x y := by
  unfold Al.wantPix
  dsimp only
  rw [tap_dep (dx := 0) (dy := 3) hx hy hs (by omega) (by omega), tap_dep (dx := 0) (dy := 2) hx hy hs (by omega) (by omega),
    tap_dep (dx := 1) (dy := 1) hx hy hs (by omega) (by omega), tap_dep (dx := 0) (dy := 1) hx hy hs (by omega) (by omega),
    tap_dep (dx := -1) (dy := 1) hx hy hs (by omega) (by omega), tap_dep (dx := 1) (dy := 0) hx hy hs (by omega) (by omega),
    tap_dep (dx := 2) (dy := 0) hx hy hs (by omega) (by omega), tap_dep (dx := 3) (dy := 0) hx hy hs (by omega) (by omega),
    hs x y (by omega) (by omega) hy.1 hy.2]

/-! ### The pipeline -/

theorem rows_of_tree {l : Lay} (hl : l.Ok) {j : Nat} (hj : j < l.nH) {y : Int} (h0 : 0 ≤ y) (h1 : y < l.H) :
    (cut l.L l.H l.nH j ≤ y ∧ y < cut l.L l.H l.nH (j + 1)) ↔ j = shiftedTree l.H l.L y := by
  obtain ⟨h8, h4, hW, hW4, hH, hH4⟩ := id hl
  have m : 0 < l.nW := (trees_bounds (by omega) hW).1
  let l' : Lay := ⟨l.W, l.H, l.L, true, l.old, l.new⟩
  have hr := sao_rows (l := l') hl rfl (i := 0) (j := j) m hj
  have := shifted_iff h8 hH hH4 h4 h0 h1 hj
  rw [← this]
  have e := sao_rect (l := l') hl (i := 0) (j := j) m hj
  have ht : l'.saoTop 0 j = decide (j ≠ 0) := by unfold Lay.saoTop top; simp [l']
  have hd : l'.saoDown 0 j = decide (j + 1 < l.nH) := by unfold Lay.saoDown down; simp [l']; rfl
  rw [ht, hd] at e
  rw [e] at hr
  obtain ⟨a, c⟩ := hr
  dsimp only [l'] at a c
  change start l.L (decide (j ≠ 0)) j = cut l.L l.H l.nH j at a
  change _ = cut l.L l.H l.nH (j + 1) at c
  rw [← a, ← c]
  have : start l.L (decide (j ≠ 0)) j + (stop l.H l.L (decide (j + 1 < l.nH)) j - start l.L (decide (j ≠ 0)) j) = stop l.H l.L (decide (j + 1 < l.nH)) j := by omega
  rw [this]
  rfl

variable {b : Job} {u : Nat}

theorem not_row {l : Lay} (hl : l.Ok) {j : Nat} (hj : j < l.nH) {x y : Int} (h : y < cut l.L l.H l.nH j ∨ cut l.L l.H l.nH (j + 1) ≤ y) :
    ¬ (l.In x y ∧ j = shiftedTree l.H l.L y) := by
  rintro ⟨hx, e⟩
  have := (rows_of_tree hl hj hx.2.1 hx.2.2).2 e
  omega

/-- The row-by-row model as a pipeline. -/
def Job.eng (b : Job) (g : b.Geom u) (hl : b.lay.Ok) (hc : b.lay.cross = true) (junk : Int → Int) : Eng where
  W := b.lay.W
  S := b.lay.H
  L := b.lay.L
  n := b.lay.nH
  son := b.saoOn
  aon := b.alfOn
  D := b.recRow
  F := b.saoRow junk
  G := b.alfRow
  hL := hl.1
  hW := g.W0
  hn := (trees_bounds g.L0 g.H0).1
  hS := (trees_bounds g.L0 g.H0).2.1
  hS' := (trees_bounds g.L0 g.H0).2.2
  D1 j _ m x y h := (g.row j).keep m x y (by unfold rowArea; omega)
  D2 j _ m m' h x y h1 h2 := by
    refine (Within.mono (B := fun _ y => (j * b.lay.L : Int) - 4 ≤ y ∧ y < rowEnd b.lay.L b.lay.H j) (g.row j) ?_).dep m m' (fun x y hh => h x y hh.1 hh.2) x y ⟨h1, h2⟩
    intro x y hh
    unfold rowArea at hh
    omega
  F1 j hj t d x y h := by rw [saoRow_eq hl hc junk hj, if_neg (not_row hl hj h)]
  F2 j hj t t' d d' ht hd x y h1 h2 := by
    rw [saoRow_eq hl hc junk hj, saoRow_eq hl hc junk hj, hd x y h1 h2]
    split
    · rename_i h
      unfold saoVal
      split
      · rfl
      · rename_i p hp
        have h0 : t x y = t' x y := ht x y h.1.1.1 h.1.1.2 h.1.2.1 h.1.2.2 (by omega) (by omega)
        obtain ⟨d1, d2⟩ := saoDir_range p.type
        rw [h0, edge_dep h0 (fun hs => ht _ _ hs.1.1 hs.1.2 hs.2.1 hs.2.2 (by omega) (by omega)) (fun hs => ht _ _ hs.1.1 hs.1.2 hs.2.1 hs.2.2 (by omega) (by omega))]
    · rfl
  G1 j hj t d x y h := by rw [alfRow_eq hl hc hj, if_neg (not_row hl hj h)]
  G2 j hj t t' d d' ht hd x y h1 h2 := by
    rw [alfRow_eq hl hc hj, alfRow_eq hl hc hj, hd x y h1 h2]
    split
    · rename_i h
      unfold alfVal
      split
      · rfl
      · rename_i c hp
        have hi := col_tree hl h.1.1.1 h.1.1.2
        have hh := (alf_has hl hc hi hj x y).2 ⟨h.1, rfl, h.2⟩
        have hr := alf_rows hl hc hi hj
        obtain ⟨-, -, -, e1, -, e3, -⟩ := C43_extent hl hi hj
        unfold Rect.Has at hh
        rw [wantPix_dep (s' := shift t' _ _) (by omega) (by omega)]
        intro u v a1 a2 a3 a4
        unfold shift
        exact ht _ _ (by omega) (by omega) (by omega) (by omega)
    · rfl

theorem run_eq (g : b.Geom u) (hl : b.lay.Ok) (hc : b.lay.cross = true) (junk : Int → Int) (p : Planes) :
    b.run junk p = (b.eng g hl hc junk).rows b.lay.nH p := rfl

/-- Row by row is stage by stage. -/
theorem run_stages (g : b.Geom u) (hl : b.lay.Ok) (hc : b.lay.cross = true) (junk : Int → Int) (p : Planes) (x y : Int) (h0 : 0 ≤ y) (h1 : y < b.lay.H) :
    (b.run junk p).dec x y = (b.eng g hl hc junk).P3 p x y := by
  rw [run_eq g hl hc]
  exact (b.eng g hl hc junk).rows_eq p x y h0 h1

end Davs2.Lr
