import Verif.Lemmas.LoopPicture
/-
The stages of the pipeline per sample.
-/
namespace Davs2.Lr
open Davs2.Sa (Plane Avail)
open Davs2.Spec

variable {b : Job} {u : Nat}

/-! ### Deblocking -/

theorem trees_unique {S L n : Nat} (hL : 0 < L) (hS : 0 < S) (h : ∀ i, i < n ↔ i * L < S) : n = (S + L - 1) / L := by
  have t := fun i => lt_trees (S := S) (L := L) hL hS i
  unfold trees at t
  rcases Nat.lt_trichotomy n ((S + L - 1) / L) with c | c | c
  · have := (t n).1 c
    have h2 : n * L < S := by exact_mod_cast this
    have := (h n).2 h2
    omega
  · exact c
  · have h2 := (h _).1 c
    have := (t ((S + L - 1) / L)).2 (by exact_mod_cast h2)
    omega

theorem fold_write (l : Lay) (r : Plane) (ls : List (Nat × Nat)) (m : Plane) (x y : Int) :
    ls.foldl (fun m a => writeTree l r a.1 a.2 m) m x y = if ∃ a ∈ ls, own l a.1 a.2 x y then r x y else m x y := by
  induction ls generalizing m with
  | nil => simp
  | cons a ls ih =>
    rw [List.foldl_cons, ih]
    by_cases h : ∃ a ∈ ls, own l a.1 a.2 x y
    · rw [if_pos h, if_pos (by obtain ⟨c, hc, ho⟩ := h; exact ⟨c, by simp [hc], ho⟩)]
    · rw [if_neg h, writeTree_eq]
      dsimp only
      by_cases ha : own l a.1 a.2 x y
      · rw [if_pos ha, if_pos ⟨a, by simp, ha⟩]
      · rw [if_neg ha, if_neg]
        rintro ⟨c, hc, ho⟩
        rcases List.mem_cons.1 hc with e | e
        · subst e; exact ha ho
        · exact h ⟨c, e, ho⟩

theorem axis_own {S L : Nat} (hL : 0 < L) (hS : 0 < S) {x : Int} (h0 : 0 ≤ x) (h1 : x < S) :
    (x / L).toNat < trees S L ∧ ((x / L).toNat * L : Int) ≤ x ∧ x < min (S : Int) (((x / L).toNat + 1) * L) := by
  have hLp : (0 : Int) < L := by exact_mod_cast hL
  have hq0 : 0 ≤ x / (L : Int) := Int.ediv_nonneg h0 (by omega)
  obtain ⟨q, hq⟩ := Int.eq_ofNat_of_zero_le hq0
  have hq1 := Int.mul_ediv_self_le (x := x) (k := (L : Int)) (by omega)
  have hq2 := Int.lt_mul_ediv_self_add (x := x) (k := (L : Int)) hLp
  rw [hq, mul_comm] at hq1 hq2
  rw [hq]
  show q < trees S L ∧ (q * L : Int) ≤ x ∧ x < min (S : Int) ((q + 1) * L)
  have e : ((q : Int) + 1) * L = q * L + L := by ring
  rw [e]
  exact ⟨(lt_trees hL hS q).2 (by omega), by omega, by omega⟩

theorem write_all (g : b.Geom u) (m : Plane) :
    b.lay.order.foldl (fun m a => writeTree b.lay b.recon a.1 a.2 m) m = stored b.lay b.recon m := by
  funext x y
  rw [fold_write]
  unfold stored
  by_cases h : 0 ≤ x ∧ x < b.lay.W ∧ 0 ≤ y ∧ y < b.lay.H
  · rw [if_pos h, if_pos]
    obtain ⟨a1, a2⟩ := axis_own g.L0 g.W0 h.1 h.2.1
    obtain ⟨c1, c2⟩ := axis_own g.L0 g.H0 h.2.2.1 h.2.2.2
    refine ⟨((x / b.lay.L).toNat, (y / b.lay.L).toNat), ?_, ?_⟩
    · unfold Lay.order
      rw [List.mem_flatMap]
      exact ⟨_, List.mem_range.2 c1, List.mem_map.2 ⟨_, List.mem_range.2 a1, rfl⟩⟩
    · exact ⟨a2.1, a2.2, c2.1, c2.2⟩
  · rw [if_neg h, if_neg]
    rintro ⟨⟨i, j⟩, -, ho⟩
    unfold own at ho
    dsimp only at ho
    have : (0 : Int) ≤ i * b.lay.L := by positivity
    have : (0 : Int) ≤ j * b.lay.L := by positivity
    omega

theorem stage1_eq (g : b.Geom u) (hl : b.lay.Ok) (hc : b.lay.cross = true) (junk : Int → Int) (p : Planes) :
    (b.eng g hl hc junk).P1 p = Db.deblockPlane b.deb b.bw b.bh b.bn (stored b.lay b.recon p.dec) := by
  have e1 : (b.eng g hl hc junk).P1 p = b.lay.order.foldl (fun m a => b.debTree a.1 a.2 (writeTree b.lay b.recon a.1 a.2 m)) p.dec := by
    rw [foldl_order]
    rfl
  rw [e1, separate (fun a m => b.debTree a.1 a.2 m) (fun a m => writeTree b.lay b.recon a.1 a.2 m) _
    ((order_pairwise b.lay).imp (fun h m => g.comm h.1 h.2 m)), write_all g]
  unfold Db.deblockPlane Db.picDeblock
  rw [← trees_unique g.n g.h (fun i => g.lt_nH i), ← trees_unique g.n g.w (fun i => g.lt_nW i)]
  rw [List.foldl_flatMap, foldl_order]
  congr 1
  funext m j
  rw [List.foldl_flatMap]
  rfl

/-! ### SAO -/

/-- The parameters as a specification wants them. -/
def Job.saoPrm (b : Job) (i j : Nat) : Option (Nat × (Int → Int)) := if b.saoOn then (b.sao i j).map fun p => (p.type, p.off) else none

theorem tree_row (hl : b.lay.Ok) {y : Int} (h0 : 0 ≤ y) (h1 : y < b.lay.H) :
    shiftedTree b.lay.H b.lay.L y < b.lay.nH ∧ cut b.lay.L b.lay.H b.lay.nH (shiftedTree b.lay.H b.lay.L y) ≤ y ∧
      y < cut b.lay.L b.lay.H b.lay.nH (shiftedTree b.lay.H b.lay.L y + 1) := by
  have h := shiftedTree_lt (S := b.lay.H) hl.1 hl.2.2.2.2.1 y
  exact ⟨h, (rows_of_tree hl h h0 h1).2 rfl⟩

theorem stage2_eq (g : b.Geom u) (hl : b.lay.Ok) (hc : b.lay.cross = true) (junk : Int → Int) (p : Planes) {x y : Int} (hx : b.lay.In x y) :
    (b.eng g hl hc junk).P2 p x y = saoPicture b.bd b.lay.W b.lay.H b.lay.L b.saoPrm ((b.eng g hl hc junk).P1 p) x y := by
  obtain ⟨hj, h1, h2⟩ := tree_row hl hx.2.1 hx.2.2
  rw [(b.eng g hl hc junk).P2_cut p (j := shiftedTree b.lay.H b.lay.L y) hj x y h1 h2]
  unfold saoPicture Job.saoPrm
  change (if b.saoOn = true then b.saoRow junk _ _ _ x y else _) = _
  split
  · rw [saoRow_eq hl hc junk hj, if_pos ⟨hx, rfl⟩]
    unfold saoVal
    cases hp : b.sao (shiftedTree b.lay.W b.lay.L x) (shiftedTree b.lay.H b.lay.L y) with
    | none => rfl
    | some q => rfl
  · rfl

/-! ### ALF -/

theorem alfSample_dep {bd : Nat} {raw : List Int} {s s' : Plane} {w h x y : Int} (hx : 0 ≤ x ∧ x < w) (hy : 0 ≤ y ∧ y < h)
    (hs : ∀ u v : Int, -3 ≤ u - x → u - x ≤ 3 → 0 ≤ v → v < h → s u v = s' u v) :
    alfSample bd raw s w h x y = alfSample bd raw s' w h x y := by
  unfold alfSample alfTaps
  dsimp only [List.map]
  rw [tap_dep (dx := 0) (dy := 3) hx hy hs (by omega) (by omega), tap_dep (dx := 0) (dy := 2) hx hy hs (by omega) (by omega),
    tap_dep (dx := 1) (dy := 1) hx hy hs (by omega) (by omega), tap_dep (dx := 0) (dy := 1) hx hy hs (by omega) (by omega),
    tap_dep (dx := -1) (dy := 1) hx hy hs (by omega) (by omega), tap_dep (dx := 1) (dy := 0) hx hy hs (by omega) (by omega),
    tap_dep (dx := 2) (dy := 0) hx hy hs (by omega) (by omega), tap_dep (dx := 3) (dy := 0) hx hy hs (by omega) (by omega),
    hs x y (by omega) (by omega) hy.1 hy.2]

theorem want_sample {bd : Nat} (hb : bd ≤ 10) {raw : List Int} (hr : Al.Small raw) {c : Nat → Int} (hc : Al.recon raw = some c) {s : Plane} {w h x y : Int}
    (hw : 2 ≤ w) (hh : 4 ≤ h) (hx : 0 ≤ x ∧ x < w) (hy : 0 ≤ y ∧ y < h)
    (hs : ∀ u v : Int, -3 ≤ u - x → u - x ≤ 3 → 0 ≤ v → v < h → 0 ≤ s u v ∧ s u v ≤ 2 ^ bd - 1) :
    Al.wantPix bd c s w h x y = some (alfSample bd raw s w h x y) := by
  let s' : Plane := fun u v => max 0 (min (2 ^ bd - 1) (s u v))
  have hp : (1 : Int) ≤ 2 ^ bd := one_le_pow₀ (by omega)
  have hl : Al.Legal bd s' := fun u v => by simp only [s']; omega
  have he : ∀ u v : Int, -3 ≤ u - x → u - x ≤ 3 → 0 ≤ v → v < h → s u v = s' u v := by
    intro u v a1 a2 a3 a4
    have := hs u v a1 a2 a3 a4
    simp only [s']; omega
  obtain ⟨c', hc', hf⟩ := Al.C44_filter_partial hb hl hw hh hr (fun _ _ => none)
  rw [hc] at hc'
  cases hc'
  have := hf x y
  rw [Al.filter_want hw hh, if_pos (by omega), if_pos (by omega)] at this
  rw [wantPix_dep hx hy he, this, alfSample_dep hx hy he]

/-- The weights as a specification wants them. -/
def Job.alfRaw (b : Job) (raw : Nat → Nat → Option (List Int)) (i j : Nat) : Option (List Int) := if b.alfOn then raw i j else none

/-- The filters of a picture are those that the transmitted weights stand for. -/
def Job.Weights (b : Job) (raw : Nat → Nat → Option (List Int)) : Prop :=
  (∀ i j, b.alf i j = (raw i j).bind Al.recon) ∧ ∀ i j r, raw i j = some r → Al.Small r

theorem alf_size {l : Lay} (hl : l.Ok) (hc : l.cross = true) {i j : Nat} (hi : i < l.nW) (hj : j < l.nH) :
    l.alf i j = ⟨i * l.L, firstLine l.L j, min (l.L : Int) (l.W - i * l.L), lastLine l.H l.L j - firstLine l.L j⟩ := by
  have h := alf_rows hl hc hi hj
  have hf := cut_first hl hc hj
  rw [hf.1, hf.2] at h
  have e := alf_rect hl hi hj
  have hx : (l.alf i j).x = i * l.L := by rw [e]; unfold start; simp
  have hw : (l.alf i j).w = min (l.L : Int) (l.W - i * l.L) := by
    rw [e]
    unfold start stop
    have e : ((i : Int) + 1) * l.L = i * l.L + l.L := by ring
    simp only [Bool.false_eq_true, if_false, e]
    omega
  rw [← hw, ← hx]
  generalize l.alf i j = r at *
  obtain ⟨x, y, w, hh⟩ := r
  simp only [Rect.mk.injEq, true_and]
  dsimp only at h
  omega

theorem stage3_eq (g : b.Geom u) (hl : b.lay.Ok) (hc : b.lay.cross = true) (junk : Int → Int) (p : Planes) (hb : b.bd ≤ 10)
    {raw : Nat → Nat → Option (List Int)} (hr : b.Weights raw)
    (hp : ∀ x y, b.lay.In x y → 0 ≤ (b.eng g hl hc junk).P2 p x y ∧ (b.eng g hl hc junk).P2 p x y ≤ 2 ^ b.bd - 1)
    {x y : Int} (hx : b.lay.In x y) :
    (b.eng g hl hc junk).P3 p x y = alfPicture b.bd b.lay.W b.lay.H b.lay.L (b.alfRaw raw) ((b.eng g hl hc junk).P2 p) x y := by
  obtain ⟨hj, h1, h2⟩ := tree_row hl hx.2.1 hx.2.2
  rw [(b.eng g hl hc junk).P3_cut p (j := shiftedTree b.lay.H b.lay.L y) hj x y h1 h2]
  unfold alfPicture Job.alfRaw
  generalize hP : (b.eng g hl hc junk).P2 p = P at *
  change (if b.alfOn = true then b.alfRow _ (padded b.lay.W P) P x y else _) = _
  dsimp only
  generalize hJ : shiftedTree b.lay.H b.lay.L y = j at *
  split
  · have hi := col_tree hl hx.1.1 hx.1.2
    rw [alfRow_eq hl hc hj, if_pos ⟨hx, hJ.symm⟩]
    unfold alfVal
    rw [hr.1]
    rcases hq : raw (x / b.lay.L).toNat j with _ | r
    · rfl
    · obtain ⟨c, hcc, -⟩ := Al.recon_some (hr.2 _ _ _ hq)
      simp only [Option.bind_some, hcc]
      have hhas := (alf_has hl hc hi hj x y).2 ⟨hx, rfl, hJ.symm⟩
      have hs := alf_size hl hc hi hj
      obtain ⟨-, w4, h4, e1, e2, e3, e4⟩ := C43_extent hl hi hj
      generalize (x / (b.lay.L : Int)).toNat = i at *
      unfold Rect.Has at hhas
      rw [hs] at hhas w4 h4 e1 e2 e3 e4 ⊢
      dsimp only at hhas w4 h4 e1 e2 e3 e4 ⊢
      rw [want_sample hb (hr.2 _ _ _ hq) hcc (by omega) h4 (by omega) (by omega)]
      · rfl
      · intro u v a1 a2 a3 a4
        unfold shift padded
        have hW := g.W0
        exact hp _ _ ⟨⟨by omega, by omega⟩, by omega, by omega⟩
  · rfl

theorem alfPicture_dep {bd W H L : Nat} {raw : Nat → Nat → Option (List Int)} {l : Lay} (hl : l.Ok) (e : W = l.W ∧ H = l.H ∧ L = l.L) {s s' : Plane}
    (hs : ∀ x y, l.In x y → s x y = s' x y) {x y : Int} (hx : l.In x y) : alfPicture bd W H L raw s x y = alfPicture bd W H L raw s' x y := by
  obtain ⟨rfl, rfl, rfl⟩ := e
  let l' : Lay := ⟨l.W, l.H, l.L, true, l.old, l.new⟩
  have hj := shiftedTree_lt (S := l.H) hl.1 hl.2.2.2.2.1 y
  have hi := col_tree hl hx.1.1 hx.1.2
  unfold alfPicture
  dsimp only
  split
  · exact hs x y hx
  · have hhas := (alf_has (l := l') hl rfl hi hj x y).2 ⟨hx, rfl, rfl⟩
    have hz := alf_size (l := l') hl rfl hi hj
    obtain ⟨-, w4, h4, e1, e2, e3, e4⟩ := C43_extent (l := l') hl hi hj
    unfold Rect.Has at hhas
    rw [hz] at hhas w4 h4 e1 e2 e3 e4
    dsimp only [l'] at hhas w4 h4 e1 e2 e3 e4
    generalize (x / (l.L : Int)).toNat = i at *
    refine alfSample_dep (by omega) (by omega) ?_
    intro u v a1 a2 a3 a4
    unfold extendLines
    have hW := hl.2.2.1
    exact hs _ _ ⟨⟨by omega, by omega⟩, by omega, by omega⟩

theorem saoPicture_dep {bd W H L : Nat} {prm : Nat → Nat → Option (Nat × (Int → Int))} {s s' : Plane}
    (hs : ∀ x y, (0 ≤ x ∧ x < (W : Int)) ∧ 0 ≤ y ∧ y < (H : Int) → s x y = s' x y) {x y : Int} (hx : (0 ≤ x ∧ x < (W : Int)) ∧ 0 ≤ y ∧ y < (H : Int)) :
    saoPicture bd W H L prm s x y = saoPicture bd W H L prm s' x y := by
  unfold saoPicture
  split
  · exact hs x y hx
  · unfold saoSample
    rw [hs x y hx, edge_dep (hs x y hx) (hs _ _) (hs _ _)]

theorem saturate_legal (bd : Nat) (v : Int) : 0 ≤ saturate bd v ∧ saturate bd v ≤ 2 ^ bd - 1 := by
  have : (1 : Int) ≤ 2 ^ bd := one_le_pow₀ (by omega)
  unfold saturate; omega

/-- SAO keeps samples legal. -/
theorem sao_legal {bd W H L : Nat} {prm : Nat → Nat → Option (Nat × (Int → Int))} {s : Plane} {x y : Int} (h : 0 ≤ s x y ∧ s x y ≤ 2 ^ bd - 1) :
    0 ≤ saoPicture bd W H L prm s x y ∧ saoPicture bd W H L prm s x y ≤ 2 ^ bd - 1 := by
  unfold saoPicture
  split
  · exact h
  · unfold saoSample bandOffset edgeOffset
    split
    · split
      · exact saturate_legal _ _
      · exact h
    · exact saturate_legal _ _

end Davs2.Lr
