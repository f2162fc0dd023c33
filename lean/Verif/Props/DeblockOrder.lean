import Verif.Lemmas.DeblockCover
/-
C41: deblocking of a whole picture.
-/
namespace Davs2.Db

namespace Spec

/-- Filter every line across the vertical (horizontal) edges of the 8-sample grid of a `W` × `H` plane, all at the same
time: `F k r` is the filter for the line with number `r` of edge number `k`. -/
def pass (d : Dir) (W H : Nat) (F : Nat → Nat → Line → Line) (m : Plane) : Plane := fun x y =>
  match d with
  | .ver =>
    let k := (x + 3) / 8
    if 0 ≤ y ∧ y < H ∧ 0 ≤ k ∧ 8 * k < W ∧ (x + 3) % 8 ≤ 5 then
      (F k.toNat y.toNat (getLine m .ver (8 * k) y)).get ((x + 3) % 8 - 3)
    else m x y
  | .hor =>
    let k := (y + 3) / 8
    if 0 ≤ x ∧ x < W ∧ 0 ≤ k ∧ 8 * k < H ∧ (y + 3) % 8 ≤ 5 then
      (F k.toNat x.toNat (getLine m .hor x (8 * k))).get ((y + 3) % 8 - 3)
    else m x y

/-- Filter of one line, given what is to be done with its edge: nothing, or filter the halves that are marked. -/
def line (chroma : Bool) (half : Nat) : Option EdgePrm → Line → Line
  | none => id
  | some p => filterLine chroma p.alpha p.beta (if half = 0 then p.flag0 else p.flag1)

/-- Luma: line `r` of edge `k` belongs to the 8x8 block with number `r / 8` along the edge. -/
def luma (prm : Dir → Nat → Nat → Option EdgePrm) : Dir → Nat → Nat → Line → Line
  | .ver, k, r => line false (r % 8 / 4) (prm .ver k (r / 8))
  | .hor, k, r => line false (r % 8 / 4) (prm .hor (r / 8) k)

/-- Chroma: a block has 4 samples, so the grid of 8 samples is made of every other block edge. -/
def chroma (prm : Dir → Nat → Nat → Option EdgePrm) : Dir → Nat → Nat → Line → Line
  | .ver, k, r => line true (r % 4 / 2) (prm .ver (2 * k) (r / 4))
  | .hor, k, r => line true (r % 4 / 2) (prm .hor (r / 4) (2 * k))

/-- The deblocked picture: first all vertical, then all horizontal edges. -/
def picture (W H : Nat) (F : Dir → Nat → Nat → Line → Line) (m : Plane) : Plane :=
  pass .hor W H (F .hor) (pass .ver W H (F .ver) m)

end Spec

theorem putLine_getLine (m : Plane) (d : Dir) (x y : Int) : putLine m d x y (getLine m d x y) = m := by
  funext px py
  unfold putLine
  cases d <;> dsimp only <;> split
  · rename_i h
    rw [get_getLine _ _ _ _ _ (by omega) (by omega)]
    simp only [at_]
    rw [h.1]; congr 1; omega
  · rfl
  · rename_i h
    rw [get_getLine _ _ _ _ _ (by omega) (by omega)]
    simp only [at_]
    rw [h.1]; congr 1; omega
  · rfl

/-- Lines of an edge of an 8x8 block; `u` samples per block side (8 or 4). -/
def linesOf (u : Nat) (e : Dir × Nat × Nat) : List LOp :=
  match e.1 with
  | .ver => if u * e.2.1 % 8 = 0 then (List.range u).map fun i => ⟨.ver, u * e.2.1 / 8, u * e.2.2 + i⟩ else []
  | .hor => if u * e.2.2 % 8 = 0 then (List.range u).map fun i => ⟨.hor, u * e.2.2 / 8, u * e.2.1 + i⟩ else []

theorem fold_id {α β : Type _} (f : β → α → β) (b : β) (h : ∀ b a, f b a = b) (l : List α) : l.foldl f b = b := by
  induction l with
  | nil => rfl
  | cons a l ih => rw [List.foldl_cons, h, ih]

theorem foldl_ext_mem {α β : Type _} (f g : β → α → β) (b : β) (l : List α) (h : ∀ b, ∀ a ∈ l, f b a = g b a) :
    l.foldl f b = l.foldl g b := by
  induction l generalizing b with
  | nil => rfl
  | cons a l ih =>
    rw [List.foldl_cons, List.foldl_cons, h b a List.mem_cons_self]
    exact ih _ fun b c hc => h b c (List.mem_cons_of_mem _ hc)

theorem luma_lines (prm : Dir → Nat → Nat → Option EdgePrm) (e : Dir × Nat × Nat) (m : Plane) :
    scuLuma prm e m = (linesOf 8 e).foldl (LOp.run fun o => Spec.luma prm o.d o.k o.r) m := by
  obtain ⟨d, x, y⟩ := e
  unfold scuLuma linesOf
  cases d
  · dsimp only
    rw [if_pos (by omega), List.foldl_map]
    cases hp : prm .ver x y with
    | none =>
      dsimp only
      symm
      refine (foldl_ext_mem _ (fun m _ => m) m _ ?_).trans (fold_id _ _ (fun _ _ => rfl) _)
      intro m i hi
      rw [List.mem_range] at hi
      simp only [LOp.run, LOp.xy, Spec.luma]
      rw [show 8 * x / 8 = x by omega, show (8 * y + i) / 8 = y by omega, hp]
      exact putLine_getLine _ _ _ _
    | some p =>
      dsimp only
      unfold edgeCore
      apply foldl_ext_mem
      intro m i hi
      rw [List.mem_range] at hi
      simp only [LOp.run, LOp.xy, Spec.luma, Bool.false_eq_true, if_false] at hi ⊢
      rw [show 8 * x / 8 = x by omega, show (8 * y + i) / 8 = y by omega, hp,
        show (8 * y + i) % 8 / 4 = i / 4 by omega]
      simp only [Spec.line]
      have h4 : (i < 4) ↔ (i / 4 = 0) := by omega
      push_cast
      by_cases h : i < 4
      · rw [if_pos h, if_pos (h4.mp h)]
      · rw [if_neg h, if_neg (fun c => h (h4.mpr c))]
  · dsimp only
    rw [if_pos (by omega), List.foldl_map]
    cases hp : prm .hor x y with
    | none =>
      dsimp only
      symm
      refine (foldl_ext_mem _ (fun m _ => m) m _ ?_).trans (fold_id _ _ (fun _ _ => rfl) _)
      intro m i hi
      rw [List.mem_range] at hi
      simp only [LOp.run, LOp.xy, Spec.luma]
      rw [show 8 * y / 8 = y by omega, show (8 * x + i) / 8 = x by omega, hp]
      exact putLine_getLine _ _ _ _
    | some p =>
      dsimp only
      unfold edgeCore
      apply foldl_ext_mem
      intro m i hi
      rw [List.mem_range] at hi
      simp only [LOp.run, LOp.xy, Spec.luma, Bool.false_eq_true, if_false] at hi ⊢
      rw [show 8 * y / 8 = y by omega, show (8 * x + i) / 8 = x by omega, hp,
        show (8 * x + i) % 8 / 4 = i / 4 by omega]
      simp only [Spec.line]
      have h4 : (i < 4) ↔ (i / 4 = 0) := by omega
      push_cast
      by_cases h : i < 4
      · rw [if_pos h, if_pos (h4.mp h)]
      · rw [if_neg h, if_neg (fun c => h (h4.mpr c))]

theorem chroma_lines (prm : Dir → Nat → Nat → Option EdgePrm) (e : Dir × Nat × Nat) (m : Plane) :
    scuChroma prm e m = (linesOf 4 e).foldl (LOp.run fun o => Spec.chroma prm o.d o.k o.r) m := by
  obtain ⟨d, x, y⟩ := e
  unfold scuChroma linesOf
  cases d
  · dsimp only
    by_cases hx : x % 2 = 0
    · rw [if_pos (Or.inr ⟨hx, rfl⟩), if_pos (by omega), List.foldl_map]
      cases hp : prm .ver x y with
      | none =>
        dsimp only
        symm
        refine (foldl_ext_mem _ (fun m _ => m) m _ ?_).trans (fold_id _ _ (fun _ _ => rfl) _)
        intro m i hi
        rw [List.mem_range] at hi
        simp only [LOp.run, LOp.xy, Spec.chroma]
        rw [show 2 * (4 * x / 8) = x by omega, show (4 * y + i) / 4 = y by omega, hp]
        exact putLine_getLine _ _ _ _
      | some p =>
        dsimp only
        unfold edgeCore
        apply foldl_ext_mem
        intro m i hi
        rw [List.mem_range] at hi
        simp only [LOp.run, LOp.xy, Spec.chroma, if_true] at hi ⊢
        rw [show 2 * (4 * x / 8) = x by omega, show (4 * y + i) / 4 = y by omega, hp,
          show (4 * y + i) % 4 / 2 = i / 2 by omega]
        simp only [Spec.line]
        have h4 : (2 * i < 4) ↔ (i / 2 = 0) := by omega
        have hk : (8 : Int) * ((4 * x / 8 : Nat) : Int) = 4 * x := by omega
        rw [hk]
        push_cast
        by_cases h : 2 * i < 4
        · rw [if_pos h, if_pos (h4.mp h)]
        · rw [if_neg h, if_neg (fun c => h (h4.mpr c))]
    · rw [if_neg (by rintro (⟨_, h⟩ | ⟨h, _⟩); · cases h
                     · exact hx h), if_neg (by omega)]
      rfl
  · dsimp only
    by_cases hy : y % 2 = 0
    · rw [if_pos (Or.inl ⟨hy, rfl⟩), if_pos (by omega), List.foldl_map]
      cases hp : prm .hor x y with
      | none =>
        dsimp only
        symm
        refine (foldl_ext_mem _ (fun m _ => m) m _ ?_).trans (fold_id _ _ (fun _ _ => rfl) _)
        intro m i hi
        rw [List.mem_range] at hi
        simp only [LOp.run, LOp.xy, Spec.chroma]
        rw [show 2 * (4 * y / 8) = y by omega, show (4 * x + i) / 4 = x by omega, hp]
        exact putLine_getLine _ _ _ _
      | some p =>
        dsimp only
        unfold edgeCore
        apply foldl_ext_mem
        intro m i hi
        rw [List.mem_range] at hi
        simp only [LOp.run, LOp.xy, Spec.chroma, if_true] at hi ⊢
        rw [show 2 * (4 * y / 8) = y by omega, show (4 * x + i) / 4 = x by omega, hp,
          show (4 * x + i) % 4 / 2 = i / 2 by omega]
        simp only [Spec.line]
        have h4 : (2 * i < 4) ↔ (i / 2 = 0) := by omega
        have hk : (8 : Int) * ((4 * y / 8 : Nat) : Int) = 4 * y := by omega
        rw [hk]
        push_cast
        by_cases h : 2 * i < 4
        · rw [if_pos h, if_pos (h4.mp h)]
        · rw [if_neg h, if_neg (fun c => h (h4.mpr c))]
    · rw [if_neg (by rintro (⟨h, _⟩ | ⟨_, h⟩); · exact hy h
                     · cases h), if_neg (by omega)]
      rfl

/-- All lines of a picture, in the order in which they are filtered. -/
def picLines (u w h n : Nat) : List LOp := (picDeblock w h n).flatMap (linesOf u)

theorem mem_linesOf {u : Nat} (hu : u = 8 ∨ u = 4) {e : Dir × Nat × Nat} {o : LOp} :
    o ∈ linesOf u e ↔ o.d = e.1 ∧ (match o.d with
      | .ver => u * e.2.1 = 8 * o.k ∧ o.r / u = e.2.2
      | .hor => u * e.2.2 = 8 * o.k ∧ o.r / u = e.2.1) := by
  obtain ⟨d, x, y⟩ := e
  obtain ⟨d', k, r⟩ := o
  unfold linesOf
  rcases hu with rfl | rfl <;> cases d <;> cases d' <;> dsimp only <;> split <;>
    simp only [List.mem_map, List.mem_range, LOp.mk.injEq, reduceCtorEq, true_and, false_and, and_false,
      exists_false, List.not_mem_nil]
  any_goals omega
  all_goals constructor
  any_goals (rintro ⟨i, h1, h2, h3⟩; omega)
  all_goals rintro ⟨h1, h2⟩
  · refine ⟨r - 8 * y, ?_, ?_, ?_⟩ <;> omega
  · refine ⟨r - 8 * x, ?_, ?_, ?_⟩ <;> omega
  · refine ⟨r - 4 * y, ?_, ?_, ?_⟩ <;> omega
  · refine ⟨r - 4 * x, ?_, ?_, ?_⟩ <;> omega

theorem nodup_linesOf (u : Nat) (e : Dir × Nat × Nat) : (linesOf u e).Nodup := by
  unfold linesOf
  cases e.1 <;> dsimp only <;> split
  · refine List.Nodup.map ?_ List.nodup_range
    intro a b h; simp only [LOp.mk.injEq] at h; omega
  · exact List.nodup_nil
  · refine List.Nodup.map ?_ List.nodup_range
    intro a b h; simp only [LOp.mk.injEq] at h; omega
  · exact List.nodup_nil

theorem nodup_picLines {u w h n : Nat} (hu : u = 8 ∨ u = 4) (hn : 0 < n) : (picLines u w h n).Nodup := by
  unfold picLines
  rw [List.nodup_flatMap]
  refine ⟨fun e _ => nodup_linesOf u e, ?_⟩
  refine List.Pairwise.imp ?_ (nodup_pic (w := w) (h := h) hn)
  rintro ⟨d, x, y⟩ ⟨d', x', y'⟩ hne o h1 h2
  rw [mem_linesOf hu] at h1 h2
  apply hne
  obtain ⟨od, k, r⟩ := o
  dsimp only at h1 h2
  have e1 : d = d' := h1.1.symm.trans h2.1
  have e2 : x = x' ∧ y = y' := by
    obtain ⟨ha, hb⟩ := h1
    obtain ⟨hc, he⟩ := h2
    cases od <;> dsimp only at hb he <;> rcases hu with rfl | rfl <;> omega
  rw [e1, e2.1, e2.2]

theorem order_picLines {u w h n : Nat} (hu : u = 8 ∨ u = 4) (hn : 0 < n) :
    (picLines u w h n).Pairwise fun a b => a.d = .hor → b.d = .ver → a.Apart b := by
  unfold picLines
  rw [List.pairwise_flatMap]
  refine ⟨?_, ?_⟩
  · rintro ⟨d, x, y⟩ _
    refine List.Pairwise.imp_of_mem ?_ (nodup_linesOf u _)
    intro a b h1 h2 _ e1 e2
    rw [mem_linesOf hu] at h1 h2
    have := h1.1.trans h2.1.symm
    rw [e1, e2] at this
    cases this
  · refine List.Pairwise.imp ?_ (horVer_pic (w := w) (h := h) hn)
    rintro ⟨d, x, y⟩ ⟨d', x', y'⟩ hhv ⟨ad, k, r⟩ h1 ⟨bd, k', r'⟩ h2 e1 e2
    rw [mem_linesOf hu] at h1 h2
    dsimp only at e1 e2
    subst e1 e2
    have q := hhv h1.1.symm h2.1.symm
    dsimp only at h1 h2 q
    intro px py f1 f2
    simp only [LOp.foot] at f1 f2
    obtain ⟨_, h1, h3⟩ := h1
    obtain ⟨_, h2, h4⟩ := h2
    rcases hu with rfl | rfl <;> omega

theorem mem_picLines {u w h n : Nat} (hu : u = 8 ∨ u = 4) (hn : 0 < n) (o : LOp) :
    o ∈ picLines u w h n ↔ match o.d with
      | .ver => 8 * o.k < u * w ∧ o.r < u * h
      | .hor => 8 * o.k < u * h ∧ o.r < u * (if n < w then w else w - 1) := by
  unfold picLines
  rw [List.mem_flatMap]
  obtain ⟨d, k, r⟩ := o
  cases d
  · dsimp only
    constructor
    · rintro ⟨⟨d, x, y⟩, h1, h2⟩
      rw [mem_linesOf hu] at h2
      dsimp only at h2
      obtain ⟨rfl, h2, h3⟩ := h2
      rw [pic_ver hn] at h1
      rcases hu with rfl | rfl <;> omega
    · rintro ⟨h1, h2⟩
      refine ⟨(.ver, 8 * k / u, r / u), ?_, ?_⟩
      · rw [pic_ver hn]
        rcases hu with rfl | rfl <;> omega
      · rw [mem_linesOf hu]
        refine ⟨rfl, ?_, rfl⟩
        dsimp only
        rcases hu with rfl | rfl <;> omega
  · dsimp only
    constructor
    · rintro ⟨⟨d, x, y⟩, h1, h2⟩
      rw [mem_linesOf hu] at h2
      dsimp only at h2
      obtain ⟨rfl, h2, h3⟩ := h2
      rw [pic_hor hn] at h1
      split <;> rcases hu with rfl | rfl <;> omega
    · rintro ⟨h1, h2⟩
      refine ⟨(.hor, r / u, 8 * k / u), ?_, ?_⟩
      · rw [pic_hor hn]
        split at h2 <;> rcases hu with rfl | rfl <;> omega
      · rw [mem_linesOf hu]
        refine ⟨rfl, ?_, rfl⟩
        dsimp only
        rcases hu with rfl | rfl <;> omega

/-- Lines of one direction, all of those of a plane, in any order: a simultaneous pass. -/
theorem pass_of_lines (F : Dir → Nat → Nat → Line → Line) (d : Dir) (W H : Nat) (l : List LOp) (m : Plane)
    (hd : ∀ o ∈ l, o.d = d) (hn : l.Nodup)
    (hm : ∀ k r, (⟨d, k, r⟩ : LOp) ∈ l ↔ match d with | .ver => 8 * k < W ∧ r < H | .hor => 8 * k < H ∧ r < W) :
    l.foldl (LOp.run fun o => F o.d o.k o.r) m = Spec.pass d W H (F d) m := by
  obtain ⟨r1, r2⟩ := run_all (fun o => F o.d o.k o.r) m l d hd hn
  funext x y
  unfold Spec.pass
  cases d
  · dsimp only at hm ⊢
    by_cases hc : 0 ≤ y ∧ y < H ∧ 0 ≤ (x + 3) / 8 ∧ 8 * ((x + 3) / 8) < W ∧ (x + 3) % 8 ≤ 5
    · rw [if_pos hc]
      obtain ⟨k, hk⟩ := Int.eq_ofNat_of_zero_le hc.2.2.1
      obtain ⟨r, hr⟩ := Int.eq_ofNat_of_zero_le hc.1
      have hmem : (⟨.ver, k, r⟩ : LOp) ∈ l := (hm k r).mpr (by omega)
      rw [r1 _ hmem x y ⟨by dsimp only; omega, by dsimp only; omega, by dsimp only; omega⟩]
      simp only [LOp.xy, LOp.off, hk, hr, Int.toNat_natCast]
      congr 1
      omega
    · rw [if_neg hc]
      apply r2
      rintro ⟨d, k, r⟩ ho hf
      have := hd _ ho
      dsimp only at this
      subst this
      have := (hm k r).mp ho
      simp only [LOp.foot] at hf
      apply hc
      omega
  · dsimp only at hm ⊢
    by_cases hc : 0 ≤ x ∧ x < W ∧ 0 ≤ (y + 3) / 8 ∧ 8 * ((y + 3) / 8) < H ∧ (y + 3) % 8 ≤ 5
    · rw [if_pos hc]
      obtain ⟨k, hk⟩ := Int.eq_ofNat_of_zero_le hc.2.2.1
      obtain ⟨r, hr⟩ := Int.eq_ofNat_of_zero_le hc.1
      have hmem : (⟨.hor, k, r⟩ : LOp) ∈ l := (hm k r).mpr (by omega)
      rw [r1 _ hmem x y ⟨by dsimp only; omega, by dsimp only; omega, by dsimp only; omega⟩]
      simp only [LOp.xy, LOp.off, hk, hr, Int.toNat_natCast]
      congr 1
      omega
    · rw [if_neg hc]
      apply r2
      rintro ⟨d, k, r⟩ ho hf
      have := hd _ ho
      dsimp only at this
      subst this
      have := (hm k r).mp ho
      simp only [LOp.foot] at hf
      apply hc
      omega

theorem plane_eq (F : Dir → Nat → Nat → Line → Line) {u w h n : Nat} (hu : u = 8 ∨ u = 4) (hn : 0 < n) (m : Plane) :
    (picLines u w h n).foldl (LOp.run fun o => F o.d o.k o.r) m =
      Spec.pass .hor (u * (if n < w then w else w - 1)) (u * h) (F .hor)
        (Spec.pass .ver (u * w) (u * h) (F .ver) m) := by
  rw [rearrange _ m _ (order_picLines hu hn)]
  rw [pass_of_lines F .ver (u * w) (u * h) ((picLines u w h n).filter fun o => o.d = .ver) m
    (fun o ho => by simpa using (List.mem_filter.mp ho).2) ((nodup_picLines hu hn).filter _)
    (fun k r => by rw [List.mem_filter, mem_picLines hu hn]; simp)]
  rw [pass_of_lines F .hor (u * (if n < w then w else w - 1)) (u * h) ((picLines u w h n).filter fun o => o.d = .hor) _
    (fun o ho => by simpa using (List.mem_filter.mp ho).2) ((nodup_picLines hu hn).filter _)
    (fun k r => by rw [List.mem_filter, mem_picLines hu hn]; simp)]

theorem luma_eq (prm : Dir → Nat → Nat → Option EdgePrm) (w h n : Nat) (m : Plane) :
    deblockPlane (scuLuma prm) w h n m =
      (picLines 8 w h n).foldl (LOp.run fun o => Spec.luma prm o.d o.k o.r) m := by
  unfold deblockPlane picLines
  rw [List.foldl_flatMap]
  simp only [luma_lines]

theorem chroma_eq (prm : Dir → Nat → Nat → Option EdgePrm) (w h n : Nat) (m : Plane) :
    deblockPlane (scuChroma prm) w h n m =
      (picLines 4 w h n).foldl (LOp.run fun o => Spec.chroma prm o.d o.k o.r) m := by
  unfold deblockPlane picLines
  rw [List.foldl_flatMap]
  simp only [chroma_lines]

/-- **C41** (partial: the picture is more than one coding tree wide). Every vertical and every horizontal edge of every
8x8 block of the picture is visited exactly once, and no edge outside the picture is visited. -/
theorem C41_once_partial (w h n : Nat) (hn : 0 < n) (hw : n < w) (d : Dir) (x y : Nat) :
    (picDeblock w h n).count (d, x, y) = if x < w ∧ y < h then 1 else 0 := by
  split
  · rename_i hxy
    apply List.count_eq_one_of_mem (nodup_pic hn)
    cases d
    · exact (pic_ver hn).mpr hxy
    · exact (pic_hor hn).mpr ⟨hxy.1, hxy.2, Or.inl hw⟩
  · rename_i hxy
    apply List.count_eq_zero_of_not_mem
    intro hc
    apply hxy
    cases d
    · exact (pic_ver hn).mp hc
    · exact ⟨((pic_hor hn).mp hc).1, ((pic_hor hn).mp hc).2.1⟩

example : (picDeblock 5 3 2).count (.hor, 4, 2) = 1 ∧ (picDeblock 5 3 2).count (.hor, 5, 2) = 0 := by decide +kernel

/-- Whatever the width, all vertical edges are visited exactly once, and horizontal edges at most once. -/
theorem C41_once (w h n : Nat) (hn : 0 < n) (x y : Nat) :
    (picDeblock w h n).count (.ver, x, y) = (if x < w ∧ y < h then 1 else 0) ∧
    (picDeblock w h n).count (.hor, x, y) = (if x < w ∧ y < h ∧ (n < w ∨ x + 1 < w) then 1 else 0) := by
  refine ⟨?_, ?_⟩
  · split
    · exact List.count_eq_one_of_mem (nodup_pic hn) ((pic_ver hn).mpr ‹_›)
    · exact List.count_eq_zero_of_not_mem fun hc => ‹¬ _› ((pic_ver hn).mp hc)
  · split
    · exact List.count_eq_one_of_mem (nodup_pic hn) ((pic_hor hn).mpr ‹_›)
    · exact List.count_eq_zero_of_not_mem fun hc => ‹¬ _› ((pic_hor hn).mp hc)

example : (picDeblock 2 3 2).count (.ver, 1, 2) = 1 ∧ (picDeblock 2 3 2).count (.hor, 0, 2) = 1 := by decide +kernel

/-- **C41, violated** for pictures at most one coding tree wide: the horizontal edges in the last column of blocks are
never visited, whatever the picture. -/
theorem C41_one_tree_wide_violated (w h n : Nat) (hn : 0 < n) (hw : w ≤ n) (y : Nat) :
    (picDeblock w h n).count (.hor, w - 1, y) = 0 := by
  rw [(C41_once w h n hn _ _).2, if_neg]
  omega

example : (picDeblock 8 8 8).count (.hor, 7, 3) = 0 ∧ (picDeblock 8 8 8).count (.hor, 6, 3) = 1 := by decide +kernel

/-- **C41** (partial: more than one coding tree wide). Deblocking coding tree by coding tree, with the horizontal edges
of the last column of blocks of a tree left to the next tree, gives exactly the picture in which first all vertical
edges are filtered at the same time and then all horizontal edges: luma. -/
theorem C41_luma_partial (prm : Dir → Nat → Nat → Option EdgePrm) (w h n : Nat) (hn : 0 < n) (hw : n < w) (m : Plane) :
    deblockPlane (scuLuma prm) w h n m = Spec.picture (8 * w) (8 * h) (Spec.luma prm) m := by
  rw [luma_eq, plane_eq _ (Or.inl rfl) hn, if_pos hw]
  rfl

/-- The same for the chroma planes. -/
theorem C41_chroma_partial (prm : Dir → Nat → Nat → Option EdgePrm) (w h n : Nat) (hn : 0 < n) (hw : n < w) (m : Plane) :
    deblockPlane (scuChroma prm) w h n m = Spec.picture (4 * w) (4 * h) (Spec.chroma prm) m := by
  rw [chroma_eq, plane_eq _ (Or.inr rfl) hn, if_pos hw]
  rfl

/-- For narrow pictures: as if the picture had one column of blocks less while horizontal edges are filtered. -/
theorem C41_narrow (prm : Dir → Nat → Nat → Option EdgePrm) (w h n : Nat) (hn : 0 < n) (hw : w ≤ n) (m : Plane) :
    deblockPlane (scuLuma prm) w h n m = Spec.pass .hor (8 * (w - 1)) (8 * h) (Spec.luma prm .hor)
      (Spec.pass .ver (8 * w) (8 * h) (Spec.luma prm .ver) m) := by
  rw [luma_eq, plane_eq _ (Or.inl rfl) hn, if_neg (by omega)]

/-- All inner edges marked, with thresholds of a medium quantiser. -/
def allMarked : Dir → Nat → Nat → Option EdgePrm
  | .ver, x, _ => if x = 0 then none else some ⟨20, 6, true, true⟩
  | .hor, _, y => if y = 0 then none else some ⟨20, 6, true, true⟩

/-- A step of 4 between the first and the second row of blocks. -/
def stepPlane : Plane := fun _ y => if y < 8 then 100 else 104

/-- The missing edges are visible in the output: the step between two rows of blocks is smoothed everywhere except in the
last column of blocks. -/
theorem C41_visible_violated :
    deblockPlane (scuLuma allMarked) 2 2 8 stepPlane 12 7 ≠
      Spec.picture 16 16 (Spec.luma allMarked) stepPlane 12 7 ∧
    deblockPlane (scuLuma allMarked) 2 2 8 stepPlane 4 7 =
      Spec.picture 16 16 (Spec.luma allMarked) stepPlane 4 7 := by
  rw [C41_narrow _ _ _ _ (by decide) (by decide)]
  decide +kernel

example : deblockPlane (scuLuma allMarked) 3 2 2 stepPlane 20 7 = 102 := by
  rw [C41_luma_partial _ _ _ _ (by decide) (by decide)]
  decide +kernel

end Davs2.Db
