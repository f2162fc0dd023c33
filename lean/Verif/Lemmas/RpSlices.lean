import Verif.Lemmas.RpPicture
/-
C89: slices are reconstructed independently.
-/
namespace Davs2.Rp
open Davs2.Spec Davs2.Ip Davs2.Qt

/-- Block `b` has samples and lies in one slice. -/
structure Single (s : Setting) (b : Block) : Prop where
  w : 0 < b.w
  h : 0 < b.h
  slice : ∀ X Y : Int, b.x ≤ X → X < b.x + b.w → b.y ≤ Y → Y < b.y + b.h → s.slice X Y = s.slice b.x b.y

/-- Two planes agree in slice `n`. -/
def Agree (s : Setting) (n : Nat) (u v : Part) : Prop := ∀ X Y, s.slice X Y = n → u.val X Y = v.val X Y ∧ u.done X Y = v.done X Y

theorem usable_agree {s : Setting} {n : Nat} {u v : Part} (A : Agree s n u v) (X Y : Int) : usable s u n X Y = usable s v n X Y := by
  unfold usable
  by_cases h : s.slice X Y = n
  · rw [(A X Y h).2]
  · rw [show (s.slice X Y == n) = false from beq_eq_false_iff_ne.mpr h, Bool.and_false, Bool.and_false]

theorem usable_val {s : Setting} {n : Nat} {u v : Part} (A : Agree s n u v) {X Y : Int} (h : usable s u n X Y = true) : u.val X Y = v.val X Y := by
  unfold usable at h
  simp only [Bool.and_eq_true, beq_iff_eq] at h
  exact (A X Y h.2).1

theorem across_agree {s : Setting} {n : Nat} {u v : Part} (A : Agree s n u v) (X Y : Int) (m : Nat) : across s u n X Y m = across s v n X Y m := by
  unfold across
  congr 1
  funext i
  exact usable_agree A _ _

theorem down_agree {s : Setting} {n : Nat} {u v : Part} (A : Agree s n u v) (X Y : Int) (m : Nat) : down s u n X Y m = down s v n X Y m := by
  unfold down
  congr 1
  funext i
  exact usable_agree A _ _

theorem across_val {s : Setting} {n : Nat} {u v : Part} (A : Agree s n u v) {X Y : Int} {m : Nat} (h : across s u n X Y m = true) {i : Nat} (hi : i < m) :
    u.val (X + i) Y = v.val (X + i) Y := by
  unfold across at h
  rw [List.all_eq_true] at h
  exact usable_val A (h i (List.mem_range.mpr hi))

theorem down_val {s : Setting} {n : Nat} {u v : Part} (A : Agree s n u v) {X Y : Int} {m : Nat} (h : down s u n X Y m = true) {i : Nat} (hi : i < m) :
    u.val X (Y + i) = v.val X (Y + i) := by
  unfold down at h
  rw [List.all_eq_true] at h
  exact usable_val A (h i (List.mem_range.mpr hi))

theorem step_agree {s : Setting} {n : Nat} {u v : Part} {b : Block} (A : Agree s n u v) (B : Single s b) (hb : s.slice b.x b.y = n) :
    Agree s n (Block.step s u b) (Block.step s v b) := by
  have e1 := down_agree A (b.x - 1) b.y b.h
  have e2 := across_agree A b.x (b.y - 1) b.w
  have e3 := usable_agree A (b.x - 1) (b.y - 1)
  have e4 := across_agree A (b.x + b.w) (b.y - 1) b.w
  have e5 := down_agree A (b.x - 1) (b.y + b.h) b.h
  intro X Y hXY
  unfold Block.step
  dsimp only
  rw [hb, (A X Y hXY).1, (A X Y hXY).2]
  refine ⟨?_, rfl⟩
  by_cases hin : decide ((b.x : Int) ≤ X ∧ X < b.x + b.w ∧ (b.y : Int) ≤ Y ∧ Y < b.y + b.h) = true
  · rw [if_pos hin, if_pos hin]
    rcases b.fill with ⟨mode, fin⟩ | val
    · dsimp only
      have bc := border_congr (left := down s u n (b.x - 1) b.y b.h) (top := across s u n b.x (b.y - 1) b.w) (topLeft := usable s u n (b.x - 1) (b.y - 1))
        (topRight := across s u n (b.x + b.w) (b.y - 1) b.w) (leftDown := down s u n (b.x - 1) (b.y + b.h) b.h) (g := s.grey) B.w B.h
        (f := fun k => u.val (b.x - 1 + k) (b.y - 1)) (f' := fun k => v.val (b.x - 1 + k) (b.y - 1))
        (c := fun k => u.val (b.x - 1) (b.y - 1 + k)) (c' := fun k => v.val (b.x - 1) (b.y - 1 + k))
        (by
          intro h k k1 k2
          have := across_val A h (i := k - 1) (by omega)
          rw [show (b.x : Int) + (k - 1 : Nat) = b.x - 1 + k by omega] at this
          exact this)
        (by
          intro h k k1 k2
          have := across_val A h (i := k - 1 - b.w) (by omega)
          rw [show (b.x : Int) + b.w + (k - 1 - b.w : Nat) = b.x - 1 + k by omega] at this
          exact this)
        (by
          intro h k k1 k2
          have := down_val A h (i := k - 1) (by omega)
          rw [show (b.y : Int) + (k - 1 : Nat) = b.y - 1 + k by omega] at this
          exact this)
        (by
          intro h k k1 k2
          have := down_val A h (i := k - 1 - b.h) (by omega)
          rw [show (b.y : Int) + b.h + (k - 1 - b.h : Nat) = b.y - 1 + k by omega] at this
          exact this)
        (by
          intro h
          have := usable_val A h
          show u.val (b.x - 1 + (0 : Nat)) _ = v.val (b.x - 1 + (0 : Nat)) _
          rw [show (b.x : Int) - 1 + (0 : Nat) = b.x - 1 by omega]
          exact this)
      rw [bc, e1, e2, e3, e4, e5]
    · rfl
  · rw [if_neg hin, if_neg hin]

theorem step_other {s : Setting} {n : Nat} {u v : Part} {b : Block} (A : Agree s n u v) (B : Single s b) (hb : s.slice b.x b.y ≠ n) :
    Agree s n (Block.step s u b) v := by
  intro X Y hXY
  have hn : ¬ ((b.x : Int) ≤ X ∧ X < b.x + b.w ∧ (b.y : Int) ≤ Y ∧ Y < b.y + b.h) := by
    rintro ⟨h1, h2, h3, h4⟩
    exact hb ((B.slice X Y h1 h2 h3 h4).symm.trans hXY)
  unfold Block.step
  dsimp only
  refine ⟨(if_neg (by rw [decide_eq_true_eq]; exact hn)).trans (A X Y hXY).1, ?_⟩
  rw [decide_eq_false hn, Bool.false_or]
  exact (A X Y hXY).2

theorem fold_agree {s : Setting} {n : Nat} : ∀ (bs : List Block) (u v : Part), (∀ b ∈ bs, Single s b) → Agree s n u v →
    Agree s n (bs.foldl (Block.step s) u) ((bs.filter fun b => s.slice b.x b.y == n).foldl (Block.step s) v) := by
  intro bs
  induction bs with
  | nil => intro u v _ A; exact A
  | cons b bs ih =>
    intro u v hB A
    have B := hB b (by simp)
    by_cases hb : s.slice b.x b.y = n
    · rw [List.filter_cons_of_pos (by rw [beq_iff_eq]; exact hb)]
      exact ih _ _ (fun b h => hB b (by simp [h])) (step_agree A B hb)
    · rw [List.filter_cons_of_neg (by rw [beq_iff_eq]; exact hb)]
      exact ih _ _ (fun b h => hB b (by simp [h])) (step_other A B hb)

/-- The samples of a slice depend on the blocks of the slice only. -/
theorem slice_only {s : Setting} {bs : List Block} (h : ∀ b ∈ bs, Single s b) (X Y : Int) :
    (reconstruct s bs).val X Y = (reconstruct s (bs.filter fun b => s.slice b.x b.y == s.slice X Y)).val X Y :=
  (fold_agree bs _ _ h (fun _ _ _ => ⟨rfl, rfl⟩) X Y rfl).1

theorem parse_congr {w h : Nat} {s s' : Nat → Nat → Nat → Bool} : ∀ k x y,
    (∀ l x' y', x ≤ x' → x' < x + 2 ^ (k + 3) → y ≤ y' → y' < y + 2 ^ (k + 3) → s l x' y' = s' l x' y') → parse w h s k x y = parse w h s' k x y := by
  intro k
  induction k with
  | zero => intro x y _; rfl
  | succ k ih =>
    intro x y H
    have hp := Nat.two_pow_pos (k + 4)
    rw [show k + 1 + 3 = k + 4 by omega] at H
    unfold parse
    dsimp only
    rw [H (k + 4) x y (by omega) (by omega) (by omega) (by omega)]
    have e : (2 : Nat) ^ (k + 4) = 2 * 2 ^ (k + 3) := Nat.pow_succ'
    have : ((List.range 4).flatMap fun i => if x + (i % 2) * 2 ^ (k + 3) < w ∧ y + (i / 2) * 2 ^ (k + 3) < h then
          parse w h s k (x + (i % 2) * 2 ^ (k + 3)) (y + (i / 2) * 2 ^ (k + 3)) else []) =
        ((List.range 4).flatMap fun i => if x + (i % 2) * 2 ^ (k + 3) < w ∧ y + (i / 2) * 2 ^ (k + 3) < h then
          parse w h s' k (x + (i % 2) * 2 ^ (k + 3)) (y + (i / 2) * 2 ^ (k + 3)) else []) := by
      apply List.flatMap_congr
      intro i hi
      have hi := List.mem_range.mp hi
      rw [ih]
      intro l x' y' h1 h2 h3 h4
      have m1 : (i % 2) * 2 ^ (k + 3) ≤ 1 * 2 ^ (k + 3) := Nat.mul_le_mul_right _ (by omega)
      have m2 : (i / 2) * 2 ^ (k + 3) ≤ 1 * 2 ^ (k + 3) := Nat.mul_le_mul_right _ (by omega)
      apply H <;> omega
    rw [this]

variable {p : Pic} {k : Coded} {lx ly : Nat}

/-- Where the blocks of a coding tree lie. -/
structure InTree (p : Pic) (lx ly : Nat) (b : Block) : Prop where
  w : 0 < b.w
  h : 0 < b.h
  x1 : p.org lx ≤ b.x
  x2 : b.x + b.w ≤ p.org lx + p.T
  y1 : p.org ly ≤ b.y
  y2 : b.y + b.h ≤ p.org ly + p.T

theorem in_tree (hp : p.Ok) (h1 : lx * 2 ^ p.lcu < p.w) (h2 : ly * 2 ^ p.lcu < p.h)
    (hc : ∀ c ∈ parse p.w p.h k.split (p.lcu - 3) (lx * 2 ^ p.lcu) (ly * 2 ^ p.lcu), ContentOk k c) : ∀ b ∈ treeSpec p k lx ly, InTree p lx ly b := by
  intro b hb
  unfold treeSpec at hb
  obtain ⟨c, hcm, hb⟩ := List.mem_flatMap.mp hb
  have hco := hc c hcm
  obtain ⟨pre, post, e⟩ := List.append_of_mem hcm
  obtain ⟨i, j, a⟩ := at_mk hp h1 h2 e
  unfold cuSpec at hb
  unfold ContentOk at hco
  rcases hcu : k.cu c with ⟨tr, tu⟩ | val
  · rw [hcu] at hb hco
    obtain ⟨⟨sdip, split, sym, e⟩, hm⟩ := hco
    have ht := splits_ok a.l3 (by have := hp.hi; have := a.ll; omega) e
    dsimp only at hb
    obtain ⟨⟨b0, t⟩, hbt, rfl⟩ := List.mem_map.mp hb
    obtain ⟨dl, trf, G⟩ := geo hp a ht (List.mk_mem_zipIdx_iff_getElem?.mp hbt)
    obtain ⟨g1, g2⟩ := shape_le G.shape
    have := G.x2; have := G.y2
    refine ⟨g1, g2, ?_, ?_, ?_, ?_⟩ <;> dsimp only <;> omega
  · rw [hcu] at hb
    dsimp only at hb
    rw [List.mem_singleton] at hb
    subst hb
    have hpos := Nat.two_pow_pos (c.l - p.s)
    have ei := cu_end a.ll a.il
    have ej := cu_end a.ll a.jl
    have ax := a.x; have ay := a.y
    have ox := org_luma hp lx; have oy := org_luma hp ly
    have hT := pow_ts hp
    have h2l : 2 ^ c.l = 2 ^ (c.l - p.s) * 2 ^ p.s := by
      have := hp.s; have := a.l3
      rw [← Nat.pow_add]; congr 1; omega
    refine ⟨hpos, hpos, ?_, ?_, ?_, ?_⟩ <;> dsimp only <;>
      rcases s01 hp with h0 | h0 <;> rw [h0] at ox oy hT h2l ⊢ <;> omega

theorem tree_slice (hp : p.Ok) {b : Block} (T : InTree p lx ly b) {X Y : Int} (x1 : b.x ≤ X) (x2 : X < b.x + b.w) (y1 : b.y ≤ Y) (y2 : Y < b.y + b.h) :
    (setting p k).slice X Y = k.slice lx ly := by
  have a1 := T.x1; have a2 := T.x2; have a3 := T.y1; have a4 := T.y2
  have l1 : p.lc X.toNat = lx := lc_eq.mpr ⟨by show p.org lx ≤ _; omega, by show _ < p.org lx + _; omega⟩
  have l2 : p.lc Y.toNat = ly := lc_eq.mpr ⟨by show p.org ly ≤ _; omega, by show _ < p.org ly + _; omega⟩
  show k.slice (p.lc X.toNat) (p.lc Y.toNat) = _
  rw [l1, l2]

theorem tree_filter (hp : p.Ok) (h1 : lx * 2 ^ p.lcu < p.w) (h2 : ly * 2 ^ p.lcu < p.h)
    (hc : ∀ c ∈ parse p.w p.h k.split (p.lcu - 3) (lx * 2 ^ p.lcu) (ly * 2 ^ p.lcu), ContentOk k c) (n : Nat) :
    (treeSpec p k lx ly).filter (fun b => (setting p k).slice b.x b.y == n) = if k.slice lx ly = n then treeSpec p k lx ly else [] := by
  have key : ∀ b ∈ treeSpec p k lx ly, (setting p k).slice b.x b.y = k.slice lx ly := by
    intro b hb
    have T := in_tree hp h1 h2 hc b hb
    have := T.w; have := T.h
    exact tree_slice hp T (by omega) (by omega) (by omega) (by omega)
  by_cases h : k.slice lx ly = n
  · rw [if_pos h, List.filter_eq_self]
    intro b hb
    rw [key b hb, beq_iff_eq]
    exact h
  · rw [if_neg h, List.filter_eq_nil_iff]
    intro b hb
    rw [key b hb, beq_iff_eq]
    exact h

/-- What is coded for the coding trees of slice `n` is the same. -/
structure Same (p : Pic) (n : Nat) (k k' : Coded) : Prop where
  slice : ∀ lx ly, k.slice lx ly = k'.slice lx ly
  split : ∀ l x y, k.slice (x / 2 ^ p.lcu) (y / 2 ^ p.lcu) = n → k.split l x y = k'.split l x y
  cu : ∀ c : Cu, k.slice (c.x / 2 ^ p.lcu) (c.y / 2 ^ p.lcu) = n → k.cu c = k'.cu c

theorem tree_same (hp : p.Ok) (h1 : lx * 2 ^ p.lcu < p.w) (h2 : ly * 2 ^ p.lcu < p.h) {k' : Coded} {n : Nat} (S : Same p n k k') (hn : k.slice lx ly = n) :
    treeSpec p k lx ly = treeSpec p k' lx ly := by
  have e : p.lcu - 3 + 3 = p.lcu := by have := hp.lo; omega
  have dv : ∀ l x, l * 2 ^ p.lcu ≤ x → x < l * 2 ^ p.lcu + 2 ^ p.lcu → x / 2 ^ p.lcu = l := by
    intro l x a b
    exact Nat.div_eq_of_lt_le a (by rw [Nat.succ_mul]; exact b)
  have ep : parse p.w p.h k.split (p.lcu - 3) (lx * 2 ^ p.lcu) (ly * 2 ^ p.lcu) = parse p.w p.h k'.split (p.lcu - 3) (lx * 2 ^ p.lcu) (ly * 2 ^ p.lcu) := by
    apply parse_congr
    intro l x y a1 a2 a3 a4
    rw [e] at a2 a4
    apply S.split
    rw [dv lx x a1 a2, dv ly y a3 a4]
    exact hn
  unfold treeSpec
  rw [ep]
  apply List.flatMap_congr
  intro c hcm
  have f := tree_fits hp.w hp.h (show 3 ≤ p.lcu by omega) k'.split h1 h2 c hcm
  have hpos := Nat.two_pow_pos c.l
  have hcu := S.cu c (by
    rw [dv lx c.x f.x1 (by have := f.x2; omega), dv ly c.y f.y1 (by have := f.y2; omega)]
    exact hn)
  unfold cuSpec
  rw [hcu]

/-- Content of all coding units of the picture is as the parser delivers it. -/
def AllOk (p : Pic) (k : Coded) : Prop :=
  ∀ lx ly, lx * 2 ^ p.lcu < p.w → ly * 2 ^ p.lcu < p.h → ∀ c ∈ parse p.w p.h k.split (p.lcu - 3) (lx * 2 ^ p.lcu) (ly * 2 ^ p.lcu), ContentOk k c

theorem mem_blocks {b : Block} (h : b ∈ blocks p k) : ∃ lx ly, lx * 2 ^ p.lcu < p.w ∧ ly * 2 ^ p.lcu < p.h ∧ b ∈ treeSpec p k lx ly := by
  unfold blocks at h
  obtain ⟨ly, h1, h⟩ := List.mem_flatMap.mp h
  unfold rowSpec at h
  obtain ⟨lx, h2, h⟩ := List.mem_flatMap.mp h
  exact ⟨lx, ly, (count_iff (Nat.two_pow_pos p.lcu)).mp (List.mem_range.mp h2), (count_iff (Nat.two_pow_pos p.lcu)).mp (List.mem_range.mp h1), h⟩

theorem blocks_single (hp : p.Ok) (hc : AllOk p k) : ∀ b ∈ blocks p k, Single (setting p k) b := by
  intro b hb
  obtain ⟨lx, ly, h1, h2, hb⟩ := mem_blocks hb
  have T := in_tree hp h1 h2 (hc lx ly h1 h2) b hb
  have a1 := T.w; have a2 := T.h
  refine ⟨a1, a2, ?_⟩
  intro X Y x1 x2 y1 y2
  rw [tree_slice hp T x1 x2 y1 y2, tree_slice hp T (X := b.x) (Y := b.y) (by omega) (by omega) (by omega) (by omega)]

theorem blocks_filter (hp : p.Ok) (hc : AllOk p k) (n : Nat) :
    (blocks p k).filter (fun b => (setting p k).slice b.x b.y == n) =
      (List.range ((p.h + 2 ^ p.lcu - 1) / 2 ^ p.lcu)).flatMap fun ly => (List.range ((p.w + 2 ^ p.lcu - 1) / 2 ^ p.lcu)).flatMap fun lx =>
        if k.slice lx ly = n then treeSpec p k lx ly else [] := by
  unfold blocks
  rw [List.filter_flatMap]
  apply List.flatMap_congr
  intro ly hly
  unfold rowSpec
  rw [List.filter_flatMap]
  apply List.flatMap_congr
  intro lx hlx
  have h1 := (count_iff (Nat.two_pow_pos p.lcu)).mp (List.mem_range.mp hlx)
  have h2 := (count_iff (Nat.two_pow_pos p.lcu)).mp (List.mem_range.mp hly)
  exact tree_filter hp h1 h2 (hc lx ly h1 h2) n

theorem blocks_same (hp : p.Ok) (hc : AllOk p k) {k' : Coded} (hc' : AllOk p k') {n : Nat} (S : Same p n k k') :
    (blocks p k).filter (fun b => (setting p k).slice b.x b.y == n) = (blocks p k').filter (fun b => (setting p k').slice b.x b.y == n) := by
  rw [blocks_filter hp hc, blocks_filter hp hc']
  apply List.flatMap_congr
  intro ly hly
  apply List.flatMap_congr
  intro lx hlx
  have h1 := (count_iff (Nat.two_pow_pos p.lcu)).mp (List.mem_range.mp hlx)
  have h2 := (count_iff (Nat.two_pow_pos p.lcu)).mp (List.mem_range.mp hly)
  rw [← S.slice lx ly]
  by_cases h : k.slice lx ly = n
  · rw [if_pos h, if_pos h, tree_same hp h1 h2 S h]
  · rw [if_neg h, if_neg h]

theorem setting_same {k' : Coded} {n : Nat} (S : Same p n k k') : setting p k = setting p k' := by
  unfold setting
  congr 1
  funext X Y
  exact S.slice _ _

end Davs2.Rp
