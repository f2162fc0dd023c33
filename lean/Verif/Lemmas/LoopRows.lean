import Verif.Lemmas.LoopPipe
import Verif.Props.LoopRegions
import Verif.Props.Sao
import Verif.Lemmas.Alf
import Verif.Props.Alf
import Verif.Props.DeblockOrder
/-
Footprints of the in-loop filters.
-/
namespace Davs2.Lr
open Davs2.Sa (Plane Avail)

/-! ### Changes that stay inside a set of positions -/

/-- `f` changes nothing outside `A`, and what it does inside depends only on the inside. -/
structure Within (A : Int → Int → Prop) (f : Plane → Plane) : Prop where
  keep : ∀ m x y, ¬ A x y → f m x y = m x y
  dep : ∀ m m' : Plane, (∀ x y, A x y → m x y = m' x y) → ∀ x y, A x y → f m x y = f m' x y

theorem Within.mono {A B : Int → Int → Prop} {f : Plane → Plane} (h : Within A f) (hAB : ∀ x y, A x y → B x y) : Within B f where
  keep m x y hB := h.keep m x y (fun a => hB (hAB x y a))
  dep m m' hm x y hB := by
    by_cases hA : A x y
    · exact h.dep m m' (fun x y a => hm x y (hAB x y a)) x y hA
    · rw [h.keep m x y hA, h.keep m' x y hA, hm x y hB]

theorem Within.id (A : Int → Int → Prop) : Within A (fun m => m) := ⟨fun _ _ _ _ => rfl, fun _ _ h => h⟩

theorem Within.comp {A : Int → Int → Prop} {f g : Plane → Plane} (hf : Within A f) (hg : Within A g) : Within A (fun m => g (f m)) where
  keep m x y h := by rw [hg.keep _ x y h, hf.keep _ x y h]
  dep m m' h := hg.dep _ _ (hf.dep m m' h)

theorem Within.foldl {α : Type} {A : Int → Int → Prop} (f : α → Plane → Plane) (l : List α) (h : ∀ a ∈ l, Within A (f a)) :
    Within A (fun m => l.foldl (fun m a => f a m) m) := by
  induction l with
  | nil => exact Within.id A
  | cons a l ih =>
    exact Within.comp (h a (by simp)) (ih (fun b hb => h b (by simp [hb])))

/-- Storing fixed values somewhere else commutes. -/
theorem Within.comm {A B : Int → Int → Prop} [∀ x y, Decidable (B x y)] {f : Plane → Plane} (h : Within A f) (hAB : ∀ x y, A x y → ¬ B x y)
    (v m : Plane) : f (fun x y => if B x y then v x y else m x y) = fun x y => if B x y then v x y else f m x y := by
  funext x y
  by_cases hA : A x y
  · rw [if_neg (hAB x y hA)]
    exact h.dep _ _ (fun x y a => if_neg (hAB x y a)) x y hA
  · rw [h.keep _ x y hA]
    by_cases hB : B x y
    · rw [if_pos hB, if_pos hB]
    · rw [if_neg hB, if_neg hB, h.keep _ x y hA]

/-! ### Deblocking -/

theorem putLine_within (d : Db.Dir) (x y : Int) (f : Db.Line → Db.Line) :
    Within (fun px py => match d with
      | .ver => py = y ∧ x - 3 ≤ px ∧ px ≤ x + 2
      | .hor => px = x ∧ y - 3 ≤ py ∧ py ≤ y + 2) (fun m => Db.putLine m d x y (f (Db.getLine m d x y))) := by
  constructor
  · intro m px py h
    unfold Db.putLine
    cases d <;> simp only at h ⊢ <;> rw [if_neg h]
  · intro m m' h px py hp
    have : Db.getLine m d x y = Db.getLine m' d x y := by
      unfold Db.getLine Db.at_
      cases d <;> simp only [Db.Line.mk.injEq]
      · have g : ∀ k : Int, -3 ≤ k → k ≤ 2 → m (x + k) y = m' (x + k) y := fun k h1 h2 => h _ _ ⟨rfl, by omega, by omega⟩
        exact ⟨g _ (by omega) (by omega), g _ (by omega) (by omega), g _ (by omega) (by omega), g _ (by omega) (by omega), g _ (by omega) (by omega), g _ (by omega) (by omega)⟩
      · have g : ∀ k : Int, -3 ≤ k → k ≤ 2 → m x (y + k) = m' x (y + k) := fun k h1 h2 => h _ _ ⟨rfl, by omega, by omega⟩
        exact ⟨g _ (by omega) (by omega), g _ (by omega) (by omega), g _ (by omega) (by omega), g _ (by omega) (by omega), g _ (by omega) (by omega), g _ (by omega) (by omega)⟩
    rw [this]
    unfold Db.putLine
    cases d <;> simp only at hp ⊢ <;> rw [if_pos hp, if_pos hp]

/-- Positions an edge of a block of `u` samples can touch. -/
def edgeArea (u : Nat) (e : Db.Dir × Nat × Nat) (x y : Int) : Prop := match e.1 with
  | .ver => (u * e.2.2 : Int) ≤ y ∧ y < u * e.2.2 + u ∧ (u * e.2.1 : Int) - 3 ≤ x ∧ x ≤ u * e.2.1 + 2
  | .hor => (u * e.2.1 : Int) ≤ x ∧ x < u * e.2.1 + u ∧ (u * e.2.2 : Int) - 3 ≤ y ∧ y ≤ u * e.2.2 + 2

theorem edgeCore_within (chroma : Bool) (p : Db.EdgePrm) (d : Db.Dir) (bx bY : Nat) :
    Within (edgeArea (if chroma then 4 else 8) (d, bx, bY)) (fun m =>
      Db.edgeCore chroma p d ((if chroma then 4 else 8 : Nat) * bx) ((if chroma then 4 else 8 : Nat) * bY) m) := by
  unfold Db.edgeCore
  generalize hu : (if chroma = true then 4 else 8) = u
  refine Within.foldl (fun (i : Nat) m => _) (List.range u) ?_
  intro i hi
  have hi' : i < u := List.mem_range.1 hi
  cases d
  · dsimp only
    refine (putLine_within .ver _ _ _).mono ?_
    intro x y h
    simp only [edgeArea] at h ⊢
    omega
  · dsimp only
    refine (putLine_within .hor _ _ _).mono ?_
    intro x y h
    simp only [edgeArea] at h ⊢
    omega

theorem scuLuma_within (prm : Db.Dir → Nat → Nat → Option Db.EdgePrm) (e : Db.Dir × Nat × Nat) : Within (edgeArea 8 e) (Db.scuLuma prm e) := by
  unfold Db.scuLuma
  split
  · exact Within.id _
  · rename_i p h
    exact edgeCore_within false p e.1 e.2.1 e.2.2

theorem scuChroma_within (prm : Db.Dir → Nat → Nat → Option Db.EdgePrm) (e : Db.Dir × Nat × Nat) : Within (edgeArea 4 e) (Db.scuChroma prm e) := by
  unfold Db.scuChroma
  split
  · split
    · exact Within.id _
    · rename_i p h
      exact edgeCore_within true p e.1 e.2.1 e.2.2
  · exact Within.id _

end Davs2.Lr

namespace Davs2.Lr
open Davs2.Sa (Plane Avail)

/-- The plane is made of blocks of `u` samples, and deblocking works on edges of such blocks. -/
structure Job.Geom (b : Job) (u : Nat) : Prop where
  unit : u = 8 ∨ u = 4
  n : 0 < b.bn
  w : 0 < b.bw
  h : 0 < b.bh
  W : b.lay.W = u * b.bw
  H : b.lay.H = u * b.bh
  L : b.lay.L = u * b.bn
  deb : ∀ e, Within (edgeArea u e) (b.deb e)

variable {b : Job} {u : Nat}

theorem Job.Geom.W0 (g : b.Geom u) : 0 < b.lay.W := by
  rw [g.W]; exact Nat.mul_pos (by rcases g.unit with h | h <;> omega) g.w

theorem Job.Geom.H0 (g : b.Geom u) : 0 < b.lay.H := by
  rw [g.H]; exact Nat.mul_pos (by rcases g.unit with h | h <;> omega) g.h

theorem Job.Geom.L0 (g : b.Geom u) : 0 < b.lay.L := by
  rw [g.L]; exact Nat.mul_pos (by rcases g.unit with h | h <;> omega) g.n

theorem Job.Geom.lt_nW (g : b.Geom u) (i : Nat) : i < b.lay.nW ↔ i * b.bn < b.bw := by
  unfold Lay.nW
  rw [lt_trees g.L0 g.W0, g.L, g.W]
  have : (i * (u * b.bn : Nat) : Int) = u * (i * b.bn : Nat) := by push_cast; ring
  rw [this]
  push_cast
  rcases g.unit with h | h <;> subst h <;> constructor <;> intro k <;> (first | (zify; omega) | (zify at k; omega))

theorem Job.Geom.lt_nH (g : b.Geom u) (i : Nat) : i < b.lay.nH ↔ i * b.bn < b.bh := by
  unfold Lay.nH
  rw [lt_trees g.L0 g.H0, g.L, g.H]
  have : (i * (u * b.bn : Nat) : Int) = u * (i * b.bn : Nat) := by push_cast; ring
  rw [this]
  push_cast
  rcases g.unit with h | h <;> subst h <;> constructor <;> intro k <;> (first | (zify; omega) | (zify at k; omega))

/-- Positions that the deblocking of a tree can touch. -/
def treeArea (l : Lay) (i j : Nat) (x y : Int) : Prop :=
  x < min (l.W : Int) ((i + 1) * l.L) ∧ (j * l.L : Int) - 3 ≤ y ∧ y < rowEnd l.L l.H j

theorem Job.Geom.tree (g : b.Geom u) {i : Nat} (hi : i < b.lay.nW) (j : Nat) : Within (treeArea b.lay i j) (b.debTree i j) := by
  have hi' := (g.lt_nW i).1 hi
  refine Within.foldl b.deb _ ?_
  rintro ⟨d, a, c⟩ he
  refine (g.deb _).mono ?_
  intro x y h
  unfold treeArea rowEnd
  rw [g.W, g.L, g.H]
  have e1 : ((i : Int) + 1) * (u * b.bn : Nat) = u * (i * b.bn : Nat) + u * b.bn := by push_cast; ring
  have e2 : ((j : Int) + 1) * (u * b.bn : Nat) = u * (j * b.bn : Nat) + u * b.bn := by push_cast; ring
  have e3 : (j : Int) * (u * b.bn : Nat) = u * (j * b.bn : Nat) := by push_cast; ring
  rw [e1, e2, e3]
  cases d
  · have hm := Db.mem_lcu_ver.1 he
    simp only [edgeArea] at h
    generalize i * b.bn = I at *
    generalize j * b.bn = J at *
    push_cast
    rcases g.unit with q | q <;> subst q <;> push_cast at h <;> omega
  · have hm := (Db.mem_lcu_hor hi' g.n).1 he
    simp only [edgeArea] at h
    generalize i * b.bn = I at *
    generalize j * b.bn = J at *
    push_cast
    rcases g.unit with q | q <;> subst q <;> push_cast at h <;> omega

/-- Positions that are stored for a tree. -/
def own (l : Lay) (i j : Nat) (x y : Int) : Prop :=
  (i * l.L : Int) ≤ x ∧ x < min (l.W : Int) ((i + 1) * l.L) ∧ (j * l.L : Int) ≤ y ∧ y < min (l.H : Int) ((j + 1) * l.L)

instance (l : Lay) (i j : Nat) (x y : Int) : Decidable (own l i j x y) := by unfold own; infer_instance

theorem writeTree_eq (l : Lay) (r : Plane) (i j : Nat) (m : Plane) : writeTree l r i j m = fun x y => if own l i j x y then r x y else m x y := rfl

theorem write_within (l : Lay) (r : Plane) (i j : Nat) : Within (own l i j) (writeTree l r i j) := by
  constructor
  · intro m x y h
    rw [writeTree_eq]; exact if_neg h
  · intro m m' h x y hxy
    rw [writeTree_eq, writeTree_eq]
    simp only [if_pos hxy]

/-- Rows that reconstruction and deblocking of a row of trees can touch. -/
def rowArea (l : Lay) (j : Nat) (_ y : Int) : Prop := (j * l.L : Int) - 3 ≤ y ∧ y < rowEnd l.L l.H j

theorem Job.Geom.row (g : b.Geom u) (j : Nat) : Within (rowArea b.lay j) (b.recRow j) := by
  refine Within.foldl (fun i m => b.debTree i j (writeTree b.lay b.recon i j m)) (List.range b.lay.nW) ?_
  intro i hi
  refine Within.comp ((write_within b.lay b.recon i j).mono ?_) ((g.tree (List.mem_range.1 hi) j).mono ?_)
  · intro x y h; unfold own at h; unfold rowArea rowEnd; omega
  · intro x y h; unfold treeArea at h; unfold rowArea; exact h.2

/-! Storing first, deblocking later -/

/-- Deblocking a tree leaves alone what is stored for a later tree. -/
theorem Job.Geom.comm (g : b.Geom u) {i j i' j' : Nat} (hi : i < b.lay.nW) (h : j < j' ∨ j = j' ∧ i < i') (m : Plane) :
    b.debTree i j (writeTree b.lay b.recon i' j' m) = writeTree b.lay b.recon i' j' (b.debTree i j m) := by
  rw [writeTree_eq, writeTree_eq]
  refine (g.tree hi j).comm ?_ _ _
  intro x y ha ho
  unfold treeArea rowEnd at ha
  unfold own at ho
  rcases h with c | ⟨c, c'⟩
  · have : ((j + 1 : Nat) * b.lay.L : Int) ≤ j' * b.lay.L := by
      have : (j + 1) * b.lay.L ≤ j' * b.lay.L := Nat.mul_le_mul_right _ c
      exact_mod_cast this
    push_cast at this
    omega
  · have : ((i + 1 : Nat) * b.lay.L : Int) ≤ i' * b.lay.L := by
      have : (i + 1) * b.lay.L ≤ i' * b.lay.L := Nat.mul_le_mul_right _ c'
      exact_mod_cast this
    push_cast at this
    omega

theorem comm_list {α : Type} (d w : α → Plane → Plane) (a : α) (l : List α) (h : ∀ c ∈ l, ∀ m, d a (w c m) = w c (d a m)) (m : Plane) :
    l.foldl (fun m c => w c m) (d a m) = d a (l.foldl (fun m c => w c m) m) := by
  induction l generalizing m with
  | nil => rfl
  | cons c l ih =>
    simp only [List.foldl_cons]
    rw [← h c (by simp), ih (fun c hc => h c (by simp [hc]))]

/-- A list of steps "store, then filter" can be separated if every filter commutes with the later stores. -/
theorem separate {α : Type} (d w : α → Plane → Plane) (l : List α) (h : l.Pairwise fun a c => ∀ m, d a (w c m) = w c (d a m)) (m : Plane) :
    l.foldl (fun m a => d a (w a m)) m = l.foldl (fun m a => d a m) (l.foldl (fun m a => w a m) m) := by
  induction l generalizing m with
  | nil => rfl
  | cons a l ih =>
    obtain ⟨h1, h2⟩ := List.pairwise_cons.1 h
    simp only [List.foldl_cons]
    rw [ih h2, comm_list d w a l h1]

/-- The trees in decoding order. -/
def Lay.order (l : Lay) : List (Nat × Nat) := (List.range l.nH).flatMap fun j => (List.range l.nW).map fun i => (i, j)

/-- The plane with all reconstructed samples stored. -/
def stored (l : Lay) (r m : Plane) : Plane := fun x y => if 0 ≤ x ∧ x < l.W ∧ 0 ≤ y ∧ y < l.H then r x y else m x y

theorem range_pairwise (n : Nat) : (List.range n).Pairwise (· < ·) := List.pairwise_lt_range

theorem order_pairwise (l : Lay) : l.order.Pairwise fun a c => a.1 < l.nW ∧ (a.2 < c.2 ∨ a.2 = c.2 ∧ a.1 < c.1) := by
  unfold Lay.order
  rw [List.pairwise_flatMap]
  refine ⟨?_, ?_⟩
  · intro j _
    rw [List.pairwise_map]
    have h := (range_pairwise l.nW)
    refine List.Pairwise.imp_of_mem ?_ h
    intro a c ha _ hac
    exact ⟨List.mem_range.1 ha, Or.inr ⟨rfl, hac⟩⟩
  · refine (range_pairwise l.nH).imp ?_
    intro j j' hj a ha c hc
    obtain ⟨i, hi, rfl⟩ := List.mem_map.1 ha
    obtain ⟨i', -, rfl⟩ := List.mem_map.1 hc
    exact ⟨List.mem_range.1 hi, Or.inl hj⟩

theorem foldl_order {β : Type} (l : Lay) (f : β → Nat × Nat → β) (s : β) :
    l.order.foldl f s = (List.range l.nH).foldl (fun s j => (List.range l.nW).foldl (fun s i => f s (i, j)) s) s := by
  unfold Lay.order
  rw [List.foldl_flatMap]
  congr 1
  funext s j
  rw [List.foldl_map]

end Davs2.Lr
