import Verif.Lemmas.LoopRows
import Verif.Spec.LoopFilter
/-
The SAO and ALF filters of one tree, in coordinates of the picture, when slices do not limit filtering.
-/
namespace Davs2.Lr
open Davs2.Sa (Plane Avail)
open Davs2.Spec

theorem edge_move {bd : Nat} {off : Int → Int} {dx dy : Int} {see see' : Int → Int → Prop} [∀ x y, Decidable (see x y)]
    [∀ x y, Decidable (see' x y)] {s : Plane} {x0 y0 x y : Int}
    (h1 : see (x - x0 - dx) (y - y0 - dy) ↔ see' (x - dx) (y - dy)) (h2 : see (x - x0 + dx) (y - y0 + dy) ↔ see' (x + dx) (y + dy)) :
    edgeOffset bd off dx dy see (shift s x0 y0) (x - x0) (y - y0) = edgeOffset bd off dx dy see' s x y := by
  unfold edgeOffset
  have e1 : x - x0 - dx + x0 = x - dx := by omega
  have e2 : y - y0 - dy + y0 = y - dy := by omega
  have e3 : x - x0 + dx + x0 = x + dx := by omega
  have e4 : y - y0 + dy + y0 = y + dy := by omega
  have e5 : x - x0 + x0 = x := by omega
  have e6 : y - y0 + y0 = y := by omega
  simp only [shift, h1, h2, e1, e2, e3, e4, e5, e6]

/-- Where a tree may look. -/
def Lay.sees (l : Lay) (i j : Nat) (x y : Int) : Prop :=
  visible (l.avail i j).l (l.avail i j).t (l.avail i j).r (l.avail i j).d (l.sao i j).w (l.sao i j).h (x - (l.sao i j).x) (y - (l.sao i j).y)

instance (l : Lay) (i j : Nat) (x y : Int) : Decidable (l.sees i j x y) := by unfold Lay.sees; infer_instance

theorem saoTree_eq {bd : Nat} {l : Lay} (hl : l.Ok) (junk : Int → Int) (prm : Nat → Nat → Option SaoPrm) {i j : Nat} (hi : i < l.nW) (hj : j < l.nH)
    (src dst : Plane) (x y : Int) :
    saoTree bd l junk prm i j src dst x y = match prm i j with
      | none => dst x y
      | some p => if (l.sao i j).Has x y then
          if p.type < 4 then (edgeOffset bd p.off (saoDir p.type).1 (saoDir p.type).2 (l.sees i j) src x y).getD (dst x y) else bandOffset bd p.off (src x y)
        else dst x y := by
  unfold saoTree
  rcases hp : prm i j with _ | p
  · rfl
  obtain ⟨⟨hw, hh, -⟩, -⟩ := C43_extent hl hi hj
  have hc : (l.avail i j).Corners := ⟨rfl, rfl, rfl, rfl⟩
  dsimp only
  generalize hr : l.sao i j = r at hw hh
  have hs : ∀ x y, l.sees i j x y ↔ visible (l.avail i j).l (l.avail i j).t (l.avail i j).r (l.avail i j).d r.w r.h (x - r.x) (y - r.y) := by
    intro x y; unfold Lay.sees; rw [hr]
  generalize hav : l.avail i j = av at hc hs
  have hin : (0 ≤ x - r.x ∧ x - r.x < r.w ∧ 0 ≤ y - r.y ∧ y - r.y < r.h) ↔ r.Has x y := by unfold Rect.Has; omega
  have hd : shift dst r.x r.y (x - r.x) (y - r.y) = dst x y := by unfold shift; rw [show x - r.x + r.x = x by omega, show y - r.y + r.y = y by omega]
  have hsr : shift src r.x r.y (x - r.x) (y - r.y) = src x y := by unfold shift; rw [show x - r.x + r.x = x by omega, show y - r.y + r.y = y by omega]
  have fin : ∀ (dx dy : Int) (d : Plane), Sa.Filtered bd p.off av (shift src r.x r.y) r.w r.h dx dy (shift dst r.x r.y) d →
      shift d (-r.x) (-r.y) x y = if r.Has x y then (edgeOffset bd p.off dx dy (l.sees i j) src x y).getD (dst x y) else dst x y := by
    intro dx dy d hf
    have := hf (x - r.x) (y - r.y)
    rw [hd] at this
    have e : shift d (-r.x) (-r.y) x y = d (x - r.x) (y - r.y) := rfl
    rw [e, this]
    simp only [hin]
    congr 2
    refine edge_move ?_ ?_
    · rw [hs, show x - dx - r.x = x - r.x - dx by omega, show y - dy - r.y = y - r.y - dy by omega]
    · rw [hs, show x + dx - r.x = x - r.x + dx by omega, show y + dy - r.y = y - r.y + dy by omega]
  by_cases t0 : p.type = 0
  · rw [if_pos t0, if_pos (show p.type < 4 by omega), t0]
    exact fin 1 0 _ (Sa.C42_edge0 (by omega) _)
  rw [if_neg t0]
  by_cases t1 : p.type = 1
  · rw [if_pos t1, if_pos (show p.type < 4 by omega), t1]
    exact fin 0 1 _ (Sa.C42_edge90 (by omega) _)
  rw [if_neg t1]
  by_cases t2 : p.type = 2
  · rw [if_pos t2, if_pos (show p.type < 4 by omega), t2]
    exact fin 1 1 _ (Sa.C42_edge135 (by omega) (by omega) hc _ _)
  rw [if_neg t2]
  by_cases t3 : p.type = 3
  · rw [if_pos t3, if_pos (show p.type < 4 by omega), t3]
    exact fin (-1) 1 _ (Sa.C42_edge45 (by omega) (by omega) hc _ _)
  rw [if_neg t3, if_neg (show ¬ p.type < 4 by omega)]
  show Sa.bo bd p.off (shift src r.x r.y) r.w r.h (shift dst r.x r.y) (x - r.x) (y - r.y) = _
  rw [Sa.C42_band, hd, hsr]
  simp only [hin]

/-! ### Regions when slices do not limit filtering -/

variable {l : Lay}

theorem sao_rows (hl : l.Ok) (hc : l.cross = true) {i j : Nat} (hi : i < l.nW) (hj : j < l.nH) :
    (l.sao i j).y = cut l.L l.H l.nH j ∧ (l.sao i j).y + (l.sao i j).h = cut l.L l.H l.nH (j + 1) := by
  rw [sao_rect hl hi hj]
  dsimp only
  have ht : l.saoTop i j = decide (j ≠ 0) := by unfold Lay.saoTop top; simp [hc]
  have hd : l.saoDown i j = decide (j + 1 < l.nH) := by unfold Lay.saoDown down; simp [hc]
  obtain ⟨t0, t1, t2⟩ := trees_bounds (S := l.H) (L := l.L) (by have := hl.1; omega) (by have := hl.2.2.2.2.1; omega)
  rw [ht, hd]
  unfold cut start stop
  refine ⟨?_, ?_⟩
  · by_cases c : j = 0
    · simp [c]
    · simp [c, hj]
  · have : stop l.H l.L (decide (j + 1 < l.nH)) j = if j + 1 < l.nH then ((j : Int) + 1) * l.L - 4 else l.H := by
      unfold stop
      by_cases c : j + 1 < l.nH
      · simp [c]
      · simp only [c, decide_false, Bool.false_eq_true, if_false]
        have e : j = l.nH - 1 := by omega
        have h2 : (l.H : Int) ≤ (j + 1 : Nat) * l.L := by
          have : l.H ≤ l.nH * l.L := t2
          rw [e, show l.nH - 1 + 1 = l.nH by omega]
          exact_mod_cast this
        push_cast at h2
        omega
    unfold stop at this
    rw [if_neg (show ¬ j + 1 = 0 by omega)]
    push_cast
    omega

theorem alf_rows (hl : l.Ok) (hc : l.cross = true) {i j : Nat} (hi : i < l.nW) (hj : j < l.nH) :
    (l.alf i j).y = cut l.L l.H l.nH j ∧ (l.alf i j).y + (l.alf i j).h = cut l.L l.H l.nH (j + 1) := by
  have h := sao_rows hl hc hi hj
  rw [sao_rect hl hi hj] at h
  rw [alf_rect hl hi hj]
  have ht : l.saoTop i j = top l.cross (seen l.old l.new j) i j := rfl
  have hd : l.saoDown i j = alfDown l.nH j := by unfold Lay.saoDown down alfDown; simp [hc]
  rw [ht, hd] at h
  exact h

theorem axis_sees {S L k : Nat} {v dv : Int} (h8 : 8 ≤ L) (hS : 0 < S) (hk : k < trees S L) (hdv : -1 ≤ dv ∧ dv ≤ 1)
    (h1 : start L (decide (k ≠ 0)) k ≤ v) (h2 : v < stop S L (decide (k + 1 < trees S L)) k) :
    ((0 ≤ v + dv - start L (decide (k ≠ 0)) k ∨ decide (k ≠ 0) = true) ∧
      (v + dv - start L (decide (k ≠ 0)) k < stop S L (decide (k + 1 < trees S L)) k - start L (decide (k ≠ 0)) k ∨ decide (k + 1 < trees S L) = true)) ↔
      0 ≤ v + dv ∧ v + dv < S := by
  obtain ⟨t0, t1, t2⟩ := trees_bounds (S := S) (L := L) (by omega) hS
  have e : ((k : Int) + 1) * L = k * L + L := by ring
  have hc1 : decide (k + 1 < trees S L) = true → (k * L : Int) + L < S := by
    intro h
    have := (lt_trees (by omega) hS (k + 1)).1 (of_decide_eq_true h)
    push_cast at this
    omega
  have hc2 : decide (k + 1 < trees S L) = false → (S : Int) ≤ k * L + L := by
    intro h
    have h3 : k + 1 = trees S L := by have := of_decide_eq_false h; omega
    rw [← h3] at t2
    have : (S : Int) ≤ (k + 1 : Nat) * L := by exact_mod_cast t2
    push_cast at this
    omega
  have ha1 : decide (k ≠ 0) = true → (L : Int) ≤ k * L := by
    intro h
    have := of_decide_eq_true h
    have : 1 * L ≤ k * L := Nat.mul_le_mul_right _ (by omega)
    have : L ≤ k * L := by omega
    exact_mod_cast this
  have ha2 : decide (k ≠ 0) = false → (k * L : Int) = 0 := by
    intro h
    have : k = 0 := by have := of_decide_eq_false h; omega
    simp [this]
  clear t0 t1 t2 hk
  unfold start stop at *
  rw [e] at h2 ⊢
  generalize decide (k ≠ 0) = a at *
  generalize decide (k + 1 < trees S L) = c at *
  generalize (k : Int) * L = K at *
  cases a <;> cases c <;> simp at * <;> omega

/-- A tree sees the picture. -/
theorem sees_iff (hl : l.Ok) (hc : l.cross = true) {i j : Nat} (hi : i < l.nW) (hj : j < l.nH) {x y dx dy : Int} (h : (l.sao i j).Has x y)
    (hdx : -1 ≤ dx ∧ dx ≤ 1) (hdy : -1 ≤ dy ∧ dy ≤ 1) :
    l.sees i j (x + dx) (y + dy) ↔ (0 ≤ x + dx ∧ x + dx < l.W) ∧ 0 ≤ y + dy ∧ y + dy < l.H := by
  unfold Lay.sees visible
  have ht : l.saoTop i j = decide (j ≠ 0) := by unfold Lay.saoTop top; simp [hc]
  have hd : l.saoDown i j = decide (j + 1 < l.nH) := by unfold Lay.saoDown down; simp [hc]
  rw [sao_rect hl hi hj] at h ⊢
  rw [has_iff] at h
  unfold Lay.avail
  dsimp only
  rw [ht, hd] at h ⊢
  have g1 := axis_sees hl.1 (by have := hl.2.2.1; omega) hi hdx h.1.1 h.1.2
  have g2 := axis_sees hl.1 (by have := hl.2.2.2.2.1; omega) hj hdy h.2.1 h.2.2
  constructor
  · rintro ⟨a, b, c, d⟩
    exact ⟨g1.1 ⟨a, b⟩, g2.1 ⟨c, d⟩⟩
  · rintro ⟨a, b⟩
    exact ⟨(g1.2 a).1, (g1.2 a).2, (g2.2 b).1, (g2.2 b).2⟩

theorem saoDir_range (t : Nat) : (-1 ≤ (saoDir t).1 ∧ (saoDir t).1 ≤ 1) ∧ -1 ≤ (saoDir t).2 ∧ (saoDir t).2 ≤ 1 := by
  unfold saoDir; split <;> simp

/-- Inside the picture. -/
def Lay.In (l : Lay) (x y : Int) : Prop := (0 ≤ x ∧ x < l.W) ∧ 0 ≤ y ∧ y < l.H

instance (l : Lay) (x y : Int) : Decidable (l.In x y) := by unfold Lay.In; infer_instance

theorem edge_sees (hl : l.Ok) (hc : l.cross = true) {i j : Nat} (hi : i < l.nW) (hj : j < l.nH) {x y : Int} (h : (l.sao i j).Has x y)
    (bd : Nat) (off : Int → Int) (t : Nat) (s : Plane) :
    edgeOffset bd off (saoDir t).1 (saoDir t).2 (l.sees i j) s x y = edgeOffset bd off (saoDir t).1 (saoDir t).2 l.In s x y := by
  obtain ⟨h1, h2⟩ := saoDir_range t
  have a := sees_iff hl hc hi hj h (dx := -(saoDir t).1) (dy := -(saoDir t).2) (by omega) (by omega)
  have c := sees_iff hl hc hi hj h h1 h2
  unfold edgeOffset Lay.In
  rw [show x + -(saoDir t).1 = x - (saoDir t).1 by omega, show y + -(saoDir t).2 = y - (saoDir t).2 by omega] at a
  simp only [a, c]

/-- Samples an edge offset depends on. -/
theorem edge_dep {bd : Nat} {off : Int → Int} {dx dy : Int} {see : Int → Int → Prop} [∀ x y, Decidable (see x y)] {s s' : Plane} {x y : Int}
    (h0 : s x y = s' x y) (h1 : see (x - dx) (y - dy) → s (x - dx) (y - dy) = s' (x - dx) (y - dy))
    (h2 : see (x + dx) (y + dy) → s (x + dx) (y + dy) = s' (x + dx) (y + dy)) :
    edgeOffset bd off dx dy see s x y = edgeOffset bd off dx dy see s' x y := by
  unfold edgeOffset
  split
  · rename_i h
    rw [h0, h1 h.1, h2 h.2]
  · rfl

/-! ### Rows of trees -/

/-- A fold of filters that each set their own region. -/
theorem fold_regions {α : Type} (R : α → Int → Int → Prop) [∀ a x y, Decidable (R a x y)] (f : α → Plane → Plane) (v : α → Int → Int → Int → Int) (ls : List α)
    (hf : ∀ a ∈ ls, ∀ d x y, f a d x y = if R a x y then v a (d x y) x y else d x y)
    (hu : ∀ a ∈ ls, ∀ c ∈ ls, ∀ x y, R a x y → R c x y → a = c) (hn : ls.Nodup) (d : Plane) (x y : Int) :
    (∀ a ∈ ls, R a x y → ls.foldl (fun d a => f a d) d x y = v a (d x y) x y) ∧
      ((∀ a ∈ ls, ¬ R a x y) → ls.foldl (fun d a => f a d) d x y = d x y) := by
  induction ls generalizing d with
  | nil => simp
  | cons a ls ih =>
    obtain ⟨hn1, hn2⟩ := List.nodup_cons.1 hn
    obtain ⟨i1, i2⟩ := ih (fun c hc => hf c (by simp [hc])) (fun c hc c' hc' => hu c (by simp [hc]) c' (by simp [hc'])) hn2 (f a d)
    simp only [List.foldl_cons]
    refine ⟨?_, ?_⟩
    · intro c hc hR
      rcases List.mem_cons.1 hc with e | e
      · subst e
        rw [i2 (fun c' hc' hR' => by
          have := hu c (by simp) c' (by simp [hc']) x y hR hR'
          subst this
          exact hn1 hc'), hf c (by simp), if_pos hR]
      · rw [i1 c e hR, hf a (by simp), if_neg]
        intro hR'
        have := hu a (by simp) c (by simp [e]) x y hR' hR
        subst this
        exact hn1 e
    · intro h
      rw [i2 (fun c hc => h c (by simp [hc])), hf a (by simp), if_neg (h a (by simp))]

end Davs2.Lr
