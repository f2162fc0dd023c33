import Verif.Model.Deblock
import Mathlib.Data.List.Nodup
import Mathlib.Tactic.Linarith
import Mathlib.Tactic.Ring
/-
Deblocking of a whole plane: schedules of line filters.
-/
namespace Davs2.Db

/-- A line filter: direction, number `k` of the edge on the grid of 8 samples, position along the edge. -/
structure LOp where
  d : Dir
  k : Nat
  r : Nat
  deriving DecidableEq

/-- Position of sample `R0` of a line. -/
def LOp.xy (o : LOp) : Int × Int := match o.d with
  | .ver => (8 * o.k, o.r)
  | .hor => (o.r, 8 * o.k)

/-- The samples of a line. -/
def LOp.foot (o : LOp) (px py : Int) : Prop := match o.d with
  | .ver => py = o.r ∧ 8 * (o.k : Int) - 3 ≤ px ∧ px ≤ 8 * o.k + 2
  | .hor => px = o.r ∧ 8 * (o.k : Int) - 3 ≤ py ∧ py ≤ 8 * o.k + 2

def LOp.run (f : LOp → Line → Line) (m : Plane) (o : LOp) : Plane :=
  putLine m o.d o.xy.1 o.xy.2 (f o (getLine m o.d o.xy.1 o.xy.2))

theorem get_getLine (m : Plane) (d : Dir) (x y k : Int) (h1 : -3 ≤ k) (h2 : k ≤ 2) :
    (getLine m d x y).get k = m (at_ d x y k).1 (at_ d x y k).2 := by
  unfold Line.get getLine
  dsimp only
  by_cases h : k = -3
  · rw [if_pos h, h]
  rw [if_neg h]
  by_cases h : k = -2
  · rw [if_pos h, h]
  rw [if_neg h]
  by_cases h : k = -1
  · rw [if_pos h, h]
  rw [if_neg h]
  by_cases h : k = 0
  · rw [if_pos h, h]
  rw [if_neg h]
  by_cases h : k = 1
  · rw [if_pos h, h]
  rw [if_neg h]
  have : k = 2 := by omega
  rw [this]

/-- Lines read from planes that agree on the samples of the line are equal. -/
theorem getLine_congr (m m' : Plane) (o : LOp) (h : ∀ px py, o.foot px py → m px py = m' px py) :
    getLine m o.d o.xy.1 o.xy.2 = getLine m' o.d o.xy.1 o.xy.2 := by
  have g : ∀ k : Int, -3 ≤ k → k ≤ 2 → m (at_ o.d o.xy.1 o.xy.2 k).1 (at_ o.d o.xy.1 o.xy.2 k).2 =
      m' (at_ o.d o.xy.1 o.xy.2 k).1 (at_ o.d o.xy.1 o.xy.2 k).2 := by
    intro k h1 h2
    apply h
    obtain ⟨d, e, r⟩ := o
    cases d <;> simp only [LOp.foot, LOp.xy, at_] <;> refine ⟨trivial, ?_, ?_⟩ <;> omega
  unfold getLine
  simp only [Line.mk.injEq]
  exact ⟨g (-3) (by omega) (by omega), g (-2) (by omega) (by omega), g (-1) (by omega) (by omega),
    g 0 (by omega) (by omega), g 1 (by omega) (by omega), g 2 (by omega) (by omega)⟩

theorem run_outside (f : LOp → Line → Line) (m : Plane) (o : LOp) (px py : Int) (h : ¬ o.foot px py) :
    o.run f m px py = m px py := by
  obtain ⟨d, e, r⟩ := o
  cases d <;> simp only [LOp.foot] at h <;> simp only [LOp.run, LOp.xy, putLine] <;> exact if_neg h

/-- Offset of a sample from `R0` across the edge. -/
def LOp.off (o : LOp) (px py : Int) : Int := match o.d with
  | .ver => px - 8 * o.k
  | .hor => py - 8 * o.k

theorem run_inside (f : LOp → Line → Line) (m : Plane) (o : LOp) (px py : Int) (h : o.foot px py) :
    o.run f m px py = (f o (getLine m o.d o.xy.1 o.xy.2)).get (o.off px py) := by
  obtain ⟨d, e, r⟩ := o
  cases d <;> simp only [LOp.foot] at h <;> simp only [LOp.run, LOp.xy, putLine, LOp.off] <;> exact if_pos h

/-- Two lines without a common sample. -/
def LOp.Apart (a b : LOp) : Prop := ∀ px py, a.foot px py → ¬ b.foot px py

theorem run_comm (f : LOp → Line → Line) (m : Plane) (a b : LOp) (h : a.Apart b) :
    a.run f (b.run f m) = b.run f (a.run f m) := by
  funext px py
  by_cases ha : a.foot px py
  · have hb := h px py ha
    rw [run_inside f _ a px py ha, run_outside f _ b px py hb, run_inside f _ a px py ha,
      getLine_congr _ m a fun x y hx => run_outside f m b x y (h x y hx)]
  · rw [run_outside f _ a px py ha]
    by_cases hb : b.foot px py
    · rw [run_inside f _ b px py hb, run_inside f _ b px py hb,
        getLine_congr (a.run f m) m b fun x y hx => run_outside f m a x y fun hc => h x y hc hx]
    · rw [run_outside f _ b px py hb, run_outside f _ b px py hb, run_outside f _ a px py ha]

theorem run_comm_list (f : LOp → Line → Line) (m : Plane) (a : LOp) (l : List LOp) (h : ∀ b ∈ l, a.Apart b) :
    l.foldl (LOp.run f) (a.run f m) = a.run f (l.foldl (LOp.run f) m) := by
  induction l generalizing m with
  | nil => rfl
  | cons b l ih =>
    rw [List.foldl_cons, List.foldl_cons, ← run_comm f m a b (h b List.mem_cons_self)]
    exact ih _ fun c hc => h c (List.mem_cons_of_mem _ hc)

/-- If horizontal lines run before vertical ones only where they have no sample in common, the schedule can be
rearranged: all vertical lines first. -/
theorem rearrange (f : LOp → Line → Line) (m : Plane) (l : List LOp)
    (h : l.Pairwise fun a b => a.d = .hor → b.d = .ver → a.Apart b) :
    l.foldl (LOp.run f) m = (l.filter (fun o => o.d = .hor)).foldl (LOp.run f)
      ((l.filter (fun o => o.d = .ver)).foldl (LOp.run f) m) := by
  induction l generalizing m with
  | nil => rfl
  | cons a l ih =>
    rw [List.pairwise_cons] at h
    rw [List.foldl_cons, ih _ h.2]
    cases hd : a.d with
    | ver =>
      rw [List.filter_cons_of_neg (p := fun o : LOp => decide (o.d = Dir.hor)) (by simp [hd]),
        List.filter_cons_of_pos (p := fun o : LOp => decide (o.d = Dir.ver)) (by simp [hd])]
      rfl
    | hor =>
      rw [List.filter_cons_of_pos (p := fun o : LOp => decide (o.d = Dir.hor)) (by simp [hd]),
        List.filter_cons_of_neg (p := fun o : LOp => decide (o.d = Dir.ver)) (by simp [hd]), List.foldl_cons]
      congr 1
      apply run_comm_list
      intro b hb
      rw [List.mem_filter] at hb
      exact h.1 b hb.1 hd (by simpa using hb.2)

/-- Distinct lines of one direction have no sample in common. -/
theorem apart_same (a b : LOp) (hd : a.d = b.d) (h : a ≠ b) : a.Apart b := by
  intro px py h1 h2
  obtain ⟨d, k, r⟩ := a
  obtain ⟨d', k', r'⟩ := b
  dsimp only at hd
  subst hd
  cases d <;> simp only [LOp.foot] at h1 h2 <;> exact h (by
    have e1 : k = k' := by omega
    have e2 : r = r' := by omega
    rw [e1, e2])

/-- All lines of one direction, executed in any order, act as if at the same time. -/
theorem run_all (f : LOp → Line → Line) (m : Plane) (l : List LOp) (d : Dir) (hd : ∀ o ∈ l, o.d = d) (hn : l.Nodup) :
    (∀ o ∈ l, ∀ px py, o.foot px py → l.foldl (LOp.run f) m px py =
      (f o (getLine m o.d o.xy.1 o.xy.2)).get (o.off px py)) ∧
    ∀ px py, (∀ o ∈ l, ¬ o.foot px py) → l.foldl (LOp.run f) m px py = m px py := by
  induction l generalizing m with
  | nil => exact ⟨fun o ho => absurd ho (by simp), fun _ _ _ => rfl⟩
  | cons a l ih =>
    rw [List.nodup_cons] at hn
    have hda := hd a List.mem_cons_self
    have hdl := fun o ho => hd o (List.mem_cons_of_mem _ ho)
    have hap : ∀ b ∈ l, a.Apart b := fun b hb => apart_same a b (by rw [hda, hdl b hb]) (fun e => hn.1 (e ▸ hb))
    obtain ⟨i1, i2⟩ := ih (a.run f m) hdl hn.2
    refine ⟨?_, ?_⟩
    · intro o ho px py hf
      rw [List.foldl_cons]
      rcases List.mem_cons.mp ho with h | h
      · subst h
        rw [i2 px py fun b hb hc => hap b hb px py hf hc, run_inside f m o px py hf]
      · rw [i1 o h px py hf, getLine_congr (a.run f m) m o fun x y hx =>
          run_outside f m a x y fun hc => hap o h x y hc hx]
    · intro px py hp
      rw [List.foldl_cons, i2 px py fun o ho => hp o (List.mem_cons_of_mem _ ho),
        run_outside f m a px py (hp a List.mem_cons_self)]

end Davs2.Db
