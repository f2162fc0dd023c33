import Verif.Lemmas.MotionRules
import Verif.Props.Mv
import Verif.Props.Motion
/-
Lemmas for C94: vectors of units that are not skipped, in terms of the finished picture.
-/
namespace Davs2.Mo
open Davs2.Un Davs2.Qt Davs2.Spec

/-- Reference and vector of a block in one list. -/
def comp (bwd : Bool) (b : Blk) : Int × Option Vec := if bwd then (b.r2, b.v2) else (b.r1, b.v1)

/-- Later state of a block: present if it was, the reference is the same, and the vector if it was known. -/
def Le (bwd : Bool) (o o' : Option Blk) : Prop := ∀ b, o = some b → ∃ b', o' = some b' ∧ (comp bwd b).1 = (comp bwd b').1 ∧ ((comp bwd b).2 = none ∨ (comp bwd b).2 = (comp bwd b').2)

theorem Le.refl {bwd : Bool} (o : Option Blk) : Le bwd o o := fun b h => ⟨b, h, rfl, Or.inr rfl⟩

theorem Le.trans {bwd : Bool} {o o' o'' : Option Blk} (h : Le bwd o o') (g : Le bwd o' o'') : Le bwd o o'' := by
  intro b hb
  obtain ⟨b', h1, h2, h3⟩ := h b hb
  obtain ⟨b'', g1, g2, g3⟩ := g b' h1
  refine ⟨b'', g1, h2.trans g2, ?_⟩
  rcases h3 with h3 | h3
  · exact Or.inl h3
  · rw [h3]; exact g3

/-- `F` is a later state than `st`. -/
structure Later (bwd : Bool) (st F : St) : Prop where
  slice : F.slice = st.slice
  mot : ∀ X Y, Le bwd (st.mot X Y) (F.mot X Y)

theorem Later.trans {bwd : Bool} {a b c : St} (h : Later bwd a b) (g : Later bwd b c) : Later bwd a c :=
  ⟨g.slice.trans h.slice, fun X Y => (h.mot X Y).trans (g.mot X Y)⟩

theorem neighbor_later {bwd : Bool} {p : Pic} {st F : St} (h : Later bwd st F) {s x y : Int} {o : Option Blk} (e : neighbor p st s x y = .ok o) :
    ∃ o', neighbor p F s x y = .ok o' ∧ Le bwd o o' ∧ (o = none → o' = none) := by
  unfold neighbor at e ⊢
  rw [h.slice]
  by_cases h1 : y < 0 ∨ y ≥ p.h ∨ x < 0 ∨ x ≥ p.w
  · rw [if_pos h1] at e ⊢
    cases ok_pure e
    exact ⟨none, rfl, Le.refl _, fun _ => rfl⟩
  · rw [if_neg h1] at e ⊢
    by_cases h2 : st.slice (x.toNat / 2) (y.toNat / 2) ≠ s
    · rw [if_pos h2] at e ⊢
      cases ok_pure e
      exact ⟨none, rfl, Le.refl _, fun _ => rfl⟩
    · rw [if_neg h2] at e ⊢
      cases hm : st.mot x.toNat y.toNat with
      | none => rw [hm] at e; cases e
      | some b =>
        rw [hm] at e
        cases ok_pure e
        obtain ⟨b', h3, h4⟩ := h.mot _ _ b hm
        rw [h3]
        refine ⟨some b', rfl, fun c hc => ?_, fun h => by cases h⟩
        cases hc
        exact ⟨b', rfl, h4⟩

theorem nbVec_comp {p : Pic} {ref : Int} {bwd : Bool} {b b' : Blk} (h : (comp bwd b).1 = (comp bwd b').1) (g : (comp bwd b).2 = none ∨ (comp bwd b).2 = (comp bwd b').2) {n : MvNb}
    (e : nbVec p ref bwd b = .ok n) : nbVec p ref bwd b' = .ok n := by
  have r : (if bwd then b.r2 else b.r1) = (if bwd then b'.r2 else b'.r1) := by unfold comp at h; cases bwd <;> exact h
  have v : (if bwd then b.v2 else b.v1) = none ∨ (if bwd then b.v2 else b.v1) = (if bwd then b'.v2 else b'.v1) := by unfold comp at g; cases bwd <;> exact g
  unfold nbVec at e ⊢
  dsimp only at e ⊢
  rw [← r]
  by_cases h1 : recheck p ref (if bwd then b.r2 else b.r1) ≥ 0
  · rw [if_pos h1] at e ⊢
    rcases v with v | v
    · rw [v] at e
      split at e
      · obtain ⟨_, e1, _⟩ := ok_bind e
        cases e1
      · obtain ⟨_, _, e⟩ := ok_bind e
        obtain ⟨_, e1, _⟩ := ok_bind e
        cases e1
    · rw [← v]
      exact e
  · rw [if_neg h1] at e ⊢
    exact e

theorem nbVec_later {p : Pic} {ref : Int} {bwd : Bool} {o o' : Option Blk} (h : Le bwd o o') (h0 : o = none → o' = none) {n : MvNb} (e : nbVec p ref bwd (o.getD noBlk) = .ok n) :
    nbVec p ref bwd (o'.getD noBlk) = .ok n := by
  cases o with
  | none => rw [h0 rfl]; exact e
  | some b =>
    obtain ⟨b', h1, h2, h3⟩ := h b rfl
    rw [h1]
    exact nbVec_comp h2 h3 e

theorem bind_ok {α β : Type} {m : M α} {f : α → M β} {a : α} (h : m = .ok a) : (m >>= f) = f a := by rw [h]; rfl

/-- Prediction with more blocks known gives the same. -/
theorem mvp_later {bwd : Bool} {p : Pic} {st F : St} (h : Later bwd st F) {s : Int} {x y bw : Nat} {ref : Int} {pu : Nat} {v : Vec} (e : mvp p st s x y bw bwd ref pu = .ok v) :
    mvp p F s x y bw bwd ref pu = .ok v := by
  unfold mvp at e ⊢
  obtain ⟨t, e0, e⟩ := ok_bind e
  obtain ⟨l, e1, e⟩ := ok_bind e
  obtain ⟨u, e2, e⟩ := ok_bind e
  obtain ⟨tl, e3, e⟩ := ok_bind e
  obtain ⟨r, e4, e⟩ := ok_bind e
  obtain ⟨a, e5, e⟩ := ok_bind e
  obtain ⟨b, e6, e⟩ := ok_bind e
  obtain ⟨c, e7, e⟩ := ok_bind e
  obtain ⟨l', g1, k1, z1⟩ := neighbor_later h e1
  obtain ⟨u', g2, k2, z2⟩ := neighbor_later h e2
  obtain ⟨tl', g3, k3, z3⟩ := neighbor_later h e3
  obtain ⟨r', g4, k4, z4⟩ := neighbor_later h e4
  have e7' : nbVec p ref bwd ((if r'.isSome then r' else tl').getD noBlk) = .ok c := by
    cases r with
    | none => rw [z4 rfl]; exact nbVec_later k3 z3 e7
    | some b0 =>
      have q := nbVec_later k4 z4 e7
      obtain ⟨b', q1, -⟩ := k4 b0 rfl
      rw [q1] at q ⊢
      exact q
  rw [bind_ok e0, bind_ok g1, bind_ok g2, bind_ok g3, bind_ok g4, bind_ok (nbVec_later k1 z1 e5), bind_ok (nbVec_later k2 z2 e6), bind_ok e7']
  exact e

/-- Blocks of the units that are to be written: the vector is missing. -/
def Blank (bwd : Bool) (cx cy : Nat) (us : List (Cb × Nat)) (st : St) : Prop := ∀ q ∈ us, ∀ X Y, InU cx cy q.1 X Y → ∃ b, st.mot X Y = some b ∧ (comp bwd b).2 = none

theorem fwdVec_later {p : Pic} {st F : St} (h : Later false st F) {s : Int} {cx cy : Nat} {sy : Sym} {u : Cb} {i : Nat} {v : Vec × Option Vec} (e : fwdVec p st s cx cy sy u i = .ok v) :
    fwdVec p F s cx cy sy u i = .ok v := by
  unfold fwdVec at e ⊢
  dsimp only at e ⊢
  obtain ⟨m, e1, e⟩ := ok_bind e
  rw [bind_ok (mvp_later h e1)]
  exact e

theorem forward_val {p : Pic} {s : Int} {cx cy : Nat} {sy : Sym} : ∀ (us : List (Cb × Nat)) (st r : St), Blank false cx cy us st →
    (∀ X Y, us.Pairwise (fun q r => ¬ (InU cx cy q.1 X Y ∧ InU cx cy r.1 X Y))) → forward p s cx cy sy st us = .ok r →
    (∀ X Y, (∀ q ∈ us, ¬ InU cx cy q.1 X Y) → r.mot X Y = st.mot X Y) ∧ Later false st r ∧
    ∀ F, Later false r F → ∀ q ∈ us, (sy.dirs.getD q.2 (-1) = 1 → ∀ X Y, InU cx cy q.1 X Y → r.mot X Y = st.mot X Y) ∧
      (sy.dirs.getD q.2 (-1) ≠ 1 → ∃ v, fwdVec p F s cx cy sy q.1 q.2 = .ok v ∧ ∀ X Y, InU cx cy q.1 X Y → ∃ b, st.mot X Y = some b ∧
        r.mot X Y = some ⟨b.dir, b.r1, b.r2, some v.1, if p.frame = 2 then b.v2 else v.2⟩) := by
  intro us
  induction us with
  | nil =>
    intro st r _ _ h
    cases ok_pure h
    exact ⟨fun _ _ _ => rfl, ⟨rfl, fun _ _ => Le.refl _⟩, fun F _ q hq => by cases hq⟩
  | cons q us ih =>
    intro st r hb hp h
    obtain ⟨u, i⟩ := q
    have hb' : Blank false cx cy us st := fun q hq => hb q (List.mem_cons_of_mem _ hq)
    have hp' := fun X Y => (List.pairwise_cons.mp (hp X Y)).2
    have other : ∀ X Y, InU cx cy u X Y → ∀ q ∈ us, ¬ InU cx cy q.1 X Y := fun X Y hX q hq hi => (List.pairwise_cons.mp (hp X Y)).1 q hq ⟨hX, hi⟩
    unfold forward at h
    by_cases hd : sy.dirs.getD i (-1) = 1
    · rw [if_pos hd] at h
      obtain ⟨i1, i2, i3⟩ := ih st r hb' hp' h
      refine ⟨fun X Y hX => i1 X Y fun q hq => hX q (List.mem_cons_of_mem _ hq), i2, fun F hF q hq => ?_⟩
      rcases List.mem_cons.mp hq with rfl | hq
      · exact ⟨fun _ X Y hX => i1 X Y (other X Y hX), fun h => absurd hd h⟩
      · exact i3 F hF q hq
    · rw [if_neg hd] at h
      obtain ⟨v, hv, h⟩ := ok_bind h
      have step : Later false st { st with mot := rect st.mot (cx + u.x / 4) (cy + u.y / 4) (u.w / 4) (u.h / 4) fun o =>
          ⟨(o.getD noBlk).dir, (o.getD noBlk).r1, (o.getD noBlk).r2, some v.1, if p.frame = 2 then (o.getD noBlk).v2 else v.2⟩ } := by
        refine ⟨rfl, fun X Y => ?_⟩
        dsimp only
        by_cases hX : InU cx cy u X Y
        · obtain ⟨b, g1, g2⟩ := hb (u, i) (List.mem_cons_self ..) X Y hX
          rw [rect_in hX, g1]
          intro b' hb'
          cases hb'
          exact ⟨_, rfl, rfl, Or.inl g2⟩
        · rw [rect_out hX]
          exact Le.refl _
      obtain ⟨i1, i2, i3⟩ := ih _ r (fun q hq X Y hX => by
        dsimp only
        rw [rect_out fun hi => other X Y hi q hq hX]
        exact hb' q hq X Y hX) hp' h
      refine ⟨fun X Y hX => ?_, step.trans i2, fun F hF q hq => ?_⟩
      · refine (i1 X Y fun q hq => hX q (List.mem_cons_of_mem _ hq)).trans ?_
        dsimp only
        exact rect_out (hX _ (List.mem_cons_self ..))
      · rcases List.mem_cons.mp hq with rfl | hq
        · refine ⟨fun h => absurd h hd, fun _ => ⟨v, fwdVec_later ((step.trans i2).trans hF) hv, fun X Y hX => ?_⟩⟩
          obtain ⟨b, g1, -⟩ := hb (u, i) (List.mem_cons_self ..) X Y hX
          refine ⟨b, g1, (i1 X Y (other X Y hX)).trans ?_⟩
          dsimp only
          rw [rect_in hX, g1]
          rfl
        · obtain ⟨j1, j2⟩ := i3 F hF q hq
          have e : ∀ X Y, InU cx cy q.1 X Y → rect st.mot (cx + u.x / 4) (cy + u.y / 4) (u.w / 4) (u.h / 4) (fun o =>
              (⟨(o.getD noBlk).dir, (o.getD noBlk).r1, (o.getD noBlk).r2, some v.1, if p.frame = 2 then (o.getD noBlk).v2 else v.2⟩ : Blk)) X Y = st.mot X Y :=
            fun X Y hX => rect_out fun hi => other X Y hi q hq hX
          refine ⟨fun h X Y hX => (j1 h X Y hX).trans (e X Y hX), fun h => ?_⟩
          obtain ⟨w, k1, k2⟩ := j2 h
          refine ⟨w, k1, fun X Y hX => ?_⟩
          obtain ⟨b, k3, k4⟩ := k2 X Y hX
          exact ⟨b, (e X Y hX).symm.trans k3, k4⟩

theorem bwdVec_later {p : Pic} {st F : St} (h : Later true st F) (g : Later false st F) {s : Int} {cx cy : Nat} {sy : Sym} {u : Cb} {i : Nat} {v : Vec} (e : bwdVec p st s cx cy sy u i = .ok v) :
    bwdVec p F s cx cy sy u i = .ok v := by
  unfold bwdVec at e ⊢
  dsimp only at e ⊢
  obtain ⟨m, e1, e⟩ := ok_bind e
  rw [bind_ok (mvp_later h e1)]
  by_cases hd : sy.dirs.getD i (-1) = 2
  · rw [if_pos hd] at e ⊢
    obtain ⟨w, e2, e⟩ := ok_bind e
    have e3 := known_ok e2
    have : known ((F.mot (cx + u.x / 4) (cy + u.y / 4)).bind (·.v1)) = .ok w := by
      cases hm : st.mot (cx + u.x / 4) (cy + u.y / 4) with
      | none => rw [hm] at e3; cases e3
      | some b =>
        rw [hm] at e3
        obtain ⟨b', g1, -, g2⟩ := g.mot _ _ b hm
        rw [g1]
        rcases g2 with g2 | g2
        · exact absurd (e3.symm.trans g2) (by simp)
        · show known b'.v1 = _
          rw [show b'.v1 = some w from g2.symm.trans e3]
          rfl
    rw [bind_ok this]
    exact e
  · rw [if_neg hd] at e ⊢
    exact e

theorem backward_val {p : Pic} {s : Int} {cx cy : Nat} {sy : Sym} : ∀ (us : List (Cb × Nat)) (st r : St), Blank true cx cy us st →
    (∀ X Y, us.Pairwise (fun q r => ¬ (InU cx cy q.1 X Y ∧ InU cx cy r.1 X Y))) → backward p s cx cy sy st us = .ok r →
    (∀ X Y, (∀ q ∈ us, ¬ InU cx cy q.1 X Y) → r.mot X Y = st.mot X Y) ∧ Later true st r ∧ Later false st r ∧
    ∀ q ∈ us, (sy.dirs.getD q.2 (-1) = 0 → ∀ X Y, InU cx cy q.1 X Y → r.mot X Y = st.mot X Y) ∧
      (sy.dirs.getD q.2 (-1) ≠ 0 → ∃ v, bwdVec p r s cx cy sy q.1 q.2 = .ok v ∧ ∀ X Y, InU cx cy q.1 X Y → ∃ b, st.mot X Y = some b ∧
        r.mot X Y = some ⟨b.dir, b.r1, b.r2, b.v1, some v⟩) := by
  intro us
  induction us with
  | nil =>
    intro st r _ _ h
    cases ok_pure h
    exact ⟨fun _ _ _ => rfl, ⟨rfl, fun _ _ => Le.refl _⟩, ⟨rfl, fun _ _ => Le.refl _⟩, fun q hq => by cases hq⟩
  | cons q us ih =>
    intro st r hb hp h
    obtain ⟨u, i⟩ := q
    have hb' : Blank true cx cy us st := fun q hq => hb q (List.mem_cons_of_mem _ hq)
    have hp' := fun X Y => (List.pairwise_cons.mp (hp X Y)).2
    have other : ∀ X Y, InU cx cy u X Y → ∀ q ∈ us, ¬ InU cx cy q.1 X Y := fun X Y hX q hq hi => (List.pairwise_cons.mp (hp X Y)).1 q hq ⟨hX, hi⟩
    unfold backward at h
    by_cases hd : sy.dirs.getD i (-1) = 0
    · rw [if_pos hd] at h
      obtain ⟨i1, i2, i2', i3⟩ := ih st r hb' hp' h
      refine ⟨fun X Y hX => i1 X Y fun q hq => hX q (List.mem_cons_of_mem _ hq), i2, i2', fun q hq => ?_⟩
      rcases List.mem_cons.mp hq with rfl | hq
      · exact ⟨fun _ X Y hX => i1 X Y (other X Y hX), fun h => absurd hd h⟩
      · exact i3 q hq
    · rw [if_neg hd] at h
      obtain ⟨v, hv, h⟩ := ok_bind h
      have step : ∀ bwd, Later bwd st { st with mot := rect st.mot (cx + u.x / 4) (cy + u.y / 4) (u.w / 4) (u.h / 4) fun o =>
          ⟨(o.getD noBlk).dir, (o.getD noBlk).r1, (o.getD noBlk).r2, (o.getD noBlk).v1, some v⟩ } := by
        refine fun bwd => ⟨rfl, fun X Y => ?_⟩
        dsimp only
        by_cases hX : InU cx cy u X Y
        · obtain ⟨b, g1, g2⟩ := hb (u, i) (List.mem_cons_self ..) X Y hX
          rw [rect_in hX, g1]
          intro b' hb'
          cases hb'
          cases bwd
          · exact ⟨_, rfl, rfl, Or.inr rfl⟩
          · exact ⟨_, rfl, rfl, Or.inl g2⟩
        · rw [rect_out hX]
          exact Le.refl _
      obtain ⟨i1, i2, i2', i3⟩ := ih _ r (fun q hq X Y hX => by
        dsimp only
        rw [rect_out fun hi => other X Y hi q hq hX]
        exact hb' q hq X Y hX) hp' h
      refine ⟨fun X Y hX => ?_, (step true).trans i2, (step false).trans i2', fun q hq => ?_⟩
      · refine (i1 X Y fun q hq => hX q (List.mem_cons_of_mem _ hq)).trans ?_
        dsimp only
        exact rect_out (hX _ (List.mem_cons_self ..))
      · rcases List.mem_cons.mp hq with rfl | hq
        · refine ⟨fun h => absurd h hd, fun _ => ⟨v, bwdVec_later ((step true).trans i2) ((step false).trans i2') hv, fun X Y hX => ?_⟩⟩
          obtain ⟨b, g1, -⟩ := hb (u, i) (List.mem_cons_self ..) X Y hX
          refine ⟨b, g1, (i1 X Y (other X Y hX)).trans ?_⟩
          dsimp only
          rw [rect_in hX, g1]
          rfl
        · obtain ⟨j1, j2⟩ := i3 q hq
          have e : ∀ X Y, InU cx cy q.1 X Y → rect st.mot (cx + u.x / 4) (cy + u.y / 4) (u.w / 4) (u.h / 4) (fun o =>
              (⟨(o.getD noBlk).dir, (o.getD noBlk).r1, (o.getD noBlk).r2, (o.getD noBlk).v1, some v⟩ : Blk)) X Y = st.mot X Y :=
            fun X Y hX => rect_out fun hi => other X Y hi q hq hX
          refine ⟨fun h X Y hX => (j1 h X Y hX).trans (e X Y hX), fun h => ?_⟩
          obtain ⟨w, k1, k2⟩ := j2 h
          refine ⟨w, k1, fun X Y hX => ?_⟩
          obtain ⟨b, k3, k4⟩ := k2 X Y hX
          exact ⟨b, (e X Y hX).symm.trans k3, k4⟩

/-! ### The prediction as specified -/

theorem scale_default {v w dst src : Int} (h : scaleMvDefault v dst (distScale src) = some w) : w = Spec.scale v dst src := by
  unfold scaleMvDefault at h
  simp only [Option.bind_eq_bind, Option.bind_eq_some_iff, Option.some.injEq] at h
  obtain ⟨a, ha, b, hb, c, hc, d, hd, rfl⟩ := h
  rw [i32_val hd, i32_val hc, i32_val hb, i32_val ha, sign3_sign, clip3_limit, toInt16_of_isMv (limit16_isMv _)]
  rfl

theorem mean_int16 {x y : Int} (hx : IsMv x) (hy : IsMv y) : toInt16 ((x + y).tdiv 2) = (x + y).tdiv 2 := by
  apply toInt16_of_isMv
  rw [tdiv2]
  unfold IsMv at *
  split <;> omega

theorem median_middle {a b c : Int} (ha : IsMv a) (hb : IsMv b) (hc : IsMv c) : deriveMedianMv a b c = Spec.middle a b c := by
  have o : ∀ x y z, Spec.outlier x y z = decide ((x < 0 ∧ y > 0 ∧ z > 0) ∨ (x > 0 ∧ y < 0 ∧ z < 0)) := by
    intro x y z
    unfold Spec.outlier
    simp only [Bool.decide_or, Bool.decide_and, gt_iff_lt, Bool.and_assoc]
  unfold deriveMedianMv Spec.middle
  simp only [List.find?_cons, List.all_cons, List.all_nil, o, Bool.and_true]
  have x12 : ((a < 0 ∧ b > 0 ∧ c > 0) ∨ (a > 0 ∧ b < 0 ∧ c < 0)) → ¬((b < 0 ∧ c > 0 ∧ a > 0) ∨ (b > 0 ∧ c < 0 ∧ a < 0)) := by omega
  have x13 : ((a < 0 ∧ b > 0 ∧ c > 0) ∨ (a > 0 ∧ b < 0 ∧ c < 0)) → ¬((c < 0 ∧ a > 0 ∧ b > 0) ∨ (c > 0 ∧ a < 0 ∧ b < 0)) := by omega
  have x23 : ((b < 0 ∧ c > 0 ∧ a > 0) ∨ (b > 0 ∧ c < 0 ∧ a < 0)) → ¬((c < 0 ∧ a > 0 ∧ b > 0) ∨ (c > 0 ∧ a < 0 ∧ b < 0)) := by omega
  have e2 : ((b < 0 ∧ a > 0 ∧ c > 0) ∨ (b > 0 ∧ a < 0 ∧ c < 0)) ↔ ((b < 0 ∧ c > 0 ∧ a > 0) ∨ (b > 0 ∧ c < 0 ∧ a < 0)) := by omega
  simp only [e2]
  by_cases h1 : (a < 0 ∧ b > 0 ∧ c > 0) ∨ (a > 0 ∧ b < 0 ∧ c < 0)
  · simp only [h1, x12 h1, x13 h1, decide_true, decide_false, if_true]
    exact mean_int16 hb hc
  · by_cases h2 : (b < 0 ∧ c > 0 ∧ a > 0) ∨ (b > 0 ∧ c < 0 ∧ a < 0)
    · simp only [h1, h2, x23 h2, decide_true, decide_false, if_true, if_false]
      exact mean_int16 hc ha
    · by_cases h3 : (c < 0 ∧ a > 0 ∧ b > 0) ∨ (c > 0 ∧ a < 0 ∧ b < 0)
      · simp only [h1, h2, h3, decide_true, decide_false, if_true, if_false]
        exact mean_int16 ha hb
      · simp only [h1, h2, h3, decide_false, if_false]
        by_cases k1 : min |a - b| (min |b - c| |c - a|) = |a - b|
        · have k1' : |a - b| ≤ |b - c| ∧ |a - b| ≤ |c - a| := by omega
          rw [if_pos k1]
          simp only [le_refl, k1'.1, k1'.2, decide_true, Bool.and_self]
          exact mean_int16 ha hb
        · have k1' : ¬ (|a - b| ≤ |b - c| ∧ |a - b| ≤ |c - a|) := by omega
          rw [if_neg k1]
          simp only [le_refl, decide_true, Bool.true_and, ← Bool.decide_and, k1', decide_false]
          by_cases k2 : min |a - b| (min |b - c| |c - a|) = |b - c|
          · have k2' : |b - c| ≤ |a - b| ∧ |b - c| ≤ |c - a| := by omega
            rw [if_pos k2]
            simp only [k2', and_self, decide_true]
            exact mean_int16 hb hc
          · have k2' : ¬ (|b - c| ≤ |a - b| ∧ |b - c| ≤ |c - a|) := by omega
            have k3' : |c - a| ≤ |a - b| ∧ |c - a| ≤ |b - c| := by omega
            rw [if_neg k2]
            simp only [k2', k3', and_self, decide_true, decide_false]
            exact mean_int16 hc ha

/-- References of a block of a finished picture. -/
theorem blk_refs {p : Pic} {b : Blk} (h : BlkOk p b) : (-1 ≤ b.r1) ∧ (-1 ≤ b.r2) := by
  unfold BlkOk at h
  split at h
  · obtain ⟨-, h1, h2, -⟩ := h
    rw [h1, h2]
    constructor <;> split <;> omega
  · omega

theorem visible_blk {p : Pic} {F : St} (hF : ∀ X Y, X < p.w → Y < p.h → ∃ b, F.mot X Y = some b ∧ BlkOk p b) {s x y : Int} {b : Blk} (h : Spec.visible p F s x y = some b) : BlkOk p b := by
  unfold Spec.visible at h
  split at h
  · rename_i hc
    obtain ⟨b', h1, h2⟩ := hF x.toNat y.toNat (by omega) (by omega)
    rw [h1] at h
    cases h
    exact h2
  · cases h

/-- The contribution of a neighbour. -/
theorem nb_cand {p : Pic} (hp : p.Ok) (hf : p.field = false) {ref : Int} {bwd : Bool} {o : Option Blk} (ho : ∀ b, o = some b → BlkOk p b) {n : MvNb} (e : nbVec p ref bwd (o.getD noBlk) = .ok n)
    {w : Int × Int} (hw : scaleNeighbor (cfg p ref) ((if p.frame = 2 then (if bwd then 0 else 1) else ref) : Int).toNat ((cfg p ref).recheck n.ref) n = some w) :
    (match Spec.cand p bwd ref o with
     | none => (cfg p ref).recheck n.ref = -1 ∧ w = (0, 0)
     | some q => (cfg p ref).recheck n.ref = q.1 ∧ 0 ≤ q.1 ∧ w = q.2) := by
  have h5 : p.frame ≠ 5 := by have := hp.frame; omega
  have hpf : p.frame ≠ 2 ↔ (p.frame = 1 ∨ p.frame = 4) := by have := hp.frame; omega
  change scaleNeighbor (cfg p ref) _ (recheck p ref n.ref) n = some w at hw
  show (match Spec.cand p bwd ref o with
     | none => recheck p ref n.ref = -1 ∧ w = (0, 0)
     | some q => recheck p ref n.ref = q.1 ∧ 0 ≤ q.1 ∧ w = q.2)
  have hn : n.ref = (if bwd then (o.getD noBlk).r2 else (o.getD noBlk).r1) ∧ (0 ≤ recheck p ref n.ref → (if bwd then (o.getD noBlk).v2 else (o.getD noBlk).v1) = some (n.x, n.y)) := by
    unfold nbVec at e
    dsimp only at e
    generalize (if bwd then (o.getD noBlk).r2 else (o.getD noBlk).r1) = r at e
    split at e
    · split at e
      · obtain ⟨v, hv, e⟩ := ok_bind e
        cases ok_pure e
        exact ⟨rfl, fun _ => known_ok hv⟩
      · obtain ⟨_, _, e⟩ := ok_bind e
        obtain ⟨v, hv, e⟩ := ok_bind e
        cases ok_pure e
        exact ⟨rfl, fun _ => known_ok hv⟩
    · cases ok_pure e
      rename_i h
      exact ⟨rfl, fun g => absurd g h⟩
  obtain ⟨h1, h2⟩ := hn
  cases o with
  | none =>
    have : n.ref = -1 := by rw [h1]; cases bwd <;> rfl
    have r : recheck p ref n.ref = -1 := by rw [this]; rfl
    rw [r] at hw
    unfold scaleNeighbor at hw
    rw [if_neg (by omega)] at hw
    unfold Spec.cand
    exact ⟨r, (Option.some.inj hw).symm⟩
  | some b =>
    have hb := blk_refs (ho b rfl)
    have lo : -1 ≤ n.ref := by rw [h1]; cases bwd; exacts [hb.1, hb.2]
    rw [Option.getD_some] at h1 h2
    unfold Spec.cand
    dsimp only
    rw [← h1]
    by_cases hc : n.ref < 0 ∨ ((p.bkgnd = true) ∧ p.frame ≠ 2 ∧ ¬ (ref = (p.refs.length : Int) - 1 ↔ n.ref = (p.refs.length : Int) - 1))
    · rw [if_pos hc]
      dsimp only
      have r : recheck p ref n.ref = -1 := by
        unfold recheck
        split
        · dsimp only
          rw [if_pos]
          rcases hc with hc | ⟨c1, c2, c3⟩
          · omega
          · exact ⟨by omega, hpf.mp c2, c1⟩
        · omega
      rw [r] at hw
      unfold scaleNeighbor at hw
      rw [if_neg (by omega)] at hw
      exact ⟨r, (Option.some.inj hw).symm⟩
    · rw [if_neg hc]
      dsimp only
      have r : recheck p ref n.ref = n.ref := by
        unfold recheck
        split
        · dsimp only
          rw [if_neg]
          rintro ⟨c1, c2, c3⟩
          exact hc (Or.inr ⟨c3, hpf.mpr c2, by omega⟩)
        · rfl
      have r0 : 0 ≤ n.ref := by omega
      refine ⟨r, r0, ?_⟩
      rw [r] at hw h2
      rw [h2 r0]
      unfold scaleNeighbor at hw
      rw [if_pos r0] at hw
      simp only [Option.bind_eq_bind, Option.bind_eq_some_iff, Option.some.injEq] at hw
      obtain ⟨y, hy, x, hx, rfl⟩ := hw
      unfold scaleMvY at hy
      rw [show (cfg p ref).field = false from hf, if_neg (by decide)] at hy
      have ex := scale_default hx
      have ey := scale_default hy
      rw [ex, ey]
      by_cases h2 : p.frame = 2
      · have : (cfg p ref).bSlice = true := by show decide _ = true; exact decide_eq_true h2
        simp only [this, h2, if_true]
        cases bwd <;> rfl
      · have : (cfg p ref).bSlice = false := by show decide _ = false; exact decide_eq_false h2
        simp only [this, h2, if_false]
        rfl

theorem combine_eq {pu : Nat} {ref : Int} (hr : 0 ≤ ref) (A B C : Option (Int × Vec)) (ha : match A with | none => True | some q => 0 ≤ q.1) (hb : match B with | none => True | some q => 0 ≤ q.1)
    (hc : match C with | none => True | some q => 0 ≤ q.1) :
    (match deriveMvPredType ref ((A.map Prod.fst).getD (-1)) ((B.map Prod.fst).getD (-1)) ((C.map Prod.fst).getD (-1)) pu with
     | .median => (Spec.middle ((A.map Prod.snd).getD (0, 0)).1 ((B.map Prod.snd).getD (0, 0)).1 ((C.map Prod.snd).getD (0, 0)).1,
        Spec.middle ((A.map Prod.snd).getD (0, 0)).2 ((B.map Prod.snd).getD (0, 0)).2 ((C.map Prod.snd).getD (0, 0)).2)
     | .left => (A.map Prod.snd).getD (0, 0)
     | .up => (B.map Prod.snd).getD (0, 0)
     | .upRight => (C.map Prod.snd).getD (0, 0)) = Spec.combine pu ref A B C := by
  have n1 : ¬ (-1 : Int) = ref := by omega
  unfold deriveMvPredType Spec.combine
  rcases A with _ | ⟨ra, va⟩ <;> rcases B with _ | ⟨rb, vb⟩ <;> rcases C with _ | ⟨rc, vc⟩ <;> dsimp only at ha hb hc
  all_goals try have a1 : ¬ ra = -1 := by omega
  all_goals try have b1 : ¬ rb = -1 := by omega
  all_goals try have c1 : ¬ rc = -1 := by omega
  all_goals by_cases p1 : pu = 1 ∨ pu = 4
  all_goals by_cases p2 : pu = 2
  all_goals by_cases p3 : pu = 3
  all_goals try omega
  all_goals try by_cases ea : ra = ref
  all_goals try by_cases eb : rb = ref
  all_goals try by_cases ec : rc = ref
  all_goals simp_all

/-- The prediction of the code is the one specified. -/
theorem mvp_predict {p : Pic} (hp : p.Ok) (hf : p.field = false) {F : St} (hF : ∀ X Y, X < p.w → Y < p.h → ∃ b, F.mot X Y = some b ∧ BlkOk p b) {s : Int} {x y bw : Nat} {bwd : Bool} {ref : Int} (hr : 0 ≤ ref) {pu : Nat}
    {v : Vec} (h : mvp p F s x y bw bwd ref pu = .ok v) : ∃ t, Qt.availTR p.lcu x y bw = some t ∧ v = Spec.predict p F s x y bw t bwd ref pu := by
  unfold mvp at h
  obtain ⟨t, e0, h⟩ := ok_bind h
  obtain ⟨l, e1, h⟩ := ok_bind h
  obtain ⟨u, e2, h⟩ := ok_bind h
  obtain ⟨tl, e3, h⟩ := ok_bind h
  obtain ⟨r, e4, h⟩ := ok_bind h
  obtain ⟨a, e5, h⟩ := ok_bind h
  obtain ⟨b, e6, h⟩ := ok_bind h
  obtain ⟨c, e7, h⟩ := ok_bind h
  dsimp only at h
  obtain ⟨d, -, h⟩ := ok_bind h
  have h := arith_ok h
  refine ⟨t, ?_, ?_⟩
  · unfold trAvail at e0
    cases ha : Qt.availTR p.lcu x y bw with
    | none => rw [ha] at e0; cases e0
    | some b => rw [ha] at e0; rw [ok_pure e0]
  have f1 := neighbor_ok e1
  have f2 := neighbor_ok e2
  have f3 := neighbor_ok e3
  have f4 : r = if t then Spec.visible p F s (x + bw) (y - 1) else none := by
    rw [neighbor_ok e4]
    cases t
    · exact visible_off
    · rfl
  have f5 : (if r.isSome then r else tl) = r.or tl := by cases r <;> rfl
  rw [f5] at e7
  have o1 : ∀ b, l = some b → BlkOk p b := fun b h => visible_blk hF (f1.symm.trans h)
  have o2 : ∀ b, u = some b → BlkOk p b := fun b h => visible_blk hF (f2.symm.trans h)
  have o3 : ∀ b, r.or tl = some b → BlkOk p b := by
    intro b h
    cases hr : r with
    | some b' =>
      rw [hr] at h
      cases h
      rw [f4] at hr
      split at hr
      · exact visible_blk hF hr
      · cases hr
    | none => rw [hr] at h; exact visible_blk hF (f3.symm.trans h)
  obtain ⟨va, vb, vc, ha, hb, hc, -⟩ := C35_predictor h
  have c1 := nb_cand hp hf o1 e5 ha
  have c2 := nb_cand hp hf o2 e6 hb
  have c3 := nb_cand hp hf o3 e7 hc
  obtain ⟨i1, i2⟩ := scaleNeighbor_isMv ha
  obtain ⟨i3, i4⟩ := scaleNeighbor_isMv hb
  obtain ⟨i5, i6⟩ := scaleNeighbor_isMv hc
  unfold getMvp at h
  simp only [ha, hb, hc, Option.bind_eq_bind, Option.bind_some] at h
  have m1 := median_middle i1 i3 i5
  have m2 := median_middle i2 i4 i6
  unfold Spec.predict
  dsimp only
  rw [← f4, ← f1, ← f2, ← f3]
  generalize Spec.cand p bwd ref l = A at c1 ⊢
  generalize Spec.cand p bwd ref u = B at c2 ⊢
  generalize Spec.cand p bwd ref (r.or tl) = C at c3 ⊢
  generalize (cfg p ref).recheck a.ref = ra at h c1
  generalize (cfg p ref).recheck b.ref = rb at h c2
  generalize (cfg p ref).recheck c.ref = rc at h c3
  rw [m1, m2] at h
  clear m1 m2 i1 i2 i3 i4 i5 i6 ha hb hc o1 o2 o3 e0 e1 e2 e3 e4 e5 e6 e7 f1 f2 f3 f4 f5
  have := combine_eq (pu := pu) hr A B C (by cases A; exacts [trivial, c1.2.1]) (by cases B; exacts [trivial, c2.2.1]) (by cases C; exacts [trivial, c3.2.1])
  rw [← this]
  have q1 : ra = (A.map Prod.fst).getD (-1) ∧ va = (A.map Prod.snd).getD (0, 0) := by cases A; exacts [c1, ⟨c1.1, c1.2.2⟩]
  have q2 : rb = (B.map Prod.fst).getD (-1) ∧ vb = (B.map Prod.snd).getD (0, 0) := by cases B; exacts [c2, ⟨c2.1, c2.2.2⟩]
  have q3 : rc = (C.map Prod.fst).getD (-1) ∧ vc = (C.map Prod.snd).getD (0, 0) := by cases C; exacts [c3, ⟨c3.1, c3.2.2⟩]
  rw [← q1.1, ← q1.2, ← q2.1, ← q2.2, ← q3.1, ← q3.2]
  cases ht : deriveMvPredType ref ra rb rc pu <;> rw [ht] at h <;> exact (Option.some.inj h).symm

end Davs2.Mo
