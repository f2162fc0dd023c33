import Verif.Lemmas.MotionExplicit
import Verif.Props.MotionRules
/-
C94: vectors of coding units that are not skipped.
-/
namespace Davs2.Mo
open Davs2.Un Davs2.Qt Davs2.Spec

theorem part_table : ∀ k ∈ [0, 1, 2, 3], ∀ m ∈ [1, 2, 3, 4, 5, 6, 7], (3 < m → 0 < k) → ∀ q ∈ (puUnits 0 0 m (3 + k)).zipIdx, puType q.1 = Spec.part m q.2 := by
  decide +kernel

theorem part_eq {frame ds mode level : Nat} (h1 : 1 ≤ mode) (h7 : mode ≤ 7) (ht : TypeAt mode level) (h3 : 3 ≤ level) (h6 : level ≤ 6) {q : Cb × Nat} (hq : q ∈ (puUnits frame ds mode level).zipIdx) :
    puType q.1 = Spec.part mode q.2 := by
  obtain ⟨k, rfl⟩ := Nat.exists_eq_add_of_le h3
  have e : puUnits frame ds mode (3 + k) = puUnits 0 0 mode (3 + k) := by
    unfold puUnits
    rw [if_neg (by omega), if_neg (by omega)]
  rw [e] at hq
  exact part_table k (by simp; omega) mode (by simp; omega) (fun h => by have := ht.1; omega) q hq

theorem explicit_eq (pm : Bool) (mvd pred : Vec) : pmvrMvDerivation pm mvd pred = Spec.explicit pm mvd pred := by
  rw [(C34_pmvr pm mvd pred).1]
  unfold Spec.explicit
  cases pm <;> rfl

theorem fwdVec_val {p : Pic} (h5 : p.frame ≠ 5) {F : St} {s : Int} {cx cy : Nat} {sy : Sym} {u : Cb} {i : Nat} {v : Vec × Option Vec} (e : fwdVec p F s cx cy sy u i = .ok v) :
    (∃ pr, mvp p F s (cx + u.x / 4) (cy + u.y / 4) (u.w / 4) false (sy.refs.getD i (-1, -1)).1 (puType u) = .ok pr ∧ v.1 = Spec.explicit p.pmvr (sy.mvd1 i) pr) ∧
    (p.frame ≠ 2 → sy.dirs.getD i (-1) ≠ 4 → v.2 = some (0, 0)) ∧
    (p.frame ≠ 2 → sy.dirs.getD i (-1) = 4 → ∃ v2, v.2 = some v2 ∧
      skipScale p v.1 (p.dist (if (sy.refs.getD i (-1, -1)).1 = 0 then 1 else 0 : Int).toNat) (p.dist (sy.refs.getD i (-1, -1)).1.toNat) = .ok v2) := by
  unfold fwdVec at e
  dsimp only at e
  obtain ⟨pr, e1, e⟩ := ok_bind e
  rw [if_neg h5, explicit_eq] at e
  refine ⟨⟨pr, e1, ?_⟩, ?_⟩
  · split at e
    · cases ok_pure e; rfl
    · split at e
      · obtain ⟨_, _, e⟩ := ok_bind e
        obtain ⟨_, _, e⟩ := ok_bind e
        obtain ⟨_, _, e⟩ := ok_bind e
        cases ok_pure e; rfl
      · cases ok_pure e; rfl
  · by_cases h2 : p.frame = 2
    · exact ⟨fun h => absurd h2 h, fun h => absurd h2 h⟩
    · rw [if_neg h2] at e
      split at e
      · rename_i h4
        obtain ⟨d1, g1, e⟩ := ok_bind e
        obtain ⟨d2, g2, e⟩ := ok_bind e
        obtain ⟨v2, g3, e⟩ := ok_bind e
        rw [distAt_ok g1, distAt_ok g2] at g3
        cases ok_pure e
        exact ⟨fun _ h => absurd h4 h, fun _ _ => ⟨v2, rfl, g3⟩⟩
      · rename_i h4
        cases ok_pure e
        exact ⟨fun _ _ => rfl, fun _ h => absurd h h4⟩

theorem bwdVec_val {p : Pic} {F : St} {s : Int} {cx cy : Nat} {sy : Sym} {u : Cb} {i : Nat} {v : Vec} (e : bwdVec p F s cx cy sy u i = .ok v) :
    (sy.dirs.getD i (-1) ≠ 2 → ∃ pr, mvp p F s (cx + u.x / 4) (cy + u.y / 4) (u.w / 4) true (sy.refs.getD i (-1, -1)).2 (puType u) = .ok pr ∧ v = Spec.explicit p.pmvr (sy.mvd2 i) pr) ∧
    (sy.dirs.getD i (-1) = 2 → ∃ v1 w, (F.mot (cx + u.x / 4) (cy + u.y / 4)).bind (·.v1) = some v1 ∧ skipScale p v1 (p.dist 0) (p.dist 1) = .ok w ∧ v = negVec w) := by
  unfold bwdVec at e
  dsimp only at e
  obtain ⟨pr, e1, e⟩ := ok_bind e
  split at e
  · rename_i h
    obtain ⟨v1, g1, e⟩ := ok_bind e
    obtain ⟨d0, g2, e⟩ := ok_bind e
    obtain ⟨d1, g3, e⟩ := ok_bind e
    obtain ⟨w, g4, e⟩ := ok_bind e
    rw [distAt_ok g2, distAt_ok g3] at g4
    exact ⟨fun g => absurd h g, fun _ => ⟨v1, w, known_ok g1, g4, (ok_pure e).symm⟩⟩
  · rename_i h
    rw [explicit_eq] at e
    exact ⟨fun _ => ⟨pr, e1, (ok_pure e).symm⟩, fun g => absurd g h⟩

/-- What C94 states about a block `b` of a unit with direction `d`, references `r` and vector differences `m1`, `m2`; `pred` is the prediction from the finished picture. -/
structure Explicit (p : Pic) (pred : Bool → Int → Vec) (d : Int) (r : Int × Int) (m1 m2 : Vec) (b : Blk) : Prop where
  dir : b.dir = d
  refs : (b.r1, b.r2) = r
  /-- The vector to the first reference: prediction and difference. -/
  first : d ≠ 1 → b.v1 = some (Spec.explicit p.pmvr m1 (pred false r.1))
  /-- P and F pictures: without a second reference its vector is zero; with one it is the first vector continued to that reference. -/
  single : p.frame ≠ 2 → d ≠ 4 → b.v2 = some (0, 0)
  dual : p.frame ≠ 2 → d = 4 → ∃ v1 v2, b.v1 = some v1 ∧ b.v2 = some v2 ∧ Spec.Cont v1.1 v2.1 (p.dist r.2.toNat) (p.dist r.1.toNat) ∧ Spec.Cont v1.2 v2.2 (p.dist r.2.toNat) (p.dist r.1.toNat)
  /-- B pictures, backward and bidirectional: prediction and difference of its own. -/
  second : p.frame = 2 → d = 1 ∨ d = 3 → b.v2 = some (Spec.explicit p.pmvr m2 (pred true r.2))
  /-- B pictures, symmetric: the first vector continued to the backward reference and mirrored. -/
  sym : p.frame = 2 → d = 2 → ∃ v1 w v2 : Vec, b.v1 = some v1 ∧ b.v2 = some v2 ∧ Spec.Cont v1.1 w.1 (p.dist 0) (p.dist 1) ∧ Spec.Cont v1.2 w.2 (p.dist 0) (p.dist 1) ∧
    Spec.Stored v2.1 (-w.1) ∧ Spec.Stored v2.2 (-w.2)

/-- **C94.**  In a finished frame picture, every block of a prediction unit that is not skipped has the direction and references of the syntax, and vectors that are the sum of the difference
in the stream and the prediction, computed from the blocks around the unit in the finished picture; derived vectors are the first one continued to the other reference. -/
theorem C94_explicit (p : Pic) (hp : p.Ok) (hf : p.field = false) (sy : Syn) (hd : ∀ l ∈ lcus p, ∀ c ∈ tree p sy l, Delivered p c.l (sy.sym c)) (slice : Nat → Nat → Int) (cu : Nat → Nat → CuRec)
    (F : St) (hF : picMotion p sy slice cu = .ok F) (l : Nat × Nat) (lm : l ∈ lcus p) (c : Cu) (cm : c ∈ tree p sy l) (h1 : 1 ≤ (sy.sym c).mode) (h7 : (sy.sym c).mode ≤ 7)
    (u : Cb) (i : Nat) (hu : (puUnits p.frame (sy.sym c).ds (sy.sym c).mode c.l)[i]? = some u) :
    ∃ d r t, (sy.sym c).dirs[i]? = some d ∧ (sy.sym c).refs[i]? = some r ∧ Qt.availTR p.lcu (c.x / 4 + u.x / 4) (c.y / 4 + u.y / 4) (u.w / 4) = some t ∧
      ∀ X Y, c.x / 4 + u.x / 4 ≤ X → X < c.x / 4 + u.x / 4 + u.w / 4 → c.y / 4 + u.y / 4 ≤ Y → Y < c.y / 4 + u.y / 4 + u.h / 4 →
        ∃ b, F.mot X Y = some b ∧
          Explicit p (fun bwd ref => Spec.predict p F (sy.slice l.1 l.2) (c.x / 4 + u.x / 4) (c.y / 4 + u.y / 4) (u.w / 4) t bwd ref (Spec.part (sy.sym c).mode i)) d r ((sy.sym c).mvd1 i) ((sy.sym c).mvd2 i) b := by
  obtain ⟨r, hr, er⟩ := again_units hp hd hF lm cm
  have D := hd l lm c cm
  have fc := tree_fit hp lm cm
  have h6 : c.l ≤ 6 := by have := fc.hi; have := hp.lcu; omega
  have all := C85_partial p hp sy hd slice cu
  rw [hF] at all
  have all := all.1
  have ho := units_ok (frame := p.frame) (ds := (sy.sym c).ds) D.mode D.type fc.lo h6
  have hn : (puUnits p.frame (sy.sym c).ds (sy.sym c).mode c.l).length = numUnits (sy.sym c).mode := (pair_ok h1 h7 D.type fc.lo h6).1
  have hq : (u, i) ∈ (puUnits p.frame (sy.sym c).ds (sy.sym c).mode c.l).zipIdx := List.mem_zipIdx_iff_getElem?.mpr hu
  have hi : i < numUnits (sy.sym c).mode := hn ▸ (zip_mem hq).2.1
  have hpu : puType u = Spec.part (sy.sym c).mode i := part_eq h1 h7 D.type fc.lo h6 hq
  unfold cuUnits at hr
  rw [if_neg (by omega), if_neg (by omega)] at hr
  obtain ⟨st1, e1, hr⟩ := ok_bind hr
  obtain ⟨st2, e2, hr⟩ := ok_bind hr
  cases ok_pure hr
  change st2.mot = F.mot at er
  have dis := zip_disj ho (c.x / 4) (c.y / 4)
  have st0 : ∀ X Y, ∀ q ∈ (puUnits p.frame (sy.sym c).ds (sy.sym c).mode c.l).zipIdx, InU (c.x / 4) (c.y / 4) q.1 X Y →
      storeUnits (c.x / 4) (c.y / 4) (fun i _ => ⟨(sy.sym c).dirs.getD i (-1), ((sy.sym c).refs.getD i (-1, -1)).1, ((sy.sym c).refs.getD i (-1, -1)).2, none, none⟩) (erase c F).mot
        (puUnits p.frame (sy.sym c).ds (sy.sym c).mode c.l).zipIdx X Y = some ⟨(sy.sym c).dirs.getD q.2 (-1), ((sy.sym c).refs.getD q.2 (-1, -1)).1, ((sy.sym c).refs.getD q.2 (-1, -1)).2, none, none⟩ := by
    intro X Y q hq hX
    obtain ⟨o, h⟩ := storeUnits_in (cx := c.x / 4) (cy := c.y / 4) (val := fun i _ => ⟨(sy.sym c).dirs.getD i (-1), ((sy.sym c).refs.getD i (-1, -1)).1, ((sy.sym c).refs.getD i (-1, -1)).2, none, none⟩) _ (erase c F).mot (dis X Y) q hq hX
    exact h
  obtain ⟨f1, f2, f3⟩ := forward_val _ _ st1 (fun q hq X Y hX => ⟨_, st0 X Y q hq hX, rfl⟩) dis e1
  have slice1 : st1.slice = F.slice := f2.slice
  have h5 : p.frame ≠ 5 := by have := hp.frame; omega
  have tr : ∃ t, Qt.availTR p.lcu (c.x / 4 + u.x / 4) (c.y / 4 + u.y / 4) (u.w / 4) = some t := by
    have hw : 8 ∣ 4 * p.w := by obtain ⟨k, hk⟩ := hp.w; exact ⟨k, by omega⟩
    have hh : 8 ∣ 4 * p.h := by obtain ⟨k, hk⟩ := hp.h; exact ⟨k, by omega⟩
    obtain ⟨l1, l2⟩ := (mem_lcus p l).mp lm
    have x4 : 4 ∣ c.x := Dvd.dvd.trans ⟨2 ^ (c.l - 2), by rw [show 4 = 2 ^ 2 by rfl, ← Nat.pow_add]; congr 1; have := fc.lo; omega⟩ fc.dx
    have n4 := Nat.div_mul_le_self (2 ^ c.l) 4
    have := ho.2.1 u (zip_mem hq).1
    exact tr_some hw hh hp.lcu.1 hp.lcu.2 sy.split l1 l2 c cm _ _ _ this.1 (by omega) (by omega)
  obtain ⟨t, ht⟩ := tr
  have pred : ∀ {bwd : Bool} {ref : Int} {v : Vec}, 0 ≤ ref → mvp p F (sy.slice l.1 l.2) (c.x / 4 + u.x / 4) (c.y / 4 + u.y / 4) (u.w / 4) bwd ref (puType u) = .ok v →
      v = Spec.predict p F (sy.slice l.1 l.2) (c.x / 4 + u.x / 4) (c.y / 4 + u.y / 4) (u.w / 4) t bwd ref (Spec.part (sy.sym c).mode i) := by
    intro bwd ref v h0 h
    obtain ⟨t', h2, h3⟩ := mvp_predict hp hf all h0 h
    rw [ht] at h2
    cases h2
    rw [← hpu]
    exact h3
  have at0 := fun X Y => st0 X Y (u, i) hq
  dsimp only at at0
  by_cases hB : p.frame = 2
  · rw [if_pos hB] at e2
    obtain ⟨d, r, d1, d2, d3, d4, d5⟩ := D.interB h1 h7 hB i hi
    refine ⟨d, r, t, d1, d2, ht, ?_⟩
    have gd : (sy.sym c).dirs.getD i (-1) = d := by rw [List.getD_eq_getElem?_getD, d1]; rfl
    have gr : (sy.sym c).refs.getD i (-1, -1) = r := by rw [List.getD_eq_getElem?_getD, d2]; rfl
    have blank : Blank true (c.x / 4) (c.y / 4) (puUnits p.frame (sy.sym c).ds (sy.sym c).mode c.l).zipIdx st1 := by
      intro q hq X Y hX
      obtain ⟨g1, g2⟩ := f3 st1 ⟨rfl, fun _ _ => Le.refl _⟩ q hq
      by_cases hd1 : (sy.sym c).dirs.getD q.2 (-1) = 1
      · exact ⟨_, (g1 hd1 X Y hX).trans (st0 X Y q hq hX), rfl⟩
      · obtain ⟨v, -, g3⟩ := g2 hd1
        obtain ⟨b, g4, g5⟩ := g3 X Y hX
        have := (st0 X Y q hq hX).symm.trans g4
        cases this
        exact ⟨_, g5, by show (if p.frame = 2 then _ else _) = _; rw [if_pos hB]⟩
    obtain ⟨b1, b2, b3, b4⟩ := backward_val _ _ st2 blank dis e2
    have L : ∀ bwd, Later bwd st2 F := fun bwd => ⟨slice1.symm.trans b3.slice.symm, fun X Y => er ▸ Le.refl _⟩
    obtain ⟨g1, g2⟩ := f3 F (b3.trans (L false)) (u, i) hq
    obtain ⟨k1, k2⟩ := b4 (u, i) hq
    dsimp only at g1 g2 k1 k2
    rw [gd] at g1 g2 k1 k2
    -- the state after the forward vectors
    have mid : ∀ X Y, InU (c.x / 4) (c.y / 4) u X Y → ∃ o1, st1.mot X Y = some ⟨d, r.1, r.2, o1, none⟩ ∧
        (d ≠ 1 → o1 = some (Spec.explicit p.pmvr ((sy.sym c).mvd1 i) (Spec.predict p F (sy.slice l.1 l.2) (c.x / 4 + u.x / 4) (c.y / 4 + u.y / 4) (u.w / 4) t false r.1 (Spec.part (sy.sym c).mode i)))) := by
      intro X Y hX
      have a0 := at0 X Y hX
      rw [gd, gr] at a0
      by_cases hd1 : d = 1
      · exact ⟨none, (g1 hd1 X Y hX).trans a0, fun h => absurd hd1 h⟩
      · obtain ⟨v, q1, q2⟩ := g2 hd1
        obtain ⟨b, q3, q4⟩ := q2 X Y hX
        have := a0.symm.trans q3
        cases this
        obtain ⟨⟨pr, w1, w2⟩, -⟩ := fwdVec_val h5 q1
        rw [gr] at w1
        have r0 : 0 ≤ r.1 := by rw [d5.1, if_neg hd1]; omega
        refine ⟨some v.1, q4.trans (by rw [if_pos hB]), fun _ => ?_⟩
        rw [w2, pred r0 w1]
    intro X Y x1 x2 x3 x4
    have hX : InU (c.x / 4) (c.y / 4) u X Y := ⟨x1, x2, x3, x4⟩
    obtain ⟨o1, m1, m2⟩ := mid X Y hX
    by_cases hd0 : d = 0
    · refine ⟨_, (by rw [← er]; exact (k1 hd0 X Y hX).trans m1), ⟨rfl, rfl, m2, fun h => absurd hB h, fun h => absurd hB h, fun _ h => by omega, fun _ h => by omega⟩⟩
    · obtain ⟨v, q1, q2⟩ := k2 hd0
      obtain ⟨b, q3, q4⟩ := q2 X Y hX
      have := m1.symm.trans q3
      cases this
      obtain ⟨w1, w2⟩ := bwdVec_val (bwdVec_later (L true) (L false) q1)
      rw [gd, gr] at w1
      rw [gd] at w2
      have r0 : 0 ≤ r.2 := by rw [d5.2, if_neg hd0]
      refine ⟨_, (by rw [← er]; exact q4), ⟨rfl, rfl, m2, fun h => absurd hB h, fun h => absurd hB h, fun _ h => ?_, fun _ h => ?_⟩⟩
      · obtain ⟨pr, w3, w4⟩ := w1 (by omega)
        dsimp only
        rw [w4, pred r0 w3]
      · obtain ⟨v1, w, w3, w4, w5⟩ := w2 h
        have cor : InU (c.x / 4) (c.y / 4) u (c.x / 4 + u.x / 4) (c.y / 4 + u.y / 4) := by
          have := ho.2.1 u (zip_mem hq).1
          unfold InU
          omega
        obtain ⟨o2, m3, m4⟩ := mid _ _ cor
        obtain ⟨b', q5, q6⟩ := q2 _ _ cor
        have := m3.symm.trans q5
        cases this
        rw [← er, q6] at w3
        have : o1 = some v1 := by rw [m2 (by omega), ← m4 (by omega)]; exact w3
        have sk := skipScale_ok w4
        refine ⟨v1, w, v, this, rfl, sk.1, sk.2 hf, ?_, ?_⟩
        · rw [w5]; exact stored_int16 _
        · rw [w5]; exact stored_int16 _
  · rw [if_neg hB] at e2
    cases ok_pure e2
    obtain ⟨d, r, d1, d2, d3, d4⟩ := D.interPF h1 h7 hB i hi
    refine ⟨d, r, t, d1, d2, ht, ?_⟩
    have gd : (sy.sym c).dirs.getD i (-1) = d := by rw [List.getD_eq_getElem?_getD, d1]; rfl
    have gr : (sy.sym c).refs.getD i (-1, -1) = r := by rw [List.getD_eq_getElem?_getD, d2]; rfl
    obtain ⟨g1, g2⟩ := f3 F ⟨slice1.symm, fun X Y => er ▸ Le.refl _⟩ (u, i) hq
    dsimp only at g2
    rw [gd] at g2
    obtain ⟨v, q1, q2⟩ := g2 (by omega)
    obtain ⟨⟨pr, w1, w2⟩, w3, w4⟩ := fwdVec_val h5 q1
    rw [gr] at w1
    rw [gd] at w3
    rw [gd, gr] at w4
    intro X Y x1 x2 x3 x4
    have hX : InU (c.x / 4) (c.y / 4) u X Y := ⟨x1, x2, x3, x4⟩
    obtain ⟨b, q3, q4⟩ := q2 X Y hX
    have a0 := at0 X Y hX
    rw [gd, gr] at a0
    have := a0.symm.trans q3
    cases this
    rw [if_neg hB] at q4
    refine ⟨_, (by rw [← er]; exact q4), ⟨rfl, rfl, fun _ => ?_, fun _ h => w3 hB h, fun _ h => ?_, fun h => absurd h hB, fun h => absurd h hB⟩⟩
    · dsimp only
      rw [w2, pred d4.1.1 w1]
    · obtain ⟨v2, w5, w6⟩ := w4 hB h
      have d6 := d4.2
      rw [if_pos h] at d6
      rw [← d6.2.2] at w6
      have sk := skipScale_ok w6
      exact ⟨v.1, v2, rfl, w5, sk.1, sk.2 hf⟩

/-- Four units of 8x8 in a B picture, each with two vectors. -/
def symE (c : Qt.Cu) : Sym :=
  ⟨1, 0, 0, 0, [3, 3, 3, 3], [(1, 0), (1, 0), (1, 0), (1, 0)], fun _ => if c.x = 0 then (if c.y = 0 then (8, 4) else (12, -4)) else (if c.y = 0 then (-4, 8) else (2, 2)), fun _ => (4, -4)⟩

theorem symE_delivered (p : Pic) (h : p.frame = 2) (c : Qt.Cu) : Delivered p c.l (symE c) := by
  unfold symE
  refine ⟨by dsimp only; omega, ⟨fun h => by dsimp only at h; omega, fun h => by dsimp only at h; omega, fun h => by dsimp only at h; omega⟩, by dsimp only; omega, by dsimp only; omega, fun _ => rfl, fun h => by dsimp only at h; omega, fun h => by dsimp only at h; omega, ?_, ?_⟩
  · intro _ _ _ i hi
    have : i = 0 := by have : numUnits 1 = 1 := rfl; dsimp only at hi; omega
    subst this
    exact ⟨3, (1, 0), rfl, rfl, by decide, by decide, by unfold Sx.BRefOk; decide⟩
  · intro _ _ g
    exact absurd h g

/-- The last of the four units: its neighbours to the left and above have (18, -2) and (4, 12), that at the corner (8, 4); the last two are closest, so that their mean (6, 8) is the prediction, and
the vector is (8, 10). -/
example : (pic16 2 [iSaved, iSaved]).Ok ∧ (∀ c : Cu, Delivered (pic16 2 [iSaved, iSaved]) c.l (symE c)) ∧ ⟨8, 8, 3⟩ ∈ tree (pic16 2 [iSaved, iSaved]) (syn16 true symE) (0, 0) ∧
    (match picMotion (pic16 2 [iSaved, iSaved]) (syn16 true symE) (fun _ _ => 0) rec0 with
      | .ok F => some ([F.mot 0 0, F.mot 2 0, F.mot 0 2, F.mot 3 3], Spec.predict (pic16 2 [iSaved, iSaved]) F 0 2 2 2 false false 1 (Spec.part 1 0), Spec.predict (pic16 2 [iSaved, iSaved]) F 0 2 2 2 false true 0 (Spec.part 1 0))
      | .error _ => none) = some ([some ⟨3, 1, 0, some (8, 4), some (4, -4)⟩, some ⟨3, 1, 0, some (4, 12), some (8, -8)⟩, some ⟨3, 1, 0, some (18, -2), some (6, -6)⟩, some ⟨3, 1, 0, some (8, 10), some (11, -11)⟩], (6, 8), (7, -7)) := by
  refine ⟨pic16_ok _ _ (by decide) (by decide) (by decide) (by decide) ?_, fun c => symE_delivered _ rfl _, by decide +kernel, ?_⟩
  · intro f hf
    rw [List.mem_cons, List.mem_singleton, or_self] at hf
    subst hf
    exact iSaved_ok
  · decide +kernel

end Davs2.Mo
