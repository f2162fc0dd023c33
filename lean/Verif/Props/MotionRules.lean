import Verif.Lemmas.MotionRules
import Verif.Props.SkipModes
import Verif.Props.Motion
import Verif.Props.Mv
/-
C92: the motion of a finished picture is consistent; skipped coding units take their motion from the neighbours as specified.
C93: skipped coding units with temporal motion.
-/
namespace Davs2.Mo
open Davs2.Un Davs2.Qt Davs2.Spec

/-! ### C92 -/

/-- **C92.**  In a finished picture, forget the motion of one coding unit and derive it again, with everything else known, also what is decoded later: the result is the same picture.  So the motion does not
depend on the order in which the units are decoded, only on which blocks are decoded earlier. -/
theorem C92_again (p : Pic) (hp : p.Ok) (sy : Syn) (hd : ∀ l ∈ lcus p, ∀ c ∈ tree p sy l, Delivered p c.l (sy.sym c)) (slice : Nat → Nat → Int) (cu : Nat → Nat → CuRec) (F : St)
    (hF : picMotion p sy slice cu = .ok F) (l : Nat × Nat) (lm : l ∈ lcus p) (c : Cu) (cm : c ∈ tree p sy l) :
    cuMotion p { F with mot := fun X Y => if c.x / 4 ≤ X ∧ X < c.x / 4 + 2 ^ c.l / 4 ∧ c.y / 4 ≤ Y ∧ Y < c.y / 4 + 2 ^ c.l / 4 then none else F.mot X Y } c (sy.sym c) = .ok F :=
  (again hp hd hF lm cm).1

theorem skip_ns {p : Pic} (hp : p.Ok) {sy : Syn} {F : St} {l : Nat × Nat} (lm : l ∈ lcus p) {c : Cu} (cm : c ∈ tree p sy l) {s : Int} :
    neighbors p (erase c F) s (c.x / 4) (c.y / 4) (2 ^ c.l / 4) = neighbors p F s (c.x / 4) (c.y / 4) (2 ^ c.l / 4) := by
  have e := tree_env hp lm cm
  have en := e.pos
  exact neighbors_eq erase_sim en e.around (fun _ => e.top _ _ (by omega) (by omega)) fun _ => e.left _ _ (by omega) (by omega)

/-- A spatial skip mode: each block has the motion computed from the neighbours. -/
theorem skip_const {p : Pic} (hp : p.Ok) {c : Cu} {s : Sym} (h3 : 3 ≤ c.l) (h6 : c.l ≤ 6) (hd : Delivered p c.l s) {dir : Option Int} {m : Mv} {a : St} {r : St × List (Mv × Nat)}
    (h : skipUnits (c.x / 4) (c.y / 4) dir (fun _ _ _ => pure m) a (puUnits p.frame s.ds s.mode c.l).zipIdx = .ok r) :
    ∀ X Y, Cu.InB c X Y → ∃ d, r.1.mot X Y = some ⟨dir.getD d, m.r1, m.r2, m.v1, m.v2⟩ := by
  have ho := units_ok (frame := p.frame) (ds := s.ds) hd.mode hd.type h3 h6
  obtain ⟨-, v⟩ := skipUnits_val (C := Cu.InB c) (fun _ _ _ _ => rfl) _ _ r ⟨rfl, rfl, fun _ _ _ => rfl⟩ (fun q hq X Y hX => by
    by_contra hn
    exact out_unit ho hn q hq hX) (zip_disj ho _ _) h
  intro X Y hX
  obtain ⟨q, hq, hq'⟩ := in_unit ho hX
  obtain ⟨m', e, hm⟩ := v q hq
  cases ok_pure e
  exact hm X Y hq'

/-- **C92, B pictures.**  A coding unit skipped with a spatial mode: all its blocks have the direction and the references of the mode and the vectors that the rules of the mode (`Spec.bSkip`) take from
the neighbours in the finished picture that are in the picture and in the slice; the top right one counts if it has been decoded before. -/
theorem C92_b_spatial (p : Pic) (hp : p.Ok) (hB : p.frame = 2) (sy : Syn) (hd : ∀ l ∈ lcus p, ∀ c ∈ tree p sy l, Delivered p c.l (sy.sym c)) (slice : Nat → Nat → Int) (cu : Nat → Nat → CuRec)
    (F : St) (hF : picMotion p sy slice cu = .ok F) (l : Nat × Nat) (lm : l ∈ lcus p) (c : Cu) (cm : c ∈ tree p sy l) (hskip : (sy.sym c).mode = 0) (hds : (sy.sym c).ds ≠ 0) :
    ∃ t : Bool, (0 < c.y / 4 → c.x / 4 + 2 ^ c.l / 4 < p.w → (t = true ↔ Spec.Decoded p sy c (c.x / 4 + 2 ^ c.l / 4) (c.y / 4 - 1))) ∧
      ∀ X Y, c.x / 4 ≤ X → X < c.x / 4 + 2 ^ c.l / 4 → c.y / 4 ≤ Y → Y < c.y / 4 + 2 ^ c.l / 4 →
        ∃ b, F.mot X Y = some b ∧ b.dir = Spec.bDir (sy.sym c).ds ∧ (b.r1, b.r2) = Spec.bRefs b.dir ∧
          (b.v1, b.v2) = Spec.bSkip (Spec.scan p F (sy.slice l.1 l.2) (c.x / 4) (c.y / 4) (2 ^ c.l / 4) t) (sy.sym c).ds := by
  obtain ⟨r, hr, er⟩ := again_units hp hd hF lm cm
  have D := hd l lm c cm
  have fc := tree_fit hp lm cm
  have h6 : c.l ≤ 6 := by have := fc.hi; have := hp.lcu; omega
  unfold cuUnits at hr
  rw [if_neg (by omega), if_pos hskip] at hr
  obtain ⟨ns, hn, hr⟩ := ok_bind hr
  rw [skip_ns hp lm cm] at hn
  obtain ⟨t, ht, hrev⟩ := neighbors_ok hn
  refine ⟨t, fun hy hx => tr_decoded hp lm cm ht hy hx, ?_⟩
  rw [if_pos hB, if_pos hds] at hr
  have v := skip_const hp fc.lo h6 D hr
  have ds4 := D.ds
  intro X Y h1 h2 h3 h4
  obtain ⟨d, hm⟩ := v X Y ⟨h1, h2, h3, h4⟩
  rw [er] at hm
  refine ⟨_, hm, ?_, ?_, ?_⟩
  · rw [D.skipB hskip hB]
    generalize (sy.sym c).ds = ds at *
    obtain rfl | rfl | rfl | rfl : ds = 1 ∨ ds = 2 ∨ ds = 3 ∨ ds = 4 := by omega
    all_goals rfl
  · rw [D.skipB hskip hB]
    generalize (sy.sym c).ds = ds at *
    obtain rfl | rfl | rfl | rfl : ds = 1 ∨ ds = 2 ∨ ds = 3 ∨ ds = 4 := by omega
    all_goals rfl
  · unfold Spec.scan
    rw [← bSkip_present, ← hrev, ← C91_b_candidates ns _ (by omega), ← C91_b_closed ns _ (by omega)]
    rfl

/-- **C92, F pictures.**  The same for the spatial skip modes of F pictures: references and vectors. -/
theorem C92_f_spatial (p : Pic) (hp : p.Ok) (hB : p.frame ≠ 2) (sy : Syn) (hd : ∀ l ∈ lcus p, ∀ c ∈ tree p sy l, Delivered p c.l (sy.sym c)) (slice : Nat → Nat → Int) (cu : Nat → Nat → CuRec)
    (F : St) (hF : picMotion p sy slice cu = .ok F) (l : Nat × Nat) (lm : l ∈ lcus p) (c : Cu) (cm : c ∈ tree p sy l) (hskip : (sy.sym c).mode = 0) (hds : (sy.sym c).ds ≠ 0) :
    ∃ t : Bool, (0 < c.y / 4 → c.x / 4 + 2 ^ c.l / 4 < p.w → (t = true ↔ Spec.Decoded p sy c (c.x / 4 + 2 ^ c.l / 4) (c.y / 4 - 1))) ∧
      ∀ X Y, c.x / 4 ≤ X → X < c.x / 4 + 2 ^ c.l / 4 → c.y / 4 ≤ Y → Y < c.y / 4 + 2 ^ c.l / 4 →
        ∃ b, F.mot X Y = some b ∧
          (b.r1, b.r2, b.v1, b.v2) = Spec.fSkip (Spec.scan p F (sy.slice l.1 l.2) (c.x / 4) (c.y / 4) (2 ^ c.l / 4) t) (sy.sym c).ds := by
  obtain ⟨r, hr, er⟩ := again_units hp hd hF lm cm
  have D := hd l lm c cm
  have fc := tree_fit hp lm cm
  have h6 : c.l ≤ 6 := by have := fc.hi; have := hp.lcu; omega
  unfold cuUnits at hr
  rw [if_neg (by omega), if_pos hskip] at hr
  obtain ⟨ns, hn, hr⟩ := ok_bind hr
  rw [skip_ns hp lm cm] at hn
  obtain ⟨t, ht, hrev⟩ := neighbors_ok hn
  refine ⟨t, fun hy hx => tr_decoded hp lm cm ht hy hx, ?_⟩
  rw [if_neg hB, if_pos (by have := hp.frame; omega), if_neg hds] at hr
  have v := skip_const hp fc.lo h6 D hr
  have ds4 := D.ds
  intro X Y h1 h2 h3 h4
  obtain ⟨d, hm⟩ := v X Y ⟨h1, h2, h3, h4⟩
  rw [er] at hm
  refine ⟨_, hm, ?_⟩
  unfold Spec.scan
  rw [← fSkip_present, ← hrev, ← C91_f_candidates ns _ (by omega), ← C91_f_closed ns _ (by omega)]

/-! ### C93 -/

/-- **C93, P and F pictures.**  A coding unit skipped without spatial mode has reference 0 and takes, for each quarter (the whole unit if it has 8x8 samples), the vector of the block of reference
picture 0 at the corner of the quarter, continued from the distance it had there to the distance of reference 0, or zero if there is no motion; with a weighted mode the second reference is the one the
mode names, and its vector is the first one continued to the distance of that reference (vertical component: in frame pictures; field pictures add a correction for the parity). -/
theorem C93_pf_temporal (p : Pic) (hp : p.Ok) (hB : p.frame ≠ 2) (sy : Syn) (hd : ∀ l ∈ lcus p, ∀ c ∈ tree p sy l, Delivered p c.l (sy.sym c)) (slice : Nat → Nat → Int) (cu : Nat → Nat → CuRec)
    (F : St) (hF : picMotion p sy slice cu = .ok F) (l : Nat × Nat) (lm : l ∈ lcus p) (c : Cu) (cm : c ∈ tree p sy l) (hskip : (sy.sym c).mode = 0) (hds : (sy.sym c).ds = 0)
    (X Y : Nat) (h1 : c.x / 4 ≤ X) (h2 : X < c.x / 4 + 2 ^ c.l / 4) (h3 : c.y / 4 ≤ Y) (h4 : Y < c.y / 4 + 2 ^ c.l / 4) (f : Saved) (hf : p.refs[0]? = some f) :
    let x := Spec.quarter (c.x / 4) (2 ^ c.l / 4) X
    let y := Spec.quarter (c.y / 4) (2 ^ c.l / 4) Y
    let k := (sy.sym c).wsm
    ∃ b v1 v2, F.mot X Y = some b ∧ b.r1 = 0 ∧ b.v1 = some v1 ∧ b.v2 = some v2 ∧
      (f.ref x y < 0 → v1 = (0, 0)) ∧
      (0 ≤ f.ref x y → ∃ v, f.mv x y = some v ∧ Spec.Cont v.1 v1.1 (p.dist 0) (f.dist (f.ref x y).toNat) ∧ Spec.Cont v.2 v1.2 (p.dist 0) (f.dist (f.ref x y).toNat)) ∧
      (k = 0 → b.r2 = -1 ∧ v2 = (0, 0)) ∧
      (k ≠ 0 → b.r2 = k ∧ Spec.Cont v1.1 v2.1 (p.dist k) (p.dist 0) ∧ (p.field = false → Spec.Cont v1.2 v2.2 (p.dist k) (p.dist 0))) := by
  obtain ⟨r, hr, er⟩ := again_units hp hd hF lm cm
  have D := hd l lm c cm
  have fc := tree_fit hp lm cm
  have h6 : c.l ≤ 6 := by have := fc.hi; have := hp.lcu; omega
  unfold cuUnits at hr
  rw [if_neg (by omega), if_pos hskip] at hr
  obtain ⟨ns, hn, hr⟩ := ok_bind hr
  rw [if_neg hB, if_pos (by have := hp.frame; omega), if_pos hds] at hr
  have ho := units_ok (frame := p.frame) (ds := (sy.sym c).ds) D.mode D.type fc.lo h6
  obtain ⟨-, v⟩ := skipUnits_val (C := Cu.InB c) (fun _ _ _ _ => rfl) _ _ r ⟨rfl, rfl, fun _ _ _ => rfl⟩ (fun q hq X Y hX => by
    by_contra hn
    exact out_unit ho hn q hq hX) (zip_disj ho _ _) hr
  obtain ⟨q, hq, hq'⟩ := in_unit (cx := c.x / 4) (cy := c.y / 4) ho ⟨h1, h2, h3, h4⟩
  obtain ⟨m, e, hm⟩ := v q hq
  obtain ⟨d, hm⟩ := hm X Y hq'
  rw [er] at hm
  rw [hds, hskip] at hq
  obtain ⟨q1, q2⟩ := quarter_unit hp fc.lo h6 hq hq'
  rw [q1, q2] at e
  intro x y k
  change pfTemporal p k x y = .ok m at e
  unfold pfTemporal at e
  obtain ⟨v1, e1, e⟩ := ok_bind e
  unfold pfCol at e1
  obtain ⟨f', hf', e1⟩ := ok_bind e1
  have : f' = f := Option.some.inj ((fref_ok hf').symm.trans hf)
  subst this
  have first : (f'.ref x y < 0 → v1 = (0, 0)) ∧
      (0 ≤ f'.ref x y → ∃ v, f'.mv x y = some v ∧ Spec.Cont v.1 v1.1 (p.dist 0) (f'.dist (f'.ref x y).toNat) ∧ Spec.Cont v.2 v1.2 (p.dist 0) (f'.dist (f'.ref x y).toNat)) := by
    dsimp only at e1
    by_cases hr0 : f'.ref x y ≥ 0
    · rw [if_pos hr0] at e1
      refine ⟨fun h => by omega, fun _ => ?_⟩
      obtain ⟨d', hd', e1⟩ := ok_bind e1
      obtain ⟨v, hv, e1⟩ := ok_bind e1
      obtain ⟨d0, hd0, e1⟩ := ok_bind e1
      obtain ⟨a, ha, e1⟩ := ok_bind e1
      obtain ⟨b, hb, e1⟩ := ok_bind e1
      cases ok_pure e1
      have g1 := skip_cont (arith_ok ha)
      have g2 := skip_cont (arith_ok hb)
      rw [sdistAt_ok hd', distAt_ok hd0] at g1 g2
      exact ⟨v, known_ok hv, g1, g2⟩
    · rw [if_neg hr0] at e1
      exact ⟨fun _ => (ok_pure e1).symm, fun h => absurd h hr0⟩
  by_cases hk : k ≠ 0
  · rw [if_pos hk] at e
    obtain ⟨dk, hdk, e⟩ := ok_bind e
    obtain ⟨d0, hd0, e⟩ := ok_bind e
    obtain ⟨v2, hv2, e⟩ := ok_bind e
    cases ok_pure e
    have g := skipScale_ok hv2
    rw [distAt_ok hdk, distAt_ok hd0] at g
    exact ⟨_, v1, v2, hm, rfl, rfl, rfl, first.1, first.2, fun h => absurd h hk, fun _ => ⟨rfl, g⟩⟩
  · rw [if_neg hk] at e
    cases ok_pure e
    exact ⟨_, v1, (0, 0), hm, rfl, rfl, rfl, first.1, first.2, fun _ => ⟨rfl, rfl⟩, fun h => absurd h hk⟩

/-- **C93, B pictures.**  A coding unit skipped without spatial mode is predicted symmetrically from both references.  For each quarter (the whole unit if it has 8x8 samples) the vector of the block of the
backward reference at the corner of the quarter is continued to the forward reference and, mirrored, to the backward reference; if there is no motion, both vectors are those predicted for the whole
unit from its neighbours in the finished picture. -/
theorem C93_b_temporal (p : Pic) (hp : p.Ok) (hB : p.frame = 2) (sy : Syn) (hd : ∀ l ∈ lcus p, ∀ c ∈ tree p sy l, Delivered p c.l (sy.sym c)) (slice : Nat → Nat → Int) (cu : Nat → Nat → CuRec)
    (F : St) (hF : picMotion p sy slice cu = .ok F) (l : Nat × Nat) (lm : l ∈ lcus p) (c : Cu) (cm : c ∈ tree p sy l) (hskip : (sy.sym c).mode = 0) (hds : (sy.sym c).ds = 0)
    (X Y : Nat) (h1 : c.x / 4 ≤ X) (h2 : X < c.x / 4 + 2 ^ c.l / 4) (h3 : c.y / 4 ≤ Y) (h4 : Y < c.y / 4 + 2 ^ c.l / 4) (f : Saved) (hf : p.refs[0]? = some f) :
    let x := Spec.quarter (c.x / 4) (2 ^ c.l / 4) X
    let y := Spec.quarter (c.y / 4) (2 ^ c.l / 4) Y
    ∃ v1 v2, F.mot X Y = some ⟨2, 1, 0, some v1, some v2⟩ ∧
      (f.ref x y < 0 → mvp p F (sy.slice l.1 l.2) (c.x / 4) (c.y / 4) (2 ^ c.l / 4) false 0 0 = .ok v1 ∧ mvp p F (sy.slice l.1 l.2) (c.x / 4) (c.y / 4) (2 ^ c.l / 4) true 0 0 = .ok v2) ∧
      (0 ≤ f.ref x y → ∃ v w : Vec, f.mv x y = some v ∧ Spec.ContB v.1 v1.1 (p.dist 1) (f.dist (f.ref x y).toNat) ∧ Spec.ContB v.1 w.1 (p.dist 0) (f.dist (f.ref x y).toNat) ∧
        (p.field = false → Spec.ContB v.2 v1.2 (p.dist 1) (f.dist (f.ref x y).toNat) ∧ Spec.ContB v.2 w.2 (p.dist 0) (f.dist (f.ref x y).toNat)) ∧
        Spec.Stored v2.1 (-w.1) ∧ Spec.Stored v2.2 (-w.2)) := by
  obtain ⟨r, hr, er⟩ := again_units hp hd hF lm cm
  have D := hd l lm c cm
  have fc := tree_fit hp lm cm
  have h6 : c.l ≤ 6 := by have := fc.hi; have := hp.lcu; omega
  unfold cuUnits at hr
  rw [if_neg (by omega), if_pos hskip] at hr
  obtain ⟨ns, hn, hr⟩ := ok_bind hr
  rw [if_pos hB, if_neg (by omega)] at hr
  have ho := units_ok (frame := p.frame) (ds := (sy.sym c).ds) D.mode D.type fc.lo h6
  have env := tree_env hp lm cm
  have same : ∀ st, Frame (Cu.InB c) (erase c F) st → ∀ bwd, mvp p st (sy.slice l.1 l.2) (c.x / 4) (c.y / 4) (2 ^ c.l / 4) bwd 0 0 = mvp p F (sy.slice l.1 l.2) (c.x / 4) (c.y / 4) (2 ^ c.l / 4) bwd 0 0 := by
    intro st hst bwd
    refine mvp_eq (K := fun X Y => ¬ Cu.InB c X Y) (fun X Y hX => ⟨by rw [hst.slice]; rfl, fun _ => ?_⟩) env.around bwd 0 0
    rw [hst.out X Y hX, erase_out hX]
  have get : ∀ st, Frame (Cu.InB c) (erase c F) st → ∀ X Y, bTemporal p st (sy.slice l.1 l.2) (c.x / 4) (c.y / 4) (2 ^ c.l / 4) X Y = bTemporal p F (sy.slice l.1 l.2) (c.x / 4) (c.y / 4) (2 ^ c.l / 4) X Y := by
    intro st hst X Y
    unfold bTemporal
    rw [same st hst, same st hst]
  have f0 : Frame (Cu.InB c) (erase c F) (erase c F) := ⟨rfl, rfl, fun _ _ _ => rfl⟩
  obtain ⟨-, v⟩ := skipUnits_val (C := Cu.InB c) (a := erase c F) (fun st hst X Y => (get st hst X Y).trans (get _ f0 X Y).symm) _ _ r f0 (fun q hq X Y hX => by
    by_contra hn
    exact out_unit ho hn q hq hX) (zip_disj ho _ _) hr
  obtain ⟨q, hq, hq'⟩ := in_unit (cx := c.x / 4) (cy := c.y / 4) ho ⟨h1, h2, h3, h4⟩
  obtain ⟨m, e, hm⟩ := v q hq
  obtain ⟨d, hm⟩ := hm X Y hq'
  rw [er] at hm
  rw [hds, hskip] at hq
  obtain ⟨q1, q2⟩ := quarter_unit hp fc.lo h6 hq hq'
  rw [q1, q2, get _ f0] at e
  intro x y
  change bTemporal p F _ _ _ _ x y = .ok m at e
  unfold bTemporal at e
  obtain ⟨f', hf', e⟩ := ok_bind e
  have : f' = f := Option.some.inj ((fref_ok hf').symm.trans hf)
  subst this
  have ok := hp.saved f' (List.mem_of_getElem? hf) x y (by
    have := env.inw
    have : x ≤ X := by show Spec.quarter _ _ _ ≤ X; unfold Spec.quarter; split <;> [omega; (split <;> omega)]
    omega) (by
    have := env.inh
    have : y ≤ Y := by show Spec.quarter _ _ _ ≤ Y; unfold Spec.quarter; split <;> [omega; (split <;> omega)]
    omega)
  dsimp only at e
  by_cases hr1 : f'.ref x y = -1
  · rw [if_pos hr1] at e
    obtain ⟨v1, g1, e⟩ := ok_bind e
    obtain ⟨v2, g2, e⟩ := ok_bind e
    cases ok_pure e
    exact ⟨v1, v2, hm, fun _ => ⟨g1, g2⟩, fun h => by omega⟩
  · rw [if_neg hr1] at e
    obtain ⟨d', hd', e⟩ := ok_bind e
    obtain ⟨d0, hd0, e⟩ := ok_bind e
    obtain ⟨d1, hd1, e⟩ := ok_bind e
    obtain ⟨v, hv, e⟩ := ok_bind e
    obtain ⟨v1, g1, e⟩ := ok_bind e
    obtain ⟨w, g2, e⟩ := ok_bind e
    cases ok_pure e
    have g1 := biskipScale_ok g1
    have g2 := biskipScale_ok g2
    rw [sdistAt_ok hd', distAt_ok hd1] at g1
    rw [sdistAt_ok hd', distAt_ok hd0] at g2
    refine ⟨v1, negVec w, hm, fun h => by omega, fun _ => ⟨v, w, known_ok hv, g1.1, g2.1, fun h => ⟨g1.2 h, g2.2 h⟩, stored_int16 _, stored_int16 _⟩⟩

/-- A continued vector points to where the original one points to, up to half a unit in the last place and the error of the 14-bit reciprocal. -/
theorem C93_along (v w dst src : Int) (hd : 0 ≤ dst) (hs : 1 ≤ src) (h : Spec.Cont v w dst src) (hv : IsMv (roundUp14 (v * (dst * (16384 / src))))) :
    16384 * |w * src - v * dst| ≤ 8192 * src + |v| * dst * (src - 1) := by
  have hw : w = roundUp14 (v * (dst * (16384 / src))) := by
    obtain ⟨h1, k, hk⟩ := h
    unfold IsMv at h1 hv
    omega
  unfold roundUp14 at hw
  have m1 : 16384 / src * src ≤ 16384 := Int.ediv_mul_le _ (by omega)
  have m2 : 16384 < (16384 / src + 1) * src := Int.lt_ediv_add_one_mul_self _ (by omega)
  generalize 16384 / src = m at *
  generalize e : v * (dst * m) = P at *
  have w1 : 16384 * w ≤ P + 8192 := by omega
  have w2 : P + 8192 - 16383 ≤ 16384 * w := by omega
  have a1 : 16384 * (w * src) ≤ (P + 8192) * src := by nlinarith
  have a2 : (P - 8191) * src ≤ 16384 * (w * src) := by nlinarith
  have p1 : P * src = v * dst * (m * src) := by rw [← e]; ring
  have vd1 : v * dst ≤ |v| * dst := mul_le_mul_of_nonneg_right (le_abs_self v) hd
  have vd2 : -(|v| * dst) ≤ v * dst := by have := mul_le_mul_of_nonneg_right (neg_abs_le v) hd; linarith
  have q0 : 0 ≤ |v| * dst := mul_nonneg (abs_nonneg v) hd
  generalize v * dst = z at *
  generalize |v| * dst = A at *
  have s1 : 0 ≤ 16384 - m * src := by omega
  have s2 : 16384 - m * src ≤ src - 1 := by nlinarith
  generalize m * src = t at *
  have b1 : z * (16384 - t) ≤ A * (src - 1) := by nlinarith
  have b2 : -(A * (src - 1)) ≤ z * (16384 - t) := by nlinarith
  have : 16384 * |w * src - z| = |16384 * (w * src) - 16384 * z| := by rw [← mul_sub, abs_mul]; rfl
  rw [this, abs_le]
  constructor <;> nlinarith

example : Spec.Cont 3000 6000 4 2 := by unfold Spec.Cont Spec.Stored IsMv roundUp14; omega
example : 16384 * |(6000 : Int) * 2 - 3000 * 4| ≤ 8192 * 2 + |(3000 : Int)| * 4 * (2 - 1) :=
  C93_along 3000 6000 4 2 (by omega) (by omega) (by unfold Spec.Cont Spec.Stored IsMv roundUp14; omega) (by unfold IsMv roundUp14; omega)

/-! ### Examples -/

theorem inter2_delivered (p : Pic) (h : p.frame = 2) (l : Nat) (v : Nat → Vec) : Delivered p l ⟨1, 0, 0, 0, [2, 2, 2, 2], [(1, 0), (1, 0), (1, 0), (1, 0)], v, noMvd⟩ := by
  refine ⟨by dsimp only; omega, ⟨fun h => by dsimp only at h; omega, fun h => by dsimp only at h; omega, fun h => by dsimp only at h; omega⟩, by dsimp only; omega, by dsimp only; omega, fun _ => rfl, fun h => by dsimp only at h; omega, fun h => by dsimp only at h; omega, ?_, ?_⟩
  · intro _ _ _ i hi
    have : i = 0 := by have : numUnits 1 = 1 := rfl; dsimp only at hi; omega
    subst this
    exact ⟨2, (1, 0), rfl, rfl, by decide, by decide, by unfold Sx.BRefOk; decide⟩
  · intro _ _ g
    exact absurd h g

theorem skip_delivered (p : Pic) (l ds wsm : Nat) (dirs : List Int) (refs : List (Int × Int)) (h4 : ds ≤ 4) (hB : p.frame = 2 → dirs = List.replicate 4 (Sx.pdirBskip.getD ds 0))
    (hP : p.frame ≠ 2 → (wsm = 0 ∨ wsm < p.refs.length) ∧ (ds ≠ 0 → p.frame = 4 ∧ wsm = 0) ∧ dirs = List.replicate 4 (if wsm ≠ 0 ∨ ds = 1 ∨ ds = 2 then 4 else 0)) :
    Delivered p l ⟨0, ds, wsm, 0, dirs, refs, noMvd, noMvd⟩ :=
  ⟨by dsimp only; omega, ⟨fun h => by dsimp only at h; omega, fun h => by dsimp only at h; omega, fun h => by dsimp only at h; omega⟩, h4, by dsimp only; omega, fun _ => rfl, fun _ => hB, fun _ => hP,
    fun h => by dsimp only at h; omega, fun h => by dsimp only at h; omega⟩

/-- The B picture of `symB` meets the hypotheses of C92 (its motion is shown at `symB`); its last unit is skipped with the symmetric mode. -/
example : (pic16 2 [iSaved, iSaved]).Ok ∧ (∀ c : Cu, Delivered (pic16 2 [iSaved, iSaved]) c.l (symB c)) ∧ (0, 0) ∈ lcus (pic16 2 [iSaved, iSaved]) ∧
    ⟨8, 8, 3⟩ ∈ tree (pic16 2 [iSaved, iSaved]) (syn16 true symB) (0, 0) ∧ (symB ⟨8, 8, 3⟩).mode = 0 ∧ (symB ⟨8, 8, 3⟩).ds = 3 := by
  refine ⟨pic16_ok _ _ (by decide) (by decide) (by decide) (by decide) ?_, fun c => ?_, by decide, by decide +kernel, rfl, rfl⟩
  · intro f hf
    rw [List.mem_cons, List.mem_singleton, or_self] at hf
    subst hf
    exact iSaved_ok
  · unfold symB
    split
    · exact inter2_delivered _ rfl _ _
    · exact skip_delivered _ _ 3 0 _ _ (by decide) (fun _ => rfl) fun h => absurd rfl h

/-- A saved picture in which each block has a vector of its own, over a distance of 4. -/
def mSaved : Saved := ⟨fun _ _ => 0, fun X Y => some (16 * X, -8 * Y), fun _ => 4, 1⟩

/-- An F picture of one coding unit of 16x16, skipped with the weighted mode for reference 1: the quarters have the motion of the blocks (0, 0) and (2, 2) of the reference. -/
def symW : Sym := ⟨0, 0, 1, 0, [4, 4, 4, 4], [], noMvd, noMvd⟩

example : (pic16 4 [mSaved, iSaved]).Ok ∧ (∀ l, Delivered (pic16 4 [mSaved, iSaved]) l symW) ∧ ⟨0, 0, 4⟩ ∈ tree (pic16 4 [mSaved, iSaved]) (syn16 false fun _ => symW) (0, 0) ∧
    (show16 (picMotion (pic16 4 [mSaved, iSaved]) (syn16 false fun _ => symW) (fun _ _ => 0) rec0)).map (fun r => (r.1, r.2.1)) =
      some (some ⟨-1, 0, 1, some (0, 0), some (0, 0)⟩, some ⟨-1, 0, 1, some (16, -8), some (32, -16)⟩) := by
  refine ⟨pic16_ok _ _ (by decide) (by decide) (by decide) (by decide) ?_, fun l => ?_, by decide +kernel, by decide +kernel⟩
  · intro f hf
    rw [List.mem_cons, List.mem_singleton] at hf
    rcases hf with rfl | rfl
    · exact fun _ _ _ _ => Or.inr ⟨le_refl 0, Int.one_pos, rfl⟩
    · exact iSaved_ok
  · exact skip_delivered _ _ 0 1 _ _ (by decide) (fun h => absurd h (by decide)) fun _ => ⟨Or.inr (by decide), fun h => absurd rfl h, rfl⟩

/-- The same in a B picture. -/
def symT : Sym := ⟨0, 0, 0, 0, [2, 2, 2, 2], [(1, 0), (1, 0), (1, 0), (1, 0)], noMvd, noMvd⟩

example : (∀ l, Delivered (pic16 2 [mSaved, iSaved]) l symT) ∧
    (show16 (picMotion (pic16 2 [mSaved, iSaved]) (syn16 false fun _ => symT) (fun _ _ => 0) rec0)).map (fun r => (r.1, r.2.1)) =
      some (some ⟨2, 1, 0, some (0, 0), some (0, 0)⟩, some ⟨2, 1, 0, some (32, -16), some (-16, 8)⟩) := by
  refine ⟨fun l => ?_, by decide +kernel⟩
  exact skip_delivered _ _ 0 0 _ _ (by decide) (fun _ => rfl) fun h => absurd rfl h

end Davs2.Mo
