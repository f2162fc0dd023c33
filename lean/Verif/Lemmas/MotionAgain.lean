import Verif.Lemmas.Motion7
/-
Lemmas for C92: what a coding unit, a coding tree and the rest of a picture leave alone; deriving a coding unit again in the finished picture.
-/
namespace Davs2.Mo
open Davs2.Un Davs2.Qt Davs2.Spec

variable {α β : Type}

/-- `Q` holds of the result, if there is one. -/
def Res (m : M α) (Q : α → Prop) : Prop := ∀ a, m = .ok a → Q a

theorem Res.pure {a : α} {Q : α → Prop} (h : Q a) : Res (pure a) Q := by
  intro b e
  cases e
  exact h

theorem Res.bind {m : M α} {f : α → M β} {R : β → Prop} (h : ∀ a, m = .ok a → Res (f a) R) : Res (m >>= f) R := by
  intro b e
  cases hm : m with
  | error x => rw [hm] at e; cases e
  | ok a => rw [hm] at e; exact h a hm b e

theorem Res.ite {c : Prop} [Decidable c] {a b : M α} {Q : α → Prop} (h1 : c → Res a Q) (h2 : ¬ c → Res b Q) : Res (if c then a else b) Q := by
  by_cases h : c
  · rw [if_pos h]; exact h1 h
  · rw [if_neg h]; exact h2 h

/-- Only motion of blocks in `C` is different. -/
structure Frame (C : Nat → Nat → Prop) (a st : St) : Prop where
  slice : st.slice = a.slice
  cu : st.cu = a.cu
  out : ∀ X Y, ¬ C X Y → st.mot X Y = a.mot X Y

theorem Frame.rect {C : Nat → Nat → Prop} {a st : St} (h : Frame C a st) {cx cy : Nat} {u : Cb} (hu : ∀ X Y, InU cx cy u X Y → C X Y) (f : Option Blk → Blk) :
    Frame C a { st with mot := rect st.mot (cx + u.x / 4) (cy + u.y / 4) (u.w / 4) (u.h / 4) f } :=
  ⟨h.slice, h.cu, fun X Y hC => (rect_out fun hi => hC (hu X Y hi)).trans (h.out X Y hC)⟩

theorem Frame.store {C : Nat → Nat → Prop} {a st : St} (h : Frame C a st) {cx cy : Nat} {val : Nat → Option Blk → Blk} (us : List (Cb × Nat))
    (hu : ∀ q ∈ us, ∀ X Y, InU cx cy q.1 X Y → C X Y) : Frame C a { st with mot := storeUnits cx cy val st.mot us } :=
  ⟨h.slice, h.cu, fun X Y hC => (storeUnits_out us st.mot fun q hq hi => hC (hu q hq X Y hi)).trans (h.out X Y hC)⟩

theorem frame_skipUnits {C : Nat → Nat → Prop} {a : St} {cx cy : Nat} {dir : Option Int} {get : St → Nat → Nat → M Mv} : ∀ (us : List (Cb × Nat)) (st : St), Frame C a st →
    (∀ q ∈ us, ∀ X Y, InU cx cy q.1 X Y → C X Y) → Res (skipUnits cx cy dir get st us) fun r => Frame C a r.1 := by
  intro us
  induction us with
  | nil => intro st h _; exact Res.pure h
  | cons q us ih =>
    intro st h hu
    unfold skipUnits
    refine Res.bind fun m _ => ?_
    refine Res.bind fun r hr => Res.pure ?_
    exact ih _ (h.rect (hu _ (List.mem_cons_self ..)) _) (fun q hq => hu q (List.mem_cons_of_mem _ hq)) r hr

theorem frame_forward {C : Nat → Nat → Prop} {p : Pic} {slice : Int} {s : Sym} {a : St} {cx cy : Nat} : ∀ (us : List (Cb × Nat)) (st : St), Frame C a st →
    (∀ q ∈ us, ∀ X Y, InU cx cy q.1 X Y → C X Y) → Res (forward p slice cx cy s st us) fun r => Frame C a r := by
  intro us
  induction us with
  | nil => intro st h _; exact Res.pure h
  | cons q us ih =>
    intro st h hu
    have hu' := fun q hq => hu q (List.mem_cons_of_mem _ hq)
    unfold forward
    refine Res.ite (fun _ => ih st h hu') fun _ => Res.bind fun v _ => ?_
    exact ih _ (h.rect (hu _ (List.mem_cons_self ..)) _) hu'

theorem frame_backward {C : Nat → Nat → Prop} {p : Pic} {slice : Int} {s : Sym} {a : St} {cx cy : Nat} : ∀ (us : List (Cb × Nat)) (st : St), Frame C a st →
    (∀ q ∈ us, ∀ X Y, InU cx cy q.1 X Y → C X Y) → Res (backward p slice cx cy s st us) fun r => Frame C a r := by
  intro us
  induction us with
  | nil => intro st h _; exact Res.pure h
  | cons q us ih =>
    intro st h hu
    have hu' := fun q hq => hu q (List.mem_cons_of_mem _ hq)
    unfold backward
    refine Res.ite (fun _ => ih st h hu') fun _ => Res.bind fun v _ => ?_
    exact ih _ (h.rect (hu _ (List.mem_cons_self ..)) _) hu'

theorem frame_cuUnits {C : Nat → Nat → Prop} {p : Pic} {slice : Int} {s : Sym} {a : St} {x y n : Nat} {us : List (Cb × Nat)} {old : CuRec}
    (hu : ∀ q ∈ us, ∀ X Y, InU x y q.1 X Y → C X Y) : Res (cuUnits p a slice x y n us old s) fun r => Frame C a r.1 := by
  have h0 : Frame C a a := ⟨rfl, rfl, fun _ _ _ => rfl⟩
  unfold cuUnits
  refine Res.ite (fun _ => Res.pure (h0.store us hu)) fun _ => Res.ite (fun _ => Res.bind fun ns _ => ?_) fun _ => ?_
  · refine Res.ite (fun _ => Res.ite (fun _ => ?_) fun _ => ?_) fun _ => Res.ite (fun _ => Res.ite (fun _ => ?_) fun _ => ?_) fun _ => Res.pure h0
    all_goals exact frame_skipUnits _ _ h0 hu
  · refine Res.bind fun st1 h1 => Res.bind fun st2 h2 => Res.pure ?_
    have f1 := frame_forward us _ (h0.store us hu) hu st1 h1
    revert st2
    change Res _ _
    exact Res.ite (fun _ => frame_backward us _ f1 hu) fun _ => Res.pure f1

/-- What a coding unit leaves alone. -/
structure CuFrame (c : Qt.Cu) (a st : St) : Prop where
  slice : st.slice = a.slice
  cu : ∀ X Y, ¬ (X = c.x / 8 ∧ Y = c.y / 8) → st.cu X Y = a.cu X Y
  out : ∀ X Y, ¬ InC (c.x / 4) (c.y / 4) (2 ^ c.l / 4) X Y → st.mot X Y = a.mot X Y

theorem frame_cuMotion {p : Pic} {c : Qt.Cu} {s : Sym} {a : St} (h3 : 3 ≤ c.l) (h6 : c.l ≤ 6) (hd : Delivered p c.l s) :
    Res (cuMotion p a c s) (CuFrame c a) := by
  have ho := units_ok (frame := p.frame) (ds := s.ds) hd.mode hd.type h3 h6
  unfold cuMotion
  refine Res.bind fun r hr => Res.bind fun use _ => Res.pure ?_
  have f := frame_cuUnits (C := InC (c.x / 4) (c.y / 4) (2 ^ c.l / 4)) (fun q hq X Y hX => by
    by_contra hn
    exact out_unit ho hn q hq hX) r hr
  refine ⟨f.slice, fun X Y h => ?_, f.out⟩
  dsimp only
  rw [if_neg h, f.cu]

/-- Splitting a fold. -/
theorem foldlM_split {f : β → α → M β} {pre post : List α} {a : α} {b r : β} (h : (pre ++ a :: post).foldlM f b = .ok r) :
    ∃ b1 b2, pre.foldlM f b = .ok b1 ∧ f b1 a = .ok b2 ∧ post.foldlM f b2 = .ok r := by
  rw [List.foldlM_append] at h
  cases h1 : pre.foldlM f b with
  | error x => rw [h1] at h; cases h
  | ok b1 =>
    rw [h1] at h
    change (a :: post).foldlM f b1 = .ok r at h
    rw [List.foldlM_cons] at h
    cases h2 : f b1 a with
    | error x => rw [h2] at h; cases h
    | ok b2 => rw [h2] at h; exact ⟨b1, b2, rfl, h2, h⟩

/-- What coding units leave alone. -/
theorem frame_cus {p : Pic} {sy : Syn} : ∀ (cs : List Cu) (a r : St), (∀ c ∈ cs, 3 ≤ c.l ∧ c.l ≤ 6 ∧ Delivered p c.l (sy.sym c)) →
    cs.foldlM (fun st c => cuMotion p st c (sy.sym c)) a = .ok r →
    r.slice = a.slice ∧ (∀ X Y, (∀ c ∈ cs, ¬ InC (c.x / 4) (c.y / 4) (2 ^ c.l / 4) X Y) → r.mot X Y = a.mot X Y) ∧
      (∀ X Y, (∀ c ∈ cs, ¬ (X = c.x / 8 ∧ Y = c.y / 8)) → r.cu X Y = a.cu X Y) := by
  intro cs
  induction cs with
  | nil =>
    intro a r _ h
    cases h
    exact ⟨rfl, fun _ _ _ => rfl, fun _ _ _ => rfl⟩
  | cons c cs ih =>
    intro a r hd h
    obtain ⟨b1, b2, h1, h2, h3⟩ := foldlM_split (pre := []) h
    cases h1
    obtain ⟨d1, d2, d3⟩ := hd c (List.mem_cons_self ..)
    have f := frame_cuMotion d1 d2 d3 b2 h2
    obtain ⟨i1, i2, i3⟩ := ih b2 r (fun c hc => hd c (List.mem_cons_of_mem _ hc)) h3
    refine ⟨i1.trans f.slice, fun X Y hX => ?_, fun X Y hX => ?_⟩
    · exact (i2 X Y fun c hc => hX c (List.mem_cons_of_mem _ hc)).trans (f.out X Y (hX c (List.mem_cons_self ..)))
    · exact (i3 X Y fun c hc => hX c (List.mem_cons_of_mem _ hc)).trans (f.cu X Y (hX c (List.mem_cons_self ..)))

/-- The blocks of a coding unit. -/
abbrev Cu.InB (c : Qt.Cu) (X Y : Nat) : Prop := InC (c.x / 4) (c.y / 4) (2 ^ c.l / 4) X Y

theorem tree_fit {p : Pic} (hp : p.Ok) {sy : Syn} {l : Nat × Nat} (lm : l ∈ lcus p) {c : Cu} (hc : c ∈ tree p sy l) :
    Fits (4 * p.w) (4 * p.h) p.lcu (l.1 * 2 ^ p.lcu) (l.2 * 2 ^ p.lcu) c := by
  have hw : 8 ∣ 4 * p.w := by obtain ⟨k, hk⟩ := hp.w; exact ⟨k, by omega⟩
  have hh : 8 ∣ 4 * p.h := by obtain ⟨k, hk⟩ := hp.h; exact ⟨k, by omega⟩
  obtain ⟨l1, l2⟩ := (mem_lcus p l).mp lm
  exact tree_fits hw hh (show 3 ≤ p.lcu by have := hp.lcu; omega) sy.split l1 l2 c hc

theorem tree_in {p : Pic} (hp : p.Ok) {sy : Syn} {l : Nat × Nat} (lm : l ∈ lcus p) {c : Cu} (hc : c ∈ tree p sy l) {X Y : Nat} (h : Cu.InB c X Y) :
    X < p.w ∧ Y < p.h ∧ lcuOf p X Y = l := by
  have fc := tree_fit hp lm hc
  obtain ⟨g1, g2, g3, g4⟩ := (has_block fc X Y).mpr h
  obtain ⟨f1, f2, -, -, f5, f6, f7, f8, f9, f10⟩ := fc
  rw [lcuOf_eq]
  omega

/-- The corner of a coding unit is one of its blocks. -/
theorem corner_in {p : Pic} (hp : p.Ok) {sy : Syn} {l : Nat × Nat} (lm : l ∈ lcus p) {c : Cu} (hc : c ∈ tree p sy l) : Cu.InB c (2 * (c.x / 8)) (2 * (c.y / 8)) := by
  have fc := tree_fit hp lm hc
  rw [Cu.InB, ← has_block fc]
  obtain ⟨f1, f2, ⟨a, ha⟩, ⟨b, hb⟩, f5, f6, f7, f8, f9, f10⟩ := fc
  have e := pow_four f1
  have pos := Nat.two_pow_pos c.l
  rw [e, Nat.mul_assoc] at ha hb
  unfold Cu.has
  omega

theorem tree_disj {p : Pic} (hp : p.Ok) {sy : Syn} {l : Nat × Nat} (lm : l ∈ lcus p) : (tree p sy l).Pairwise fun c d => ∀ X Y, Cu.InB c X Y → ¬ Cu.InB d X Y := by
  have hw : 8 ∣ 4 * p.w := by obtain ⟨k, hk⟩ := hp.w; exact ⟨k, by omega⟩
  have hh : 8 ∣ 4 * p.h := by obtain ⟨k, hk⟩ := hp.h; exact ⟨k, by omega⟩
  obtain ⟨l1, l2⟩ := (mem_lcus p l).mp lm
  refine List.Pairwise.imp_of_mem ?_ (tree_before hw hh (show 3 ≤ p.lcu by have := hp.lcu; omega) sy.split l1 l2)
  intro c d hc hd hb X Y h1 h2
  have := hb (4 * X) (4 * Y) (4 * X) (4 * Y) ((has_block (tree_fit hp lm hc) X Y).mpr h1) ((has_block (tree_fit hp lm hd) X Y).mpr h2)
  omega

/-- What a coding tree leaves alone. -/
theorem frame_lcu {p : Pic} (hp : p.Ok) {sy : Syn} {l : Nat × Nat} (lm : l ∈ lcus p) (hd : ∀ c ∈ tree p sy l, Delivered p c.l (sy.sym c)) {a r : St}
    (h : lcuMotion p sy a l = .ok r) : r.slice = (lcuInit p l.1 l.2 (sy.slice l.1 l.2) a).slice ∧ (∀ X Y, lcuOf p X Y ≠ l → r.mot X Y = a.mot X Y) ∧
      (∀ X Y, lcuOf p (2 * X) (2 * Y) ≠ l → r.cu X Y = a.cu X Y) := by
  obtain ⟨f1, f2, f3⟩ := frame_cus (tree p sy l) _ r (fun c hc => ⟨(tree_fit hp lm hc).lo, by have := (tree_fit hp lm hc).hi; have := hp.lcu; omega, hd c hc⟩) h
  refine ⟨f1, fun X Y hX => f2 X Y fun c hc hi => hX (tree_in hp lm hc hi).2.2, fun X Y hX => f3 X Y fun c hc hi => hX ?_⟩
  rw [hi.1, hi.2]
  exact corner_lcu hp lm hc

/-- What coding trees leave alone. -/
theorem frame_lcus {p : Pic} (hp : p.Ok) {sy : Syn} : ∀ (ls : List (Nat × Nat)) (a r : St), (∀ l ∈ ls, l ∈ lcus p ∧ ∀ c ∈ tree p sy l, Delivered p c.l (sy.sym c)) →
    ls.foldlM (lcuMotion p sy) a = .ok r →
    (∀ X Y, X < p.w → Y < p.h → lcuOf p X Y ∉ ls → r.slice (X / 2) (Y / 2) = a.slice (X / 2) (Y / 2)) ∧ (∀ X Y, lcuOf p X Y ∉ ls → r.mot X Y = a.mot X Y) ∧
      (∀ X Y, lcuOf p (2 * X) (2 * Y) ∉ ls → r.cu X Y = a.cu X Y) := by
  intro ls
  induction ls with
  | nil =>
    intro a r _ h
    cases h
    exact ⟨fun _ _ _ _ _ => rfl, fun _ _ _ => rfl, fun _ _ _ => rfl⟩
  | cons l ls ih =>
    intro a r hd h
    obtain ⟨b1, b2, h1, h2, h3⟩ := foldlM_split (pre := []) h
    cases h1
    obtain ⟨d1, d2⟩ := hd l (List.mem_cons_self ..)
    obtain ⟨f1, f2, f3⟩ := frame_lcu hp d1 d2 h2
    obtain ⟨i1, i2, i3⟩ := ih b2 r (fun c hc => hd c (List.mem_cons_of_mem _ hc)) h3
    refine ⟨fun X Y hX hY hn => ?_, fun X Y hn => ?_, fun X Y hn => ?_⟩
    all_goals rw [List.mem_cons, not_or] at hn
    · rw [i1 X Y hX hY hn.2, f1, init_slice hp hX hY, if_neg hn.1]
    · rw [i2 X Y hn.2, f2 X Y hn.1]
    · rw [i3 X Y hn.2, f3 X Y hn.1]

/-- The state without the motion of a coding unit. -/
def erase (c : Qt.Cu) (st : St) : St :=
  { st with mot := fun X Y => if c.x / 4 ≤ X ∧ X < c.x / 4 + 2 ^ c.l / 4 ∧ c.y / 4 ≤ Y ∧ Y < c.y / 4 + 2 ^ c.l / 4 then none else st.mot X Y }

theorem erase_in {c : Qt.Cu} {st : St} {X Y : Nat} (h : Cu.InB c X Y) : (erase c st).mot X Y = none := if_pos h

theorem erase_out {c : Qt.Cu} {st : St} {X Y : Nat} (h : ¬ Cu.InB c X Y) : (erase c st).mot X Y = st.mot X Y := if_neg h

/-- In the finished picture the motion of a coding unit, derived again, is the same. -/
theorem again {p : Pic} (hp : p.Ok) {sy : Syn} (hd : ∀ l ∈ lcus p, ∀ c ∈ tree p sy l, Delivered p c.l (sy.sym c)) {slice : Nat → Nat → Int} {cu : Nat → Nat → CuRec} {F : St}
    (hF : picMotion p sy slice cu = .ok F) {l : Nat × Nat} (lm : l ∈ lcus p) {c : Cu} (cm : c ∈ tree p sy l) :
    cuMotion p (erase c F) c (sy.sym c) = .ok F ∧ F.slice (c.x / 8) (c.y / 8) = sy.slice l.1 l.2 := by
  have hT := Nat.two_pow_pos p.lcu
  obtain ⟨pre, post, hl⟩ := List.append_of_mem lm
  obtain ⟨prec, postc, hc⟩ := List.append_of_mem cm
  unfold picMotion at hF
  rw [hl] at hF
  obtain ⟨a0, rl, e1, e2, e3⟩ := foldlM_split hF
  have e2' : (tree p sy l).foldlM (fun st c => cuMotion p st c (sy.sym c)) (lcuInit p l.1 l.2 (sy.slice l.1 l.2) a0) = .ok rl := e2
  rw [hc] at e2'
  obtain ⟨a, r, g1, g2, g3⟩ := foldlM_split e2'
  have mpre : ∀ q ∈ pre, q ∈ lcus p := fun q hq => by rw [hl]; simp [hq]
  have mpost : ∀ q ∈ post, q ∈ lcus p := fun q hq => by rw [hl]; simp [hq]
  have mprec : ∀ d ∈ prec, d ∈ tree p sy l := fun q hq => by rw [hc]; simp [hq]
  have mpostc : ∀ d ∈ postc, d ∈ tree p sy l := fun q hq => by rw [hc]; simp [hq]
  have side : ∀ d ∈ tree p sy l, 3 ≤ d.l ∧ d.l ≤ 6 ∧ Delivered p d.l (sy.sym d) := fun d hd' =>
    ⟨(tree_fit hp lm hd').lo, by have := (tree_fit hp lm hd').hi; have := hp.lcu; omega, hd l lm d hd'⟩
  have notin := not_in hl
  have srt := lcus_sorted p
  rw [hl, List.pairwise_append, List.pairwise_cons] at srt
  obtain ⟨-, ⟨s2, -⟩, s3⟩ := srt
  have notpost : ¬ l ∈ post := by
    intro hq
    have := s2 l hq
    unfold Lt at this
    omega
  have prepost : ∀ q ∈ pre, q ∉ post := by
    intro q hq hq'
    have := s3 q hq q (by simp [hq'])
    unfold Lt at this
    omega
  have before : ∀ q ∈ lcus p, Lt q l → q ∈ pre := by
    intro q hq hlt
    rw [hl, List.mem_append, List.mem_cons] at hq
    rcases hq with hq | rfl | hq
    · exact hq
    · unfold Lt at hlt
      omega
    · have := s2 q hq
      unfold Lt at this hlt
      omega
  have dis := tree_disj (sy := sy) hp lm
  rw [hc, List.pairwise_append, List.pairwise_cons] at dis
  obtain ⟨-, ⟨t2, -⟩, t3⟩ := dis
  obtain ⟨u1, u2, u3⟩ := frame_lcus hp pre _ a0 (fun q hq => ⟨mpre q hq, hd q (mpre q hq)⟩) e1
  obtain ⟨v1, v2, v3⟩ := frame_cus prec _ a (fun d hd' => side d (mprec d hd')) g1
  have fr := frame_cuMotion (side c cm).1 (side c cm).2.1 (side c cm).2.2 r g2
  obtain ⟨w1, w2, w3⟩ := frame_cus postc _ rl (fun d hd' => side d (mpostc d hd')) g3
  obtain ⟨z1, z2, z3⟩ := frame_lcus hp post _ F (fun q hq => ⟨mpost q hq, hd q (mpost q hq)⟩) e3
  -- slices
  have sa : ∀ X Y, X < p.w → Y < p.h → lcuOf p X Y = l → a.slice (X / 2) (Y / 2) = sy.slice l.1 l.2 := by
    intro X Y hX hY h
    rw [v1, init_slice hp hX hY, if_pos h]
  have sF : ∀ X Y, X < p.w → Y < p.h → lcuOf p X Y ∉ post → F.slice (X / 2) (Y / 2) = a.slice (X / 2) (Y / 2) := by
    intro X Y hX hY h
    rw [z1 X Y hX hY h, w1, fr.slice]
  -- motion of the unit before it is decoded, and afterwards
  have none_in : ∀ X Y, Cu.InB c X Y → a.mot X Y = none := by
    intro X Y h
    rw [v2 X Y fun d hd' h' => t3 d hd' c (by simp) X Y h' h]
    show a0.mot X Y = none
    rw [u2 X Y (by rw [(tree_in hp lm cm h).2.2]; exact notin)]
    rfl
  have mot_in : ∀ X Y, Cu.InB c X Y → F.mot X Y = r.mot X Y := by
    intro X Y h
    rw [z2 X Y (by rw [(tree_in hp lm cm h).2.2]; exact notpost), w2 X Y fun d hd' h' => t2 d hd' X Y h h']
  have mot_D : ∀ X Y, lcuOf p X Y ∉ post → (∀ d ∈ postc, ¬ Cu.InB d X Y) → ¬ Cu.InB c X Y → F.mot X Y = a.mot X Y := by
    intro X Y h h' h''
    rw [z2 X Y h, w2 X Y h', fr.out X Y h'']
  have env := env_ok hp (Dl := fun X Y => X < p.w ∧ Y < p.h ∧ lcuOf p X Y ∈ pre) ((mem_lcus p l).mp lm).1 ((mem_lcus p l).mp lm).2 ?_ ?_ hc
  · obtain ⟨c1, c2, c3⟩ := tree_in hp lm cm (corner_in hp lm cm)
    have s0 := sa _ _ c1 c2 c3
    have s1 := sF _ _ c1 c2 (by rw [c3]; exact notpost)
    rw [Nat.mul_div_cancel_left _ (by omega), Nat.mul_div_cancel_left _ (by omega)] at s0 s1
    have R := rel_cuMotion hp env (a := a) (a' := erase c F) (side c cm).1 (side c cm).2.1 (side c cm).2.2 (slice := sy.slice l.1 l.2) ?_ s0 (s1.trans s0) ?_ ?_
    · rw [g2] at R
      cases hr : cuMotion p (erase c F) c (sy.sym c) with
      | error x => rw [hr] at R; exact absurd R (by simp [Rel])
      | ok r' =>
        rw [hr] at R
        have R : CuStep _ c a (erase c F) r r' := R
        refine ⟨?_, s1.trans s0⟩
        congr 1
        obtain ⟨m', sl', cu'⟩ := r'
        obtain ⟨mF, slF, cuF⟩ := F
        congr 1
        · funext X Y
          by_cases h : Cu.InB c X Y
          · exact (R.inn X Y h).symm.trans (mot_in X Y h).symm
          · exact ((R.out X Y h).2).trans (erase_out h)
        · exact R.slice'
        · funext X Y
          by_cases h : X = c.x / 8 ∧ Y = c.y / 8
          · rw [h.1, h.2]
            refine R.same.symm.trans ?_
            refine Eq.trans ?_ (z3 _ _ (by rw [c3]; exact notpost)).symm
            refine (w3 _ _ fun d hd' h' => ?_).symm
            have q1 := corner_in hp lm cm
            have q2 := corner_in hp lm (mpostc d hd')
            rw [← h'.1, ← h'.2] at q2
            exact t2 d hd' _ _ q1 q2
          · exact (R.cu X Y h).2
    · intro X Y hX
      rcases hX with hX | ⟨d, hd', hd''⟩
      · have ne : lcuOf p X Y ≠ l := fun h => notin (h ▸ hX.2.2)
        refine ⟨(sF X Y hX.1 hX.2.1 (prepost _ hX.2.2)).symm, fun _ => ?_⟩
        have nc : ¬ Cu.InB c X Y := fun h => ne (tree_in hp lm cm h).2.2
        rw [erase_out nc]
        exact (mot_D X Y (prepost _ hX.2.2) (fun d hd' h => ne (tree_in hp lm (mpostc d hd') h).2.2) nc).symm
      · obtain ⟨q1, q2, q3⟩ := tree_in hp lm (mprec d hd') hd''
        have np : lcuOf p X Y ∉ post := by rw [q3]; exact notpost
        refine ⟨(sF X Y q1 q2 np).symm, fun _ => ?_⟩
        have nc : ¬ Cu.InB c X Y := fun h => t3 d hd' c (by simp) X Y hd'' h
        rw [erase_out nc]
        exact (mot_D X Y np (fun e he h => t3 d hd' e (by simp [he]) X Y hd'' h) nc).symm
    · intro X Y hX
      obtain ⟨q1, q2, q3⟩ := tree_in hp lm cm hX
      exact ⟨sa X Y q1 q2 q3, (sF X Y q1 q2 (by rw [q3]; exact notpost)).trans (sa X Y q1 q2 q3)⟩
    · intro X Y hX
      rw [erase_in hX]
      exact none_in X Y hX
  · intro X Y hX hY h
    refine ⟨hX, hY, before _ (block_lcu hX hY) ?_⟩
    unfold Lt lcuOf
    dsimp only
    rw [Nat.div_lt_iff_lt_mul hT, Nat.div_lt_iff_lt_mul hT]
    rcases h with h | ⟨h, h'⟩
    · exact Or.inl h
    · by_cases hy : 4 * Y < l.2 * 2 ^ p.lcu
      · exact Or.inl hy
      · exact Or.inr ⟨(mem_div hT).mpr ⟨by omega, h⟩, h'⟩
  · intro X Y h hin
    obtain ⟨n1, n2, n3, n4⟩ := hin
    have := lcuOf_eq.mpr ⟨⟨n1, n2⟩, n3, n4⟩
    rw [this] at h
    exact notin h.2.2

end Davs2.Mo
