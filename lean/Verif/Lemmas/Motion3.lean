import Verif.Lemmas.Motion2
/-
Lemmas for C85: one coding unit.
-/
namespace Davs2.Mo
open Davs2.Sx Davs2.Un

/-! Units with vectors in the bit stream -/

def dirAt (s : Sym) (i : Nat) : Int := s.dirs.getD i (-1)
def refAt (s : Sym) (i : Nat) : Int × Int := s.refs.getD i (-1, -1)

/-- What the reader delivers for a unit. -/
def UF (p : Pic) (s : Sym) (i : Nat) : Prop :=
  (p.frame = 2 → 0 ≤ dirAt s i ∧ dirAt s i ≤ 3 ∧ BRefOk (dirAt s i) (refAt s i)) ∧
  (p.frame ≠ 2 → (dirAt s i = 0 ∨ dirAt s i = 4) ∧ PRefOk p.refs.length (dirAt s i) (refAt s i))

def Stored (s : Sym) (i : Nat) (b : Blk) : Prop := b.dir = dirAt s i ∧ b.r1 = (refAt s i).1 ∧ b.r2 = (refAt s i).2

def FwdOk (p : Pic) (s : Sym) (i : Nat) (b : Blk) : Prop :=
  Stored s i b ∧ (dirAt s i ≠ 1 → b.v1.isSome ∧ (p.frame ≠ 2 → b.v2.isSome))

def BwdOk (p : Pic) (s : Sym) (i : Nat) (b : Blk) : Prop := FwdOk p s i b ∧ (dirAt s i ≠ 0 → b.v2.isSome)

theorem fwdOk_comp {p : Pic} (hp : p.Ok) {s : Sym} {i : Nat} (hu : UF p s i) {b : Blk} (h : FwdOk p s i b) : CompOk p false b := by
  obtain ⟨⟨h1, h2, h3⟩, h4⟩ := h
  intro h0
  simp only [Bool.false_eq_true, if_false] at h0 ⊢
  rw [h2] at h0 ⊢
  by_cases hb : p.frame = 2
  · obtain ⟨u1, u2, u3, u4⟩ := hu.1 hb
    have hl := hp.two hb
    have hd : dirAt s i ≠ 1 := by
      intro hd
      rw [if_pos hd] at u3
      omega
    rw [if_neg hd] at u3
    exact ⟨by omega, (h4 hd).1⟩
  · obtain ⟨u1, u2, u3⟩ := hu.2 hb
    exact ⟨u2.2, (h4 (by omega)).1⟩

theorem bwdOk_comp {p : Pic} (hp : p.Ok) (hb : p.frame = 2) {s : Sym} {i : Nat} (hu : UF p s i) {b : Blk} (h : BwdOk p s i b) : CompOk p true b := by
  obtain ⟨⟨⟨h1, h2, h3⟩, h4⟩, h5⟩ := h
  intro h0
  simp only [if_true] at h0 ⊢
  rw [h3] at h0 ⊢
  obtain ⟨u1, u2, u3, u4⟩ := hu.1 hb
  have hl := hp.two hb
  have hd : dirAt s i ≠ 0 := by
    intro hd
    rw [if_pos hd] at u4
    omega
  rw [if_neg hd] at u4
  exact ⟨by omega, h5 hd⟩

theorem fine_fwdVec {p : Pic} (hp : p.Ok) {st : St} {slice : Int} {cx cy : Nat} {s : Sym} {u : Cb} {i : Nat} (hu : UF p s i)
    (ha : Around p (cx + u.x / 4) (cy + u.y / 4) (u.w / 4) (At st (CompOk p false))) :
    Fine (fwdVec p st slice cx cy s u i) fun v => p.frame ≠ 2 → v.2.isSome := by
  unfold fwdVec
  dsimp only
  refine Fine.bind (fine_mvp ha (fun h2 => (hu.2 h2).2.1) hp.two) fun pred _ => ?_
  refine Fine.ite (fun h2 => Fine.pure fun h => absurd h2 h) fun h2 => ?_
  obtain ⟨u1, u2, u3⟩ := hu.2 h2
  refine Fine.ite (fun h4 => ?_) fun _ => Fine.pure fun _ => rfl
  rw [if_pos (show dirAt s i = 4 from h4)] at u3
  have hr : ∀ r, r = s.refs.getD i (-1, -1) → (0 ≤ r.1 ∧ r.1 < p.refs.length) ∧ (0 ≤ r.2 ∧ r.2 < p.refs.length ∧ r.2 = (if r.1 = 0 then 1 else 0)) := by
    intro r e
    subst e
    exact ⟨u2, u3⟩
  have hr := hr _ rfl
  refine Fine.bind (fine_dist _ hr.1.1 hr.1.2) fun _ _ => Fine.bind (fine_dist _ ?_ ?_) fun _ _ => Fine.bind (fine_skipScale _ _ _ _) fun _ _ => Fine.pure fun _ => rfl
  · split_ifs <;> omega
  · split_ifs <;> omega

theorem fine_bwdVec {p : Pic} (hp : p.Ok) (h2 : p.frame = 2) {st : St} {slice : Int} {cx cy : Nat} {s : Sym} {u : Cb} {i : Nat}
    (ha : Around p (cx + u.x / 4) (cy + u.y / 4) (u.w / 4) (At st (CompOk p true)))
    (hf : At st (FwdOk p s i) (cx + u.x / 4) (cy + u.y / 4)) :
    Fine (bwdVec p st slice cx cy s u i) fun _ => True := by
  have hl := hp.two h2
  unfold bwdVec
  dsimp only
  refine Fine.bind (fine_mvp ha (fun h => absurd h2 h) hp.two) fun pred _ => ?_
  refine Fine.ite (fun h4 => ?_) fun _ => trivial
  obtain ⟨b, hb, hb'⟩ := hf
  rw [hb]
  have h4' : dirAt s i = 2 := h4
  exact Fine.bind (fine_known (hb'.2 (by omega)).1) fun _ _ => Fine.bind (fine_dist _ (by omega) (by omega)) fun _ _ => Fine.bind (fine_dist _ (by omega) (by omega)) fun _ _ =>
    Fine.bind (fine_skipScale _ _ _ _) fun _ _ => trivial

/-- Each unit finds complete blocks around it, if those in `K` and those of the units before it are complete. -/
def Chain (p : Pic) (cx cy : Nat) : (Nat → Nat → Prop) → List (Cb × Nat) → Prop
  | _, [] => True
  | K, (u, _) :: us => Around p (cx + u.x / 4) (cy + u.y / 4) (u.w / 4) K ∧ Chain p cx cy (fun X Y => K X Y ∨ InU cx cy u X Y) us

/-- Writing forward vectors keeps what is known about a block. -/
theorem at_fwd {st : St} {cx cy : Nat} {u : Cb} {v : Vec} {v2 : Option Vec} {c : Prop} [Decidable c] {G : Blk → Prop}
    (hG : ∀ b, G b → G ⟨b.dir, b.r1, b.r2, some v, if c then b.v2 else v2⟩) {X Y : Nat} (h : At st G X Y) :
    At { st with mot := rect st.mot (cx + u.x / 4) (cy + u.y / 4) (u.w / 4) (u.h / 4) fun o =>
        ⟨(o.getD noBlk).dir, (o.getD noBlk).r1, (o.getD noBlk).r2, some v, if c then (o.getD noBlk).v2 else v2⟩ } G X Y := by
  by_cases hu : InU cx cy u X Y
  · obtain ⟨b, hb, hb'⟩ := h
    apply at_rect_in hu
    rw [hb]
    exact hG b hb'
  · exact at_rect_out hu h

theorem at_bwd {st : St} {cx cy : Nat} {u : Cb} {v : Vec} {G : Blk → Prop} (hG : ∀ b, G b → G ⟨b.dir, b.r1, b.r2, b.v1, some v⟩)
    {X Y : Nat} (h : At st G X Y) :
    At { st with mot := rect st.mot (cx + u.x / 4) (cy + u.y / 4) (u.w / 4) (u.h / 4) fun o =>
        ⟨(o.getD noBlk).dir, (o.getD noBlk).r1, (o.getD noBlk).r2, (o.getD noBlk).v1, some v⟩ } G X Y := by
  by_cases hu : InU cx cy u X Y
  · obtain ⟨b, hb, hb'⟩ := h
    apply at_rect_in hu
    rw [hb]
    exact hG b hb'
  · exact at_rect_out hu h

theorem fine_forward {p : Pic} (hp : p.Ok) {slice : Int} {cx cy : Nat} {s : Sym} {us0 : List (Cb × Nat)} (hu : ∀ q ∈ us0, UF p s q.2)
    {D : Nat → Nat → Prop} (hD : ∀ X Y, D X Y → ∀ q ∈ us0, ¬ InU cx cy q.1 X Y) :
    ∀ (us dn : List (Cb × Nat)) (st : St) (K : Nat → Nat → Prop), (∀ q ∈ us, q ∈ us0) → (∀ X Y, K X Y → At st (CompOk p false) X Y) → Chain p cx cy K us →
      (∀ q ∈ us, ∀ X Y, InU cx cy q.1 X Y → At st (Stored s q.2) X Y) → (∀ q ∈ dn, ∀ X Y, InU cx cy q.1 X Y → At st (FwdOk p s q.2) X Y) → Inv p D st →
      Fine (forward p slice cx cy s st us) fun st' => Inv p D st' ∧ st'.slice = st.slice ∧ st'.cu = st.cu ∧
        ∀ q, q ∈ dn ∨ q ∈ us → ∀ X Y, InU cx cy q.1 X Y → At st' (FwdOk p s q.2) X Y := by
  intro us
  induction us with
  | nil =>
    intro dn st K _ _ _ _ hdn hi
    exact Fine.pure ⟨hi, rfl, rfl, fun q hq => hdn q (hq.resolve_right (by simp))⟩
  | cons q us ih =>
    obtain ⟨u, i⟩ := q
    intro dn st K hs hK hc hst hdn hi
    have hm := hs _ (List.mem_cons_self ..)
    have huf := hu _ hm
    obtain ⟨ha, hc⟩ := hc
    unfold forward
    refine Fine.ite (fun h1 => ?_) fun h1 => Fine.bind (fine_fwdVec hp huf (ha.mono hK)) fun v hv => ?_
    · have hdir : dirAt s i = 1 := h1
      have hnew : ∀ X Y, InU cx cy u X Y → At st (FwdOk p s i) X Y := by
        intro X Y h
        obtain ⟨b, hb, hb'⟩ := hst _ (List.mem_cons_self ..) X Y h
        exact ⟨b, hb, hb', fun h => absurd hdir h⟩
      refine (ih ((u, i) :: dn) st _ (fun q hq => hs q (List.mem_cons_of_mem _ hq)) ?_ hc (fun q hq => hst q (List.mem_cons_of_mem _ hq)) ?_ hi).mono ?_
      · intro X Y h
        rcases h with h | h
        · exact hK X Y h
        · obtain ⟨b, hb, hb'⟩ := hnew X Y h
          exact ⟨b, hb, fwdOk_comp hp huf hb'⟩
      · intro q hq
        rcases List.mem_cons.mp hq with rfl | hq
        · exact hnew
        · exact hdn q hq
      · rintro st' ⟨r1, r2, r3, r4⟩
        refine ⟨r1, r2, r3, fun q hq => r4 q ?_⟩
        rcases hq with hq | hq
        · exact Or.inl (List.mem_cons_of_mem _ hq)
        · rcases List.mem_cons.mp hq with rfl | hq
          · exact Or.inl (List.mem_cons_self ..)
          · exact Or.inr hq
    · have keepF : ∀ j b, FwdOk p s j b → FwdOk p s j ⟨b.dir, b.r1, b.r2, some v.1, if p.frame = 2 then b.v2 else v.2⟩ := by
        intro j b hb
        refine ⟨hb.1, fun hj => ⟨rfl, fun h2 => ?_⟩⟩
        dsimp only
        rw [if_neg h2]
        exact hv h2
      have hnew : ∀ X Y, InU cx cy u X Y → At { st with mot := rect st.mot (cx + u.x / 4) (cy + u.y / 4) (u.w / 4) (u.h / 4) fun o =>
          ⟨(o.getD noBlk).dir, (o.getD noBlk).r1, (o.getD noBlk).r2, some v.1, if p.frame = 2 then (o.getD noBlk).v2 else v.2⟩ } (FwdOk p s i) X Y := by
        intro X Y h
        obtain ⟨b, hb, hb'⟩ := hst _ (List.mem_cons_self ..) X Y h
        apply at_rect_in h
        rw [hb]
        refine ⟨hb', fun hj => ⟨rfl, fun h2 => ?_⟩⟩
        dsimp only
        rw [if_neg h2]
        exact hv h2
      refine (ih ((u, i) :: dn) _ _ (fun q hq => hs q (List.mem_cons_of_mem _ hq)) ?_ hc ?_ ?_ ?_).mono ?_
      · intro X Y h
        rcases h with h | h
        · refine at_fwd ?_ (hK X Y h)
          intro b hb h0
          exact ⟨(hb h0).1, rfl⟩
        · obtain ⟨b, hb, hb'⟩ := hnew X Y h
          exact ⟨b, hb, fwdOk_comp hp huf hb'⟩
      · intro q hq X Y h
        exact at_fwd (fun b hb => hb) (hst q (List.mem_cons_of_mem _ hq) X Y h)
      · intro q hq
        rcases List.mem_cons.mp hq with rfl | hq
        · exact hnew
        · intro X Y h
          exact at_fwd (keepF _) (hdn q hq X Y h)
      · intro X Y h
        exact at_rect_out (hD X Y h _ hm) (hi X Y h)
      · rintro st' ⟨r1, r2, r3, r4⟩
        refine ⟨r1, r2, r3, fun q hq => r4 q ?_⟩
        rcases hq with hq | hq
        · exact Or.inl (List.mem_cons_of_mem _ hq)
        · rcases List.mem_cons.mp hq with rfl | hq
          · exact Or.inl (List.mem_cons_self ..)
          · exact Or.inr hq

theorem fine_backward {p : Pic} (hp : p.Ok) (h2 : p.frame = 2) {slice : Int} {cx cy : Nat} {s : Sym} {us0 : List (Cb × Nat)} (hu : ∀ q ∈ us0, UF p s q.2)
    (hpos : ∀ q ∈ us0, 0 < q.1.w / 4 ∧ 0 < q.1.h / 4)
    {D : Nat → Nat → Prop} (hD : ∀ X Y, D X Y → ∀ q ∈ us0, ¬ InU cx cy q.1 X Y) :
    ∀ (us dn : List (Cb × Nat)) (st : St) (K : Nat → Nat → Prop), (∀ q ∈ us, q ∈ us0) → (∀ X Y, K X Y → At st (CompOk p true) X Y) → Chain p cx cy K us →
      (∀ q ∈ us, ∀ X Y, InU cx cy q.1 X Y → At st (FwdOk p s q.2) X Y) → (∀ q ∈ dn, ∀ X Y, InU cx cy q.1 X Y → At st (BwdOk p s q.2) X Y) → Inv p D st →
      Fine (backward p slice cx cy s st us) fun st' => Inv p D st' ∧ st'.slice = st.slice ∧ st'.cu = st.cu ∧
        ∀ q, q ∈ dn ∨ q ∈ us → ∀ X Y, InU cx cy q.1 X Y → At st' (BwdOk p s q.2) X Y := by
  intro us
  induction us with
  | nil =>
    intro dn st K _ _ _ _ hdn hi
    exact Fine.pure ⟨hi, rfl, rfl, fun q hq => hdn q (hq.resolve_right (by simp))⟩
  | cons q us ih =>
    obtain ⟨u, i⟩ := q
    intro dn st K hs hK hc hst hdn hi
    have hm := hs _ (List.mem_cons_self ..)
    have huf := hu _ hm
    obtain ⟨ha, hc⟩ := hc
    unfold backward
    have hfirst : InU cx cy u (cx + u.x / 4) (cy + u.y / 4) := by
      have := hpos _ hm
      exact ⟨Nat.le_refl _, by dsimp only at this; omega, Nat.le_refl _, by dsimp only at this; omega⟩
    refine Fine.ite (fun h1 => ?_) fun h1 => Fine.bind (fine_bwdVec hp h2 (ha.mono hK) (hst _ (List.mem_cons_self ..) _ _ hfirst)) fun v _ => ?_
    · have hdir : dirAt s i = 0 := h1
      have hnew : ∀ X Y, InU cx cy u X Y → At st (BwdOk p s i) X Y := by
        intro X Y h
        obtain ⟨b, hb, hb'⟩ := hst _ (List.mem_cons_self ..) X Y h
        exact ⟨b, hb, hb', fun h => absurd hdir h⟩
      refine (ih ((u, i) :: dn) st _ (fun q hq => hs q (List.mem_cons_of_mem _ hq)) ?_ hc (fun q hq => hst q (List.mem_cons_of_mem _ hq)) ?_ hi).mono ?_
      · intro X Y h
        rcases h with h | h
        · exact hK X Y h
        · obtain ⟨b, hb, hb'⟩ := hnew X Y h
          exact ⟨b, hb, bwdOk_comp hp h2 huf hb'⟩
      · intro q hq
        rcases List.mem_cons.mp hq with rfl | hq
        · exact hnew
        · exact hdn q hq
      · rintro st' ⟨r1, r2, r3, r4⟩
        refine ⟨r1, r2, r3, fun q hq => r4 q ?_⟩
        rcases hq with hq | hq
        · exact Or.inl (List.mem_cons_of_mem _ hq)
        · rcases List.mem_cons.mp hq with rfl | hq
          · exact Or.inl (List.mem_cons_self ..)
          · exact Or.inr hq
    · have keepF : ∀ j b, FwdOk p s j b → FwdOk p s j ⟨b.dir, b.r1, b.r2, b.v1, some v⟩ := by
        intro j b hb
        exact ⟨hb.1, fun hj => ⟨(hb.2 hj).1, fun _ => rfl⟩⟩
      have keepB : ∀ j b, BwdOk p s j b → BwdOk p s j ⟨b.dir, b.r1, b.r2, b.v1, some v⟩ := by
        intro j b hb
        exact ⟨keepF j b hb.1, fun _ => rfl⟩
      have hnew : ∀ X Y, InU cx cy u X Y → At { st with mot := rect st.mot (cx + u.x / 4) (cy + u.y / 4) (u.w / 4) (u.h / 4) fun o =>
          ⟨(o.getD noBlk).dir, (o.getD noBlk).r1, (o.getD noBlk).r2, (o.getD noBlk).v1, some v⟩ } (BwdOk p s i) X Y := by
        intro X Y h
        obtain ⟨b, hb, hb'⟩ := hst _ (List.mem_cons_self ..) X Y h
        apply at_rect_in h
        rw [hb]
        exact ⟨keepF i b hb', fun _ => rfl⟩
      refine (ih ((u, i) :: dn) _ _ (fun q hq => hs q (List.mem_cons_of_mem _ hq)) ?_ hc ?_ ?_ ?_).mono ?_
      · intro X Y h
        rcases h with h | h
        · refine at_bwd ?_ (hK X Y h)
          intro b hb h0
          exact ⟨(hb h0).1, rfl⟩
        · obtain ⟨b, hb, hb'⟩ := hnew X Y h
          exact ⟨b, hb, bwdOk_comp hp h2 huf hb'⟩
      · intro q hq X Y h
        exact at_bwd (keepF _) (hst q (List.mem_cons_of_mem _ hq) X Y h)
      · intro q hq
        rcases List.mem_cons.mp hq with rfl | hq
        · exact hnew
        · intro X Y h
          exact at_bwd (keepB _) (hdn q hq X Y h)
      · intro X Y h
        exact at_rect_out (hD X Y h _ hm) (hi X Y h)
      · rintro st' ⟨r1, r2, r3, r4⟩
        refine ⟨r1, r2, r3, fun q hq => r4 q ?_⟩
        rcases hq with hq | hq
        · exact Or.inl (List.mem_cons_of_mem _ hq)
        · rcases List.mem_cons.mp hq with rfl | hq
          · exact Or.inl (List.mem_cons_self ..)
          · exact Or.inr hq

/-! Storing references -/

theorem storeUnits_out {cx cy : Nat} {val : Nat → Option Blk → Blk} {X Y : Nat} : ∀ (us : List (Cb × Nat)) (mot : Nat → Nat → Option Blk),
    (∀ q ∈ us, ¬ InU cx cy q.1 X Y) → storeUnits cx cy val mot us X Y = mot X Y := by
  intro us
  induction us with
  | nil => intro mot _; rfl
  | cons q us ih =>
    obtain ⟨u, i⟩ := q
    intro mot h
    unfold storeUnits
    rw [ih _ fun q hq => h q (List.mem_cons_of_mem _ hq)]
    exact rect_out (h _ (List.mem_cons_self ..))

theorem storeUnits_in {cx cy : Nat} {val : Nat → Option Blk → Blk} {X Y : Nat} : ∀ (us : List (Cb × Nat)) (mot : Nat → Nat → Option Blk),
    us.Pairwise (fun q r => ¬ (InU cx cy q.1 X Y ∧ InU cx cy r.1 X Y)) → ∀ q ∈ us, InU cx cy q.1 X Y →
      ∃ o, storeUnits cx cy val mot us X Y = some (val q.2 o) := by
  intro us
  induction us with
  | nil => intro mot _ q hq; cases hq
  | cons q us ih =>
    obtain ⟨u, i⟩ := q
    intro mot hp r hr hin
    rw [List.pairwise_cons] at hp
    unfold storeUnits
    rcases List.mem_cons.mp hr with rfl | hr
    · rw [storeUnits_out us _ fun q hq hq' => hp.1 q hq ⟨hin, hq'⟩]
      exact ⟨_, rect_in hin⟩
    · exact ih _ hp.2 r hr hin

end Davs2.Mo
