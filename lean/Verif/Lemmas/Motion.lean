import Verif.Spec.Motion
import Verif.Lemmas.MotionGeo
/-
Lemmas for C85: no step of the derivation of motion data fails.
-/
namespace Davs2.Mo
open Davs2.Sx Davs2.Un

variable {α β : Type}

theorem Fine.pure {a : α} {Q : α → Prop} (h : Q a) : Fine (pure a) Q := h

theorem Fine.bind {m : M α} {f : α → M β} {Q : α → Prop} {R : β → Prop} (h : Fine m Q) (h' : ∀ a, Q a → Fine (f a) R) :
    Fine (m >>= f) R := by
  match m, h with
  | .ok a, h => exact h' a h
  | .error e, h => exact h

theorem Fine.mono {m : M α} {Q R : α → Prop} (h : Fine m Q) (h' : ∀ a, Q a → R a) : Fine m R := by
  match m, h with
  | .ok a, h => exact h' a h
  | .error e, h => exact h

theorem Fine.ite {c : Prop} [Decidable c] {a b : M α} {Q : α → Prop} (h1 : c → Fine a Q) (h2 : ¬ c → Fine b Q) :
    Fine (if c then a else b) Q := by
  by_cases h : c
  · rw [if_pos h]; exact h1 h
  · rw [if_neg h]; exact h2 h

theorem fine_arith (o : Option α) : Fine (arith o) fun _ => True := by
  cases o
  · rfl
  · trivial

theorem fine_known {o : Option α} (h : o.isSome) : Fine (known o) fun a => o = some a := by
  cases o
  · cases h
  · rfl

theorem fine_fref {p : Pic} (k : Int) (h0 : 0 ≤ k) (h1 : k < p.refs.length) (h4 : p.refs.length ≤ 4) :
    Fine (fref p k) fun f => p.refs[k.toNat]? = some f := by
  unfold fref
  rw [if_pos ⟨h0, by omega⟩]
  have : k.toNat < p.refs.length := by omega
  rw [List.getElem?_eq_getElem this]
  exact Fine.pure rfl

theorem fine_dist {p : Pic} (k : Int) (h0 : 0 ≤ k) (h1 : k < p.refs.length) : Fine (distAt p k) fun d => d = p.dist k.toNat := by
  unfold distAt
  rw [if_pos ⟨h0, h1⟩]
  exact Fine.pure rfl

theorem fine_dist_saved {f : Saved} (k : Int) (h0 : 0 ≤ k) (h1 : k < f.nrefs) : Fine (f.distAt k) fun _ => True := by
  unfold Saved.distAt
  rw [if_pos ⟨h0, h1⟩]
  trivial

/-- The block at `(X, Y)` is known and satisfies `G`. -/
def At (st : St) (G : Blk → Prop) (X Y : Nat) : Prop := ∃ b, st.mot X Y = some b ∧ G b

theorem fine_neighbor {p : Pic} {st : St} {G : Blk → Prop} (slice : Int) (x y : Int)
    (h : 0 ≤ x → 0 ≤ y → x < p.w → y < p.h → At st G x.toNat y.toNat) :
    Fine (neighbor p st slice x y) fun o => ∀ b, o = some b → G b := by
  unfold neighbor
  refine Fine.ite (fun _ => Fine.pure (by intro b hb; cases hb)) fun h1 => Fine.ite (fun _ => Fine.pure (by intro b hb; cases hb)) fun _ => ?_
  obtain ⟨b, hb, hg⟩ := h (by omega) (by omega) (by omega) (by omega)
  rw [hb]
  exact Fine.pure (by intro b' hb'; cases hb'; exact hg)

theorem getD_noBlk {G : Blk → Prop} (h0 : G noBlk) {o : Option Blk} (h : ∀ b, o = some b → G b) : G (o.getD noBlk) := by
  cases o
  · exact h0
  · exact h _ rfl

theorem fine_tr {p : Pic} {x y bw : Nat} {b : Bool} (h : Qt.availTR p.lcu x y bw = some b) : Fine (trAvail p x y bw) fun c => c = b := by
  unfold trAvail
  rw [h]
  exact Fine.pure rfl

/-- Blocks the prediction of a block looks at. -/
structure Around (p : Pic) (x y bw : Nat) (G : Nat → Nat → Prop) : Prop where
  left : 0 < x → G (x - 1) y
  top : 0 < y → G x (y - 1)
  topLeft : 0 < x → 0 < y → G (x - 1) (y - 1)
  tr : ∃ b, Qt.availTR p.lcu x y bw = some b ∧ (b = true → 0 < y → x + bw < p.w → G (x + bw) (y - 1))

theorem fine_nb_left {p : Pic} {st : St} {G : Blk → Prop} {slice : Int} {x y bw : Nat} (h : Around p x y bw (At st G)) :
    Fine (neighbor p st slice ((x : Int) - 1) y) fun o => ∀ b, o = some b → G b :=
  fine_neighbor _ _ _ fun h1 _ _ _ => by
    have := h.left (by omega)
    rwa [show ((x : Int) - 1).toNat = x - 1 by omega, show ((y : Int)).toNat = y by omega]

theorem fine_nb_top {p : Pic} {st : St} {G : Blk → Prop} {slice : Int} {x y bw : Nat} (h : Around p x y bw (At st G)) :
    Fine (neighbor p st slice x ((y : Int) - 1)) fun o => ∀ b, o = some b → G b :=
  fine_neighbor _ _ _ fun h1 h2 _ _ => by
    have := h.top (by omega)
    rwa [show ((y : Int) - 1).toNat = y - 1 by omega, show ((x : Int)).toNat = x by omega]

theorem fine_nb_topLeft {p : Pic} {st : St} {G : Blk → Prop} {slice : Int} {x y bw : Nat} (h : Around p x y bw (At st G)) :
    Fine (neighbor p st slice ((x : Int) - 1) ((y : Int) - 1)) fun o => ∀ b, o = some b → G b :=
  fine_neighbor _ _ _ fun h1 h2 _ _ => by
    have := h.topLeft (by omega) (by omega)
    rwa [show ((y : Int) - 1).toNat = y - 1 by omega, show ((x : Int) - 1).toNat = x - 1 by omega]

theorem fine_nb_tr {p : Pic} {st : St} {G : Blk → Prop} {slice : Int} {x y bw : Nat} {b : Bool} {z : Int}
    (h : b = true → 0 < y → x + bw < p.w → At st G (x + bw) (y - 1)) (hz : z = (x : Int) + bw) :
    Fine (neighbor p st slice (if b then z else -1) ((y : Int) - 1)) fun o => ∀ b, o = some b → G b :=
  fine_neighbor _ _ _ fun h1 h2 h3 _ => by
    cases b
    · simp at h1
    · rw [if_pos rfl] at h3 ⊢
      subst hz
      have := h rfl (by omega) (by omega)
      rwa [show ((y : Int) - 1).toNat = y - 1 by omega, show ((x : Int) + bw).toNat = x + bw by omega]

/-- What the prediction of a vector needs of a neighbour, first or second reference. -/
def CompOk (p : Pic) (bwd : Bool) (b : Blk) : Prop :=
  0 ≤ (if bwd then b.r2 else b.r1) → (if bwd then b.r2 else b.r1) < p.refs.length ∧ (if bwd then b.v2 else b.v1).isSome

theorem compOk_noBlk (p : Pic) (bwd : Bool) : CompOk p bwd noBlk := by
  intro h
  cases bwd <;> simp [noBlk] at h

theorem recheck_cases (p : Pic) (f r : Int) : recheck p f r = r ∨ recheck p f r = -1 := by
  unfold recheck
  dsimp only
  split_ifs <;> simp

theorem fine_nbVec {p : Pic} {f : Int} {bwd : Bool} {b : Blk} (h : CompOk p bwd b) : Fine (nbVec p f bwd b) fun _ => True := by
  unfold nbVec
  dsimp only
  refine Fine.ite (fun h0 => ?_) fun _ => trivial
  have hr := recheck_cases p f (if bwd then b.r2 else b.r1)
  have e : recheck p f (if bwd then b.r2 else b.r1) = if bwd then b.r2 else b.r1 := by omega
  rw [e] at h0
  rw [e]
  obtain ⟨h1, h2⟩ := h h0
  refine Fine.ite (fun _ => Fine.bind (fine_known h2) fun _ _ => trivial) fun _ => ?_
  exact Fine.bind (fine_dist _ h0 h1) fun _ _ => Fine.bind (fine_known h2) fun _ _ => trivial

theorem fine_mvp {p : Pic} {st : St} {slice : Int} {x y bw : Nat} {bwd : Bool} {f : Int} {pu : Nat}
    (h : Around p x y bw (At st (CompOk p bwd))) (hf : p.frame ≠ 2 → 0 ≤ f ∧ f < p.refs.length)
    (hb : p.frame = 2 → p.refs.length = 2) : Fine (mvp p st slice x y bw bwd f pu) fun _ => True := by
  unfold mvp
  obtain ⟨b, hb1, hb2⟩ := h.tr
  refine Fine.bind (fine_tr hb1) fun _ e => ?_
  subst e
  refine Fine.bind (fine_nb_left h) fun l hl => Fine.bind (fine_nb_top h) fun t ht => Fine.bind (fine_nb_topLeft h) fun tl htl =>
    Fine.bind (fine_nb_tr hb2 rfl) fun r hr => ?_
  have n0 := compOk_noBlk p bwd
  refine Fine.bind (fine_nbVec (getD_noBlk n0 hl)) fun a _ => Fine.bind (fine_nbVec (getD_noBlk n0 ht)) fun b _ =>
    Fine.bind (fine_nbVec (getD_noBlk n0 ?_)) fun c _ => ?_
  · cases r
    · exact htl
    · exact hr
  · dsimp only
    refine Fine.bind (Q := fun _ => True) ?_ fun _ _ => fine_arith _
    by_cases h2 : p.frame = 2
    · rw [if_pos h2]
      have := hb h2
      refine (fine_dist _ ?_ ?_).mono fun _ _ => trivial <;> cases bwd <;> simp <;> omega
    · rw [if_neg h2]
      exact (fine_dist _ (hf h2).1 (hf h2).2).mono fun _ _ => trivial

theorem blkOk_noBlk (p : Pic) : BlkOk p noBlk := by
  unfold BlkOk noBlk
  split <;> simp

theorem compOk_of_blkOk {p : Pic} (hb : p.frame = 2 → p.refs.length = 2) {b : Blk} (h : BlkOk p b) (bwd : Bool) : CompOk p bwd b := by
  intro h0
  unfold BlkOk at h
  by_cases h2 : p.frame = 2
  · rw [if_pos h2] at h
    have := hb h2
    obtain ⟨-, h3, h4, h5, h6⟩ := h
    cases bwd
    · simp only [Bool.false_eq_true, if_false] at h0 ⊢
      refine ⟨?_, h5 (by omega)⟩
      split at h3 <;> omega
    · simp only [if_true] at h0 ⊢
      refine ⟨?_, h6 (by omega)⟩
      split at h4 <;> omega
  · rw [if_neg h2] at h
    rcases h with ⟨h3, h4⟩ | ⟨h3, h4, h5, h6⟩
    · cases bwd <;> simp only [Bool.false_eq_true, if_false, if_true] at h0 <;> omega
    · cases bwd
      · simp only [Bool.false_eq_true, if_false] at h0 ⊢
        exact ⟨h3.2, h5⟩
      · simp only [if_true] at h0 ⊢
        exact ⟨by omega, h6⟩

theorem fine_neighbors {p : Pic} (hp : p.Ok) {st : St} {slice : Int} {x y n : Nat} (hn : 0 < n) (h : Around p x y n (At st (BlkOk p)))
    (h2 : 0 < y → At st (BlkOk p) (x + n - 1) (y - 1)) (h3 : 0 < x → At st (BlkOk p) (x - 1) (y + n - 1)) :
    Fine (neighbors p st slice x y n) fun ns => ∀ b ∈ ns, BlkOk p b := by
  unfold neighbors
  obtain ⟨b, hb1, hb2⟩ := h.tr
  refine Fine.bind (fine_tr hb1) fun _ e => ?_
  subst e
  dsimp only
  refine Fine.bind (fine_nb_topLeft h) fun tl htl => Fine.bind (fine_nb_top h) fun t ht => Fine.bind (fine_nb_left h) fun l hl =>
    Fine.bind (fine_nb_tr hb2 (by omega)) fun r hr => ?_
  refine Fine.bind (fine_neighbor (G := BlkOk p) _ _ _ fun _ h' _ _ => ?_) fun t2 ht2 =>
    Fine.bind (fine_neighbor (G := BlkOk p) _ _ _ fun h' _ _ _ => ?_) fun l2 hl2 =>
    Fine.bind (fine_fref 0 (by omega) (by have := hp.some; omega) hp.four) fun _ _ => Fine.pure ?_
  · have := h2 (by omega)
    rwa [show ((x : Int) + n - 1).toNat = x + n - 1 by omega, show ((y : Int) - 1).toNat = y - 1 by omega]
  · have := h3 (by omega)
    rwa [show ((x : Int) - 1).toNat = x - 1 by omega, show ((y : Int) + n - 1).toNat = y + n - 1 by omega]
  · have n0 := blkOk_noBlk p
    intro b hb
    simp only [List.map_cons, List.map_nil, List.mem_cons, List.not_mem_nil, or_false] at hb
    rcases hb with rfl | rfl | rfl | rfl | rfl | rfl <;> apply getD_noBlk n0 <;> assumption

/-- What prediction with direction `d` needs of the motion of a unit. -/
def UseOk (p : Pic) (d : Int) (m : Mv) : Prop :=
  if p.frame = 2 then (0 ≤ d ∧ d ≤ 3) ∧ (d ≠ 1 → m.v1.isSome) ∧ (d ≠ 0 → m.v2.isSome)
  else (0 ≤ m.r1 ∧ m.r1 < p.refs.length ∧ m.v1.isSome) ∧ (d = 0 ∨ (d = 4 ∧ 0 ≤ m.r2 ∧ m.r2 < p.refs.length ∧ m.v2.isSome))

theorem fine_use1 {p : Pic} {k : Int} {v : Option Vec} (h0 : 0 ≤ k) (h1 : k < p.refs.length) (h4 : p.refs.length ≤ 4) (hv : v.isSome) :
    Fine (use1 p k v) fun u => u.ref < p.refs.length ∧ (u.ref : Int) = k := by
  unfold use1
  exact Fine.bind (fine_fref k h0 h1 h4) fun _ _ => Fine.bind (fine_known hv) fun _ _ => Fine.pure (by dsimp only; omega)

theorem fine_use2 {p : Pic} {k l : Int} {v v' : Option Vec} (h0 : 0 ≤ k) (h1 : k < p.refs.length) (h2 : 0 ≤ l) (h3 : l < p.refs.length)
    (h4 : p.refs.length ≤ 4) (hv : v.isSome) (hv' : v'.isSome) :
    Fine (use2 p k v l v') fun u => u.map (fun e => (e.ref : Int)) = [k, l] := by
  unfold use2
  exact Fine.bind (fine_use1 h0 h1 h4 hv) fun a ha => Fine.bind (fine_use1 h2 h3 h4 hv') fun b hb => Fine.pure (by simp [ha.2, hb.2])

/-- The references named by the direction of a unit: B pictures have the forward reference in entry 1 and the backward one in entry 0; with `dmh` one reference is used twice. -/
def named (p : Pic) (d : Int) (dmh : Nat) (m : Mv) : List Int :=
  if p.frame = 2 then (if d = 0 then [1] else if d = 1 then [0] else [1, 0])
  else if d = 4 then [m.r1, m.r2] else if dmh = 0 then [m.r1] else [m.r1, m.r1]

theorem dmhPos_some : ∀ k, k ≤ 8 → ∃ a, dmhPos[k]? = some a := by
  intro k hk
  have : k < dmhPos.length := by rw [show dmhPos.length = 9 from rfl]; omega
  exact ⟨_, List.getElem?_eq_getElem this⟩

theorem fine_uses {p : Pic} (hp : p.Ok) {d : Int} {dmh : Nat} {m : Mv} (h : UseOk p d m) (hd : dmh ≤ 8) :
    Fine (uses p d dmh m) fun us => us.map (fun e => (e.ref : Int)) = named p d dmh m ∧ ∀ k ∈ named p d dmh m, 0 ≤ k ∧ k < p.refs.length := by
  have h4 := hp.four
  have h1 := hp.some
  have single : ∀ (k : Int) (v : Option Vec), 0 ≤ k → k < p.refs.length → v.isSome →
      Fine (do let a ← use1 p k v; pure [a]) fun us => us.map (fun e => (e.ref : Int)) = [k] := by
    intro k v a b c
    exact Fine.bind (fine_use1 a b h4 c) fun _ h => Fine.pure (by simp [h.2])
  unfold UseOk at h
  by_cases h2 : p.frame = 2
  · rw [if_pos h2] at h
    obtain ⟨⟨d0, d3⟩, v1, v2⟩ := h
    have hl := hp.two h2
    have hr : ∀ k ∈ named p d dmh m, 0 ≤ k ∧ k < p.refs.length := by
      intro k hk
      unfold named at hk
      rw [if_pos h2] at hk
      split_ifs at hk <;> simp at hk <;> omega
    refine Fine.mono (Q := fun us => us.map (fun e => (e.ref : Int)) = named p d dmh m) ?_ fun us hu => ⟨hu, hr⟩
    unfold named
    rw [if_pos h2]
    obtain rfl | rfl | rfl | rfl : d = 0 ∨ d = 1 ∨ d = 2 ∨ d = 3 := by omega
    · unfold uses
      rw [if_neg (by decide), if_neg (by decide), if_pos h2, if_pos rfl]
      exact single 1 _ (by omega) (by omega) (v1 (by omega))
    · unfold uses
      rw [if_pos rfl, if_neg (by decide), if_pos rfl]
      exact single 0 _ (by omega) (by omega) (v2 (by omega))
    · unfold uses
      rw [if_neg (by decide), if_pos (by decide), if_neg (by decide), if_neg (by decide)]
      exact fine_use2 (by omega) (by omega) (by omega) (by omega) h4 (v1 (by omega)) (v2 (by omega))
    · unfold uses
      rw [if_neg (by decide), if_pos (by decide), if_neg (by decide), if_neg (by decide)]
      exact fine_use2 (by omega) (by omega) (by omega) (by omega) h4 (v1 (by omega)) (v2 (by omega))
  · rw [if_neg h2] at h
    obtain ⟨⟨r0, r1, v1⟩, hd2⟩ := h
    unfold named
    rw [if_neg h2]
    rcases hd2 with rfl | ⟨rfl, s0, s1, v2⟩
    · unfold uses
      rw [if_neg (by decide), if_neg (by decide), if_neg h2, if_neg (by decide)]
      simp only [show ¬ (0 : Int) = 4 by decide, if_false]
      by_cases hz : dmh = 0
      · rw [if_neg (by omega), if_pos hz]
        refine (single _ _ r0 r1 v1).mono fun us hu => ⟨hu, ?_⟩
        intro k hk
        rw [List.mem_singleton] at hk
        subst hk
        exact ⟨r0, r1⟩
      · rw [if_pos hz, if_neg hz]
        obtain ⟨⟨a, b⟩, e⟩ := dmhPos_some dmh hd
        rw [e]
        refine (fine_use2 r0 r1 r0 r1 h4 (by rw [Option.isSome_map]; exact v1) (by rw [Option.isSome_map]; exact v1)).mono fun us hu => ⟨hu, ?_⟩
        intro k hk
        simp only [List.mem_cons, List.not_mem_nil, or_false, or_self] at hk
        subst hk
        exact ⟨r0, r1⟩
    · unfold uses
      rw [if_neg (by decide), if_neg (by decide), if_neg h2, if_pos rfl, if_pos rfl]
      refine (fine_use2 r0 r1 s0 s1 h4 v1 v2).mono fun us hu => ⟨hu, ?_⟩
      intro k hk
      simp only [List.mem_cons, List.not_mem_nil, or_false] at hk
      rcases hk with rfl | rfl
      · exact ⟨r0, r1⟩
      · exact ⟨s0, s1⟩

end Davs2.Mo
