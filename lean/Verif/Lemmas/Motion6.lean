import Verif.Lemmas.Motion5
/-
Lemmas for C86: two runs side by side, one coding unit.
-/
namespace Davs2.Mo
open Davs2.Un

variable {α β γ δ : Type}

/-- Both end in the same fault, or with results in relation `R`. -/
def Rel (R : α → β → Prop) : M α → M β → Prop
  | .ok a, .ok b => R a b
  | .error e, .error e' => e = e'
  | _, _ => False

theorem Rel.pure {R : α → β → Prop} {a : α} {b : β} (h : R a b) : Rel R (pure a) (pure b) := h

theorem Rel.of_eq {m m' : M α} (h : m = m') : Rel Eq m m' := by
  subst h
  cases m <;> exact rfl

theorem Rel.bind {R : α → β → Prop} {S : γ → δ → Prop} {m : M α} {m' : M β} {f : α → M γ} {g : β → M δ} (h : Rel R m m') (h' : ∀ a b, R a b → Rel S (f a) (g b)) :
    Rel S (m >>= f) (m' >>= g) := by
  cases m <;> cases m'
  · exact h
  · exact h.elim
  · exact h.elim
  · exact h' _ _ h

theorem Rel.bind_eq {S : γ → δ → Prop} {m m' : M α} {f : α → M γ} {g : α → M δ} (h : m = m') (h' : ∀ a, Rel S (f a) (g a)) : Rel S (m >>= f) (m' >>= g) :=
  Rel.bind (Rel.of_eq h) fun a b e => by subst e; exact h' a

theorem Rel.ite {R : α → β → Prop} {c : Prop} [Decidable c] {a b : M α} {a' b' : M β} (h1 : c → Rel R a a') (h2 : ¬ c → Rel R b b') :
    Rel R (if c then a else b) (if c then a' else b') := by
  by_cases h : c
  · rw [if_pos h, if_pos h]; exact h1 h
  · rw [if_neg h, if_neg h]; exact h2 h

theorem Rel.mono {R S : α → β → Prop} {m : M α} {m' : M β} (h : Rel R m m') (h' : ∀ a b, R a b → S a b) : Rel S m m' := by
  cases m <;> cases m'
  · exact h
  · exact h.elim
  · exact h.elim
  · exact h' _ _ h

/-- For blocks in `K` the slice numbers are the same, and for those of slice `s` also the motion. -/
def Sim (s : Int) (K : Nat → Nat → Prop) (st st' : St) : Prop :=
  ∀ X Y, K X Y → st.slice (X / 2) (Y / 2) = st'.slice (X / 2) (Y / 2) ∧ (st.slice (X / 2) (Y / 2) = s → st.mot X Y = st'.mot X Y)

theorem neighbor_eq {p : Pic} {s : Int} {K : Nat → Nat → Prop} {st st' : St} (h : Sim s K st st') (x y : Int)
    (hk : 0 ≤ x → 0 ≤ y → x < p.w → y < p.h → K x.toNat y.toNat) : neighbor p st s x y = neighbor p st' s x y := by
  unfold neighbor
  by_cases hb : y < 0 ∨ y ≥ p.h ∨ x < 0 ∨ x ≥ p.w
  · rw [if_pos hb, if_pos hb]
  · rw [if_neg hb, if_neg hb]
    obtain ⟨e1, e2⟩ := h _ _ (hk (by omega) (by omega) (by omega) (by omega))
    by_cases hs : st.slice (x.toNat / 2) (y.toNat / 2) = s
    · rw [if_neg (not_not.mpr hs), if_neg (by rw [← e1]; exact not_not.mpr hs), e2 hs]
    · rw [if_pos hs, if_pos (by rw [← e1]; exact hs)]

theorem nb_left {p : Pic} {s : Int} {K : Nat → Nat → Prop} {st st' : St} (h : Sim s K st st') {x y bw : Nat} (ha : Around p x y bw K) :
    neighbor p st s ((x : Int) - 1) y = neighbor p st' s ((x : Int) - 1) y :=
  neighbor_eq h _ _ fun h1 _ _ _ => by
    have := ha.left (by omega)
    rwa [show ((x : Int) - 1).toNat = x - 1 by omega, show ((y : Int)).toNat = y by omega]

theorem nb_top {p : Pic} {s : Int} {K : Nat → Nat → Prop} {st st' : St} (h : Sim s K st st') {x y bw : Nat} (ha : Around p x y bw K) :
    neighbor p st s (x : Int) ((y : Int) - 1) = neighbor p st' s (x : Int) ((y : Int) - 1) :=
  neighbor_eq h _ _ fun _ h2 _ _ => by
    have := ha.top (by omega)
    rwa [show ((y : Int) - 1).toNat = y - 1 by omega, show ((x : Int)).toNat = x by omega]

theorem nb_topLeft {p : Pic} {s : Int} {K : Nat → Nat → Prop} {st st' : St} (h : Sim s K st st') {x y bw : Nat} (ha : Around p x y bw K) :
    neighbor p st s ((x : Int) - 1) ((y : Int) - 1) = neighbor p st' s ((x : Int) - 1) ((y : Int) - 1) :=
  neighbor_eq h _ _ fun h1 h2 _ _ => by
    have := ha.topLeft (by omega) (by omega)
    rwa [show ((y : Int) - 1).toNat = y - 1 by omega, show ((x : Int) - 1).toNat = x - 1 by omega]

theorem nb_tr {p : Pic} {s : Int} {K : Nat → Nat → Prop} {st st' : St} (h : Sim s K st st') {x y bw : Nat} {b : Bool} {z : Int}
    (ha : b = true → 0 < y → x + bw < p.w → K (x + bw) (y - 1)) (hz : z = (x : Int) + bw) :
    neighbor p st s (if b then z else -1) ((y : Int) - 1) = neighbor p st' s (if b then z else -1) ((y : Int) - 1) :=
  neighbor_eq h _ _ fun h1 h2 h3 _ => by
    cases b
    · simp at h1
    · rw [if_pos rfl] at h3 ⊢
      subst hz
      have := ha rfl (by omega) (by omega)
      rwa [show ((y : Int) - 1).toNat = y - 1 by omega, show ((x : Int) + bw).toNat = x + bw by omega]

theorem bind_congr' {m : M α} {f g : α → M β} (h : ∀ a, f a = g a) : m >>= f = m >>= g := by
  have : f = g := funext h
  rw [this]

theorem mvp_eq {p : Pic} {s : Int} {K : Nat → Nat → Prop} {st st' : St} (h : Sim s K st st') {x y bw : Nat} (ha : Around p x y bw K) (bwd : Bool) (f : Int) (pu : Nat) :
    mvp p st s x y bw bwd f pu = mvp p st' s x y bw bwd f pu := by
  obtain ⟨b, hb1, hb2⟩ := ha.tr
  have et : trAvail p x y bw = pure b := by unfold trAvail; rw [hb1]
  unfold mvp
  rw [et]
  simp only [pure_bind]
  rw [nb_left h ha, nb_top h ha, nb_topLeft h ha, nb_tr h hb2 rfl]

theorem neighbors_eq {p : Pic} {s : Int} {K : Nat → Nat → Prop} {st st' : St} (h : Sim s K st st') {x y n : Nat} (hn : 0 < n) (ha : Around p x y n K)
    (h2 : 0 < y → K (x + n - 1) (y - 1)) (h3 : 0 < x → K (x - 1) (y + n - 1)) : neighbors p st s x y n = neighbors p st' s x y n := by
  obtain ⟨b, hb1, hb2⟩ := ha.tr
  have et : trAvail p x y n = pure b := by unfold trAvail; rw [hb1]
  unfold neighbors
  rw [et]
  simp only [pure_bind]
  rw [nb_left h ha, nb_top h ha, nb_topLeft h ha, nb_tr h hb2 (by omega)]
  rw [neighbor_eq (p := p) h ((x : Int) + n - 1) ((y : Int) - 1) ?_, neighbor_eq (p := p) h ((x : Int) - 1) ((y : Int) + n - 1) ?_]
  · intro h1 _ _ _
    have := h3 (by omega)
    rwa [show ((x : Int) - 1).toNat = x - 1 by omega, show ((y : Int) + n - 1).toNat = y + n - 1 by omega]
  · intro _ h1 _ _
    have := h2 (by omega)
    rwa [show ((x : Int) + n - 1).toNat = x + n - 1 by omega, show ((y : Int) - 1).toNat = y - 1 by omega]

/-- Two runs that write blocks in `C` only, where they agree. -/
structure Step (C : Nat → Nat → Prop) (a a' st st' : St) : Prop where
  slice : st.slice = a.slice
  slice' : st'.slice = a'.slice
  cu : st.cu = a.cu
  cu' : st'.cu = a'.cu
  out : ∀ X Y, ¬ C X Y → st.mot X Y = a.mot X Y ∧ st'.mot X Y = a'.mot X Y
  inn : ∀ X Y, C X Y → st.mot X Y = st'.mot X Y

theorem Step.sim {s : Int} {C D : Nat → Nat → Prop} {a a' st st' : St} (h : Step C a a' st st') (hs : Sim s D a a')
    (hc : ∀ X Y, C X Y → a.slice (X / 2) (Y / 2) = s ∧ a'.slice (X / 2) (Y / 2) = s) : Sim s (fun X Y => D X Y ∨ C X Y) st st' := by
  intro X Y hX
  rw [h.slice, h.slice']
  by_cases hC : C X Y
  · obtain ⟨h1, h2⟩ := hc X Y hC
    exact ⟨h1.trans h2.symm, fun _ => h.inn X Y hC⟩
  · obtain ⟨h1, h2⟩ := hs X Y (hX.resolve_right hC)
    obtain ⟨h3, h4⟩ := h.out X Y hC
    rw [h3, h4]
    exact ⟨h1, h2⟩

theorem Step.rect {C : Nat → Nat → Prop} {a a' st st' : St} (h : Step C a a' st st') {cx cy : Nat} {u : Cb} (hu : ∀ X Y, InU cx cy u X Y → C X Y) (f : Option Blk → Blk) :
    Step C a a' { st with mot := rect st.mot (cx + u.x / 4) (cy + u.y / 4) (u.w / 4) (u.h / 4) f }
      { st' with mot := rect st'.mot (cx + u.x / 4) (cy + u.y / 4) (u.w / 4) (u.h / 4) f } := by
  refine ⟨h.slice, h.slice', h.cu, h.cu', ?_, ?_⟩
  · intro X Y hC
    have hn : ¬ InU cx cy u X Y := fun hi => hC (hu X Y hi)
    obtain ⟨h1, h2⟩ := h.out X Y hC
    exact ⟨(rect_out hn).trans h1, (rect_out hn).trans h2⟩
  · intro X Y hC
    have e := h.inn X Y hC
    by_cases hi : InU cx cy u X Y
    · refine (rect_in hi).trans (Eq.trans ?_ (rect_in hi).symm)
      rw [e]
    · exact (rect_out hi).trans (e.trans (rect_out hi).symm)

theorem Step.store {C : Nat → Nat → Prop} {a a' : St} {cx cy : Nat} {val : Nat → Option Blk → Blk} : ∀ (us : List (Cb × Nat)) (st st' : St), Step C a a' st st' →
    (∀ q ∈ us, ∀ X Y, InU cx cy q.1 X Y → C X Y) →
    Step C a a' { st with mot := storeUnits cx cy val st.mot us } { st' with mot := storeUnits cx cy val st'.mot us } := by
  intro us
  induction us with
  | nil => intro st st' h _; exact h
  | cons q us ih =>
    obtain ⟨u, i⟩ := q
    intro st st' h hu
    exact ih _ _ (h.rect (hu _ (List.mem_cons_self ..)) (val i)) fun q hq => hu q (List.mem_cons_of_mem _ hq)

theorem rel_skipUnits {C : Nat → Nat → Prop} {a a' : St} {cx cy : Nat} {dir : Option Int} {get : St → Nat → Nat → M Mv}
    (hget : ∀ st st', Step C a a' st st' → ∀ X Y, get st X Y = get st' X Y) :
    ∀ (us : List (Cb × Nat)) (st st' : St), Step C a a' st st' → (∀ q ∈ us, ∀ X Y, InU cx cy q.1 X Y → C X Y) →
      Rel (fun r r' => Step C a a' r.1 r'.1 ∧ r.2 = r'.2) (skipUnits cx cy dir get st us) (skipUnits cx cy dir get st' us) := by
  intro us
  induction us with
  | nil => intro st st' h _; exact Rel.pure ⟨h, rfl⟩
  | cons q us ih =>
    obtain ⟨u, i⟩ := q
    intro st st' h hu
    unfold skipUnits
    refine Rel.bind_eq (hget st st' h _ _) fun m => ?_
    refine Rel.bind (ih _ _ (h.rect (hu _ (List.mem_cons_self ..)) _) fun q hq => hu q (List.mem_cons_of_mem _ hq)) fun r r' hr => ?_
    exact Rel.pure ⟨hr.1, by rw [hr.2]⟩

/-- All units of a chain. -/
theorem Chain.all {p : Pic} {cx cy : Nat} {C : Nat → Nat → Prop} : ∀ (us : List (Cb × Nat)) (K : Nat → Nat → Prop), Chain p cx cy K us → (∀ q ∈ us, ∀ X Y, InU cx cy q.1 X Y → C X Y) →
    ∀ q ∈ us, Around p (cx + q.1.x / 4) (cy + q.1.y / 4) (q.1.w / 4) fun X Y => K X Y ∨ C X Y := by
  intro us
  induction us with
  | nil => intro K _ _ q hq; cases hq
  | cons q us ih =>
    obtain ⟨u, i⟩ := q
    intro K h hC r hr
    obtain ⟨h1, h2⟩ := h
    rcases List.mem_cons.mp hr with rfl | hr
    · exact h1.mono fun X Y h => Or.inl h
    · refine (ih _ h2 (fun q hq => hC q (List.mem_cons_of_mem _ hq)) r hr).mono fun X Y h => ?_
      rcases h with (h | h) | h
      · exact Or.inl h
      · exact Or.inr (hC _ (List.mem_cons_self ..) X Y h)
      · exact Or.inr h

theorem rel_forward {p : Pic} {s : Sym} {slice : Int} {C D : Nat → Nat → Prop} {a a' : St} {cx cy : Nat} (hs : Sim slice D a a')
    (hc : ∀ X Y, C X Y → a.slice (X / 2) (Y / 2) = slice ∧ a'.slice (X / 2) (Y / 2) = slice) :
    ∀ (us : List (Cb × Nat)) (st st' : St), Step C a a' st st' → (∀ q ∈ us, ∀ X Y, InU cx cy q.1 X Y → C X Y) →
      (∀ q ∈ us, Around p (cx + q.1.x / 4) (cy + q.1.y / 4) (q.1.w / 4) fun X Y => D X Y ∨ C X Y) →
      Rel (Step C a a') (forward p slice cx cy s st us) (forward p slice cx cy s st' us) := by
  intro us
  induction us with
  | nil => intro st st' h _ _; exact Rel.pure h
  | cons q us ih =>
    obtain ⟨u, i⟩ := q
    intro st st' h hu ha
    unfold forward
    refine Rel.ite (fun _ => ih _ _ h (fun q hq => hu q (List.mem_cons_of_mem _ hq)) fun q hq => ha q (List.mem_cons_of_mem _ hq)) fun _ => ?_
    refine Rel.bind_eq ?_ fun v => ih _ _ (h.rect (hu _ (List.mem_cons_self ..)) _) (fun q hq => hu q (List.mem_cons_of_mem _ hq)) fun q hq => ha q (List.mem_cons_of_mem _ hq)
    unfold fwdVec
    dsimp only
    rw [mvp_eq (h.sim hs hc) (ha _ (List.mem_cons_self ..))]

theorem rel_backward {p : Pic} {s : Sym} {slice : Int} {C D : Nat → Nat → Prop} {a a' : St} {cx cy : Nat} (hs : Sim slice D a a')
    (hc : ∀ X Y, C X Y → a.slice (X / 2) (Y / 2) = slice ∧ a'.slice (X / 2) (Y / 2) = slice) :
    ∀ (us : List (Cb × Nat)) (st st' : St), Step C a a' st st' → (∀ q ∈ us, ∀ X Y, InU cx cy q.1 X Y → C X Y) → (∀ q ∈ us, C (cx + q.1.x / 4) (cy + q.1.y / 4)) →
      (∀ q ∈ us, Around p (cx + q.1.x / 4) (cy + q.1.y / 4) (q.1.w / 4) fun X Y => D X Y ∨ C X Y) →
      Rel (Step C a a') (backward p slice cx cy s st us) (backward p slice cx cy s st' us) := by
  intro us
  induction us with
  | nil => intro st st' h _ _ _; exact Rel.pure h
  | cons q us ih =>
    obtain ⟨u, i⟩ := q
    intro st st' h hu hf ha
    unfold backward
    refine Rel.ite (fun _ => ih _ _ h (fun q hq => hu q (List.mem_cons_of_mem _ hq)) (fun q hq => hf q (List.mem_cons_of_mem _ hq)) fun q hq => ha q (List.mem_cons_of_mem _ hq)) fun _ => ?_
    refine Rel.bind_eq ?_ fun v => ih _ _ (h.rect (hu _ (List.mem_cons_self ..)) _) (fun q hq => hu q (List.mem_cons_of_mem _ hq)) (fun q hq => hf q (List.mem_cons_of_mem _ hq))
      fun q hq => ha q (List.mem_cons_of_mem _ hq)
    unfold bwdVec
    dsimp only
    rw [mvp_eq (h.sim hs hc) (ha _ (List.mem_cons_self ..)), h.inn _ _ (hf _ (List.mem_cons_self ..))]

theorem rel_cuUnits {p : Pic} (hp : p.Ok) {D : Nat → Nat → Prop} {cx cy l : Nat} {s : Sym} {a a' : St} {slice : Int} {old old' : CuRec} (e : Env p D cx cy (2 ^ l / 4))
    (h3 : 3 ≤ l) (h6 : l ≤ 6) (hd : Delivered p l s) (hs : Sim slice D a a')
    (hc : ∀ X Y, InC cx cy (2 ^ l / 4) X Y → a.slice (X / 2) (Y / 2) = slice ∧ a'.slice (X / 2) (Y / 2) = slice)
    (hm : ∀ X Y, InC cx cy (2 ^ l / 4) X Y → a.mot X Y = a'.mot X Y) :
    Rel (fun r r' => Step (InC cx cy (2 ^ l / 4)) a a' r.1 r'.1 ∧ r.2 = r'.2)
      (cuUnits p a slice cx cy (2 ^ l / 4) (puUnits p.frame s.ds s.mode l).zipIdx old s)
      (cuUnits p a' slice cx cy (2 ^ l / 4) (puUnits p.frame s.ds s.mode l).zipIdx old' s) := by
  have ho := units_ok (frame := p.frame) (ds := s.ds) hd.mode hd.type h3 h6
  have h0 : Step (InC cx cy (2 ^ l / 4)) a a' a a' := ⟨rfl, rfl, rfl, rfl, fun _ _ _ => ⟨rfl, rfl⟩, hm⟩
  have hu : ∀ q ∈ (puUnits p.frame s.ds s.mode l).zipIdx, ∀ X Y, InU cx cy q.1 X Y → InC cx cy (2 ^ l / 4) X Y := by
    intro q hq X Y hX
    by_contra hn
    exact out_unit ho hn q hq hX
  have hf : ∀ q ∈ (puUnits p.frame s.ds s.mode l).zipIdx, InC cx cy (2 ^ l / 4) (cx + q.1.x / 4) (cy + q.1.y / 4) := by
    intro q hq
    have := ho.2.1 q.1 (zip_mem hq).1
    exact ⟨by omega, by omega, by omega, by omega⟩
  have en := e.pos
  unfold cuUnits
  refine Rel.ite (fun h8 => Rel.pure ⟨?_, rfl⟩) fun h8 => Rel.ite (fun hm0 => ?_) fun hm0 => ?_
  · exact Step.store _ _ _ h0 hu
  · refine Rel.bind_eq (neighbors_eq hs en e.around (fun _ => e.top _ _ (by omega) (by omega)) fun _ => e.left _ _ (by omega) (by omega)) fun ns => ?_
    refine Rel.ite (fun h2 => Rel.ite (fun _ => ?_) fun _ => ?_) fun h2 => Rel.ite (fun _ => Rel.ite (fun _ => ?_) fun _ => ?_) fun h => absurd hp.frame (by omega)
    · exact rel_skipUnits (fun _ _ _ _ _ => rfl) _ _ _ h0 hu
    · refine rel_skipUnits (fun st st' h X Y => ?_) _ _ _ h0 hu
      unfold bTemporal
      have hsim := h.sim hs hc
      have har : Around p cx cy (2 ^ l / 4) fun X Y => D X Y ∨ InC cx cy (2 ^ l / 4) X Y := e.around.mono fun _ _ h => Or.inl h
      rw [mvp_eq hsim har, mvp_eq hsim har]
    · exact rel_skipUnits (fun _ _ _ _ _ => rfl) _ _ _ h0 hu
    · exact rel_skipUnits (fun _ _ _ _ _ => rfl) _ _ _ h0 hu
  · have hpair := pair_ok (frame := p.frame) (ds := s.ds) (by omega) (by omega) hd.type h3 h6
    have ha := Chain.all _ _ (chain_ok e hpair.2 ho) hu
    refine Rel.bind (rel_forward hs hc _ _ _ (Step.store _ _ _ h0 hu) hu ha) fun st1 st1' h1 => ?_
    refine Rel.bind (R := Step (InC cx cy (2 ^ l / 4)) a a') (Rel.ite (fun _ => rel_backward hs hc _ _ _ h1 hu hf ha) fun _ => Rel.pure h1) fun st2 st2' h2 => Rel.pure ⟨h2, ?_⟩
    refine List.map_congr_left fun q hq => ?_
    unfold unitMv
    rw [h2.inn _ _ (hf q hq)]

/-- What two runs have in common after a coding unit. -/
structure CuStep (C : Nat → Nat → Prop) (c : Qt.Cu) (a a' st st' : St) : Prop where
  slice : st.slice = a.slice
  slice' : st'.slice = a'.slice
  cu : ∀ X Y, ¬ (X = c.x / 8 ∧ Y = c.y / 8) → st.cu X Y = a.cu X Y ∧ st'.cu X Y = a'.cu X Y
  same : st.cu (c.x / 8) (c.y / 8) = st'.cu (c.x / 8) (c.y / 8)
  out : ∀ X Y, ¬ C X Y → st.mot X Y = a.mot X Y ∧ st'.mot X Y = a'.mot X Y
  inn : ∀ X Y, C X Y → st.mot X Y = st'.mot X Y

theorem rel_cuMotion {p : Pic} (hp : p.Ok) {D : Nat → Nat → Prop} {c : Qt.Cu} {s : Sym} {a a' : St} {slice : Int} (e : Env p D (c.x / 4) (c.y / 4) (2 ^ c.l / 4))
    (h3 : 3 ≤ c.l) (h6 : c.l ≤ 6) (hd : Delivered p c.l s) (hs : Sim slice D a a')
    (h0 : a.slice (c.x / 8) (c.y / 8) = slice) (h0' : a'.slice (c.x / 8) (c.y / 8) = slice)
    (hc : ∀ X Y, InC (c.x / 4) (c.y / 4) (2 ^ c.l / 4) X Y → a.slice (X / 2) (Y / 2) = slice ∧ a'.slice (X / 2) (Y / 2) = slice)
    (hm : ∀ X Y, InC (c.x / 4) (c.y / 4) (2 ^ c.l / 4) X Y → a.mot X Y = a'.mot X Y) :
    Rel (CuStep (InC (c.x / 4) (c.y / 4) (2 ^ c.l / 4)) c a a') (cuMotion p a c s) (cuMotion p a' c s) := by
  unfold cuMotion
  dsimp only
  rw [h0, h0']
  refine Rel.bind (rel_cuUnits hp e h3 h6 hd hs hc hm) fun r r' hr => ?_
  obtain ⟨r1, r2⟩ := hr
  rw [r2]
  refine Rel.bind_eq rfl fun use => Rel.pure ?_
  refine ⟨r1.slice, r1.slice', ?_, ?_, r1.out, r1.inn⟩
  · intro X Y h
    dsimp only
    rw [if_neg h, if_neg h, r1.cu, r1.cu']
    exact ⟨rfl, rfl⟩
  · dsimp only
    rw [if_pos ⟨rfl, rfl⟩, if_pos ⟨rfl, rfl⟩]

end Davs2.Mo
