import Verif.Lemmas.Motion3
/-
Lemmas for C85: one coding unit, continued.
-/
namespace Davs2.Mo
open Davs2.Sx Davs2.Un

theorem chain_ok {p : Pic} {D : Nat → Nat → Prop} {cx cy n : Nat} (e : Env p D cx cy n) {us : List Cb} (h : PairOk n us) (ho : UnitsOk us n) :
    Chain p cx cy D us.zipIdx := by
  have en := e.pos
  have first : ∀ a : Cb, a.x / 4 = 0 → a.y / 4 = 0 → 0 < a.w / 4 → a.x / 4 + a.w / 4 ≤ n → Around p (cx + a.x / 4) (cy + a.y / 4) (a.w / 4) D := by
    intro a h1 h2 h3 h4
    refine ⟨fun _ => e.left _ _ (by omega) (by omega), fun _ => e.top _ _ (by omega) (by omega), fun _ _ => e.left _ _ (by omega) (by omega), ?_⟩
    exact e.tr _ _ _ h3 (by omega) (by omega) (by omega) (by omega) (Or.inl (by omega))
  match us, h, ho with
  | [a], h, ho =>
    obtain ⟨h1, h2, h3⟩ := h
    have o := ho.2.1 a (by simp)
    exact ⟨first a h1 h2 o.1 o.2.2.1, trivial⟩
  | [a, b], h, ho =>
    obtain ⟨h1, h2, h3⟩ := h
    have o := ho.2.1 a (by simp)
    have o' := ho.2.1 b (by simp)
    refine ⟨first a h1 h2 o.1 o.2.2.1, ?_, trivial⟩
    rcases h3 with ⟨k1, k2, k3, k4⟩ | ⟨k1, k2, k3, k4⟩
    · obtain ⟨q1, q2, q3, q4⟩ := k4
      refine ⟨fun _ => Or.inl (e.left _ _ (by omega) (by omega)), fun _ => Or.inr ⟨by omega, by omega, by omega, by omega⟩,
        fun _ _ => Or.inl (e.left _ _ (by omega) (by omega)), ?_⟩
      obtain ⟨t, t1, t2⟩ := e.tr (cx + b.x / 4) (cy + b.y / 4) (b.w / 4) o'.1 (by omega) (by omega) (by omega) (by omega) (Or.inr (by omega))
      exact ⟨t, t1, fun a b c => Or.inl (t2 a b c)⟩
    · obtain ⟨q1, q2, q3, q4⟩ := k4
      refine ⟨fun _ => Or.inr ⟨by omega, by omega, by omega, by omega⟩, fun _ => Or.inl (e.top _ _ (by omega) (by omega)),
        fun _ _ => Or.inl (e.top _ _ (by omega) (by omega)), ?_⟩
      obtain ⟨t, t1, t2⟩ := e.tr (cx + b.x / 4) (cy + b.y / 4) (b.w / 4) o'.1 (by omega) (by omega) (by omega) (by omega) (Or.inr (by omega))
      exact ⟨t, t1, fun a b c => Or.inl (t2 a b c)⟩

theorem zip_mem {us : List Cb} {q : Cb × Nat} (h : q ∈ us.zipIdx) : q.1 ∈ us ∧ q.2 < us.length ∧ us[q.2]? = some q.1 := by
  obtain ⟨u, i⟩ := q
  have h' := List.mem_zipIdx_iff_getElem?.mp h
  have := (List.getElem?_eq_some_iff.mp h').1
  exact ⟨List.mem_of_getElem? h', this, h'⟩

theorem zip_disj {us : List Cb} {n : Nat} (ho : UnitsOk us n) (cx cy X Y : Nat) :
    us.zipIdx.Pairwise (fun q r => ¬ (InU cx cy q.1 X Y ∧ InU cx cy r.1 X Y)) := by
  have h := ho.2.2.2
  rw [← List.zipIdx_map_fst 0 us, List.pairwise_map] at h
  refine h.imp ?_
  rintro a b hab ⟨⟨h1, h2, h3, h4⟩, h5, h6, h7, h8⟩
  omega

/-- Blocks of a coding unit at `(cx, cy)`. -/
def InC (cx cy n X Y : Nat) : Prop := cx ≤ X ∧ X < cx + n ∧ cy ≤ Y ∧ Y < cy + n

theorem in_unit {us : List Cb} {n : Nat} (ho : UnitsOk us n) {cx cy X Y : Nat} (h : InC cx cy n X Y) : ∃ q ∈ us.zipIdx, InU cx cy q.1 X Y := by
  obtain ⟨h1, h2, h3, h4⟩ := h
  obtain ⟨u, hu, q1, q2, q3, q4⟩ := ho.2.2.1 (X - cx) (by omega) (Y - cy) (by omega)
  obtain ⟨i, hi⟩ := List.getElem?_of_mem hu
  exact ⟨(u, i), List.mem_zipIdx_iff_getElem?.mpr hi, by dsimp only; omega, by dsimp only; omega, by dsimp only; omega, by dsimp only; omega⟩

theorem out_unit {us : List Cb} {n : Nat} (ho : UnitsOk us n) {cx cy X Y : Nat} (h : ¬ InC cx cy n X Y) : ∀ q ∈ us.zipIdx, ¬ InU cx cy q.1 X Y := by
  intro q hq hin
  have := ho.2.1 q.1 (zip_mem hq).1
  apply h
  obtain ⟨h1, h2, h3, h4⟩ := hin
  exact ⟨by omega, by omega, by omega, by omega⟩

/-- What is known of a coding unit after its motion has been derived. -/
structure UnitsDone (p : Pic) (D : Nat → Nat → Prop) (cx cy n : Nat) (s : Sym) (us : List Cb) (st : St) (r : St × List (Mv × Nat)) : Prop where
  inv : Inv p (fun X Y => D X Y ∨ InC cx cy n X Y) r.1
  slice : r.1.slice = st.slice
  cu : r.1.cu = st.cu
  idx : r.2.map Prod.snd = List.range us.length
  use : s.mode < 8 → ∀ m ∈ r.2, UseOk p (dirAt s m.2) m.1
  same : s.mode = 0 → ∀ m ∈ r.2, dirAt s m.2 = dirAt s 0
  ref : 1 ≤ s.mode → s.mode < 8 → ∀ m ∈ r.2, (m.1.r1, m.1.r2) = refAt s m.2

theorem zip_snd (us : List Cb) : us.zipIdx.map Prod.snd = List.range us.length := by
  rw [List.zipIdx_map_snd, List.range_eq_range']

theorem replicate_at {d : Int} {i : Nat} (h : i < 4) : (List.replicate 4 d).getD i (-1) = d := by
  rw [List.getD_eq_getElem?_getD, List.getElem?_replicate, if_pos h]
  rfl

theorem skip_done {p : Pic} {D : Nat → Nat → Prop} {cx cy n : Nat} {s : Sym} {us : List Cb} {st : St} (ho : UnitsOk us n) (h0 : s.mode = 0) {d : Int}
    (hd : s.dirs = List.replicate 4 d) {dir : Option Int} {get : St → Nat → Nat → M Mv} {Q : Mv → Prop}
    (hi : Inv p D st) (hin : cx + n ≤ p.w ∧ cy + n ≤ p.h)
    (hget : ∀ st, Inv p D st → ∀ X Y, X < p.w → Y < p.h → Fine (get st X Y) Q)
    (hQ : ∀ m, Q m → ∀ d0 : Int, BlkOk p ⟨dir.getD d0, m.r1, m.r2, m.v1, m.v2⟩) (hU : ∀ m, Q m → UseOk p d m) :
    Fine (skipUnits cx cy dir get st us.zipIdx) (UnitsDone p D cx cy n s us st) := by
  refine (fine_skipUnits (D := D) Q us.zipIdx ?_ hQ us.zipIdx st D (fun _ h => h) (fun _ _ h => h) hi).mono ?_
  · intro st hi q hq
    have := ho.2.1 q.1 (zip_mem hq).1
    exact hget st hi _ _ (by omega) (by omega)
  · rintro r ⟨r1, r2, r3, r4, r5⟩
    refine ⟨?_, r2, r3, r4.trans (zip_snd us), ?_, ?_, ?_⟩
    · intro X Y h
      apply r1
      rcases h with h | h
      · exact Or.inl h
      · exact Or.inr (in_unit ho h)
    · intro _ m hm
      have : m.2 ∈ r.2.map Prod.snd := List.mem_map.mpr ⟨m, hm, rfl⟩
      rw [r4, zip_snd, List.mem_range] at this
      unfold dirAt
      rw [hd, replicate_at (by have := ho.1; omega)]
      exact hU _ (r5 m hm)
    · intro _ m hm
      have : m.2 ∈ r.2.map Prod.snd := List.mem_map.mpr ⟨m, hm, rfl⟩
      rw [r4, zip_snd, List.mem_range] at this
      unfold dirAt
      rw [hd, replicate_at (by have := ho.1; omega), replicate_at (by omega)]
    · intro h1
      omega

theorem uf_of {p : Pic} {l : Nat} {s : Sym} (hd : Delivered p l s) (h1 : 1 ≤ s.mode) (h7 : s.mode ≤ 7) {i : Nat} (hi : i < numUnits s.mode) : UF p s i := by
  constructor
  · intro h2
    obtain ⟨d, r, e1, e2, e3, e4, e5⟩ := hd.interB h1 h7 h2 i hi
    unfold dirAt refAt
    rw [List.getD_eq_getElem?_getD, List.getD_eq_getElem?_getD, e1, e2]
    exact ⟨e3, e4, e5⟩
  · intro h2
    obtain ⟨d, r, e1, e2, e3, e4⟩ := hd.interPF h1 h7 h2 i hi
    unfold dirAt refAt
    rw [List.getD_eq_getElem?_getD, List.getD_eq_getElem?_getD, e1, e2]
    exact ⟨e3, e4⟩

/-- A block of a unit with both vectors that are needed is complete. -/
theorem bwdOk_blk {p : Pic} {s : Sym} {i : Nat} (hu : UF p s i) {b : Blk} (h : FwdOk p s i b) (h' : p.frame = 2 → BwdOk p s i b) : BlkOk p b := by
  obtain ⟨⟨h1, h2, h3⟩, h4⟩ := h
  by_cases hb : p.frame = 2
  · obtain ⟨u1, u2, u3, u4⟩ := hu.1 hb
    have : BOk (dirAt s i) ⟨b.r1, b.r2, b.v1, b.v2⟩ :=
      ⟨⟨u1, u2⟩, by dsimp only; rw [h2]; exact u3, by dsimp only; rw [h3]; exact u4, fun hd => (h4 hd).1, (h' hb).2⟩
    have := this.blk hb
    dsimp only at this
    rw [← h1] at this
    exact this
  · obtain ⟨u1, u2, u3⟩ := hu.2 hb
    unfold BlkOk
    rw [if_neg hb]
    have hv := h4 (by omega)
    refine Or.inr ⟨by rw [h2]; exact u2, ?_, hv.1, hv.2 hb⟩
    rw [h3]
    by_cases hd : dirAt s i = 4
    · rw [if_pos hd] at u3
      exact Or.inr ⟨u3.1, u3.2.1⟩
    · rw [if_neg hd] at u3
      exact Or.inl u3

theorem bwdOk_use {p : Pic} {s : Sym} {i : Nat} (hu : UF p s i) {b : Blk} (h : FwdOk p s i b) (h' : p.frame = 2 → BwdOk p s i b) :
    UseOk p (dirAt s i) ⟨b.r1, b.r2, b.v1, b.v2⟩ := by
  obtain ⟨⟨h1, h2, h3⟩, h4⟩ := h
  unfold UseOk
  by_cases hb : p.frame = 2
  · rw [if_pos hb]
    obtain ⟨u1, u2, -⟩ := hu.1 hb
    exact ⟨⟨u1, u2⟩, fun hd => (h4 hd).1, (h' hb).2⟩
  · rw [if_neg hb]
    obtain ⟨u1, u2, u3⟩ := hu.2 hb
    have hv := h4 (by omega)
    dsimp only
    rw [h2, h3]
    refine ⟨⟨u2.1, u2.2, hv.1⟩, ?_⟩
    rcases u1 with hd | hd
    · exact Or.inl hd
    · rw [if_pos hd] at u3
      exact Or.inr ⟨hd, u3.1, u3.2.1, hv.2 hb⟩

theorem inter_done {p : Pic} (hp : p.Ok) {D : Nat → Nat → Prop} {cx cy n l : Nat} {s : Sym} {us : List Cb} {st : St} {slice : Int} (e : Env p D cx cy n)
    (hd : Delivered p l s) (ho : UnitsOk us n) (hpair : PairOk n us) (hlen : us.length = numUnits s.mode) (h1 : 1 ≤ s.mode) (h7 : s.mode ≤ 7) (hi : Inv p D st) :
    Fine (do
      let st1 ← forward p slice cx cy s { st with mot := storeUnits cx cy (fun i _ =>
        ⟨s.dirs.getD i (-1), (s.refs.getD i (-1, -1)).1, (s.refs.getD i (-1, -1)).2, none, none⟩) st.mot us.zipIdx } us.zipIdx
      let st2 ← (if p.frame = 2 then backward p slice cx cy s st1 us.zipIdx else pure st1)
      pure (st2, us.zipIdx.map fun q => (unitMv st2 cx cy q.1, q.2))) (UnitsDone p D cx cy n s us st) := by
  have hu : ∀ q ∈ us.zipIdx, UF p s q.2 := fun q hq => uf_of hd h1 h7 (by have := (zip_mem hq).2.1; omega)
  have hpos : ∀ q ∈ us.zipIdx, 0 < q.1.w / 4 ∧ 0 < q.1.h / 4 := fun q hq => by
    have := ho.2.1 q.1 (zip_mem hq).1
    exact ⟨this.1, this.2.1⟩
  have hD : ∀ X Y, D X Y → ∀ q ∈ us.zipIdx, ¬ InU cx cy q.1 X Y := fun X Y h => out_unit ho (e.out X Y h)
  have comp : ∀ st, Inv p D st → ∀ bwd X Y, D X Y → At st (CompOk p bwd) X Y := by
    intro st hi bwd X Y h
    obtain ⟨b, hb, hb'⟩ := hi X Y h
    exact ⟨b, hb, compOk_of_blkOk hp.two hb' bwd⟩
  have hi0 : Inv p D { st with mot := storeUnits cx cy (fun i _ =>
        ⟨s.dirs.getD i (-1), (s.refs.getD i (-1, -1)).1, (s.refs.getD i (-1, -1)).2, none, none⟩) st.mot us.zipIdx } := by
    intro X Y h
    obtain ⟨b, hb, hb'⟩ := hi X Y h
    refine ⟨b, ?_, hb'⟩
    dsimp only
    rw [storeUnits_out _ _ (hD X Y h), hb]
  have fin : ∀ st2 : St, Inv p D st2 → st2.slice = st.slice → st2.cu = st.cu →
      (∀ q ∈ us.zipIdx, ∀ X Y, InU cx cy q.1 X Y → At st2 (fun b => FwdOk p s q.2 b ∧ (p.frame = 2 → BwdOk p s q.2 b)) X Y) →
      UnitsDone p D cx cy n s us st (st2, us.zipIdx.map fun q => (unitMv st2 cx cy q.1, q.2)) := by
    intro st2 i2 e1 e2 hall
    have hm : ∀ q ∈ us.zipIdx, ∃ b, unitMv st2 cx cy q.1 = ⟨b.r1, b.r2, b.v1, b.v2⟩ ∧ FwdOk p s q.2 b ∧ (p.frame = 2 → BwdOk p s q.2 b) := by
      intro q hq
      have h := hpos q hq
      obtain ⟨b, hb, hb'⟩ := hall q hq _ _ ⟨Nat.le_refl _, Nat.lt_add_of_pos_right h.1, Nat.le_refl _, Nat.lt_add_of_pos_right h.2⟩
      refine ⟨b, ?_, hb'⟩
      unfold unitMv
      rw [hb]
      rfl
    refine ⟨?_, e1, e2, ?_, ?_, ?_, ?_⟩
    · intro X Y h
      rcases h with h | h
      · exact i2 X Y h
      · obtain ⟨q, hq, hq'⟩ := in_unit ho h
        obtain ⟨b, hb, hb1, hb2⟩ := hall q hq X Y hq'
        exact ⟨b, hb, bwdOk_blk (hu q hq) hb1 hb2⟩
    · rw [List.map_map, ← zip_snd]
      rfl
    · intro _ m hm'
      obtain ⟨q, hq, rfl⟩ := List.mem_map.mp hm'
      obtain ⟨b, e, b1, b2⟩ := hm q hq
      dsimp only
      rw [e]
      exact bwdOk_use (hu q hq) b1 b2
    · intro h0
      omega
    · intro _ _ m hm'
      obtain ⟨q, hq, rfl⟩ := List.mem_map.mp hm'
      obtain ⟨b, e, b1, b2⟩ := hm q hq
      dsimp only
      rw [e, b1.1.2.1, b1.1.2.2]
  have hc := chain_ok e hpair ho
  refine Fine.bind (fine_forward hp hu hD us.zipIdx [] _ D (fun _ h => h) (comp _ hi0 false) hc ?_ (by simp) hi0) fun st1 hs1 => ?_
  · intro q hq X Y h
    obtain ⟨o, ho'⟩ := storeUnits_in (cx := cx) (cy := cy) (val := fun i _ =>
        ⟨s.dirs.getD i (-1), (s.refs.getD i (-1, -1)).1, (s.refs.getD i (-1, -1)).2, none, none⟩) us.zipIdx st.mot (zip_disj ho cx cy X Y) q hq h
    exact ⟨_, ho', rfl, rfl, rfl⟩
  · obtain ⟨s1, s2, s3, s4⟩ := hs1
    have s4' := fun q (hq : q ∈ us.zipIdx) => s4 q (Or.inr hq)
    by_cases h2 : p.frame = 2
    · rw [if_pos h2]
      refine Fine.bind (fine_backward hp h2 hu hpos hD us.zipIdx [] _ D (fun _ h => h) (comp _ s1 true) hc s4' (by simp) s1) fun st2 hs2 => Fine.pure ?_
      obtain ⟨t1, t2, t3, t4⟩ := hs2
      refine fin st2 t1 (t2.trans s2) (t3.trans s3) ?_
      intro q hq X Y h
      obtain ⟨b, hb, hb'⟩ := t4 q (Or.inr hq) X Y h
      exact ⟨b, hb, hb'.1, fun _ => hb'⟩
    · rw [if_neg h2]
      refine Fine.pure (fin st1 s1 s2 s3 ?_)
      intro q hq X Y h
      obtain ⟨b, hb, hb'⟩ := s4' q hq X Y h
      exact ⟨b, hb, hb', fun h => absurd h h2⟩

theorem fine_cuUnits {p : Pic} (hp : p.Ok) {D : Nat → Nat → Prop} {cx cy l : Nat} {s : Sym} {st : St} {slice : Int} {old : CuRec} (e : Env p D cx cy (2 ^ l / 4))
    (h3 : 3 ≤ l) (h6 : l ≤ 6) (hd : Delivered p l s) (hi : Inv p D st) :
    Fine (cuUnits p st slice cx cy (2 ^ l / 4) (puUnits p.frame s.ds s.mode l).zipIdx old s)
      (UnitsDone p D cx cy (2 ^ l / 4) s (puUnits p.frame s.ds s.mode l) st) := by
  have ho := units_ok (frame := p.frame) (ds := s.ds) hd.mode hd.type h3 h6
  have hin : cx + 2 ^ l / 4 ≤ p.w ∧ cy + 2 ^ l / 4 ≤ p.h := ⟨e.inw, e.inh⟩
  unfold cuUnits
  refine Fine.ite (fun h8 => Fine.pure ?_) fun h8 => Fine.ite (fun h0 => ?_) fun h0 => ?_
  · refine ⟨?_, rfl, rfl, ?_, by omega, by omega, by omega⟩
    · intro X Y h
      by_cases hx : InC cx cy (2 ^ l / 4) X Y
      · obtain ⟨q, hq, hq'⟩ := in_unit ho hx
        obtain ⟨o, ho'⟩ := storeUnits_in (cx := cx) (cy := cy) (val := fun _ o => ⟨-1, -1, -1, o.bind (·.v1), o.bind (·.v2)⟩) _ st.mot (zip_disj ho cx cy X Y) q hq hq'
        refine ⟨_, ho', ?_⟩
        unfold BlkOk
        by_cases h2 : p.frame = 2
        · rw [if_pos h2]
          simp
        · rw [if_neg h2]
          exact Or.inl ⟨rfl, rfl⟩
      · obtain ⟨b, hb, hb'⟩ := hi X Y (h.resolve_right hx)
        refine ⟨b, ?_, hb'⟩
        dsimp only
        rw [storeUnits_out _ _ (out_unit ho hx), hb]
    · rw [List.map_map, ← zip_snd]
      rfl
  · have around : Around p cx cy (2 ^ l / 4) (At st (BlkOk p)) := e.around.mono hi
    have en := e.pos
    refine Fine.bind (fine_neighbors hp e.pos around (fun _ => hi _ _ (e.top _ _ (by omega) (by omega))) (fun _ => hi _ _ (e.left _ _ (by omega) (by omega)))) fun ns hn => ?_
    refine Fine.ite (fun h2 => ?_) fun h2 => ?_
    · have hdirs := hd.skipB h0 h2
      refine Fine.ite (fun hds => ?_) fun hds => ?_
      · refine skip_done (Q := BOk (pdirBskip.getD s.ds 0)) ho h0 hdirs hi hin (fun _ _ _ _ _ _ => Fine.pure (bskip_ok h2 hn s.ds hds hd.ds)) ?_ fun m hm => hm.use h2
        intro m hm d0
        have : s.dirs.getD 0 (-1) = pdirBskip.getD s.ds 0 := by rw [hdirs, replicate_at (by omega)]
        rw [this]
        exact hm.blk h2
      · have h0' : s.ds = 0 := by omega
        rw [h0'] at hdirs
        refine skip_done (Q := BOk 2) ho h0 hdirs hi hin (fun st hi X Y hX hY => fine_bTemporal hp h2 e hi hX hY) (fun m hm _ => hm.blk h2) fun m hm => hm.use h2
    · obtain ⟨w1, w2, w3⟩ := hd.skipPF h0 h2
      refine Fine.ite (fun _ => Fine.ite (fun hds => ?_) fun hds => ?_) fun hf => absurd hp.frame (by omega)
      · refine skip_done (Q := PfOk p (decide (s.wsm ≠ 0))) ho h0 w3 hi hin (fun _ _ X Y hX hY => fine_pfTemporal hp hX hY w1) (fun m hm d0 => hm.blk h2 _) ?_
        intro m hm
        have := hm.use h2
        by_cases hw : s.wsm ≠ 0
        · rwa [if_pos (Or.inl hw), ← if_pos (α := Int) (t := 4) (e := 0) (show decide (s.wsm ≠ 0) = true by simpa using hw)]
        · rwa [if_neg (by omega), ← if_neg (α := Int) (t := 4) (e := 0) (show ¬ decide (s.wsm ≠ 0) = true by simpa using hw)]
      · refine skip_done (Q := PfOk p (decide (s.ds = 1 ∨ s.ds = 2))) ho h0 w3 hi hin (fun _ _ _ _ _ _ => Fine.pure (fskip_ok hp h2 hn s.ds)) (fun m hm d0 => hm.blk h2 _) ?_
        intro m hm
        have := hm.use h2
        have hw := (w2 hds).2
        by_cases hw' : s.ds = 1 ∨ s.ds = 2
        · rwa [if_pos (Or.inr hw'), ← if_pos (α := Int) (t := 4) (e := 0) (show decide (s.ds = 1 ∨ s.ds = 2) = true from decide_eq_true hw')]
        · rwa [if_neg (by omega), ← if_neg (α := Int) (t := 4) (e := 0) (show ¬ decide (s.ds = 1 ∨ s.ds = 2) = true from fun h => hw' (of_decide_eq_true h))]
  · have hpair := pair_ok (frame := p.frame) (ds := s.ds) (by omega) (by omega) hd.type h3 h6
    exact inter_done hp e hd ho hpair.2 hpair.1 (by omega) (by omega) hi

/-- What is known after a coding unit. -/
structure CuDone (p : Pic) (D : Nat → Nat → Prop) (c : Qt.Cu) (s : Sym) (st st' : St) : Prop where
  inv : Inv p (fun X Y => D X Y ∨ InC (c.x / 4) (c.y / 4) (2 ^ c.l / 4) X Y) st'
  slice : st'.slice = st.slice
  cu : ∀ X Y, ¬ (X = c.x / 8 ∧ Y = c.y / 8) → st'.cu X Y = st.cu X Y
  pred : Predicted p s (puUnits p.frame s.ds s.mode c.l).length (st'.cu (c.x / 8) (c.y / 8))

theorem map_range {α β : Type} {f : Nat → β} {g : α → Nat} {h : α → β} {l : List α} {n : Nat} (hl : l.map g = List.range n) (he : ∀ a ∈ l, h a = f (g a)) :
    l.map h = (List.range n).map f := by
  rw [← hl, List.map_map]
  exact List.map_congr_left he

theorem fine_cuMotion {p : Pic} (hp : p.Ok) {D : Nat → Nat → Prop} {c : Qt.Cu} {s : Sym} {st : St} (e : Env p D (c.x / 4) (c.y / 4) (2 ^ c.l / 4))
    (h3 : 3 ≤ c.l) (h6 : c.l ≤ 6) (hd : Delivered p c.l s) (hi : Inv p D st) : Fine (cuMotion p st c s) (CuDone p D c s st) := by
  unfold cuMotion
  dsimp only
  refine Fine.bind (fine_cuUnits hp e h3 h6 hd hi) fun r hr => ?_
  obtain ⟨r1, r2, r3, r4, r5, r7, r6⟩ := hr
  have slice : ∀ use, ∀ X Y, ¬ (X = c.x / 8 ∧ Y = c.y / 8) → (if X = c.x / 8 ∧ Y = c.y / 8 then use else r.1.cu X Y) = st.cu X Y := by
    intro use X Y h
    rw [if_neg h, r3]
  by_cases h8 : 8 ≤ s.mode
  · rw [if_pos h8]
    refine Fine.bind (Q := fun u => u = []) (Fine.pure rfl) fun use hu => Fine.pure ?_
    refine ⟨r1, r2, slice _, ?_⟩
    dsimp only
    rw [if_pos ⟨rfl, rfl⟩]
    subst hu
    exact ⟨fun _ => rfl, fun h => absurd h8 (by omega), by simp, by omega, fun h => absurd h8 (by omega)⟩
  · rw [if_neg h8]
    have huse := r5 (by omega)
    refine Fine.bind (fine_usesAll hp hd.dmh r.2 huse) fun use hu => Fine.pure ?_
    obtain ⟨u1, u2⟩ := hu
    have hlen : use.length = (puUnits p.frame s.ds s.mode c.l).length := by
      have a := congrArg List.length u1
      have b := congrArg List.length r4
      simp only [List.length_map, List.length_range] at a b
      omega
    refine ⟨r1, r2, slice _, ?_⟩
    dsimp only
    rw [if_pos ⟨rfl, rfl⟩]
    have num : ∀ us ∈ use, ∃ m ∈ r.2, us.length = (named p (s.dirs.getD m.2 (-1)) s.dmh m.1).length := by
      intro us hus
      have : us.map (fun e => (e.ref : Int)) ∈ use.map (List.map fun e => (e.ref : Int)) := List.mem_map.mpr ⟨us, hus, rfl⟩
      rw [u1] at this
      obtain ⟨m, hm', hm⟩ := List.mem_map.mp this
      have := congrArg List.length hm
      rw [List.length_map] at this
      exact ⟨m, hm', this.symm⟩
    refine ⟨fun h => absurd h h8, fun _ => hlen, ?_, ?_, ?_⟩
    · intro us hus
      refine ⟨?_, u2 us hus⟩
      obtain ⟨m, _, hm⟩ := num us hus
      rw [hm]
      unfold named
      split_ifs <;> simp
    · intro h0 us hus
      obtain ⟨m, hm', hm⟩ := num us hus
      rw [hm]
      have hd0 : s.dirs.getD m.2 (-1) = s.dirs.getD 0 (-1) := r7 h0 m hm'
      have hu0 : UseOk p (s.dirs.getD m.2 (-1)) m.1 := huse m hm'
      rw [hd0] at hu0 ⊢
      rw [hd.dmhSkip h0]
      generalize s.dirs.getD 0 (-1) = d at *
      unfold named
      unfold UseOk at hu0
      by_cases h2 : p.frame = 2
      · rw [if_pos h2] at hu0 ⊢
        obtain ⟨⟨a, b⟩, -⟩ := hu0
        obtain rfl | rfl | rfl | rfl : d = 0 ∨ d = 1 ∨ d = 2 ∨ d = 3 := by omega
        all_goals rfl
      · rw [if_neg h2] at hu0 ⊢
        obtain ⟨-, h⟩ := hu0
        obtain rfl | rfl : d = 0 ∨ d = 4 := by omega
        all_goals rfl
    · intro _ hx
      dsimp only
      rw [u1]
      refine map_range r4 ?_
      intro m hm
      unfold named syntaxRefs
      dsimp only
      by_cases h2 : p.frame = 2
      · rw [if_pos h2, if_pos h2]
      · rw [if_neg h2, if_neg h2]
        have := r6 (by omega) (by omega) m hm
        have e1 : m.1.r1 = (s.refs.getD m.2 (-1, -1)).1 := congrArg Prod.fst this
        have e2 : m.1.r2 = (s.refs.getD m.2 (-1, -1)).2 := congrArg Prod.snd this
        rw [e1, e2]

end Davs2.Mo
