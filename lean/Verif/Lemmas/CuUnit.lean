import Verif.Lemmas.CuRest
/-
A whole unit.
-/
namespace Davs2.Cs
open Davs2.Sx Davs2.Mo

variable {σ : Type} {m : Machine σ} {G : σ → Prop}

/-! ### Pattern, quantiser, levels -/

theorem luma4T_congr {nb nb' : Nat → Nat → Bool × Bool} (h : ∀ b < 4, ∀ c, nb b c = nb' b c) {c0 v : Nat} {c : List Bin}
    (hv : luma4T nb c0 v c) : luma4T nb' c0 v c := by
  obtain ⟨b0, b1, b2, b3, e, ec⟩ := hv
  refine ⟨b0, b1, b2, b3, e, ?_⟩
  unfold lumaBin at ec ⊢
  rw [ec, h 0 (by decide), h 1 (by decide), h 2 (by decide), h 3 (by decide)]

theorem cbpT_congr {nb nb' : Nat → Nat → Bool × Bool} {type : Nat} (h : ∀ b < 4, (type = 8 → b = 0) → ∀ c, nb b c = nb' b c)
    {v : Nat × Bool} {c : List Bin} (hv : cbpT nb type v c) : cbpT nb' type v c := by
  have hb : ∀ c v, lumaBin nb 0 c v = lumaBin nb' 0 c v := by
    intro c v
    unfold lumaBin
    rw [h 0 (by decide) (fun _ => rfl)]
  unfold cbpT at hv ⊢
  split at hv
  · rename_i ht
    rw [if_pos ht]
    have h4 : ∀ b < 4, ∀ c, nb b c = nb' b c := fun b hb c => h b hb (by omega) c
    rcases hv with hv | ⟨cc, u, cl, h1, h2, h3⟩
    · exact Or.inl hv
    · refine Or.inr ⟨cc, u, cl, h1, h2, ?_⟩
      split at h3
      · rw [if_pos ‹_›]; exact luma4T_congr h4 h3
      · rw [if_neg ‹_›]
        split at h3
        · rw [if_pos ‹_›]; exact h3
        · rw [if_neg ‹_›]
          simpa only [hb] using h3
  · rename_i ht
    rw [if_neg ht]
    obtain ⟨hs, l, u, cl, cc, h1, h2, h3, h4⟩ := hv
    refine ⟨hs, l, u, cl, cc, h1, h2, h3, ?_⟩
    split at h4
    · rw [if_pos ‹_›]
      simpa only [hb] using h4
    · rw [if_neg ‹_›]
      exact luma4T_congr (fun b hb c => h b hb (fun h8 => absurd h8 ‹_›) c) h4

theorem chromaCbp_vals {i u : Nat} {c : List Bin} (h : (u, c) ∈ chromaCbpT i) : u = 0 ∨ u = 16 ∨ u = 32 ∨ u = 48 := by
  unfold chromaCbpT at h
  simp only [List.mem_cons, Prod.mk.injEq, List.not_mem_nil, or_false] at h
  omega

/-- Unsplit units have one luma flag. -/
theorem cbpT_low {nb : Nat → Nat → Bool × Bool} {type : Nat} {v : Nat × Bool} {c : List Bin} (hv : cbpT nb type v c)
    (h : type ≤ 8) (hs : v.2 = false) : v.1 % 16 ≤ 1 := by
  unfold cbpT at hv
  split at hv
  · rcases hv with ⟨_, rfl, _⟩ | ⟨cc, u, cl, h1, h2, h3⟩
    · exact absurd hs (by decide)
    · rw [if_neg (by rw [hs]; decide)] at h3
      have := chromaCbp_vals h1
      split at h3
      · omega
      · obtain ⟨b, h3, _⟩ := h3
        have := Bool.toNat_le b
        omega
  · obtain ⟨hs, l, u, cl, cc, h1, h2, h3, h4⟩ := hv
    rw [if_pos (by omega)] at h4
    obtain ⟨b, h4, _⟩ := h4
    have := Bool.toNat_le b
    have := chromaCbp_vals h3
    omega

theorem tuSplit_shape : ∀ k < 8, ∀ l < 4, ∀ nsqt,
    Un.tuSplit true nsqt k (3 + l) = some (splitShape nsqt ((k : Nat) : Int) (3 + l)) := by decide +kernel

theorem tuSplit_eq {nsqt : Bool} {t : Int} {level : Nat} (h0 : 0 ≤ t) (h7 : t < 8) (h3 : 3 ≤ level) (h6 : level ≤ 6) :
    Un.tuSplit true nsqt t.toNat level = some (splitShape nsqt t level) := by
  obtain ⟨l, rfl⟩ := Nat.exists_eq_add_of_le h3
  have := tuSplit_shape t.toNat (by omega) l (by omega) nsqt
  rwa [Int.toNat_of_nonneg h0] at this

theorem shape_ok (nsqt : Bool) (t : Int) {level : Nat} : ShapeOk level (splitShape nsqt t level) := by
  unfold ShapeOk splitShape
  split
  · exact ⟨by decide, fun _ => by omega⟩
  · split
    · exact ⟨by decide, fun _ => by omega⟩
    · exact ⟨by decide, fun h => by omega⟩

/-- Types and splits of intra units. -/
theorem intraType_ok : ∀ sdip, ∀ l < 4, ∀ x ∈ intraTypeT sdip (3 + l),
    (8 ≤ x.1.1 ∧ x.1.1 ≤ 11) ∧ x.1.2.any (fun t => decide (UnitOk x.1.1 (3 + l) t ∧ t < 4 ∧ (t = 1 ∨ t = 2 → 1 ≤ l) ∧
      (t = 0 ↔ x.1.1 = 8))) = true := by decide +kernel

/-- What restT supposes of a unit. -/
structure RestOk (level : Nat) (u : CUnit) : Prop where
  lo : 3 ≤ level
  hi : level ≤ 6
  type : 0 ≤ u.type
  intra : 8 ≤ u.type → UnitOk u.type.toNat level u.trans ∧ ShapeOk level u.trans ∧ (u.trans = 0 ↔ u.type = 8)
  modes : ∀ i, 0 ≤ u.modes.getD i 0 ∧ u.modes.getD i 0 < 33

theorem reads_rest (hm : m.Lawful G) {E : Env} {S : Pic} {P : Maps} {D : Int → Int → Prop} (rel : Rel E S P D)
    {level sx sy : Nat} (sp : Spot E D level sx sy) (hq : 0 ≤ E.qp ∧ E.qp ≤ 63) {u : CUnit} (ok : RestOk level u) {c : List Bin}
    (h : restT E P level sx sy u c) (trans0 : Nat) (ht0 : 8 ≤ u.type → trans0 = u.trans) :
    ∃ cs l, cs.map (·.1) = codedBlks u ∧ (∀ x ∈ cs, BlockOk E level u (qpOf E P sx sy u) x) ∧ (E.dqp = true → l = u.dqp) ∧
      ShapeOk level u.trans ∧
      Reads G m (readRest m E S level sx sy u.type.toNat trans0 u.modes) (some (u.cbp, u.trans, qpOf E P sx sy u, cs), l) c := by
  obtain ⟨split, cp, cq, rfl, hcbp, htr, hdq, hqp, hlev⟩ := h
  have htype := ok.type
  -- the shape for the neighbours
  have hfull : (if u.type.toNat < 8 then (Un.tuSplit true E.nsqt u.type.toNat level).getD 0 else trans0) =
      if u.type < 8 then splitShape E.nsqt u.type level else u.trans := by
    by_cases h8 : u.type < 8
    · rw [if_pos (by omega), if_pos h8, tuSplit_eq ok.type h8 ok.lo ok.hi]; rfl
    · rw [if_neg (by omega), if_neg h8, ht0 (by omega)]
  have hfs : ShapeOk level (if u.type < 8 then splitShape E.nsqt u.type level else u.trans) := by
    split
    · exact shape_ok _ _
    · exact (ok.intra (by omega)).2.1
  have hft : (if u.type < 8 then splitShape E.nsqt u.type level else u.trans) = 0 → u.type.toNat = 8 := by
    split
    · intro h0
      unfold splitShape at h0
      split at h0
      · omega
      · split at h0 <;> omega
    · intro h0
      have := (ok.intra (by omega)).2.2.mp h0
      omega
  have hcbp' : cbpT (fun b c => nbFlags E S level sx sy (if u.type < 8 then splitShape E.nsqt u.type level else u.trans) b c)
      u.type.toNat (u.cbp, split) cp := by
    refine cbpT_congr (fun b hb h8 c => ?_) hcbp
    exact (nbFlags_eq rel sp hfs hb (fun h0 => h8 (hft h0)) c).symm
  have htrans : (if u.type.toNat < 8 then (Un.tuSplit split E.nsqt u.type.toNat level).getD 0 else trans0) = u.trans := by
    by_cases h8 : u.type < 8
    · rw [if_pos (by omega), htr h8]
      cases split
      · rfl
      · rw [tuSplit_eq ok.type h8 ok.lo ok.hi]; rfl
    · rw [if_neg (by omega), ht0 (by omega)]
  have hunit : UnitOk u.type.toNat level u.trans := by
    by_cases h8 : u.type < 8
    · refine Or.inr ⟨by omega, split, E.nsqt, ?_⟩
      rw [htr h8]
      cases split
      · rfl
      · exact tuSplit_eq ok.type h8 ok.lo ok.hi
    · exact (ok.intra (by omega)).1
  have hshape : ShapeOk level u.trans := by
    by_cases h8 : u.type < 8
    · rw [htr h8]
      split
      · exact shape_ok _ _
      · exact ⟨by decide, fun h => by omega⟩
    · exact (ok.intra (by omega)).2.1
  have hz : u.trans = 0 → u.cbp % 16 ≤ 1 := by
    intro h0
    refine cbpT_low hcbp ?_ ?_
    · by_cases h8 : u.type < 8
      · omega
      · have := (ok.intra (by omega)).2.2.mp h0; omega
    · dsimp only
      by_cases h8 : u.type < 8
      · have h := htr h8
        cases split
        · rfl
        · rw [if_pos rfl, h0] at h
          have := hft
          rw [if_pos h8] at this
          have := this h.symm
          omega
      · have e : u.type.toNat = 8 := by have := (ok.intra (by omega)).2.2.mp h0; omega
        unfold cbpT at hcbp
        rw [e, if_neg (by decide)] at hcbp
        exact hcbp.1
  obtain ⟨cs, c1, c2, c3⟩ := reads_coeffs (G := G) hm (E := E) (q := qpOf E P sx sy u)
    ⟨ok.lo, ok.hi, ok.type, hunit, ok.modes⟩ hz hlev
  have hleft := leftOf_eq rel sp hq
  -- reading
  have hd : Reads G m (if E.dqp then (if u.cbp ≠ 0 then deltaQp m 8 (if u.cbp = 0 then 0 else S.last) else pure 0) else pure 0 : Sx.P σ Int)
      u.dqp cq := by
    by_cases hE : E.dqp = true
    · rw [if_pos hE]
      by_cases hc : u.cbp = 0
      · rw [if_neg (by omega)] at hdq
        rw [if_neg (by omega), hdq.1, hdq.2]
        exact Reads.pure _
      · rw [if_pos ⟨hE, hc⟩] at hdq
        rw [if_pos hc, if_neg hc, rel.last hE, hdq.2]
        intro s s' hs
        exact C79_deltaQp_range hm 8 (by omega) _ _ (by omega) hs
    · rw [if_neg hE]
      rw [if_neg (fun x => hE x.1)] at hdq
      rw [hdq.1, hdq.2]
      exact Reads.pure _
  have hqv : (if E.dqp then toInt8 (u.dqp + (leftOf E S sx sy).2) else toInt8 E.qp) = qpOf E P sx sy u := by
    unfold qpOf at hqp ⊢
    rw [hleft]
    dsimp only
    by_cases hE : E.dqp = true
    · rw [if_pos (Or.inr hE)] at hqp ⊢
      rw [if_pos hE, Int.add_comm u.dqp]
      exact toInt8_id (by omega) (by omega)
    · have hn : ¬ (u.type = -1 ∨ E.dqp = true) := by
        rintro (h | h)
        · omega
        · exact hE h
      rw [if_neg hn, if_neg hE]
      exact toInt8_id (by omega) (by omega)
  have hc : Reads G m (readCbp m E (fun full => nbFlags E S level sx sy full) level u.type.toNat trans0 (leftOf E S sx sy).2 S.last)
      (some (u.cbp, u.trans, qpOf E P sx sy u), if E.dqp then u.dqp else if u.cbp = 0 then 0 else S.last) (cp ++ cq) := by
    unfold readCbp
    dsimp only
    rw [hfull]
    refine Reads.bind ((C79_cbp _ _).at hm hcbp') ?_
    dsimp only
    refine Reads.last hd (Reads.bind0 (Reads.failed hm) ?_)
    rw [if_neg (by decide), htrans, hqv]
    exact Reads.pure _
  refine ⟨cs, if E.dqp then u.dqp else if u.cbp = 0 then 0 else S.last, c1, c2, fun hE => if_pos hE, hshape, ?_⟩
  unfold readRest
  refine Reads.bind hc ?_
  dsimp only
  refine Reads.last (a := some cs) ?_ ?_
  · by_cases h0 : u.cbp = 0
    · rw [if_neg (by omega)]
      have e : codedBlks u = [] := by
        unfold codedBlks
        rw [h0]
        decide
      rw [e] at c1 ⊢
      rw [List.map_eq_nil_iff.mp c1]
      exact Reads.pure _
    · rw [if_pos h0]
      exact c3
  · dsimp only
    refine Reads.bind0 (Reads.failed hm) ?_
    rw [if_neg (by decide)]
    exact Reads.pure _

end Davs2.Cs
