import Verif.Lemmas.CuRead
/-
Type, directions and vectors.
-/
namespace Davs2.Cs
open Davs2.Sx Davs2.Mo

variable {σ : Type} {m : Machine σ} {G : σ → Prop}

/-! ### Type -/

theorem typeT_range {level : Nat} {amp : Bool} {t : Int} {c : List Bin} (h : (t, c) ∈ typeT level amp) :
    -1 ≤ t ∧ (t ≤ 7 ∨ t = 9) := by
  unfold typeT at h
  simp only [List.mem_append, List.mem_map, List.mem_cons, List.not_mem_nil, or_false, Prod.mk.injEq] at h
  rcases h with (((h | h) | h) | h)
  · omega
  · obtain ⟨x, hx, h, _⟩ := h
    split at hx <;> simp only [List.mem_cons, List.not_mem_nil, or_false] at hx
    · rcases hx with rfl | rfl | rfl <;> dsimp only at h <;> omega
    · rw [hx] at h; dsimp only at h; omega
  · obtain ⟨x, hx, h, _⟩ := h
    split at hx <;> simp only [List.mem_cons, List.not_mem_nil, or_false] at hx
    · rcases hx with rfl | rfl | rfl <;> dsimp only at h <;> omega
    · rw [hx] at h; dsimp only at h; omega
  · split at h <;> simp only [List.mem_cons, List.not_mem_nil, or_false, Prod.mk.injEq] at h <;> omega

/-- The type as it is read. -/
structure TypeOk (E : Env) (u : CUnit) (r : CuType) : Prop where
  type : r.type = if u.type < 8 then u.type else 9
  lo : -1 ≤ u.type
  skip : u.type ≤ 0 → r.wsm = u.wsm ∧ r.ds = u.ds
  ds : u.type ≤ 0 → u.ds ≤ 4
  still : E.frame = 5 ∨ E.frame = 0 → ¬ (1 ≤ u.type ∧ u.type < 8)
  zero : E.frame = 5 → r.wsm = 0

theorem reads_type (hm : m.Lawful G) {E : Env} {level : Nat} (hl : 3 ≤ level ∧ level ≤ 6) {u : CUnit} {c : List Bin}
    (h : headT E level u c) (stale : Nat) (hs : E.frame = 5 → stale = 0) :
    ∃ r, TypeOk E u r ∧ Reads G m (readType m E level stale) (some r) c := by
  unfold headT at h
  dsimp only at h
  unfold readType
  by_cases h5 : E.frame = 5
  · rw [if_pos h5] at h
    obtain ⟨hc, hw, hd⟩ := h
    have hvals : (if u.type < 8 then u.type else 9) = -1 ∨ (if u.type < 8 then u.type else 9) = 0 ∨
        (if u.type < 8 then u.type else 9) = 9 := by
      unfold cuTypeST at hc
      simp only [List.mem_cons, List.not_mem_nil, or_false, Prod.mk.injEq] at hc
      tauto
    refine ⟨⟨if u.type < 8 then u.type else 9, stale, 0⟩, ⟨rfl, ?_, ?_, ?_, ?_, ?_⟩, ?_⟩
    · split at hvals <;> omega
    · intro _; exact ⟨by rw [hs h5, hw], hd.symm⟩
    · intro _; omega
    · intro _; split at hvals <;> omega
    · exact hs
    · rw [if_pos h5]
      refine Reads.last (Reads.last ((C79_cuTypeS (G := G)).at hm hc) (Reads.pure _)) (Reads.bind0 (Reads.failed hm) ?_)
      rw [if_neg (by decide)]
      exact Reads.pure _
  · rw [if_neg h5] at h ⊢
    obtain ⟨v, hc, ht, hsk⟩ := h
    obtain ⟨r', t, hh, tail, er, _, hskip, hmem⟩ := id hc
    obtain rfl := Option.some.inj er
    have htt := hskip.1
    have hrange : -1 ≤ t ∧ (t ≤ 7 ∨ t = 9) ∧ (E.frame = 0 → t = 9) := by
      split at hmem
      · rw [List.mem_singleton, Prod.mk.injEq] at hmem
        omega
      · have := typeT_range hmem
        exact ⟨this.1, this.2, fun h => absurd h ‹_›⟩
    have hut : -1 ≤ u.type ∧ (E.frame = 0 → ¬ (1 ≤ u.type ∧ u.type < 8)) := by
      rw [htt] at ht
      split at ht <;> omega
    refine ⟨if v.type ≤ 0 then v else { v with wsm := stale }, ⟨?_, hut.1, ?_, ?_, ?_, ?_⟩, ?_⟩
    · split <;> exact ht
    · intro h0
      rw [if_pos (by rw [ht, if_pos (by omega)]; exact h0)]
      exact hsk h0
    · intro h0
      obtain ⟨_, cw, cd, _, _, hd⟩ := hskip
      rw [(hsk h0).2] at hd
      split at hd <;> omega
    · rintro (h | h)
      · exact absurd h h5
      · exact hut.2 h
    · intro h; exact absurd h h5
    · refine Reads.last (a := if v.type ≤ 0 then v else { v with wsm := stale }) ?_ (Reads.bind0 (Reads.failed hm) ?_)
      · exact Reads.last ((C79_cuType E.frame level E.nrefs _ _ _ hl (G := G)).at hm hc) (Reads.pure _)
      · rw [if_neg (by decide)]
        exact Reads.pure _

/-! ### Directions -/

theorem bskip_dirs : ∀ ds < 5, pdirBskip[ds]? = some (skipDir 2 0 ds) := by decide +kernel

theorem reads_refsOf : ∀ ds < 5, ∀ s : σ,
    (refsOf (List.replicate 4 (skipDir 2 0 ds)) : Sx.P σ _) s = .ok (List.replicate 4 (refsB (skipDir 2 0 ds)), s) := by
  intro ds hds s
  interval_cases ds <;> rfl

theorem skipDir_B (wsm ds : Nat) : skipDir 2 wsm ds = skipDir 2 0 ds := rfl

theorem reads_dirs (hm : m.Lawful G) {E : Env} {level : Nat} (hl : 3 ≤ level ∧ level ≤ 6) (hn : E.frame ≠ 0 → 1 ≤ E.nrefs)
    {u : CUnit} (hu : u.type < 8) {r : CuType} (ok : TypeOk E u r) {c : List Bin} (h : dirsT E level u c) (old : List (Int × Int)) :
    ∃ refs, (1 ≤ u.type ∨ E.frame = 2 → refs = u.refs) ∧
      Reads G m (interPredDir m E.frame (max 0 r.type).toNat level E.nrefs r.wsm r.ds E.tools.dhp old) (u.dirs, refs) c := by
  have ht := ok.type
  have hlo := ok.lo
  rw [if_pos hu] at ht
  rw [ht]
  unfold dirsT at h
  by_cases h0 : u.type ≤ 0
  · rw [if_pos h0] at h
    obtain ⟨rfl, hd, hr⟩ := h
    rw [(ok.skip h0).1, (ok.skip h0).2, show (max 0 u.type).toNat = 0 by omega]
    have hds := ok.ds h0
    unfold interPredDir
    by_cases h2 : E.frame = 2
    · refine ⟨u.refs, fun _ => rfl, ?_⟩
      rw [h2] at hd hr
      rw [if_pos h2, hr rfl, hd, skipDir_B]
      rw [if_neg (by omega)]
      refine Reads.bind0 (Reads.pure 0) ?_
      unfold setPdirB
      rw [if_pos rfl]
      refine Reads.bind0 (a := List.replicate 4 (skipDir 2 0 u.ds)) (Reads.bind0 (Reads.tab (by omega) ?_) (Reads.pure _)) ?_
      · exact bskip_dirs u.ds (by omega)
      · refine Reads.bind0 (a := List.replicate 4 (refsB (skipDir 2 0 u.ds))) ?_ (Reads.pure _)
        intro s s' hs
        cases hs
        exact reads_refsOf u.ds (by omega) s
    · refine ⟨old, fun h => by omega, ?_⟩
      rw [if_neg h2, if_pos rfl, hd]
      unfold skipDir
      rw [if_neg h2]
      refine Reads.bind0 (Reads.pure _) ?_
      rw [if_neg (by omega)]
      exact Reads.pure _
  · rw [if_neg h0] at h
    refine ⟨u.refs, fun _ => rfl, ?_⟩
    rw [show (max 0 u.type).toNat = u.type.toNat by omega]
    have hst := ok.still
    by_cases h2 : E.frame = 2
    · rw [if_pos h2] at h
      rw [h2]
      exact (C79_dirsB u.type.toNat level E.nrefs r.wsm r.ds E.tools.dhp old (by omega) hl (G := G)).at hm h
    · rw [if_neg h2] at h
      have := (C79_interPF (m := m) (G := G) E.frame u.type.toNat level E.nrefs r.wsm r.ds E.tools.dhp old (by omega) (by omega)
        (hn (by omega)))
      refine this.at hm ?_
      have e : decide ((E.frame = 4 ∧ E.nrefs > 1 ∧ E.tools.dhp = true) ∧ ¬ (level = 3 ∧ 2 ≤ u.type.toNat ∧ u.type.toNat ≤ 7)) =
          decide (E.frame = 4 ∧ 1 < E.nrefs ∧ E.tools.dhp = true ∧ ¬ (level = 3 ∧ 2 ≤ u.type)) := by
        rw [decide_eq_decide]
        have : (2 ≤ u.type.toNat ∧ u.type.toNat ≤ 7) ↔ 2 ≤ u.type := by omega
        rw [this]
        tauto
      rw [e]
      exact h

/-! ### Vectors -/

theorem reads_mvds (hm : m.Lawful G) {v : Int × Int} (h1 : -32768 ≤ v.1 ∧ v.1 ≤ 32767) (h2 : -32768 ≤ v.2 ∧ v.2 ≤ 32767) :
    Reads G m (mvds m) v (mvdCode .mvd0 v.1 ++ mvdCode .mvd1 v.2) := by
  unfold mvds
  refine Reads.bind ((C79_mvd (G := G) .mvd0 (Or.inl rfl)).at hm ⟨by omega, rfl⟩)
    (Reads.last ((C79_mvd (G := G) .mvd1 (Or.inr rfl)).at hm ⟨by omega, rfl⟩) ?_)
  have e : (Sx.toInt16 v.1, Sx.toInt16 v.2) = v := by
    unfold Sx.toInt16
    refine Prod.ext ?_ ?_ <;> dsimp only <;> omega
  rw [e]
  exact Reads.pure _

theorem reads_vecs (hm : m.Lawful G) {has has' : Int → Bool} (ds : List Int) : ∀ {vs : List (Option (Int × Int))} {c : List Bin},
    (∀ d ∈ ds, has' d = has d) → vecsT has ds vs c → Reads G m (readVecs m has' ds) (some vs) c := by
  induction ds with
  | nil =>
    rintro vs c _ ⟨rfl, rfl⟩
    exact Reads.pure _
  | cons d ds ih =>
    intro vs c hh h
    unfold vecsT at h
    unfold readVecs
    have e := hh d List.mem_cons_self
    have hh' : ∀ d ∈ ds, has' d = has d := fun x hx => hh x (List.mem_cons_of_mem _ hx)
    by_cases hd : has d = true
    · rw [if_pos hd] at h
      rw [if_pos (by rw [e]; exact hd)]
      obtain ⟨v, vs', c', rfl, h1, h2, rfl, h3⟩ := h
      refine Reads.bind (reads_mvds hm h1 h2) (Reads.bind0 (Reads.failed hm) ?_)
      rw [if_neg (by decide)]
      exact Reads.last (ih hh' h3) (Reads.pure _)
    · rw [if_neg hd] at h
      rw [if_neg (by rw [e]; exact hd)]
      obtain ⟨vs', rfl, h3⟩ := h
      exact Reads.last (ih hh' h3) (Reads.pure _)

theorem dirsBT_rep (type level : Nat) : dirsBT type level = dirsBT (if type = 1 then 1 else 2) (if level = 3 then 3 else 4) := by
  unfold dirsBT
  by_cases h1 : type = 1 <;> by_cases h2 : level = 3 <;> simp [h1, h2]

theorem dirsBT_table : ∀ a ∈ [1, 2], ∀ b ∈ [3, 4], ∀ x ∈ dirsBT a b, ∀ d ∈ x.1.1, d = 0 ∨ d = 1 ∨ d = 2 ∨ d = 3 := by
  decide +kernel

theorem dirsBT_range {type level : Nat} {x : (List Int × List (Int × Int)) × List Bin} (h : x ∈ dirsBT type level) :
    ∀ d ∈ x.1.1, d = 0 ∨ d = 1 ∨ d = 2 ∨ d = 3 := by
  rw [dirsBT_rep] at h
  refine dirsBT_table _ ?_ _ ?_ x h
  · split <;> decide
  · split <;> decide

theorem dirsPFT_len {type : Nat} {dhp : Bool} {x : List Int × List Bin} (h : x ∈ dirsPFT type dhp) : x.1.length = 4 := by
  unfold dirsPFT at h
  dsimp only at h
  split at h
  · split at h <;> simp only [List.mem_cons, List.not_mem_nil, or_false] at h
    · rcases h with rfl | rfl <;> rfl
    · rw [h]; rfl
  · split at h <;> simp only [List.mem_cons, List.not_mem_nil, or_false] at h
    · rcases h with rfl | rfl | rfl | rfl <;> rfl
    · rw [h]; rfl

theorem reads_motion (hm : m.Lawful G) {E : Env} {level : Nat} (hl : 3 ≤ level ∧ level ≤ 6) {u : CUnit} (h1 : 1 ≤ u.type)
    (hu : u.type < 8) (h5 : E.frame ≠ 5) {cd c : List Bin} (hd : dirsT E level u cd) (h : motionT E level u c) :
    Reads G m (readMotion m E level u.type.toNat u.dirs) (some (u.dmh, u.mvd1, u.mvd2)) c := by
  unfold motionT at h
  rw [if_neg (by omega)] at h
  obtain ⟨c0, c1, c2, rfl, h0, hv1, hv2⟩ := h
  unfold dirsT at hd
  rw [if_neg (by omega)] at hd
  have hnum : Un.numPu.getD u.type.toNat 0 = if u.type = 1 then 1 else 2 := by
    have : ∀ k < 8, 1 ≤ k → Un.numPu.getD k 0 = if ((k : Nat) : Int) = 1 then 1 else 2 := by decide
    have := this u.type.toNat (by omega) (by omega)
    rwa [Int.toNat_of_nonneg (by omega)] at this
  have hlen : u.dirs.length = 4 ∨ E.frame = 2 := by
    by_cases h2 : E.frame = 2
    · exact Or.inr h2
    · rw [if_neg h2] at hd
      obtain ⟨cd', hd, _⟩ := hd
      exact Or.inl (dirsPFT_len hd)
  have hdmh : Reads G m (if hasDmh E.frame u.type.toNat level u.dirs then dmhMode m level else pure 0) u.dmh c0 := by
    have e : (hasDmh E.frame u.type.toNat level u.dirs = true) ↔ (E.frame = 4 ∧ (∀ d ∈ u.dirs, d = 0) ∧ ¬ (level = 3 ∧ 2 ≤ u.type)) := by
      unfold hasDmh
      rw [decide_eq_true_eq]
      have a1 : (2 ≤ u.type.toNat ∧ u.type.toNat ≤ 7) ↔ 2 ≤ u.type := by omega
      have a2 : u.type.toNat ≠ 0 := by omega
      rw [a1]
      by_cases h4 : E.frame = 4
      · have hl4 : u.dirs.length = 4 := hlen.resolve_right (by omega)
        have a3 : u.dirs = [0, 0, 0, 0] ↔ ∀ d ∈ u.dirs, d = 0 := by
          constructor
          · intro h; rw [h]; decide
          · intro h; exact List.eq_replicate_iff.mpr ⟨hl4, h⟩
        rw [a3]
        tauto
      · tauto
    by_cases hh : hasDmh E.frame u.type.toNat level u.dirs = true
    · rw [if_pos (e.mp hh)] at h0
      rw [if_pos hh]
      exact (C79_dmhMode level hl (G := G)).at hm h0
    · rw [if_neg fun x => hh (e.mpr x)] at h0
      rw [if_neg hh, h0.1, h0.2]
      exact Reads.pure _
  unfold readMotion
  rw [List.append_assoc]
  refine Reads.bind hdmh (Reads.bind0 (Reads.failed hm) ?_)
  rw [if_neg (by decide), hnum]
  refine Reads.bind (reads_vecs hm _ (fun d _ => ?_) hv1) ?_
  · rw [decide_eq_decide]; tauto
  · dsimp only
    by_cases h2 : E.frame = 2
    · rw [if_pos h2] at hv2 hd ⊢
      have hr := dirsBT_range hd
      refine Reads.last (reads_vecs hm _ (fun d hdm => ?_) hv2) (Reads.pure _)
      have := hr d (List.mem_of_mem_take hdm)
      rw [decide_eq_decide]
      omega
    · rw [if_neg h2] at hv2 ⊢
      rw [hv2.1, hv2.2]
      exact Reads.pure _

end Davs2.Cs
