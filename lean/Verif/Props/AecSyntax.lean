import Verif.Lemmas.AecSyntax
import Verif.Props.AecCoeffs
/-
C32: syntax elements decoded from any bits are in range.

Each theorem says: from every state of the decoder, so for every payload, the function uses no context outside
its array and no entry outside a constant table, does not compute an unrepresentable integer unless stated, and
its result lies in the range that the tables indexed by it are dimensioned for.
-/
namespace Davs2.Sx

variable {σ : Type} {m : Machine σ}

theorem rd : Rd .reader := rfl
theorem ra : RdAr .reader := Or.inl rfl
theorem raA : RdAr .arith := Or.inr rfl

/-- Read a symbol with a context that is in range. -/
local macro "bsym" : tactic => `(tactic|
  refine Within.bind (within_sym rd (by simp only [Arr.size]; omega)) fun _ _ => ?_)

theorem bit_range (b : Bool) : 0 ≤ bit b ∧ bit b ≤ 1 := by cases b <;> decide

/-- **C32 (split flag).** -/
theorem C32_splitFlag (level : Nat) (h : 4 ≤ level ∧ level ≤ 6) : Within Rd (splitFlag m level) fun _ => True := by
  unfold splitFlag
  rw [if_pos h.1]
  exact within_sym rd (by simp only [Arr.size]; omega)

/-- **C32 (dual hypothesis mode).**  At most 8, the last row of the table of displacements (`dmh_pos`,
/repo/source/common/cu.cc, nine rows). -/
theorem C32_dmhMode (level : Nat) (h : 3 ≤ level ∧ level ≤ 6) :
    Within Rd (dmhMode m level) fun v => 0 ≤ v ∧ v ≤ 8 := by
  unfold dmhMode
  dsimp only
  bsym
  refine Within.ite (fun _ => ?_) fun _ => Within.pure (by omega)
  bsym
  refine Within.ite (fun _ => ?_) fun _ => ?_
  · bsym
    refine Within.ite (fun _ => ?_) fun _ => ?_
    · refine Within.bind (within_eqp rd) fun a _ => Within.bind (within_eqp rd) fun b _ => Within.pure ?_
      have := bit_range a
      have := bit_range b
      omega
    · refine Within.bind (within_eqp rd) fun a _ => Within.pure ?_
      have := bit_range a
      omega
  · refine Within.bind (within_eqp rd) fun a _ => Within.pure ?_
    have := bit_range a
    omega

/-- **C32 (weighted skip mode).**  Below the number of references. -/
theorem within_wpm {F : Fault → Prop} (hF : F .reader) (hm : m.Ok) (nrefs : Nat) (h : 1 < nrefs) :
    Within F (wpm m nrefs) fun v => v < nrefs := by
  unfold wpm
  exact (within_runExt hF hm (by simp only [Arr.size]; omega)).mono fun v hv => by omega

theorem within_dirSkip {F : Fault → Prop} (hF : F .reader) (hm : m.Ok) :
    Within F (dirSkip m) fun v => v ≤ 4 := by
  unfold dirSkip
  refine Within.bind (within_runExt hF hm (by simp only [Arr.size]; omega)) fun k hk => ?_
  refine Within.ite (fun h => ?_) fun h => Within.pure (by omega)
  refine Within.bind (within_sym hF (by simp only [Arr.size]; omega)) fun b _ => Within.pure ?_
  have := Bool.toNat_le (!b)
  omega

/-- **C32 (intra unit).**  The result is one of the four intra types with a transform split (C50). -/
theorem C32_intraCuType (sdip : Bool) (level : Nat) (h : 3 ≤ level ∧ level ≤ 6) :
    Within Rd (intraCuType m sdip level) fun r =>
      8 ≤ r.1 ∧ r.1 ≤ 11 ∧ ∃ trans, r.2 = some trans ∧ UnitOk r.1 level trans := by
  have key : ∀ k < 4, ∀ sdip split b : Bool, (b = true → split = true) →
      8 ≤ (Un.intraType sdip (3 + k) split b).1 ∧ (Un.intraType sdip (3 + k) split b).1 ≤ 11 ∧
        (Un.intraType sdip (3 + k) split b).2.isSome = true := by decide +kernel
  unfold intraCuType
  dsimp only
  refine Within.bind (R := fun _ => True) ?_ fun split _ => Within.bind (R := fun b => b = true → split = true) ?_
    fun b hb => Within.pure ?_
  · refine Within.ite (fun _ => ?_) fun _ => Within.pure trivial
    refine within_sym rd ?_
    simp only [Arr.size]
    have := Bool.toNat_le (decide (level = 5 ∨ level = 4) && sdip)
    omega
  · refine Within.ite (fun hs => ?_) fun _ => Within.pure (by simp)
    refine (within_sym rd (by simp only [Arr.size]; omega)).mono fun _ _ _ => ?_
    rw [Bool.and_eq_true] at hs
    exact hs.1
  · obtain ⟨k, rfl⟩ := Nat.exists_eq_add_of_le h.1
    obtain ⟨h1, h2, h3⟩ := key k (by omega) sdip split b hb
    refine ⟨h1, h2, ?_⟩
    obtain ⟨t, ht⟩ := Option.isSome_iff_exists.1 h3
    exact ⟨t, ht, Or.inl ⟨sdip, split, b, by rw [← ht]⟩⟩

theorem within_cuTypeLoop {F : Fault → Prop} (hF : F .reader) (level n k : Nat) :
    Within F (cuTypeLoop m level n k) fun r => ∀ v, r = some v → v ≤ k + n := by
  induction n generalizing k with
  | zero => exact Within.pure (by intro v h; cases h; omega)
  | succ n ih =>
    unfold cuTypeLoop
    refine Within.bind (R := fun _ => True) ?_ fun b _ => Within.bind within_failed fun f _ => ?_
    · refine Within.ite (fun _ => within_fin hF) fun _ => within_sym hF ?_
      simp only [Arr.size]
      omega
    · refine Within.ite (fun _ => Within.pure (by intro v h; cases h)) fun _ => Within.ite (fun _ => Within.pure ?_)
        fun _ => ?_
      · intro v h; cases h; omega
      · exact (ih (k + 1)).mono fun r hr v h => by have := hr v h; omega

theorem within_cuTypeSkip (hm : m.Ok) (frame nrefs : Nat) (mhp wsm : Bool) (t : Int) :
    Within Rd (cuTypeSkip m frame nrefs mhp wsm t) fun r => r.type = t ∧ r.ds ≤ 4 ∧
      (r.wsm ≠ 0 → frame = 4 ∧ r.wsm < nrefs ∧ r.ds = 0) ∧ (r.ds ≠ 0 → frame = 4 ∨ frame = 2) := by
  unfold cuTypeSkip
  refine Within.ite (fun _ => ?_) fun _ => Within.pure (by
    refine ⟨rfl, Nat.zero_le _, fun h => absurd rfl h, fun h => absurd rfl h⟩)
  refine Within.bind (R := fun w => w ≠ 0 → frame = 4 ∧ w < nrefs) ?_ fun w hw =>
    Within.bind (R := fun d => d ≤ 4 ∧ (d ≠ 0 → w = 0 ∧ (frame = 4 ∨ frame = 2))) ?_ fun d hd => Within.pure ?_
  · refine Within.ite (fun h => ?_) fun _ => Within.pure (by omega)
    exact (within_wpm rd hm nrefs h.2.2).mono fun w hw _ => ⟨h.1, hw⟩
  · refine Within.ite (fun h => ?_) fun _ => Within.pure (by omega)
    refine (within_dirSkip rd hm).mono fun d hd => ⟨hd, fun _ => ⟨h.1, ?_⟩⟩
    rcases h.2 with h | h
    · exact Or.inl h.2
    · exact Or.inr h
  · refine ⟨rfl, hd.1, fun h => ?_, fun h => (hd.2 h).2⟩
    obtain ⟨h1, h2⟩ := hw h
    refine ⟨h1, h2, ?_⟩
    rcases Nat.eq_zero_or_pos d with h0 | h0
    · exact h0
    · exact absurd (hd.2 (by omega)).1 h

/-- Types of units: skip without residual -1, skip 0, the seven inter partitions 1 to 7, intra 9 (the kind of
intra unit is read afterwards). -/
def CuTypeOk (level : Nat) (t : Int) : Prop := t = 9 ∨ (-1 ≤ t ∧ t ≤ 3) ∨ (4 ≤ t ∧ t ≤ 7 ∧ 4 ≤ level)

/-- **C32 (unit type).**  The type is one of the known ones, asymmetric partitions occur at levels of at least 4
only; the skip modes index the tables of skip candidates (five entries) and the reference list. -/
theorem C32_cuType (hm : m.Ok) (frame level nrefs : Nat) (amp mhp wsm : Bool) (h : 3 ≤ level ∧ level ≤ 6) :
    Within Rd (cuType m frame level nrefs amp mhp wsm) fun r => ∀ c, r = some c →
      CuTypeOk level c.type ∧ (frame = 0 → c.type = 9) ∧ c.ds ≤ 4 ∧
      (c.wsm ≠ 0 → frame = 4 ∧ c.wsm < nrefs ∧ c.ds = 0) ∧ (c.ds ≠ 0 → frame = 4 ∨ frame = 2) := by
  unfold cuType
  refine Within.ite (fun hf => ?_) fun hf => ?_
  · refine Within.bind (within_cuTypeSkip hm frame nrefs mhp wsm 9) fun r hr => Within.pure ?_
    intro c hc; cases hc
    exact ⟨Or.inl hr.1, fun _ => hr.1, hr.2⟩
  · refine Within.bind (within_cuTypeLoop rd level _ 0) fun k hk => ?_
    match k, hk with
    | none, _ => exact Within.pure (by intro c h; cases h)
    | some k, hk =>
      have hk := hk k rfl
      dsimp only
      have hmap : ∀ l, 3 ≤ l → ∀ k, k ≤ 0 + (if l = 3 then 5 else 6) → ∀ v, (mapCuType l)[k]? = some v →
          v = 9 ∨ (-1 ≤ v ∧ v ≤ 3) := by
        intro l hl
        have h6 : ∀ k ≤ 6, ∀ v, (mapCuType 4)[k]? = some v → v = 9 ∨ (-1 ≤ v ∧ v ≤ 3) := by decide
        have h5 : ∀ k ≤ 6, ∀ v, (mapCuType 3)[k]? = some v → v = 9 ∨ (-1 ≤ v ∧ v ≤ 3) := by decide
        intro k hk v hv
        by_cases h3 : l = 3
        · subst h3
          exact h5 k (by simp only [if_true] at hk; omega) v hv
        · rw [if_neg h3] at hk
          have : mapCuType l = mapCuType 4 := by unfold mapCuType; rw [if_neg h3]; rfl
          rw [this] at hv
          exact h6 k (by omega) v hv
      have hlen : (k : Int) < (mapCuType level).length := by
        unfold mapCuType
        split <;> simp only [List.length_cons, List.length_nil]
        · rename_i h3; rw [if_pos h3] at hk; omega
        · rename_i h3; rw [if_neg h3] at hk; omega
      refine Within.bind (within_tab_lt (by omega) hlen) fun t ht => ?_
      have ht := hmap level h.1 k hk t (by rw [← ht]; rfl)
      refine Within.bind (R := CuTypeOk level) ?_ fun t' ht' => ?_
      · refine Within.ite (fun hc => ?_) fun _ => Within.pure ?_
        · bsym
          refine Within.ite (fun _ => Within.pure ?_) fun _ => ?_
          · unfold CuTypeOk; omega
          · refine Within.bind (within_sym rd (by simp only [Arr.size]; omega)) fun b _ => Within.pure ?_
            have := bit_range (!b)
            unfold CuTypeOk
            omega
        · unfold CuTypeOk; omega
      · refine Within.bind (within_cuTypeSkip hm frame nrefs mhp wsm t') fun r hr => Within.pure ?_
        intro c hc; cases hc
        exact ⟨hr.1 ▸ ht', fun h0 => absurd h0 hf, hr.2⟩

/-- **C32 (unit type of S pictures).** -/
theorem C32_cuTypeS : Within Rd (cuTypeS m) fun t => t = -1 ∨ t = 0 ∨ t = 9 := by
  unfold cuTypeS
  bsym
  refine Within.ite (fun _ => (within_tab (v := -1) (by omega) rfl).mono fun r hr => by omega) fun _ => ?_
  bsym
  exact Within.ite (fun _ => (within_tab (v := 0) (by omega) rfl).mono fun r hr => by omega)
    fun _ => (within_tab (v := 9) (by omega) rfl).mono fun r hr => by omega

theorem dir2_ok : ∀ a < 4, ∀ b < 4, ∃ r, dir2offset[a]? = some r ∧ ∃ v, r[b]? = some v ∧ 0 ≤ v ∧ v ≤ 15 := by
  intro a ha b hb
  have h : ∀ a < 4, ∀ b < 4, (dir2offset[a]?.any fun r => r[b]?.any fun v => decide (0 ≤ v) && decide (v ≤ 15)) = true := by
    decide
  have := h a ha b hb
  rw [Option.any_eq_true] at this
  obtain ⟨r, hr, this⟩ := this
  rw [Option.any_eq_true] at this
  obtain ⟨v, hv, this⟩ := this
  rw [Bool.and_eq_true, decide_eq_true_eq, decide_eq_true_eq] at this
  exact ⟨r, hr, v, hv, this⟩

theorem within_dirOff {F : Fault → Prop} (a b : Int) (ha : 0 ≤ a ∧ a < 4) (hb : 0 ≤ b ∧ b < 4) :
    Within F (dirOff a b : P σ Int) fun v => 0 ≤ v ∧ v ≤ 15 := by
  obtain ⟨r, hr, v, hv, h⟩ := dir2_ok a.toNat (by omega) b.toNat (by omega)
  unfold dirOff
  exact Within.bind (within_tab ha.1 hr) fun r' hr' => by
    subst hr'
    exact (within_tab hb.1 hv).mono fun x hx => by rw [hx]; exact h

theorem within_bPdir2 {F : Fault → Prop} (hF : F .reader) (d : Nat) (hd : d ≤ 3) :
    Within F (bPdir2 m d) fun v => v ≤ 3 := by
  have hs : ∀ i, i < 15 → Within F (sym m .puType i) fun _ => True := fun i h => within_sym hF h
  unfold bPdir2
  refine Within.bind (hs 6 (by omega)) fun _ _ => Within.ite (fun _ => Within.pure hd) fun _ => ?_
  have tri : ∀ i j a b c, i < 15 → j < 15 → a ≤ 3 → b ≤ 3 → c ≤ 3 → Within F (do
      if ← sym m .puType i then pure a else (if ← sym m .puType j then pure b else pure c) : P σ Nat)
      fun v => v ≤ 3 := by
    intro i j a b c hi hj ha hb hc
    refine Within.bind (hs i hi) fun _ _ => Within.ite (fun _ => Within.pure ha) fun _ =>
      Within.bind (hs j hj) fun _ _ => Within.ite (fun _ => Within.pure hb) fun _ => Within.pure hc
  match d, hd with
  | 0, _ => exact tri 7 8 1 2 3 (by omega) (by omega) (by omega) (by omega) (by omega)
  | 1, _ => exact tri 9 10 0 2 3 (by omega) (by omega) (by omega) (by omega) (by omega)
  | 2, _ => exact tri 11 12 0 1 3 (by omega) (by omega) (by omega) (by omega) (by omega)
  | 3, _ => exact tri 13 14 0 1 2 (by omega) (by omega) (by omega) (by omega) (by omega)

theorem within_bPdir {F : Fault → Prop} (hF : F .reader) (hm : m.Ok) (type level : Nat) :
    Within F (bPdir m type level) fun v => 0 ≤ v ∧ v ≤ if type = 1 then 3 else 15 := by
  unfold bPdir
  refine Within.ite (fun h1 => ?_) fun h1 => ?_
  · rw [if_pos h1]
    refine Within.bind (within_runExt hF hm (by simp only [Arr.size]; omega)) fun k hk => ?_
    refine Within.ite (fun _ => ?_) fun _ => Within.pure (by omega)
    refine Within.bind (within_sym hF (by simp only [Arr.size]; omega)) fun b _ => Within.pure ?_
    have := bit_range (!b)
    omega
  · rw [if_neg h1]
    refine Within.ite (fun _ => ?_) fun _ => ?_
    · refine Within.bind (within_sym hF (by simp only [Arr.size]; omega)) fun b _ => ?_
      dsimp only
      refine Within.bind (within_sym hF (by simp only [Arr.size]; omega)) fun c _ => ?_
      have h1 := bit_range (!b)
      have h2 := bit_range (if c then !b else !!b)
      exact within_dirOff _ _ (by omega) (by omega)
    · refine Within.bind (within_runExt hF hm (by simp only [Arr.size]; omega)) fun k hk => ?_
      refine Within.bind (R := fun p => p ≤ 3) ?_ fun p hp => ?_
      · refine Within.ite (fun _ => ?_) fun _ => Within.pure (by omega)
        refine Within.bind (within_sym hF (by simp only [Arr.size]; omega)) fun b _ => Within.pure ?_
        have := Bool.toNat_le (!b)
        omega
      · refine Within.bind (within_bPdir2 hF p hp) fun q hq => ?_
        have ht : ∀ i ≤ 3, ∀ v, [(3 : Int), 1, 0, 2][i]? = some v → 0 ≤ v ∧ v < 4 := by decide
        refine Within.bind (within_tab_lt (by omega) (by simp only [List.length_cons, List.length_nil]; omega))
          fun a ha => Within.bind (within_tab_lt (by omega) (by simp only [List.length_cons, List.length_nil]; omega))
            fun b hb => ?_
        exact within_dirOff _ _ (ht p hp a ha) (ht q hq b hb)

/-- **C32 (direction of B units).**  One of four directions for an undivided unit, an index of the table of the
sixteen pairs of directions otherwise. -/
theorem C32_bPdir (hm : m.Ok) (type level : Nat) :
    Within Rd (bPdir m type level) fun v => 0 ≤ v ∧ v ≤ if type = 1 then 3 else 15 := within_bPdir rd hm type level

theorem within_pdirDhp {F : Fault → Prop} (hF : F .reader) (type : Nat) :
    Within F (pdirDhp m type) fun v => 0 ≤ v ∧ v ≤ 3 := by
  unfold pdirDhp
  refine Within.ite (fun _ => ?_) fun _ => ?_
  · refine Within.bind (within_sym hF (by simp only [Arr.size]; omega)) fun b _ => Within.pure ?_
    have := bit_range b
    omega
  · refine Within.bind (within_sym hF (by simp only [Arr.size]; omega)) fun b _ =>
      Within.bind (within_sym hF (by simp only [Arr.size]; omega)) fun s _ => ?_
    dsimp only
    generalize hq : (if s = true then b else !b) = q
    have h : ∀ b q : Bool, ∃ r, [[(0 : Int), 1], [2, 3]][(bit b).toNat]? = some r ∧
        ∃ v, r[(bit q).toNat]? = some v ∧ 0 ≤ v ∧ v ≤ 3 := by
      intro b q
      cases b <;> cases q <;> exact ⟨_, rfl, _, rfl, by decide, by decide⟩
    obtain ⟨r, hr, v, hv, hb⟩ := h b q
    refine Within.bind (within_tab (bit_range b).1 hr) fun r' hr' => ?_
    subst hr'
    exact (within_tab (bit_range q).1 hv).mono fun x hx => by rw [hx]; exact hb

theorem hv_of : ∀ t ≤ 7, 2 ≤ t → hvPart t = true := by decide

theorem within_setPdirPF {F : Fault → Prop} (type : Nat) (h : 1 ≤ type ∧ type ≤ 7) (pdir : Int)
    (hp : 0 ≤ pdir ∧ pdir ≤ 3) :
    Within F (setPdirPF type pdir : P σ (List Int)) fun ds => ds.length = 4 ∧ ∀ d ∈ ds, d = 0 ∨ d = 4 := by
  unfold setPdirPF
  refine Within.ite (fun _ => ?_) fun h1 => ?_
  · dsimp only
    refine Within.pure ⟨rfl, fun d hd => ?_⟩
    simp only [List.mem_cons, List.not_mem_nil, or_false, or_self] at hd
    rw [hd]
    split <;> omega
  · rw [if_pos (hv_of type h.2 (by omega))]
    have ta : ∀ i ≤ 3, ∀ v, [(0 : Int), 0, 4, 4][i]? = some v → v = 0 ∨ v = 4 := by decide
    have tb : ∀ i ≤ 3, ∀ v, [(0 : Int), 4, 0, 4][i]? = some v → v = 0 ∨ v = 4 := by decide
    refine Within.bind (within_tab_lt hp.1 (by simp only [List.length_cons, List.length_nil]; omega)) fun a ha =>
      Within.bind (within_tab_lt hp.1 (by simp only [List.length_cons, List.length_nil]; omega)) fun b hb =>
        Within.pure ⟨rfl, fun d hd => ?_⟩
    have ha := ta _ (by omega) a ha
    have hb := tb _ (by omega) b hb
    simp only [List.mem_cons, List.not_mem_nil, or_false] at hd
    omega

/-- References of a block of a B picture that go with its direction: the forward reference is entry 1, the
backward reference entry 0 of the list, and exactly the directions in use have one. -/
def BRefOk (d : Int) (r : Int × Int) : Prop :=
  (r.1 = if d = 1 then -1 else 1) ∧ (r.2 = if d = 0 then -1 else 0)

theorem within_refsOf {F : Fault → Prop} (ds : List Int) (h : ∀ d ∈ ds, 0 ≤ d ∧ d ≤ 3) :
    Within F (refsOf ds : P σ (List (Int × Int))) fun rs => List.Forall₂ BRefOk ds rs := by
  induction ds with
  | nil => exact Within.pure .nil
  | cons d ds ih =>
    unfold refsOf
    have hd := h d (List.mem_cons_self ..)
    refine Within.bind (within_tab_lt hd.1 (by simp only [pdir2refidx, List.length_cons, List.length_nil]; omega))
      fun r hr => Within.bind (ih fun x hx => h x (List.mem_cons_of_mem _ hx)) fun rs hrs => Within.pure (.cons ?_ hrs)
    have key : ∀ i : Nat, i ≤ 3 → ∀ v, pdir2refidx[i]? = some v →
        (v.1 = if (i : Int) = 1 then -1 else 1) ∧ (v.2 = if (i : Int) = 0 then -1 else 0) := by decide
    have hk := key d.toNat (by omega) r hr
    have : ((d.toNat : Nat) : Int) = d := by omega
    rw [this] at hk
    exact hk

theorem within_setPdirB {F : Fault → Prop} (type ds : Nat) (ht : type ≤ 7) (hds : ds ≤ 4) (pdir : Int)
    (hp : 0 ≤ pdir ∧ pdir ≤ if type = 1 then 3 else 15) :
    Within F (setPdirB type ds pdir : P σ _) fun r => (r.1.length = 4 ∧ ∀ d ∈ r.1, 0 ≤ d ∧ d ≤ 3) ∧
      List.Forall₂ BRefOk r.1 r.2 := by
  unfold setPdirB
  refine Within.bind (R := fun l => l.length = 4 ∧ ∀ d ∈ l, (0 : Int) ≤ d ∧ d ≤ 3) ?_ fun l hl =>
    Within.bind (within_refsOf l hl.2) fun rs hrs => Within.pure ⟨hl, hrs⟩
  refine Within.ite (fun _ => ?_) fun h0 => Within.ite (fun h1 => ?_) fun h1 => ?_
  · refine Within.bind (within_tab_lt (by omega) (by simp only [pdirBskip, List.length_cons, List.length_nil]; omega))
      fun d hd => Within.pure ⟨rfl, fun x hx => ?_⟩
    have key : ∀ i ≤ 4, ∀ v, pdirBskip[i]? = some v → 0 ≤ v ∧ v ≤ 3 := by decide
    have := key _ (by omega) d hd
    simp only [List.mem_cons, List.not_mem_nil, or_false, or_self] at hx
    omega
  · rw [if_pos h1] at hp
    refine Within.pure ⟨rfl, fun x hx => ?_⟩
    simp only [List.mem_cons, List.not_mem_nil, or_false, or_self] at hx
    omega
  · rw [if_pos (hv_of type ht (by omega))]
    rw [if_neg h1] at hp
    have ta : ∀ i ≤ 15, ∀ v, pdir0B[i]? = some v → 0 ≤ v ∧ v ≤ 3 := by decide
    have tb : ∀ i ≤ 15, ∀ v, pdir1B[i]? = some v → 0 ≤ v ∧ v ≤ 3 := by decide
    refine Within.bind (within_tab_lt hp.1 (by simp only [pdir0B, List.length_cons, List.length_nil]; omega))
      fun a ha => Within.bind (within_tab_lt hp.1 (by simp only [pdir1B, List.length_cons, List.length_nil]; omega))
        fun b hb => Within.pure ⟨rfl, fun d hd => ?_⟩
    have ha := ta _ (by omega) a ha
    have hb := tb _ (by omega) b hb
    simp only [List.mem_cons, List.not_mem_nil, or_false] at hd
    omega

theorem within_refFrameLoop {F : Fault → Prop} (hF : F .reader) (n k : Nat) :
    Within F (refFrameLoop m n k) fun v => v ≤ k + n := by
  induction n generalizing k with
  | zero => exact Within.pure (by omega)
  | succ n ih =>
    unfold refFrameLoop
    refine Within.bind (within_sym hF (by simp only [Arr.size]; omega)) fun _ _ =>
      Within.ite (fun _ => Within.pure (by omega)) fun _ => (ih (k + 1)).mono fun v hv => by omega

theorem within_refFrame {F : Fault → Prop} (hF : F .reader) (nrefs : Nat) (h : 1 < nrefs) :
    Within F (refFrame m nrefs) fun v => v < nrefs := by
  unfold refFrame
  refine Within.bind (within_sym hF (by simp only [Arr.size]; omega)) fun _ _ =>
    Within.ite (fun _ => Within.pure (by omega)) fun _ =>
      (within_refFrameLoop hF (nrefs - 2) 1).mono fun v hv => by omega

/-- **C32 (reference index).** -/
theorem C32_refFrame (nrefs : Nat) (h : 1 < nrefs) : Within Rd (refFrame m nrefs) fun v => v < nrefs :=
  within_refFrame rd nrefs h

/-- References of a prediction unit of a P or F picture: the first names an entry of the list; the second does
for the dual direction (0, or 1 if the first is 0) and is invalid otherwise. -/
def PRefOk (nrefs : Nat) (d : Int) (r : Int × Int) : Prop :=
  (0 ≤ r.1 ∧ r.1 < nrefs) ∧ (if d = 4 then 0 ≤ r.2 ∧ r.2 < nrefs ∧ r.2 = (if r.1 = 0 then 1 else 0) else r.2 = -1)

/-- No error is pending and none occurs. -/
def NoErr (m : Machine σ) : Prop := ∀ s, m.err s = false

theorem within_failed_no {F : Fault → Prop} (h : NoErr m) : Within F (failed m) fun b => b = false := by
  intro s
  unfold failed
  rw [h s]
  rfl

theorem within_readReferences {F : Fault → Prop} (hF : F .reader) (hno : NoErr m) (nrefs : Nat) (h1 : 0 < nrefs)
    (dirs : List Int) (hd : ∀ d ∈ dirs, d = 4 → 1 < nrefs) (n : Nat) (hn : n ≤ dirs.length)
    (old : List (Int × Int)) :
    Within F (readReferences m nrefs dirs n old) fun rs => List.Forall₂ (PRefOk nrefs) (dirs.drop (dirs.length - n)) rs := by
  induction n generalizing old with
  | zero =>
    unfold readReferences
    rw [Nat.sub_zero, List.drop_length]
    exact Within.pure .nil
  | succ n ih =>
    unfold readReferences
    dsimp only
    have hi : dirs.length - (n + 1) < dirs.length := by omega
    have hdrop : dirs.drop (dirs.length - (n + 1)) = dirs[dirs.length - (n + 1)] :: dirs.drop (dirs.length - n) := by
      rw [List.drop_eq_getElem_cons hi]
      congr 2
      omega
    have htab : Within F (tab dirs ((dirs.length - (n + 1) : Nat) : Int) : P σ Int)
        fun d => d = dirs[dirs.length - (n + 1)] := by
      refine within_tab (by omega) ?_
      rw [Int.toNat_natCast, List.getElem?_eq_getElem hi]
    have hmem := List.getElem_mem hi
    generalize dirs[dirs.length - (n + 1)] = d0 at *
    refine Within.ite (fun h2 => ?_) fun h2 => ?_
    · refine Within.bind (within_refFrame hF nrefs h2) fun r hr => Within.bind (within_failed_no hno) fun f hf => ?_
      rw [hf]
      refine Within.bind htab fun d hd' => Within.bind (ih (by omega) old.tail) fun rest hrest => Within.pure ?_
      rw [hdrop, hd']
      refine .cons ⟨by dsimp only; omega, ?_⟩ hrest
      dsimp only
      split
      · split <;> omega
      · rfl
    · refine Within.bind htab fun d hd' => Within.bind (ih (by omega) old.tail) fun rest hrest => Within.pure ?_
      rw [hdrop, hd']
      refine .cons ⟨by dsimp only; omega, ?_⟩ hrest
      dsimp only
      split
      · rename_i h4
        exact absurd (hd d0 hmem h4) h2
      · rfl

/-- **C32 (directions and references of B units).** -/
theorem C32_interB (hm : m.Ok) (type level nrefs wsm ds : Nat) (dhp : Bool) (old : List (Int × Int))
    (ht : type ≤ 7) (hds : ds ≤ 4) :
    Within Rd (interPredDir m 2 type level nrefs wsm ds dhp old) fun r =>
      (r.1.length = 4 ∧ ∀ d ∈ r.1, 0 ≤ d ∧ d ≤ 3) ∧ List.Forall₂ BRefOk r.1 r.2 := by
  unfold interPredDir
  rw [if_pos rfl]
  refine Within.bind (R := fun v => 0 ≤ v ∧ v ≤ if type = 1 then 3 else 15) ?_ fun pdir hp =>
    within_setPdirB type ds ht hds pdir hp
  refine Within.ite (fun _ => within_bPdir rd hm type level) fun _ => Within.pure ?_
  split <;> omega

/-- The part of `aec_read_inter_pred_dir` that sets the directions of a unit in P, F and S pictures. -/
theorem within_pfDirs {F : Fault → Prop} (hF : F .reader) (frame type level nrefs : Nat) (dhp : Bool)
    (ht : 1 ≤ type ∧ type ≤ 7) :
    Within F (do
        let pdir ← (if (frame = 4 ∧ nrefs > 1 ∧ dhp) ∧ ¬ (level = 3 ∧ 2 ≤ type ∧ type ≤ 7)
          then pdirDhp m type else pure 0)
        setPdirPF type pdir : P σ (List Int))
      fun ds => ds.length = 4 ∧ ∀ d ∈ ds, (d = 0 ∨ d = 4) ∧ (d = 4 → 1 < nrefs) := by
  by_cases hc : (frame = 4 ∧ nrefs > 1 ∧ dhp) ∧ ¬ (level = 3 ∧ 2 ≤ type ∧ type ≤ 7)
  · rw [if_pos hc]
    refine Within.bind (within_pdirDhp hF type) fun p hp => (within_setPdirPF type ht p hp).mono fun ds hds => ?_
    exact ⟨hds.1, fun d hd => ⟨hds.2 d hd, fun _ => hc.1.2.1⟩⟩
  · rw [if_neg hc]
    refine Within.bind (R := fun v => v = 0) (Within.pure rfl) fun p hp => ?_
    subst hp
    unfold setPdirPF
    refine Within.ite (fun _ => ?_) fun h1 => ?_
    · dsimp only
      refine Within.pure ⟨rfl, fun d hd => ?_⟩
      simp only [if_true, List.mem_cons, List.not_mem_nil, or_false, or_self] at hd
      omega
    · rw [if_pos (hv_of type ht.2 (by omega))]
      refine Within.bind (within_tab (v := 0) (by omega) rfl) fun a ha =>
        Within.bind (within_tab (v := 0) (by omega) rfl) fun b hb => Within.pure ⟨rfl, fun d hd => ?_⟩
      simp only [List.mem_cons, List.not_mem_nil, or_false] at hd
      omega

/-- **C32 (directions and references of P and F units), partial:** if no error of the payload occurs, each
prediction unit has references inside the list.  With an error they can be stale (`C32_references_violated`). -/
theorem C32_interPF_partial (hno : NoErr m) (frame type level nrefs wsm ds : Nat) (dhp : Bool)
    (old : List (Int × Int)) (hf : frame = 1 ∨ frame = 4) (ht : 1 ≤ type ∧ type ≤ 7) (hn : 0 < nrefs) :
    Within Rd (interPredDir m frame type level nrefs wsm ds dhp old) fun r =>
      (r.1.length = 4 ∧ ∀ d ∈ r.1, d = 0 ∨ d = 4) ∧
      List.Forall₂ (PRefOk nrefs) (r.1.take (if type = 1 then 1 else 2)) r.2 := by
  unfold interPredDir
  rw [if_neg (by omega : ¬ frame = 2), if_neg (by omega : ¬ type = 0)]
  refine Within.bind (within_pfDirs rd frame type level nrefs dhp ht) fun dirs hd => ?_
  rw [if_pos (by omega : frame ≠ 5 ∧ type ≠ 0)]
  dsimp only
  have hlen : (dirs.take (if type = 1 then 1 else 2)).length = if type = 1 then 1 else 2 := by
    rw [List.length_take, hd.1]
    split <;> omega
  refine Within.bind (within_readReferences rd hno nrefs hn (dirs.take (if type = 1 then 1 else 2))
    (fun d hm' h4 => (hd.2 d (List.mem_of_mem_take hm')).2 h4) _ (by omega) old) fun rs hrs => Within.pure ?_
  refine ⟨⟨hd.1, fun d h => (hd.2 d h).1⟩, ?_⟩
  rw [hlen, Nat.sub_self, List.drop_zero] at hrs
  exact hrs

/-- **C32 (intra luma mode).**  -2 and -1 choose a most probable mode, 0 to 31 one of the others (C57). -/
theorem C32_intraPmode : Within Rd (intraPmode m) fun v => -2 ≤ v ∧ v ≤ 31 := by
  unfold intraPmode
  bsym
  refine Within.ite (fun _ => ?_) fun _ => ?_
  · refine Within.bind (within_sym rd (by simp only [Arr.size]; omega)) fun b _ => Within.pure ?_
    have := bit_range b
    omega
  · refine Within.bind (within_sym rd (by simp only [Arr.size]; omega)) fun b1 _ =>
      Within.bind (within_sym rd (by simp only [Arr.size]; omega)) fun b2 _ =>
      Within.bind (within_sym rd (by simp only [Arr.size]; omega)) fun b3 _ =>
      Within.bind (within_sym rd (by simp only [Arr.size]; omega)) fun b4 _ =>
      Within.bind (within_sym rd (by simp only [Arr.size]; omega)) fun b5 _ => Within.pure ?_
    have := bit_range b1
    have := bit_range b2
    have := bit_range b3
    have := bit_range b4
    have := bit_range b5
    omega

theorem within_unaryMax {F : Fault → Prop} (hF : F .reader) (hm : m.Ok) (a : Arr) (i off max : Nat) (h : 1 ≤ max)
    (hi : i < a.size) (ho : i + off < a.size) : Within F (unaryMax m a i off max) fun v => v ≤ max := by
  unfold unaryMax
  refine Within.bind (within_sym hF hi) fun _ _ => Within.ite (fun _ => Within.pure (by omega)) fun _ =>
    Within.ite (fun _ => Within.pure (by omega)) fun _ => ?_
  exact Within.bind (within_run0 hF hm ho) fun k hk => Within.pure (by omega)

/-- **C32 (quantiser difference).**  Within the range allowed for the bit depth, whatever the code number. -/
theorem C32_deltaQp (hm : m.Ok) (bitDepth : Nat) (hb : 8 ≤ bitDepth) (last : Int) :
    Within Rd (deltaQp m bitDepth last) fun d =>
      -(32 + 4 * ((bitDepth : Int) - 8)) ≤ d ∧ d ≤ 32 + 4 * ((bitDepth : Int) - 8) := by
  unfold deltaQp
  dsimp only
  refine Within.bind (R := fun _ => True) ?_ fun d _ => Within.pure ?_
  · unfold deltaQpRaw
    refine Within.bind (within_sym rd (by simp only [Arr.size]; split <;> omega)) fun s _ =>
      Within.bind (R := fun _ => True) ?_ fun a _ => Within.pure trivial
    refine Within.ite (fun _ => Within.pure trivial) fun _ => ?_
    exact Within.bind (within_unaryMax rd hm .dqp 2 1 256 (by omega) (by decide) (by decide)) fun _ _ =>
      Within.pure trivial
  · generalize i8 d = x
    split
    · unfold clip3
      split
      · omega
      · split <;> omega
    · omega

theorem within_ctpY {F : Fault → Prop} (hF : F .reader) (nb : Nat → Nat → Bool × Bool) (b8 c : Nat) :
    Within F (ctpY m nb b8 c) fun _ => True := by
  unfold ctpY
  dsimp only
  refine within_sym hF ?_
  have := Bool.toNat_le (nb b8 c).1
  have := Bool.toNat_le (nb b8 c).2
  simp only [Arr.size]
  omega

theorem within_ctpY4 {F : Fault → Prop} (hF : F .reader) (nb : Nat → Nat → Bool × Bool) (c : Nat) :
    Within F (ctpY4 m nb c) fun v => c ≤ v ∧ v ≤ c + 15 := by
  unfold ctpY4
  dsimp only
  refine Within.bind (within_ctpY hF nb _ _) fun b0 _ => Within.bind (within_ctpY hF nb _ _) fun b1 _ =>
    Within.bind (within_ctpY hF nb _ _) fun b2 _ => Within.bind (within_ctpY hF nb _ _) fun b3 _ => Within.pure ?_
  have := Bool.toNat_le b0
  have := Bool.toNat_le b1
  have := Bool.toNat_le b2
  have := Bool.toNat_le b3
  omega

theorem within_ctpC {F : Fault → Prop} (hF : F .reader) (i : Nat) (h : i ≤ 7) :
    Within F (ctpC m i) fun v => v ≤ 48 ∧ v % 16 = 0 := by
  unfold ctpC
  refine Within.bind (within_sym hF (by simp only [Arr.size]; omega)) fun _ _ => Within.ite (fun _ => ?_)
    fun _ => Within.pure (by omega)
  refine Within.bind (within_sym hF (by simp only [Arr.size]; omega)) fun _ _ => Within.ite
    (fun _ => Within.pure (by omega)) fun _ => ?_
  exact Within.bind (within_sym hF (by simp only [Arr.size]; omega)) fun _ _ => Within.ite
    (fun _ => Within.pure (by omega)) fun _ => Within.pure (by omega)

/-- **C32 (coded block pattern).**  Six bits: four luma blocks, two chroma blocks. -/
theorem C32_cbp (nb : Nat → Nat → Bool × Bool) (type : Nat) : Within Rd (cbp m nb type) fun r => r.1 ≤ 63 := by
  unfold cbp
  refine Within.ite (fun _ => ?_) fun _ => ?_
  · refine Within.bind (R := fun _ => True) ?_ fun z _ => Within.ite (fun _ => Within.pure (by omega)) fun _ => ?_
    · exact Within.ite (fun _ => within_sym rd (by decide)) fun _ => Within.pure trivial
    · refine Within.bind (within_sym rd (by decide)) fun split _ => Within.bind (within_ctpC rd 4 (by omega))
        fun c hc => Within.ite (fun _ => ?_) fun _ => Within.ite (fun _ => Within.pure (by omega)) fun _ => ?_
      · exact Within.bind (within_ctpY4 rd nb c) fun v hv => Within.pure (by dsimp only; omega)
      · refine Within.bind (within_ctpY rd nb _ _) fun b _ => Within.pure ?_
        have := Bool.toNat_le b
        dsimp only
        omega
  · refine Within.bind (R := fun c => c ≤ 15) ?_ fun c hc => Within.bind (within_ctpC rd 6 (by omega)) fun u hu =>
      Within.pure (by dsimp only; omega)
    refine Within.ite (fun _ => ?_) fun _ => (within_ctpY4 rd nb 0).mono fun v hv => by omega
    refine Within.bind (within_ctpY rd nb _ _) fun b _ => Within.pure ?_
    have := Bool.toNat_le b
    omega

/-- **C32 (intra chroma mode).**  One of the five chroma modes, and not the one that equals the mode derived
from luma (which has its own number 0) unless it is the last. -/
theorem C32_intraPmodeC (hm : m.Ok) (leftC : Bool) (lm : Option Nat) :
    Within Rd (intraPmodeC m leftC lm) fun v => v ≤ 4 := by
  unfold intraPmodeC
  refine Within.bind (within_sym rd ?_) fun _ _ => Within.ite (fun _ => Within.pure (by omega)) fun _ => ?_
  · have := Bool.toNat_le leftC
    simp only [Arr.size]
    omega
  · refine Within.bind (within_unaryMax rd hm .chromaMode 2 0 3 (by omega) (by decide) (by decide)) fun k hk => ?_
    dsimp only
    match lm with
    | none => exact Within.pure (by omega)
    | some l =>
      refine Within.ite (fun _ => ?_) fun _ => Within.pure (by omega)
      exact Within.ite (fun _ => Within.pure (by omega)) fun _ => Within.pure (by omega)

/-- **C32 (motion vector difference), partial:** the vector stored has 16-bit components, unless an integer
overflows on the way (`C32_mvd_violated`). -/
theorem C32_mvds_partial : Within RdAr (mvds m) fun v =>
    (-32768 ≤ v.1 ∧ v.1 ≤ 32767) ∧ (-32768 ≤ v.2 ∧ v.2 ≤ 32767) := by
  have h16 : ∀ x, -32768 ≤ toInt16 x ∧ toInt16 x ≤ 32767 := by
    intro x
    unfold toInt16
    omega
  have hs : ∀ v, Within RdAr (mvdSign m v) fun _ => True := by
    intro v
    unfold mvdSign
    refine Within.ite (fun _ => ?_) fun _ => Within.pure trivial
    exact Within.bind (within_eqp ra) fun _ _ => Within.ite (fun _ => Within.pure trivial)
      fun _ => Within.pure trivial
  have hmvd : ∀ a : Arr, a.size = 3 → Within RdAr (mvd m a) fun _ => True := by
    intro a ha
    unfold mvd
    refine Within.bind (within_sym ra (by omega)) fun _ _ => Within.ite (fun _ => ?_) fun _ => hs _
    refine Within.bind (within_sym ra (by omega)) fun _ _ => Within.ite (fun _ => ?_) fun _ => hs _
    refine Within.bind (within_sym ra (by omega)) fun _ _ => Within.ite (fun _ => ?_) fun _ => hs _
    refine Within.bind (within_eqp ra) fun add _ =>
      Within.bind (within_prefix ra raA 32 0 0) fun q _ => ?_
    match q with
    | none => exact Within.pure trivial
    | some (o, acc) =>
      refine Within.bind (within_suffix ra o 0) fun b _ => Within.bind (within_i32 raA _) fun _ _ =>
        Within.bind (within_i32 raA _) fun _ _ => Within.bind (within_i32 raA _) fun _ _ => hs _
  unfold mvds
  exact Within.bind (hmvd .mvd0 rfl) fun x _ => Within.bind (hmvd .mvd1 rfl) fun y _ => Within.pure ⟨h16 x, h16 y⟩

/-- **C32 violated (motion vector difference).**  The prefix of the code is not limited: with the payload 223,
192, 0, … the decoder shifts 1 by more than 30 places. -/
theorem C32_mvd_violated : ∃ s, startState [223, 192, 0, 0, 0, 0, 0, 0, 0, 0, 0, 0] = some s ∧
    mvd aecMachine .mvd0 s = .error .arith := by
  have h : ((startState [223, 192, 0, 0, 0, 0, 0, 0, 0, 0, 0, 0]).any fun s =>
      match mvd aecMachine .mvd0 s with
      | .error .arith => true
      | _ => false) = true := by decide +kernel
  rw [Option.any_eq_true] at h
  obtain ⟨s, e, h⟩ := h
  refine ⟨s, e, ?_⟩
  split at h
  · assumption
  · cases h

/-- **C32 violated (references).**  In a P picture with two references the payload 32, 155 announces an undivided
inter unit and ends inside its reference index.  The reference index of the unit keeps its former content, here
the invalid index -1 of an intra unit, and the error flag is clear again, so that the caller does not notice. -/
theorem C32_references_violated : ∃ s c s' dirs s'', startState [32, 155] = some s ∧
    cuType aecMachine 1 4 2 false false false s = .ok (some c, s') ∧ c.type = 1 ∧
    interPredDir aecMachine 1 1 4 2 0 0 false [(-1, -1)] s' = .ok ((dirs, [(-1, -1)]), s'') ∧
    aecMachine.err s'' = false := by
  have h : ((startState [32, 155]).any fun s =>
      match cuType aecMachine 1 4 2 false false false s with
      | .ok (some c, s') => decide (c.type = 1) &&
        (match interPredDir aecMachine 1 1 4 2 0 0 false [(-1, -1)] s' with
        | .ok ((_, r), s'') => decide (r = [(-1, -1)]) && !aecMachine.err s''
        | _ => false)
      | _ => false) = true := by decide +kernel
  rw [Option.any_eq_true] at h
  obtain ⟨s, e, h⟩ := h
  split at h
  · rename_i c s' hc
    rw [Bool.and_eq_true, decide_eq_true_eq] at h
    obtain ⟨ht, h⟩ := h
    split at h
    · rename_i d r s'' hd
      rw [Bool.and_eq_true, decide_eq_true_eq, Bool.not_eq_true'] at h
      refine ⟨s, c, s', d, s'', e, hc, ht, ?_, h.2⟩
      rw [hd, h.1]
    · cases h
  · cases h

/-- The statements apply to the decoder of the library; for example the unit type at level 4 of an F picture. -/
example : Within Rd (cuType aecMachine 4 4 3 true true true) fun r => ∀ c, r = some c →
    CuTypeOk 4 c.type ∧ (4 = 0 → c.type = 9) ∧ c.ds ≤ 4 ∧
    (c.wsm ≠ 0 → 4 = 4 ∧ c.wsm < 3 ∧ c.ds = 0) ∧ (c.ds ≠ 0 → 4 = 4 ∨ 4 = 2) :=
  C32_cuType aecMachine_ok 4 4 3 true true true (by decide)

/-- Different payloads give different unit types. -/
example : ([[8, 155], [16, 155], [32, 155], [200, 0]].map fun (l : List Nat) =>
    (startState (l.map (BitVec.ofNat 8))).bind fun s =>
      match cuType aecMachine 1 4 2 false false false s with
      | .ok (some c, _) => some c.type
      | _ => none) = [some 3, some 2, some 1, some (-1)] := by decide +kernel

/-- A decoder without errors: each symbol is the parity of a counter. -/
def tick : Machine Nat where
  sym _ _ n := some (n % 2 == 0, n + 1)
  eq n := some (n % 3 == 0, n + 1)
  fin n := some (n % 5 == 0, n + 1)
  run0 _ _ max n := some (min n max, n + 1)
  runExt _ _ _ max n := some (min n max, n + 1)
  err _ := false
  clear n := n

/-- It meets the hypotheses, and gives a dual unit in an F picture with three references. -/
example : tick.Ok ∧ NoErr tick ∧
    (match interPredDir tick 4 1 4 3 0 0 true [] 0 with
      | .ok ((dirs, refs), _) => decide (dirs = [4, 4, 4, 4]) && decide (refs = [(1, 0)])
      | .error _ => false) = true := by
  refine ⟨⟨?_, ?_⟩, fun _ => rfl, by decide⟩
  · intro a i max s v s' h
    simp only [tick, Option.some.injEq, Prod.mk.injEq] at h
    omega
  · intro a i inc max s v s' h
    simp only [tick, Option.some.injEq, Prod.mk.injEq] at h
    omega

end Davs2.Sx
