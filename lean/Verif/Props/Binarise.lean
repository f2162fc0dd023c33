import Verif.Lemmas.Binarise
import Mathlib.Tactic.IntervalCases
/-
C79: syntax elements are read as they were written.

Each theorem gives the table of codes of a syntax element (Spec/Binarise): if the arithmetic decoder delivers the
bins of a value, with the contexts that the encoder used, the value is found and no other bin is touched; and no
other sequence of bins is accepted.
-/
namespace Davs2.Sx

variable {σ : Type} {m : Machine σ} {G : σ → Prop}

deriving instance DecidableEq for CuType

/-- One step of a proof about a finite table. -/
local macro "step1" : tactic => `(tactic| first
  | with_reducible exact Codes.done (by decide +kernel)
  | with_reducible refine Codes.pos (by decide) ?_
  | with_reducible refine Codes.neg (by decide) ?_
  | with_reducible refine Codes.posB (by decide) ?_
  | with_reducible refine Codes.negB (by decide) ?_
  | with_reducible refine Codes.skip ?_
  | with_reducible refine Codes.failed ?_
  | with_reducible refine Codes.assoc ?_
  | with_reducible refine Codes.sym (by decide) (by decide +kernel) ?_ ?_
  | with_reducible refine Codes.eqp (by decide +kernel) ?_ ?_
  | with_reducible refine Codes.fin (by decide +kernel) ?_ ?_
  | with_reducible refine Codes.tabBind (by decide) rfl ?_
  | with_reducible refine Codes.tab (by decide) rfl ?_)

local macro "steps" : tactic => `(tactic| repeat' step1)

/-- **C79 (split flag).** -/
theorem C79_splitFlag (level : Nat) (h : 4 ≤ level ∧ level ≤ 6) : Codes G m (splitFlag m level) (In (splitT level)) := by
  obtain ⟨h4, h6⟩ := h
  interval_cases level <;> unfold splitFlag <;> refine Codes.last ?_ <;> steps

/-- **C79 (mode of two hypotheses).** -/
theorem C79_dmhMode (level : Nat) (h : 3 ≤ level ∧ level ≤ 6) : Codes G m (dmhMode m level) (In (dmhT level)) := by
  obtain ⟨h4, h6⟩ := h
  interval_cases level <;> unfold dmhMode <;> steps

/-- **C79 (intra unit).** -/
theorem C79_intraCuType (sdip : Bool) (level : Nat) (h : 3 ≤ level ∧ level ≤ 6) :
    Codes G m (intraCuType m sdip level) (In (intraTypeT sdip level)) := by
  obtain ⟨h4, h6⟩ := h
  interval_cases level <;> cases sdip <;> unfold intraCuType <;> steps

/-- **C79 (intra mode).** -/
theorem C79_intraPmode : Codes G m (intraPmode m) (In intraPmodeT) := by
  unfold intraPmode
  steps

/-- **C79 (weighted skip mode).** -/
theorem C79_wpm (nrefs : Nat) : Codes G m (wpm m nrefs) (In (wpmT nrefs)) := by
  unfold wpm wpmT
  have h : 0 + min (nrefs - 1 - 1) 2 < Arr.wsm.size := by simp only [Arr.size]; omega
  have := codes_runExt (m := m) (G := G) h
  simpa only [Nat.zero_add] using this

/-- **C79 (direct and skip mode).** -/
theorem C79_dirSkip : Codes G m (dirSkip m) (In dirSkipT) := by
  unfold dirSkip
  refine Codes.runExt (by decide) (by decide +kernel) fun k hk => ?_
  interval_cases k <;> steps

/-- **C79 (unit of an S picture).** -/
theorem C79_cuTypeS : Codes G m (cuTypeS m) (In cuTypeST) := by
  unfold cuTypeS
  steps

/-- **C79 (chroma mode).**  `lm` is the number of the chroma mode that equals the luma mode, if any. -/
theorem C79_intraPmodeC (leftC : Bool) (lm : Option Nat) (h : ∀ l, lm = some l → 1 ≤ l ∧ l ≤ 4) :
    Codes G m (intraPmodeC m leftC lm) (In (chromaModeT leftC lm)) := by
  unfold intraPmodeC unaryMax
  cases lm with
  | none =>
    cases leftC <;> steps
    all_goals
      refine Codes.run0 (by decide) (by decide +kernel) fun k hk => ?_
      interval_cases k <;> steps
  | some l =>
    obtain ⟨h1, h2⟩ := h l rfl
    interval_cases l <;> cases leftC <;> steps
    all_goals
      refine Codes.run0 (by decide) (by decide +kernel) fun k hk => ?_
      interval_cases k <;> steps

/-! ### Type of the unit -/

/-- The type of the unit without the skip modes. -/
def typeHead (m : Machine σ) (level : Nat) (amp : Bool) : P σ (Option Int) := do
  match ← cuTypeLoop m level (if level = 3 then 5 else 6) 0 with
  | none => pure none
  | some k =>
    let t ← tab (mapCuType level) k
    let t ← (if level ≥ 4 ∧ amp ∧ (t = 2 ∨ t = 3) then do
        if ← sym m .amp 0 then pure t
        else
          let b ← sym m .amp 1
          pure (t * 2 + bit (!b))
      else pure t)
    pure (some t)

theorem cuType_head (frame level nrefs : Nat) (amp mhp wsm : Bool) (h : frame ≠ 0) :
    cuType m frame level nrefs amp mhp wsm = (do
      match ← typeHead m level amp with
      | none => pure none
      | some t =>
        let r ← cuTypeSkip m frame nrefs mhp wsm t
        pure (some r)) := by
  unfold cuType typeHead
  rw [if_neg h, bind_assoc']
  congr 1
  funext o
  cases o with
  | none => rfl
  | some k =>
    dsimp only
    rw [bind_assoc']
    congr 1
    funext t
    rw [bind_assoc']
    rfl

def someT {α : Type} (L : List (α × List Bin)) : List (Option α × List Bin) := L.map fun x => (some x.1, x.2)

theorem codes_typeHead (level : Nat) (amp : Bool) (h : 3 ≤ level ∧ level ≤ 6) :
    Codes G m (typeHead m level amp) (In (someT (typeT level amp))) := by
  obtain ⟨h4, h6⟩ := h
  interval_cases level <;> cases amp <;> unfold typeHead
  case «3».false | «3».true =>
    rw [show (if 3 = 3 then 5 else 6) = 5 from rfl]
    simp only [cuTypeLoop]
    steps
  all_goals
    simp only [show (if 4 = 3 then 5 else 6) = 6 from rfl, show (if 5 = 3 then 5 else 6) = 6 from rfl,
      show (if 6 = 3 then 5 else 6) = 6 from rfl, cuTypeLoop]
    steps

theorem codes_skip (frame nrefs : Nat) (mhp wsm : Bool) (t : Int) :
    Codes G m (cuTypeSkip m frame nrefs mhp wsm t) (skipT frame nrefs mhp wsm t) := by
  unfold cuTypeSkip
  by_cases ht : t ≤ 0
  · rw [if_pos ht]
    have h1 : Codes G m (if frame = 4 ∧ wsm ∧ nrefs > 1 then wpm m nrefs else pure 0) fun w cw =>
        if t ≤ 0 ∧ frame = 4 ∧ wsm ∧ nrefs > 1 then w < nrefs ∧ cw = unary .wsm (min · 2) (nrefs - 1) w
        else w = 0 ∧ cw = [] := by
      by_cases hw : frame = 4 ∧ wsm ∧ nrefs > 1
      · rw [if_pos hw]
        refine (C79_wpm nrefs).conv fun v c => ?_
        rw [if_pos ⟨ht, hw⟩]
        unfold wpmT
        rw [In_unary]
        have := hw.2.2
        exact and_congr_left fun _ => by omega
      · rw [if_neg hw]
        refine Codes.pure fun v c => ?_
        rw [if_neg fun h => hw h.2]
    have h2 : ∀ w, Codes G m (if w = 0 ∧ ((mhp ∧ frame = 4) ∨ frame = 2) then dirSkip m else pure 0) fun d cd =>
        if t ≤ 0 ∧ w = 0 ∧ (frame = 2 ∨ frame = 4 ∧ mhp) then d ≤ 4 ∧ cd = unary .subtype id 4 d
        else d = 0 ∧ cd = [] := by
      intro w
      by_cases hw : w = 0 ∧ ((mhp ∧ frame = 4) ∨ frame = 2)
      · rw [if_pos hw]
        refine C79_dirSkip.conv fun v c => ?_
        rw [if_pos ⟨ht, hw.1, hw.2.elim (fun h => .inr h.symm) .inl⟩]
        exact In_unary
      · rw [if_neg hw]
        refine Codes.pure fun v c => ?_
        rw [if_neg fun h => hw ⟨h.2.1, h.2.2.elim .inr fun h => .inl h.symm⟩]
    refine (h1.seq fun w cw _ => (h2 w).seq (V := fun d (v : CuType) c => v = ⟨t, w, d⟩ ∧ c = []) fun d cd _ =>
      Codes.pure fun v c => Iff.rfl).conv fun v c => ?_
    unfold skipT
    constructor
    · rintro ⟨w, cw, e, hw, ⟨d, cd, f, hd, ⟨rfl, rfl⟩, rfl⟩, rfl⟩
      exact ⟨rfl, cw, cd, by rw [List.append_nil], hw, hd⟩
    · rintro ⟨rfl, cw, cd, rfl, hw, hd⟩
      exact ⟨v.wsm, cw, cd, hw, ⟨v.ds, cd, [], hd, ⟨rfl, rfl⟩, (List.append_nil _).symm⟩, rfl⟩
  · rw [if_neg ht]
    refine Codes.pure fun v c => ?_
    unfold skipT
    constructor
    · rintro ⟨rfl, cw, cd, rfl, hw, hd⟩
      rw [if_neg fun h => ht h.1] at hw hd
      obtain ⟨t, w, d⟩ := v
      obtain ⟨rfl, rfl⟩ := hw
      obtain ⟨rfl, rfl⟩ := hd
      exact ⟨rfl, rfl⟩
    · rintro ⟨rfl, rfl⟩
      refine ⟨rfl, [], [], rfl, ?_, ?_⟩
      · rw [if_neg fun h => ht h.1]; exact ⟨rfl, rfl⟩
      · rw [if_neg fun h => ht h.1]; exact ⟨rfl, rfl⟩

/-- **C79 (type of the unit).**  With the weighted skip mode and the direct/skip mode; units of the sizes 8 to 64,
any picture type but S and any number of references. -/
theorem C79_cuType (frame level nrefs : Nat) (amp mhp wsm : Bool) (h : 3 ≤ level ∧ level ≤ 6) :
    Codes G m (cuType m frame level nrefs amp mhp wsm) (cuTypeT frame level nrefs amp mhp wsm) := by
  by_cases hf : frame = 0
  · unfold cuType
    rw [if_pos hf]
    refine ((codes_skip frame nrefs mhp wsm 9).seq (V := fun r v c => v = some r ∧ c = []) fun r c _ =>
      Codes.pure fun v c => Iff.rfl).conv fun v c => ?_
    unfold cuTypeT
    rw [if_pos hf]
    constructor
    · rintro ⟨r, c1, d, hr, ⟨rfl, rfl⟩, rfl⟩
      exact ⟨r, 9, [], c1, rfl, List.append_nil _, hr, List.mem_singleton.mpr rfl⟩
    · rintro ⟨r, t, hd, tail, rfl, rfl, hr, hm⟩
      cases List.mem_singleton.mp hm
      exact ⟨r, tail, [], hr, ⟨rfl, rfl⟩, (List.append_nil _).symm⟩
  · rw [cuType_head frame level nrefs amp mhp wsm hf]
    refine ((codes_typeHead level amp h).seq (V := fun o v c => ∃ t, o = some t ∧ ∃ r, v = some r ∧
      skipT frame nrefs mhp wsm t r c) fun o c ho => ?_).conv fun v c => ?_
    · obtain ⟨x, hx, e⟩ := List.mem_map.mp ho
      cases e
      refine ((codes_skip frame nrefs mhp wsm x.1).seq (V := fun r v c => v = some r ∧ c = []) fun r c _ =>
        Codes.pure fun v c => Iff.rfl).conv fun v c => ?_
      constructor
      · rintro ⟨r, c1, d, hr, ⟨rfl, rfl⟩, rfl⟩
        exact ⟨x.1, rfl, r, rfl, by rwa [List.append_nil]⟩
      · rintro ⟨t, e, r, rfl, hr⟩
        cases e
        exact ⟨r, c, [], hr, ⟨rfl, rfl⟩, (List.append_nil _).symm⟩
    · unfold cuTypeT
      rw [if_neg hf]
      constructor
      · rintro ⟨o, c1, d, ho, ⟨t, rfl, r, rfl, hr⟩, rfl⟩
        obtain ⟨x, hx, e⟩ := List.mem_map.mp ho
        cases e
        exact ⟨r, x.1, x.2, d, rfl, rfl, hr, hx⟩
      · rintro ⟨r, t, hd, tail, rfl, rfl, hr, hm⟩
        exact ⟨some t, hd, tail, List.mem_map.mpr ⟨(t, hd), hm, rfl⟩, ⟨t, rfl, r, rfl, hr⟩, rfl⟩

/-! ### Directions and references -/

theorem setPdirB_whole (ds : Nat) : ∀ d : Nat, d ≤ 3 → (setPdirB 1 ds d : P σ _) = pure (wholeB d) := by
  intro d hd
  interval_cases d <;> rfl

theorem halves_ok (type ds : Nat) (ht : 2 ≤ type ∧ type ≤ 7) (a b : Nat) (ha : a ≤ 3) (hb : b ≤ 3) :
    ((dirOff (a : Int) (b : Int) : P σ Int) >>= setPdirB type ds) = pure (halvesB a b) := by
  obtain ⟨h1, h2⟩ := ht
  interval_cases type <;> interval_cases a <;> interval_cases b <;> rfl

theorem codes_half {type ds : Nat} (ht : 2 ≤ type ∧ type ≤ 7) {x y : Int} (hx : 0 ≤ x ∧ x ≤ 3) (hy : 0 ≤ y ∧ y ≤ 3)
    {L : List ((List Int × List (Int × Int)) × List Bin)} (h : L = [(halvesB x y, [])]) :
    Codes G m (dirOff x y >>= setPdirB type ds) (In L) := by
  rw [show x = (x.toNat : Int) by omega, show y = (y.toNat : Int) by omega] at h ⊢
  rw [halves_ok type ds ht _ _ (by omega) (by omega)]
  exact Codes.done h

/-- **C79 (directions in B pictures).**  The directions of the two halves are those that were written, with the
reference indices that belong to them. -/
theorem C79_dirsB (type level nrefs wsm ds : Nat) (dhp : Bool) (old : List (Int × Int)) (ht : 1 ≤ type ∧ type ≤ 7)
    (hl : 3 ≤ level ∧ level ≤ 6) :
    Codes G m (interPredDir m 2 type level nrefs wsm ds dhp old) (In (dirsBT type level)) := by
  unfold interPredDir
  rw [if_pos rfl, if_pos ht]
  unfold bPdir
  obtain ⟨hl3, hl6⟩ := hl
  by_cases h1 : type = 1
  · subst h1
    rw [if_pos rfl]
    interval_cases level
    all_goals
      refine Codes.assoc (Codes.runExt (by decide) (by decide +kernel) fun k hk => ?_)
      interval_cases k
      · rw [if_neg (by decide)]
        refine Codes.skip ?_
        rw [setPdirB_whole ds 0 (by decide)]
        steps
      · rw [if_neg (by decide)]
        refine Codes.skip ?_
        rw [setPdirB_whole ds 1 (by decide)]
        steps
      · rw [if_pos (by decide)]
        refine Codes.assoc (Codes.sym (by decide) (by decide +kernel) ?_ ?_)
        · refine Codes.skip ?_
          rw [show ((2 : Nat) : Int) + bit (!true) = (2 : Nat) from rfl, setPdirB_whole ds 2 (by decide)]
          steps
        · refine Codes.skip ?_
          rw [show ((2 : Nat) : Int) + bit (!false) = (3 : Nat) from rfl, setPdirB_whole ds 3 (by decide)]
          steps
  · have ht2 : 2 ≤ type ∧ type ≤ 7 := by omega
    have eT : dirsBT type level = dirsBT 2 level := by
      unfold dirsBT
      rw [if_neg h1, if_neg (show ¬ 2 = 1 by decide)]
    rw [if_neg h1, eT]
    by_cases h3 : level = 3
    · subst h3
      rw [if_pos ⟨ht2, rfl⟩]
      refine Codes.assoc (Codes.sym (by decide) (by decide +kernel) ?_ ?_) <;>
        refine Codes.assoc (Codes.sym (by decide) (by decide +kernel) ?_ ?_)
      all_goals exact codes_half ht2 (by decide) (by decide) (by decide +kernel)
    · rw [if_neg fun h => h3 h.2]
      have eL : dirsBT 2 level = dirsBT 2 4 := by
        unfold dirsBT
        rw [if_neg (show ¬ 2 = 1 by decide), if_neg (show ¬ 2 = 1 by decide), if_neg h3,
          if_neg (show ¬ 4 = 3 by decide)]
      rw [eL]
      refine Codes.assoc (Codes.runExt (by decide) (by decide +kernel) fun k hk => ?_)
      interval_cases k <;> unfold bPdir2
      all_goals steps
      all_goals try simp only [Bool.not_false, Bool.not_true, Bool.toNat_true, Bool.toNat_false, Nat.reduceAdd,
        Nat.add_zero]
      all_goals steps
      all_goals exact codes_half ht2 (by decide) (by decide) (by decide +kernel)

theorem codes_refLoop (n k : Nat) : Codes G m (refFrameLoop m n k) (restT .refIdx (min 2 ·) n k) := by
  induction n generalizing k with
  | zero => exact Codes.pure fun v c => restT_zero
  | succ n ih =>
    unfold refFrameLoop
    refine Codes.symR (by simp only [Arr.size]; omega) (fun v c h => restT_head h) fun b => ?_
    cases b with
    | true => exact Codes.pos rfl (Codes.pure fun v c => restT_true)
    | false => exact Codes.neg (by decide) ((ih (k + 1)).conv fun v c => restT_false.symm)

/-- **C79 (reference index).** -/
theorem C79_refFrame (nrefs : Nat) (h : 1 < nrefs) :
    Codes G m (refFrame m nrefs) fun r c => r < nrefs ∧ c = refCode nrefs r := by
  have e : refFrame m nrefs = refFrameLoop m (nrefs - 1) 0 := by
    obtain ⟨n, rfl⟩ : ∃ n, nrefs = n + 2 := ⟨nrefs - 2, by omega⟩
    rfl
  rw [e]
  refine (codes_refLoop (nrefs - 1) 0).conv fun v c => ?_
  rw [restT_all]
  unfold refCode
  rw [if_pos h]
  exact and_congr_left fun _ => by omega

theorem codes_refStep {nrefs n : Nat} {dirs : List Int} {old : List (Int × Int)} {d : Int} (hn : 1 ≤ nrefs)
    (hl : n + 1 ≤ dirs.length) (hd : dirs[dirs.length - (n + 1)]? = some d) {T : List (Int × Int) → List Bin → Prop}
    (hT : Codes G m (readReferences m nrefs dirs n old.tail) T) :
    Codes G m (readReferences m nrefs dirs (n + 1) old) fun v c =>
      ∃ r rest cr, r < nrefs ∧ T rest cr ∧ v = refPair d r :: rest ∧ c = refCode nrefs r ++ cr := by
  unfold readReferences
  by_cases h : nrefs > 1
  · dsimp only
    rw [if_pos h]
    refine ((C79_refFrame nrefs h).seq (V := fun r v c => ∃ rest, T rest c ∧ v = refPair d r :: rest)
      fun r c hr => ?_).conv fun v c => ?_
    · refine Codes.failed (Codes.neg (by decide) (Codes.tabBind (by omega) hd ?_))
      refine (hT.seq (V := fun rest v c => v = refPair d r :: rest ∧ c = []) fun rest c _ =>
        Codes.pure fun v c => Iff.rfl).conv fun v c => ?_
      constructor
      · rintro ⟨rest, c1, e, h1, ⟨h2, rfl⟩, rfl⟩
        exact ⟨rest, by rwa [List.append_nil], h2⟩
      · rintro ⟨rest, h1, h2⟩
        exact ⟨rest, c, [], h1, ⟨h2, rfl⟩, (List.append_nil _).symm⟩
    · constructor
      · rintro ⟨r, c1, e, ⟨hr, rfl⟩, ⟨rest, h1, h2⟩, rfl⟩
        exact ⟨r, rest, e, hr, h1, h2, rfl⟩
      · rintro ⟨r, rest, cr, hr, h1, h2, rfl⟩
        exact ⟨r, _, cr, ⟨hr, rfl⟩, ⟨rest, h1, h2⟩, rfl⟩
  · dsimp only
    rw [if_neg h]
    refine Codes.tabBind (by omega) hd ?_
    refine (hT.seq (V := fun rest v c => v = refPair d 0 :: rest ∧ c = []) fun rest c _ =>
        Codes.pure fun v c => ?_).conv fun v c => ?_
    · unfold refPair
      rw [if_pos rfl]
      rfl
    · have hc : refCode nrefs 0 = [] := if_neg h
      constructor
      · rintro ⟨rest, c1, e, h1, ⟨h2, rfl⟩, rfl⟩
        exact ⟨0, rest, c1, by omega, h1, h2, by rw [hc, List.append_nil]; rfl⟩
      · rintro ⟨r, rest, cr, hr, h1, h2, rfl⟩
        obtain rfl : r = 0 := by omega
        exact ⟨rest, cr, [], h1, ⟨h2, rfl⟩, by rw [hc, List.append_nil]; rfl⟩

theorem codes_dirsPF (type : Nat) (c : Prop) [Decidable c] (ht : 1 ≤ type ∧ type ≤ 7) :
    Codes G m (do
      let pdir ← (if c then pdirDhp m type else pure 0)
      setPdirPF type pdir) (In (dirsPFT type (decide c))) := by
  obtain ⟨h1, h7⟩ := ht
  by_cases hc : c
  · rw [decide_eq_true hc]
    refine Codes.posB hc ?_
    interval_cases type <;> unfold pdirDhp setPdirPF <;> steps
  · rw [decide_eq_false hc]
    refine Codes.negB hc ?_
    interval_cases type <;> unfold setPdirPF <;> steps

theorem dirsPF_form (type : Nat) (dhp : Bool) (d : List Int) (c : List Bin) (h : (d, c) ∈ dirsPFT type dhp) :
    ∃ a b, d = [a, b, a, b] := by
  unfold dirsPFT at h
  have key : ∀ L : List (List Int × List Bin), (d, c) ∈ L → (∀ x ∈ L, x.1 = [x.1.getD 0 0, x.1.getD 1 0, x.1.getD 0 0, x.1.getD 1 0]) →
      ∃ a b, d = [a, b, a, b] := fun L h1 h2 => ⟨_, _, h2 (d, c) h1⟩
  split at h <;> split at h <;> exact key _ h (by decide)

/-- **C79 (directions and references in P and F pictures).** -/
theorem C79_interPF (frame type level nrefs wsm ds : Nat) (dhp : Bool) (old : List (Int × Int))
    (hf : frame ≠ 2 ∧ frame ≠ 5) (ht : 1 ≤ type ∧ type ≤ 7) (hn : 1 ≤ nrefs) :
    Codes G m (interPredDir m frame type level nrefs wsm ds dhp old)
      (interPFT type nrefs (decide ((frame = 4 ∧ nrefs > 1 ∧ dhp) ∧ ¬ (level = 3 ∧ 2 ≤ type ∧ type ≤ 7)))) := by
  unfold interPredDir
  rw [if_neg hf.1]
  rw [if_neg (show ¬ type = 0 by omega)]
  refine ((codes_dirsPF type _ ht).seq (V := fun dirs v c => v.1 = dirs ∧
    if type = 1 then ∃ r, r < nrefs ∧ v.2 = [refPair (dirs.getD 0 0) r] ∧ c = refCode nrefs r
    else ∃ r q, r < nrefs ∧ q < nrefs ∧ v.2 = [refPair (dirs.getD 0 0) r, refPair (dirs.getD 1 0) q] ∧
      c = refCode nrefs r ++ refCode nrefs q) fun dirs c hd => ?_).conv fun v c => ?_
  · obtain ⟨a, b, rfl⟩ := dirsPF_form _ _ _ _ hd
    refine Codes.pos ⟨hf.2, by omega⟩ ?_
    have h0 : ∀ l o, Codes G m (readReferences m nrefs l 0 o) fun v c => v = [] ∧ c = [] :=
      fun l o => Codes.pure fun v c => Iff.rfl
    by_cases h1 : type = 1
    · simp only [if_pos h1]
      refine ((codes_refStep hn (d := a) (dirs := [a]) (old := old) (Nat.le_refl _) rfl (h0 _ _)).seq
        (V := fun refs v c => v = ([a, b, a, b], refs) ∧ c = []) fun refs c _ =>
          Codes.pure fun v c => Iff.rfl).conv fun v c => ?_
      constructor
      · rintro ⟨refs, c1, e, ⟨r, rest, cr, hr, ⟨rfl, rfl⟩, rfl, rfl⟩, ⟨rfl, rfl⟩, rfl⟩
        exact ⟨rfl, r, hr, rfl, by rw [List.append_nil, List.append_nil]⟩
      · rintro ⟨h1, r, hr, h2, rfl⟩
        exact ⟨_, _, [], ⟨r, [], [], hr, ⟨rfl, rfl⟩, rfl, rfl⟩, ⟨Prod.ext h1 h2, rfl⟩, by
          rw [List.append_nil, List.append_nil]⟩
    · simp only [if_neg h1]
      refine ((codes_refStep hn (d := a) (dirs := [a, b]) (old := old) (Nat.le_refl _) rfl
        (codes_refStep hn (d := b) (Nat.le_succ _) rfl (h0 _ _))).seq
        (V := fun refs v c => v = ([a, b, a, b], refs) ∧ c = []) fun refs c _ =>
          Codes.pure fun v c => Iff.rfl).conv fun v c => ?_
      constructor
      · rintro ⟨refs, c1, e, ⟨r, rest, cr, hr, ⟨q, rest', cq, hq, ⟨rfl, rfl⟩, rfl, rfl⟩, rfl, rfl⟩, ⟨rfl, rfl⟩, rfl⟩
        exact ⟨rfl, r, q, hr, hq, rfl, by rw [List.append_nil, List.append_nil]⟩
      · rintro ⟨h1, r, q, hr, hq, h2, rfl⟩
        exact ⟨_, _, [], ⟨r, _, _, hr, ⟨q, [], [], hq, ⟨rfl, rfl⟩, rfl, rfl⟩, rfl, rfl⟩, ⟨Prod.ext h1 h2, rfl⟩, by
          rw [List.append_nil, List.append_nil]⟩
  · unfold interPFT
    constructor
    · rintro ⟨dirs, cd, e, hd, ⟨rfl, h⟩, rfl⟩
      refine ⟨cd, hd, ?_⟩
      by_cases h1 : type = 1
      · rw [if_pos h1] at h ⊢
        obtain ⟨r, hr, h2, rfl⟩ := h
        exact ⟨r, hr, h2, rfl⟩
      · rw [if_neg h1] at h ⊢
        obtain ⟨r, q, hr, hq, h2, rfl⟩ := h
        exact ⟨r, q, hr, hq, h2, by rw [List.append_assoc]⟩
    · rintro ⟨cd, hd, h⟩
      by_cases h1 : type = 1
      · rw [if_pos h1] at h
        obtain ⟨r, hr, h2, rfl⟩ := h
        exact ⟨v.1, cd, _, hd, ⟨rfl, by rw [if_pos h1]; exact ⟨r, hr, h2, rfl⟩⟩, rfl⟩
      · rw [if_neg h1] at h
        obtain ⟨r, q, hr, hq, h2, rfl⟩ := h
        exact ⟨v.1, cd, _, hd, ⟨rfl, by rw [if_neg h1]; exact ⟨r, q, hr, hq, h2, rfl⟩⟩, List.append_assoc _ _ _⟩

/-! ### Quantiser and coded block pattern -/

theorem unary_succ (a : Arr) (f : Nat → Nat) (max k : Nat) :
    unary a f (max + 1) (k + 1) = .ctx a (f 0) false :: unary a (fun j => f (j + 1)) max k := by
  unfold unary
  rw [List.range_succ_eq_map, List.map_cons, List.map_map, List.cons_append]
  simp only [Nat.add_lt_add_iff_right]
  rfl

theorem codes_unaryMax {a : Arr} {i off max : Nat} (h : i < a.size) (h1 : i + off < a.size) (hm : 1 < max) :
    Codes G m (unaryMax m a i off max) fun k c =>
      k ≤ max ∧ c = unary a (fun j => if j = 0 then i else i + off) max k := by
  obtain ⟨n, rfl⟩ : ∃ n, max = n + 1 := ⟨max - 1, by omega⟩
  unfold unaryMax
  refine ((codes_sym h).seq (V := fun b k c => if b then k = 0 ∧ c = [] else
    ∃ j, k = 1 + j ∧ j ≤ n ∧ c = unary a (fun _ => i + off) n j) fun b c _ => ?_).conv fun v c => ?_
  · cases b with
    | true => exact Codes.pos rfl (Codes.pure fun v c => Iff.rfl)
    | false =>
      refine Codes.neg (by decide) (Codes.neg (by omega) ?_)
      rw [Nat.add_sub_cancel]
      refine ((codes_run0 h1).seq (V := fun j k c => k = 1 + j ∧ c = []) fun j c _ =>
        Codes.pure fun v c => Iff.rfl).conv fun v c => ?_
      constructor
      · rintro ⟨j, c1, d, hj, ⟨rfl, rfl⟩, rfl⟩
        obtain ⟨h1, rfl⟩ := In_unary.mp hj
        exact ⟨j, rfl, h1, List.append_nil _⟩
      · rintro ⟨j, rfl, h1, rfl⟩
        exact ⟨j, _, [], In_unary.mpr ⟨h1, rfl⟩, ⟨rfl, rfl⟩, (List.append_nil _).symm⟩
  · constructor
    · rintro ⟨b, c1, d, hb, hv, rfl⟩
      cases In_two.mp hb
      cases b with
      | true =>
        obtain ⟨rfl, rfl⟩ := hv
        exact ⟨Nat.zero_le _, rfl⟩
      | false =>
        obtain ⟨j, rfl, h1, rfl⟩ := hv
        refine ⟨by omega, ?_⟩
        rw [Nat.add_comm 1 j, unary_succ]
        rfl
    · rintro ⟨hv, rfl⟩
      cases v with
      | zero => exact ⟨true, _, [], In_two.mpr rfl, ⟨rfl, rfl⟩, rfl⟩
      | succ j =>
        refine ⟨false, _, _, In_two.mpr rfl, ⟨j, Nat.add_comm _ _, by omega, rfl⟩, ?_⟩
        rw [unary_succ]
        rfl

/-- **C79 (quantiser difference).** -/
theorem C79_deltaQp (last : Int) : Codes G m (deltaQpRaw m last) fun d c =>
    (-128 ≤ d ∧ d ≤ 129) ∧ c = dqpCode last d := by
  unfold deltaQpRaw
  have hi : (if last = 0 then 0 else 1) < Arr.dqp.size := by simp only [Arr.size]; split <;> omega
  generalize hg : (if last = 0 then 0 else 1) = i at hi
  have hc : ∀ d n, dqpNumber d = n + 1 → dqpCode last d =
      cx .dqp i 0 :: unary .dqp (fun j => if j = 0 then 2 else 3) 256 n := by
    intro d n h
    unfold dqpCode
    rw [h, hg]
  have hz : ∀ d, dqpNumber d = 0 → dqpCode last d = [cx .dqp i 1] := by
    intro d h
    unfold dqpCode
    rw [h, hg]
  have ha : Codes G m (do
      let s ← sym m .dqp i
      (if s then pure 0 else do
        let k ← unaryMax m .dqp 2 1 256
        pure (k + 1))) fun a c => a ≤ 257 ∧ (a = 0 → c = [cx .dqp i 1]) ∧
          ∀ n, a = n + 1 → c = cx .dqp i 0 :: unary .dqp (fun j => if j = 0 then 2 else 3) 256 n := by
    refine ((codes_sym hi).seq (V := fun b k c => if b then k = 0 ∧ c = [] else
      ∃ j, k = j + 1 ∧ j ≤ 256 ∧ c = unary .dqp (fun j => if j = 0 then 2 else 3) 256 j)
      fun b c _ => ?_).conv fun v c => ?_
    · cases b with
      | true => exact Codes.pos rfl (Codes.pure fun v c => Iff.rfl)
      | false =>
        refine Codes.neg (by decide) ?_
        refine ((codes_unaryMax (by decide) (by decide) (by decide)).seq (V := fun j k c => k = j + 1 ∧ c = [])
          fun j c _ => Codes.pure fun v c => Iff.rfl).conv fun v c => ?_
        constructor
        · rintro ⟨j, c1, d, ⟨h1, rfl⟩, ⟨rfl, rfl⟩, rfl⟩
          exact ⟨j, rfl, h1, List.append_nil _⟩
        · rintro ⟨j, rfl, h1, rfl⟩
          exact ⟨j, _, [], ⟨h1, rfl⟩, ⟨rfl, rfl⟩, (List.append_nil _).symm⟩
    · constructor
      · rintro ⟨b, c1, d, hb, hv, rfl⟩
        cases In_two.mp hb
        cases b with
        | true =>
          obtain ⟨rfl, rfl⟩ := hv
          exact ⟨by omega, fun _ => rfl, fun n h => by omega⟩
        | false =>
          obtain ⟨j, rfl, h1, rfl⟩ := hv
          refine ⟨by omega, fun h => by omega, fun n h => ?_⟩
          obtain rfl : j = n := by omega
          rfl
      · rintro ⟨hv, h0, h1⟩
        cases v with
        | zero => exact ⟨true, _, [], In_two.mpr rfl, ⟨rfl, rfl⟩, h0 rfl⟩
        | succ j => exact ⟨false, _, _, In_two.mpr rfl, ⟨j, rfl, by omega, rfl⟩, h1 j rfl⟩
  have := ha.seq (f := fun a => (pure (if a % 2 = 0 then -((a + 1) / 2 : Nat) else ((a + 1) / 2 : Nat)) : P σ Int))
    (V := fun a (v : Int) c => v = (if a % 2 = 0 then -(((a + 1) / 2 : Nat) : Int) else ((a + 1) / 2 : Nat)) ∧ c = [])
    fun a c _ => Codes.pure fun v c => Iff.rfl
  rw [bind_assoc'] at this
  refine this.conv fun v c => ?_
  constructor
  · rintro ⟨a, c1, d, ⟨h1, h2, h3⟩, ⟨hv, rfl⟩, rfl⟩
    have hn : dqpNumber v = a := by
      unfold dqpNumber
      split at hv <;> split <;> omega
    refine ⟨by split at hv <;> omega, ?_⟩
    rw [List.append_nil]
    cases a with
    | zero => rw [hz v hn, h2 rfl]
    | succ n => rw [hc v n hn, h3 n rfl]
  · rintro ⟨⟨h1, h2⟩, rfl⟩
    refine ⟨dqpNumber v, _, [], ⟨?_, fun h => hz v h, fun n h => hc v n h⟩, ⟨?_, rfl⟩, (List.append_nil _).symm⟩
    · unfold dqpNumber
      split <;> omega
    · unfold dqpNumber
      split <;> split <;> omega

theorem codes_lumaBin (nb : Nat → Nat → Bool × Bool) (b c : Nat) :
    Codes G m (ctpY m nb b c) fun v d => d = [lumaBin nb b c v] := by
  have e : ctpY m nb b c = sym m .cbp ((if (nb b c).1 then 1 else 0) + (if (nb b c).2 then 2 else 0)) := by
    unfold ctpY
    dsimp only
    cases (nb b c).1 <;> cases (nb b c).2 <;> rfl
  rw [e]
  refine (codes_sym ?_).conv fun v d => In_two
  simp only [Arr.size]
  split <;> split <;> omega

theorem codes_luma4 (nb : Nat → Nat → Bool × Bool) (c0 : Nat) : Codes G m (ctpY4 m nb c0) (luma4T nb c0) := by
  unfold ctpY4
  refine ((codes_lumaBin nb 0 0).seq fun b0 _ _ => (codes_lumaBin nb 1 (c0 + b0.toNat)).seq fun b1 _ _ =>
    (codes_lumaBin nb 2 (c0 + b0.toNat + 2 * b1.toNat)).seq fun b2 _ _ =>
    (codes_lumaBin nb 3 (c0 + b0.toNat + 2 * b1.toNat + 4 * b2.toNat)).seq
      (V := fun b3 v c => v = c0 + b0.toNat + 2 * b1.toNat + 4 * b2.toNat + 8 * b3.toNat ∧ c = [])
      fun b3 _ _ => Codes.pure fun v c => Iff.rfl).conv fun v c => ?_
  unfold luma4T
  constructor
  · rintro ⟨b0, _, _, rfl, ⟨b1, _, _, rfl, ⟨b2, _, _, rfl, ⟨b3, _, _, rfl, ⟨rfl, rfl⟩, rfl⟩, rfl⟩, rfl⟩, rfl⟩
    exact ⟨b0, b1, b2, b3, rfl, rfl⟩
  · rintro ⟨b0, b1, b2, b3, rfl, rfl⟩
    exact ⟨b0, _, _, rfl, ⟨b1, _, _, rfl, ⟨b2, _, _, rfl, ⟨b3, _, [], rfl, ⟨rfl, rfl⟩, rfl⟩, rfl⟩, rfl⟩, rfl⟩

theorem codes_chromaCbp (i : Nat) (h : i = 4 ∨ i = 6) : Codes G m (ctpC m i) (In (chromaCbpT i)) := by
  unfold ctpC
  rcases h with rfl | rfl <;> steps

/-- **C79 (coded block pattern).** -/
theorem C79_cbp (nb : Nat → Nat → Bool × Bool) (type : Nat) : Codes G m (cbp m nb type) (cbpT nb type) := by
  unfold cbp
  by_cases ht : type < 8
  · rw [if_pos ht]
    have hz : Codes G m (if type ≠ 0 then sym m .cbp 8 else pure false) fun z c =>
        if type ≠ 0 then c = [Bin.ctx .cbp 8 z] else z = false ∧ c = [] := by
      by_cases h : type ≠ 0
      · refine Codes.pos h ((codes_sym (by decide)).conv fun v c => ?_)
        rw [if_pos h]
        exact In_two
      · refine Codes.neg h (Codes.pure fun v c => ?_)
        rw [if_neg h]
    have hl : ∀ split u, Codes G m (if split then do
          let c ← ctpY4 m nb u
          pure (c, true)
        else if u = 0 then pure (1, false)
        else do
          let b ← ctpY m nb 0 0
          pure (u + b.toNat, false)) fun (v : Nat × Bool) c => v.2 = split ∧ (if split then luma4T nb u v.1 c
       else if u = 0 then v.1 = 1 ∧ c = [] else ∃ b, v.1 = u + b.toNat ∧ c = [lumaBin nb 0 0 b]) := by
      intro split u
      cases split with
      | true =>
        refine Codes.pos rfl (((codes_luma4 nb u).seq (V := fun x v c => v = (x, true) ∧ c = []) fun x c _ =>
          Codes.pure fun v c => Iff.rfl).conv fun v c => ?_)
        rw [if_pos rfl]
        constructor
        · rintro ⟨x, c1, d, h1, ⟨rfl, rfl⟩, rfl⟩
          exact ⟨rfl, by rwa [List.append_nil]⟩
        · rintro ⟨h1, h2⟩
          exact ⟨v.1, c, [], h2, ⟨Prod.ext rfl h1, rfl⟩, (List.append_nil _).symm⟩
      | false =>
        refine Codes.neg (by decide) ?_
        simp only [Bool.false_eq_true, if_false]
        by_cases hu : u = 0
        · refine Codes.pos hu (Codes.pure fun v c => ?_)
          rw [if_pos hu]
          constructor
          · rintro ⟨h1, h2, rfl⟩
            exact ⟨Prod.ext h2 h1, rfl⟩
          · rintro ⟨rfl, rfl⟩
            exact ⟨rfl, rfl, rfl⟩
        · refine Codes.neg hu (((codes_lumaBin nb 0 0).seq (V := fun b v c => v = (u + b.toNat, false) ∧ c = [])
            fun x c _ => Codes.pure fun v c => Iff.rfl).conv fun v c => ?_)
          rw [if_neg hu]
          constructor
          · rintro ⟨b, c1, d, rfl, ⟨rfl, rfl⟩, rfl⟩
            exact ⟨rfl, b, rfl, rfl⟩
          · rintro ⟨h1, b, h2, rfl⟩
            exact ⟨b, _, [], rfl, ⟨Prod.ext h2 h1, rfl⟩, rfl⟩
    have hs : Codes G m (do
        let split ← sym m .tuSplit 0
        let c ← ctpC m 4
        if split then do
          let c ← ctpY4 m nb c
          pure (c, true)
        else if c = 0 then pure (1, false)
        else do
          let b ← ctpY m nb 0 0
          pure (c + b.toNat, false)) fun (v : Nat × Bool) c => ∃ cc u cl, (u, cc) ∈ chromaCbpT 4 ∧
            c = [.ctx .tuSplit 0 v.2] ++ cc ++ cl ∧ (if v.2 then luma4T nb u v.1 cl
       else if u = 0 then v.1 = 1 ∧ cl = [] else ∃ b, v.1 = u + b.toNat ∧ cl = [lumaBin nb 0 0 b]) := by
      refine ((codes_sym (by decide)).seq fun split _ _ => (codes_chromaCbp 4 (.inl rfl)).seq fun u _ _ =>
        hl split u).conv fun v c => ?_
      constructor
      · rintro ⟨split, c1, d, h1, ⟨u, c2, d2, h2, ⟨rfl, h3⟩, rfl⟩, rfl⟩
        cases In_two.mp h1
        exact ⟨c2, u, d2, h2, rfl, h3⟩
      · rintro ⟨cc, u, cl, h2, rfl, h3⟩
        exact ⟨v.2, _, _, In_two.mpr rfl, ⟨u, cc, cl, h2, ⟨rfl, h3⟩, rfl⟩, rfl⟩
    refine (hz.seq (V := fun z v c => if z then v = (0, true) ∧ c = [] else ∃ cc u cl, (u, cc) ∈ chromaCbpT 4 ∧
            c = [.ctx .tuSplit 0 v.2] ++ cc ++ cl ∧ (if v.2 then luma4T nb u v.1 cl
       else if u = 0 then v.1 = 1 ∧ cl = [] else ∃ b, v.1 = u + b.toNat ∧ cl = [lumaBin nb 0 0 b]))
       fun z c _ => ?_).conv fun v c => ?_
    · cases z with
      | true => exact Codes.pos rfl (Codes.pure fun v c => Iff.rfl)
      | false => exact Codes.neg (by decide) hs
    · unfold cbpT
      rw [if_pos ht]
      constructor
      · rintro ⟨z, c1, d, h1, h2, rfl⟩
        cases z with
        | true =>
          by_cases h : type ≠ 0
          · rw [if_pos h] at h1
            obtain ⟨rfl, rfl⟩ := h2
            exact .inl ⟨h, rfl, by rw [h1]; rfl⟩
          · rw [if_neg h] at h1
            cases h1.1
        | false =>
          obtain ⟨cc, u, cl, h3, rfl, h4⟩ := h2
          refine .inr ⟨cc, u, cl, h3, ?_, h4⟩
          by_cases h : type ≠ 0
          · rw [if_pos h] at h1 ⊢
            rw [h1]
            rfl
          · rw [if_neg h] at h1 ⊢
            rw [h1.2]
            rfl
      · rintro (⟨h, rfl, rfl⟩ | ⟨cc, u, cl, h3, rfl, h4⟩)
        · exact ⟨true, _, [], by rw [if_pos h], ⟨rfl, rfl⟩, rfl⟩
        · by_cases h : type ≠ 0
          · exact ⟨false, [.ctx .cbp 8 false], _, by rw [if_pos h], ⟨cc, u, cl, h3, rfl, h4⟩, by rw [if_pos h]; rfl⟩
          · exact ⟨false, [], _, by rw [if_neg h]; exact ⟨rfl, rfl⟩, ⟨cc, u, cl, h3, rfl, h4⟩, by rw [if_neg h]; rfl⟩
  · rw [if_neg ht]
    have hy : Codes G m (if type = 8 then do
        let b ← ctpY m nb 0 0
        pure b.toNat
      else ctpY4 m nb 0) fun l c => if type = 8 then ∃ b : Bool, l = b.toNat ∧ c = [lumaBin nb 0 0 b]
        else luma4T nb 0 l c := by
      by_cases h8 : type = 8
      · refine Codes.pos h8 (((codes_lumaBin nb 0 0).seq (V := fun b v c => v = b.toNat ∧ c = []) fun b c _ =>
          Codes.pure fun v c => Iff.rfl).conv fun v c => ?_)
        rw [if_pos h8]
        constructor
        · rintro ⟨b, c1, d, rfl, ⟨rfl, rfl⟩, rfl⟩
          exact ⟨b, rfl, rfl⟩
        · rintro ⟨b, rfl, rfl⟩
          exact ⟨b, _, [], rfl, ⟨rfl, rfl⟩, rfl⟩
      · refine Codes.neg h8 ((codes_luma4 nb 0).conv fun v c => ?_)
        rw [if_neg h8]
    refine (hy.seq fun l _ _ => (codes_chromaCbp 6 (.inr rfl)).seq (V := fun u v c => v = (l + u, false) ∧ c = [])
      fun u c _ => Codes.pure fun v c => Iff.rfl).conv fun v c => ?_
    unfold cbpT
    rw [if_neg ht]
    constructor
    · rintro ⟨l, cl, d, h1, ⟨u, cc, e, h2, ⟨rfl, rfl⟩, rfl⟩, rfl⟩
      exact ⟨rfl, l, u, cl, cc, rfl, by rw [List.append_nil], h2, h1⟩
    · rintro ⟨h, l, u, cl, cc, h3, rfl, h2, h1⟩
      exact ⟨l, cl, cc, h1, ⟨u, cc, [], h2, ⟨Prod.ext h3 h, rfl⟩, (List.append_nil _).symm⟩, rfl⟩

/-! ### Exp-Golomb codes -/

theorem codes_i32 (x : Int) : Codes G m (i32 x : P σ Int) fun v c =>
    (-2147483648 ≤ x ∧ x ≤ 2147483647) ∧ v = x ∧ c = [] := by
  unfold i32
  by_cases h : -2147483648 ≤ x ∧ x ≤ 2147483647
  · exact Codes.pos h (Codes.pure fun v c => ⟨fun e => e.2, fun e => ⟨h, e⟩⟩)
  · refine Codes.neg h ⟨fun _ v c hv => absurd hv.1 h, fun _ s v s' hp => ?_⟩
    cases hp

theorem codes_prefix (fuel order : Nat) (acc : Int) (h0 : 0 ≤ acc) (h1 : acc ≤ 2147483647) :
    Codes G m (golombPrefix m fuel order acc) fun v c => ∃ k < fuel, acc + 2 ^ (order + k) - 2 ^ order ≤ 2147483647 ∧
      v = some (order + k, acc + 2 ^ (order + k) - 2 ^ order) ∧ c = List.replicate k (.eq false) ++ [.eq true] := by
  induction fuel generalizing order acc with
  | zero =>
    refine ⟨fun _ v c ⟨k, hk, _⟩ => absurd hk (Nat.not_lt_zero _), fun _ s v s' hp => ?_⟩
    cases hp
  | succ n ih =>
    unfold golombPrefix
    have hpow : ∀ j : Nat, ((2 ^ j : Nat) : Int) = (2 : Int) ^ j := fun j => by push_cast; rfl
    refine (codes_eqp.seq (V := fun b v c => if b then v = some (order, acc) ∧ c = [] else ∃ k < n,
      acc + 2 ^ (order + k + 1) - 2 ^ order ≤ 2147483647 ∧
      v = some (order + k + 1, acc + 2 ^ (order + k + 1) - 2 ^ order) ∧
      c = List.replicate k (.eq false) ++ [.eq true]) fun b c _ => ?_).conv fun v c => ?_
    · refine Codes.failed (Codes.neg (by decide) ?_)
      cases b with
      | true => exact Codes.pos rfl (Codes.pure fun v c => Iff.rfl)
      | false =>
        refine Codes.neg (by decide) ?_
        unfold shl1
        have hp : (0 : Int) < 2 ^ order := Int.pow_pos (by decide)
        refine ((codes_i32 _).seq fun t _ ht => (codes_i32 (acc + t)).seq (V := fun r v c => ∃ k < n,
          r + 2 ^ (order + 1 + k) - 2 ^ (order + 1) ≤ 2147483647 ∧
          v = some (order + 1 + k, r + 2 ^ (order + 1 + k) - 2 ^ (order + 1)) ∧
          c = List.replicate k (.eq false) ++ [.eq true]) fun r _ hr => ?_).conv fun v c => ?_
        · obtain ⟨_, rfl, _⟩ := ht
          obtain ⟨hb, rfl, _⟩ := hr
          exact ih (order + 1) _ (by rw [hpow]; omega) hb.2
        · have e : ∀ k, acc + ((2 ^ order : Nat) : Int) + 2 ^ (order + 1 + k) - 2 ^ (order + 1) =
              acc + 2 ^ (order + k + 1) - 2 ^ order := by
            intro k
            rw [hpow, show order + 1 + k = order + k + 1 by omega, Int.pow_succ 2 order]
            omega
          constructor
          · rintro ⟨t, _, _, ⟨_, rfl, rfl⟩, ⟨r, _, d, ⟨hb, rfl, rfl⟩, ⟨k, hk, h2, h3, rfl⟩, rfl⟩, rfl⟩
            rw [e] at h2 h3
            exact ⟨k, hk, h2, by rw [h3, show order + 1 + k = order + k + 1 by omega], rfl⟩
          · rintro ⟨k, hk, h2, h3, rfl⟩
            have hm : (2 : Int) ^ (order + k + 1) ≥ 2 ^ (order + 1) := by
              have := Nat.pow_le_pow_right (n := 2) (by decide) (show order + 1 ≤ order + k + 1 by omega)
              have := Int.ofNat_le.mpr this
              rw [hpow, hpow] at this
              exact this
            have h2o : (2 : Int) ^ (order + 1) = 2 ^ order * 2 := Int.pow_succ 2 order
            refine ⟨_, [], _, ⟨by rw [hpow]; omega, rfl, rfl⟩, ⟨_, [], _, ⟨by rw [hpow]; omega, rfl, rfl⟩,
              ⟨k, hk, by rw [e]; exact h2, by rw [e, h3, show order + 1 + k = order + k + 1 by omega], rfl⟩, rfl⟩, rfl⟩
    · constructor
      · rintro ⟨b, c1, d, hb, hv, rfl⟩
        cases In_two.mp hb
        cases b with
        | true =>
          obtain ⟨rfl, rfl⟩ := hv
          exact ⟨0, by omega, by rw [Nat.add_zero]; omega, by rw [Nat.add_zero, Int.add_sub_cancel], rfl⟩
        | false =>
          obtain ⟨k, hk, h2, h3, rfl⟩ := hv
          exact ⟨k + 1, by omega, h2, h3, rfl⟩
      · rintro ⟨k, hk, h2, h3, rfl⟩
        cases k with
        | zero =>
          rw [Nat.add_zero, Int.add_sub_cancel] at h3
          exact ⟨true, _, [], In_two.mpr rfl, ⟨h3, rfl⟩, rfl⟩
        | succ k => exact ⟨false, _, _, In_two.mpr rfl, ⟨k, by omega, h2, h3, rfl⟩, rfl⟩

/-- The last `k` bits of `x`, most significant first. -/
def lowBits (x k : Nat) : List Bin := (List.range k).reverse.map fun j => .eq (x.testBit j)

theorem lowBits_succ (x k : Nat) : lowBits x (k + 1) = .eq (x.testBit k) :: lowBits x k := by
  unfold lowBits
  rw [List.range_succ, List.reverse_append]
  rfl

theorem lowBits_add (x k : Nat) : lowBits (2 ^ k + x) k = lowBits x k := by
  unfold lowBits
  refine List.map_congr_left fun j hj => ?_
  rw [Nat.testBit_two_pow_add_gt (List.mem_range.mp (List.mem_reverse.mp hj))]

theorem codes_suffix (order : Nat) (acc : Int) : Codes G m (golombSuffix m order acc) fun v c =>
    ∃ x < 2 ^ order, v = acc + (x : Nat) ∧ c = lowBits x order := by
  induction order generalizing acc with
  | zero =>
    refine Codes.pure fun v c => ?_
    constructor
    · rintro ⟨x, hx, rfl, rfl⟩
      obtain rfl : x = 0 := by omega
      exact ⟨Int.add_zero _, rfl⟩
    · rintro ⟨rfl, rfl⟩
      exact ⟨0, by decide, (Int.add_zero _).symm, rfl⟩
  | succ n ih =>
    unfold golombSuffix
    have hpow : ((2 ^ n : Nat) : Int) = (2 : Int) ^ n := by push_cast; rfl
    refine (codes_eqp.seq fun b c _ => ih (if b then acc + 2 ^ n else acc)).conv fun v c => ?_
    constructor
    · rintro ⟨b, c1, d, hb, ⟨x, hx, rfl, rfl⟩, rfl⟩
      cases In_two.mp hb
      have hs : 2 ^ (n + 1) = 2 ^ n * 2 := Nat.pow_succ _ _
      cases b with
      | true =>
        refine ⟨2 ^ n + x, by omega, ?_, ?_⟩
        · rw [if_pos rfl, ← hpow]; push_cast; omega
        · rw [lowBits_succ, lowBits_add, Nat.testBit_two_pow_add_eq, Nat.testBit_lt_two_pow hx]
          rfl
      | false =>
        refine ⟨x, by omega, rfl, ?_⟩
        rw [lowBits_succ, Nat.testBit_lt_two_pow hx]
        rfl
    · rintro ⟨x, hx, rfl, rfl⟩
      have hs : 2 ^ (n + 1) = 2 ^ n * 2 := Nat.pow_succ _ _
      rcases Nat.lt_or_ge x (2 ^ n) with h | h
      · refine ⟨false, _, _, In_two.mpr rfl, ⟨x, h, rfl, rfl⟩, ?_⟩
        rw [lowBits_succ, Nat.testBit_lt_two_pow h]
        rfl
      · obtain ⟨y, rfl⟩ : ∃ y, x = 2 ^ n + y := ⟨x - 2 ^ n, by omega⟩
        refine ⟨true, _, _, In_two.mpr rfl, ⟨y, by omega, ?_, rfl⟩, ?_⟩
        · rw [if_pos rfl, ← hpow]; push_cast; omega
        · rw [lowBits_succ, lowBits_add, Nat.testBit_two_pow_add_eq, Nat.testBit_lt_two_pow (by omega)]
          rfl

theorem expGolomb_eq (k x : Nat) (hx : x < 2 ^ k) :
    expGolomb (2 ^ k + x - 1) = List.replicate k (.eq false) ++ [.eq true] ++ lowBits x k := by
  have hp : 0 < 2 ^ k := Nat.pow_pos (by decide)
  have hs : 2 ^ (k + 1) = 2 ^ k * 2 := Nat.pow_succ _ _
  unfold expGolomb
  rw [show 2 ^ k + x - 1 + 1 = 2 ^ k + x by omega]
  have hl : (2 ^ k + x).log2 = k := (Nat.log2_eq_iff (by omega)).mpr ⟨by omega, by omega⟩
  dsimp only
  rw [hl]
  congr 1
  exact lowBits_add x k

/-- Prefix and suffix together: the number `base + n`. -/
theorem codes_golomb {β : Type} (base : Int) (h0 : 0 ≤ base) (h1 : base ≤ 2147483647) {W : Option (Nat × Int) → P σ β}
    {K : Int → P σ β} (hG : ∀ o a, W (some (o, a)) = (do
      let b ← golombSuffix m o 0
      let v ← i32 (a + b)
      K v)) {U : Nat → β → List Bin → Prop} (hK : ∀ n, Codes G m (K (base + (n : Nat))) (U n)) :
    Codes G m (golombPrefix m 32 0 base >>= W) fun v c =>
      ∃ n : Nat, base + n ≤ 2147483647 ∧ ∃ d, U n v d ∧ c = expGolomb n ++ d := by
  have hpow : ∀ j : Nat, ((2 ^ j : Nat) : Int) = (2 : Int) ^ j := fun j => by push_cast; rfl
  refine ((codes_prefix 32 0 base h0 h1).seq (V := fun o v c => ∃ k, o = some (k, base + 2 ^ k - 1) ∧
    ∃ x < 2 ^ k, base + ((2 ^ k + x - 1 : Nat) : Int) ≤ 2147483647 ∧ ∃ d, U (2 ^ k + x - 1) v d ∧ c = lowBits x k ++ d)
    fun o c ho => ?_).conv fun v c => ?_
  · obtain ⟨k, hk, hb, rfl, rfl⟩ := ho
    rw [Nat.zero_add] at hb ⊢
    rw [hG]
    have hp : 0 < 2 ^ k := Nat.pow_pos (by decide)
    have ek : ∀ x : Nat, base + 2 ^ k - 2 ^ 0 + (0 + (x : Int)) = base + ((2 ^ k + x - 1 : Nat) : Int) := by
      intro x
      rw [← hpow k]
      omega
    refine ((codes_suffix k 0).seq (V := fun b v c => ∃ x : Nat, b = 0 + (x : Int) ∧
      base + ((2 ^ k + x - 1 : Nat) : Int) ≤ 2147483647 ∧ U (2 ^ k + x - 1) v c) fun b _ hb => ?_).conv fun v c => ?_
    · obtain ⟨x, hx, rfl, rfl⟩ := hb
      rw [ek x]
      refine ((codes_i32 _).seq (V := fun r v c => r = base + ((2 ^ k + x - 1 : Nat) : Int) ∧ U (2 ^ k + x - 1) v c)
        fun r _ hr => ?_).conv fun v c => ?_
      · obtain ⟨_, rfl, _⟩ := hr
        exact (hK _).conv fun v c => ⟨fun h => ⟨rfl, h⟩, fun h => h.2⟩
      · constructor
        · rintro ⟨r, _, d, ⟨hb, rfl, rfl⟩, ⟨_, h⟩, rfl⟩
          exact ⟨x, rfl, hb.2, h⟩
        · rintro ⟨y, e, h2, h3⟩
          obtain rfl : x = y := by omega
          exact ⟨_, [], c, ⟨⟨by omega, h2⟩, rfl, rfl⟩, ⟨rfl, h3⟩, rfl⟩
    · constructor
      · rintro ⟨b, _, d, ⟨x, hx, rfl, rfl⟩, ⟨y, e, h2, h3⟩, rfl⟩
        obtain rfl : x = y := by omega
        exact ⟨k, rfl, x, hx, h2, d, h3, rfl⟩
      · rintro ⟨k', e, x, hx, h2, d, h3, rfl⟩
        obtain ⟨rfl, _⟩ : k = k' ∧ True := by
          injection e with e
          injection e with e _
          exact ⟨e, trivial⟩
        exact ⟨_, _, d, ⟨x, hx, rfl, rfl⟩, ⟨x, rfl, h2, h3⟩, rfl⟩
  · constructor
    · rintro ⟨o, _, _, ⟨k, hk, hb, rfl, rfl⟩, ⟨k', e, x, hx, h2, d, h3, rfl⟩, rfl⟩
      obtain rfl : k = k' := by
        injection e with e
        injection e with e _
        omega
      exact ⟨_, h2, d, h3, by rw [expGolomb_eq k x hx, List.append_assoc, List.append_assoc, List.append_assoc]⟩
    · rintro ⟨n, hn, d, h3, rfl⟩
      have hlo : 2 ^ (n + 1).log2 ≤ n + 1 := Nat.log2_self_le (by omega)
      have hhi : n + 1 < 2 ^ ((n + 1).log2 + 1) := Nat.lt_log2_self
      generalize (n + 1).log2 = k at hlo hhi
      have hs : 2 ^ (k + 1) = 2 ^ k * 2 := Nat.pow_succ _ _
      have hp : 0 < 2 ^ k := Nat.pow_pos (by decide)
      obtain ⟨x, rfl⟩ : ∃ x, n = 2 ^ k + x - 1 := ⟨n + 1 - 2 ^ k, by omega⟩
      have hx : x < 2 ^ k := by omega
      have hk : k < 32 := by
        rcases Nat.lt_or_ge k 32 with h | h
        · exact h
        · have := Nat.pow_le_pow_right (n := 2) (by decide) h
          omega
      refine ⟨some (k, base + 2 ^ k - 1), _, _, ⟨k, hk, ?_, ?_, rfl⟩, ⟨k, rfl, x, hx, hn, d, h3, rfl⟩, ?_⟩
      · rw [Nat.zero_add, ← hpow k]; omega
      · rw [Nat.zero_add]; rfl
      · rw [expGolomb_eq k x hx, List.append_assoc, List.append_assoc]

theorem codes_sign (x : Int) (h : 0 < x) : Codes G m (mvdSign m x) fun v c =>
    v.natAbs = x.natAbs ∧ c = [.eq (decide (v < 0))] := by
  unfold mvdSign
  refine Codes.pos (by omega) ?_
  refine (codes_eqp.seq (V := fun b v c => v = (if b then -x else x) ∧ c = []) fun b c _ => ?_).conv fun v c => ?_
  · cases b with
    | true => exact Codes.pos rfl (Codes.pure fun v c => Iff.rfl)
    | false => exact Codes.neg (by decide) (Codes.pure fun v c => Iff.rfl)
  · constructor
    · rintro ⟨b, c1, d, hb, ⟨rfl, rfl⟩, rfl⟩
      cases In_two.mp hb
      cases b with
      | true => exact ⟨by simp, by rw [if_pos rfl, decide_eq_true (by omega)]; rfl⟩
      | false => exact ⟨rfl, by rw [if_neg (by decide), decide_eq_false (by omega)]; rfl⟩
    · rintro ⟨h1, rfl⟩
      refine ⟨decide (v < 0), _, [], In_two.mpr rfl, ⟨?_, rfl⟩, rfl⟩
      by_cases hv : v < 0
      · rw [if_pos (decide_eq_true hv)]; omega
      · rw [if_neg (by simpa using hv)]; omega

theorem mvdCode_big (a : Arr) (v : Int) (n : Nat) (h : v.natAbs = n + 3) : mvdCode a v =
    [cx a 0 1, cx a 1 1, cx a 2 1, .eq (n % 2 == 1)] ++ expGolomb (n / 2) ++ [.eq (decide (v < 0))] := by
  unfold mvdCode
  rw [h]

theorem mvdCode_two (a : Arr) (v : Int) (h : v.natAbs = 2) :
    mvdCode a v = [cx a 0 1, cx a 1 1, cx a 2 0, .eq (decide (v < 0))] := by
  unfold mvdCode
  rw [h]

theorem mvdCode_one (a : Arr) (v : Int) (h : v.natAbs = 1) :
    mvdCode a v = [cx a 0 1, cx a 1 0, .eq (decide (v < 0))] := by
  unfold mvdCode
  rw [h]

/-- **C79 (motion vector difference).**  Every value with a representable absolute value; larger codes are never
accepted. -/
theorem C79_mvd (a : Arr) (ha : a = .mvd0 ∨ a = .mvd1) : Codes G m (mvd m a) (mvdT a) := by
  have hs : a.size = 3 := by rcases ha with rfl | rfl <;> rfl
  unfold mvd
  have big : Codes G m (do
      let add ← eqp m
      match ← golombPrefix m 32 0 0 with
      | none => pure 0
      | some (order, acc) =>
        let b ← golombSuffix m order 0
        let v ← i32 (acc + b)
        let v ← i32 (2 * v)
        let v ← i32 (v + 3 + bit add)
        mvdSign m v) fun v c => ∃ n : Nat, v.natAbs = n + 3 ∧ n + 3 ≤ 2147483647 ∧
          c = .eq (n % 2 == 1) :: expGolomb (n / 2) ++ [.eq (decide (v < 0))] := by
    refine (codes_eqp.seq (V := fun add v c => ∃ n : Nat, v.natAbs = 2 * n + 3 + add.toNat ∧
      2 * n + 3 + add.toNat ≤ 2147483647 ∧ c = expGolomb n ++ [.eq (decide (v < 0))]) fun add c _ => ?_).conv
      fun v c => ?_
    · have hb : bit add = (add.toNat : Int) := by cases add <;> rfl
      refine (codes_golomb 0 (by decide) (by decide) (K := fun v => do
        let v ← i32 (2 * v)
        let v ← i32 (v + 3 + bit add)
        mvdSign m v) (fun o x => rfl) (U := fun n (v : Int) c => 2 * n + 3 + add.toNat ≤ 2147483647 ∧
          v.natAbs = 2 * n + 3 + add.toNat ∧ c = [.eq (decide (v < 0))]) fun n => ?_).conv fun v c => ?_
      · refine ((codes_i32 _).seq fun r _ hr => (codes_i32 (r + 3 + bit add)).seq (V := fun q (v : Int) c =>
          q = r + 3 + bit add ∧ v.natAbs = q.natAbs ∧ c = [.eq (decide (v < 0))]) fun q _ hq => ?_).conv fun v c => ?_
        · obtain ⟨_, rfl, _⟩ := hr
          obtain ⟨_, rfl, _⟩ := hq
          exact (codes_sign _ (by rw [hb]; omega)).conv fun v c => ⟨fun h => ⟨rfl, h⟩, fun h => h.2⟩
        · rw [hb]
          constructor
          · rintro ⟨r, _, _, ⟨_, rfl, rfl⟩, ⟨q, _, _, ⟨h1, rfl, rfl⟩, ⟨_, h2, rfl⟩, rfl⟩, rfl⟩
            exact ⟨by omega, by omega, rfl⟩
          · rintro ⟨h1, h2, rfl⟩
            exact ⟨_, [], _, ⟨by omega, rfl, rfl⟩, ⟨_, [], _, ⟨by omega, rfl, rfl⟩, ⟨rfl, by omega, rfl⟩, rfl⟩, rfl⟩
      · constructor
        · rintro ⟨n, h1, d, ⟨h2, h3, rfl⟩, rfl⟩
          exact ⟨n, h3, h2, rfl⟩
        · rintro ⟨n, h1, h2, rfl⟩
          exact ⟨n, by omega, _, ⟨h2, h1, rfl⟩, rfl⟩
    · constructor
      · rintro ⟨add, c1, d, hb, ⟨n, h1, h2, rfl⟩, rfl⟩
        cases In_two.mp hb
        refine ⟨2 * n + add.toNat, by omega, by omega, ?_⟩
        have e1 : (2 * n + add.toNat) / 2 = n := by cases add <;> simp only [Bool.toNat] <;> dsimp <;> omega
        have e2 : ((2 * n + add.toNat) % 2 == 1) = add := by
          have : (2 * n + add.toNat) % 2 = add.toNat := by cases add <;> simp only [Bool.toNat] <;> dsimp <;> omega
          rw [this]
          cases add <;> rfl
        rw [e1, e2]
        rfl
      · rintro ⟨n, h1, h2, rfl⟩
        refine ⟨n % 2 == 1, _, _, In_two.mpr rfl, ⟨n / 2, ?_, ?_, rfl⟩, rfl⟩
        all_goals
          rcases Nat.mod_two_eq_zero_or_one n with h | h <;> rw [h] <;> simp <;> omega
  refine ((codes_sym (by omega)).seq (V := fun b v c => if b then v ≠ 0 ∧ mvdT a v (.ctx a 0 true :: c)
    else v = 0 ∧ c = []) fun b _ _ => ?_).conv fun v c => ?_
  · cases b with
    | false =>
      refine Codes.neg (by decide) ?_
      exact Codes.pure fun v c => Iff.rfl
    | true =>
      refine Codes.pos rfl (((codes_sym (by omega)).seq (V := fun b v c => if b then 2 ≤ v.natAbs ∧
        mvdT a v (.ctx a 0 true :: .ctx a 1 true :: c) else v.natAbs = 1 ∧ c = [.eq (decide (v < 0))])
        fun b _ _ => ?_).conv fun v c => ?_)
      · cases b with
        | false => exact Codes.neg (by decide) ((codes_sign 1 (by decide)).conv fun v c => Iff.rfl)
        | true =>
          refine Codes.pos rfl (((codes_sym (by omega)).seq (V := fun b v c => if b then ∃ n : Nat,
            v.natAbs = n + 3 ∧ n + 3 ≤ 2147483647 ∧
            c = .eq (n % 2 == 1) :: expGolomb (n / 2) ++ [.eq (decide (v < 0))]
            else v.natAbs = 2 ∧ c = [.eq (decide (v < 0))]) fun b _ _ => ?_).conv fun v c => ?_)
          · cases b with
            | false => exact Codes.neg (by decide) ((codes_sign 2 (by decide)).conv fun v c => Iff.rfl)
            | true => exact Codes.pos rfl big
          · constructor
            · rintro ⟨b, c1, d, hb, hv, rfl⟩
              cases In_two.mp hb
              cases b with
              | true =>
                obtain ⟨n, h1, h2, rfl⟩ := hv
                refine ⟨by omega, by omega, ?_⟩
                rw [mvdCode_big a v n h1]
                rfl
              | false =>
                obtain ⟨h1, rfl⟩ := hv
                refine ⟨by omega, by omega, ?_⟩
                rw [mvdCode_two a v h1]
                rfl
            · rintro ⟨h1, h2, h3⟩
              rcases Nat.lt_or_ge v.natAbs 3 with h | h
              · have h : v.natAbs = 2 := by omega
                rw [mvdCode_two a v h] at h3
                injection h3 with _ h3
                injection h3 with _ h3
                exact ⟨false, _, _, In_two.mpr rfl, ⟨h, rfl⟩, h3⟩
              · obtain ⟨n, hn⟩ : ∃ n, v.natAbs = n + 3 := ⟨v.natAbs - 3, by omega⟩
                rw [mvdCode_big a v n hn] at h3
                injection h3 with _ h3
                injection h3 with _ h3
                exact ⟨true, _, _, In_two.mpr rfl, ⟨n, hn, by omega, rfl⟩, h3⟩
      · constructor
        · rintro ⟨b, c1, d, hb, hv, rfl⟩
          cases In_two.mp hb
          cases b with
          | true => exact ⟨by have := hv.1; omega, hv.2⟩
          | false =>
            obtain ⟨h1, rfl⟩ := hv
            refine ⟨by omega, by omega, ?_⟩
            rw [mvdCode_one a v h1]
            rfl
        · rintro ⟨h1, h2, h3⟩
          rcases Nat.lt_or_ge v.natAbs 2 with h | h
          · have h : v.natAbs = 1 := by omega
            rw [mvdCode_one a v h] at h3
            injection h3 with _ h3
            exact ⟨false, _, _, In_two.mpr rfl, ⟨h, rfl⟩, h3⟩
          · rcases Nat.lt_or_ge v.natAbs 3 with h' | h'
            · have h3' := h3
              rw [mvdCode_two a v (by omega)] at h3
              injection h3 with _ h3
              exact ⟨true, _, _, In_two.mpr rfl, ⟨h, h2, by rw [mvdCode_two a v (by omega)]; rfl⟩, h3⟩
            · obtain ⟨n, hn⟩ : ∃ n, v.natAbs = n + 3 := ⟨v.natAbs - 3, by omega⟩
              rw [mvdCode_big a v n hn] at h3
              injection h3 with _ h3
              exact ⟨true, _, _, In_two.mpr rfl, ⟨h, h2, by rw [mvdCode_big a v n hn]; rfl⟩, h3⟩
  · constructor
    · rintro ⟨b, c1, d, hb, hv, rfl⟩
      cases In_two.mp hb
      cases b with
      | true => exact hv.2
      | false =>
        obtain ⟨rfl, rfl⟩ := hv
        exact ⟨by decide, rfl⟩
    · intro h
      by_cases h0 : v = 0
      · subst h0
        exact ⟨false, _, [], In_two.mpr rfl, ⟨rfl, rfl⟩, h.2⟩
      · have ht : ∃ d, c = .ctx a 0 true :: d := by
          rw [h.2]
          unfold mvdCode
          split
          · omega
          all_goals exact ⟨_, rfl⟩
        obtain ⟨d, rfl⟩ := ht
        exact ⟨true, _, d, In_two.mpr rfl, ⟨h0, h⟩, rfl⟩

/-- **C79 (level).** -/
theorem C79_level (b : Blk) (rank n pos : Nat) (first : Bool) (hr : rank ≤ 4) :
    Codes G m (readLevel m b rank n pos first) fun v c => ∃ x : Nat, 1 ≤ x ∧ x ≤ 2147483647 ∧ v = some (x : Int) ∧
      c = levelCode (levelCtx b.luma (first && decide (pos < 3)) rank n) x := by
  have hc : (if b.luma then 0 else 20) + 10 * (if first ∧ pos < 3 then 1 else 0) + min rank (min 2 ((n + 1) / 2) + 2) +
      5 * min 2 ((n + 1) / 2) / 2 = levelCtx b.luma (first && decide (pos < 3)) rank n := by
    unfold levelCtx
    have e : ((first && decide (pos < 3)) = true) = (first = true ∧ pos < 3) := by simp
    simp only [e]
    have hp : min 2 ((n + 1) / 2) = if n = 0 then 0 else if n ≤ 2 then 1 else 2 := by
      split
      · subst_vars; rfl
      · split <;> omega
    rw [hp]
    by_cases h0 : n = 0
    · simp only [if_pos h0]; split <;> split <;> omega
    · simp only [if_neg h0]
      by_cases h2 : n ≤ 2
      · simp only [if_pos h2]; split <;> split <;> omega
      · simp only [if_neg h2]; split <;> split <;> omega
  unfold readLevel
  dsimp only
  rw [hc]
  have hs : levelCtx b.luma (first && decide (pos < 3)) rank n < Arr.level.size := by
    unfold levelCtx
    simp only [Arr.size]
    split <;> split <;> split <;> (try split) <;> omega
  generalize levelCtx b.luma (first && decide (pos < 3)) rank n = k at hs
  refine (codes_fin.seq (V := fun e v c => if e then ∃ x : Nat, (x : Int) + 33 ≤ 2147483647 ∧ v = some ((x : Int) + 33) ∧
    c = expGolomb x else ∃ j ≤ 31, v = some (((1 + j : Nat) : Int)) ∧ c = unary .level (fun _ => k) 31 j)
    fun e _ _ => ?_).conv fun v c => ?_
  · cases e with
    | true =>
      refine Codes.pos rfl ?_
      refine (codes_golomb 1 (by decide) (by decide) (K := fun v => do
        let v ← i32 (v + 32)
        if ← failed m then pure none else pure (some v)) (fun o x => rfl)
        (U := fun x v c => (x : Int) + 33 ≤ 2147483647 ∧ v = some ((x : Int) + 33) ∧ c = []) fun x => ?_).conv fun v c => ?_
      · refine ((codes_i32 _).seq (V := fun q v c => v = some q ∧ c = []) fun q _ _ =>
          Codes.failed (Codes.neg (by decide) (Codes.pure fun v c => Iff.rfl))).conv fun v c => ?_
        have e : (1 : Int) + x + 32 = x + 33 := by omega
        rw [e]
        constructor
        · rintro ⟨q, _, _, ⟨h1, rfl, rfl⟩, ⟨rfl, rfl⟩, rfl⟩
          exact ⟨h1.2, rfl, rfl⟩
        · rintro ⟨h1, rfl, rfl⟩
          exact ⟨_, [], [], ⟨⟨by omega, h1⟩, rfl, rfl⟩, ⟨rfl, rfl⟩, rfl⟩
      · constructor
        · rintro ⟨x, h1, d, ⟨h2, rfl, rfl⟩, rfl⟩
          exact ⟨x, h2, rfl, List.append_nil _⟩
        · rintro ⟨x, h2, rfl, rfl⟩
          exact ⟨x, by omega, [], ⟨h2, rfl, rfl⟩, (List.append_nil _).symm⟩
    | false =>
      refine Codes.neg (by decide) ?_
      refine ((codes_run0 hs).seq (V := fun (j : Nat) v c => v = some (1 + (j : Int)) ∧ c = []) fun j _ _ =>
        ?_).conv fun v c => ?_
      · exact Codes.failed (Codes.neg (by decide) (Codes.pure fun v c => Iff.rfl))
      constructor
      · rintro ⟨j, _, _, hj, ⟨rfl, rfl⟩, rfl⟩
        obtain ⟨h1, rfl⟩ := In_unary.mp hj
        exact ⟨j, h1, by push_cast; rfl, List.append_nil _⟩
      · rintro ⟨j, h1, rfl, rfl⟩
        exact ⟨j, _, [], In_unary.mpr ⟨h1, rfl⟩, ⟨by push_cast; rfl, rfl⟩, (List.append_nil _).symm⟩
  · constructor
    · rintro ⟨e, _, d, he, hv, rfl⟩
      cases In_two.mp he
      cases e with
      | true =>
        obtain ⟨x, h1, rfl, rfl⟩ := hv
        refine ⟨x + 33, by omega, by omega, by push_cast; rfl, ?_⟩
        unfold levelCode
        rw [if_neg (by omega)]
        rfl
      | false =>
        obtain ⟨j, h1, rfl, rfl⟩ := hv
        refine ⟨1 + j, by omega, by omega, rfl, ?_⟩
        unfold levelCode
        rw [if_pos (by omega), Nat.add_sub_cancel_left]
        rfl
    · rintro ⟨x, h1, h2, rfl, rfl⟩
      unfold levelCode
      by_cases hx : x ≤ 32
      · rw [if_pos hx]
        exact ⟨false, _, _, In_two.mpr rfl, ⟨x - 1, by omega, by rw [show 1 + (x - 1) = x by omega], rfl⟩, rfl⟩
      · rw [if_neg hx]
        refine ⟨true, _, _, In_two.mpr rfl, ⟨x - 33, by omega, by congr 1; omega, rfl⟩, rfl⟩

end Davs2.Sx
