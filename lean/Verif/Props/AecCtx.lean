import Verif.Model.AecCtx
import Mathlib.Tactic.IntervalCases
/-
C28: the probability states of the entropy decoder stay valid.
-/
namespace Davs2

/-- Specification: an adaptive probability state with its arithmetic update rule, as in the standard.
`lg` is the cost of the less probable symbol in 1/4 of 1/256, `cyc` counts the first updates. -/
structure ProbState where
  lg : Nat
  mps : Bool
  cyc : Nat
deriving DecidableEq, Repr

/-- Adaptation speed. -/
def ProbState.speed (s : ProbState) : Nat := if s.cyc ≤ 1 then 3 else if s.cyc = 2 then 4 else 5

/-- Update after the more probable symbol. -/
def ProbState.afterMps (s : ProbState) : ProbState :=
  ⟨s.lg - s.lg / 2 ^ s.speed - s.lg / 2 ^ (s.speed + 2), s.mps, if s.cyc = 0 then 1 else s.cyc⟩

/-- Update after the less probable symbol; the two symbols change roles when it gets the more probable. -/
def ProbState.afterLps (s : ProbState) : ProbState :=
  let x := s.lg + (if s.speed = 3 then 197 else if s.speed = 4 then 95 else 46)
  let cyc := if s.cyc = 3 then 3 else s.cyc + 1
  if x ≤ 1023 then ⟨x, s.mps, cyc⟩ else ⟨2047 - x, !s.mps, cyc⟩

/-- How a state is stored in 16 bits. -/
def ProbState.enc (s : ProbState) : Nat := s.cyc + 4 * s.mps.toNat + 8 * s.lg

theorem foldl_tabSet (key val : Nat → Nat) (inj : ∀ a b, key a = key b → a = b) (t : Nat → Nat) (n : Nat) :
    (∀ a, a < n → (List.range n).foldl (fun t a => tabSet t (key a) (val a)) t (key a) = val a) ∧
    (∀ k, (∀ a, a < n → key a ≠ k) → (List.range n).foldl (fun t a => tabSet t (key a) (val a)) t k = t k) := by
  induction n with
  | zero => exact ⟨fun a h => absurd h (by omega), fun k _ => rfl⟩
  | succ n ih =>
    rw [List.range_succ, List.foldl_append]
    simp only [List.foldl_cons, List.foldl_nil]
    refine ⟨fun a ha => ?_, fun k hk => ?_⟩
    · unfold tabSet
      by_cases h : key a = key n
      · rw [if_pos h, inj _ _ h]
      · rw [if_neg h]
        exact ih.1 a (by
          rcases Nat.lt_succ_iff_lt_or_eq.1 ha with h' | h'
          · exact h'
          · subst h'; exact absurd rfl h)
    · unfold tabSet
      rw [if_neg (fun h => hk n (by omega) h.symm)]
      exact ih.2 k (fun a ha => hk a (by omega))

theorem mkCtx_inj {l m c l' m' c' : Nat} (hc : c < 4) (hc' : c' < 4) (hm : m < 2) (hm' : m' < 2)
    (h : mkCtx l m c = mkCtx l' m' c') : l = l' ∧ m = m' ∧ c = c' := by
  unfold mkCtx at h; omega

/-- Value the first table gets at one place. -/
def mpsVal (cyc mps lg : Nat) : Nat :=
  mkCtx (lg - ((lg >>> tabCwr cyc) + (lg >>> (tabCwr cyc + 2)))) mps (max cyc 1)

theorem mpsInner_at {cyc mps : Nat} (t : Nat → Nat) {l m c : Nat} (hc : c < 4) (hm : m < 2)
    (hcyc : cyc < 4) (hmps : mps < 2) (hl : l ≤ 1024) :
    mpsInner cyc mps t (mkCtx l m c) =
      if cyc = c ∧ mps = m then mpsVal cyc mps l else t (mkCtx l m c) := by
  have h := foldl_tabSet (fun lg => mkCtx lg mps cyc) (fun lg => mpsVal cyc mps lg)
    (fun a b h => (mkCtx_inj hcyc hcyc hmps hmps h).1) t 1025
  have e : mpsInner cyc mps t =
    (List.range 1025).foldl (fun t a => tabSet t (mkCtx a mps cyc) (mpsVal cyc mps a)) t := rfl
  rw [e]
  split
  · rename_i hh
    obtain ⟨rfl, rfl⟩ := hh
    exact h.1 l (by omega)
  · rename_i hh
    refine h.2 _ (fun a _ he => hh ?_)
    have := mkCtx_inj hcyc hc hmps hm he
    exact ⟨this.2.2, this.2.1⟩

theorem mpsTab_at {l m c : Nat} (hc : c < 4) (hm : m < 2) (hl : l ≤ 1024) :
    mpsTab (mkCtx l m c) = mpsVal c m l := by
  unfold mpsTab
  simp only [List.foldl_cons, List.foldl_nil]
  repeat rw [mpsInner_at _ hc hm (by omega) (by omega) hl]
  interval_cases c <;> interval_cases m <;> simp

/-- Value the second table gets at one place. -/
def lpsVal (cyc mps lg : Nat) : Nat :=
  if 1024 ≤ lg + tabLgOffset (tabCwr cyc) then
    mkCtx (2047 - (lg + tabLgOffset (tabCwr cyc))) (1 - mps) (min (cyc + 1) 3)
  else mkCtx (lg + tabLgOffset (tabCwr cyc)) mps (min (cyc + 1) 3)

/-- The variable carried through the inner loop flips only once the sum has reached 1024, and from then on
it is not used any more. -/
theorem lpsInner_eq (cyc mps : Nat) (t : Nat → Nat) : lpsInner cyc mps t =
    (List.range 1025).foldl (fun t a => tabSet t (mkCtx a mps cyc) (lpsVal cyc mps a)) t := by
  unfold lpsInner
  suffices h : ∀ n,
      ((List.range n).foldl (fun (p : Nat × (Nat → Nat)) lg =>
        let x := lg + tabLgOffset (tabCwr cyc)
        if 1024 ≤ x then
          (1 - mps, tabSet p.2 (mkCtx lg mps cyc) (mkCtx (2047 - x) (1 - mps) (min (cyc + 1) 3)))
        else (p.1, tabSet p.2 (mkCtx lg mps cyc) (mkCtx x p.1 (min (cyc + 1) 3)))) (mps, t)) =
      ((if 0 < n ∧ 1024 ≤ n - 1 + tabLgOffset (tabCwr cyc) then 1 - mps else mps),
       (List.range n).foldl (fun t a => tabSet t (mkCtx a mps cyc) (lpsVal cyc mps a)) t) by
    rw [h]
  intro n
  induction n with
  | zero => simp
  | succ n ih =>
    rw [List.range_succ, List.foldl_append, List.foldl_append, ih]
    simp only [List.foldl_cons, List.foldl_nil]
    unfold lpsVal
    generalize tabLgOffset (tabCwr cyc) = off
    by_cases h : 1024 ≤ n + off
    · rw [if_pos h, if_pos h, if_pos (by omega)]
    · rw [if_neg h, if_neg h]
      rw [if_neg (by omega), if_neg (by omega)]

theorem lpsInner_at {cyc mps : Nat} (t : Nat → Nat) {l m c : Nat} (hc : c < 4) (hm : m < 2)
    (hcyc : cyc < 4) (hmps : mps < 2) (hl : l ≤ 1024) :
    lpsInner cyc mps t (mkCtx l m c) =
      if cyc = c ∧ mps = m then lpsVal cyc mps l else t (mkCtx l m c) := by
  have h := foldl_tabSet (fun lg => mkCtx lg mps cyc) (fun lg => lpsVal cyc mps lg)
    (fun a b h => (mkCtx_inj hcyc hcyc hmps hmps h).1) t 1025
  rw [lpsInner_eq]
  split
  · rename_i hh
    obtain ⟨rfl, rfl⟩ := hh
    exact h.1 l (by omega)
  · rename_i hh
    refine h.2 _ (fun a _ he => hh ?_)
    have := mkCtx_inj hcyc hc hmps hm he
    exact ⟨this.2.2, this.2.1⟩

theorem lpsTab_at {l m c : Nat} (hc : c < 4) (hm : m < 2) (hl : l ≤ 1024) :
    lpsTab (mkCtx l m c) = lpsVal c m l := by
  unfold lpsTab
  simp only [List.foldl_cons, List.foldl_nil]
  repeat rw [lpsInner_at _ hc hm (by omega) (by omega) hl]
  interval_cases c <;> interval_cases m <;> simp

theorem enc_eq (s : ProbState) : s.enc = mkCtx s.lg s.mps.toNat s.cyc := rfl

/-- C28, tables: for every probability state in range, the table-driven update gives the state the
arithmetic rule gives. -/
theorem C28_table_rule (s : ProbState) (hc : s.cyc ≤ 3) (hl : s.lg ≤ 1024) :
    mpsTab s.enc = s.afterMps.enc ∧ lpsTab s.enc = s.afterLps.enc := by
  obtain ⟨lg, mps, cyc⟩ := s
  have hm : mps.toNat < 2 := by cases mps <;> decide
  simp only at hc hl
  have hc4 : cyc < 4 := by omega
  rw [enc_eq, mpsTab_at hc4 hm hl, lpsTab_at hc4 hm hl]
  unfold mpsVal lpsVal ProbState.afterMps ProbState.afterLps ProbState.enc mkCtx ProbState.speed
  simp only [Nat.shiftRight_eq_div_pow]
  refine ⟨?_, ?_⟩
  · interval_cases cyc <;> simp [tabCwr] <;> omega
  · cases mps <;> interval_cases cyc <;> simp [tabCwr, tabLgOffset] <;> split <;> split <;> simp <;> omega

example : mpsTab (ProbState.enc ⟨1023, false, 0⟩) = ProbState.enc ⟨865, false, 1⟩ ∧
    lpsTab (ProbState.enc ⟨1000, true, 2⟩) = ProbState.enc ⟨952, false, 3⟩ :=
  ⟨(C28_table_rule ⟨1023, false, 0⟩ (by decide) (by decide)).1,
   (C28_table_rule ⟨1000, true, 2⟩ (by decide) (by decide)).2⟩

/-- The states that occur. -/
def CtxOk (v : Nat) : Prop := ∃ l m c, v = mkCtx l m c ∧ 7 ≤ l ∧ l ≤ 1023 ∧ m < 2 ∧ c < 4

theorem CtxOk.update {v : Nat} (h : CtxOk v) (b : Bool) : CtxOk (updateCtx b v) := by
  obtain ⟨l, m, c, rfl, h1, h2, h3, h4⟩ := h
  unfold updateCtx
  cases b
  · simp only [Bool.false_eq_true, if_false]
    rw [mpsTab_at h4 h3 (by omega)]
    unfold mpsVal
    refine ⟨_, _, _, rfl, ?_, ?_, h3, by omega⟩
    · simp only [Nat.shiftRight_eq_div_pow]
      interval_cases c <;> simp [tabCwr] <;> omega
    · exact Nat.le_trans (Nat.sub_le _ _) h2
  · simp only [if_true]
    rw [lpsTab_at h4 h3 (by omega)]
    unfold lpsVal
    have : tabLgOffset (tabCwr c) ≤ 197 := by
      interval_cases c <;> decide
    split
    · exact ⟨_, _, _, rfl, by omega, by omega, by omega, by omega⟩
    · exact ⟨_, _, _, rfl, by omega, by omega, by omega, by omega⟩

theorem CtxOk.init : CtxOk initCtx := ⟨1023, 0, 0, rfl, by omega, by omega, by omega, by omega⟩

theorem CtxOk.fields {v : Nat} (h : CtxOk v) :
    v < 16384 ∧ 7 ≤ ctxLg v ∧ ctxLg v ≤ 1023 ∧ ctxMps v ≤ 1 ∧ ctxCyc v ≤ 3 ∧
      v = mkCtx (ctxLg v) (ctxMps v) (ctxCyc v) := by
  obtain ⟨l, m, c, rfl, h1, h2, h3, h4⟩ := h
  unfold ctxLg ctxMps ctxCyc mkCtx
  omega

theorem CtxOk.run {v : Nat} (h : CtxOk v) (us : List Bool) :
    CtxOk (us.foldl (fun v b => updateCtx b v) v) := by
  induction us generalizing v with
  | nil => exact h
  | cons u us ih => exact ih (h.update u)

theorem afterLps_cyc (s : ProbState) : s.afterLps.cyc = if s.cyc = 3 then 3 else s.cyc + 1 := by
  unfold ProbState.afterLps
  simp only []
  generalize (if s.speed = 3 then 197 else if s.speed = 4 then 95 else 46) = o
  by_cases h : s.lg + o ≤ 1023
  · rw [if_pos h]
  · rw [if_neg h]

/-- C28, states: whatever sequence of more and less probable symbols is decoded with it, a probability state
stays inside the tables (16384 entries), its cost field stays between 7 and 1023 (so that the cost used,
a quarter of it, is between 1 and 255), and it is the state the arithmetic rule gives for the same sequence. -/
theorem C28_states_valid (us : List Bool) :
    let v := us.foldl (fun v b => updateCtx b v) initCtx
    v < 16384 ∧ 7 ≤ ctxLg v ∧ ctxLg v ≤ 1023 ∧ ctxMps v ≤ 1 ∧ ctxCyc v ≤ 3 ∧
      v = (us.foldl (fun s b => if b then s.afterLps else s.afterMps) (⟨1023, false, 0⟩ : ProbState)).enc := by
  have h := (CtxOk.run CtxOk.init us).fields
  refine ⟨h.1, h.2.1, h.2.2.1, h.2.2.2.1, h.2.2.2.2.1, ?_⟩
  have key : ∀ (us : List Bool) (s : ProbState), CtxOk s.enc → s.cyc ≤ 3 →
      us.foldl (fun v b => updateCtx b v) s.enc =
        (us.foldl (fun s b => if b then s.afterLps else s.afterMps) s).enc := by
    intro us
    induction us with
    | nil => intro s _ _; rfl
    | cons u us ih =>
      intro s hs hc
      simp only [List.foldl_cons]
      have hl : s.lg ≤ 1024 := by
        obtain ⟨l, m, c, e, h1, h2, h3, h4⟩ := hs
        rw [enc_eq] at e
        have := mkCtx_inj (by omega) h4 (by cases s.mps <;> decide) h3 e
        omega
      have hr := C28_table_rule s hc hl
      have hu := hs.update u
      cases u
      · have e : updateCtx false s.enc = s.afterMps.enc := by unfold updateCtx; simp [hr.1]
        rw [e] at hu ⊢
        simp only [Bool.false_eq_true, if_false]
        exact ih _ hu (by unfold ProbState.afterMps; simp only []; split <;> omega)
      · have e : updateCtx true s.enc = s.afterLps.enc := by unfold updateCtx; simp [hr.2]
        rw [e] at hu ⊢
        simp only [if_true]
        exact ih _ hu (by rw [afterLps_cyc]; split <;> omega)
  exact key us ⟨1023, false, 0⟩ CtxOk.init (by decide)

example : let v := [false, false, true, false].foldl (fun v b => updateCtx b v) initCtx
    v = ProbState.enc ⟨856, false, 2⟩ := by
  have := (C28_states_valid [false, false, true, false]).2.2.2.2.2
  simp only [this]; decide

theorem renorm_spec (k : Nat) : ∀ t, 256 ≤ t * 2 ^ k → t < 512 →
    ∃ n, n ≤ k ∧ renorm (k + 1) t = some (t * 2 ^ n, n) ∧ 256 ≤ t * 2 ^ n ∧ t * 2 ^ n < 512 := by
  induction k with
  | zero =>
    intro t h1 h2
    refine ⟨0, by omega, ?_, by omega, by omega⟩
    unfold renorm
    rw [if_neg (by omega)]; simp
  | succ k ih =>
    intro t h1 h2
    unfold renorm
    by_cases h : t < 256
    · rw [if_pos h]
      have e : t <<< 1 = t * 2 := by rw [Nat.shiftLeft_eq]
      rw [e]
      obtain ⟨n, hn, hr, h3, h4⟩ := ih (t * 2) (by rw [Nat.mul_assoc, ← Nat.pow_succ']; exact h1) (by omega)
      refine ⟨n + 1, by omega, ?_, ?_, ?_⟩
      · rw [hr]; simp [Nat.pow_succ', Nat.mul_assoc]
      · rw [Nat.pow_succ', ← Nat.mul_assoc]; exact h3
      · rw [Nat.pow_succ', ← Nat.mul_assoc]; exact h4
    · rw [if_neg h]
      exact ⟨0, by omega, by simp, by omega, by omega⟩

/-- C28, renormalisation: with the cost of a reachable state and any range register below 256, the size of
the less probable interval is doubled at most eight times to get between 256 and 511, and the loop ends. -/
theorem C28_renorm_terminates (us : List Bool) (t1 : Nat) (ht : t1 < 256) :
    let lg := ctxLg (us.foldl (fun v b => updateCtx b v) initCtx) / 4
    let t := if lg ≤ t1 then lg else t1 + lg
    ∃ n, n ≤ 8 ∧ renorm 9 t = some (t * 2 ^ n, n) ∧ 256 ≤ t * 2 ^ n ∧ t * 2 ^ n < 512 := by
  have h := (CtxOk.run CtxOk.init us).fields
  intro lg t
  have hlg : 1 ≤ lg ∧ lg ≤ 255 := by
    show 1 ≤ ctxLg _ / 4 ∧ ctxLg _ / 4 ≤ 255
    omega
  have ht1 : 1 ≤ t ∧ t < 512 := by
    show 1 ≤ (if lg ≤ t1 then lg else t1 + lg) ∧ (if lg ≤ t1 then lg else t1 + lg) < 512
    split <;> omega
  exact renorm_spec 8 t (by omega) ht1.2

example : renorm 9 1 = some (256, 8) ∧ renorm 9 300 = some (300, 0) := by decide

end Davs2
