import Verif.Lemmas.Aec
/-
C31: decoding a run of symbols in one go equals decoding them one by one.
-/
namespace Davs2

/-- Specification: decode single symbols until a one, an error, or `n` zeros; `k` counts the zeros. -/
def singles : Nat → Aec → Nat → Nat → Option (Aec × Nat × Nat)
  | 0, a, ctx, k => some (a, ctx, k)
  | n + 1, a, ctx, k =>
    match biariSymbol a ctx with
    | none => none
    | some (a, ctx, s) =>
      if a.err then some (a, ctx, k) else if s = 0 then singles n a ctx (k + 1) else some (a, ctx, k)

/-- Specification: the same with the context number `min k inc` for the symbol after `k` zeros. -/
def singlesExt (inc : Nat) : Nat → Aec → (Nat → Nat) → Nat → Option (Aec × (Nat → Nat) × Nat)
  | 0, a, ctx, k => some (a, ctx, k)
  | n + 1, a, ctx, k =>
    match biariSymbol a (ctx (min k inc)) with
    | none => none
    | some (a, v, s) =>
      if a.err then some (a, tabSet ctx (min k inc) v, k)
      else if s = 0 then singlesExt inc n a (tabSet ctx (min k inc) v) (k + 1)
      else some (a, tabSet ctx (min k inc) v, k)

/-- Same outcome of a batch and of single symbols: undefined behaviour in both, an error in both, or the same
state, context and number. -/
def SameOutcome {C : Type} (x y : Option (Aec × C × Nat)) : Prop :=
  match x, y with
  | none, none => True
  | some (a, c, k), some (b, d, j) => (a.err = true ∧ b.err = true ∧ k = 0) ∨ (a.err = false ∧ a = b ∧ c = d ∧ k = j)
  | _, _ => False

/-! The register `i_value_s` does not take part in reading bits. -/

def withVs (v : Nat) (a : Aec) : Aec := { a with vs := v }

theorem nextBit_withVs (v : Nat) (a : Aec) :
    (withVs v a).nextBit = a.nextBit.map fun p => (withVs v p.1, p.2) := by
  unfold Aec.nextBit withVs
  simp only []
  cases aecNextBit a.rd <;> rfl

theorem nextLoop_withVs (v : Nat) : ∀ (n : Nat) (a : Aec),
    (withVs v a).nextLoop n = (a.nextLoop n).map (withVs v) := by
  intro n
  induction n with
  | zero => intro a; rfl
  | succ n ih =>
    intro a
    simp only [Aec.nextLoop, nextBit_withVs]
    cases a.nextBit with
    | none => rfl
    | some p => exact ih p.1

theorem nextN_withVs (v : Nat) (a : Aec) (n : Nat) :
    (withVs v a).nextN n = (a.nextN n).map fun p => (withVs v p.1, p.2) := by
  unfold Aec.nextN
  rw [nextLoop_withVs]
  simp only [show (withVs v a).rd = a.rd from rfl, show (withVs v a).vt = a.vt from rfl]
  split
  · split
    · rfl
    · rfl
  · cases a.nextLoop n <;> rfl

theorem fill_withVs (v : Nat) : ∀ (fuel : Nat) (a : Aec) (vs : Nat),
    (withVs v a).fill fuel vs = (a.fill fuel vs).map fun p => (withVs v p.1, p.2) := by
  intro fuel
  induction fuel with
  | zero => intro a vs; rfl
  | succ fuel ih =>
    intro a vs
    unfold Aec.fill
    rw [nextBit_withVs]
    simp only [show (withVs v a).vt = a.vt from rfl]
    split
    · cases a.nextBit with
      | none => rfl
      | some p =>
        obtain ⟨b, e⟩ := p
        cases e
        · exact ih b (vs + 1)
        · rfl
    · rfl

theorem enter_withVs (v : Nat) (a : Aec) (vs : Nat) :
    (withVs v a).enter vs = (a.enter vs).map fun p => (withVs v p.1, p.2) := by
  unfold Aec.enter
  rw [show (withVs v a).inR = a.inR from rfl]
  split
  · have e : ({ withVs v a with s1 := 0 } : Aec) = withVs v { a with s1 := 0 } := rfl
    rw [e, fill_withVs]
    cases Aec.fill 254 { a with s1 := 0 } 0 with
    | none => rfl
    | some p =>
      obtain ⟨b, x, e⟩ := p
      cases e <;> rfl
  · rfl

theorem lps_withVs (v : Nat) (a : Aec) (vs s2 t2 t : Nat) :
    (withVs v a).lps vs s2 t2 t = (a.lps vs s2 t2 t).map fun p => (withVs v p.1, p.2) := by
  unfold Aec.lps
  rw [nextBit_withVs]
  have tail : ∀ b : Aec,
      (match renorm 9 t with
      | none => none
      | some (t, n) =>
        match (if n = 0 then some (withVs v b, false) else (withVs v b).nextN n) with
        | none => none
        | some (a, true) => some (a, true)
        | some (a, false) => some (({ a with s1 := 0, t1 := t % 256 } : Aec), false)) =
      (match renorm 9 t with
      | none => none
      | some (t, n) =>
        match (if n = 0 then some (b, false) else b.nextN n) with
        | none => none
        | some (a, true) => some (a, true)
        | some (a, false) => some (({ a with s1 := 0, t1 := t % 256 } : Aec), false)).map
          fun (p : Aec × Bool) => (withVs v p.1, p.2) := by
    intro b
    cases renorm 9 t with
    | none => rfl
    | some p =>
      obtain ⟨t, n⟩ := p
      simp only []
      by_cases h : n = 0
      · simp only [if_pos h]; rfl
      · simp only [if_neg h]
        rw [nextN_withVs]
        cases b.nextN n with
        | none => rfl
        | some q => obtain ⟨c, e⟩ := q; cases e <;> rfl
  by_cases hs : s2 = vs
  · simp only [if_pos hs]
    exact tail { a with vt := sub32 a.vt t2 }
  · simp only [if_neg hs]
    cases a.nextBit with
    | none => rfl
    | some q =>
      obtain ⟨c, e⟩ := q
      cases e
      · exact tail { c with vt := add32 c.vt (sub32 256 t2) }
      · rfl

/-! The error flag of the state tells whether a read failed. -/

theorem nextBit_err {a b : Aec} {e : Bool} (ha : a.err = false) (h : a.nextBit = some (b, e)) : b.err = e := by
  unfold Aec.nextBit at h
  cases hb : aecNextBit a.rd <;> rw [hb] at h <;> simp at h
  · obtain ⟨rfl, rfl⟩ := h; exact ha
  · obtain ⟨rfl, rfl⟩ := h; rfl

theorem nextN_err {a b : Aec} {e : Bool} {n : Nat} (ha : a.err = false) (h : a.nextN n = some (b, e)) :
    b.err = e := by
  unfold Aec.nextN at h
  split at h
  · simp only [] at h
    split at h
    · simp at h; obtain ⟨rfl, rfl⟩ := h; exact ha
    · simp at h
  · cases hl : a.nextLoop n <;> rw [hl] at h <;> simp at h
    obtain ⟨rfl, rfl⟩ := h; rfl

theorem fill_err : ∀ (fuel : Nat) {a b : Aec} {vs vs' : Nat} {e : Bool}, a.err = false →
    a.fill fuel vs = some (b, vs', e) → b.err = e := by
  intro fuel
  induction fuel with
  | zero => intro a b vs vs' e ha h; simp [Aec.fill] at h; obtain ⟨rfl, rfl, rfl⟩ := h; exact ha
  | succ fuel ih =>
    intro a b vs vs' e ha h
    unfold Aec.fill at h
    split at h
    · cases hb : a.nextBit with
      | none => rw [hb] at h; simp at h
      | some q =>
        obtain ⟨c, e'⟩ := q
        rw [hb] at h
        have he := nextBit_err ha hb
        cases e'
        · exact ih he h
        · simp at h; obtain ⟨rfl, rfl, rfl⟩ := h; exact he
    · simp at h; obtain ⟨rfl, rfl, rfl⟩ := h; exact ha

theorem enter_err {a b : Aec} {vs vs' : Nat} {e : Bool} (ha : a.err = false)
    (h : a.enter vs = some (b, vs', e)) : b.err = e := by
  unfold Aec.enter at h
  split at h
  · cases hf : Aec.fill 254 { a with s1 := 0 } 0 with
    | none => rw [hf] at h; simp at h
    | some q =>
      obtain ⟨c, x, e'⟩ := q
      rw [hf] at h
      have := fill_err 254 (a := { a with s1 := 0 }) ha hf
      cases e' <;> simp at h <;> obtain ⟨rfl, rfl, rfl⟩ := h <;> exact this
  · simp at h; obtain ⟨rfl, rfl, rfl⟩ := h; exact ha

theorem lps_err {a b : Aec} {vs s2 t2 t : Nat} {e : Bool} (ha : a.err = false)
    (h : a.lps vs s2 t2 t = some (b, e)) : b.err = e := by
  unfold Aec.lps at h
  have tail : ∀ c : Aec, c.err = false →
      (match renorm 9 t with
      | none => none
      | some (t, n) =>
        match (if n = 0 then some (c, false) else c.nextN n) with
        | none => none
        | some (a, true) => some (a, true)
        | some (a, false) => some (({ a with s1 := 0, t1 := t % 256 } : Aec), false)) = some (b, e) → b.err = e := by
    intro c hc h
    cases hr : renorm 9 t with
    | none => rw [hr] at h; simp at h
    | some p =>
      obtain ⟨t, n⟩ := p
      rw [hr] at h
      simp only [] at h
      by_cases h0 : n = 0
      · simp [if_pos h0] at h; obtain ⟨rfl, rfl⟩ := h; exact hc
      · simp only [if_neg h0] at h
        cases hn : c.nextN n with
        | none => rw [hn] at h; simp at h
        | some q =>
          obtain ⟨d, e'⟩ := q
          rw [hn] at h
          have := nextN_err hc hn
          cases e' <;> simp at h <;> obtain ⟨rfl, rfl⟩ := h <;> exact this
  by_cases hs : s2 = vs
  · simp only [if_pos hs] at h
    exact tail _ (by exact ha) h
  · simp only [if_neg hs] at h
    cases hb : a.nextBit with
    | none => rw [hb] at h; simp at h
    | some q =>
      obtain ⟨c, e'⟩ := q
      rw [hb] at h
      have he := nextBit_err ha hb
      cases e'
      · exact tail { c with vt := add32 c.vt (sub32 256 t2) } he h
      · simp at h; obtain ⟨rfl, rfl⟩ := h; exact he

theorem fill_vs : ∀ (fuel : Nat) {a b : Aec} {vs vs' : Nat} {e : Bool}, vs ≤ 254 →
    a.fill fuel vs = some (b, vs', e) → vs' ≤ 254 := by
  intro fuel
  induction fuel with
  | zero => intro a b vs vs' e ha h; simp [Aec.fill] at h; omega
  | succ fuel ih =>
    intro a b vs vs' e ha h
    unfold Aec.fill at h
    split at h
    · rename_i hc
      cases hb : a.nextBit with
      | none => rw [hb] at h; simp at h
      | some q =>
        obtain ⟨c, e'⟩ := q
        rw [hb] at h
        cases e'
        · exact ih (by omega) h
        · simp at h; omega
    · simp at h; omega

theorem enter_vs {a b : Aec} {vs vs' : Nat} {e : Bool} (hv : vs ≤ 254)
    (h : a.enter vs = some (b, vs', e)) : vs' ≤ 254 := by
  unfold Aec.enter at h
  split at h
  · cases hf : Aec.fill 254 { a with s1 := 0 } 0 with
    | none => rw [hf] at h; simp at h
    | some q =>
      obtain ⟨c, x, e'⟩ := q
      rw [hf] at h
      have := fill_vs 254 (vs := 0) (by omega) hf
      cases e' <;> simp at h <;> omega
  · simp at h; omega

theorem ctxMps_le (v : Nat) : ctxMps v = 0 ∨ ctxMps v = 1 := by
  unfold ctxMps; omega

/-- The loop of the batch against single symbols. -/
theorem continue0Loop_eq : ∀ (n : Nat) (a : Aec) (ctx vs i : Nat), a.err = false → vs ≤ 254 →
    SameOutcome
      (match continue0Loop n a ctx vs i with
        | none => none
        | some (a, ctx, _, _, _, true) => some (a, ctx, 0)
        | some (a, ctx, vs, i, bit, false) => some ({ a with vs := vs }, ctx, i - bit))
      (singles n (withVs vs a) ctx i) := by
  intro n
  induction n with
  | zero =>
    intro a ctx vs i ha hv
    exact Or.inr ⟨ha, rfl, rfl, by simp⟩
  | succ n ih =>
    intro a ctx vs i ha hv
    unfold continue0Loop singles biariSymbol
    rw [show (withVs vs a).vs = vs from rfl, enter_withVs]
    cases he : a.enter vs with
    | none => exact True.intro
    | some p =>
      obtain ⟨b, vs', e⟩ := p
      have hbe := enter_err ha he
      have hbv := enter_vs hv he
      cases e with
      | true =>
        simp only [Option.map_some]
        rw [show (withVs vs b).err = b.err from rfl, hbe]
        exact Or.inl ⟨hbe, hbe, rfl⟩
      | false =>
        simp only [Option.map_some]
        rw [show (withVs vs b).vs = vs from rfl, if_neg (by omega : ¬ vs > 254), if_neg (by omega : ¬ vs' > 254)]
        simp only [show (withVs vs b).t1 = b.t1 from rfl, show (withVs vs b).s1 = b.s1 from rfl,
          show (withVs vs b).vt = b.vt from rfl, show (withVs vs b).bound = b.bound from rfl]
        generalize add32 b.s1 (if b.t1 < ctxLg ctx / 4 then 1 else 0) = s2
        generalize add32 (sub32 b.t1 (ctxLg ctx / 4)) (256 * if b.t1 < ctxLg ctx / 4 then 1 else 0) = t2
        generalize (if (if b.t1 < ctxLg ctx / 4 then 1 else 0) = 0 then ctxLg ctx / 4
          else add32 b.t1 (ctxLg ctx / 4)) = tr
        generalize ((decide (s2 > vs') || s2 == vs' && decide (b.vt ≥ t2)) && !b.bound) = isLps
        cases isLps with
        | true =>
          simp only [if_true]
          have hlv := lps_withVs vs { b with dom := true } vs' s2 t2 tr
          simp only [withVs] at hlv ⊢
          rw [hlv]
          cases hl : Aec.lps { b with dom := true } vs' s2 t2 tr with
          | none => exact True.intro
          | some q =>
            obtain ⟨c, e⟩ := q
            have hce := lps_err (a := { b with dom := true }) hbe hl
            cases e with
            | true =>
              simp only [Option.map_some, hce]
              exact Or.inl ⟨hce, rfl, rfl⟩
            | false =>
              obtain ⟨crd, cerr, cbound, cdom, cs1, ct1, cvs, cvt⟩ := c
              simp only at hce
              subst hce
              simp only [Option.map_some]
              rcases ctxMps_le ctx with hm | hm
              · rw [hm]
                exact Or.inr ⟨rfl, rfl, rfl, by simp⟩
              · rw [hm]
                exact ih ⟨crd, false, cbound, cdom, cs1, ct1, cvs, cvt⟩ (updateCtx true ctx) vs' (i + 1) rfl hbv
        | false =>
          obtain ⟨brd, berr, bbound, bdom, bs1, bt1, bvs, bvt⟩ := b
          simp only at hbe
          subst hbe
          simp only [Bool.false_eq_true, if_false, withVs]
          rcases ctxMps_le ctx with hm | hm
          · rw [hm]
            exact ih ⟨brd, false, bbound, false, s2, t2, bvs, bvt⟩ (updateCtx false ctx) vs' (i + 1) rfl hbv
          · rw [hm]
            exact Or.inr ⟨rfl, rfl, rfl, by simp⟩

/-- C31, one context: for every decoder state, context and maximum, decoding a run in one go gives the same
number, state and context as decoding single symbols until the first one or the maximum; if the payload ends,
both report it. -/
theorem C31_batch (a : Aec) (ctx max : Nat) (he : a.err = false) (hv : a.vs ≤ 254) :
    SameOutcome (continue0 a ctx max) (singles max a ctx 0) := by
  have h := continue0Loop_eq max a ctx a.vs 0 he hv
  exact h

/-! The variant with several contexts reads the bits of the renormalisation one at a time. -/

/-- The reader is within the payload or at its end. -/
def RdOk (r : AecRd) : Prop := ∃ l, RdRep r l

theorem nextBit_rdOk {a b : Aec} (h : RdOk a.rd) (hb : a.nextBit = some (b, false)) : RdOk b.rd := by
  obtain ⟨l, hl⟩ := h
  cases l with
  | nil => obtain ⟨r, h1, _⟩ := Aec.nextBit_nil hl; rw [h1] at hb; simp at hb
  | cons x l =>
    obtain ⟨r, h1, h2⟩ := Aec.nextBit_cons hl
    rw [h1] at hb
    simp at hb
    subst hb
    exact ⟨l, h2⟩

theorem nextBit_rdOk_some {a : Aec} (h : RdOk a.rd) : ∃ p, a.nextBit = some p := by
  obtain ⟨l, hl⟩ := h
  cases l with
  | nil => obtain ⟨r, h1, _⟩ := Aec.nextBit_nil hl; exact ⟨_, h1⟩
  | cons x l => obtain ⟨r, h1, h2⟩ := Aec.nextBit_cons hl; exact ⟨_, h1⟩

theorem fill_rdOk : ∀ (fuel : Nat) {a b : Aec} {vs vs' : Nat}, RdOk a.rd →
    a.fill fuel vs = some (b, vs', false) → RdOk b.rd := by
  intro fuel
  induction fuel with
  | zero => intro a b vs vs' ha h; simp [Aec.fill] at h; obtain ⟨rfl, rfl⟩ := h; exact ha
  | succ fuel ih =>
    intro a b vs vs' ha h
    unfold Aec.fill at h
    split at h
    · cases hb : a.nextBit with
      | none => rw [hb] at h; simp at h
      | some q =>
        obtain ⟨c, e'⟩ := q
        rw [hb] at h
        cases e'
        · exact ih (nextBit_rdOk ha hb) h
        · simp at h
    · simp at h; obtain ⟨rfl, rfl⟩ := h; exact ha

theorem enter_rdOk {a b : Aec} {vs vs' : Nat} (ha : RdOk a.rd) (h : a.enter vs = some (b, vs', false)) : RdOk b.rd := by
  unfold Aec.enter at h
  split at h
  · cases hf : Aec.fill 254 { a with s1 := 0 } 0 with
    | none => rw [hf] at h; simp at h
    | some q =>
      obtain ⟨c, x, e'⟩ := q
      rw [hf] at h
      cases e' with
      | true => simp at h
      | false =>
        have := fill_rdOk 254 (a := { a with s1 := 0 }) ha hf
        simp at h; obtain ⟨rfl, rfl⟩ := h; exact this
  · simp at h; obtain ⟨rfl, rfl⟩ := h; exact ha

/-- Reading bit by bit while doubling is doubling first and reading then. -/
theorem renormExt_eq : ∀ (fuel : Nat) {a : Aec} {l : List Bool} {t t' n : Nat}, RdRep a.rd l → a.err = false →
    a.vt < 2 ^ 32 → renorm fuel t = some (t', n) →
    (n ≤ l.length ∧ ∃ b, Aec.nextLoop n a = some b ∧ Aec.renormExt fuel a t = some (b, t', false) ∧ RdOk b.rd ∧
      b.err = false) ∨
    (l.length < n ∧ ∃ b t'', Aec.renormExt fuel a t = some (b, t'', true) ∧ b.err = true) := by
  intro fuel
  induction fuel with
  | zero => intro a l t t' n _ _ _ h; simp [renorm] at h
  | succ fuel ih =>
    intro a l t t' n hl he hv h
    unfold renorm at h
    unfold Aec.renormExt
    by_cases ht : t < 256
    · rw [if_pos ht] at h ⊢
      cases hr : renorm fuel (t <<< 1) with
      | none => rw [hr] at h; simp at h
      | some p =>
        obtain ⟨t1, n1⟩ := p
        rw [hr] at h
        simp at h
        obtain ⟨rfl, rfl⟩ := h
        cases l with
        | nil =>
          obtain ⟨r, h1, _⟩ := Aec.nextBit_nil hl
          rw [h1]
          exact Or.inr ⟨by simp, _, _, rfl, rfl⟩
        | cons b l =>
          obtain ⟨r, h1, h2⟩ := Aec.nextBit_cons hl
          rw [h1]
          simp only [Aec.nextLoop, h1]
          rcases ih (a := { a with rd := r, vt := (2 * a.vt + b.toNat) % 2 ^ 32 }) h2 he
            (Nat.mod_lt _ (by norm_num)) hr with ⟨g1, c, g2, g3, g4⟩ | ⟨g1, c, t'', g2, g3⟩
          · exact Or.inl ⟨by simpa using g1, c, g2, g3, g4⟩
          · exact Or.inr ⟨by simpa using g1, c, t'', g2, g3⟩
    · rw [if_neg ht] at h ⊢
      simp at h
      obtain ⟨rfl, rfl⟩ := h
      exact Or.inl ⟨by omega, a, rfl, rfl, ⟨l, hl⟩, he⟩

theorem renormExt_nextN {b : Aec} (hb : RdOk b.rd) (hbe : b.err = false) (hv : b.vt < 2 ^ 32) {t t' n : Nat}
    (hn : n ≤ 8) (hr : renorm 9 t = some (t', n)) :
    (∃ c, (if n = 0 then some (b, false) else b.nextN n) = some (c, false) ∧
      Aec.renormExt 9 b t = some (c, t', false) ∧ RdOk c.rd ∧ c.err = false) ∨
    (∃ d c t'', (if n = 0 then some (b, false) else b.nextN n) = some (d, true) ∧
      Aec.renormExt 9 b t = some (c, t'', true) ∧ d.err = true ∧ c.err = true) := by
  obtain ⟨l, hl⟩ := hb
  rcases renormExt_eq 9 hl hbe hv hr with ⟨g1, c, g2, g3, g4, g5⟩ | ⟨g1, c, t'', g3, g4⟩
  · left
    refine ⟨c, ?_, g3, g4, g5⟩
    by_cases h0 : n = 0
    · subst h0
      simp only [Aec.nextLoop, Option.some.injEq] at g2
      subst g2
      rw [if_pos rfl]
    · rw [if_neg h0, Aec.nextN_eq hl hbe n hv, g2, Option.map_some, g5]
  · right
    have h0 : n ≠ 0 := by omega
    rw [if_neg h0]
    rcases Aec.nextN_spec hl hbe n (by omega) hv with ⟨hl', _⟩ | ⟨_, a', e1, e2⟩
    · omega
    · exact ⟨a', c, t'', e1, g3, e2, g4⟩

theorem lpsExt_eq {a : Aec} (ha : RdOk a.rd) (he : a.err = false) (s2 t2 t : Nat)
    (ht1 : 1 ≤ t) (ht : t < 512) :
    (∃ b, a.lps a.vs s2 t2 t = some (b, false) ∧ a.lpsExt s2 t2 t = some (b, false) ∧ RdOk b.rd ∧ b.err = false) ∨
    (∃ b c, a.lps a.vs s2 t2 t = some (b, true) ∧ a.lpsExt s2 t2 t = some (c, true) ∧ b.err = true ∧ c.err = true) := by
  obtain ⟨n, hn, hr, _, _⟩ := renorm_spec 8 t (by omega) ht
  revert hr
  generalize t * 2 ^ n = t'
  intro hr
  unfold Aec.lps Aec.lpsExt
  rw [hr]
  by_cases hs : s2 = a.vs
  · rw [if_pos hs]
    obtain ⟨b, hb⟩ : ∃ b : Aec, b = { a with vt := sub32 a.vt t2 } := ⟨_, rfl⟩
    rw [← hb]
    have hbr : RdOk b.rd := by rw [hb]; exact ha
    have hbe : b.err = false := by rw [hb]; exact he
    have hbv : b.vt < 2 ^ 32 := by rw [hb]; exact Nat.mod_lt _ (by norm_num)
    rcases renormExt_nextN hbr hbe hbv hn hr with ⟨c, g1, g2, g3, g4⟩ | ⟨d, c, t'', g1, g2, g3, g4⟩
    · simp only [g1, g2]
      exact Or.inl ⟨_, rfl, rfl, g3, g4⟩
    · simp only [g1, g2]
      exact Or.inr ⟨_, _, rfl, rfl, g3, g4⟩
  · rw [if_neg hs]
    obtain ⟨⟨c, e⟩, hc⟩ := nextBit_rdOk_some ha
    rw [hc]
    have hce := nextBit_err he hc
    cases e with
    | true => exact Or.inr ⟨c, c, rfl, rfl, hce, hce⟩
    | false =>
      have hcr := nextBit_rdOk ha hc
      obtain ⟨b, hb⟩ : ∃ b : Aec, b = { c with vt := add32 c.vt (sub32 256 t2) } := ⟨_, rfl⟩
      simp only []
      rw [← hb]
      have hbr : RdOk b.rd := by rw [hb]; exact hcr
      have hbe : b.err = false := by rw [hb]; exact hce
      have hbv : b.vt < 2 ^ 32 := by rw [hb]; exact Nat.mod_lt _ (by norm_num)
      rcases renormExt_nextN hbr hbe hbv hn hr with ⟨c, g1, g2, g3, g4⟩ | ⟨d, c, t'', g1, g2, g3, g4⟩
      · simp only [g1, g2]
        exact Or.inl ⟨_, rfl, rfl, g3, g4⟩
      · simp only [g1, g2]
        exact Or.inr ⟨_, _, rfl, rfl, g3, g4⟩

theorem contExtLoop_eq (inc : Nat) : ∀ (n : Nat) (a : Aec) (ctx : Nat → Nat) (i : Nat), a.err = false → a.vs ≤ 254 →
    RdOk a.rd → (∀ k, CtxOk (ctx k)) →
    SameOutcome
      (match contExtLoop inc n a ctx i with
        | none => none
        | some (a, ctx, _, _, true) => some (a, ctx, 0)
        | some (a, ctx, i, bit, false) => some (a, ctx, i - bit))
      (singlesExt inc n a ctx i) := by
  intro n
  induction n with
  | zero =>
    intro a ctx i ha hv hr hk
    exact Or.inr ⟨ha, rfl, rfl, by simp⟩
  | succ n ih =>
    intro a ctx i ha hv hr hk
    unfold contExtLoop singlesExt biariSymbol
    simp only []
    generalize hkk : min i inc = k
    have hok := hk k
    have hup : ∀ b j, CtxOk (tabSet ctx k (updateCtx b (ctx k)) j) := by
      intro b j
      unfold tabSet
      split
      · exact hok.update b
      · exact hk j
    cases he : a.enter a.vs with
    | none => exact True.intro
    | some p =>
      obtain ⟨b, vs', e⟩ := p
      have hbe := enter_err ha he
      have hbv := enter_vs hv he
      cases e with
      | true =>
        simp only [hbe]
        exact Or.inl ⟨rfl, hbe, rfl⟩
      | false =>
        have hbr := enter_rdOk hr he
        have hbvs : ¬ b.vs > 254 := by
          have h1 := enter_withVs a.vs a a.vs
          rw [show withVs a.vs a = a from rfl, he] at h1
          simp only [Option.map_some, Option.some.injEq, Prod.mk.injEq] at h1
          have : b.vs = a.vs := by rw [h1.1]; rfl
          omega
        simp only []
        rw [if_neg hbvs, if_neg (by omega : ¬ vs' > 254)]
        have hf := hok.fields
        have htr : 1 ≤ (if (if b.t1 < ctxLg (ctx k) / 4 then 1 else 0) = 0 then ctxLg (ctx k) / 4
            else add32 b.t1 (ctxLg (ctx k) / 4)) ∧
          (if (if b.t1 < ctxLg (ctx k) / 4 then 1 else 0) = 0 then ctxLg (ctx k) / 4
            else add32 b.t1 (ctxLg (ctx k) / 4)) < 512 := by
          unfold add32
          by_cases hc : b.t1 < ctxLg (ctx k) / 4
          · simp [hc]; omega
          · simp [hc]; omega
        revert htr
        generalize add32 b.s1 (if b.t1 < ctxLg (ctx k) / 4 then 1 else 0) = s2
        generalize add32 (sub32 b.t1 (ctxLg (ctx k) / 4)) (256 * if b.t1 < ctxLg (ctx k) / 4 then 1 else 0) = t2
        generalize (if (if b.t1 < ctxLg (ctx k) / 4 then 1 else 0) = 0 then ctxLg (ctx k) / 4
          else add32 b.t1 (ctxLg (ctx k) / 4)) = tr
        generalize ((decide (s2 > vs') || s2 == vs' && decide (b.vt ≥ t2)) && !b.bound) = isLps
        intro htr
        cases isLps with
        | true =>
          simp only [if_true]
          have hlv := lps_withVs vs' { b with dom := true } vs' s2 t2 tr
          simp only [withVs] at hlv
          rcases lpsExt_eq (a := { b with dom := true, vs := vs' }) hbr hbe s2 t2 tr htr.1 htr.2 with
            ⟨c, g1, g2, g3, g4⟩ | ⟨c, c', g1, g2, g3, g4⟩
          · simp only [] at g1
            rw [g2]
            rw [hlv] at g1
            cases hl : Aec.lps { b with dom := true } vs' s2 t2 tr with
            | none => rw [hl] at g1; simp at g1
            | some q =>
              obtain ⟨d, e⟩ := q
              rw [hl] at g1
              simp only [Option.map_some, Option.some.injEq, Prod.mk.injEq] at g1
              obtain ⟨g1, rfl⟩ := g1
              have hde : d.err = false := by rw [← g1] at g4; exact g4
              have hcv : c.vs ≤ 254 := by rw [← g1]; exact hbv
              simp only [hde] at g1 ⊢
              simp only [g1]
              rcases ctxMps_le (ctx k) with hm | hm
              · rw [hm]
                exact Or.inr ⟨g4, rfl, rfl, by simp⟩
              · rw [hm]
                exact ih c (tabSet ctx k (updateCtx true (ctx k))) (i + 1) g4 hcv g3 (hup true)
          · simp only [] at g1
            rw [g2]
            rw [hlv] at g1
            cases hl : Aec.lps { b with dom := true } vs' s2 t2 tr with
            | none => rw [hl] at g1; simp at g1
            | some q =>
              obtain ⟨d, e⟩ := q
              rw [hl] at g1
              simp only [Option.map_some, Option.some.injEq, Prod.mk.injEq] at g1
              obtain ⟨g1, rfl⟩ := g1
              have hde : d.err = true := by rw [← g1] at g3; exact g3
              simp only [hde]
              exact Or.inl ⟨g4, hde, rfl⟩
        | false =>
          obtain ⟨brd, berr, bbound, bdom, bs1, bt1, bvs, bvt⟩ := b
          simp only at hbe
          subst hbe
          simp only [Bool.false_eq_true, if_false]
          rcases ctxMps_le (ctx k) with hm | hm
          · rw [hm]
            exact ih ⟨brd, false, bbound, false, s2, t2, vs', bvt⟩ (tabSet ctx k (updateCtx false (ctx k))) (i + 1)
              rfl hbv hbr (hup false)
          · rw [hm]
            exact Or.inr ⟨rfl, rfl, rfl, by simp⟩

/-- C31, several contexts: for every decoder state within a payload, all contexts, every number of contexts and
every maximum, decoding a run in one go gives the same number, state and contexts as decoding single symbols,
the symbol after `k` zeros with context `min k inc`. -/
theorem C31_batch_ext (a : Aec) (ctx : Nat → Nat) (inc max : Nat) (l : List Bool) (he : a.err = false)
    (hv : a.vs ≤ 254) (hl : RdRep a.rd l) (hc : ∀ k, CtxOk (ctx k)) :
    SameOutcome (contExt a ctx inc max) (singlesExt inc max a ctx 0) :=
  contExtLoop_eq inc max a ctx 0 he hv ⟨l, hl⟩ hc

/-- A decoder state inside a payload of four bytes. -/
def batchState : Aec := ⟨⟨[0x12#8, 0x34#8, 0x56#8, 0x78#8], 0, 4, 0, 0⟩, false, false, true, 0, 255, 0, 0x40⟩

example : batchState.err = false ∧ batchState.vs ≤ 254 ∧
    RdRep batchState.rd (Spec.bitsOf [0x12#8, 0x34#8, 0x56#8, 0x78#8]) ∧ ∀ _ : Nat, CtxOk initCtx :=
  ⟨rfl, by decide, ⟨0, rfl, by omega, by decide, by decide⟩, fun _ => CtxOk.init⟩

/-- The run there is not trivial: with a maximum of 10, a run of three is decoded. -/
example : (contExt batchState (fun _ => initCtx) 2 10).map (fun p => (p.2.2, p.1.err)) = some (3, false) := by
  decide +kernel

end Davs2
