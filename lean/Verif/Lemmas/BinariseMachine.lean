import Verif.Lemmas.Binarise
import Verif.Props.AecBatch
import Verif.Lemmas.AecMachine
import Verif.Lemmas.AecOps
import Verif.Props.Aec
/-
The two decoders of bins: a given list of bins, and the arithmetic decoder of Model/Aec.
-/
namespace Davs2.Sx

/-! ### A list of bins -/

def anyState (_ : List Bin) : Prop := True

theorem script_step {b : Bin} {s s' : List Bin} : script.step b s = some s' ↔ s = b :: s' := by
  cases b with
  | ctx a i b =>
    show hit (script.sym a i s) b = some s' ↔ _
    rw [hit_iff]
    cases s with
    | nil => simp [script]
    | cons x s =>
      cases x with
      | ctx a' i' b' =>
        simp only [script]
        by_cases h : a' = a ∧ i' = i
        · rw [if_pos h, h.1, h.2]; simp
        · rw [if_neg h]
          refine ⟨(nomatch ·), fun e => ?_⟩
          cases e
          exact absurd ⟨rfl, rfl⟩ h
      | eq _ => simp [script]
      | fin _ => simp [script]
  | eq b =>
    show hit (script.eq s) b = some s' ↔ _
    rw [hit_iff]
    cases s with
    | nil => simp [script]
    | cons x s => cases x <;> simp [script]
  | fin b =>
    show hit (script.fin s) b = some s' ↔ _
    rw [hit_iff]
    cases s with
    | nil => simp [script]
    | cons x s => cases x <;> simp [script]

theorem script_produces {c s s' : List Bin} : Produces anyState script s c s' ↔ s = c ++ s' := by
  induction c generalizing s with
  | nil =>
    constructor
    · intro h; cases h; rfl
    · intro h; cases h; exact .nil trivial
  | cons b c ih =>
    constructor
    · intro h
      cases h with
      | cons _ st r =>
        rw [script_step.mp st, ih.mp r]
        rfl
    · intro h
      exact .cons trivial (script_step.mpr h) (ih.mpr rfl)

theorem scriptRun_iff (a : Arr) (f : Nat → Nat) : ∀ (n k v : Nat) (s s' : List Bin),
    scriptRun a f n k s = some (v, s') ↔ ∃ c, restT a f n k v c ∧ s = c ++ s' := by
  intro n
  induction n with
  | zero =>
    intro k v s s'
    simp only [scriptRun, restT_zero]
    constructor
    · intro h; cases h; exact ⟨[], ⟨rfl, rfl⟩, rfl⟩
    · rintro ⟨c, ⟨rfl, rfl⟩, rfl⟩; rfl
  | succ n ih =>
    intro k v s s'
    constructor
    · intro h
      cases s with
      | nil => cases h
      | cons x t =>
        cases x with
        | eq _ => cases h
        | fin _ => cases h
        | ctx a' i b =>
          simp only [scriptRun] at h
          split at h
          · rename_i hh
            obtain ⟨rfl, rfl⟩ := hh
            cases b with
            | true =>
              cases h
              exact ⟨[.ctx a' (f k) true], restT_true.mpr ⟨rfl, rfl⟩, rfl⟩
            | false =>
              obtain ⟨c, hc, rfl⟩ := (ih (k + 1) v t s').mp h
              exact ⟨.ctx a' (f k) false :: c, restT_false.mpr hc, rfl⟩
          · cases h
    · rintro ⟨c, hc, rfl⟩
      obtain ⟨b, d, rfl⟩ := restT_head hc
      simp only [List.cons_append, scriptRun, and_self, if_true]
      cases b with
      | true =>
        obtain ⟨rfl, rfl⟩ := restT_true.mp hc
        rfl
      | false => exact (ih (k + 1) v _ s').mpr ⟨d, restT_false.mp hc, rfl⟩

theorem script_lawful : script.Lawful anyState where
  err _ _ := rfl
  run0 a i max k s s' hk h :=
    (scriptRun_iff a (fun _ => i) max 0 k s s').mpr ⟨_, restT_all.mpr ⟨hk, rfl⟩, script_produces.mp h⟩
  runExt a i inc max k s s' hk h :=
    (scriptRun_iff a (fun j => i + min j inc) max 0 k s s').mpr ⟨_, restT_all.mpr ⟨hk, rfl⟩, script_produces.mp h⟩

theorem script_quiet : script.Quiet anyState where
  good _ := trivial
  err _ := rfl
  run0 a i max k s s' h := by
    obtain ⟨c, hc, e⟩ := (scriptRun_iff a (fun _ => i) max 0 k s s').mp h
    obtain ⟨hk, rfl⟩ := restT_all.mp hc
    exact ⟨hk, script_produces.mpr e⟩
  runExt a i inc max k s s' h := by
    obtain ⟨c, hc, e⟩ := (scriptRun_iff a (fun j => i + min j inc) max 0 k s s').mp h
    obtain ⟨hk, rfl⟩ := restT_all.mp hc
    exact ⟨hk, script_produces.mpr e⟩

/-! ### The arithmetic decoder -/

/-- No error, the register of the value within its bound, the reader within the payload, contexts in range. -/
structure GoodSt (s : St) : Prop where
  err : s.aec.err = false
  vs : s.aec.vs ≤ 254
  rd : RdOk s.aec.rd
  ctx : ∀ a i, CtxOk (s.ctx a i)

theorem biariSymbol_bit {a b : Aec} {ctx c v : Nat} (h : biariSymbol a ctx = some (b, c, v)) : v = 0 ∨ v = 1 := by
  unfold biariSymbol at h
  dsimp only at h
  have hm := ctxMps_le ctx
  generalize ctxMps ctx = mps at h hm
  cases he : a.enter a.vs with
  | none => rw [he] at h; cases h
  | some q =>
    obtain ⟨d, vs, e⟩ := q
    rw [he] at h
    cases e with
    | true => cases h; exact Or.inl rfl
    | false =>
      dsimp only at h
      by_cases hv : d.vs > 254
      · rw [if_pos hv] at h; cases h; exact Or.inl rfl
      · rw [if_neg hv] at h
        generalize ((decide (_ > vs) || _ && _) && !d.bound) = isLps at h
        cases isLps with
        | false => rw [if_neg Bool.false_ne_true] at h; exact (Prod.mk.inj (Prod.mk.inj (Option.some.inj h)).2).2 ▸ hm
        | true =>
          rw [if_pos rfl] at h
          generalize Aec.lps _ _ _ _ _ = r at h
          cases r with
          | none => cases h
          | some r =>
            obtain ⟨r, f⟩ := r
            cases f with
            | true => cases h; exact Or.inl rfl
            | false => rw [← (Prod.mk.inj (Prod.mk.inj (Option.some.inj h)).2).2]; rcases hm with rfl | rfl <;> simp

theorem bool_bit {v : Nat} {b : Bool} (h : v = 0 ∨ v = 1) (e : (v == 1) = b) : v = b.toNat := by
  subst e
  rcases h with rfl | rfl <;> rfl

theorem aec_step_ctx {a : Arr} {i : Nat} {b : Bool} {s s1 : St} (h : aecMachine.step (.ctx a i b) s = some s1) :
    ∃ r c, biariSymbol s.aec (s.ctx a i) = some (r, c, b.toNat) ∧ s1 = s.set r a i c := by
  have h' := hit_iff.mp h
  simp only [aecMachine] at h'
  cases hb : biariSymbol s.aec (s.ctx a i) with
  | none => rw [hb] at h'; cases h'
  | some q =>
    obtain ⟨r, c, v⟩ := q
    rw [hb] at h'
    simp only [Option.some.injEq, Prod.mk.injEq] at h'
    rw [bool_bit (biariSymbol_bit hb) h'.1]
    exact ⟨r, c, rfl, h'.2.symm⟩

theorem St.set_self (s : St) (a : Arr) (i : Nat) : s.set s.aec a i (s.ctx a i) = s := by
  unfold St.set
  congr 1
  funext a' i'
  split
  · rename_i h; rw [h.1, h.2]
  · rfl

theorem St.set_set (s : St) (r r' : Aec) (a : Arr) (i c c' : Nat) : (s.set r a i c).set r' a i c' = s.set r' a i c' := by
  unfold St.set
  congr 1
  funext a' i'
  by_cases h : a' = a ∧ i' = i
  · rw [if_pos h, if_pos h]
  · rw [if_neg h, if_neg h]; exact if_neg h

theorem St.set_ctx (s : St) (r : Aec) (a : Arr) (i c : Nat) : (s.set r a i c).ctx a i = c := by
  simp [St.set]

theorem singles_restT (a : Arr) (i : Nat) : ∀ (n k v : Nat) (s s' : St) (c : List Bin), restT a (fun _ => i) n k v c →
    Produces GoodSt aecMachine s c s' →
    ∃ r x, singles n s.aec (s.ctx a i) k = some (r, x, v) ∧ s' = s.set r a i x ∧ r.err = false := by
  intro n
  induction n with
  | zero =>
    intro k v s s' c h hs
    obtain ⟨rfl, rfl⟩ := restT_zero.mp h
    cases hs with
    | nil g => exact ⟨_, _, rfl, (St.set_self s a i).symm, g.err⟩
  | succ n ih =>
    intro k v s s' c h hs
    obtain ⟨b, d, rfl⟩ := restT_head h
    cases hs with
    | cons g st hr =>
      obtain ⟨r, x, h1, rfl⟩ := aec_step_ctx st
      unfold singles
      rw [h1]
      have he : r.err = false := hr.good_left.err
      cases b with
      | true =>
        obtain ⟨rfl, rfl⟩ := restT_true.mp h
        cases hr with
        | nil g' => exact ⟨r, x, by simp [he], rfl, he⟩
      | false =>
        obtain ⟨r', x', e1, e2, e3⟩ := ih (k + 1) v _ s' d (restT_false.mp h) hr
        rw [St.set_ctx] at e1
        rw [St.set_set] at e2
        exact ⟨r', x', by simp only [he]; exact e1, e2, e3⟩

theorem St.setFrom_self (s : St) (a : Arr) (i : Nat) : s.setFrom s.aec a i (fun k => s.ctx a (i + k)) = s := by
  unfold St.setFrom
  congr 1
  funext a' i'
  split
  · rename_i h
    show s.ctx a (i + (i' - i)) = _
    rw [h.1, show i + (i' - i) = i' by omega]
  · rfl

theorem St.setFrom_set (s : St) (r r' : Aec) (a : Arr) (i j c : Nat) (f : Nat → Nat) :
    (s.set r a (i + j) c).setFrom r' a i f = s.setFrom r' a i f := by
  unfold St.setFrom St.set
  congr 1
  funext a' i'
  by_cases h : a' = a ∧ i ≤ i'
  · rw [if_pos h, if_pos h]
  · rw [if_neg h, if_neg h]
    exact if_neg (by rintro ⟨h1, h2⟩; exact h ⟨h1, by omega⟩)

theorem St.set_ctxs (s : St) (r : Aec) (a : Arr) (i j c : Nat) :
    (fun k => (s.set r a (i + j) c).ctx a (i + k)) = tabSet (fun k => s.ctx a (i + k)) j c := by
  funext k
  simp only [St.set, tabSet]
  by_cases h : k = j
  · subst h; simp
  · rw [if_neg (by rintro ⟨_, h2⟩; omega), if_neg h]

theorem St.set_from (s : St) (r : Aec) (a : Arr) (i j c : Nat) :
    s.set r a (i + j) c = s.setFrom r a i (tabSet (fun k => s.ctx a (i + k)) j c) := by
  rw [← St.set_ctxs s r a i j c, ← St.setFrom_set s r r a i j c]
  exact (St.setFrom_self (s.set r a (i + j) c) a i).symm

theorem singlesExt_restT (a : Arr) (i inc : Nat) : ∀ (n k v : Nat) (s s' : St) (c : List Bin),
    restT a (fun j => i + min j inc) n k v c → Produces GoodSt aecMachine s c s' →
    ∃ r x, singlesExt inc n s.aec (fun k => s.ctx a (i + k)) k = some (r, x, v) ∧ s' = s.setFrom r a i x ∧
      r.err = false := by
  intro n
  induction n with
  | zero =>
    intro k v s s' c h hs
    obtain ⟨rfl, rfl⟩ := restT_zero.mp h
    cases hs with
    | nil g => exact ⟨_, _, rfl, (St.setFrom_self s a i).symm, g.err⟩
  | succ n ih =>
    intro k v s s' c h hs
    obtain ⟨b, d, rfl⟩ := restT_head h
    cases hs with
    | cons g st hr =>
      obtain ⟨r, x, h1, rfl⟩ := aec_step_ctx st
      unfold singlesExt
      rw [h1]
      have he : r.err = false := hr.good_left.err
      cases b with
      | true =>
        obtain ⟨rfl, rfl⟩ := restT_true.mp h
        cases hr with
        | nil g' => exact ⟨r, _, by simp only [he]; rfl, St.set_from _ _ _ _ _ _, he⟩
      | false =>
        obtain ⟨r', x', e1, e2, e3⟩ := ih (k + 1) v _ s' d (restT_false.mp h) hr
        rw [St.set_ctxs] at e1
        rw [St.setFrom_set] at e2
        exact ⟨r', x', by simp only [he]; exact e1, e2, e3⟩

/-- The arithmetic decoder keeps the promise of `Machine.Lawful` in all good states. -/
theorem aecMachine_lawful : aecMachine.Lawful GoodSt where
  err _ g := g.err
  run0 a i max k s s' hk h := by
    obtain ⟨r, x, e1, e2, e3⟩ := singles_restT a i max 0 k s s' _ (restT_all.mpr ⟨hk, rfl⟩) h
    have g := h.good_left
    have hb := C31_batch s.aec (s.ctx a i) max g.err g.vs
    rw [e1] at hb
    simp only [aecMachine]
    cases hc : continue0 s.aec (s.ctx a i) max with
    | none => rw [hc] at hb; exact hb.elim
    | some q =>
      obtain ⟨r', x', v'⟩ := q
      rw [hc] at hb
      rcases hb with ⟨_, hb, _⟩ | ⟨_, rfl, rfl, rfl⟩
      · rw [e3] at hb; cases hb
      · rw [e2]
  runExt a i inc max k s s' hk h := by
    obtain ⟨r, x, e1, e2, e3⟩ := singlesExt_restT a i inc max 0 k s s' _ (restT_all.mpr ⟨hk, rfl⟩) h
    have g := h.good_left
    obtain ⟨l, hl⟩ := g.rd
    have hb := C31_batch_ext s.aec (fun k => s.ctx a (i + k)) inc max l g.err g.vs hl (fun k => g.ctx a (i + k))
    rw [e1] at hb
    simp only [aecMachine]
    cases hc : contExt s.aec (fun k => s.ctx a (i + k)) inc max with
    | none => rw [hc] at hb; exact hb.elim
    | some q =>
      obtain ⟨r', x', v'⟩ := q
      rw [hc] at hb
      rcases hb with ⟨_, hb, _⟩ | ⟨_, rfl, rfl, rfl⟩
      · rw [e3] at hb; cases hb
      · rw [e2]

/-! ### Decoding without an error stays in good states -/

theorem lps_rdOk {a c : Aec} {vs s2 t2 t : Nat} (ha : RdOk a.rd) (he : a.err = false) (h1 : 1 ≤ t) (h2 : t < 512)
    (h : a.lps vs s2 t2 t = some (c, false)) : RdOk c.rd := by
  have hw := lps_withVs vs a vs s2 t2 t
  rw [h] at hw
  rcases lpsExt_eq (a := withVs vs a) ha he s2 t2 t h1 h2 with ⟨b, e1, _, e2, _⟩ | ⟨b, _, e1, _⟩
  · rw [show (withVs vs a).vs = vs from rfl, hw] at e1
    simp only [Option.map_some, Option.some.injEq, Prod.mk.injEq] at e1
    rw [← e1.1] at e2
    exact e2
  · rw [show (withVs vs a).vs = vs from rfl, hw] at e1
    simp at e1

theorem lps_vs {a c : Aec} {e : Bool} {vs s2 t2 t : Nat} (h : a.lps vs s2 t2 t = some (c, e)) : c.vs = a.vs := by
  have hw := lps_withVs a.vs a vs s2 t2 t
  rw [show withVs a.vs a = a from rfl, h] at hw
  simp only [Option.map_some, Option.some.injEq, Prod.mk.injEq] at hw
  rw [hw.1]
  rfl

theorem biariSymbol_keeps {a b : Aec} {ctx c v : Nat} (he : a.err = false) (hv : a.vs ≤ 254) (hr : RdOk a.rd)
    (hc : CtxOk ctx) (h : biariSymbol a ctx = some (b, c, v)) (hb : b.err = false) :
    b.vs ≤ 254 ∧ RdOk b.rd ∧ CtxOk c := by
  unfold biariSymbol at h
  dsimp only at h
  obtain ⟨hl1, hl2⟩ := hc.lg
  generalize ctxLg ctx / 4 = lg at h hl1 hl2
  cases hen : a.enter a.vs with
  | none => rw [hen] at h; cases h
  | some q =>
    obtain ⟨d, vs, e⟩ := q
    rw [hen] at h
    have hde := enter_err he hen
    cases e with
    | true => cases h; rw [hde] at hb; cases hb
    | false =>
      have hvs := enter_vs hv hen
      have hrd := enter_rdOk hr hen
      dsimp only at h
      by_cases hv' : d.vs > 254
      · rw [if_pos hv'] at h; cases h; cases hb
      · rw [if_neg hv'] at h
        generalize ((decide (_ > vs) || _ && _) && !d.bound) = isLps at h
        cases isLps with
        | false =>
          rw [if_neg Bool.false_ne_true] at h
          have h := Prod.mk.inj (Option.some.inj h)
          rw [← h.1, ← (Prod.mk.inj h.2).1]
          exact ⟨hvs, hrd, hc.update _⟩
        | true =>
          rw [if_pos rfl] at h
          have ht : 1 ≤ (if (if d.t1 < lg then 1 else 0) = 0 then lg else add32 d.t1 lg) ∧
              (if (if d.t1 < lg then 1 else 0) = 0 then lg else add32 d.t1 lg) < 512 := by
            by_cases hh : d.t1 < lg
            · rw [if_pos hh, if_neg (by omega)]
              unfold add32
              omega
            · rw [if_neg hh, if_pos rfl]
              omega
          cases hl : Aec.lps { d with dom := true } vs (add32 d.s1 (if d.t1 < lg then 1 else 0))
              (add32 (sub32 d.t1 lg) (256 * if d.t1 < lg then 1 else 0))
              (if (if d.t1 < lg then 1 else 0) = 0 then lg else add32 d.t1 lg) with
          | none => rw [hl] at h; cases h
          | some r =>
            obtain ⟨r, f⟩ := r
            rw [hl] at h
            have hle := lps_err (a := { d with dom := true }) hde hl
            cases f with
            | true =>
              have h := Prod.mk.inj (Option.some.inj h)
              rw [← h.1, hle] at hb
              cases hb
            | false =>
              have := lps_rdOk (a := { d with dom := true }) hrd hde ht.1 ht.2 hl
              have h := Prod.mk.inj (Option.some.inj h)
              rw [← h.1, ← (Prod.mk.inj h.2).1]
              exact ⟨hvs, this, hc.update _⟩

theorem biariFinal_keeps {a b : Aec} {v : Nat} (he : a.err = false) (hv : a.vs ≤ 254) (hr : RdOk a.rd)
    (h : biariFinal a = some (b, v)) (hb : b.err = false) : b.vs ≤ 254 ∧ RdOk b.rd := by
  unfold biariFinal at h
  cases hen : a.enter a.vs with
  | none => rw [hen] at h; cases h
  | some q =>
    obtain ⟨d, vs, e⟩ := q
    rw [hen] at h
    have hde := enter_err he hen
    cases e with
    | true => cases h; rw [show ({ d with vs := vs } : Aec).err = d.err from rfl, hde] at hb; cases hb
    | false =>
      have hvs := enter_vs hv hen
      have hrd := enter_rdOk hr hen
      dsimp only at h
      generalize ((decide (_ > vs) || _ && _) && !d.bound) = isLps at h
      cases isLps with
      | false =>
        rw [if_neg Bool.false_ne_true] at h
        have h := Prod.mk.inj (Option.some.inj h)
        rw [← h.1]
        exact ⟨hvs, hrd⟩
      | true =>
        rw [if_pos rfl] at h
        generalize add32 d.s1 _ = s2 at h
        generalize add32 (sub32 d.t1 1) _ = t2 at h
        cases hl : Aec.lps { d with vs := vs, dom := true } vs s2 t2 1 with
        | none => rw [hl] at h; cases h
        | some r =>
          obtain ⟨r, f⟩ := r
          rw [hl] at h
          have hle := lps_err (a := { d with vs := vs, dom := true }) hde hl
          cases f with
          | true =>
            have h := Prod.mk.inj (Option.some.inj h)
            rw [← h.1, hle] at hb
            cases hb
          | false =>
            have := lps_rdOk (a := { d with vs := vs, dom := true }) hrd hde (by omega) (by omega) hl
            have hk := lps_vs hl
            have h := Prod.mk.inj (Option.some.inj h)
            rw [← h.1]
            exact ⟨by rw [show ({ r with t1 := 0 } : Aec).vs = r.vs from rfl, hk]; exact hvs, this⟩

theorem biariEq_keeps {a b : Aec} {v : Nat} (he : a.err = false) (hv : a.vs ≤ 254) (hr : RdOk a.rd)
    (h : biariEq a = some (b, v)) (hb : b.err = false) : b.vs ≤ 254 ∧ RdOk b.rd := by
  have nb : ∀ {c d : Aec} {e : Bool}, c.nextBit = some (d, e) → d.vs = c.vs := by
    intro c d e hn
    unfold Aec.nextBit at hn
    split at hn
    · cases hn; rfl
    · cases hn; rfl
    · cases hn
  unfold biariEq at h
  by_cases hi : a.inR
  · rw [if_pos hi] at h
    cases hn : Aec.nextBit { a with s1 := 0 } with
    | none => rw [hn] at h; cases h
    | some q =>
      obtain ⟨d, e⟩ := q
      rw [hn] at h
      have hde := nextBit_err (a := { a with s1 := 0 }) he hn
      have hdv := nb hn
      cases e with
      | true => cases h; rw [hde] at hb; cases hb
      | false =>
        have hrd := nextBit_rdOk (a := { a with s1 := 0 }) hr hn
        dsimp only at h
        split at h
        · have h := Prod.mk.inj (Option.some.inj h)
          rw [← h.1]
          exact ⟨hdv ▸ hv, hrd⟩
        · have h := Prod.mk.inj (Option.some.inj h)
          rw [← h.1]
          exact ⟨hdv ▸ hv, hrd⟩
  · rw [if_neg hi] at h
    dsimp only at h
    split at h
    · split at h
      · have h := Prod.mk.inj (Option.some.inj h)
        rw [← h.1]
        exact ⟨hv, hr⟩
      · cases hn : Aec.nextBit { a with dom := true } with
        | none => rw [hn] at h; cases h
        | some q =>
          obtain ⟨d, e⟩ := q
          rw [hn] at h
          have hde := nextBit_err (a := { a with dom := true }) he hn
          have hdv := nb hn
          cases e with
          | true => cases h; rw [hde] at hb; cases hb
          | false =>
            have hrd := nextBit_rdOk (a := { a with dom := true }) hr hn
            have h := Prod.mk.inj (Option.some.inj h)
            rw [← h.1]
            exact ⟨hdv ▸ hv, hrd⟩
    · have h := Prod.mk.inj (Option.some.inj h)
      rw [← h.1]
      exact ⟨hv, hr⟩

/-- Without an error. -/
def noError (s : St) : Prop := s.aec.err = false

theorem GoodSt.step {s s1 : St} {b : Bin} (g : GoodSt s) (h : aecMachine.step b s = some s1) (h1 : noError s1) :
    GoodSt s1 := by
  cases b with
  | ctx a i b =>
    obtain ⟨r, c, e, rfl⟩ := aec_step_ctx h
    obtain ⟨k1, k2, k3⟩ := biariSymbol_keeps g.err g.vs g.rd (g.ctx a i) e h1
    refine ⟨h1, k1, k2, fun a' i' => ?_⟩
    simp only [St.set]
    split
    · exact k3
    · exact g.ctx a' i'
  | eq b =>
    have h' := hit_iff.mp h
    simp only [aecMachine] at h'
    cases hb : biariEq s.aec with
    | none => rw [hb] at h'; cases h'
    | some q =>
      obtain ⟨r, v⟩ := q
      rw [hb] at h'
      simp only [Option.some.injEq, Prod.mk.injEq] at h'
      obtain ⟨-, rfl⟩ := h'
      obtain ⟨k1, k2⟩ := biariEq_keeps g.err g.vs g.rd hb h1
      exact ⟨h1, k1, k2, g.ctx⟩
  | fin b =>
    have h' := hit_iff.mp h
    simp only [aecMachine] at h'
    cases hb : biariFinal s.aec with
    | none => rw [hb] at h'; cases h'
    | some q =>
      obtain ⟨r, v⟩ := q
      rw [hb] at h'
      simp only [Option.some.injEq, Prod.mk.injEq] at h'
      obtain ⟨-, rfl⟩ := h'
      obtain ⟨k1, k2⟩ := biariFinal_keeps g.err g.vs g.rd hb h1
      exact ⟨h1, k1, k2, g.ctx⟩

/-- Bins delivered without an error from a good state are delivered through good states. -/
theorem GoodSt.produces {s s' : St} {c : List Bin} (g : GoodSt s) (h : Produces noError aecMachine s c s') :
    Produces GoodSt aecMachine s c s' := by
  induction h with
  | nil _ => exact .nil g
  | cons _ st r ih => exact .cons g st (ih (g.step st r.good_left))

/-- The decoder at the start of a slice is in a good state unless the payload is too short. -/
theorem GoodSt.start (buf : List Byte) (pos len : Nat) (old a : Aec) (h : len ≤ buf.length)
    (ha : aecStart buf pos len old = some a) (he : a.err = false) : GoodSt ⟨a, fun _ _ => initCtx⟩ := by
  unfold aecStart at ha
  simp only [] at ha
  rcases Aec.nextN_spec (a := ⟨aecRdStart buf pos len old.rd.byteBuf, false, old.bound, true, 0, 255, 0, 0⟩)
    (RdRep.start buf pos len _ h) rfl 9 (by omega) (by norm_num) with ⟨hl, r, e1, e2⟩ | ⟨hl, a', e1, e2⟩
  · rw [e1] at ha
    cases ha
    exact ⟨rfl, Nat.zero_le _, ⟨_, e2⟩, fun _ _ => CtxOk.init⟩
  · rw [e1] at ha
    cases ha
    rw [e2] at he
    cases he

end Davs2.Sx
