import Verif.Lemmas.SimdSound
/-
The symbolic evaluation of Lemmas/SimdAbs.lean is sound: instructions.
-/
namespace Davs2.Si

open Davs2.Vc Finset

variable {cx : Cx} {E : Nat → Int}

/-- Half `k` of a register holds the eight lanes. -/
def laneRel (cx : Cx) (E : Nat → Int) (o : Oct) (v : V) (k : Nat) : Prop := ∀ j < 8, w16 v (8 * k + j) = lim cx o.f (E (o.lane j))

theorem beq_eq {a b : Nat} (h : Nat.beq a b = true) : a = b := Nat.eq_of_beq_eq_true h

theorem oLo16_rel {a b c : Oct} {va vb : V} {k : Nat} (h : oLo16 a b = some c) (ha : laneRel cx E a va k) (hb : laneRel cx E b vb k) :
    laneRel cx E c (unpacklo16y va vb) k := by
  unfold oLo16 at h
  obtain ⟨hf, h⟩ := cond_some h
  cases h
  have hf := beq_eq hf
  have hb' : ∀ j < 8, w16 vb (8 * k + j) = lim cx a.f (E (b.lane j)) := by rw [hf]; exact hb
  exact lane8 ((w16_lo16 va vb k 0 (by omega)).1.trans (ha 0 (by omega))) ((w16_lo16 va vb k 0 (by omega)).2.trans (hb' 0 (by omega)))
    ((w16_lo16 va vb k 1 (by omega)).1.trans (ha 1 (by omega))) ((w16_lo16 va vb k 1 (by omega)).2.trans (hb' 1 (by omega)))
    ((w16_lo16 va vb k 2 (by omega)).1.trans (ha 2 (by omega))) ((w16_lo16 va vb k 2 (by omega)).2.trans (hb' 2 (by omega)))
    ((w16_lo16 va vb k 3 (by omega)).1.trans (ha 3 (by omega))) ((w16_lo16 va vb k 3 (by omega)).2.trans (hb' 3 (by omega)))

theorem oHi16_rel {a b c : Oct} {va vb : V} {k : Nat} (h : oHi16 a b = some c) (ha : laneRel cx E a va k) (hb : laneRel cx E b vb k) :
    laneRel cx E c (unpackhi16y va vb) k := by
  unfold oHi16 at h
  obtain ⟨hf, h⟩ := cond_some h
  cases h
  have hf := beq_eq hf
  have hb' : ∀ j < 8, w16 vb (8 * k + j) = lim cx a.f (E (b.lane j)) := by rw [hf]; exact hb
  exact lane8 ((w16_hi16 va vb k 0 (by omega)).1.trans (ha 4 (by omega))) ((w16_hi16 va vb k 0 (by omega)).2.trans (hb' 4 (by omega)))
    ((w16_hi16 va vb k 1 (by omega)).1.trans (ha 5 (by omega))) ((w16_hi16 va vb k 1 (by omega)).2.trans (hb' 5 (by omega)))
    ((w16_hi16 va vb k 2 (by omega)).1.trans (ha 6 (by omega))) ((w16_hi16 va vb k 2 (by omega)).2.trans (hb' 6 (by omega)))
    ((w16_hi16 va vb k 3 (by omega)).1.trans (ha 7 (by omega))) ((w16_hi16 va vb k 3 (by omega)).2.trans (hb' 7 (by omega)))

theorem oLo32_rel {a b c : Oct} {va vb : V} {k : Nat} (h : oLo32 a b = some c) (ha : laneRel cx E a va k) (hb : laneRel cx E b vb k) :
    laneRel cx E c (unpacklo32y va vb) k := by
  unfold oLo32 at h
  obtain ⟨hf, h⟩ := cond_some h
  cases h
  have hf := beq_eq hf
  have hb' : ∀ j < 8, w16 vb (8 * k + j) = lim cx a.f (E (b.lane j)) := by rw [hf]; exact hb
  have l := w16_lo32 va vb k
  exact lane8 ((l 0 (by omega)).trans (ha 0 (by omega))) ((l 1 (by omega)).trans (ha 1 (by omega)))
    ((l 2 (by omega)).trans (hb' 0 (by omega))) ((l 3 (by omega)).trans (hb' 1 (by omega)))
    ((l 4 (by omega)).trans (ha 2 (by omega))) ((l 5 (by omega)).trans (ha 3 (by omega)))
    ((l 6 (by omega)).trans (hb' 2 (by omega))) ((l 7 (by omega)).trans (hb' 3 (by omega)))

theorem oHi32_rel {a b c : Oct} {va vb : V} {k : Nat} (h : oHi32 a b = some c) (ha : laneRel cx E a va k) (hb : laneRel cx E b vb k) :
    laneRel cx E c (unpackhi32y va vb) k := by
  unfold oHi32 at h
  obtain ⟨hf, h⟩ := cond_some h
  cases h
  have hf := beq_eq hf
  have hb' : ∀ j < 8, w16 vb (8 * k + j) = lim cx a.f (E (b.lane j)) := by rw [hf]; exact hb
  have l := w16_hi32 va vb k
  exact lane8 ((l 0 (by omega)).trans (ha 4 (by omega))) ((l 1 (by omega)).trans (ha 5 (by omega)))
    ((l 2 (by omega)).trans (hb' 4 (by omega))) ((l 3 (by omega)).trans (hb' 5 (by omega)))
    ((l 4 (by omega)).trans (ha 6 (by omega))) ((l 5 (by omega)).trans (ha 7 (by omega)))
    ((l 6 (by omega)).trans (hb' 6 (by omega))) ((l 7 (by omega)).trans (hb' 7 (by omega)))

theorem oLo64_rel {a b c : Oct} {va vb : V} {k : Nat} (h : oLo64 a b = some c) (ha : laneRel cx E a va k) (hb : laneRel cx E b vb k) :
    laneRel cx E c (unpacklo64y va vb) k := by
  unfold oLo64 at h
  obtain ⟨hf, h⟩ := cond_some h
  cases h
  have hf := beq_eq hf
  have hb' : ∀ j < 8, w16 vb (8 * k + j) = lim cx a.f (E (b.lane j)) := by rw [hf]; exact hb
  have l := w16_lo64 va vb k
  exact lane8 ((l 0 (by omega)).trans (ha 0 (by omega))) ((l 1 (by omega)).trans (ha 1 (by omega)))
    ((l 2 (by omega)).trans (ha 2 (by omega))) ((l 3 (by omega)).trans (ha 3 (by omega)))
    ((l 4 (by omega)).trans (hb' 0 (by omega))) ((l 5 (by omega)).trans (hb' 1 (by omega)))
    ((l 6 (by omega)).trans (hb' 2 (by omega))) ((l 7 (by omega)).trans (hb' 3 (by omega)))

theorem oHi64_rel {a b c : Oct} {va vb : V} {k : Nat} (h : oHi64 a b = some c) (ha : laneRel cx E a va k) (hb : laneRel cx E b vb k) :
    laneRel cx E c (unpackhi64y va vb) k := by
  unfold oHi64 at h
  obtain ⟨hf, h⟩ := cond_some h
  cases h
  have hf := beq_eq hf
  have hb' : ∀ j < 8, w16 vb (8 * k + j) = lim cx a.f (E (b.lane j)) := by rw [hf]; exact hb
  have l := w16_hi64 va vb k
  exact lane8 ((l 0 (by omega)).trans (ha 4 (by omega))) ((l 1 (by omega)).trans (ha 5 (by omega)))
    ((l 2 (by omega)).trans (ha 6 (by omega))) ((l 3 (by omega)).trans (ha 7 (by omega)))
    ((l 4 (by omega)).trans (hb' 4 (by omega))) ((l 5 (by omega)).trans (hb' 5 (by omega)))
    ((l 6 (by omega)).trans (hb' 6 (by omega))) ((l 7 (by omega)).trans (hb' 7 (by omega)))

/-- All words of a constant pair. -/
theorem kWord {lo hi : Nat} {v : V} (h : AV.Rel cx E (.k lo hi) v) (i : Nat) : u16 v i = if i % 2 = 0 then (lo : Int) else hi := by
  obtain ⟨_, _, h⟩ := h
  have := h (i / 2)
  by_cases e : i % 2 = 0
  · rw [if_pos e, ← this.1]; congr 1; omega
  · rw [if_neg e, ← this.2]; congr 1; omega

theorem zero_rel (ok : Ok cx E) {v : V} (h : AV.Rel cx E (.k 0 0) v) (k : Nat) : laneRel cx E Oct.zero v k := by
  intro j hj
  have e : lim cx Oct.zero.f (E (Oct.zero.lane j)) = 0 := by
    have : Oct.zero.lane j = 0 := by interval_cases j <;> rfl
    rw [this, ok.zero]; rfl
  rw [e]
  unfold w16
  rw [kWord h]
  split <;> rfl

theorem unpk_rel (ok : Ok cx E) {f : Oct → Oct → Option Oct} {o : V → V → V}
    (hf : ∀ {a b c : Oct} {va vb : V} {k : Nat}, f a b = some c → laneRel cx E a va k → laneRel cx E b vb k → laneRel cx E c (o va vb) k)
    {x y z : AV} {va vb : V} (h : unpk f x y = some z) (hx : x.Rel cx E va) (hy : y.Rel cx E vb) : z.Rel cx E (o va vb) := by
  unfold unpk at h
  split at h
  · next l m =>
    unfold toH at h
    split at h
    · cases h
    · next r hr =>
      cases h
      intro k c hc
      obtain ⟨a, b, ha, hb, hab⟩ := zip2_get hr k c hc
      exact hf hab (hx k a ha) (hy k b hb)
  · next l lo hi =>
    obtain ⟨hz, h⟩ := cond_some h
    simp only [Bool.and_eq_true] at hz
    have e1 := beq_eq hz.1
    have e2 := beq_eq hz.2
    subst e1 e2
    unfold toH at h
    split at h
    · cases h
    · next r hr =>
      cases h
      intro k c hc
      obtain ⟨a, ha, hab⟩ := map1_get hr k c hc
      exact hf hab (hx k a ha) (zero_rel ok hy k)
  · next lo hi l =>
    obtain ⟨hz, h⟩ := cond_some h
    simp only [Bool.and_eq_true] at hz
    have e1 := beq_eq hz.1
    have e2 := beq_eq hz.2
    subst e1 e2
    unfold toH at h
    split at h
    · cases h
    · next r hr =>
      cases h
      intro k c hc
      obtain ⟨a, ha, hab⟩ := map1_get hr k c hc
      exact hf hab (zero_rel ok hx k) (hy k a ha)
  · cases h

/-! ### Linear forms -/

theorem Digits.mono {K K' P : Nat} {p : Nat → Nat} (h : Digits K P p) (hK : K ≤ K') : Digits K' P p :=
  ⟨fun i => (h.1 i).trans hK, h.2⟩

theorem Digits.add {K K' P P' : Nat} {p p' : Nat → Nat} (h : Digits K P p) (h' : Digits K' P' p') :
    Digits (K + K') (P + P') (fun i => p i + p' i) := by
  refine ⟨fun i => Nat.add_le_add (h.1 i) (h'.1 i), ?_⟩
  rw [h.2, h'.2, ← sum_add_distrib]
  exact sum_congr rfl fun i _ => by ring

theorem Digits.single (c d : Nat) (hd : d < 64) : Digits c (c * 65536 ^ d) (fun i => if i = d then c else 0) := by
  refine ⟨fun i => by dsimp only; split <;> omega, ?_⟩
  rw [sum_eq_single d]
  · dsimp only; rw [if_pos rfl]
  · intro b _ hb; dsimp only; rw [if_neg hb]; ring
  · intro h; exact absurd (mem_range.2 hd) h

theorem Digits.zero (K : Nat) : Digits K 0 (fun _ => 0) := ⟨fun _ => Nat.zero_le _, by simp⟩

theorem form_add (p n p' n' : Nat → Nat) (g : Nat) :
    form E (fun i => p i + p' i) (fun i => n i + n' i) g = form E p n g + form E p' n' g := by
  unfold form
  rw [← sum_add_distrib]
  exact sum_congr rfl fun i _ => by push_cast; ring

theorem form_sub (p n p' n' : Nat → Nat) (g : Nat) :
    form E (fun i => p i + n' i) (fun i => n i + p' i) g = form E p n g - form E p' n' g := by
  unfold form
  rw [← sum_sub_distrib]
  exact sum_congr rfl fun i _ => by push_cast; ring

theorem form_single (a b d : Nat) (hd : d < 64) (g : Nat) :
    form E (fun i => if i = d then a else 0) (fun i => if i = d then b else 0) g = ((a : Int) - b) * mem' E g d := by
  unfold form
  rw [sum_eq_single d]
  · simp only [if_true]
  · intro c _ hc; dsimp only; rw [if_neg hc, if_neg hc]; simp
  · intro h; exact absurd (mem_range.2 hd) h

theorem pos_neg {u : Nat} (hu : u < 65536) : ((posOf u : Int) - negOf u) = wrap16 u := by
  unfold posOf negOf
  by_cases h : u < 32768
  · rw [show Nat.blt u 32768 = true from Nat.ble_eq_true_of_le h]
    simp only [cond_true]; unfold wrap16; omega
  · rw [show Nat.blt u 32768 = false by
      cases e : Nat.blt u 32768
      · rfl
      · exact absurd (Nat.le_of_ble_eq_true e) (by omega)]
    simp only [cond_false]
    show ((0 : Nat) : Int) - ((65536 - u : Nat) : Int) = _
    unfold wrap16; omega

theorem blt_lt {a b : Nat} (h : Nat.blt a b = true) : a < b := Nat.le_of_ble_eq_true h

def Pr.grp (p : Pr) : Nat → Nat
  | 0 => p.g0 | 1 => p.g1 | 2 => p.g2 | _ => p.g3

theorem pairs_spec {o : Oct} {p : Pr} (h : pairs o = some p) :
    o.f = 0 ∧ 0 < p.d ∧ p.d < 64 ∧ p.e < 64 ∧ o.c0 = 64 * p.g0 + p.d ∧ o.c2 = 64 * p.g1 + p.d ∧ o.c4 = 64 * p.g2 + p.d ∧ o.c6 = 64 * p.g3 + p.d ∧
    ((p.e = 0 ∧ o.c1 = 0 ∧ o.c3 = 0 ∧ o.c5 = 0 ∧ o.c7 = 0) ∨
      (0 < p.e ∧ o.c1 = 64 * p.g0 + p.e ∧ o.c3 = 64 * p.g1 + p.e ∧ o.c5 = 64 * p.g2 + p.e ∧ o.c7 = 64 * p.g3 + p.e)) := by
  unfold pairs at h
  dsimp only at h
  obtain ⟨h1, h⟩ := cond_some h
  simp only [Bool.and_eq_true] at h1
  obtain ⟨⟨⟨⟨f0, d0⟩, e2⟩, e4⟩, e6⟩ := h1
  have f0 := beq_eq f0
  have d0 : 0 < o.c0 % 64 := blt_lt d0
  have e2 : o.c2 % 64 = o.c0 % 64 := beq_eq e2
  have e4 : o.c4 % 64 = o.c0 % 64 := beq_eq e4
  have e6 : o.c6 % 64 = o.c0 % 64 := beq_eq e6
  have m0 : Nat.mod o.c0 64 = o.c0 % 64 := rfl
  have m1 : Nat.mod o.c1 64 = o.c1 % 64 := rfl
  have k0 : Nat.div o.c0 64 = o.c0 / 64 := rfl
  have k2 : Nat.div o.c2 64 = o.c2 / 64 := rfl
  have k4 : Nat.div o.c4 64 = o.c4 / 64 := rfl
  have k6 : Nat.div o.c6 64 = o.c6 / 64 := rfl
  rw [m0, m1, k0, k2, k4, k6] at h
  cases hc : Nat.beq o.c1 0 with
  | true =>
    rw [hc, cond_true] at h
    obtain ⟨h2, h⟩ := cond_some h
    simp only [Bool.and_eq_true] at h2
    obtain ⟨⟨z3, z5⟩, z7⟩ := h2
    cases h
    dsimp only
    have := beq_eq hc
    have := beq_eq z3
    have := beq_eq z5
    have := beq_eq z7
    refine ⟨f0, by omega, by omega, by omega, by omega, by omega, by omega, by omega, Or.inl ⟨rfl, by omega, by omega, by omega, by omega⟩⟩
  | false =>
    rw [hc, cond_false] at h
    obtain ⟨h2, h⟩ := cond_some h
    simp only [Bool.and_eq_true] at h2
    obtain ⟨⟨⟨⟨z0, z1⟩, z3⟩, z5⟩, z7⟩ := h2
    cases h
    dsimp only
    have z0 := blt_lt z0
    have z1 := beq_eq z1
    have z3 := beq_eq z3
    have z5 := beq_eq z5
    have z7 := beq_eq z7
    refine ⟨f0, by omega, by omega, by omega, by omega, by omega, by omega, by omega, Or.inr ⟨z0, z1, z3, z5, z7⟩⟩

theorem wrap16_mul_range {u : Nat} {x : Int} (hx : -32768 ≤ x ∧ x ≤ 32767) : -1073741824 ≤ wrap16 u * x ∧ wrap16 u * x ≤ 1073741824 := by
  have h : -32768 ≤ wrap16 u ∧ wrap16 u ≤ 32767 := by unfold wrap16; omega
  generalize wrap16 u = a at *
  constructor <;> nlinarith

theorem oMadd_rel (ok : Ok cx E) {lo hi : Nat} {o : Oct} {q : Q} {va vb : V} {k : Nat} (h : oMadd lo hi o = some q)
    (ha : laneRel cx E o va k) (hb : AV.Rel cx E (.k lo hi) vb) :
    ∃ p m, Digits q.K q.P p ∧ Digits q.K q.N m ∧ ∀ j < 4, d32 (madd16 va vb) (4 * k + j) = wrap32 (form E p m (q.grp j)) / 2 ^ 0 := by
  have hlo := hb.1
  have hhi := hb.2.1
  have hkw := kWord hb
  unfold oMadd at h
  split at h
  · cases h
  · next p hp =>
    obtain ⟨f0, d0, d1, e1, c0, c2, c4, c6, hc⟩ := pairs_spec hp
    have base : ∀ j < 4, d32 (madd16 va vb) (4 * k + j) = wrap32 (E (o.lane (2 * j)) * wrap16 lo + E (o.lane (2 * j + 1)) * wrap16 hi) := by
      intro j hj
      refine (d32_ofD _ _).trans ?_
      have w0 : w16 va (2 * (4 * k + j)) = E (o.lane (2 * j)) := by
        rw [show 2 * (4 * k + j) = 8 * k + 2 * j by omega, ha (2 * j) (by omega), f0]; rfl
      have w1 : w16 va (2 * (4 * k + j) + 1) = E (o.lane (2 * j + 1)) := by
        rw [show 2 * (4 * k + j) + 1 = 8 * k + (2 * j + 1) by omega, ha (2 * j + 1) (by omega), f0]; rfl
      have u0 : w16 vb (2 * (4 * k + j)) = wrap16 lo := by unfold w16; rw [hkw, if_pos (by omega)]
      have u1 : w16 vb (2 * (4 * k + j) + 1) = wrap16 hi := by unfold w16; rw [hkw, if_neg (by omega)]
      rw [w0, w1, u0, u1]
    have ev : ∀ j < 4, o.lane (2 * j) = 64 * (p.grp j) + p.d :=
      lane4 c0 c2 c4 c6
    cases he : Nat.beq p.e 0 with
    | true =>
      rw [he, cond_true] at h
      cases h
      have he := beq_eq he
      rcases hc with ⟨_, z1, z3, z5, z7⟩ | ⟨z, _⟩
      · have od : ∀ j < 4, o.lane (2 * j + 1) = 0 := lane4 z1 z3 z5 z7
        refine ⟨_, _, (Digits.single (posOf lo) p.d d1).mono (Nat.le_add_right _ _), (Digits.single (negOf lo) p.d d1).mono (Nat.le_add_left _ _), ?_⟩
        intro j hj
        rw [base j hj, ev j hj, od j hj, ok.zero, form_single _ _ _ d1, pos_neg hlo, pow_zero, Int.ediv_one]
        unfold mem'
        rw [if_neg (by omega)]
        have : (Q.grp ⟨p.g0, p.g1, p.g2, p.g3, Nat.add (posOf lo) (negOf lo), Nat.mul (posOf lo) (Nat.pow 65536 p.d), Nat.mul (negOf lo) (Nat.pow 65536 p.d)⟩ j) =
            (p.grp j) := by interval_cases j <;> rfl
        rw [this]
        exact congrArg wrap32 (by ring)
      · omega
    | false =>
      rw [he, cond_false] at h
      cases h
      have he : p.e ≠ 0 := fun e => by rw [e] at he; cases he
      rcases hc with ⟨z, _⟩ | ⟨_, z1, z3, z5, z7⟩
      · exact absurd z he
      · have od : ∀ j < 4, o.lane (2 * j + 1) = 64 * (p.grp j) + p.e :=
          lane4 z1 z3 z5 z7
        refine ⟨_, _, ((Digits.single (posOf lo) p.d d1).add (Digits.single (posOf hi) p.e e1)).mono ?_,
          ((Digits.single (negOf lo) p.d d1).add (Digits.single (negOf hi) p.e e1)).mono ?_, ?_⟩
        · show _ ≤ posOf lo + negOf lo + (posOf hi + negOf hi); omega
        · show _ ≤ posOf lo + negOf lo + (posOf hi + negOf hi); omega
        · intro j hj
          rw [base j hj, ev j hj, od j hj, form_add, form_single _ _ _ d1, form_single _ _ _ e1, pos_neg hlo, pos_neg hhi, pow_zero, Int.ediv_one]
          unfold mem'
          rw [if_neg (by omega), if_neg he]
          have : (Q.grp ⟨p.g0, p.g1, p.g2, p.g3, Nat.add (Nat.add (posOf lo) (negOf lo)) (Nat.add (posOf hi) (negOf hi)),
              Nat.add (Nat.mul (posOf lo) (Nat.pow 65536 p.d)) (Nat.mul (posOf hi) (Nat.pow 65536 p.e)),
              Nat.add (Nat.mul (negOf lo) (Nat.pow 65536 p.d)) (Nat.mul (negOf hi) (Nat.pow 65536 p.e))⟩ j) =
              (p.grp j) := by interval_cases j <;> rfl
          rw [this]
          exact congrArg wrap32 (by ring)


theorem sameG_spec {a b : Q} (h : sameG a b = true) (j : Nat) : a.grp j = b.grp j := by
  unfold sameG at h
  simp only [Bool.and_eq_true] at h
  obtain ⟨⟨⟨h0, h1⟩, h2⟩, h3⟩ := h
  have h0 := beq_eq h0
  have h1 := beq_eq h1
  have h2 := beq_eq h2
  have h3 := beq_eq h3
  unfold Q.grp
  split <;> assumption

theorem qAdd_rel {a b c : Q} {va vb : V} {k : Nat} (h : qAdd a b = some c)
    (ha : ∃ p m, Digits a.K a.P p ∧ Digits a.K a.N m ∧ ∀ j < 4, d32 va (4 * k + j) = wrap32 (form E p m (a.grp j)) / 2 ^ 0)
    (hb : ∃ p m, Digits b.K b.P p ∧ Digits b.K b.N m ∧ ∀ j < 4, d32 vb (4 * k + j) = wrap32 (form E p m (b.grp j)) / 2 ^ 0) :
    ∃ p m, Digits c.K c.P p ∧ Digits c.K c.N m ∧ ∀ j < 4, d32 (Vc.add32 va vb) (4 * k + j) = wrap32 (form E p m (c.grp j)) / 2 ^ 0 := by
  obtain ⟨p, m, hp, hm, hv⟩ := ha
  obtain ⟨p', m', hp', hm', hv'⟩ := hb
  unfold qAdd at h
  obtain ⟨hs, h⟩ := cond_some h
  have hg := sameG_spec hs
  cases h
  refine ⟨_, _, hp.add hp', hm.add hm', fun j hj => ?_⟩
  rw [form_add, pow_zero, Int.ediv_one]
  refine (d32_ofD _ _).trans ?_
  rw [hv j hj, hv' j hj, pow_zero, Int.ediv_one, Int.ediv_one, wrap32_add, ← hg]
  rfl

theorem qSub_rel {a b c : Q} {va vb : V} {k : Nat} (h : qSub a b = some c)
    (ha : ∃ p m, Digits a.K a.P p ∧ Digits a.K a.N m ∧ ∀ j < 4, d32 va (4 * k + j) = wrap32 (form E p m (a.grp j)) / 2 ^ 0)
    (hb : ∃ p m, Digits b.K b.P p ∧ Digits b.K b.N m ∧ ∀ j < 4, d32 vb (4 * k + j) = wrap32 (form E p m (b.grp j)) / 2 ^ 0) :
    ∃ p m, Digits c.K c.P p ∧ Digits c.K c.N m ∧ ∀ j < 4, d32 (Vc.sub32 va vb) (4 * k + j) = wrap32 (form E p m (c.grp j)) / 2 ^ 0 := by
  obtain ⟨p, m, hp, hm, hv⟩ := ha
  obtain ⟨p', m', hp', hm', hv'⟩ := hb
  unfold qSub at h
  obtain ⟨hs, h⟩ := cond_some h
  have hg := sameG_spec hs
  cases h
  refine ⟨_, _, hp.add hm', hm.add hp', fun j hj => ?_⟩
  rw [form_sub, pow_zero, Int.ediv_one]
  refine (d32_ofD _ _).trans ?_
  rw [hv j hj, hv' j hj, pow_zero, Int.ediv_one, Int.ediv_one, wrap32_sub, ← hg]
  rfl

theorem kDword {lo : Nat} {v : V} (h : AV.Rel cx E (.k lo 0) v) (hlo : lo < 32768) (i : Nat) : d32 v i = wrap32 lo := by
  rw [d32_of_u16 (h.2.2 i).1 (h.2.2 i).2]
  simp

theorem qAddK_rel {lo : Nat} {a c : Q} {va vb : V} {k : Nat} (h : qAddK lo a = some c) (hlo : lo < 32768)
    (ha : ∃ p m, Digits a.K a.P p ∧ Digits a.K a.N m ∧ ∀ j < 4, d32 va (4 * k + j) = wrap32 (form E p m (a.grp j)) / 2 ^ 0)
    (hb : AV.Rel cx E (.k lo 0) vb) :
    ∃ p m, Digits c.K c.P p ∧ Digits c.K c.N m ∧ ∀ j < 4, d32 (Vc.add32 va vb) (4 * k + j) = wrap32 (form E p m (c.grp j)) / 2 ^ 0 := by
  obtain ⟨p, m, hp, hm, hv⟩ := ha
  unfold qAddK at h
  cases h
  have e : Digits (Nat.add a.K lo) (Nat.add a.P lo) (fun i => p i + if i = 0 then lo else 0) := by
    have := hp.add (Digits.single lo 0 (by omega))
    rwa [pow_zero, mul_one] at this
  have e2 := hm.add (Digits.zero lo)
  refine ⟨_, _, e, e2, fun j hj => ?_⟩
  have f : form E (fun _ => 0) (fun _ => 0) = fun _ => 0 := by funext g; unfold form; simp
  have := form_add (E := E) p m (fun i => if i = 0 then lo else 0) (fun i => if i = 0 then 0 else 0) (a.grp j)
  simp only [ite_self] at this
  rw [show (fun i => m i + 0) = (fun i => m i + 0) from rfl] at this
  have s := form_single (E := E) lo 0 0 (by omega) (a.grp j)
  simp only [ite_self] at s
  rw [s] at this
  rw [pow_zero, Int.ediv_one]
  refine (d32_ofD _ _).trans ?_
  rw [hv j hj, kDword hb hlo, pow_zero, Int.ediv_one, wrap32_add]
  show wrap32 _ = wrap32 (form E (fun i => p i + if i = 0 then lo else 0) (fun i => m i + 0) (a.grp j))
  rw [this]
  congr 2
  unfold mem'; simp

theorem qSubK_rel {lo : Nat} {a c : Q} {va vb : V} {k : Nat} (h : qSubK lo a = some c) (hlo : lo < 32768)
    (ha : ∃ p m, Digits a.K a.P p ∧ Digits a.K a.N m ∧ ∀ j < 4, d32 va (4 * k + j) = wrap32 (form E p m (a.grp j)) / 2 ^ 0)
    (hb : AV.Rel cx E (.k lo 0) vb) :
    ∃ p m, Digits c.K c.P p ∧ Digits c.K c.N m ∧ ∀ j < 4, d32 (Vc.sub32 va vb) (4 * k + j) = wrap32 (form E p m (c.grp j)) / 2 ^ 0 := by
  obtain ⟨p, m, hp, hm, hv⟩ := ha
  unfold qSubK at h
  cases h
  have e : Digits (Nat.add a.K lo) (Nat.add a.N lo) (fun i => m i + if i = 0 then lo else 0) := by
    have := hm.add (Digits.single lo 0 (by omega))
    rwa [pow_zero, mul_one] at this
  have e2 := hp.add (Digits.zero lo)
  refine ⟨_, _, e2, e, fun j hj => ?_⟩
  have := form_add (E := E) p m (fun i => if i = 0 then 0 else 0) (fun i => if i = 0 then lo else 0) (a.grp j)
  simp only [ite_self] at this
  have s := form_single (E := E) 0 lo 0 (by omega) (a.grp j)
  simp only [ite_self] at s
  rw [s] at this
  rw [pow_zero, Int.ediv_one]
  refine (d32_ofD _ _).trans ?_
  rw [hv j hj, kDword hb hlo, pow_zero, Int.ediv_one, wrap32_sub]
  show wrap32 _ = wrap32 (form E (fun i => p i + 0) (fun i => m i + if i = 0 then lo else 0) (a.grp j))
  rw [this]
  congr 1
  unfold mem'; simp; ring

theorem find_spec {P N : Nat} : ∀ {l : List (Nat × Nat)} {i y : Nat}, find P N i l = some y → ∃ t, y = i + t ∧ l[t]? = some (P, N) := by
  intro l
  induction l with
  | nil => intro i y h; unfold find at h; cases h
  | cons a l ih =>
    intro i y h
    obtain ⟨p, n⟩ := a
    unfold find at h
    cases hb : (Nat.beq P p && Nat.beq N n) with
    | true =>
      rw [hb, cond_true] at h
      cases h
      simp only [Bool.and_eq_true] at hb
      refine ⟨0, rfl, ?_⟩
      rw [List.getElem?_cons_zero, beq_eq hb.1, beq_eq hb.2]
    | false =>
      rw [hb, cond_false] at h
      obtain ⟨t, ht, h2⟩ := ih h
      refine ⟨t + 1, ?_, ?_⟩
      · rw [ht]; show i + 1 + t = _; omega
      · rw [List.getElem?_cons_succ]; exact h2

theorem name_spec (ok : Ok cx E) {n : Nat} {q : Q} {a0 a1 a2 a3 : Nat} (h : name cx n q = some (a0, a1, a2, a3)) {p m : Nat → Nat}
    (hp : Digits q.K q.P p) (hm : Digits q.K q.N m) : ∀ j < 4,
    sat16 (wrap32 (form E p m (q.grp j)) / 2 ^ n) = E (match j with | 0 => a0 | 1 => a1 | 2 => a2 | _ => a3) := by
  unfold name at h
  replace h := cond_some h
  obtain ⟨hK, h⟩ := h
  have hK := blt_lt hK
  have hp := hp.mono (show q.K ≤ 65535 by omega)
  have hm := hm.mono (show q.K ≤ 65535 by omega)
  cases hb : (Nat.beq n 5 && Nat.blt q.g0 64 && Nat.blt q.g1 64 && Nat.blt q.g2 64 && Nat.blt q.g3 64) with
  | true =>
    rw [hb, cond_true] at h
    simp only [Bool.and_eq_true] at hb
    obtain ⟨⟨⟨⟨n5, b0⟩, b1⟩, b2⟩, b3⟩ := hb
    have n5 := beq_eq n5
    subst n5
    split at h
    · cases h
    · next y hy =>
      obtain ⟨t, ht, hl⟩ := find_spec hy
      rw [Nat.zero_add] at ht
      subst ht
      cases h
      have key := fun g hg => ok.p1 y _ _ hl g hg q.P q.N p m hp hm rfl rfl
      exact lane4 (key _ (blt_lt b0)) (key _ (blt_lt b1)) (key _ (blt_lt b2)) (key _ (blt_lt b3))
  | false =>
    rw [hb, cond_false] at h
    replace h := cond_some h
    obtain ⟨hb2, h⟩ := h
    simp only [Bool.and_eq_true] at hb2
    obtain ⟨⟨⟨⟨⟨⟨⟨⟨n5, c0⟩, c1⟩, c2⟩, c3⟩, b0⟩, b1⟩, b2⟩, b3⟩ := hb2
    have n5 := beq_eq n5
    subst n5
    split at h
    · cases h
    · next x hx =>
      obtain ⟨t, ht, hl⟩ := find_spec hx
      rw [Nat.zero_add] at ht
      subst ht
      cases h
      have key := fun g hg hg2 => ok.p2 x _ _ hl g hg hg2 q.P q.N p m hp hm rfl rfl
      exact lane4 (key _ (Nat.le_of_ble_eq_true c0) (blt_lt b0)) (key _ (Nat.le_of_ble_eq_true c1) (blt_lt b1))
        (key _ (Nat.le_of_ble_eq_true c2) (blt_lt b2)) (key _ (Nat.le_of_ble_eq_true c3) (blt_lt b3))

theorem oPacks_rel (ok : Ok cx E) {n : Nat} {a b : Q} {o : Oct} {va vb : V} {k : Nat} (h : oPacks cx n a b = some o)
    (ha : ∃ p m, Digits a.K a.P p ∧ Digits a.K a.N m ∧ ∀ j < 4, d32 va (4 * k + j) = wrap32 (form E p m (a.grp j)) / 2 ^ n)
    (hb : ∃ p m, Digits b.K b.P p ∧ Digits b.K b.N m ∧ ∀ j < 4, d32 vb (4 * k + j) = wrap32 (form E p m (b.grp j)) / 2 ^ n) :
    laneRel cx E o (packs32y va vb) k := by
  obtain ⟨p, m, hp, hm, hv⟩ := ha
  obtain ⟨p', m', hp', hm', hv'⟩ := hb
  unfold oPacks at h
  split at h
  · cases h
  · next a0 a1 a2 a3 hna =>
    split at h
    · cases h
    · next b0 b1 b2 b3 hnb =>
      cases h
      have A := name_spec ok hna hp hm
      have B := name_spec ok hnb hp' hm'
      have ka : ∀ j < 4, w16 (packs32y va vb) (8 * k + j) = E (match j with | 0 => a0 | 1 => a1 | 2 => a2 | _ => a3) := by
        intro j hj
        rw [w16_packsy, if_pos (by omega), show 4 * ((8 * k + j) / 8) + (8 * k + j) % 8 = 4 * k + j by omega, hv j hj, A j hj]
      have kb : ∀ j < 4, w16 (packs32y va vb) (8 * k + (4 + j)) = E (match j with | 0 => b0 | 1 => b1 | 2 => b2 | _ => b3) := by
        intro j hj
        rw [w16_packsy, if_neg (by omega), show 4 * ((8 * k + (4 + j)) / 8) + ((8 * k + (4 + j)) % 8 - 4) = 4 * k + j by omega, hv' j hj, B j hj]
      exact lane8 (ka 0 (by omega)) (ka 1 (by omega)) (ka 2 (by omega)) (ka 3 (by omega)) (kb 0 (by omega)) (kb 1 (by omega)) (kb 2 (by omega)) (kb 3 (by omega))

theorem oPacksZ_rel (ok : Ok cx E) {n : Nat} {a : Q} {o : Oct} {va vb : V} {k : Nat} (h : oPacksZ cx n a = some o)
    (ha : ∃ p m, Digits a.K a.P p ∧ Digits a.K a.N m ∧ ∀ j < 4, d32 va (4 * k + j) = wrap32 (form E p m (a.grp j)) / 2 ^ n)
    (hb : AV.Rel cx E (.k 0 0) vb) : laneRel cx E o (packs32y va vb) k := by
  obtain ⟨p, m, hp, hm, hv⟩ := ha
  unfold oPacksZ at h
  split at h
  · cases h
  · next a0 a1 a2 a3 hna =>
    cases h
    have A := name_spec ok hna hp hm
    have ka : ∀ j < 4, w16 (packs32y va vb) (8 * k + j) = E (match j with | 0 => a0 | 1 => a1 | 2 => a2 | _ => a3) := by
      intro j hj
      rw [w16_packsy, if_pos (by omega), show 4 * ((8 * k + j) / 8) + (8 * k + j) % 8 = 4 * k + j by omega, hv j hj, A j hj]
    have kb : ∀ j < 4, w16 (packs32y va vb) (8 * k + (4 + j)) = E 0 := by
      intro j hj
      rw [w16_packsy, if_neg (by omega), kDword hb (by omega), ok.zero]
      rfl
    exact lane8 (ka 0 (by omega)) (ka 1 (by omega)) (ka 2 (by omega)) (ka 3 (by omega)) (kb 0 (by omega)) (kb 1 (by omega)) (kb 2 (by omega)) (kb 3 (by omega))

theorem oMin_rel {u : Nat} {o o' : Oct} {va vb : V} {k : Nat} (h : oMin cx u o = some o') (ha : laneRel cx E o va k)
    (hb : AV.Rel cx E (.k u u) vb) : laneRel cx E o' (Vc.min16 va vb) k := by
  unfold oMin at h
  replace h := cond_some h
  obtain ⟨hu, h⟩ := h
  have hu := beq_eq hu
  subst hu
  have kw : ∀ i, w16 vb i = wrap16 cx.hi := by
    intro i; unfold w16; rw [kWord hb]; split <;> rfl
  cases h0 : Nat.beq o.f 0 with
  | true =>
    rw [h0, cond_true] at h
    cases h
    have h0 := beq_eq h0
    intro j hj
    rw [w16_min16, ha j hj, kw, h0]; rfl
  | false =>
    rw [h0, cond_false] at h
    replace h := cond_some h
    obtain ⟨h3, h⟩ := h
    cases h
    have h3 := beq_eq h3
    intro j hj
    rw [w16_min16, ha j hj, kw, h3]; rfl

theorem oMax_rel {u : Nat} {o o' : Oct} {va vb : V} {k : Nat} (h : oMax cx u o = some o') (ha : laneRel cx E o va k)
    (hb : AV.Rel cx E (.k u u) vb) : laneRel cx E o' (Vc.max16 va vb) k := by
  unfold oMax at h
  replace h := cond_some h
  obtain ⟨hu, h⟩ := h
  have hu := beq_eq hu
  subst hu
  have kw : ∀ i, w16 vb i = wrap16 cx.lo := by
    intro i; unfold w16; rw [kWord hb]; split <;> rfl
  cases h0 : Nat.beq o.f 0 with
  | true =>
    rw [h0, cond_true] at h
    cases h
    have h0 := beq_eq h0
    intro j hj
    rw [w16_max16, ha j hj, kw, h0]; rfl
  | false =>
    rw [h0, cond_false] at h
    replace h := cond_some h
    obtain ⟨h3, h⟩ := h
    cases h
    have h3 := beq_eq h3
    intro j hj
    rw [w16_max16, ha j hj, kw, h3]; rfl

end Davs2.Si
