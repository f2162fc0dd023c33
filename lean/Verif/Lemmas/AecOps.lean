import Verif.Lemmas.AecStep
/-
Lemmas on the arithmetic decoder: each decoding function refines a step of the exact interval.
-/
namespace Davs2
open Spec

theorem CtxOk.lg {v : Nat} (h : CtxOk v) : 1 ≤ ctxLg v / 4 ∧ ctxLg v / 4 ≤ 255 := by
  have := h.fields; omega

theorem biariSymbol_step {a : Aec} {l : List Bool} {i : Ival} {T : Nat} (h : a.Rel l i T) {ctx : Nat} (hc : CtxOk ctx) :
    (∃ a', biariSymbol a ctx = some (a', ctx, 0) ∧ a'.err = true ∧ l.length < 263 ∧
      (i.off * 2 ^ T < 256 ∨ T < (i.decode (ctxLg ctx / 4)).2.e)) ∨
    (∃ a' j, biariSymbol a ctx = some (a', updateCtx (i.decode (ctxLg ctx / 4)).1 ctx,
        if (i.decode (ctxLg ctx / 4)).1 then 1 - ctxMps ctx else ctxMps ctx) ∧
      j ≤ 263 ∧ a'.Rel (l.drop j) (i.decode (ctxLg ctx / 4)).2 T ∧
      (1 ≤ i.off * 2 ^ (i.e + 246) → a.Unbound → a'.Unbound)) := by
  unfold biariSymbol
  rcases h.enter with ⟨b, vs, e1, e2, e3, e4⟩ | ⟨b, vs, j, e1, hL, hj, hU⟩
  · left
    simp only [e1]
    exact ⟨b, rfl, e2, by omega, Or.inl e4⟩
  · simp only [e1]
    have hbvs : ¬ b.vs > 254 := by have := hL.2.2.2.2.2.2.1; omega
    rw [if_neg hbvs]
    obtain ⟨hl1, hl2⟩ := hc.lg
    obtain ⟨s1, s2, s3⟩ := hL.step hl1 hl2
    cases hd : (i.decode (ctxLg ctx / 4)).1 with
    | true =>
      rw [hd] at s1
      rw [if_pos s1]
      rcases s3 s1 with ⟨c, c1, c2, c3, c4⟩ | ⟨c, j', c1, c2, c3, c4, _⟩
      · left
        rw [c1]
        rw [List.length_drop] at c3
        exact ⟨c, rfl, c2, by omega, Or.inr c4⟩
      · right
        rw [c1]
        rw [List.drop_drop] at c3
        exact ⟨_, _, rfl, by omega, c3, fun _ _ h => absurd (c4.symm.trans h) (by simp)⟩
    | false =>
      rw [hd] at s1
      rw [if_neg (by rw [s1]; exact Bool.false_ne_true)]
      right
      exact ⟨_, j, rfl, by omega, s2 s1, fun h1 h2 _ => hU h1 h2⟩

theorem biariFinal_step {a : Aec} {l : List Bool} {i : Ival} {T : Nat} (h : a.Rel l i T) :
    (∃ a', biariFinal a = some (a', 0) ∧ a'.err = true ∧ l.length < 263 ∧
      (i.off * 2 ^ T < 256 ∨ T < (i.decode 1).2.e)) ∨
    (∃ a' j, biariFinal a = some (a', (i.decode 1).1.toNat) ∧
      j ≤ 263 ∧ a'.Rel (l.drop j) (i.decode 1).2 T ∧
      (1 ≤ i.off * 2 ^ (i.e + 246) → a.Unbound → a'.Unbound)) := by
  unfold biariFinal
  rcases h.enter with ⟨b, vs, e1, e2, e3, e4⟩ | ⟨b, vs, j, e1, hL, hj, hU⟩
  · left
    simp only [e1]
    exact ⟨_, rfl, e2, by omega, Or.inl e4⟩
  · simp only [e1]
    have hL' : Aec.LgRel { b with vs := vs } vs (l.drop j) i T := by
      obtain ⟨h1, h2, h3, h4, h5, h6, h7, h8⟩ := hL
      exact ⟨h1, h2, h3, h4, h5, h6, h5, h8⟩
    obtain ⟨s1, s2, s3⟩ := hL'.step (lg := 1) (by omega) (by omega)
    have htr : (if (if b.t1 < 1 then 1 else 0) = 0 then 1 else add32 b.t1 1) = 1 := by
      by_cases h0 : b.t1 < 1
      · have : b.t1 = 0 := by omega
        rw [this]; rfl
      · simp [h0]
    simp only [htr] at s3
    cases hd : (i.decode 1).1 with
    | true =>
      rw [hd] at s1
      rw [if_pos s1]
      rcases s3 s1 with ⟨c, c1, c2, c3, c4⟩ | ⟨c, j', c1, c2, c3, c4, _, c6, c5⟩
      · left
        rw [c1]
        rw [List.length_drop] at c3
        exact ⟨c, rfl, c2, by omega, Or.inr c4⟩
      · right
        rw [c1]
        rw [List.drop_drop] at c3
        have e : ({ c with t1 := 0 } : Aec) = { c with vs := vs } := by
          have c5' := c5 trivial
          cases c
          simp only at c5' c6
          rw [c5', c6]
        refine ⟨_, j + j', rfl, by omega, ?_, fun _ _ h => absurd (c4.symm.trans h) (by simp)⟩
        rw [e]; exact c3
    | false =>
      rw [hd] at s1
      rw [if_neg (by rw [s1]; exact Bool.false_ne_true)]
      right
      exact ⟨_, j, rfl, by omega, s2 s1, fun h1 h2 _ => hU h1 h2⟩

/-- The state in which `biari_decode_symbol_eq_prob` goes wrong: the value is in the R domain only because the
bound has been reached. -/
def Aec.atBound (a : Aec) : Prop := a.dom = false ∧ a.s1 = 254 ∧ a.bound = true

theorem biariEq_step {a : Aec} {l : List Bool} {i : Ival} {T : Nat} (h : a.Rel l i T) (hb : ¬ a.atBound) :
    (∃ a', biariEq a = some (a', 0) ∧ a'.err = true ∧ l.length < 263 ∧ T < (i.decode 256).2.e) ∨
    (∃ a' j, biariEq a = some (a', (i.decode 256).1.toNat) ∧
      j ≤ 263 ∧ a'.Rel (l.drop j) (i.decode 256).2 T ∧
      (a.Unbound → a'.Unbound)) := by
  obtain ⟨hr, he, ht, hm, hvs, hs1, k, hT, hcase⟩ := h
  have hmp : i.mpsPart 256 = (i.m, i.e + 1) := by
    unfold Ival.mpsPart; rw [if_neg (by omega)]; simp
  have hlp : i.lpsPart 256 = (i.m, i.e + 1) := by
    unfold Ival.lpsPart; rw [if_neg (by omega)]; simp; omega
  have hdb : doublings i.m = 0 := doublings_eq (by omega) (by omega) (by omega)
  have hdt : ¬ i.off < (i.m : ℚ) / 2 ^ (i.e + 1) →
      i.decode 256 = (true, ⟨i.off - (i.m : ℚ) / 2 ^ (i.e + 1), i.m, i.e + 1⟩) := by
    intro hd
    unfold Ival.decode; simp only [hmp, hlp]; rw [if_neg hd, hdb]; simp
  have hdf : i.off < (i.m : ℚ) / 2 ^ (i.e + 1) → i.decode 256 = (false, ⟨i.off, i.m, i.e + 1⟩) := by
    intro hd
    unfold Ival.decode; simp only [hmp]; rw [if_pos hd]
  have hde : (i.decode 256).2.e = i.e + 1 := by
    by_cases hd : i.off < (i.m : ℚ) / 2 ^ (i.e + 1)
    · rw [hdf hd]
    · rw [hdt hd]
  have hf0 := frac_nonneg l
  have hf1 := frac_lt_one l
  unfold biariEq
  by_cases hR : a.inR = true
  · have hdom : a.dom = true := by
      unfold Aec.inR at hR
      by_contra hd
      simp at hd
      rw [hd] at hR
      simp at hR
      exact hb ⟨hd, hR.1, hR.2⟩
    rw [if_pos hR]
    have hval : a.vt < 256 + a.t1 ∧ i.e = k ∧ i.off * 2 ^ k = a.vt + frac l := by
      rcases hcase with h | h | h
      · exact h.2
      · rw [hdom] at h; exact absurd h.1 (by simp)
      · rw [hdom] at h; exact absurd h.1 (by simp)
    obtain ⟨hv, hk, hoff⟩ := hval
    cases l with
    | nil =>
      obtain ⟨r, h1, _⟩ := Aec.nextBit_nil (a := { a with s1 := 0 }) hr
      left
      rw [h1]
      rw [List.length_nil] at hT
      exact ⟨_, rfl, rfl, by simp, by omega⟩
    | cons b l =>
      rw [List.length_cons] at hT
      obtain ⟨r, h1, h2⟩ := Aec.nextBit_cons (a := { a with s1 := 0 }) hr
      have hbit : b.toNat ≤ 1 := by cases b <;> simp
      rw [h1]
      simp only []
      rw [show (2 * a.vt + b.toNat) % 2 ^ 32 = 2 * a.vt + b.toNat from Nat.mod_eq_of_lt (by omega),
        show add32 256 a.t1 = 256 + a.t1 by unfold add32; omega]
      right
      have hoff' : i.off * 2 ^ (i.e + 1) = ((2 * a.vt + b.toNat : Nat) : ℚ) + frac l := by
        have := frac_cons b l
        rw [hk, pow_succ, ← mul_assoc, hoff]; push_cast; linarith
      have hg0 := frac_nonneg l
      have hg1 := frac_lt_one l
      have hcmp : i.off < (i.m : ℚ) / 2 ^ (i.e + 1) ↔ 2 * a.vt + b.toNat < 256 + a.t1 := by
        rw [lt_div_pow hoff' (by omega : i.e + 1 = i.e + 1 + 0), pow_zero, mul_one, hm]
        constructor
        · intro h
          by_contra hc
          have : ((256 + a.t1 : Nat) : ℚ) ≤ ((2 * a.vt + b.toNat : Nat) : ℚ) := by exact_mod_cast (by omega)
          linarith
        · intro h
          have : ((2 * a.vt + b.toNat : Nat) : ℚ) + 1 ≤ ((256 + a.t1 : Nat) : ℚ) := by exact_mod_cast h
          linarith
      by_cases hc : 2 * a.vt + b.toNat < 256 + a.t1
      · rw [if_neg (by omega)]
        obtain ⟨d1, d2, d3, d4⟩ := pair_ival (hdf (hcmp.2 hc))
        refine ⟨_, 1, by rw [d1]; rfl, by omega, ?_, ?_⟩
        swap
        · exact fun hu h => absurd (hdom.symm.trans h) (by simp)
        exact Aec.Rel.mkR (off := i.off) (e := i.e + 1) (t1 := a.t1) (vt := 2 * a.vt + b.toNat) (by simp only [List.drop_succ_cons, List.drop_zero]; omega) h2 he rfl
          (by omega) ht hvs (Nat.zero_le _) (by simp [Aec.inR, hdom]) rfl hc d4 d2 hoff'
      · rw [if_pos (by omega)]
        obtain ⟨d1, d2, d3, d4⟩ := pair_ival (hdt (fun h => hc (hcmp.1 h)))
        refine ⟨_, 1, by rw [d1]; rfl, by omega, ?_, ?_⟩
        swap
        · exact fun hu h => absurd (hdom.symm.trans h) (by simp)
        refine Aec.Rel.mkR (e := i.e + 1) (t1 := a.t1) (vt := 2 * a.vt + b.toNat - (256 + a.t1)) (by simp only [List.drop_succ_cons, List.drop_zero]; omega) h2 he rfl
          (by omega) ht hvs (Nat.zero_le _) (by simp [Aec.inR, hdom]) (by simp only []; unfold sub32; omega) (by omega) d4 d2 ?_
        have hpe : (2 : ℚ) ^ (i.e + 1) ≠ 0 := by positivity
        rw [sub_mul, div_mul_cancel₀ _ hpe, hoff', hm, Nat.cast_sub (by omega)]
        simp only [List.drop_succ_cons, List.drop_zero]
        ring
  · rw [if_neg hR]
    have hsub : add32 a.s1 1 = a.s1 + 1 := by
      unfold add32; rcases hcase with h | h | h
      · exact absurd h.1 hR
      · omega
      · omega
    rw [hsub]
    rcases hcase with h | ⟨hdom, hbd, hvt, hpos, hek, hoff⟩ | ⟨hdom, hbd, hvt, hpos, hv254, hek, hoff⟩
    · exact absurd h.1 hR
    · by_cases hgt : a.s1 + 1 > a.vs
      · -- one more bit
        have hkE : k + 1 = i.e + 1 + 0 := by omega
        have hoff' : i.off * 2 ^ (k + 1) = 2 * (256 + a.vt + frac l) := by rw [pow_succ, ← mul_assoc, hoff]; ring
        have hd : ¬ i.off < (i.m : ℚ) / 2 ^ (i.e + 1) := by
          rw [lt_div_pow hoff' hkE, hm, not_lt, pow_zero, mul_one]
          have : ((256 + a.t1 : Nat) : ℚ) ≤ 512 := by exact_mod_cast (by omega : 256 + a.t1 ≤ 512)
          have hv : (0 : ℚ) ≤ a.vt := Nat.cast_nonneg _
          linarith
        obtain ⟨d1, d2, d3, d4⟩ := pair_ival (hdt hd)
        simp only [hgt, decide_true, Bool.true_or, if_true]
        rw [if_neg (by omega)]
        cases l with
        | nil =>
          left
          obtain ⟨r, h1, _⟩ := Aec.nextBit_nil (a := { a with dom := true }) hr
          rw [h1]
          rw [List.length_nil] at hT
          exact ⟨_, rfl, rfl, by simp, by omega⟩
        | cons b l =>
          right
          rw [List.length_cons] at hT
          obtain ⟨r, h1, h2⟩ := Aec.nextBit_cons (a := { a with dom := true }) hr
          have hbit : b.toNat ≤ 1 := by cases b <;> simp
          rw [h1]
          simp only []
          rw [show (2 * a.vt + b.toNat) % 2 ^ 32 = 2 * a.vt + b.toNat from Nat.mod_eq_of_lt (by omega)]
          refine ⟨_, 1, by rw [d1]; rfl, by omega, ?_, ?_⟩
          swap
          · exact fun hu h => absurd h (by simp)
          refine Aec.Rel.mkR (e := i.e + 1) (t1 := a.t1) (vt := 2 * a.vt + b.toNat + (256 - a.t1)) (by simp only [List.drop_succ_cons, List.drop_zero]; omega) h2 he rfl
            (by omega) ht hvs hs1 (by simp [Aec.inR]) (by simp only []; unfold add32 sub32; omega) (by omega) d4 d2 ?_
          have hpe : (2 : ℚ) ^ (i.e + 1) ≠ 0 := by positivity
          have := frac_cons b l
          rw [sub_mul, div_mul_cancel₀ _ hpe, (by omega : i.e + 1 = k + 1), hoff', hm]
          push_cast [Nat.cast_sub (by omega : a.t1 ≤ 256)]
          simp only [List.drop_succ_cons, List.drop_zero]
          linarith
      · by_cases hlps : a.s1 + 1 = a.vs ∧ a.t1 ≤ a.vt
        · have hkE : k = i.e + 1 + 0 := by omega
          have hd : ¬ i.off < (i.m : ℚ) / 2 ^ (i.e + 1) := by
            rw [lt_div_pow hoff hkE, hm, not_lt, pow_zero, mul_one]
            have : ((a.t1 : Nat) : ℚ) ≤ a.vt := by exact_mod_cast hlps.2
            push_cast
            linarith
          obtain ⟨d1, d2, d3, d4⟩ := pair_ival (hdt hd)
          right
          rw [if_pos (by simp [hlps.1, hlps.2, hbd])]
          rw [if_pos hlps.1]
          refine ⟨_, 0, by rw [d1]; rfl, by omega, ?_, ?_⟩
          swap
          · exact fun hu _ => hu hdom
          refine Aec.Rel.mkR (e := i.e + 1) (t1 := a.t1) (vt := a.vt - a.t1) (by simp only [List.drop_zero]; omega) hr he rfl
            (by omega) ht hvs hs1 (by simp [Aec.inR]) (by simp only []; unfold sub32; omega) (by omega) d4 d2 ?_
          have hpe : (2 : ℚ) ^ (i.e + 1) ≠ 0 := by positivity
          rw [sub_mul, div_mul_cancel₀ _ hpe, (by omega : i.e + 1 = k), hoff, hm, Nat.cast_sub hlps.2]
          push_cast; simp only [List.drop_zero]; ring
        · have hd : i.off < (i.m : ℚ) / 2 ^ (i.e + 1) := by
            rw [lt_div_pow hoff (by omega : k = i.e + 1 + (a.vs - (a.s1 + 1))), hm]
            by_cases heq : a.s1 + 1 = a.vs
            · rw [heq, Nat.sub_self, pow_zero, mul_one]
              have : (a.vt : ℚ) + 1 ≤ a.t1 := by exact_mod_cast (by omega : a.vt + 1 ≤ a.t1)
              push_cast; linarith
            · obtain ⟨d, hd⟩ : ∃ d, a.vs - (a.s1 + 1) = d + 1 := ⟨a.vs - (a.s1 + 1) - 1, by omega⟩
              rw [hd, pow_succ]
              have hp : (1 : ℚ) ≤ 2 ^ d := one_le_pow₀ (by norm_num)
              have hv : (a.vt : ℚ) + 1 ≤ 256 := by exact_mod_cast (by omega : a.vt + 1 ≤ 256)
              have ht : (0 : ℚ) ≤ a.t1 := Nat.cast_nonneg _
              push_cast
              have : (256 : ℚ) * 1 ≤ (256 + a.t1) * 2 ^ d := mul_le_mul (by linarith) hp (by norm_num) (by linarith)
              linarith
          obtain ⟨d1, d2, d3, d4⟩ := pair_ival (hdf hd)
          right
          have hno : ¬ ((decide (a.s1 + 1 > a.vs) || (a.s1 + 1 == a.vs && decide (a.vt ≥ a.t1) && !a.bound)) = true) := by
            rw [hbd]; simp; omega
          rw [if_neg hno]
          refine ⟨_, 0, by rw [d1]; rfl, by omega, ?_, ?_⟩
          swap
          · exact fun hu _ => hu hdom
          exact Aec.Rel.mkLg (off := i.off) (e := i.e + 1) (t1 := a.t1) (vt := a.vt) (s1 := a.s1 + 1) (vs := a.vs)
            (k := k) hT hr he rfl (by omega) ht rfl hvs rfl hbd rfl hvt rfl (by omega) d4 (by omega) d2 hoff
    · have hd : i.off < (i.m : ℚ) / 2 ^ (i.e + 1) := by
        rw [lt_div_pow hoff (by omega : k = i.e + 1 + (a.vs - (a.s1 + 1))), hm]
        have hp : (1 : ℚ) ≤ 2 ^ (a.vs - (a.s1 + 1)) := one_le_pow₀ (by norm_num)
        have hv : (a.vt : ℚ) + 1 ≤ 256 := by exact_mod_cast (by omega : a.vt + 1 ≤ 256)
        have ht : (0 : ℚ) ≤ a.t1 := Nat.cast_nonneg _
        push_cast
        have : (256 : ℚ) * 1 ≤ (256 + a.t1) * 2 ^ (a.vs - (a.s1 + 1)) :=
          mul_le_mul (by linarith) hp (by norm_num) (by linarith)
        linarith
      obtain ⟨d1, d2, d3, d4⟩ := pair_ival (hdf hd)
      right
      have hno : ¬ ((decide (a.s1 + 1 > a.vs) || (a.s1 + 1 == a.vs && decide (a.vt ≥ a.t1) && !a.bound)) = true) := by
        rw [hbd]; simp; omega
      rw [if_neg hno]
      refine ⟨_, 0, by rw [d1]; rfl, by omega, ?_, ?_⟩
      swap
      · exact fun hu _ => hu hdom
      by_cases h254 : a.s1 + 1 = 254
      · exact Aec.Rel.mkR (off := i.off) (e := i.e + 1) (t1 := a.t1) (vt := a.vt) (by simp only [List.drop_zero]; omega) hr he rfl (by omega) ht hvs
          (le_of_eq h254) (by simp [Aec.inR, h254, hbd]) rfl (by omega) d4 d2 (by rw [(by omega : i.e + 1 = k)]; exact hoff)
      · exact Aec.Rel.mkBound (off := i.off) (e := i.e + 1) (t1 := a.t1) (vt := a.vt) (s1 := a.s1 + 1) (k := k)
          hT hr he rfl (by omega) ht hv254 rfl hbd rfl hvt rfl (by omega) d4 (by omega) d2 hoff

end Davs2
