import Verif.Lemmas.AecLps
import Mathlib.Tactic.Positivity
/-
Lemmas on the arithmetic decoder: one decoding step refines the exact interval.
-/
namespace Davs2
open Spec

theorem Aec.Rel.mkR {a : Aec} {l : List Bool} {i : Ival} {T : Nat} {off : ℚ} {e t1 vt : Nat} (hT : e + l.length = T) (hr : RdRep a.rd l)
    (he : a.err = false) (ht : a.t1 = t1) (hm : i.m = 256 + t1) (h256 : t1 < 256) (hvs : a.vs ≤ 254)
    (hs1 : a.s1 ≤ 254) (hR : a.inR = true) (hv : a.vt = vt) (hvt : vt < 256 + t1) (hie : i.e = e) (ho : i.off = off)
    (hoff : off * 2 ^ e = vt + frac l) : a.Rel l i T := by
  subst ht hv hie ho
  exact ⟨hr, he, h256, hm, hvs, hs1, _, hT, Or.inl ⟨hR, hvt, rfl, hoff⟩⟩

theorem Aec.Rel.mkLg {a : Aec} {l : List Bool} {i : Ival} {T : Nat} {off : ℚ} {e t1 vt s1 vs k : Nat} (hT : k + l.length = T) (hr : RdRep a.rd l)
    (he : a.err = false) (ht : a.t1 = t1) (hm : i.m = 256 + t1) (h256 : t1 < 256) (hvs : a.vs = vs) (hvs' : vs ≤ 254)
    (hd : a.dom = false) (hb : a.bound = false) (hv : a.vt = vt) (hvt : vt < 256) (hs : a.s1 = s1)
    (hpos : s1 < vs ∨ (s1 = vs ∧ vt < t1)) (hie : i.e = e) (hek : e + vs = k + s1) (ho : i.off = off)
    (hoff : off * 2 ^ k = 256 + vt + frac l) : a.Rel l i T := by
  subst ht hv hie ho hs hvs
  exact ⟨hr, he, h256, hm, hvs', by omega, k, hT, Or.inr (Or.inl ⟨hd, hb, hvt, hpos, hek, hoff⟩)⟩

theorem Aec.Rel.mkBound {a : Aec} {l : List Bool} {i : Ival} {T : Nat} {off : ℚ} {e t1 vt s1 k : Nat} (hT : k + l.length = T) (hr : RdRep a.rd l)
    (he : a.err = false) (ht : a.t1 = t1) (hm : i.m = 256 + t1) (h256 : t1 < 256) (hvs : a.vs = 254)
    (hd : a.dom = false) (hb : a.bound = true) (hv : a.vt = vt) (hvt : vt < 256) (hs : a.s1 = s1)
    (hpos : s1 < 254) (hie : i.e = e) (hek : e + 254 = k + s1) (ho : i.off = off)
    (hoff : off * 2 ^ k = vt + frac l) : a.Rel l i T := by
  subst ht hv hie ho hs
  exact ⟨hr, he, h256, hm, by omega, by omega, k, hT, Or.inr (Or.inr ⟨hd, hb, hvt, hpos, hvs, by omega, hoff⟩)⟩

theorem pair_ival {x : Bool × Ival} {b0 : Bool} {o : ℚ} {m e : Nat} (h : x = (b0, ⟨o, m, e⟩)) :
    x.1 = b0 ∧ x.2.off = o ∧ x.2.m = m ∧ x.2.e = e := by
  subst h; exact ⟨rfl, rfl, rfl, rfl⟩

/-- One decoding step in the logarithmic domain, for a cost `lg`. -/
theorem Aec.LgRel.step {b : Aec} {vs : Nat} {l : List Bool} {i : Ival} {T : Nat} (h : b.LgRel vs l i T) {lg : Nat}
    (h1 : 1 ≤ lg) (h2 : lg ≤ 255) :
    let sf := if b.t1 < lg then 1 else 0
    let s2 := add32 b.s1 sf
    let t2 := add32 (sub32 b.t1 lg) (256 * sf)
    let isLps := (decide (s2 > vs) || (s2 == vs && decide (b.vt ≥ t2))) && !b.bound
    let trlps := if sf = 0 then lg else add32 b.t1 lg
    isLps = (i.decode lg).1 ∧
    (isLps = false → Aec.Rel { b with dom := false, s1 := s2, t1 := t2, vs := vs } l (i.decode lg).2 T) ∧
    (isLps = true →
      (∃ c, Aec.lps { b with dom := true } vs s2 t2 trlps = some (c, true) ∧ c.err = true ∧ l.length < 9 ∧ T < (i.decode lg).2.e) ∨
      (∃ c j, Aec.lps { b with dom := true } vs s2 t2 trlps = some (c, false) ∧ j ≤ 9 ∧
        Aec.Rel { c with vs := vs } (l.drop j) (i.decode lg).2 T ∧ c.dom = true ∧ c.bound = false ∧ c.vs = b.vs ∧ (lg = 1 → c.t1 = 0))) := by
  obtain ⟨hr, he, ht, hm, hvs, hvt, hvs', k, hT, hek, hcase⟩ := h
  have hs1 : b.s1 ≤ 254 := by omega
  intro sf s2 t2 isLps trlps
  have hisl : isLps = ((decide (s2 > vs) || (s2 == vs && decide (b.vt ≥ t2))) && !b.bound) := rfl
  have htr0 : trlps = if sf = 0 then lg else add32 b.t1 lg := rfl
  have ht20 : t2 = add32 (sub32 b.t1 lg) (256 * sf) := rfl
  have hs20 : s2 = add32 b.s1 sf := rfl
  have hsf0 : sf = if b.t1 < lg then 1 else 0 := rfl
  clear_value isLps trlps t2 s2 sf
  have hsfe : (sf = 1 ∧ b.t1 < lg) ∨ (sf = 0 ∧ lg ≤ b.t1) := by
    rw [hsf0]; split <;> omega
  clear hsf0
  have hsf : sf ≤ 1 := by omega
  have hs2 : s2 = b.s1 + sf := by rw [hs20]; unfold add32; omega
  have hl : (lg ≤ i.m - 256) ↔ sf = 0 := by rw [hm]; omega
  have ht2 : t2 + lg = b.t1 + 256 * sf := by
    rw [ht20]; unfold add32 sub32
    rcases hsfe with ⟨h, _⟩ | ⟨h, _⟩ <;> rw [h] <;> omega
  have ht2' : t2 < 256 := by omega
  have hmp : i.mpsPart lg = (256 + t2, i.e + sf) := by
    unfold Ival.mpsPart
    by_cases hz : sf = 0
    · rw [if_pos (hl.2 hz), hz]; simp; omega
    · have : sf = 1 := by omega
      rw [if_neg (fun h => hz (hl.1 h)), this]; simp; omega
  have htr : trlps = if sf = 0 then lg else b.t1 + lg := by
    rw [htr0]; unfold add32; split
    · rfl
    · omega
  have hlp : i.lpsPart lg = (trlps, i.e + sf) := by
    unfold Ival.lpsPart
    rw [htr]
    by_cases hz : sf = 0
    · rw [if_pos (hl.2 hz), if_pos hz, hz]; simp
    · have : sf = 1 := by omega
      rw [if_neg (fun h => hz (hl.1 h)), if_neg hz, this]; simp; omega
  have hf0 := frac_nonneg l
  have hf1 := frac_lt_one l
  -- comparison of the exact offset
  have hdec : isLps = true ↔ ¬ i.off < ((256 + t2 : Nat) : ℚ) / 2 ^ (i.e + sf) := by
    rcases hcase with ⟨hb, hpos, hoff⟩ | ⟨hb, hs254, hv254, hoff⟩
    · have his : isLps = true ↔ (s2 > vs ∨ (s2 = vs ∧ t2 ≤ b.vt)) := by
        rw [hisl, hb]; simp
      rw [his]
      by_cases hgt : s2 > vs
      · -- the value is one bit short
        have hkE : k + 1 = i.e + sf + 0 := by omega
        have hoff' : i.off * 2 ^ (k + 1) = 2 * (256 + b.vt + frac l) := by rw [pow_succ, ← mul_assoc, hoff]; ring
        rw [lt_div_pow hoff' hkE]
        simp only [hgt, true_or, true_iff, not_lt, pow_zero, mul_one]
        have : ((256 + t2 : Nat) : ℚ) ≤ 512 := by exact_mod_cast (by omega : 256 + t2 ≤ 512)
        have hv : (0 : ℚ) ≤ b.vt := Nat.cast_nonneg _
        linarith
      · rw [lt_div_pow hoff (by omega : k = (i.e + sf) + (vs - s2))]
        by_cases heq : s2 = vs
        · rw [heq, Nat.sub_self, pow_zero, mul_one]
          simp only [gt_iff_lt, lt_irrefl, false_or, true_and, not_lt]
          push_cast
          constructor
          · intro h
            have : (t2 : ℚ) ≤ b.vt := by exact_mod_cast h
            linarith
          · intro h
            by_contra hc
            have : (b.vt : ℚ) + 1 ≤ t2 := by exact_mod_cast (by omega : b.vt + 1 ≤ t2)
            linarith
        · have hlt : s2 < vs := by omega
          simp only [hgt, heq, false_and, or_false, false_iff, not_not]
          obtain ⟨d, hd⟩ : ∃ d, vs - s2 = d + 1 := ⟨vs - s2 - 1, by omega⟩
          rw [hd, pow_succ]
          have hp : (1 : ℚ) ≤ 2 ^ d := one_le_pow₀ (by norm_num)
          have hv : (b.vt : ℚ) + 1 ≤ 256 := by exact_mod_cast (by omega : b.vt + 1 ≤ 256)
          have ht : (0 : ℚ) ≤ t2 := Nat.cast_nonneg _
          push_cast
          have : (256 : ℚ) * 1 ≤ (256 + t2) * 2 ^ d := mul_le_mul (by linarith) hp (by norm_num) (by linarith)
          linarith
    · have his : isLps = false := by rw [hisl, hb]; simp
      rw [his]
      simp only [Bool.false_eq_true, false_iff, not_not]
      rw [lt_div_pow hoff (by omega : k = (i.e + sf) + (vs - s2))]
      have hp : (1 : ℚ) ≤ 2 ^ (vs - s2) := one_le_pow₀ (by norm_num)
      have hv : (b.vt : ℚ) + 1 ≤ 256 := by exact_mod_cast (by omega : b.vt + 1 ≤ 256)
      have ht : (0 : ℚ) ≤ t2 := Nat.cast_nonneg _
      push_cast
      have : (256 : ℚ) * 1 ≤ (256 + t2) * 2 ^ (vs - s2) := mul_le_mul (by linarith) hp (by norm_num) (by linarith)
      linarith
  by_cases hd : i.off < ((256 + t2 : Nat) : ℚ) / 2 ^ (i.e + sf)
  · -- more probable symbol
    have hde : i.decode lg = (false, ⟨i.off, 256 + t2, i.e + sf⟩) := by
      unfold Ival.decode; simp only [hmp]; rw [if_pos hd]
    have hisf : isLps = false := by
      cases hx : isLps
      · rfl
      · exact absurd hd (hdec.1 hx)
    obtain ⟨d1, d2, d3, d4⟩ := pair_ival hde
    refine ⟨hisf.trans d1.symm, fun _ => ?_, fun h => absurd h (by rw [hisf]; simp)⟩
    rcases hcase with ⟨hb, hpos, hoff⟩ | ⟨hb, hs254, hv254, hoff⟩
    · have his : ¬ (s2 > vs ∨ (s2 = vs ∧ t2 ≤ b.vt)) := by
        intro h
        have : isLps = true := by rw [hisl, hb]; simpa using h
        rw [hisf] at this; exact absurd this (by simp)
      exact Aec.Rel.mkLg (off := i.off) (e := i.e + sf) (t1 := t2) (vt := b.vt) (s1 := s2) (vs := vs) (k := k) hT hr he rfl d3 ht2' rfl hvs rfl hb rfl hvt rfl (by omega) d4 (by omega) d2 hoff
    · by_cases h254 : s2 = 254
      · exact Aec.Rel.mkR (off := i.off) (e := k) (t1 := t2) (vt := b.vt) hT hr he rfl d3 ht2' hvs (le_of_eq h254) (by simp [Aec.inR, h254, hb]) rfl (by omega)
          (by omega) d2 hoff
      · exact Aec.Rel.mkBound (off := i.off) (e := i.e + sf) (t1 := t2) (vt := b.vt) (s1 := s2) (k := k) hT hr he rfl d3 ht2' hv254 rfl hb rfl hvt rfl (by omega) d4 (by omega) d2 hoff
  · have hist : isLps = true := hdec.2 hd
    have hde : i.decode lg = (true, ⟨i.off - ((256 + t2 : Nat) : ℚ) / 2 ^ (i.e + sf), trlps * 2 ^ doublings trlps,
        i.e + sf + doublings trlps⟩) := by
      unfold Ival.decode; simp only [hmp, hlp]; rw [if_neg hd]
    obtain ⟨d1, d2, d3, d4⟩ := pair_ival hde
    refine ⟨hist.trans d1.symm, fun h => absurd h (by rw [hist]; simp), fun _ => ?_⟩
    rcases hcase with ⟨hb, hpos, hoff⟩ | ⟨hb, hs254, hv254, hoff⟩
    swap
    · have his : isLps = false := by rw [hisl, hb]; simp
      rw [hist] at his; exact absurd his (by simp)
    have his : s2 > vs ∨ (s2 = vs ∧ t2 ≤ b.vt) := by
      rw [hisl, hb] at hist; simpa using hist
    have htr1 : 1 ≤ trlps := by rw [htr]; split <;> omega
    have htr2 : trlps < 512 := by rw [htr]; split <;> omega
    have hsf2 : sf = 0 ∨ sf = 1 := by omega
    clear hisl hs20 ht20 htr0
    have hcs : (s2 = vs ∧ t2 ≤ b.vt ∧ b.vt < t2 + trlps) ∨ (s2 ≠ vs ∧ t2 < 256 ∧ 2 * b.vt + 1 + 256 < t2 + trlps) := by
      rw [htr]
      rcases hsf2 with h | h <;> simp only [h, if_true, Nat.one_ne_zero, if_false] <;> omega
    rcases Aec.lps_spec (a := { b with dom := true }) hr he (vs := vs) (s2 := s2) (t2 := t2) htr1 htr2 hvt hcs with
      ⟨c, e1, e2, e3, e8⟩ | ⟨r, v, j, e1, e2, e3, e4, e5, e6, e8, e9, e7⟩
    · left
      refine ⟨c, e1, e2, e3, ?_⟩
      rw [d4]
      by_cases heq : s2 = vs
      · rw [if_pos heq] at e8; omega
      · rw [if_neg heq] at e8; omega
    · right
      refine ⟨_, j, e1, e6, ?_, rfl, hb, rfl, ?_⟩
      · refine Aec.Rel.mkR (off := i.off - ((256 + t2 : Nat) : ℚ) / 2 ^ (i.e + sf)) (e := i.e + sf + doublings trlps)
          (t1 := trlps * 2 ^ doublings trlps - 256) (vt := v) ?_ e2 he rfl (by omega) (by omega) hvs
          (Nat.zero_le _) (by simp [Aec.inR]) rfl (by omega) d4 d2 ?_
        · rw [List.length_drop]
          by_cases heq : s2 = vs
          · rw [if_pos heq] at e9; omega
          · rw [if_neg heq] at e9; omega
        rw [e7]
        have hpe : (2 : ℚ) ^ (i.e + sf) ≠ 0 := by positivity
        rw [pow_add _ (i.e + sf), ← mul_assoc, sub_mul, div_mul_cancel₀ _ hpe, mul_comm]
        congr 1
        by_cases heq : s2 = vs
        · rw [if_pos heq, (by omega : i.e + sf = k), hoff]; push_cast; ring
        · rw [if_neg heq, (by omega : i.e + sf = k + 1), pow_succ, ← mul_assoc, hoff]; push_cast; ring
      · intro h
        have htr0 : trlps = 1 := by
          rw [htr]
          split <;> omega
        simp only [htr0]
        rw [doublings_eq (t := 1) (n := 8) (by omega) (by omega) (by omega)]; rfl

end Davs2
