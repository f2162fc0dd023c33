import Verif.Model.Aec
import Verif.Lemmas.AecRead
import Verif.Props.AecCtx
import Verif.Spec.ArithDec
import Mathlib.Tactic.Ring
import Mathlib.Tactic.Linarith
import Mathlib.Tactic.NormNum
import Mathlib.Tactic.FieldSimp
/-
Lemmas on the arithmetic decoder: reading of bits into the value register.
-/
namespace Davs2
open Spec

theorem Aec.nextBit_cons {a : Aec} {b : Bool} {l : List Bool} (h : RdRep a.rd (b :: l)) :
    ∃ r, a.nextBit = some ({ a with rd := r, vt := (2 * a.vt + b.toNat) % 2 ^ 32 }, false) ∧ RdRep r l := by
  obtain ⟨r, h1, h2, _⟩ := h.next
  exact ⟨r, by unfold Aec.nextBit; rw [h1], h2⟩

theorem Aec.nextBit_nil {a : Aec} (h : RdRep a.rd []) :
    ∃ r, a.nextBit = some ({ a with rd := r, err := true }, true) ∧ RdEnd r 1 := by
  obtain ⟨r, h1, h2⟩ := h.eos
  exact ⟨r, by unfold Aec.nextBit; rw [h1], h2⟩

theorem Aec.nextBit_end {a : Aec} {k : Nat} (h : RdEnd a.rd k) (hk : k < 128) :
    ∃ r, a.nextBit = some ({ a with rd := r, err := true }, true) ∧ RdEnd r (k + 1) := by
  obtain ⟨r, h1, h2⟩ := h.next hk
  exact ⟨r, by unfold Aec.nextBit; rw [h1], h2⟩

theorem Aec.nextLoop_ok {l : List Bool} : ∀ (n : Nat) {a : Aec}, RdRep a.rd l → n ≤ l.length → a.vt < 2 ^ 32 →
    ∃ r, a.nextLoop n = some { a with rd := r, vt := (a.vt * 2 ^ n + valOf (l.take n)) % 2 ^ 32 } ∧
      RdRep r (l.drop n) := by
  intro n
  induction n generalizing l with
  | zero =>
    intro a h _ hv
    refine ⟨a.rd, ?_, h⟩
    simp only [Aec.nextLoop, List.take_zero, List.drop_zero, valOf, List.foldl_nil, Nat.pow_zero, Nat.mul_one, Nat.add_zero]
    rw [Nat.mod_eq_of_lt hv]
  | succ n ih =>
    intro a h hl hv
    cases l with
    | nil => simp at hl
    | cons b l =>
      obtain ⟨r, h1, h2⟩ := Aec.nextBit_cons h
      obtain ⟨r', h3, h4⟩ := ih (a := { a with rd := r, vt := (2 * a.vt + b.toNat) % 2 ^ 32 }) h2
        (by simpa using hl) (Nat.mod_lt _ (by norm_num))
      refine ⟨r', ?_, h4⟩
      simp only [Aec.nextLoop, h1, h3]
      congr 2
      rw [List.take_succ_cons, valOf_cons, List.length_take, Nat.min_eq_left (by simpa using hl)]
      rw [Nat.add_mod, Nat.mod_mul_mod]
      rw [← Nat.add_mod]
      congr 1
      rw [Nat.pow_succ]; ring

theorem Aec.nextLoop_end : ∀ (n : Nat) {a : Aec} {k : Nat}, RdEnd a.rd k → k + n ≤ 128 → a.err = true →
    ∃ a', a.nextLoop n = some a' ∧ a'.err = true := by
  intro n
  induction n with
  | zero => intro a k _ _ he; exact ⟨a, rfl, he⟩
  | succ n ih =>
    intro a k h hk he
    obtain ⟨r, h1, h2⟩ := Aec.nextBit_end h (by omega)
    obtain ⟨a', h3, h4⟩ := ih (a := { a with rd := r, err := true }) h2 (by omega) rfl
    exact ⟨a', by simp only [Aec.nextLoop, h1, h3], h4⟩

theorem Aec.nextLoop_err {l : List Bool} : ∀ (n : Nat) {a : Aec}, RdRep a.rd l → l.length < n →
    n ≤ l.length + 128 → ∃ a', a.nextLoop n = some a' ∧ a'.err = true := by
  intro n
  induction n generalizing l with
  | zero => intro a _ h _; omega
  | succ n ih =>
    intro a h hl hn
    cases l with
    | nil =>
      obtain ⟨r, h1, h2⟩ := Aec.nextBit_nil h
      simp at hn
      obtain ⟨a', h3, h4⟩ := Aec.nextLoop_end n (a := { a with rd := r, err := true }) h2 (by omega) rfl
      exact ⟨a', by simp only [Aec.nextLoop, h1, h3], h4⟩
    | cons b l =>
      obtain ⟨r, h1, h2⟩ := Aec.nextBit_cons h
      simp at hl hn
      obtain ⟨a', h3, h4⟩ := ih (a := { a with rd := r, vt := (2 * a.vt + b.toNat) % 2 ^ 32 }) h2 hl (by omega)
      exact ⟨a', by simp only [Aec.nextLoop, h1, h3], h4⟩

/-- Reading several bits at once from the 64-bit buffer is reading them one by one. -/
theorem Aec.nextLoop_fast : ∀ (n : Nat) (a : Aec) (k : Nat), a.rd.toGo = k → k ≤ 63 → n ≤ k → a.vt < 2 ^ 32 →
    a.nextLoop n = some { a with
      rd := { a.rd with toGo := ((k - n : Nat) : Int) }
      vt := (a.vt * 2 ^ n + a.rd.byteBuf / 2 ^ (k - n) % 2 ^ n) % 2 ^ 32 } := by
  intro n
  induction n with
  | zero =>
    intro a k hk _ _ hv
    simp only [Aec.nextLoop, Nat.pow_zero, Nat.mod_one, Nat.mul_one, Nat.add_zero, Nat.sub_zero, ← hk]
    rw [Nat.mod_eq_of_lt hv]
  | succ n ih =>
    intro a k hk h63 hn hv
    obtain ⟨j, rfl⟩ : ∃ j, k = j + 1 := ⟨k - 1, by omega⟩
    have e : toInt8 (a.rd.toGo - 1) = (j : Int) := by rw [hk, toInt8_id] <;> omega
    have hb : a.nextBit = some ({ a with
        rd := { a.rd with toGo := (j : Int) }
        vt := (2 * a.vt + (a.rd.byteBuf.testBit j).toNat) % 2 ^ 32 }, false) := by
      unfold Aec.nextBit aecNextBit AecRd.extract
      simp only [e]
      rw [if_neg (by omega), if_pos (by omega)]
      simp
    simp only [Aec.nextLoop, hb]
    rw [ih { a with
        rd := { a.rd with toGo := (j : Int) }
        vt := (2 * a.vt + (a.rd.byteBuf.testBit j).toNat) % 2 ^ 32 } j rfl (by omega) (by omega)
        (Nat.mod_lt _ (by norm_num))]
    simp only []
    rw [show j + 1 - (n + 1) = j - n by omega]
    congr 2
    rw [Nat.add_mod, Nat.mod_mul_mod, ← Nat.add_mod]
    congr 1
    have ht : (a.rd.byteBuf.testBit j).toNat = a.rd.byteBuf / 2 ^ j % 2 := Nat.toNat_testBit _ _
    rw [ht]
    have h1 : a.rd.byteBuf / 2 ^ j = a.rd.byteBuf / 2 ^ (j - n) / 2 ^ n := by
      rw [Nat.div_div_eq_div_mul, ← Nat.pow_add]; congr 2; omega
    rw [h1]
    generalize a.rd.byteBuf / 2 ^ (j - n) = x
    rw [Nat.pow_succ, Nat.mod_mul]
    ring

theorem Aec.nextN_eq {a : Aec} {l : List Bool} (h : RdRep a.rd l) (he : a.err = false) (n : Nat)
    (hv : a.vt < 2 ^ 32) : a.nextN n = (a.nextLoop n).map fun b => (b, b.err) := by
  obtain ⟨k, h1, h2, _, _⟩ := h
  unfold Aec.nextN
  by_cases hn : n ≤ k
  · rw [if_pos (by omega), Aec.nextLoop_fast n a k h1 h2 hn hv]
    have e : toInt8 (a.rd.toGo - n) = ((k - n : Nat) : Int) := by rw [h1, toInt8_id] <;> omega
    simp only [e]
    rw [if_pos (by omega)]
    simp [he]
  · rw [if_neg (by omega)]
    cases a.nextLoop n <;> rfl

/-- Reading `n` bits into the value register, or failing. -/
theorem Aec.nextN_spec {a : Aec} {l : List Bool} (h : RdRep a.rd l) (he : a.err = false) (n : Nat) (hn : n ≤ 128)
    (hv : a.vt < 2 ^ 32) :
    (n ≤ l.length ∧ ∃ r, a.nextN n =
        some ({ a with rd := r, vt := (a.vt * 2 ^ n + valOf (l.take n)) % 2 ^ 32 }, false) ∧ RdRep r (l.drop n)) ∨
    (l.length < n ∧ ∃ a', a.nextN n = some (a', true) ∧ a'.err = true) := by
  rw [Aec.nextN_eq h he n hv]
  by_cases hl : n ≤ l.length
  · obtain ⟨r, h1, h2⟩ := Aec.nextLoop_ok n h hl hv
    exact Or.inl ⟨hl, r, by rw [h1]; simp [he], h2⟩
  · obtain ⟨a', h1, h2⟩ := Aec.nextLoop_err n h (by omega) (by omega)
    exact Or.inr ⟨by omega, a', by rw [h1]; simp [h2], h2⟩

theorem frac_nonneg (l : List Bool) : 0 ≤ frac l := by
  induction l with
  | nil => exact le_refl _
  | cons b l ih => unfold frac; split <;> linarith

theorem frac_lt_one (l : List Bool) : frac l < 1 := by
  induction l with
  | nil => unfold frac; norm_num
  | cons b l ih => unfold frac; split <;> linarith

theorem frac_cons (b : Bool) (l : List Bool) : 2 * frac (b :: l) = (b.toNat : ℚ) + frac l := by
  cases b <;> simp [frac] <;> ring

theorem frac_take (l : List Bool) (n : Nat) (h : n ≤ l.length) :
    2 ^ n * frac l = (valOf (l.take n) : ℚ) + frac (l.drop n) := by
  induction n generalizing l with
  | zero => simp [valOf]
  | succ n ih =>
    cases l with
    | nil => simp at h
    | cons b l =>
      rw [List.take_succ_cons, List.drop_succ_cons, valOf_cons, List.length_take,
        Nat.min_eq_left (by simpa using h)]
      have h1 := ih l (by simpa using h)
      have h2 := frac_cons b l
      have : (2 : ℚ) ^ (n + 1) * frac (b :: l) = 2 ^ n * (2 * frac (b :: l)) := by ring
      rw [this, h2]
      push_cast
      linarith

/-- The decoder state `a`, with the bits `l` still unread, stands for the exact interval `i`.  `k` is the number of bits read, `T` of all bits,
both without the first nine. -/
def Aec.Rel (a : Aec) (l : List Bool) (i : Ival) (T : Nat) : Prop :=
  RdRep a.rd l ∧ a.err = false ∧ a.t1 < 256 ∧ i.m = 256 + a.t1 ∧ a.vs ≤ 254 ∧ a.s1 ≤ 254 ∧ ∃ k, k + l.length = T ∧
    ((a.inR = true ∧ a.vt < 256 + a.t1 ∧ i.e = k ∧ i.off * 2 ^ k = a.vt + frac l) ∨
    (a.dom = false ∧ a.bound = false ∧ a.vt < 256 ∧ (a.s1 < a.vs ∨ (a.s1 = a.vs ∧ a.vt < a.t1)) ∧
      i.e + a.vs = k + a.s1 ∧ i.off * 2 ^ k = 256 + a.vt + frac l) ∨
    (a.dom = false ∧ a.bound = true ∧ a.vt < 256 ∧ a.s1 < 254 ∧ a.vs = 254 ∧
      i.e + a.vs = k + a.s1 ∧ i.off * 2 ^ k = a.vt + frac l))

/-- The same in the logarithmic domain, with the exponent of the value in a local variable. -/
def Aec.LgRel (a : Aec) (vs : Nat) (l : List Bool) (i : Ival) (T : Nat) : Prop :=
  RdRep a.rd l ∧ a.err = false ∧ a.t1 < 256 ∧ i.m = 256 + a.t1 ∧ vs ≤ 254 ∧ a.vt < 256 ∧ a.vs ≤ 254 ∧ ∃ k,
    k + l.length = T ∧ i.e + vs = k + a.s1 ∧
    ((a.bound = false ∧ (a.s1 < vs ∨ (a.s1 = vs ∧ a.vt < a.t1)) ∧ i.off * 2 ^ k = 256 + a.vt + frac l) ∨
     (a.bound = true ∧ a.s1 < 254 ∧ vs = 254 ∧ i.off * 2 ^ k = a.vt + frac l))

theorem Aec.fill_spec {l : List Bool} : ∀ (fuel : Nat) {a : Aec} {vs : Nat}, RdRep a.rd l → a.err = false →
    a.vt < 512 → fuel + vs = 254 →
    (∃ a' vs', a.fill fuel vs = some (a', vs', true) ∧ a'.err = true ∧ l.length < fuel ∧
      2 ^ l.length * ((a.vt : ℚ) + frac l) < 256) ∨
    (∃ r v j l', a.fill fuel vs = some ({ a with rd := r, vt := v }, vs + j, false) ∧ RdRep r l' ∧
      v < 512 ∧ vs + j ≤ 254 ∧ (256 ≤ v ∨ vs + j = 254) ∧ (v < 256 → vs + j = 254) ∧ l' = l.drop j ∧
      (j = 0 → v = a.vt) ∧ (0 < j → a.vt < 256) ∧ j + l'.length = l.length ∧
      2 ^ j * ((a.vt : ℚ) + frac l) = v + frac l') := by
  intro fuel
  induction fuel generalizing l with
  | zero =>
    intro a vs h he hv hf
    refine Or.inr ⟨a.rd, a.vt, 0, l, ?_, h, hv, by omega, Or.inr (by omega), fun _ => by omega, rfl, fun _ => rfl,
      fun h => absurd h (by omega), Nat.zero_add _, by simp⟩
    simp [Aec.fill]
  | succ fuel ih =>
    intro a vs h he hv hf
    unfold Aec.fill
    by_cases hc : a.vt < 256 ∧ vs < 254
    · rw [if_pos hc]
      cases l with
      | nil =>
        obtain ⟨r, h1, _⟩ := Aec.nextBit_nil h
        rw [h1]
        refine Or.inl ⟨_, _, rfl, rfl, by simp, ?_⟩
        rw [List.length_nil, pow_zero, one_mul, frac, add_zero]
        exact_mod_cast hc.1
      | cons b l =>
        obtain ⟨r, h1, h2⟩ := Aec.nextBit_cons h
        have hm : (2 * a.vt + b.toNat) % 2 ^ 32 = 2 * a.vt + b.toNat :=
          Nat.mod_eq_of_lt (by cases b <;> simp <;> omega)
        rw [hm] at h1
        rw [h1]
        simp only []
        rcases ih (a := { a with rd := r, vt := 2 * a.vt + b.toNat }) (vs := vs + 1) h2 he
          (by cases b <;> simp <;> omega) (by omega) with ⟨a', vs', e1, e2, e3, e9⟩ | ⟨r', v, j, l', e1, e2, e3, e4, e5, e6, e7, _, _, e9, e8⟩
        · refine Or.inl ⟨a', vs', e1, e2, by simp; omega, ?_⟩
          have := frac_cons b l
          simp only [] at e9
          push_cast at e9
          rw [List.length_cons, pow_succ, show (2:ℚ) ^ l.length * 2 * ((a.vt : ℚ) + frac (b :: l)) =
            2 ^ l.length * (2 * a.vt + 2 * frac (b :: l)) by ring, this, ← add_assoc]
          exact e9
        · refine Or.inr ⟨r', v, j + 1, l', ?_, e2, e3, by omega, ?_, ?_, ?_, fun h => absurd h (by omega), fun _ => hc.1,
            by rw [List.length_cons]; omega, ?_⟩
          · rw [e1]; simp; omega
          · rcases e5 with e5 | e5
            · exact Or.inl e5
            · exact Or.inr (by omega)
          · intro h; have := e6 h; omega
          · rw [e7]; rfl
          · rw [← e8]
            have := frac_cons b l
            rw [pow_succ]
            simp only []
            push_cast
            rw [show (2:ℚ) ^ j * 2 * ((a.vt : ℚ) + frac (b :: l)) = 2 ^ j * (2 * a.vt + 2 * frac (b :: l)) by ring, this]
            ring
    · rw [if_neg hc]
      refine Or.inr ⟨a.rd, a.vt, 0, l, by simp, h, hv, by omega, by omega, by omega, rfl, fun _ => rfl,
        fun h => absurd h (by omega), Nat.zero_add _, by simp⟩

/-- In the logarithmic domain the bound has not been reached. -/
def Aec.Unbound (a : Aec) : Prop := a.dom = false → a.bound = false

theorem Aec.Rel.enter {a : Aec} {l : List Bool} {i : Ival} {T : Nat} (h : a.Rel l i T) :
    (∃ b vs, a.enter a.vs = some (b, vs, true) ∧ b.err = true ∧ l.length < 254 ∧ i.off * 2 ^ T < 256) ∨
    (∃ b vs j, a.enter a.vs = some (b, vs, false) ∧ b.LgRel vs (l.drop j) i T ∧ j ≤ 254 ∧
      (1 ≤ i.off * 2 ^ (i.e + 246) → a.Unbound → b.bound = false)) := by
  obtain ⟨hr, he, ht, hm, hvs, hs1, k, hT, hcase⟩ := h
  unfold Aec.enter
  by_cases hR : a.inR = true
  · rw [if_pos hR]
    have hval : a.vt < 256 + a.t1 ∧ i.e = k ∧ i.off * 2 ^ k = a.vt + frac l := by
      rcases hcase with h | h | h
      · exact h.2
      · exfalso
        unfold Aec.inR at hR; rw [h.1, h.2.1] at hR; simp at hR
      · exfalso
        unfold Aec.inR at hR; rw [h.1, h.2.1] at hR; simp at hR; omega
    obtain ⟨hv, hk, hoff⟩ := hval
    rcases Aec.fill_spec 254 (a := { a with s1 := 0 }) (vs := 0) hr he (by simp only []; omega) (by omega) with
      ⟨a', vs', e1, e2, e3, e9⟩ | ⟨r', v, j, l', e1, e2, e3, e4, e5, e6, e7, e9, e10, e11, e8⟩
    · left; rw [e1]
      refine ⟨a', vs', rfl, e2, e3, ?_⟩
      rw [← hT, pow_add, ← mul_assoc, hoff, mul_comm]
      exact e9
    · right
      rw [e1]
      subst e7
      have hoff' : i.off * 2 ^ (k + j) = v + frac (l.drop j) := by
        rw [pow_add, ← mul_assoc, hoff, ← e8]
        ring
      refine ⟨_, _, j, rfl, ?_, by omega, ?_⟩
      rotate_left
      · intro h1 _
        simp only [decide_eq_false_iff_not]
        intro hv256
        have hj := e6 hv256
        have hf1 := frac_lt_one (l.drop j)
        have hv1 : (v : ℚ) + 1 ≤ 256 := by exact_mod_cast (by omega : v + 1 ≤ 256)
        rw [hk] at h1
        have e254 : k + j = k + 246 + 8 := by omega
        rw [e254, pow_add _ (k + 246), ← mul_assoc] at hoff'
        have : (256 : ℚ) ≤ i.off * 2 ^ (k + 246) * 2 ^ 8 := by linarith
        linarith
      refine ⟨e2, he, ht, hm, by omega, Nat.mod_lt _ (by norm_num), hvs, k + j, by omega, ?_, ?_⟩
      · simp only []; omega
      · simp only [] at e9 e10 ⊢
        by_cases hb : v < 256
        · right
          refine ⟨by simpa using hb, by omega, by have := e6 hb; omega, ?_⟩
          rw [hoff', Nat.mod_eq_of_lt hb]
        · left
          have hvm : v % 256 = v - 256 := by omega
          refine ⟨by simpa using hb, ?_, ?_⟩
          · by_cases hj : j = 0
            · right; have := e9 hj; omega
            · left; omega
          · rw [hoff', hvm, Nat.cast_sub (by omega)]; push_cast; ring
  · rw [if_neg hR]
    right
    refine ⟨a, a.vs, 0, rfl, ?_, by omega, ?_⟩
    rotate_left
    · intro _ hu
      refine hu ?_
      unfold Aec.inR at hR
      simp at hR
      exact hR.1
    refine ⟨hr, he, ht, hm, hvs, ?_, hvs, k, hT, ?_⟩
    · rcases hcase with h | h | h
      · exact absurd h.1 hR
      · exact h.2.2.1
      · exact h.2.2.1
    · rcases hcase with h | h | h
      · exact absurd h.1 hR
      · exact ⟨h.2.2.2.2.1, Or.inl ⟨h.2.1, h.2.2.2.1, h.2.2.2.2.2⟩⟩
      · exact ⟨h.2.2.2.2.2.1, Or.inr ⟨h.2.1, h.2.2.2.1, h.2.2.2.2.1, h.2.2.2.2.2.2⟩⟩

end Davs2
