import Verif.Spec.ArithEnc
import Verif.Lemmas.BinariseMachine
/-
The arithmetic decoder delivers the bins that were encoded.
-/
namespace Davs2.Sx
open Spec

theorem doublings_le {r : Nat} (h1 : 1 ≤ r) (h2 : r < 512) : 256 ≤ r * 2 ^ doublings r ∧ r * 2 ^ doublings r < 512 := by
  have h : ∀ r : Fin 512, 1 ≤ r.val → 256 ≤ r.val * 2 ^ doublings r.val ∧ r.val * 2 ^ doublings r.val < 512 := by decide +kernel
  exact h ⟨r, h2⟩ h1

/-- The interval has a size between 256 and 511 units. -/
def Enc.Ok (E : Enc) : Prop := 256 ≤ E.m ∧ E.m < 512

theorem div_shift (a : ℚ) (e n : Nat) : a * 2 ^ n / 2 ^ (e + n) = a / 2 ^ e := by
  rw [pow_add]; field_simp

/-- The parts of an interval: the lower one for the more probable value, the upper one for the other. -/
theorem put_spec {E : Enc} (h : E.Ok) {lg : Nat} (h1 : 1 ≤ lg) (h2 : lg ≤ 256) (i : Ival) (hm : i.m = E.m) (he : i.e = E.e) :
    (E.put lg false).Ok ∧ (E.put lg true).Ok ∧ (E.put lg false).lo = E.lo ∧ (E.put lg true).hi = E.hi ∧
    (E.put lg false).hi = E.lo + ((i.mpsPart lg).1 : ℚ) / 2 ^ (i.mpsPart lg).2 ∧
    (E.put lg true).lo = E.lo + ((i.mpsPart lg).1 : ℚ) / 2 ^ (i.mpsPart lg).2 ∧
    (E.put lg false).m = (i.mpsPart lg).1 ∧ (E.put lg false).e = (i.mpsPart lg).2 ∧
    (E.put lg true).m = (i.lpsPart lg).1 * 2 ^ doublings (i.lpsPart lg).1 ∧
    (E.put lg true).e = (i.lpsPart lg).2 + doublings (i.lpsPart lg).1 ∧
    E.e ≤ (E.put lg false).e ∧ E.e ≤ (E.put lg true).e ∧
    E.lo + 128 / 2 ^ E.e ≤ (E.put lg true).lo := by
  obtain ⟨low, m, e⟩ := E
  obtain ⟨o, m', e'⟩ := i
  dsimp only at hm he
  subst hm he
  obtain ⟨a, b⟩ := h
  dsimp only at a b
  have hp : (0 : ℚ) < 2 ^ e' := by positivity
  unfold Enc.put Ival.mpsPart Ival.lpsPart
  dsimp only
  by_cases hc : lg ≤ m' - 256
  · simp only [if_pos hc, if_true, Bool.false_eq_true, if_false]
    have hd := doublings_le h1 (by omega : lg < 512)
    have hq : ((m' - lg : Nat) : ℚ) = m' - lg := by rw [Nat.cast_sub (by omega)]
    have hl : (256 : ℚ) ≤ m' - lg := by rw [← hq]; exact_mod_cast (by omega : 256 ≤ m' - lg)
    refine ⟨⟨by dsimp only; omega, by dsimp only; omega⟩, hd, rfl, ?_, ?_, ?_, trivial, trivial, trivial, trivial, le_refl _, by omega, ?_⟩
    · unfold Enc.hi
      dsimp only
      push_cast
      rw [← add_mul, div_shift, hq]; congr 1; ring
    · unfold Enc.hi Enc.lo
      dsimp only
      push_cast
      rw [add_div]
    · unfold Enc.lo
      dsimp only
      push_cast
      rw [div_shift, add_div]
    · unfold Enc.lo
      dsimp only
      push_cast
      rw [div_shift, ← add_div, hq]
      exact (div_le_div_iff_of_pos_right hp).mpr (by linarith)
  · simp only [if_neg hc, if_true, Bool.false_eq_true, if_false]
    have hd := doublings_le (r := m' - 256 + lg) (by omega) (by omega)
    have hq : ((m' + 256 - lg : Nat) : ℚ) = m' + 256 - lg := by rw [Nat.cast_sub (by omega)]; push_cast; ring
    have hr : ((m' - 256 + lg : Nat) : ℚ) = m' - 256 + lg := by rw [Nat.cast_add, Nat.cast_sub (by omega)]; push_cast; ring
    have hl : (256 : ℚ) ≤ m' + 256 - lg := by rw [← hq]; exact_mod_cast (by omega : 256 ≤ m' + 256 - lg)
    have hdb : ∀ x : ℚ, 2 * x / 2 ^ (e' + 1) = x / 2 ^ e' := fun x => by rw [mul_comm, ← div_shift x e' 1, pow_one]
    refine ⟨⟨by dsimp only; omega, by dsimp only; omega⟩, hd, ?_, ?_, ?_, ?_, trivial, trivial, trivial, trivial, by omega, by omega, ?_⟩
    · unfold Enc.lo
      dsimp only
      push_cast
      exact hdb _
    · unfold Enc.hi
      dsimp only
      rw [Nat.cast_add, Nat.cast_mul, Nat.cast_mul, Nat.cast_pow, ← add_mul, Nat.cast_ofNat, div_shift, Nat.cast_add, hq, hr, ← hdb]
      congr 1; push_cast; ring
    · unfold Enc.hi Enc.lo
      dsimp only
      rw [Nat.cast_add, add_div, Nat.cast_mul, Nat.cast_ofNat, hdb]
    · unfold Enc.lo
      dsimp only
      rw [Nat.cast_mul, Nat.cast_pow, Nat.cast_ofNat, div_shift, Nat.cast_add, add_div, Nat.cast_mul, Nat.cast_ofNat, hdb]
    · unfold Enc.lo
      dsimp only
      rw [Nat.cast_mul, Nat.cast_pow, Nat.cast_ofNat, div_shift, Nat.cast_add, add_div, Nat.cast_mul, Nat.cast_ofNat, hdb, hq, ← hdb 128]
      have hp1 : (0 : ℚ) < 2 ^ (e' + 1) := by positivity
      have := (div_le_div_iff_of_pos_right hp1).mpr (by linarith : (2 * 128 : ℚ) ≤ m' + 256 - lg)
      linarith

theorem Enc.lo_lt_hi {E : Enc} (h : E.Ok) : E.lo < E.hi := by
  unfold Enc.lo Enc.hi
  have hp : (0 : ℚ) < 2 ^ E.e := by positivity
  rw [div_lt_div_iff_of_pos_right hp]
  have := h.1
  exact_mod_cast (by omega : E.low < E.low + E.m)

/-- One bin: what is kept. -/
theorem put_nested {E : Enc} (h : E.Ok) {lg : Nat} (h1 : 1 ≤ lg) (h2 : lg ≤ 256) (b : Bool) :
    (E.put lg b).Ok ∧ E.lo ≤ (E.put lg b).lo ∧ (E.put lg b).hi ≤ E.hi ∧ E.e ≤ (E.put lg b).e ∧
    (b = false → (E.put lg b).lo = E.lo) ∧ (b = true → E.lo + 128 / 2 ^ E.e ≤ (E.put lg b).lo) := by
  obtain ⟨a1, a2, a3, a4, a5, a6, _, _, _, _, a7, a8, a9⟩ := put_spec h h1 h2 ⟨0, E.m, E.e⟩ rfl rfl
  have hp : (0 : ℚ) < 128 / 2 ^ E.e := by positivity
  cases b with
  | false =>
    refine ⟨a1, le_of_eq a3.symm, ?_, a7, fun _ => a3, (fun h => nomatch h)⟩
    have := Enc.lo_lt_hi a2
    rw [a6, ← a5, a4] at this
    exact le_of_lt this
  | true => exact ⟨a2, by linarith, le_of_eq a4, a8, (fun h => nomatch h), fun _ => a9⟩

/-- Exact decoding finds the bin that was put. -/
theorem decode_put {E : Enc} (h : E.Ok) {lg : Nat} (h1 : 1 ≤ lg) (h2 : lg ≤ 256) (b : Bool) {x : ℚ}
    (hl : (E.put lg b).lo ≤ x) (hh : x < (E.put lg b).hi) :
    Ival.decode ⟨x - E.lo, E.m, E.e⟩ lg = (b, ⟨x - (E.put lg b).lo, (E.put lg b).m, (E.put lg b).e⟩) := by
  obtain ⟨_, _, a3, a4, a5, a6, m0, e0, m1, e1, _⟩ := put_spec h h1 h2 ⟨x - E.lo, E.m, E.e⟩ rfl rfl
  unfold Ival.decode
  dsimp only
  cases b with
  | false =>
    rw [if_pos (by rw [a5] at hh; linarith), m0, e0, a3]
  | true =>
    rw [if_neg (by rw [a6] at hl; linarith), m1, e1, a6]
    congr 2
    ring

/-! ### Sequences of bins -/

/-- Costs within range. -/
def CostOk (cs : Arr → Nat → ProbState) : Prop := ∀ a i, 1 ≤ (cs a i).lg / 4 ∧ (cs a i).lg / 4 ≤ 256

/-- The stored states are the states of the encoder. -/
def CRel (ctx : Arr → Nat → Nat) (cs : Arr → Nat → ProbState) : Prop := ∀ a, CtxsRel (ctx a) (cs a)

theorem CRel.cost {ctx : Arr → Nat → Nat} {cs : Arr → Nat → ProbState} (h : CRel ctx cs) (b : Bin) :
    1 ≤ binCost avsProb cs b ∧ binCost avsProb cs b ≤ 256 := by
  cases b with
  | ctx a i b =>
    obtain ⟨h1, h2, h3⟩ := h a i
    have := h2.lg
    have f := (enc_fields h3 ((h a).lg i)).1
    rw [h1, f] at this
    exact ⟨this.1, le_trans this.2 (by decide)⟩
  | eq b => exact ⟨(by decide : 1 ≤ 256), le_refl _⟩
  | fin b => exact ⟨le_refl _, (by decide : 1 ≤ 256)⟩

theorem CRel.learn {ctx : Arr → Nat → Nat} {cs : Arr → Nat → ProbState} (h : CRel ctx cs) (a : Arr) (i : Nat) (b : Bool) :
    CRel (fun a' i' => if a' = a ∧ i' = i then updateCtx (binLess avsProb cs (.ctx a i b)) (ctx a i) else ctx a' i')
      (Sx.learn avsProb cs (.ctx a i b)) := by
  intro a'
  by_cases ha : a' = a
  · subst ha
    have := (h a').update i (binLess avsProb cs (.ctx a' i b))
    have e1 : (fun i' => if a' = a' ∧ i' = i then updateCtx (binLess avsProb cs (.ctx a' i b)) (ctx a' i) else ctx a' i') =
        tabSet (ctx a') i (updateCtx (binLess avsProb cs (.ctx a' i b)) (ctx a' i)) := by funext i'; simp [tabSet]
    have e2 : Sx.learn avsProb cs (.ctx a' i b) a' = fun k =>
        if k = i then (if binLess avsProb cs (.ctx a' i b) then (cs a' i).afterLps else (cs a' i).afterMps) else cs a' k := by
      funext k
      simp only [Sx.learn, true_and]
      rfl
    dsimp only
    rw [e1, e2]
    exact this
  · simp only [Sx.learn, ha, false_and, if_false]
    exact h a'

def Bin.isEq : Bin → Bool
  | .eq _ => true
  | _ => false

/-- One bin of the arithmetic decoder. -/
theorem aec_bin {s : St} {cs : Arr → Nat → ProbState} {l : List Bool} {i j : Ival} {T : Nat} (hr : s.aec.Rel l i T) (hc : CRel s.ctx cs)
    (b : Bin) (hb : b.isEq = true → ¬ s.aec.atBound) (hd : i.decode (binCost avsProb cs b) = (binLess avsProb cs b, j))
    (ho : 256 ≤ i.off * 2 ^ T) (he : j.e ≤ T) :
    ∃ s1 l', aecMachine.step b s = some s1 ∧ s1.aec.Rel l' j T ∧ CRel s1.ctx (learn avsProb cs b) ∧
      (1 ≤ i.off * 2 ^ (i.e + 246) → s.aec.Unbound → s1.aec.Unbound) := by
  have ho' : ¬ i.off * 2 ^ T < 256 := by linarith
  cases b with
  | ctx a k b =>
    obtain ⟨h1, h2, h3⟩ := hc a k
    obtain ⟨f1, f2⟩ := enc_fields h3 ((hc a).lg k)
    have hs := biariSymbol_step hr h2
    rw [show ctxLg (s.ctx a k) / 4 = binCost avsProb cs (.ctx a k b) by rw [h1, f1]; rfl, hd] at hs
    rcases hs with ⟨_, _, _, _, e⟩ | ⟨r, n, e1, _, e3, e4⟩
    · rcases e with e | e
      · exact absurd e ho'
      · dsimp only at e; omega
    · refine ⟨s.set r a k (updateCtx (binLess avsProb cs (.ctx a k b)) (s.ctx a k)), _, ?_, e3, hc.learn a k b, e4⟩
      show hit (aecMachine.sym a k s) b = _
      simp only [aecMachine]
      rw [e1]
      refine hit_iff.mpr ?_
      dsimp only
      congr 2
      rw [h1, f2]
      dsimp only [binLess, avsProb]
      have : ∀ b m : Bool, ((if (b != m) = true then 1 - m.toNat else m.toNat) == 1) = b := by decide
      exact this b _
  | eq b =>
    have hs := biariEq_step hr (hb rfl)
    rw [show (256 : Nat) = binCost avsProb cs (.eq b) from rfl, hd] at hs
    rcases hs with ⟨_, _, _, _, e⟩ | ⟨r, n, e1, _, e3, e4⟩
    · dsimp only at e; omega
    · refine ⟨{ s with aec := r }, _, ?_, e3, hc, fun _ => e4⟩
      show hit (aecMachine.eq s) b = _
      simp only [aecMachine]
      rw [e1]
      refine hit_iff.mpr ?_
      cases b <;> rfl
  | fin b =>
    have hs := biariFinal_step hr
    rw [show (1 : Nat) = binCost avsProb cs (.fin b) from rfl, hd] at hs
    rcases hs with ⟨_, _, _, _, e⟩ | ⟨r, n, e1, _, e3, e4⟩
    · rcases e with e | e
      · exact absurd e ho'
      · dsimp only at e; omega
    · refine ⟨{ s with aec := r }, _, ?_, e3, hc, e4⟩
      show hit (aecMachine.fin s) b = _
      simp only [aecMachine]
      rw [e1]
      refine hit_iff.mpr ?_
      cases b <;> rfl

/-- The intervals are nested. -/
theorem encode_nested : ∀ (c : List Bin) {ctx : Arr → Nat → Nat} {cs : Arr → Nat → ProbState} {E : Enc}, CRel ctx cs → E.Ok →
    (encode avsProb c E cs).Ok ∧ E.lo ≤ (encode avsProb c E cs).lo ∧ (encode avsProb c E cs).hi ≤ E.hi ∧
    E.e ≤ (encode avsProb c E cs).e := by
  intro c
  induction c with
  | nil => intro ctx cs E _ h; exact ⟨h, le_refl _, le_refl _, le_refl _⟩
  | cons b c ih =>
    intro ctx cs E hc h
    obtain ⟨l1, l2⟩ := hc.cost b
    obtain ⟨a1, a2, a3, a4, _⟩ := put_nested h l1 l2 (binLess avsProb cs b)
    have hc' : ∃ ctx', CRel ctx' (learn avsProb cs b) := by
      cases b with
      | ctx a i b => exact ⟨_, hc.learn a i b⟩
      | eq b => exact ⟨_, hc⟩
      | fin b => exact ⟨_, hc⟩
    obtain ⟨ctx', hc'⟩ := hc'
    obtain ⟨b1, b2, b3, b4⟩ := ih (E := E.bin avsProb cs b) hc' a1
    exact ⟨b1, le_trans a2 b2, le_trans b3 a3, le_trans a4 b4⟩

/-- The decoder delivers the bins of a payload whose number lies in their interval, far enough above its lower end. -/
theorem delivers {T : Nat} {x : ℚ} : ∀ (c : List Bin) {s : St} {cs : Arr → Nat → ProbState} {l : List Bool} {E : Enc},
    s.aec.Rel l ⟨x - E.lo, E.m, E.e⟩ T → CRel s.ctx cs → E.Ok →
    256 ≤ (x - (encode avsProb c E cs).lo) * 2 ^ T → x < (encode avsProb c E cs).hi → (encode avsProb c E cs).e ≤ T →
    ((∃ b ∈ c, b.isEq = true) → s.aec.Unbound ∧ ∀ G ∈ encStates avsProb c E cs, 1 ≤ (x - G.lo) * 2 ^ (G.e + 246)) →
    ∃ s', Produces noError aecMachine s c s' := by
  intro c
  induction c with
  | nil =>
    intro s cs l E hr _ _ _ _ _ _
    exact ⟨s, .nil hr.err_false⟩
  | cons b c ih =>
    intro s cs l E hr hc hE hx hh hT hu
    obtain ⟨l1, l2⟩ := hc.cost b
    obtain ⟨a1, a2, a3, a4, _⟩ := put_nested hE l1 l2 (binLess avsProb cs b)
    have hp : (0 : ℚ) < 2 ^ T := by positivity
    have hc' : ∃ ctx', CRel ctx' (learn avsProb cs b) := by
      cases b with
      | ctx a i b => exact ⟨_, hc.learn a i b⟩
      | eq b => exact ⟨_, hc⟩
      | fin b => exact ⟨_, hc⟩
    obtain ⟨ctx', hc'⟩ := hc'
    obtain ⟨_, b2, b3, b4⟩ := encode_nested c (E := E.bin avsProb cs b) hc' a1
    change 256 ≤ (x - (encode avsProb c (E.bin avsProb cs b) (learn avsProb cs b)).lo) * 2 ^ T at hx
    change x < (encode avsProb c (E.bin avsProb cs b) (learn avsProb cs b)).hi at hh
    change (encode avsProb c (E.bin avsProb cs b) (learn avsProb cs b)).e ≤ T at hT
    generalize hF : encode avsProb c (E.bin avsProb cs b) (learn avsProb cs b) = F at hx hh hT b2 b3 b4
    have hx0 : F.lo ≤ x := by
      by_contra hn
      have := mul_neg_of_neg_of_pos (by linarith : x - F.lo < 0) hp
      linarith
    have hd := decode_put hE l1 l2 (binLess avsProb cs b) (x := x) (le_trans b2 hx0) (lt_of_lt_of_le hh b3)
    change E.lo ≤ (E.bin avsProb cs b).lo at a2
    have ho : 256 ≤ (x - E.lo) * 2 ^ T := by
      have := mul_le_mul_of_nonneg_right (by linarith : x - F.lo ≤ x - E.lo) (le_of_lt hp)
      linarith
    have hb : b.isEq = true → ¬ s.aec.atBound := by
      rintro he ⟨hdm, _, hbd⟩
      have := (hu ⟨b, List.mem_cons_self, he⟩).1 hdm
      rw [hbd] at this
      cases this
    obtain ⟨s1, l', h1, h2, h3, h4⟩ := aec_bin hr hc b hb hd ho (le_trans b4 hT)
    obtain ⟨s', h5⟩ := ih (E := E.bin avsProb cs b) h2 h3 a1 (by rw [hF]; exact hx) (by rw [hF]; exact hh) (by rw [hF]; exact hT) (by
      rintro ⟨b', hb', he⟩
      obtain ⟨u1, u2⟩ := hu ⟨b', List.mem_cons_of_mem _ hb', he⟩
      simp only [encStates, List.mem_cons, forall_eq_or_imp] at u2
      exact ⟨h4 u2.1 u1, u2.2⟩)
    exact ⟨s', .cons hr.err_false h1 h5⟩

/-- A lively sequence of bins never lets the offset get too small. -/
theorem settle_off {x : ℚ} : ∀ (c : List Bin) {ctx : Arr → Nat → Nat} {cs : Arr → Nat → ProbState} {E : Enc}, CRel ctx cs → E.Ok →
    (encode avsProb c E cs).lo + 128 / 2 ^ (encode avsProb c E cs).e ≤ x →
    E.lo + 128 / 2 ^ settle avsProb c E cs ≤ x ∧
    (Lively avsProb c E cs → ∀ G ∈ encStates avsProb c E cs, 1 ≤ (x - G.lo) * 2 ^ (G.e + 246)) := by
  intro c
  induction c with
  | nil => intro ctx cs E _ _ h; exact ⟨h, fun _ G hG => nomatch hG⟩
  | cons b c ih =>
    intro ctx cs E hc hE h
    obtain ⟨l1, l2⟩ := hc.cost b
    obtain ⟨a1, _, _, _, a5, a6⟩ := put_nested hE l1 l2 (binLess avsProb cs b)
    have hc' : ∃ ctx', CRel ctx' (learn avsProb cs b) := by
      cases b with
      | ctx a i b => exact ⟨_, hc.learn a i b⟩
      | eq b => exact ⟨_, hc⟩
      | fin b => exact ⟨_, hc⟩
    obtain ⟨ctx', hc'⟩ := hc'
    obtain ⟨b1, b2⟩ := ih (E := E.bin avsProb cs b) hc' a1 h
    have hs : E.lo + 128 / 2 ^ settle avsProb (b :: c) E cs ≤ x := by
      simp only [settle]
      cases hl : binLess avsProb cs b with
      | true =>
        rw [if_pos rfl]
        refine le_trans (a6 hl) ?_
        have hp : (0 : ℚ) < 128 / 2 ^ settle avsProb c (E.bin avsProb cs b) (learn avsProb cs b) := by positivity
        change (E.bin avsProb cs b).lo ≤ x
        linarith
      | false =>
        rw [if_neg Bool.false_ne_true]
        have := a5 hl
        change (E.bin avsProb cs b).lo = E.lo at this
        rw [← this]
        exact b1
    refine ⟨hs, fun hv G hG => ?_⟩
    rcases List.mem_cons.mp hG with rfl | hG
    · have h1 := hv.1
      have h2 : 128 / 2 ^ settle avsProb (b :: c) G cs ≤ x - G.lo := by linarith
      refine le_trans ?_ (mul_le_mul_of_nonneg_right h2 (by positivity))
      rw [div_mul_eq_mul_div, le_div_iff₀ (by positivity), one_mul]
      calc (2 : ℚ) ^ settle avsProb (b :: c) G cs ≤ 2 ^ (G.e + 253) := pow_le_pow_right₀ (by norm_num) h1
        _ = 128 * 2 ^ (G.e + 246) := by rw [show G.e + 253 = G.e + 246 + 7 by omega, pow_add]; norm_num; ring
    · exact b2 hv.2 G hG

/-! ### Payloads -/

theorem initRel : CRel (fun _ _ => initCtx) (fun _ _ => ⟨1023, false, 0⟩) := fun _ => CtxsRel.init

theorem start_ok : Enc.start.Ok := ⟨by decide, by decide⟩

theorem start_lo : Enc.start.lo = 0 := by simp [Enc.lo, Enc.start]

theorem start_hi : Enc.start.hi = 511 := by simp [Enc.hi, Enc.start]

theorem frac_append (u v : List Bool) : 2 ^ u.length * frac (u ++ v) = (valOf u : ℚ) + frac v := by
  have := frac_take (u ++ v) u.length (by simp)
  rwa [List.take_left, List.drop_left] at this

/-- Nine ones are never written. -/
theorem not_ones {bits : List Bool} (h : payloadNum bits < 511) : bits.take 9 ≠ List.replicate 9 true := by
  intro he
  have hl : 9 ≤ bits.length := by
    have := congrArg List.length he
    rw [List.length_take, List.length_replicate] at this
    omega
  have := frac_take bits 9 hl
  unfold payloadNum at h
  rw [this, he, show valOf (List.replicate 9 true) = 511 by decide] at h
  have := frac_nonneg (bits.drop 9)
  push_cast at h
  linarith

/-- The number of a payload that begins with the code word. -/
theorem word_num {E : Enc} (h : E.low + 128 < 2 ^ (9 + E.e)) (tail : List Bool) :
    payloadNum (E.word ++ tail) = E.lo + 128 / 2 ^ E.e + frac tail / 2 ^ E.e := by
  have hf := frac_append E.word tail
  have hv : valOf E.word = E.low + 128 := valOf_bitsOfNat _ _ h
  have hlen : E.word.length = 9 + E.e := bitsOfNat_length _ _
  rw [hv, hlen, pow_add] at hf
  unfold payloadNum Enc.lo
  have hp : (2 : ℚ) ^ E.e ≠ 0 := by positivity
  rw [← add_div, ← add_div, eq_div_iff hp]
  push_cast at hf
  rw [← hf]
  ring

end Davs2.Sx
