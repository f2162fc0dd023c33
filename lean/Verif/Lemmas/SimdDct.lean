import Verif.Lemmas.SimdExec
import Verif.Props.Transform
import Mathlib.Algebra.Order.BigOperators.Group.Finset
/-
From the check of a program to the inverse transform.
-/
namespace Davs2.Si

open Davs2.Vc Davs2.Spec Finset

/-! ### Digits are determined by the number -/

theorem digit_step {K P : Nat} {p : Nat → Nat} (hK : K ≤ 65535) (h : ∀ i, p i ≤ K) : ∀ (n i : Nat), i < n →
    (∑ t ∈ range n, p t * 65536 ^ t) / 65536 ^ i % 65536 = p i := by
  intro n i hi
  have e : ∑ t ∈ range n, p t * 65536 ^ t =
      ∑ t ∈ range i, p t * 65536 ^ t + 65536 ^ i * (p i + 65536 * ∑ t ∈ range (n - 1 - i), p (i + 1 + t) * 65536 ^ t) := by
    have hn : n = i + (1 + (n - 1 - i)) := by omega
    conv_lhs => rw [hn, sum_range_add, sum_range_add]
    rw [sum_range_one, mul_add, mul_sum, mul_sum]
    congr 1
    congr 1
    · rw [Nat.add_zero, Nat.mul_comm]
    · refine sum_congr rfl fun t _ => ?_
      rw [show i + (1 + t) = i + 1 + t by omega, pow_add, pow_add, pow_one]
      ring
  have low : ∑ t ∈ range i, p t * 65536 ^ t < 65536 ^ i := by
    clear e hi
    induction i with
    | zero => simp
    | succ i ih =>
      rw [sum_range_succ, pow_succ]
      have := h i
      nlinarith [Nat.pow_pos (n := i) (show 0 < 65536 by omega)]
  rw [e, Nat.add_mul_div_left _ _ (Nat.pow_pos (by omega)), Nat.div_eq_of_lt low, Nat.zero_add, Nat.add_mul_mod_self_left]
  have := h i
  exact Nat.mod_eq_of_lt (by omega)

theorem digit {P l T : Nat} {p : Nat → Nat} (h : Digits 65535 P p) (ht : P % 65536 ^ (l + 1) = T) {i : Nat} (hi : i ≤ l) (hl : l < 64) :
    p i = T / 65536 ^ i % 65536 := by
  have := digit_step (P := P) (le_refl _) h.1 64 i (by omega)
  rw [← h.2] at this
  rw [← this, ← ht]
  have e : 65536 ^ (l + 1) = 65536 ^ i * (65536 * 65536 ^ (l - i)) := by
    rw [← pow_succ', ← pow_add]; congr 1; omega
  rw [e, Nat.mod_mul_right_div_self, Nat.mod_mul_right_mod]

/-! ### Tables -/

/-- The table has the rows of the matrix: digit 0 is the rounding, digits 1 to `l` the first `l` coefficients. -/
def tabOk (n l rnd : Nat) (t : List (Nat × Nat)) : Prop :=
  t.length = n ∧ ∀ y < n, (t.getD y (0, 0)).1 % 65536 = rnd ∧ (t.getD y (0, 0)).2 % 65536 = 0 ∧
    ∀ i < l, (((t.getD y (0, 0)).1 / 65536 ^ (i + 1) % 65536 : Nat) : Int) - ((t.getD y (0, 0)).2 / 65536 ^ (i + 1) % 65536 : Nat) = dctMat n i y

instance (n l rnd : Nat) (t : List (Nat × Nat)) : Decidable (tabOk n l rnd t) := by unfold tabOk; infer_instance

theorem tabOk_get {n l rnd : Nat} {t : List (Nat × Nat)} (h : tabOk n l rnd t) {y P N : Nat} (hy : t[y]? = some (P, N)) :
    y < n ∧ P % 65536 = rnd ∧ N % 65536 = 0 ∧ ∀ i < l, ((P / 65536 ^ (i + 1) % 65536 : Nat) : Int) - (N / 65536 ^ (i + 1) % 65536 : Nat) = dctMat n i y := by
  have hl : y < n := by
    rw [← h.1]
    exact (List.getElem?_eq_some_iff.1 hy).1
  have := h.2 y hl
  rw [List.getD_eq_getElem?_getD, hy] at this
  exact ⟨hl, this⟩

theorem form_eq {n l rnd : Nat} {t : List (Nat × Nat)} (h : tabOk n l rnd t) (hl : l < 64) {y P N : Nat} (hy : t[y]? = some (P, N))
    {E : Nat → Int} {g P' N' : Nat} {p m : Nat → Nat} (hp : Digits 65535 P' p) (hm : Digits 65535 N' m)
    (h1 : P' % 65536 ^ (l + 1) = P) (h2 : N' % 65536 ^ (l + 1) = N) (hz : ∀ i, l < i → i < 64 → E (64 * g + i) = 0) :
    form E p m g = rnd + ∑ i ∈ range l, dctMat n i y * E (64 * g + (i + 1)) := by
  obtain ⟨_, hr, hn, hd⟩ := tabOk_get h hy
  unfold form
  rw [show range 64 = range ((l + 1) + (63 - l)) by congr 1; omega, sum_range_add, sum_range_succ']
  have z : ∑ x ∈ range (63 - l), ((p (l + 1 + x) : Int) - m (l + 1 + x)) * mem' E g (l + 1 + x) = 0 := by
    refine sum_eq_zero fun x hx => ?_
    have hx := mem_range.1 hx
    unfold mem'
    rw [if_neg (by omega), hz _ (by omega) (by omega), mul_zero]
  rw [z, add_zero, add_comm]
  have hp0 := digit hp h1 (Nat.zero_le l) hl
  have hm0 := digit hm h2 (Nat.zero_le l) hl
  rw [pow_zero, Nat.div_one] at hp0 hm0
  rw [hp0, hm0, hr, hn]
  congr 1
  · unfold mem'; simp
  · refine sum_congr rfl fun i hi => ?_
    have hi := mem_range.1 hi
    rw [digit hp h1 (show i + 1 ≤ l by omega) hl, digit hm h2 (show i + 1 ≤ l by omega) hl, hd i hi]
    unfold mem'
    rw [if_neg (by omega)]

theorem cos64_le (j : Nat) : |cos64 j| ≤ 45 := by
  have : ∀ r < 128, |cos64 r| ≤ 45 := by decide +kernel
  have e : cos64 j = cos64 (j % 128) := by unfold cos64; rw [Nat.mod_mod]
  rw [e]
  exact this _ (Nat.mod_lt _ (by omega))

theorem dctMat_le (n i y : Nat) : |dctMat n i y| ≤ 45 := by
  unfold dctMat
  split
  · decide
  · exact cos64_le _

theorem sum_bound {n l y : Nat} {f : Nat → Int} (hl : l ≤ 32) (hf : ∀ i < l, -32768 ≤ f i ∧ f i ≤ 32767) :
    |∑ i ∈ range l, dctMat n i y * f i| ≤ 47185920 := by
  refine (Finset.abs_sum_le_sum_abs _ _).trans ?_
  have : ∑ i ∈ range l, |dctMat n i y * f i| ≤ ∑ _i ∈ range l, (45 * 32768 : Int) := by
    refine sum_le_sum fun i hi => ?_
    rw [abs_mul]
    have h1 := dctMat_le n i y
    have h2 : |f i| ≤ 32768 := abs_le.2 ⟨(hf i (mem_range.1 hi)).1, by have := (hf i (mem_range.1 hi)).2; omega⟩
    exact mul_le_mul h1 h2 (abs_nonneg _) (by omega)
  rw [sum_const, card_range, nsmul_eq_mul] at this
  have : (l : Int) ≤ 32 := by exact_mod_cast hl
  nlinarith

/-! ### The values the codes stand for -/

/-- Source coefficients, results of the first pass and results of the second pass before they are limited. -/
def vals (w h wl : Nat) (c : Nat → Int) (code : Nat) : Int :=
  let g := code / 64
  let d := code % 64
  if d = 0 then 0
  else if g < 64 then if d - 1 < h ∧ g < w then c ((d - 1) * w + g) else 0
  else if g < 128 then if g - 64 < h ∧ d - 1 < w then invVert w h c (g - 64) (d - 1) else 0
  else if g < 192 then if g - 128 < h ∧ d - 1 < w then sat16 (roundShift (12 - wl) (∑ j ∈ range w, dctMat w (j) (d - 1) * invVert w h c (g - 128) j)) else 0
  else 0

theorem vals0 {w h wl : Nat} {c : Nat → Int} {g i : Nat} (hg : g < 64) (hi : i < 63) :
    vals w h wl c (64 * g + (i + 1)) = if i < h ∧ g < w then c (i * w + g) else 0 := by
  unfold vals
  dsimp only
  rw [show (64 * g + (i + 1)) / 64 = g by omega, show (64 * g + (i + 1)) % 64 = i + 1 by omega, if_neg (by omega), if_pos hg, Nat.add_sub_cancel]

theorem vals1 {w h wl : Nat} {c : Nat → Int} {y j : Nat} (hy : y < 64) (hj : j < 63) :
    vals w h wl c (64 * (64 + y) + (j + 1)) = if y < h ∧ j < w then invVert w h c y j else 0 := by
  unfold vals
  dsimp only
  rw [show (64 * (64 + y) + (j + 1)) / 64 = 64 + y by omega, show (64 * (64 + y) + (j + 1)) % 64 = j + 1 by omega, if_neg (by omega), if_neg (by omega),
    if_pos (by omega), Nat.add_sub_cancel, Nat.add_sub_cancel_left]

theorem vals2 {w h wl : Nat} {c : Nat → Int} {y x : Nat} (hy : y < 64) (hx : x < 63) :
    vals w h wl c (64 * (128 + y) + (x + 1)) =
      if y < h ∧ x < w then sat16 (roundShift (12 - wl) (∑ j ∈ range w, dctMat w j x * invVert w h c y j)) else 0 := by
  unfold vals
  dsimp only
  rw [show (64 * (128 + y) + (x + 1)) / 64 = 128 + y by omega, show (64 * (128 + y) + (x + 1)) % 64 = x + 1 by omega, if_neg (by omega), if_neg (by omega),
    if_neg (by omega), if_pos (by omega), Nat.add_sub_cancel, Nat.add_sub_cancel_left]

theorem vals_zero {w h wl : Nat} {c : Nat → Int} (g : Nat) : vals w h wl c (64 * g) = 0 := by
  unfold vals
  dsimp only
  rw [if_pos (by omega)]

theorem sat16_limit (v : Int) : sat16 v = limitBits 16 v := by
  unfold sat16 limitBits
  norm_num

theorem sat16_range (v : Int) : -32768 ≤ sat16 v ∧ sat16 v ≤ 32767 := by unfold sat16; omega

theorem vals_rng {w h wl : Nat} {c : Nat → Int} (hc : ∀ a < w * h, -32768 ≤ c a ∧ c a ≤ 32767) (code : Nat) :
    -32768 ≤ vals w h wl c code ∧ vals w h wl c code ≤ 32767 := by
  unfold vals
  dsimp only
  split
  · omega
  split
  · split
    · next q =>
      refine hc _ ?_
      have : (code % 64 - 1) * w + w ≤ h * w := by
        have := Nat.mul_le_mul_right w (show code % 64 - 1 + 1 ≤ h by omega)
        rw [Nat.add_mul, Nat.one_mul] at this
        exact this
      rw [Nat.mul_comm w h]; omega
    · omega
  split
  · split
    · have := Davs2.Tr.limitBits_range (d := 16) (roundShift 5 (∑ i ∈ range h, dctMat h i (code / 64 - 64) * c (i * w + (code % 64 - 1))))
      norm_num at this
      unfold invVert
      omega
    · omega
  split
  · split
    · exact sat16_range _
    · omega
  · omega

/-- What is checked for a block of `w` × `h` with `l1` × `l2` coefficients (rows, columns). -/
def mkCx (w h l1 l2 wl : Nat) (t1 t2 : List (Nat × Nat)) : Cx :=
  ⟨w, w * h, t1, t2, Nat.pow 65536 (l1 + 1), Nat.pow 65536 (l2 + 1), 12 - wl, 255 + 256 * wl, 65536 - 256 - 256 * wl⟩

theorem invVert_zero {w h l : Nat} {c : Nat → Int} {y j : Nat} (hz : ∀ i < h, c (i * w + j) = 0) : invVert w h c y j = 0 := by
  unfold invVert
  rw [sum_eq_zero fun i hi => by rw [hz i (mem_range.1 hi), mul_zero]]
  decide

theorem sum_cut {n l : Nat} (hl : l ≤ n) {f : Nat → Int} (hz : ∀ i < n, l ≤ i → f i = 0) : ∑ i ∈ range n, f i = ∑ i ∈ range l, f i := by
  rw [show n = l + (n - l) by omega, sum_range_add, add_eq_left]
  exact sum_eq_zero fun i hi => hz _ (by have := mem_range.1 hi; omega) (by omega)

theorem vals_ok {w h l1 l2 wl : Nat} {t1 t2 : List (Nat × Nat)} {c : Nat → Int} (hw : w ≤ 32) (hh : h ≤ 32) (hwl : wl ≤ 1)
    (hl1 : l1 ≤ h) (hl2 : l2 ≤ w) (ht1 : tabOk h l1 16 t1) (ht2 : tabOk w l2 (2 ^ (11 - wl)) t2)
    (hc : ∀ a < w * h, -32768 ≤ c a ∧ c a ≤ 32767) (hz : ∀ i < h, ∀ j < w, l1 ≤ i ∨ l2 ≤ j → c (i * w + j) = 0) :
    Ok (mkCx w h l1 l2 wl t1 t2) (vals w h wl c) := by
  have rng := vals_rng (wl := wl) hc
  constructor
  · exact vals_zero 0
  · exact rng
  · intro y P N hy g hg P' N' p m hp hm h1 h2
    have hy' := (tabOk_get ht1 hy).1
    have F := form_eq ht1 (by omega) hy (E := vals w h wl c) (g := g) hp hm h1 h2 (by
      intro i hi hi2
      obtain ⟨k, rfl⟩ : ∃ k, i = k + 1 := ⟨i - 1, by omega⟩
      rw [vals0 hg (by omega)]
      split
      · next q => exact hz _ q.1 _ q.2 (Or.inl (by omega))
      · rfl)
    have B := sum_bound (n := h) (y := y) (f := fun i => vals w h wl c (64 * g + (i + 1))) (show l1 ≤ 32 by omega) fun i _ => rng _
    have B := abs_le.1 B
    rw [F, wrap32_id (by omega)]
    by_cases q : g < w
    · have e : ∑ i ∈ range l1, dctMat h i y * vals w h wl c (64 * g + (i + 1)) = ∑ i ∈ range h, dctMat h i y * c (i * w + g) := by
        rw [sum_cut hl1 (f := fun i => dctMat h i y * c (i * w + g)) (by
          intro i hi hi2
          rw [hz i hi g q (Or.inl hi2), mul_zero])]
        refine sum_congr rfl fun i hi => ?_
        have hi := mem_range.1 hi
        rw [vals0 hg (by omega), if_pos (by omega)]
      rw [e, show 64 * (64 + y) + 1 + g = 64 * (64 + y) + (g + 1) by omega, vals1 (by omega) (by omega), if_pos (by omega), sat16_limit]
      unfold invVert roundShift
      rw [add_comm]; norm_num
    · have e : ∑ i ∈ range l1, dctMat h i y * vals w h wl c (64 * g + (i + 1)) = 0 := by
        refine sum_eq_zero fun i hi => ?_
        have hi := mem_range.1 hi
        rw [vals0 hg (by omega), if_neg (by omega), mul_zero]
      rw [e]
      by_cases q2 : g = 63
      · rw [show 64 * (64 + y) + 1 + g = 64 * (64 + y + 1) by omega, vals_zero]; decide
      · rw [show 64 * (64 + y) + 1 + g = 64 * (64 + y) + (g + 1) by omega, vals1 (by omega) (by omega), if_neg (by omega)]; decide
  · intro x P N hx g hg1 hg P' N' p m hp hm h1 h2
    have hx' := (tabOk_get ht2 hx).1
    obtain ⟨y, rfl⟩ : ∃ y, g = 64 + y := ⟨g - 64, by omega⟩
    have iz : ∀ j, l2 ≤ j → j < w → invVert w h c y j = 0 := fun j hj hj2 => invVert_zero (l := 0) fun i hi => hz i hi j hj2 (Or.inr hj)
    have F := form_eq ht2 (by omega) hx (E := vals w h wl c) (g := 64 + y) hp hm h1 h2 (by
      intro i hi hi2
      obtain ⟨k, rfl⟩ : ∃ k, i = k + 1 := ⟨i - 1, by omega⟩
      rw [vals1 (by omega) (by omega)]
      split
      · next q => exact iz k (by omega) q.2
      · rfl)
    have B := sum_bound (n := w) (y := x) (f := fun i => vals w h wl c (64 * (64 + y) + (i + 1))) (show l2 ≤ 32 by omega) fun i _ => rng _
    have B := abs_le.1 B
    have hr : ((2 ^ (11 - wl) : Nat) : Int) = 2 ^ (12 - wl - 1) := by
      rw [show 12 - wl - 1 = 11 - wl by omega]; push_cast; rfl
    have hr2 : ((2 ^ (11 - wl) : Nat) : Int) ≤ 2048 := by interval_cases wl <;> decide
    have hr3 : (0 : Int) ≤ ((2 ^ (11 - wl) : Nat) : Int) := by positivity
    rw [F, wrap32_id (by omega), show (mkCx w h l1 l2 wl t1 t2).sh2 = 12 - wl from rfl,
      show 1 + x + 64 * (64 + (64 + y)) = 64 * (128 + y) + (x + 1) by omega, vals2 (by omega) (by omega)]
    by_cases q : y < h
    · have e : ∑ i ∈ range l2, dctMat w i x * vals w h wl c (64 * (64 + y) + (i + 1)) = ∑ j ∈ range w, dctMat w j x * invVert w h c y j := by
        rw [sum_cut hl2 (f := fun j => dctMat w j x * invVert w h c y j) (by
          intro j hj hj2
          rw [iz j hj2 hj, mul_zero])]
        refine sum_congr rfl fun i hi => ?_
        have hi := mem_range.1 hi
        rw [vals1 (by omega) (by omega), if_pos (by omega)]
      rw [e, if_pos (by omega), hr]
      unfold roundShift
      rw [add_comm]
    · have e : ∑ i ∈ range l2, dctMat w i x * vals w h wl c (64 * (64 + y) + (i + 1)) = 0 := by
        refine sum_eq_zero fun i hi => ?_
        have hi := mem_range.1 hi
        rw [vals1 (by omega) (by omega), if_neg (by omega), mul_zero]
      rw [e, if_neg (by omega)]
      interval_cases wl <;> decide

/-- A program that has been checked computes the inverse transform of the block and touches nothing else. -/
theorem idct_of_check {w h l1 l2 wl : Nat} {t1 t2 : List (Nat × Nat)} {p : List S} (hw : w ≤ 32) (hh : h ≤ 32) (hwl : wl ≤ 1)
    (hl1 : l1 ≤ h) (hl2 : l2 ≤ w) (ht1 : tabOk h l1 16 t1) (ht2 : tabOk w l2 (2 ^ (11 - wl)) t2)
    (h8 : w * h % 8 = 0) (hp : check (mkCx w h l1 l2 wl t1 t2) p = true)
    {c : Nat → Int} (hc : ∀ a < w * h, -32768 ≤ c a ∧ c a ≤ 32767) (hz : ∀ i < h, ∀ j < w, l1 ≤ i ∨ l2 ≤ j → c (i * w + j) = 0)
    {s : St} (hs : ∀ a < w * h, s.mem a = c a) :
    (∀ y < h, ∀ x < w, (exec p s).mem (y * w + x) = invDct w h wl c y x) ∧ ∀ a, w * h ≤ a → (exec p s).mem a = s.mem a := by
  have ok := vals_ok hw hh hwl hl1 hl2 ht1 ht2 hc hz
  have := check_sound ok hp (s := s) h8 (by
    intro a ha
    have ha : a < w * h := ha
    have hw0 : 0 < w := by rcases Nat.eq_zero_or_pos w with rfl | h; · simp at ha
                           · exact h
    have h1 : a / w < h := Nat.div_lt_of_lt_mul ha
    have h2 := Nat.mod_lt a hw0
    show _ = vals w h wl c (64 * (a % w) + (a / w + 1))
    rw [vals0 (by omega) (by omega), if_pos ⟨h1, h2⟩, hs a ha, Nat.mul_comm, Nat.div_add_mod])
  refine ⟨fun y hy x hx => ?_, this.2⟩
  have hlt : y * w + x < w * h := by
    have := Nat.mul_le_mul_right w (show y + 1 ≤ h by omega)
    rw [Nat.add_mul, Nat.one_mul, Nat.mul_comm h w] at this
    omega
  have e : vals w h wl c (code3 w (y * w + x)) = sat16 (roundShift (12 - wl) (∑ j ∈ range w, dctMat w j x * invVert w h c y j)) := by
    have : code3 w (y * w + x) = 64 * (128 + y) + (x + 1) := by
      show 64 * (128 + (y * w + x) / w) + ((y * w + x) % w + 1) = _
      rw [Nat.mul_comm y w, Nat.mul_add_div (by omega), Nat.div_eq_of_lt hx, Nat.mul_add_mod, Nat.mod_eq_of_lt hx, Nat.add_zero]
    rw [this, vals2 (by omega) (by omega), if_pos ⟨hy, hx⟩]
  have k := this.1 _ hlt
  rw [show (mkCx w h l1 l2 wl t1 t2).w = w from rfl, e] at k
  unfold invDct
  generalize roundShift (12 - wl) (∑ j ∈ range w, dctMat w j x * invVert w h c y j) = v at k ⊢
  have key : ∀ f, f = 2 ∨ f = 4 → lim (mkCx w h l1 l2 wl t1 t2) f (sat16 v) = limitBits (9 + wl) v := by
    have h1 : wrap16 (mkCx w h l1 l2 wl t1 t2).hi = 255 + 256 * wl := by
      show wrap16 ((255 + 256 * wl : Nat) : Int) = _
      unfold wrap16; omega
    have h2 : wrap16 (mkCx w h l1 l2 wl t1 t2).lo = -256 - 256 * wl := by
      show wrap16 ((65536 - 256 - 256 * wl : Nat) : Int) = _
      unfold wrap16; omega
    rintro f (rfl | rfl)
    · show max (min (sat16 v) (wrap16 _)) (wrap16 _) = _
      rw [h1, h2]
      unfold sat16 limitBits
      interval_cases wl <;> norm_num <;> omega
    · show min (max (sat16 v) (wrap16 _)) (wrap16 _) = _
      rw [h1, h2]
      unfold sat16 limitBits
      interval_cases wl <;> norm_num <;> omega
  rcases k with k | k
  · rw [k]; exact key 2 (Or.inl rfl)
  · rw [k]; exact key 4 (Or.inr rfl)

end Davs2.Si
