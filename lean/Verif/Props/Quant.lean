import Verif.Model.Quant
import Mathlib.Tactic.Linarith
import Mathlib.Tactic.Ring
import Mathlib.Tactic.IntervalCases
/-
C49: dequantisation.  C59: the quantiser always selects an entry of the quantiser tables.
-/
namespace Davs2

/-- Independent specification: `r` is `n / d` rounded to the nearest integer, halves upwards. -/
def Spec.Nearest (n d r : Int) : Prop := d * (2 * r - 1) ≤ 2 * n ∧ 2 * n < d * (2 * r + 1)

/-- Saturation to 16 bits. -/
def Spec.sat16 (r : Int) : Int := max (-32768) (min 32767 r)

theorem tables_ok : ∀ q : Fin 80, ∃ s c, tabGet iqShift q = some s ∧ tabGet iqTab q = some c ∧ 6 ≤ s ∧ s ≤ 15 ∧
    0 < c ∧ c ≤ 65535 := by
  have h : ∀ q : Fin 80, (match tabGet iqShift q, tabGet iqTab q with
    | some s, some c => decide (6 ≤ s ∧ s ≤ 15 ∧ 0 < c ∧ c ≤ 65535)
    | _, _ => false) = true := by decide +kernel
  intro q
  have := h q
  split at this
  · rename_i s c hs hc
    exact ⟨s, c, hs, hc, by simpa using this⟩
  · cases this

theorem quantParams_some (qp bs : Int) (h0 : 0 ≤ qp) (h1 : qp ≤ 79) (b0 : 2 ≤ bs) (b1 : bs ≤ 6) :
    ∃ sh sc, cuGetQuantParams qp bs = some (sh, sc) ∧ 1 ≤ sh ∧ sh ≤ 14 ∧ 0 < sc ∧ sc ≤ 65535 := by
  obtain ⟨s, c, hs, hc, h⟩ := tables_ok ⟨qp.toNat, by omega⟩
  have e : (((⟨qp.toNat, by omega⟩ : Fin 80) : Nat) : Int) = qp := by simp; omega
  rw [e] at hs hc
  refine ⟨s + (8 + 1) + bs - 16, c, ?_, by omega, by omega, by omega, by omega⟩
  unfold cuGetQuantParams
  rw [hs, hc]; rfl

theorem clip3_toInt16 (r : Int) : toInt16 (clip3 (-32768) 32767 r) = Spec.sat16 r := by
  unfold toInt16 clip3 Spec.sat16
  split
  · omega
  · split <;> omega

theorem dequantLevel_eq (sh sc level : Int) (h1 : 1 ≤ sh) (h2 : sh ≤ 14) (c0 : 0 < sc) (c1 : sc ≤ 65535)
    (l0 : -32768 ≤ level) (l1 : level ≤ 32767) :
    dequantLevel sh sc level = some (Spec.sat16 ((level * sc + 2 ^ (sh - 1).toNat) / 2 ^ sh.toNat)) := by
  have ha : (2 : Int) ^ (sh - 1).toNat ≤ 8192 := by
    calc (2 : Int) ^ (sh - 1).toNat ≤ 2 ^ 13 := pow_le_pow_right₀ (by norm_num) (by omega)
      _ = 8192 := by norm_num
  have ha0 : (0 : Int) < 2 ^ (sh - 1).toNat := by positivity
  have hp1 : level * sc ≤ 32767 * 65535 := by nlinarith
  have hp0 : -32768 * 65535 ≤ level * sc := by nlinarith
  unfold dequantLevel i32
  rw [if_pos ⟨h1, by omega⟩]
  simp only [Option.bind_eq_bind]
  rw [if_pos (by constructor <;> omega), Option.bind_some, if_pos (by constructor <;> omega),
    Option.bind_some, if_pos (by constructor <;> omega), Option.bind_some, clip3_toInt16]

/-- C49: for every quantiser of the tables, every transform size and every 16-bit level the scaled coefficient is
computed without overflow and is the exact quotient rounded to the nearest integer, saturated to 16 bits. -/
theorem C49_dequant (qp bs level : Int) (h0 : 0 ≤ qp) (h1 : qp ≤ 79) (b0 : 2 ≤ bs) (b1 : bs ≤ 6)
    (l0 : -32768 ≤ level) (l1 : level ≤ 32767) :
    ∃ sh sc r, cuGetQuantParams qp bs = some (sh, sc) ∧ Spec.Nearest (level * sc) (2 ^ sh.toNat) r ∧
      dequantLevel sh sc level = some (Spec.sat16 r) ∧ -32768 ≤ Spec.sat16 r ∧ Spec.sat16 r ≤ 32767 := by
  obtain ⟨sh, sc, hq, s1, s2, c0, c1⟩ := quantParams_some qp bs h0 h1 b0 b1
  refine ⟨sh, sc, _, hq, ?_, dequantLevel_eq sh sc level s1 s2 c0 c1 l0 l1, by unfold Spec.sat16; omega,
    by unfold Spec.sat16; omega⟩
  obtain ⟨k, hk⟩ : ∃ k : Nat, sh.toNat = k + 1 := ⟨sh.toNat - 1, by omega⟩
  have hk' : (sh - 1).toNat = k := by omega
  rw [hk, hk', pow_succ]
  have hpos : (0 : Int) < 2 ^ k := by positivity
  generalize (2 : Int) ^ k = e at *
  generalize level * sc = n
  have d1 := Int.mul_ediv_self_le (x := n + e) (k := e * 2) (by omega)
  have d2 := Int.lt_mul_ediv_self_add (x := n + e) (k := e * 2) (by omega)
  generalize (n + e) / (e * 2) = r at *
  unfold Spec.Nearest
  constructor <;> nlinarith

example : ∃ sh sc r, cuGetQuantParams 36 3 = some (sh, sc) ∧ Spec.Nearest (-7 * sc) (2 ^ sh.toNat) r ∧
    dequantLevel sh sc (-7) = some (Spec.sat16 r) ∧ -32768 ≤ Spec.sat16 r ∧ Spec.sat16 r ≤ 32767 :=
  C49_dequant 36 3 (-7) (by decide) (by decide) (by decide) (by decide) (by decide) (by decide)
example : dequantLevel 7 46320 (-7) = some (-2533) ∧ dequantLevel 1 60099 32767 = some 32767 := by decide +kernel

/-- C49: a zero level stays zero and larger levels give coefficients at least as large. -/
theorem C49_zero_mono (qp bs : Int) (h0 : 0 ≤ qp) (h1 : qp ≤ 79) (b0 : 2 ≤ bs) (b1 : bs ≤ 6) :
    ∃ sh sc, cuGetQuantParams qp bs = some (sh, sc) ∧ dequantLevel sh sc 0 = some 0 ∧
      ∀ l m, -32768 ≤ l → l ≤ m → m ≤ 32767 → ∃ v w, dequantLevel sh sc l = some v ∧
        dequantLevel sh sc m = some w ∧ v ≤ w := by
  obtain ⟨sh, sc, hq, s1, s2, c0, c1⟩ := quantParams_some qp bs h0 h1 b0 b1
  refine ⟨sh, sc, hq, ?_, ?_⟩
  · rw [dequantLevel_eq sh sc 0 s1 s2 c0 c1 (by norm_num) (by norm_num)]
    obtain ⟨k, hk⟩ : ∃ k : Nat, sh.toNat = k + 1 := ⟨sh.toNat - 1, by omega⟩
    have hk' : (sh - 1).toNat = k := by omega
    have hpos : (0 : Int) < 2 ^ k := by positivity
    have : ((0 : Int) * sc + 2 ^ (sh - 1).toNat) / 2 ^ sh.toNat = 0 := by
      rw [hk, hk', pow_succ, Int.zero_mul, Int.zero_add]
      exact Int.ediv_eq_zero_of_lt (by omega) (by omega)
    rw [this]; rfl
  · intro l m hl hlm hm
    refine ⟨_, _, dequantLevel_eq sh sc l s1 s2 c0 c1 hl (by omega),
      dequantLevel_eq sh sc m s1 s2 c0 c1 (by omega) hm, ?_⟩
    have : (l * sc + 2 ^ (sh - 1).toNat) / 2 ^ sh.toNat ≤ (m * sc + 2 ^ (sh - 1).toNat) / 2 ^ sh.toNat :=
      Int.ediv_le_ediv (by positivity) (by nlinarith)
    unfold Spec.sat16
    omega

/-- C49: a larger quantiser parameter gives a strictly larger step (`scale / 2^shift`, compared crosswise), for
blocks of the same size. -/
theorem C49_step_mono (q r bs : Int) (h0 : 0 ≤ q) (hqr : q < r) (h1 : r ≤ 79) (b0 : 2 ≤ bs) (b1 : bs ≤ 6) :
    ∃ sh sc sh' sc', cuGetQuantParams q bs = some (sh, sc) ∧ cuGetQuantParams r bs = some (sh', sc') ∧
      sc * 2 ^ sh'.toNat < sc' * 2 ^ sh.toNat := by
  have h : ∀ q : Fin 80, ∀ r : Fin 80, ∀ b : Fin 5, (q < r → (match cuGetQuantParams q (b + 2), cuGetQuantParams r (b + 2) with
    | some (s, c), some (s', c') => decide (c * 2 ^ s'.toNat < c' * 2 ^ s.toNat)
    | _, _ => false) = true) := by decide +kernel
  have := h ⟨q.toNat, by omega⟩ ⟨r.toNat, by omega⟩ ⟨(bs - 2).toNat, by omega⟩ (by
    show q.toNat < r.toNat
    omega)
  have e1 : (((⟨q.toNat, by omega⟩ : Fin 80) : Nat) : Int) = q := by simp; omega
  have e2 : (((⟨r.toNat, by omega⟩ : Fin 80) : Nat) : Int) = r := by simp; omega
  have e3 : (((⟨(bs - 2).toNat, by omega⟩ : Fin 5) : Nat) : Int) + 2 = bs := by simp; omega
  rw [e1, e2, e3] at this
  split at this
  · rename_i s c s' c' hs hc
    exact ⟨s, c, s', c', hs, hc, by simpa using this⟩
  · cases this

/-- C49: the array version of `dequant_c` scales every coefficient in place by the same rule. -/
theorem C49_array (sh sc : Int) (l : List Int) (h1 : 1 ≤ sh) (h2 : sh ≤ 14) (c0 : 0 < sc) (c1 : sc ≤ 65535)
    (hl : ∀ x ∈ l, -32768 ≤ x ∧ x ≤ 32767) :
    ∃ r, dequantC sh sc l = some r ∧ r.length = l.length ∧
      ∀ i (hi : i < l.length), ∃ v, r[i]? = some v ∧ dequantLevel sh sc l[i] = some v := by
  have hz : dequantLevel sh sc 0 = some 0 := by
    rw [dequantLevel_eq sh sc 0 h1 h2 c0 c1 (by norm_num) (by norm_num)]
    obtain ⟨k, hk⟩ : ∃ k : Nat, sh.toNat = k + 1 := ⟨sh.toNat - 1, by omega⟩
    have hk' : (sh - 1).toNat = k := by omega
    have hpos : (0 : Int) < 2 ^ k := by positivity
    have : ((0 : Int) * sc + 2 ^ (sh - 1).toNat) / 2 ^ sh.toNat = 0 := by
      rw [hk, hk', pow_succ, Int.zero_mul, Int.zero_add]
      exact Int.ediv_eq_zero_of_lt (by omega) (by omega)
    rw [this]; rfl
  unfold dequantC
  induction l with
  | nil => exact ⟨[], rfl, rfl, fun i hi => absurd hi (by simp)⟩
  | cons x l ih =>
    obtain ⟨r, hr, hlen, hat⟩ := ih fun y hy => hl y (List.mem_cons_of_mem _ hy)
    obtain ⟨x0, x1⟩ := hl x List.mem_cons_self
    have hx := dequantLevel_eq sh sc x h1 h2 c0 c1 x0 x1
    have hx' : (if x = 0 then some x else dequantLevel sh sc x) = dequantLevel sh sc x := by
      split
      · rename_i h; subst h; exact hz.symm
      · rfl
    refine ⟨Spec.sat16 ((x * sc + 2 ^ (sh - 1).toNat) / 2 ^ sh.toNat) :: r, ?_, by simp [hlen], ?_⟩
    · rw [List.mapM_cons, hx', hx, hr]; rfl
    · intro i hi
      cases i with
      | zero => exact ⟨_, rfl, by simpa using hx⟩
      | succ i => simpa using hat i (by simpa using hi)

example : dequantC 7 46320 [0, 1, -1, 0] = some [0, 362, -362, 0] := by decide +kernel

theorem cuDeltaQp_range (cbp sym : Nat) : -32 ≤ cuDeltaQp cbp sym ∧ cuDeltaQp cbp sym ≤ 32 := by
  unfold cuDeltaQp clip3
  split
  · split
    · omega
    · split <;> omega
  · omega

/-- C59 fails: a slice header may carry a quantiser of up to 127, of which the decoder only prints a message, so
the tables are read out of bounds. -/
theorem C59_slice_violated : ∃ sliceQp : Int, 0 ≤ sliceQp ∧ sliceQp < 128 ∧
    ∀ bs, ∃ q ∈ rowQps false sliceQp [(1, 0)], cuGetQuantParams q bs = none :=
  ⟨100, by decide, by decide, fun bs => ⟨100, by decide, rfl⟩⟩

/-- C59 fails even with a legal slice quantiser and legal changes: they accumulate along a row without being
clipped, above the tables and below zero. -/
theorem C59_delta_violated : (∀ bs, ∃ q ∈ rowQps true 60 [(1, 41)], cuGetQuantParams q bs = none) ∧
    (∀ bs, ∃ q ∈ rowQps true 20 [(1, 42)], cuGetQuantParams q bs = none) ∧ isValidQp 60 ∧ isValidQp 20 ∧
    cuDeltaQp 1 41 = 21 ∧ cuDeltaQp 1 42 = -21 :=
  ⟨fun bs => ⟨81, by decide, rfl⟩, fun bs => ⟨-1, by decide, rfl⟩, by decide, by decide, by decide, by decide⟩

theorem rowQps_fixed_go (sq left : Int) (us : List (Nat × Nat)) : ∀ q ∈ rowQps.go false sq left us, q = toInt8 sq := by
  induction us generalizing left with
  | nil => intro q hq; cases hq
  | cons u us ih =>
    intro q hq
    rcases List.mem_cons.mp hq with h | h
    · rw [h]; rfl
    · exact ih _ q h

/-- C59, part that holds: with one quantiser for the slice, legal by the decoder's own test, every unit's quantiser
is that of the slice and selects an entry of the tables. -/
theorem C59_fixed_partial (sliceQp bs : Int) (hv : isValidQp sliceQp) (us : List (Nat × Nat)) :
    ∀ q ∈ rowQps false sliceQp us, q = sliceQp ∧ (cuGetQuantParams q bs).isSome := by
  intro q hq
  have hv' : 0 ≤ sliceQp ∧ sliceQp ≤ 63 := by simpa [isValidQp] using hv
  have : q = sliceQp := by
    rw [rowQps_fixed_go _ _ _ q hq]; unfold toInt8; omega
  refine ⟨this, ?_⟩
  subst this
  obtain ⟨s, c, hs, hc, h⟩ := tables_ok ⟨q.toNat, by omega⟩
  have e : (((⟨q.toNat, by omega⟩ : Fin 80) : Nat) : Int) = q := by simp; omega
  rw [e] at hs hc
  unfold cuGetQuantParams
  rw [hs, hc]; rfl

/-- Independent specification of the quantisers of a row: running sums of the changes. -/
def Spec.runningQps (q : Int) : List Int → List Int
  | [] => []
  | d :: l => (q + d) :: Spec.runningQps (q + d) l

theorem rowQps_go_running (sq left : Int) (us : List (Nat × Nat))
    (h : ∀ q ∈ Spec.runningQps left (us.map fun u => cuDeltaQp u.1 u.2), 0 ≤ q ∧ q ≤ 79) :
    rowQps.go true sq left us = Spec.runningQps left (us.map fun u => cuDeltaQp u.1 u.2) := by
  induction us generalizing left with
  | nil => rfl
  | cons u us ih =>
    have h1 := h (left + cuDeltaQp u.1 u.2) List.mem_cons_self
    have e : cuQp true sq left u.1 u.2 = left + cuDeltaQp u.1 u.2 := by
      unfold cuQp toInt8; rw [if_pos rfl]; omega
    show cuQp true sq left u.1 u.2 :: rowQps.go true sq (cuQp true sq left u.1 u.2) us = _
    rw [e, ih _ fun q hq => h q (List.mem_cons_of_mem _ hq)]
    rfl

/-- C59, part that holds: with changing quantisers, as long as the running sums stay inside 0..79 the units' quantisers
are exactly the running sums and every one selects an entry of the tables. -/
theorem C59_running_partial (sliceQp bs : Int) (hv : 0 ≤ sliceQp ∧ sliceQp ≤ 79) (us : List (Nat × Nat))
    (h : ∀ q ∈ Spec.runningQps sliceQp (us.map fun u => cuDeltaQp u.1 u.2), 0 ≤ q ∧ q ≤ 79) :
    rowQps true sliceQp us = Spec.runningQps sliceQp (us.map fun u => cuDeltaQp u.1 u.2) ∧
      ∀ q ∈ rowQps true sliceQp us, (cuGetQuantParams q bs).isSome := by
  have e : toInt8 sliceQp = sliceQp := by unfold toInt8; omega
  have hr : rowQps true sliceQp us = Spec.runningQps sliceQp (us.map fun u => cuDeltaQp u.1 u.2) := by
    unfold rowQps; rw [e]; exact rowQps_go_running _ _ _ h
  refine ⟨hr, ?_⟩
  intro q hq
  rw [hr] at hq
  obtain ⟨q0, q1⟩ := h q hq
  obtain ⟨s, c, hs, hc, h⟩ := tables_ok ⟨q.toNat, by omega⟩
  have e : (((⟨q.toNat, by omega⟩ : Fin 80) : Nat) : Int) = q := by simp; omega
  rw [e] at hs hc
  unfold cuGetQuantParams
  rw [hs, hc]; rfl

example : rowQps true 30 [(1, 3), (0, 9), (1, 4)] = [32, 32, 30] := by decide

/-- C59: the chroma quantiser always comes from its table, lies in 0..51, never exceeds a legal luma quantiser plus
offset and grows with it. -/
theorem C59_chroma (qp d : Int) : ∃ v, cuGetChromaQp qp d = some v ∧ 0 ≤ v ∧ v ≤ 51 ∧
    (∀ qp', qp ≤ qp' → ∃ w, cuGetChromaQp qp' d = some w ∧ v ≤ w) ∧ (0 ≤ qp + d → v ≤ qp + d) ∧
    (0 ≤ qp + d → qp + d ≤ 42 → v = qp + d) ∧ (∃ w, cuGetQuantParams v 2 = some w) := by
  have tab : ∀ q : Fin 64, (match tabGet qpScaleCr q with
    | some v => decide (0 ≤ v ∧ v ≤ 51 ∧ v ≤ q ∧ ((q : Nat) ≤ 42 → v = q)) | none => false) = true := by decide +kernel
  have mono : ∀ q r : Fin 64, q ≤ r → (match tabGet qpScaleCr q, tabGet qpScaleCr r with
    | some v, some w => decide (v ≤ w) | _, _ => false) = true := by decide +kernel
  have hc : ∀ x : Int, ∃ q : Fin 64, clip3 0 63 x = ((q : Nat) : Int) ∧ (0 ≤ x → ((q : Nat) : Int) ≤ x) ∧
      (0 ≤ x → x ≤ 63 → ((q : Nat) : Int) = x) := by
    intro x
    refine ⟨⟨(clip3 0 63 x).toNat, ?_⟩, ?_, ?_, ?_⟩ <;> (unfold clip3; split <;> try split) <;>
      first | omega | (intros; dsimp only; omega)
  have hm : ∀ x y : Int, x ≤ y → clip3 0 63 x ≤ clip3 0 63 y := by
    intro x y h; unfold clip3; split <;> split <;> (try split) <;> (try split) <;> omega
  obtain ⟨q, hq, hq1, hq2⟩ := hc (qp + d)
  have t := tab q
  split at t
  · rename_i v hv
    have t' : 0 ≤ v ∧ v ≤ 51 ∧ v ≤ (q : Nat) ∧ ((q : Nat) ≤ 42 → v = ((q : Nat) : Int)) := of_decide_eq_true t
    refine ⟨v, by unfold cuGetChromaQp; rw [hq, hv], t'.1, t'.2.1, ?_, ?_, ?_, ?_⟩
    · intro qp' hle
      obtain ⟨r, hr, _⟩ := hc (qp' + d)
      have hqr : q ≤ r := by
        have := hm (qp + d) (qp' + d) (by omega)
        rw [hq, hr] at this
        exact Fin.mk_le_mk.mpr (by exact_mod_cast this)
      have t2 := mono q r hqr
      rw [hv] at t2
      split at t2
      · rename_i v' w hv' hw
        cases hv'
        exact ⟨w, by unfold cuGetChromaQp; rw [hr, hw], by simpa using t2⟩
      · cases t2
    · intro h; have := hq1 h; omega
    · intro h h'; rw [← hq2 h (by omega)]; exact t'.2.2.2 (by have := hq2 h (by omega); omega)
    · obtain ⟨sh, sc, h, _⟩ := quantParams_some v 2 t'.1 (by omega) (by norm_num) (by norm_num)
      exact ⟨_, h⟩
  · cases t

end Davs2
