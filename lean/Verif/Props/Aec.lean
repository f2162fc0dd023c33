import Verif.Lemmas.AecOps
import Verif.Spec.ArithRun
/-
C29: the interval of the entropy decoder stays consistent.
C58: the entropy decoder computes exact arithmetic decoding.
-/
namespace Davs2
open Spec

/-- The probability states of the standard (C28), as a parameter of the exact decoder; the cost used is a
quarter of the field. -/
def avsProb : ProbModel ProbState where
  cost s := s.lg / 4
  mps s := s.mps
  update b s := if b then s.afterLps else s.afterMps

/-- One request to the decoder of the code. -/
def binStep (op : BinOp) (a : Aec) (ctx : Nat → Nat) : Option (Aec × (Nat → Nat) × Nat) :=
  match op with
  | .sym c => (biariSymbol a (ctx c)).map fun (a, v, s) => (a, tabSet ctx c v, s)
  | .eq => (biariEq a).map fun (a, s) => (a, ctx, s)
  | .fin => (biariFinal a).map fun (a, s) => (a, ctx, s)

/-- A sequence of requests up to the first error: the symbols decoded and the last state. -/
def binRun : List BinOp → Aec → (Nat → Nat) → Option (List Nat × Aec)
  | [], a, _ => some ([], a)
  | op :: ops, a, ctx =>
    match binStep op a ctx with
    | none => none
    | some (a, ctx, s) =>
      if a.err then some ([], a) else (binRun ops a ctx).map fun (l, a) => (s :: l, a)

/-- The stored states are the states of the exact decoder. -/
def CtxsRel (ctx : Nat → Nat) (cs : Nat → ProbState) : Prop :=
  ∀ c, ctx c = (cs c).enc ∧ CtxOk (ctx c) ∧ (cs c).cyc ≤ 3

theorem CtxsRel.lg {ctx : Nat → Nat} {cs : Nat → ProbState} (h : CtxsRel ctx cs) (c : Nat) : (cs c).lg ≤ 1024 := by
  obtain ⟨h1, h2, h3⟩ := h c
  rw [h1] at h2
  obtain ⟨l, m, c', e, h4, h5, h6, h7⟩ := h2
  rw [enc_eq] at e
  have := mkCtx_inj (by omega) h7 (by cases (cs c).mps <;> decide) h6 e
  omega

theorem enc_fields {s : ProbState} (hc : s.cyc ≤ 3) (hl : s.lg ≤ 1024) : ctxLg s.enc = s.lg ∧ ctxMps s.enc = s.mps.toNat := by
  have : s.mps.toNat ≤ 1 := by cases s.mps <;> simp
  unfold ctxLg ctxMps ProbState.enc
  omega

theorem CtxsRel.update {ctx : Nat → Nat} {cs : Nat → ProbState} (h : CtxsRel ctx cs) (c : Nat) (b : Bool) :
    CtxsRel (tabSet ctx c (updateCtx b (ctx c)))
      (fun k => if k = c then (if b then (cs c).afterLps else (cs c).afterMps) else cs k) := by
  intro k
  unfold tabSet
  by_cases hk : k = c
  · subst hk
    simp only [if_pos rfl, if_true]
    obtain ⟨h1, h2, h3⟩ := h k
    have hl := h.lg k
    have hr := C28_table_rule (cs k) h3 hl
    refine ⟨?_, h2.update b, ?_⟩
    · rw [h1]; cases b
      · simp [updateCtx, hr.1]
      · simp [updateCtx, hr.2]
    · cases b
      · simp only [Bool.false_eq_true, if_false]; unfold ProbState.afterMps; simp only []; split <;> omega
      · simp only [if_true]; rw [afterLps_cyc]; split <;> omega
  · simp only [if_neg hk]; exact h k

/-- One request refines one step of the exact decoder. -/
theorem binStep_spec {a : Aec} {l : List Bool} {i : Ival} {T : Nat} (h : a.Rel l i T) {ctx : Nat → Nat} {cs : Nat → ProbState}
    (hc : CtxsRel ctx cs) (op : BinOp) (hb : op = .eq → ¬ a.atBound) :
    (∃ a' ctx', binStep op a ctx = some (a', ctx', 0) ∧ a'.err = true ∧ l.length < 263 ∧
      (i.off * 2 ^ T < 256 ∨ T < (idealStep avsProb op i cs).2.1.e)) ∨
    (∃ a' ctx' j, binStep op a ctx = some (a', ctx', (idealStep avsProb op i cs).1.toNat) ∧ j ≤ 263 ∧
      a'.Rel (l.drop j) (idealStep avsProb op i cs).2.1 T ∧ CtxsRel ctx' (idealStep avsProb op i cs).2.2 ∧
      (1 ≤ i.off * 2 ^ (i.e + 246) → a.Unbound → a'.Unbound)) := by
  cases op with
  | sym c =>
    obtain ⟨h1, h2, h3⟩ := hc c
    obtain ⟨f1, f2⟩ := enc_fields h3 (hc.lg c)
    have hs := biariSymbol_step h h2
    rw [show ctxLg (ctx c) / 4 = avsProb.cost (cs c) by rw [h1, f1]; rfl] at hs
    rcases hs with ⟨a', e1, e2, e3, e4⟩ | ⟨a', j, e1, e2, e3, e4⟩
    · left; exact ⟨a', _, by simp only [binStep, e1, Option.map_some]; rfl, e2, e3, e4⟩
    · right
      refine ⟨a', _, j, ?_, e2, e3, hc.update c _, e4⟩
      simp only [binStep, e1, Option.map_some]
      refine congrArg some (Prod.ext rfl (Prod.ext rfl ?_))
      show _ = ((i.decode (avsProb.cost (cs c))).1 != (cs c).mps).toNat
      rw [h1, f2]
      cases (i.decode (avsProb.cost (cs c))).1 <;> cases (cs c).mps <;> rfl
  | eq =>
    rcases biariEq_step h (hb rfl) with ⟨a', e1, e2, e3, e4⟩ | ⟨a', j, e1, e2, e3, e4⟩
    · left; exact ⟨a', _, by simp only [binStep, e1, Option.map_some]; rfl, e2, e3, Or.inr e4⟩
    · right; exact ⟨a', _, j, by simp only [binStep, e1, Option.map_some]; rfl, e2, e3, hc, fun _ => e4⟩
  | fin =>
    rcases biariFinal_step h with ⟨a', e1, e2, e3, e4⟩ | ⟨a', j, e1, e2, e3, e4⟩
    · left; exact ⟨a', _, by simp only [binStep, e1, Option.map_some]; rfl, e2, e3, e4⟩
    · right; exact ⟨a', _, j, by simp only [binStep, e1, Option.map_some]; rfl, e2, e3, hc, e4⟩

theorem Aec.Rel.err_false {a : Aec} {l : List Bool} {i : Ival} {T : Nat} (h : a.Rel l i T) : a.err = false := h.2.1

theorem binRun_spec : ∀ (ops : List BinOp) {a : Aec} {l : List Bool} {i : Ival} {T : Nat} {ctx : Nat → Nat}
    {cs : Nat → ProbState}, a.Rel l i T → CtxsRel ctx cs →
    (BinOp.eq ∈ ops → a.Unbound ∧ ∀ j ∈ idealIvals avsProb ops i cs, 1 ≤ j.off * 2 ^ (j.e + 246)) →
    ∃ bins a', binRun ops a ctx = some (bins, a') ∧
      bins = ((idealBins avsProb ops i cs).take bins.length).map Bool.toNat ∧
      (a'.err = false → bins.length = ops.length ∧ ∃ l' i', a'.Rel l' i' T) ∧
      (a'.err = true → l.length < 263 * ops.length ∧ ∃ j ∈ idealIvals avsProb ops i cs ++ [idealEnd avsProb ops i cs],
        j.off * 2 ^ T < 256 ∨ T < j.e) := by
  intro ops
  induction ops with
  | nil =>
    intro a l i T ctx cs h hc _
    exact ⟨[], a, rfl, rfl, fun _ => ⟨rfl, l, i, h⟩, fun he => by rw [h.err_false] at he; exact absurd he (by simp)⟩
  | cons op ops ih =>
    intro a l i T ctx cs h hc hu
    have hb : op = .eq → ¬ a.atBound := by
      rintro rfl ⟨hd, _, hbd⟩
      have := (hu (by simp)).1 hd
      rw [hbd] at this; exact absurd this (by simp)
    rcases binStep_spec h hc op hb with ⟨a', ctx', e1, e2, e3, e6⟩ | ⟨a', ctx', j, e1, e2, e3, e4, e5⟩
    · refine ⟨[], a', by simp [binRun, e1, e2], rfl, fun he => ?_, fun _ => ⟨?_, ?_⟩⟩
      · rw [e2] at he; exact absurd he (by simp)
      · simp only [List.length_cons]; omega
      · rcases e6 with e6 | e6
        · exact ⟨i, by simp [idealIvals], Or.inl e6⟩
        · refine ⟨(idealStep avsProb op i cs).2.1, ?_, Or.inr e6⟩
          cases ops with
          | nil => simp [idealIvals, idealEnd]
          | cons o os => simp [idealIvals]
    · obtain ⟨bins, b, r1, r2, r3, r4⟩ := ih e3 e4 (fun hm => by
        have := hu (List.mem_cons_of_mem _ hm)
        simp only [idealIvals, List.mem_cons, forall_eq_or_imp] at this
        exact ⟨e5 this.2.1 this.1, this.2.2⟩)
      refine ⟨(idealStep avsProb op i cs).1.toNat :: bins, b, ?_, ?_, fun he => ?_, fun he => ?_⟩
      · simp [binRun, e1, e3.err_false, r1]
      · simp only [idealBins, List.length_cons, List.take_succ_cons, List.map_cons]
        rw [← r2]
      · obtain ⟨r, l', i', h'⟩ := r3 he
        exact ⟨by simp [r], l', i', h'⟩
      · obtain ⟨h1, q, h2, h3⟩ := r4 he
        rw [List.length_drop] at h1
        refine ⟨by simp only [List.length_cons]; omega, q, ?_, h3⟩
        simp only [idealIvals, idealEnd, List.cons_append]
        exact List.mem_cons_of_mem _ h2

/-- Starting the decoder on a payload. -/
theorem aecStart_spec (buf : List Byte) (pos len : Nat) (old : Aec) (h : len ≤ buf.length)
    (hones : (bitsOf ((buf.take len).drop pos)).take 9 ≠ List.replicate 9 true) :
    let bits := bitsOf ((buf.take len).drop pos)
    (∃ a, aecStart buf pos len old = some a ∧ a.err = true ∧ bits.length < 9) ∨
    (∃ a, aecStart buf pos len old = some a ∧ a.Rel (bits.drop 9) (idealStart bits) (bits.length - 9) ∧ a.Unbound ∧ 9 ≤ bits.length) := by
  intro bits
  unfold aecStart
  simp only []
  rcases Aec.nextN_spec (a := ⟨aecRdStart buf pos len old.rd.byteBuf, false, old.bound, true, 0, 255, 0, 0⟩)
    (RdRep.start buf pos len _ h) rfl 9 (by omega) (by norm_num) with ⟨hl, r, e1, e2⟩ | ⟨hl, a', e1, e2⟩
  · right
    rw [e1]
    refine ⟨_, rfl, ?_, fun hd => absurd hd (by simp), hl⟩
    have hv : valOf (bits.take 9) < 512 := by
      have := valOf_lt (bits.take 9)
      rwa [List.length_take, Nat.min_eq_left hl] at this
    have hne : valOf (bits.take 9) ≠ 511 := by
      intro he
      refine hones ?_
      have hlen : (bits.take 9).length = 9 := by rw [List.length_take]; exact Nat.min_eq_left hl
      change bits.take 9 = _
      generalize bits.take 9 = t at he hlen
      match t, hlen with
      | [b1, b2, b3, b4, b5, b6, b7, b8, b9], _ =>
        revert he
        cases b1 <;> cases b2 <;> cases b3 <;> cases b4 <;> cases b5 <;> cases b6 <;> cases b7 <;> cases b8 <;>
          cases b9 <;> decide
    have e0 : (0 * 2 ^ 9 + valOf (bits.take 9)) % 2 ^ 32 = valOf (bits.take 9) := by
      rw [Nat.zero_mul, Nat.zero_add]; exact Nat.mod_eq_of_lt (by omega)
    refine Aec.Rel.mkR (off := 2 ^ 9 * frac bits) (e := 0) (t1 := 255) (vt := valOf (bits.take 9)) (by rw [List.length_drop]; omega) e2 rfl rfl rfl
      (by omega) (Nat.zero_le _) (Nat.zero_le _) rfl e0 (by omega) rfl rfl ?_
    rw [pow_zero, mul_one]
    exact frac_take bits 9 hl
  · left
    rw [e1]
    exact ⟨a', rfl, e2, hl⟩

/-- All states at the start, aec.cc:782-792. -/
theorem CtxsRel.init : CtxsRel (fun _ => initCtx) (fun _ => ⟨1023, false, 0⟩) :=
  fun _ => ⟨rfl, CtxOk.init, Nat.zero_le 3⟩

/-- C58: decoding any sequence of symbols, in any order of adaptive, equiprobable and end-of-slice symbols and
with any assignment of contexts, gives the symbols of exact arithmetic decoding of the payload, up to the end
of the payload, which is reported as an error; an error is never reported while 263 bits per symbol are left, nor
if the payload has all bits of the intervals and the offset is never too small to be seen in it.

Partial: the first nine bits must not all be ones (`C29_start_violated`), and, if equiprobable symbols occur,
the offset must never be below a 2^-255 part of the interval (`C58_equiprobable_violated`). -/
theorem C58_exact_decoding_partial (buf : List Byte) (pos len : Nat) (old : Aec) (h : len ≤ buf.length)
    (ops : List BinOp) :
    let bits := bitsOf ((buf.take len).drop pos)
    let cs : Nat → ProbState := fun _ => ⟨1023, false, 0⟩
    bits.take 9 ≠ List.replicate 9 true →
    (BinOp.eq ∈ ops → ∀ j ∈ idealIvals avsProb ops (idealStart bits) cs, 1 ≤ j.off * 2 ^ (j.e + 246)) →
    ∃ a, aecStart buf pos len old = some a ∧ (a.err = true → bits.length < 9) ∧
      (a.err = false → ∃ bins a', binRun ops a (fun _ => initCtx) = some (bins, a') ∧
        bins = ((idealBins avsProb ops (idealStart bits) cs).take bins.length).map Bool.toNat ∧
        (a'.err = false → bins.length = ops.length) ∧
        (a'.err = true → bits.length < 9 + 263 * ops.length ∧
          ∃ j ∈ idealIvals avsProb ops (idealStart bits) cs ++ [idealEnd avsProb ops (idealStart bits) cs],
            j.off * 2 ^ (bits.length - 9) < 256 ∨ bits.length < 9 + j.e)) := by
  intro bits cs hones hbd
  rcases aecStart_spec buf pos len old h hones with ⟨a, e1, e2, e3⟩ | ⟨a, e1, e2, e3, e4⟩
  · exact ⟨a, e1, fun _ => e3, fun he => by rw [e2] at he; exact absurd he (by simp)⟩
  · refine ⟨a, e1, fun he => by rw [e2.err_false] at he; exact absurd he (by simp), fun _ => ?_⟩
    obtain ⟨bins, a', r1, r2, r3, r4⟩ := binRun_spec ops e2 CtxsRel.init (fun hm => ⟨e3, hbd hm⟩)
    refine ⟨bins, a', r1, r2, fun he => (r3 he).1, fun he => ?_⟩
    obtain ⟨this, q, q1, q2⟩ := r4 he
    rw [List.length_drop] at this
    change 9 ≤ bits.length at e4
    change bits.length - 9 < _ at this
    refine ⟨by omega, q, q1, q2.imp (fun h => h) fun h => ?_⟩
    change bits.length - 9 < _ at h
    omega

/-- C29: after any sequence of symbols the registers are within their widths and the value stays below the
range: in the R domain below 256 + t1, in the logarithmic domain with the leading one removed below 256, and not
beyond the range; and there is an exact interval with an offset inside it that the registers stand for.

Partial as `C58_exact_decoding_partial`. -/
theorem C29_interval_partial (buf : List Byte) (pos len : Nat) (old : Aec) (h : len ≤ buf.length)
    (ops : List BinOp) :
    let bits := bitsOf ((buf.take len).drop pos)
    let cs : Nat → ProbState := fun _ => ⟨1023, false, 0⟩
    bits.take 9 ≠ List.replicate 9 true →
    (BinOp.eq ∈ ops → ∀ j ∈ idealIvals avsProb ops (idealStart bits) cs, 1 ≤ j.off * 2 ^ (j.e + 246)) →
    ∃ a, aecStart buf pos len old = some a ∧ (a.err = false →
      ∃ bins a', binRun ops a (fun _ => initCtx) = some (bins, a') ∧ (a'.err = false →
        a'.t1 < 256 ∧ a'.s1 ≤ 254 ∧ a'.vs ≤ 254 ∧ a'.vt < 512 ∧
        (a'.dom = true → a'.vt < 256 + a'.t1) ∧
        (a'.dom = false → a'.vt < 256 + a'.t1 ∧ (a'.s1 < 254 → a'.vt < 256)) ∧
        (a'.dom = false → a'.bound = false → a'.s1 < a'.vs ∨ (a'.s1 = a'.vs ∧ a'.vt < a'.t1)) ∧
        ∃ i : Ival, i.m = 256 + a'.t1 ∧ 0 ≤ i.off ∧ i.off < i.size)) := by
  intro bits cs hones hbd
  rcases aecStart_spec buf pos len old h hones with ⟨a, e1, e2, e3⟩ | ⟨a, e1, e2, e3, e4⟩
  · exact ⟨a, e1, fun he => by rw [e2] at he; exact absurd he (by simp)⟩
  · refine ⟨a, e1, fun _ => ?_⟩
    obtain ⟨bins, a', r1, r2, r3, r4⟩ := binRun_spec ops e2 CtxsRel.init (fun hm => ⟨e3, hbd hm⟩)
    refine ⟨bins, a', r1, fun he => ?_⟩
    obtain ⟨_, l', i, hr, _, ht, hm, hvs, hs1, k, _, hcase⟩ := r3 he
    refine ⟨ht, hs1, hvs, ?_, ?_, ?_, ?_, i, hm, ?_, ?_⟩
    · rcases hcase with ⟨_, h, _⟩ | ⟨_, _, h, _⟩ | ⟨_, _, h, _⟩ <;> omega
    · intro hd
      rcases hcase with ⟨_, h, _⟩ | ⟨h, _⟩ | ⟨h, _⟩
      · exact h
      · rw [hd] at h; exact absurd h (by simp)
      · rw [hd] at h; exact absurd h (by simp)
    · intro hd
      rcases hcase with ⟨hR, h, _⟩ | ⟨_, _, h, _⟩ | ⟨_, _, h, _⟩
      · refine ⟨h, fun hs => ?_⟩
        unfold Aec.inR at hR
        rw [hd] at hR
        simp at hR
        omega
      · exact ⟨by omega, fun _ => h⟩
      · exact ⟨by omega, fun _ => h⟩
    · intro hd hbf
      rcases hcase with ⟨hR, _⟩ | ⟨_, _, _, h, _⟩ | ⟨_, h, _⟩
      · unfold Aec.inR at hR
        rw [hd, hbf] at hR
        simp at hR
      · exact h
      · rw [hbf] at h; exact absurd h (by simp)
    · have hf0 := frac_nonneg l'
      have hv : (0 : ℚ) ≤ a'.vt := Nat.cast_nonneg _
      have hp : (0 : ℚ) < 2 ^ k := by positivity
      rcases hcase with ⟨_, _, _, ho⟩ | ⟨_, _, _, _, _, ho⟩ | ⟨_, _, _, _, _, _, ho⟩ <;>
      · by_contra hneg
        push_neg at hneg
        have := mul_neg_of_neg_of_pos hneg hp
        linarith
    · have hf1 := frac_lt_one l'
      unfold Ival.size
      rw [hm]
      have ht0 : (0 : ℚ) ≤ a'.t1 := Nat.cast_nonneg _
      rcases hcase with ⟨_, hv, hk, ho⟩ | ⟨_, _, hv, hpos, hk, ho⟩ | ⟨_, _, hv, hs, hvs', hk, ho⟩
      · rw [lt_div_pow ho (by omega : k = i.e + 0), pow_zero, mul_one]
        have : (a'.vt : ℚ) + 1 ≤ ((256 + a'.t1 : Nat) : ℚ) := by exact_mod_cast hv
        linarith
      · rw [lt_div_pow ho (by omega : k = i.e + (a'.vs - a'.s1))]
        rcases hpos with hp | ⟨hp, hv'⟩
        · obtain ⟨d, hd⟩ : ∃ d, a'.vs - a'.s1 = d + 1 := ⟨a'.vs - a'.s1 - 1, by omega⟩
          rw [hd, pow_succ]
          have hp : (1 : ℚ) ≤ 2 ^ d := one_le_pow₀ (by norm_num)
          have hv : (a'.vt : ℚ) + 1 ≤ 256 := by exact_mod_cast (by omega : a'.vt + 1 ≤ 256)
          push_cast
          have : (256 : ℚ) * 1 ≤ (256 + a'.t1) * 2 ^ d := mul_le_mul (by linarith) hp (by norm_num) (by linarith)
          linarith
        · rw [hp, Nat.sub_self, pow_zero, mul_one]
          have : (a'.vt : ℚ) + 1 ≤ a'.t1 := by exact_mod_cast hv'
          push_cast; linarith
      · rw [lt_div_pow ho (by omega : k = i.e + (a'.vs - a'.s1))]
        have hp : (1 : ℚ) ≤ 2 ^ (a'.vs - a'.s1) := one_le_pow₀ (by norm_num)
        have hv : (a'.vt : ℚ) + 1 ≤ 256 := by exact_mod_cast (by omega : a'.vt + 1 ≤ 256)
        push_cast
        have : (256 : ℚ) * 1 ≤ (256 + a'.t1) * 2 ^ (a'.vs - a'.s1) :=
          mul_le_mul (by linarith) hp (by norm_num) (by linarith)
        linarith

/-- A payload and requests that meet the conditions. -/
example (old : Aec) := C58_exact_decoding_partial [0x55#8, 0x0f#8, 0xa3#8] 0 3 old (by decide)
  [.sym 0, .sym 7, .fin, .sym 0] (by decide) (fun h => absurd h (by decide))

/-- The same with an equiprobable symbol. -/
example (old : Aec) := C58_exact_decoding_partial [0x55#8] 0 1 old (by decide) [.eq] (by decide) (by
  intro _ j hj
  simp only [idealIvals, List.mem_cons, List.not_mem_nil, or_false] at hj
  rw [hj]
  have : bitsOf (([0x55#8].take 1).drop 0) = [false, true, false, true, false, true, false, true] := by decide
  simp only [this, idealStart, frac]
  norm_num)

/-- C29 does not hold for every payload: if it begins with nine ones, the value is not below the range. -/
theorem C29_start_violated :
    ∃ (buf : List Byte) (old a : Aec), aecStart buf 0 buf.length old = some a ∧ a.err = false ∧ a.dom = true ∧
      ¬ a.vt < 256 + a.t1 := by
  refine ⟨[0xff#8, 0xff#8], ⟨⟨[], 0, 0, 0, 0⟩, false, false, false, 0, 0, 0, 0⟩, _, rfl, rfl, rfl, ?_⟩
  decide

/-- `n` equiprobable symbols below the middle. -/
theorem idealBins_eq_low (off : ℚ) (m : Nat) (cs : Nat → ProbState) (rest : List BinOp) (hm1 : 256 ≤ m) (hm2 : m < 512) :
    ∀ (n e : Nat), off * 2 ^ (e + n) < m →
    idealBins avsProb (List.replicate n .eq ++ rest) ⟨off, m, e⟩ cs =
      List.replicate n false ++ idealBins avsProb rest ⟨off, m, e + n⟩ cs := by
  intro n
  induction n with
  | zero => intro e _; rfl
  | succ n ih =>
    intro e h
    have hd : Ival.decode ⟨off, m, e⟩ 256 = (false, ⟨off, m, e + 1⟩) := by
      have hmp : Ival.mpsPart ⟨off, m, e⟩ 256 = (m, e + 1) := by
        unfold Ival.mpsPart; simp only []; rw [if_neg (by omega)]; simp
      unfold Ival.decode
      simp only [hmp]
      rw [if_pos]
      rw [lt_div_iff₀ (by positivity)]
      by_cases ho : off ≤ 0
      · have : off * 2 ^ (e + 1) ≤ 0 := mul_nonpos_of_nonpos_of_nonneg ho (by positivity)
        have : (0 : ℚ) < m := by exact_mod_cast (by omega : 0 < m)
        linarith
      · have : off * 2 ^ (e + 1) ≤ off * 2 ^ (e + (n + 1)) :=
          mul_le_mul_of_nonneg_left (pow_le_pow_right₀ (by norm_num) (by omega)) (by linarith)
        linarith
    rw [List.replicate_succ, List.cons_append, idealBins]
    simp only [idealStep, hd]
    rw [ih (e + 1) (by rw [show e + 1 + n = e + (n + 1) by omega]; exact h)]
    rw [List.replicate_succ, List.cons_append, show e + 1 + n = e + (n + 1) by omega]

theorem frac_zeros (n : Nat) (l : List Bool) : frac (List.replicate n false ++ l) = frac l / 2 ^ n := by
  induction n with
  | zero => simp
  | succ n ih =>
    rw [List.replicate_succ, List.cons_append, frac, ih, pow_succ]
    simp only [Bool.false_eq_true, if_false]
    rw [zero_add, div_div]

theorem frac_ones (n : Nat) : frac (List.replicate n true) = 1 - 1 / 2 ^ n := by
  induction n with
  | zero => simp [frac]
  | succ n ih =>
    rw [List.replicate_succ, frac, ih, pow_succ]
    simp only [if_true]
    have : (2 : ℚ) ^ n ≠ 0 := by positivity
    field_simp
    ring

/-- The payload of the counterexample: 263 zeros and 25 ones. -/
def eqBad : List Byte := List.replicate 32 0x00#8 ++ [0x01#8, 0xff#8, 0xff#8, 0xff#8]

/-- C58 does not hold for every payload: an equiprobable symbol decoded at the moment the value register has
just been used up to its bound leaves the decoder in the wrong domain, and the symbols that follow differ from
exact decoding, without any error. -/
theorem C58_equiprobable_violated :
    ∃ (buf : List Byte) (old a a' : Aec) (ops : List BinOp) (bins : List Nat),
      let bits := bitsOf buf
      bits.take 9 ≠ List.replicate 9 true ∧
      aecStart buf 0 buf.length old = some a ∧ a.err = false ∧
      binRun ops a (fun _ => initCtx) = some (bins, a') ∧ a'.err = false ∧ bins.length = ops.length ∧
      bins ≠ (idealBins avsProb ops (idealStart bits) (fun _ => ⟨1023, false, 0⟩)).map Bool.toNat := by
  let old : Aec := ⟨⟨[], 0, 0, 0, 0⟩, false, false, false, 0, 0, 0, 0⟩
  let ops : List BinOp := .fin :: List.replicate 263 .eq
  have hrun : ((aecStart eqBad 0 eqBad.length old).bind fun a =>
      if a.err then none else (binRun ops a (fun _ => initCtx)).map fun p => (p.1, p.2.err)) =
      some (List.replicate 264 0, false) := by decide +kernel
  generalize hR : List.replicate 264 0 = R at hrun
  obtain ⟨a, ha⟩ : ∃ a, aecStart eqBad 0 eqBad.length old = some a := by
    cases h : aecStart eqBad 0 eqBad.length old with
    | none => rw [h] at hrun; exact absurd hrun (by simp)
    | some a => exact ⟨a, rfl⟩
  rw [ha] at hrun
  simp only [Option.bind_some] at hrun
  have hae : a.err = false := by
    cases h : a.err with
    | false => rfl
    | true => rw [h] at hrun; exact absurd hrun (by simp)
  rw [hae] at hrun
  simp only [Bool.false_eq_true, if_false] at hrun
  obtain ⟨bins, a', hb⟩ : ∃ bins a', binRun ops a (fun _ => initCtx) = some (bins, a') := by
    cases h : binRun ops a (fun _ => initCtx) with
    | none => rw [h] at hrun; exact absurd hrun (by simp)
    | some p => exact ⟨p.1, p.2, rfl⟩
  rw [hb] at hrun
  simp only [Option.map_some, Option.some.injEq, Prod.mk.injEq] at hrun
  obtain ⟨h1, h2⟩ := hrun
  refine ⟨eqBad, old, a, a', ops, bins, by decide +kernel, ha, hae, hb, h2,
    by rw [h1, ← hR, List.length_replicate, List.length_cons, List.length_replicate], ?_⟩
  have hbits : bitsOf eqBad = List.replicate 263 false ++ List.replicate 25 true := by decide +kernel
  obtain ⟨P, hP⟩ : ∃ P : ℚ, P = 2 ^ 254 := ⟨_, rfl⟩
  have hP0 : 0 < P := by rw [hP]; positivity
  have p263 : (2 : ℚ) ^ 263 = P * 512 := by rw [hP, show 263 = 254 + 9 from rfl, pow_add]; norm_num only
  have p262 : (2 : ℚ) ^ 262 = P * 256 := by rw [hP, show 262 = 254 + 8 from rfl, pow_add]; norm_num only
  obtain ⟨x, hx⟩ : ∃ x : ℚ, x = (1 - 1 / 2 ^ 25) / P := ⟨_, rfl⟩
  have hxP : x * P = 1 - 1 / 2 ^ 25 := by rw [hx]; exact div_mul_cancel₀ _ (ne_of_gt hP0)
  have hst : idealStart (bitsOf eqBad) = ⟨x, 511, 0⟩ := by
    unfold idealStart
    rw [hbits, frac_zeros, frac_ones, p263]
    congr 1
    rw [hx]
    field_simp
    norm_num
  have hx1 : x < 510 := by
    have : x * 1 ≤ x * P := mul_le_mul_of_nonneg_left (by rw [hP]; exact one_le_pow₀ (by norm_num))
      (by rw [hx]; exact div_nonneg (by norm_num) (le_of_lt hP0))
    rw [hxP] at this
    norm_num at this ⊢
    linarith
  have hfin : Ival.decode ⟨x, 511, 0⟩ 1 = (false, ⟨x, 510, 0⟩) := by
    have hmp : Ival.mpsPart ⟨x, 511, 0⟩ 1 = (510, 0) := by
      unfold Ival.mpsPart; simp only []; rw [if_pos (by omega)]
    unfold Ival.decode
    simp only [hmp]
    rw [if_pos (by rw [pow_zero, div_one]; exact_mod_cast hx1)]
  rw [h1, hst]
  intro he
  have hops : ops = .fin :: (List.replicate 262 .eq ++ [.eq]) := by
    simp only [ops]
    rw [← List.replicate_succ']
  have hlow : x * 2 ^ (0 + 262) < ((510 : Nat) : ℚ) := by
    rw [Nat.zero_add, p262, ← mul_assoc, hxP]; norm_num
  rw [hops, idealBins] at he
  simp only [idealStep, hfin] at he
  rw [idealBins_eq_low _ _ _ _ (by omega) (by omega) 262 0 hlow] at he
  have hlast : (Ival.decode ⟨x, 510, 0 + 262⟩ 256).1 = true := by
    have hmp : Ival.mpsPart ⟨x, 510, 0 + 262⟩ 256 = (510, 263) := by
      unfold Ival.mpsPart; simp only []; rw [if_neg (by omega)]
    unfold Ival.decode
    simp only [hmp]
    rw [if_neg]
    rw [not_lt, div_le_iff₀ (by positivity), p263, ← mul_assoc, hxP]; norm_num
  rw [idealBins] at he
  simp only [idealStep, hlast] at he
  have hmem : true.toNat ∈ R := by
    rw [he]
    refine List.mem_map_of_mem (List.mem_cons_of_mem _ (List.mem_append_right _ ?_))
    exact List.mem_singleton_self _
  rw [← hR] at hmem
  exact absurd (List.eq_of_mem_replicate hmem) (by decide)

end Davs2
