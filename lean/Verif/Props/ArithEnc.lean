import Verif.Lemmas.ArithEnc
import Verif.Lemmas.Dispose
import Verif.Props.CuSyntax
/-
C101: the arithmetic decoder delivers the bins that an arithmetic encoder has written (partly).
-/
namespace Davs2.Sx
open Spec

/-- The states of the standard at the start of a slice. -/
def firstProbs : Arr → Nat → ProbState := fun _ _ => ⟨1023, false, 0⟩

/-- The interval of a whole slice. -/
def sliceEnc (c : List Bin) : Enc := encode avsProb c .start firstProbs

/-- **C101 (partial).**  Any sequence of bins, of any length, and any payload whose number lies in the interval of the bins, at
least 256 units of its last bit above the lower end: the decoder, started on the payload whatever its registers held, delivers exactly
these bins, without an error.

Missing: if bins with equal probabilities occur, the offset must never be below a 2^-255 part of the interval (`C101_violated`). -/
theorem C101_carried_partial (buf : List Byte) (pos len : Nat) (old : Aec) (h : len ≤ buf.length) (c : List Bin) :
    let bits := bitsOf ((buf.take len).drop pos)
    9 ≤ bits.length →
    (sliceEnc c).lo + 256 / 2 ^ (bits.length - 9) ≤ payloadNum bits → payloadNum bits < (sliceEnc c).hi →
    ((∃ b ∈ c, b.isEq = true) → ∀ G ∈ encStates avsProb c .start firstProbs, 1 ≤ (payloadNum bits - G.lo) * 2 ^ (G.e + 246)) →
    ∃ a s', aecStart buf pos len old = some a ∧ a.err = false ∧ Produces noError aecMachine ⟨a, fun _ _ => initCtx⟩ c s' := by
  intro bits h9 hl hh hu
  obtain ⟨n1, n2, n3, n4⟩ := encode_nested c initRel start_ok
  change (sliceEnc c).hi ≤ _ at n3
  rw [start_hi] at n3
  rcases aecStart_spec buf pos len old h (not_ones (lt_of_lt_of_le hh n3)) with ⟨_, _, _, e⟩ | ⟨a, e1, e2, e3, _⟩
  · change bits.length < 9 at e; omega
  · change a.Rel _ _ (bits.length - 9) at e2
    generalize hT : bits.length - 9 = T at hl e2
    have hp : (0 : ℚ) < 2 ^ T := by positivity
    have hx : 256 ≤ (payloadNum bits - (sliceEnc c).lo) * 2 ^ T := by
      rw [← div_le_iff₀ hp]; linarith
    have he : (sliceEnc c).e ≤ T := by
      have h1 : 256 / 2 ^ T < (sliceEnc c).hi - (sliceEnc c).lo := by linarith
      unfold Enc.hi Enc.lo at h1
      have hq : (0 : ℚ) < 2 ^ (sliceEnc c).e := by positivity
      rw [← sub_div, Nat.cast_add, add_sub_cancel_left, div_lt_div_iff₀ hp hq] at h1
      have h2 : ((sliceEnc c).m : ℚ) ≤ 512 := by exact_mod_cast le_of_lt n1.2
      have h3 := mul_le_mul_of_nonneg_right h2 (le_of_lt hp)
      have h4 : (2 : ℚ) ^ (sliceEnc c).e < 2 ^ (T + 1) := by rw [pow_succ]; linarith
      have := (pow_lt_pow_iff_right₀ (by norm_num : (1 : ℚ) < 2)).mp h4
      omega
    obtain ⟨s', hs⟩ := delivers c (x := payloadNum bits) (s := ⟨a, fun _ _ => initCtx⟩) (E := .start)
      (by rw [start_lo, sub_zero]; exact e2) initRel start_ok hx hh he (fun hm => ⟨e3, hu hm⟩)
    exact ⟨a, s', e1, e2.err_false, hs⟩

/-- A code word is shorter than its interval is fine. -/
theorem word_bounds (c : List Bin) : (sliceEnc c).Ok ∧ (sliceEnc c).low + 128 < 2 ^ (9 + (sliceEnc c).e) := by
  obtain ⟨n1, _, n3, _⟩ := encode_nested c initRel start_ok
  refine ⟨n1, ?_⟩
  change (sliceEnc c).hi ≤ _ at n3
  rw [start_hi] at n3
  unfold Enc.hi at n3
  rw [div_le_iff₀ (by positivity)] at n3
  have h1 : (sliceEnc c).low + (sliceEnc c).m ≤ 511 * 2 ^ (sliceEnc c).e := by exact_mod_cast n3
  have h2 : 256 ≤ (sliceEnc c).m := n1.1
  rw [Nat.pow_add]
  have hp : 0 < 2 ^ (sliceEnc c).e := by positivity
  change _ < 512 * 2 ^ (sliceEnc c).e
  omega

/-- **C101 (encoder, partial).**  What an encoder writes for a sequence of bins, followed by any bits, at least one: the decoder
delivers the bins.

Missing: if bins with equal probabilities occur, no stretch of bins with the more probable value (of zeros, for bins with equal
probabilities and end markers) may halve the unit of the interval more than 253 times. -/
theorem C101_encoder_partial (buf : List Byte) (pos len : Nat) (old : Aec) (h : len ≤ buf.length) (c : List Bin) (tail : List Bool)
    (ht : tail ≠ []) (hb : bitsOf ((buf.take len).drop pos) = (sliceEnc c).word ++ tail)
    (hv : (∃ b ∈ c, b.isEq = true) → Lively avsProb c .start firstProbs) :
    ∃ a s', aecStart buf pos len old = some a ∧ a.err = false ∧ Produces noError aecMachine ⟨a, fun _ _ => initCtx⟩ c s' := by
  obtain ⟨n1, n2⟩ := word_bounds c
  have hn := word_num n2 tail
  have hlen : ((sliceEnc c).word ++ tail).length = 9 + (sliceEnc c).e + tail.length := by
    rw [List.length_append]; congr 1; exact bitsOfNat_length _ _
  have ht' : 1 ≤ tail.length := by cases tail with
    | nil => exact absurd rfl ht
    | cons _ _ => simp
  have hp : (0 : ℚ) < 2 ^ (sliceEnc c).e := by positivity
  have f0 := div_nonneg (frac_nonneg tail) (le_of_lt hp)
  have hx : (sliceEnc c).lo + 128 / 2 ^ (sliceEnc c).e ≤ payloadNum ((sliceEnc c).word ++ tail) := by rw [hn]; linarith
  refine C101_carried_partial buf pos len old h c ?_ ?_ ?_ ?_
  · rw [hb, hlen]; omega
  · rw [hb]
    refine le_trans ?_ hx
    rw [hlen]
    obtain ⟨k, hk⟩ : ∃ k, 9 + (sliceEnc c).e + tail.length - 9 = (sliceEnc c).e + (k + 1) := ⟨tail.length - 1, by omega⟩
    rw [hk, add_le_add_iff_left, div_le_div_iff₀ (by positivity) hp, pow_add, pow_succ]
    have h1 : (1 : ℚ) ≤ 2 ^ k := one_le_pow₀ (by norm_num)
    have := mul_le_mul_of_nonneg_left h1 (le_of_lt hp)
    linarith
  · rw [hb, hn]
    have f1 := frac_lt_one tail
    unfold Enc.lo Enc.hi
    rw [← add_div, ← add_div, div_lt_div_iff_of_pos_right hp]
    have : (256 : ℚ) ≤ (sliceEnc c).m := by exact_mod_cast n1.1
    push_cast
    linarith
  · rw [hb]
    exact fun hm => (settle_off c initRel start_ok hx).2 (hv hm)

/-- A payload for a sequence of bins: the code word, a one, and zeros up to the next byte. -/
def slicePayload (c : List Bin) : List Byte := packBits ((sliceEnc c).word ++ [true])

theorem C101_payload_partial (old : Aec) (c : List Bin) (hv : (∃ b ∈ c, b.isEq = true) → Lively avsProb c .start firstProbs) :
    ∃ a s', aecStart (slicePayload c) 0 (slicePayload c).length old = some a ∧ a.err = false ∧
      Produces noError aecMachine ⟨a, fun _ _ => initCtx⟩ c s' := by
  obtain ⟨p, _, e⟩ := bitsOf_packBits ((sliceEnc c).word ++ [true])
  refine C101_encoder_partial (slicePayload c) 0 _ old (le_refl _) c (true :: List.replicate p false) (List.cons_ne_nil _ _) ?_ hv
  rw [List.take_length, List.drop_zero]
  unfold slicePayload
  rw [e, List.append_assoc]
  rfl

/-- What the decoder is asked for: the bin without its value. -/
def Bin.ask : Bin → Bin
  | .ctx a i _ => .ctx a i false
  | .eq _ => .eq false
  | .fin _ => .fin false

theorem ask_eq {a b : Bin} (h : a.ask = b.ask) (cs : Arr → Nat → ProbState) : binCost avsProb cs a = binCost avsProb cs b ∧
    (binLess avsProb cs a = binLess avsProb cs b → a = b) := by
  have hx : ∀ x y z : Bool, ((x != z) = (y != z)) → x = y := by decide
  cases a with
  | ctx a i v =>
    cases b with
    | ctx a' i' v' => cases h; exact ⟨rfl, fun e => by rw [hx v v' _ e]⟩
    | eq _ => cases h
    | fin _ => cases h
  | eq v =>
    cases b with
    | ctx _ _ _ => cases h
    | eq v' => exact ⟨rfl, fun e => congrArg Bin.eq e⟩
    | fin _ => cases h
  | fin v =>
    cases b with
    | ctx _ _ _ => cases h
    | eq _ => cases h
    | fin v' => exact ⟨rfl, fun e => congrArg Bin.fin e⟩

theorem encode_unique {x : ℚ} : ∀ (c d : List Bin) {ctx : Arr → Nat → Nat} {cs : Arr → Nat → ProbState} {E : Enc}, CRel ctx cs → E.Ok →
    c.map Bin.ask = d.map Bin.ask → ((encode avsProb c E cs).lo ≤ x ∧ x < (encode avsProb c E cs).hi) →
    ((encode avsProb d E cs).lo ≤ x ∧ x < (encode avsProb d E cs).hi) → c = d := by
  intro c
  induction c with
  | nil => intro d _ _ _ _ _ h _ _; exact (List.map_eq_nil_iff.mp h.symm).symm
  | cons a c ih =>
    intro d ctx cs E hc hE h h1 h2
    cases d with
    | nil => cases h
    | cons b d =>
      rw [List.map_cons, List.map_cons, List.cons.injEq] at h
      have nxt : ∀ b : Bin, ∃ ctx', CRel ctx' (learn avsProb cs b) := by
        intro b
        cases b with
        | ctx a i b => exact ⟨_, hc.learn a i b⟩
        | eq b => exact ⟨_, hc⟩
        | fin b => exact ⟨_, hc⟩
      have key : ∀ (b : Bin) (d : List Bin), ((encode avsProb (b :: d) E cs).lo ≤ x ∧ x < (encode avsProb (b :: d) E cs).hi) →
          (Ival.decode ⟨x - E.lo, E.m, E.e⟩ (binCost avsProb cs b)).1 = binLess avsProb cs b := by
        intro b d h
        obtain ⟨l1, l2⟩ := hc.cost b
        obtain ⟨a1, _⟩ := put_nested hE l1 l2 (binLess avsProb cs b)
        obtain ⟨ctx', hc'⟩ := nxt b
        obtain ⟨_, b2, b3, _⟩ := encode_nested d (E := E.bin avsProb cs b) hc' a1
        rw [decode_put hE l1 l2 (binLess avsProb cs b) (le_trans b2 h.1) (lt_of_lt_of_le h.2 b3)]
      obtain ⟨q1, q2⟩ := ask_eq h.1 cs
      have e1 := key a c h1
      rw [q1, key b d h2] at e1
      obtain rfl := q2 e1.symm
      obtain ⟨ctx', hc'⟩ := nxt a
      obtain ⟨l1, l2⟩ := hc.cost a
      rw [ih d (E := E.bin avsProb cs a) hc' (put_nested hE l1 l2 (binLess avsProb cs a)).1 h.2 h1 h2]

/-- **C101 (different bins).**  No number lies in the intervals of two different sequences of bins that answer the same requests. -/
theorem C101_unique {c d : List Bin} {x : ℚ} (h : c.map Bin.ask = d.map Bin.ask)
    (h1 : (sliceEnc c).lo ≤ x ∧ x < (sliceEnc c).hi) (h2 : (sliceEnc d).lo ≤ x ∧ x < (sliceEnc d).hi) : c = d :=
  encode_unique c d initRel start_ok h h1 h2

/-- Every number that a payload of the decoder can stand for lies in the interval of some answers. -/
theorem C101_total {x : ℚ} (h0 : 0 ≤ x) (h1 : x < 511) (q : List Bin) :
    ∃ c : List Bin, c.map Bin.ask = q.map Bin.ask ∧ (sliceEnc c).lo ≤ x ∧ x < (sliceEnc c).hi := by
  suffices H : ∀ (q : List Bin) {ctx : Arr → Nat → Nat} {cs : Arr → Nat → ProbState} {E : Enc}, CRel ctx cs → E.Ok → E.lo ≤ x → x < E.hi →
      ∃ c : List Bin, c.map Bin.ask = q.map Bin.ask ∧ (encode avsProb c E cs).lo ≤ x ∧ x < (encode avsProb c E cs).hi from
    H q initRel start_ok (by rw [start_lo]; exact h0) (by rw [start_hi]; exact h1)
  intro q
  induction q with
  | nil => intro ctx cs E _ _ h0 h1; exact ⟨[], rfl, h0, h1⟩
  | cons b q ih =>
    intro ctx cs E hc hE h0 h1
    have hv : ∀ v : Bool, ∃ b' : Bin, b'.ask = b.ask ∧ binLess avsProb cs b' = v := by
      intro v
      cases b with
      | ctx a i _ =>
        refine ⟨.ctx a i (v != (cs a i).mps), rfl, ?_⟩
        have : ∀ x y : Bool, ((x != y) != y) = x := by decide
        exact this _ _
      | eq _ => exact ⟨.eq v, rfl, rfl⟩
      | fin _ => exact ⟨.fin v, rfl, rfl⟩
    obtain ⟨l1, l2⟩ := hc.cost b
    have hin : ∃ v, (E.put (binCost avsProb cs b) v).lo ≤ x ∧ x < (E.put (binCost avsProb cs b) v).hi := by
      obtain ⟨_, _, a3, a4, a5, a6, _⟩ := put_spec hE l1 l2 ⟨0, E.m, E.e⟩ rfl rfl
      by_cases hx : x < (E.put (binCost avsProb cs b) false).hi
      · exact ⟨false, by rw [a3]; exact h0, hx⟩
      · exact ⟨true, by rw [a6, ← a5]; exact not_lt.mp hx, by rw [a4]; exact h1⟩
    obtain ⟨v, v1, v2⟩ := hin
    obtain ⟨b', e1, e2⟩ := hv v
    have hbin : E.bin avsProb cs b' = E.put (binCost avsProb cs b) v := by
      unfold Enc.bin; rw [e2, (ask_eq e1 cs).1]
    have nxt : ∃ ctx', CRel ctx' (learn avsProb cs b') := by
      cases b' with
      | ctx a i b => exact ⟨_, hc.learn a i b⟩
      | eq b => exact ⟨_, hc⟩
      | fin b => exact ⟨_, hc⟩
    obtain ⟨ctx', hc'⟩ := nxt
    obtain ⟨c, f1, f2, f3⟩ := ih (E := E.bin avsProb cs b') hc' (by rw [hbin]; exact (put_nested hE l1 l2 v).1)
      (by rw [hbin]; exact v1) (by rw [hbin]; exact v2)
    exact ⟨b' :: c, by rw [List.map_cons, List.map_cons, e1, f1], f2, f3⟩

/-- Up to 253 bins in all are always lively. -/
theorem lively_short : ∀ (c : List Bin) {ctx : Arr → Nat → Nat} {cs : Arr → Nat → ProbState} {E : Enc}, CRel ctx cs → E.Ok →
    settle avsProb c E cs ≤ E.e + c.length ∧ (c.length ≤ 253 → Lively avsProb c E cs) := by
  intro c
  induction c with
  | nil => intro _ cs E _ _; exact ⟨le_refl _, fun _ => trivial⟩
  | cons b c ih =>
    intro ctx cs E hc hE
    obtain ⟨l1, l2⟩ := hc.cost b
    have hc' : ∃ ctx', CRel ctx' (learn avsProb cs b) := by
      cases b with
      | ctx a i b => exact ⟨_, hc.learn a i b⟩
      | eq b => exact ⟨_, hc⟩
      | fin b => exact ⟨_, hc⟩
    obtain ⟨ctx', hc'⟩ := hc'
    obtain ⟨i1, i2⟩ := ih (E := E.bin avsProb cs b) hc' (put_nested hE l1 l2 (binLess avsProb cs b)).1
    have hs : settle avsProb (b :: c) E cs ≤ E.e + (b :: c).length := by
      simp only [settle, List.length_cons]
      cases hl : binLess avsProb cs b with
      | true => rw [if_pos rfl]; omega
      | false =>
        rw [if_neg Bool.false_ne_true]
        have : (E.bin avsProb cs b).e ≤ E.e + 1 := by
          unfold Enc.bin Enc.put
          rw [hl]
          split
          · exact Nat.le_succ _
          · exact le_refl _
        omega
    refine ⟨hs, fun hn => ⟨by omega, i2 ?_⟩⟩
    rw [List.length_cons] at hn
    omega

/-! ### A case -/

/-- Adaptive bins, bins with equal probabilities and an end marker. -/
def exBins : List Bin :=
  [.ctx .split 0 true, .ctx .split 0 true, .eq true, .ctx .split 1 false, .eq false, .fin false, .ctx .split 0 false, .eq true, .fin true]

example : Lively avsProb exBins .start firstProbs := by decide +kernel

/-- Its payload. -/
example : slicePayload exBins = [0xaf#8, 0x7f#8, 0x80#8, 0x80#8] := by decide +kernel

example (old : Aec) := C101_payload_partial old exBins (fun _ => by decide +kernel)

/-- With other bits after the code word of 24 bits. -/
example (old : Aec) := C101_encoder_partial [0x00#8, 0xaf#8, 0x7f#8, 0x80#8, 0x00#8, 0x5c#8] 1 5 old (by decide) exBins
  (List.replicate 8 false) (by decide) (by decide +kernel) (fun _ => by decide +kernel)

/-- Bins in any number, without bins of equal probabilities: nothing else is needed. -/
example (old : Aec) (n : Nat) := C101_payload_partial old (List.replicate n (.ctx .split 0 true) ++ [.fin true])
  (fun ⟨b, hb, h⟩ => by
    rcases List.mem_append.mp hb with hb | hb
    · rw [List.eq_of_mem_replicate hb] at h; cases h
    · rw [List.mem_singleton.mp hb] at h; cases h)

/-! ### The code goes wrong -/

/-- An end marker 0, 255 zeros and a one, with equal probabilities. -/
def badBins (b : Bool) : List Bin := .fin false :: List.replicate 255 (.eq false) ++ [.eq b]

theorem produces_fold {G : St → Prop} {s s' : St} {c : List Bin} (h : Produces G aecMachine s c s') :
    c.foldlM (fun s b => aecMachine.step b s) s = some s' := by
  induction h with
  | nil _ => rfl
  | cons _ h _ ih => simp only [List.foldlM_cons, h]; exact ih

/-- **C101 (violated).**  A payload as an encoder writes it, from which the decoder delivers other bins than were encoded, without an
error: after an end marker and 255 zeros of equal probabilities, zero instead of one. -/
theorem C101_violated : ∃ (c d : List Bin) (old a : Aec), c.map Bin.ask = d.map Bin.ask ∧ c ≠ d ∧
    aecStart (slicePayload c) 0 (slicePayload c).length old = some a ∧ a.err = false ∧
    (¬ ∃ s', Produces noError aecMachine ⟨a, fun _ _ => initCtx⟩ c s') ∧
    ∃ s', d.foldlM (fun s b => aecMachine.step b s) ⟨a, fun _ _ => initCtx⟩ = some s' ∧ s'.aec.err = false := by
  let old : Aec := ⟨⟨[], 0, 0, 0, 0⟩, false, false, false, 0, 0, 0, 0⟩
  have hrun : ((aecStart (slicePayload (badBins true)) 0 (slicePayload (badBins true)).length old).map fun a =>
      (a.err, ((badBins true).foldlM (fun s b => aecMachine.step b s) (⟨a, fun _ _ => initCtx⟩ : St)).isNone,
        ((badBins false).foldlM (fun s b => aecMachine.step b s) (⟨a, fun _ _ => initCtx⟩ : St)).map (·.aec.err))) =
      some (false, true, some false) := by decide +kernel
  cases ha : aecStart (slicePayload (badBins true)) 0 (slicePayload (badBins true)).length old with
  | none => rw [ha] at hrun; cases hrun
  | some a =>
    rw [ha, Option.map_some, Option.some.injEq, Prod.mk.injEq, Prod.mk.injEq] at hrun
    obtain ⟨h1, h2, h3⟩ := hrun
    refine ⟨badBins true, badBins false, old, a, by decide +kernel, by decide +kernel, ha, h1, ?_, ?_⟩
    · rintro ⟨s', h⟩
      rw [produces_fold h] at h2
      cases h2
    · cases hd : (badBins false).foldlM (fun s b => aecMachine.step b s) (⟨a, fun _ _ => initCtx⟩ : St) with
      | none => rw [hd] at h3; cases h3
      | some s' =>
        rw [hd] at h3
        exact ⟨s', rfl, Option.some.inj h3⟩

/-- With 252 zeros the condition of `C101_encoder_partial` holds; with 254 it does not. -/
example : Lively avsProb (.fin false :: List.replicate 252 (.eq false) ++ [.eq true]) .start firstProbs ∧
    ¬ Lively avsProb (badBins true) .start firstProbs := by decide +kernel

end Davs2.Sx

namespace Davs2.Cs
open Davs2.Sx Davs2.Mo

/-- **C101 (picture, partial).**  Any well-formed picture with any slices: there are payloads from which the decoder, started on each slice
whatever its registers held, reads the picture as it was written.

Missing: as `C101_encoder_partial`. -/
theorem C101_picture_partial {w h frame n lw lh : Nat} (geo : Geo w h n lw lh) (sl : List (Env × Filt × List LcuW × List Bin))
    (hp : pictureT w h frame n lw lh 0 [] sl) {S : SlState} (hc : ∀ a, S.pic.modes a = 0)
    (hs : frame = 5 → ∀ i j, (S.pic.cu i j).wsm = 0)
    (hv : ∀ a ∈ sl, (∃ b ∈ a.2.2.2, b.isEq = true) → Lively avsProb a.2.2.2 .start firstProbs) (old : List Bin → Aec) :
    ∃ st : List (Env × Filt × Sx.St),
      List.Forall₂ (fun a b => b.1 = a.1 ∧ b.2.1 = a.2.1 ∧ b.2.2.ctx = (fun _ _ => initCtx) ∧
        aecStart (slicePayload a.2.2.2) 0 (slicePayload a.2.2.2).length (old a.2.2.2) = some b.2.2.aec) sl st ∧
      ∃ rs S', readPicture aecMachine n lw (lw * lh) st 0 S = .ok (rs, S') ∧
        List.Forall₂ (fun a b => List.Forall₂ (SameLcu a.1 a.2.1) a.2.2 b) (expectedPic n lw 0 sl) rs := by
  have hst : ∃ st : List (Env × Filt × Sx.St),
      List.Forall₂ (fun a b => b.1 = a.1 ∧ b.2.1 = a.2.1 ∧ b.2.2.ctx = (fun _ _ => initCtx) ∧
        aecStart (slicePayload a.2.2.2) 0 (slicePayload a.2.2.2).length (old a.2.2.2) = some b.2.2.aec) sl st ∧
      List.Forall₂ (fun a b => b.1 = a.1 ∧ b.2.1 = a.2.1 ∧ GoodSt b.2.2 ∧ ∃ s', Produces noError aecMachine b.2.2 a.2.2.2 s') sl st := by
    clear hp
    induction sl with
    | nil => exact ⟨[], .nil, .nil⟩
    | cons a sl ih =>
      obtain ⟨st, h1, h2⟩ := ih fun a h => hv a (List.mem_cons_of_mem _ h)
      obtain ⟨r, s', e1, e2, e3⟩ := C101_payload_partial (old a.2.2.2) a.2.2.2 (hv a List.mem_cons_self)
      exact ⟨(a.1, a.2.1, ⟨r, fun _ _ => initCtx⟩) :: st, .cons ⟨rfl, rfl, rfl, e1⟩ h1,
        .cons ⟨rfl, rfl, GoodSt.start _ 0 _ _ r (le_refl _) e1 e2, s', e3⟩ h2⟩
  obtain ⟨st, h1, h2⟩ := hst
  exact ⟨st, h1, C96_decoder geo sl hp hc hs h2⟩

/-- An F picture of one unit of 16x16 samples, with motion, less than 100 bins. -/
theorem ex_small : ∃ c, pictureT 2 2 4 1 1 1 0 [] [(exEnv 4 2 2 0, noFilt, [⟨[], [], .unit exInter⟩], c)] ∧ c.length < 100 := by
  have hr : ∃ c, restT (exEnv 4 2 2 0) (Maps.start 32) 4 0 0 exInter c ∧ c.length < 20 :=
    ⟨_, ⟨true, _, [], rfl, .inl ⟨by decide, rfl, rfl⟩, fun _ => rfl, ⟨rfl, rfl⟩, by decide, fun i hi => by
      rw [show codedBlks exInter = [] by decide] at hi; cases hi⟩, by decide +kernel⟩
  have hm : ∃ c, motionT (exEnv 4 2 2 0) 4 exInter c ∧ c.length < 40 :=
    ⟨_, ⟨_, _, [], rfl, List.mem_cons_of_mem _ (List.mem_cons_of_mem _ (List.mem_cons_of_mem _ List.mem_cons_self)),
      ⟨(5, -3), [], [], rfl, by decide, by decide, rfl, rfl, rfl⟩, rfl, rfl⟩, by decide +kernel⟩
  obtain ⟨cr, hr, nr⟩ := hr
  obtain ⟨cm, hm, nm⟩ := hm
  have hd : dirsT (exEnv 4 2 2 0) 4 exInter (refCode 1 0) := ⟨[], List.mem_cons_self, 0, by decide, rfl, rfl⟩
  have hh : headT (exEnv 4 2 2 0) 4 exInter ([cx .cuType 0 0, cx .cuType 1 0, cx .cuType 2 1] ++ ([] ++ [])) :=
    ⟨⟨1, 0, 0⟩, ⟨⟨1, 0, 0⟩, 1, _, _, rfl, rfl, ⟨rfl, [], [], rfl, ⟨rfl, rfl⟩, ⟨rfl, rfl⟩⟩, by decide⟩, rfl, fun h => absurd h (by decide)⟩
  have hu : unitT (exEnv 4 2 2 0) (Maps.start 32) 4 0 0 exInter _ := ⟨_, _, _, _, rfl, hh, hd, hm, rfl, rfl, hr⟩
  have ht : treeT (exEnv 4 2 2 0) 1 0 0 (.unit exInter) (Maps.start 32) _ _ :=
    ⟨by decide, rfl, [cx .split 0 0], _, rfl, by rw [if_neg (by decide)]; decide, hu⟩
  refine ⟨_, ⟨⟨rfl, rfl, rfl, by decide, by decide, by decide⟩, ⟨[], [], _, _, [], rfl, by decide, rfl, ⟨rfl, rfl⟩, ht, rfl⟩, fun h => absurd rfl h, trivial⟩, ?_⟩
  simp only [List.nil_append, List.length_append, List.length_cons, List.length_nil]
  have : (refCode 1 0).length = 0 := by decide
  omega

/-- It is read back from its payload. -/
example (old : List Bin → Aec) : ∃ c st rs S', pictureT 2 2 4 1 1 1 0 [] [(exEnv 4 2 2 0, noFilt, [⟨[], [], .unit exInter⟩], c)] ∧
    aecStart (slicePayload c) 0 (slicePayload c).length (old c) = some st.aec ∧
    readPicture aecMachine 1 1 1 [(exEnv 4 2 2 0, noFilt, st)] 0 (exState 0) = .ok (rs, S') ∧
    List.Forall₂ (fun a b => List.Forall₂ (SameLcu a.1 a.2.1) a.2.2 b) (expectedPic 1 1 0
      [(exEnv 4 2 2 0, noFilt, [⟨[], [], .unit exInter⟩], c)]) rs := by
  obtain ⟨c, h, hn⟩ := ex_small
  obtain ⟨st, a, rs, S', b1, b2⟩ := C101_picture_partial (lh := 1) ⟨by decide, by decide, by decide, by decide, by decide, by decide, by decide⟩ _ h
    (S := exState 0) (fun _ => rfl) (fun h => nomatch h) (fun a ha _ => by
      rw [List.mem_singleton.mp ha]
      exact (lively_short c initRel start_ok).2 (by omega)) old
  cases a with
  | @cons _ x _ l x1 a =>
    cases a
    obtain ⟨x, y, z⟩ := x
    obtain ⟨rfl, rfl, _, e⟩ := x1
    exact ⟨c, z, rs, S', h, e, b1, b2⟩

end Davs2.Cs
