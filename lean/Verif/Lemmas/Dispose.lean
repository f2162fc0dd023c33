import Verif.Model.Dispose
import Verif.Spec.Escape
import Verif.Lemmas.Vlc
/- Auxiliary lemmas about the removal of emulation-prevention bits. -/
namespace Davs2
open Spec

theorem bitsOfByte_byteOfBits (l : List Bool) :
    bitsOfByte (byteOfBits l) = (l ++ List.replicate 8 false).take 8 := by
  obtain ⟨a, ha⟩ : ∃ a, (l ++ List.replicate 8 false).take 8 = a := ⟨_, rfl⟩
  have hl : a.length = 8 := by rw [← ha, List.length_take]; simp
  unfold byteOfBits
  rw [ha]
  match a, hl with
  | [b0, b1, b2, b3, b4, b5, b6, b7], _ =>
    clear ha
    revert b0 b1 b2 b3 b4 b5 b6 b7
    clear l
    decide +kernel

/-- Pending bits of the remover. -/
def pend (s : DispState) : List Bool := (bitsOfByte s.last).take s.lbc

/-- The phases that occur. -/
def Phase (n : Nat) : Prop := n = 0 ∨ n = 2 ∨ n = 4 ∨ n = 6

theorem bits_merge (last b : Byte) (k : Nat) (h : k = 2 ∨ k = 4 ∨ k = 6) :
    bitsOfByte (dispMerge last k b) = (bitsOfByte last).take k ++ (bitsOfByte b).take (8 - k) := by
  rcases h with h | h | h <;> subst h <;>
    simp [bitsOfByte, dispMerge, bitmask]

theorem bits_shift (b : Byte) (k : Nat) (h : k = 2 ∨ k = 4 ∨ k = 6) :
    (bitsOfByte ((b <<< (8 - k)) &&& bitmask k)).take k = (bitsOfByte b).drop (8 - k) := by
  rcases h with h | h | h <;> subst h <;>
    simp [bitsOfByte, bitmask]

theorem bits_shift6 (b : Byte) (k : Nat) (h : k = 2 ∨ k = 4 ∨ k = 6) :
    (bitsOfByte ((b <<< (8 - k)) &&& bitmask (k - 2))).take (k - 2) =
      ((bitsOfByte b).take 6).drop (8 - k) := by
  rcases h with h | h | h <;> subst h <;>
    simp [bitsOfByte, bitmask]

/-- Low bits of the pending byte are clear. -/
def Normal (s : DispState) : Prop :=
  s.lbc = 0 ∨ bitsOfByte s.last = pend s ++ List.replicate (8 - s.lbc) false

theorem normal_shift (b : Byte) (k : Nat) (h : k = 2 ∨ k = 4 ∨ k = 6) :
    bitsOfByte ((b <<< (8 - k)) &&& bitmask k) =
      (bitsOfByte b).drop (8 - k) ++ List.replicate (8 - k) false := by
  rcases h with h | h | h <;> subst h <;>
    simp [bitsOfByte, bitmask]

/-- A byte that is kept whole. -/
theorem step_whole (s s1 : DispState) (b : Byte) (hc : dispClassify s b = (s1, 8, []))
    (hl : s1.lbc = s.lbc) (hla : s1.last = s.last) (hp : Phase s.lbc) :
    ∃ s' w, dispStep s b = (s', w) ∧ bitsOf w ++ pend s' = pend s ++ bitsOfByte b ∧
      s'.found = s1.found ∧ s'.zeros = s1.zeros ∧ s'.dispose = s1.dispose ∧ s'.lbc = s.lbc ∧
      Normal s' := by
  unfold dispStep
  rw [hc]
  simp only [if_true]
  by_cases h0 : s1.lbc = 0
  · rw [if_pos h0]
    refine ⟨_, _, rfl, ?_, rfl, rfl, rfl, hl, Or.inl h0⟩
    have : s.lbc = 0 := by omega
    simp [pend, h0, this, bitsOf]
  · rw [if_neg h0]
    have hk : s1.lbc = 2 ∨ s1.lbc = 4 ∨ s1.lbc = 6 := by rcases hp with h | h | h | h <;> omega
    refine ⟨_, _, rfl, ?_, rfl, rfl, rfl, hl, Or.inr ?_⟩
    · simp only [pend, List.nil_append, bitsOf, List.flatMap_cons, List.flatMap_nil, List.append_nil]
      rw [bits_merge _ _ _ hk, bits_shift _ _ hk, hla, hl, List.append_assoc, List.take_append_drop]
    · simp only [pend]
      rw [normal_shift _ _ hk]
      congr 1
      rw [List.take_append_of_le_length (by rcases hk with h | h | h <;> rw [h] <;> simp [bitsOfByte])]
      rw [List.take_of_length_le (by rcases hk with h | h | h <;> rw [h] <;> simp [bitsOfByte])]

/-- A byte of which six bits are kept. -/
theorem step_six (s s1 : DispState) (b : Byte) (hc : dispClassify s b = (s1, 6, []))
    (hl : s1.lbc = s.lbc) (hla : s1.last = s.last) (hp : Phase s.lbc) :
    ∃ s' w, dispStep s b = (s', w) ∧ bitsOf w ++ pend s' = pend s ++ (bitsOfByte b).take 6 ∧
      s'.found = s1.found ∧ s'.zeros = s1.zeros ∧ s'.dispose = s1.dispose ∧ Phase s'.lbc := by
  unfold dispStep
  rw [hc]
  simp only [show ¬ (6 = 8) by decide, if_false]
  by_cases h0 : s1.lbc = 0
  · rw [if_pos h0]
    have : s.lbc = 0 := by omega
    refine ⟨_, _, rfl, ?_, rfl, rfl, rfl, Or.inr (Or.inr (Or.inr rfl))⟩
    simp [pend, this, bitsOf]
  · rw [if_neg h0]
    have hk : s1.lbc = 2 ∨ s1.lbc = 4 ∨ s1.lbc = 6 := by rcases hp with h | h | h | h <;> omega
    refine ⟨_, _, rfl, ?_, rfl, rfl, rfl, ?_⟩
    · simp only [pend, List.nil_append, bitsOf, List.flatMap_cons, List.flatMap_nil, List.append_nil]
      rw [bits_merge _ _ _ hk, bits_shift6 _ _ hk, hla, hl, List.append_assoc]
      congr 1
      have e : (bitsOfByte b).take (8 - s.lbc) = ((bitsOfByte b).take 6).take (8 - s.lbc) := by
        rw [List.take_take]; congr 1; omega
      rw [e, List.take_append_drop]
    · show Phase (s1.lbc - 2)
      unfold Phase; omega

theorem dispRun_append (s : DispState) (a b : List Byte) :
    dispRun s (a ++ b) =
      ((dispRun (dispRun s a).1 b).1, (dispRun s a).2 ++ (dispRun (dispRun s a).1 b).2) := by
  induction a generalizing s with
  | nil => simp [dispRun]
  | cons x a ih => simp [dispRun, ih, List.append_assoc]

theorem byteOfBits_ne_small (l : List Bool) (h : true ∈ l.take 6) :
    byteOfBits l ≠ 0#8 ∧ byteOfBits l ≠ 1#8 ∧ byteOfBits l ≠ 2#8 := by
  have hb := bitsOfByte_byteOfBits l
  have h6 : (bitsOfByte (byteOfBits l)).take 6 = (l ++ List.replicate 8 false).take 6 := by
    rw [hb, List.take_take]; rfl
  have hm : true ∈ (bitsOfByte (byteOfBits l)).take 6 := by
    rw [h6, List.take_append]
    exact List.mem_append_left _ h
  refine ⟨?_, ?_, ?_⟩ <;> intro hc <;> rw [hc] at hm <;> revert hm <;> decide

theorem bitsOf_zero_byte (b : Byte) (h : bitsOfByte b = List.replicate 8 false) : b = 0#8 := by
  revert h; revert b; decide +kernel

theorem getLast?_drop_of_lt {α : Type} (l : List α) (n : Nat) (h : n < l.length) :
    (l.drop n).getLast? = l.getLast? := by
  rw [List.getLast?_drop, if_neg (by omega)]

/-- Removing what the encoder inserted: payload of one unit. -/
theorem run_escape (z : Nat) (bits : List Bool) (hz : z ≤ 2) (s : DispState) (hf : s.found = false)
    (hd : s.dispose = true) (hs : s.zeros = z) (hp : Phase s.lbc)
    (hlast : bits.getLast? = some true) :
    ∃ s' w p, dispRun s (escapeBits z bits) = (s', w) ∧ p < 8 ∧
      bitsOf w ++ pend s' = pend s ++ bits ++ List.replicate p false ∧
      s'.found = false ∧ s'.dispose = true ∧ Phase s'.lbc ∧ Normal s' := by
  fun_induction escapeBits z bits generalizing s with
  | case1 => simp at hlast
  | case2 z b l hesc ih =>
    obtain ⟨hz2, hno⟩ := hesc
    have hlen : 6 < (b :: l).length := by
      rcases Nat.lt_or_ge 6 (b :: l).length with h | h
      · exact h
      · exfalso
        rw [List.take_of_length_le h] at hno
        exact hno (List.mem_of_getLast? hlast)
    have hc : dispClassify s 2#8 = ({ s with zeros := 0 }, 6, []) := by
      simp [dispClassify, hd, hs, hz2]
    obtain ⟨s1, w1, e1, b1, f1, z1, d1, p1⟩ := step_six s _ _ hc rfl rfl hp
    have hdrop : l.drop 5 = (b :: l).drop 6 := rfl
    have hlast' : (l.drop 5).getLast? = some true := by
      rw [hdrop, getLast?_drop_of_lt _ _ hlen, hlast]
    obtain ⟨s2, w2, p, e2, hp8, b2, f2, d2, p2, n2⟩ :=
      ih (by omega) s1 (by rw [f1]; exact hf) (by rw [d1]; exact hd) z1 p1 hlast'
    refine ⟨s2, w1 ++ w2, p, ?_, hp8, ?_, f2, d2, p2, n2⟩
    · simp [dispRun, e1, e2]
    · rw [bitsOf_append, List.append_assoc, b2, ← List.append_assoc, ← List.append_assoc, b1]
      congr 1
      rw [List.append_assoc]
      congr 1
      have : (bitsOfByte 2#8).take 6 = (b :: l).take 6 := by
        have hl6 : ((b :: l).take 6).length = 6 := by rw [List.length_take]; omega
        have : (b :: l).take 6 = List.replicate 6 false := by
          apply List.eq_replicate_iff.mpr
          refine ⟨hl6, ?_⟩
          intro x hx
          cases x
          · rfl
          · exact absurd hx hno
        rw [this]; decide
      rw [this, hdrop, List.take_append_drop]
  | case3 z b l hesc ih =>
    simp only [dite_eq_ite] at ih
    have hbits := bitsOfByte_byteOfBits (b :: l)
    generalize hx : byteOfBits (b :: l) = x at *
    -- classification of the byte
    have hcl : ∃ s1, dispClassify s x = (s1, 8, []) ∧ s1.lbc = s.lbc ∧ s1.last = s.last ∧
        s1.found = false ∧ s1.dispose = true ∧ s1.zeros = (if x = 0#8 then z + 1 else 0) := by
      by_cases h2 : z = 2
      · have hin : true ∈ (b :: l).take 6 := by
          exact Decidable.byContradiction fun hh => hesc ⟨h2, hh⟩
        obtain ⟨n0, n1, n2⟩ := byteOfBits_ne_small (b :: l) hin
        rw [hx] at n0 n1 n2
        refine ⟨{ s with zeros := 0 }, ?_, rfl, rfl, hf, hd, ?_⟩
        · simp [dispClassify, n0, n1, n2, hf]
        · simp [n0]
      · by_cases h0 : x = 0#8
        · refine ⟨{ s with zeros := s.zeros + 1 }, ?_, rfl, rfl, hf, hd, ?_⟩
          · simp [dispClassify, h0, hf]
          · simp [h0, hs]
        · refine ⟨{ s with zeros := 0 }, ?_, rfl, rfl, hf, hd, ?_⟩
          · unfold dispClassify
            rw [if_neg h0]
            split
            · rw [if_neg (by omega)]
            · split
              · rw [if_neg (by omega)]
              · simp [hf]
          · simp [h0]
    obtain ⟨s1, hc, hl1, hla1, hf1, hd1, hz1⟩ := hcl
    obtain ⟨s2, w1, e1, b1, f1, z1, d1, l1, n1⟩ := step_whole s s1 x hc hl1 hla1 hp
    have hdrop : l.drop 7 = (b :: l).drop 8 := rfl
    by_cases hlen : (b :: l).length ≤ 8
    · -- last byte of the payload
      have hnil : l.drop 7 = [] := by rw [hdrop]; exact List.drop_eq_nil_of_le hlen
      rw [hnil]
      refine ⟨s2, w1, 8 - (b :: l).length, ?_, ?_, ?_, ?_, ?_, ?_, n1⟩
      · simp [dispRun, e1, escapeBits]
      · simp; omega
      · rw [b1, hbits, List.append_assoc]
        congr 1
        rw [List.take_append, List.take_of_length_le hlen, List.take_replicate]
        congr 2; omega
      · rw [f1, hf1]
      · rw [d1, hd1]
      · rw [l1]; exact hp
    · have hlast' : (l.drop 7).getLast? = some true := by
        rw [hdrop, getLast?_drop_of_lt _ _ (by omega), hlast]
      have hzle : (if x = 0#8 then z + 1 else 0) ≤ 2 := by
        split
        · rename_i h0
          by_cases h2 : z = 2
          · have hin : true ∈ (b :: l).take 6 := by
              exact Decidable.byContradiction fun hh => hesc ⟨h2, hh⟩
            have := (byteOfBits_ne_small (b :: l) hin).1
            rw [hx] at this
            exact absurd h0 this
          · omega
        · omega
      obtain ⟨s3, w2, p, e2, hp8, b2, f2, d2, p2, n2⟩ :=
        ih hzle s2 (by rw [f1, hf1]) (by rw [d1, hd1]) (by rw [z1, hz1]) (by rw [l1]; exact hp) hlast'
      refine ⟨s3, w1 ++ w2, p, ?_, hp8, ?_, f2, d2, p2, n2⟩
      · simp [dispRun, e1, e2]
      · rw [bitsOf_append, List.append_assoc, b2, ← List.append_assoc, ← List.append_assoc, b1]
        congr 1
        rw [List.append_assoc]
        congr 1
        rw [hbits, List.take_append_of_le_length (by omega), hdrop, List.take_append_drop]

theorem bitsOfByte_inj (a b : Byte) (h : bitsOfByte a = bitsOfByte b) : a = b := by
  have hi : ∀ i, i < 8 → a.getLsbD i = b.getLsbD i := by
    simp only [bitsOfByte, List.cons.injEq, and_true] at h
    intro i hi
    have : i = 0 ∨ i = 1 ∨ i = 2 ∨ i = 3 ∨ i = 4 ∨ i = 5 ∨ i = 6 ∨ i = 7 := by omega
    rcases this with e | e | e | e | e | e | e | e <;> subst e <;> simp only [h]
  exact BitVec.eq_of_getLsbD_eq hi

theorem bitsOf_inj (a b : List Byte) (h : bitsOf a = bitsOf b) : a = b := by
  induction a generalizing b with
  | nil =>
    cases b with
    | nil => rfl
    | cons y b => simp [bitsOf, bitsOfByte] at h
  | cons x a ih =>
    cases b with
    | nil => simp [bitsOf, bitsOfByte] at h
    | cons y b =>
      rw [bitsOf_cons, bitsOf_cons] at h
      have := List.append_inj h rfl
      rw [bitsOfByte_inj _ _ this.1, ih _ this.2]

theorem bitsOf_packBits (l : List Bool) :
    ∃ p < 8, bitsOf (packBits l) = l ++ List.replicate p false := by
  fun_induction packBits l with
  | case1 => exact ⟨0, by omega, by simp [bitsOf]⟩
  | case2 b l ih =>
    obtain ⟨p, hp, e⟩ := ih
    rw [bitsOf_cons, bitsOfByte_byteOfBits, e]
    have hdrop : l.drop 7 = (b :: l).drop 8 := rfl
    by_cases hlen : (b :: l).length ≤ 8
    · have hnil : l.drop 7 = [] := by rw [hdrop]; exact List.drop_eq_nil_of_le hlen
      have hpz : p = 0 := by
        rw [hnil] at e
        have := congrArg List.length e
        simp [bitsOf_length] at this
        omega
      refine ⟨8 - (b :: l).length, by simp; omega, ?_⟩
      rw [hnil, hpz, List.take_append, List.take_of_length_le hlen, List.take_replicate]
      simp only [List.replicate_zero, List.append_nil, List.nil_append]
      congr 2; omega
    · refine ⟨p, hp, ?_⟩
      rw [List.take_append_of_le_length (by omega), hdrop, ← List.append_assoc,
        List.take_append_drop]

theorem bitsOf_replicate_zero (k : Nat) :
    bitsOf (List.replicate k 0#8) = List.replicate (8 * k) false := by
  induction k with
  | zero => rfl
  | succ k ih =>
    rw [List.replicate_succ, bitsOf_cons, ih, show 8 * (k + 1) = 8 + 8 * k by omega,
      ← List.replicate_append_replicate]
    rfl

/-- Bytes whose bits are `l` followed by fewer than 16 zero bits. -/
theorem eq_packBits_of_bits (w : List Byte) (l : List Bool) (z : Nat) (hz : z < 16)
    (h : bitsOf w = l ++ List.replicate z false) :
    ∃ k ≤ 1, w = packBits l ++ List.replicate k 0#8 := by
  obtain ⟨p, hp, e⟩ := bitsOf_packBits l
  have hl1 := congrArg List.length h
  have hl2 := congrArg List.length e
  simp only [bitsOf_length, List.length_append, List.length_replicate] at hl1 hl2
  have hk : z = p + 8 * (w.length - (packBits l).length) := by omega
  refine ⟨w.length - (packBits l).length, by omega, ?_⟩
  apply bitsOf_inj
  rw [bitsOf_append, e, bitsOf_replicate_zero, h, List.append_assoc, List.replicate_append_replicate,
    ← hk]

/-- States between units. -/
structure Between (s : DispState) : Prop where
  found : s.found = false
  phase : Phase s.lbc
  normal : Normal s

/-- What is written for pending bits when the next start code arrives. -/
def flushByte (s : DispState) : List Byte := if s.lbc = 0 then [] else [s.last]

theorem run_start (s : DispState) (h : Between s) :
    ∃ s', dispRun s [0#8, 0#8, 1#8] = (s', flushByte s ++ [0#8, 0#8, 1#8]) ∧ s'.lbc = 0 ∧
      s'.found = true ∧ s'.zeros = 0 := by
  obtain ⟨hf, hp, hn⟩ := h
  by_cases h0 : s.lbc = 0
  · refine ⟨{ s with found := true, zeros := 0 }, ?_, h0, rfl, rfl⟩
    simp [dispRun, dispStep, dispClassify, hf, h0, flushByte]
  · have hk : s.lbc = 2 ∨ s.lbc = 4 ∨ s.lbc = 6 := by rcases hp with h | h | h | h <;> omega
    have hm : dispMerge s.last s.lbc 0#8 = s.last := by
      rcases hn with hn | hn
      · exact absurd hn h0
      · apply bitsOfByte_inj
        rw [bits_merge _ _ _ hk, hn]
        congr 1
        · rw [pend, List.take_append_of_le_length]
          · rw [List.take_take, Nat.min_self]
          · rcases hk with h | h | h <;> rw [h] <;> simp [bitsOfByte]
        · rcases hk with h | h | h <;> rw [h] <;> simp [bitsOfByte]
    have hz : (0#8 <<< (8 - s.lbc)) &&& bitmask s.lbc = 0#8 := by
      rcases hk with h | h | h <;> rw [h] <;> decide
    have hm0 : dispMerge 0#8 s.lbc 0#8 = 0#8 := by
      rcases hk with h | h | h <;> rw [h] <;> decide
    refine ⟨{ s with found := true, zeros := 0, lbc := 0, last := 0#8 }, ?_, rfl, rfl, rfl⟩
    simp [dispRun, dispStep, dispClassify, hf, h0, flushByte, hm, hm0]

/-- A byte other than 1, 2 and the raw codes right after a start code: the state then is the same as for
any other coded unit. -/
theorem run_found_coded (s : DispState) (b : Byte) (l : List Byte) (hf : s.found = true)
    (h1 : b ≠ 1#8) (h2 : b ≠ 2#8) (hr : ¬ isRawCode b) :
    dispRun s (b :: l) = dispRun { s with found := false, dispose := true } (b :: l) := by
  have : dispStep s b = dispStep { s with found := false, dispose := true } b := by
    unfold dispStep
    have : dispClassify s b = dispClassify { s with found := false, dispose := true } b := by
      unfold dispClassify
      split
      · simp [hf]
      · have hr' : ¬ (b = 0xB0#8 ∨ b = 0xB2#8 ∨ b = 0xB5#8) := hr
        simp [hf, h1, h2, hr']
    rw [this]
  simp only [dispRun, this]

/-- Raw units pass unchanged. -/
theorem run_raw (z : Nat) (bs : List Byte) (s : DispState) (hf : s.found = false)
    (hd : s.dispose = false) (hl : s.lbc = 0) (hz : s.zeros = z) (hn : noStartCode z bs) :
    ∃ s', dispRun s bs = (s', bs) ∧ s'.found = false ∧ s'.lbc = 0 := by
  induction bs generalizing s z with
  | nil => exact ⟨s, rfl, hf, hl⟩
  | cons b bs ih =>
    obtain ⟨hn1, hn2⟩ := hn
    have hc : dispStep s b = ({ s with zeros := if b = 0#8 then z + 1 else 0 }, [b]) := by
      unfold dispStep dispClassify
      by_cases h0 : b = 0#8
      · simp [h0, hf, hl, hz]
      · by_cases h1 : b = 1#8
        · have : ¬ 2 ≤ s.zeros := by rw [hz]; exact fun h => hn1 ⟨h1, h⟩
          simp [h1, this, hl]
        · by_cases h2 : b = 2#8
          · simp [h2, hd, hl]
          · simp [h0, h1, h2, hf, hl]
    obtain ⟨s', e, f, l'⟩ := ih _ { s with zeros := if b = 0#8 then z + 1 else 0 } hf hd hl rfl hn2
    exact ⟨s', by simp [dispRun, hc, e], f, l'⟩

theorem escapeBits_head (z : Nat) (p : List Bool) (hz : z ≠ 2) (hp : p ≠ []) :
    ∃ t, escapeBits z p = byteOfBits p :: t := by
  cases p with
  | nil => exact absurd rfl hp
  | cons b l => rw [escapeBits, if_neg (by simp [hz])]; exact ⟨_, rfl⟩

/-- One unit. -/
theorem run_unit (u : StreamUnit) (hw : WfUnit u) (hr : RecognisedUnit u) (s : DispState)
    (h : Between s) :
    ∃ s' body, dispRun s (encUnit u) = (s', flushByte s ++ body) ∧ Between s' ∧
      CleanUnit u (body ++ flushByte s') ∧ CleanUnit u (body ++ dispFinish s') := by
  obtain ⟨s1, e1, l1, f1, z1⟩ := run_start s h
  cases u with
  | raw c bs =>
    obtain ⟨hc, hn⟩ := hw
    have hstep : dispRun s1 [c] = ({ s1 with found := false, dispose := false, zeros := 0 }, [c]) := by
      rcases hc with hc | hc | hc <;> subst hc <;>
        simp [dispRun, dispStep, dispClassify, f1, l1]
    obtain ⟨s2, e2, f2, l2⟩ := run_raw 0 bs { s1 with found := false, dispose := false, zeros := 0 }
      rfl rfl l1 rfl hn
    have hrun : dispRun s (encUnit (.raw c bs)) = (s2, flushByte s ++ ([0#8, 0#8, 1#8, c] ++ bs)) := by
      show dispRun s ([0#8, 0#8, 1#8] ++ ([c] ++ bs)) = _
      rw [dispRun_append, e1, dispRun_append, hstep, e2]
      simp
    have hb : Between s2 := ⟨f2, Or.inl l2, Or.inl l2⟩
    refine ⟨s2, _, hrun, hb, ?_, ?_⟩
    · simp [CleanUnit, flushByte, l2]
    · simp [CleanUnit, dispFinish, l2]
  | coded c p =>
    obtain ⟨hc, hlast⟩ := hw
    have hpne : p ≠ [] := by intro hp; rw [hp] at hlast; simp at hlast
    -- run over the code byte and the payload
    have key : ∃ s2 w q, dispRun s1 (c :: escapeBits (if c = 0#8 then 1 else 0) p) = (s2, c :: w) ∧
        q < 8 ∧ bitsOf w ++ pend s2 = p ++ List.replicate q false ∧
        s2.found = false ∧ Phase s2.lbc ∧ Normal s2 := by
      by_cases h12 : c = 1#8 ∨ c = 2#8
      · obtain ⟨n1, n2, n3⟩ := hr h12
        have hc0 : c ≠ 0#8 := by rcases h12 with h | h <;> rw [h] <;> decide
        obtain ⟨t, ht⟩ := escapeBits_head 0 p (by decide) hpne
        have hstep : dispStep s1 c = ({ s1 with zeros := 0 }, [c]) := by
          rcases h12 with h | h <;> subst h <;>
            simp [dispStep, dispClassify, l1, z1]
        rw [if_neg hc0]
        have hrun : dispRun { s1 with zeros := 0 } (escapeBits 0 p) =
            dispRun { s1 with zeros := 0, found := false, dispose := true } (escapeBits 0 p) := by
          rw [ht]
          exact run_found_coded _ _ _ f1 n1 n2 n3
        obtain ⟨s2, w, q, e2, hq, b2, f2, d2, p2, nn2⟩ := run_escape 0 p (by omega)
          { s1 with zeros := 0, found := false, dispose := true } rfl rfl rfl (Or.inl l1) hlast
        refine ⟨s2, w, q, ?_, hq, ?_, f2, p2, nn2⟩
        · simp [dispRun, hstep, hrun, e2]
        · rw [b2]; simp [pend, l1]
      · have n1 : c ≠ 1#8 := fun h => h12 (Or.inl h)
        have n2 : c ≠ 2#8 := fun h => h12 (Or.inr h)
        have hstep : dispStep s1 c =
            ({ s1 with found := false, dispose := true, zeros := if c = 0#8 then 1 else 0 }, [c]) := by
          have hr' : ¬ (c = 0xB0#8 ∨ c = 0xB2#8 ∨ c = 0xB5#8) := hc
          unfold dispStep dispClassify
          by_cases h0 : c = 0#8
          · simp [h0, f1, l1, z1]
          · simp [h0, n1, n2, f1, l1, hr']
        obtain ⟨s2, w, q, e2, hq, b2, f2, d2, p2, nn2⟩ := run_escape (if c = 0#8 then 1 else 0) p
          (by split <;> omega)
          { s1 with found := false, dispose := true, zeros := if c = 0#8 then 1 else 0 }
          rfl rfl rfl (Or.inl l1) hlast
        refine ⟨s2, w, q, ?_, hq, ?_, f2, p2, nn2⟩
        · simp [dispRun, hstep, e2]
        · rw [b2]; simp [pend, l1]
    obtain ⟨s2, w, q, e2, hq, b2, f2, p2, n2⟩ := key
    have hrun : dispRun s (encUnit (.coded c p)) = (s2, flushByte s ++ ([0#8, 0#8, 1#8, c] ++ w)) := by
      show dispRun s ([0#8, 0#8, 1#8] ++ (c :: escapeBits (if c = 0#8 then 1 else 0) p)) = _
      rw [dispRun_append, e1, e2]
      simp
    -- the two ways the pending bits are completed
    have hfin : ∀ f, (s2.lbc = 0 ∧ f = []) ∨ (s2.lbc ≠ 0 ∧ f = [s2.last]) ∨
        (s2.lbc ≠ 0 ∧ s2.last = 0#8 ∧ f = []) →
        ∃ k ≤ 1, w ++ f = packBits p ++ List.replicate k 0#8 := by
      intro f hf
      rcases hf with ⟨h0, hf⟩ | ⟨h0, hf⟩ | ⟨h0, hz, hf⟩
      · apply eq_packBits_of_bits _ _ q (by omega)
        rw [hf, List.append_nil, ← b2, pend, h0]; simp
      · have hn : bitsOfByte s2.last = pend s2 ++ List.replicate (8 - s2.lbc) false := by
          rcases n2 with h | h
          · exact absurd h h0
          · exact h
        apply eq_packBits_of_bits _ _ (q + (8 - s2.lbc)) (by omega)
        rw [hf, bitsOf_append, bitsOf_cons, hn]
        show bitsOf w ++ (_ ++ []) = _
        rw [List.append_nil, ← List.append_assoc, b2, List.append_assoc,
          List.replicate_append_replicate]
      · -- the pending bits are zero and are dropped
        have hpz : pend s2 = List.replicate s2.lbc false := by
          rw [pend, hz]
          rcases p2 with h | h | h | h <;> rw [h] <;> decide
        rw [hf, List.append_nil]
        have hqlbc : s2.lbc ≤ q := by
          rcases Nat.lt_or_ge q s2.lbc with hlt | hge
          · exfalso
            have h1 := congrArg List.reverse b2
            rw [List.reverse_append, List.reverse_append, hpz, List.reverse_replicate,
              List.reverse_replicate] at h1
            have hr : ∃ r, p.reverse = true :: r := by
              rw [← List.head?_reverse] at hlast
              cases hp : p.reverse with
              | nil => rw [hp] at hlast; simp at hlast
              | cons a r => rw [hp] at hlast; simp at hlast; exact ⟨r, by rw [hlast]⟩
            obtain ⟨r, hr⟩ := hr
            rw [hr] at h1
            have h2 := congrArg (fun l => l[q]?) h1
            rw [List.getElem?_append_left (by simpa using hlt),
              List.getElem?_append_right (by simp)] at h2
            simp [hlt] at h2
          · exact hge
        apply eq_packBits_of_bits _ _ (q - s2.lbc) (by omega)
        rw [hpz] at b2
        have : List.replicate q false = List.replicate (q - s2.lbc) false ++ List.replicate s2.lbc false := by
          rw [List.replicate_append_replicate]; congr 1; omega
        rw [this, ← List.append_assoc] at b2
        exact (List.append_inj' b2 rfl).1
    refine ⟨s2, _, hrun, ⟨f2, p2, n2⟩, ?_, ?_⟩
    · obtain ⟨k, hk, e⟩ := hfin (flushByte s2) (by
        unfold flushByte
        by_cases h0 : s2.lbc = 0
        · exact Or.inl ⟨h0, by rw [if_pos h0]⟩
        · exact Or.inr (Or.inl ⟨h0, by rw [if_neg h0]⟩))
      exact ⟨k, hk, by rw [List.append_assoc, e, List.append_assoc]⟩
    · obtain ⟨k, hk, e⟩ := hfin (dispFinish s2) (by
        unfold dispFinish
        by_cases h0 : s2.lbc = 0
        · exact Or.inl ⟨h0, by simp [h0]⟩
        · by_cases hl : s2.last = 0#8
          · exact Or.inr (Or.inr ⟨h0, hl, by simp [hl]⟩)
          · exact Or.inr (Or.inl ⟨h0, by simp [h0, hl]⟩))
      exact ⟨k, hk, by rw [List.append_assoc, e, List.append_assoc]⟩

/-- A whole stream. -/
theorem run_units (us : List StreamUnit) (hw : ∀ u ∈ us, WfUnit u) (hr : ∀ u ∈ us, RecognisedUnit u)
    (s : DispState) (h : Between s) (hne : us ≠ []) :
    ∃ out, CleanStream us out ∧
      (dispRun s (us.flatMap encUnit)).2 ++ dispFinish (dispRun s (us.flatMap encUnit)).1 =
        flushByte s ++ out := by
  induction us generalizing s with
  | nil => exact absurd rfl hne
  | cons u us ih =>
    obtain ⟨s', body, e, hb, c1, c2⟩ := run_unit u (hw u (by simp)) (hr u (by simp)) s h
    rw [List.flatMap_cons, dispRun_append, e]
    simp only
    by_cases hus : us = []
    · subst hus
      refine ⟨body ++ dispFinish s', ⟨_, [], by simp, c2, rfl⟩, ?_⟩
      simp [dispRun]
    · obtain ⟨out, ho, e2⟩ := ih (fun v hv => hw v (by simp [hv])) (fun v hv => hr v (by simp [hv])) s' hb hus
      refine ⟨(body ++ flushByte s') ++ out, ⟨_, _, rfl, c1, ho⟩, ?_⟩
      rw [List.append_assoc, e2]
      simp [List.append_assoc]

/-! ### Length and in-place operation -/

theorem dispClassify_writes (s : DispState) (b : Byte) :
    (dispClassify s b).2.2 = [] ∧ (dispClassify s b).1.lbc = s.lbc ∨
    (dispClassify s b).2.2 = [0#8] ∧ (dispClassify s b).1.lbc = 0 ∧ s.lbc ≠ 0 ∧
      (dispClassify s b).2.1 = 8 := by
  unfold dispClassify
  split
  · left; split <;> simp
  · split
    · split
      · split
        · right; simp_all
        · left; simp_all
      · left; simp
    · split
      · left; simp
      · left; split
        · split <;> simp
        · simp

/-- Bytes owed: one if bits are pending. -/
def owed (s : DispState) : Nat := if s.lbc = 0 then 0 else 1

theorem dispStep_length (s : DispState) (b : Byte) :
    (dispStep s b).2.length + owed (dispStep s b).1 ≤ owed s + 1 := by
  unfold dispStep
  have hc := dispClassify_writes s b
  rcases hx : dispClassify s b with ⟨s1, cbc, w⟩
  rw [hx] at hc
  simp only at hc ⊢
  rcases hc with ⟨hw, hl⟩ | ⟨hw, hl, hs, hcb⟩
  · subst hw
    unfold owed
    split
    · split
      · rename_i h0
        rw [hl] at h0
        simp [hl, h0]
      · rename_i h0
        rw [hl] at h0
        simp [hl, h0]
    · split
      · simp; split <;> omega
      · simp; split <;> split <;> omega
  · subst hw
    simp [owed, hl, hs, hcb]

theorem dispRun_length (s : DispState) (l : List Byte) :
    (dispRun s l).2.length + owed (dispRun s l).1 ≤ owed s + l.length := by
  induction l generalizing s with
  | nil => simp [dispRun]
  | cons b l ih =>
    have h1 := dispStep_length s b
    have h2 := ih (dispStep s b).1
    simp only [dispRun, List.length_append, List.length_cons]
    omega

theorem memWrite_spec (mem w : List Byte) (i : Nat) (h : i + w.length ≤ mem.length) :
    memWrite mem i w = some (mem.take i ++ w ++ mem.drop (i + w.length)) := by
  induction w generalizing mem i with
  | nil => simp [memWrite]
  | cons x w ih =>
    simp only [List.length_cons] at h
    rw [memWrite, if_pos (by omega), ih _ _ (by simp; omega)]
    congr 1
    have hi : i < mem.length := by omega
    have e0 : mem.set i x = mem.take i ++ x :: mem.drop (i + 1) := by
      rw [List.set_eq_take_append_cons_drop, if_pos hi]
    have hlen : (mem.take i).length = i := by rw [List.length_take]; omega
    have e1 : (mem.set i x).take (i + 1) = mem.take i ++ [x] := by
      rw [e0, List.take_append, hlen, List.take_of_length_le (by omega)]; simp
    have e2 : (mem.set i x).drop (i + 1 + w.length) = mem.drop (i + (w.length + 1)) := by
      rw [e0, List.drop_append, hlen, List.drop_eq_nil_of_le (by omega),
        show i + 1 + w.length - i = w.length + 1 by omega]
      simp only [List.nil_append, List.drop_succ_cons, List.drop_drop]
      congr 1; omega
    rw [e1, e2]; simp

/-- Running in place: at every moment the memory is "bytes written so far, something, bytes still to be
read", so that no unread byte has been overwritten. -/
theorem inPlace_eq (rest : List Byte) (s : DispState) (out gap : List Byte)
    (hg : owed s ≤ gap.length) :
    ∃ mem', dispInPlaceLoop rest.length s (out ++ gap ++ rest) (out.length + gap.length) out.length =
        some ((dispRun s rest).1, mem', out.length + (dispRun s rest).2.length) ∧
      ∃ gap', mem' = out ++ (dispRun s rest).2 ++ gap' ∧ owed (dispRun s rest).1 ≤ gap'.length ∧
        mem'.length = (out ++ gap ++ rest).length := by
  induction rest generalizing s out gap with
  | nil => exact ⟨_, rfl, gap, by simp [dispRun], by simpa [dispRun] using hg, by simp⟩
  | cons b rest ih =>
    have hget : (out ++ gap ++ b :: rest)[out.length + gap.length]? = some b := by
      rw [List.getElem?_append_right (by simp)]; simp
    have hstep := dispStep_length s b
    have hwl : (dispStep s b).2.length ≤ gap.length + 1 := by omega
    simp only [List.length_cons, dispInPlaceLoop]
    rw [hget]
    simp only
    rcases hst : dispStep s b with ⟨s1, w⟩
    rw [hst] at hstep hwl
    simp only at hstep hwl ⊢
    have hle : out.length + w.length ≤ (out ++ gap ++ b :: rest).length := by simp; omega
    rw [memWrite_spec _ _ _ hle]
    simp only
    -- new layout
    have hm : (out ++ gap ++ b :: rest).take out.length ++ w ++
        (out ++ gap ++ b :: rest).drop (out.length + w.length) =
        (out ++ w) ++ (gap ++ [b]).drop w.length ++ rest := by
      have e1 : (out ++ gap ++ b :: rest).take out.length = out := by
        rw [List.append_assoc, List.take_append_of_le_length (by omega), List.take_length]
      have e2 : (out ++ gap ++ b :: rest).drop (out.length + w.length) =
          (gap ++ [b]).drop w.length ++ rest := by
        rw [← List.drop_drop, List.append_assoc, List.drop_append_of_le_length (by omega),
          List.drop_length, List.nil_append]
        rw [show gap ++ b :: rest = (gap ++ [b]) ++ rest by simp]
        rw [List.drop_append_of_le_length (by simp; omega)]
      rw [e1, e2]; simp
    rw [hm]
    have hgap : ((gap ++ [b]).drop w.length).length = gap.length + 1 - w.length := by simp
    have hpos : out.length + gap.length + 1 = (out ++ w).length + ((gap ++ [b]).drop w.length).length := by
      rw [hgap, List.length_append]; omega
    obtain ⟨mem', e, gap', e', h1, h2⟩ := ih s1 (out ++ w) ((gap ++ [b]).drop w.length) (by
      rw [hgap]; omega)
    refine ⟨mem', ?_, gap', ?_, ?_, ?_⟩
    · rw [hpos, show out.length + w.length = (out ++ w).length by simp, e]
      simp [dispRun, hst]; omega
    · simp [dispRun, hst, e']
    · simpa [dispRun, hst] using h1
    · rw [h2]; simp; omega

/-- No byte 02 after exactly two zero bytes; the stream passes unchanged. -/
theorem run_noPseudo (z : Nat) (l : List Byte) (s : DispState) (hl : s.lbc = 0) (hz : s.zeros = z)
    (hn : noPseudo z l) : (dispRun s l).2 = l ∧ (dispRun s l).1.lbc = 0 := by
  induction l generalizing s z with
  | nil => exact ⟨rfl, hl⟩
  | cons b l ih =>
    obtain ⟨hn1, hn2⟩ := hn
    have hc : ∃ s1, dispStep s b = (s1, [b]) ∧ s1.lbc = 0 ∧ s1.zeros = if b = 0#8 then z + 1 else 0 := by
      unfold dispStep dispClassify
      by_cases h0 : b = 0#8
      · rw [if_pos h0, if_pos h0]
        by_cases hf : s.found <;> simp [hf, hl, hz]
      · by_cases h1 : b = 1#8
        · by_cases h2 : 2 ≤ s.zeros <;> simp [h1, h2, hl]
        · by_cases h2 : b = 2#8
          · have : ¬ (s.dispose = true ∧ s.zeros = 2) := by
              rintro ⟨_, h⟩; exact hn1 ⟨h2, by omega⟩
            simp [h2, hl, this]
          · rw [if_neg h0, if_neg h1, if_neg h2, if_neg h0]
            by_cases hf : s.found
            · by_cases hr : b = 0xB0#8 ∨ b = 0xB2#8 ∨ b = 0xB5#8
              · simp [hf, hl, hr]
              · simp [hf, hl, hr]
            · simp [hf, hl]
    obtain ⟨s1, e1, l1, z1⟩ := hc
    obtain ⟨i1, i2⟩ := ih _ s1 l1 z1 hn2
    simp [dispRun, e1, i1, i2]

theorem noPseudo_of_not_infix (z : Nat) (l : List Byte)
    (h : ¬ [0#8, 0#8, 2#8] <:+: List.replicate z 0#8 ++ l) : noPseudo z l := by
  induction l generalizing z with
  | nil => trivial
  | cons b l ih =>
    refine ⟨?_, ih _ ?_⟩
    · rintro ⟨rfl, rfl⟩
      exact h ⟨[], l, rfl⟩
    · split
      · rename_i h0
        subst h0
        rw [List.replicate_succ', List.append_assoc]
        exact h
      · intro hin
        apply h
        have : [b] ++ l <:+: List.replicate z 0#8 ++ b :: l := ⟨List.replicate z 0#8, [], by simp⟩
        exact List.IsInfix.trans (by simpa using hin.trans (List.IsSuffix.isInfix ⟨[b], rfl⟩)) this

/-- Escaped payloads contain no start code. -/
theorem noStartCode_escapeBits (z : Nat) (bits : List Bool) (hz : z ≤ 2) :
    noStartCode z (escapeBits z bits) := by
  fun_induction escapeBits z bits with
  | case1 => trivial
  | case2 z b l hesc ih => exact ⟨by simp, ih (by omega)⟩
  | case3 z b l hesc ih =>
    simp only [dite_eq_ite] at ih
    have hin : z = 2 → true ∈ (b :: l).take 6 := fun h2 =>
      Decidable.byContradiction fun hh => hesc ⟨h2, hh⟩
    refine ⟨?_, ih ?_⟩
    · rintro ⟨h1, h2⟩
      exact (byteOfBits_ne_small (b :: l) (hin (by omega))).2.1 h1
    · split
      · rename_i h0
        rcases Nat.lt_or_ge z 2 with h | h
        · omega
        · exact absurd h0 (byteOfBits_ne_small (b :: l) (hin (by omega))).1
      · omega

end Davs2
