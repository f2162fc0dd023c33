import Verif.Model.Vlc
import Verif.Spec.Bits
/- Auxiliary lemmas about the header bit reader. -/
namespace Davs2
open Spec

theorem bitsOf_length (l : List Byte) : (bitsOf l).length = 8 * l.length := by
  induction l with
  | nil => rfl
  | cons b l ih => simp [bitsOf, List.flatMap_cons, bitsOfByte] at *; omega

theorem bitsOf_cons (b : Byte) (l : List Byte) : bitsOf (b :: l) = bitsOfByte b ++ bitsOf l := rfl

theorem bitsOf_append (l m : List Byte) : bitsOf (l ++ m) = bitsOf l ++ bitsOf m := by
  simp [bitsOf]

theorem bitsOf_getElem? (l : List Byte) (pos : Nat) :
    (bitsOf l)[pos]? = (l[pos / 8]?).map (fun b => bitAt b (7 - pos % 8)) := by
  induction l generalizing pos with
  | nil => simp [bitsOf]
  | cons b l ih =>
    rw [bitsOf_cons]
    rcases Nat.lt_or_ge pos 8 with h | h
    · have h0 : pos / 8 = 0 := by omega
      rw [List.getElem?_append_left (by simpa [bitsOfByte] using h), h0]
      have : pos = 0 ∨ pos = 1 ∨ pos = 2 ∨ pos = 3 ∨ pos = 4 ∨ pos = 5 ∨ pos = 6 ∨ pos = 7 := by omega
      rcases this with h | h | h | h | h | h | h | h <;> subst h <;> simp [bitsOfByte, bitAt]
    · rw [List.getElem?_append_right (by simpa [bitsOfByte] using h)]
      have h8 : (bitsOfByte b).length = 8 := rfl
      rw [h8, ih]
      have e1 : pos / 8 = (pos - 8) / 8 + 1 := by omega
      have e2 : pos % 8 = (pos - 8) % 8 := by omega
      rw [e1, e2, List.getElem?_cons_succ]

theorem nextBit_pos (pos : Nat) :
    nextBit (pos / 8) (7 - pos % 8) = ((pos + 1) / 8, 7 - (pos + 1) % 8) := by
  unfold nextBit
  split
  · simp only [Prod.mk.injEq]; omega
  · simp only [Prod.mk.injEq]; omega

/-- Appending a bit to the 32-bit accumulator. -/
def pushBit (acc : BitVec 32) (b : Bool) : BitVec 32 := (acc <<< 1) ||| (if b then 1#32 else 0#32)

theorem pushBit_toNat (acc : BitVec 32) (b : Bool) (h : acc.toNat < 2 ^ 31) :
    (pushBit acc b).toNat = 2 * acc.toNat + b.toNat := by
  have hs : (acc <<< 1).toNat = 2 * acc.toNat := by
    rw [BitVec.toNat_shiftLeft, Nat.shiftLeft_eq]; omega
  unfold pushBit
  cases b
  · simp only [Bool.false_eq_true, if_false, Bool.toNat_false, Nat.add_zero]
    rw [show (acc <<< 1 ||| 0#32) = acc <<< 1 by simp, hs]
  · simp only [if_true, Bool.toNat_true]
    rw [BitVec.toNat_or, hs]
    show (2 * acc.toNat) ||| 1 = _
    have := Nat.two_pow_add_eq_or_of_lt (i := 1) (b := 1) (by omega) acc.toNat
    simpa using this.symm

theorem drop_cons_of_getElem? {α : Type} (l : List α) (i : Nat) (x : α) (h : l[i]? = some x) :
    l.drop i = x :: l.drop (i + 1) := by
  have hi : i < l.length := by
    rcases Nat.lt_or_ge i l.length with h1 | h1
    · exact h1
    · rw [List.getElem?_eq_none h1] at h; cases h
  rw [List.getElem?_eq_getElem hi] at h
  rw [List.drop_eq_getElem_cons hi]
  simp only [Option.some.injEq] at h
  rw [h]

/-- The loop of `read_bits` in terms of a single bit position. -/
theorem readBitsLoop_eq (buf : List Byte) (n pos : Nat) (acc : BitVec 32) :
    readBitsLoop buf n (pos / 8) (7 - pos % 8) acc =
      if n = 0 ∨ pos + n ≤ 8 * buf.length then
        .ok (((bitsOf buf).drop pos |>.take n).foldl pushBit acc)
      else .oob := by
  induction n generalizing pos acc with
  | zero => simp [readBitsLoop]
  | succ n ih =>
    unfold readBitsLoop
    have hg := bitsOf_getElem? buf pos
    rcases hb : buf[pos / 8]? with _ | b
    · have hlen : buf.length ≤ pos / 8 := List.getElem?_eq_none_iff.mp hb
      simp only [Nat.add_eq_zero_iff, Nat.one_ne_zero, and_false, false_or]
      rw [if_neg (by omega)]
    · have hlt : pos / 8 < buf.length := by
        rcases Nat.lt_or_ge (pos / 8) buf.length with h1 | h1
        · exact h1
        · rw [List.getElem?_eq_none h1] at hb; cases hb
      rw [hb] at hg
      simp only [Option.map_some] at hg
      have hd := drop_cons_of_getElem? _ _ _ hg
      simp only [Nat.add_eq_zero_iff, Nat.one_ne_zero, and_false, false_or]
      have hstep : ∀ (r : Res (BitVec 32)),
          r = readBitsLoop buf n ((pos + 1) / 8) (7 - (pos + 1) % 8)
            (pushBit acc (bitAt b (7 - pos % 8))) →
          r = if pos + (n + 1) ≤ 8 * buf.length then
              .ok (((bitsOf buf).drop pos |>.take (n + 1)).foldl pushBit acc) else .oob := by
        intro r hr
        rw [hr, ih, hd, List.take_succ_cons, List.foldl_cons]
        by_cases h0 : n = 0
        · subst h0
          rw [if_pos (Or.inl rfl), if_pos (by omega)]
        · by_cases h1 : pos + (n + 1) ≤ 8 * buf.length
          · rw [if_pos (by omega), if_pos h1]
          · rw [if_neg (by omega), if_neg h1]
      split
      · rw [if_neg (by omega)]
        apply hstep
        congr 1 <;> omega
      · apply hstep
        congr 1 <;> omega

theorem foldl_pushBit_toNat (l : List Bool) (acc : BitVec 32) (k : Nat)
    (h : acc.toNat < 2 ^ k) (hk : k + l.length ≤ 32) :
    (l.foldl pushBit acc).toNat = l.foldl (fun a b => 2 * a + b.toNat) acc.toNat := by
  induction l generalizing acc k with
  | nil => rfl
  | cons b l ih =>
    simp only [List.length_cons] at hk
    have hk31 : 2 ^ k ≤ 2 ^ 31 := Nat.pow_le_pow_right (by omega) (by omega)
    have hp := pushBit_toNat acc b (by omega)
    simp only [List.foldl_cons]
    rw [ih (pushBit acc b) (k + 1) ?_ (by omega), hp]
    rw [hp, Nat.pow_succ]
    cases b <;> simp <;> omega

theorem valOf_append_single (l : List Bool) (b : Bool) : valOf (l ++ [b]) = 2 * valOf l + b.toNat := by
  simp [valOf]

theorem valOf_bitsOfNat (k n : Nat) (h : n < 2 ^ k) : valOf (bitsOfNat k n) = n := by
  induction k generalizing n with
  | zero => simp at h; simp [bitsOfNat, valOf, h]
  | succ k ih =>
    rw [bitsOfNat, valOf_append_single, ih (n / 2) (by rw [Nat.pow_succ] at h; omega)]
    have : ((n % 2 == 1) : Bool).toNat = n % 2 := by
      rcases Nat.mod_two_eq_zero_or_one n with h | h <;> simp [h]
    omega

theorem bitsOfNat_length (k n : Nat) : (bitsOfNat k n).length = k := by
  induction k generalizing n with
  | zero => rfl
  | succ k ih => simp [bitsOfNat, ih]

theorem valOf_cons (b : Bool) (l : List Bool) : valOf (b :: l) = b.toNat * 2 ^ l.length + valOf l := by
  have gen : ∀ (l : List Bool) (a : Nat),
      l.foldl (fun a b => 2 * a + b.toNat) a = a * 2 ^ l.length + valOf l := by
    intro l
    induction l with
    | nil => intro a; simp [valOf]
    | cons c l ih =>
      intro a
      simp only [List.foldl_cons, List.length_cons, valOf]
      rw [ih, ih]
      rw [Nat.pow_succ, Nat.add_mul]
      simp only [Nat.mul_zero, Nat.zero_add]
      rw [show 2 * a * 2 ^ l.length = a * (2 ^ l.length * 2) by
        rw [Nat.mul_comm (2 ^ l.length) 2, ← Nat.mul_assoc, Nat.mul_comm a 2]]
      omega
  unfold valOf
  rw [List.foldl_cons, gen]
  simp [valOf]

theorem valOf_lt (l : List Bool) : valOf l < 2 ^ l.length := by
  induction l with
  | nil => simp [valOf]
  | cons b l ih =>
    rw [valOf_cons, List.length_cons, Nat.pow_succ]
    cases b <;> simp <;> omega

/-- Big-endian digits of a number whose leading digit is known. -/
theorem bitsOfNat_leading (k m : Nat) (h1 : 2 ^ k ≤ m) (h2 : m < 2 ^ (k + 1)) :
    bitsOfNat (k + 1) m = true :: bitsOfNat k (m - 2 ^ k) := by
  induction k generalizing m with
  | zero =>
    have : m = 1 := by simp at h1 h2; omega
    subst this; rfl
  | succ k ih =>
    rw [bitsOfNat, ih (m / 2) (by rw [Nat.pow_succ] at h1; omega) (by rw [Nat.pow_succ] at h2; omega)]
    rw [List.cons_append, bitsOfNat]
    congr 2
    · rw [Nat.pow_succ]; congr 1; omega
    · congr 2; rw [Nat.pow_succ]; omega

theorem ueCode_eq (v : Nat) :
    ueCode v = List.replicate (Nat.log2 (v + 1)) false ++
      true :: bitsOfNat (Nat.log2 (v + 1)) (v + 1 - 2 ^ Nat.log2 (v + 1)) := by
  unfold ueCode
  rw [bitsOfNat_leading]
  · exact Nat.log2_self_le (by omega)
  · exact Nat.lt_log2_self

/-- The prefix search finds the first one bit. -/
theorem vlcPrefix_eq (buf : List Byte) (k pos len : Nat) (rest : List Bool)
    (h : (bitsOf buf).drop pos = List.replicate k false ++ true :: rest) :
    vlcPrefix buf (pos / 8) (7 - pos % 8) len =
      .ok (len + k, (pos + k) / 8, 7 - (pos + k) % 8) := by
  induction k generalizing pos len with
  | zero =>
    have hg : (bitsOf buf)[pos]? = some true := by
      rw [← Nat.add_zero pos, ← List.getElem?_drop, h]; rfl
    rw [bitsOf_getElem?] at hg
    rw [vlcPrefix]
    split
    · rename_i hb; rw [hb] at hg; cases hg
    · rename_i b hb
      rw [hb] at hg
      simp only [Option.map_some, Option.some.injEq] at hg
      simp [hg]
  | succ k ih =>
    have hg : (bitsOf buf)[pos]? = some false := by
      rw [← Nat.add_zero pos, ← List.getElem?_drop, h]; rfl
    have h' : (bitsOf buf).drop (pos + 1) = List.replicate k false ++ true :: rest := by
      rw [← List.drop_drop, h]; rfl
    rw [bitsOf_getElem?] at hg
    rw [vlcPrefix]
    split
    · rename_i hb; rw [hb] at hg; cases hg
    · rename_i b hb
      rw [hb] at hg
      simp only [Option.map_some, Option.some.injEq] at hg
      rw [hg]
      simp only [Bool.false_eq_true, if_false]
      rw [nextBit_pos]
      rw [ih (pos + 1) (len + 1) h']
      rw [show len + 1 + k = len + (k + 1) by omega, show pos + 1 + k = pos + (k + 1) by omega]

/-- If no one bit is left, the prefix search leaves the buffer. -/
theorem vlcPrefix_oob (buf : List Byte) (pos len : Nat)
    (h : true ∉ (bitsOf buf).drop pos) :
    vlcPrefix buf (pos / 8) (7 - pos % 8) len = .oob := by
  rcases Nat.lt_or_ge pos (8 * buf.length) with hlt | hge
  · have hpos : pos < (bitsOf buf).length := by rw [bitsOf_length]; exact hlt
    have hg := List.getElem?_eq_getElem hpos
    have hd := drop_cons_of_getElem? _ _ _ hg
    rw [hd] at h
    simp only [List.mem_cons, not_or] at h
    have hf : (bitsOf buf)[pos] = false := by
      have := h.1
      cases hx : (bitsOf buf)[pos] <;> simp_all
    rw [hf, bitsOf_getElem?] at hg
    rw [vlcPrefix]
    split
    · rfl
    · rename_i b hb
      rw [hb] at hg
      simp only [Option.map_some, Option.some.injEq] at hg
      rw [hg]
      simp only [Bool.false_eq_true, if_false]
      rw [nextBit_pos]
      exact vlcPrefix_oob buf (pos + 1) (len + 1) h.2
  · rw [vlcPrefix]
    split
    · rfl
    · rename_i b hb
      rw [List.getElem?_eq_none (by omega)] at hb
      cases hb
termination_by 8 * buf.length - pos

/-- The information loop in terms of a single bit position. -/
theorem vlcInfo_eq (buf : List Byte) (n pos : Nat) (acc : BitVec 32) (hpos : pos < 8 * buf.length) :
    vlcInfo buf n (pos / 8) (7 - pos % 8) acc =
      if pos + 1 + n ≤ 8 * buf.length then
        .ok (((bitsOf buf).drop (pos + 1) |>.take n).foldl pushBit acc)
      else .oob := by
  induction n generalizing pos acc with
  | zero => simp [vlcInfo]; omega
  | succ n ih =>
    rw [vlcInfo, nextBit_pos]
    simp only
    rw [if_neg (by omega)]
    have hg := bitsOf_getElem? buf (pos + 1)
    split
    · rename_i hb
      have hlen : buf.length ≤ (pos + 1) / 8 := List.getElem?_eq_none_iff.mp hb
      rw [if_neg (by omega)]
    · rename_i b hb
      have hlt : (pos + 1) / 8 < buf.length := by
        rcases Nat.lt_or_ge ((pos + 1) / 8) buf.length with h1 | h1
        · exact h1
        · rw [List.getElem?_eq_none h1] at hb; cases hb
      rw [hb] at hg
      simp only [Option.map_some] at hg
      have hd := drop_cons_of_getElem? _ _ _ hg
      rw [hd, List.take_succ_cons, List.foldl_cons]
      have := ih (pos + 1) (pushBit acc (bitAt b (7 - (pos + 1) % 8))) (by omega)
      simp only [pushBit] at this ⊢
      rw [this]
      congr 1
      · simp only [eq_iff_iff]; omega

end Davs2
