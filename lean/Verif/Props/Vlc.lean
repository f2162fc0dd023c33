import Verif.Lemmas.Vlc
/-
Properties C03, C04, C05, C06: reading header elements.
-/
namespace Davs2
open Spec

theorem BitVec32_toInt_of_lt (x : BitVec 32) (n : Nat) (h : x.toNat = n) (hn : n < 2 ^ 31) :
    x.toInt = (n : Int) := by
  rw [BitVec.toInt_eq_toNat_of_lt (by omega), h]

theorem getVlcSymbol_ueCode (buf : List Byte) (pos v : Nat) (rest : List Bool)
    (h : (bitsOf buf).drop pos = ueCode v ++ rest) :
    getVlcSymbol buf pos = .ok (2 * Nat.log2 (v + 1) + 1,
      (bitsOfNat (Nat.log2 (v + 1)) (v + 1 - 2 ^ Nat.log2 (v + 1))).foldl pushBit 0#32) := by
  rw [ueCode_eq, List.append_assoc, List.cons_append] at h
  generalize hk : Nat.log2 (v + 1) = k at *
  have hlen : (bitsOf buf).length - pos = k + (1 + (k + rest.length)) := by
    rw [← List.length_drop, h]; simp [bitsOfNat_length]; omega
  rw [bitsOf_length] at hlen
  have hd : (bitsOf buf).drop (pos + k + 1) = bitsOfNat k (v + 1 - 2 ^ k) ++ rest := by
    rw [Nat.add_assoc, ← List.drop_drop, h, List.drop_append, List.length_replicate]
    simp
  unfold getVlcSymbol
  rw [vlcPrefix_eq buf k pos 1 _ h]
  simp only [Nat.add_sub_cancel_left]
  rw [vlcInfo_eq _ _ _ _ (by omega), if_pos (by omega), hd]
  rw [List.take_append_of_le_length (by rw [bitsOfNat_length]; omega),
    List.take_of_length_le (by rw [bitsOfNat_length]; omega)]
  simp only [Res.ok.injEq, Prod.mk.injEq, and_true]
  omega

theorem ueCode_length (v : Nat) : (ueCode v).length = 2 * Nat.log2 (v + 1) + 1 := by
  simp [ueCode, bitsOfNat_length]; omega

theorem ue_value (v : Nat) (hv : v + 1 < 2 ^ 31) :
    (1#32 <<< ((2 * Nat.log2 (v + 1) + 1) / 2) +
      (bitsOfNat (Nat.log2 (v + 1)) (v + 1 - 2 ^ Nat.log2 (v + 1))).foldl pushBit 0#32 - 1#32).toInt
      = (v : Int) := by
  have hle : 2 ^ Nat.log2 (v + 1) ≤ v + 1 := Nat.log2_self_le (by omega)
  have hlt : v + 1 < 2 ^ (Nat.log2 (v + 1) + 1) := Nat.lt_log2_self
  have hk31 : Nat.log2 (v + 1) < 31 := by
    have := (Nat.log2_lt (n := v + 1) (k := 31) (by omega)).mpr hv
    exact this
  generalize Nat.log2 (v + 1) = k at *
  rw [show (2 * k + 1) / 2 = k by omega]
  have hinf : ((bitsOfNat k (v + 1 - 2 ^ k)).foldl pushBit 0#32).toNat = v + 1 - 2 ^ k := by
    rw [foldl_pushBit_toNat _ _ 0 (by simp) (by rw [bitsOfNat_length]; omega)]
    exact valOf_bitsOfNat _ _ (by rw [Nat.pow_succ] at hlt; omega)
  apply BitVec32_toInt_of_lt _ _ _ (by omega)
  have hp : 2 ^ k ≤ 2 ^ 30 := Nat.pow_le_pow_right (by omega) (by omega)
  have h1 : (1#32 <<< k).toNat = 2 ^ k := by
    rw [BitVec.toNat_shiftLeft, Nat.shiftLeft_eq]
    simp
    omega
  rw [BitVec.toNat_sub, BitVec.toNat_add, h1, hinf]
  simp
  omega

/-- **C03.** An unsigned Exp-Golomb code found at any bit position of any buffer is read back as the
number that was encoded, and the position advances by exactly the length of the code. -/
theorem C03_ue_roundtrip (buf : List Byte) (pos v : Nat) (rest : List Bool)
    (hv : v ≤ 2 ^ 31 - 2) (h : (bitsOf buf).drop pos = ueCode v ++ rest) :
    ueV ⟨buf, pos⟩ = .ok ((v : Int), ⟨buf, pos + (ueCode v).length⟩) := by
  unfold ueV
  simp only
  rw [getVlcSymbol_ueCode buf pos v rest h]
  simp only
  have hk31 : Nat.log2 (v + 1) < 31 := (Nat.log2_lt (n := v + 1) (k := 31) (by omega)).mpr (by omega)
  rw [if_neg (by omega), ue_value v (by omega), ueCode_length]

/-- Non-trivial instance: number 5 (code 00110) starting in the middle of a byte. -/
example : ueV ⟨[0b10100110#8, 0xFF#8], 3⟩ = .ok (5, ⟨[0b10100110#8, 0xFF#8], 8⟩) :=
  C03_ue_roundtrip _ 3 5 (bitsOf [0xFF#8]) (by decide) (by decide)

/-- The code numbers of signed values are a bijection (left inverse given by the parity rule). -/
theorem seNum_inv (x : Int) :
    (if (seNum x : Int) % 2 = 0 then -(((seNum x : Int) + 1) / 2) else ((seNum x : Int) + 1) / 2) = x := by
  unfold seNum
  split <;> rename_i h
  · rw [Int.toNat_of_nonneg (by omega)]; split <;> omega
  · rw [Int.toNat_of_nonneg (by omega)]; split <;> omega

/-- **C04.** A signed Exp-Golomb code is read back as the signed number that was encoded. -/
theorem C04_se_roundtrip (buf : List Byte) (pos : Nat) (x : Int) (rest : List Bool)
    (hx : x.natAbs ≤ 2 ^ 30 - 1) (h : (bitsOf buf).drop pos = seCode x ++ rest) :
    seV ⟨buf, pos⟩ = .ok (x, ⟨buf, pos + (seCode x).length⟩) := by
  have hv : seNum x ≤ 2 ^ 31 - 2 := by unfold seNum; split <;> omega
  unfold seV
  simp only
  rw [getVlcSymbol_ueCode buf pos (seNum x) rest h]
  simp only
  have hk31 : Nat.log2 (seNum x + 1) < 31 :=
    (Nat.log2_lt (n := seNum x + 1) (k := 31) (by omega)).mpr (by omega)
  rw [if_neg (by omega), ue_value _ (by omega), seCode, ueCode_length, seNum_inv]

example : seV ⟨[0b10010111#8], 1⟩ = .ok (-2, ⟨[0b10010111#8], 6⟩) :=
  C04_se_roundtrip _ 1 (-2) [true, true] (by decide) (by decide)

/-- Every code number is the code number of exactly one signed value. -/
theorem C04_se_bijective : Function.Injective seNum ∧ Function.Surjective seNum := by
  constructor
  · intro x y h
    have hx := seNum_inv x
    have hy := seNum_inv y
    rw [h] at hx
    exact hx.symm.trans hy
  · intro n
    refine ⟨if n % 2 = 0 then -((n : Int) / 2) else ((n : Int) + 1) / 2, ?_⟩
    unfold seNum
    split <;> split <;> omega

/-- **C05.** A field of `n ≤ 31` bits is the big-endian number of the next `n` bits, and the position
advances by `n`. -/
theorem C05_u_value (buf : List Byte) (pos n : Nat) (hn : n ≤ 31) (h : pos + n ≤ 8 * buf.length) :
    uV ⟨buf, pos⟩ n = .ok ((valOf (((bitsOf buf).drop pos).take n) : Int), ⟨buf, pos + n⟩) := by
  have hl : (((bitsOf buf).drop pos).take n).length = n := by
    rw [List.length_take, List.length_drop, bitsOf_length]; omega
  unfold uV readBits
  simp only
  rw [readBitsLoop_eq, if_pos (Or.inr h)]
  simp only [Res.ok.injEq, Prod.mk.injEq, and_true]
  have hlt := valOf_lt (((bitsOf buf).drop pos).take n)
  rw [hl] at hlt
  have h31 : 2 ^ n ≤ 2 ^ 31 := Nat.pow_le_pow_right (by omega) hn
  apply BitVec32_toInt_of_lt _ _ _ (by omega)
  rw [foldl_pushBit_toNat _ _ 0 (by simp) (by omega)]
  rfl

example : uV ⟨[0xA5#8, 0x0F#8], 2⟩ 9 = .ok (0b100101000, ⟨[0xA5#8, 0x0F#8], 11⟩) := by
  rw [C05_u_value _ _ _ (by decide) (by decide)]; rfl

/-- 32-bit fields: the bit pattern is exact, the C `int` is its two's complement reading. -/
theorem C05_u_value32 (buf : List Byte) (pos n : Nat) (hn : n ≤ 32) (h : pos + n ≤ 8 * buf.length) :
    ∃ w : BitVec 32, readBits buf pos n = .ok w ∧ w.toNat = valOf (((bitsOf buf).drop pos).take n) := by
  have hl : (((bitsOf buf).drop pos).take n).length = n := by
    rw [List.length_take, List.length_drop, bitsOf_length]; omega
  refine ⟨(((bitsOf buf).drop pos).take n).foldl pushBit 0#32, ?_, ?_⟩
  · unfold readBits; rw [readBitsLoop_eq, if_pos (Or.inr h)]
  · rw [foldl_pushBit_toNat _ _ 0 (by simp) (by omega)]; rfl

/-- **C05**, splitting: reading `m` bits and then `n` bits yields the two halves of the `m+n`-bit field. -/
theorem C05_u_split (buf : List Byte) (pos m n : Nat) (hn : m + n ≤ 31)
    (h : pos + (m + n) ≤ 8 * buf.length) :
    ∃ a b : Int, uV ⟨buf, pos⟩ m = .ok (a, ⟨buf, pos + m⟩) ∧
      uV ⟨buf, pos + m⟩ n = .ok (b, ⟨buf, pos + m + n⟩) ∧
      uV ⟨buf, pos⟩ (m + n) = .ok (a * 2 ^ n + b, ⟨buf, pos + (m + n)⟩) := by
  refine ⟨_, _, C05_u_value buf pos m (by omega) (by omega),
    C05_u_value buf (pos + m) n (by omega) (by omega), ?_⟩
  rw [C05_u_value buf pos (m + n) hn h]
  have hl : (((bitsOf buf).drop (pos + m)).take n).length = n := by
    rw [List.length_take, List.length_drop, bitsOf_length]; omega
  have : valOf (((bitsOf buf).drop pos).take (m + n)) =
      valOf (((bitsOf buf).drop pos).take m) * 2 ^ n + valOf (((bitsOf buf).drop (pos + m)).take n) := by
    rw [List.take_add, List.drop_drop]
    generalize ((bitsOf buf).drop pos).take m = a at *
    generalize hb : ((bitsOf buf).drop (pos + m)).take n = b at *
    have gen : ∀ (a b : List Bool), valOf (a ++ b) = valOf a * 2 ^ b.length + valOf b := by
      intro a b
      induction a with
      | nil => simp [valOf]
      | cons x a ih =>
        rw [List.cons_append, valOf_cons, valOf_cons, ih, List.length_append, Nat.pow_add,
          Nat.add_mul, Nat.mul_assoc]
        omega
    rw [gen, hl]
  simp only [Res.ok.injEq, Prod.mk.injEq, and_true]
  rw [this]
  push_cast
  rfl

/-- **C06** fails: one bit read at the end of a packet touches the byte behind it, although the function
has an error return for exhausted data. -/
theorem C06_read_inside_violated :
    readBits [0xFF#8] 8 1 = .oob ∧ getVlcSymbol [0x00#8] 0 = .oob ∧ ueV ⟨[0x00#8], 0⟩ = .oob := by
  refine ⟨by decide, ?_, ?_⟩
  · unfold getVlcSymbol
    rw [vlcPrefix_oob [0x00#8] 0 1 (by decide)]
  · unfold ueV getVlcSymbol
    simp only
    rw [vlcPrefix_oob [0x00#8] 0 1 (by decide)]

/-- Exactly when a fixed-length read leaves the packet; the error return is never taken first. -/
theorem C06_read_bits_oob_iff (buf : List Byte) (pos n : Nat) :
    (readBits buf pos n = .oob ↔ 0 < n ∧ 8 * buf.length < pos + n) ∧ readBits buf pos n ≠ .err := by
  unfold readBits
  rw [readBitsLoop_eq]
  constructor
  · split <;> simp <;> omega
  · split <;> simp

/-- **C06**, the part that holds: as long as the packet still holds the bits of the element being read
(`n` bits for a fixed-length field; the leading zeros, the one and as many further bits for an Exp-Golomb
code), nothing outside the packet is touched.  Missing: the reader does not itself establish this
condition, see `C06_read_inside_violated`. -/
theorem C06_read_inside_partial (buf : List Byte) (pos n k : Nat) (rest : List Bool) :
    (pos + n ≤ 8 * buf.length → readBits buf pos n ≠ .oob) ∧
    ((bitsOf buf).drop pos = List.replicate k false ++ true :: rest →
      (getVlcSymbol buf pos ≠ .oob ↔ k ≤ rest.length)) := by
  constructor
  · intro h; rw [ne_eq, (C06_read_bits_oob_iff buf pos n).1]; omega
  · intro h
    have hlen : (bitsOf buf).length - pos = k + (1 + rest.length) := by
      rw [← List.length_drop, h]; simp; omega
    rw [bitsOf_length] at hlen
    unfold getVlcSymbol
    rw [vlcPrefix_eq buf k pos 1 _ h]
    simp only [Nat.add_sub_cancel_left]
    rw [vlcInfo_eq _ _ _ _ (by omega)]
    by_cases hk : k ≤ rest.length
    · rw [if_pos (by omega)]; simp [hk]
    · rw [if_neg (by omega)]; simp [hk]

example : getVlcSymbol [0b00101000#8] 0 ≠ .oob :=
  ((C06_read_inside_partial [0b00101000#8] 0 0 2 [false, true, false, false, false]).2 (by decide)).mpr (by decide)

end Davs2
