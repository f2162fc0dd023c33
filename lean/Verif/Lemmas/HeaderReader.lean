import Verif.Model.HeaderReader
import Verif.Props.Vlc
/- Lemmas about the header reader over memory. -/
namespace Davs2
open Spec

/-- Bit `p` of memory, most significant bit of a byte first. -/
def Mem.bit (m : Mem) (p : Nat) : Bool := bitAt (m.byte (p / 8)) (7 - p % 8)

/-- `n` bits of memory from bit `p` on. -/
def memBits (m : Mem) : Nat → Nat → List Bool
  | _, 0 => []
  | p, n + 1 => m.bit p :: memBits m (p + 1) n

theorem memBits_length (m : Mem) (p n : Nat) : (memBits m p n).length = n := by
  induction n generalizing p with
  | zero => rfl
  | succ n ih => simp [memBits, ih]

theorem memBits_append (m : Mem) (p a b : Nat) :
    memBits m p (a + b) = memBits m p a ++ memBits m (p + a) b := by
  induction a generalizing p with
  | zero => simp [memBits]
  | succ a ih =>
    rw [show a + 1 + b = (a + b) + 1 by omega, memBits, ih, memBits]
    rw [show p + 1 + a = p + (a + 1) by omega]
    rfl

theorem memBits_take (m : Mem) (p : Nat) (l r : List Bool)
    (h : memBits m p (l ++ r).length = l ++ r) : memBits m p l.length = l := by
  rw [List.length_append, memBits_append] at h
  exact (List.append_inj h (by rw [memBits_length])).1

theorem memBits_drop (m : Mem) (p : Nat) (l r : List Bool)
    (h : memBits m p (l ++ r).length = l ++ r) : memBits m (p + l.length) r.length = r := by
  rw [List.length_append, memBits_append] at h
  exact (List.append_inj h (by rw [memBits_length])).2

/-- A read of `n` bits at `p` is refused (only a step to a byte behind `len` is noticed). -/
def Refused (m : Mem) (p n : Nat) : Prop := (p + n) / 8 > p / 8 ∧ (p + n) / 8 > m.len

instance (m : Mem) (p n : Nat) : Decidable (Refused m p n) := by unfold Refused; infer_instance

theorem mReadLoop_eq (m : Mem) (n p : Nat) (acc : BitVec 32) :
    mReadLoop m n (p / 8) (7 - p % 8) acc =
      if Refused m p n then none else some ((memBits m p n).foldl pushBit acc) := by
  induction n generalizing p acc with
  | zero => simp [mReadLoop, Refused, memBits]
  | succ n ih =>
    unfold mReadLoop
    simp only
    have hstep : mReadLoop m n ((p + 1) / 8) (7 - (p + 1) % 8) (pushBit acc (m.bit p)) =
        if Refused m (p + 1) n then none
        else some ((memBits m p (n + 1)).foldl pushBit acc) := by
      rw [ih]; rfl
    split
    · rename_i h0
      have e1 : (p + 1) / 8 = p / 8 + 1 := by omega
      have e2 : 7 - (p + 1) % 8 = 7 := by omega
      split
      · rw [if_pos (by unfold Refused; omega)]
      · rename_i h1
        rw [e1, e2] at hstep
        refine hstep.trans ?_
        by_cases h : Refused m (p + 1) n
        · rw [if_pos h, if_pos (by unfold Refused at *; omega)]
        · rw [if_neg h, if_neg (by unfold Refused at *; omega)]
    · rename_i h0
      have e1 : (p + 1) / 8 = p / 8 := by omega
      have e2 : 7 - (p + 1) % 8 = 7 - p % 8 - 1 := by omega
      rw [e1, e2] at hstep
      refine hstep.trans ?_
      by_cases h : Refused m (p + 1) n
      · rw [if_pos h, if_pos (by unfold Refused at *; omega)]
      · rw [if_neg h, if_neg (by unfold Refused at *; omega)]

/-- `u_v`: the number denoted by the next bits, or -1 without moving. -/
theorem rdU_eq (m : Mem) (p n : Nat) (hn : n ≤ 31) :
    rdU n m p = if Refused m p n then .ok (-1, p)
      else .ok ((valOf (memBits m p n) : Int), p + n) := by
  unfold rdU
  rw [mReadLoop_eq]
  split
  · rename_i h
    split at h
    · cases h
    · rename_i hr
      rw [if_neg hr]
      simp only [Option.some.injEq] at h
      subst h
      have hlt := valOf_lt (memBits m p n)
      rw [memBits_length] at hlt
      have h31 : 2 ^ n ≤ 2 ^ 31 := Nat.pow_le_pow_right (by omega) hn
      simp only [Res.ok.injEq, Prod.mk.injEq, and_true]
      apply BitVec32_toInt_of_lt _ _ _ (by omega)
      rw [foldl_pushBit_toNat _ _ 0 (by simp) (by rw [memBits_length]; omega)]
      rfl
  · rename_i h
    split at h
    · rename_i hr
      rw [if_pos hr]
    · cases h

theorem rdU_cases (m : Mem) (p n : Nat) (hn : n ≤ 31) (a : Int) (q : Nat)
    (h : rdU n m p = .ok (a, q)) :
    (Refused m p n ∧ a = -1 ∧ q = p) ∨
    (¬ Refused m p n ∧ a = (valOf (memBits m p n) : Int) ∧ q = p + n ∧ 0 ≤ a ∧ a < 2 ^ n) := by
  rw [rdU_eq m p n hn] at h
  split at h
  · rename_i hr
    simp only [Res.ok.injEq, Prod.mk.injEq] at h
    exact Or.inl ⟨hr, h.1.symm, h.2.symm⟩
  · rename_i hr
    simp only [Res.ok.injEq, Prod.mk.injEq] at h
    have hlt := valOf_lt (memBits m p n)
    rw [memBits_length] at hlt
    refine Or.inr ⟨hr, h.1.symm, h.2.symm, by omega, ?_⟩
    rw [← h.1]
    exact_mod_cast hlt

/-- The same for a position that has not yet passed the byte behind the packet. -/
theorem rdU_lim (m : Mem) (p n : Nat) (hn : n ≤ 31) (h1 : 1 ≤ n) (hp : p ≤ 8 * m.len + 7) (a : Int)
    (q : Nat) (h : rdU n m p = .ok (a, q)) :
    (p + n > 8 * m.len + 7 ∧ a = -1 ∧ q = p) ∨
    (p + n ≤ 8 * m.len + 7 ∧ a = (valOf (memBits m p n) : Int) ∧ q = p + n ∧ 0 ≤ a ∧ a < 2 ^ n) := by
  rcases rdU_cases m p n hn a q h with ⟨h1, h2⟩ | ⟨h1, h2⟩
  · refine Or.inl ⟨?_, h2⟩
    unfold Refused at h1
    omega
  · refine Or.inr ⟨?_, h2⟩
    unfold Refused at h1
    omega

theorem rd_bind_ok {α β : Type} (x : Rd α) (f : α → Rd β) (m : Mem) (p : Nat) (r : β × Nat)
    (h : (x >>= f) m p = .ok r) : ∃ a q, x m p = .ok (a, q) ∧ f a m q = .ok r := by
  change Rd.bind' x f m p = _ at h
  unfold Rd.bind' at h
  split at h
  · rename_i a q hx
    exact ⟨a, q, hx, h⟩
  · cases h
  · cases h
  · cases h

theorem rd_bind_eq {α β : Type} (x : Rd α) (f : α → Rd β) (m : Mem) (p : Nat) (a : α) (q : Nat)
    (h : x m p = .ok (a, q)) : (x >>= f) m p = f a m q := by
  change Rd.bind' x f m p = _
  unfold Rd.bind'
  rw [h]

theorem rd_pure_ok {α : Type} (a : α) (m : Mem) (p : Nat) (r : α × Nat)
    (h : (pure a : Rd α) m p = .ok r) : r = (a, p) := by
  change Res.ok (a, p) = .ok r at h
  simpa using h.symm

/-! ## Reading back what was written -/

/-- `x` reads exactly `bits` and returns `a`, wherever the bits stand. -/
def Reads {α : Type} (x : Rd α) (bits : List Bool) (a : α) : Prop :=
  ∀ (m : Mem) (p : Nat), memBits m p bits.length = bits → p + bits.length ≤ 8 * m.len →
    x m p = .ok (a, p + bits.length)

/-- The same for a parser that finally aligns the position. -/
def ReadsA {α : Type} (x : Rd α) (bits : List Bool) (a : α) : Prop :=
  ∀ (m : Mem) (p : Nat), memBits m p bits.length = bits → p + bits.length ≤ 8 * m.len →
    x m p = .ok (a, (p + bits.length + 7) / 8 * 8)

theorem Reads.pure {α : Type} (a : α) : Reads (pure a) [] a := by
  intro m p _ _
  rfl

theorem Reads.bind {α β : Type} {x : Rd α} {f : α → Rd β} {b1 b2 : List Bool} {a : α} {c : β}
    (h1 : Reads x b1 a) (h2 : Reads (f a) b2 c) : Reads (x >>= f) (b1 ++ b2) c := by
  intro m p hb hl
  rw [List.length_append] at hl
  rw [rd_bind_eq x f m p a _ (h1 m p (memBits_take m p b1 b2 hb) (by omega))]
  rw [h2 m _ (memBits_drop m p b1 b2 hb) (by omega), List.length_append, Nat.add_assoc]

theorem ReadsA.bind {α β : Type} {x : Rd α} {f : α → Rd β} {b1 b2 : List Bool} {a : α} {c : β}
    (h1 : Reads x b1 a) (h2 : ReadsA (f a) b2 c) : ReadsA (x >>= f) (b1 ++ b2) c := by
  intro m p hb hl
  rw [List.length_append] at hl
  rw [rd_bind_eq x f m p a _ (h1 m p (memBits_take m p b1 b2 hb) (by omega))]
  rw [h2 m _ (memBits_drop m p b1 b2 hb) (by omega), List.length_append, Nat.add_assoc p]

theorem ReadsA.align {α : Type} (a : α) : ReadsA (do rdAlign; Pure.pure a) [] a := by
  intro m p _ _
  rfl

theorem ReadsA.map {α β : Type} {x : Rd α} {f : α → β} {b : List Bool} {a : α}
    (h : ReadsA x b a) : ReadsA (do let y ← x; Pure.pure (f y)) b (f a) := by
  intro m p hb hl
  rw [rd_bind_eq x _ m p a _ (h m p hb hl)]
  rfl

theorem Reads.ite_false {α : Type} {c : Prop} [Decidable c] {x y : Rd α} {b : List Bool} {a : α}
    (hc : ¬ c) (h : Reads y b a) : Reads (if c then x else y) b a := by
  rw [if_neg hc]; exact h

theorem Reads.ite_true {α : Type} {c : Prop} [Decidable c] {x y : Rd α} {b : List Bool} {a : α}
    (hc : c) (h : Reads x b a) : Reads (if c then x else y) b a := by
  rw [if_pos hc]; exact h

theorem Reads.skip (bits : List Bool) : Reads (rdSkip bits.length) bits () := by
  intro m p _ _
  rfl

theorem Reads.u (n v : Nat) (hn : n ≤ 31) (hv : v < 2 ^ n) :
    Reads (rdU n) (bitsOfNat n v) (v : Int) := by
  intro m p hb hl
  rw [bitsOfNat_length] at hb hl ⊢
  rw [rdU_eq m p n hn, if_neg (by unfold Refused; omega), hb, valOf_bitsOfNat n v hv]

theorem Reads.many {α : Type} {x : Rd α} (l : List (List Bool × α))
    (h : ∀ e ∈ l, Reads x e.1 e.2) :
    Reads (rdMany x l.length) (l.flatMap (·.1)) (l.map (·.2)) := by
  induction l with
  | nil => exact Reads.pure _
  | cons e l ih =>
    simp only [List.length_cons, rdMany, List.flatMap_cons, List.map_cons]
    refine Reads.bind (h e (by simp)) ?_
    rw [← List.append_nil (l.flatMap (·.1))]
    exact Reads.bind (ih fun e' he' => h e' (by simp [he'])) (Reads.pure _)

theorem mPrefix_eq (m : Mem) (k p len fuel : Nat) (hf : k < fuel)
    (hz : ∀ i < k, m.bit (p + i) = false) (h1 : m.bit (p + k) = true) :
    mPrefix m fuel (p / 8) (7 - p % 8) len = some (len + k, (p + k) / 8, 7 - (p + k) % 8) := by
  induction k generalizing p len fuel with
  | zero =>
    obtain ⟨f, rfl⟩ : ∃ f, fuel = f + 1 := ⟨fuel - 1, by omega⟩
    unfold mPrefix
    simp only [Nat.add_zero] at h1 ⊢
    unfold Mem.bit at h1
    rw [if_pos h1]
  | succ k ih =>
    obtain ⟨f, rfl⟩ : ∃ f, fuel = f + 1 := ⟨fuel - 1, by omega⟩
    unfold mPrefix
    have h0 := hz 0 (by omega)
    simp only [Nat.add_zero] at h0
    unfold Mem.bit at h0
    rw [h0]
    simp only [Bool.false_eq_true, if_false]
    rw [nextBit_pos]
    rw [ih (p + 1) (len + 1) f (by omega)
      (fun i hi => by rw [show p + 1 + i = p + (i + 1) by omega]; exact hz (i + 1) (by omega))
      (by rw [show p + 1 + k = p + (k + 1) by omega]; exact h1)]
    rw [show len + 1 + k = len + (k + 1) by omega, show p + 1 + k = p + (k + 1) by omega]

theorem mInfo_eq (m : Mem) (n p : Nat) (acc : BitVec 32) (h : p + n < 8 * m.len + 8) :
    mInfo m n (p / 8) (7 - p % 8) acc = some ((memBits m (p + 1) n).foldl pushBit acc) := by
  induction n generalizing p acc with
  | zero => rfl
  | succ n ih =>
    unfold mInfo
    rw [nextBit_pos]
    simp only
    rw [if_neg (by omega)]
    have := ih (p + 1) (pushBit acc (m.bit (p + 1))) (by omega)
    exact this

theorem memBits_getElem? (m : Mem) (p n i : Nat) (h : i < n) :
    (memBits m p n)[i]? = some (m.bit (p + i)) := by
  induction n generalizing p i with
  | zero => omega
  | succ n ih =>
    cases i with
    | zero => simp [memBits]
    | succ i =>
      simp only [memBits, List.getElem?_cons_succ]
      rw [ih (p + 1) i (by omega)]
      congr 2
      omega

theorem mVlc_ueCode (m : Mem) (p v : Nat) (hv : v + 1 < 2 ^ 31)
    (hb : memBits m p (ueCode v).length = ueCode v) (hl : p + (ueCode v).length ≤ 8 * m.len) :
    mVlc m p = .ok (some (2 * Nat.log2 (v + 1) + 1,
      (bitsOfNat (Nat.log2 (v + 1)) (v + 1 - 2 ^ Nat.log2 (v + 1))).foldl pushBit 0#32)) := by
  have hk31 : Nat.log2 (v + 1) < 31 := (Nat.log2_lt (n := v + 1) (k := 31) (by omega)).mpr hv
  rw [ueCode_length] at hl
  have hget : ∀ i, i < (ueCode v).length → (ueCode v)[i]? = some (m.bit (p + i)) := by
    intro i hi
    rw [← hb]
    exact memBits_getElem? m p _ i hi
  rw [ueCode_length] at hget
  have hd : memBits m (p + Nat.log2 (v + 1) + 1) (Nat.log2 (v + 1)) =
      bitsOfNat (Nat.log2 (v + 1)) (v + 1 - 2 ^ Nat.log2 (v + 1)) := by
    have := hb
    rw [ueCode_eq, show List.replicate (Nat.log2 (v + 1)) false ++
      true :: bitsOfNat (Nat.log2 (v + 1)) (v + 1 - 2 ^ Nat.log2 (v + 1)) =
      (List.replicate (Nat.log2 (v + 1)) false ++ [true]) ++
        bitsOfNat (Nat.log2 (v + 1)) (v + 1 - 2 ^ Nat.log2 (v + 1)) by simp] at this
    have := memBits_drop m p _ _ this
    rw [bitsOfNat_length, List.length_append, List.length_replicate] at this
    exact this
  rw [ueCode_eq] at hget
  generalize hk : Nat.log2 (v + 1) = k at *
  unfold mVlc
  rw [mPrefix_eq m k p 1 31 hk31 ?_ ?_]
  · simp only [Nat.add_sub_cancel_left]
    rw [mInfo_eq m k (p + k) 0#32 (by omega), hd]
    simp only [Res.ok.injEq, Option.some.injEq, Prod.mk.injEq, and_true]
    omega
  · intro i hi
    have := hget i (by omega)
    rw [List.getElem?_append_left (by simpa using hi)] at this
    simp only [List.getElem?_replicate, hi, if_true, Option.some.injEq] at this
    exact this.symm
  · have := hget k (by omega)
    rw [List.getElem?_append_right (by simp)] at this
    simp at this
    exact this

theorem Reads.ue (v : Nat) (hv : v ≤ 2 ^ 31 - 2) : Reads rdUe (ueCode v) (v : Int) := by
  intro m p hb hl
  unfold rdUe
  rw [mVlc_ueCode m p v (by omega) hb hl]
  simp only
  rw [ue_value v (by omega), ueCode_length]

theorem Reads.se (x : Int) (hx : x.natAbs ≤ 2 ^ 30 - 1) : Reads rdSe (seCode x) x := by
  intro m p hb hl
  have hv : seNum x ≤ 2 ^ 31 - 2 := by unfold seNum; split <;> omega
  unfold rdSe
  unfold seCode at *
  rw [mVlc_ueCode m p _ (by omega) hb hl]
  simp only
  rw [ue_value _ (by omega), ueCode_length, seNum_inv]

end Davs2

namespace Davs2
open Spec

/-! ## Memory holding a given bit string -/

/-- A byte from its bits, most significant first. -/
def mkByte (b7 b6 b5 b4 b3 b2 b1 b0 : Bool) : Byte :=
  BitVec.ofNat 8 (128 * b7.toNat + 64 * b6.toNat + 32 * b5.toNat + 16 * b4.toNat + 8 * b3.toNat +
    4 * b2.toNat + 2 * b1.toNat + b0.toNat)

theorem mkByte_bits : ∀ b7 b6 b5 b4 b3 b2 b1 b0 : Bool,
    bitsOfByte (mkByte b7 b6 b5 b4 b3 b2 b1 b0) = [b7, b6, b5, b4, b3, b2, b1, b0] := by
  decide

/-- Memory that starts with the given bits, padded with zeros to whole bytes and `extra` bytes. -/
def memOfBits (l : List Bool) (extra : Nat := 0) : Mem where
  byte i := mkByte (l.getD (8 * i) false) (l.getD (8 * i + 1) false) (l.getD (8 * i + 2) false)
    (l.getD (8 * i + 3) false) (l.getD (8 * i + 4) false) (l.getD (8 * i + 5) false)
    (l.getD (8 * i + 6) false) (l.getD (8 * i + 7) false)
  len := (l.length + 7) / 8 + extra

theorem memOfBits_bit (l : List Bool) (e p : Nat) : (memOfBits l e).bit p = l.getD p false := by
  have h := mkByte_bits (l.getD (8 * (p / 8)) false) (l.getD (8 * (p / 8) + 1) false)
    (l.getD (8 * (p / 8) + 2) false) (l.getD (8 * (p / 8) + 3) false) (l.getD (8 * (p / 8) + 4) false)
    (l.getD (8 * (p / 8) + 5) false) (l.getD (8 * (p / 8) + 6) false) (l.getD (8 * (p / 8) + 7) false)
  simp only [bitsOfByte, List.cons.injEq, and_true] at h
  obtain ⟨h0, h1, h2, h3, h4, h5, h6, h7⟩ := h
  unfold Mem.bit bitAt memOfBits
  have : p % 8 = 0 ∨ p % 8 = 1 ∨ p % 8 = 2 ∨ p % 8 = 3 ∨ p % 8 = 4 ∨ p % 8 = 5 ∨ p % 8 = 6 ∨
      p % 8 = 7 := by omega
  rcases this with r | r | r | r | r | r | r | r <;> rw [r]
  · rw [h0]; congr 1; omega
  · rw [h1]; congr 1; omega
  · rw [h2]; congr 1; omega
  · rw [h3]; congr 1; omega
  · rw [h4]; congr 1; omega
  · rw [h5]; congr 1; omega
  · rw [h6]; congr 1; omega
  · rw [h7]; congr 1; omega

theorem memOfBits_bits (l : List Bool) (e : Nat) : memBits (memOfBits l e) 0 l.length = l := by
  apply List.ext_getElem?
  intro i
  rcases Nat.lt_or_ge i l.length with h | h
  · rw [memBits_getElem? _ _ _ _ h, memOfBits_bit, Nat.zero_add, List.getD_eq_getElem?_getD,
      List.getElem?_eq_getElem h]
    rfl
  · rw [List.getElem?_eq_none (by rw [memBits_length]; exact h), List.getElem?_eq_none h]

end Davs2
