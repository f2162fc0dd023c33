import Verif.Model.VecSao
import Verif.Lemmas.Vec
import Verif.Lemmas.Sao
import Mathlib.Tactic.IntervalCases
/-
The vector versions of sample adaptive offset, lane by lane and row by row.
-/
namespace Davs2.Vc
open Davs2.Sa (Plane loop loop_inv)
open Davs2.Spec (comparison saturate)

/-! ### Lanes -/

theorem u8_inj (a b : V) (j k : Nat) : a j = b k ↔ u8 a j = u8 b k := by
  unfold u8
  rw [Int.ofNat_inj, BitVec.toNat_inj]

theorem i8_range (v : V) (i : Nat) : -128 ≤ i8 v i ∧ i8 v i ≤ 127 := by rw [i8_u8]; omega

theorem u8_minu8 (a b : V) (j : Nat) : u8 (minu8 a b) j = min (u8 a j) (u8 b j) := by
  unfold minu8; rw [u8_ofB]; have := u8_range a j; have := u8_range b j; omega

theorem i8_cmpeq8 (a b : V) (j : Nat) : i8 (cmpeq8 a b) j = if u8 a j = u8 b j then -1 else 0 := by
  unfold cmpeq8
  rw [i8_ofB]
  by_cases h : u8 a j = u8 b j
  · rw [if_pos ((u8_inj a b j j).2 h), if_pos h]; omega
  · rw [if_neg (fun c => h ((u8_inj a b j j).1 c)), if_neg h]; omega

theorem i8_adds8 (a b : V) (j : Nat) : i8 (adds8 a b) j = sat8 (i8 a j + i8 b j) := by
  unfold adds8; rw [i8_ofB]; unfold sat8; omega

theorem i8_subs8 (a b : V) (j : Nat) : i8 (subs8 a b) j = sat8 (i8 a j - i8 b j) := by
  unfold subs8; rw [i8_ofB]; unfold sat8; omega

theorem i8_set1 {x : Int} (h : -128 ≤ x ∧ x ≤ 127) (j : Nat) : i8 (set1_8 x) j = x := by
  unfold set1_8; rw [i8_ofB]; omega

theorem cmpeq8_true {a b : V} {j : Nat} (h : a j = b j) : cmpeq8 a b j = BitVec.allOnes 8 :=
  (congrArg (BitVec.ofInt 8) (if_pos h)).trans rfl

theorem cmpeq8_false {a b : V} {j : Nat} (h : a j ≠ b j) : cmpeq8 a b j = 0#8 :=
  (congrArg (BitVec.ofInt 8) (if_neg h)).trans rfl

theorem i8_and_cmpeq (a b c : V) (j : Nat) : i8 (and (cmpeq8 a b) c) j = if u8 a j = u8 b j then i8 c j else 0 := by
  unfold i8 and
  by_cases h : u8 a j = u8 b j
  · rw [if_pos h, cmpeq8_true ((u8_inj a b j j).2 h), BitVec.allOnes_and]
  · rw [if_neg h, cmpeq8_false (fun e => h ((u8_inj a b j j).1 e)), BitVec.zero_and]; rfl

theorem i8_eoSign (s1 s0 : V) (j : Nat) : i8 (eoSign s1 s0) j = comparison (u8 s1 j) (u8 s0 j) := by
  unfold eoSign
  rw [i8_subs8, i8_cmpeq8, i8_cmpeq8, u8_minu8]
  unfold comparison
  rcases Int.lt_trichotomy (u8 s1 j) (u8 s0 j) with h | h | h
  · rw [if_pos (by omega), if_neg (by omega), if_pos h]; rfl
  · rw [if_pos (by omega), if_pos (by omega), if_neg (by omega), if_pos h]; rfl
  · rw [if_neg (by omega), if_pos (by omega), if_neg (by omega), if_neg (by omega)]; rfl

theorem comparison_range (a b : Int) : -1 ≤ comparison a b ∧ comparison a b ≤ 1 := by
  unfold comparison; split
  · omega
  · split <;> omega

theorem i8_eoType (s0 s1 s2 : V) (j : Nat) :
    i8 (eoType s0 s1 s2) j = comparison (u8 s1 j) (u8 s0 j) + comparison (u8 s1 j) (u8 s2 j) := by
  unfold eoType
  rw [i8_adds8, i8_eoSign, i8_eoSign]
  have := comparison_range (u8 s1 j) (u8 s0 j)
  have := comparison_range (u8 s1 j) (u8 s2 j)
  unfold sat8; omega

/-- The class of a sample. -/
def cls (s0 s1 s2 : V) (j : Nat) : Int := 2 + comparison (u8 s1 j) (u8 s0 j) + comparison (u8 s1 j) (u8 s2 j)

theorem cls_cases (s0 s1 s2 : V) (j : Nat) :
    cls s0 s1 s2 j = 0 ∨ cls s0 s1 s2 j = 1 ∨ cls s0 s1 s2 j = 2 ∨ cls s0 s1 s2 j = 3 ∨ cls s0 s1 s2 j = 4 := by
  unfold cls
  have := comparison_range (u8 s1 j) (u8 s0 j)
  have := comparison_range (u8 s1 j) (u8 s2 j)
  omega

/-- Offsets as the parameters have them fit a byte. -/
def Small (off : Int → Int) : Prop := ∀ e, -128 ≤ off e ∧ off e ≤ 127

theorem i8_eoOffs {off : Int → Int} (ho : Small off) (s0 s1 s2 : V) (j : Nat) :
    i8 (eoOffs off s0 s1 s2) j = off (cls s0 s1 s2 j) := by
  have sel : ∀ k e, -128 ≤ k ∧ k ≤ 127 → i8 (and (cmpeq8 (eoType s0 s1 s2) (set1_8 k)) (set1_8 (off e))) j =
      if cls s0 s1 s2 j = k + 2 then off e else 0 := by
    intro k e hk
    rw [i8_and_cmpeq, i8_set1 (ho e)]
    have e1 := i8_eoType s0 s1 s2 j
    have e2 := i8_set1 hk j
    rw [i8_u8] at e1 e2
    have r1 := u8_range (eoType s0 s1 s2) j
    have r2 := u8_range (set1_8 k) j
    unfold cls
    by_cases h : u8 (eoType s0 s1 s2) j = u8 (set1_8 k) j
    · rw [if_pos h, if_pos (by rw [h] at e1; omega)]
    · rw [if_neg h, if_neg (by omega)]
  unfold eoOffs
  dsimp only
  simp only [i8_adds8]
  rw [sel _ _ (by omega), sel _ _ (by omega), sel _ _ (by omega), sel _ _ (by omega), sel _ _ (by omega)]
  have h0 := ho 0
  have h1 := ho 1
  have h2 := ho 2
  have h3 := ho 3
  have h4 := ho 4
  rcases cls_cases s0 s1 s2 j with h | h | h | h | h <;> rw [h] <;> simp [sat8] <;> omega

theorem w16_cvti (a : V) (i : Nat) : w16 (cvtepi8_16 a) i = i8 a i :=
  (w16_ofW _ i).trans (wrap16_id (by have := i8_range a i; omega))

theorem w16_cvtu (a : V) (i : Nat) : w16 (cvtepu8_16 a) i = u8 a i :=
  (w16_ofW _ i).trans (wrap16_id (by have := u8_range a i; omega))

theorem u8_zero (i : Nat) : u8 zero i = 0 := rfl

theorem w16_lo0 (a : V) (i : Nat) : w16 (unpacklo8 a zero) i = u8 a i := by
  unfold w16 u16
  rw [(u8_unpacklo a _ i).1, (u8_unpacklo a _ i).2, u8_zero]
  have := u8_range a i
  unfold wrap16; omega

theorem w16_hi0 (a : V) (i : Nat) : w16 (unpackhi8 a zero) i = u8 a (8 + i) := by
  unfold w16 u16
  rw [(u8_unpackhi a _ i).1, (u8_unpackhi a _ i).2, u8_zero]
  have := u8_range a (8 + i)
  unfold wrap16; omega

theorem i8_srliB (a : V) (n j : Nat) (h : j + n < 16) : i8 (srliB a n) j = i8 a (j + n) := by
  unfold i8 srliB; rw [if_pos h]

theorem u8_addOffs (s o : V) (j : Nat) (hj : j < 16) : u8 (addOffs s o) j = satu8 (u8 s j + i8 o j) := by
  unfold addOffs
  rw [u8_packus16]
  by_cases h : j < 8
  · rw [if_pos h, w16_adds16, w16_cvti, w16_lo0]
    have := u8_range s j
    have := i8_range o j
    unfold satu8 sat16; omega
  · rw [if_neg h, w16_adds16, w16_cvti, w16_hi0, i8_srliB _ _ _ (by omega), show j - 8 + 8 = j by omega, show 8 + (j - 8) = j by omega]
    have := u8_range s j
    have := i8_range o j
    unfold satu8 sat16; omega

theorem u8_eoVec {off : Int → Int} (ho : Small off) (s0 s1 s2 : V) (j : Nat) (hj : j < 16) :
    u8 (eoVec off s0 s1 s2) j = satu8 (u8 s1 j + off (cls s0 s1 s2 j)) := by
  unfold eoVec; rw [u8_addOffs _ _ _ hj, i8_eoOffs ho]

/-! ### 256 bits -/

theorem i8_low (a : V) (j : Nat) (h : j < 16) : i8 (low128 a) j = i8 a j := by unfold i8 low128; rw [if_pos h]
theorem u8_low (a : V) (j : Nat) (h : j < 16) : u8 (low128 a) j = u8 a j := by unfold u8 low128; rw [if_pos h]
theorem i8_high (a : V) (j : Nat) (h : j < 16) : i8 (high128 a) j = i8 a (16 + j) := by unfold i8 high128; rw [if_pos h]
theorem u8_high (a : V) (j : Nat) (h : j < 16) : u8 (high128 a) j = u8 a (16 + j) := by unfold u8 high128; rw [if_pos h]

theorem u8_packus16y (a b : V) (j : Nat) : u8 (packus16y a b) j =
    if j % 16 < 8 then satu8 (w16 a (8 * (j / 16) + j % 16)) else satu8 (w16 b (8 * (j / 16) + (j % 16 - 8))) := by
  unfold packus16y
  rw [u8_ofB]
  split <;> unfold satu8 <;> omega

/-- Packing and putting the quarters in order: word `j` of `a` for the lower half, of `b` for the upper. -/
theorem u8_pack_permute (a b : V) (j : Nat) (hj : j < 32) :
    u8 (permute4x64_d8 (packus16y a b)) j = if j < 16 then satu8 (w16 a j) else satu8 (w16 b (j - 16)) := by
  have e : u8 (permute4x64_d8 (packus16y a b)) j =
      u8 (packus16y a b) (if j < 8 then j else if j < 16 then 8 + j else if j < 24 then j - 8 else j) := by
    unfold u8 permute4x64_d8
    congr 2
    split
    · rfl
    · split
      · rfl
      · split <;> rfl
  rw [e, u8_packus16y]
  by_cases h8 : j < 8
  · rw [if_pos h8, if_pos (by omega : j < 16), if_pos (by omega), show 8 * (j / 16) + j % 16 = j by omega]
  · rw [if_neg h8]
    by_cases h16 : j < 16
    · rw [if_pos h16, if_pos h16, if_pos (by omega), show 8 * ((8 + j) / 16) + (8 + j) % 16 = j by omega]
    · rw [if_neg h16, if_neg h16]
      by_cases h24 : j < 24
      · rw [if_pos h24, if_neg (by omega), show 8 * ((j - 8) / 16) + ((j - 8) % 16 - 8) = j - 16 by omega]
      · rw [if_neg h24, if_neg (by omega), show 8 * (j / 16) + (j % 16 - 8) = j - 16 by omega]

theorem u8_addOffs32 (s o : V) (j : Nat) (hj : j < 32) : u8 (addOffs32 s o) j = satu8 (u8 s j + i8 o j) := by
  unfold addOffs32
  rw [u8_pack_permute _ _ _ hj]
  have := u8_range s j
  have := i8_range o j
  by_cases h : j < 16
  · rw [if_pos h, w16_adds16, w16_cvti, w16_cvtu, i8_low _ _ h, u8_low _ _ h]
    unfold satu8 sat16; omega
  · rw [if_neg h, w16_adds16, w16_cvti, w16_cvtu, i8_high _ _ (by omega), u8_high _ _ (by omega), show 16 + (j - 16) = j by omega]
    unfold satu8 sat16; omega

theorem i8_offTable {off : Int → Int} (ho : Small off) (j k : Nat) (hj : j % 16 = k) (hk : k < 5) : i8 (offTable off) j = off k := by
  have e : i8 (offTable off) j = i8 (packs16 (packs32 (load32 fun i => off i) (set32 0 0 0 (off 4))) zero) k := by
    unfold i8 offTable both128; rw [hj]
  rw [e, i8_packs16, if_pos (by omega), w16_packs32]
  have h := ho k
  by_cases h4 : k < 4
  · rw [if_pos h4]
    unfold load32
    rw [d32_ofD, wrap32_id (by omega)]
    unfold sat8 sat16; omega
  · have : k = 4 := by omega
    subst this
    rw [if_neg h4]
    unfold set32
    rw [d32_ofD, if_pos rfl]
    have h := ho 4
    rw [wrap32_id (by omega)]
    unfold sat8 sat16
    show _ = off 4
    omega

theorem i8_eoOffs32 {off : Int → Int} (ho : Small off) (s0 s1 s2 : V) (j : Nat) :
    i8 (eoOffs32 off s0 s1 s2) j = off (cls s0 s1 s2 j) := by
  have hc : i8 (adds8 (eoType s0 s1 s2) (set1_8 2)) j = cls s0 s1 s2 j := by
    rw [i8_adds8, i8_eoType, i8_set1 (by omega)]
    have := comparison_range (u8 s1 j) (u8 s0 j)
    have := comparison_range (u8 s1 j) (u8 s2 j)
    unfold sat8 cls; omega
  obtain ⟨k, hk, ek⟩ : ∃ k : Nat, k < 5 ∧ cls s0 s1 s2 j = k := by
    rcases cls_cases s0 s1 s2 j with h | h | h | h | h
    exacts [⟨0, by omega, h⟩, ⟨1, by omega, h⟩, ⟨2, by omega, h⟩, ⟨3, by omega, h⟩, ⟨4, by omega, h⟩]
  have hm : adds8 (eoType s0 s1 s2) (set1_8 2) j = BitVec.ofNat 8 k := by
    apply BitVec.eq_of_toInt_eq
    have : (BitVec.ofNat 8 k).toInt = k := by interval_cases k <;> rfl
    rw [this, ← ek, ← hc]; rfl
  have e : i8 (eoOffs32 off s0 s1 s2) j = i8 (offTable off) (16 * (j / 16) + k) := by
    unfold i8 eoOffs32 shuffle8y
    rw [hm]
    interval_cases k <;> rfl
  rw [e, ek, i8_offTable ho _ k (by omega) hk]

theorem u8_eoVec32 {off : Int → Int} (ho : Small off) (s0 s1 s2 : V) (j : Nat) (hj : j < 32) :
    u8 (eoVec32 off s0 s1 s2) j = satu8 (u8 s1 j + off (cls s0 s1 s2 j)) := by
  unfold eoVec32; rw [u8_addOffs32 _ _ _ hj, i8_eoOffs32 ho]

/-! ### Bands -/

/-- Byte `j` of the shifted words, cut to five bits, is the byte shifted: the bits that come in from the other byte are cut off. -/
theorem u8_and31 (f : Nat → Int) (s : V) (j : Nat) (hf : ∀ i, f i % 8192 = u16 s i / 8 % 8192) :
    u8 (and (ofW f) (set1_8 31)) j = u8 s j / 8 := by
  have mask : ∀ a : BitVec 8, (a &&& BitVec.ofInt 8 31).toNat = a.toNat % 32 := by decide +kernel
  have e : u8 (and (ofW f) (set1_8 31)) j = u8 (ofW f) j % 32 := by
    unfold u8 and set1_8 ofB
    rw [mask]; omega
  rw [e]
  unfold ofW
  rw [u8_ofB]
  have h := hf (j / 2)
  unfold u16 at h
  have r := u8_range s j
  have r0 := u8_range s (2 * (j / 2))
  have r1 := u8_range s (2 * (j / 2) + 1)
  by_cases hj : j % 2 = 0
  · rw [if_pos hj]
    rw [show 2 * (j / 2) = j by omega] at h r0
    generalize u8 s (j + 1) = u at *
    generalize u8 s j = t at *
    generalize f (j / 2) = g at *
    omega
  · rw [if_neg hj]
    rw [show 2 * (j / 2) + 1 = j by omega] at h r1
    generalize u8 s (2 * (j / 2)) = u at *
    generalize u8 s j = t at *
    generalize f (j / 2) = g at *
    omega

theorem u8_srai (s : V) (j : Nat) : u8 (and (srai16 s 3) (set1_8 31)) j = u8 s j / 8 := by
  refine u8_and31 _ s j fun i => ?_
  show w16 s i / 2 ^ 3 % 8192 = _
  have := u16_range s i
  unfold w16 wrap16; omega

theorem u8_srli (s : V) (j : Nat) : u8 (and (srli16 s 3) (set1_8 31)) j = u8 s j / 8 := by
  refine u8_and31 _ s j fun i => ?_
  show u16 s i / 2 ^ 3 % 8192 = _
  omega

theorem or_self_zero (p q : Prop) [Decidable p] [Decidable q] (x : BitVec 8) :
    (if p then x else 0) ||| (if q then x else 0) = if p ∨ q then x else 0 := by
  by_cases hp : p <;> by_cases hq : q <;> simp [hp, hq]

/-- The four bands have the offsets of the table; where two of the registers name the same band they hold the same offset. -/
theorem i8_boOffs {off : Int → Int} (ho : Small off) {b1 b2 : Int} (h1 : 0 ≤ b1 ∧ b1 < 32) (h2 : 0 ≤ b2 ∧ b2 < 32)
    (hz : ∀ e, 0 ≤ e → e < 32 → e ≠ b1 → e ≠ (b1 + 1) % 32 → e ≠ b2 → e ≠ (b2 + 1) % 32 → off e = 0)
    (v : V) (j : Nat) (hv : u8 v j < 32) : i8 (boOffs off b1 b2 v) j = off (u8 v j) := by
  have r := u8_range v j
  generalize ex : BitVec.ofInt 8 (off (u8 v j)) = x
  have hx : x.toInt = off (u8 v j) := by
    have := i8_set1 (ho (u8 v j)) j
    rw [← ex]; exact this
  have sel : ∀ b, 0 ≤ b ∧ b < 32 → and (cmpeq8 v (set1_8 b)) (set1_8 (off b)) j = if u8 v j = b then x else 0 := by
    intro b hb
    unfold and
    have e : v j = set1_8 b j ↔ u8 v j = b := by
      rw [u8_inj]
      have : u8 (set1_8 b) j = b := by unfold set1_8; rw [u8_ofB]; omega
      rw [this]
    by_cases h : u8 v j = b
    · rw [cmpeq8_true (e.2 h), BitVec.allOnes_and, if_pos h, ← ex, h]; rfl
    · rw [cmpeq8_false (fun c => h (e.1 c)), BitVec.zero_and, if_neg h]; rfl
  have key : boOffs off b1 b2 v j = if ((u8 v j = b1 ∨ u8 v j = (b1 + 1) % 32) ∨ (u8 v j = b2 ∨ u8 v j = (b2 + 1) % 32)) then x else 0 := by
    unfold boOffs
    dsimp only
    show ((and (cmpeq8 v (set1_8 b1)) (set1_8 (off b1)) j ||| and (cmpeq8 v (set1_8 ((b1 + 1) % 32))) (set1_8 (off ((b1 + 1) % 32))) j) |||
      (and (cmpeq8 v (set1_8 b2)) (set1_8 (off b2)) j ||| and (cmpeq8 v (set1_8 ((b2 + 1) % 32))) (set1_8 (off ((b2 + 1) % 32))) j)) = _
    rw [sel _ h1, sel _ h2, sel _ (by omega), sel _ (by omega), or_self_zero, or_self_zero, or_self_zero]
  unfold i8
  rw [key]
  by_cases h : (u8 v j = b1 ∨ u8 v j = (b1 + 1) % 32) ∨ (u8 v j = b2 ∨ u8 v j = (b2 + 1) % 32)
  · rw [if_pos h, hx]
  · rw [if_neg h, hz _ r.1 hv (fun c => h (Or.inl (Or.inl c))) (fun c => h (Or.inl (Or.inr c))) (fun c => h (Or.inr (Or.inl c)))
      (fun c => h (Or.inr (Or.inr c)))]
    rfl

theorem u8_boVec {off : Int → Int} (ho : Small off) {b1 b2 : Int} (h1 : 0 ≤ b1 ∧ b1 < 32) (h2 : 0 ≤ b2 ∧ b2 < 32)
    (hz : ∀ e, 0 ≤ e → e < 32 → e ≠ b1 → e ≠ (b1 + 1) % 32 → e ≠ b2 → e ≠ (b2 + 1) % 32 → off e = 0)
    (s : V) (j : Nat) (hj : j < 16) : u8 (boVec off b1 b2 s) j = satu8 (u8 s j + off (u8 s j / 8)) := by
  unfold boVec
  have := u8_range s j
  rw [u8_addOffs _ _ _ hj, i8_boOffs ho h1 h2 hz _ _ (by rw [u8_srai]; omega), u8_srai]

theorem u8_boVec32 {off : Int → Int} (ho : Small off) {b1 b2 : Int} (h1 : 0 ≤ b1 ∧ b1 < 32) (h2 : 0 ≤ b2 ∧ b2 < 32)
    (hz : ∀ e, 0 ≤ e → e < 32 → e ≠ b1 → e ≠ (b1 + 1) % 32 → e ≠ b2 → e ≠ (b2 + 1) % 32 → off e = 0)
    (s : V) (j : Nat) (hj : j < 32) : u8 (boVec32 off b1 b2 s) j = satu8 (u8 s j + off (u8 s j / 8)) := by
  have ho' := i8_boOffs ho h1 h2 hz (and (srli16 s 3) (set1_8 31)) j (by rw [u8_srli]; have := u8_range s j; omega)
  rw [u8_srli] at ho'
  unfold boVec32
  dsimp only
  generalize boOffs off b1 b2 (and (srli16 s 3) (set1_8 31)) = o at *
  rw [u8_pack_permute _ _ _ hj, ← ho']
  have := u8_range s j
  have := i8_range o j
  by_cases h : j < 16
  · rw [if_pos h, w16_add16, w16_cvti, w16_cvtu, i8_low _ _ h, u8_low _ _ h]
    rw [wrap16_id (by omega), Int.add_comm]
  · rw [if_neg h, w16_add16, w16_cvti, w16_cvtu, i8_high _ _ (by omega), u8_high _ _ (by omega), show 16 + (j - 16) = j by omega]
    rw [wrap16_id (by omega), Int.add_comm]

/-! ### Rows -/

/-- In row `y` the columns `a … x-1` are `W`, everything else is as in `d0`. -/
def RowTo (W : Int → Int → Int) (d0 : Plane) (y a x : Int) (d : Plane) : Prop :=
  ∀ x' y', d x' y' = if y' = y ∧ a ≤ x' ∧ x' < x then W x' y' else d0 x' y'

section
variable {W : Int → Int → Int} {d0 d : Plane} {y a x b : Int}

theorem RowTo.start (W : Int → Int → Int) (d0 : Plane) (y a : Int) : RowTo W d0 y a a d0 := by
  intro x' y'; rw [if_neg (by omega)]

/-- Writing `n` further columns. -/
theorem RowTo.extend {d' : Plane} {n : Int} (hd : RowTo W d0 y a x d) (hx : a ≤ x) (h0 : 0 ≤ n)
    (hn : ∀ x' y', d' x' y' = if y' = y ∧ x ≤ x' ∧ x' < x + n then W x' y' else d x' y') : RowTo W d0 y a (x + n) d' := by
  intro x' y'
  rw [hn x' y']
  by_cases h : y' = y ∧ x ≤ x' ∧ x' < x + n
  · rw [if_pos h, if_pos (by omega)]
  · rw [if_neg h, hd x' y']
    by_cases h2 : y' = y ∧ a ≤ x' ∧ x' < x
    · rw [if_pos h2, if_pos (by omega)]
    · rw [if_neg h2, if_neg (by omega)]

theorem store_to {v : V} (hv : ∀ j : Nat, j < 16 → u8 v j = W (x + j) y) (x' y' : Int) :
    store d x y v x' y' = if y' = y ∧ x ≤ x' ∧ x' < x + 16 then W x' y' else d x' y' := by
  unfold store
  by_cases h : y' = y ∧ x ≤ x' ∧ x' < x + 16
  · rw [if_pos h, if_pos h, hv _ (by omega), h.1]; congr 1; omega
  · rw [if_neg h, if_neg h]

theorem store32_to {v : V} (hv : ∀ j : Nat, j < 32 → u8 v j = W (x + j) y) (x' y' : Int) :
    store32 d x y v x' y' = if y' = y ∧ x ≤ x' ∧ x' < x + 32 then W x' y' else d x' y' := by
  unfold store32
  by_cases h : y' = y ∧ x ≤ x' ∧ x' < x + 32
  · rw [if_pos h, if_pos h, hv _ (by omega), h.1]; congr 1; omega
  · rw [if_neg h, if_neg h]

/-- A masked store with a row of the table. -/
theorem storeMask_to {v : V} {k : Int} (hv : ∀ j : Nat, j < 16 → u8 v j = W (x + j) y) (hk : 0 ≤ k ∧ k < 15) (x' y' : Int) :
    storeMask d x y v k x' y' = if y' = y ∧ x ≤ x' ∧ x' < x + (k + 1) then W x' y' else d x' y' := by
  obtain ⟨m, em⟩ : ∃ m, maskRow k = some m := by unfold maskRow; rw [if_pos hk]; exact ⟨_, rfl⟩
  unfold storeMask
  rw [em]
  show maskmove d x y v m x' y' = _
  unfold maskmove
  by_cases h : y' = y ∧ x ≤ x' ∧ x' < x + (k + 1)
  · rw [if_pos h, if_pos ⟨h.1, h.2.1, by omega, (maskRow_msb em _).2 (by omega)⟩, hv _ (by omega), h.1]; congr 1; omega
  · rw [if_neg h, if_neg]
    rintro ⟨h1, h2, h3, h4⟩
    have := (maskRow_msb em _).1 h4
    omega

variable {vec : Int → V}

theorem row16_to (hv : ∀ x (j : Nat), j < 16 → u8 (vec x) j = W (x + j) y) (a b : Int) (d0 : Plane) :
    RowTo W d0 y a (max a b) (row16 vec a b y d0) := by
  unfold row16
  dsimp only
  by_cases hab : b ≤ a
  · rw [show max a b = a by omega]
    have : loop 0 ((b - a + 15) / 16) (fun i st => step16 (fun x => x ≠ b - (b - a) % 16) (b - (b - (b - a) % 16) - 1) vec y (a + 16 * i) st)
        (d0, true) = (d0, true) := by
      unfold loop
      rw [show ((b - a + 15) / 16 - 0).toNat = 0 by omega]; rfl
    rw [this]
    exact RowTo.start W d0 y a
  have key := loop_inv (a := 0) (b := (b - a + 15) / 16)
    (f := fun i st => step16 (fun x => x ≠ b - (b - a) % 16) (b - (b - (b - a) % 16) - 1) vec y (a + 16 * i) st) (s := (d0, true))
    (P := fun i (st : Plane × Bool) => (a + 16 * i ≤ b ∧ st.2 = true ∧ RowTo W d0 y a (a + 16 * i) st.1) ∨
      (st.2 = false ∧ RowTo W d0 y a b st.1))
    (Or.inl ⟨by omega, rfl, by rw [show a + 16 * 0 = a by omega]; exact RowTo.start W d0 y a⟩) (by
      intro i st h0 h1 hor
      unfold step16
      rcases hor with ⟨hl, hb, hd⟩ | ⟨hb, hd⟩
      · rw [if_neg (by rw [hb]; decide)]
        by_cases hx : a + 16 * i ≠ b - (b - a) % 16
        · rw [if_pos hx]
          refine Or.inl ⟨by omega, rfl, ?_⟩
          rw [show a + 16 * (i + 1) = a + 16 * i + 16 by omega]
          exact hd.extend (by omega) (by omega) (store_to (hv _))
        · rw [if_neg hx]
          refine Or.inr ⟨rfl, ?_⟩
          have := hd.extend (by omega) (n := b - (b - (b - a) % 16) - 1 + 1) (by omega)
            (storeMask_to (d := st.1) (k := b - (b - (b - a) % 16) - 1) (hv (a + 16 * i)) (by omega))
          rwa [show a + 16 * i + (b - (b - (b - a) % 16) - 1 + 1) = b by omega] at this
      · rw [if_pos hb]
        exact Or.inr ⟨hb, hd⟩)
  rw [show max a b = b by omega]
  rcases key with ⟨hl, -, hd⟩ | ⟨-, hd⟩
  · rwa [show a + 16 * max 0 ((b - a + 15) / 16) = b by omega] at hd
  · exact hd

theorem row16w_to (hv : ∀ x (j : Nat), j < 16 → u8 (vec x) j = W (x + j) y) (w : Int) (d0 : Plane) :
    RowTo W d0 y 0 (max 0 w) (row16w vec w y d0) := by
  unfold row16w
  by_cases hw : w ≤ 0
  · rw [show max 0 w = 0 by omega]
    have : loop 0 ((w + 15) / 16) (fun i st => step16 (fun x => x < w - 15) (w % 16 - 1) vec y (16 * i) st) (d0, true) = (d0, true) := by
      unfold loop
      rw [show ((w + 15) / 16 - 0).toNat = 0 by omega]; rfl
    rw [this]
    exact RowTo.start W d0 y 0
  have key := loop_inv (a := 0) (b := (w + 15) / 16)
    (f := fun i st => step16 (fun x => x < w - 15) (w % 16 - 1) vec y (16 * i) st) (s := (d0, true))
    (P := fun i (st : Plane × Bool) => (16 * i ≤ w ∧ st.2 = true ∧ RowTo W d0 y 0 (16 * i) st.1) ∨
      (st.2 = false ∧ RowTo W d0 y 0 w st.1))
    (Or.inl ⟨by omega, rfl, by rw [show (16 : Int) * 0 = 0 by omega]; exact RowTo.start W d0 y 0⟩) (by
      intro i st h0 h1 hor
      unfold step16
      rcases hor with ⟨hl, hb, hd⟩ | ⟨hb, hd⟩
      · rw [if_neg (by rw [hb]; decide)]
        by_cases hx : 16 * i < w - 15
        · rw [if_pos hx]
          refine Or.inl ⟨by omega, rfl, ?_⟩
          rw [show 16 * (i + 1) = 16 * i + 16 by omega]
          exact hd.extend (by omega) (by omega) (store_to (hv _))
        · rw [if_neg hx]
          refine Or.inr ⟨rfl, ?_⟩
          have := hd.extend (by omega) (n := w % 16 - 1 + 1) (by omega)
            (storeMask_to (d := st.1) (k := w % 16 - 1) (hv (16 * i)) (by omega))
          rwa [show 16 * i + (w % 16 - 1 + 1) = w by omega] at this
      · rw [if_pos hb]
        exact Or.inr ⟨hb, hd⟩)
  rw [show max 0 w = w by omega]
  rcases key with ⟨hl, -, hd⟩ | ⟨-, hd⟩
  · rwa [show 16 * max 0 ((w + 15) / 16) = w by omega] at hd
  · exact hd

theorem row32_to (hv : ∀ x (j : Nat), j < 32 → u8 (vec x) j = W (x + j) y) (a b : Int) (d0 : Plane) :
    RowTo W d0 y a (max a b) (row32 vec a b y d0) := by
  have hlo : ∀ x (j : Nat), j < 16 → u8 (low128 (vec x)) j = W (x + j) y := fun x j h => by
    rw [u8_low _ _ h, hv x j (by omega)]
  have hhi : ∀ x (j : Nat), j < 16 → u8 (high128 (vec x)) j = W (x + 16 + j) y := fun x j h => by
    rw [u8_high _ _ h, hv x (16 + j) (by omega)]; congr 1; omega
  unfold row32
  dsimp only
  by_cases hab : b ≤ a
  · rw [show max a b = a by omega]
    have : loop 0 ((b - a + 31) / 32) (fun i st => step32 b (b - (b - a) % 32) vec y (a + 32 * i) st)
        (d0, true) = (d0, true) := by
      unfold loop
      rw [show ((b - a + 31) / 32 - 0).toNat = 0 by omega]; rfl
    rw [this]
    exact RowTo.start W d0 y a
  have key := loop_inv (a := 0) (b := (b - a + 31) / 32)
    (f := fun i st => step32 b (b - (b - a) % 32) vec y (a + 32 * i) st) (s := (d0, true))
    (P := fun i (st : Plane × Bool) => (a + 32 * i ≤ b ∧ st.2 = true ∧ RowTo W d0 y a (a + 32 * i) st.1) ∨
      (st.2 = false ∧ RowTo W d0 y a b st.1))
    (Or.inl ⟨by omega, rfl, by rw [show a + 32 * 0 = a by omega]; exact RowTo.start W d0 y a⟩) (by
      intro i st h0 h1 hor
      unfold step32
      rcases hor with ⟨hl, hb, hd⟩ | ⟨hb, hd⟩
      · rw [if_neg (by rw [hb]; decide)]
        by_cases hx : a + 32 * i ≠ b - (b - a) % 32
        · rw [if_pos hx]
          refine Or.inl ⟨by omega, rfl, ?_⟩
          rw [show a + 32 * (i + 1) = a + 32 * i + 32 by omega]
          exact hd.extend (by omega) (by omega) (store32_to (hv _))
        · rw [if_neg hx]
          by_cases h16 : b - (a + 32 * i) ≥ 16
          · rw [if_pos h16]
            have hs := hd.extend (by omega) (by omega) (store_to (d := st.1) (hlo (a + 32 * i)))
            dsimp only
            refine Or.inr ⟨rfl, ?_⟩
            by_cases h17 : b - (a + 32 * i) > 16
            · rw [if_pos h17]
              have := hs.extend (by omega) (n := b - (b - (b - a) % 32) - 17 + 1) (by omega)
                (storeMask_to (d := store st.1 (a + 32 * i) y (low128 (vec (a + 32 * i)))) (k := b - (b - (b - a) % 32) - 17)
                  (hhi (a + 32 * i)) (by omega))
              rwa [show a + 32 * i + 16 + (b - (b - (b - a) % 32) - 17 + 1) = b by omega] at this
            · rw [if_neg h17]
              rwa [show a + 32 * i + 16 = b by omega] at hs
          · rw [if_neg h16]
            refine Or.inr ⟨rfl, ?_⟩
            have := hd.extend (by omega) (n := b - (b - (b - a) % 32) - 1 + 1) (by omega)
              (storeMask_to (d := st.1) (k := b - (b - (b - a) % 32) - 1) (hlo (a + 32 * i)) (by omega))
            rwa [show a + 32 * i + (b - (b - (b - a) % 32) - 1 + 1) = b by omega] at this
      · rw [if_pos hb]
        exact Or.inr ⟨hb, hd⟩)
  rw [show max a b = b by omega]
  rcases key with ⟨hl, -, hd⟩ | ⟨-, hd⟩
  · rwa [show a + 32 * max 0 ((b - a + 31) / 32) = b by omega] at hd
  · exact hd

end

end Davs2.Vc
