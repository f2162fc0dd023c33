import Verif.Model.UserData
import Verif.Spec.StartCode

/- C112: user data and other units in front of the first slice. -/
namespace Davs2
open Spec

/-- A slice begins at `k`: a start code whose value is at most 143. -/
def SliceAt (l : List Byte) (k : Nat) : Prop := ∃ c, StartAt l k c ∧ c.toNat ≤ 143

theorem isSliceCode_iff (c : Byte) : isSliceCode c = true ↔ c.toNat ≤ 143 := by
  unfold isSliceCode
  rw [decide_eq_true_iff, BitVec.le_def]
  rfl

/-- The offset is the first one with the property, or there is none. -/
def First (P : Nat → Prop) : Option Nat → Prop
  | some k => Least P k
  | none => ∀ k, ¬ P k

theorem sliceAt_succ (a : Byte) (l : List Byte) (k : Nat) : SliceAt (a :: l) (k + 1) ↔ SliceAt l k := by
  unfold SliceAt StartAt
  simp only [List.getElem?_cons_succ, show k + 1 + 1 = (k + 1) + 1 from rfl, show k + 1 + 2 = (k + 2) + 1 from rfl, show k + 1 + 3 = (k + 3) + 1 from rfl]

theorem first_shift {P Q : Nat → Prop} {n : Nat} {o : Option Nat} (h0 : ∀ j, j < n → ¬ P j) (hs : ∀ k, P (k + n) ↔ Q k) (h : First Q o) : First P (o.map (· + n)) := by
  cases o with
  | none =>
    intro k hk
    by_cases hn : k < n
    · exact h0 k hn hk
    · exact h (k - n) ((hs _).1 (by rwa [Nat.sub_add_cancel (Nat.le_of_not_lt hn)]))
  | some m =>
    refine ⟨(hs m).2 h.1, fun j hj hp => ?_⟩
    by_cases hn : j < n
    · exact h0 j hn hp
    · exact h.2 (j - n) (by simp only at hj; omega) ((hs _).1 (by rwa [Nat.sub_add_cancel (Nat.le_of_not_lt hn)]))

theorem not_slice_skip {x : Byte} (hx : 143 < x.toNat) (rest : List Byte) : ∀ j, j < 4 → ¬ SliceAt (0#8 :: 0#8 :: 1#8 :: x :: rest) j := by
  rintro j hj ⟨c, ⟨h0, h1, h2, h3⟩, hc⟩
  match j, hj with
  | 0, _ => simp at h3; subst h3; omega
  | 1, _ => simp at h1
  | 2, _ => simp at h0
  | 3, _ => simp at h0; subst h0; simp at hx

theorem short_slice {l : List Byte} (hl : l.length < 4) (k : Nat) : ¬ SliceAt l k := by
  rintro ⟨c, ⟨-, -, -, h3⟩, -⟩
  have := (List.getElem?_eq_some_iff.1 h3).1
  omega

theorem userScan_spec : ∀ (n : Nat) (l : List Byte), l.length = n → First (SliceAt l) (userScan l) := by
  intro n
  induction n using Nat.strongRecOn with
  | ind n ih =>
    intro l hl
    match l, hl with
    | [], _ => exact short_slice (by simp)
    | [_], _ => exact short_slice (by simp)
    | [_, _], _ => exact short_slice (by simp)
    | [_, _, _], _ => exact short_slice (by simp)
    | a :: b :: c :: x :: rest, hl =>
      rw [userScan]
      have s4 : ∀ k, SliceAt (a :: b :: c :: x :: rest) (k + 4) ↔ SliceAt rest k := fun k => by
        rw [show k + 4 = k + 1 + 1 + 1 + 1 from rfl, sliceAt_succ, sliceAt_succ, sliceAt_succ, sliceAt_succ]
      simp only [List.length_cons] at hl
      split
      · rename_i hp
        simp only [Bool.and_eq_true, beq_iff_eq] at hp
        obtain ⟨⟨rfl, rfl⟩, rfl⟩ := hp
        split
        · rename_i hx
          rw [beq_iff_eq] at hx
          exact first_shift (not_slice_skip (by rw [hx]; decide) rest) s4 (ih rest.length (by omega) rest rfl)
        · split
          · rename_i hx
            exact ⟨⟨x, ⟨rfl, rfl, rfl, rfl⟩, (isSliceCode_iff x).1 hx⟩, fun j hj => by omega⟩
          · rename_i hx
            rw [isSliceCode_iff] at hx
            exact first_shift (not_slice_skip (by omega) rest) s4 (ih rest.length (by omega) rest rfl)
      · rename_i hp
        refine first_shift (n := 1) ?_ (fun k => sliceAt_succ a _ k) (ih (b :: c :: x :: rest).length (by simp only [List.length_cons]; omega) _ rfl)
        rintro j hj ⟨d, ⟨h0, h1, h2, -⟩, -⟩
        obtain rfl : j = 0 := by omega
        simp at h0 h1 h2
        exact hp (by simp [h0, h1, h2])

/-- **C112.** For every payload and every position after the picture header: the decoder stands at the first slice that begins in the rest of the unit and reports that there is
one, or, if none begins there, reports that there is none and has not moved. -/
theorem C112_first_slice (bs : Bs) :
    (∃ k, Least (SliceAt (bs.buf.drop (bs.pos / 8))) k ∧ decodeUserData bs = ({ bs with pos := 8 * (bs.pos / 8 + k) }, true)) ∨
    ((∀ k, ¬ SliceAt (bs.buf.drop (bs.pos / 8)) k) ∧ decodeUserData bs = (bs, false)) := by
  have h := userScan_spec _ (bs.buf.drop (bs.pos / 8)) rfl
  cases e : userScan (bs.buf.drop (bs.pos / 8)) with
  | some k => rw [e] at h; exact .inl ⟨k, h, by simp only [decodeUserData, e]⟩
  | none => rw [e] at h; exact .inr ⟨h, by simp only [decodeUserData, e]⟩

/-- Inside the buffer: the four bytes of the start code it stands at are there. -/
theorem C112_inside (bs : Bs) {bs' : Bs} (e : decodeUserData bs = (bs', true)) : bs'.buf = bs.buf ∧ bs'.pos / 8 + 3 < bs.buf.length := by
  rcases C112_first_slice bs with ⟨k, hk, h⟩ | ⟨-, h⟩
  · rw [h] at e
    obtain ⟨c, ⟨-, -, -, h3⟩, -⟩ := hk.1
    have := (List.getElem?_eq_some_iff.1 h3).1
    rw [List.length_drop] at this
    cases e
    refine ⟨rfl, ?_⟩
    show 8 * (bs.pos / 8 + k) / 8 + 3 < bs.buf.length
    omega
  · rw [h] at e; cases e

/-- **C112, user data are transparent.** Whatever bytes `u` stand between header and slices (user data, extensions, filling), if no slice begins before their end, decoding goes on
with the same bytes as without them. -/
theorem C112_transparent (hd u sl : List Byte) (hs : SliceAt sl 0) (hu : ∀ j, j < u.length → ¬ SliceAt (u ++ sl) j) :
    ∃ a b, decodeUserData ⟨hd ++ (u ++ sl), 8 * hd.length⟩ = (a, true) ∧ decodeUserData ⟨hd ++ sl, 8 * hd.length⟩ = (b, true) ∧
      a.buf.drop (a.pos / 8) = sl ∧ b.buf.drop (b.pos / 8) = sl := by
  have shift : ∀ (u : List Byte) k, SliceAt (u ++ sl) (k + u.length) ↔ SliceAt sl k := by
    intro u
    induction u with
    | nil => intro k; rfl
    | cons x u ih => intro k; rw [List.cons_append, List.length_cons, ← Nat.add_assoc, sliceAt_succ]; exact ih k
  have one : ∀ u : List Byte, (∀ j, j < u.length → ¬ SliceAt (u ++ sl) j) → ∃ a, decodeUserData ⟨hd ++ (u ++ sl), 8 * hd.length⟩ = (a, true) ∧ a.buf.drop (a.pos / 8) = sl := by
    intro u hu
    have hdrop : (hd ++ (u ++ sl)).drop (8 * hd.length / 8) = u ++ sl := by
      rw [Nat.mul_div_cancel_left _ (by decide), List.drop_left]
    have hat : SliceAt (u ++ sl) u.length := by simpa using (shift u 0).2 hs
    rcases C112_first_slice ⟨hd ++ (u ++ sl), 8 * hd.length⟩ with ⟨k, hk, h⟩ | ⟨hn, -⟩
    · simp only [hdrop] at hk
      have hku : k = u.length := by
        rcases Nat.lt_trichotomy k u.length with hlt | heq | hgt
        · exact absurd hk.1 (hu k hlt)
        · exact heq
        · exact absurd hat (hk.2 _ hgt)
      refine ⟨_, h, ?_⟩
      show (hd ++ (u ++ sl)).drop (8 * (8 * hd.length / 8 + k) / 8) = sl
      rw [Nat.mul_div_cancel_left _ (by decide), Nat.mul_div_cancel_left _ (by decide), hku, ← List.append_assoc, ← List.length_append, List.drop_left]
    · exact absurd hat (by simp only [hdrop] at hn; exact hn _)
  obtain ⟨a, ea, da⟩ := one u hu
  obtain ⟨b, eb, db⟩ := one [] (fun j hj => absurd hj (by simp))
  exact ⟨a, b, ea, eb, da, db⟩

/-- Header of two bytes, user data `00 00 01 B2 07`, an extension, a slice. -/
example : decodeUserData ⟨[0xAA#8, 0x80#8, 0, 0, 1, 0xB2#8, 7, 0, 0, 1, 0xB5#8, 0, 0, 1, 0x00#8, 0x55#8], 12⟩ =
    (⟨[0xAA#8, 0x80#8, 0, 0, 1, 0xB2#8, 7, 0, 0, 1, 0xB5#8, 0, 0, 1, 0x00#8, 0x55#8], 88⟩, true) := by decide
example : (decodeUserData ⟨[0xAA#8, 0x80#8, 0, 0, 1, 0xB2#8, 7], 12⟩).2 = false := by decide
example : SliceAt [0, 0, 1, 0x05#8, 9] 0 ∧ ∀ j, j < [0, 0, 1, 0xB2#8, 7].length → ¬ SliceAt ([0, 0, 1, 0xB2#8, 7] ++ [0, 0, 1, 0x05#8, 9]) j := by
  refine ⟨⟨5, ⟨rfl, rfl, rfl, rfl⟩, by decide⟩, ?_⟩
  rintro j hj ⟨c, ⟨h0, h1, h2, h3⟩, hc⟩
  match j, hj with
  | 0, _ => simp at h3; subst h3; simp at hc
  | 1, _ => simp at h1
  | 2, _ => simp at h0
  | 3, _ => simp at h0
  | 4, _ => simp at h0

end Davs2
