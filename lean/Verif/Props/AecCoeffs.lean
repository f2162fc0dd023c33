import Verif.Lemmas.AecCoeffs
import Verif.Lemmas.AecMachine
/-
C33: the coefficients of a transform block stay inside the block.
-/
namespace Davs2.Sx

/-- Types of coding units and transform splits that the decoder produces at a level (C50). -/
def UnitOk (type level trans : Nat) : Prop :=
  (∃ sdip split s, Un.intraType sdip level split s = (type, some trans)) ∨
  (type < 8 ∧ ∃ flag nsqt, Un.tuSplit flag nsqt type level = some trans)

instance (type level trans : Nat) : Decidable (UnitOk type level trans) := by
  unfold UnitOk
  infer_instance

/-- The luma blocks in use, with one intra mode of each scan class. -/
def lumaBlks : List Blk :=
  [3, 4, 5, 6].flatMap fun level => [0, 1, 2, 3].flatMap fun trans => [1, 8, 10].flatMap fun type =>
    [0, 3, 8].filterMap fun mode =>
      if (type = 1 ∨ (type = 8 ∧ (trans = 0 ∨ trans = 3)) ∨ (type = 10 ∧ (trans = 1 ∨ trans = 2))) ∧
        (level = 3 → trans = 0 ∨ trans = 3) then lumaBlk type level trans 0 mode else none

theorem lumaBlks_good : ∀ b ∈ lumaBlks, Good b := by decide +kernel

/-- The block is one of the list and has the size of its coefficient unit. -/
def lumaOk (type level trans b8 mode : Nat) : Bool :=
  (lumaBlk type level trans b8 mode).any fun b => decide (b ∈ lumaBlks) &&
    ((Un.coeffUnits trans level)[b8]?.any fun c => b.w == c.w && b.h == c.h)

/-- All modes and blocks of a unit. -/
def lumaAll (type level trans : Nat) : Prop :=
  ∀ b8 < (Un.coeffUnits trans level).length, ∀ mode < 33, lumaOk type level trans b8 mode = true

instance (type level trans : Nat) : Decidable (lumaAll type level trans) := by
  unfold lumaAll
  infer_instance

theorem lumaBlk_mem : ∀ k < 4, ∀ trans < 4, ∀ type < 12, UnitOk type (3 + k) trans → lumaAll type (3 + k) trans := by
  decide +kernel

theorem chroma_good : ∀ k < 4, ∀ trans < 4, (chromaBlk (3 + k) trans).any (fun b => decide (Good b) &&
    (b.w == 2 ^ (2 + k) && b.h == 2 ^ (2 + k))) = true := by decide +kernel

theorem UnitOk.lt {type level trans : Nat} (h : UnitOk type level trans) : type < 12 ∧ trans < 4 := by
  have key : ∀ nsqt flag : Bool, ∀ t < 12, ∀ r, Un.tuSplit flag nsqt t level = some r → r < 4 := by
    intro nsqt flag t ht r hr
    unfold Un.tuSplit at hr
    split at hr
    · split at hr
      · have : ∀ t < 12, ∀ r, (([(some 3, some 3), (some 3, some 3), (some 3, some 1), (some 3, some 2),
          (some 3, some 1), (some 3, some 1), (some 3, some 2), (some 3, some 2), (some 0, none), (some 3, some 3),
          (none, some 1), (none, some 2)] : List (Option Nat × Option Nat)).getD t (none, none)).2 = some r → r < 4 := by
          decide
        exact this t ht r hr
      · have : ∀ t < 12, ∀ r, (([(some 3, some 3), (some 3, some 3), (some 3, some 1), (some 3, some 2),
          (some 3, some 1), (some 3, some 1), (some 3, some 2), (some 3, some 2), (some 0, none), (some 3, some 3),
          (none, some 1), (none, some 2)] : List (Option Nat × Option Nat)).getD t (none, none)).1 = some r → r < 4 := by
          decide
        exact this t ht r hr
    · cases hr; omega
  rcases h with ⟨sdip, split, s, h⟩ | ⟨h8, flag, nsqt, h⟩
  · unfold Un.intraType at h
    simp only [Prod.mk.injEq] at h
    obtain ⟨h1, h2⟩ := h
    have ht : type < 12 := by
      rw [← h1]
      split
      · omega
      · split
        · split <;> omega
        · omega
    exact ⟨ht, key _ _ _ (by rw [h1]; exact ht) _ h2⟩
  · exact ⟨by omega, key _ _ _ (by omega) _ h⟩

/-- **C33 (luma).**  For every payload, every coding unit the decoder can announce and every luma block of it:
the block read has the size of the coefficient unit (C50), decoding it uses no context or table entry out of
range, every coefficient lies inside the block, no position is written twice, and the area announced to
the inverse transform covers all coefficients.  Only an integer that is not representable (`C33_violated`)
or a fault of the arithmetic decoder can intervene. -/
theorem C33_luma_partial {σ : Type} (m : Machine σ) (hm : m.Ok) (type level trans b8 mode : Nat) (deq : Int → Int)
    (h3 : 3 ≤ level) (h6 : level ≤ 6) (hu : UnitOk type level trans)
    (hb : b8 < (Un.coeffUnits trans level).length) (hmode : mode < 33) :
    ∃ blk c, lumaBlk type level trans b8 mode = some blk ∧ (Un.coeffUnits trans level)[b8]? = some c ∧
      blk.w = c.w ∧ blk.h = c.h ∧ Within RdAr (blockCoeffs m blk deq) (GoodCoeffs c.w c.h) := by
  obtain ⟨k, rfl⟩ := Nat.exists_eq_add_of_le h3
  have hlt := hu.lt
  have h := lumaBlk_mem k (by omega) trans hlt.2 type hlt.1 hu b8 hb mode hmode
  unfold lumaOk at h
  rw [Option.any_eq_true] at h
  obtain ⟨blk, e, h⟩ := h
  rw [Bool.and_eq_true, decide_eq_true_eq, Option.any_eq_true] at h
  obtain ⟨hmem, c, ec, hc⟩ := h
  rw [Bool.and_eq_true, beq_iff_eq, beq_iff_eq] at hc
  refine ⟨blk, c, e, ec, hc.1, hc.2, ?_⟩
  rw [← hc.1, ← hc.2]
  exact within_block (Or.inl rfl) (Or.inr rfl) hm blk (lumaBlks_good blk hmem) deq

/-- **C33 (chroma).** -/
theorem C33_chroma_partial {σ : Type} (m : Machine σ) (hm : m.Ok) (level trans : Nat) (deq : Int → Int)
    (h3 : 3 ≤ level) (h6 : level ≤ 6) (ht : trans < 4) :
    ∃ blk, chromaBlk level trans = some blk ∧
      Within RdAr (blockCoeffs m blk deq) (GoodCoeffs (2 ^ (level - 1)) (2 ^ (level - 1))) := by
  obtain ⟨k, rfl⟩ := Nat.exists_eq_add_of_le h3
  have h := chroma_good k (by omega) trans ht
  rw [Option.any_eq_true] at h
  obtain ⟨blk, e, h⟩ := h
  rw [Bool.and_eq_true, Bool.and_eq_true, decide_eq_true_eq, beq_iff_eq, beq_iff_eq] at h
  obtain ⟨g, hw, hh⟩ := h
  refine ⟨blk, e, ?_⟩
  have : 3 + k - 1 = 2 + k := by omega
  rw [this]
  nth_rewrite 1 [← hw]
  rw [← hh]
  exact within_block (Or.inl rfl) (Or.inr rfl) hm blk g deq

/-- **C33 (addresses).**  In the coefficient buffer of the unit (C50) the addresses of a good block are pairwise
different and inside the range of the block. -/
theorem C33_addresses (w h : Nat) (start : Int) (c : Coeffs) (hc : GoodCoeffs w h c) :
    (∀ k ∈ c.writes, start ≤ start + w * k.y + k.x ∧ start + w * k.y + k.x < start + w * h) ∧
    (c.writes.map fun k => start + w * k.y + k.x).Nodup := by
  obtain ⟨hin, hnd, _⟩ := hc
  have hb : ∀ k ∈ c.writes, 0 ≤ (w : Int) * k.y ∧ (w : Int) * k.y + w ≤ w * h := by
    intro k hk
    obtain ⟨_, _, h1, h2⟩ := hin k hk
    refine ⟨Int.mul_nonneg (by omega) h1, ?_⟩
    have : (w : Int) * (k.y + 1) ≤ w * h := Int.mul_le_mul_of_nonneg_left (by omega) (by omega)
    rw [Int.mul_add, Int.mul_one] at this
    exact this
  refine ⟨fun k hk => ?_, ?_⟩
  · obtain ⟨h1, h2⟩ := hb k hk
    obtain ⟨h3, h4, _⟩ := hin k hk
    omega
  · have hnd' := List.pairwise_map.1 hnd
    refine List.pairwise_map.2 (hnd'.imp_of_mem fun {a b} ha hb' hne e => hne ?_)
    obtain ⟨a1, a2, a3, a4⟩ := hin a ha
    obtain ⟨b1, b2, b3, b4⟩ := hin b hb'
    have hy : a.y = b.y := by
      rcases Int.lt_trichotomy a.y b.y with hlt | heq | hlt
      · have : (w : Int) * (a.y + 1) ≤ w * b.y := Int.mul_le_mul_of_nonneg_left (by omega) (by omega)
        rw [Int.mul_add, Int.mul_one] at this
        omega
      · exact heq
      · have : (w : Int) * (b.y + 1) ≤ w * a.y := Int.mul_le_mul_of_nonneg_left (by omega) (by omega)
        rw [Int.mul_add, Int.mul_one] at this
        omega
    rw [hy] at e ⊢
    rw [Prod.mk.injEq]
    exact ⟨by omega, rfl⟩

/-- **C33 on the decoder.**  The statements apply to the arithmetic decoder of the library. -/
theorem C33_decoder_partial (type level trans b8 mode : Nat) (deq : Int → Int)
    (h3 : 3 ≤ level) (h6 : level ≤ 6) (hu : UnitOk type level trans)
    (hb : b8 < (Un.coeffUnits trans level).length) (hmode : mode < 33) :
    ∃ blk c, lumaBlk type level trans b8 mode = some blk ∧ (Un.coeffUnits trans level)[b8]? = some c ∧
      Within RdAr (blockCoeffs aecMachine blk deq) (GoodCoeffs c.w c.h) := by
  obtain ⟨blk, c, h1, h2, _, _, h⟩ := C33_luma_partial aecMachine aecMachine_ok type level trans b8 mode deq h3 h6 hu
    hb hmode
  exact ⟨blk, c, h1, h2, h⟩

/-- Decoder state at the start of a payload, with initial contexts (aec.cc:356-379, 782-793). -/
def startState (bs : List Byte) : Option St :=
  (aecStart bs 0 bs.length ⟨aecRdStart [] 0 0 0, false, false, true, 0, 255, 0, 0⟩).map fun a =>
    ⟨a, fun _ _ => initCtx⟩

/-- **C33 violated.**  The prefix of an escaped level is not limited: the twelve bytes 255, 96, 0, … make the
decoder of a 4x4 block shift 1 by more than 30 places and overflow the level. -/
theorem C33_violated : ∃ blk s, lumaBlk 9 3 3 0 0 = some blk ∧
    startState [255, 96, 0, 0, 0, 0, 0, 0, 0, 0, 0, 0] = some s ∧
    blockCoeffs aecMachine blk id s = .error .arith := by
  have h : ((lumaBlk 9 3 3 0 0).any fun blk => (startState [255, 96, 0, 0, 0, 0, 0, 0, 0, 0, 0, 0]).any fun s =>
      match blockCoeffs aecMachine blk id s with
      | .error .arith => true
      | _ => false) = true := by decide +kernel
  rw [Option.any_eq_true] at h
  obtain ⟨blk, e1, h⟩ := h
  rw [Option.any_eq_true] at h
  obtain ⟨s, e2, h⟩ := h
  refine ⟨blk, s, e1, e2, ?_⟩
  split at h
  · assumption
  · cases h

/-- A unit that meets the hypotheses: a 16x16 inter unit with a horizontal split. -/
example : UnitOk 2 4 1 ∧ 1 < (Un.coeffUnits 1 4).length := by decide

/-- A block with coefficients: the payload 144, 90, 60, … fills positions of a 4x4 block. -/
example : ((lumaBlk 9 3 3 0 0).any fun blk => (startState [144, 90, 60, 17, 200, 3, 99, 5, 7, 8, 9, 1]).any fun s =>
    match blockCoeffs aecMachine blk id s with
    | .ok (c, _) => decide (2 ≤ c.writes.length)
    | _ => false) = true := by decide +kernel

end Davs2.Sx
