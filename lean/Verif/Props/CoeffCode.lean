import Verif.Lemmas.CoeffBlock
import Verif.Props.AecCoeffs
import Verif.Props.BinariseUse
/-
C80: the coefficients of a transform block are those that were written.
-/
namespace Davs2.Sx

variable {σ : Type} {m : Machine σ} {G : σ → Prop}

theorem lumaBlks_covers : ∀ b ∈ lumaBlks, Covers b := by decide +kernel

theorem chroma_covers : ∀ k < 4, ∀ trans < 4, (chromaBlk (3 + k) trans).any (fun b => decide (Good b ∧ Covers b)) = true := by
  decide +kernel

/-- Levels of a block: of 16 bits, not all 0. -/
structure Levels (b : Blk) (lev : Nat → Nat → Int) : Prop where
  range : ∀ x y, (lev x y).natAbs ≤ 32767
  some : ∃ x < b.w, ∃ y < b.h, lev x y ≠ 0

/-- The block that a unit announces (C50) is one with a good scan. -/
theorem lumaBlk_ok {type level trans b8 mode : Nat} (h3 : 3 ≤ level) (h6 : level ≤ 6) (hu : UnitOk type level trans)
    (hb : b8 < (Un.coeffUnits trans level).length) (hmode : mode < 33) :
    ∃ b, lumaBlk type level trans b8 mode = some b ∧ Good b ∧ Covers b := by
  obtain ⟨k, rfl⟩ := Nat.exists_eq_add_of_le h3
  have hlt := hu.lt
  have h := lumaBlk_mem k (by omega) trans hlt.2 type hlt.1 hu b8 hb mode hmode
  unfold lumaOk at h
  rw [Option.any_eq_true] at h
  obtain ⟨b, e, h⟩ := h
  rw [Bool.and_eq_true, decide_eq_true_eq] at h
  exact ⟨b, e, lumaBlks_good b h.1, lumaBlks_covers b h.1⟩

theorem chromaBlk_ok {level trans : Nat} (h3 : 3 ≤ level) (h6 : level ≤ 6) (ht : trans < 4) :
    ∃ b, chromaBlk level trans = some b ∧ Good b ∧ Covers b := by
  obtain ⟨k, rfl⟩ := Nat.exists_eq_add_of_le h3
  have h := chroma_covers k (by omega) trans ht
  rw [Option.any_eq_true] at h
  obtain ⟨b, e, h⟩ := h
  rw [decide_eq_true_eq] at h
  exact ⟨b, e, h⟩

/-- **C80 (luma).**  For every coding unit the decoder can announce, every luma block of it, every way of scaling the
levels, and all levels of 16 bits, not all 0: when the bins delivered are the code of these levels, exactly the scaled
levels are delivered, each at its place, and the decoder stops where the code ends. -/
theorem C80_luma (hm : m.Lawful G) (type level trans b8 mode : Nat) (h3 : 3 ≤ level) (h6 : level ≤ 6)
    (hu : UnitOk type level trans) (hb : b8 < (Un.coeffUnits trans level).length) (hmode : mode < 33) :
    ∃ b, lumaBlk type level trans b8 mode = some b ∧ ∀ (deq : Int → Int) (lev : Nat → Nat → Int), Levels b lev →
      ∃ v, Delivers b lev deq v.writes ∧ 0 ≤ v.pattern ∧ ∀ s s', Produces G m s (blockCode b lev) s' →
        blockCoeffs m b deq s = .ok (v, s') := by
  obtain ⟨b, e, gd, cv⟩ := lumaBlk_ok h3 h6 hu hb hmode
  exact ⟨b, e, fun deq lev h => reads_block hm b gd cv lev h.range deq h.some⟩

/-- **C80 (chroma).** -/
theorem C80_chroma (hm : m.Lawful G) (level trans : Nat) (h3 : 3 ≤ level) (h6 : level ≤ 6) (ht : trans < 4) :
    ∃ b, chromaBlk level trans = some b ∧ ∀ (deq : Int → Int) (lev : Nat → Nat → Int), Levels b lev →
      ∃ v, Delivers b lev deq v.writes ∧ 0 ≤ v.pattern ∧ ∀ s s', Produces G m s (blockCode b lev) s' →
        blockCoeffs m b deq s = .ok (v, s') := by
  obtain ⟨b, e, gd, cv⟩ := chromaBlk_ok h3 h6 ht
  exact ⟨b, e, fun deq lev h => reads_block hm b gd cv lev h.range deq h.some⟩

/-- **C80 (arithmetic decoder).**  In any good state (for example at the start of a payload), if the symbols that the
arithmetic decoder delivers one by one without an error are the code of a luma block. -/
theorem C80_decoder (type level trans b8 mode : Nat) (h3 : 3 ≤ level) (h6 : level ≤ 6)
    (hu : UnitOk type level trans) (hb : b8 < (Un.coeffUnits trans level).length) (hmode : mode < 33) :
    ∃ b, lumaBlk type level trans b8 mode = some b ∧ ∀ (deq : Int → Int) (lev : Nat → Nat → Int), Levels b lev →
      ∃ v, Delivers b lev deq v.writes ∧ 0 ≤ v.pattern ∧ ∀ s s', GoodSt s → Produces noError aecMachine s (blockCode b lev) s' →
        blockCoeffs aecMachine b deq s = .ok (v, s') ∧ GoodSt s' := by
  obtain ⟨b, e, h⟩ := C80_luma aecMachine_lawful type level trans b8 mode h3 h6 hu hb hmode
  refine ⟨b, e, fun deq lev hl => ?_⟩
  obtain ⟨v, h1, h2, h3⟩ := h deq lev hl
  exact ⟨v, h1, h2, fun s s' g hp => ⟨h3 s s' (g.produces hp), (g.produces hp).good_right⟩⟩

/-- **C80 (uniqueness).**  A sequence of bins begins with the code of one block of levels at most. -/
theorem C80_unique (b : Blk) (gd : Good b) (cv : Covers b) (lev lev' : Nat → Nat → Int) (h : Levels b lev)
    (h' : Levels b lev') (r r' : List Bin) (e : blockCode b lev ++ r = blockCode b lev' ++ r') :
    (∀ x < b.w, ∀ y < b.h, lev x y = lev' x y) ∧ r = r' := by
  obtain ⟨v, h1, _, h2⟩ := reads_block script_lawful b gd cv lev h.range id h.some
  obtain ⟨v', h1', _, h2'⟩ := reads_block script_lawful b gd cv lev' h'.range id h'.some
  have e1 := h2 _ _ (script_produces.mpr (rfl : blockCode b lev ++ r = _))
  have e2 := h2' _ _ (script_produces.mpr (rfl : blockCode b lev' ++ r' = _))
  rw [e, e2] at e1
  have e3 := Except.ok.inj e1
  rw [Prod.mk.injEq] at e3
  obtain ⟨rfl, rfl⟩ := e3
  refine ⟨fun x hx y hy => ?_, rfl⟩
  have key : ∀ (l l' : Nat → Nat → Int), Delivers b l id v'.writes → Delivers b l' id v'.writes → l x y ≠ 0 → l' x y = l x y := by
    intro l l' d d' hn
    obtain ⟨x', y', _, _, _, e⟩ := (d' _).mp ((d ⟨x, y, l x y⟩).mpr ⟨x, y, hx, hy, hn, rfl⟩)
    rw [Wr.mk.injEq] at e
    obtain ⟨ex, ey, ev⟩ := e
    have : x = x' := by omega
    subst this
    have : y = y' := by omega
    subst this
    exact ev.symm
  by_cases h0 : lev x y = 0
  · by_cases h0' : lev' x y = 0
    · rw [h0, h0']
    · exact key lev' lev h1' h1 h0'
  · exact (key lev lev' h1 h1' h0).symm

/-- **C80 (scans).**  Coefficients and groups of square blocks are scanned in zig-zag order. -/
theorem C80_scans : scan4x4 = zigzag 4 ∧
    (∀ level, 3 ≤ level → level ≤ 6 → ∀ b, lumaBlk 1 level 0 0 0 = some b → b.scan.take (numCg b) = zigzag (b.w / 4)) := by
  refine ⟨by decide +kernel, fun level h3 h6 => ?_⟩
  have : ∀ k < 4, (lumaBlk 1 (3 + k) 0 0 0).all (fun b => b.scan.take (numCg b) == zigzag (b.w / 4)) = true := by decide +kernel
  intro b hb
  obtain ⟨k, rfl⟩ := Nat.exists_eq_add_of_le h3
  have h := this k (by omega)
  rw [hb] at h
  exact beq_iff_eq.mp h

/-! Concrete cases: a 4x4 and an 8x8 luma block of an inter unit. -/

def exB4 : Blk := ⟨true, true, false, 3, 4, 4, [(0, 0), (1, 0), (0, 1), (1, 1)]⟩
def exB8 : Blk := ⟨true, true, false, 0, 8, 8, [(0, 0), (1, 0), (0, 1), (1, 1)]⟩

example : lumaBlk 1 3 3 0 0 = some exB4 ∧ lumaBlk 1 3 0 0 0 = some exB8 := by decide +kernel

def exLev (x y : Nat) : Int := if (x, y) = (0, 0) then -3 else if (x, y) = (1, 1) then 1 else 0

theorem exLev_ok : Levels exB4 exLev ∧ Levels exB8 exLev := by
  have hr : ∀ x y, (exLev x y).natAbs ≤ 32767 := by
    intro x y
    unfold exLev
    repeat' split
    all_goals decide
  exact ⟨⟨hr, 0, by decide, 0, by decide, by decide⟩, ⟨hr, 0, by decide, 0, by decide, by decide⟩⟩

/-- Levels -3 at (0, 0) and 1 at (1, 1): position (1, 1), level 1, flags of the positions below, level 3, signs. -/
example : blockCode exB4 exLev = [cx .lastPos 44 0, cx .lastPos 45 1, cx .lastPos 46 0, cx .lastPos 47 1,
    .fin false, cx .level 0 1, cx (.run false 0) 2 0, cx (.run false 0) 1 0, cx (.run false 0) 1 0, cx (.run false 0) 0 1,
    .fin false, cx .level 13 0, cx .level 13 0, cx .level 13 1, by_ 0, by_ 1] := by decide +kernel

example (r : List Bin) : ∃ p, blockCoeffs script exB4 id (blockCode exB4 exLev ++ r) = .ok (⟨p, [⟨0, 0, -3⟩, ⟨1, 1, 1⟩]⟩, r) :=
  ⟨_, rfl⟩

/-- The other group of the 8x8 block is used as well. -/
example : lastGroup exB8 (fun x y => if (x, y) = (5, 2) then 1 else exLev x y) = 1 := by decide +kernel

/-- A level of more than 16 bits is not delivered as it was written: 40000 becomes -25536. -/
theorem C80_wraps : blockCoeffs script exB4 id (blockCode exB4 fun x y => if (x, y) = (0, 0) then 40000 else 0) =
    .ok (⟨0, [⟨0, 0, -25536⟩]⟩, []) := by rfl

end Davs2.Sx
