import Verif.Spec.CuSyntax
import Verif.Props.CoeffCode
import Verif.Props.BinariseUse
import Verif.Props.IntraMode
/-
Reading of coding units and coding trees as they are written.
-/
namespace Davs2.Cs
open Davs2.Sx Davs2.Mo

variable {σ : Type} {m : Machine σ} {G : σ → Prop}

theorem Reads.last {α β : Type} {p : P σ α} {f : α → P σ β} {a : α} {v : β} {c : List Bin} (hp : Reads G m p a c)
    (hf : Reads G m (f a) v []) : Reads G m (p >>= f) v c := (Reads.bind hp hf).cast rfl (List.append_nil c)

/-! ### Blocks -/

/-- One mode of each class. -/
def modeRep (mode : Nat) : Nat := if vertMode mode then 8 else if horMode mode then 3 else 0

theorem scanType_rep : ∀ mode < 33, scanType[mode]? = scanType[modeRep mode]? := by decide +kernel

theorem class_rep : ∀ mode : Nat, mode < 33 → vertMode mode = vertMode (modeRep mode) ∧ horMode mode = horMode (modeRep mode) := by
  decide +kernel

theorem lumaBlk_rep (type level trans b8 mode : Nat) (h : mode < 33) :
    lumaBlk type level trans b8 mode = lumaBlk type level trans b8 (modeRep mode) := by
  unfold lumaBlk
  rw [scanType_rep mode h]

/-- The block as a function of what it depends on. -/
def lumaSpec (type level trans : Nat) (mode : Int) : Sx.Blk :=
  blkOf level { type := type, trans := trans, modes := List.replicate 4 mode } 0

theorem blkOf_luma (level : Nat) (u : CUnit) (i : Nat) (hi : i < 4) (ht : 0 ≤ u.type) :
    blkOf level u i = lumaSpec u.type.toNat level u.trans (u.modes.getD i 0) := by
  have e : ((u.type.toNat : Nat) : Int) = u.type := Int.toNat_of_nonneg ht
  unfold lumaSpec blkOf
  simp only [if_pos hi, if_pos (show 0 < 4 by decide), e]
  rfl

theorem lumaSpec_rep (type level trans mode : Nat) (h : mode < 33) :
    lumaSpec type level trans mode = lumaSpec type level trans (modeRep mode) := by
  have := class_rep mode h
  unfold lumaSpec blkOf
  simp only [if_pos (show 0 < 4 by decide)]
  rw [show (List.replicate 4 (mode : Int)).getD 0 0 = (mode : Int) from rfl,
    show (List.replicate 4 ((modeRep mode : Nat) : Int)).getD 0 0 = ((modeRep mode : Nat) : Int) from rfl, this.1, this.2]

/-- All blocks and one mode of each class. -/
def lumaSame (type level trans : Nat) : Prop :=
  ∀ b8 < (Un.coeffUnits trans level).length, ∀ mode ∈ [0, 3, 8],
    lumaBlk type level trans b8 mode = some (lumaSpec type level trans (mode : Nat))

instance (type level trans : Nat) : Decidable (lumaSame type level trans) := by
  unfold lumaSame
  infer_instance

theorem lumaBlk_table : ∀ k < 4, ∀ trans < 4, ∀ type < 12, UnitOk type (3 + k) trans → lumaSame type (3 + k) trans := by
  decide +kernel

theorem lumaBlk_eq {type level trans b8 mode : Nat} (h3 : 3 ≤ level) (h6 : level ≤ 6) (hu : UnitOk type level trans)
    (hb : b8 < (Un.coeffUnits trans level).length) (hmode : mode < 33) :
    lumaBlk type level trans b8 mode = some (lumaSpec type level trans mode) := by
  obtain ⟨k, rfl⟩ := Nat.exists_eq_add_of_le h3
  have hlt := hu.lt
  rw [lumaBlk_rep _ _ _ _ _ hmode, lumaSpec_rep _ _ _ _ hmode]
  refine lumaBlk_table k (by omega) trans hlt.2 type hlt.1 hu b8 hb _ ?_
  unfold modeRep
  split
  · decide
  · split <;> decide

theorem chromaBlk_table : ∀ k < 4, ∀ trans < 4, ∀ i ∈ [4, 5],
    chromaBlk (3 + k) trans = some (blkOf (3 + k) { type := 0, trans := trans } i) := by decide +kernel

theorem chromaBlk_eq {level : Nat} (u : CUnit) {i : Nat} (h3 : 3 ≤ level) (h6 : level ≤ 6) (ht : u.trans < 4)
    (hi : i = 4 ∨ i = 5) : chromaBlk level u.trans = some (blkOf level u i) := by
  obtain ⟨k, rfl⟩ := Nat.exists_eq_add_of_le h3
  rw [chromaBlk_table k (by omega) u.trans ht i (by rcases hi with rfl | rfl <;> decide)]
  unfold blkOf
  simp only [if_neg (show ¬ i < 4 by omega)]

theorem coeffUnits_len : ∀ k < 4, ∀ trans < 4, (Un.coeffUnits trans (3 + k)).length = if trans = 0 then 1 else 4 := by
  decide +kernel

/-- Levels and result of block `i`. -/
def BlockOk (E : Env) (level : Nat) (u : CUnit) (q : Int) (x : Nat × Coeffs) : Prop :=
  0 ≤ x.2.pattern ∧ Delivers (blkOf level u x.1) (u.lev x.1)
    (E.deq (if x.1 < 4 then 0 else x.1 - 3) q (if x.1 < 4 ∧ u.trans = 0 then level else level - 1)) x.2.writes

/-- A block with its scaling that is found and read. -/
def Readable (G : σ → Prop) (m : Machine σ) (E : Env) (level : Nat) (u : CUnit) (q : Int) (i : Nat) (b : Option Sx.Blk)
    (deq : Int → Int) : Prop :=
  ∃ b' c, b = some b' ∧ Reads G m (blockCoeffs m b' deq) c (blockCode (blkOf level u i) (u.lev i)) ∧ BlockOk E level u q (i, c)

theorem Reads.getBlk {b : Option Sx.Blk} {b' : Sx.Blk} (h : b = some b') : Reads G m (getBlk b : P σ Sx.Blk) b' [] := by
  subst h
  exact Reads.pure b'

theorem reads_blocks {E : Env} {level : Nat} {u : CUnit} {q : Int} (f : Nat → Option Sx.Blk × (Int → Int)) (L : List Nat)
    (h : ∀ i ∈ L, Readable G m E level u q i (f i).1 (f i).2) :
    ∃ cs : List (Nat × Coeffs), cs.map (·.1) = L ∧ (∀ x ∈ cs, BlockOk E level u q x) ∧
      Reads G m (readBlocks m (L.map fun i => (i, f i))) (some cs)
        (L.flatMap fun i => blockCode (blkOf level u i) (u.lev i)) := by
  induction L with
  | nil => exact ⟨[], rfl, by simp, Reads.pure _⟩
  | cons i L ih =>
    obtain ⟨cs, h1, h2, h3⟩ := ih fun j hj => h j (List.mem_cons_of_mem _ hj)
    obtain ⟨b, c, e, hr, hb⟩ := h i List.mem_cons_self
    refine ⟨(i, c) :: cs, by rw [List.map_cons, h1], ?_, ?_⟩
    · intro x hx
      rcases List.mem_cons.mp hx with rfl | hx
      · exact hb
      · exact h2 x hx
    · rw [List.map_cons, List.flatMap_cons]
      unfold readBlocks
      refine Reads.bind0 (Reads.getBlk e) (Reads.bind hr ?_)
      rw [if_neg (Int.not_lt.mpr hb.1)]
      exact Reads.last h3 (Reads.pure _)

/-- What is needed of a unit to read its blocks. -/
structure BlkOk (level : Nat) (u : CUnit) : Prop where
  lo : 3 ≤ level
  hi : level ≤ 6
  type : 0 ≤ u.type
  unit : UnitOk u.type.toNat level u.trans
  modes : ∀ i, 0 ≤ u.modes.getD i 0 ∧ u.modes.getD i 0 < 33

theorem readable_luma (hm : m.Lawful G) {E : Env} {level : Nat} {u : CUnit} {q : Int} (ok : BlkOk level u) {i : Nat} (hi : i < 4)
    (hz : u.trans = 0 → i = 0)
    (hl : (∀ a b, (u.lev i a b).natAbs ≤ 32767) ∧ ∃ a < (blkOf level u i).w, ∃ b < (blkOf level u i).h, u.lev i a b ≠ 0) :
    Readable G m E level u q i (lumaBlk u.type.toNat level u.trans i (u.modes.getD i 0).toNat)
      (E.deq 0 q (if u.trans = 0 then level else level - 1)) := by
  have hmode := ok.modes i
  have hb : i < (Un.coeffUnits u.trans level).length := by
    obtain ⟨k, rfl⟩ := Nat.exists_eq_add_of_le ok.lo
    rw [coeffUnits_len k (by have := ok.hi; omega) _ ok.unit.lt.2]
    split
    · have := hz ‹_›; omega
    · exact hi
  obtain ⟨b, e, gd, cv⟩ := lumaBlk_ok ok.lo ok.hi ok.unit hb (mode := (u.modes.getD i 0).toNat) (by omega)
  have e2 := lumaBlk_eq ok.lo ok.hi ok.unit hb (mode := (u.modes.getD i 0).toNat) (by omega)
  rw [e] at e2
  have e3 : b = blkOf level u i := by
    rw [blkOf_luma level u i hi ok.type, Option.some.inj e2, Int.toNat_of_nonneg hmode.1]
  rw [← e3] at hl
  obtain ⟨c, h1, h2, h3⟩ := reads_block hm b gd cv (u.lev i) hl.1 (E.deq 0 q (if u.trans = 0 then level else level - 1)) hl.2
  refine ⟨b, c, e, e3 ▸ h3, h2, ?_⟩
  dsimp only
  rw [if_pos hi, ← e3]
  simp only [hi, true_and]
  exact h1

theorem readable_chroma (hm : m.Lawful G) {E : Env} {level : Nat} {u : CUnit} {q : Int} (ok : BlkOk level u) {i : Nat}
    (hi : i = 0 ∨ i = 1) (hl : (∀ a b, (u.lev (4 + i) a b).natAbs ≤ 32767) ∧
      ∃ a < (blkOf level u (4 + i)).w, ∃ b < (blkOf level u (4 + i)).h, u.lev (4 + i) a b ≠ 0) :
    Readable G m E level u q (4 + i) (chromaBlk level u.trans) (E.deq (1 + i) q (level - 1)) := by
  obtain ⟨b, e, gd, cv⟩ := chromaBlk_ok ok.lo ok.hi ok.unit.lt.2
  have e3 : b = blkOf level u (4 + i) := by
    have := chromaBlk_eq u ok.lo ok.hi ok.unit.lt.2 (i := 4 + i) (by omega)
    rw [e] at this
    exact Option.some.inj this
  rw [← e3] at hl
  obtain ⟨c, h1, h2, h3⟩ := reads_block hm b gd cv (u.lev (4 + i)) hl.1 (E.deq (1 + i) q (level - 1)) hl.2
  refine ⟨b, c, e, e3 ▸ h3, h2, ?_⟩
  dsimp only
  rw [if_neg (by omega), if_neg (by omega), ← e3, show 4 + i - 3 = 1 + i by omega]
  exact h1

theorem codedBlks_split (u : CUnit) : codedBlks u = (List.range 4).filter (fun i => u.cbp.testBit i) ++
    ((List.range 2).filter fun i => u.cbp.testBit (4 + i)).map (4 + ·) := by
  unfold codedBlks
  rw [show List.range 6 = List.range 4 ++ (List.range 2).map (4 + ·) by decide, List.filter_append, List.filter_map]
  rfl

theorem reads_coeffs (hm : m.Lawful G) {E : Env} {level : Nat} {u : CUnit} {q : Int} (ok : BlkOk level u)
    (hz : u.trans = 0 → u.cbp % 16 ≤ 1)
    (hl : ∀ i ∈ codedBlks u, (∀ a b, (u.lev i a b).natAbs ≤ 32767) ∧
      ∃ a < (blkOf level u i).w, ∃ b < (blkOf level u i).h, u.lev i a b ≠ 0) :
    ∃ cs : List (Nat × Coeffs), cs.map (·.1) = codedBlks u ∧ (∀ x ∈ cs, BlockOk E level u q x) ∧
      Reads G m (readCoeffs m E level u.type.toNat u.trans u.cbp q u.modes) (some cs)
        ((codedBlks u).flatMap fun i => blockCode (blkOf level u i) (u.lev i)) := by
  rw [codedBlks_split] at hl ⊢
  have hl1 : ∀ i ∈ (List.range 4).filter (fun i => u.cbp.testBit i), Readable G m E level u q i
      (lumaBlk u.type.toNat level u.trans i (u.modes.getD i 0).toNat) (E.deq 0 q (if u.trans = 0 then level else level - 1)) := by
    intro i hi
    have h := hl i (List.mem_append_left _ hi)
    rw [List.mem_filter, List.mem_range] at hi
    refine readable_luma hm ok hi.1 (fun h0 => ?_) h
    have := hz h0
    have h4 := hi.1
    have ht := hi.2
    by_contra hne
    rw [Nat.testBit_eq_decide_div_mod_eq, decide_eq_true_eq] at ht
    interval_cases i <;> omega
  have hl2 : ∀ i ∈ (List.range 2).filter (fun i => u.cbp.testBit (4 + i)), Readable G m E level u q (4 + i)
      (chromaBlk level u.trans) (E.deq (1 + i) q (level - 1)) := by
    intro i hi
    have h := hl (4 + i) (List.mem_append_right _ (List.mem_map_of_mem hi))
    rw [List.mem_filter, List.mem_range] at hi
    exact readable_chroma hm ok (by omega) h
  have first : ∃ cs : List (Nat × Coeffs), cs.map (·.1) = (List.range 4).filter (fun i => u.cbp.testBit i) ∧
      (∀ x ∈ cs, BlockOk E level u q x) ∧ Reads G m (if u.trans = 0 then
      (if u.cbp % 16 ≠ 0 then do
        let b ← getBlk (lumaBlk u.type.toNat level u.trans 0 (u.modes.getD 0 0).toNat)
        let c ← blockCoeffs m b (E.deq 0 q level)
        pure (some [(0, c)])
      else pure (some []))
    else readBlocks m (((List.range 4).filter fun b8 => u.cbp.testBit b8).map fun b8 =>
      (b8, lumaBlk u.type.toNat level u.trans b8 (u.modes.getD b8 0).toNat, E.deq 0 q (level - 1)))) (some cs)
        (((List.range 4).filter fun i => u.cbp.testBit i).flatMap fun i => blockCode (blkOf level u i) (u.lev i)) := by
    by_cases h0 : u.trans = 0
    · simp only [if_pos h0] at hl1 ⊢
      have h1 := hz h0
      by_cases hc : u.cbp % 16 = 0
      · have e : (List.range 4).filter (fun i => u.cbp.testBit i) = [] := by
          rw [List.filter_eq_nil_iff]
          intro i hi
          rw [List.mem_range] at hi
          rw [Nat.testBit_eq_decide_div_mod_eq, decide_eq_true_eq]
          interval_cases i <;> omega
        rw [e, if_neg (by omega)]
        exact ⟨[], rfl, by simp, Reads.pure _⟩
      · have e : (List.range 4).filter (fun i => u.cbp.testBit i) = [0] := by
          have h : ∀ i < 4, u.cbp.testBit i = decide (i = 0) := by
            intro i hi
            rw [Nat.testBit_eq_decide_div_mod_eq, decide_eq_decide]
            interval_cases i <;> omega
          rw [List.filter_congr (q := fun i => decide (i = 0)) fun i hi => h i (List.mem_range.mp hi)]
          decide
        rw [e] at hl1 ⊢
        rw [if_pos hc]
        obtain ⟨b, c, eb, hr, hb⟩ := hl1 0 List.mem_cons_self
        refine ⟨[(0, c)], rfl, ?_, ?_⟩
        · intro x hx
          rw [List.mem_singleton.mp hx]
          exact hb
        · refine Reads.bind0 (Reads.getBlk eb) (Reads.cast (Reads.last hr (Reads.pure _)) rfl ?_)
          simp
    · simp only [if_neg h0] at hl1 ⊢
      exact reads_blocks (fun b8 => (lumaBlk u.type.toNat level u.trans b8 (u.modes.getD b8 0).toNat, E.deq 0 q (level - 1))) _ hl1
  obtain ⟨cs1, a1, a2, a3⟩ := first
  have second := reads_blocks (G := G) (m := m) (E := E) (level := level) (u := u) (q := q)
    (fun i => (chromaBlk level u.trans, E.deq (1 + (i - 4)) q (level - 1)))
    (((List.range 2).filter fun i => u.cbp.testBit (4 + i)).map (4 + ·)) (by
      intro i hi
      obtain ⟨j, hj, rfl⟩ := List.mem_map.mp hi
      have := hl2 j hj
      simpa using this)
  obtain ⟨cs2, b1, b2, b3⟩ := second
  refine ⟨cs1 ++ cs2, by rw [List.map_append, a1, b1], fun x hx => ?_, ?_⟩
  · rcases List.mem_append.mp hx with h | h
    · exact a2 x h
    · exact b2 x h
  · rw [List.flatMap_append]
    unfold readCoeffs
    refine Reads.bind a3 ?_
    dsimp only
    rw [List.map_map] at b3
    refine Reads.last (a := some cs2) ?_ (Reads.pure _)
    have e : ((fun i => (i, chromaBlk level u.trans, E.deq (1 + (i - 4)) q (level - 1))) ∘ fun x => 4 + x) =
        fun uv => (4 + uv, chromaBlk level u.trans, E.deq (1 + uv) q (level - 1)) := by
      funext i
      simp
    rw [e] at b3
    exact b3

end Davs2.Cs
