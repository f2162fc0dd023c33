import Verif.Lemmas.CuModes
/-
Reading of a unit.
-/
namespace Davs2.Cs
open Davs2.Sx Davs2.Mo

variable {σ : Type} {m : Machine σ} {G : σ → Prop}

/-- What the table of intra types says. -/
theorem intra_cases {sdip : Bool} {level type trans : Nat} {c : List Bin} (h3 : 3 ≤ level) (h6 : level ≤ 6)
    (h : ((type, some trans), c) ∈ intraTypeT sdip level) :
    (type = 8 ∧ trans = 0) ∨ (type = 9 ∧ trans = 3 ∧ level = 3) ∨
      ((type = 10 ∧ trans = 1 ∨ type = 11 ∧ trans = 2) ∧ (level = 4 ∨ level = 5)) := by
  unfold intraTypeT at h
  split at h
  · simp only [List.mem_cons, Prod.mk.injEq, Option.some.injEq, List.not_mem_nil, or_false] at h
    omega
  · split at h
    · simp only [List.mem_cons, Prod.mk.injEq, Option.some.injEq, List.not_mem_nil, or_false] at h
      omega
    · simp only [List.mem_cons, Prod.mk.injEq, Option.some.injEq, List.not_mem_nil, or_false] at h
      omega

theorem intra_unitOk {sdip : Bool} {level type trans : Nat} {c : List Bin} (h3 : 3 ≤ level) (h6 : level ≤ 6)
    (h : ((type, some trans), c) ∈ intraTypeT sdip level) : UnitOk type level trans := by
  obtain ⟨l, rfl⟩ := Nat.exists_eq_add_of_le h3
  have := (intraType_ok sdip l (by omega) _ h).2
  dsimp only at this
  rw [Option.any_some, decide_eq_true_eq] at this
  exact this.1

theorem cuBlks_eq {sdip : Bool} {level type trans : Nat} {c : List Bin} (h3 : 3 ≤ level) (h6 : level ≤ 6)
    (h : ((type, some trans), c) ∈ intraTypeT sdip level) (x y : Nat) :
    Im.cuBlks (2 * x) (2 * y) level type trans = (rects (type : Nat) level x y).map Rect.blk := by
  have hs := side_eq h3
  rcases intra_cases h3 h6 h with ⟨rfl, rfl⟩ | ⟨rfl, rfl, rfl⟩ | ⟨h | h, h' | h'⟩
  · unfold Im.cuBlks rects Im.blkSize
    simp only [Nat.mul_comm (2 ^ (level - 3)) 2, ← hs]
    rfl
  · rfl
  · obtain ⟨rfl, rfl⟩ := h; subst h'; rfl
  · obtain ⟨rfl, rfl⟩ := h; subst h'; rfl
  · obtain ⟨rfl, rfl⟩ := h; subst h'; rfl
  · obtain ⟨rfl, rfl⟩ := h; subst h'; rfl

theorem inRect_unit {level x y : Nat} {p q : Int} :
    InRect ⟨2 * x, 2 * y, side level, side level⟩ p q ↔ InUnit level x y p q := by
  unfold InRect InUnit
  dsimp only
  omega

theorem rects_chain {E : Env} {D : Int → Int → Prop} {sdip : Bool} {level sx sy type trans : Nat} {c : List Bin}
    (sp : Spot E D level sx sy) (h : ((type, some trans), c) ∈ intraTypeT sdip level) :
    Chain E D (rects (type : Nat) level sx sy) ∧ ∀ p q, InAny (rects (type : Nat) level sx sy) p q ↔ InUnit level sx sy p q := by
  have hs := side_eq sp.lo
  have U : ∀ (k : Nat) (p q : Int), k < side level → p = 2 * sx + k → q = 2 * sy - 1 → D p q := by
    rintro k p q hk rfl rfl; exact sp.up k hk
  have L : ∀ (k : Nat) (p q : Int), k < side level → p = 2 * sx - 1 → q = 2 * sy + k → D p q := by
    rintro k p q hk rfl rfl; exact sp.left k hk
  have own := sp.own
  have inx := sp.inx
  have iny := sp.iny
  rcases intra_cases sp.lo sp.hi h with ⟨rfl, rfl⟩ | ⟨rfl, rfl, rfl⟩ | ⟨h | h, h' | h'⟩
  · have e : rects ((8 : Nat) : Int) level sx sy = [⟨2 * sx, 2 * sy, side level, side level⟩] := rfl
    have hp := side_pos level
    rw [e]
    refine ⟨⟨⟨hp, hp, by dsimp only; omega, by dsimp only; omega⟩, fun p q h => own p q (inRect_unit.mp h),
      U 0 _ _ hp (by dsimp only; omega) (by dsimp only; omega), L 0 _ _ hp (by dsimp only; omega) (by dsimp only; omega), trivial⟩, ?_⟩
    intro p q
    unfold InAny
    simp only [List.mem_singleton, exists_eq_left]
    exact inRect_unit
  · have e : rects ((9 : Nat) : Int) 3 sx sy = [⟨2 * sx, 2 * sy, 1, 1⟩, ⟨2 * sx + 1, 2 * sy, 1, 1⟩, ⟨2 * sx, 2 * sy + 1, 1, 1⟩,
      ⟨2 * sx + 1, 2 * sy + 1, 1, 1⟩] := rfl
    have hside : side 3 = 2 := rfl
    rw [e]
    unfold InUnit at own
    unfold Chain Chain Chain Chain InAny InUnit InRect
    simp only [hside, List.mem_cons, List.not_mem_nil, or_false, exists_eq_or_imp, exists_eq_left, Chain, Nat.reduceSub,
      Nat.reducePow] at own inx iny U L ⊢
    refine ⟨⟨⟨by omega, by omega, by omega, by omega⟩, fun p q h => own p q (by omega), U 0 _ _ (by omega) (by omega) (by omega),
      L 0 _ _ (by omega) (by omega) (by omega), ⟨by omega, by omega, by omega, by omega⟩, ?_,
      Or.inl (U 1 _ _ (by omega) (by omega) (by omega)), Or.inr (by omega), ⟨by omega, by omega, by omega, by omega⟩, ?_,
      Or.inl (Or.inr (by omega)), Or.inl (Or.inl (L 1 _ _ (by omega) (by omega) (by omega))),
      ⟨by omega, by omega, by omega, by omega⟩, ?_, Or.inl (Or.inr (by omega)), Or.inr (by omega), trivial⟩, ?_⟩
    · rintro p q h (h1 | h1)
      · exact own p q (by omega) h1
      · omega
    · rintro p q h ((h1 | h1) | h1)
      · exact own p q (by omega) h1
      · omega
      · omega
    · rintro p q h (((h1 | h1) | h1) | h1)
      · exact own p q (by omega) h1
      · omega
      · omega
      · omega
    · intro p q
      omega
  all_goals
    obtain ⟨rfl, rfl⟩ := h
    subst h'
  · have e : rects ((10 : Nat) : Int) 4 sx sy = [⟨2 * sx, 2 * sy + 0, 4, 1⟩, ⟨2 * sx, 2 * sy + 1, 4, 1⟩, ⟨2 * sx, 2 * sy + 2, 4, 1⟩,
      ⟨2 * sx, 2 * sy + 3, 4, 1⟩] := rfl
    have hside : side 4 = 4 := rfl
    rw [e]
    unfold InUnit at own
    unfold Chain Chain Chain Chain InAny InUnit InRect
    simp only [hside, List.mem_cons, List.not_mem_nil, or_false, exists_eq_or_imp, exists_eq_left, Chain, Nat.reduceSub,
      Nat.reducePow] at own inx iny U L ⊢
    refine ⟨⟨⟨by omega, by omega, by omega, by omega⟩, fun p q h => own p q (by omega), U 0 _ _ (by omega) (by omega) (by omega),
      L 0 _ _ (by omega) (by omega) (by omega), ⟨by omega, by omega, by omega, by omega⟩, ?_,
      Or.inr (by omega), Or.inl (L 1 _ _ (by omega) (by omega) (by omega)), ⟨by omega, by omega, by omega, by omega⟩, ?_,
      Or.inr (by omega), Or.inl (Or.inl (L 2 _ _ (by omega) (by omega) (by omega))),
      ⟨by omega, by omega, by omega, by omega⟩, ?_, Or.inr (by omega),
      Or.inl (Or.inl (Or.inl (L 3 _ _ (by omega) (by omega) (by omega)))), trivial⟩, ?_⟩
    · rintro p q h (h1 | h1)
      · exact own p q (by omega) h1
      · omega
    · rintro p q h ((h1 | h1) | h1)
      · exact own p q (by omega) h1
      · omega
      · omega
    · rintro p q h (((h1 | h1) | h1) | h1)
      · exact own p q (by omega) h1
      · omega
      · omega
      · omega
    · intro p q
      omega
  · have e : rects ((10 : Nat) : Int) 5 sx sy = [⟨2 * sx, 2 * sy + 0, 8, 2⟩, ⟨2 * sx, 2 * sy + 2, 8, 2⟩, ⟨2 * sx, 2 * sy + 4, 8, 2⟩,
      ⟨2 * sx, 2 * sy + 6, 8, 2⟩] := rfl
    have hside : side 5 = 8 := rfl
    rw [e]
    unfold InUnit at own
    unfold Chain Chain Chain Chain InAny InUnit InRect
    simp only [hside, List.mem_cons, List.not_mem_nil, or_false, exists_eq_or_imp, exists_eq_left, Chain, Nat.reduceSub,
      Nat.reducePow] at own inx iny U L ⊢
    refine ⟨⟨⟨by omega, by omega, by omega, by omega⟩, fun p q h => own p q (by omega), U 0 _ _ (by omega) (by omega) (by omega),
      L 0 _ _ (by omega) (by omega) (by omega), ⟨by omega, by omega, by omega, by omega⟩, ?_,
      Or.inr (by omega), Or.inl (L 2 _ _ (by omega) (by omega) (by omega)), ⟨by omega, by omega, by omega, by omega⟩, ?_,
      Or.inr (by omega), Or.inl (Or.inl (L 4 _ _ (by omega) (by omega) (by omega))),
      ⟨by omega, by omega, by omega, by omega⟩, ?_, Or.inr (by omega),
      Or.inl (Or.inl (Or.inl (L 6 _ _ (by omega) (by omega) (by omega)))), trivial⟩, ?_⟩
    · rintro p q h (h1 | h1)
      · exact own p q (by omega) h1
      · omega
    · rintro p q h ((h1 | h1) | h1)
      · exact own p q (by omega) h1
      · omega
      · omega
    · rintro p q h (((h1 | h1) | h1) | h1)
      · exact own p q (by omega) h1
      · omega
      · omega
      · omega
    · intro p q
      omega
  · have e : rects ((11 : Nat) : Int) 4 sx sy = [⟨2 * sx + 0, 2 * sy, 1, 4⟩, ⟨2 * sx + 1, 2 * sy, 1, 4⟩, ⟨2 * sx + 2, 2 * sy, 1, 4⟩,
      ⟨2 * sx + 3, 2 * sy, 1, 4⟩] := rfl
    have hside : side 4 = 4 := rfl
    rw [e]
    unfold InUnit at own
    unfold Chain Chain Chain Chain InAny InUnit InRect
    simp only [hside, List.mem_cons, List.not_mem_nil, or_false, exists_eq_or_imp, exists_eq_left, Chain, Nat.reduceSub,
      Nat.reducePow] at own inx iny U L ⊢
    refine ⟨⟨⟨by omega, by omega, by omega, by omega⟩, fun p q h => own p q (by omega), U 0 _ _ (by omega) (by omega) (by omega),
      L 0 _ _ (by omega) (by omega) (by omega), ⟨by omega, by omega, by omega, by omega⟩, ?_,
      Or.inl (U 1 _ _ (by omega) (by omega) (by omega)), Or.inr (by omega), ⟨by omega, by omega, by omega, by omega⟩, ?_,
      Or.inl (Or.inl (U 2 _ _ (by omega) (by omega) (by omega))), Or.inr (by omega),
      ⟨by omega, by omega, by omega, by omega⟩, ?_,
      Or.inl (Or.inl (Or.inl (U 3 _ _ (by omega) (by omega) (by omega)))), Or.inr (by omega), trivial⟩, ?_⟩
    · rintro p q h (h1 | h1)
      · exact own p q (by omega) h1
      · omega
    · rintro p q h ((h1 | h1) | h1)
      · exact own p q (by omega) h1
      · omega
      · omega
    · rintro p q h (((h1 | h1) | h1) | h1)
      · exact own p q (by omega) h1
      · omega
      · omega
      · omega
    · intro p q
      omega
  · have e : rects ((11 : Nat) : Int) 5 sx sy = [⟨2 * sx + 0, 2 * sy, 2, 8⟩, ⟨2 * sx + 2, 2 * sy, 2, 8⟩, ⟨2 * sx + 4, 2 * sy, 2, 8⟩,
      ⟨2 * sx + 6, 2 * sy, 2, 8⟩] := rfl
    have hside : side 5 = 8 := rfl
    rw [e]
    unfold InUnit at own
    unfold Chain Chain Chain Chain InAny InUnit InRect
    simp only [hside, List.mem_cons, List.not_mem_nil, or_false, exists_eq_or_imp, exists_eq_left, Chain, Nat.reduceSub,
      Nat.reducePow] at own inx iny U L ⊢
    refine ⟨⟨⟨by omega, by omega, by omega, by omega⟩, fun p q h => own p q (by omega), U 0 _ _ (by omega) (by omega) (by omega),
      L 0 _ _ (by omega) (by omega) (by omega), ⟨by omega, by omega, by omega, by omega⟩, ?_,
      Or.inl (U 2 _ _ (by omega) (by omega) (by omega)), Or.inr (by omega), ⟨by omega, by omega, by omega, by omega⟩, ?_,
      Or.inl (Or.inl (U 4 _ _ (by omega) (by omega) (by omega))), Or.inr (by omega),
      ⟨by omega, by omega, by omega, by omega⟩, ?_,
      Or.inl (Or.inl (Or.inl (U 6 _ _ (by omega) (by omega) (by omega)))), Or.inr (by omega), trivial⟩, ?_⟩
    · rintro p q h (h1 | h1)
      · exact own p q (by omega) h1
      · omega
    · rintro p q h ((h1 | h1) | h1)
      · exact own p q (by omega) h1
      · omega
      · omega
    · rintro p q h (((h1 | h1) | h1) | h1)
      · exact own p q (by omega) h1
      · omega
      · omega
      · omega
    · intro p q
      omega

end Davs2.Cs
