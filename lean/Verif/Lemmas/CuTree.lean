import Verif.Lemmas.CuWhole
import Verif.Spec.SliceSyntax
/-
Coding trees.
-/
namespace Davs2.Cs
open Davs2.Sx Davs2.Mo

variable {σ : Type} {m : Machine σ} {G : σ → Prop}

/-- The 4x4 blocks of a square of `2 ^ n` by `2 ^ n` blocks of 8x8 samples. -/
def Area (n x y : Nat) (p q : Int) : Prop :=
  2 * (x : Int) ≤ p ∧ p < 2 * x + 2 * 2 ^ n ∧ 2 * (y : Int) ≤ q ∧ q < 2 * y + 2 * 2 ^ n

theorem area_unit {n x y : Nat} {p q : Int} : InUnit (n + 3) x y p q ↔ Area n x y p q := by
  unfold InUnit Area
  rw [side_eq (by omega), show n + 3 - 3 = n by omega]
  push_cast
  rfl

/-- Where a tree can be read. -/
structure TSpot (E : Env) (D : Int → Int → Prop) (n sx sy : Nat) : Prop where
  hi : n ≤ 3
  alx : 2 ^ n ∣ sx
  aly : 2 ^ n ∣ sy
  own : ∀ p q : Int, Area n sx sy p q → p < 2 * E.w → q < 2 * E.h → ¬ D p q
  left : ∀ k : Nat, k < 2 * 2 ^ n → D (2 * sx - 1) (2 * sy + k)
  up : ∀ k : Nat, k < 2 * 2 ^ n → D (2 * sx + k) (2 * sy - 1)

theorem TSpot.spot {E : Env} {D : Int → Int → Prop} {n sx sy : Nat} (h : TSpot E D n sx sy)
    (hin : sx + 2 ^ n ≤ E.w ∧ sy + 2 ^ n ≤ E.h) : Spot E D (n + 3) sx sy := by
  have hi := h.hi
  have e : n + 3 - 3 = n := by omega
  have hs : side (n + 3) = 2 * 2 ^ n := by rw [side_eq (by omega), e]
  refine ⟨by omega, by omega, by rw [e]; exact h.alx, by rw [e]; exact h.aly, by rw [e]; exact hin.1, by rw [e]; exact hin.2, ?_, ?_, ?_⟩
  · intro p q hp
    have ha := area_unit.mp hp
    refine h.own p q ha ?_ ?_
    · have := ha.2.1
      have := hin.1
      zify at this
      omega
    · have := ha.2.2.2
      have := hin.2
      zify at this
      omega
  · intro k hk; exact h.left k (by omega)
  · intro k hk; exact h.up k (by omega)

theorem Rel.congr {E : Env} {S : Pic} {P : Maps} {D D' : Int → Int → Prop} (r : Rel E S P D) (h : ∀ p q, D p q ↔ D' p q) :
    Rel E S P D' := by
  have : D = D' := by funext p q; exact propext (h p q)
  rwa [← this]

theorem Step.comp {E : Env} {S S1 S2 : Pic} {A B : Nat → Nat → Prop} (h1 : Step E S S1 A) (h2 : Step E S1 S2 B) :
    Step E S S2 (fun i j => A i j ∨ B i j) := by
  intro i j
  have a := h1 i j
  have b := h2 i j
  by_cases hB : B i j
  · exact ⟨fun _ => b.1 hB, fun h => absurd (Or.inr hB) h⟩
  · rw [b.2 hB]
    exact ⟨fun h => a.1 (h.resolve_right hB), fun h => a.2 fun hA => h (Or.inl hA)⟩

theorem Step.congr {E : Env} {S S' : Pic} {A B : Nat → Nat → Prop} (h : Step E S S' A) (e : ∀ i j, A i j ↔ B i j) : Step E S S' B := by
  have : A = B := by funext i j; exact propext (e i j)
  rwa [← this]

/-- 8x8 blocks of a square that are inside of the picture. -/
def Inside (E : Env) (n x y i j : Nat) : Prop := Square n x y i j ∧ i < E.w ∧ j < E.h

/-- The result of reading a tree. -/
def TreeOk (G : σ → Prop) (m : Machine σ) (E : Env) (S : Pic) (p : P σ (List (Leaf (Option CuRead)) × Pic)) (n x y : Nat) (t : Tree)
    (Q : Maps) (D : Int → Int → Prop) (c : List Bin) (Q' : Maps) : Prop :=
  ∃ ls S', Reads G m p (ls, S') c ∧ List.Forall₂ (SameLeaf E) (leaves E n x y t Q).1 ls ∧ (leaves E n x y t Q).2 = Q' ∧
    Rel E S' Q' (fun p q => D p q ∨ Area n x y p q) ∧ Step E S S' (Inside E n x y)

/-- A quarter that may be outside of the picture. -/
theorem reads_child {E : Env} {n x y : Nat} {t : Tree} {Q Q' : Maps} {c : List Bin} {D : Int → Int → Prop} {S : Pic}
    (rel : Rel E S Q D) (h : treeT E n x y t Q c Q')
    (ih : (x < E.w ∧ y < E.h) → TreeOk G m E S (readTree m E n x y S) n x y t Q D c Q') :
    TreeOk G m E S (if x < E.w ∧ y < E.h then readTree m E n x y S else pure ([], S)) n x y t Q D c Q' := by
  by_cases hin : x < E.w ∧ y < E.h
  · rw [if_pos hin]; exact ih hin
  · rw [if_neg hin]
    have hp : 0 < 2 ^ n := Nat.pow_pos (by decide)
    cases t with
    | out =>
      unfold treeT at h
      obtain ⟨_, rfl, rfl⟩ := h
      have e : leaves E n x y .out Q' = ([], Q') := by unfold leaves; rfl
      refine ⟨[], S, Reads.pure _, ?_, ?_, ?_, ?_⟩
      · rw [e]; exact List.Forall₂.nil
      · rw [e]
      · refine rel.congr fun p q => ⟨Or.inl, ?_⟩
        rintro (h | h)
        · exact h
        · unfold Area at h
          exact (rel.out p q (by omega)).1
      · intro i j
        refine ⟨fun h => ?_, fun _ => rfl⟩
        unfold Inside Square at h
        omega
    | unit u => unfold treeT at h; omega
    | node a b c d =>
      cases n with
      | zero => unfold treeT at h; exact h.elim
      | succ n => unfold treeT at h; exact absurd h.1 hin

theorem pow_cast (n : Nat) : ((2 ^ n : Nat) : Int) = 2 ^ n := by push_cast; rfl

theorem reads_tree (hm : m.Lawful G) {E : Env} (hq : 0 ≤ E.qp ∧ E.qp ≤ 63) (hn : E.frame ≠ 0 → 1 ≤ E.nrefs) (n : Nat) :
    ∀ {x y : Nat} {t : Tree} {Q Q' : Maps} {c : List Bin} {D : Int → Int → Prop} {S : Pic}, Rel E S Q D → TSpot E D n x y →
      (x < E.w ∧ y < E.h) → treeT E n x y t Q c Q' → TreeOk G m E S (readTree m E n x y S) n x y t Q D c Q' := by
  induction n with
  | zero =>
    intro x y t Q Q' c D S rel sp hin h
    cases t with
    | out => unfold treeT at h; omega
    | node a b c d => unfold treeT at h; exact h.elim
    | unit u =>
      unfold treeT at h
      obtain ⟨hi, rfl, cs, cu, rfl, hc, hu⟩ := h
      rw [if_pos rfl] at hc
      subst hc
      obtain ⟨r, S', hr, hs, hrel, hst⟩ := reads_cu hm rel (sp.spot hi) hq hn hu
      refine ⟨[⟨x, y, 3, some r⟩], S', ?_, ?_, ?_, ?_, ?_⟩
      · unfold readTree
        exact Reads.last hr (Reads.pure _)
      · unfold leaves
        exact List.Forall₂.cons ⟨rfl, rfl, rfl, r, rfl, hs⟩ List.Forall₂.nil
      · unfold leaves; rfl
      · exact hrel.congr fun p q => by unfold More; rw [area_unit]
      · exact hst.congr fun i j => by
          unfold Inside Square
          simp only [Nat.add_sub_cancel]
          omega
  | succ n ih =>
    intro x y t Q Q' c D S rel sp hin h
    cases t with
    | out => unfold treeT at h; omega
    | unit u =>
      unfold treeT at h
      obtain ⟨hi, rfl, cs, cu, rfl, hc, hu⟩ := h
      rw [if_neg (by omega)] at hc
      obtain ⟨r, S', hr, hs, hrel, hst⟩ := reads_cu hm rel (sp.spot hi) hq hn hu
      have hn3 := sp.hi
      refine ⟨[⟨x, y, n + 4, some r⟩], S', ?_, ?_, ?_, ?_, ?_⟩
      · unfold readTree
        rw [if_pos hi]
        refine Reads.bind ((C79_splitFlag (G := G) (n + 4) (by omega)).at hm hc) ?_
        rw [if_neg (by decide)]
        exact Reads.last hr (Reads.pure _)
      · unfold leaves
        exact List.Forall₂.cons ⟨rfl, rfl, rfl, r, rfl, hs⟩ List.Forall₂.nil
      · unfold leaves; rfl
      · exact hrel.congr fun p q => by unfold More; rw [area_unit]
      · exact hst.congr fun i j => by
          unfold Inside Square
          simp only [Nat.add_sub_cancel]
          omega
    | node ta tb tc td =>
      unfold treeT at h
      obtain ⟨_, cs, ca, cb, cc, cd, Pa, Pb, Pc, rfl, hc, ha, hb, hcc, hd⟩ := h
      have hn3 := sp.hi
      have hp : 0 < 2 ^ n := Nat.pow_pos (by decide)
      have hdouble : 2 ^ (n + 1) = 2 * 2 ^ n := by rw [Nat.pow_succ, Nat.mul_comm]
      have dvd : 2 ^ n ∣ 2 ^ (n + 1) := ⟨2, Nat.pow_succ ..⟩
      have hx : 2 ^ n ∣ x := dvd.trans sp.alx
      have hy : 2 ^ n ∣ y := dvd.trans sp.aly
      have hx' : 2 ^ n ∣ x + 2 ^ n := Nat.dvd_add hx (Nat.dvd_refl _)
      have hy' : 2 ^ n ∣ y + 2 ^ n := Nat.dvd_add hy (Nat.dvd_refl _)
      have own := sp.own
      have left := sp.left
      have up := sp.up
      unfold Area at own
      rw [hdouble] at left up
      have hI : (2 : Int) ^ (n + 1) = 2 * ((2 ^ n : Nat) : Int) := by rw [pow_cast, pow_succ, mul_comm]
      rw [hI] at own
      have L : ∀ (p q : Int), p = 2 * x - 1 → 2 * (y : Int) ≤ q → q < 2 * y + 4 * ((2 ^ n : Nat) : Int) → D p q := by
        intro p q h1 h2 h3
        have := left (q - 2 * y).toNat (by omega)
        rwa [← h1, show 2 * (y : Int) + ((q - 2 * y).toNat : Nat) = q by omega] at this
      have U : ∀ (p q : Int), q = 2 * y - 1 → 2 * (x : Int) ≤ p → p < 2 * x + 4 * ((2 ^ n : Nat) : Int) → D p q := by
        intro p q h1 h2 h3
        have := up (p - 2 * x).toNat (by omega)
        rwa [← h1, show 2 * (x : Int) + ((p - 2 * x).toNat : Nat) = p by omega] at this
      have A : ∀ (a b : Nat) (p q : Int), Area n a b p q ↔ 2 * (a : Int) ≤ p ∧ p < 2 * a + 2 * ((2 ^ n : Nat) : Int) ∧
          2 * (b : Int) ≤ q ∧ q < 2 * b + 2 * ((2 ^ n : Nat) : Int) := by
        intro a b p q
        unfold Area
        rw [pow_cast]
      have hxc : ((x + 2 ^ n : Nat) : Int) = x + ((2 ^ n : Nat) : Int) := Nat.cast_add _ _
      have hyc : ((y + 2 ^ n : Nat) : Int) = y + ((2 ^ n : Nat) : Int) := Nat.cast_add _ _
      generalize hN : (2 ^ n : Nat) = N at *
      have TA : TSpot E D n x y := by
        refine ⟨by omega, by rw [hN]; exact hx, by rw [hN]; exact hy, ?_, ?_, ?_⟩
        · intro p q hp; rw [A] at hp; exact own p q (by omega)
        · intro k hk; rw [hN] at hk; exact L _ _ rfl (by omega) (by omega)
        · intro k hk; rw [hN] at hk; exact U _ _ rfl (by omega) (by omega)
      obtain ⟨la, Sa, ra, fa, ea, rela, sta⟩ := reads_child (m := m) (G := G) rel ha (fun hi => ih rel TA hi ha)
      have TB : TSpot E (fun p q => D p q ∨ Area n x y p q) n (x + N) y := by
        refine ⟨by omega, by rw [hN]; exact hx', by rw [hN]; exact hy, ?_, ?_, ?_⟩
        · intro p q hp h1 h2; rw [A] at hp ⊢; have := own p q (by omega) h1 h2; rw [not_or]; exact ⟨this, by omega⟩
        · intro k hk; rw [hN] at hk; right; rw [A]; omega
        · intro k hk; rw [hN] at hk; left; exact U _ _ rfl (by omega) (by omega)
      obtain ⟨lb, Sb, rb, fb, eb, relb, stb⟩ := reads_child (m := m) (G := G) rela hb (fun hi => ih rela TB hi hb)
      have TC : TSpot E (fun p q => (D p q ∨ Area n x y p q) ∨ Area n (x + N) y p q) n x (y + N) := by
        refine ⟨by omega, by rw [hN]; exact hx, by rw [hN]; exact hy', ?_, ?_, ?_⟩
        · intro p q hp h1 h2; rw [A] at hp ⊢; rw [A]; have := own p q (by omega) h1 h2; rw [not_or, not_or]; exact ⟨⟨this, by omega⟩, by omega⟩
        · intro k hk; rw [hN] at hk; left; left; exact L _ _ rfl (by omega) (by omega)
        · intro k hk; rw [hN] at hk; left; right; rw [A]; omega
      obtain ⟨lc, Sc, rc, fc, ec, relc, stc⟩ := reads_child (m := m) (G := G) relb hcc (fun hi => ih relb TC hi hcc)
      have TD : TSpot E (fun p q => ((D p q ∨ Area n x y p q) ∨ Area n (x + N) y p q) ∨ Area n x (y + N) p q) n (x + N) (y + N) := by
        refine ⟨by omega, by rw [hN]; exact hx', by rw [hN]; exact hy', ?_, ?_, ?_⟩
        · intro p q hp h1 h2
          rw [A] at hp ⊢; rw [A, A]
          have := own p q (by omega) h1 h2
          rw [not_or, not_or, not_or]
          exact ⟨⟨⟨this, by omega⟩, by omega⟩, by omega⟩
        · intro k hk; rw [hN] at hk; right; rw [A]; omega
        · intro k hk; rw [hN] at hk; left; right; rw [A]; omega
      obtain ⟨ld, Sd, rd, fd, ed, reld, std⟩ := reads_child (m := m) (G := G) relc hd (fun hi => ih relc TD hi hd)
      refine ⟨la ++ lb ++ lc ++ ld, Sd, ?_, ?_, ?_, ?_, ?_⟩
      · unfold readTree
        rw [hN]
        have hsplit : Reads G m (if x + 2 ^ (n + 1) ≤ E.w ∧ y + 2 ^ (n + 1) ≤ E.h then splitFlag m (n + 4) else pure true) true cs := by
          by_cases hi : x + 2 ^ (n + 1) ≤ E.w ∧ y + 2 ^ (n + 1) ≤ E.h
          · rw [if_pos hi]
            rw [if_pos hi] at hc
            exact (C79_splitFlag (G := G) (n + 4) (by omega)).at hm hc
          · rw [if_neg hi]
            rw [if_neg hi] at hc
            rw [hc]
            exact Reads.pure _
        simp only [List.append_assoc]
        refine Reads.bind hsplit ?_
        rw [if_pos rfl]
        exact Reads.bind ra (Reads.bind rb (Reads.bind rc (Reads.last rd (Reads.pure _))))
      · unfold leaves
        dsimp only
        rw [hN, ea, eb, ec]
        exact List.rel_append (List.rel_append (List.rel_append fa fb) fc) fd
      · unfold leaves
        dsimp only
        rw [hN, ea, eb, ec, ed]
      · refine reld.congr fun p q => ?_
        have AN : Area (n + 1) x y p q ↔ 2 * (x : Int) ≤ p ∧ p < 2 * x + 4 * (N : Int) ∧ 2 * (y : Int) ≤ q ∧ q < 2 * y + 4 * (N : Int) := by
          unfold Area
          rw [hI]
          constructor <;> intro h <;> omega
        dsimp only
        rw [A, A, A, A, AN]
        constructor
        · rintro ((((h | h) | h) | h) | h)
          · exact Or.inl h
          all_goals exact Or.inr (by omega)
        · rintro (h | h)
          · exact Or.inl (Or.inl (Or.inl (Or.inl h)))
          · by_cases h1 : p < 2 * x + 2 * (N : Int) <;> by_cases h2 : q < 2 * y + 2 * (N : Int)
            · exact Or.inl (Or.inl (Or.inl (Or.inr (by omega))))
            · exact Or.inl (Or.inr (by omega))
            · exact Or.inl (Or.inl (Or.inr (by omega)))
            · exact Or.inr (by omega)
      · refine (((sta.comp stb).comp stc).comp std).congr fun i j => ?_
        unfold Inside Square
        rw [hN, hdouble]
        omega

end Davs2.Cs
