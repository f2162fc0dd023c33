import Verif.Model.Recon
import Mathlib.Tactic.Linarith
import Mathlib.Tactic.Ring
import Mathlib.Data.List.Nodup
/-
C39: reconstruction in place equals saturation of the exact sum.
-/
namespace Davs2.Rec

/-- Independent specification: saturation to the range of 8-bit samples. -/
def Spec.sat8 (v : Int) : Int := max 0 (min 255 v)

theorem clip1_sat8 (v : Int) : clip1 v = Spec.sat8 v := by
  unfold clip1 Spec.sat8
  split
  · omega
  · split <;> omega

/-- A sequence of read-modify-write steps at pairwise distinct addresses. -/
theorem fold_update {α : Type} (l : List α) (addr : α → Int) (f : α → Int → Int) (m : Int → Int)
    (hinj : (l.map addr).Nodup) :
    (∀ p ∈ l, (l.foldl (fun m p => store m (addr p) (f p (m (addr p)))) m) (addr p) = f p (m (addr p))) ∧
      ∀ x, (∀ p ∈ l, addr p ≠ x) → (l.foldl (fun m p => store m (addr p) (f p (m (addr p)))) m) x = m x := by
  induction l generalizing m with
  | nil => exact ⟨fun p hp => absurd hp (by simp), fun x _ => rfl⟩
  | cons q l ih =>
    rw [List.map_cons, List.nodup_cons] at hinj
    obtain ⟨hq, hl⟩ := hinj
    have hq' : ∀ p ∈ l, addr p ≠ addr q := fun p hp e => hq (e ▸ List.mem_map_of_mem hp)
    obtain ⟨i1, i2⟩ := ih (store m (addr q) (f q (m (addr q)))) hl
    refine ⟨?_, ?_⟩
    · intro p hp
      rw [List.foldl_cons]
      rcases List.mem_cons.mp hp with h | h
      · subst h
        rw [i2 _ hq']
        simp [store]
      · rw [i1 p h]
        simp [store, hq' p h]
    · intro x hx
      rw [List.foldl_cons, i2 x fun p hp => hx p (List.mem_cons_of_mem _ hp)]
      have := hx q List.mem_cons_self
      simp [store, Ne.symm this]

/-- The positions of a block in the order of the loops. -/
def positions (w h : Nat) : List (Nat × Nat) := (List.range h).flatMap fun y => (List.range w).map fun x => (x, y)

theorem mem_positions (w h : Nat) (p : Nat × Nat) : p ∈ positions w h ↔ p.1 < w ∧ p.2 < h := by
  unfold positions
  simp only [List.mem_flatMap, List.mem_map, List.mem_range]
  constructor
  · rintro ⟨y, hy, x, hx, rfl⟩; exact ⟨hx, hy⟩
  · intro h; exact ⟨p.2, h.2, p.1, h.1, rfl⟩

theorem nodup_positions (w h : Nat) : (positions w h).Nodup := by
  unfold positions
  rw [List.nodup_flatMap]
  refine ⟨fun y _ => (List.nodup_range).map fun a b e => by simpa using e, ?_⟩
  refine List.Nodup.pairwise_of_forall_ne List.nodup_range ?_
  intro a _ b _ hab
  show List.Disjoint _ _
  intro p h1 h2
  obtain ⟨x, _, rfl⟩ := List.mem_map.mp h1
  obtain ⟨x', _, e⟩ := List.mem_map.mp h2
  exact hab (by simpa using (congrArg Prod.snd e).symm)

theorem addPs_eq (coef : Int → Int) (w h : Nat) (m : Int → Int) (a ds c ss : Int) :
    addPs coef w h m a ds c ss = (positions w h).foldl (fun m p => store m (a + p.2 * ds + p.1)
      ((fun (p : Nat × Nat) v => clip1 (v + coef (c + p.2 * ss + p.1))) p (m (a + p.2 * ds + p.1)))) m := by
  unfold addPs positions addPsRow addPsStep
  rw [List.foldl_flatMap]
  simp only [List.foldl_map]

theorem addr_nodup (w h : Nat) (a ds : Int) (hw : (w : Int) ≤ ds) :
    ((positions w h).map fun p => a + (p.2 : Int) * ds + p.1).Nodup := by
  refine (nodup_positions w h).map_on ?_
  rintro ⟨x, y⟩ hp ⟨x', y'⟩ hq e
  obtain ⟨h1, h2⟩ := (mem_positions w h _).mp hp
  obtain ⟨h3, h4⟩ := (mem_positions w h _).mp hq
  dsimp only at *
  have hy : y = y' := by
    rcases lt_trichotomy y y' with hlt | heq | hgt
    · exfalso
      have : ((y : Int) + 1) * ds ≤ y' * ds := by
        apply mul_le_mul_of_nonneg_right <;> omega
      have : ((y : Int) + 1) * ds = y * ds + ds := by ring
      omega
    · exact heq
    · exfalso
      have : ((y' : Int) + 1) * ds ≤ y * ds := by
        apply mul_le_mul_of_nonneg_right <;> omega
      have : ((y' : Int) + 1) * ds = y' * ds + ds := by ring
      omega
  subst hy
  simp only [Prod.mk.injEq, and_true]
  omega

/-- C39: adding the residual in place gives, at every sample of the block, the saturated exact sum of the old sample
and its residual, and changes no other sample, for every block size, position and strides. -/
theorem C39_recon (coef : Int → Int) (w h : Nat) (m : Int → Int) (a ds c ss : Int) (hw : (w : Int) ≤ ds) :
    (∀ x y : Nat, x < w → y < h → addPs coef w h m a ds c ss (a + y * ds + x) =
      Spec.sat8 (m (a + y * ds + x) + coef (c + y * ss + x))) ∧
    ∀ z, (∀ x y : Nat, x < w → y < h → a + (y : Int) * ds + x ≠ z) → addPs coef w h m a ds c ss z = m z := by
  have := fold_update (positions w h) (fun p => a + (p.2 : Int) * ds + p.1)
    (fun (p : Nat × Nat) v => clip1 (v + coef (c + p.2 * ss + p.1))) m (addr_nodup w h a ds hw)
  rw [addPs_eq]
  refine ⟨?_, ?_⟩
  · intro x y hx hy
    have h := this.1 (x, y) ((mem_positions w h _).mpr ⟨hx, hy⟩)
    rw [← clip1_sat8]
    exact h
  · intro z hz
    apply this.2
    rintro ⟨x, y⟩ hp
    obtain ⟨h1, h2⟩ := (mem_positions w h _).mp hp
    exact hz x y h1 h2

example : (addPs (fun _ => 100) 4 4 (fun _ => 200) 0 16 0 4 35 = 255) ∧
    (addPs (fun _ => 100) 4 4 (fun _ => 200) 0 16 0 4 36 = 200) := by decide

/-- C39: a reconstructed sample is a legal sample, and a zero residual leaves the prediction as it is. -/
theorem C39_range (coef : Int → Int) (w h : Nat) (m : Int → Int) (a ds c ss : Int) (hw : (w : Int) ≤ ds)
    (hm : ∀ z, 0 ≤ m z ∧ m z ≤ 255) :
    (∀ z, 0 ≤ addPs coef w h m a ds c ss z ∧ addPs coef w h m a ds c ss z ≤ 255) ∧
      ((∀ z, coef z = 0) → addPs coef w h m a ds c ss = m) := by
  obtain ⟨h1, h2⟩ := C39_recon coef w h m a ds c ss hw
  have key : ∀ z, (∃ x y : Nat, x < w ∧ y < h ∧ a + (y : Int) * ds + x = z) ∨
      ∀ x y : Nat, x < w → y < h → a + (y : Int) * ds + x ≠ z := by
    intro z
    by_cases h : ∃ x y : Nat, x < w ∧ y < h ∧ a + (y : Int) * ds + x = z
    · exact Or.inl h
    · exact Or.inr fun x y hx hy e => h ⟨x, y, hx, hy, e⟩
  refine ⟨?_, ?_⟩
  · intro z
    rcases key z with ⟨x, y, hx, hy, rfl⟩ | hz
    · rw [h1 x y hx hy]; unfold Spec.sat8; omega
    · rw [h2 z hz]; exact hm z
  · intro hc
    funext z
    rcases key z with ⟨x, y, hx, hy, rfl⟩ | hz
    · rw [h1 x y hx hy, hc]
      have := hm (a + (y : Int) * ds + x)
      unfold Spec.sat8; omega
    · exact h2 z hz

theorem sshiftRight_31 (x : BitVec 32) : x.sshiftRight 31 = if x.msb then BitVec.allOnes 32 else 0#32 := by
  ext i hi
  rw [BitVec.getElem_sshiftRight]
  by_cases h0 : i = 0
  · subst h0
    simp only [Nat.add_zero]
    cases h : x.msb <;> simp [BitVec.msb_eq_getLsbD_last] at h ⊢ <;> simpa using h
  · have : ¬ 31 + i < 32 := by omega
    cases h : x.msb
    · simp [this]
    · rw [if_pos rfl, BitVec.getElem_allOnes]; simp [this]

theorem toInt_neg_iff (x : BitVec 32) : x.msb = true ↔ x.toInt < 0 := by
  rw [BitVec.msb_eq_toInt]; simp

/-- The branch-free saturation of `davs2_clip_pixel` equals saturation for every 32-bit value but the smallest (where
its negation overflows). -/
theorem C39_clip_pixel (x : BitVec 32) (h : x ≠ BitVec.intMin 32) :
    ∃ v, clipPixel x = some v ∧ v.toInt = Spec.sat8 x.toInt := by
  unfold clipPixel
  have hmask : ∀ i < 32, (~~~255#32).getLsbD i = decide (8 ≤ i) := by decide
  have hlow : x &&& ~~~255#32 = 0#32 ↔ x.toNat < 256 := by
    constructor
    · intro e
      have hbit : ∀ i, 8 ≤ i → x.toNat.testBit i = false := by
        intro i hi8
        by_cases hi : i < 32
        · have := congrArg (fun v : BitVec 32 => v.getLsbD i) e
          rw [BitVec.getLsbD_and, hmask i hi] at this
          simp only [hi8, decide_true, Bool.and_true, BitVec.getLsbD_zero] at this
          exact this
        · exact Nat.testBit_lt_two_pow (lt_of_lt_of_le x.isLt (Nat.pow_le_pow_right (by norm_num) (by omega)))
      exact Nat.lt_pow_two_of_testBit _ (n := 8) hbit
    · intro h
      apply BitVec.eq_of_getLsbD_eq
      intro i hi
      rw [BitVec.getLsbD_and, hmask i hi]
      by_cases h8 : 8 ≤ i
      · have : x.toNat.testBit i = false := Nat.testBit_lt_two_pow (lt_of_lt_of_le h (by
          calc 256 = 2 ^ 8 := by norm_num
            _ ≤ 2 ^ i := Nat.pow_le_pow_right (by norm_num) (by omega)))
        simp [BitVec.getLsbD, this]
      · simp [h8]
  have hint := BitVec.toInt_eq_toNat_cond x
  by_cases hc : x &&& ~~~255#32 = 0#32
  · rw [if_neg (by simpa using hc)]
    refine ⟨x, rfl, ?_⟩
    have := hlow.mp hc
    unfold Spec.sat8
    split at hint <;> omega
  · rw [if_pos hc, if_neg h]
    refine ⟨_, rfl, ?_⟩
    have hx : ¬ x.toNat < 256 := fun h => hc (hlow.mpr h)
    have hneg : (-x).toInt = -x.toInt := BitVec.toInt_neg_of_ne_intMin h
    rw [sshiftRight_31]
    by_cases hm : (-x).msb = true
    · have := (toInt_neg_iff _).mp hm
      rw [if_pos hm, BitVec.allOnes_and]
      have h255 : (255#32).toInt = 255 := by decide
      rw [h255]; unfold Spec.sat8
      split at hint <;> omega
    · have hm' : ¬ (-x).toInt < 0 := fun h => hm ((toInt_neg_iff _).mpr h)
      rw [if_neg hm, BitVec.zero_and]
      have h0 : (0#32).toInt = 0 := by decide
      rw [h0]; unfold Spec.sat8
      omega

example : clipPixel 300#32 = some 255#32 ∧ clipPixel (BitVec.ofInt 32 (-5)) = some 0#32 ∧
    clipPixel 77#32 = some 77#32 := by decide

/-- The sign helpers used when scaling motion vectors: `davs2_sign2` is -1 for negative values and 1 otherwise,
`davs2_sign3` is the sign. -/
theorem C39_sign (v : BitVec 32) : (sign2 v).toInt = (if v.toInt < 0 then -1 else 1) ∧
    (v ≠ BitVec.intMin 32 → ∃ w, sign3 v = some w ∧ w.toInt = v.toInt.sign) := by
  constructor
  · unfold sign2
    rw [sshiftRight_31]
    by_cases h : v.msb = true
    · rw [if_pos h, if_pos ((toInt_neg_iff v).mp h)]; decide
    · rw [if_neg h, if_neg (fun e => h ((toInt_neg_iff v).mpr e))]; decide
  · intro hv
    unfold sign3
    rw [if_neg hv, sshiftRight_31]
    refine ⟨_, rfl, ?_⟩
    have hneg : (-v).toInt = -v.toInt := BitVec.toInt_neg_of_ne_intMin hv
    have hsh : ∀ u : BitVec 32, u >>> 31 = if u.msb then 1#32 else 0#32 := by
      intro u
      apply BitVec.eq_of_toNat_eq
      rw [BitVec.toNat_ushiftRight, Nat.shiftRight_eq_div_pow]
      have := u.isLt
      by_cases h : u.msb = true
      · rw [if_pos h]
        rw [BitVec.msb_eq_decide] at h
        have : 2 ^ 31 ≤ u.toNat := by simpa using h
        show u.toNat / 2 ^ 31 = 1
        omega
      · rw [if_neg h]
        rw [BitVec.msb_eq_decide] at h
        have : u.toNat < 2 ^ 31 := by simpa using h
        show u.toNat / 2 ^ 31 = 0
        omega
    rw [hsh]
    rcases lt_trichotomy v.toInt 0 with h | h | h
    · have h2 : ¬ (-v).msb = true := fun e => by have := (toInt_neg_iff _).mp e; omega
      rw [if_pos ((toInt_neg_iff v).mpr h), if_neg h2, Int.sign_eq_neg_one_of_neg h]; decide
    · have h1 : ¬ v.msb = true := fun e => by have := (toInt_neg_iff _).mp e; omega
      have h2 : ¬ (-v).msb = true := fun e => by have := (toInt_neg_iff _).mp e; omega
      rw [if_neg h1, if_neg h2, h]; decide
    · have h1 : ¬ v.msb = true := fun e => by have := (toInt_neg_iff _).mp e; omega
      have h2 : (-v).msb = true := (toInt_neg_iff _).mpr (by omega)
      rw [if_neg h1, if_pos h2, Int.sign_eq_one_of_pos h]; decide

theorem subv_eq (a b : BitVec 32) (h : -2 ^ 31 ≤ a.toInt - b.toInt ∧ a.toInt - b.toInt < 2 ^ 31) :
    ∃ v, subv a b = some v ∧ v.toInt = a.toInt - b.toInt := by
  have hno : a.ssubOverflow b = false := by
    unfold BitVec.ssubOverflow; simp; omega
  unfold subv
  rw [hno]
  exact ⟨_, rfl, BitVec.toInt_sub_of_not_ssubOverflow (by simp [hno])⟩

theorem addv_eq (a b : BitVec 32) (h : -2 ^ 31 ≤ a.toInt + b.toInt ∧ a.toInt + b.toInt < 2 ^ 31) :
    ∃ v, addv a b = some v ∧ v.toInt = a.toInt + b.toInt := by
  have hno : a.saddOverflow b = false := by
    unfold BitVec.saddOverflow; simp; omega
  unfold addv
  rw [hno]
  exact ⟨_, rfl, BitVec.toInt_add_of_not_saddOverflow (by simp [hno])⟩

theorem negPart_eq (a b : BitVec 32) (h : -2 ^ 31 ≤ a.toInt - b.toInt ∧ a.toInt - b.toInt < 2 ^ 31) :
    ∃ v, negPart a b = some v ∧ v.toInt = min 0 (a.toInt - b.toInt) := by
  obtain ⟨v, hv, e⟩ := subv_eq a b h
  unfold negPart
  rw [hv]
  refine ⟨_, rfl, ?_⟩
  dsimp only
  rw [sshiftRight_31]
  by_cases hm : v.msb = true
  · have := (toInt_neg_iff v).mp hm
    rw [if_pos hm, BitVec.and_allOnes, e]; omega
  · have : ¬ v.toInt < 0 := fun h => hm ((toInt_neg_iff v).mpr h)
    rw [if_neg hm, BitVec.and_zero]
    have h0 : (0#32).toInt = 0 := by decide
    rw [h0]; omega

/-- The branch-free median is the median of three values, whenever their differences fit 32 bits. -/
theorem C39_median (a b c : BitVec 32)
    (hab : -2 ^ 31 ≤ a.toInt - b.toInt ∧ a.toInt - b.toInt < 2 ^ 31)
    (hbc : -2 ^ 31 ≤ b.toInt - c.toInt ∧ b.toInt - c.toInt < 2 ^ 31)
    (hac : -2 ^ 31 ≤ a.toInt - c.toInt ∧ a.toInt - c.toInt < 2 ^ 31) :
    ∃ m, median a b c = some m ∧
      m.toInt = max (min a.toInt b.toInt) (min (max a.toInt b.toInt) c.toInt) := by
  have ra := (⟨BitVec.le_toInt a, BitVec.toInt_lt (x := a)⟩ : _ ∧ _)
  have rb := (⟨BitVec.le_toInt b, BitVec.toInt_lt (x := b)⟩ : _ ∧ _)
  have rc := (⟨BitVec.le_toInt c, BitVec.toInt_lt (x := c)⟩ : _ ∧ _)
  obtain ⟨t, ht, et⟩ := negPart_eq a b hab
  obtain ⟨a', ha, ea⟩ := subv_eq a t (by omega)
  obtain ⟨b', hb, eb⟩ := addv_eq b t (by omega)
  obtain ⟨u, hu, eu⟩ := negPart_eq b' c (by omega)
  obtain ⟨b2, hb2, eb2⟩ := subv_eq b' u (by omega)
  obtain ⟨w, hw, ew⟩ := negPart_eq a' b2 (by omega)
  obtain ⟨b3, hb3, eb3⟩ := addv_eq b2 w (by omega)
  refine ⟨b3, ?_, by omega⟩
  unfold median
  simp only [Option.bind_eq_bind, ht, ha, hb, hu, hb2, hw, hb3, Option.bind_some]

example : ∃ m, median 7#32 (BitVec.ofInt 32 (-3)) 5#32 = some m ∧ m.toInt = 5 := ⟨5#32, by decide, by decide⟩

end Davs2.Rec
