import Verif.Lemmas.Alf
import Verif.Lemmas.HeaderReader
import Verif.Model.PicHeader
/-
C44: adaptive loop filter.
-/
namespace Davs2.Al
open Davs2.Spec Davs2.Sa

variable {bd : Nat} {src : Plane} {w h : Int}

/-- Samples of at most ten bits. -/
def Legal (bd : Nat) (src : Plane) : Prop := ∀ x y, 0 ≤ src x y ∧ src x y ≤ 2 ^ bd - 1

theorem Legal.tap {x y : Int} (hb : bd ≤ 10) (hl : Legal bd src) (t : Int × Int) :
    0 ≤ alfTap src w h x y t ∧ alfTap src w h x y t ≤ 2046 := by
  have e : (2 : Int) ^ bd ≤ 2 ^ 10 := pow_le_pow_right₀ (by omega) hb
  unfold alfTap
  have h1 := hl (alfPos w h x y t.1 t.2).1 (alfPos w h x y t.1 t.2).2
  have h2 := hl (alfPos w h x y (-t.1) (-t.2)).1 (alfPos w h x y (-t.1) (-t.2)).2
  omega

/-- C44, filter: for weights of at most 16 bits the two passes leave exactly the filtered sample in every
place of the region, and nothing else changes.  Missing: larger weights, which the bitstream can carry;
see `C44_overflow_violated`. -/
theorem C44_filter_partial (hb : bd ≤ 10) (hl : Legal bd src) (hw : 2 ≤ w) (hh : 4 ≤ h) {raw : List Int} (hr : Small raw) (dst : OPlane) :
    ∃ c, recon raw = some c ∧ ∀ x y, filter bd c src w h dst x y =
      if 0 ≤ x ∧ x < w ∧ 0 ≤ y ∧ y < h then some (alfSample bd raw src w h x y) else dst x y := by
  obtain ⟨c, hc, ck, c8, b, b8⟩ := recon_some hr
  refine ⟨c, hc, fun x y => ?_⟩
  rw [filter_want hw hh]
  have e : (2 : Int) ^ bd ≤ 2 ^ 10 := pow_le_pow_right₀ (by omega) hb
  have hs := hl x y
  congr 1
  unfold wantPix
  dsimp only
  rw [pixel_some b b8 (by
    intro s hs
    simp only [List.mem_cons, List.not_mem_nil, or_false] at hs
    rcases hs with e | e | e | e | e | e | e | e <;> rw [e] <;> exact hl.tap hb _) (by omega)]
  rw [ck 0 (by omega), ck 1 (by omega), ck 2 (by omega), ck 3 (by omega), ck 4 (by omega), ck 5 (by omega), ck 6 (by omega), ck 7 (by omega), c8]
  unfold alfSample
  dsimp only
  obtain ⟨h1, -⟩ := hr
  match raw, h1 with
  | [r0, r1, r2, r3, r4, r5, r6, r7, r8], _ =>
    simp only [List.take, List.sum_cons, List.sum_nil, alfTaps, List.map, List.zip_cons_cons, List.zip_nil_right,
      List.foldr, List.getD_cons_succ, List.getD_cons_zero]
    congr 4
    ring

/-- C44, range: whatever the weights, a sample that the filter produces is a legal sample. -/
theorem C44_legal (c : Nat → Int) (s0 s1 s2 s3 s4 s7 s6 s5 s8 v : Int) (hv : pixel bd c s0 s1 s2 s3 s4 s7 s6 s5 s8 = some v) :
    0 ≤ v ∧ v ≤ 2 ^ bd - 1 := by
  unfold pixel at hv
  simp only [Option.bind_eq_bind, Option.bind_eq_some_iff, Option.some.injEq] at hv
  obtain ⟨a, -, b, -, e⟩ := hv
  have : (1 : Int) ≤ 2 ^ bd := one_le_pow₀ (by omega)
  rw [← e, clip_saturate]
  unfold saturate
  omega

theorem alfPos_near {x y dx dy : Int} (hx : 0 ≤ x ∧ x < w) (hy : 0 ≤ y ∧ y < h) (hdx : -3 ≤ dx ∧ dx ≤ 3) (hdy : -3 ≤ dy ∧ dy ≤ 3) :
    (-3 ≤ (alfPos w h x y dx dy).1 - x ∧ (alfPos w h x y dx dy).1 - x ≤ 3) ∧
      -3 ≤ (alfPos w h x y dx dy).2 - y ∧ (alfPos w h x y dx dy).2 - y ≤ 3 ∧
      0 ≤ (alfPos w h x y dx dy).2 ∧ (alfPos w h x y dx dy).2 < h := by
  unfold alfPos
  split <;> dsimp only <;> omega

/-- C44, flat areas: a filter that transmits no offset (last weight 0) leaves every sample unchanged that
equals all samples of its neighbourhood inside the rows of the region. -/
theorem C44_flat {raw : List Int} (hr : raw.length = 9) (h0 : raw.getD 8 0 = 0) {x y v : Int} (hx : 0 ≤ x ∧ x < w) (hy : 0 ≤ y ∧ y < h)
    (hv : 0 ≤ v ∧ v ≤ 2 ^ bd - 1)
    (hs : ∀ x' y', -3 ≤ x' - x → x' - x ≤ 3 → -3 ≤ y' - y → y' - y ≤ 3 → 0 ≤ y' → y' < h → src x' y' = v) :
    alfSample bd raw src w h x y = v := by
  have t : ∀ dx dy : Int, -3 ≤ dx ∧ dx ≤ 3 → -3 ≤ dy ∧ dy ≤ 3 → alfTap src w h x y (dx, dy) = 2 * v := by
    intro dx dy h1 h2
    unfold alfTap
    dsimp only
    obtain ⟨⟨a1, a2⟩, a3, a4, a5, a6⟩ := alfPos_near hx hy h1 h2
    obtain ⟨⟨b1, b2⟩, b3, b4, b5, b6⟩ := alfPos_near (dx := -dx) (dy := -dy) hx hy (by omega) (by omega)
    rw [hs _ _ a1 a2 a3 a4 a5 a6, hs _ _ b1 b2 b3 b4 b5 b6]
    omega
  have hc : src x y = v := hs x y (by omega) (by omega) (by omega) (by omega) hy.1 hy.2
  unfold alfSample
  dsimp only
  rw [h0, hc]
  match raw, hr with
  | [r0, r1, r2, r3, r4, r5, r6, r7, r8], _ =>
    simp only [List.take, List.sum_cons, List.sum_nil, alfTaps, List.map, List.zip_cons_cons, List.zip_nil_right, List.foldr,
      t 0 3 (by omega) (by omega), t 0 2 (by omega) (by omega), t 1 1 (by omega) (by omega), t 0 1 (by omega) (by omega),
      t (-1) 1 (by omega) (by omega), t 3 0 (by omega) (by omega), t 2 0 (by omega) (by omega), t 1 0 (by omega) (by omega)]
    rw [show r0 * (2 * v) + (r1 * (2 * v) + (r2 * (2 * v) + (r3 * (2 * v) + (r4 * (2 * v) + (r5 * (2 * v) + (r6 * (2 * v) +
      (r7 * (2 * v) + 0))))))) + (64 - 2 * (r0 + (r1 + (r2 + (r3 + (r4 + (r5 + (r6 + (r7 + 0)))))))) + 0) * v + 32 = 64 * v + 32 by ring]
    unfold saturate
    omega

/-! ### Tables -/

theorem rd_bind_inv {α β : Type} {x : Rd α} {f : α → Rd β} {m : Mem} {p : Nat} {r : β × Nat} (hb : (x >>= f) m p = .ok r) :
    ∃ a q, x m p = .ok (a, q) ∧ f a m q = .ok r := by
  change Rd.bind' x f m p = .ok r at hb
  unfold Rd.bind' at hb
  split at hb
  · rename_i a q e; exact ⟨a, q, e, hb⟩
  all_goals cases hb

theorem many_length {α : Type} (x : Rd α) (n : Nat) (m : Mem) (p : Nat) (l : List α) (q : Nat) (hm : rdMany x n m p = .ok (l, q)) :
    l.length = n := by
  induction n generalizing p l q with
  | zero => cases hm; rfl
  | succ n ih =>
    unfold rdMany at hm
    obtain ⟨a, q1, -, h2⟩ := rd_bind_inv hm
    obtain ⟨as, q2, h3, h4⟩ := rd_bind_inv h2
    cases h4
    rw [List.length_cons, ih _ _ _ h3]

theorem loop_ok (filters : Int) (n f : Nat) (pre : Int) (m : Mem) (p : Nat) (r : List (List Int) × List Int) (q : Nat)
    (h : alfLumaLoop filters n f pre m p = .ok (r, q)) :
    r.1.length = n ∧ r.2.length = (if f = 0 then n - 1 else n) ∧ (∀ k ∈ r.2, 0 ≤ k ∧ k < 16) ∧ (∀ c ∈ r.1, c.length = 9) ∧
      (n = 0 ∨ f + n ≤ 16) := by
  induction n generalizing f pre p r q with
  | zero => cases h; simp
  | succ n ih =>
    unfold alfLumaLoop at h
    by_cases hf : f = 0
    · subst hf
      rw [if_pos rfl] at h
      obtain ⟨c, q1, h1, h2⟩ := rd_bind_inv h
      obtain ⟨s, q2, h3, h4⟩ := rd_bind_inv h2
      cases h4
      obtain ⟨i1, i2, i3, i4, i5⟩ := ih _ _ _ _ _ h3
      have := many_length _ _ _ _ _ _ h1
      refine ⟨by simp [i1], ?_, i3, ?_, ?_⟩
      · rw [i2]; simp
      · intro c' hc; rcases List.mem_cons.1 hc with e | e
        · rw [e]; exact this
        · exact i4 _ e
      · omega
    · rw [if_neg hf] at h
      obtain ⟨sy, q0, h0, h⟩ := rd_bind_inv h
      split at h
      · cases h
      · split at h
        · cases h
        · rename_i k1 k2
          obtain ⟨c, q1, h1, h2⟩ := rd_bind_inv h
          obtain ⟨s, q2, h3, h4⟩ := rd_bind_inv h2
          cases h4
          obtain ⟨i1, i2, i3, i4, i5⟩ := ih _ _ _ _ _ h3
          have := many_length _ _ _ _ _ _ h1
          refine ⟨by simp [i1], ?_, ?_, ?_, ?_⟩
          · rw [if_neg hf, List.length_cons, i2]; simp
          · intro k hk; rcases List.mem_cons.1 hk with e | e
            · rw [e]; omega
            · exact i3 _ e
          · intro c' hc; rcases List.mem_cons.1 hc with e | e
            · rw [e]; exact this
            · exact i4 _ e
          · omega

theorem countP_step (l : List Int) (i : Nat) :
    (l.countP fun k => decide (k ≤ (i : Int))) + (if ((i + 1 : Nat) : Int) ∈ l then 1 else 0) ≤ l.countP fun k => decide (k ≤ ((i + 1 : Nat) : Int)) := by
  induction l with
  | nil => simp
  | cons a l ih =>
    rw [List.countP_cons, List.countP_cons]
    by_cases ha : a = ((i + 1 : Nat) : Int)
    · subst ha
      have : (List.countP (fun k => decide (k ≤ (i : Int))) l) ≤ List.countP (fun k => decide (k ≤ ((i + 1 : Nat) : Int))) l := by omega
      simp at this ⊢
      omega
    · by_cases hm : ((i + 1 : Nat) : Int) ∈ l
      · rw [if_pos hm] at ih
        rw [if_pos (List.mem_cons_of_mem _ hm)]
        simp only [decide_eq_true_eq]
        split <;> split <;> omega
      · rw [if_neg hm] at ih
        rw [if_neg (show ¬ ((i + 1 : Nat) : Int) ∈ a :: l by rw [List.mem_cons]; rintro (e | e); exacts [ha e.symm, hm e])]
        simp only [decide_eq_true_eq]
        split <;> split <;> omega

theorem varTab_le (filters : Nat) (marks : List Int) (i : Nat) : varTab filters marks i ≤ marks.countP fun k => decide (k ≤ (i : Int)) := by
  induction i with
  | zero => simp [varTab]
  | succ i ih =>
    unfold varTab
    split
    · exact le_trans (Nat.add_le_add_right ih _) (countP_step marks i)
    · omega

/-- C44, tables: whenever the luma parameters are read without leaving their arrays, there are at most
sixteen filters of nine weights each, and every coding tree of every picture selects one of them.
Missing: parameters that do leave the arrays, see `C44_tables_violated`; parameters cut off before the
number of filters, for which no filter is read at all. -/
theorem C44_tables_partial (m : Mem) (p : Nat) (a : AlfComp) (q : Nat) (hp : alfLuma m p = .ok (a, q)) :
    a.sets.length ≤ 16 ∧ (a.sets ≠ [] → ∀ wLcu hLcu i j : Nat, ∃ c, lumaCoeffs a.sets a.pattern wLcu hLcu i j = some c ∧ c ∈ a.sets ∧ c.length = 9) := by
  unfold alfLuma at hp
  obtain ⟨n, q1, -, h2⟩ := rd_bind_inv hp
  obtain ⟨r, q2, h3, h4⟩ := rd_bind_inv h2
  cases h4
  obtain ⟨i1, i2, i3, i4, i5⟩ := loop_ok _ _ _ _ _ _ _ _ h3
  refine ⟨by simp only; omega, fun hne wl hl i j => ?_⟩
  have hx : regionIdx hl j * 4 + regionIdx wl i < 16 := by
    unfold regionIdx; dsimp only
    split <;> split <;> omega
  obtain ⟨rg, hrg⟩ : ∃ rg, region wl hl i j = some rg := by
    unfold region
    exact ⟨_, List.getElem?_eq_getElem (by simpa [regionTable] using hx)⟩
  dsimp only at hne ⊢
  have hlt : varTab r.1.length r.2 rg < r.1.length := by
    have h5 := varTab_le r.1.length r.2 rg
    have h6 : List.countP (fun k => decide (k ≤ (rg : Int))) r.2 ≤ r.2.length := List.countP_le_length
    have h7 : r.1.length ≠ 0 := fun e => hne (List.length_eq_zero_iff.1 e)
    rw [if_pos rfl] at i2
    omega
  refine ⟨r.1[varTab r.1.length r.2 rg], ?_, List.getElem_mem _, i4 _ (List.getElem_mem _)⟩
  unfold lumaCoeffs
  rw [hrg]
  exact List.getElem?_eq_getElem hlt

/-- The sixteen classes of trees are numbered by a permutation: a table entry is used by one class. -/
theorem C44_regions : regionTable.Perm (List.range 16) := by decide

/-- C44: classes with consecutive numbers, which are the ones that can share a filter, are next to each other in the grid. -/
theorem C44_adjacent : ∀ a, a < 16 → ∀ b, b < 16 → regionTable.getD b 0 = regionTable.getD a 0 + 1 →
    (a / 4 = b / 4 ∧ (a % 4 + 1 = b % 4 ∨ b % 4 + 1 = a % 4)) ∨ (a % 4 = b % 4 ∧ (a / 4 + 1 = b / 4 ∨ b / 4 + 1 = a / 4)) := by
  decide

/-- C44: a row of `n` coding trees, `n` about four times `q`, is cut into four columns of the grid of which the first three are
`q` trees wide; with one or two trees all of them are in the last column.  The same holds for columns of trees. -/
theorem C44_grid (n q i : Nat) (h1 : 4 * q ≤ n + 1) (h2 : n < 4 * q + 3) :
    (q = 0 → regionIdx n i = 3) ∧ (0 < q → ∀ k, k < 3 → (regionIdx n i = k ↔ k * q ≤ i ∧ i < (k + 1) * q)) ∧
    (0 < q → (regionIdx n i = 3 ↔ 3 * q ≤ i)) := by
  have e : (n + 1) / 4 = q := by omega
  unfold regionIdx
  dsimp only
  rw [e]
  refine ⟨fun h => by rw [if_pos h], fun h k hk => ?_, fun h => ?_⟩
  · rw [if_neg (by omega)]
    have h3 : i / q = k ↔ k * q ≤ i ∧ i < (k + 1) * q := by
      have h4 : k ≤ i / q ↔ k * q ≤ i := Nat.le_div_iff_mul_le h
      have h5 : i / q < k + 1 ↔ i < (k + 1) * q := Nat.div_lt_iff_lt_mul h
      omega
    rw [← h3]
    omega
  · rw [if_neg (by omega)]
    have h3 : 3 ≤ i / q ↔ 3 * q ≤ i := Nat.le_div_iff_mul_le h
    omega

example : (List.range 9).map (regionIdx 9) = [0, 0, 1, 1, 2, 2, 3, 3, 3] := by decide

/-! ### Violations -/

/-- Two filters, the second one sixteen classes further on. -/
def badDistance : List Bool := ueCode 1 ++ List.replicate 9 true ++ ueCode 16

/-- C44 fails: there are picture headers whose parameters are stored outside the tables. -/
theorem C44_tables_violated : ∃ m, alfLuma m 0 = .oob := by
  refine ⟨memOfBits badDistance 4, ?_⟩
  decide +kernel

/-- Weights as transmitted for a chroma component: the first one is 2^24. -/
def bigWeights : List Int := [16777216, 0, 0, 0, 0, 0, 0, 0, 0]

/-- C44 fails: there are picture headers whose weights make the arithmetic overflow on a white block of
any size. -/
theorem C44_overflow_violated : ∃ m q c, alfChroma m 0 = .ok (⟨[bigWeights], []⟩, q) ∧ recon bigWeights = some c ∧
    ∀ w h x y, 0 ≤ x → x < w → 0 ≤ y → y < h → block1 8 c (fun _ _ => 255) w h (fun _ _ => some 0) x y = none := by
  have hr : Reads alfChroma ((bigWeights.map fun v => (seCode v, v)).flatMap (·.1)) ⟨[bigWeights], []⟩ := by
    unfold alfChroma
    have := Reads.many (x := rdSe) (bigWeights.map fun v => (seCode v, v)) (by
      intro e he
      obtain ⟨v, hv, rfl⟩ := List.mem_map.1 he
      apply Reads.se
      revert v
      decide)
    rw [← List.append_nil (List.flatMap _ _)]
    refine Reads.bind this ?_
    rw [List.map_map, show (Prod.snd ∘ fun v : Int => (seCode v, v)) = id from rfl, List.map_id]
    exact Reads.pure _
  refine ⟨memOfBits ((bigWeights.map fun v => (seCode v, v)).flatMap (·.1)) 0, _, _,
    hr _ 0 (memOfBits_bits _ _) ?_, rfl, ?_⟩
  · unfold memOfBits; dsimp only; omega
  · intro w h x y h1 h2 h3 h4
    rw [block1_eq, if_pos ⟨h1, h2, h3, h4⟩]
    rfl

/-! ### Examples -/

/-- A step edge at the left side of a region. -/
def edge : Plane := fun x _ => if x < 0 then 40 else 90

example : Small [1, 2, 3, 4, 3, 1, 2, 6, 5] ∧ alfSample 8 [1, 2, 3, 4, 3, 1, 2, 6, 5] edge 8 8 0 0 = 88 ∧
    alfSample 8 [1, 2, 3, 4, 3, 1, 2, 6, 5] edge 8 8 0 4 = 85 ∧ alfSample 8 [1, 2, 3, 4, 3, 1, 2, 6, 5] edge 8 8 5 4 = 97 := by decide

example : (filter 8 (fun k => [1, 2, 3, 4, 3, 1, 2, 6, 25].getD k 0) edge 8 8 (fun _ _ => none)) 0 0 =
    some (alfSample 8 [1, 2, 3, 4, 3, 1, 2, 6, 5] edge 8 8 0 0) := by decide +kernel

/-- Two filters, the boundary between the classes after class 4. -/
example : alfLuma (memOfBits (ueCode 1 ++ List.replicate 9 true ++ ueCode 5 ++ List.replicate 9 true) 4) 0 =
      .ok (⟨[List.replicate 9 0, List.replicate 9 0], [5]⟩, 26) ∧
    (List.range 16).map (varTab 2 [5]) = [0, 0, 0, 0, 0, 1, 1, 1, 1, 1, 1, 1, 1, 1, 1, 1] := by decide +kernel

end Davs2.Al
