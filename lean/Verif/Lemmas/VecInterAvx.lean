import Verif.Lemmas.VecInterBlocks
/-
The AVX2 versions of the interpolation, block by block.
-/
namespace Davs2.Vc
open Davs2.Sa (Plane)

/-- Packing the sums of the lower and the upper bytes restores the order of the bytes. -/
theorem u8_pack_ver {lo hi : V} {S : Nat → Int} (hlo : ∀ i, w16 lo i = S (16 * (i / 8) + i % 8)) (hhi : ∀ i, w16 hi i = S (16 * (i / 8) + 8 + i % 8))
    (hS : ∀ j, -32385 ≤ S j ∧ S j ≤ 32385) (j : Nat) : u8 (packus16y (round16 lo) (round16 hi)) j = clip1 ((S j + 32) / 64) := by
  rw [u8_packus16y, clip1_satu8]
  by_cases h : j % 16 < 8
  · rw [if_pos h, w16_round (hlo _) (hS _), show 16 * ((8 * (j / 16) + j % 16) / 8) + (8 * (j / 16) + j % 16) % 8 = j by omega]
  · rw [if_neg h, w16_round (hhi _) (hS _), show 16 * ((8 * (j / 16) + (j % 16 - 8)) / 8) + 8 + (8 * (j / 16) + (j % 16 - 8)) % 8 = j by omega]

theorem sum8_u8_range {c : List Int} (hc : Fit c) (t : Nat → V) (j : Nat) :
    -32385 ≤ sum8 c (fun k => u8 (t k) j) ∧ sum8 c (fun k => u8 (t k) j) ≤ 32385 := sum8_range hc (byteLike_t t j)

theorem u8_verL32 {c : List Int} (hc : Luma c) (t : Nat → V) (j : Nat) :
    u8 (packus16y (round16 (verL unpacklo8y c t)) (round16 (verL unpackhi8y c t))) j = clip1 ((sum8 c (fun k => u8 (t k) j) + 32) / 64) :=
  u8_pack_ver (S := fun j => sum8 c (fun k => u8 (t k) j)) (fun i => w16_verL hc.fit hc.sym (fun a b => u8_lo8y a b i) t)
    (fun i => w16_verL hc.fit hc.sym (fun a b => u8_hi8y a b i) t) (sum8_u8_range hc.fit t) j

theorem u8_verC32 {c : List Int} (hc : Chroma c) (t : Nat → V) (j : Nat) :
    u8 (packus16y (round16 (verC unpacklo8y c t)) (round16 (verC unpackhi8y c t))) j = clip1 ((sum8 c (fun k => u8 (t k) j) + 32) / 64) :=
  u8_pack_ver (S := fun j => sum8 c (fun k => u8 (t k) j)) (fun i => w16_verC hc.fit hc.four hc.sym (fun a b => u8_lo8y a b i) t)
    (fun i => w16_verC hc.fit hc.four hc.sym (fun a b => u8_hi8y a b i) t) (sum8_u8_range hc.fit t) j

variable {src : Plane} (hb : AllBytes src)
include hb

/-! ### Horizontal -/

theorem w16_horL94 {c : List Int} (hc : Luma c) (x y : Int) (j : Nat) (hj : j < 16) :
    w16 (horL c (permute4x64 0x94 (load src x y))) j = sum8 c (fun k => src (x + j + k) y) := by
  have := w16_horL hc.fit (permute4x64 0x94 (load src x y)) (j / 8) (j % 8) (by omega)
  rw [show 8 * (j / 8) + j % 8 = j by omega] at this
  rw [this]
  exact sum8_congr fun k hk => by
    rw [Nat.add_assoc, u8_p94 _ _ _ (by omega) (by omega), u8_ld hb]; exact pl _ (by omega) rfl

theorem w16_horC94 {c : List Int} (hc : Chroma c) (x y : Int) (j : Nat) (hj : j < 16) :
    w16 (horC c (permute4x64 0x94 (load src x y))) j = sum8 c (fun k => src (x + j + k) y) := by
  have := w16_horC hc.fit hc.four (permute4x64 0x94 (load src x y)) (j / 8) (j % 8) (by omega)
  rw [show 8 * (j / 8) + j % 8 = j by omega] at this
  rw [this]
  exact sum8_congr fun k hk => by
    rw [Nat.add_assoc, u8_p94 _ _ _ (by omega) (by omega), u8_ld hb]; exact pl _ (by omega) rfl

omit hb in
theorem fills_rows16 {f : Plane} {w h : Nat} (hw : w % 16 = 0) {k : Int → Int → V}
    (hk : ∀ x y j : Nat, j < 16 → u8 (k x y) j = f (x + j : Nat) y) (d : Plane) : Fills (Rg 0 w 0 h) f d (rows16 w h k d) := by
  refine fills_rows1 0 h (fun y _ d => ?_) d
  rw [zero_add]
  refine (fills_cols (y0 := y) (h := 1) 16 ((w + 15) / 16) (fun i _ d => ?_) d).congr fun x y => by unfold Rg; omega
  refine fills_maskstore (n := 4) fun j hj => ?_
  have := hk (16 * i) y j (by omega)
  push_cast at this ⊢
  exact this

theorem fills_lumaHorW16 {c : List Int} (hc : Luma c) (w h : Nat) (hw : w % 16 = 0) (d : Plane) :
    Fills (Rg 0 w 0 h) (horF 3 c src) d (lumaHorW16 src c w h d) := by
  refine fills_rows16 hw (fun x y j hj => ?_) d
  rw [u8_pack_perm _ _ _ (by omega), if_pos hj, w16_round (w16_horL94 hb hc _ _ j hj) (sum8_src hb hc.fit _ _), ← clip1_satu8]
  refine clip6 ?_
  exact sum8_congr fun k _ => pl _ (by push_cast; omega) rfl

theorem fills_chromaHorW16 {c : List Int} (hc : Chroma c) (w h : Nat) (hw : w % 16 = 0) (d : Plane) :
    Fills (Rg 0 w 0 h) (horF 1 c src) d (chromaHorW16 src c w h d) := by
  refine fills_rows16 hw (fun x y j hj => ?_) d
  rw [u8_pack_perm _ _ _ (by omega), if_pos hj, w16_round (w16_horC94 hb hc _ _ j hj) (sum8_src hb hc.fit _ _), ← clip1_satu8]
  refine clip6 ?_
  exact sum8_congr fun k _ => pl _ (by push_cast; omega) rfl

/-- Both halves of the sums without rearrangement: columns 0 to 7 and 16 to 23. -/
theorem w16_horL_half {c : List Int} (hc : Luma c) (x y : Int) (h r : Nat) (hr : r < 8) :
    w16 (horL c (load src x y)) (8 * h + r) = sum8 c (fun k => src (x + 16 * h + r + k) y) := by
  rw [w16_horL hc.fit _ h r hr]
  exact sum8_congr fun k hk => by rw [u8_ld hb]; exact pl _ (by push_cast; omega) rfl

theorem w16_horC_half {c : List Int} (hc : Chroma c) (x y : Int) (h r : Nat) (hr : r < 8) :
    w16 (horC c (load src x y)) (8 * h + r) = sum8 c (fun k => src (x + 16 * h + r + k) y) := by
  rw [w16_horC hc.fit hc.four _ h r hr]
  exact sum8_congr fun k hk => by rw [u8_ld hb]; exact pl _ (by push_cast; omega) rfl

theorem fills_lumaHorW24 {c : List Int} (hc : Luma c) (h : Nat) (d : Plane) :
    Fills (Rg 0 24 0 h) (horF 3 c src) d (lumaHorW24 src c h d) := by
  refine fills_rows1 0 h (fun y _ d => ?_) d
  rw [zero_add]
  refine fills_maskstore (n := 6) fun j hj => ?_
  rw [u8_packus16y]
  by_cases h8 : j % 16 < 8
  · rw [if_pos h8, w16_round (w16_horL_half hb hc _ _ (j / 16) (j % 16) h8) (sum8_src hb hc.fit _ _), ← clip1_satu8]
    refine clip6 ?_
    exact sum8_congr fun k _ => pl _ (by push_cast; omega) rfl
  · rw [if_neg h8, show 8 * (j / 16) + (j % 16 - 8) = j - 8 by omega, w16_midA hc.fit _ _ (by omega), ← clip1_satu8]
    refine clip6 ?_
    exact sum8_congr fun k _ => by rw [u8_ld hb]; exact pl _ (by push_cast; omega) rfl

theorem fills_chromaHorW24 {c : List Int} (hc : Chroma c) (h : Nat) (d : Plane) :
    Fills (Rg 0 24 0 h) (horF 1 c src) d (chromaHorW24 src c h d) := by
  refine fills_rows1 0 h (fun y _ d => ?_) d
  rw [zero_add]
  refine fills_maskstore (n := 6) fun j hj => ?_
  rw [u8_permutevar, u8_packus16y]
  by_cases h8 : j % 16 < 8
  · have e : 4 * [0, 1, 2, 6, 4, 5, 3, 7].getD (j / 4) 0 + j % 4 = j := by
      have : j / 4 = 0 ∨ j / 4 = 1 ∨ j / 4 = 4 ∨ j / 4 = 5 := by omega
      rcases this with h | h | h | h <;> rw [h] <;> simp only [List.getD_cons_zero, List.getD_cons_succ] <;> omega
    rw [e, if_pos h8, w16_round (w16_horC_half hb hc _ _ (j / 16) (j % 16) h8) (sum8_src hb hc.fit _ _), ← clip1_satu8]
    refine clip6 ?_
    exact sum8_congr fun k _ => pl _ (by push_cast; omega) rfl
  · have e : 4 * [0, 1, 2, 6, 4, 5, 3, 7].getD (j / 4) 0 + j % 4 = 8 + 16 * (j / 4 - 2) + j % 4 := by
      have : j / 4 = 2 ∨ j / 4 = 3 := by omega
      rcases this with h | h <;> rw [h] <;> simp only [List.getD_cons_zero, List.getD_cons_succ]
    rw [e, if_neg (by omega), show 8 * ((8 + 16 * (j / 4 - 2) + j % 4) / 16) + ((8 + 16 * (j / 4 - 2) + j % 4) % 16 - 8) =
      8 * (j / 4 - 2) + j % 4 by omega]
    have m := w16_midC hc.fit hc.four (load src (-1) y) (j / 4 - 2) (j % 4) (by omega) (by omega)
    simp only [u8_ld hb] at m
    rw [w16_round m (sum8_src hb hc.fit _ _), ← clip1_satu8]
    refine clip6 ?_
    exact sum8_congr fun k _ => pl _ (by omega) rfl

/-! ### Vertical -/

theorem verL32_eq {c : List Int} (hc : Luma c) (x y : Int) (j : Nat) : u8 (verL32 src c x y) j = verF 3 c src (x + j) y := by
  unfold verL32
  dsimp only
  rw [u8_verL32 hc]
  refine clip6 ?_
  exact sum8_congr fun k _ => u8_ld hb _ _ _

theorem verC32_eq {c : List Int} (hc : Chroma c) (y : Int) (j : Nat) : u8 (verC32 src c y) j = verF 1 c src (0 + j) y := by
  unfold verC32
  dsimp only
  rw [u8_verC32 hc]
  refine clip6 ?_
  exact sum8_congr fun k _ => u8_ld hb _ _ _

theorem fills_lumaVerW32 {c : List Int} (hc : Luma c) (h : Nat) (d : Plane) : Fills (Rg 0 32 0 h) (verF 3 c src) d (lumaVerW32 src c h d) := by
  refine fills_rows1 0 h (fun y _ d => ?_) d
  rw [zero_add]
  exact fills_store32 fun j _ => verL32_eq hb hc _ _ j

theorem fills_lumaVerW64 {c : List Int} (hc : Luma c) (h : Nat) (d : Plane) : Fills (Rg 0 64 0 h) (verF 3 c src) d (lumaVerW64 src c h d) := by
  refine fills_rows1 0 h (fun y _ d => ?_) d
  rw [zero_add]
  exact (fills_store32 fun j _ => verL32_eq hb hc _ _ j).trans (fills_store32 fun j _ => verL32_eq hb hc _ _ j) fun x y => by unfold Rg; omega

theorem fills_lumaVerW24 {c : List Int} (hc : Luma c) (h : Nat) (d : Plane) : Fills (Rg 0 24 0 h) (verF 3 c src) d (lumaVerW24 src c h d) := by
  refine fills_rows1 0 h (fun y _ d => ?_) d
  rw [zero_add]
  exact fills_maskstore (n := 6) fun j _ => verL32_eq hb hc _ _ j

theorem fills_lumaVerW48 {c : List Int} (hc : Luma c) (h : Nat) (d : Plane) : Fills (Rg 0 48 0 h) (verF 3 c src) d (lumaVerW48 src c h d) := by
  refine fills_rows1 0 h (fun y _ d => ?_) d
  rw [zero_add]
  exact (fills_store32 fun j _ => verL32_eq hb hc _ _ j).trans (fills_maskstore (n := 4) fun j _ => verL32_eq hb hc _ _ j) fun x y => by
    unfold Rg; omega

theorem fills_chromaVerW32 {c : List Int} (hc : Chroma c) (h : Nat) (d : Plane) : Fills (Rg 0 32 0 h) (verF 1 c src) d (chromaVerW32 src c h d) := by
  refine fills_rows1 0 h (fun y _ d => ?_) d
  rw [zero_add]
  exact fills_store32 fun j _ => verC32_eq hb hc _ j

theorem fills_chromaVerW24 {c : List Int} (hc : Chroma c) (h : Nat) (d : Plane) : Fills (Rg 0 24 0 h) (verF 1 c src) d (chromaVerW24 src c h d) := by
  refine fills_rows1 0 h (fun y _ d => ?_) d
  rw [zero_add]
  exact fills_maskstore (n := 6) fun j _ => verC32_eq hb hc _ j

omit hb in
/-- Two rows at once, the first in the upper half. -/
theorem fills_two {f d : Plane} {y : Int} {v : V} (hlo : ∀ j : Nat, j < 16 → u8 v j = f (0 + j) (y + 1))
    (hhi : ∀ j : Nat, j < 16 → u8 v (16 + j) = f (0 + j) y) : Fills (Rg 0 16 y 2) f d (storeu2 d 0 y 0 (y + 1) v) := by
  refine Fills.trans (S := Rg 0 16 (y + 1) 1) (T := Rg 0 16 y 1) (fills_store fun j hj => ?_) (fills_store fun j hj => ?_) fun x y => by
    unfold Rg; omega
  · rw [u8_low _ _ hj]; exact hlo j hj
  · rw [u8_high _ _ hj]; exact hhi j hj

theorem fills_lumaVerW16 {c : List Int} (hc : Luma c) (h : Nat) (h2 : h % 2 = 0) (d : Plane) :
    Fills (Rg 0 16 0 h) (verF 3 c src) d (lumaVerW16 src c h d) := by
  refine (fills_rows (f := verF 3 c src) (x0 := 0) (w := 16) 0 2 ((h + 1) / 2) (fun g _ d => ?_) d).congr fun x y => by unfold Rg; omega
  rw [zero_add]
  refine fills_two (y := 2 * g) (fun j hj => ?_) (fun j hj => ?_)
  · rw [u8_verL32 hc]
    refine clip6 ?_
    exact sum8_congr fun k _ => by rw [u8_setm_lo _ _ _ hj, u8_ld hb]; exact pl _ rfl (by push_cast; omega)
  · rw [u8_verL32 hc]
    refine clip6 ?_
    exact sum8_congr fun k _ => by rw [u8_setm_hi, u8_ld hb]

theorem fills_chromaVerW16 {c : List Int} (hc : Chroma c) (h : Nat) (h2 : h % 2 = 0) (d : Plane) :
    Fills (Rg 0 16 0 h) (verF 1 c src) d (chromaVerW16 src c h d) := by
  refine (fills_rows (f := verF 1 c src) (x0 := 0) (w := 16) 0 2 ((h + 1) / 2) (fun g _ d => ?_) d).congr fun x y => by unfold Rg; omega
  rw [zero_add]
  refine fills_two (y := 2 * g) (fun j hj => ?_) (fun j hj => ?_)
  · rw [u8_verC32 hc]
    refine clip6 ?_
    exact sum8_congr fun k _ => by rw [u8_setm_lo _ _ _ hj, u8_ld hb]; exact pl _ rfl (by push_cast; omega)
  · rw [u8_verC32 hc]
    refine clip6 ?_
    exact sum8_congr fun k _ => by rw [u8_setm_hi, u8_ld hb]

/-! ### Two passes -/

theorem fills_lumaTmpW16 {c : List Int} (hc : Luma c) (w h : Nat) (hw : w % 16 = 0) (t : Plane) :
    Fills (Rg 0 w 0 (h + 7 : Nat)) (tmpF 3 c src) t (lumaTmpW16 src c w h t) := by
  refine fills_rows1 0 (h + 7) (fun y _ t => ?_) t
  rw [zero_add]
  refine (fills_cols (y0 := y) (h := 1) 16 ((w + 15) / 16) (fun i _ d => ?_) t).congr fun x y => by unfold Rg; omega
  refine fills_storeW (n := 16) fun j hj => ?_
  rw [w16_horL94 hb hc _ _ j hj]
  exact sum8_congr fun k _ => pl _ (by push_cast; omega) rfl

theorem fills_chromaTmpW16 {c : List Int} (hc : Chroma c) (w h : Nat) (hw : w % 16 = 0) (t : Plane) :
    Fills (Rg 0 w 0 (h + 3 : Nat)) (tmpF 1 c src) t (chromaTmpW16 src c w h t) := by
  refine fills_rows1 0 (h + 3) (fun y _ t => ?_) t
  rw [zero_add]
  refine (fills_cols (y0 := y) (h := 1) 16 ((w + 15) / 16) (fun i _ d => ?_) t).congr fun x y => by unfold Rg; omega
  refine fills_storeW (n := 16) fun j hj => ?_
  rw [w16_horC94 hb hc _ _ j hj]
  exact sum8_congr fun k _ => pl _ (by push_cast; omega) rfl

theorem fills_lumaTmpW24 {c : List Int} (hc : Luma c) (h : Nat) (t : Plane) :
    Fills (Rg 0 24 0 (h + 7 : Nat)) (tmpF 3 c src) t (lumaTmpW24 src c h t) := by
  refine fills_rows1 0 (h + 7) (fun y _ t => ?_) t
  rw [zero_add]
  refine Fills.trans (S := Rg 0 8 y 1) (T := Rg 8 16 y 1) (fills_storeW (n := 8) fun j hj => ?_) (fills_storeW (n := 16) fun j hj => ?_)
    fun x y => by unfold Rg; omega
  · rw [w16_low _ _ hj, w16_horL_src hb hc.fit _ _ j hj]
    exact sum8_congr fun k _ => pl _ (by push_cast; omega) rfl
  · by_cases h8 : j < 8
    · rw [w16_permute2_lo _ _ _ h8, w16_midB hc.fit _ _ h8]
      exact sum8_congr fun k _ => by rw [u8_ld hb]; exact pl _ (by push_cast; omega) rfl
    · rw [w16_permute2_hi _ _ _ (by omega)]
      have := w16_horL_half hb hc (-3) (y - 3) 1 (j - 8) (by omega)
      rw [show 8 * 1 + (j - 8) = j by omega] at this
      rw [this]
      exact sum8_congr fun k _ => pl _ (by push_cast; omega) rfl

theorem fills_chromaTmpW24 {c : List Int} (hc : Chroma c) (h : Nat) (t : Plane) :
    Fills (Rg 0 24 0 (h + 3 : Nat)) (tmpF 1 c src) t (chromaTmpW24 src c h t) := by
  refine fills_rows1 0 (h + 3) (fun y _ t => ?_) t
  rw [zero_add]
  refine Fills.trans (S := Rg 0 8 y 1) (T := Rg 8 16 y 1) (fills_storeW (n := 8) fun j hj => ?_) (fills_storeW (n := 16) fun j hj => ?_)
    fun x y => by unfold Rg; omega
  · rw [w16_low _ _ hj, w16_horC_src hb hc _ _ j hj]
    exact sum8_congr fun k _ => pl _ (by push_cast; omega) rfl
  · by_cases h8 : j < 8
    · rw [w16_permute2_lo _ _ _ h8, w16_permute]
      obtain ⟨q, m, hq, hm, e, et⟩ : ∃ q m, q < 2 ∧ m < 8 ∧ 4 * (0xd8 / 4 ^ ((8 + j) / 4) % 4) + (8 + j) % 4 = 8 * q + m ∧ j = 4 * q + m % 4 := by
        interval_cases j
        exacts [⟨0, 4, by decide⟩, ⟨0, 5, by decide⟩, ⟨0, 6, by decide⟩, ⟨0, 7, by decide⟩, ⟨1, 4, by decide⟩, ⟨1, 5, by decide⟩,
          ⟨1, 6, by decide⟩, ⟨1, 7, by decide⟩]
      rw [e, w16_midC hc.fit hc.four _ _ _ hq hm, ← et]
      exact sum8_congr fun k _ => by rw [u8_ld hb]; exact pl _ (by push_cast; omega) rfl
    · rw [w16_permute2_hi _ _ _ (by omega)]
      have := w16_horC_half hb hc (-1) (y - 1) 1 (j - 8) (by omega)
      rw [show 8 * 1 + (j - 8) = j by omega] at this
      rw [this]
      exact sum8_congr fun k _ => pl _ (by push_cast; omega) rfl

theorem fills_lumaExtW16 {cx cy : List Int} (hx : Luma cx) (hy : Luma cy) (t0 : Plane) (w h : Nat) (hw : w % 16 = 0) (d : Plane) :
    Fills (Rg 0 w 0 h) (extF 3 cx cy src) d (lumaExtW16 src t0 cx cy w h d) := by
  have ht := fills_lumaTmpW16 hb hx w h hw t0
  unfold lumaExtW16
  dsimp only
  generalize lumaTmpW16 src cx w h t0 = t at ht
  refine fills_rows1 0 h (fun y hyh d => ?_) d
  rw [zero_add]
  refine (fills_cols (y0 := y) (h := 1) 16 ((w + 15) / 16) (fun i hi d => ?_) d).congr fun x y => by unfold Rg; omega
  refine fills_store fun j hj => ?_
  rw [u8_low _ _ hj, u8_pack_perm _ _ _ (by omega), if_pos hj, w16_extL hy.fit _ (fun h => h.elim), satu8_sat16]
  refine clip12 ?_
  refine sum8_congr fun k hk => ?_
  rw [w16_tmp hb hx.fit ht _ _ _ (by omega) (by omega)]
  exact sum8_congr fun k _ => pl _ (by push_cast; omega) (by push_cast; omega)

omit hb in
theorem sum8_congr4 {c : List Int} (hc : Chroma c) {s s' : Nat → Int} (e : ∀ k, k < 4 → s k = s' k) : sum8 c s = sum8 c s' := by
  have z := hc.four
  unfold sum8
  rw [z.1, z.2.1, z.2.2.1, z.2.2.2, e 0 (by omega), e 1 (by omega), e 2 (by omega), e 3 (by omega)]
  ring

theorem fills_chromaExtW16 {cx cy : List Int} (hx : Chroma cx) (hy : Chroma cy) (t0 : Plane) (sym : Prop) [Decidable sym] (hs : ¬ sym) (w h : Nat)
    (hw : w % 16 = 0) (d : Plane) : Fills (Rg 0 w 0 h) (extF 1 cx cy src) d (chromaExtW16 src t0 sym cx cy w h d) := by
  have ht := fills_chromaTmpW16 hb hx w h hw t0
  unfold chromaExtW16
  dsimp only
  generalize chromaTmpW16 src cx w h t0 = t at ht
  refine fills_rows1 0 h (fun y hyh d => ?_) d
  rw [zero_add]
  refine (fills_cols (y0 := y) (h := 1) 16 ((w + 15) / 16) (fun i hi d => ?_) d).congr fun x y => by unfold Rg; omega
  refine fills_store fun j hj => ?_
  rw [u8_low _ _ hj, u8_pack_perm _ _ _ (by omega), if_pos hj, w16_extC hy.fit hy.four _ hs, satu8_sat16]
  refine clip12 ?_
  refine sum8_congr4 hy fun k hk => ?_
  rw [w16_tmp hb hx.fit ht _ _ _ (by omega) (by omega)]
  exact sum8_congr fun k _ => pl _ (by push_cast; omega) (by push_cast; omega)

theorem fills_lumaExtW24 {cx cy : List Int} (hx : Luma cx) (hy : Luma cy) (t0 : Plane) (h : Nat) (d : Plane) :
    Fills (Rg 0 24 0 h) (extF 3 cx cy src) d (lumaExtW24 src t0 cx cy h d) := by
  have ht := fills_lumaTmpW24 hb hx h t0
  unfold lumaExtW24
  dsimp only
  generalize lumaTmpW24 src cx h t0 = t at ht
  refine fills_rows1 0 h (fun y hyh d => ?_) d
  rw [zero_add]
  refine fills_maskstore (n := 6) fun j hj => ?_
  rw [u8_pack_perm _ _ _ (by omega)]
  by_cases h16 : j < 16
  · rw [if_pos h16, w16_extL hy.fit _ (fun h => ⟨h, hy.sym h⟩), satu8_sat16]
    refine clip12 ?_
    refine sum8_congr fun k hk => ?_
    rw [w16_tmp hb hx.fit ht _ _ _ (by omega) (by omega)]
    exact sum8_congr fun k _ => pl _ (by push_cast; omega) (by push_cast; omega)
  · rw [if_neg h16, w16_extL hy.fit _ (fun h => ⟨h, hy.sym h⟩), satu8_sat16]
    refine clip12 ?_
    refine sum8_congr fun k hk => ?_
    rw [w16_tmp hb hx.fit ht _ _ _ (by omega) (by omega)]
    exact sum8_congr fun k _ => pl _ (by push_cast; omega) (by push_cast; omega)

theorem fills_chromaExtW24 {cx cy : List Int} (hx : Chroma cx) (hy : Chroma cy) (t0 : Plane) (sym : Prop) [Decidable sym] (hs : ¬ sym) (h : Nat)
    (d : Plane) : Fills (Rg 0 24 0 h) (extF 1 cx cy src) d (chromaExtW24 src t0 sym cx cy h d) := by
  have ht := fills_chromaTmpW24 hb hx h t0
  unfold chromaExtW24
  dsimp only
  generalize chromaTmpW24 src cx h t0 = t at ht
  refine fills_rows1 0 h (fun y hyh d => ?_) d
  rw [zero_add]
  refine fills_maskstore (n := 6) fun j hj => ?_
  rw [u8_pack_perm _ _ _ (by omega)]
  by_cases h16 : j < 16
  · rw [if_pos h16, w16_extC hy.fit hy.four _ hs, satu8_sat16]
    refine clip12 ?_
    refine sum8_congr4 hy fun k hk => ?_
    rw [w16_tmp hb hx.fit ht _ _ _ (by omega) (by omega)]
    exact sum8_congr fun k _ => pl _ (by push_cast; omega) (by push_cast; omega)
  · rw [if_neg h16, w16_extC hy.fit hy.four _ hs, satu8_sat16]
    refine clip12 ?_
    refine sum8_congr4 hy fun k hk => ?_
    rw [w16_tmp hb hx.fit ht _ _ _ (by omega) (by omega)]
    exact sum8_congr fun k _ => pl _ (by push_cast; omega) (by push_cast; omega)

end Davs2.Vc
