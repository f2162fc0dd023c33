import Verif.Lemmas.VecInter
import Mathlib.Tactic.Ring
import Mathlib.Tactic.Positivity
/-
The vector versions of the interpolation, block by block: each fills its block with the interpolated samples and nothing else.
-/
namespace Davs2.Vc
open Davs2.Sa (Plane)

/-! ### Filling a region -/

/-- The columns from `x0` on, `w` of them, and the rows from `y0` on, `h` of them. -/
def Rg (x0 w y0 h x y : Int) : Prop := x0 ≤ x ∧ x < x0 + w ∧ y0 ≤ y ∧ y < y0 + h

/-- `d` is `f` in the region and `d0` elsewhere. -/
def Fills (S : Int → Int → Prop) (f d0 d : Plane) : Prop := ∀ x y, (S x y → d x y = f x y) ∧ (¬ S x y → d x y = d0 x y)

theorem Fills.none {S : Int → Int → Prop} (f d : Plane) (h : ∀ x y, ¬ S x y) : Fills S f d d := fun x y => ⟨fun a => absurd a (h x y), fun _ => rfl⟩

theorem Fills.trans {S T U : Int → Int → Prop} {f d0 d1 d2 : Plane} (a : Fills S f d0 d1) (b : Fills T f d1 d2)
    (h : ∀ x y, U x y ↔ S x y ∨ T x y) : Fills U f d0 d2 := by
  intro x y
  constructor
  · intro u
    by_cases t : T x y
    · exact (b x y).1 t
    · rw [(b x y).2 t]
      exact (a x y).1 (((h x y).1 u).resolve_right t)
  · intro u
    rw [(b x y).2 (fun t => u ((h x y).2 (Or.inr t))), (a x y).2 (fun s => u ((h x y).2 (Or.inl s)))]

theorem Fills.congr {S T : Int → Int → Prop} {f d0 d : Plane} (a : Fills S f d0 d) (h : ∀ x y, T x y ↔ S x y) : Fills T f d0 d :=
  fun x y => ⟨fun t => (a x y).1 ((h x y).1 t), fun t => (a x y).2 (fun s => t ((h x y).2 s))⟩

theorem fills_cols {f : Plane} {y0 h : Int} (a N : Nat) {step : Nat → Plane → Plane}
    (hs : ∀ i, i < N → ∀ d, Fills (Rg (a * i) a y0 h) f d (step i d)) (d : Plane) : Fills (Rg 0 (a * N) y0 h) f d (times step N d) := by
  induction N with
  | zero => exact Fills.none _ _ (fun x y => by unfold Rg; simp only [Nat.cast_zero, mul_zero]; omega)
  | succ N ih =>
    refine (ih (fun i hi => hs i (by omega))).trans (hs N (by omega) _) fun x y => ?_
    unfold Rg
    have e : (a : Int) * ((N + 1 : Nat) : Int) = a * N + a := by push_cast; ring
    have p : (0 : Int) ≤ a * N := by positivity
    rw [e]
    generalize (a : Int) * N = m at *
    omega

theorem fills_rows {f : Plane} {x0 w : Int} (y0 : Int) (a N : Nat) {step : Nat → Plane → Plane}
    (hs : ∀ i, i < N → ∀ d, Fills (Rg x0 w (y0 + a * i) a) f d (step i d)) (d : Plane) : Fills (Rg x0 w y0 (a * N)) f d (times step N d) := by
  induction N with
  | zero => exact Fills.none _ _ (fun x y => by unfold Rg; simp only [Nat.cast_zero, mul_zero]; omega)
  | succ N ih =>
    refine (ih (fun i hi => hs i (by omega))).trans (hs N (by omega) _) fun x y => ?_
    unfold Rg
    have e : (a : Int) * ((N + 1 : Nat) : Int) = a * N + a := by push_cast; ring
    have p : (0 : Int) ≤ a * N := by positivity
    rw [e]
    generalize (a : Int) * N = m at *
    omega

theorem fills_rows1 {f : Plane} {x0 w : Int} (y0 : Int) (N : Nat) {step : Nat → Plane → Plane}
    (hs : ∀ i, i < N → ∀ d, Fills (Rg x0 w (y0 + i) 1) f d (step i d)) (d : Plane) : Fills (Rg x0 w y0 N) f d (times step N d) := by
  have := fills_rows (f := f) (x0 := x0) (w := w) y0 1 N (step := step) (fun i hi d => (hs i hi d).congr fun x y => by
    unfold Rg; simp only [Nat.cast_one, one_mul]) d
  exact this.congr fun x y => by simp only [Nat.cast_one, one_mul]

theorem fills_put {f d : Plane} {x y n : Int} {g : Nat → Int} (hg : ∀ j : Nat, (j : Int) < n → g j = f (x + j) y) :
    Fills (Rg x n y 1) f d (fun x' y' => if y' = y ∧ x ≤ x' ∧ x' < x + n then g (x' - x).toNat else d x' y') := by
  intro x' y'
  constructor
  · intro h
    unfold Rg at h
    have hy : y' = y := by omega
    subst hy
    refine (if_pos ⟨rfl, h.1, h.2.1⟩).trans ?_
    rw [hg _ (by omega)]
    congr 1; omega
  · intro h
    exact if_neg fun c => h (by unfold Rg; omega)

theorem fills_store {f d : Plane} {x y : Int} {v : V} (hg : ∀ j : Nat, j < 16 → u8 v j = f (x + j) y) : Fills (Rg x 16 y 1) f d (store d x y v) :=
  fills_put fun j hj => hg j (by omega)
theorem fills_storel {f d : Plane} {x y : Int} {v : V} (hg : ∀ j : Nat, j < 8 → u8 v j = f (x + j) y) : Fills (Rg x 8 y 1) f d (storel d x y v) :=
  fills_put fun j hj => hg j (by omega)
theorem fills_store32 {f d : Plane} {x y : Int} {v : V} (hg : ∀ j : Nat, j < 32 → u8 v j = f (x + j) y) : Fills (Rg x 32 y 1) f d (store32 d x y v) :=
  fills_put fun j hj => hg j (by omega)
theorem fills_maskstore {f d : Plane} {x y : Int} {v : V} {n : Nat} (hg : ∀ j : Nat, j < 4 * n → u8 v j = f (x + j) y) :
    Fills (Rg x (4 * n) y 1) f d (maskstore d x y v n) := fills_put fun j hj => hg j (by omega)
theorem fills_storeW {f d : Plane} {x y : Int} {v : V} {n : Nat} (hg : ∀ j : Nat, j < n → w16 v j = f (x + j) y) :
    Fills (Rg x n y 1) f d (storeW d x y v n) := fills_put fun j hj => hg j (by omega)

theorem fills_storeMask {f d : Plane} {x y : Int} {v : V} {m : Nat} (h1 : 1 ≤ m) (h2 : m ≤ 15) (hg : ∀ j : Nat, j < m → u8 v j = f (x + j) y) :
    Fills (Rg x m y 1) f d (storeMask d x y v (m - 1)) := by
  obtain ⟨M, hM⟩ : ∃ M, maskRow ((m : Int) - 1) = some M := by unfold maskRow; rw [if_pos (by omega)]; exact ⟨_, rfl⟩
  have hm := maskRow_msb hM
  have e : storeMask d x y v (m - 1) = maskmove d x y v M := by unfold storeMask; rw [hM]
  rw [e]
  intro x' y'
  unfold maskmove Rg
  constructor
  · intro h
    have hy : y' = y := by omega
    subst hy
    rw [if_pos ⟨rfl, h.1, by omega, (hm _).2 (by omega)⟩, hg _ (by omega)]
    congr 1; omega
  · intro h
    refine if_neg fun c => h ?_
    have := (hm _).1 c.2.2.2
    omega

theorem fills_group8 {f : Plane} {n w : Nat} {k : Nat → Int → V} {y : Int}
    (hk : ∀ r, r < n → ∀ x j : Nat, j < 8 → x + j < w → u8 (k r x) j = f (x + j : Nat) (y + r)) (d : Plane) :
    Fills (Rg 0 w y n) f d (group8 n w k y d) := by
  have full : ∀ d, Fills (Rg 0 ((8 : Nat) * (w / 8 : Nat)) y n) f d
      (times (fun c d => times (fun r d => storel d (8 * c) (y + r) (k r (8 * c))) n d) (w / 8) d) := by
    intro d
    refine fills_cols 8 (w / 8) (fun c hc d => ?_) d
    refine fills_rows1 y n (fun r hr d => ?_) d
    refine (fills_storel fun j hj => ?_)
    have := hk r hr (8 * c) j hj (by omega)
    push_cast at this
    exact this
  unfold group8
  dsimp only
  by_cases h : w % 8 = 0
  · rw [if_pos h]
    exact (full d).congr fun x y => by unfold Rg; omega
  · rw [if_neg h]
    refine (full d).trans (T := Rg (8 * (w / 8 : Nat)) (w % 8 : Nat) y n) ?_ fun x y => by unfold Rg; omega
    refine fills_rows1 y n (fun r hr d => ?_) _
    have := fills_storeMask (f := f) (d := d) (x := 8 * (w / 8 : Nat)) (y := y + r) (v := k r (8 * (w / 8 : Nat))) (m := w % 8) (by omega) (by omega)
      (fun j hj => by
        have := hk r hr (8 * (w / 8)) j (by omega) (by omega)
        push_cast at this ⊢
        exact this)
    push_cast at this ⊢
    exact this

/-! ### The interpolated samples -/

def horF (o : Int) (c : List Int) (src : Plane) : Plane := fun x y => clip1 ((sum8 c (fun k => src (x - o + k) y) + 32) / 64)
def verF (o : Int) (c : List Int) (src : Plane) : Plane := fun x y => clip1 ((sum8 c (fun k => src x (y - o + k)) + 32) / 64)
/-- Row `y` of the array between the passes belongs to row `y - o` of the source. -/
def tmpF (o : Int) (c : List Int) (src : Plane) : Plane := fun x y => sum8 c (fun k => src (x - o + k) (y - o))
def extF (o : Int) (cx cy : List Int) (src : Plane) : Plane := fun x y =>
  clip1 ((sum8 cy (fun t => sum8 cx (fun k => src (x - o + k) (y - o + t))) + 2048) / 4096)

theorem clip6 {a b : Int} (h : a = b) : clip1 ((a + 32) / 64) = clip1 ((b + 32) / 64) := by rw [h]
theorem clip12 {a b : Int} (h : a = b) : clip1 ((a + 2048) / 4096) = clip1 ((b + 2048) / 4096) := by rw [h]
theorem pl (p : Plane) {x x' y y' : Int} (hx : x = x') (hy : y = y') : p x y = p x' y' := by rw [hx, hy]

/-- All samples are bytes. -/
def AllBytes (src : Plane) : Prop := ∀ x y, 0 ≤ src x y ∧ src x y ≤ 255

structure Luma (c : List Int) : Prop where
  fit : Fit c
  sym : Sym8 c

structure Chroma (c : List Int) : Prop where
  fit : Fit c
  four : tap c 4 = 0 ∧ tap c 5 = 0 ∧ tap c 6 = 0 ∧ tap c 7 = 0
  sym : Sym4 c

variable {src : Plane} (hb : AllBytes src)
include hb

theorem u8_ld (x y : Int) (j : Nat) : u8 (load src x y) j = src (x + j) y := u8_load src x y j (hb _ _)

theorem sum8_src {c : List Int} (hc : Fit c) (px py : Nat → Int) : -32385 ≤ sum8 c (fun k => src (px k) (py k)) ∧ sum8 c (fun k => src (px k) (py k)) ≤ 32385 :=
  sum8_range hc fun k _ => by have := hb (px k) (py k); omega

theorem w16_horL_src {c : List Int} (hc : Fit c) (x y : Int) (j : Nat) (hj : j < 8) :
    w16 (horL c (load src x y)) j = sum8 c (fun k => src (x + j + k) y) := by
  have := w16_horL hc (load src x y) 0 j hj
  simp only [Nat.mul_zero, Nat.zero_add] at this
  rw [this]
  exact sum8_congr fun k _ => by rw [u8_ld hb]; exact pl _ (by push_cast; omega) rfl

theorem w16_horC_src {c : List Int} (hc : Chroma c) (x y : Int) (j : Nat) (hj : j < 8) :
    w16 (horC c (load src x y)) j = sum8 c (fun k => src (x + j + k) y) := by
  have := w16_horC hc.fit hc.four (load src x y) 0 j hj
  simp only [Nat.mul_zero, Nat.zero_add] at this
  rw [this]
  exact sum8_congr fun k _ => by rw [u8_ld hb]; exact pl _ (by push_cast; omega) rfl

/-! ### SSE4 -/

theorem fills_lumaHorS {c : List Int} (hc : Luma c) (w h : Nat) (d : Plane) : Fills (Rg 0 w 0 h) (horF 3 c src) d (lumaHorS src c w h d) := by
  refine fills_rows1 0 h (fun y _ d => ?_) d
  rw [zero_add]
  refine fills_group8 (n := 1) (fun r hr x j hj hx => ?_) d
  rw [u8_fin8 hj (w16_horL_src hb hc.fit _ _ j hj) (sum8_src hb hc.fit _ _)]
  refine clip6 ?_
  exact sum8_congr fun k _ => pl _ (by push_cast; omega) (by push_cast; omega)

theorem fills_chromaHorS {c : List Int} (hc : Chroma c) (w h : Nat) (d : Plane) : Fills (Rg 0 w 0 h) (horF 1 c src) d (chromaHorS src c w h d) := by
  refine fills_rows1 0 h (fun y _ d => ?_) d
  rw [zero_add]
  refine fills_group8 (n := 1) (fun r hr x j hj hx => ?_) d
  rw [u8_fin8 hj (w16_horC_src hb hc _ _ j hj) (sum8_src hb hc.fit _ _)]
  refine clip6 ?_
  exact sum8_congr fun k _ => pl _ (by push_cast; omega) (by push_cast; omega)

omit hb in
theorem lo8 (j : Nat) (hj : j < 8) (a b : V) : u8 (unpacklo8y a b) (2 * j) = u8 a j ∧ u8 (unpacklo8y a b) (2 * j + 1) = u8 b j := by
  have := u8_lo8y a b j; rwa [show 16 * (j / 8) + j % 8 = j by omega] at this

theorem fills_lumaVerS {c : List Int} (hc : Luma c) (w h : Nat) (h4 : h % 4 = 0) (d : Plane) :
    Fills (Rg 0 w 0 h) (verF 3 c src) d (lumaVerS src c w h d) := by
  refine (fills_rows (f := verF 3 c src) (x0 := 0) (w := w) 0 4 (h / 4) (fun g _ d => ?_) d).congr fun x y => by unfold Rg; omega
  rw [zero_add]
  refine fills_group8 (n := 4) (y := 4 * g) (fun r hr x j hj hx => ?_) d
  have e := w16_verL hc.fit hc.sym (lo8 j hj) (fun i => load src x (4 * g - 3 + (r + i : Nat)))
  simp only [u8_ld hb] at e
  rw [u8_fin8 hj e (sum8_src hb hc.fit _ _)]
  refine clip6 ?_
  exact sum8_congr fun k _ => pl _ (by push_cast; omega) (by push_cast; omega)

theorem fills_lumaVer3S {c : List Int} (hc : Luma c) (k : List Int → (Nat → V) → V)
    (hk : ∀ t j, j < 8 → w16 (k c t) j = sum8 c fun i => u8 (t i) j) (w h : Nat) (d : Plane) :
    Fills (Rg 0 w 0 h) (verF 3 c src) d (lumaVer3S src k c w h d) := by
  refine fills_rows1 0 h (fun y _ d => ?_) d
  rw [zero_add]
  refine fills_group8 (n := 1) (fun r hr x j hj hx => ?_) d
  have e := hk (fun i => load src x (y - 3 + (r + i : Nat))) j hj
  simp only [u8_ld hb] at e
  rw [u8_fin8 hj e (sum8_src hb hc.fit _ _)]
  refine clip6 ?_
  exact sum8_congr fun k _ => pl _ (by push_cast; omega) (by push_cast; omega)

theorem fills_chromaVerS {c : List Int} (hc : Chroma c) (w h : Nat) (d : Plane) :
    Fills (Rg 0 w 0 h) (verF 1 c src) d (chromaVerS src c w h d) := by
  unfold chromaVerS
  dsimp only
  have a : ∀ d, Fills (Rg 0 w 0 ((4 : Nat) * (h / 4 : Nat))) (verF 1 c src) d (times (fun g d => group8 4 w (fun r x =>
      fin8 (verC unpacklo8y c fun i => load src x (4 * g - 1 + (r + i : Nat)))) (4 * g) d) (h / 4) d) := by
    intro d
    refine fills_rows 0 4 (h / 4) (fun g _ d => ?_) d
    rw [zero_add]
    refine fills_group8 (n := 4) (y := 4 * g) (fun r hr x j hj hx => ?_) d
    have e := w16_verC hc.fit hc.four hc.sym (lo8 j hj) (fun i => load src x (4 * g - 1 + (r + i : Nat)))
    simp only [u8_ld hb] at e
    rw [u8_fin8 hj e (sum8_src hb hc.fit _ _)]
    refine clip6 ?_
    exact sum8_congr fun k _ => pl _ (by push_cast; omega) (by push_cast; omega)
  refine (a d).trans (T := Rg 0 w (4 * (h / 4 : Nat)) (h % 4 : Nat)) ?_ fun x y => by unfold Rg; omega
  refine fills_rows1 _ (h % 4) (fun y _ d => ?_) _
  refine fills_group8 (n := 1) (fun r hr x j hj hx => ?_) d
  have e := w16_verC hc.fit hc.four hc.sym (lo8 j hj) (fun i => load src x (4 * (h / 4 : Nat) + y - 1 + (r + i : Nat)))
  simp only [u8_ld hb] at e
  rw [u8_fin8 hj e (sum8_src hb hc.fit _ _)]
  refine clip6 ?_
  exact sum8_congr fun k _ => pl _ (by push_cast; omega) (by push_cast; omega)

theorem fills_lumaTmpS {c : List Int} (hc : Luma c) (w h : Nat) (t : Plane) :
    Fills (Rg 0 (8 * ((w + 7) / 8 : Nat)) 0 (h + 7 : Nat)) (tmpF 3 c src) t (lumaTmpS src c w h t) := by
  refine fills_rows1 0 (h + 7) (fun y _ t => ?_) t
  rw [zero_add]
  refine fills_cols 8 ((w + 7) / 8) (fun k _ t => ?_) t
  refine (fills_storeW (n := 8) fun j hj => ?_)
  rw [w16_horL_src hb hc.fit _ _ j hj]
  unfold tmpF
  exact sum8_congr fun k _ => pl _ (by push_cast; omega) (by push_cast; omega)

theorem fills_chromaTmpS {c : List Int} (hc : Chroma c) (w h : Nat) (t : Plane) :
    ∃ W : Nat, w ≤ W ∧ Fills (Rg 0 W 0 (h + 3 : Nat)) (tmpF 1 c src) t (chromaTmpS src c w h t) := by
  unfold chromaTmpS
  by_cases hw : w > 4
  · rw [if_pos hw]
    refine ⟨8 * ((w + 7) / 8), by omega, ?_⟩
    refine fills_rows1 0 (h + 3) (fun y _ t => ?_) t
    rw [zero_add]
    push_cast
    refine fills_cols 8 ((w + 7) / 8) (fun k _ t => ?_) t
    refine (fills_storeW (n := 8) fun j hj => ?_)
    rw [w16_horC_src hb hc _ _ j hj]
    unfold tmpF
    exact sum8_congr fun k _ => pl _ (by push_cast; omega) (by push_cast; omega)
  · rw [if_neg hw]
    refine ⟨4, by omega, ?_⟩
    refine fills_rows1 0 (h + 3) (fun y _ t => ?_) t
    rw [zero_add]
    refine (fills_storeW (n := 4) fun j hj => ?_)
    have e := w16_horC_src hb hc (-1) (y - 1) j (by omega)
    have e0 := w16_hadd_lo (maddubs (shuffle8y (load src (-1) (y - 1)) (setrBoth swC1)) (set1_c4 c))
      (maddubs (shuffle8y (load src (-1) (y - 1)) (setrBoth swC1)) (set1_c4 c)) 0 j hj
    have e1 := w16_hadd_lo (maddubs (shuffle8y (load src (-1) (y - 1)) (setrBoth swC1)) (set1_c4 c))
      (maddubs (shuffle8y (load src (-1) (y - 1)) (setrBoth swC2)) (set1_c4 c)) 0 j hj
    simp only [Nat.mul_zero, Nat.zero_add] at e0 e1
    rw [e0, ← e1]
    refine Eq.trans e ?_
    unfold tmpF
    exact sum8_congr fun k _ => pl _ (by push_cast; omega) (by push_cast; omega)

/-- A word of the array between the passes. -/
theorem w16_tmp {o : Int} {c : List Int} (hc : Fit c) {t0 t : Plane} {W H : Int} (ht : Fills (Rg 0 W 0 H) (tmpF o c src) t0 t) (x y : Int) (j : Nat)
    (hx : 0 ≤ x + j ∧ x + j < W) (hy : 0 ≤ y ∧ y < H) : w16 (loadW t x y) j = sum8 c (fun k => src (x + j - o + k) (y - o)) := by
  rw [w16_loadW, (ht (x + j) y).1 ⟨hx.1, by omega, hy.1, by omega⟩, wrap16_id]
  · rfl
  · have := sum8_src hb hc (fun k => x + j - o + k) (fun _ => y - o)
    unfold tmpF; omega

theorem fills_lumaExtS {cx cy : List Int} (hx : Luma cx) (hy : Luma cy) (t0 : Plane) (w h : Nat) (h4 : h % 4 = 0) (d : Plane) :
    Fills (Rg 0 w 0 h) (extF 3 cx cy src) d (lumaExtS src t0 cx cy w h d) := by
  have ht := fills_lumaTmpS hb hx w h t0
  unfold lumaExtS
  dsimp only
  generalize lumaTmpS src cx w h t0 = t at ht
  refine (fills_rows (f := extF 3 cx cy src) (x0 := 0) (w := w) 0 4 (h / 4) (fun g hg d => ?_) d).congr fun x y => by unfold Rg; omega
  rw [zero_add]
  refine fills_group8 (n := 4) (y := 4 * g) (fun r hr x j hj hxw => ?_) d
  rw [u8_packus16, if_pos hj, w16_extL hy.fit _ (fun h => ⟨h, hy.sym h⟩), satu8_sat16]
  refine clip12 ?_
  refine sum8_congr fun i hi => ?_
  rw [w16_tmp hb hx.fit ht _ _ _ (by omega) (by omega)]
  exact sum8_congr fun k _ => pl _ (by push_cast; omega) (by push_cast; omega)

theorem fills_chromaExtS {cx cy : List Int} (hx : Chroma cx) (hy : Chroma cy) (t0 : Plane) (sym : Prop) [Decidable sym] (hs : ¬ sym) (w h : Nat)
    (h2 : h % 2 = 0) (d : Plane) : Fills (Rg 0 w 0 h) (extF 1 cx cy src) d (chromaExtS src t0 sym cx cy w h d) := by
  obtain ⟨W, hW, ht⟩ := fills_chromaTmpS hb hx w h t0
  unfold chromaExtS
  dsimp only
  generalize chromaTmpS src cx w h t0 = t at ht
  refine (fills_rows (f := extF 1 cx cy src) (x0 := 0) (w := w) 0 2 ((h + 1) / 2) (fun g hg d => ?_) d).congr fun x y => by unfold Rg; omega
  rw [zero_add, if_neg hs]
  refine fills_group8 (n := 2) (y := 2 * g) (fun r hr x j hj hxw => ?_) d
  rw [u8_packus16, if_pos hj, w16_extC hy.fit hy.four _ hs, satu8_sat16]
  refine clip12 ?_
  have z := hy.four
  have c4 : ∀ s s' : Nat → Int, (∀ k, k < 4 → s k = s' k) → sum8 cy s = sum8 cy s' := by
    intro s s' e
    unfold sum8
    rw [z.1, z.2.1, z.2.2.1, z.2.2.2, e 0 (by omega), e 1 (by omega), e 2 (by omega), e 3 (by omega)]
    ring
  refine c4 _ _ fun i hi => ?_
  rw [w16_tmp hb hx.fit ht _ _ _ (by omega) (by omega)]
  exact sum8_congr fun k _ => pl _ (by push_cast; omega) (by push_cast; omega)

end Davs2.Vc
