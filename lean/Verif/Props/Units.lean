import Verif.Model.Units
import Verif.Model.IntraMode
import Verif.Spec.Tiling
/-
C50: prediction and transform units partition the coding unit.
-/
namespace Davs2.Un
open Davs2.Spec

/-- Position and size of a unit. -/
def Cb.rect (c : Cb) : Nat × Nat × Nat × Nat := (c.x, c.y, c.w, c.h)

def scale (k : Nat) (c : Cb) : Cb := ⟨c.x * k, c.y * k, c.w * k, c.h * k⟩

theorem shl_tables : ∀ s, s < 4 → ∀ row ∈ cbInfo ++ tuInfo, ∀ c ∈ row, shl c s = scale (2 ^ s) c := by decide +kernel

def baseCount (us : List Cb) (px py : Nat) : Nat := us.countP fun c => inRect c.x c.y c.w c.h px py

theorem scaled_in (k x y w h px py : Nat) (hk : 0 < k) :
    inRect (x * k) (y * k) (w * k) (h * k) px py = inRect x y w h (px / k) (py / k) := by
  have e (a b : Nat) : a * k ≤ b ↔ a ≤ b / k := (Nat.le_div_iff_mul_le hk).symm
  have f (a b : Nat) : b < a * k ↔ b / k < a := (Nat.div_lt_iff_lt_mul hk).symm
  simp only [inRect, ← Nat.add_mul, e, f]

theorem tiles_scale (us : List Cb) (n k : Nat) (hk : 0 < k) (h : Tiles n (us.map Cb.rect)) :
    Tiles (n * k) ((us.map (scale k)).map Cb.rect) := by
  intro px py
  have h1 := h (px / k) (py / k)
  have hi : (if px < n * k ∧ py < n * k then 1 else 0) = if px / k < n ∧ py / k < n then 1 else 0 := by
    simp only [Nat.div_lt_iff_lt_mul hk]
  rw [hi, ← h1]
  simp only [List.countP_map, List.map_map]
  apply List.countP_congr
  intro c _
  simp only [Function.comp, Cb.rect, scale]
  rw [scaled_in _ _ _ _ _ _ _ hk]

theorem tiles_of_table (us : List Cb) (hb : ∀ c ∈ us, c.x + c.w ≤ 8 ∧ c.y + c.h ≤ 8)
    (hc : ∀ px, px < 8 → ∀ py, py < 8 → baseCount us px py = 1) : Tiles 8 (us.map Cb.rect) := by
  intro px py
  rw [List.countP_map]
  by_cases h : px < 8 ∧ py < 8
  · rw [if_pos h]
    exact hc px h.1 py h.2
  · rw [if_neg h, List.countP_eq_zero]
    intro c m
    have := hb c m
    intro hh
    have hh : inRect c.x c.y c.w c.h px py = true := hh
    simp only [inRect, Bool.and_eq_true, decide_eq_true_eq] at hh
    exact h (by omega)

theorem table_pu : ∀ mode, mode < 13 →
    (∀ c ∈ (cbInfo.getD mode []).take ((numPu ++ [4]).getD mode 0), c.x + c.w ≤ 8 ∧ c.y + c.h ≤ 8) ∧
    ∀ px, px < 8 → ∀ py, py < 8 →
      baseCount ((cbInfo.getD mode []).take ((numPu ++ [4]).getD mode 0)) px py = 1 := by decide +kernel

theorem table_tu : ∀ t, t < 4 →
    (∀ c ∈ tuInfo.getD t [], c.x + c.w ≤ 8 ∧ c.y + c.h ≤ 8) ∧
    ∀ px, px < 8 → ∀ py, py < 8 → baseCount (tuInfo.getD t []) px py = 1 := by decide +kernel

theorem map_shl (us : List Cb) (s : Nat) (hs : s < 4) (h : ∃ row ∈ cbInfo ++ tuInfo, ∀ c ∈ us, c ∈ row) :
    us.map (shl · s) = us.map (scale (2 ^ s)) := by
  obtain ⟨row, hr, hc⟩ := h
  apply List.map_congr_left
  intro c m
  exact shl_tables s hs row hr c (hc c m)

theorem row_mem {tab : List (List Cb)} {i : Nat} (h : i < tab.length) : tab.getD i [] ∈ tab := by
  rw [List.getD_eq_getElem?_getD, List.getElem?_eq_getElem h]
  exact List.getElem_mem h

theorem pu_row (frame ds mode level : Nat) (hm : mode < 12) : ∃ i, i < 13 ∧ puUnits frame ds mode level =
    ((cbInfo.getD i []).take ((numPu ++ [4]).getD i 0)).map (shl · (level - 3)) := by
  unfold puUnits
  by_cases h0 : mode = 0
  · rw [if_pos h0]
    split
    · exact ⟨12, by decide, rfl⟩
    · exact ⟨0, by decide, rfl⟩
  · rw [if_neg h0]
    refine ⟨mode, by omega, ?_⟩
    have : (numPu ++ [4]).getD mode 0 = numPu.getD mode 0 := by
      have : ∀ m, m < 12 → (numPu ++ [4]).getD m 0 = numPu.getD m 0 := by decide
      exact this mode hm
    rw [this]

theorem pow_level {l : Nat} (h3 : 3 ≤ l) : 8 * 2 ^ (l - 3) = 2 ^ l := by
  rw [show (8 : Nat) = 2 ^ 3 from rfl, ← Nat.pow_add]
  congr 1; omega

/-- C50 for prediction units: for each of the twelve types, all sizes, picture types and kinds of skip, the prediction units cover
each sample of the coding unit once and no other sample. -/
theorem C50_prediction (frame ds mode level : Nat) (hm : mode < 12) (h3 : 3 ≤ level) (h6 : level ≤ 6) :
    Tiles (2 ^ level) ((puUnits frame ds mode level).map Cb.rect) := by
  obtain ⟨i, hi, e⟩ := pu_row frame ds mode level hm
  rw [e, map_shl _ (level - 3) (by omega)
    ⟨cbInfo.getD i [], List.mem_append_left _ (row_mem hi), fun c m => List.mem_of_mem_take m⟩, ← pow_level h3]
  apply tiles_scale _ _ _ (Nat.two_pow_pos _)
  exact tiles_of_table _ (table_pu i hi).1 (table_pu i hi).2

example : puUnits 1 0 4 5 = [⟨0, 0, 32, 8⟩, ⟨0, 8, 32, 24⟩] := by decide
example : puUnits 1 0 0 6 = [⟨0, 0, 32, 32⟩, ⟨32, 0, 32, 32⟩, ⟨0, 32, 32, 32⟩, ⟨32, 32, 32, 32⟩] := by decide

/-- C50 for transform units: for each split the transform units cover each sample of the coding unit once. -/
theorem C50_transform (trans level : Nat) (ht : trans < 4) (h3 : 3 ≤ level) (h6 : level ≤ 6) :
    Tiles (2 ^ level) ((tuUnits trans level).map Cb.rect) := by
  unfold tuUnits
  rw [map_shl _ (level - 3) (by omega) ⟨tuInfo.getD trans [], List.mem_append_right _ (row_mem ht), fun c m => m⟩,
    ← pow_level h3]
  apply tiles_scale _ _ _ (Nat.two_pow_pos _)
  exact tiles_of_table _ (table_tu trans ht).1 (table_tu trans ht).2

example : tuUnits 2 6 = [⟨0, 0, 16, 64⟩, ⟨16, 0, 16, 64⟩, ⟨32, 0, 16, 64⟩, ⟨48, 0, 16, 64⟩] := by decide

theorem le_finite {P : Nat → Prop} {a b : Nat} (h : ∀ k, k < b + 1 - a → P (a + k)) : ∀ l, a ≤ l → l ≤ b → P l := by
  intro l h1 h2
  have := h (l - a) (by omega)
  rwa [show a + (l - a) = l by omega] at this

/-- C50 for the coefficients: the blocks for which coefficients are read are the transform units, with both sides halved for a
64x64 unit whose split is not a cross; they are at most 32 samples wide and high and the parts of the coefficient buffer of the
coding unit used for them are disjoint and inside. -/
theorem C50_coefficients (trans level : Nat) (ht : trans < 4) (h3 : 3 ≤ level) (h6 : level ≤ 6)
    (b : Nat) (c u : Cb) (hc : (coeffUnits trans level)[b]? = some c) (hu : (tuUnits trans level)[b]? = some u) :
    (if level = 6 ∧ trans ≠ 3 then (2 * c.w = u.w ∧ 2 * c.h = u.h) else (c.w = u.w ∧ c.h = u.h)) ∧
    c.w ≤ 32 ∧ c.h ≤ 32 ∧
    (coeffRange level c b).1 + (coeffRange level c b).2 ≤ 2 ^ level * 2 ^ level ∧
    ∀ b' c', b < b' → (coeffUnits trans level)[b']? = some c' →
      (coeffRange level c b).1 + (coeffRange level c b).2 ≤ (coeffRange level c' b').1 := by
  have key : ∀ k, k < 4 → ∀ t, t < 4 → ∀ b, b < 4 →
      ((coeffUnits t (3 + k))[b]?.elim true fun c => (tuUnits t (3 + k))[b]?.elim true fun u =>
      decide ((if 3 + k = 6 ∧ t ≠ 3 then (2 * c.w = u.w ∧ 2 * c.h = u.h) else (c.w = u.w ∧ c.h = u.h)) ∧
      c.w ≤ 32 ∧ c.h ≤ 32 ∧
      (coeffRange (3 + k) c b).1 + (coeffRange (3 + k) c b).2 ≤ 2 ^ (3 + k) * 2 ^ (3 + k)) &&
      (List.range 4).all fun b' => !decide (b < b') || (coeffUnits t (3 + k))[b']?.elim true fun c' =>
        decide ((coeffRange (3 + k) c b).1 + (coeffRange (3 + k) c b).2 ≤ (coeffRange (3 + k) c' b').1)) = true := by
    decide +kernel
  have len : (coeffUnits trans level).length ≤ 4 := by
    unfold coeffUnits
    split
    · simp
    · rw [List.length_map, tuUnits, List.length_map]
      have : ∀ t, t < 4 → (tuInfo.getD t []).length ≤ 4 := by decide
      exact this trans ht
  have hb : b < 4 := by
    have := (List.getElem?_eq_some_iff.mp hc).1
    omega
  have := key (level - 3) (by omega) trans ht b hb
  rw [show 3 + (level - 3) = level by omega, hc, hu] at this
  simp only [Option.elim_some, Bool.and_eq_true, decide_eq_true_eq, List.all_eq_true, List.mem_range] at this
  obtain ⟨⟨h1, h2, h4, h5⟩, h7⟩ := this
  refine ⟨h1, h2, h4, h5, ?_⟩
  intro b' c' hlt hc'
  have hb' : b' < 4 := by
    have := (List.getElem?_eq_some_iff.mp hc').1
    omega
  have := h7 b' hb'
  rw [hc'] at this
  simpa [hlt] using this

example : coeffUnits 1 6 = [⟨0, 0, 32, 8⟩, ⟨0, 8, 32, 8⟩, ⟨0, 16, 32, 8⟩, ⟨0, 24, 32, 8⟩] := by decide
example : coeffUnits 0 6 = [⟨0, 0, 32, 32⟩] := by decide

/-- Types of coding unit for which the parser reads a given level: asymmetric types from 16x16 on, the short-distance intra types
at 16x16 and 32x32, four intra blocks at 8x8 only (aec.cc:1027, 953-973). -/
def TypeAt (mode level : Nat) : Prop :=
  (4 ≤ mode ∧ mode ≤ 7 → 4 ≤ level) ∧ (mode = 9 → level = 3) ∧ (mode = 10 ∨ mode = 11 → level = 4 ∨ level = 5)

instance (m l : Nat) : Decidable (TypeAt m l) := by unfold TypeAt; infer_instance

/-- C50: the types of intra coding units that are decoded are possible at their size, the transform split is valid and the intra
blocks for which modes are read are exactly the transform units (in units of 4x4 samples), in the same order. -/
theorem C50_intra (sdip split sym : Bool) (level : Nat) (h3 : 3 ≤ level) (h6 : level ≤ 6) (x y : Nat) :
    let r := intraType sdip level split sym
    r.1 < 12 ∧ TypeAt r.1 level ∧ ∃ t, r.2 = some t ∧ t < 4 ∧
      ((Im.cuBlks x y level r.1 t).map fun b => (b.x, b.y, b.w, b.h)) =
        ((tuUnits t level).filter fun u => decide (u.w ≠ 0)).map fun u => (x + u.x / 4, y + u.y / 4, u.w / 4, u.h / 4) := by
  have hl : level = 3 ∨ level = 4 ∨ level = 5 ∨ level = 6 := by omega
  rcases hl with rfl | rfl | rfl | rfl <;> cases sdip <;> cases split <;> cases sym <;>
    exact ⟨by decide, by decide, _, rfl, by decide, rfl⟩

/-- C50: the transform split read for an inter coding unit is one of the four splits. -/
theorem C50_inter (flag nsqt : Bool) (mode level : Nat) (hm : mode < 8) : ∃ t, tuSplit flag nsqt mode level = some t ∧ t < 4 := by
  have key : ∀ m, m < 8 → ∀ f n b : Bool, ((if f then if n ∧ b then
      (([(some 3, some 3), (some 3, some 3), (some 3, some 1), (some 3, some 2), (some 3, some 1), (some 3, some 1),
    (some 3, some 2), (some 3, some 2), (some 0, none), (some 3, some 3), (none, some 1), (none, some 2)] :
      List (Option Nat × Option Nat)).getD m (none, none)).2 else
      (([(some 3, some 3), (some 3, some 3), (some 3, some 1), (some 3, some 2), (some 3, some 1), (some 3, some 1),
    (some 3, some 2), (some 3, some 2), (some 0, none), (some 3, some 3), (none, some 1), (none, some 2)] :
      List (Option Nat × Option Nat)).getD m (none, none)).1 else some 0).any fun t => decide (t < 4)) = true := by
    decide +kernel
  have := key mode hm flag nsqt (decide (3 < level))
  rw [Option.any_eq_true] at this
  obtain ⟨t, h1, h2⟩ := this
  refine ⟨t, ?_, by simpa using h2⟩
  simpa only [tuSplit, decide_eq_true_eq] using h1

theorem quarter : ∀ k, k < 4 → ∀ i, i < 13 → (i < 12 → TypeAt i (3 + k)) → (i = 12 → 0 < k) →
    ∀ c ∈ ((cbInfo.getD i []).take ((numPu ++ [4]).getD i 0)), scale 4 (shr (shl c k) 2) = shl c k := by decide +kernel

theorem pu_row' (frame ds mode level : Nat) (hm : mode < 12) (ht : TypeAt mode level) (h3 : 3 ≤ level) (h6 : level ≤ 6) :
    ∀ c ∈ puUnits frame ds mode level, scale 4 (shr c 2) = c := by
  have fin (i : Nat) (hi : i < 13) (h : i < 12 → TypeAt i level) (h12 : i = 12 → 3 < level) :
      ∀ c ∈ ((cbInfo.getD i []).take ((numPu ++ [4]).getD i 0)).map (shl · (level - 3)), scale 4 (shr c 2) = c := by
    intro c hc
    rw [List.mem_map] at hc
    obtain ⟨c0, m, rfl⟩ := hc
    exact quarter (level - 3) (by omega) i hi (by rwa [show 3 + (level - 3) = level by omega]) (by omega) c0 m
  unfold puUnits
  by_cases h0 : mode = 0
  · rw [if_pos h0]
    split
    · next hh => exact fin 12 (by omega) (fun h1 => by omega) (fun _ => hh.1)
    · exact fin 0 (by omega) (fun _ => by subst h0; exact ht) (by omega)
  · rw [if_neg h0]
    have : (numPu ++ [4]).getD mode 0 = numPu.getD mode 0 := by
      have : ∀ m, m < 12 → (numPu ++ [4]).getD m 0 = numPu.getD m 0 := by decide
      exact this mode hm
    rw [← this]
    exact fin mode (by omega) (fun _ => ht) (by omega)

theorem inner_loop {α : Type} (x Y0 n : Nat) (val : α) (m : Nat → Nat → α) :
    (List.range n).foldl (fun m c => fun X Y => if X = x + c ∧ Y = Y0 then val else m X Y) m =
      fun X Y => if x ≤ X ∧ X < x + n ∧ Y = Y0 then val else m X Y := by
  induction n with
  | zero => funext X Y; simp only [List.range_zero, List.foldl_nil]; rw [if_neg (by omega)]
  | succ n ih =>
    rw [List.range_succ, List.foldl_append, ih]
    funext X Y
    simp only [List.foldl_cons, List.foldl_nil]
    by_cases h1 : X = x + n ∧ Y = Y0
    · rw [if_pos h1, if_pos (by omega)]
    · rw [if_neg h1]
      by_cases h2 : x ≤ X ∧ X < x + n ∧ Y = Y0
      · rw [if_pos h2, if_pos (by omega)]
      · rw [if_neg h2, if_neg (by omega)]

theorem storeUnit_eq {α : Type} (m : Nat → Nat → α) (x y : Nat) (u : Cb) (val : α) :
    storeUnit m x y u val = fun X Y => if inRect (x + u.x) (y + u.y) u.w u.h X Y then val else m X Y := by
  unfold storeUnit
  simp only [inner_loop]
  have gen (n : Nat) : (List.range n).foldl (fun (m : Nat → Nat → α) r => fun X Y =>
      if x + u.x ≤ X ∧ X < x + u.x + u.w ∧ Y = y + u.y + r then val else m X Y) m =
      fun X Y => if inRect (x + u.x) (y + u.y) u.w n X Y then val else m X Y := by
    induction n with
    | zero =>
      funext X Y
      simp only [List.range_zero, List.foldl_nil, inRect, Bool.and_eq_true, decide_eq_true_eq]
      rw [if_neg (by omega)]
    | succ n ih =>
      rw [List.range_succ, List.foldl_append, ih]
      funext X Y
      simp only [List.foldl_cons, List.foldl_nil, inRect, Bool.and_eq_true, decide_eq_true_eq]
      by_cases h1 : x + u.x ≤ X ∧ X < x + u.x + u.w ∧ Y = y + u.y + n
      · rw [if_pos h1, if_pos (by omega)]
      · rw [if_neg h1]
        by_cases h2 : ((x + u.x ≤ X ∧ X < x + u.x + u.w) ∧ y + u.y ≤ Y) ∧ Y < y + u.y + n
        · rw [if_pos h2, if_pos (by omega)]
        · rw [if_neg h2, if_neg (by omega)]
  exact gen u.h

theorem store_other {α : Type} (x y X Y : Nat) (val : Nat → α) (us : List (Cb × Nat)) (m : Nat → Nat → α)
    (h : ∀ p ∈ us, inRect (x + (shr p.1 2).x) (y + (shr p.1 2).y) (shr p.1 2).w (shr p.1 2).h X Y = false) :
    us.foldl (fun m p => storeUnit m x y (shr p.1 2) (val p.2)) m X Y = m X Y := by
  induction us generalizing m with
  | nil => rfl
  | cons a us ih =>
    rw [List.foldl_cons, ih _ fun p hp => h p (List.mem_cons_of_mem _ hp), storeUnit_eq]
    dsimp only
    rw [h a (List.mem_cons_self ..)]
    rfl

/-- C50 for what is stored about the prediction units: after the references of a coding unit at `(x, y)` (in 4x4 blocks) have been
stored, each 4x4 block of the coding unit holds what belongs to the prediction unit its samples are in; other blocks are
unchanged. -/
theorem C50_references {α : Type} (m : Nat → Nat → α) (x y frame ds mode level : Nat) (hm : mode < 12)
    (ht : TypeAt mode level) (h3 : 3 ≤ level) (h6 : level ≤ 6) (val : Nat → α) (X Y : Nat) :
    let us := puUnits frame ds mode level
    (∀ (i : Nat) (u : Cb), us[i]? = some u →
      (x * 4 + u.x ≤ X * 4 ∧ X * 4 < x * 4 + u.x + u.w ∧ y * 4 + u.y ≤ Y * 4 ∧ Y * 4 < y * 4 + u.y + u.h) →
      storeReferences m x y us val X Y = val i) ∧
    (¬ (x * 4 ≤ X * 4 ∧ X * 4 < x * 4 + 2 ^ level ∧ y * 4 ≤ Y * 4 ∧ Y * 4 < y * 4 + 2 ^ level) →
      storeReferences m x y us val X Y = m X Y) := by
  intro us
  have hq := pu_row' frame ds mode level hm ht h3 h6
  have htile := C50_prediction frame ds mode level hm h3 h6
  have hin (u : Cb) (hu : u ∈ us) : inRect (x + (shr u 2).x) (y + (shr u 2).y) (shr u 2).w (shr u 2).h X Y = true ↔
      (x * 4 + u.x ≤ X * 4 ∧ X * 4 < x * 4 + u.x + u.w ∧ y * 4 + u.y ≤ Y * 4 ∧ Y * 4 < y * 4 + u.y + u.h) := by
    have e := hq u hu
    have e1 : (shr u 2).x * 4 = u.x := congrArg Cb.x e
    have e2 : (shr u 2).y * 4 = u.y := congrArg Cb.y e
    have e3 : (shr u 2).w * 4 = u.w := congrArg Cb.w e
    have e4 : (shr u 2).h * 4 = u.h := congrArg Cb.h e
    simp only [inRect, Bool.and_eq_true, decide_eq_true_eq]
    omega
  constructor
  · intro i u hi hpos
    obtain ⟨hlt, hget⟩ := List.getElem?_eq_some_iff.mp hi
    have hu : u ∈ us := hget ▸ List.getElem_mem hlt
    -- the unit is the only one with this block
    have hone := htile (X * 4 - x * 4) (Y * 4 - y * 4)
    have hsplit : us = us.take i ++ u :: us.drop (i + 1) := by
      rw [← hget, List.getElem_cons_drop, List.take_append_drop]
    have hx : x * 4 ≤ X * 4 := by omega
    have hy : y * 4 ≤ Y * 4 := by omega
    have hinu : inRect u.x u.y u.w u.h (X * 4 - x * 4) (Y * 4 - y * 4) = true := by
      simp only [inRect, Bool.and_eq_true, decide_eq_true_eq]; omega
    have hother : ∀ d ∈ us.drop (i + 1),
        inRect (x + (shr d 2).x) (y + (shr d 2).y) (shr d 2).w (shr d 2).h X Y = false := by
      intro d hd
      cases hc : inRect (x + (shr d 2).x) (y + (shr d 2).y) (shr d 2).w (shr d 2).h X Y with
      | false => rfl
      | true =>
        exfalso
        have hdm : d ∈ us := List.mem_of_mem_drop hd
        have h1 := (hin d hdm).mp hc
        have hind : inRect d.x d.y d.w d.h (X * 4 - x * 4) (Y * 4 - y * 4) = true := by
          simp only [inRect, Bool.and_eq_true, decide_eq_true_eq]; omega
        have hle : (us.map Cb.rect).countP (fun r => inRect r.1 r.2.1 r.2.2.1 r.2.2.2 (X * 4 - x * 4) (Y * 4 - y * 4)) ≤ 1 := by
          rw [hone]; split <;> omega
        rw [List.countP_map, hsplit, List.countP_append, List.countP_cons_of_pos (by exact hinu)] at hle
        have : 0 < (us.drop (i + 1)).countP ((fun r => inRect r.1 r.2.1 r.2.2.1 r.2.2.2 (X * 4 - x * 4) (Y * 4 - y * 4)) ∘ Cb.rect) :=
          List.countP_pos_iff.mpr ⟨d, hd, hind⟩
        omega
    unfold storeReferences
    have hz : us.zipIdx = (us.take i).zipIdx ++ (u, i) :: (us.drop (i + 1)).zipIdx (i + 1) := by
      conv => lhs; rw [hsplit]
      rw [List.zipIdx_append, List.zipIdx_cons]
      have : (us.take i).length = i := by rw [List.length_take]; omega
      rw [this]; simp
    rw [hz, List.foldl_append, List.foldl_cons, store_other, storeUnit_eq]
    · dsimp only
      rw [if_pos ((hin u hu).mpr hpos)]
    · intro p hp
      have := List.fst_mem_of_mem_zipIdx hp
      exact hother p.1 this
  · intro hout
    unfold storeReferences
    apply store_other
    intro p hp
    have hpm : p.1 ∈ us := List.fst_mem_of_mem_zipIdx hp
    cases hc : inRect (x + (shr p.1 2).x) (y + (shr p.1 2).y) (shr p.1 2).w (shr p.1 2).h X Y with
    | false => rfl
    | true =>
      exfalso
      have h1 := (hin p.1 hpm).mp hc
      have hind : inRect p.1.x p.1.y p.1.w p.1.h (X * 4 - x * 4) (Y * 4 - y * 4) = true := by
        simp only [inRect, Bool.and_eq_true, decide_eq_true_eq]; omega
      have hz := htile (X * 4 - x * 4) (Y * 4 - y * 4)
      rw [if_neg (by omega), List.countP_map, List.countP_eq_zero] at hz
      exact hz p.1 hpm hind

example : storeReferences (fun _ _ => 9) 4 8 (puUnits 1 0 6 4) (fun i => i) 4 8 = 0 ∧
    storeReferences (fun _ _ => 9) 4 8 (puUnits 1 0 6 4) (fun i => i) 5 8 = 1 ∧
    storeReferences (fun _ _ => 9) 4 8 (puUnits 1 0 6 4) (fun i => i) 8 8 = 9 := by decide

end Davs2.Un
