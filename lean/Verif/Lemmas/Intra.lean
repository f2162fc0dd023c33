import Verif.Lemmas.IntraFast
import Verif.Lemmas.IntraBorder
import Verif.Props.Transform
/-
Which border samples the predictors read, and what they make of them.
-/
namespace Davs2.Ip
open Davs2.Spec

theorem acc_eq (a d : Int) (n : Nat) : acc a d n = a + d * n := by
  induction n with
  | zero => simp [acc]
  | succ n ih => rw [acc, ih]; push_cast; ring

theorem sum_congr {f g : Nat → Int} {n : Nat} (h : ∀ i < n, f i = g i) : sum f n = sum g n := by
  induction n with
  | zero => rfl
  | succ n ih => rw [sum, sum, ih (fun i hi => h i (by omega)), h n (by omega)]

theorem sum_const (v : Int) (n : Nat) : sum (fun _ => v) n = v * n := by
  induction n with
  | zero => simp [sum]
  | succ n ih => rw [sum, ih]; push_cast; ring

theorem sum_zero {f : Nat → Int} {n : Nat} (h : ∀ i, f i = 0) : sum f n = 0 := by
  induction n with
  | zero => rfl
  | succ n ih => rw [sum, ih, h]; rfl

/-- The two borders agree where a `w` by `h` block may look. -/
def Agree (w h : Nat) (s t : Border) : Prop := ∀ i : Int, -(reach h w : Int) ≤ i → i ≤ reach w h → s i = t i

theorem reach_ge (n m : Nat) : 2 * n ≤ reach n m ∧ n + m * 11 / 4 + 4 ≤ reach n m := by
  unfold reach; omega

theorem off_lt (a m d : Nat) : ctxOff a m d < 32 := by
  unfold ctxOff ctxPos
  have hp : 0 < 2 ^ (dir a m).2 := Nat.two_pow_pos _
  generalize 2 ^ (dir a m).2 = P at *
  generalize d * (dir a m).1 = n
  have h1 : n * 32 / P < (n / P + 1) * 32 := by
    rw [Nat.div_lt_iff_lt_mul hp]
    have := Nat.lt_div_mul_add (a := n) hp
    have e : (n / P + 1) * 32 * P = (n / P * P + P) * 32 := by ring
    omega
  omega

theorem posX_le {mode y h : Nat} (h3 : 3 ≤ mode) (h12 : mode < 12) (hy : y < h) : ctxPos 0 mode (y + 1) ≤ h * 11 / 4 := by
  have : mode = 3 ∨ mode = 4 ∨ mode = 5 ∨ mode = 6 ∨ mode = 7 ∨ mode = 8 ∨ mode = 9 ∨ mode = 10 ∨ mode = 11 := by omega
  rcases this with h | h | h | h | h | h | h | h | h <;> subst h <;>
    simp only [ctxPos, dir, dirDxDy, List.getD_cons_zero, List.getD_cons_succ] <;> omega

theorem posY_le {mode x w : Nat} (h3 : 25 ≤ mode) (h12 : mode < 33) (hx : x < w) : ctxPos 1 mode (x + 1) ≤ w * 11 / 4 := by
  have : mode = 25 ∨ mode = 26 ∨ mode = 27 ∨ mode = 28 ∨ mode = 29 ∨ mode = 30 ∨ mode = 31 ∨ mode = 32 := by omega
  rcases this with h | h | h | h | h | h | h | h <;> subst h <;>
    simp only [ctxPos, dir, dirDxDy, List.getD_cons_zero, List.getD_cons_succ] <;> omega

theorem posXY {mode x y : Nat} (h3 : 13 ≤ mode) (h12 : mode < 24) (h : (y : Int) - ctxPos 1 mode (x + 1) ≤ -1) :
    ctxPos 0 mode (y + 1) ≤ x + 1 := by
  have : mode = 13 ∨ mode = 14 ∨ mode = 15 ∨ mode = 16 ∨ mode = 17 ∨ mode = 18 ∨ mode = 19 ∨ mode = 20 ∨ mode = 21 ∨ mode = 22 ∨ mode = 23 := by
    omega
  rcases this with e | e | e | e | e | e | e | e | e | e | e <;> subst e <;>
    simp only [ctxPos, dir, dirDxDy, List.getD_cons_zero, List.getD_cons_succ] at h ⊢ <;> omega

variable {s t : Border} {w h x y mode : Nat}

theorem angX_congr (ha : Agree w h s t) (hx : x < w) (hy : y < h) (h3 : 3 ≤ mode) (h12 : mode < 12) :
    angX s mode x y = angX t mode x y := by
  have hp := posX_le h3 h12 hy
  have hr := reach_ge w h
  simp only [angX]
  rw [ha _ (by omega) (by omega), ha _ (by omega) (by omega), ha _ (by omega) (by omega), ha _ (by omega) (by omega)]

theorem angY_congr (ha : Agree w h s t) (hx : x < w) (hy : y < h) (h3 : 25 ≤ mode) (h12 : mode < 33) :
    angY s mode x y = angY t mode x y := by
  have hp := posY_le h3 h12 hx
  have hr := reach_ge h w
  simp only [angY]
  rw [ha _ (by omega) (by omega), ha _ (by omega) (by omega), ha _ (by omega) (by omega), ha _ (by omega) (by omega)]

theorem angXY_congr (ha : Agree w h s t) (hx : x < w) (hy : y < h) (h3 : 13 ≤ mode) (h12 : mode < 24) :
    angXY s mode x y = angXY t mode x y := by
  have hr := reach_ge h w
  have hr' := reach_ge w h
  simp only [angXY]
  by_cases hp : (y : Int) - ctxPos 1 mode (x + 1) ≤ -1
  · have hq := posXY h3 h12 hp
    rw [if_pos hp, if_pos hp, ha _ (by omega) (by omega), ha _ (by omega) (by omega), ha _ (by omega) (by omega), ha _ (by omega) (by omega)]
  · rw [if_neg hp, if_neg hp, ha _ (by omega) (by omega), ha _ (by omega) (by omega), ha _ (by omega) (by omega), ha _ (by omega) (by omega)]

theorem dc_congr (ha : Agree w h s t) (bd : Nat) (a b : Bool) : dc bd a b s w h = dc bd a b t w h := by
  have hr := reach_ge h w
  have hr' := reach_ge w h
  simp only [dc]
  rw [sum_congr (f := fun y : Nat => s (-1 - y)) (g := fun y => t (-1 - y)) (fun i hi => ha _ (by omega) (by omega)),
    sum_congr (f := fun y : Nat => s (1 + y)) (g := fun y => t (1 + y)) (fun i hi => ha _ (by omega) (by omega))]

theorem plane_congr (ha : Agree w h s t) (bd : Nat) (hw : 2 ≤ w) (hh : 2 ≤ h) : plane bd s w h x y = plane bd t w h x y := by
  have hr := reach_ge h w
  have hr' := reach_ge w h
  have eb : planeB s w = planeB t w := by
    simp only [planeB]
    rw [sum_congr (fun i hi => ?_)]
    rw [ha _ (by omega) (by omega), ha (1 + (w / 2 - 1 : Nat) - (i + 1)) (by omega) (by omega)]
  have ec : planeC s h = planeC t h := by
    simp only [planeC]
    rw [sum_congr (fun i hi => ?_)]
    rw [ha _ (by omega) (by omega), ha (-1 - (h / 2 - 1 : Nat) + (i + 1)) (by omega) (by omega)]
  have ea : planeA s w h = planeA t w h := by
    simp only [planeA]
    rw [ha _ (by omega) (by omega), ha (1 + w - 1) (by omega) (by omega)]
  simp only [plane]
  rw [eb, ec, ea]

theorem bilinear_congr (ha : Agree w h s t) (bd : Nat) (hx : x < w) (hy : y < h) :
    bilinear bd s w h x y = bilinear bd t w h x y := by
  have hr := reach_ge h w
  have hr' := reach_ge w h
  simp only [bilinear]
  rw [ha (1 + (w - 1 : Nat)) (by omega) (by omega), ha (-1 - (h - 1 : Nat)) (by omega) (by omega),
    ha (1 + x) (by omega) (by omega), ha (-1 - y) (by omega) (by omega)]

theorem general_congr (bd : Nat) (a b : Bool) (ha : Agree w h s t) (hw : 2 ≤ w) (hh : 2 ≤ h) (hx : x < w) (hy : y < h)
    (hm : mode < 33) : general bd a b s mode w h x y = general bd a b t mode w h x y := by
  have hr := reach_ge h w
  have hr' := reach_ge w h
  simp only [general]
  split
  · exact dc_congr ha bd a b
  split
  · exact plane_congr ha bd hw hh
  split
  · exact bilinear_congr ha bd hx hy
  split
  · exact angX_congr ha hx hy (by omega) (by omega)
  split
  · exact ha _ (by omega) (by omega)
  split
  · exact angXY_congr ha hx hy (by omega) (by omega)
  split
  · exact ha _ (by omega) (by omega)
  · exact angY_congr ha hx hy (by omega) (by omega)

theorem tap_range {lo hi a b d e c : Int} (c0 : 0 ≤ c) (c1 : c ≤ 32) (ha : lo ≤ a ∧ a ≤ hi) (hb : lo ≤ b ∧ b ≤ hi)
    (hd : lo ≤ d ∧ d ≤ hi) (he : lo ≤ e ∧ e ≤ hi) :
    lo ≤ (a * (32 - c) + b * (64 - c) + d * (32 + c) + e * c + 64) / 128 ∧
    (a * (32 - c) + b * (64 - c) + d * (32 + c) + e * c + 64) / 128 ≤ hi := by
  have m : ∀ {p q r : Int}, p ≤ q → 0 ≤ r → p * r ≤ q * r := fun h1 h2 => Int.mul_le_mul_of_nonneg_right h1 h2
  have l1 := m ha.1 (show 0 ≤ 32 - c by omega)
  have l2 := m hb.1 (show 0 ≤ 64 - c by omega)
  have l3 := m hd.1 (show 0 ≤ 32 + c by omega)
  have l4 := m he.1 c0
  have u1 := m ha.2 (show 0 ≤ 32 - c by omega)
  have u2 := m hb.2 (show 0 ≤ 64 - c by omega)
  have u3 := m hd.2 (show 0 ≤ 32 + c by omega)
  have u4 := m he.2 c0
  have e1 : lo * (32 - c) + lo * (64 - c) + lo * (32 + c) + lo * c = 128 * lo := by ring
  have e2 : hi * (32 - c) + hi * (64 - c) + hi * (32 + c) + hi * c = 128 * hi := by ring
  omega

/-- The directional predictors, on a border whose samples all lie between two values. -/
theorem directional_range (bd : Nat) (a b : Bool) (lo hi : Int) (hs : ∀ i, lo ≤ s i ∧ s i ≤ hi) (hm : 3 ≤ mode) :
    lo ≤ general bd a b s mode w h x y ∧ general bd a b s mode w h x y ≤ hi := by
  have off : ∀ a m d, ((ctxOff a m d : Nat) : Int) ≤ 32 := fun a m d => by have := off_lt a m d; omega
  simp only [general]
  rw [if_neg (show ¬ mode = 0 by omega), if_neg (show ¬ mode = 1 by omega), if_neg (show ¬ mode = 2 by omega)]
  split
  · exact tap_range (by omega) (off ..) (hs _) (hs _) (hs _) (hs _)
  split
  · exact hs _
  split
  · simp only [angXY]
    split
    · exact tap_range (by omega) (off ..) (hs _) (hs _) (hs _) (hs _)
    · exact tap_range (by omega) (off ..) (hs _) (hs _) (hs _) (hs _)
  split
  · exact hs _
  · exact tap_range (by omega) (off ..) (hs _) (hs _) (hs _) (hs _)

theorem clip_legal (hi v : Int) (h : 0 ≤ hi) : 0 ≤ clip3 0 hi v ∧ clip3 0 hi v ≤ hi := by
  unfold clip3; split <;> (try split) <;> omega

theorem clip_id {hi v : Int} (h0 : 0 ≤ v) (h1 : v ≤ hi) : clip3 0 hi v = v := by
  unfold clip3; rw [if_neg (by omega), if_neg (by omega)]

theorem dc_flat_square (bd : Nat) (v : Int) (hv : 0 ≤ v) (hv' : v ≤ 2 ^ bd - 1) (hw : (w, w) ∈ shapes) :
    dc bd true true (fun _ => v) w w = v := by
  have : (sum (fun _ => v) w + sum (fun _ => v) w + ((w + w) / 2 : Nat)) * (512 / (w + w) : Nat) / 512 = v := by
    rw [sum_const]
    have : w = 4 ∨ w = 8 ∨ w = 16 ∨ w = 32 ∨ w = 64 := by
      simp [shapes] at hw; omega
    rcases this with h | h | h | h | h <;> subst h <;> norm_num <;> omega
  simp only [dc, if_true]
  rw [this]
  exact clip_id hv hv'

theorem mean_flat (v : Int) (n : Nat) (h : 0 < n) : (sum (fun _ => v) n + (n / 2 : Nat)) / n = v := by
  rw [sum_const, Int.add_comm, Int.add_mul_ediv_right _ _ (by omega), Int.ediv_eq_zero_of_lt (by omega) (by omega)]
  omega

theorem plane_flat (bd : Nat) (v : Int) (hv : 0 ≤ v) (hv' : v ≤ 2 ^ bd - 1) : plane bd (fun _ => v) w h x y = v := by
  have z : ∀ k : Nat, (0 * 32 * planeMult k + 2 ^ (planeShift k - 1)) / 2 ^ planeShift k = 0 := by
    intro k
    rw [Int.zero_mul, Int.zero_mul, Int.zero_add]
    match k with
    | 0 => decide
    | 1 => decide
    | 2 => decide
    | 3 => decide
    | k + 4 => simp only [planeShift]; decide
  have eb : planeB (fun _ => v) w = 0 := by
    simp only [planeB]
    rw [sum_zero (fun i => by rw [Int.sub_self, Int.mul_zero])]
    exact z _
  have ec : planeC (fun _ => v) h = 0 := by
    simp only [planeC]
    rw [sum_zero (fun i => by rw [Int.sub_self, Int.mul_zero])]
    exact z _
  simp only [plane]
  rw [eb, ec, acc_eq, acc_eq]
  simp only [planeA]
  rw [show ((v + v) * 16 - ((h / 2 - 1 : Nat) : Int) * 0 - ((w / 2 - 1 : Nat) : Int) * 0 + 16 + 0 * (y : Int) + 0 * (x : Int)) / 32 = v by omega]
  exact clip_id hv hv'

theorem biTop_eq (top b : Int) (sy n : Nat) (ht : 0 ≤ top ∧ top ≤ 255) (hb : 0 ≤ b ∧ b ≤ 255) (hs : sy ≤ 6) (hn : n ≤ 2 ^ sy) :
    biTop top b sy n = top * 2 ^ sy + (b - top) * n := by
  have hp : (2 : Int) ^ sy ≤ 64 := by
    have : sy = 0 ∨ sy = 1 ∨ sy = 2 ∨ sy = 3 ∨ sy = 4 ∨ sy = 5 ∨ sy = 6 := by omega
    rcases this with h | h | h | h | h | h | h <;> subst h <;> decide
  have hc : ((2 ^ sy : Nat) : Int) = 2 ^ sy := by push_cast; rfl
  generalize hP : (2 : Int) ^ sy = P at *
  have bound : ∀ k : Nat, (k : Int) ≤ P → 0 ≤ top * P + (b - top) * k ∧ top * P + (b - top) * k ≤ 32767 := by
    intro k hk
    have e : top * P + (b - top) * k = top * (P - k) + b * k := by ring
    have l1 := Int.mul_nonneg ht.1 (show 0 ≤ P - (k : Int) by omega)
    have l2 := Int.mul_nonneg hb.1 (show (0 : Int) ≤ k by omega)
    have u1 := Int.mul_le_mul_of_nonneg_right ht.2 (show 0 ≤ P - (k : Int) by omega)
    have u2 := Int.mul_le_mul_of_nonneg_right hb.2 (show (0 : Int) ≤ k by omega)
    rw [e]
    omega
  induction n with
  | zero =>
    simp only [biTop]
    have := bound 0 (by omega)
    rw [hP, Tr.toInt16_id (by omega) (by omega)]
    simp
  | succ n ih =>
    have h1 := bound (n + 1) (by omega)
    have e : top * P + (b - top) * ((n + 1 : Nat) : Int) = top * P + (b - top) * n + (b - top) := by push_cast; ring
    rw [biTop, ih (by omega), Tr.toInt16_id (v := b - top) (by omega) (by omega), Tr.toInt16_id (by omega) (by omega), e]

theorem wt_bound {a b : Int} (ha : 0 ≤ a ∧ a ≤ 255) (hb : 0 ≤ b ∧ b ≤ 255) (hs : (w, h) ∈ shapes) (hy : y < h) :
    -32768 ≤ (biCorner a b w h * 2 - a - b) * y ∧ (biCorner a b w h * 2 - a - b) * y ≤ 32767 := by
  have : (0 ≤ biCorner a b w h * 2 - a - b ∧ biCorner a b w h * 2 - a - b ≤ 1) ∨
      (h ≤ 32 ∧ -512 ≤ biCorner a b w h * 2 - a - b ∧ biCorner a b w h * 2 - a - b ≤ 512) := by
    simp only [shapes, List.mem_cons, Prod.mk.injEq, List.not_mem_nil, or_false] at hs
    rcases hs with h | h | h | h | h | h | h | h | h <;> obtain ⟨rfl, rfl⟩ := h <;>
      simp only [biCorner, log2size, if_true, reduceIte, Nat.reduceEqDiff, Nat.reduceLeDiff] <;>
      norm_num <;> omega
  have hy' : y < 64 := Nat.lt_of_lt_of_le hy (shape_cases (fun q => q.2 ≤ 64) (by decide) hs)
  generalize biCorner a b w h * 2 - a - b = k at *
  have hy0 : (0 : Int) ≤ y := by omega
  rcases this with hk | hk
  · have l := Int.mul_le_mul_of_nonneg_right hk.1 hy0
    have u := Int.mul_le_mul_of_nonneg_right hk.2 hy0
    omega
  · have l := Int.mul_le_mul_of_nonneg_right hk.2.1 hy0
    have u := Int.mul_le_mul_of_nonneg_right hk.2.2 hy0
    omega

theorem log2_shape (hs : (w, h) ∈ shapes) : 2 ^ log2size w = w ∧ 2 ^ log2size h = h ∧ log2size h ≤ 6 ∧
    2 ^ min (log2size w) (log2size h) = min w h :=
  shape_cases (fun q => 2 ^ log2size q.1 = q.1 ∧ 2 ^ log2size q.2 = q.2 ∧ log2size q.2 ≤ 6 ∧
    2 ^ min (log2size q.1) (log2size q.2) = min q.1 q.2) (by decide) hs

theorem clip_max (v : Int) : clip3 0 (2 ^ 8 - 1) v = max 0 (min 255 v) := by
  unfold clip3; norm_num; split <;> (try split) <;> omega

theorem bilinear_exact (hs : (w, h) ∈ shapes) (hx : x < w) (hy : y < h) (hb : ∀ i, 0 ≤ s i ∧ s i ≤ 255) :
    bilinear 8 s w h x y = bilinear8 (s (-1 - y)) (s (1 + x)) (s w) (s (-h)) w h x y := by
  obtain ⟨ew, eh, h6, em⟩ := log2_shape hs
  have ewi : (2 : Int) ^ log2size w = w := by exact_mod_cast ew
  have ehi : (2 : Int) ^ log2size h = h := by exact_mod_cast eh
  have emi : (2 : Int) ^ min (log2size w) (log2size h) = (min w h : Nat) := by exact_mod_cast em
  have id16 : ∀ i, toInt16 (s i) = s i := fun i => Tr.toInt16_id (by have := hb i; omega) (by have := hb i; omega)
  have hw64 : w ≤ 64 := shape_cases (fun q => q.1 ≤ 64) (by decide) hs
  have hl := hb (-1 - y)
  simp only [bilinear, id16]
  rw [show ((1 : Int) + (w - 1 : Nat)) = w by omega, show (-1 - ((h - 1 : Nat) : Int)) = -h by omega]
  have ha' := hb w
  have hb' := hb (-h)
  have ht := hb (1 + x)
  have wb := wt_bound (y := y) ha' hb' hs hy
  rw [biTop_eq _ _ _ _ ht hb' h6 (by omega), acc_eq, acc_eq, acc_eq, Int.zero_add, Tr.toInt16_id wb.1 wb.2, ehi]
  rw [clip_max, Int.pow_succ, Int.pow_add, ewi, ehi]
  have b1 : toInt16 (s (-1 - y) * w) = s (-1 - y) * w := by
    have l := Int.mul_nonneg hl.1 (show (0 : Int) ≤ w by omega)
    have u := Int.mul_le_mul_of_nonneg_right hl.2 (show (0 : Int) ≤ w by omega)
    exact Tr.toInt16_id (by omega) (by omega)
  rw [b1, Tr.toInt16_id (v := s w - s (-1 - y)) (by omega) (by omega)]
  have ec : biCorner (s w) (s (-h)) w h = if w = h then (s w + s (-h) + 1) / 2
      else ((s w * w + s (-h) * h) * 13 + 32 * (min w h : Nat)) / (64 * (min w h : Nat)) := by
    simp only [biCorner]
    rw [ewi, ehi, Int.pow_add, Int.pow_add, emi]
    norm_num [Int.mul_comm]
  simp only [bilinear8]
  rw [ec]
  generalize (if w = h then (s w + s (-h) + 1) / 2
      else ((s w * w + s (-h) * h) * 13 + 32 * (min w h : Nat)) / (64 * (min w h : Nat))) = c
  congr 2
  congr 1
  · push_cast; ring
  · ring

end Davs2.Ip
