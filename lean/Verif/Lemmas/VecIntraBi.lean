import Verif.Lemmas.VecIntraFlat
/-
The vector versions of bilinear prediction, block by block.
-/
namespace Davs2.Vc
open Davs2.Sa (Plane)
open Davs2.Ip (Border shapes log2size biCorner)

/-! ### Lanes -/

theorem u16_eq_of_w16 {a b : V} {i k : Nat} (h : w16 a i = w16 b k) : u16 a i = u16 b k := by
  have := u16_range a i
  have := u16_range b k
  unfold w16 wrap16 at h
  omega

theorem d32_mullo (a b : V) (i : Nat) : d32 (mullo32 a b) i = wrap32 (d32 a i * d32 b i) := d32_ofD _ i
theorem d32_slli (a : V) (n i : Nat) : d32 (slli32 a n) i = wrap32 (d32 a i * 2 ^ n) := d32_ofD _ i
theorem d32_iota (i : Nat) : d32 iota32 i = wrap32 i := d32_ofD _ i
theorem d32_cvt (a : V) (i : Nat) : d32 (cvt16_32 a) i = w16 a i :=
  (d32_ofD _ i).trans (wrap32_id (by have := w16_range a i; omega))

theorem d32_sraN (a : V) (n i : Nat) : d32 (srai32 a n) i = d32 a i / 2 ^ n := by
  refine (d32_ofD _ i).trans (wrap32_id ?_)
  have h := d32_range a i
  have p : (1 : Int) ≤ 2 ^ n := by exact_mod_cast Nat.one_le_two_pow
  constructor
  · exact (Int.le_ediv_iff_mul_le (by omega)).2 (by nlinarith)
  · exact Int.ediv_le_of_le_mul (by omega) (by nlinarith)

theorem w16_packu (a b : V) (i : Nat) : w16 (packus32y a b) i =
    wrap16 (if i % 8 < 4 then satu16 (d32 a (4 * (i / 8) + i % 8)) else satu16 (d32 b (4 * (i / 8) + (i % 8 - 4)))) := w16_ofW _ i

/-- A value that the two packs clip to a sample. -/
theorem clip_twice {v : Int} (h : v ≤ 32767) : satu8 (wrap16 (satu16 v)) = satu8 v := by
  unfold satu8 wrap16 satu16; omega

theorem u16_loadA (t : Words) (x i : Nat) (h : 0 ≤ t (x + i) ∧ t (x + i) ≤ 65535) : u16 (loadA t x) i = t (x + i) := by
  unfold loadA; rw [u16_ofW]; omega
theorem w16_loadA (t : Words) (x i : Nat) : w16 (loadA t x) i = wrap16 (t (x + i)) := w16_ofW _ i

theorem lo16_y (a b : V) (j : Nat) (h : j < 16) : unpacklo16 a b j = unpacklo16y a b j := by
  unfold unpacklo16 unpacklo16y
  rw [show j / 16 = 0 by omega, show j % 16 = j by omega]
  simp
theorem hi16_y (a b : V) (j : Nat) (h : j < 16) : unpackhi16 a b j = unpackhi16y a b j := by
  unfold unpackhi16 unpackhi16y
  rw [show j / 16 = 0 by omega, show j % 16 = j by omega]

theorem d32_lo16y (a : V) (i : Nat) : d32 (unpacklo16y a zero) i = u16 a (8 * (i / 4) + i % 4) := by
  have h := w16_lo16y a zero i
  unfold d32
  rw [u16_eq_of_w16 h.1, u16_eq_of_w16 h.2]
  have := u16_range a (8 * (i / 4) + i % 4)
  rw [show u16 zero (8 * (i / 4) + i % 4) = 0 from rfl, Int.mul_zero, Int.add_zero, wrap32_id (by omega)]
theorem d32_hi16y (a : V) (i : Nat) : d32 (unpackhi16y a zero) i = u16 a (8 * (i / 4) + 4 + i % 4) := by
  have h := w16_hi16y a zero i
  unfold d32
  rw [u16_eq_of_w16 h.1, u16_eq_of_w16 h.2]
  have := u16_range a (8 * (i / 4) + 4 + i % 4)
  rw [show u16 zero (8 * (i / 4) + 4 + i % 4) = 0 from rfl, Int.mul_zero, Int.add_zero, wrap32_id (by omega)]

/-- Double words with the same bytes. -/
theorem d32_same {a b : V} {i k : Nat} (h : ∀ m, m < 4 → a (4 * i + m) = b (4 * k + m)) : d32 a i = d32 b k := by
  unfold d32 u16 u8
  have h0 := h 0 (by omega)
  have h1 := h 1 (by omega)
  have h2 := h 2 (by omega)
  have h3 := h 3 (by omega)
  rw [show 2 * (2 * i) = 4 * i + 0 by omega, show 2 * (2 * i + 1) = 4 * i + 2 by omega, show 2 * (2 * k) = 4 * k + 0 by omega,
    show 2 * (2 * k + 1) = 4 * k + 2 by omega, h0, h2, show 4 * i + 0 + 1 = 4 * i + 1 from rfl, show 4 * k + 0 + 1 = 4 * k + 1 from rfl,
    show 4 * i + 2 + 1 = 4 * i + 3 from rfl, show 4 * k + 2 + 1 = 4 * k + 3 from rfl, h1, h3]

/-! ### Arrays -/

theorem store_in {t : Words} {x n i : Nat} {v : V} (h : x ≤ i ∧ i < x + n) : storeA t x v n i = w16 v (i - x) := if_pos h
theorem store_out {t : Words} {x n i : Nat} {v : V} (h : ¬ (x ≤ i ∧ i < x + n)) : storeA t x v n i = t i := if_neg h

theorem times_inv {α : Type} {f : Nat → α → α} (inv : Nat → α → Prop) (N : Nat) (s : α) (h0 : inv 0 s)
    (hs : ∀ n, n < N → ∀ s, inv n s → inv (n + 1) (f n s)) : inv N (times f N s) := by
  induction N with
  | zero => exact h0
  | succ N ih => exact hs N (by omega) _ (ih fun n hn => hs n (by omega))

theorem biRowS_eq {s : Border} (hb : IsByte s) (w : Nat) (t : Words) (i : Nat) (hi : i < w) : biRowS s w t i = s (1 + i) := by
  have h := times_inv (f := fun k (t : Words) =>
    storeA (storeA t (16 * k) (unpacklo8 (ldB s (1 + (16 * k : Nat))) zero) 8) (16 * k + 8) (unpackhi8 (ldB s (1 + (16 * k : Nat))) zero) 8)
    (fun k t => ∀ i, i < 16 * k → t i = s (1 + i)) ((w + 15) / 16) t (fun i hi => by omega) (fun k _ t ht i hi => by
      by_cases h1 : 16 * k + 8 ≤ i
      · rw [store_in (by omega), w16_hi8 hb]; congr 1; omega
      rw [store_out (by omega)]
      by_cases h2 : 16 * k ≤ i
      · rw [store_in (by omega), w16_lo8 hb]; congr 1; omega
      rw [store_out (by omega), ht i (by omega)])
  exact h i (by omega)

theorem w16_lo8y {s : Border} (hb : IsByte s) (a : Int) (i : Nat) : w16 (unpacklo8y (ldB s a) zero) i = s (a + (16 * (i / 8) + i % 8 : Nat)) := by
  have h := u8_lo8y (ldB s a) zero i
  have := hb (a + (16 * (i / 8) + i % 8 : Nat))
  have e : u16 (unpacklo8y (ldB s a) zero) i = s (a + (16 * (i / 8) + i % 8 : Nat)) := by
    unfold u16
    rw [h.1, h.2]
    unfold ldB
    rw [u8_ofB, show u8 zero (16 * (i / 8) + i % 8) = 0 from rfl]
    omega
  rw [w16_u16 (by rw [e]; omega), e]

theorem w16_hi8y {s : Border} (hb : IsByte s) (a : Int) (i : Nat) : w16 (unpackhi8y (ldB s a) zero) i = s (a + (16 * (i / 8) + 8 + i % 8 : Nat)) := by
  have h := u8_hi8y (ldB s a) zero i
  have := hb (a + (16 * (i / 8) + 8 + i % 8 : Nat))
  have e : u16 (unpackhi8y (ldB s a) zero) i = s (a + (16 * (i / 8) + 8 + i % 8 : Nat)) := by
    unfold u16
    rw [h.1, h.2]
    unfold ldB
    rw [u8_ofB, show u8 zero (16 * (i / 8) + 8 + i % 8) = 0 from rfl]
    omega
  rw [w16_u16 (by rw [e]; omega), e]

theorem w16_p20 (a b : V) (i : Nat) : w16 (perm2x128_20 a b) i = if i < 8 then w16 a i else w16 b (i - 8) := by
  split
  · exact w16_bytes (by unfold perm2x128_20; rw [if_pos (by omega)]) (by unfold perm2x128_20; rw [if_pos (by omega)])
  · refine w16_bytes ?_ ?_
    · unfold perm2x128_20; rw [if_neg (by omega), show 2 * i - 16 = 2 * (i - 8) by omega]
    · unfold perm2x128_20; rw [if_neg (by omega), show 2 * i + 1 - 16 = 2 * (i - 8) + 1 by omega]

theorem w16_p31 (a b : V) (i : Nat) : w16 (perm2x128_31 a b) i = if i < 8 then w16 a (8 + i) else w16 b i := by
  split
  · refine w16_bytes ?_ ?_
    · unfold perm2x128_31; rw [if_pos (by omega), show 16 + 2 * i = 2 * (8 + i) by omega]
    · unfold perm2x128_31; rw [if_pos (by omega), show 16 + (2 * i + 1) = 2 * (8 + i) + 1 by omega]
  · exact w16_bytes (by unfold perm2x128_31; rw [if_neg (by omega)]) (by unfold perm2x128_31; rw [if_neg (by omega)])

theorem biRowA_eq {s : Border} (hb : IsByte s) (w : Nat) (t : Words) (i : Nat) (hi : i < w) : biRowA s w t i = s (1 + i) := by
  have h := times_inv (f := fun k (t : Words) =>
    storeA (storeA t (32 * k) (perm2x128_20 (unpacklo8y (ldB s (1 + (32 * k : Nat))) zero) (unpackhi8y (ldB s (1 + (32 * k : Nat))) zero)) 16) (32 * k + 16)
      (perm2x128_31 (unpacklo8y (ldB s (1 + (32 * k : Nat))) zero) (unpackhi8y (ldB s (1 + (32 * k : Nat))) zero)) 16)
    (fun k t => ∀ i, i < 32 * k → t i = s (1 + i)) ((w + 31) / 32) t (fun i hi => by omega) (fun k _ t ht i hi => by
      by_cases h1 : 32 * k + 16 ≤ i
      · rw [store_in (by omega), w16_p31, w16_lo8y hb, w16_hi8y hb]
        split <;> (congr 1; omega)
      rw [store_out (by omega)]
      by_cases h2 : 32 * k ≤ i
      · rw [store_in (by omega), w16_p20, w16_lo8y hb, w16_hi8y hb]
        split <;> (congr 1; omega)
      rw [store_out (by omega), ht i (by omega)])
  exact h i (by omega)

theorem biColumn_eq {s : Border} (hb : IsByte s) (h : Nat) (t : Words) (i : Nat) (hi : i < h) : biColumn s h t i = s (-1 - i) := by
  have := times_inv (f := fun y (t : Words) i => if i = y then wrap16 (s (-1 - y)) else t i) (fun k t => ∀ i, i < k → t i = s (-1 - i)) h t
    (fun i hi => by omega) (fun k _ t ht i hi => by
      dsimp only
      by_cases e : i = k
      · rw [if_pos e, wrap16_id (by have := hb (-1 - k); omega), e]
      · rw [if_neg e, ht i (by omega)])
  exact this i hi

theorem cover {n L : Nat} (hL : 0 < L) : n ≤ L * ((n + L - 1) / L) := by
  have := Nat.div_add_mod (n + L - 1) L
  have := Nat.mod_lt (n + L - 1) hL
  omega

theorem biDiff_eq {L : Nat} (hL : 0 < L) (v : Int) (sh n : Nat) (p : Words × Words) (i : Nat) (hi : i < n) :
    (biDiff L v sh n p).1 i = wrap16 (wrap16 (p.1 i) * 2 ^ sh) ∧ (biDiff L v sh n p).2 i = wrap16 (wrap16 v - wrap16 (p.1 i)) := by
  have h := times_inv (f := fun k (p : Words × Words) =>
      (storeA p.1 (L * k) (slli16 (loadA p.1 (L * k)) sh) L, storeA p.2 (L * k) (sub16 (set1_16 v) (loadA p.1 (L * k))) L))
    (fun k q => ∀ i, (i < L * k → q.1 i = wrap16 (wrap16 (p.1 i) * 2 ^ sh) ∧ q.2 i = wrap16 (wrap16 v - wrap16 (p.1 i))) ∧ (L * k ≤ i → q.1 i = p.1 i))
    ((n + L - 1) / L) p (fun i => ⟨fun h => by omega, fun _ => rfl⟩) (fun k _ q hq i => by
      have e : L * (k + 1) = L * k + L := by ring
      rw [e]
      dsimp only
      by_cases h1 : L * k ≤ i ∧ i < L * k + L
      · refine ⟨fun _ => ?_, fun h => by omega⟩
        rw [store_in h1, store_in h1, w16_slli16, w16_sub16, w16_set1, w16_loadA, show L * k + (i - L * k) = i by omega, (hq i).2 h1.1]
        exact ⟨rfl, rfl⟩
      · rw [store_out h1, store_out h1]
        exact ⟨fun h => (hq i).1 (by omega), fun h => (hq i).2 (by omega)⟩)
  have c := cover (n := n) hL
  exact (h i).1 (by omega)

theorem biMult_eq {L : Nat} (hL : 0 < L) (wt : Int) (h : Nat) (t : Words) (i : Nat) (hi : i < h) : biMult L wt h t i = wrap16 (wt * i) := by
  have key := times_inv (f := fun k (p : V × Words) => (add16 p.1 (set1_16 (L * wt)), storeA p.2 (L * k) p.1 L))
    (fun k q => (∀ j, w16 q.1 j = wrap16 (wt * (L * k + j : Nat))) ∧ ∀ i, i < L * k → q.2 i = wrap16 (wt * i))
    ((h + L - 1) / L) (mullo16 (set1_16 wt) iota16, t) ⟨fun j => by
      rw [w16_mullo16, w16_set1, w16_iota, wrap16_mul]; simp, fun i hi => by omega⟩ (fun k _ q hq => by
      have e : L * (k + 1) = L * k + L := by ring
      rw [e]
      refine ⟨fun j => ?_, fun i hi => ?_⟩
      · dsimp only
        rw [w16_add16, w16_set1, hq.1, wrap16_add]
        congr 1; push_cast; ring
      · dsimp only
        by_cases h1 : L * k ≤ i ∧ i < L * k + L
        · rw [store_in h1, hq.1, show L * k + (i - L * k) = i by omega]
        · rw [store_out h1, hq.2 i (by omega)])
  have c := cover (n := h) hL
  exact key.2 i (by omega)

/-! ### What the rows start from -/

variable {s : Border} {w h : Nat}

/-- The weight of the corner. -/
def wtOf (s : Border) (w h : Nat) : Int := biCorner (s w) (s (-h)) w h * 2 - s w - s (-h)

structure Ready (s : Border) (w h : Nat) (r : BiArr) : Prop where
  top : ∀ x, x < w → r.pTop x = s (1 + x) * h ∧ r.pT x = s (-h) - s (1 + x)
  left : ∀ y, y < h → r.pLeft y = s (-1 - y) * w ∧ r.pL y = s w - s (-1 - y) ∧ r.wy y = wtOf s w h * y

theorem biPrep_ready (hb : IsByte s) (hs : (w, h) ∈ shapes) {L : Nat} (hL : 0 < L) {row : Words → Words}
    (hr : ∀ t i, i < w → row t i = s (1 + i)) (j : BiArr) : Ready s w h (biPrep L row s w h j) := by
  obtain ⟨hw, hh⟩ := shape_side hs
  obtain ⟨ew, eh, _⟩ := Ip.log2_shape hs
  have ewi : (2 : Int) ^ log2size w = w := by exact_mod_cast ew
  have ehi : (2 : Int) ^ log2size h = h := by exact_mod_cast eh
  have hw' : 4 ≤ w ∧ w ≤ 64 := by unfold Side at hw; omega
  have hh' : 4 ≤ h ∧ h ≤ 64 := by unfold Side at hh; omega
  have e1 : row j.pTop (w - 1) = s w := by rw [hr _ _ (by omega)]; congr 1; omega
  have e2 : biColumn s h j.pLeft (h - 1) = s (-h) := by rw [biColumn_eq hb _ _ _ (by omega)]; congr 1; omega
  have b1 := hb w
  have b2 := hb (-h)
  have mul : ∀ (i : Int) (n : Nat), n ≤ 64 → -32768 ≤ s i * n ∧ s i * n ≤ 32767 := by
    intro i n hn
    have b := hb i
    have l := Int.mul_nonneg b.1 (show (0 : Int) ≤ n by omega)
    have u := Int.mul_le_mul_of_nonneg_right b.2 (show (0 : Int) ≤ n by omega)
    omega
  have id16 : ∀ i, wrap16 (s i) = s i := fun i => wrap16_id (by have := hb i; omega)
  have dif : ∀ i k, wrap16 (s i - s k) = s i - s k := fun i k => wrap16_id (by have := hb i; have := hb k; omega)
  constructor
  · intro x hx
    have h1 := biDiff_eq hL (biColumn s h j.pLeft (h - 1)) (log2size h) w (row j.pTop, j.pT) x hx
    unfold biPrep
    dsimp only
    refine ⟨h1.1.trans ?_, h1.2.trans ?_⟩
    · dsimp only
      rw [hr _ _ hx, id16, ehi, wrap16_id (mul _ _ hh'.2)]
    · dsimp only
      rw [hr _ _ hx, e2, id16, id16, dif]
  · intro y hy
    have h1 := biDiff_eq hL (row j.pTop (w - 1)) (log2size w) h (biColumn s h j.pLeft, j.pL) y hy
    unfold biPrep
    dsimp only
    refine ⟨h1.1.trans ?_, h1.2.trans ?_, ?_⟩
    · dsimp only
      rw [biColumn_eq hb _ _ _ hy, id16, ewi, wrap16_id (mul _ _ hw'.2)]
    · dsimp only
      rw [biColumn_eq hb _ _ _ hy, e1, id16, id16, dif]
    have h2 := biMult_eq hL (biCorner (row j.pTop (w - 1)) (biColumn s h j.pLeft (h - 1)) w h * 2 - row j.pTop (w - 1) - biColumn s h j.pLeft (h - 1)) h j.wy y hy
    refine h2.trans ?_
    rw [e1, e2]
    exact wrap16_id (Ip.wt_bound b1 b2 hs hy)

/-- Row `y`, column `x` of the sums down the columns. -/
def downAt (s : Border) (h x y : Nat) : Int := s (1 + x) * h + (s (-h) - s (1 + x)) * y

theorem down_range (hb : IsByte s) {x y : Nat} (hy : y ≤ h) (hh : h ≤ 64) : 0 ≤ downAt s h x y ∧ downAt s h x y ≤ 255 * h := by
  have h1 := hb (1 + x)
  have h2 := hb (-h)
  have e : downAt s h x y = s (1 + x) * (h - y) + s (-h) * y := by unfold downAt; ring
  have l1 := Int.mul_nonneg h1.1 (show 0 ≤ (h : Int) - y by omega)
  have l2 := Int.mul_nonneg h2.1 (show (0 : Int) ≤ y by omega)
  have u1 := Int.mul_le_mul_of_nonneg_right h1.2 (show 0 ≤ (h : Int) - y by omega)
  have u2 := Int.mul_le_mul_of_nonneg_right h2.2 (show (0 : Int) ≤ y by omega)
  rw [e]
  omega

/-- The value before the last shift. -/
def biE (s : Border) (w h x y : Nat) : Int :=
  downAt s h x (y + 1) * w + (s (-1 - y) * w * h + w * h + (s w - s (-1 - y)) * h + ((s w - s (-1 - y)) * h + wtOf s w h * y) * x)

theorem biE_range (hb : IsByte s) (hs : (w, h) ∈ shapes) {x y : Nat} (hx : x < w) (hy : y < h) :
    (-32768 * (2 * w * h) ≤ biE s w h x y ∧ biE s w h x y ≤ 32767 * (2 * w * h)) ∧ -2147483648 ≤ biE s w h x y ∧ biE s w h x y ≤ 2147483647 := by
  obtain ⟨hw, hh⟩ := shape_side hs
  have hw' : 4 ≤ w ∧ w ≤ 64 := by unfold Side at hw; omega
  have hh' : 4 ≤ h ∧ h ≤ 64 := by unfold Side at hh; omega
  have d := down_range hb (s := s) (h := h) (x := x) (y := y + 1) (by omega) hh'.2
  have wb := Ip.wt_bound (y := y) (hb w) (hb (-h)) hs hy
  have h1 := hb (-1 - y)
  have h2 := hb w
  have e : biE s w h x y = downAt s h x (y + 1) * w + (s (-1 - y) * (w - (x + 1)) + s w * (x + 1)) * h + w * h + wtOf s w h * y * x := by
    unfold biE; ring
  change -32768 ≤ wtOf s w h * y ∧ wtOf s w h * y ≤ 32767 at wb
  rw [e]
  generalize wtOf s w h * y = z at *
  generalize downAt s h x (y + 1) = D at *
  have l1 := Int.mul_nonneg h1.1 (show 0 ≤ (w : Int) - (x + 1) by omega)
  have l2 := Int.mul_nonneg h2.1 (show (0 : Int) ≤ x + 1 by omega)
  have u1 := Int.mul_le_mul_of_nonneg_right h1.2 (show 0 ≤ (w : Int) - (x + 1) by omega)
  have u2 := Int.mul_le_mul_of_nonneg_right h2.2 (show (0 : Int) ≤ x + 1 by omega)
  have hA : 0 ≤ s (-1 - y) * (w - (x + 1)) + s w * (x + 1) ∧ s (-1 - y) * (w - (x + 1)) + s w * (x + 1) ≤ 255 * w := by omega
  generalize s (-1 - y) * (w - (x + 1)) + s w * (x + 1) = A at *
  have zl := Int.mul_le_mul_of_nonneg_right wb.1 (show (0 : Int) ≤ x by omega)
  have zu := Int.mul_le_mul_of_nonneg_right wb.2 (show (0 : Int) ≤ x by omega)
  have al := Int.mul_nonneg hA.1 (show (0 : Int) ≤ h by omega)
  have au := Int.mul_le_mul_of_nonneg_right hA.2 (show (0 : Int) ≤ h by omega)
  have dl := Int.mul_nonneg d.1 (show (0 : Int) ≤ w by omega)
  have du := Int.mul_le_mul_of_nonneg_right d.2 (show (0 : Int) ≤ w by omega)
  have p1 : (w : Int) * 4 ≤ w * h := Int.mul_le_mul_of_nonneg_left (by omega) (by omega)
  have p2 : (w : Int) * h ≤ w * 64 := Int.mul_le_mul_of_nonneg_left (by omega) (by omega)
  have q1 : (255 : Int) * w * h = 255 * (w * h) := by ring
  have q2 : (255 : Int) * h * w = 255 * (w * h) := by ring
  have q3 : (2 : Int) * w * h = 2 * (w * h) := by ring
  rw [q1] at au
  rw [q2] at du
  rw [q3]
  generalize (w : Int) * h = P at *
  generalize A * (h : Int) = AH at *
  generalize D * (w : Int) = DW at *
  generalize z * (x : Int) = ZX at *
  omega

/-- The bilinear prediction as a plane. -/
def biF (s : Border) (w h : Nat) : Plane := fun x y => Ip.bilinear 8 s w h x.toNat y.toNat

theorem bi_value (hb : IsByte s) (hs : (w, h) ∈ shapes) {x y : Nat} (hx : x < w) (hy : y < h) :
    biF s w h x y = satu8 (biE s w h x y / (2 * w * h)) := by
  obtain ⟨ew, eh, h6, em⟩ := Ip.log2_shape hs
  have ewi : (2 : Int) ^ log2size w = w := by exact_mod_cast ew
  have ehi : (2 : Int) ^ log2size h = h := by exact_mod_cast eh
  have emi : (2 : Int) ^ min (log2size w) (log2size h) = (min w h : Nat) := by exact_mod_cast em
  have ec : biCorner (s w) (s (-h)) w h = if w = h then (s w + s (-h) + 1) / 2
      else ((s w * w + s (-h) * h) * 13 + 32 * (min w h : Nat)) / (64 * (min w h : Nat)) := by
    simp only [biCorner]
    rw [ewi, ehi, Int.pow_add, Int.pow_add, emi]
    norm_num [Int.mul_comm]
  unfold biF
  rw [Int.toNat_natCast, Int.toNat_natCast, Ip.bilinear_exact hs hx hy hb]
  unfold Spec.bilinear8 satu8
  dsimp only
  unfold biE wtOf downAt
  rw [ec]
  generalize (if w = h then (s w + s (-h) + 1) / 2
      else ((s w * w + s (-h) * h) * 13 + 32 * (min w h : Nat)) / (64 * (min w h : Nat))) = c
  congr 3
  push_cast
  ring

/-! ### Rows -/

theorem biStart_lane {r : BiArr} (i y : Nat) : d32 (biStart r w h y) i = wrap32 (biVal r w h y + biAdd r h y * i) := by
  unfold biStart
  rw [d32_add32, d32_mullo, d32_iota, d32_set1, d32_set1, wrap32_mul, wrap32_sum]
  congr 1
  ring

theorem ready_sum {r : BiArr} (hr : Ready s w h r) (hs : (w, h) ∈ shapes) {x y : Nat} (hy : y < h) :
    downAt s h x (y + 1) * w + (biVal r w h y + biAdd r h y * x) = biE s w h x y := by
  obtain ⟨ew, eh, _⟩ := Ip.log2_shape hs
  have ewi : (2 : Int) ^ log2size w = w := by exact_mod_cast ew
  have ehi : (2 : Int) ^ log2size h = h := by exact_mod_cast eh
  have l := hr.left y hy
  unfold biVal biAdd biE
  rw [l.1, l.2.1, l.2.2, Int.pow_add, ewi, ehi]

/-- A lane of a sample register. -/
theorem sample_lane (hb : IsByte s) (hs : (w, h) ∈ shapes) {r : BiArr} (hr : Ready s w h r) {t add : V} {i x y : Nat} (hx : x < w) (hy : y < h)
    (ht : d32 t i = downAt s h x (y + 1)) (ha : d32 add i = wrap32 (biVal r w h y + biAdd r h y * x)) :
    d32 (biSample w h t add) i ≤ 32767 ∧ satu8 (d32 (biSample w h t add) i) = biF s w h x y := by
  obtain ⟨ew, eh, _⟩ := Ip.log2_shape hs
  have ewi : (2 : Int) ^ log2size w = w := by exact_mod_cast ew
  have ehi : (2 : Int) ^ log2size h = h := by exact_mod_cast eh
  obtain ⟨hw, hh⟩ := shape_side hs
  have hp : (0 : Int) < 2 * w * h := by
    have : 0 < w ∧ 0 < h := by unfold Side at hw hh; omega
    have : (0 : Int) < w := by omega
    have : (0 : Int) < h := by omega
    exact Int.mul_pos (Int.mul_pos (by omega) (by assumption)) (by assumption)
  have hE := biE_range hb hs hx hy
  have e : d32 (biSample w h t add) i = biE s w h x y / (2 * w * h) := by
    unfold biSample
    rw [d32_sraN, d32_add32, d32_slli, ht, ha, ewi, wrap32_sum, ready_sum hr hs hy, wrap32_id hE.2, Int.pow_succ, Int.pow_add, ewi, ehi,
      show (w : Int) * h * 2 = 2 * w * h by ring]
  rw [e]
  exact ⟨Int.ediv_le_of_le_mul hp hE.1.2, (bi_value hb hs hx hy).symm⟩

theorem down_zero (s : Border) (h x : Nat) : downAt s h x 0 = s (1 + x) * h := by unfold downAt; simp
theorem down_succ (s : Border) (h x y : Nat) : downAt s h x (y + 1) = downAt s h x y + (s (-h) - s (1 + x)) := by unfold downAt; push_cast; ring

theorem fills_biNarrow (hb : IsByte s) (hs : (w, h) ∈ shapes) {r : BiArr} (hr : Ready s w h r) {cvt : V → V} (hc : ∀ v i, i < w → w16 (cvt v) i = w16 v i)
    {pTT t0 : V} (hp : ∀ i, i < w → w16 pTT i = r.pT i) (h0 : ∀ i, i < w → w16 t0 i = r.pTop i) {out : V → Plane → Nat → Plane}
    (ho : ∀ v d (y : Nat) (f : Plane), (∀ j, j < w → d32 v j ≤ 32767 ∧ satu8 (d32 v j) = f j y) → Fills (Rg 0 w y 1) f d (out v d y)) (d : Plane) :
    Fills (Rg 0 w 0 h) (biF s w h) d (biNarrow r cvt pTT out w h t0 d) := by
  have hh : h ≤ 64 := by have := (shape_side hs).2; unfold Side at this; omega
  have step : ∀ t y, y < h → (∀ i, i < w → w16 t i = downAt s h i y) → ∀ i, i < w → w16 (add16 t pTT) i = downAt s h i (y + 1) := by
    intro t y hy ht i hi
    have d := down_range hb (x := i) (y := y + 1) (show y + 1 ≤ h by omega) hh
    rw [w16_add16, ht i hi, hp i hi, (hr.top i hi).2, ← down_succ, wrap16_id (by omega)]
  unfold biNarrow
  refine rows_pair (fun y t => ∀ i, i < w → w16 t i = downAt s h i y) h (fun y hy t d ht => ?_) _ _ ?_
  · dsimp only
    refine ⟨step t y hy ht, ?_⟩
    refine ho _ _ _ _ fun j hj => sample_lane hb hs hr hj hy ?_ (biStart_lane j y)
    rw [d32_cvt, hc _ _ hj, step t y hy ht j hj]
  · intro i hi
    rw [h0 i hi, (hr.top i hi).1, down_zero]

theorem fills_bi8S (hb : IsByte s) (hs : (w, h) ∈ shapes) (h8 : w = 8) {r : BiArr} (hr : Ready s w h r) (d : Plane) :
    Fills (Rg 0 w 0 h) (biF s w h) d (bi8S r w h d) := by
  have hh : h ≤ 64 := by have := (shape_side hs).2; unfold Side at this; omega
  have dif : ∀ i, i < w → w16 (loadA r.pT 0) i = s (-h) - s (1 + i) := fun i hi => by
    have := hb (-h); have := hb (1 + i)
    rw [w16_loadA, Nat.zero_add, (hr.top i hi).2, wrap16_id (by omega)]
  have step : ∀ t y, y < h → (∀ i, i < w → w16 t i = downAt s h i y) → ∀ i, i < w → w16 (add16 t (loadA r.pT 0)) i = downAt s h i (y + 1) := by
    intro t y hy ht i hi
    have d := down_range hb (x := i) (y := y + 1) (show y + 1 ≤ h by omega) hh
    rw [w16_add16, ht i hi, dif i hi, ← down_succ, wrap16_id (by omega)]
  unfold bi8S
  refine rows_pair (fun y t => ∀ i, i < w → w16 t i = downAt s h i y) h (fun y hy t d ht => ?_) _ _ ?_
  · dsimp only
    refine ⟨step t y hy ht, ?_⟩
    have l1 : ∀ j, j < 4 → _ := fun j hj => sample_lane hb hs hr (x := j) (y := y) (i := j) (t := cvt16_32 (add16 t (loadA r.pT 0))) (add := biStart r w h y)
      (by omega) hy (by rw [d32_cvt, step t y hy ht j (by omega)]) (biStart_lane j y)
    have l2 : ∀ j, j < 4 → _ := fun j hj => sample_lane hb hs hr (x := j + 4) (y := y) (i := j) (t := cvt16_32 (srliB (add16 t (loadA r.pT 0)) 8))
      (add := add32 (biStart r w h y) (mullo32 (set1_32 4) (set1_32 (biAdd r h y)))) (by omega) hy
      (by rw [d32_cvt, w16_srl8 _ _ hj, step t y hy ht (j + 4) (by omega)])
      (by rw [d32_add32, biStart_lane, d32_mullo, d32_set1, d32_set1, wrap32_mul, wrap32_sum]; congr 1; push_cast; ring)
    refine (fills_storel fun j hj => ?_).congr fun x y => by rw [h8]; rfl
    rw [u8_packus16, if_pos hj, w16_packu, show j / 8 = 0 by omega, show j % 8 = j by omega, Nat.mul_zero, Int.zero_add, Nat.zero_add]
    by_cases h4 : j < 4
    · rw [if_pos h4, clip_twice (l1 j h4).1, (l1 j h4).2]
    · rw [if_neg h4, Nat.zero_add, clip_twice (l2 (j - 4) (by omega)).1, (l2 (j - 4) (by omega)).2, show j - 4 + 4 = j by omega]
  · intro i hi
    have d := down_range hb (x := i) (y := 0) (show 0 ≤ h by omega) hh
    rw [w16_loadA, Nat.zero_add, (hr.top i hi).1, ← down_zero, wrap16_id (by omega)]

theorem fills_biWide (hb : IsByte s) (hs : (w, h) ∈ shapes) {r : BiArr} (hr : Ready s w h r) {L : Nat} (hL : 2 * L * ((w + 2 * L - 1) / (2 * L)) = w)
    {tt ptt : Nat → V} (htt : ∀ i j, j < L → L * i + j < w → d32 (tt i) j = r.pTop (L * i + j))
    (hptt : ∀ i j, j < L → L * i + j < w → d32 (ptt i) j = r.pT (L * i + j)) {out : V → V → Plane → Nat → Nat → Plane}
    (ho : ∀ v v1 d (k y : Nat) (f : Plane), (∀ j, j < L → d32 v j ≤ 32767 ∧ satu8 (d32 v j) = f (2 * L * k + j : Nat) y) →
      (∀ j, j < L → d32 v1 j ≤ 32767 ∧ satu8 (d32 v1 j) = f (2 * L * k + L + j : Nat) y) →
      Fills (Rg (2 * L * k : Nat) (2 * L : Nat) y 1) f d (out v v1 d k y)) (d : Plane) :
    Fills (Rg 0 w 0 h) (biF s w h) d (biWide L r tt ptt out w h d) := by
  have hh : h ≤ 64 := by have := (shape_side hs).2; unfold Side at this; omega
  unfold biWide
  generalize (w + 2 * L - 1) / (2 * L) = N at *
  refine rows_pair (fun y (t : Nat → V) => ∀ i j, j < L → L * i + j < w → d32 (t i) j = downAt s h (L * i + j) y) h (fun y hy t d ht => ?_) _ _ ?_
  · dsimp only
    have key := times_inv (f := fun k (q : (Nat → V) × V × Plane) =>
        (fun i => if i = 2 * k then add32 (q.1 (2 * k)) (ptt (2 * k)) else if i = 2 * k + 1 then add32 (q.1 (2 * k + 1)) (ptt (2 * k + 1)) else q.1 i,
          add32 (add32 q.2.1 (mullo32 (set1_32 L) (set1_32 (biAdd r h y)))) (mullo32 (set1_32 L) (set1_32 (biAdd r h y))),
          out (biSample w h (add32 (q.1 (2 * k)) (ptt (2 * k))) q.2.1)
            (biSample w h (add32 (q.1 (2 * k + 1)) (ptt (2 * k + 1))) (add32 q.2.1 (mullo32 (set1_32 L) (set1_32 (biAdd r h y))))) q.2.2 k y))
      (fun k q => (∀ i j, j < L → L * i + j < w → d32 (q.1 i) j = downAt s h (L * i + j) (if i < 2 * k then y + 1 else y)) ∧
        (∀ i, d32 q.2.1 i = wrap32 (biVal r w h y + biAdd r h y * (2 * L * k + i : Nat))) ∧ Fills (Rg 0 (2 * L * k : Nat) y 1) (biF s w h) d q.2.2)
      N (t, biStart r w h y, d) ⟨fun i j hj hi => by rw [if_neg (by omega)]; exact ht i j hj hi, fun i => by rw [biStart_lane]; simp,
        Fills.none _ _ fun x y => by unfold Rg; simp; omega⟩ (fun k hk q hq => by
      have hin : 2 * L * k + 2 * L ≤ w := by
        have : 2 * L * (k + 1) ≤ 2 * L * N := Nat.mul_le_mul_left _ (by omega)
        have e : 2 * L * (k + 1) = 2 * L * k + 2 * L := by ring
        omega
      have e0 : L * (2 * k) = 2 * L * k := by ring
      have e1 : L * (2 * k + 1) = 2 * L * k + L := by ring
      have nxt : ∀ i, 2 * k ≤ i → ∀ j, j < L → L * i + j < w → d32 (add32 (q.1 i) (ptt i)) j = downAt s h (L * i + j) (y + 1) := by
        intro i hi j hj hij
        have d := down_range hb (x := L * i + j) (y := y + 1) (show y + 1 ≤ h by omega) hh
        rw [d32_add32, hq.1 i j hj hij, if_neg (by omega), hptt i j hj hij, (hr.top _ hij).2, ← down_succ, wrap32_id (by omega)]
      have add1 : ∀ i, d32 (add32 q.2.1 (mullo32 (set1_32 L) (set1_32 (biAdd r h y)))) i = wrap32 (biVal r w h y + biAdd r h y * (2 * L * k + L + i : Nat)) := by
        intro i
        rw [d32_add32, hq.2.1, d32_mullo, d32_set1, d32_set1, wrap32_mul, wrap32_sum]
        congr 1; push_cast; ring
      refine ⟨fun i j hj hij => ?_, fun i => ?_, ?_⟩
      · dsimp only
        by_cases h0 : i = 2 * k
        · rw [if_pos h0, if_pos (by omega), h0, nxt _ (by omega) j hj (by rw [← h0]; exact hij)]
        rw [if_neg h0]
        by_cases h1 : i = 2 * k + 1
        · rw [if_pos h1, if_pos (by omega), h1, nxt _ (by omega) j hj (by rw [← h1]; exact hij)]
        rw [if_neg h1, hq.1 i j hj hij]
        congr 1
        by_cases h2 : i < 2 * k
        · rw [if_pos h2, if_pos (by omega)]
        · rw [if_neg h2, if_neg (by omega)]
      · dsimp only
        rw [d32_add32, add1, d32_mullo, d32_set1, d32_set1, wrap32_mul, wrap32_sum]
        congr 1; push_cast; ring
      · refine hq.2.2.trans (ho _ _ _ _ _ _ (fun j hj => sample_lane hb hs hr (by omega) hy ?_ (hq.2.1 j)) fun j hj =>
          sample_lane hb hs hr (by omega) hy ?_ (add1 j)) fun x y => ?_
        · rw [nxt _ (by omega) j hj (by rw [e0]; omega), e0]
        · rw [nxt _ (by omega) j hj (by rw [e1]; omega), e1]
        · have e : 2 * L * (k + 1) = 2 * L * k + 2 * L := by ring
          rw [e]
          unfold Rg
          generalize 2 * L * k = m
          generalize 2 * L = l
          push_cast
          omega)
    refine ⟨fun i j hj hij => ?_, key.2.2.congr fun x y => by rw [hL]⟩
    have := key.1 i j hj hij
    rw [if_pos] at this
    · exact this
    · by_contra hc
      have : 2 * N ≤ i := by omega
      have : L * (2 * N) ≤ L * i := Nat.mul_le_mul_left _ this
      have e : L * (2 * N) = 2 * L * N := by ring
      omega
  · intro i j hj hij
    rw [htt i j hj hij, (hr.top _ hij).1, down_zero]

/-! ### The two routines -/

theorem w16_low64 (a : V) (i : Nat) (h : i < 4) : w16 (low64 a) i = w16 a i :=
  w16_bytes (by unfold low64; rw [if_pos (by omega)]) (by unfold low64; rw [if_pos (by omega)])

theorem w16_hi128 (v : V) (j : Nat) (hj : j < 8) : w16 (high128 v) j = w16 v (8 + j) := by
  apply w16_bytes <;> unfold high128 <;> rw [if_pos (by omega)] <;> congr 1 <;> omega

theorem d32_p20 (a b : V) (i : Nat) : d32 (perm2x128_20 a b) i = if i < 4 then d32 a i else d32 b (i - 4) := by
  split
  · exact d32_same fun m hm => by unfold perm2x128_20; rw [if_pos (by omega)]
  · exact d32_same fun m hm => by unfold perm2x128_20; rw [if_neg (by omega)]; congr 1; omega
theorem d32_p31 (a b : V) (i : Nat) : d32 (perm2x128_31 a b) i = if i < 4 then d32 a (4 + i) else d32 b i := by
  split
  · exact d32_same fun m hm => by unfold perm2x128_31; rw [if_pos (by omega)]; congr 1; omega
  · exact d32_same fun m hm => by unfold perm2x128_31; rw [if_neg (by omega)]

theorem ready_top {r : BiArr} (hb : IsByte s) (hr : Ready s w h r) (hh : h ≤ 64) {x : Nat} (hx : x < w) :
    (0 ≤ r.pTop x ∧ r.pTop x ≤ 16320) ∧ -255 ≤ r.pT x ∧ r.pT x ≤ 255 := by
  have d := down_range hb (x := x) (y := 0) (show 0 ≤ h by omega) hh
  have := hb (-h)
  have := hb (1 + x)
  rw [(hr.top x hx).1, (hr.top x hx).2, ← down_zero]
  omega

theorem fills_bilinearS (hb : IsByte s) (hs : (w, h) ∈ shapes) (j : BiArr) (d : Plane) :
    Fills (Rg 0 w 0 h) (biF s w h) d (bilinearS j s w h d) := by
  have hr : Ready s w h (biPrep 8 (biRowS s w) s w h j) := biPrep_ready hb hs (by omega) (fun t i hi => biRowS_eq hb w t i hi) j
  have hh : h ≤ 64 := by have := (shape_side hs).2; unfold Side at this; omega
  have hw := (shape_side hs).1
  unfold bilinearS
  dsimp only
  generalize biPrep 8 (biRowS s w) s w h j = r at *
  split
  · rename_i h4
    refine fills_biNarrow hb hs hr (fun _ _ _ => rfl) (fun i hi => ?_) (fun i hi => ?_) (fun v d y f hv => ?_) d
    · have := ready_top hb hr hh hi
      rw [w16_low64 _ _ (by omega), w16_loadA, Nat.zero_add, wrap16_id (by omega)]
    · have := ready_top hb hr hh hi
      rw [w16_low64 _ _ (by omega), w16_loadA, Nat.zero_add, wrap16_id (by omega)]
    · refine (fills_store4 fun j hj => ?_).congr fun x y => by rw [h4]; rfl
      have l := hv j (by omega)
      rw [u8_packus16, if_pos (by omega), w16_packu, show j / 8 = 0 by omega, show j % 8 = j by omega, if_pos hj, Nat.mul_zero,
        Nat.zero_add, clip_twice l.1, l.2, Int.zero_add]
  split
  · exact fills_bi8S hb hs (by assumption) hr d
  · have hw' : w = 16 ∨ w = 32 ∨ w = 64 := by unfold Side at hw; omega
    refine fills_biWide hb hs hr (by omega) (fun i j hj hi => ?_) (fun i j hj hi => ?_) (fun v v1 d k y f h0 h1 => ?_) d
    · have t := ready_top hb hr hh hi
      unfold ttS
      split
      · rw [d32_same (b := unpacklo16y (loadA r.pTop (8 * (i / 2))) zero) (k := j) fun m hm => lo16_y _ _ _ (by omega), d32_lo16y,
          show 8 * (j / 4) + j % 4 = j by omega]
        have e : 8 * (i / 2) + j = 4 * i + j := by omega
        rw [u16_loadA _ _ _ (by rw [e]; omega), e]
      · rw [d32_same (b := unpackhi16y (loadA r.pTop (8 * (i / 2))) zero) (k := j) fun m hm => hi16_y _ _ _ (by omega), d32_hi16y,
          show 8 * (j / 4) + 4 + j % 4 = 4 + j by omega]
        have e : 8 * (i / 2) + (4 + j) = 4 * i + j := by omega
        rw [u16_loadA _ _ _ (by rw [e]; omega), e]
    · have t := ready_top hb hr hh hi
      unfold pttS
      split
      · rw [d32_cvt, w16_loadA, show 8 * (i / 2) + j = 4 * i + j by omega, wrap16_id (by omega)]
      · rw [d32_cvt, w16_srl8 _ _ hj, w16_loadA, show 8 * (i / 2) + (j + 4) = 4 * i + j by omega, wrap16_id (by omega)]
    · refine (fills_storel fun j hj => ?_).congr fun x y => by rfl
      rw [u8_packus16, if_pos hj, w16_packu, show j / 8 = 0 by omega, show j % 8 = j by omega, Nat.mul_zero, Nat.zero_add]
      by_cases h4 : j < 4
      · rw [if_pos h4, clip_twice (h0 j h4).1, (h0 j h4).2]
        congr 1
      · have l := h1 (j - 4) (by omega)
        rw [if_neg h4, Nat.zero_add, clip_twice l.1, l.2]
        congr 1
        push_cast
        omega

theorem fills_bilinearA (hb : IsByte s) (hs : (w, h) ∈ shapes) (j : BiArr) (d : Plane) :
    Fills (Rg 0 w 0 h) (biF s w h) d (bilinearA j s w h d) := by
  have hr : Ready s w h (biPrep 16 (biRowA s w) s w h j) := biPrep_ready hb hs (by omega) (fun t i hi => biRowA_eq hb w t i hi) j
  have hh : h ≤ 64 := by have := (shape_side hs).2; unfold Side at this; omega
  have hw := (shape_side hs).1
  unfold bilinearA
  dsimp only
  generalize biPrep 16 (biRowA s w) s w h j = r at *
  have p1 : ∀ i, i < w → w16 (loadA r.pT 0) i = r.pT i := fun i hi => by
    have := ready_top hb hr hh hi
    rw [w16_loadA, Nat.zero_add, wrap16_id (by omega)]
  have p2 : ∀ i, i < w → w16 (loadA r.pTop 0) i = r.pTop i := fun i hi => by
    have := ready_top hb hr hh hi
    rw [w16_loadA, Nat.zero_add, wrap16_id (by omega)]
  split
  · rename_i h4
    refine fills_biNarrow hb hs hr (fun v i hi => w16_low _ _ (by omega)) p1 p2 (fun v d y f hv => ?_) d
    refine (fills_maskstore fun j hj => ?_).congr fun x y => by rw [h4]; rfl
    have l := hv j (by omega)
    rw [u8_packy, if_pos (by omega), show j / 16 = 0 by omega, show j % 16 = j by omega, w16_packu, Nat.mul_zero, Nat.zero_add, show j / 8 = 0 by omega,
      show j % 8 = j by omega, if_pos (by omega), Nat.mul_zero, Nat.zero_add, clip_twice l.1, l.2, Int.zero_add]
  split
  · rename_i h8
    refine fills_biNarrow hb hs hr (fun v i hi => w16_low _ _ (by omega)) p1 p2 (fun v d y f hv => ?_) d
    refine (fills_maskstore fun j hj => ?_).congr fun x y => by rw [h8]; rfl
    have l := hv j (by omega)
    rw [u8_packy, if_pos (by omega), show j / 16 = 0 by omega, show j % 16 = j by omega, Nat.mul_zero, Nat.zero_add, w16_permute, w16_packu]
    by_cases h4 : j < 4
    · rw [show j / 4 = 0 by omega, show j % 4 = j by omega, show 4 * (8 / 4 ^ 0 % 4) + j = j by omega, show j / 8 = 0 by omega, show j % 8 = j by omega, if_pos h4,
        Nat.mul_zero, Nat.zero_add, clip_twice l.1, l.2, Int.zero_add]
    · rw [show j / 4 = 1 by omega, show 4 * (8 / 4 ^ 1 % 4) + j % 4 = 4 + j by omega, show (4 + j) / 8 = 1 by omega, show (4 + j) % 8 = j - 4 by omega,
        if_pos (by omega), show 4 * 1 + (j - 4) = j by omega, clip_twice l.1, l.2, Int.zero_add]
  · have hw' : w = 16 ∨ w = 32 ∨ w = 64 := by unfold Side at hw; omega
    refine fills_biWide hb hs hr (by omega) (fun i j hj hi => ?_) (fun i j hj hi => ?_) (fun v v1 d k y f h0 h1 => ?_) d
    · have t := ready_top hb hr hh hi
      have e : ∀ a, a = 8 * i + j → u16 (loadA r.pTop (16 * (i / 2))) (a - 16 * (i / 2)) = r.pTop (8 * i + j) := by
        intro a ha
        have e : 16 * (i / 2) + (a - 16 * (i / 2)) = 8 * i + j := by omega
        rw [u16_loadA _ _ _ (by rw [e]; omega), e]
      unfold ttA
      dsimp only
      rw [← e _ rfl]
      split
      · rw [d32_p20, d32_lo16y, d32_hi16y]
        split <;> (congr 1; omega)
      · rw [d32_p31, d32_lo16y, d32_hi16y]
        split <;> (congr 1; omega)
    · have t := ready_top hb hr hh hi
      unfold pttA
      split
      · rw [d32_cvt, w16_low _ _ (by omega), w16_loadA, show 16 * (i / 2) + j = 8 * i + j by omega, wrap16_id (by omega)]
      · rw [d32_cvt, w16_hi128 _ _ hj, w16_loadA, show 16 * (i / 2) + (8 + j) = 8 * i + j by omega, wrap16_id (by omega)]
    · refine (fills_maskstore fun j hj => ?_).congr fun x y => by rfl
      have g : ∀ c m, c < 2 → m < 4 → u8 (packus16y (packus32y v v1) (packus32y v v1)) (16 * c + m) = f (2 * 8 * k + (4 * c + m) : Nat) y ∧
          u8 (packus16y (packus32y v v1) (packus32y v v1)) (16 * c + 4 + m) = f (2 * 8 * k + 8 + (4 * c + m) : Nat) y := by
        intro c m hc hm
        have l0 := h0 (4 * c + m) (by omega)
        have l1 := h1 (4 * c + m) (by omega)
        rw [u8_packy, if_pos (by omega), show (16 * c + m) / 16 = c by omega, show (16 * c + m) % 16 = m by omega, w16_packu, show (8 * c + m) / 8 = c by omega,
          show (8 * c + m) % 8 = m by omega, if_pos hm, clip_twice l0.1, l0.2]
        rw [u8_packy, if_pos (by omega), show (16 * c + 4 + m) / 16 = c by omega, show (16 * c + 4 + m) % 16 = 4 + m by omega, w16_packu,
          show (8 * c + (4 + m)) / 8 = c by omega, show (8 * c + (4 + m)) % 8 = 4 + m by omega, if_neg (by omega), show 4 + m - 4 = m by omega, clip_twice l1.1, l1.2]
        exact ⟨rfl, rfl⟩
      rw [u8_permutevar]
      have hq : j / 4 = 0 ∨ j / 4 = 1 ∨ j / 4 = 2 ∨ j / 4 = 3 := by omega
      rcases hq with hq | hq | hq | hq
      · rw [hq]
        exact ((g 0 (j % 4) (by omega) (by omega)).1).trans (by congr 1; push_cast; omega)
      · rw [hq]
        exact ((g 1 (j % 4) (by omega) (by omega)).1).trans (by congr 1; push_cast; omega)
      · rw [hq]
        exact ((g 0 (j % 4) (by omega) (by omega)).2).trans (by congr 1; push_cast; omega)
      · rw [hq]
        exact ((g 1 (j % 4) (by omega) (by omega)).2).trans (by congr 1; push_cast; omega)

end Davs2.Vc
