import Verif.Lemmas.VecIntraBorder
import Verif.Lemmas.VecInterBlocks
import Verif.Lemmas.Intra
/-
The vector versions of DC and plane prediction, block by block.
-/
namespace Davs2.Vc
open Davs2.Sa (Plane)
open Davs2.Ip (Border shapes log2size planeMult planeShift sum)

/-! ### Loops with a register -/

theorem loop_pair {σ : Type} {f : Plane} {R S : Nat → Int → Int → Prop} (inv : Nat → σ → Prop) (N : Nat) {step : Nat → σ × Plane → σ × Plane}
    (hR0 : ∀ x y, ¬ R 0 x y) (hR : ∀ n, n < N → ∀ x y, R (n + 1) x y ↔ R n x y ∨ S n x y)
    (hs : ∀ n, n < N → ∀ s d, inv n s → inv (n + 1) (step n (s, d)).1 ∧ Fills (S n) f d (step n (s, d)).2)
    (s0 : σ) (d0 : Plane) (h0 : inv 0 s0) :
    inv N (times step N (s0, d0)).1 ∧ Fills (R N) f d0 (times step N (s0, d0)).2 := by
  induction N with
  | zero => exact ⟨h0, Fills.none _ _ hR0⟩
  | succ N ih =>
    have h := ih (fun n hn => hR n (by omega)) (fun n hn => hs n (by omega))
    have h1 := hs N (by omega) (times step N (s0, d0)).1 (times step N (s0, d0)).2 h.1
    exact ⟨h1.1, h.2.trans h1.2 (hR N (by omega))⟩

theorem rows_pair {σ : Type} {f : Plane} {w : Int} (inv : Nat → σ → Prop) (N : Nat) {step : Nat → σ × Plane → σ × Plane}
    (hs : ∀ n, n < N → ∀ s d, inv n s → inv (n + 1) (step n (s, d)).1 ∧ Fills (Rg 0 w n 1) f d (step n (s, d)).2)
    (s0 : σ) (d0 : Plane) (h0 : inv 0 s0) : Fills (Rg 0 w 0 N) f d0 (times step N (s0, d0)).2 :=
  (loop_pair (R := fun n => Rg 0 w 0 n) inv N (fun x y => by unfold Rg; omega) (fun n _ x y => by unfold Rg; push_cast; omega) hs s0 d0 h0).2

theorem cols_pair {σ : Type} {f : Plane} {y : Int} (a : Nat) (inv : Nat → σ → Prop) (N : Nat) {step : Nat → σ × Plane → σ × Plane}
    (hs : ∀ n, n < N → ∀ s d, inv n s → inv (n + 1) (step n (s, d)).1 ∧ Fills (Rg (a * n : Nat) a y 1) f d (step n (s, d)).2)
    (s0 : σ) (d0 : Plane) (h0 : inv 0 s0) :
    inv N (times step N (s0, d0)).1 ∧ Fills (Rg 0 (a * N : Nat) y 1) f d0 (times step N (s0, d0)).2 :=
  loop_pair (R := fun n => Rg 0 (a * n : Nat) y 1) inv N (fun x y => by unfold Rg; push_cast; omega) (fun n _ x y' => by
    unfold Rg
    have e : a * (n + 1) = a * n + a := by ring
    rw [e]
    generalize a * n = m
    push_cast
    omega) hs s0 d0 h0

theorem fills_store4 {f d : Plane} {x y : Int} {v : V} (hg : ∀ j : Nat, j < 4 → u8 v j = f (x + j) y) : Fills (Rg x 4 y 1) f d (store4 d x y v 0) := by
  unfold store4
  simp only [Nat.mul_zero, Nat.zero_add]
  exact fills_put fun j hj => hg j (by omega)

/-! ### Lanes -/

theorem u16_w16 {v : V} {i : Nat} (h : 0 ≤ w16 v i) : u16 v i = w16 v i := by
  have := u16_range v i
  unfold w16 wrap16 at *
  omega

theorem w16_u16 {v : V} {i : Nat} (h : u16 v i ≤ 32767) : w16 v i = u16 v i := by
  have := u16_range v i
  unfold w16
  exact wrap16_id (by omega)

theorem wrap16_add (a b : Int) : wrap16 (wrap16 a + wrap16 b) = wrap16 (a + b) := by unfold wrap16; omega
theorem wrap16_sub (a b : Int) : wrap16 (wrap16 a - wrap16 b) = wrap16 (a - b) := by unfold wrap16; omega
theorem wrap32_sum (a b : Int) : wrap32 (wrap32 a + wrap32 b) = wrap32 (a + b) := by unfold wrap32; omega

theorem wrap16_mod (a : Int) : ∃ k, wrap16 a = a + 65536 * k := ⟨-((a + 32768) / 65536), by unfold wrap16; omega⟩
theorem wrap16_shift (a k : Int) : wrap16 (a + 65536 * k) = wrap16 a := by unfold wrap16; omega
theorem wrap16_mul (a b : Int) : wrap16 (wrap16 a * wrap16 b) = wrap16 (a * b) := by
  obtain ⟨k, hk⟩ := wrap16_mod a
  obtain ⟨l, hl⟩ := wrap16_mod b
  rw [hk, hl, show (a + 65536 * k) * (b + 65536 * l) = a * b + 65536 * (a * l + b * k + 65536 * k * l) by ring, wrap16_shift]
theorem wrap32_mod (a : Int) : ∃ k, wrap32 a = a + 4294967296 * k := ⟨-((a + 2147483648) / 4294967296), by unfold wrap32; omega⟩
theorem wrap32_shift (a k : Int) : wrap32 (a + 4294967296 * k) = wrap32 a := by unfold wrap32; omega
theorem wrap32_mul (a b : Int) : wrap32 (wrap32 a * wrap32 b) = wrap32 (a * b) := by
  obtain ⟨k, hk⟩ := wrap32_mod a
  obtain ⟨l, hl⟩ := wrap32_mod b
  rw [hk, hl, show (a + 4294967296 * k) * (b + 4294967296 * l) = a * b + 4294967296 * (a * l + b * k + 4294967296 * k * l) by ring, wrap32_shift]

theorem w16_lo8 {s : Border} (hb : IsByte s) (a : Int) (i : Nat) : w16 (unpacklo8 (ldB s a) zero) i = s (a + i) := by
  have h := u8_unpacklo (ldB s a) zero i
  have e : u16 (unpacklo8 (ldB s a) zero) i = s (a + i) := by
    unfold u16
    rw [h.1, h.2]
    unfold ldB
    rw [u8_ofB, show u8 zero i = 0 from rfl]
    have := hb (a + i)
    omega
  rw [w16_u16 (by rw [e]; have := hb (a + i); omega), e]

theorem w16_hi8 {s : Border} (hb : IsByte s) (a : Int) (i : Nat) : w16 (unpackhi8 (ldB s a) zero) i = s (a + 8 + i) := by
  have h := u8_unpackhi (ldB s a) zero i
  have e : u16 (unpackhi8 (ldB s a) zero) i = s (a + 8 + i) := by
    unfold u16
    rw [h.1, h.2]
    unfold ldB
    rw [u8_ofB, show u8 zero (8 + i) = 0 from rfl, show a + ((8 + i : Nat) : Int) = a + 8 + i by push_cast; ring]
    have := hb (a + 8 + i)
    omega
  rw [w16_u16 (by rw [e]; have := hb (a + 8 + i); omega), e]

theorem w16_srl8 (v : V) (i : Nat) (h : i < 4) : w16 (srliB v 8) i = w16 v (i + 4) := by
  refine w16_bytes ?_ ?_
  · unfold srliB; rw [if_pos (by omega), show 2 * i + 8 = 2 * (i + 4) by omega]
  · unfold srliB; rw [if_pos (by omega), show 2 * i + 1 + 8 = 2 * (i + 4) + 1 by omega]

/-! ### DC -/

theorem sum_left (f : Nat → Int) (n : Nat) : sum f (n + 1) = f 0 + sum (fun i => f (i + 1)) n := by
  induction n with
  | zero => simp [sum]
  | succ n ih => rw [sum, ih, sum]; ring

theorem sum_rev (s : Border) (n : Nat) : sum (fun j => s (-(n : Int) + j)) n = sum (fun y => s (-1 - y)) n := by
  induction n with
  | zero => rfl
  | succ n ih =>
    rw [sum_left, sum, ← ih, Int.add_comm]
    congr 1
    · exact Ip.sum_congr fun i _ => by congr 1; push_cast; ring
    · congr 1; push_cast; ring

/-- What lane `i` holds after `q` steps. -/
def lane (s : Border) (a : Int) (i q : Nat) : Int := sum (fun k => s (a + 16 * k + i) + s (a + 16 * k + 8 + i)) q

theorem lane_range {s : Border} (hb : IsByte s) (a : Int) (i q : Nat) : 0 ≤ lane s a i q ∧ lane s a i q ≤ 510 * q := by
  induction q with
  | zero => exact ⟨Int.le_refl _, Int.le_refl _⟩
  | succ q ih =>
    have h1 := hb (a + 16 * q + i)
    have h2 := hb (a + 16 * q + 8 + i)
    have e : lane s a i (q + 1) = lane s a i q + (s (a + 16 * q + i) + s (a + 16 * q + 8 + i)) := rfl
    rw [e]
    push_cast
    omega

theorem lane_eq {s : Border} (hb : IsByte s) (a : Int) (i q : Nat) (hq : q ≤ 4) : w16 (times (sumStep s a) q zero) i = lane s a i q := by
  induction q with
  | zero => exact w16_u16 (v := zero) (i := i) (show (0 : Int) + 256 * 0 ≤ 32767 by decide)
  | succ q ih =>
    have r := lane_range hb a i q
    have r1 := lane_range hb a i (q + 1)
    have e : lane s a i (q + 1) = lane s a i q + (s (a + 16 * q + i) + s (a + 16 * q + 8 + i)) := rfl
    have h1 := hb (a + 16 * q + i)
    have h2 := hb (a + 16 * q + 8 + i)
    rw [times, sumStep, w16_add16, w16_add16, ih (by omega), w16_lo8 hb, w16_hi8 hb, wrap16_id (x := s _ + s _) (by omega), wrap16_id (by push_cast at *; omega), e]

theorem lanes_sum (s : Border) (a : Int) (q : Nat) :
    lane s a 0 q + lane s a 1 q + lane s a 2 q + lane s a 3 q + lane s a 4 q + lane s a 5 q + lane s a 6 q + lane s a 7 q
      = sum (fun j => s (a + j)) (16 * q) := by
  induction q with
  | zero => rfl
  | succ q ih =>
    have e : ∀ i, lane s a i (q + 1) = lane s a i q + (s (a + 16 * q + i) + s (a + 16 * q + 8 + i)) := fun _ => rfl
    rw [show 16 * (q + 1) = 16 * q + 1 + 1 + 1 + 1 + 1 + 1 + 1 + 1 + 1 + 1 + 1 + 1 + 1 + 1 + 1 + 1 by ring]
    simp only [sum]
    rw [← ih]
    simp only [e]
    have g : ∀ k : Int, s (a + 16 * q + 8 + k) = s (a + 16 * q + (8 + k)) := fun k => by rw [Int.add_assoc (a + 16 * q)]
    have g0 : ∀ k : Int, s (a + (16 * q + k)) = s (a + 16 * q + k) := fun k => by rw [Int.add_assoc]
    push_cast
    simp only [g, Int.add_assoc, Int.reduceAdd, Int.add_zero, Int.zero_add]
    ring

theorem sumV_eq {s : Border} (hb : IsByte s) (a : Int) {n : Nat} (hn : Side n) : sumV s a n = sum (fun j => s (a + j)) n := by
  have fin : ∀ (v : V) (F : Nat → Int), (∀ i, i < 8 → w16 v i = F i) → (∀ i, 0 ≤ F i ∧ F i ≤ 2040) →
      sum4 (add16 v (srliB v 8)) = F 0 + F 1 + F 2 + F 3 + F 4 + F 5 + F 6 + F 7 := by
    intro v F hv hF
    have l : ∀ i, i < 4 → u16 (add16 v (srliB v 8)) i = F i + F (i + 4) := by
      intro i hi
      have h1 := hF i
      have h2 := hF (i + 4)
      have e : w16 (add16 v (srliB v 8)) i = F i + F (i + 4) := by
        rw [w16_add16, w16_srl8 _ _ hi, hv i (by omega), hv (i + 4) (by omega), wrap16_id (by omega)]
      rw [u16_w16 (by rw [e]; omega), e]
    unfold sum4
    rw [l 0 (by omega), l 1 (by omega), l 2 (by omega), l 3 (by omega)]
    ring
  unfold sumV
  by_cases h4 : n = 4
  · rw [if_pos h4]; subst h4; simp [sum]
  rw [if_neg h4]
  by_cases h8 : n = 8
  · rw [if_pos h8]
    dsimp only
    rw [fin _ (fun i => s (a + i)) (fun i _ => w16_lo8 hb a i) (fun i => by have := hb (a + i); omega)]
    subst h8
    simp [sum]
  rw [if_neg h8]
  dsimp only
  have hq : 16 * ((n - 8 + 15) / 16) = n ∧ (n - 8 + 15) / 16 ≤ 4 := by unfold Side at hn; omega
  generalize (n - 8 + 15) / 16 = q at *
  rw [fin _ (fun i => lane s a i q) (fun i _ => lane_eq hb a i q hq.2) (fun i => by have := lane_range hb a i q; omega), lanes_sum, hq.1]

theorem sum_bytes {f : Nat → Int} (hf : ∀ i, 0 ≤ f i ∧ f i ≤ 255) (n : Nat) : 0 ≤ sum f n ∧ sum f n ≤ 255 * n := by
  induction n with
  | zero => exact ⟨Int.le_refl _, Int.le_refl _⟩
  | succ n ih => have := hf n; rw [sum]; push_cast; omega

theorem dcA_range {s : Border} (hb : IsByte s) (top left : Bool) {w h : Nat} (hs : (w, h) ∈ shapes) :
    0 ≤ dcValueA top left s w h ∧ dcValueA top left s w h ≤ 255 := by
  have h1 := sum_bytes (f := fun y => s (-1 - y)) (fun i => hb _) h
  have h2 := sum_bytes (f := fun x => s (1 + x)) (fun i => hb _) w
  unfold dcValueA
  generalize sum (fun y => s (-1 - y)) h = A at *
  generalize sum (fun x => s (1 + x)) w = B at *
  simp only [shapes, List.mem_cons, Prod.mk.injEq, List.not_mem_nil, or_false] at hs
  cases left <;> cases top <;> simp only [if_true, if_false, Bool.false_eq_true]
  · omega
  all_goals rcases hs with e | e | e | e | e | e | e | e | e <;> obtain ⟨rfl, rfl⟩ := e <;> norm_num at h1 h2 ⊢ <;> omega

theorem dc_value {s : Border} (hb : IsByte s) (top left : Bool) {w h : Nat} (hs : (w, h) ∈ shapes) :
    Ip.dc 8 top left s w h = dcValueA top left s w h := by
  have r := dcA_range hb top left hs
  unfold Ip.dc
  dsimp only
  rw [Ip.clip_max]
  have e : (if left = true then
      if top = true then (sum (fun y => s (-1 - y)) h + sum (fun x => s (1 + x)) w + ((w + h) / 2 : Nat)) * (512 / (w + h) : Nat) / 512
      else (sum (fun y => s (-1 - y)) h + (h / 2 : Nat)) / h
    else if top = true then (sum (fun x => s (1 + x)) w + (w / 2 : Nat)) / w else 2 ^ (8 - 1)) = dcValueA top left s w h := rfl
  rw [e]
  omega

theorem dc_same {s : Border} (hb : IsByte s) (top left : Bool) {w h : Nat} (hs : (w, h) ∈ shapes) :
    dcValueS top left s w h = dcValueA top left s w h := by
  have hsd := shape_side hs
  obtain ⟨ew, eh, _⟩ := Ip.log2_shape hs
  have ewi : (2 : Int) ^ log2size w = w := by exact_mod_cast ew
  have ehi : (2 : Int) ^ log2size h = h := by exact_mod_cast eh
  unfold dcValueS dcValueA
  rw [sumV_eq hb _ hsd.1, sumV_eq hb _ hsd.2, sum_rev, ewi, ehi]
  cases left <;> cases top <;> simp only [Bool.and_self, Bool.and_true, Bool.and_false, if_true, if_false, Bool.false_eq_true]
  norm_num
  rw [Int.add_comm (sum (fun j => s (1 + j)) w)]

theorem set_byte {v : Int} (hv : 0 ≤ v ∧ v ≤ 255) (j : Nat) : u8 (set1_8 v) j = v := by
  unfold set1_8; rw [u8_ofB]; omega

theorem fills_dcS {s : Border} (hb : IsByte s) (top left : Bool) {w h : Nat} (hs : (w, h) ∈ shapes) (d : Plane) :
    Fills (Rg 0 w 0 h) (fun _ _ => Ip.dc 8 top left s w h) d (dcS top left s w h d) := by
  have hv := dcA_range hb top left hs
  have hw := (shape_side hs).1
  unfold dcS
  dsimp only
  rw [dc_same hb top left hs, dc_value hb top left hs]
  generalize dcValueA top left s w h = v at *
  refine fills_rows1 0 h (fun y _ d => ?_) d
  rw [zero_add]
  by_cases h8 : w = 8
  · rw [if_pos h8]; subst h8
    exact fills_storel fun j _ => set_byte hv j
  rw [if_neg h8]
  by_cases h4 : w = 4
  · rw [if_pos h4]; subst h4
    exact fills_store4 fun j _ => set_byte hv j
  rw [if_neg h4]
  refine (fills_cols (f := fun _ _ => v) (y0 := y) (h := 1) 16 ((w - 8 + 15) / 16) (fun k _ d => ?_) d).congr fun x y => by unfold Rg; unfold Side at hw; omega
  have := fills_store (f := fun _ _ => v) (d := d) (x := (16 * k : Nat)) (y := y) (v := set1_8 v) fun j _ => set_byte hv j
  push_cast at this ⊢
  exact this

theorem fills_dcA {s : Border} (hb : IsByte s) (top left : Bool) {w h : Nat} (hs : (w, h) ∈ shapes) (d : Plane) :
    Fills (Rg 0 w 0 h) (fun _ _ => Ip.dc 8 top left s w h) d (dcA top left s w h d) := by
  have hv := dcA_range hb top left hs
  have hw := (shape_side hs).1
  unfold dcA
  by_cases h88 : w ≤ 8 ∧ h ≤ 8
  · rw [if_pos h88]; exact fills_dcS hb top left hs d
  rw [if_neg h88]
  dsimp only
  rw [dc_value hb top left hs]
  generalize dcValueA top left s w h = v at *
  refine fills_rows1 0 h (fun y _ d => ?_) d
  rw [zero_add]
  by_cases h32 : 32 ≤ w
  · rw [if_pos h32]
    have a := fills_store32 (f := fun _ _ => v) (d := d) (x := 0) (y := y) (v := set1_8 v) fun j _ => set_byte hv j
    by_cases h64 : 32 < w
    · rw [if_pos h64]
      exact a.trans (fills_store32 (f := fun _ _ => v) (x := 32) (y := y) (v := set1_8 v) fun j _ => set_byte hv j) fun x y => by
        unfold Rg; unfold Side at hw; omega
    · rw [if_neg h64]
      exact a.congr fun x y => by unfold Rg; omega
  rw [if_neg h32]
  by_cases h16 : w % 16 ≠ 0
  · rw [if_pos h16]
    have hw16 : w / 16 = 0 := by unfold Side at hw; omega
    rw [hw16]
    have a := fills_storeMask (f := fun _ _ => v) (d := d) (x := 0) (y := y) (v := set1_8 v) (m := w % 16) (by omega) (by omega) fun j _ => set_byte hv j
    have e : ((w % 16 - 1 : Nat) : Int) = ((w % 16 : Nat) : Int) - 1 := by omega
    rw [e]
    exact a.congr fun x y => by unfold Rg; omega
  · rw [if_neg h16]
    exact (fills_store (f := fun _ _ => v) (x := 0) (y := y) fun j _ => set_byte hv j).congr fun x y => by unfold Rg; unfold Side at hw; omega

/-! ### Plane -/

theorem w16_iota (i : Nat) : w16 iota16 i = wrap16 i := w16_ofW _ i

theorem slope_sum {d : Nat → Int} (hd : ∀ i, -255 ≤ d i ∧ d i ≤ 255) (n : Nat) :
    -(255 * (n * (n + 1))) ≤ 2 * sum (fun i => ((i : Int) + 1) * d i) n ∧ 2 * sum (fun i => ((i : Int) + 1) * d i) n ≤ 255 * (n * (n + 1)) := by
  induction n with
  | zero => simp [sum]
  | succ n ih =>
    have h := hd n
    have l := Int.mul_le_mul_of_nonneg_left h.1 (show (0 : Int) ≤ n + 1 by omega)
    have u := Int.mul_le_mul_of_nonneg_left h.2 (show (0 : Int) ≤ n + 1 by omega)
    have e : (n : Int) * (n + 1) + 2 * (n + 1) = (n + 1) * (n + 1 + 1) := by ring
    rw [sum]
    push_cast
    rw [← e]
    generalize (n : Int) * (n + 1) = m at *
    generalize ((n : Int) + 1) * d n = z at *
    omega

/-- A slope, times half the side, is less than 6100. -/
theorem slope_range {S : Int} {n : Nat} (hn : Side n) (hS : -(255 * ((n / 2 : Nat) * ((n / 2 : Nat) + 1))) ≤ 2 * S ∧ 2 * S ≤ 255 * ((n / 2 : Nat) * ((n / 2 : Nat) + 1)))
    {b : Int} (hb : b = (S * 32 * planeMult (log2size n - 2) + 2 ^ (planeShift (log2size n - 2) - 1)) / 2 ^ planeShift (log2size n - 2)) {k : Int}
    (hk : -(n : Int) ≤ 2 * k ∧ 2 * k ≤ n) : -6100 ≤ b * k ∧ b * k ≤ 6100 := by
  have key : ∀ B : Int, 0 ≤ B → -B ≤ b ∧ b ≤ B → ∀ K : Int, 0 ≤ K → -K ≤ k ∧ k ≤ K → -(B * K) ≤ b * k ∧ b * k ≤ B * K := by
    intro B hB h1 K hK h2
    have : |b * k| ≤ B * K := by
      rw [abs_mul]
      exact mul_le_mul (abs_le.2 h1) (abs_le.2 h2) (abs_nonneg _) hB
    exact abs_le.1 this
  rcases hn with e | e | e | e | e <;> subst e <;> norm_num [log2size, planeMult, planeShift] at hS hb hk
  · have := key 2487 (by omega) (by omega) 2 (by omega) (by omega); omega
  · have := key 1355 (by omega) (by omega) 4 (by omega) (by omega); omega
  · have := key 718 (by omega) (by omega) 8 (by omega) (by omega); omega
  · have := key 373 (by omega) (by omega) 16 (by omega) (by omega); omega
  · have := key 190 (by omega) (by omega) 32 (by omega) (by omega); omega

theorem slopeB {s : Border} {w : Nat} (hw : Side w) : slopeV s (w / 2 : Nat) 1 w = Ip.planeB s w := by
  unfold slopeV Ip.planeB
  dsimp only
  rw [Ip.sum_congr fun i _ => ?_]
  unfold Side at hw
  congr 2
  · congr 1; omega
  · congr 1; omega

theorem slopeC {s : Border} {h : Nat} (hh : Side h) : slopeV s (-(h / 2 : Nat)) (-1) h = Ip.planeC s h := by
  unfold slopeV Ip.planeC
  dsimp only
  rw [Ip.sum_congr fun i _ => ?_]
  unfold Side at hh
  congr 2
  · congr 1; omega
  · congr 1; omega

/-- The value at the first sample. -/
def planeT (s : Border) (w h : Nat) : Int :=
  Ip.planeA s w h - (h / 2 - 1 : Nat) * Ip.planeC s h - (w / 2 - 1 : Nat) * Ip.planeB s w + 16

theorem plane_range {s : Border} (hb : IsByte s) {w h x y : Nat} (hw : Side w) (hh : Side h) (hx : x < w) (hy : y < h) :
    -32768 ≤ planeT s w h + Ip.planeC s h * y + Ip.planeB s w * x ∧ planeT s w h + Ip.planeC s h * y + Ip.planeB s w * x ≤ 32767 := by
  have d : ∀ p q, -255 ≤ s p - s q ∧ s p - s q ≤ 255 := fun p q => by have := hb p; have := hb q; omega
  have b := slope_range (k := x - (w / 2 - 1 : Nat)) hw (slope_sum (d := fun i => s (1 + (w / 2 - 1 : Nat) + (i + 1)) - s (1 + (w / 2 - 1 : Nat) - (i + 1))) (fun i => d _ _) (w / 2))
    (b := Ip.planeB s w) rfl (by unfold Side at hw; omega)
  have c := slope_range (k := y - (h / 2 - 1 : Nat)) hh (slope_sum (d := fun i => s (-1 - (h / 2 - 1 : Nat) - (i + 1)) - s (-1 - (h / 2 - 1 : Nat) + (i + 1))) (fun i => d _ _) (h / 2))
    (b := Ip.planeC s h) rfl (by unfold Side at hh; omega)
  have a1 := hb (-1 - (h - 1 : Nat))
  have a2 := hb (1 + w - 1)
  have e : planeT s w h + Ip.planeC s h * y + Ip.planeB s w * x
      = (s (-1 - (h - 1 : Nat)) + s (1 + w - 1)) * 16 + 16 + Ip.planeC s h * (y - (h / 2 - 1 : Nat)) + Ip.planeB s w * (x - (w / 2 - 1 : Nat)) := by
    unfold planeT Ip.planeA; ring
  rw [e]
  omega

theorem plane_value {s : Border} {w h x y : Nat} :
    Ip.plane 8 s w h x y = satu8 ((planeT s w h + Ip.planeC s h * y + Ip.planeB s w * x) / 32) := by
  unfold Ip.plane
  dsimp only
  rw [Ip.clip_max, Ip.acc_eq, Ip.acc_eq]
  rfl

/-- The registers, lane by lane. -/
theorem planeRegs_lanes {s : Border} (L : Nat) {w h : Nat} (hw : Side w) (hh : Side h) :
    (∀ i, w16 (planeRegs L s w h).start i = wrap16 (planeT s w h + Ip.planeB s w * i)) ∧
    (∀ i, w16 (planeRegs L s w h).tb i = wrap16 (Ip.planeB s w * L)) ∧ ∀ i, w16 (planeRegs L s w h).tc i = wrap16 (Ip.planeC s h) := by
  have e : (s (-1 - (h - 1 : Nat)) + s (1 + w - 1)) * 16 - ((h / 2 : Nat) - 1) * Ip.planeC s h - ((w / 2 : Nat) - 1) * Ip.planeB s w + 16 = planeT s w h := by
    unfold planeT Ip.planeA
    have e1 : ((h / 2 - 1 : Nat) : Int) = (h / 2 : Nat) - 1 := by unfold Side at hh; omega
    have e2 : ((w / 2 - 1 : Nat) : Int) = (w / 2 : Nat) - 1 := by unfold Side at hw; omega
    rw [e1, e2]
  unfold planeRegs
  dsimp only
  rw [slopeB hw, slopeC hh, e]
  refine ⟨fun i => ?_, fun i => ?_, fun i => ?_⟩
  · rw [w16_add16, w16_mullo16, w16_set1, w16_set1, w16_iota, wrap16_mul, wrap16_add, Int.add_comm]
  · rw [w16_mullo16, w16_set1, w16_set1, wrap16_mul]
  · exact w16_set1 _ _

/-- The prediction as a plane. -/
def planeF (s : Border) (w h : Nat) : Plane := fun x y => Ip.plane 8 s w h x.toNat y.toNat

theorem planeF_lane {s : Border} (hb : IsByte s) {w h : Nat} (hw : Side w) (hh : Side h) {v : V} {i x y : Nat} (hx : x < w) (hy : y < h)
    (hv : w16 v i = wrap16 (planeT s w h + Ip.planeC s h * y + Ip.planeB s w * x)) : satu8 (w16 (srai16 v 5) i) = planeF s w h x y := by
  have r := plane_range hb hw hh hx hy
  unfold planeF
  rw [w16_srai16, hv, wrap16_id r, Int.toNat_natCast, Int.toNat_natCast, plane_value]
  norm_num

theorem fills_planeNarrow {s : Border} (hb : IsByte s) (L : Nat) {w h : Nat} (hw : Side w) (hh : Side h) {out : V → Plane → Nat → Plane}
    (ho : ∀ v d (y : Nat) (f : Plane), (∀ j, j < w → satu8 (w16 v j) = f j y) → Fills (Rg 0 w y 1) f d (out v d y)) (d : Plane) :
    Fills (Rg 0 w 0 h) (planeF s w h) d (planeNarrow (planeRegs L s w h) out h d) := by
  have hr := planeRegs_lanes (s := s) L hw hh
  refine rows_pair (fun y t => ∀ i, w16 t i = wrap16 (planeT s w h + Ip.planeC s h * y + Ip.planeB s w * i)) h (fun y hy t d ht => ⟨fun i => ?_, ?_⟩) _ _ ?_
  · dsimp only
    rw [w16_add16, ht, hr.2.2, wrap16_add]
    congr 1; push_cast; ring
  · exact ho _ _ _ _ fun j hj => planeF_lane hb hw hh hj hy (ht j)
  · intro i
    rw [hr.1]; congr 1; push_cast; ring

theorem fills_planeWide {s : Border} (hb : IsByte s) (L : Nat) {w h : Nat} (hw : Side w) (hh : Side h) (hL : 2 * L * ((w + 2 * L - 1) / (2 * L)) = w)
    {out : V → V → Plane → Nat → Nat → Plane}
    (ho : ∀ v v1 d (k y : Nat) (f : Plane), (∀ j, j < L → satu8 (w16 v j) = f (2 * L * k + j : Nat) y) →
      (∀ j, j < L → satu8 (w16 v1 j) = f (2 * L * k + L + j : Nat) y) → Fills (Rg (2 * L * k : Nat) (2 * L : Nat) y 1) f d (out v v1 d k y)) (d : Plane) :
    Fills (Rg 0 w 0 h) (planeF s w h) d (planeWide L (planeRegs L s w h) out w h d) := by
  have hr := planeRegs_lanes (s := s) L hw hh
  generalize hN : (w + 2 * L - 1) / (2 * L) = N at *
  refine rows_pair (fun y t => ∀ i, w16 t i = wrap16 (planeT s w h + Ip.planeC s h * y + Ip.planeB s w * i)) h (fun y hy t d ht => ⟨fun i => ?_, ?_⟩) _ _ ?_
  · dsimp only
    rw [w16_add16, ht, hr.2.2, wrap16_add]
    congr 1; push_cast; ring
  · dsimp only
    rw [hN]
    refine Fills.congr (cols_pair (2 * L)
      (fun k t => ∀ i, w16 t i = wrap16 (planeT s w h + Ip.planeC s h * y + Ip.planeB s w * (2 * L * k + i))) N (fun k hk t d ht => ⟨fun i => ?_, ?_⟩) t d ?_).2 fun x y => by rw [hL]
    · dsimp only
      simp only [w16_add16, ht, hr.2.1, wrap16_add]
      congr 1; push_cast; ring
    · have hin : 2 * L * k + 2 * L ≤ w := by
        have : 2 * L * (k + 1) ≤ 2 * L * N := Nat.mul_le_mul_left _ (by omega)
        have e : 2 * L * (k + 1) = 2 * L * k + 2 * L := by ring
        omega
      refine ho _ _ _ _ _ _ (fun j hj => planeF_lane hb hw hh (by omega) hy ?_) fun j hj => planeF_lane hb hw hh (by omega) hy ?_
      · rw [ht]; congr 1
      · rw [w16_add16, ht, hr.2.1, wrap16_add]; congr 1; push_cast; ring
    · intro i; rw [ht]; congr 1; push_cast; ring
  · intro i
    rw [hr.1]; congr 1; push_cast; ring

theorem u8_packy (a b : V) (j : Nat) : u8 (packus16y a b) j =
    if j % 16 < 8 then satu8 (w16 a (8 * (j / 16) + j % 16)) else satu8 (w16 b (8 * (j / 16) + (j % 16 - 8))) := by
  unfold packus16y
  rw [u8_ofB]
  split <;> unfold satu8 <;> omega

theorem fills_planeS {s : Border} (hb : IsByte s) {w h : Nat} (hs : (w, h) ∈ shapes) (d : Plane) : Fills (Rg 0 w 0 h) (planeF s w h) d (planeS s w h d) := by
  obtain ⟨hw, hh⟩ := shape_side hs
  unfold planeS
  dsimp only
  by_cases h4 : w = 4
  · rw [if_pos h4]
    refine fills_planeNarrow hb 8 hw hh (fun v d y f hf => ?_) d
    subst h4
    exact fills_store4 fun j hj => by rw [u8_packus16, if_pos (by omega), hf j hj, zero_add]
  rw [if_neg h4]
  by_cases h8 : w = 8
  · rw [if_pos h8]
    refine fills_planeNarrow hb 8 hw hh (fun v d y f hf => ?_) d
    subst h8
    exact fills_storel fun j hj => by rw [u8_packus16, if_pos (by omega), hf j hj, zero_add]
  rw [if_neg h8]
  refine fills_planeWide hb 8 hw hh (by unfold Side at hw; omega) (fun v v1 d k y f h1 h2 => ?_) d
  refine (fills_store fun j hj => ?_).congr fun x y => by unfold Rg; omega
  rw [u8_packus16]
  by_cases hj8 : j < 8
  · rw [if_pos hj8, h1 j hj8]; push_cast; rfl
  · rw [if_neg hj8, h2 (j - 8) (by omega)]; exact pl _ (by omega) rfl

theorem fills_planeA {s : Border} (hb : IsByte s) {w h : Nat} (hs : (w, h) ∈ shapes) (d : Plane) : Fills (Rg 0 w 0 h) (planeF s w h) d (planeA s w h d) := by
  obtain ⟨hw, hh⟩ := shape_side hs
  unfold planeA
  dsimp only
  by_cases h4 : w = 4
  · rw [if_pos h4]
    refine fills_planeNarrow hb 16 hw hh (fun v d y f hf => ?_) d
    subst h4
    refine (fills_maskstore (n := 1) fun j hj => ?_).congr fun x y => by unfold Rg; omega
    rw [u8_packy, if_pos (by omega), zero_add, show 8 * (j / 16) + j % 16 = j by omega, hf j (by omega)]
  rw [if_neg h4]
  by_cases h8 : w = 8
  · rw [if_pos h8]
    refine fills_planeNarrow hb 16 hw hh (fun v d y f hf => ?_) d
    subst h8
    refine (fills_maskstore (n := 2) fun j hj => ?_).congr fun x y => by unfold Rg; omega
    rw [u8_packy, if_pos (by omega), zero_add, show 8 * (j / 16) + j % 16 = j by omega, hf j (by omega)]
  rw [if_neg h8]
  by_cases h16 : w = 16
  · rw [if_pos h16]
    refine fills_planeNarrow hb 16 hw hh (fun v d y f hf => ?_) d
    subst h16
    refine (fills_maskstore (n := 4) fun j hj => ?_).congr fun x y => by unfold Rg; omega
    rw [u8_permute, zero_add]
    by_cases hj8 : j < 8
    · rw [show j / 8 = 0 by omega, show 8 * (8 / 4 ^ 0 % 4) + j % 8 = j by omega, u8_packy, if_pos (by omega), show 8 * (j / 16) + j % 16 = j by omega, hf j (by omega)]
    · rw [show j / 8 = 1 by omega, show 8 * (8 / 4 ^ 1 % 4) + j % 8 = j + 8 by omega, u8_packy, if_pos (by omega), show 8 * ((j + 8) / 16) + (j + 8) % 16 = j by omega, hf j (by omega)]
  rw [if_neg h16]
  refine fills_planeWide hb 16 hw hh (by unfold Side at hw; omega) (fun v v1 d k y f h1 h2 => ?_) d
  refine (fills_store32 fun j hj => ?_).congr fun x y => by unfold Rg; omega
  rw [u8_pack_perm _ _ j hj]
  by_cases hj8 : j < 16
  · rw [if_pos hj8, h1 j hj8]; push_cast; rfl
  · rw [if_neg hj8, h2 (j - 16) (by omega)]; exact pl _ (by omega) rfl

end Davs2.Vc
