import Verif.Model.IntraPicture
import Verif.Spec.IntraPicture
import Verif.Props.Intra
/-
C88, one block: flags and samples handed to the predictor are the neighbours of the unfiltered plane.
-/
namespace Davs2.Rp
open Davs2.Spec Davs2.Ip

/-- A picture the decoder accepts: sizes are multiples of 8, coding trees of 16, 32 or 64 samples. -/
structure Pic.Ok (p : Pic) : Prop where
  w : 8 ∣ p.w
  h : 8 ∣ p.h
  lo : 4 ≤ p.lcu
  hi : p.lcu ≤ 6
  s : p.s ≤ 1

/-- Size of the plane and of a coding tree in it. -/
def Pic.pw (p : Pic) : Nat := p.w / 2 ^ p.s
def Pic.ph (p : Pic) : Nat := p.h / 2 ^ p.s
def Pic.T (p : Pic) : Nat := 2 ^ (p.lcu - p.s)

/-- Coding tree of a column or row of the plane. -/
def Pic.lc (p : Pic) (X : Nat) : Nat := X / p.T

/-- The plane as the specification of reconstruction sees it. -/
def setting (p : Pic) (k : Coded) : Setting where
  w := p.pw
  h := p.ph
  slice := fun X Y => k.slice (p.lc X.toNat) (p.lc Y.toNat)
  grey := 2 ^ (p.bd - 1)
  predict := fun top left s mode w h x y => general p.bd top left s mode w h x y

theorem T_pos (p : Pic) : 0 < p.T := Nat.two_pow_pos _

theorem lc_eq {p : Pic} {X l : Nat} : p.lc X = l ↔ l * p.T ≤ X ∧ X < l * p.T + p.T := by
  have hT := T_pos p
  unfold Pic.lc
  constructor
  · rintro rfl
    have h1 := Nat.div_add_mod X p.T
    have h2 := Nat.mod_lt X hT
    rw [Nat.mul_comm] at h1
    omega
  · rintro ⟨h1, h2⟩
    apply Nat.div_eq_of_lt_le h1
    rw [Nat.add_mul]; omega

/-- Coding tree `(a, b)` comes before `(lx, ly)`. -/
def Bef (a b lx ly : Nat) : Prop := b < ly ∨ (b = ly ∧ a < lx)

theorem int8_inj {a b : Nat} (ha : a < 255) (hb : b < 255) : int8 a = int8 b ↔ a = b := by
  unfold int8; omega

theorem int8_ne {a : Nat} (ha : a < 255) : int8 a ≠ -1 := by
  unfold int8; omega

/-- Slice numbers are known for all coding trees up to the current one. -/
def SliceOk (p : Pic) (k : Coded) (lx ly : Nat) (slice : Nat → Nat → Int) : Prop :=
  ∀ X Y, X < p.pw → Y < p.ph → (Bef (p.lc X) (p.lc Y) lx ly ∨ (p.lc X = lx ∧ p.lc Y = ly)) →
    slice (Y * 2 ^ p.s / 8) (X * 2 ^ p.s / 8) = int8 (k.slice (p.lc X) (p.lc Y))

/-- What is reconstructed: the coding trees before the current one, and `R`. -/
def DoneOk (p : Pic) (lx ly : Nat) (R : Nat → Nat → Prop) (u : Part) : Prop :=
  ∀ X Y : Nat, X < p.pw → Y < p.ph → (u.done X Y = true ↔ Bef (p.lc X) (p.lc Y) lx ly ∨ R X Y)

/-- The saved row and column hold the unfiltered samples. -/
structure CacheOk (p : Pic) (lx ly : Nat) (top : Int → Int) (val : Plane) : Prop where
  corner : 0 < lx → 0 < ly → top 0 = val (p.org lx - 1) (p.org ly - 1)
  row : 0 < ly → ∀ i : Int, 1 ≤ i → i ≤ 2 * p.T → p.org lx - 1 + i < p.pw → top i = val (p.org lx - 1 + i) (p.org ly - 1)
  col : 0 < lx → ∀ i : Int, 1 ≤ i → i ≤ p.T → p.org ly - 1 + i < p.ph → top (-i) = val (p.org lx - 1) (p.org ly - 1 + i)

/-- Geometry of a block inside its coding tree. -/
structure Geo (p : Pic) (lx ly : Nat) (R : Nat → Nat → Prop) (b : Blk) (dl tr : Bool) : Prop where
  shape : (b.w, b.h) ∈ shapes
  dx : 2 ^ (2 - p.s) ∣ b.x
  dy : 2 ^ (2 - p.s) ∣ b.y
  dw : 2 ^ (2 - p.s) ∣ b.w
  dh : 2 ^ (2 - p.s) ∣ b.h
  x2 : b.x + b.w ≤ p.T
  y2 : b.y + b.h ≤ p.T
  inw : p.org lx + b.x + b.w ≤ p.pw
  inh : p.org ly + b.y + b.h ≤ p.ph
  left : 0 < b.x → ∀ i < b.h, R (p.org lx + b.x - 1) (p.org ly + b.y + i)
  top : 0 < b.y → ∀ i < b.w, R (p.org lx + b.x + i) (p.org ly + b.y - 1)
  corner : 0 < b.x → 0 < b.y → R (p.org lx + b.x - 1) (p.org ly + b.y - 1)
  tabs : tabs p (b.x * 2 ^ p.s / 4 + lx * 2 ^ (p.lcu - 2)) (b.y * 2 ^ p.s / 4 + ly * 2 ^ (p.lcu - 2)) (b.w * 2 ^ p.s) (b.h * 2 ^ p.s) = some (dl, tr)
  wr : b.x + 2 * b.w ≤ p.T ∨ b.x + b.w = p.T
  hd : b.y + 2 * b.h ≤ p.T ∨ b.y + b.h = p.T
  tr : p.org lx + b.x + 2 * b.w ≤ p.pw → (tr = true ↔ b.y = 0 ∨ (b.x + 2 * b.w ≤ p.T ∧ ∀ i < b.w, R (p.org lx + b.x + b.w + i) (p.org ly + b.y - 1)))
  dl : p.org ly + b.y + 2 * b.h ≤ p.ph → (dl = true ↔ b.y + 2 * b.h ≤ p.T ∧ (b.x = 0 ∨ ∀ i < b.h, R (p.org lx + b.x - 1) (p.org ly + b.y + b.h + i)))

/-- Everything known before a block is reconstructed. -/
structure Inv (p : Pic) (k : Coded) (lx ly : Nat) (R : Nat → Nat → Prop) (st : St) (u : Part) : Prop where
  slice : SliceOk p k lx ly st.slice
  done : DoneOk p lx ly R u
  inR : ∀ X Y, R X Y → p.lc X = lx ∧ p.lc Y = ly
  same : ∀ X Y : Nat, R X Y → st.plane X Y = u.val X Y
  cache : CacheOk p lx ly st.top u.val

theorem usable_nat {p : Pic} {k : Coded} {lx ly : Nat} {R : Nat → Nat → Prop} {u : Part} (h : DoneOk p lx ly R u) (cur X Y : Nat) :
    usable (setting p k) u cur X Y = true ↔ X < p.pw ∧ Y < p.ph ∧ (Bef (p.lc X) (p.lc Y) lx ly ∨ R X Y) ∧ k.slice (p.lc X) (p.lc Y) = cur := by
  unfold usable setting
  simp only [Bool.and_eq_true, decide_eq_true_eq, beq_iff_eq, Int.toNat_natCast]
  constructor
  · rintro ⟨⟨⟨⟨⟨_, h1⟩, _⟩, h2⟩, h3⟩, h4⟩
    have h1 : X < p.pw := by exact_mod_cast h1
    have h2 : Y < p.ph := by exact_mod_cast h2
    exact ⟨h1, h2, (h X Y h1 h2).mp h3, h4⟩
  · rintro ⟨h1, h2, h3, h4⟩
    exact ⟨⟨⟨⟨⟨by omega, by exact_mod_cast h1⟩, by omega⟩, by exact_mod_cast h2⟩, (h X Y h1 h2).mpr h3⟩, h4⟩

theorem usable_neg {p : Pic} {k : Coded} {u : Part} {cur : Nat} {X Y : Int} (h : X < 0 ∨ Y < 0) : usable (setting p k) u cur X Y = false := by
  unfold usable
  rw [Bool.eq_false_iff]
  simp only [ne_eq, Bool.and_eq_true, decide_eq_true_eq]
  omega

theorem isAvail_nat {p : Pic} {slice : Nat → Nat → Int} {x4 y4 dx dy cur : Int} {a b : Nat} (ha : x4 + dx = a) (hb : y4 + dy = b) :
    isAvail p slice x4 y4 dx dy cur = true ↔ a < p.w / 4 ∧ b < p.h / 4 ∧ cur = slice (b / 2) (a / 2) := by
  unfold isAvail
  rw [ha, hb]
  dsimp only
  by_cases h : (a : Int) < 0 ∨ (b : Int) < 0 ∨ (a : Int) ≥ p.w / 4 ∨ (b : Int) ≥ p.h / 4
  · rw [if_pos h]
    constructor
    · intro h; cases h
    · intro h; omega
  · rw [if_neg h, beq_iff_eq, Int.toNat_natCast, Int.toNat_natCast]
    constructor
    · intro e; exact ⟨by omega, by omega, e⟩
    · intro e; exact e.2.2

theorem isAvail_neg {p : Pic} {slice : Nat → Nat → Int} {x4 y4 dx dy cur : Int} (h : x4 + dx < 0 ∨ y4 + dy < 0) :
    isAvail p slice x4 y4 dx dy cur = false := by
  unfold isAvail
  dsimp only
  rw [if_pos (by omega)]

/-- Slice numbers of the coding trees of the picture. -/
def SlicesOk (p : Pic) (k : Coded) : Prop := ∀ lx ly, lx * 2 ^ p.lcu < p.w → ly * 2 ^ p.lcu < p.h → k.slice lx ly < 255

theorem pow_ts {p : Pic} (hp : p.Ok) : 2 ^ p.lcu = p.T * 2 ^ p.s := by
  have := hp.s; have := hp.lo
  unfold Pic.T
  rw [← Nat.pow_add, show p.lcu - p.s + p.s = p.lcu by omega]

theorem s01 {p : Pic} (hp : p.Ok) : p.s = 0 ∨ p.s = 1 := by have := hp.s; omega

/-- The coding tree of a sample of the picture lies in the picture. -/
theorem lc_in {p : Pic} (hp : p.Ok) {X : Nat} {w : Nat} (h : X < w / 2 ^ p.s) : p.lc X * 2 ^ p.lcu < w := by
  have e := (lc_eq (p := p) (X := X)).mp rfl
  rw [pow_ts hp, ← Nat.mul_assoc]
  have h2 : X * 2 ^ p.s < w := by
    rcases s01 hp with h0 | h0 <;> rw [h0] at h ⊢ <;> omega
  exact Nat.lt_of_le_of_lt (Nat.mul_le_mul_right _ e.1) h2

theorem SlicesOk.at {p : Pic} (hp : p.Ok) {k : Coded} (h : SlicesOk p k) {X Y : Nat} (hX : X < p.pw) (hY : Y < p.ph) : k.slice (p.lc X) (p.lc Y) < 255 :=
  h _ _ (lc_in hp hX) (lc_in hp hY)

theorem unit_in {p : Pic} (hp : p.Ok) (X : Nat) {w : Nat} (hw : 8 ∣ w) : X * 2 ^ p.s / 4 < w / 4 ↔ X < w / 2 ^ p.s := by
  obtain ⟨a, rfl⟩ := hw
  rcases s01 hp with h0 | h0 <;> rw [h0] <;> omega

theorem unit_half (X s : Nat) : X * 2 ^ s / 4 / 2 = X * 2 ^ s / 8 := by omega

theorem group {p : Pic} (hp : p.Ok) {k : Coded} (hk : SlicesOk p k) {lx ly : Nat} {R : Nat → Nat → Prop} {st : St} {u : Part} (I : Inv p k lx ly R st u)
    (hcur : k.slice lx ly < 255) (A : Nat → Nat × Nat) (n t : Nat) (ht : t < n) (bit : Bool) {x4 y4 dx dy : Int}
    (ha : x4 + dx = ((A t).1 * 2 ^ p.s / 4 : Nat)) (hb : y4 + dy = ((A t).2 * 2 ^ p.s / 4 : Nat))
    (hin : (A t).1 < p.pw → (A t).2 < p.ph → ∀ i < n, (A i).1 < p.pw ∧ (A i).2 < p.ph)
    (hd : (A t).1 < p.pw → (A t).2 < p.ph → (bit = true ↔ ∀ i < n, Bef (p.lc (A i).1) (p.lc (A i).2) lx ly ∨ R (A i).1 (A i).2))
    (hl : (A t).1 < p.pw → (A t).2 < p.ph → bit = true → ∀ i < n, p.lc (A i).1 = p.lc (A t).1 ∧ p.lc (A i).2 = p.lc (A t).2) :
    (isAvail p st.slice x4 y4 dx dy (int8 (k.slice lx ly)) && bit)
      = (List.range n).all fun i => usable (setting p k) u (k.slice lx ly) (A i).1 (A i).2 := by
  rw [Bool.eq_iff_iff, Bool.and_eq_true, isAvail_nat ha hb, unit_in hp _ hp.w, unit_in hp _ hp.h, unit_half, unit_half, List.all_eq_true]
  have key : (A t).1 < p.pw → (A t).2 < p.ph → bit = true →
      (int8 (k.slice lx ly) = st.slice ((A t).2 * 2 ^ p.s / 8) ((A t).1 * 2 ^ p.s / 8) ↔ k.slice (p.lc (A t).1) (p.lc (A t).2) = k.slice lx ly) := by
    intro h1 h2 h3
    have := (hd h1 h2).mp h3 t ht
    rw [I.slice _ _ h1 h2 (this.imp id (I.inR _ _)), int8_inj hcur (hk.at hp h1 h2)]
    exact eq_comm
  constructor
  · rintro ⟨⟨h1, h2, h3⟩, h4⟩ i hi
    rw [List.mem_range] at hi
    rw [usable_nat I.done]
    obtain ⟨i1, i2⟩ := hin h1 h2 i hi
    obtain ⟨e1, e2⟩ := hl h1 h2 h4 i hi
    refine ⟨i1, i2, (hd h1 h2).mp h4 i hi, ?_⟩
    rw [e1, e2]
    exact (key h1 h2 h4).mp h3
  · intro h
    have h' : ∀ i < n, _ := fun i hi => (usable_nat I.done _ _ _).mp (h i (List.mem_range.mpr hi))
    obtain ⟨h1, h2, h3, h4⟩ := h' t ht
    have hbit := (hd h1 h2).mpr fun i hi => (h' i hi).2.2.1
    exact ⟨⟨h1, h2, (key h1 h2 hbit).mpr h4⟩, hbit⟩

end Davs2.Rp
