import Verif.Lemmas.RpStep
import Verif.Lemmas.RpTables
import Verif.Lemmas.MotionGeo
/-
C88: the blocks of a coding unit.
-/
namespace Davs2.Rp
open Davs2.Spec Davs2.Ip Davs2.Qt

theorem all_ok {s lcu : Nat} (hs : s ≤ 1) (h4 : 4 ≤ lcu) (h6 : lcu ≤ 6) : allOk s lcu = true := by
  obtain rfl | rfl : s = 0 ∨ s = 1 := by omega
  · obtain rfl | rfl | rfl : lcu = 4 ∨ lcu = 5 ∨ lcu = 6 := by omega
    · exact ok04
    · exact ok05
    · exact ok06
  · obtain rfl | rfl | rfl : lcu = 4 ∨ lcu = 5 ∨ lcu = 6 := by omega
    · exact ok14
    · exact ok15
    · exact ok16

theorem blk_ok {s lcu l i j tr t : Nat} {b : Blk} (hs : s ≤ 1) (h4 : 4 ≤ lcu) (h6 : lcu ≤ 6) (h3 : 3 ≤ l) (hl : l ≤ lcu)
    (hi : i < 2 ^ (lcu - l)) (hj : j < 2 ^ (lcu - l)) (ht : tr ∈ splits l) (hb : (relBlks s l (i * 2 ^ l) (j * 2 ^ l) tr)[t]? = some b) :
    blkOk s lcu l (i * 2 ^ l) (j * 2 ^ l) tr t b = true := by
  have h := all_ok hs h4 h6
  unfold allOk at h
  obtain ⟨l', rfl⟩ : ∃ l', l = l' + 3 := ⟨l - 3, by omega⟩
  rw [List.all_eq_true] at h
  have h := h l' (List.mem_range.mpr (by omega))
  rw [List.all_eq_true] at h
  have h := h i (List.mem_range.mpr hi)
  rw [List.all_eq_true] at h
  have h := h j (List.mem_range.mpr hj)
  rw [List.all_eq_true] at h
  have h := h tr ht
  rw [List.all_eq_true] at h
  exact h (b, t) (List.mk_mem_zipIdx_iff_getElem?.mpr hb)

/-- `blkOk` in words. -/
structure BlkOk (s lcu l x y tr t : Nat) (b : Blk) (ux uy uw uh : Nat) : Prop where
  shape : (b.w, b.h) ∈ shapes
  ex : b.x = 2 ^ (2 - s) * ux
  ey : b.y = 2 ^ (2 - s) * uy
  ew : b.w = 2 ^ (2 - s) * uw
  eh : b.h = 2 ^ (2 - s) * uh
  pw : 0 < uw
  ph : 0 < uh
  x1 : x ≤ 4 * ux
  x2 : 4 * (ux + uw) ≤ x + 2 ^ l
  y1 : y ≤ 4 * uy
  y2 : 4 * (uy + uh) ≤ y + 2 ^ l
  left : ux = 0 ∨ ∀ k < uh, doneB s lcu l x y tr t (ux - 1) (uy + k) = true
  top : uy = 0 ∨ ∀ k < uw, doneB s lcu l x y tr t (ux + k) (uy - 1) = true
  corner : (ux = 0 ∨ uy = 0) ∨ doneB s lcu l x y tr t (ux - 1) (uy - 1) = true
  wr : ux + 2 * uw ≤ 2 ^ (lcu - 2) ∨ ux + uw = 2 ^ (lcu - 2)
  hd : uy + 2 * uh ≤ 2 ^ (lcu - 2) ∨ uy + uh = 2 ^ (lcu - 2)
  gtr : ∃ v, entry (tabTR lcu) (ux + uw - 1) uy = some v ∧
    (v = true ↔ uy = 0 ∨ (ux + 2 * uw ≤ 2 ^ (lcu - 2) ∧ ∀ k < uw, doneB s lcu l x y tr t (ux + uw + k) (uy - 1) = true))
  gdl : ∃ v, entry (tabDL lcu) ux (uy + uh - 1) = some v ∧
    (v = true ↔ uy + 2 * uh ≤ 2 ^ (lcu - 2) ∧ (ux = 0 ∨ ∀ k < uh, doneB s lcu l x y tr t (ux - 1) (uy + uh + k) = true))

theorem all_range {n : Nat} {f : Nat → Bool} : (List.range n).all f = true ↔ ∀ k < n, f k = true := by
  rw [List.all_eq_true]
  exact ⟨fun h k hk => h k (List.mem_range.mpr hk), fun h k hk => h k (List.mem_range.mp hk)⟩

theorem blkOk_iff {s lcu l x y tr t : Nat} {b : Blk} (h : blkOk s lcu l x y tr t b = true) : ∃ ux uy uw uh, BlkOk s lcu l x y tr t b ux uy uw uh := by
  unfold blkOk at h
  dsimp only at h
  simp only [Bool.and_eq_true, decide_eq_true_eq, beq_iff_eq, Bool.or_eq_true, all_range] at h
  obtain ⟨⟨⟨⟨⟨⟨⟨⟨⟨⟨⟨⟨⟨⟨⟨⟨⟨h1, h2⟩, h3⟩, h4⟩, h5⟩, h6⟩, h7⟩, h8⟩, h9⟩, h10⟩, h11⟩, h12⟩, h13⟩, h14⟩, h15⟩, h16⟩, h17⟩, h18⟩ := h
  refine ⟨_, _, _, _, h1, h2, h3, h4, h5, h6, h7, h8, h9, h10, h11, h12, h13, h14, h15, h16, ⟨_, h17, ?_⟩, ⟨_, h18, ?_⟩⟩
  · simp only [Bool.and_eq_true, decide_eq_true_eq, beq_iff_eq, Bool.or_eq_true, all_range]
  · simp only [Bool.and_eq_true, decide_eq_true_eq, beq_iff_eq, Bool.or_eq_true, all_range]

/-- The blocks of a coding unit cover it. -/
theorem cover {s l x y tr : Nat} (hs : s ≤ 1) (h3 : 3 ≤ l) (h6 : l ≤ 6) (ht : tr ∈ splits l) (X Y : Nat) :
    (∃ b ∈ relBlks s l x y tr, InBlk b.x b.y b.w b.h X Y) ↔ InBlk (x / 2 ^ s) (y / 2 ^ s) (2 ^ (l - s)) (2 ^ (l - s)) X Y := by
  obtain rfl | rfl : s = 0 ∨ s = 1 := by omega
  · have key : ∀ us : List Un.Cb, (Un.tuUnits tr l).take (if tr = 0 then 1 else 4) = us →
        ((∃ b ∈ relBlks 0 l x y tr, InBlk b.x b.y b.w b.h X Y) ↔ ∃ v ∈ us, InBlk (x + v.x) (y + v.y) v.w v.h X Y) := by
      intro us hus
      unfold relBlks
      rw [if_pos rfl, hus]
      constructor
      · rintro ⟨b, hb, h⟩
        obtain ⟨v, hv, rfl⟩ := List.mem_map.mp hb
        exact ⟨v, hv, h⟩
      · rintro ⟨v, hv, h⟩
        exact ⟨_, List.mem_map.mpr ⟨v, hv, rfl⟩, h⟩
    obtain rfl | rfl | rfl | rfl : l = 3 ∨ l = 4 ∨ l = 5 ∨ l = 6 := by omega
    all_goals
      simp only [splits, reduceIte, List.mem_cons, List.not_mem_nil, or_false, Nat.reduceEqDiff] at ht
    · rcases ht with rfl | rfl
      · rw [key [⟨0, 0, 8, 8⟩] (by decide)]
        simp only [List.mem_cons, List.not_mem_nil, or_false, exists_eq_or_imp, exists_eq_left, InBlk]
        omega
      · rw [key [⟨0, 0, 4, 4⟩, ⟨4, 0, 4, 4⟩, ⟨0, 4, 4, 4⟩, ⟨4, 4, 4, 4⟩] (by decide)]
        simp only [List.mem_cons, List.not_mem_nil, or_false, exists_eq_or_imp, exists_eq_left, InBlk]
        omega
    · rcases ht with rfl | rfl | rfl
      · rw [key [⟨0, 0, 16, 16⟩] (by decide)]
        simp only [List.mem_cons, List.not_mem_nil, or_false, exists_eq_or_imp, exists_eq_left, InBlk]
        omega
      · rw [key [⟨0, 0, 16, 4⟩, ⟨0, 4, 16, 4⟩, ⟨0, 8, 16, 4⟩, ⟨0, 12, 16, 4⟩] (by decide)]
        simp only [List.mem_cons, List.not_mem_nil, or_false, exists_eq_or_imp, exists_eq_left, InBlk]
        omega
      · rw [key [⟨0, 0, 4, 16⟩, ⟨4, 0, 4, 16⟩, ⟨8, 0, 4, 16⟩, ⟨12, 0, 4, 16⟩] (by decide)]
        simp only [List.mem_cons, List.not_mem_nil, or_false, exists_eq_or_imp, exists_eq_left, InBlk]
        omega
    · rcases ht with rfl | rfl | rfl
      · rw [key [⟨0, 0, 32, 32⟩] (by decide)]
        simp only [List.mem_cons, List.not_mem_nil, or_false, exists_eq_or_imp, exists_eq_left, InBlk]
        omega
      · rw [key [⟨0, 0, 32, 8⟩, ⟨0, 8, 32, 8⟩, ⟨0, 16, 32, 8⟩, ⟨0, 24, 32, 8⟩] (by decide)]
        simp only [List.mem_cons, List.not_mem_nil, or_false, exists_eq_or_imp, exists_eq_left, InBlk]
        omega
      · rw [key [⟨0, 0, 8, 32⟩, ⟨8, 0, 8, 32⟩, ⟨16, 0, 8, 32⟩, ⟨24, 0, 8, 32⟩] (by decide)]
        simp only [List.mem_cons, List.not_mem_nil, or_false, exists_eq_or_imp, exists_eq_left, InBlk]
        omega
    · subst ht
      rw [key [⟨0, 0, 64, 64⟩] (by decide)]
      simp only [List.mem_cons, List.not_mem_nil, or_false, exists_eq_or_imp, exists_eq_left, InBlk]
      omega
  · unfold relBlks
    rw [if_neg (by omega)]
    simp

/-- Samples of the coding units of a list. -/
def Cus (p : Pic) (cs : List Cu) (X Y : Nat) : Prop := ∃ d ∈ cs, d.has (X * 2 ^ p.s) (Y * 2 ^ p.s)

/-- Samples of blocks of the coding tree. -/
def Blks (p : Pic) (lx ly : Nat) (bs : List Blk) (X Y : Nat) : Prop := ∃ b ∈ bs, InBlk (p.org lx + b.x) (p.org ly + b.y) b.w b.h X Y

/-- Everything known of a coding unit in its coding tree. -/
structure At (p : Pic) (k : Coded) (lx ly : Nat) (pre post : List Cu) (c : Cu) (i j : Nat) : Prop where
  w : lx * 2 ^ p.lcu < p.w
  h : ly * 2 ^ p.lcu < p.h
  list : parse p.w p.h k.split (p.lcu - 3) (lx * 2 ^ p.lcu) (ly * 2 ^ p.lcu) = pre ++ c :: post
  l3 : 3 ≤ c.l
  ll : c.l ≤ p.lcu
  il : i < 2 ^ (p.lcu - c.l)
  jl : j < 2 ^ (p.lcu - c.l)
  x : c.x = lx * 2 ^ p.lcu + i * 2 ^ c.l
  y : c.y = ly * 2 ^ p.lcu + j * 2 ^ c.l
  inw : c.x + 2 ^ c.l ≤ p.w
  inh : c.y + 2 ^ c.l ≤ p.h

theorem rel_index {lcu l a c : Nat} (hl : l ≤ lcu) (h1 : a * 2 ^ lcu ≤ c) (h2 : c + 2 ^ l ≤ a * 2 ^ lcu + 2 ^ lcu) (hd : 2 ^ l ∣ c) :
    ∃ i, i < 2 ^ (lcu - l) ∧ c = a * 2 ^ lcu + i * 2 ^ l := by
  have hd' : 2 ^ l ∣ a * 2 ^ lcu := Dvd.dvd.mul_left (Nat.pow_dvd_pow 2 hl) a
  obtain ⟨i, hi⟩ := (Nat.dvd_sub hd hd')
  refine ⟨i, ?_, by rw [Nat.mul_comm (2 ^ l) i] at hi; omega⟩
  have e : 2 ^ lcu = 2 ^ l * 2 ^ (lcu - l) := by rw [← Nat.pow_add]; congr 1; omega
  have hp := Nat.two_pow_pos l
  have : 2 ^ l * (i + 1) ≤ 2 ^ l * 2 ^ (lcu - l) := by rw [Nat.mul_add, ← e]; omega
  exact Nat.lt_of_succ_le (Nat.le_of_mul_le_mul_left this hp)

variable {p : Pic} {k : Coded} {lx ly : Nat}

theorem at_mk (hp : p.Ok) {pre post : List Cu} {c : Cu} (h1 : lx * 2 ^ p.lcu < p.w) (h2 : ly * 2 ^ p.lcu < p.h)
    (hl : parse p.w p.h k.split (p.lcu - 3) (lx * 2 ^ p.lcu) (ly * 2 ^ p.lcu) = pre ++ c :: post) : ∃ i j, At p k lx ly pre post c i j := by
  have f := tree_fits hp.w hp.h (show 3 ≤ p.lcu by have := hp.lo; omega) k.split h1 h2 c (by rw [hl]; simp)
  obtain ⟨i, i1, i2⟩ := rel_index f.hi f.x1 f.x2 f.dx
  obtain ⟨j, j1, j2⟩ := rel_index f.hi f.y1 f.y2 f.dy
  exact ⟨i, j, h1, h2, hl, f.lo, f.hi, i1, j1, i2, j2, f.inw, f.inh⟩

theorem rel_eq {i j : Nat} {pre post : List Cu} {c : Cu} (a : At p k lx ly pre post c i j) (tr : Nat) :
    cuBlks p lx ly c tr = relBlks p.s c.l (i * 2 ^ c.l) (j * 2 ^ c.l) tr := by
  have e1 : c.x - lx * 2 ^ p.lcu = i * 2 ^ c.l := by have := a.x; omega
  have e2 : c.y - ly * 2 ^ p.lcu = j * 2 ^ c.l := by have := a.y; omega
  unfold cuBlks relBlks
  rw [e1, e2]

/-- Origin of a coding tree in luma samples. -/
theorem org_luma (hp : p.Ok) (l : Nat) : p.org l * 2 ^ p.s = l * 2 ^ p.lcu := by
  rw [pow_ts hp, ← Nat.mul_assoc]
  rfl

theorem has_unit {d : Cu} {U V X Y : Nat} (h3 : 3 ≤ d.l) (hx : 2 ^ d.l ∣ d.x) (hy : 2 ^ d.l ∣ d.y) (hU : 4 ∣ U) (hV : 4 ∣ V) (x1 : U ≤ X) (x2 : X < U + 4)
    (y1 : V ≤ Y) (y2 : Y < V + 4) : d.has U V ↔ d.has X Y := by
  have e : (2 : Nat) ^ d.l = 8 * 2 ^ (d.l - 3) := by
    rw [show (8 : Nat) = 2 ^ 3 by rfl, ← Nat.pow_add]; congr 1; omega
  unfold Cu.has
  rw [e] at hx hy ⊢
  obtain ⟨a, ha⟩ := hx
  obtain ⟨b, hb⟩ := hy
  rw [Nat.mul_assoc] at ha hb
  obtain ⟨m, rfl⟩ := hU
  obtain ⟨n, rfl⟩ := hV
  omega

/-- `doneB` says whether a sample has been reconstructed. -/
theorem done_iff (hp : p.Ok) {i j : Nat} {pre post : List Cu} {c : Cu} (a : At p k lx ly pre post c i j) {tr t : Nat} (ht : tr ∈ splits c.l) {px py X Y : Nat}
    (x1 : p.org lx + 2 ^ (2 - p.s) * px ≤ X) (x2 : X < p.org lx + 2 ^ (2 - p.s) * px + 2 ^ (2 - p.s)) (x3 : X < p.org lx + p.T) (x4 : X < p.pw)
    (y1 : p.org ly + 2 ^ (2 - p.s) * py ≤ Y) (y2 : Y < p.org ly + 2 ^ (2 - p.s) * py + 2 ^ (2 - p.s)) (y3 : Y < p.org ly + p.T) (y4 : Y < p.ph) :
    doneB p.s p.lcu c.l (i * 2 ^ c.l) (j * 2 ^ c.l) tr t px py = true ↔
      Cus p pre X Y ∨ Blks p lx ly ((cuBlks p lx ly c tr).take t) X Y := by
  have h3 : 3 ≤ p.lcu := by have := hp.lo; omega
  have hT := pow_ts hp
  have ox := org_luma hp lx
  have oy := org_luma hp ly
  unfold doneB
  rw [Bool.or_eq_true, decide_eq_true_eq, List.any_eq_true]
  apply or_congr
  · have bef := tree_before hp.w hp.h h3 k.split a.w a.h
    have e : p.lcu - 3 + 3 = p.lcu := by omega
    have inX : X * 2 ^ p.s < p.w ∧ lx * 2 ^ p.lcu + 4 * px ≤ X * 2 ^ p.s ∧ X * 2 ^ p.s < lx * 2 ^ p.lcu + 4 * px + 4 ∧ X * 2 ^ p.s < lx * 2 ^ p.lcu + 2 ^ p.lcu := by
      rw [← ox]
      unfold Pic.pw at x4
      obtain ⟨w', hw'⟩ := hp.w
      rcases s01 hp with h0 | h0 <;> rw [h0] at hT x1 x2 x4 ⊢ <;> omega
    have inY : Y * 2 ^ p.s < p.h ∧ ly * 2 ^ p.lcu + 4 * py ≤ Y * 2 ^ p.s ∧ Y * 2 ^ p.s < ly * 2 ^ p.lcu + 4 * py + 4 ∧ Y * 2 ^ p.s < ly * 2 ^ p.lcu + 2 ^ p.lcu := by
      rw [← oy]
      unfold Pic.ph at y4
      obtain ⟨w', hw'⟩ := hp.h
      rcases s01 hp with h0 | h0 <;> rw [h0] at hT y1 y2 y4 ⊢ <;> omega
    have hcov := parse_cover (w := p.w) (h := p.h) k.split (p.lcu - 3) (lx * 2 ^ p.lcu) (ly * 2 ^ p.lcu) (lx * 2 ^ p.lcu + 4 * px) (ly * 2 ^ p.lcu + 4 * py)
      (by omega) (by rw [e]; omega) (by omega) (by rw [e]; omega) (by omega) (by omega)
    have hcc : c.has c.x c.y := by
      have := Nat.two_pow_pos c.l
      exact ⟨by omega, by omega, by omega, by omega⟩
    rw [a.list] at hcov bef
    have key := before_iff bef hcov hcc
    have fc := tree_fits hp.w hp.h h3 k.split a.w a.h c (by rw [a.list]; simp)
    rw [z_tree, a.x, a.y, z_tree] at key
    rw [key]
    have no : ¬ (c.has (lx * 2 ^ p.lcu + 4 * px) (ly * 2 ^ p.lcu + 4 * py) ∧ zOrder p.lcu (4 * px) (4 * py) < zOrder p.lcu (i * 2 ^ c.l) (j * 2 ^ c.l)) := by
      rintro ⟨g1, g2⟩
      have z := z_block fc.dx fc.dy g1.1 g1.2.1 g1.2.2.1 g1.2.2.2 fc.hi
      rw [z_tree, a.x, a.y, z_tree] at z
      omega
    have four : ∀ l, 4 ∣ l * 2 ^ p.lcu := by
      intro l
      exact Dvd.dvd.mul_left (by rw [show (4 : Nat) = 2 ^ 2 by rfl]; exact Nat.pow_dvd_pow 2 (by omega)) l
    rw [or_iff_left no]
    unfold Cus
    constructor
    · rintro ⟨d, hd, g⟩
      have fd := tree_fits hp.w hp.h h3 k.split a.w a.h d (by rw [a.list]; simp [hd])
      exact ⟨d, hd, (has_unit fd.lo fd.dx fd.dy (by have := four lx; omega) (by have := four ly; omega) inX.2.1 inX.2.2.1 inY.2.1 inY.2.2.1).mp g⟩
    · rintro ⟨d, hd, g⟩
      have fd := tree_fits hp.w hp.h h3 k.split a.w a.h d (by rw [a.list]; simp [hd])
      exact ⟨d, hd, (has_unit fd.lo fd.dx fd.dy (by have := four lx; omega) (by have := four ly; omega) inX.2.1 inX.2.2.1 inY.2.1 inY.2.2.1).mpr g⟩
  · rw [rel_eq a]
    unfold Blks
    apply exists_congr
    intro b
    apply and_congr_right
    intro hb
    obtain ⟨n, hn⟩ := List.mem_iff_getElem?.mp (List.mem_of_mem_take hb)
    obtain ⟨ux, uy, uw, uh, B⟩ := blkOk_iff (blk_ok hp.s hp.lo hp.hi a.l3 a.ll a.il a.jl ht hn)
    rw [B.ex, B.ey, B.ew, B.eh]
    unfold InBlk
    simp only [Bool.and_eq_true, decide_eq_true_eq]
    rcases s01 hp with h0 | h0 <;> rw [h0] at x1 x2 y1 y2 ⊢ <;> omega

end Davs2.Rp
