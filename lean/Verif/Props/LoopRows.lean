import Verif.Lemmas.LoopStages
import Verif.Props.Deblock
/-
C65-C67: in-loop filtering of a picture row by row.
-/
namespace Davs2.Lr
open Davs2.Sa (Plane Avail)
open Davs2.Spec

variable {b : Job} {u : Nat}

/-! ### Any deblocking -/

/-- **C65** (partial: slices must not limit filtering).  Filtering row by row, SAO and ALF each some lines behind, gives the
picture that deblocking, SAO and ALF give one after the other, whatever the buffers held before. -/
theorem C65_stages_partial (g : b.Geom u) (hl : b.lay.Ok) (hc : b.lay.cross = true) (hb : b.bd ≤ 10) {raw : Nat → Nat → Option (List Int)} (hr : b.Weights raw)
    (junk : Int → Int) (p : Planes)
    (hleg : ∀ x y, b.lay.In x y → 0 ≤ Db.deblockPlane b.deb b.bw b.bh b.bn (stored b.lay b.recon p.dec) x y ∧
      Db.deblockPlane b.deb b.bw b.bh b.bn (stored b.lay b.recon p.dec) x y ≤ 2 ^ b.bd - 1) {x y : Int} (hx : b.lay.In x y) :
    (b.run junk p).dec x y = alfPicture b.bd b.lay.W b.lay.H b.lay.L (b.alfRaw raw)
      (saoPicture b.bd b.lay.W b.lay.H b.lay.L b.saoPrm (Db.deblockPlane b.deb b.bw b.bh b.bn (stored b.lay b.recon p.dec))) x y := by
  rw [run_stages g hl hc junk p x y hx.2.1 hx.2.2, stage3_eq g hl hc junk p hb hr (fun x y h => by
    rw [stage2_eq g hl hc junk p h, stage1_eq g hl hc]
    exact sao_legal (hleg x y h)) hx]
  exact alfPicture_dep hl ⟨rfl, rfl, rfl⟩ (fun x y h => by rw [stage2_eq g hl hc junk p h, stage1_eq g hl hc]) hx

/-! ### The deblocking filter -/

theorem line_dep {m m' : Plane} {d : Db.Dir} {x y : Int} (h : ∀ k : Int, -3 ≤ k → k ≤ 2 → m (Db.at_ d x y k).1 (Db.at_ d x y k).2 = m' (Db.at_ d x y k).1 (Db.at_ d x y k).2) :
    Db.getLine m d x y = Db.getLine m' d x y := by
  unfold Db.getLine
  simp only [Db.Line.mk.injEq]
  exact ⟨h _ (by omega) (by omega), h _ (by omega) (by omega), h _ (by omega) (by omega), h _ (by omega) (by omega), h _ (by omega) (by omega), h _ (by omega) (by omega)⟩

theorem get_getLine (m : Plane) (d : Db.Dir) (x y : Int) {k : Int} (h1 : -3 ≤ k) (h2 : k ≤ 2) :
    (Db.getLine m d x y).get k = m (Db.at_ d x y k).1 (Db.at_ d x y k).2 := by
  have : k = -3 ∨ k = -2 ∨ k = -1 ∨ k = 0 ∨ k = 1 ∨ k = 2 := by omega
  rcases this with e | e | e | e | e | e <;> subst e <;> rfl

/-- In a picture whose borders are not filtered, the filtered picture depends on the picture alone. -/
theorem pass_dep {d : Db.Dir} {W H : Nat} (h4 : 4 ∣ W) (h4' : 4 ∣ H) {F : Nat → Nat → Db.Line → Db.Line} (hF : ∀ r, F 0 r = id) {m m' : Plane}
    (hm : ∀ x y, (0 ≤ x ∧ x < (W : Int)) ∧ 0 ≤ y ∧ y < (H : Int) → m x y = m' x y) {x y : Int} (hx : (0 ≤ x ∧ x < (W : Int)) ∧ 0 ≤ y ∧ y < (H : Int)) :
    Db.Spec.pass d W H F m x y = Db.Spec.pass d W H F m' x y := by
  unfold Db.Spec.pass
  cases d
  · dsimp only
    split
    · rename_i hh
      by_cases hk : (x + 3) / 8 = 0
      · rw [hk]
        simp only [Int.toNat_zero, hF, id]
        rw [get_getLine _ _ _ _ (by omega) (by omega), get_getLine _ _ _ _ (by omega) (by omega)]
        simp only [Db.at_]
        exact hm _ _ ⟨⟨by omega, by omega⟩, hx.2⟩
      · rw [line_dep (m' := m')]
        intro k k1 k2
        simp only [Db.at_]
        exact hm _ _ ⟨⟨by omega, by omega⟩, hx.2⟩
    · exact hm x y hx
  · dsimp only
    split
    · rename_i hh
      by_cases hk : (y + 3) / 8 = 0
      · rw [hk]
        simp only [Int.toNat_zero, hF, id]
        rw [get_getLine _ _ _ _ (by omega) (by omega), get_getLine _ _ _ _ (by omega) (by omega)]
        simp only [Db.at_]
        exact hm _ _ ⟨hx.1, by omega, by omega⟩
      · rw [line_dep (m' := m')]
        intro k k1 k2
        simp only [Db.at_]
        exact hm _ _ ⟨hx.1, by omega, by omega⟩
    · exact hm x y hx

theorem picture_dep {W H : Nat} (h4 : 4 ∣ W) (h4' : 4 ∣ H) {F : Db.Dir → Nat → Nat → Db.Line → Db.Line} (hF : ∀ d r, F d 0 r = id) {m m' : Plane}
    (hm : ∀ x y, (0 ≤ x ∧ x < (W : Int)) ∧ 0 ≤ y ∧ y < (H : Int) → m x y = m' x y) {x y : Int} (hx : (0 ≤ x ∧ x < (W : Int)) ∧ 0 ≤ y ∧ y < (H : Int)) :
    Db.Spec.picture W H F m x y = Db.Spec.picture W H F m' x y :=
  pass_dep h4 h4' (hF _) (fun x y h => pass_dep h4 h4' (hF _) hm h) hx

def Bytes (m : Plane) : Prop := ∀ x y, 0 ≤ m x y ∧ m x y ≤ 255

theorem pass_bytes {d : Db.Dir} {W H : Nat} {F : Nat → Nat → Db.Line → Db.Line} (hF : ∀ k r s, s.Within 0 255 → (F k r s).Within 0 255) {m : Plane} (hm : Bytes m) :
    Bytes (Db.Spec.pass d W H F m) := by
  have hg : ∀ (s : Db.Line) (k : Int), s.Within 0 255 → 0 ≤ s.get k ∧ s.get k ≤ 255 := by
    intro s k h
    obtain ⟨h1, h2, h3, h4, h5, h6⟩ := h
    unfold Db.Line.get
    repeat' split
    all_goals assumption
  have hl : ∀ d x y, (Db.getLine m d x y).Within 0 255 := fun d x y => ⟨hm _ _, hm _ _, hm _ _, hm _ _, hm _ _, hm _ _⟩
  intro x y
  unfold Db.Spec.pass
  cases d <;> dsimp only <;> split <;> first | exact hg _ _ (hF _ _ _ (hl _ _ _)) | exact hm x y

theorem line_bytes (chroma : Bool) (half : Nat) (o : Option Db.EdgePrm) (s : Db.Line) (h : s.Within 0 255) : (Db.Spec.line chroma half o s).Within 0 255 := by
  unfold Db.Spec.line
  split
  · exact h
  · exact Db.C40_range _ _ _ _ _ _ _ (by decide) (by decide) h

/-- Deblocking keeps bytes bytes, inside the picture. -/
theorem picture_bytes {W H : Nat} (h4 : 4 ∣ W) (h4' : 4 ∣ H) {F : Db.Dir → Nat → Nat → Db.Line → Db.Line} (hF : ∀ d r, F d 0 r = id)
    (hF' : ∀ d k r s, s.Within 0 255 → (F d k r s).Within 0 255) {m : Plane}
    (hm : ∀ x y, (0 ≤ x ∧ x < (W : Int)) ∧ 0 ≤ y ∧ y < (H : Int) → 0 ≤ m x y ∧ m x y ≤ 255) {x y : Int} (hx : (0 ≤ x ∧ x < (W : Int)) ∧ 0 ≤ y ∧ y < (H : Int)) :
    0 ≤ Db.Spec.picture W H F m x y ∧ Db.Spec.picture W H F m x y ≤ 255 := by
  let m' : Plane := fun x y => max 0 (min 255 (m x y))
  have he : ∀ x y, (0 ≤ x ∧ x < (W : Int)) ∧ 0 ≤ y ∧ y < (H : Int) → m x y = m' x y := by
    intro x y h
    have := hm x y h
    simp only [m']; omega
  rw [picture_dep h4 h4' hF he hx]
  have hb : Bytes m' := fun x y => by simp only [m']; omega
  exact pass_bytes (hF' _) (pass_bytes (hF' _) hb) x y

/-- What the two theorems on luma and chroma assume of a job: the sizes fit, slices do not limit filtering, samples are
bytes, and the borders of the picture are not marked for deblocking (deblock.cc:97-113 and 163-179). -/
structure Job.Plain (b : Job) (u : Nat) (prm : Db.Dir → Nat → Nat → Option Db.EdgePrm) : Prop where
  n : 0 < b.bn
  w : b.bn < b.bw
  h : 0 < b.bh
  W : b.lay.W = u * b.bw
  H : b.lay.H = u * b.bh
  L : b.lay.L = u * b.bn
  big : 8 ≤ b.lay.L
  cross : b.lay.cross = true
  bd : b.bd = 8
  recon : ∀ x y, b.lay.In x y → 0 ≤ b.recon x y ∧ b.recon x y ≤ 255
  ver : ∀ y, prm .ver 0 y = none
  hor : ∀ x, prm .hor x 0 = none

theorem Job.Plain.ok {prm : Db.Dir → Nat → Nat → Option Db.EdgePrm} (h : b.Plain u prm) (hu : u = 8 ∨ u = 4) : b.lay.Ok := by
  obtain ⟨hn, hw, hh, hW, hH, hL, h8, -⟩ := h
  have hbw : 0 < b.bw := by omega
  have p1 : 0 < u * b.bw := Nat.mul_pos (by omega) hbw
  have p2 : 0 < u * b.bh := Nat.mul_pos (by omega) hh
  have hd : 4 ∣ u := by rcases hu with e | e <;> subst e <;> decide
  refine ⟨h8, ?_, ?_, ?_, ?_, ?_⟩
  · rw [hL]; exact Dvd.dvd.mul_right hd _
  · omega
  · rw [hW]; exact Dvd.dvd.mul_right hd _
  · omega
  · rw [hH]; exact Dvd.dvd.mul_right hd _

theorem Job.Plain.geom {prm : Db.Dir → Nat → Nat → Option Db.EdgePrm} (h : b.Plain u prm) (hu : u = 8 ∨ u = 4) (hd : ∀ e, Within (edgeArea u e) (b.deb e)) : b.Geom u :=
  ⟨hu, h.n, by have := h.w; have := h.n; omega, h.h, h.W, h.H, h.L, hd⟩

/-- The common part. -/
theorem plain_run {prm : Db.Dir → Nat → Nat → Option Db.EdgePrm} (h : b.Plain u prm) (hu : u = 8 ∨ u = 4) (hd : ∀ e, Within (edgeArea u e) (b.deb e))
    {F : Db.Dir → Nat → Nat → Db.Line → Db.Line} (hF : ∀ d r, F d 0 r = id) (hF' : ∀ d k r s, s.Within 0 255 → (F d k r s).Within 0 255)
    (hp : ∀ m, Db.deblockPlane b.deb b.bw b.bh b.bn m = Db.Spec.picture b.lay.W b.lay.H F m)
    {raw : Nat → Nat → Option (List Int)} (hr : b.Weights raw) (junk : Int → Int) (p : Planes) {x y : Int} (hx : b.lay.In x y) :
    (b.run junk p).dec x y = alfPicture 8 b.lay.W b.lay.H b.lay.L (b.alfRaw raw)
      (saoPicture 8 b.lay.W b.lay.H b.lay.L b.saoPrm (Db.Spec.picture b.lay.W b.lay.H F b.recon)) x y := by
  have hl := h.ok hu
  have g := h.geom hu hd
  have h4 : 4 ∣ b.lay.W := hl.2.2.2.1
  have h4' : 4 ∣ b.lay.H := hl.2.2.2.2.2
  have hs : ∀ x y, b.lay.In x y → Db.deblockPlane b.deb b.bw b.bh b.bn (stored b.lay b.recon p.dec) x y = Db.Spec.picture b.lay.W b.lay.H F b.recon x y := by
    intro x y hx
    rw [hp]
    refine picture_dep h4 h4' hF ?_ hx
    intro x y hh
    unfold stored
    exact if_pos ⟨hh.1.1, hh.1.2, hh.2.1, hh.2.2⟩
  have hleg : ∀ x y, b.lay.In x y → 0 ≤ Db.deblockPlane b.deb b.bw b.bh b.bn (stored b.lay b.recon p.dec) x y ∧
      Db.deblockPlane b.deb b.bw b.bh b.bn (stored b.lay b.recon p.dec) x y ≤ 2 ^ b.bd - 1 := by
    intro x y hx
    rw [hs x y hx, h.bd]
    exact picture_bytes h4 h4' hF hF' h.recon hx
  rw [C65_stages_partial g hl h.cross (by rw [h.bd]; decide) hr junk p hleg hx, h.bd]
  exact alfPicture_dep hl ⟨rfl, rfl, rfl⟩ (fun x y hh => saoPicture_dep (fun x y hk => hs x y hk) hh) hx

/-- **C65** for luma (partial: slices must not limit filtering, the picture is more than one tree wide). -/
theorem C65_luma_partial {prm : Db.Dir → Nat → Nat → Option Db.EdgePrm} (h : b.Plain 8 prm) (hd : b.deb = Db.scuLuma prm)
    {raw : Nat → Nat → Option (List Int)} (hr : b.Weights raw) (junk : Int → Int) (p : Planes) {x y : Int} (hx : b.lay.In x y) :
    (b.run junk p).dec x y = alfPicture 8 b.lay.W b.lay.H b.lay.L (b.alfRaw raw)
      (saoPicture 8 b.lay.W b.lay.H b.lay.L b.saoPrm (Db.Spec.picture b.lay.W b.lay.H (Db.Spec.luma prm) b.recon)) x y := by
  refine plain_run h (Or.inl rfl) (fun e => by rw [hd]; exact scuLuma_within prm e) ?_ ?_ ?_ hr junk p hx
  · intro d r
    cases d
    · simp [Db.Spec.luma, h.ver, Db.Spec.line]
    · simp [Db.Spec.luma, h.hor, Db.Spec.line]
  · intro d k r s hs
    cases d <;> exact line_bytes _ _ _ _ hs
  · intro m
    rw [hd, h.W, h.H]
    exact Db.C41_luma_partial prm b.bw b.bh b.bn h.n h.w m

/-- **C65** for chroma (partial, as for luma). -/
theorem C65_chroma_partial {prm : Db.Dir → Nat → Nat → Option Db.EdgePrm} (h : b.Plain 4 prm) (hd : b.deb = Db.scuChroma prm)
    {raw : Nat → Nat → Option (List Int)} (hr : b.Weights raw) (junk : Int → Int) (p : Planes) {x y : Int} (hx : b.lay.In x y) :
    (b.run junk p).dec x y = alfPicture 8 b.lay.W b.lay.H b.lay.L (b.alfRaw raw)
      (saoPicture 8 b.lay.W b.lay.H b.lay.L b.saoPrm (Db.Spec.picture b.lay.W b.lay.H (Db.Spec.chroma prm) b.recon)) x y := by
  refine plain_run h (Or.inr rfl) (fun e => by rw [hd]; exact scuChroma_within prm e) ?_ ?_ ?_ hr junk p hx
  · intro d r
    cases d
    · simp [Db.Spec.chroma, h.ver, Db.Spec.line]
    · simp [Db.Spec.chroma, h.hor, Db.Spec.line]
  · intro d k r s hs
    cases d <;> exact line_bytes _ _ _ _ hs
  · intro m
    rw [hd, h.W, h.H]
    exact Db.C41_chroma_partial prm b.bw b.bh b.bn h.n h.w m

/-- With deblocking off, the same without it; here the width does not matter. -/
theorem C65_no_deblock_partial (g : b.Geom u) (hl : b.lay.Ok) (hc : b.lay.cross = true) (hbd : b.bd ≤ 10)
    (hd : b.deb = fun _ m => m) (hrec : ∀ x y, b.lay.In x y → 0 ≤ b.recon x y ∧ b.recon x y ≤ 2 ^ b.bd - 1)
    {raw : Nat → Nat → Option (List Int)} (hr : b.Weights raw) (junk : Int → Int) (p : Planes) {x y : Int} (hx : b.lay.In x y) :
    (b.run junk p).dec x y = alfPicture b.bd b.lay.W b.lay.H b.lay.L (b.alfRaw raw) (saoPicture b.bd b.lay.W b.lay.H b.lay.L b.saoPrm b.recon) x y := by
  have hs : ∀ m, Db.deblockPlane b.deb b.bw b.bh b.bn m = m := by
    intro m
    unfold Db.deblockPlane
    rw [hd]
    generalize Db.picDeblock b.bw b.bh b.bn = l
    induction l with
    | nil => rfl
    | cons a l ih => exact ih
  have hst : ∀ x y, b.lay.In x y → stored b.lay b.recon p.dec x y = b.recon x y := fun x y hh => if_pos ⟨hh.1.1, hh.1.2, hh.2.1, hh.2.2⟩
  rw [C65_stages_partial g hl hc hbd hr junk p (fun x y hh => by rw [hs, hst x y hh]; exact hrec x y hh) hx, hs]
  exact alfPicture_dep hl ⟨rfl, rfl, rfl⟩ (fun x y hh => saoPicture_dep (fun x y hk => hst x y hk) hh) hx

/-! ### C66: other pictures -/

/-- The same picture, decoded after another one. -/
def Job.after (b : Job) (old : Nat → Nat → Int) : Job := { b with lay := { b.lay with old := old } }

theorem Job.Plain.after {prm : Db.Dir → Nat → Nat → Option Db.EdgePrm} (h : b.Plain u prm) (old : Nat → Nat → Int) : (b.after old).Plain u prm :=
  ⟨h.n, h.w, h.h, h.W, h.H, h.L, h.big, h.cross, h.bd, h.recon, h.ver, h.hor⟩

/-- **C66** (partial, as C65): the filtered luma samples do not depend on what was decoded before. -/
theorem C66_luma_partial {prm : Db.Dir → Nat → Nat → Option Db.EdgePrm} (h : b.Plain 8 prm) (hd : b.deb = Db.scuLuma prm)
    {raw : Nat → Nat → Option (List Int)} (hr : b.Weights raw) (old : Nat → Nat → Int) (junk junk' : Int → Int) (p p' : Planes) {x y : Int} (hx : b.lay.In x y) :
    ((b.after old).run junk' p').dec x y = (b.run junk p).dec x y := by
  rw [C65_luma_partial h hd hr junk p hx]
  exact C65_luma_partial (b := b.after old) (h.after old) hd hr junk' p' hx

/-- **C66** for chroma. -/
theorem C66_chroma_partial {prm : Db.Dir → Nat → Nat → Option Db.EdgePrm} (h : b.Plain 4 prm) (hd : b.deb = Db.scuChroma prm)
    {raw : Nat → Nat → Option (List Int)} (hr : b.Weights raw) (old : Nat → Nat → Int) (junk junk' : Int → Int) (p p' : Planes) {x y : Int} (hx : b.lay.In x y) :
    ((b.after old).run junk' p').dec x y = (b.run junk p).dec x y := by
  rw [C65_chroma_partial h hd hr junk p hx]
  exact C65_chroma_partial (b := b.after old) (h.after old) hd hr junk' p' hx

/-- Chroma of a 32x32 picture in trees of 16: all samples 100, band offset 1 everywhere. -/
def toy (cross : Bool) (new : Nat → Nat → Int) (sao : Nat → Nat → Option SaoPrm) : Job where
  bd := 8
  lay := ⟨16, 16, 8, cross, oneSlice, new⟩
  recon := fun _ _ => 100
  deb := Db.scuChroma fun _ _ _ => none
  bw := 4
  bh := 4
  bn := 2
  saoOn := true
  sao := sao
  alfOn := false
  alf := fun _ _ => none

def plusOne : Nat → Nat → Option SaoPrm := fun _ _ => some ⟨4, fun _ => 1⟩
def blank : Planes := ⟨fun _ _ => 0, fun _ _ => 0, fun _ _ => 0⟩

/-- C66 fails if slices limit filtering: the same picture, in one slice, is filtered differently after a picture in two
slices than after a picture in one slice, because slice numbers of the earlier picture are compared. -/
theorem C66_violated :
    ((toy false oneSlice plusOne).run (fun _ => 0) blank).dec 2 5 = 101 ∧
    (((toy false oneSlice plusOne).after rowSlices).run (fun _ => 0) blank).dec 2 5 = 102 := by
  decide +kernel

/-! ### C67: SAO on and off -/

/-- **C67** (partial: all trees of a row are in slices with the same flag).  SAO is done in the trees whose slice asks for it. -/
theorem C67_flag_partial {nW : Nat} {on : Nat → Nat → Bool} {own : Nat → Nat → Option SaoPrm} (hu : ∀ i j, i < nW → on i j = on (nW - 1) j)
    (ho : ∀ i j, on i j = false → own i j = none) {i j : Nat} (hi : i < nW) : saoRowEnd nW on own i j = own i j := by
  unfold saoRowEnd
  split
  · rfl
  · rename_i h
    rw [ho i j (by rw [hu i j hi]; simpa using h)]

/-- C67 fails: the first tree of a row is in a slice with SAO on and has an offset of 1, the second tree is in a slice with
SAO off; the samples of the first tree are not changed. -/
theorem C67_violated : ∃ (on : Nat → Nat → Bool) (own : Nat → Nat → Option SaoPrm), on 0 0 = true ∧ own 0 0 = some ⟨4, fun _ => 1⟩ ∧
    (∀ i j, on i j = false → own i j = none) ∧
    ((toy true (fun i j => i + 2 * j) (saoRowEnd 2 on own)).run (fun _ => 0) blank).dec 1 1 = 100 ∧
    ((toy true (fun i j => i + 2 * j) own).run (fun _ => 0) blank).dec 1 1 = 101 := by
  refine ⟨fun i _ => i == 0, fun i _ => if i == 0 then some ⟨4, fun _ => 1⟩ else none, rfl, rfl, ?_, ?_⟩
  · intro i j h
    simp only at h
    simp only [h]
    rfl
  · decide +kernel

/-! ### Examples -/

theorem toy_plain (new : Nat → Nat → Int) (sao : Nat → Nat → Option SaoPrm) : (toy true new sao).Plain 4 (fun _ _ _ => none) :=
  ⟨show 0 < 2 by decide, show 2 < 4 by decide, show 0 < 4 by decide, rfl, rfl, rfl, show 8 ≤ 8 by decide, rfl, rfl,
    fun _ _ _ => show (0 : Int) ≤ 100 ∧ (100 : Int) ≤ 255 by decide, fun _ => rfl, fun _ => rfl⟩

theorem toy_weights (new : Nat → Nat → Int) (sao : Nat → Nat → Option SaoPrm) : (toy true new sao).Weights (fun _ _ => none) :=
  ⟨fun _ _ => rfl, fun _ _ _ h => by cases h⟩

example : ((toy true rowSlices plusOne).run (fun _ => 7) blank).dec 2 5 = 101 := by
  rw [C65_chroma_partial (toy_plain _ _) rfl (toy_weights _ _) _ _ (by decide)]
  decide +kernel

example : (((toy true rowSlices plusOne).after oneSlice).run (fun _ => 3) ⟨fun _ _ => 9, fun _ _ => 9, fun _ _ => 9⟩).dec 2 5 =
    ((toy true rowSlices plusOne).run (fun _ => 7) blank).dec 2 5 :=
  C66_chroma_partial (toy_plain _ _) rfl (toy_weights _ _) _ _ _ _ _ (by decide)

example : saoRowEnd 2 (fun _ j => j == 0) (fun _ j => if j == 0 then some ⟨4, fun _ => 1⟩ else none) 0 0 = some ⟨4, fun _ => 1⟩ :=
  C67_flag_partial (nW := 2) (fun _ _ _ => rfl) (fun i j h => by simp [h]) (by decide)

/-- Luma, 64x32 samples in trees of 16, with deblocking, SAO edge offset and ALF. -/
def demo : Job where
  bd := 8
  lay := ⟨64, 32, 16, true, oneSlice, oneSlice⟩
  recon := fun x y => if y < 8 then 100 else if x < 30 then 104 else 108
  deb := Db.scuLuma Db.allMarked
  bw := 8
  bh := 4
  bn := 2
  saoOn := true
  sao := fun i _ => if i = 1 then some ⟨0, fun c => c - 2⟩ else none
  alfOn := true
  alf := fun _ _ => Al.recon [1, 0, -2, 3, 0, 4, 0, 1, 0]

theorem demo_plain : demo.Plain 8 Db.allMarked :=
  ⟨by decide, by decide, by decide, rfl, rfl, rfl, by decide, rfl, rfl, fun x y _ => by
    show 0 ≤ (if y < 8 then (100 : Int) else if x < 30 then 104 else 108) ∧ (if y < 8 then (100 : Int) else if x < 30 then 104 else 108) ≤ 255
    split
    · decide
    · split <;> decide, fun _ => rfl, fun _ => rfl⟩

theorem demo_weights : demo.Weights (fun _ _ => some [1, 0, -2, 3, 0, 4, 0, 1, 0]) :=
  ⟨fun _ _ => rfl, fun _ _ r h => by cases h; decide⟩

example : (demo.run (fun _ => 0) blank).dec 30 10 = 107 ∧ demo.recon 30 10 = 108 := by
  rw [C65_luma_partial demo_plain rfl demo_weights _ _ (by decide)]
  decide +kernel

end Davs2.Lr
