import Verif.Lemmas.VecIntraBi
import Verif.Lemmas.VecIntraBorder
import Verif.Props.VecPredict
/-
C103: the vector routines that fill the border of intra prediction, and those of the modes DC, plane and bilinear.
-/
namespace Davs2.Vc

open Davs2.Sa (Plane)
open Ip (Border shapes reach Source Avail fillEdge general put)
open Spec (border)

/-! ### The border consists of samples -/

theorem IsByte.fill {s : Border} (hs : IsByte s) (a : Int) (n : Nat) {f : Int → Int} (hf : IsByte f) : IsByte (Ip.put s a n f) := fun i => by
  unfold Ip.put
  split
  · exact hf i
  · exact hs i

theorem isByte_const {v : Int} (hv : 0 ≤ v ∧ v ≤ 255) : IsByte fun _ => v := fun _ => hv

theorem fillEdge_bytes (onLeft onTop : Bool) {src : Source} (hsrc : SrcBytes src) (av : Avail) {g : Int} (hg : 0 ≤ g ∧ g ≤ 255) (w h : Nat) {ep : Border}
    (he : IsByte ep) : IsByte (fillEdge onLeft onTop src av g w h ep) := by
  have ht : IsByte fun i => if onTop then src.lcu i else src.pic i 0 := fun i => by
    dsimp only
    split
    · exact hsrc.1 i
    · exact hsrc.2 i 0
  have hl : IsByte fun i => if onLeft then src.lcu i else src.pic 0 (-i) := fun i => by
    dsimp only
    split
    · exact hsrc.1 i
    · exact hsrc.2 0 (-i)
  have hc : 0 ≤ (if onTop || onLeft then src.lcu 0 else src.pic 0 0) ∧ (if onTop || onLeft then src.lcu 0 else src.pic 0 0) ≤ 255 := by
    split
    · exact hsrc.1 0
    · exact hsrc.2 0 0
  unfold fillEdge
  dsimp only
  have h1 : IsByte (Ip.fillTop (fun i => if onTop then src.lcu i else src.pic i 0) av g w h ep) := by
    unfold Ip.fillTop
    dsimp only
    have a := he.fill (-(h * 2)) ((h + w) * 2 + 1) (isByte_const hg)
    have b : IsByte (if av.top then put (put ep (-(h * 2)) ((h + w) * 2 + 1) fun _ => g) 1 w (fun i => if onTop then src.lcu i else src.pic i 0)
        else put ep (-(h * 2)) ((h + w) * 2 + 1) fun _ => g) := by
      split
      · exact a.fill _ _ ht
      · exact a
    generalize (if av.top then put (put ep (-(h * 2)) ((h + w) * 2 + 1) fun _ => g) 1 w (fun i => if onTop then src.lcu i else src.pic i 0)
        else put ep (-(h * 2)) ((h + w) * 2 + 1) fun _ => g) = e at *
    have c : IsByte (if av.topRight then put e (w + 1) w (fun i => if onTop then src.lcu i else src.pic i 0) else put e (w + 1) w fun _ => e w) := by
      split
      · exact b.fill _ _ ht
      · exact b.fill _ _ (isByte_const (b w))
    split
    · exact c.fill _ _ (isByte_const (c _))
    · exact c
  generalize Ip.fillTop (fun i => if onTop then src.lcu i else src.pic i 0) av g w h ep = e1 at *
  have h2 : IsByte (Ip.fillLeft (fun i => if onLeft then src.lcu i else src.pic 0 (-i)) av h e1) := by
    unfold Ip.fillLeft
    dsimp only
    have a : IsByte (if av.left then put e1 (-h) h (fun i => if onLeft then src.lcu i else src.pic 0 (-i)) else e1) := by
      split
      · exact h1.fill _ _ hl
      · exact h1
    split
    · exact a.fill _ _ hl
    · exact a.fill _ _ (isByte_const (a _))
  generalize Ip.fillLeft (fun i => if onLeft then src.lcu i else src.pic 0 (-i)) av h e1 = e2 at *
  have h3 : IsByte (Ip.fillCorner (if onTop || onLeft then src.lcu 0 else src.pic 0 0) (if onTop then src.lcu 1 else src.pic 1 0)
      (if onLeft then src.lcu (-1) else src.pic 0 (-(-1))) av e2) := by
    unfold Ip.fillCorner
    split
    · exact h2.fill _ _ (isByte_const hc)
    split
    · exact h2.fill _ _ (isByte_const (ht 1))
    split
    · exact h2.fill _ _ (isByte_const (hl (-1)))
    · exact h2
  unfold Ip.fillDown
  dsimp only
  split
  · exact h3.fill _ _ (isByte_const (h3 _))
  · exact h3

/-! ### Theorems -/

variable {w h : Nat}

/-- C103, border: for every picture around the block and every availability of the neighbours, the SSE4 routine that is installed for the
block's place in its coding tree unit sets each border sample that prediction uses to the one defined from the available neighbours. -/
theorem C103_border (onLeft onTop : Bool) {src : Source} (hsrc : SrcBytes src) (av : Avail) (ep : Border) (hs : (w, h) ∈ shapes)
    (i : Int) (h0 : -(reach h w : Int) ≤ i) (h1 : i ≤ reach w h) :
    fillV onLeft onTop src av 128 w h ep i
      = border av.left av.top av.topLeft av.topRight av.leftDown 128 w h (src.row onLeft onTop) (src.column onLeft) i := by
  rw [fillV_eq onLeft onTop hsrc av (by omega) hs]
  exact Ip.C64_border onLeft onTop src av 128 _ hs i h0 h1

/-- The border the C routine fills from the same neighbours is the same. -/
theorem C103_border_plain (onLeft onTop : Bool) {src : Source} (hsrc : SrcBytes src) (av : Avail) (ep ep' : Border) (hs : (w, h) ∈ shapes)
    (i : Int) (h0 : -(reach h w : Int) ≤ i) (h1 : i ≤ reach w h) :
    fillV onLeft onTop src av 128 w h ep i = fillEdge onLeft onTop src av 128 w h ep' i :=
  (C103_border onLeft onTop hsrc av ep hs i h0 h1).trans (Ip.C64_border onLeft onTop src av 128 ep' hs i h0 h1).symm

theorem flat_eq {flat : BiArr → Bool → Bool → Border → Nat → Nat → Nat → Plane → Plane}
    (hd : ∀ (j : BiArr) (t l : Bool) (s : Border) (d : Plane), IsByte s → Fills (Rg 0 w 0 h) (fun _ _ => Ip.dc 8 t l s w h) d (flat j t l s 0 w h d))
    (hp : ∀ (j : BiArr) (t l : Bool) (s : Border) (d : Plane), IsByte s → Fills (Rg 0 w 0 h) (planeF s w h) d (flat j t l s 1 w h d))
    (hb : ∀ (j : BiArr) (t l : Bool) (s : Border) (d : Plane), IsByte s → Fills (Rg 0 w 0 h) (biF s w h) d (flat j t l s 2 w h d))
    {j : BiArr} {s s' : Border} (hs : (w, h) ∈ shapes) (hby : IsByte s) (ha : Ip.Agree w h s s') {mode : Nat} (hm : mode < 3) (t l : Bool) (d : Plane) :
    Fills (Rg 0 w 0 h) (fun x y => general 8 t l s' mode w h x.toNat y.toNat) d (flat j t l s mode w h d) := by
  obtain ⟨hw, hh⟩ := shape_side hs
  have hw' : 4 ≤ w := by unfold Side at hw; omega
  have hh' : 4 ≤ h := by unfold Side at hh; omega
  have gc : ∀ x y : Int, Rg 0 w 0 h x y → general 8 t l s mode w h x.toNat y.toNat = general 8 t l s' mode w h x.toNat y.toNat := fun x y hxy => by
    unfold Rg at hxy
    exact Ip.general_congr 8 t l ha (by omega) (by omega) (by omega) (by omega) (by omega)
  intro x y
  have key : Fills (Rg 0 w 0 h) (fun x y => general 8 t l s mode w h x.toNat y.toNat) d (flat j t l s mode w h d) := by
    have hc : mode = 0 ∨ mode = 1 ∨ mode = 2 := by omega
    rcases hc with rfl | rfl | rfl
    · exact hd j t l s d hby
    · exact hp j t l s d hby
    · exact hb j t l s d hby
  exact ⟨fun hR => ((key x y).1 hR).trans (gc x y hR), (key x y).2⟩

/-- What is wanted of the routines: each sample of the block is the one defined from the available neighbours, the rest of the picture is as before. -/
def Flat (flat : BiArr → Bool → Bool → Border → Nat → Nat → Nat → Plane → Plane) : Prop :=
  ∀ (w h mode : Nat), (w, h) ∈ shapes → mode < 3 → ∀ (onLeft onTop : Bool) (src : Source), SrcBytes src → ∀ (av : Avail) (ep : Border), IsByte ep →
    ∀ (j : BiArr) (d : Plane),
    (∀ x y : Nat, x < w → y < h → flat j av.top av.left (fillV onLeft onTop src av 128 w h ep) mode w h d x y = general 8 av.top av.left
      (border av.left av.top av.topLeft av.topRight av.leftDown 128 w h (src.row onLeft onTop) (src.column onLeft)) mode w h x y) ∧
    ∀ x y : Int, ¬ (0 ≤ x ∧ x < w ∧ 0 ≤ y ∧ y < h) → flat j av.top av.left (fillV onLeft onTop src av 128 w h ep) mode w h d x y = d x y

theorem flat_of {flat : BiArr → Bool → Bool → Border → Nat → Nat → Nat → Plane → Plane}
    (H : ∀ (w h : Nat), (w, h) ∈ shapes → ∀ (j : BiArr) (s s' : Border), IsByte s → Ip.Agree w h s s' → ∀ (mode : Nat), mode < 3 → ∀ (t l : Bool) (d : Plane),
      Fills (Rg 0 w 0 h) (fun x y => general 8 t l s' mode w h x.toNat y.toNat) d (flat j t l s mode w h d)) : Flat flat := by
  intro w h mode hs hm onLeft onTop src hsrc av ep he j d
  have hby : IsByte (fillV onLeft onTop src av 128 w h ep) := by
    rw [fillV_eq onLeft onTop hsrc av (by omega) hs]
    exact fillEdge_bytes onLeft onTop hsrc av (by omega) w h (he.fill _ _ (isByte_const (v := 128) (by omega)))
  have key := H w h hs j _ _ hby (fun i a b => C103_border onLeft onTop hsrc av ep hs i a b) mode hm av.top av.left d
  refine ⟨fun x y hx hy => ?_, fun x y hn => (key x y).2 (by unfold Rg; omega)⟩
  have := (key x y).1 (by unfold Rg; omega)
  dsimp only at this
  rw [Int.toNat_natCast, Int.toNat_natCast] at this
  exact this

/-- C103, SSE4: DC, plane and bilinear. -/
theorem C103_sse : Flat sseFlat := flat_of fun w h hs j s s' hby ha mode hm t l d =>
  flat_eq (flat := sseFlat) (fun j t l s d hb => fills_dcS hb t l hs d) (fun j t l s d hb => fills_planeS hb hs d) (fun j t l s d hb => fills_bilinearS hb hs j d)
    hs hby ha hm t l d

/-- C103, AVX2: DC, plane and bilinear. -/
theorem C103_avx2 : Flat avxFlat := flat_of fun w h hs j s s' hby ha mode hm t l d =>
  flat_eq (flat := avxFlat) (fun j t l s d hb => fills_dcA hb t l hs d) (fun j t l s d hb => fills_planeA hb hs d) (fun j t l s d hb => fills_bilinearA hb hs j d)
    hs hby ha hm t l d

/-- C103 with C102: the directional SSE4 routines on the border that the vector code has filled. -/
theorem C103_directional {mode : Nat} {s : Vp.Stmt} (hs : (w, h) ∈ shapes) (ht : Vp.sse mode = some s) (onLeft onTop : Bool) {src : Source}
    (hsrc : SrcBytes src) (av : Avail) (ep : Border) (b : Int → BitVec 8)
    (hb : ∀ i, -(reach h w : Int) ≤ i → i ≤ reach w h → ((b i).toNat : Int) = fillV onLeft onTop src av 128 w h ep i)
    (jk : Nat → Nat → BitVec 8) (jr : V) (pic : Nat → BitVec 8) : ∃ mem, Vp.exec ⟨w, h, 0, false⟩ jk jr s mode h b pic = some mem ∧
    (∀ x < w, ∀ y < h, (((mem 1).2 (64 * y + x)).toNat : Int) = general 8 av.top av.left
      (border av.left av.top av.topLeft av.topRight av.leftDown 128 w h (src.row onLeft onTop) (src.column onLeft)) mode w h x y) ∧
    ∀ k, (∀ y < h, ∀ x < w, k ≠ 64 * y + x) → (mem 1).2 k = pic k :=
  Vp.C102_sse hs ht onLeft onTop src av ep b (fun i h0 h1 => (hb i h0 h1).trans (C103_border_plain onLeft onTop hsrc av ep ep hs i h0 h1)) jk jr pic

/-- A block of 16 by 4 samples in the inside of a coding tree unit, the samples a ramp, the neighbours above right not available. -/
def exSrc : Source := ⟨fun i => i % 256, fun x y => (3 * x + 5 * y) % 256⟩
def exAv : Avail := ⟨true, true, true, false, true⟩

example : ((16, 4) ∈ shapes) ∧ SrcBytes exSrc ∧ IsByte fun _ => 0 := by
  refine ⟨by decide, ⟨fun i => ?_, fun x y => ?_⟩, fun _ => ?_⟩ <;> simp only [exSrc] <;> omega

/-- The three modes give different samples there. -/
example :
    let s := border true true true false true 128 16 4 (exSrc.row false false) (exSrc.column false)
    general 8 true true s 0 16 4 15 3 = 22 ∧ general 8 true true s 1 16 4 15 3 = 68 ∧ general 8 true true s 2 16 4 15 3 = 40 := by decide +kernel

end Davs2.Vc
