import Verif.Lemmas.VecSao
import Verif.Lemmas.VecAlf
import Verif.Props.Sao
/-
C83: sample adaptive offset with SSE4 and with AVX2 instructions gives what the C functions give.
-/
namespace Davs2.Vc
open Davs2.Sa (Plane Avail loop loop_inv sx ex Filtered want filtered_of rows_done RowDone)
open Davs2.Spec (comparison saturate bandOffset visible)

/-- What is needed of a row loop from `a` to `b`. -/
def RowOk (n : Nat) (row : (Int → V) → Int → Int → Int → Plane → Plane) (a : Int) : Prop :=
  ∀ (W : Int → Int → Int) (y : Int) (vec : Int → V), (∀ x (j : Nat), j < n → u8 (vec x) j = W (x + j) y) →
    ∀ (b : Int) (d0 : Plane), RowTo W d0 y a (max a b) (row vec a b y d0)

/-- What is needed of the arithmetic. -/
def VecOk (n : Nat) (off : Int → Int) (vec : V → V → V → V) : Prop :=
  ∀ (s0 s1 s2 : V) (j : Nat), j < n → u8 (vec s0 s1 s2) j = satu8 (u8 s1 j + off (cls s0 s1 s2 j))

theorem rowOk16 (a : Int) : RowOk 16 row16 a := fun _ _ _ hv b d0 => row16_to hv a b d0
theorem rowOkW : RowOk 16 rowW 0 := fun _ _ _ hv b d0 => row16w_to hv b d0
theorem rowOk32 (a : Int) : RowOk 32 row32 a := fun _ _ _ hv b d0 => row32_to hv a b d0

section
variable {n : Nat} {off : Int → Int} {row : (Int → V) → Int → Int → Int → Plane → Plane} {vec : V → V → V → V}
  {av : Avail} {src : Plane} {w h : Int}

theorem satu8_saturate (v : Int) : satu8 v = saturate 8 v := rfl

theorem u8_edgeVec (hv : VecOk n off vec) (hs : Bytes src) (dx dy y x : Int) (j : Nat) (hj : j < n) :
    u8 (edgeVec vec src dx dy y x) j = want 8 off src dx dy (x + j) y := by
  unfold edgeVec
  rw [hv _ _ _ j hj]
  unfold cls want
  rw [u8_load _ _ _ _ (hs _ _), u8_load _ _ _ _ (hs _ _), u8_load _ _ _ _ (hs _ _), satu8_saturate,
    show x - dx + (j : Int) = x + j - dx by omega, show x + dx + (j : Int) = x + j + dx by omega]

theorem edge_row (hr : ∀ a, RowOk n row a) (hv : VecOk n off vec) (hs : Bytes src) (dx dy y a b : Int) (d0 : Plane) :
    RowDone 8 off src dx dy d0 y a (max a b) (row (edgeVec vec src dx dy y) a b y d0) :=
  hr a (fun x y => want 8 off src dx dy x y) y _ (fun x j hj => u8_edgeVec hv hs dx dy y x j hj) b d0

theorem eo0V_filtered (hr : ∀ a, RowOk n row a) (hv : VecOk n off vec) (hs : Bytes src) (hw : 1 ≤ w) (dst : Plane) :
    Filtered 8 off av src w h 1 0 dst (eo0V row vec src av w h dst) := by
  have := (rows_done (bd := 8) (off := off) (src := src) (dx := 1) (dy := 0) (a0 := 0) (b0 := h) (fun _ => sx av)
    (fun _ => max (sx av) (ex av w)) (fun y d => row (edgeVec vec src 1 0 y) (sx av) (ex av w) y d) id (fun _ _ => True) dst trivial
    (fun y s _ _ _ => ⟨trivial, edge_row hr hv hs 1 0 y _ _ s⟩)).2
  refine filtered_of _ this ?_
  intro x y
  unfold visible sx ex
  cases av.l <;> cases av.r <;> cases av.t <;> cases av.d <;> simp <;> omega

theorem eo90V_filtered (hr : RowOk n row 0) (hv : VecOk n off vec) (hs : Bytes src) (hh : 1 ≤ h) (dst : Plane) :
    Filtered 8 off av src w h 0 1 dst (eo90V row vec src av w h dst) := by
  have := (rows_done (bd := 8) (off := off) (src := src) (dx := 0) (dy := 1) (a0 := if av.t then 0 else 1)
    (b0 := if av.d then h else h - 1) (fun _ => 0)
    (fun _ => max 0 w) (fun y d => row (edgeVec vec src 0 1 y) 0 w y d) id (fun _ _ => True) dst trivial
    (fun y s _ _ _ => ⟨trivial, hr (fun x y => want 8 off src 0 1 x y) y _ (fun x j hj => u8_edgeVec hv hs 0 1 y x j hj) w s⟩)).2
  refine filtered_of _ this ?_
  intro x y
  unfold visible
  cases av.l <;> cases av.r <;> cases av.t <;> cases av.d <;> simp <;> omega

theorem eoDiagV_done (hr : ∀ a, RowOk n row a) (hv : VecOk n off vec) (hs : Bytes src) (dx dy a0 b0 a b an bn h : Int) (dst : Plane)
    (x y : Int) : eoDiagV row vec src dx dy a0 b0 a b an bn h dst x y =
      if (y = max 1 (h - 1) ∧ an ≤ x ∧ x < max an bn) ∨ (1 ≤ y ∧ y < h - 1 ∧ a ≤ x ∧ x < max a b) ∨ (y = 0 ∧ a0 ≤ x ∧ x < max a0 b0)
      then want 8 off src dx dy x y else dst x y := by
  unfold eoDiagV
  have d1 := edge_row hr hv hs dx dy 0 a0 b0 dst
  generalize row (edgeVec vec src dx dy 0) a0 b0 0 dst = dd1 at d1
  have d2 := (rows_done (bd := 8) (off := off) (src := src) (dx := dx) (dy := dy) (a0 := 1) (b0 := h - 1) (fun _ => a)
    (fun _ => max a b) (fun y d => row (edgeVec vec src dx dy y) a b y d) id (fun _ _ => True) dd1 trivial
    (fun y s _ _ _ => ⟨trivial, edge_row hr hv hs dx dy y _ _ s⟩)).2
  generalize loop 1 (h - 1) (fun y d => row (edgeVec vec src dx dy y) a b y d) dd1 = dd2 at d2
  have d3 := edge_row hr hv hs dx dy (max 1 (h - 1)) an bn dd2
  rw [d3 x y]
  by_cases g1 : y = max 1 (h - 1) ∧ an ≤ x ∧ x < max an bn
  · rw [if_pos g1, if_pos (Or.inl g1)]
  · rw [if_neg g1]
    refine (d2 x y).trans ?_
    by_cases g2 : 1 ≤ y ∧ y < h - 1 ∧ a ≤ x ∧ x < max a b
    · rw [if_pos g2, if_pos (Or.inr (Or.inl g2))]
    · rw [if_neg g2]
      refine (d1 x y).trans ?_
      by_cases g3 : y = 0 ∧ a0 ≤ x ∧ x < max a0 b0
      · rw [if_pos g3, if_pos (Or.inr (Or.inr g3))]
      · rw [if_neg g3, if_neg (by tauto)]

theorem eo135V_filtered (hr : ∀ a, RowOk n row a) (hv : VecOk n off vec) (hs : Bytes src) (hw : 2 ≤ w) (hh : 2 ≤ h) (hc : av.Corners)
    (dst : Plane) : Filtered 8 off av src w h 1 1 dst (eo135V row vec src av w h dst) := by
  unfold eo135V
  exact filtered_of _ (fun x y => eoDiagV_done hr hv hs 1 1 _ _ _ _ _ _ h dst x y) (fun x y => Sa.cover135 hc hw hh x y)

theorem eo45V_filtered (hr : ∀ a, RowOk n row a) (hv : VecOk n off vec) (hs : Bytes src) (hw : 2 ≤ w) (hh : 2 ≤ h) (hc : av.Corners)
    (dst : Plane) : Filtered 8 off av src w h (-1) 1 dst (eo45V row vec src av w h dst) := by
  unfold eo45V
  exact filtered_of _ (fun x y => eoDiagV_done hr hv hs (-1) 1 _ _ _ _ _ _ h dst x y) (fun x y => Sa.cover45 hc hw hh x y)

/-- Two planes that both are what the definition says are equal. -/
theorem filtered_unique {dx dy : Int} {dst d d' : Plane} (h1 : Filtered 8 off av src w h dx dy dst d)
    (h2 : Filtered 8 off av src w h dx dy dst d') : d = d' := by
  funext x y; rw [h1 x y, h2 x y]

theorem boV_band {bvec : V → V} (hr : RowOk n row 0) (hv : ∀ s (j : Nat), j < n → u8 (bvec s) j = satu8 (u8 s j + off (u8 s j / 8)))
    (hs : Bytes src) (dst : Plane) (x y : Int) :
    boV row src bvec w h dst x y = if 0 ≤ x ∧ x < w ∧ 0 ≤ y ∧ y < h then bandOffset 8 off (src x y) else dst x y := by
  have hrow : ∀ y d0, RowTo (fun x y => bandOffset 8 off (src x y)) d0 y 0 (max 0 w) (row (fun x => bvec (load src x y)) 0 w y d0) :=
    fun y d0 => hr (fun x y => bandOffset 8 off (src x y)) y _ (fun x j hj => by
      rw [hv _ j hj, u8_load _ _ _ _ (hs _ _)]; rfl) w d0
  have := loop_inv (a := 0) (b := h) (f := fun y dst => row (fun x => bvec (load src x y)) 0 w y dst) (s := dst)
    (P := fun y (e : Plane) => ∀ x' y', e x' y' = if (0 ≤ y' ∧ y' < y) ∧ 0 ≤ x' ∧ x' < max 0 w then bandOffset 8 off (src x' y') else dst x' y')
    (fun x' y' => by rw [if_neg (by omega)]) (by
      intro y e h0 h1 i x' y'
      rw [hrow y e x' y']
      by_cases h : y' = y ∧ 0 ≤ x' ∧ x' < max 0 w
      · rw [if_pos h, if_pos (by omega)]
      · rw [if_neg h, i x' y']
        by_cases h2 : (0 ≤ y' ∧ y' < y) ∧ 0 ≤ x' ∧ x' < max 0 w
        · rw [if_pos h2, if_pos (by omega)]
        · rw [if_neg h2, if_neg (by omega)])
  unfold boV
  rw [this x y]
  by_cases h1 : 0 ≤ x ∧ x < w ∧ 0 ≤ y ∧ y < h
  · rw [if_pos h1, if_pos (by omega)]
  · rw [if_neg h1, if_neg (by omega)]

end

variable {off : Int → Int} {av : Avail} {src : Plane} {w h : Int}

/-- C83, horizontal neighbours: for all samples, regions, offsets and available sides the SSE4 and the AVX2 function leave the same
picture as the C function. -/
theorem C83_edge0 (ho : Small off) (hs : Bytes src) (hw : 1 ≤ w) (dst : Plane) :
    eo0V row16 (eoVec off) src av w h dst = Sa.eo0 8 off av src w h dst ∧
    eo0V row32 (eoVec32 off) src av w h dst = Sa.eo0 8 off av src w h dst :=
  ⟨filtered_unique (eo0V_filtered rowOk16 (u8_eoVec ho) hs hw dst) (Sa.C42_edge0 hw dst),
   filtered_unique (eo0V_filtered rowOk32 (u8_eoVec32 ho) hs hw dst) (Sa.C42_edge0 hw dst)⟩

/-- C83, vertical neighbours. -/
theorem C83_edge90 (ho : Small off) (hs : Bytes src) (hh : 1 ≤ h) (dst : Plane) :
    eo90V rowW (eoVec off) src av w h dst = Sa.eo90 8 off av src w h dst ∧
    eo90V row32 (eoVec32 off) src av w h dst = Sa.eo90 8 off av src w h dst :=
  ⟨filtered_unique (eo90V_filtered rowOkW (u8_eoVec ho) hs hh dst) (Sa.C42_edge90 hh dst),
   filtered_unique (eo90V_filtered (rowOk32 0) (u8_eoVec32 ho) hs hh dst) (Sa.C42_edge90 hh dst)⟩

/-- C83, neighbours top-left and bottom-right; `junk` is the C function's uninitialised line of signs. -/
theorem C83_edge135 (ho : Small off) (hs : Bytes src) (hw : 2 ≤ w) (hh : 2 ≤ h) (hc : av.Corners) (junk : Int → Int) (dst : Plane) :
    eo135V row16 (eoVec off) src av w h dst = Sa.eo135 8 off av src w h junk dst ∧
    eo135V row32 (eoVec32 off) src av w h dst = Sa.eo135 8 off av src w h junk dst :=
  ⟨filtered_unique (eo135V_filtered rowOk16 (u8_eoVec ho) hs hw hh hc dst) (Sa.C42_edge135 hw hh hc junk dst),
   filtered_unique (eo135V_filtered rowOk32 (u8_eoVec32 ho) hs hw hh hc dst) (Sa.C42_edge135 hw hh hc junk dst)⟩

/-- C83, neighbours top-right and bottom-left. -/
theorem C83_edge45 (ho : Small off) (hs : Bytes src) (hw : 2 ≤ w) (hh : 2 ≤ h) (hc : av.Corners) (junk : Int → Int) (dst : Plane) :
    eo45V row16 (eoVec off) src av w h dst = Sa.eo45 8 off av src w h junk dst ∧
    eo45V row32 (eoVec32 off) src av w h dst = Sa.eo45 8 off av src w h junk dst :=
  ⟨filtered_unique (eo45V_filtered rowOk16 (u8_eoVec ho) hs hw hh hc dst) (Sa.C42_edge45 hw hh hc junk dst),
   filtered_unique (eo45V_filtered rowOk32 (u8_eoVec32 ho) hs hw hh hc dst) (Sa.C42_edge45 hw hh hc junk dst)⟩

/-- The table of bands that the parameters give, as the filters index it. -/
def bandOff (saoType : Nat) (o0 o1 o2 o3 : Int) : Int → Int := fun e => Sa.bandTable saoType o0 o1 o2 o3 e.toNat

/-- C83, bands: with the table built from what was read (`saoType`, four offsets), the first band and the second band as
sao.cc:414-425 computes them. -/
theorem C83_band (hs : Bytes src) (saoType : Nat) {o0 o1 o2 o3 : Int} (h0 : -128 ≤ o0 ∧ o0 ≤ 127) (h1 : -128 ≤ o1 ∧ o1 ≤ 127)
    (h2 : -128 ≤ o2 ∧ o2 ≤ 127) (h3 : -128 ≤ o3 ∧ o3 ≤ 127) (dst : Plane) :
    boV rowW src (boVec (bandOff saoType o0 o1 o2 o3) (saoType % 32 : Nat) ((saoType % 32 + saoType / 32) % 32 : Nat)) w h dst
        = Sa.bo 8 (bandOff saoType o0 o1 o2 o3) src w h dst ∧
    boV row32 src (boVec32 (bandOff saoType o0 o1 o2 o3) (saoType % 32 : Nat) ((saoType % 32 + saoType / 32) % 32 : Nat)) w h dst
        = Sa.bo 8 (bandOff saoType o0 o1 o2 o3) src w h dst := by
  have es : saoType - saoType / 32 * 32 = saoType % 32 := by omega
  have ho : Small (bandOff saoType o0 o1 o2 o3) := by
    intro e
    unfold bandOff Sa.bandTable
    dsimp only
    split
    · exact h3
    · split
      · exact h2
      · split
        · exact h1
        · split
          · exact h0
          · omega
  have hz : ∀ e : Int, 0 ≤ e → e < 32 → e ≠ (saoType % 32 : Nat) → e ≠ ((saoType % 32 : Nat) + 1) % 32 →
      e ≠ ((saoType % 32 + saoType / 32) % 32 : Nat) → e ≠ (((saoType % 32 + saoType / 32) % 32 : Nat) + 1) % 32 →
      bandOff saoType o0 o1 o2 o3 e = 0 := by
    intro e _ _ n1 n2 n3 n4
    unfold bandOff Sa.bandTable
    dsimp only
    rw [es, if_neg (by omega), if_neg (by omega), if_neg (by omega), if_neg (by omega)]
  have hb1 : (0 : Int) ≤ (saoType % 32 : Nat) ∧ ((saoType % 32 : Nat) : Int) < 32 := by omega
  have hb2 : (0 : Int) ≤ ((saoType % 32 + saoType / 32) % 32 : Nat) ∧ (((saoType % 32 + saoType / 32) % 32 : Nat) : Int) < 32 := by omega
  constructor <;> funext x y <;> rw [Sa.C42_band]
  · exact boV_band rowOkW (u8_boVec ho hb1 hb2 hz) hs dst x y
  · exact boV_band (rowOk32 0) (u8_boVec32 ho hb1 hb2 hz) hs dst x y

/-- Edge offsets as the parameters have them are small. -/
theorem C83_small {o0 o1 o2 o3 : Int} (h0 : -7 ≤ o0 ∧ o0 ≤ 7) (h1 : -7 ≤ o1 ∧ o1 ≤ 7) (h2 : -7 ≤ o2 ∧ o2 ≤ 7) (h3 : -7 ≤ o3 ∧ o3 ≤ 7) :
    Small (Sa.edgeTable o0 o1 o2 o3) := by
  intro e
  unfold Sa.edgeTable
  split_ifs <;> omega

/-! ### A case: a peak of 250 with offset −6, a valley of 3 with offset 5, no sample on the left, 40 columns -/

def ex83 : Plane := fun x y => if x = 35 ∧ y = 0 then 250 else if x = 20 ∧ y = 0 then 3 else 100
def av83 : Avail := ⟨true, true, false, true, false, true, false, true⟩
def off83 : Int → Int := Sa.edgeTable 5 1 (-1) (-6)

example : Small off83 := C83_small (by omega) (by omega) (by omega) (by omega)
example : Bytes ex83 := by intro x y; unfold ex83; split_ifs <;> omega
example : av83.Corners := by decide

example : Sa.eo0 8 off83 av83 ex83 40 2 ex83 35 0 = 244 ∧ Sa.eo0 8 off83 av83 ex83 40 2 ex83 20 0 = 8 ∧
    Sa.eo0 8 off83 av83 ex83 40 2 ex83 34 0 = 101 ∧ Sa.eo0 8 off83 av83 ex83 40 2 ex83 0 0 = 100 := by decide +kernel

/-- The bands 12 and 13, 30 and 31 get 1, −2, 3, −4; sample 100 is in band 12, 250 in band 31. -/
example : Sa.bo 8 (bandOff (12 + 18 * 32) 1 (-2) 3 (-4)) ex83 40 2 ex83 35 0 = 246 ∧
    Sa.bo 8 (bandOff (12 + 18 * 32) 1 (-2) 3 (-4)) ex83 40 2 ex83 0 1 = 101 ∧
    Sa.bo 8 (bandOff (12 + 18 * 32) 1 (-2) 3 (-4)) ex83 40 2 ex83 20 0 = 3 := by decide +kernel

end Davs2.Vc
