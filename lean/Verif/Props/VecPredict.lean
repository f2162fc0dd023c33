import Verif.Model.VpTable
import Verif.Lemmas.VpFrame
import Verif.Lemmas.VpRunS1
import Verif.Lemmas.VpRunS2
import Verif.Lemmas.VpRunS3
import Verif.Lemmas.VpRunS4
import Verif.Lemmas.VpRunS5
import Verif.Lemmas.VpRunA1
import Verif.Lemmas.VpRunA2
import Verif.Lemmas.VpRunA3
import Verif.Lemmas.VpRunA4
import Verif.Lemmas.VpRunA5
import Verif.Lemmas.VpRunA6
import Verif.Props.Intra
/-
C102: the vector routines of directional intra prediction.
-/
namespace Davs2.Vp

open Vc (V)
open Ip (shapes reach Source Avail Border fillEdge general)
open Spec (border borderArm)

/-- What is wanted of a routine that predicts a `cfg.w` by `h` block in direction `mode`: for every picture around the block, every
availability of the neighbours, every border filled from them, every content of the picture and of uninitialised memory, the routine runs
without a fault, each sample of the block is the one defined from the available neighbours, and outside the first `cfg.rows` rows of the
block's columns the picture is as before. -/
def Predicts (cfg : Cfg) (s : Stmt) (mode h : Nat) : Prop :=
  ∀ (onLeft onTop : Bool) (src : Source) (av : Avail) (ep : Border) (b : Int → BitVec 8),
    (∀ i, -(reach h cfg.w : Int) ≤ i → i ≤ reach cfg.w h → ((b i).toNat : Int) = fillEdge onLeft onTop src av 128 cfg.w h ep i) →
  ∀ (jk : Nat → Nat → BitVec 8) (jr : V) (pic : Nat → BitVec 8), ∃ mem, exec cfg jk jr s mode h b pic = some mem ∧
    (∀ x < cfg.w, ∀ y < h, (((mem 1).2 (64 * y + x)).toNat : Int) = general 8 av.top av.left
      (border av.left av.top av.topLeft av.topRight av.leftDown 128 cfg.w h (src.row onLeft onTop) (src.column onLeft)) mode cfg.w h x y) ∧
    ∀ k, (∀ y < cfg.rows, ∀ x < cfg.w, k ≠ 64 * y + x) → (mem 1).2 k = pic k

theorem shape_le {w h : Nat} (hs : (w, h) ∈ shapes) : 4 ≤ w ∧ w ≤ 64 ∧ 4 ≤ h ∧ h ≤ 64 := by
  have : ∀ p ∈ shapes, 4 ≤ p.1 ∧ p.1 ≤ 64 ∧ 4 ≤ p.2 ∧ p.2 ≤ 64 := by decide
  exact this _ hs

/-- Beyond `2 n` the border repeats its last sample. -/
theorem border_clamp {l t tl tr ld : Bool} {g : Int} {w h : Nat} {row column : Nat → Int} (hw : 0 < w) (hh : 0 < h) (i : Int) :
    border l t tl tr ld g w h row column i = border l t tl tr ld g w h row column (max (-(2 * h : Nat)) (min i (2 * w : Nat))) := by
  rcases (show (2 * w : Nat) < i ∨ i < -(2 * h : Nat) ∨ max (-(2 * h : Nat) : Int) (min i (2 * w : Nat)) = i by omega) with h1 | h1 | h1
  · rw [show max (-(2 * h : Nat) : Int) (min i (2 * w : Nat)) = (2 * w : Nat) by omega]
    simp only [border]
    rw [if_pos (by omega), if_pos (by omega)]
    simp only [borderArm]
    rw [if_neg (show ¬ i.toNat ≤ w by omega), if_neg (show ¬ ((2 * w : Nat) : Int).toNat ≤ w by omega),
      show min i.toNat (2 * w) = 2 * w by omega, show min ((2 * w : Nat) : Int).toNat (2 * w) = 2 * w by omega]
  · rw [show max (-(2 * h : Nat) : Int) (min i (2 * w : Nat)) = -(2 * h : Nat) by omega]
    simp only [border]
    rw [if_neg (show ¬ 0 < i by omega), if_neg (show ¬ (0 : Int) < -(2 * h : Nat) by omega), if_pos (by omega), if_pos (by omega)]
    simp only [borderArm]
    rw [if_neg (show ¬ (-i).toNat ≤ h by omega), if_neg (show ¬ (- -((2 * h : Nat) : Int)).toNat ≤ h by omega),
      show min (-i).toNat (2 * h) = 2 * h by omega, show min (- -((2 * h : Nat) : Int)).toNat (2 * h) = 2 * h by omega]
  · rw [h1]

theorem predicts {cfg : Cfg} {s : Stmt} {mode h : Nat} (hs : (cfg.w, h) ∈ shapes) (h3 : 3 ≤ mode) (hm : mode < 33)
    (hc : Sym.check s cfg mode h = true) : Predicts cfg s mode h := by
  intro onLeft onTop src av ep b hb jk jr pic
  have hl := shape_le hs
  have hbd : ∀ i, -(reach h cfg.w : Int) ≤ i → i ≤ reach cfg.w h → ((b i).toNat : Int)
      = border av.left av.top av.topLeft av.topRight av.leftDown 128 cfg.w h (src.row onLeft onTop) (src.column onLeft) i := fun i h0 h1 => by
    rw [hb i h0 h1, Ip.C64_border onLeft onTop src av 128 ep hs i h0 h1]
  have hcont : Sym.Cont cfg.w h b := fun i h0 h1 => by
    have r1 : reach cfg.w h = 2 * cfg.w + Sym.padR cfg.w h := by unfold reach Sym.padR; omega
    have r2 : reach h cfg.w = 2 * h + Sym.padL cfg.w h := by unfold reach Sym.padL; omega
    apply BitVec.eq_of_toNat_eq
    have e1 := hbd i (by omega) (by omega)
    have e2 := hbd (max (-(2 * h : Nat)) (min i (2 * cfg.w : Nat))) (by omega) (by omega)
    rw [← border_clamp (by omega) (by omega)] at e2
    exact_mod_cast e1.trans e2.symm
  obtain ⟨mem, e1, e2⟩ := Sym.check_ok (by omega) (by omega) h3 hcont jk jr pic hc 8 av.top av.left
  refine ⟨mem, e1, fun x hx y hy => ?_, fun k hk => exec_fr e1 hk⟩
  rw [e2 x hx y hy]
  exact Ip.general_congr 8 _ _ hbd (by omega) (by omega) hx hy hm

theorem sse_ck {mode : Nat} {s : Stmt} (ht : sse mode = some s) : 3 ≤ mode ∧ mode < 33 ∧ Sym.Ck s mode shapes := by
  unfold sse at ht
  split at ht <;> first | (simp at ht; done) | (obtain rfl := Option.some.inj ht; refine ⟨by omega, by omega, ?_⟩)
  · exact Sym.ck_x3S
  · exact Sym.ck_x4S
  · exact Sym.ck_x5S
  · exact Sym.ck_x6S
  · exact Sym.ck_x8S
  · exact Sym.ck_x10S
  · exact Sym.ck_verS
  · exact Sym.ck_xy13S
  · exact Sym.ck_xy14S
  · exact Sym.ck_xy16S
  · exact Sym.ck_xy18S
  · exact Sym.ck_xy20S
  · exact Sym.ck_xy22S
  · exact Sym.ck_xy23S
  · exact Sym.ck_horS
  · exact Sym.ck_y25S
  · exact Sym.ck_y26S
  · exact Sym.ck_y28S
  · exact Sym.ck_y30S
  · exact Sym.ck_y31S
  · exact Sym.ck_y32S

/-- C102 for SSE4: every installed routine of directional prediction, on blocks of every shape, writes the defined prediction and nothing
else. -/
theorem C102_sse {mode w h : Nat} {s : Stmt} (hs : (w, h) ∈ shapes) (ht : sse mode = some s) : Predicts ⟨w, h, 0, false⟩ s mode h :=
  have hc := sse_ck ht
  predicts (cfg := ⟨w, h, 0, false⟩) hs hc.1 hc.2.1 (hc.2.2 w h hs)

/-- A 16 by 4 block, and one direction of each kind. -/
example : ((16, 4) ∈ shapes) ∧ sse 5 = some x5S ∧ sse 14 = some xy14S ∧ sse 31 = some y31S := ⟨by decide, rfl, rfl, rfl⟩

/-- Where the AVX2 routines leave what they are given: three of them on blocks of height 4, one on blocks of width 32 and more. -/
def faulty (mode w h : Nat) : Bool := (mode = 8 || mode = 16 || mode = 32) && h = 4 || mode = 13 && 32 ≤ w

theorem avx2_ck {mode w h : Nat} {s : Stmt} (hs : (w, h) ∈ shapes) (ht : avx2 mode = some s) (hf : faulty mode w h = false) :
    3 ≤ mode ∧ mode < 33 ∧ Sym.check s ⟨w, h, 0, false⟩ mode h = true := by
  have key : ∀ {s : Stmt} {mode : Nat} (l : List (Nat × Nat)), Sym.Ck s mode l → (∀ p ∈ shapes, faulty mode p.1 p.2 = false → p ∈ l) →
      faulty mode w h = false → Sym.check s ⟨w, h, 0, false⟩ mode h = true := fun l hc hl hf => hc w h (hl _ hs hf)
  unfold avx2 at ht
  split at ht <;> first | (simp at ht; done) | (obtain rfl := Option.some.inj ht; refine ⟨by omega, by omega, ?_⟩)
  · exact key _ Sym.ck_x3A (by decide) hf
  · exact key _ Sym.ck_x4A (by decide) hf
  · exact key _ Sym.ck_x5A (by decide) hf
  · exact key _ Sym.ck_x6A (by decide) hf
  · exact key _ Sym.ck_x8A (by decide) hf
  · exact key _ Sym.ck_x10A (by decide) hf
  · exact key _ Sym.ck_verA (by decide) hf
  · exact key _ Sym.ck_xy13A (by decide) hf
  · exact key _ Sym.ck_xy14A (by decide) hf
  · exact key _ Sym.ck_xy16A (by decide) hf
  · exact key _ Sym.ck_xy18A (by decide) hf
  · exact key _ Sym.ck_xy20A (by decide) hf
  · exact key _ Sym.ck_xy22A (by decide) hf
  · exact key _ Sym.ck_xy23A (by decide) hf
  · exact key _ Sym.ck_horA (by decide) hf
  · exact key _ Sym.ck_y25A (by decide) hf
  · exact key _ Sym.ck_y26A (by decide) hf
  · exact key _ Sym.ck_y28A (by decide) hf
  · exact key _ Sym.ck_y30A (by decide) hf
  · exact key _ Sym.ck_y31A (by decide) hf
  · exact key _ Sym.ck_y32A (by decide) hf

/-- C102 for AVX2, except for `faulty` combinations. -/
theorem C102_avx2_partial {mode w h : Nat} {s : Stmt} (hs : (w, h) ∈ shapes) (ht : avx2 mode = some s) (hf : faulty mode w h = false) :
    Predicts ⟨w, h, 0, false⟩ s mode h :=
  have hc := avx2_ck hs ht hf
  predicts (cfg := ⟨w, h, 0, false⟩) hs hc.1 hc.2.1 hc.2.2

example : ((16, 4) ∈ shapes) ∧ avx2 5 = some x5A ∧ faulty 5 16 4 = false ∧ ((64, 64) ∈ shapes) ∧ avx2 23 = some xy23A ∧ faulty 23 64 64 = false :=
  ⟨by decide, rfl, rfl, by decide, rfl, rfl⟩

/-- C102, what holds in the faulty cases: if the routine may write four more rows below the block, may go two bytes beyond its arrays, and may
take anything for a mask that does not exist, then the block is predicted as defined and nothing beyond those rows is written. -/
theorem C102_avx2_overrun_partial {mode w h : Nat} {s : Stmt} (hs : (w, h) ∈ shapes) (ht : avx2 mode = some s) (hf : faulty mode w h = true) :
    Predicts (if mode = 13 then ⟨w, h, 0, true⟩ else ⟨w, h + 4, 2, true⟩) s mode h := by
  have hcases : (mode = 8 ∨ mode = 16 ∨ mode = 32) ∧ ((w, h) = (4, 4) ∨ (w, h) = (16, 4)) ∨ mode = 13 ∧ ((w, h) = (32, 32) ∨ (w, h) = (64, 64) ∨ (w, h) = (32, 8)) := by
    have h4 : h = 4 → (w, h) = (4, 4) ∨ (w, h) = (16, 4) := by
      have : ∀ p ∈ shapes, p.2 = 4 → p = (4, 4) ∨ p = (16, 4) := by decide
      exact this _ hs
    have h32 : 32 ≤ w → (w, h) = (32, 32) ∨ (w, h) = (64, 64) ∨ (w, h) = (32, 8) := by
      have : ∀ p ∈ shapes, 32 ≤ p.1 → p = (32, 32) ∨ p = (64, 64) ∨ p = (32, 8) := by decide
      exact this _ hs
    unfold faulty at hf
    simp only [Bool.or_eq_true, Bool.and_eq_true, decide_eq_true_eq] at hf
    rcases hf with ⟨a, b⟩ | ⟨a, b⟩
    · exact Or.inl ⟨by omega, h4 b⟩
    · exact Or.inr ⟨a, h32 b⟩
  rcases hcases with ⟨rfl | rfl | rfl, e | e⟩ | ⟨rfl, e | e | e⟩ <;> obtain ⟨rfl, rfl⟩ := Prod.mk.inj e <;> obtain rfl := Option.some.inj ht
  · exact predicts (cfg := ⟨4, 8, 2, true⟩) hs (by omega) (by omega) Sym.ck_x8A_4_4
  · exact predicts (cfg := ⟨16, 8, 2, true⟩) hs (by omega) (by omega) Sym.ck_x8A_16_4
  · exact predicts (cfg := ⟨4, 8, 2, true⟩) hs (by omega) (by omega) Sym.ck_xy16A_4_4
  · exact predicts (cfg := ⟨16, 8, 2, true⟩) hs (by omega) (by omega) Sym.ck_xy16A_16_4
  · exact predicts (cfg := ⟨4, 8, 2, true⟩) hs (by omega) (by omega) Sym.ck_y32A_4_4
  · exact predicts (cfg := ⟨16, 8, 2, true⟩) hs (by omega) (by omega) Sym.ck_y32A_16_4
  · exact predicts (cfg := ⟨32, 32, 0, true⟩) hs (by omega) (by omega) Sym.ck_xy13A_32_32
  · exact predicts (cfg := ⟨64, 64, 0, true⟩) hs (by omega) (by omega) Sym.ck_xy13A_64_64
  · exact predicts (cfg := ⟨32, 8, 0, true⟩) hs (by omega) (by omega) Sym.ck_xy13A_32_8

example : ((4, 4) ∈ shapes) ∧ avx2 8 = some x8A ∧ faulty 8 4 4 = true := ⟨by decide, rfl, rfl⟩

/-! ### Where the claim is false -/

/-- A border of ones, a picture of twos. -/
def run1 (cfg : Cfg) (s : Stmt) (mode h : Nat) : Option Mem := exec cfg (fun _ _ => 0#8) (fun _ => 0#8) s mode h (fun _ => 1#8) (fun _ => 2#8)

theorem not_predicts {cfg : Cfg} {s : Stmt} {mode h : Nat} (hs : (cfg.w, h) ∈ shapes) (hn : (run1 cfg s mode h).isNone = true) :
    ¬ Predicts cfg s mode h := fun hp => by
  obtain ⟨mem, e, -⟩ := hp false false ⟨fun _ => 1, fun _ _ => 1⟩ ⟨true, true, true, true, true⟩ (fun _ => 1) (fun _ => 1#8)
    (fun i h0 h1 => by
      rw [Ip.C64_border _ _ _ _ _ _ hs i h0 h1]
      simp [border, borderArm, Spec.borderCorner, Ip.Source.row, Ip.Source.column])
    (fun _ _ => 0#8) (fun _ => 0#8) (fun _ => 2#8)
  rw [run1, e] at hn
  simp at hn

/-- C102 is false of AVX2, first: in directions 8, 16 and 32 a block of height 4 is written as one of height 8, whatever else the routine is
allowed.  With four more rows to write to, the samples right below the block are changed. -/
theorem C102_violated_rows :
    (¬ Predicts ⟨4, 4, 2, true⟩ x8A 8 4 ∧ ¬ Predicts ⟨4, 4, 2, true⟩ xy16A 16 4 ∧ ¬ Predicts ⟨4, 4, 2, true⟩ y32A 32 4) ∧
    ((run1 ⟨4, 8, 2, true⟩ x8A 8 4).map fun m => (m 1).2 (64 * 4)) = some 1#8 ∧
    ((run1 ⟨16, 8, 2, true⟩ xy16A 16 4).map fun m => (m 1).2 (64 * 4 + 15)) = some 1#8 ∧
    ((run1 ⟨4, 8, 2, true⟩ y32A 32 4).map fun m => (m 1).2 (64 * 4)) = some 1#8 :=
  ⟨⟨not_predicts (by decide) (by decide +kernel), not_predicts (by decide) (by decide +kernel), not_predicts (by decide) (by decide +kernel)⟩,
    by decide +kernel, by decide +kernel, by decide +kernel⟩

/-- C102 is false of AVX2, second: in direction 16 a block of height 4 makes the routine read before the start of an array, even if it may
write more rows. -/
theorem C102_violated_array : ¬ Predicts ⟨4, 8, 0, true⟩ xy16A 16 4 := not_predicts (by decide) (by decide +kernel)

/-- C102 is false of AVX2, third: in direction 13 on a block of width 32 the routine takes a row of the table of masks that does not exist. -/
theorem C102_violated_mask : ¬ Predicts ⟨32, 8, 0, false⟩ xy13A 13 8 := not_predicts (by decide) (by decide +kernel)

end Davs2.Vp
