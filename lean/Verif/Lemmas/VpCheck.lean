import Verif.Lemmas.VpSpec
import Verif.Lemmas.IntraBorder
/-
A routine that passes the check of Lemmas/VpSym writes the defined prediction.
-/
namespace Davs2.Vp.Sym

open Vc (V)

/-! ### The border -/

theorem chunks_get {f : Nat → Nat} {q : Nat} {X : CK} (h : (chunks f).get q = some X) : q < 10 ∧ X.x = f q := by
  unfold chunks at h
  repeat' first
    | (rcases T.get_set h with ⟨rfl, rfl⟩ | ⟨-, h⟩; · exact ⟨by decide, rfl⟩)
  exact absurd (T.get_full h) (by simp)

section
variable {σ : Nat → Nat} {W : Nat}

theorem srcCell_ok (hW : 3 < W) {lo hi pl pr i : Nat} (hd : hi - lo + 3 < W) {b : BitVec 8}
    (hb : lo ≤ i + pl → i ≤ hi + pr → b.toNat = σ (min i hi - lo)) :
    (Ut W (srcCell lo hi pl pr i) 0 → b.toNat = cv σ W (srcCell lo hi pl pr i) 0) ∧ (∀ k, dig (srcCell lo hi pl pr i) k ≤ 1) ∧
      dig (srcCell lo hi pl pr i) 1 = 0 := by
  have ht : (Ut W 4294967296 0 → b.toNat = cv σ W 4294967296 0) ∧ (∀ k, dig 4294967296 k ≤ 1) ∧ dig 4294967296 1 = 0 := by
    refine ⟨fun hu => ?_, fun k => ?_, by rw [dig_taint]; rfl⟩
    · unfold Ut at hu; rw [dig_taint, if_pos (by omega)] at hu; omega
    · rw [dig_taint]; split_ifs <;> omega
  unfold srcCell
  simp only [brec, Nat.ble_eq, nadd, nsub, nmul, npow]
  split_ifs with h1 h2 h3
  · have hi' : i - lo + 3 < W := by omega
    have := hb h1 h2
    rw [Nat.min_eq_left h3] at this
    refine ⟨fun _ => ?_, fun k => ?_, ?_⟩
    · rw [cv, if_pos (by rw [dig_pow, if_neg (by omega)]), num_pow hi', this]
    · rw [dig_pow]; split_ifs <;> omega
    · rw [dig_pow, if_neg (by omega)]
  · have hi' : hi - lo + 3 < W := by omega
    have := hb h1 h2
    rw [Nat.min_eq_right (by omega)] at this
    refine ⟨fun _ => ?_, fun k => ?_, ?_⟩
    · rw [cv, if_pos (by rw [dig_pow, if_neg (by omega)]), num_pow hi', this]
    · rw [dig_pow]; split_ifs <;> omega
    · rw [dig_pow, if_neg (by omega)]
  · exact ht
  · exact ht

/-- An array of ten chunks of cells. -/
theorem RA.chunks (hW : 3 < W) {g : Nat → Nat} {f : Nat → BitVec 8} {F : Nat → Nat} (hF : ∀ c, F c = build (16 * W) g 64 (64 * c))
    (h : ∀ i < 640, Ut W (g i) 0 → (f i).toNat = cv σ W (g i) 0) (h1 : ∀ i k, dig (g i) k ≤ 1) (h0 : ∀ i, dig (g i) 1 = 0) :
    RA σ W ⟨640, true, chunks F, 0⟩ (640, f) where
  size := rfl
  val q X hq := by
    obtain ⟨hq, hX⟩ := chunks_get hq
    rw [hX, hF]
    refine ⟨fun j hj hu => ?_, fun _ k => dig_build_le (by omega) (fun i k => h1 i k) k, fun _ j => ?_⟩
    · have hs := same_build (W := W) (f := g) hj (64 * q)
      rw [hs.cv hW]
      exact h _ (by omega) ((hs.ut hW).mp hu)
    · rw [dig_build' _ _ _ _ _ (by omega)]
      split
      · exact h0 _
      · rfl

end

section
variable {w h : Nat} {border : Int → BitVec 8}

/-- The border is continued with its last samples as far as fill_edge does it. -/
def Cont (w h : Nat) (border : Int → BitVec 8) : Prop :=
  ∀ i : Int, -(2 * h + padL w h : Nat) ≤ i → i ≤ (2 * w + padR w h : Nat) → border i = border (max (-(2 * h : Nat)) (min i (2 * w : Nat)))

/-- The samples of the border. -/
def smp (h : Nat) (border : Int → BitVec 8) (i : Nat) : Nat := (border ((i : Int) - 2 * h)).toNat

theorem src_cell (hh : h ≤ 64) (hw : w ≤ 64) (hb : Cont w h border) {i : Nat} (h1 : 320 - 2 * h ≤ i + padL w h) (h2 : i ≤ 320 + 2 * w + padR w h) :
    (border ((i : Int) - 320)).toNat = smp h border (min i (320 + 2 * w) - (320 - 2 * h)) := by
  rw [hb _ (by omega) (by omega)]
  unfold smp
  congr 2; omega

theorem src_ok (hh : h ≤ 64) (hw : w ≤ 64) (hb : Cont w h border) :
    RA (smp h border) (2 * w + 2 * h + 4) ⟨640, true, src w h, 0⟩ (640, fun k => border ((k : Int) - 320)) := by
  have hd : 320 + 2 * w - (320 - 2 * h) + 3 < 2 * w + 2 * h + 4 := by omega
  have key := fun i => srcCell_ok (σ := smp h border) (pl := padL w h) (pr := padR w h) (i := i) (b := border ((i : Int) - 320)) (by omega) hd
    (fun a b => src_cell hh hw hb a b)
  exact RA.chunks (by omega) (fun c => rfl) (fun i _ => (key i).1) (fun i => (key i).2.1) (fun i => (key i).2.2)

theorem rev_ok (hh : h ≤ 64) (hw : w ≤ 64) (hb : Cont w h border) :
    RA (smp h border) (2 * w + 2 * h + 4) ⟨640, true, rev w h, 0⟩ (640, fun k => border (320 - (k : Int))) := by
  have hd : 320 + 2 * w - (320 - 2 * h) + 3 < 2 * w + 2 * h + 4 := by omega
  have key := fun i => srcCell_ok (σ := smp h border) (pl := padL w h) (pr := padR w h) (i := i) (b := border ((i : Int) - 320)) (by omega) hd
    (fun a b => src_cell hh hw hb a b)
  refine RA.chunks (by omega) (fun c => rfl) (fun i hi => ?_) (fun i => (key (640 - i)).2.1) (fun i => (key (640 - i)).2.2)
  have := (key (640 - i)).1
  rw [show ((640 - i : Nat) : Int) - 320 = 320 - (i : Int) by omega] at this
  exact this

end

/-! ### Running -/

theorem rn (k : Nat) : RN ⟨Nat.add 1048576 k, 1048576⟩ ⟨k, 0⟩ := by
  refine ⟨?_, ?_⟩
  · show ((Nat.add 1048576 k : Nat) : Int) = (k : Int) + 1048576
    rw [nadd]; omega
  · show ((1048576 : Nat) : Int) = 0 + 1048576
    omega

theorem rn0 (arr : Nat) : RP ⟨arr, 1048576, 1048576⟩ ⟨arr, ⟨0, 0⟩⟩ := by
  refine ⟨rfl, ?_, ?_⟩ <;>
  · show ((1048576 : Nat) : Int) = 0 + 1048576
    omega

theorem rn1 : RN ⟨1048576, 1048577⟩ ⟨0, 1⟩ := by
  refine ⟨?_, ?_⟩
  · show ((1048576 : Nat) : Int) = 0 + 1048576
    omega
  · show ((1048577 : Nat) : Int) = 1 + 1048576
    omega

theorem run_ok {s : Stmt} {cfg : Cfg} {mode h : Nat} {border : Int → BitVec 8} (hh : h ≤ 64) (hw : cfg.w ≤ 64) (hb : Cont cfg.w h border)
    (jk : Nat → Nat → BitVec 8) (jr : V) (pic : Nat → BitVec 8) {M : T SA} (hr : run s cfg mode h = some M) :
    ∃ mem, exec cfg jk jr s mode h border pic = some mem ∧ RMs (smp h border) (2 * cfg.w + 2 * h + 4) M mem := by
  simp only [run, frc_eq, orec, Option.some.injEq] at hr
  obtain ⟨r, hr, rfl⟩ := hr
  have hM : RMs (smp h border) (2 * cfg.w + 2 * h + 4) (mem0 (bits cfg.w h) cfg.w h)
      fun i => if i = 0 then (640, fun k => border ((k : Int) - 320)) else if i = 1 then (4096, pic) else (0, jk i) := by
    intro i a hi
    unfold mem0 at hi
    rcases T.get_set hi with ⟨rfl, rfl⟩ | ⟨n1, hi⟩
    · exact RA.fresh (by omega) _ _ _
    · rcases T.get_set hi with ⟨rfl, rfl⟩ | ⟨n0, hi⟩
      · exact src_ok hh hw hb
      · exact absurd (T.get_full hi) (by simp)
  obtain ⟨e, mem, h1, h2⟩ := fEx_ok (jk := jk) (jr := jr) (by omega) s hr
    (fStart_ok (rn0 0) (rn0 1) rn1 (rn mode) (rn cfg.w) (rn h) hM)
  refine ⟨mem, ?_, h2.m⟩
  unfold exec
  rw [h1]; rfl

/-! ### The formulas -/

theorem ctxOff_le (a m d : Nat) : Ip.ctxOff a m d ≤ 32 := by
  unfold Ip.ctxOff Ip.ctxPos
  generalize d * (Ip.dir a m).1 = A
  have hB : 0 < 2 ^ (Ip.dir a m).2 := Nat.two_pow_pos _
  generalize 2 ^ (Ip.dir a m).2 = B at hB
  have h1 := Nat.div_add_mod A B
  have h2 := Nat.mod_lt A hB
  have h3 : A * 32 / B < 32 * (A / B) + 32 := by
    rw [Nat.div_lt_iff_lt_mul hB]
    generalize A / B = q at *
    generalize A % B = r at *
    rw [← h1]
    have : (32 * q + 32) * B = 32 * (B * q) + 32 * B := by ring
    rw [this]
    omega
  omega

/-- Four terms. -/
theorem ev4 (f : Nat → BitVec 8) (j a b c d e p q r s : Nat) (hc : c = 32 - e) (ha : a = 64 - e) (hb : b = 32 + e) (hd : d = e) (he : e ≤ 32) :
    (((ev f j [(c, p), (a, q), (b, r), (d, s)] + 64) / 128 : Nat) : Int)
      = (((f (p + j)).toNat : Int) * (32 - e) + ((f (q + j)).toNat : Int) * (64 - e) + ((f (r + j)).toNat : Int) * (32 + e) + ((f (s + j)).toNat : Int) * e + 64) / 128 := by
  simp only [ev]
  generalize (f (p + j)).toNat = A
  generalize (f (q + j)).toNat = B
  generalize (f (r + j)).toNat = C
  generalize (f (s + j)).toNat = D
  have h1 : (c : Int) = 32 - e := by omega
  have h2 : (a : Int) = 64 - e := by omega
  push_cast
  rw [h1, h2, hb, hd]
  push_cast
  congr 1; ring

theorem csum4 {e p q r s : Nat} (he : e ≤ 32) : csum [(32 - e, p), (64 - e, q), (32 + e, r), (e, s)] ≤ 60000 := by
  simp only [csum]; omega

theorem ctxPos_mono {a m d d' : Nat} (h : d ≤ d') : Ip.ctxPos a m d ≤ Ip.ctxPos a m d' :=
  Nat.div_le_div_right (Nat.mul_le_mul_right _ h)

/-- Where the row above is used, it is used near the block. -/
theorem ctxPos_row : ∀ m < 24, 12 < m → ∀ y < 64, y + 1 ≤ Ip.ctxPos 1 m 64 → Ip.ctxPos 0 m (y + 1) ≤ 300 := by decide +kernel

theorem general_dir {mode : Nat} (h3 : 3 ≤ mode) (bd : Nat) (top left : Bool) (s : Ip.Border) (w h x y : Nat) : Ip.general bd top left s mode w h x y
    = if mode < 12 then Ip.angX s mode x y else if mode = 12 then Ip.ver s x else if mode < 24 then Ip.angXY s mode x y
      else if mode = 24 then Ip.hor s y else Ip.angY s mode x y := by
  unfold Ip.general
  rw [if_neg (by omega), if_neg (by omega), if_neg (by omega)]

theorem check_ok {s : Stmt} {cfg : Cfg} {mode h : Nat} {border : Int → BitVec 8} (hh : h ≤ 64) (hw : cfg.w ≤ 64) (h3 : 3 ≤ mode) (hb : Cont cfg.w h border)
    (jk : Nat → Nat → BitVec 8) (jr : V) (pic : Nat → BitVec 8) (hc : check s cfg mode h = true) (bd : Nat) (top left : Bool) :
    ∃ mem, exec cfg jk jr s mode h border pic = some mem ∧ ∀ x < cfg.w, ∀ y < h,
      (((mem 1).2 (64 * y + x)).toNat : Int) = Ip.general bd top left (fun i => ((border i).toNat : Int)) mode cfg.w h x y := by
  unfold check at hc
  cases hr : run s cfg mode h with
  | none => rw [hr] at hc; exact absurd hc (by simp)
  | some M =>
    cases hg : M.get 1 with
    | none => rw [hr] at hc; simp only [hg] at hc; exact absurd hc (by simp)
    | some a =>
      cases hl : columns cfg.w h mode cfg.w 0 with
      | none => rw [hr] at hc; simp only [hg, hl] at hc; exact absurd hc (by simp)
      | some cols =>
        rw [hr] at hc
        simp only [hg, hl, frc_eq] at hc
        obtain ⟨mem, e1, rm⟩ := run_ok hh hw hb jk jr pic hr
        refine ⟨mem, e1, fun x hx y hy => ?_⟩
        have ra := rm 1 a hg
        have rs := src_ok hh hw hb
        have rv := rev_ok hh hw hb
        obtain ⟨row, c, r1, r2, r3, r4⟩ := rowsOk_ok hc y hy
        rw [Nat.zero_add] at r1 r2 r3 r4
        have hWW : bits cfg.w h = 16 * (2 * cfg.w + 2 * h + 4) := rfl
        have hW : 3 < 2 * cfg.w + 2 * h + 4 := by omega
        rw [hWW] at r3 r4
        have hu := unk_ok hW r3 hx
        have hcell := cells_ok (σ := smp h border) hW r4 hx hu
        have hval := (ra.val _ _ r2).val x (by omega) hcell.1
        rw [hcell.2] at hval
        rw [hval]
        clear r3 r4 hcell hval ra r2 rm e1 hc hg hr
        obtain ⟨col, q1, q2⟩ := columns_ok hl x hx
        rw [Nat.zero_add] at q1 q2
        generalize hWd : 2 * cfg.w + 2 * h + 4 = W at *
        generalize hσ : smp h border = σ at *
        rw [general_dir h3]
        have hrow : mode ≤ 12 → Ut W row x → (cv σ W row x : Int) = if mode < 12 then Ip.angX (fun i => ((border i).toNat : Int)) mode x y
            else Ip.ver (fun i => ((border i).toNat : Int)) x := fun hm hu => by
          unfold rowF at r1
          rw [hWW] at r1
          by_cases h12 : mode = 12
          · rw [if_pos h12] at r1
            rw [if_neg (by omega), slice_cv hW rs hw r1 hx hu]
            show ((border (((321 + x : Nat) : Int) - 320)).toNat : Int) = ((border (1 + x)).toNat : Int)
            congr 3; omega
          · rw [if_neg h12, if_pos (by omega)] at r1
            unfold rowT at r1
            simp only at r1
            rw [if_pos (by omega)] at r1
            have he := ctxOff_le 0 mode (y + 1)
            rw [if_pos (by omega), lin_cv hW rs hw (csum4 he) r1 hx hu, ev4 _ _ _ _ _ _ _ _ _ _ _ rfl rfl rfl rfl he]
            unfold Ip.angX
            simp only
            generalize Ip.ctxPos 0 mode (y + 1) = p
            rw [show ((320 + p + x : Nat) : Int) - 320 = p + x by omega, show ((321 + p + x : Nat) : Int) - 320 = p + x + 1 by omega,
              show ((322 + p + x : Nat) : Int) - 320 = p + x + 2 by omega, show ((323 + p + x : Nat) : Int) - 320 = p + x + 3 by omega]
        by_cases hm : mode ≤ 12
        · rw [if_pos hm] at hu ⊢
          rw [hrow hm hu]
          by_cases h12 : mode < 12
          · rw [if_pos h12, if_pos h12]
          · rw [if_neg h12, if_neg h12, if_pos (by omega)]
        · rw [if_neg hm] at hu ⊢
          have hs := expect_ok (W := W) (y := y) (row := row) (x := 0) q1
          rw [Nat.zero_add] at hs
          rw [hs.ut hW] at hu
          rw [hs.cv hW, if_neg (show ¬ mode < 12 by omega), if_neg (show ¬ mode = 12 by omega)]
          clear hs
          simp only at hu ⊢
          have hcol : ¬ y + 1 ≤ thr mode x → Ut W col y → (cv σ W col y : Int) = if mode < 24 then Ip.angXY (fun i => ((border i).toNat : Int)) mode x y
              else if mode = 24 then Ip.hor (fun i => ((border i).toNat : Int)) y else Ip.angY (fun i => ((border i).toNat : Int)) mode x y := fun ht hu => by
            unfold colF at q2
            rw [hWW] at q2
            by_cases h24 : mode = 24
            · rw [if_pos h24] at q2
              rw [if_neg (by omega), if_pos h24, slice_cv hW rv hh q2 hy hu]
              show ((border (320 - ((321 + y : Nat) : Int))).toNat : Int) = ((border (-1 - y)).toNat : Int)
              congr 3; omega
            · rw [if_neg h24, if_pos (by omega)] at q2
              unfold colT at q2
              simp only at q2
              have he := ctxOff_le 1 mode (x + 1)
              by_cases hlt : mode < 24
              · rw [if_pos hlt] at q2
                unfold thr at ht
                rw [if_neg hm, if_pos hlt] at ht
                rw [if_pos hlt, lin_cv hW rv hh (csum4 he) q2 hy hu, ev4 _ _ _ _ _ _ _ _ _ _ _ rfl rfl rfl rfl he]
                unfold Ip.angXY
                simp only
                generalize Ip.ctxPos 1 mode (x + 1) = p at *
                rw [if_neg (by omega)]
                rw [show 320 - ((322 - p + y : Nat) : Int) = -((y : Int) - p) - 2 by omega, show 320 - ((321 - p + y : Nat) : Int) = -((y : Int) - p) - 1 by omega,
                  show 320 - ((320 - p + y : Nat) : Int) = -((y : Int) - p) by omega, show 320 - ((319 - p + y : Nat) : Int) = -((y : Int) - p) + 1 by omega]
              · rw [if_neg hlt] at q2
                rw [if_neg hlt, if_neg h24, lin_cv hW rv hh (csum4 he) q2 hy hu, ev4 _ _ _ _ _ _ _ _ _ _ _ rfl rfl rfl rfl he]
                unfold Ip.angY
                simp only
                generalize Ip.ctxPos 1 mode (x + 1) = p at *
                rw [show 320 - ((320 + p + y : Nat) : Int) = -((y : Int) + p) by omega, show 320 - ((321 + p + y : Nat) : Int) = -((y : Int) + p) - 1 by omega,
                  show 320 - ((322 + p + y : Nat) : Int) = -((y : Int) + p) - 2 by omega, show 320 - ((323 + p + y : Nat) : Int) = -((y : Int) + p) - 3 by omega]
          by_cases ht : y + 1 ≤ thr mode x
          · rw [if_pos ht] at hu ⊢
            have s1 := same_cl (W := W) row x
            rw [s1.ut hW] at hu
            rw [s1.cv hW]
            have hlt : mode < 24 := by
              by_contra hn
              unfold thr at ht; rw [if_neg hm, if_neg hn] at ht; omega
            unfold thr at ht
            rw [if_neg hm, if_pos hlt] at ht
            unfold rowF at r1
            rw [if_neg (by omega), if_pos hlt, hWW] at r1
            unfold rowT at r1
            simp only at r1
            rw [if_neg (by omega)] at r1
            have he := ctxOff_le 0 mode (y + 1)
            have hp := ctxPos_row mode hlt (by omega) y (by omega) (ht.trans (ctxPos_mono (by omega)))
            rw [if_pos hlt, lin_cv hW rs hw (csum4 he) r1 hx hu, ev4 _ _ _ _ _ _ _ _ _ _ _ rfl rfl rfl rfl he]
            unfold Ip.angXY
            simp only
            generalize Ip.ctxPos 1 mode (x + 1) = p' at *
            generalize Ip.ctxPos 0 mode (y + 1) = p at *
            rw [if_pos (by omega)]
            rw [show ((322 - p + x : Nat) : Int) - 320 = -(p : Int) + x + 2 by omega, show ((321 - p + x : Nat) : Int) - 320 = -(p : Int) + x + 1 by omega,
              show ((320 - p + x : Nat) : Int) - 320 = -(p : Int) + x by omega, show ((319 - p + x : Nat) : Int) - 320 = -(p : Int) + x - 1 by omega]
          · rw [if_neg ht] at hu ⊢
            have s1 := same_cl (W := W) col y
            rw [s1.ut hW] at hu
            rw [s1.cv hW]
            exact hcol ht hu

/-- The routine passes the check for these shapes. -/
def Ck (s : Stmt) (mode : Nat) (sh : List (Nat × Nat)) : Prop := ∀ w h, (w, h) ∈ sh → check s ⟨w, h, 0, false⟩ mode h = true

theorem Ck.nil {s : Stmt} {mode : Nat} : Ck s mode [] := fun _ _ h => absurd h (by simp)
theorem Ck.cons {s : Stmt} {mode w h : Nat} {l : List (Nat × Nat)} (a : check s ⟨w, h, 0, false⟩ mode h = true) (b : Ck s mode l) :
    Ck s mode ((w, h) :: l) := fun w' h' m => by
  rcases List.mem_cons.mp m with e | m
  · obtain ⟨rfl, rfl⟩ := Prod.mk.inj e; exact a
  · exact b w' h' m

end Davs2.Vp.Sym
