import Verif.Lemmas.VecAdd
import Verif.Props.Recon
import Verif.Props.Transform
/-
C104: adding the residual with vector instructions gives the same pictures.
-/
namespace Davs2.Va
open Davs2.Vc

theorem good_4x4 : good 4 4 false add4x4 = true := by decide +kernel
theorem good_W4 : good 4 4 true addW4 = true := by decide +kernel
theorem good_W8 : good 8 4 true addW8 = true := by decide +kernel
theorem good_W16 : good 16 4 true addW16 = true := by decide +kernel
theorem good_W16y : good 16 4 true addW16y = true := by decide +kernel
theorem good_W32 : good 32 2 true addW32 = true := by decide +kernel
theorem good_W32y : good 32 4 true addW32y = true := by decide +kernel
theorem good_W64 : good 64 2 true addW64 = true := by decide +kernel
theorem good_W64y : good 64 2 true addW64y = true := by decide +kernel

/-- A function whose body passed the check, for blocks of `w` columns and `h` rows. -/
def FnGood (f : Fn) (w h : Nat) : Prop := ∃ R adv, good w R adv f.body = true ∧ R * f.count = h ∧ (adv = true ∨ f.count = 1)

theorem sse4_good {w h : Nat} {f : Fn} (e : tableSse4 w h = some f) : FnGood f w h := by
  unfold tableSse4 at e
  split at e
  · rename_i hw; cases e; cases hw; exact ⟨4, false, good_4x4, rfl, Or.inr rfl⟩
  split at e
  · rename_i hw; cases e
    simp only [List.mem_cons, List.not_mem_nil, or_false, Prod.mk.injEq] at hw
    rcases hw with ⟨rfl, rfl⟩ | ⟨rfl, rfl⟩ <;> exact ⟨4, true, good_W4, rfl, Or.inl rfl⟩
  split at e
  · rename_i hw; cases e
    simp only [List.mem_cons, List.not_mem_nil, or_false, Prod.mk.injEq] at hw
    rcases hw with ⟨rfl, rfl⟩ | ⟨rfl, rfl⟩ | ⟨rfl, rfl⟩ <;> exact ⟨4, true, good_W8, rfl, Or.inl rfl⟩
  split at e
  · rename_i hw; cases e
    simp only [List.mem_cons, List.not_mem_nil, or_false, Prod.mk.injEq] at hw
    rcases hw with ⟨rfl, rfl⟩ | ⟨rfl, rfl⟩ | ⟨rfl, rfl⟩ | ⟨rfl, rfl⟩ | ⟨rfl, rfl⟩ <;> exact ⟨4, true, good_W16, rfl, Or.inl rfl⟩
  split at e
  · rename_i hw; cases e
    simp only [List.mem_cons, List.not_mem_nil, or_false, Prod.mk.injEq] at hw
    rcases hw with ⟨rfl, rfl⟩ | ⟨rfl, rfl⟩ | ⟨rfl, rfl⟩ | ⟨rfl, rfl⟩ | ⟨rfl, rfl⟩ <;> exact ⟨2, true, good_W32, rfl, Or.inl rfl⟩
  split at e
  · rename_i hw; cases e
    simp only [List.mem_cons, List.not_mem_nil, or_false, Prod.mk.injEq] at hw
    rcases hw with ⟨rfl, rfl⟩ | ⟨rfl, rfl⟩ | ⟨rfl, rfl⟩ | ⟨rfl, rfl⟩ <;> exact ⟨2, true, good_W64, rfl, Or.inl rfl⟩
  · exact absurd e (by simp)

theorem avx2_good {w h : Nat} {f : Fn} (e : tableAvx2 w h = some f) : FnGood f w h := by
  unfold tableAvx2 at e
  split at e
  · rename_i hw; cases e
    simp only [List.mem_cons, List.not_mem_nil, or_false, Prod.mk.injEq] at hw
    rcases hw with ⟨rfl, rfl⟩ | ⟨rfl, rfl⟩ | ⟨rfl, rfl⟩ | ⟨rfl, rfl⟩ | ⟨rfl, rfl⟩ <;> exact ⟨4, true, good_W16y, rfl, Or.inl rfl⟩
  split at e
  · rename_i hw; cases e
    simp only [List.mem_cons, List.not_mem_nil, or_false, Prod.mk.injEq] at hw
    rcases hw with ⟨rfl, rfl⟩ | ⟨rfl, rfl⟩ | ⟨rfl, rfl⟩ | ⟨rfl, rfl⟩ | ⟨rfl, rfl⟩ <;> exact ⟨4, true, good_W32y, rfl, Or.inl rfl⟩
  split at e
  · rename_i hw; cases e
    simp only [List.mem_cons, List.not_mem_nil, or_false, Prod.mk.injEq] at hw
    rcases hw with ⟨rfl, rfl⟩ | ⟨rfl, rfl⟩ | ⟨rfl, rfl⟩ | ⟨rfl, rfl⟩ <;> exact ⟨2, true, good_W64y, rfl, Or.inl rfl⟩
  · exact sse4_good e

theorem table_good {cpu : Cpu} {w h : Nat} {f : Fn} (e : table cpu w h = some f) : FnGood f w h := by
  cases cpu
  · exact absurd e (by simp [table])
  · exact sse4_good e
  · exact avx2_good e

variable {coef m : Int → Int} {a ds c ss : Int} {w h : Nat}

/-- What the rounds of a loop have done. -/
structure Rounds (coef m : Int → Int) (a ds c ss : Int) (w R k : Nat) (t : St) : Prop where
  r0 : t.r0 = a + ((R * k : Nat) : Int) * ds
  r2 : t.r2 = a + ((R * k : Nat) : Int) * ds
  r3 : t.r3 = 2 * (c + ((R * k : Nat) : Int) * ss)
  on : ∀ y < R * k, ∀ j < w, t.m (ad a ds y j) = satu8 (m (ad a ds y j) + coef (rs c ss y j))
  off : ∀ z, (∀ y < R * k, ∀ j < w, z ≠ ad a ds y j) → t.m z = m z
  byte : ∀ z, 0 ≤ t.m z ∧ t.m z ≤ 255

theorem rounds {R : Nat} {l : List Ins} (hg : good w R true l = true) (hw : (w : Int) ≤ ds) (hm : ∀ z, 0 ≤ m z ∧ m z ≤ 255)
    (h16 : ∀ z, -32768 ≤ coef z ∧ coef z ≤ 32767) (reg : Nat → V) (k : Nat) (hc : ∀ y < R * k, ∀ j < w, coef (rs c ss y j) ≤ 32512) :
    Rounds coef m a ds c ss w R k ((exec coef ds ds (2 * ss) l)^[k] { reg := reg, r0 := a, r2 := a, r3 := 2 * c, m := m }) := by
  induction k with
  | zero => exact ⟨by simp, by simp, by simp, fun y hy => absurd hy (by simp), fun z _ => rfl, hm⟩
  | succ k ih =>
    have i := ih fun y hy j hj => hc y (by rw [Nat.mul_succ]; omega) j hj
    rw [Function.iterate_succ_apply']
    generalize (exec coef ds ds (2 * ss) l)^[k] { reg := reg, r0 := a, r2 := a, r3 := 2 * c, m := m } = t at i
    have sa : ∀ y j, ad (a + ((R * k : Nat) : Int) * ds) ds y j = ad a ds (R * k + y) j := by intro y j; unfold ad; push_cast; ring
    have sr : ∀ y j, rs (c + ((R * k : Nat) : Int) * ss) ss y j = rs c ss (R * k + y) j := by intro y j; unfold rs; push_cast; ring
    obtain ⟨b1, b2, b3, b4⟩ := body_sound hg hw i.byte h16 (a := a + ((R * k : Nat) : Int) * ds) (c := c + ((R * k : Nat) : Int) * ss)
      (fun y hy j hj => by rw [sr]; exact hc _ (by rw [Nat.mul_succ]; omega) j hj) i.r0 i.r2 i.r3 rfl
    obtain ⟨p0, p2, p3⟩ := b4 rfl
    refine ⟨by rw [p0, Nat.mul_succ]; push_cast; ring, by rw [p2, Nat.mul_succ]; push_cast; ring, by rw [p3, Nat.mul_succ]; push_cast; ring, ?_, ?_, b3⟩
    · intro y hy j hj
      by_cases hk : y < R * k
      · rw [b2 _ ?_]
        · exact i.on y hk j hj
        · intro y' hy' j' hj' e
          rw [sa] at e
          have := (ad_inj hw hj hj' e).1
          omega
      · have := b1 (y - R * k) (by rw [Nat.mul_succ] at hy; omega) j hj
        rw [sa, sr, show R * k + (y - R * k) = y by omega] at this
        rw [this, i.off]
        intro y' hy' j' hj' e
        have := (ad_inj hw hj hj' e).1
        omega
    · intro z hz
      rw [b2, i.off]
      · exact fun y hy j hj => hz y (by rw [Nat.mul_succ]; omega) j hj
      · intro y hy j hj
        rw [sa]
        exact hz _ (by rw [Nat.mul_succ]; omega) j hj

/-- What a function of the table does. -/
theorem run_eq {f : Fn} (hf : FnGood f w h) (hw : (w : Int) ≤ ds) (hm : ∀ z, 0 ≤ m z ∧ m z ≤ 255)
    (h16 : ∀ z, -32768 ≤ coef z ∧ coef z ≤ 32767) (reg : Nat → V) (hc : ∀ y < h, ∀ j < w, coef (rs c ss y j) ≤ 32512) :
    (∀ y < h, ∀ j < w, f.run reg coef m a ds c ss (ad a ds y j) = satu8 (m (ad a ds y j) + coef (rs c ss y j))) ∧
      ∀ z, (∀ y < h, ∀ j < w, z ≠ ad a ds y j) → f.run reg coef m a ds c ss z = m z := by
  obtain ⟨R, adv, hg, hR, ha⟩ := hf
  subst hR
  cases adv with
  | true =>
    have := rounds hg hw hm h16 reg f.count hc (a := a)
    exact ⟨this.on, this.off⟩
  | false =>
    have h1 : f.count = 1 := ha.resolve_left (by decide)
    rw [h1, Nat.mul_one] at hc ⊢
    unfold Fn.run
    rw [h1, Function.iterate_one]
    obtain ⟨b1, b2, _, _⟩ := body_sound hg hw hm h16 hc (a := a) (s := { reg := reg, r0 := a, r2 := a, r3 := 2 * c, m := m }) rfl rfl rfl rfl
    exact ⟨b1, b2⟩

/-- **C104.**  Whatever the processor, the block size, the picture and what was in the vector registers: if no residual of the block is above
32512, adding the residual gives the bytes that the C function gives, everywhere in the picture. -/
theorem C104_same_as_c (cpu : Cpu) (reg : Nat → V) (coef m : Int → Int) (w h : Nat) (a ds c ss : Int) (hw : (w : Int) ≤ ds)
    (hm : ∀ z, 0 ≤ m z ∧ m z ≤ 255) (h16 : ∀ z, -32768 ≤ coef z ∧ coef z ≤ 32767)
    (hc : ∀ y < h, ∀ x < w, coef (c + (y : Nat) * ss + (x : Nat)) ≤ 32512) :
    addPs cpu reg coef w h m a ds c ss = Rec.addPs coef w h m a ds c ss := by
  unfold addPs
  split
  · rename_i f e
    obtain ⟨b1, b2⟩ := run_eq (table_good e) hw hm h16 reg hc (a := a)
    obtain ⟨c1, c2⟩ := Rec.C39_recon coef w h m a ds c ss hw
    funext z
    by_cases hz : ∃ y j : Nat, y < h ∧ j < w ∧ z = ad a ds y j
    · obtain ⟨y, j, hy, hj, rfl⟩ := hz
      rw [b1 y hy j hj]
      exact (c1 j y hj hy).symm
    · rw [b2 z fun y hy j hj e => hz ⟨y, j, hy, hj, e⟩, c2 z fun x y hx hy e => hz ⟨y, x, hy, hx, e.symm⟩]
  · rfl

/-- **C104 (samples).**  With the residual that the inverse transform defines, each sample is the prediction plus the residual, saturated;
the rest of the picture stays as it is.  `res` is the residual of C38, C95: `invDct` or `invWavelet`. -/
theorem C104_samples (cpu : Cpu) (reg : Nat → V) (coef m : Int → Int) (w h : Nat) (a ds c ss : Int) (hw : (w : Int) ≤ ds)
    (hm : ∀ z, 0 ≤ m z ∧ m z ≤ 255) (h16 : ∀ z, -32768 ≤ coef z ∧ coef z ≤ 32767) (k : Nat → Int) (tw th : Nat) (res : Nat → Nat → Int)
    (hres : res = Spec.invDct tw th 0 k ∨ res = Spec.invWavelet tw th k)
    (hc : ∀ x y : Nat, x < w → y < h → coef (c + y * ss + x) = res y x) :
    (∀ x y : Nat, x < w → y < h → addPs cpu reg coef w h m a ds c ss (a + y * ds + x) = Rec.Spec.sat8 (m (a + y * ds + x) + res y x)) ∧
      ∀ z, (∀ x y : Nat, x < w → y < h → a + (y : Int) * ds + x ≠ z) → addPs cpu reg coef w h m a ds c ss z = m z := by
  have hr : ∀ y x, res y x ≤ 255 := by
    intro y x
    rcases hres with e | e <;> rw [e]
    · exact (Tr.C38_range tw th k y x).2
    · exact (Tr.C38_range64 tw th k y x).2
  rw [C104_same_as_c cpu reg coef m w h a ds c ss hw hm h16 fun y hy x hx => by rw [hc x y hx hy]; have := hr y x; omega]
  obtain ⟨c1, c2⟩ := Rec.C39_recon coef w h m a ds c ss hw
  exact ⟨fun x y hx hy => by rw [c1 x y hx hy, hc x y hx hy], c2⟩

/-- All sizes of transform blocks have a vector function. -/
theorem C104_sizes : ∀ p ∈ [(4, 4), (8, 8), (16, 16), (32, 32), (64, 64), (4, 16), (16, 4), (8, 32), (32, 8), (16, 64), (64, 16)],
    (table .sse4 p.1 p.2).isSome = true ∧ (table .avx2 p.1 p.2).isSome = true := by decide

/-- The bound is needed: a sample 1 and a residual 32767 give 0 in the vector function and 255 in the C function. -/
theorem C104_bound_needed : addPs .sse4 (fun _ _ => 0) (fun _ => 32767) 4 4 (fun _ => 1) 0 8 0 8 0 = 0 ∧
    Rec.addPs (fun _ => 32767) 4 4 (fun _ => 1) 0 8 0 8 0 = 255 := by decide +kernel

/-- The hypotheses are met: a sample 200 and residuals 100, −250 in a block of 16×4 in AVX2. -/
example : let m : Int → Int := fun _ => 200
    let coef : Int → Int := fun z => if z % 2 = 0 then 100 else -250
    addPs .avx2 (fun _ _ => 7) coef 16 4 m 0 32 0 16 = Rec.addPs coef 16 4 m 0 32 0 16 :=
  C104_same_as_c _ _ _ _ _ _ _ _ _ _ (by decide) (by intro z; constructor <;> decide)
    (by intro z; show -32768 ≤ (if z % 2 = 0 then (100 : Int) else -250) ∧ (if z % 2 = 0 then (100 : Int) else -250) ≤ 32767; split <;> decide) (by intro y _ x _; show (if _ then (100 : Int) else -250) ≤ 32512; split <;> decide)

end Davs2.Va
