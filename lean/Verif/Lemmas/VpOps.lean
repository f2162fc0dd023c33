import Verif.Lemmas.VpRel
/-
The register operations of the evaluator of Lemmas/VpSym follow the instructions.
-/
namespace Davs2.Vp.Sym

open Vc (V)

section
variable {σ : Nat → Nat} {W : Nat}

/-! ### Moves -/

theorem getD_lt {l : List Nat} {j : Nat} (h : j < l.length) : l.getD j 0 = l[j] := by simp [List.getD, h]

theorem at_u {n j : Nat} (h : j < 16) : (Bd.u n).at j = n := by
  show (List.replicate 16 n).getD j 0 = n
  rw [getD_lt (by simpa using h), List.getElem_replicate]

theorem dig_cell (hW : 3 < W) (N k : Nat) : dig N k = dig N (W * (k / W) + k % W) := by rw [Nat.div_add_mod]

/-- Every cell of a register is a cell of one of two others, or 0. -/
theorem RB.move (hW : 3 < W) {pa pb : Bool} {la lb a b len N : Nat} {va vb v : V} (ha : RB σ W pa la a va) (hb : RB σ W pb lb b vb)
    (h : ∀ j, (∃ i, Same W N j a i ∧ (j < len → i < la ∧ v j = va i)) ∨ (∃ i, Same W N j b i ∧ (j < len → i < lb ∧ v j = vb i)) ∨
      (Same W N j 0 0 ∧ (j < len → v j = 0))) : RB σ W (pa && pb) len N v where
  val j hj hu := by
    rcases h j with ⟨i, hs, hv⟩ | ⟨i, hs, hv⟩ | ⟨hs, hv⟩
    · rw [hs.cv hW, (hv hj).2]; exact ha.val i (hv hj).1 ((hs.ut hW).mp hu)
    · rw [hs.cv hW, (hv hj).2]; exact hb.val i (hv hj).1 ((hs.ut hW).mp hu)
    · rw [hs.cv hW, hv hj, cv_zero]; rfl
  one hp k := by
    simp only [Bool.and_eq_true] at hp
    rw [dig_cell hW]
    have hk : k % W < W := Nat.mod_lt _ (by omega)
    rcases h (k / W) with ⟨i, hs, -⟩ | ⟨i, hs, -⟩ | ⟨hs, -⟩ <;> rw [hs _ hk]
    · exact ha.one hp.1 _
    · exact hb.one hp.2 _
    · rw [dig_zero]; omega
  flg hp j := by
    simp only [Bool.and_eq_true] at hp
    rcases h j with ⟨i, hs, -⟩ | ⟨i, hs, -⟩ | ⟨hs, -⟩ <;> rw [hs 1 (by omega)]
    · exact ha.flg hp.1 _
    · exact hb.flg hp.2 _
    · rw [dig_zero]

theorem RB.none (v : V) : RB σ W true 0 0 v := ⟨fun j hj => absurd hj (by omega), fun _ k => by rw [dig_zero]; omega, fun _ j => by rw [dig_zero]⟩

theorem RB.zero (len : Nat) : RB σ W true len 0 Vc.zero :=
  ⟨fun j _ _ => by rw [cv_zero]; rfl, fun _ k => by rw [dig_zero]; omega, fun _ j => by rw [dig_zero]⟩

/-- One source only. -/
theorem RB.move1 (hW : 3 < W) {pa : Bool} {la a len N : Nat} {va v : V} (ha : RB σ W pa la a va)
    (h : ∀ j, (∃ i, Same W N j a i ∧ (j < len → i < la ∧ v j = va i)) ∨ (Same W N j 0 0 ∧ (j < len → v j = 0))) : RB σ W pa len N v := by
  have := RB.move (len := len) (N := N) (v := v) hW ha (RB.none (σ := σ) (W := W) v) fun j => (h j).elim Or.inl fun h => Or.inr (Or.inr h)
  rwa [Bool.and_true] at this

/-- What `mov2` and the like must do. -/
def SelOk (va vb v : V) (la lb j : Nat) : Sel → Prop
  | .a i => i < la ∧ v j = va i
  | .b i => i < lb ∧ v j = vb i
  | .z => v j = 0

theorem RB.gath (hW : 3 < W) {pa pb : Bool} {la lb a b n : Nat} {va vb v : V} {sel : Nat → Sel} (ha : RB σ W pa la a va) (hb : RB σ W pb lb b vb)
    (h : ∀ j < n, SelOk va vb v la lb j (sel j)) : RB σ W (pa && pb) n (gath (16 * W) sel n a b) v := by
  refine RB.move hW ha hb fun j => ?_
  by_cases hj : j < n
  · have hs : Same W (Sym.gath (16 * W) sel n a b) j (pick (16 * W) a b (sel j)) 0 := by
      have := same_build (W := W) (f := fun j => pick (16 * W) a b (sel j)) hj 0
      rwa [Nat.zero_add] at this
    have hh := h j hj
    cases hc : sel j with
    | a i => rw [hc] at hs hh; exact Or.inl ⟨i, hs.trans (same_cl a i), fun _ => hh⟩
    | b i => rw [hc] at hs hh; exact Or.inr (Or.inl ⟨i, hs.trans (same_cl b i), fun _ => hh⟩)
    | z => rw [hc] at hs hh; exact Or.inr (Or.inr ⟨hs, fun _ => hh⟩)
  · exact Or.inr (Or.inr ⟨same_build0 (by omega) 0, fun h => absurd h hj⟩)

theorem RB.gath1 (hW : 3 < W) {pa : Bool} {la a n : Nat} {va v : V} {sel : Nat → Sel} (ha : RB σ W pa la a va)
    (h : ∀ j < n, SelOk va va v la 0 j (sel j)) : RB σ W pa n (Sym.gath (16 * W) sel n a 0) v := by
  have := RB.gath hW ha (RB.none (σ := σ) (W := W) va) h
  rwa [Bool.and_true] at this

/-- `len` cells from `n` on. -/
theorem RB.mdsr (hW : 3 < W) {pa : Bool} {la a n m len : Nat} {va v : V} (ha : RB σ W pa la a va)
    (h : ∀ j < len, if j < m then n + j < la ∧ v j = va (n + j) else v j = 0) : RB σ W pa len (md (16 * W) (sr (16 * W) a n) m) v := by
  refine RB.move1 hW ha fun j => ?_
  by_cases hj : j < m
  · refine Or.inl ⟨n + j, (same_md hj).trans (same_sr a n j), fun h' => ?_⟩
    have := h j h'; rwa [if_pos hj] at this
  · refine Or.inr ⟨same_md0 (by omega), fun h' => ?_⟩
    have := h j h'; rwa [if_neg hj] at this

/-! ### Words from bytes -/

theorem RW.widen (hW : 3 < W) {la a len N : Nat} {va v : V} (ha : RB σ W true la a va) (hl : len ≤ 16)
    (h : ∀ j, (∃ i, Same W N j a i ∧ (j < len → i < la ∧ un v j = (va i).toNat)) ∨ (Same W N j 0 0 ∧ len ≤ j)) :
    RW σ W false len N 1 (.u 255) .no v where
  le k := by
    rw [dig_cell hW]
    have hk : k % W < W := Nat.mod_lt _ (by omega)
    rcases h (k / W) with ⟨i, hs, -⟩ | ⟨hs, -⟩ <;> rw [hs _ hk]
    · exact ha.one rfl _
    · rw [dig_zero]; omega
  flg j := by
    rcases h j with ⟨i, hs, -⟩ | ⟨hs, -⟩ <;> rw [hs 1 (by omega)]
    · exact ha.flg rfl _
    · rw [dig_zero]
  val j hj hu := by
    rcases h j with ⟨i, hs, hv⟩ | ⟨-, hv⟩
    · rw [(hv hj).2, ha.val i (hv hj).1 ((hs.ut hW).mp hu), hs.num hW, cv, if_pos (ha.flg rfl i)]; rfl
    · omega
  bnd j hj hu := by
    rcases h j with ⟨i, hs, hv⟩ | ⟨-, hv⟩
    · rw [(hv hj).2]
      have := (va i).isLt
      have hb : (Bd.u 255).at j = 255 := at_u (by omega)
      omega
    · omega
  kno := trivial
  bdl := by simpa [Bd.toL] using hl

/-! ### Instructions as numbers -/

theorem un_ofW (f : Nat → Int) (i : Nat) : ((un (Vc.ofW f) i : Nat) : Int) = f i % 65536 := by rw [← u16_un, Vc.u16_ofW]

theorem w16_emod (v : V) (i : Nat) : Vc.w16 v i % 65536 = un v i := by
  have := un_lt v i
  unfold Vc.w16 Vc.wrap16; rw [u16_un]; omega

theorem un_add16 (a b : V) (i : Nat) : un (Vc.add16 a b) i = (un a i + un b i) % 65536 := by
  have := un_ofW (fun i => Vc.w16 a i + Vc.w16 b i) i
  have h1 := w16_emod a i; have h2 := w16_emod b i
  unfold Vc.add16; omega

theorem un_adds16 (a b : V) (i : Nat) (h : un a i + un b i ≤ 32767) : un (Vc.adds16 a b) i = un a i + un b i := by
  have := un_ofW (fun i => Vc.sat16 (Vc.w16 a i + Vc.w16 b i)) i
  have h1 : Vc.w16 a i = un a i := by rw [Vc.w16, u16_un, Vc.wrap16]; omega
  have h2 : Vc.w16 b i = un b i := by rw [Vc.w16, u16_un, Vc.wrap16]; omega
  rw [h1, h2] at this
  unfold Vc.adds16
  unfold Vc.sat16 at *; omega

theorem un_mullo16 (a b : V) (i : Nat) : un (Vc.mullo16 a b) i = (un a i * un b i) % 65536 := by
  have h := un_ofW (fun i => Vc.w16 a i * Vc.w16 b i) i
  have h1 := w16_emod a i; have h2 := w16_emod b i
  rw [Int.mul_emod, h1, h2] at h
  have : ((un a i * un b i % 65536 : Nat) : Int) = (un a i : Int) * un b i % 65536 := by simp
  unfold Vc.mullo16; omega

theorem un_srli16 (a : V) (n i : Nat) : un (Vc.srli16 a n) i = un a i / 2 ^ n := by
  have h := un_ofW (fun i => Vc.u16 a i / 2 ^ n) i
  rw [u16_un] at h
  have h1 : ((un a i / 2 ^ n : Nat) : Int) = (un a i : Int) / 2 ^ n := by simp
  rw [← h1] at h
  have h2 : un a i / 2 ^ n ≤ un a i := Nat.div_le_self _ _
  have := un_lt a i
  unfold Vc.srli16
  generalize un a i / 2 ^ n = z at *
  clear h1
  omega

theorem un_cvt (a : V) (i : Nat) : un (Vc.cvtepu8_16 a) i = (a i).toNat := by
  have h := un_ofW (fun i => Vc.u8 a i) i
  have := (a i).isLt
  unfold Vc.cvtepu8_16; unfold Vc.u8 at *; omega

theorem un_set1 (x i : Nat) (h : x ≤ 65535) : un (Vc.set1_16 x) i = x := by
  have := un_ofW (fun _ => (x : Int)) i
  unfold Vc.set1_16; omega

theorem toNat_ofB (f : Nat → Int) (i : Nat) : (((Vc.ofB f i).toNat : Nat) : Int) = f i % 256 := Vc.u8_ofB f i

theorem toNat_set1 (x i : Nat) (h : x ≤ 255) : (Vc.set1_8 x i).toNat = x := by
  have := toNat_ofB (fun _ => (x : Int)) i
  unfold Vc.set1_8; omega

theorem satu_un (v : V) (i : Nat) (h : un v i ≤ 255) : Vc.satu8 (Vc.w16 v i) = un v i := by
  rw [Vc.w16, u16_un, Vc.wrap16, Vc.satu8]; omega

theorem toNat_packus (a b : V) (i : Nat) : (((Vc.packus16 a b i).toNat : Nat) : Int) = if i < 8 then Vc.satu8 (Vc.w16 a i) else Vc.satu8 (Vc.w16 b (i - 8)) :=
  Vc.u8_packus16 a b i

theorem toNat_packusy (a b : V) (i : Nat) : (((Vc.packus16y a b i).toNat : Nat) : Int) =
    if i % 16 < 8 then Vc.satu8 (Vc.w16 a (8 * (i / 16) + i % 16)) else Vc.satu8 (Vc.w16 b (8 * (i / 16) + (i % 16 - 8))) := by
  unfold Vc.packus16y
  rw [toNat_ofB]
  split <;> unfold Vc.satu8 <;> omega

/-! ### Bounds -/

theorem Bd.le_at {b : Bd} {k j : Nat} (h : b.le k = true) (hj : j < b.toL.length) : b.at j ≤ k := by
  cases b with
  | u n =>
    have : j < 16 := by simpa [Bd.toL] using hj
    rw [at_u this]; simpa [Bd.le] using h
  | each l =>
    simp only [Bd.le, List.all_eq_true, Nat.ble_eq] at h
    simp only [Bd.toL] at hj
    simp only [Bd.at, Bd.toL, getD_lt hj]
    exact h _ (List.getElem_mem hj)

theorem zipAdd_len (l m : List Nat) : (zipAdd l m).length = min l.length m.length := by
  induction l generalizing m with
  | nil => simp [zipAdd]
  | cons a l ih => cases m with
    | nil => simp [zipAdd]
    | cons b m => simp [zipAdd, ih]

theorem zipAdd_getD {l m : List Nat} {j : Nat} (h : j < l.length) (h' : j < m.length) : (zipAdd l m).getD j 0 = l.getD j 0 + m.getD j 0 := by
  induction l generalizing m j with
  | nil => simp at h
  | cons a l ih => cases m with
    | nil => simp at h'
    | cons b m => cases j with
      | zero => simp [zipAdd]
      | succ j => simpa [zipAdd] using ih (by simpa using h) (by simpa using h')

theorem zipMul_len (l m : List Nat) : (zipMul l m).length = min l.length m.length := by
  induction l generalizing m with
  | nil => simp [zipMul]
  | cons a l ih => cases m with
    | nil => simp [zipMul]
    | cons b m => simp [zipMul, ih]

theorem zipMul_getD {l m : List Nat} {j : Nat} (h : j < l.length) (h' : j < m.length) : (zipMul l m).getD j 0 = l.getD j 0 * m.getD j 0 := by
  induction l generalizing m j with
  | nil => simp at h
  | cons a l ih => cases m with
    | nil => simp at h'
    | cons b m => cases j with
      | zero => simp [zipMul]
      | succ j => simpa [zipMul] using ih (by simpa using h) (by simpa using h')

theorem Bd.add_len (a b : Bd) : (a.add b).toL.length = min a.toL.length b.toL.length := by
  cases a <;> cases b <;> simp [Bd.add, Bd.toL, zipAdd_len]

theorem Bd.add_at {a b : Bd} {j : Nat} (h : j < a.toL.length) (h' : j < b.toL.length) : (a.add b).at j = a.at j + b.at j := by
  cases a with
  | u n => cases b with
    | u m =>
      have : j < 16 := by simpa [Bd.toL] using h
      rw [Bd.add, at_u this, at_u this, at_u this]; rfl
    | each l => exact zipAdd_getD h h'
  | each l => cases b <;> exact zipAdd_getD h h'

theorem Bd.mul_len (c : Nat) (a : Bd) : (a.mul c).toL.length = a.toL.length := by cases a <;> simp [Bd.mul, Bd.toL]

theorem Bd.mul_at {a : Bd} {c j : Nat} (h : j < a.toL.length) : (a.mul c).at j = a.at j * c := by
  cases a with
  | u n =>
    have : j < 16 := by simpa [Bd.toL] using h
    rw [Bd.mul, at_u this, at_u this]; rfl
  | each l =>
    have h : j < l.length := h
    simp [Bd.mul, Bd.at, Bd.toL, h]

theorem Bd.shr_len (c : Nat) (a : Bd) : (a.shr c).toL.length = a.toL.length := by cases a <;> simp [Bd.shr, Bd.toL]

theorem Bd.shr_at {a : Bd} {c j : Nat} (h : j < a.toL.length) : (a.shr c).at j = a.at j / 2 ^ c := by
  cases a with
  | u n =>
    have : j < 16 := by simpa [Bd.toL] using h
    rw [Bd.shr, at_u this, at_u this]; rfl
  | each l =>
    have h : j < l.length := h
    simp [Bd.shr, Bd.at, Bd.toL, h]; rfl

theorem Bd.mulL_at {a : Bd} {l : List Nat} {j : Nat} (h : j < a.toL.length) (h' : j < l.length) : (a.mulL l).at j = a.at j * l.getD j 0 := zipMul_getD h h'

theorem RK.mono {l l' : Nat} {v : V} {k : Kn} (h : RK l v k) (hl : l' ≤ l) : RK l' v k := by
  cases k with
  | no => trivial
  | u c => exact fun j hj => h j (by omega)
  | each m => exact ⟨by have := h.1; omega, fun j hj => h.2 j (by omega)⟩

theorem lmin_eq (a b : Nat) : lmin a b = min a b := by
  unfold lmin; rw [brec]; simp only [Nat.ble_eq]; split <;> omega

theorem lmax_eq (a b : Nat) : lmax a b = max a b := by
  unfold lmax; rw [brec]; simp only [Nat.ble_eq]; split <;> omega

theorem mkB_eq {p : Bool} {len N : Nat} {q : SR} (h : mkB p len N = some q) : q = .b p len N := by
  simpa [mkB, frc_eq, frcB_eq, eq_comm] using h

theorem mkW_eq {sh : Bool} {len N dm : Nat} {bd : Bd} {kn : Kn} {q : SR} (h : mkW sh len N dm bd kn = some q) : q = .w sh len N dm bd kn := by
  simpa [mkW, frc_eq, Bd.frc_eq, eq_comm] using h

theorem getD_le_foldr (l : List Nat) (j : Nat) : l.getD j 0 ≤ l.foldr max 0 := by
  induction l generalizing j with
  | nil => simp
  | cons a l ih => cases j with
    | zero => simp only [List.getD_cons_zero, List.foldr_cons]; omega
    | succ j => have := ih j; simp only [List.getD_cons_succ, List.foldr_cons]; omega

/-! ### The operations -/

theorem pow2_pos (n : Nat) : 0 < 2 ^ n := Nat.two_pow_pos n

theorem addW_ok {hi la a da lb b db : Nat} {sa sb : Bool} {ba bb : Bd} {ka kb : Kn} {va vb v : V} {q : SR}
    (h : addW hi sa la a da ba sb lb b db bb = some q) (hi' : hi ≤ 65535)
    (ha : RW σ W sa la a da ba ka va) (hb : RW σ W sb lb b db bb kb vb)
    (hv : ∀ i, un va i + un vb i ≤ hi → un v i = un va i + un vb i) : RR σ W q v := by
  simp only [addW, brec0, brec1, Nat.ble_eq, Bd.frc_eq] at h
  obtain ⟨rfl, rfl, h1, h2, h3⟩ := h
  rw [mkW_eq h3]
  simp only [nadd] at h1 h2 ⊢
  have hc : ∀ k, dig a k + dig b k < 65536 := fun k => by have := ha.le k; have := hb.le k; omega
  have hl := lmin_eq la lb
  have hbd : ∀ j < lmin la lb, (ba.add bb).at j = ba.at j + bb.at j := fun j hj => Bd.add_at (by have := ha.bdl; omega) (by have := hb.bdl; omega)
  have hbl : lmin la lb ≤ (ba.add bb).toL.length := by rw [Bd.add_len]; have := ha.bdl; have := hb.bdl; omega
  have hut : ∀ j, Ut W (a + b) j → Ut W a j ∧ Ut W b j := fun j hu => by unfold Ut at *; rw [dig_add hc] at hu; omega
  have hun : ∀ j < lmin la lb, Ut W (a + b) j → un v j = un va j + un vb j := fun j hj hu => by
    apply hv
    have := ha.bnd j (by omega) (hut j hu).1
    have := hb.bnd j (by omega) (hut j hu).2
    have := Bd.le_at h2 (show j < (ba.add bb).toL.length by omega)
    have := hbd j hj
    omega
  exact {
    le := fun k => by rw [dig_add hc]; have := ha.le k; have := hb.le k; omega
    flg := fun j => by rw [dig_add hc, ha.flg, hb.flg]
    val := fun j hj hu => by
      rw [hun j hj hu, num_add hc, ha.val j (by omega) (hut j hu).1, hb.val j (by omega) (hut j hu).2]; rfl
    bnd := fun j hj hu => by
      rw [hun j hj hu, hbd j hj]
      have := ha.bnd j (by omega) (hut j hu).1
      have := hb.bnd j (by omega) (hut j hu).2
      omega
    kno := trivial
    bdl := hbl }

/-- `v`: the product of `va` and the known words of `vb`. -/
theorem mulK_ok (hW : 3 < W) {la a da len : Nat} {ba : Bd} {ka kb : Kn} {va vb v : V} {q : SR}
    (h : mulK (16 * W) len a da ba kb = some q) (ha : RW σ W false la a da ba ka va) (hl : len ≤ la) (hb : RK len vb kb)
    (hv : ∀ i, un v i = un va i * un vb i % 65536) : RR σ W q v := by
  cases kb with
  | no => simp [mulK] at h
  | u c =>
    simp only [mulK, brec1, Nat.ble_eq, nmul] at h
    obtain ⟨h1, h2, h3⟩ := h
    rw [mkW_eq h3]
    have hc : ∀ k, dig a k * c < 65536 := fun k => by have := Nat.mul_le_mul_right c (ha.le k); omega
    have hbl : len ≤ (ba.mul c).toL.length := by rw [Bd.mul_len]; have := ha.bdl; omega
    have hun : ∀ j < len, Ut W (a * c) j → un v j = un va j * c ∧ un va j * c ≤ (ba.mul c).at j ∧ num σ W (a * c) j = un va j * c := fun j hj hu => by
      have hat := Bd.le_at h2 (show j < (ba.mul c).toL.length by omega)
      rw [hv, hb j hj]
      rw [Bd.mul_at (by have := ha.bdl; omega)] at hat ⊢
      by_cases h0 : c = 0
      · subst h0; rw [num_mul hc]; simp
      · have hu' : Ut W a j := by
          unfold Ut at *; rw [dig_mul hc] at hu
          exact (Nat.mul_eq_zero.mp hu).resolve_right h0
        have hle := Nat.mul_le_mul_right c (ha.bnd j (by omega) hu')
        refine ⟨Nat.mod_eq_of_lt (by omega), hle, ?_⟩
        rw [num_mul hc, ha.val j (by omega) hu']; rfl
    exact {
      le := fun k => by rw [dig_mul hc]; exact Nat.mul_le_mul_right c (ha.le k)
      flg := fun j => by rw [dig_mul hc, ha.flg, Nat.zero_mul]
      val := fun j hj hu => by have := hun j hj hu; simp only [Bool.false_eq_true, if_false]; omega
      bnd := fun j hj hu => by have := hun j hj hu; omega
      kno := trivial
      bdl := hbl }
  | each l =>
    simp only [mulK, brec1, Nat.ble_eq] at h
    obtain ⟨h1, h2, h3⟩ := h
    rw [mkW_eq h3]
    have hc : ∀ j k, dig a k * l.getD j 0 ≤ da * l.foldr max 0 := fun j k => Nat.mul_le_mul (ha.le k) (getD_le_foldr l j)
    have hcl : ∀ i j k, dig (cl (16 * W) a i) k * l.getD j 0 ≤ da * l.foldr max 0 := fun i j k => by
      rw [dig_cl]; split
      · exact hc _ _
      · simp
    have hcl' : ∀ i j k, dig (cl (16 * W) a i) k * l.getD j 0 < 65536 := fun i j k => by have := hcl i j k; omega
    have hbl : len ≤ (ba.mulL l).toL.length := by
      show len ≤ (zipMul ba.toL l).length
      rw [zipMul_len]; have := ha.bdl; have := hb.1; omega
    have hs : ∀ j < len, Same W (build (16 * W) (fun j => Nat.mul (cl (16 * W) a j) (l.getD j 0)) len 0) j (cl (16 * W) a j * l.getD j 0) 0 := fun j hj => by
      have := same_build (W := W) (f := fun j => Nat.mul (cl (16 * W) a j) (l.getD j 0)) hj 0
      rwa [Nat.zero_add] at this
    have hun : ∀ j < len, Ut W (build (16 * W) (fun j => Nat.mul (cl (16 * W) a j) (l.getD j 0)) len 0) j →
        un v j = un va j * l.getD j 0 ∧ un va j * l.getD j 0 ≤ (ba.mulL l).at j ∧
          num σ W (build (16 * W) (fun j => Nat.mul (cl (16 * W) a j) (l.getD j 0)) len 0) j = un va j * l.getD j 0 := fun j hj hu => by
      have hat := Bd.le_at h2 (show j < (ba.mulL l).toL.length by omega)
      rw [hv, hb.2 j hj, (hs j hj).num hW, num_mul (hcl' j j), (same_cl a j).num hW]
      rw [Bd.mulL_at (by have := ha.bdl; omega) (by have := hb.1; omega)] at hat ⊢
      by_cases h0 : l.getD j 0 = 0
      · rw [h0]; simp
      · have hu' : Ut W a j := by
          rw [(hs j hj).ut hW] at hu
          unfold Ut at hu; rw [dig_mul (hcl' j j)] at hu
          rw [← (same_cl a j).ut hW]
          exact (Nat.mul_eq_zero.mp hu).resolve_right h0
        have hle := Nat.mul_le_mul_right (l.getD j 0) (ha.bnd j (by omega) hu')
        refine ⟨Nat.mod_eq_of_lt (by omega), hle, ?_⟩
        rw [ha.val j (by omega) hu']; rfl
    exact {
      le := fun k => by
        refine dig_build_le (by omega) (fun i k => ?_) k
        show dig (cl (16 * W) a i * l.getD i 0) k ≤ _
        rw [dig_mul (hcl' i i)]; exact hcl i i k
      flg := fun j => by
        rw [dig_build' _ _ _ _ _ (by omega)]
        split
        · show dig (cl (16 * W) a (0 + j) * l.getD (0 + j) 0) 1 = 0
          rw [dig_mul (hcl' _ _), dig_cl, if_pos (by omega), ha.flg, Nat.zero_mul]
        · rfl
      val := fun j hj hu => by have := hun j hj hu; simp only [Bool.false_eq_true, if_false]; omega
      bnd := fun j hj hu => by have := hun j hj hu; omega
      kno := trivial
      bdl := hbl }

theorem oMul_ok (hW : 3 < W) {la a da lb b db : Nat} {sa sb : Bool} {ba bb : Bd} {ka kb : Kn} {va vb : V} {q : SR}
    (h : oMul (16 * W) sa la a da ba ka sb lb b db bb kb = some q)
    (ha : RW σ W sa la a da ba ka va) (hb : RW σ W sb lb b db bb kb vb) : RR σ W q (Vc.mullo16 va vb) := by
  simp only [oMul, brec0] at h
  obtain ⟨rfl, rfl, h⟩ := h
  have hl := lmin_eq la lb
  have hv := un_mullo16 va vb
  cases kb with
  | no => exact mulK_ok hW h hb (by omega) (ha.kno.mono (by omega)) fun i => by rw [hv, Nat.mul_comm]
  | u c => exact mulK_ok hW h ha (by omega) (hb.kno.mono (by omega)) hv
  | each l => exact mulK_ok hW h ha (by omega) (hb.kno.mono (by omega)) hv

theorem dig_ones (hW : 3 < W) (k : Nat) : dig (build (16 * W) (fun _ => 65536) 16 0) k = if k < W * 16 ∧ k % W = 1 then 1 else 0 := by
  rw [dig_build _ _ _ _ (by omega)]
  have h1 : ∀ k, dig 65536 k = if k = 1 then 1 else 0 := fun k => by
    cases k with
    | zero => rfl
    | succ k => rw [dig_succ, show 65536 / 65536 = 1 from rfl, dig_small (by decide)]; simp
  rw [h1]
  by_cases h : k < W * 16 <;> simp [h]

/-- The words as bytes. -/
theorem flag_ok (hW : 3 < W) {la a da : Nat} {sa : Bool} {ba : Bd} {ka : Kn} {va v : V} (ha : RW σ W sa la a da ba ka va) (hl : la ≤ 16)
    (hv : ∀ j < la, un va j ≤ 255 → (v j).toNat = un va j) (hb : ba.le 255 = true) : RB σ W false la (flag (16 * W) a sa) v := by
  refine ⟨fun j hj hu => ?_, fun h => by simp at h, fun h => by simp at h⟩
  have hle : ∀ j < la, Ut W a j → un va j ≤ 255 := fun j hj hu =>
    (ha.bnd j hj hu).trans (Bd.le_at hb (by have := ha.bdl; omega))
  cases sa with
  | false =>
    rw [show flag (16 * W) a false = a from rfl] at *
    rw [hv j hj (hle j hj hu), ha.val j hj hu, cv, if_pos (ha.flg j)]; rfl
  | true =>
    rw [show flag (16 * W) a true = a + build (16 * W) (fun _ => 65536) 16 0 from rfl] at *
    have hm : ∀ i k, k < W → (W * i + k) % W = k := fun i k hk => by rw [Nat.mul_add_mod, Nat.mod_eq_of_lt hk]
    have hj16 : ∀ k < W, W * j + k < W * 16 := fun k hk => by
      have := Nat.mul_le_mul_left W (show j + 1 ≤ 16 by omega); rw [Nat.mul_succ] at this; omega
    have hc : ∀ k, dig a k + dig (build (16 * W) (fun _ => 65536) 16 0) k < 65536 := fun k => by
      rw [dig_ones hW]
      have := dig_lt a k
      split
      · rename_i h
        have : dig a k = 0 := by
          have := ha.flg (k / W)
          rwa [← h.2, Nat.div_add_mod] at this
        omega
      · omega
    have hu' : Ut W a j := by
      unfold Ut at *; rw [dig_add hc] at hu; omega
    have h0 : num σ W (build (16 * W) (fun _ => 65536) 16 0) j = 0 := by
      unfold num
      have h0 := dig_ones hW (W * j + 0)
      rw [hm j 0 (by omega), if_neg (by omega), Nat.add_zero] at h0
      rw [h0, Nat.zero_add]
      refine Finset.sum_eq_zero fun i hi => ?_
      have := Finset.mem_range.mp hi
      rw [dig_ones hW, hm j _ (by omega), if_neg (by omega), Nat.zero_mul]
    have h1 : ¬ dig (a + build (16 * W) (fun _ => 65536) 16 0) (W * j + 1) = 0 := by
      rw [dig_add hc, ha.flg, dig_ones hW, hm j 1 (by omega), if_pos ⟨hj16 1 (by omega), rfl⟩]; omega
    rw [hv j hj (hle j hj hu'), ha.val j hj hu', cv, if_neg h1, num_add hc, h0]; rfl

theorem RW.cut {la la' a da : Nat} {sa : Bool} {ba : Bd} {ka : Kn} {va : V} (h : RW σ W sa la a da ba ka va) (hl : la' ≤ la) :
    RW σ W sa la' a da ba ka va :=
  ⟨h.le, h.flg, fun j hj => h.val j (by omega), fun j hj => h.bnd j (by omega), h.kno.mono hl, by have := h.bdl; omega⟩

theorem oPack_ok (hW : 3 < W) {la a da lb b db : Nat} {sa sb : Bool} {ba bb : Bd} {ka kb : Kn} {va vb : V} {q : SR}
    (h : oPack (16 * W) sa la a da ba ka sb lb b db bb kb = some q)
    (ha : RW σ W sa la a da ba ka va) (hb : RW σ W sb lb b db bb kb vb) : RR σ W q (Vc.packus16 va vb) := by
  simp only [oPack, brec1, Nat.ble_eq] at h
  obtain ⟨h1, h2, h3, h4, h5⟩ := h
  rw [mkB_eq h5]
  have fa := flag_ok (v := fun j => Vc.packus16 va vb j) hW (ha.cut h1) (by omega) (fun j hj hu => by
    have := toNat_packus va vb j
    rw [if_pos hj, satu_un _ _ hu] at this; omega) h3
  have fb := flag_ok (v := fun j => Vc.packus16 va vb (8 + j)) hW (hb.cut h2) (by omega) (fun j hj hu => by
    have := toNat_packus va vb (8 + j)
    rw [if_neg (by omega), show 8 + j - 8 = j by omega, satu_un _ _ hu] at this; omega) h4
  refine RB.move hW fa fb fun j => ?_
  by_cases hj : j < 8
  · exact Or.inl ⟨j, same_cat1 hj, fun _ => ⟨hj, rfl⟩⟩
  · by_cases hj' : j < 16
    · refine Or.inr (Or.inl ⟨j - 8, (same_cat2 (by omega)).trans (same_md (by omega)), fun _ => ⟨by omega, ?_⟩⟩)
      congr 1; omega
    · exact Or.inr (Or.inr ⟨(same_cat2 (by omega)).trans (same_md0 (by omega)), fun h => by omega⟩)

theorem oPackY_ok (hW : 3 < W) {la a da lb b db : Nat} {sa sb : Bool} {ba bb : Bd} {ka kb : Kn} {va vb : V} {q : SR}
    (h : oPackY (16 * W) sa la a da ba ka sb lb b db bb kb = some q)
    (ha : RW σ W sa la a da ba ka va) (hb : RW σ W sb lb b db bb kb vb) : RR σ W q (Vc.packus16y va vb) := by
  simp only [oPackY, brec1, Nat.ble_eq] at h
  obtain ⟨h1, h2, h3, h4, h5⟩ := h
  rw [mkB_eq h5]
  have fa := flag_ok (v := fun j => Vc.packus16y va vb (16 * (j / 8) + j % 8)) hW (ha.cut h1) (by omega) (fun j hj hu => by
    have := toNat_packusy va vb (16 * (j / 8) + j % 8)
    rw [if_pos (by omega), show 8 * ((16 * (j / 8) + j % 8) / 16) + (16 * (j / 8) + j % 8) % 16 = j by omega, satu_un _ _ hu] at this
    omega) h3
  have fb := flag_ok (v := fun j => Vc.packus16y va vb (16 * (j / 8) + 8 + j % 8)) hW (hb.cut h2) (by omega) (fun j hj hu => by
    have := toNat_packusy va vb (16 * (j / 8) + 8 + j % 8)
    rw [if_neg (by omega), show 8 * ((16 * (j / 8) + 8 + j % 8) / 16) + ((16 * (j / 8) + 8 + j % 8) % 16 - 8) = j by omega, satu_un _ _ hu] at this
    omega) h4
  refine RB.move hW fa fb fun j => ?_
  by_cases hj16 : j < 16
  · by_cases hj : j < 8
    · refine Or.inl ⟨j, (same_cat1 hj16).trans (same_cat1 hj), fun _ => ⟨by omega, ?_⟩⟩
      congr 1; omega
    · refine Or.inr (Or.inl ⟨j - 8, (same_cat1 hj16).trans ((same_cat2 (by omega)).trans (same_md (by omega))), fun _ => ⟨by omega, ?_⟩⟩)
      congr 1; omega
  · by_cases hj : j - 16 < 8
    · refine Or.inl ⟨8 + (j - 16), (same_cat2 (by omega)).trans ((same_cat1 hj).trans (same_sr _ _ _)), fun _ => ⟨by omega, ?_⟩⟩
      congr 1; omega
    · by_cases hj32 : j < 32
      · refine Or.inr (Or.inl ⟨8 + (j - 16 - 8), (same_cat2 (by omega)).trans ((same_cat2 (by omega)).trans ((same_md (by omega)).trans (same_sr _ _ _))),
          fun _ => ⟨by omega, ?_⟩⟩)
        congr 1; omega
      · exact Or.inr (Or.inr ⟨(same_cat2 (by omega)).trans ((same_cat2 (by omega)).trans (same_md0 (by omega))), fun h => by omega⟩)

theorem un_perm2 (imm : Nat) (a b : V) (j : Nat) : un (perm2 imm a b) j =
    if imm / 16 ^ (j / 8) % 4 < 2 then un a (8 * (imm / 16 ^ (j / 8) % 4) + j % 8) else un b (8 * (imm / 16 ^ (j / 8) % 4 - 2) + j % 8) := by
  unfold un perm2
  rw [show 2 * j / 16 = j / 8 by omega, show (2 * j + 1) / 16 = j / 8 by omega]
  generalize imm / 16 ^ (j / 8) % 4 = z
  split
  · rw [show 16 * z + 2 * j % 16 = 2 * (8 * z + j % 8) by omega, show 16 * z + (2 * j + 1) % 16 = 2 * (8 * z + j % 8) + 1 by omega]
  · rw [show 16 * (z - 2) + 2 * j % 16 = 2 * (8 * (z - 2) + j % 8) by omega,
      show 16 * (z - 2) + (2 * j + 1) % 16 = 2 * (8 * (z - 2) + j % 8) + 1 by omega]

theorem oPerm2W_ok (hW : 3 < W) {imm la a da lb b db : Nat} {sa sb : Bool} {ba bb : Bd} {ka kb : Kn} {va vb : V} {q : SR}
    (h : oPerm2W (16 * W) imm sa la a da ba ka sb lb b db bb kb = some q)
    (ha : RW σ W sa la a da ba ka va) (hb : RW σ W sb lb b db bb kb vb) : RR σ W q (perm2 imm va vb) := by
  simp only [oPerm2W, brec0, brec1, Nat.ble_eq] at h
  obtain ⟨h1, h2, rfl, rfl, h⟩ := h
  cases ba with
  | each l => cases bb <;> simp at h
  | u x => cases bb with
    | each l => simp at h
    | u y =>
      dsimp only at h
      rw [mkW_eq h]
      simp only [brec, Nat.ble_eq]
      have hx : lmax x y = max x y := lmax_eq x y
      have hd : lmax da db = max da db := lmax_eq da db
      generalize hsel : (fun j => if imm / 16 ^ (j / 8) % 4 ≤ 1 then Sel.a (8 * (imm / 16 ^ (j / 8) % 4) + j % 8)
          else Sel.b (8 * (imm / 16 ^ (j / 8) % 4 - 2) + j % 8)) = sel
      have key : ∀ j < 16, (∃ i < 16, Same W (Sym.gath (16 * W) sel 16 a b) j a i ∧ un (perm2 imm va vb) j = un va i) ∨
          (∃ i < 16, Same W (Sym.gath (16 * W) sel 16 a b) j b i ∧ un (perm2 imm va vb) j = un vb i) := fun j hj => by
        have hs : Same W (Sym.gath (16 * W) sel 16 a b) j (pick (16 * W) a b (sel j)) 0 := by
          have := same_build (W := W) (f := fun j => pick (16 * W) a b (sel j)) hj 0
          rwa [Nat.zero_add] at this
        rw [un_perm2]
        by_cases hz : imm / 16 ^ (j / 8) % 4 < 2
        · have : sel j = Sel.a (8 * (imm / 16 ^ (j / 8) % 4) + j % 8) := by rw [← hsel]; exact if_pos (by omega)
          rw [this] at hs
          exact Or.inl ⟨_, by omega, hs.trans (same_cl a _), if_pos hz⟩
        · have : sel j = Sel.b (8 * (imm / 16 ^ (j / 8) % 4 - 2) + j % 8) := by rw [← hsel]; exact if_neg (by omega)
          rw [this] at hs
          exact Or.inr ⟨_, by omega, hs.trans (same_cl b _), if_neg hz⟩
      have key' : ∀ j, (∃ i, Same W (Sym.gath (16 * W) sel 16 a b) j a i) ∨ (∃ i, Same W (Sym.gath (16 * W) sel 16 a b) j b i) ∨
          Same W (Sym.gath (16 * W) sel 16 a b) j 0 0 := fun j => by
        by_cases hj : j < 16
        · rcases key j hj with ⟨i, -, hs, -⟩ | ⟨i, -, hs, -⟩
          · exact Or.inl ⟨i, hs⟩
          · exact Or.inr (Or.inl ⟨i, hs⟩)
        · exact Or.inr (Or.inr (same_build0 (by omega) 0))
      exact {
        le := fun k => by
          rw [dig_cell hW]
          have hk : k % W < W := Nat.mod_lt _ (by omega)
          rcases key' (k / W) with ⟨i, hs⟩ | ⟨i, hs⟩ | hs <;> rw [hs _ hk]
          · have := ha.le (W * i + k % W); omega
          · have := hb.le (W * i + k % W); omega
          · rw [dig_zero]; omega
        flg := fun j => by
          rcases key' j with ⟨i, hs⟩ | ⟨i, hs⟩ | hs <;> rw [hs 1 (by omega)]
          · exact ha.flg i
          · exact hb.flg i
          · rw [dig_zero]
        val := fun j hj hu => by
          rcases key j hj with ⟨i, hi, hs, hv⟩ | ⟨i, hi, hs, hv⟩ <;> rw [hv, hs.num hW]
          · exact ha.val i (by omega) ((hs.ut hW).mp hu)
          · exact hb.val i (by omega) ((hs.ut hW).mp hu)
        bnd := fun j hj hu => by
          rw [at_u hj]
          rcases key j hj with ⟨i, hi, hs, hv⟩ | ⟨i, hi, hs, hv⟩ <;> rw [hv]
          · have := ha.bnd i (by omega) ((hs.ut hW).mp hu); rw [at_u hi] at this; omega
          · have := hb.bnd i (by omega) ((hs.ut hW).mp hu); rw [at_u hi] at this; omega
        kno := trivial
        bdl := by simp [Bd.toL] }

/-- A cell below 65536 is a plain number. -/
theorem cl_small {N j : Nat} (hW : 3 < W) (h : cl (16 * W) N j < 65536) : Ut W N j ∧ cv σ W N j = cl (16 * W) N j := by
  have hs := same_cl (W := W) N j
  have hd := dig_small h
  rw [← hs.ut hW, ← hs.cv hW]
  constructor
  · unfold Ut; rw [hd, if_neg (by omega)]
  · unfold cv
    have h0 : num σ W (cl (16 * W) N j) 0 = cl (16 * W) N j := by
      unfold num
      rw [hd, if_pos (by omega), Finset.sum_eq_zero fun i hi => ?_]
      · rfl
      · rw [hd, if_neg (by omega), Nat.zero_mul]
    rw [h0, hd]; simp

theorem plain_ok {N n j : Nat} (h : plain (16 * W) N n = true) (hj : j < n) : cl (16 * W) N j ≤ 255 := by
  induction n with
  | zero => omega
  | succ n ih =>
    simp only [plain, Bool.and_eq_true, Nat.ble_eq] at h
    by_cases hjn : j = n
    · rw [hjn]; exact h.1
    · exact ih h.2 (by omega)

theorem ctl_ok (hW : 3 < W) {pb : Bool} {lb b n j : Nat} {vb : V} (hb : RB σ W pb lb b vb) (h : plain (16 * W) b n = true) (hl : n ≤ lb) (hj : j < n) :
    (vb j).toNat = cl (16 * W) b j := by
  have h1 := plain_ok h hj
  have h2 := cl_small (σ := σ) hW (show cl (16 * W) b j < 65536 by omega)
  rw [hb.val j (by omega) h2.1, h2.2]

theorem msb_iff (x : BitVec 8) : x.msb = decide (128 ≤ x.toNat) := by
  rw [BitVec.msb_eq_decide]

theorem oShuf_ok (hW : 3 < W) {la a lb b : Nat} {pa pb : Bool} {va vb : V} {q : SR} (h : oShuf (16 * W) pa la a pb lb b = some q)
    (ha : RB σ W pa la a va) (hb : RB σ W pb lb b vb) : RR σ W q (Vc.shuffle8 va vb) := by
  simp only [oShuf, brec1, Nat.ble_eq] at h
  obtain ⟨h1, h2, h3, h4⟩ := h
  rw [mkB_eq h4]
  refine RB.gath1 hW ha fun j hj => ?_
  rw [brec, ← ctl_ok hW hb h3 h2 hj]
  simp only [Nat.ble_eq]
  by_cases hm : 128 ≤ (vb j).toNat
  · rw [if_pos hm]; show Vc.shuffle8 va vb j = 0
    rw [Vc.shuffle8, msb_iff, if_pos (by simpa using hm)]
  · rw [if_neg hm]
    refine ⟨by simp only [nmod]; omega, ?_⟩
    rw [Vc.shuffle8, msb_iff, if_neg (by simpa using hm)]; rfl

theorem oShufY_ok (hW : 3 < W) {la a lb b : Nat} {pa pb : Bool} {va vb : V} {q : SR} (h : oShufY (16 * W) pa la a pb lb b = some q)
    (ha : RB σ W pa la a va) (hb : RB σ W pb lb b vb) : RR σ W q (Vc.shuffle8y va vb) := by
  simp only [oShufY, brec1, Nat.ble_eq] at h
  obtain ⟨h1, h2, h3, h4⟩ := h
  rw [mkB_eq h4]
  refine RB.gath1 hW ha fun j hj => ?_
  rw [brec, ← ctl_ok hW hb h3 h2 hj]
  simp only [Nat.ble_eq]
  by_cases hm : 128 ≤ (vb j).toNat
  · rw [if_pos hm]; show Vc.shuffle8y va vb j = 0
    rw [Vc.shuffle8y, msb_iff, if_pos (by simpa using hm)]
  · rw [if_neg hm]
    refine ⟨by simp only [nmod, nadd, nmul, ndiv]; omega, ?_⟩
    rw [Vc.shuffle8y, msb_iff, if_neg (by simpa using hm)]; rfl

theorem oPermV_ok (hW : 3 < W) {la a lb b : Nat} {pa pb : Bool} {va vb : V} {q : SR} (h : oPermV (16 * W) pa la a pb lb b = some q)
    (ha : RB σ W pa la a va) (hb : RB σ W pb lb b vb) : RR σ W q (permv va vb) := by
  simp only [oPermV, brec1, Nat.ble_eq] at h
  obtain ⟨h1, h2, h3, h4⟩ := h
  rw [mkB_eq h4]
  refine RB.gath1 hW ha fun j hj => ?_
  have hc := ctl_ok hW hb h3 h2 (j := 4 * (j / 4)) (by omega)
  refine ⟨?_, ?_⟩
  · simp only [nmod, nadd, nmul, ndiv]; omega
  · simp only [nmod, nadd, nmul, ndiv, permv]; rw [hc]

/-- The moves. -/
theorem mov2_ok {o : O2} {va vb : V} {len la lb j : Nat} (ho : (∃ k, o = .perm2 k ∧ len = 32) ∨ (len = 16 ∧ (o = .unpacklo8 ∨ o = .unpackhi8 ∨ o = .unpacklo16 ∨
    o = .unpackhi16 ∨ o = .unpacklo32 ∨ o = .unpackhi32)) ∨ (len = 32 ∧ (o = .unpacklo8y ∨ o = .unpackhi8y ∨ o = .unpacklo16y ∨ o = .unpackhi16y)))
    (ha : len ≤ la) (hb : len ≤ lb) (hj : j < len) : SelOk va vb (op2 o va vb) la lb j (mov2 o j) := by
  rcases ho with ⟨k, rfl, rfl⟩ | ⟨rfl, rfl | rfl | rfl | rfl | rfl | rfl⟩ | ⟨rfl, rfl | rfl | rfl | rfl⟩ <;> simp only [mov2, brec, op2]
  · simp only [Nat.ble_eq]
    have hz : k / 16 ^ (j / 16) % 4 < 4 := Nat.mod_lt _ (by decide)
    simp only [SelOk, perm2]
    generalize k / 16 ^ (j / 16) % 4 = z at *
    by_cases h : z ≤ 1
    · rw [if_pos h]; exact ⟨by omega, if_pos (by omega)⟩
    · rw [if_neg h]; exact ⟨by omega, if_neg (by omega)⟩
  all_goals
    simp only [Nat.beq_eq, nmod, ndiv]
    split
    · rename_i h; exact ⟨by omega, if_pos h⟩
    · rename_i h; exact ⟨by omega, if_neg h⟩

theorem oMov_ok (hW : 3 < W) {o : O2} {len la a lb b : Nat} {pa pb : Bool} {va vb : V} {q : SR} (h : oMov (16 * W) o len pa la a pb lb b = some q)
    (ho : (∃ k, o = .perm2 k ∧ len = 32) ∨ (len = 16 ∧ (o = .unpacklo8 ∨ o = .unpackhi8 ∨ o = .unpacklo16 ∨
    o = .unpackhi16 ∨ o = .unpacklo32 ∨ o = .unpackhi32)) ∨ (len = 32 ∧ (o = .unpacklo8y ∨ o = .unpackhi8y ∨ o = .unpacklo16y ∨ o = .unpackhi16y)))
    (ha : RB σ W pa la a va) (hb : RB σ W pb lb b vb) : RR σ W q (op2 o va vb) := by
  simp only [oMov, brec1, Nat.ble_eq] at h
  obtain ⟨h1, h2, h3⟩ := h
  rw [mkB_eq h3]
  exact RB.gath hW ha hb fun j hj => mov2_ok ho h1 h2 hj

theorem oUnp_ok (hW : 3 < W) {o : O2} {len la a lb b : Nat} {pa pb : Bool} {va vb : V} {q : SR} (h : oUnp (16 * W) o len pa la a pb lb b = some q)
    (ho : (len = 16 ∧ (o = .unpacklo8 ∨ o = .unpackhi8)) ∨ (len = 32 ∧ (o = .unpacklo8y ∨ o = .unpackhi8y)))
    (ha : RB σ W pa la a va) (hb : RB σ W pb lb b vb) : RR σ W q (op2 o va vb) := by
  simp only [oUnp, brec1, Nat.ble_eq] at h
  obtain ⟨h1, h2, h3⟩ := h
  rw [brec] at h3
  by_cases h0 : Nat.beq b 0 = true
  · rw [if_pos h0, brec1] at h3
    obtain ⟨rfl, h3⟩ := h3
    rw [mkW_eq h3]
    have hb0 : b = 0 := Nat.eq_of_beq_eq_true h0
    subst hb0
    have hz : ∀ i < len, (vb i).toNat = 0 := fun i hi => by
      rw [hb.val i (by omega) (by unfold Ut; rw [dig_zero]), cv_zero]
    rcases ho with ⟨rfl, rfl | rfl⟩ | ⟨rfl, rfl | rfl⟩ <;> refine RW.widen hW ha (by decide) fun j => ?_ <;>
      simp only [widen, op2, show Nat.div 16 2 = 8 from rfl, show Nat.div 32 2 = 16 from rfl]
    · by_cases hj : j < 8
      · refine Or.inl ⟨j, same_md hj, fun _ => ⟨by omega, ?_⟩⟩
        have := hz j (by omega)
        unfold un Vc.unpacklo8
        rw [if_pos (by omega), if_neg (by omega), show 2 * j / 2 = j by omega, show (2 * j + 1) / 2 = j by omega]; omega
      · exact Or.inr ⟨same_md0 (by omega), by omega⟩
    · by_cases hj : j < 8
      · refine Or.inl ⟨8 + j, (same_md hj).trans (same_sr _ _ _), fun _ => ⟨by omega, ?_⟩⟩
        have := hz (8 + j) (by omega)
        unfold un Vc.unpackhi8
        rw [if_pos (by omega), if_neg (by omega), show 2 * j / 2 = j by omega, show (2 * j + 1) / 2 = j by omega]; omega
      · exact Or.inr ⟨same_md0 (by omega), by omega⟩
    · by_cases hj : j < 8
      · refine Or.inl ⟨j, same_cat1 hj, fun _ => ⟨by omega, ?_⟩⟩
        have := hz j (by omega)
        unfold un Vc.unpacklo8y
        rw [if_pos (by omega), if_neg (by omega), show 16 * (2 * j / 16) + 2 * j % 16 / 2 = j by omega, show 16 * ((2 * j + 1) / 16) + (2 * j + 1) % 16 / 2 = j by omega]
        omega
      · by_cases hj' : j < 16
        · refine Or.inl ⟨16 + (j - 8), (same_cat2 (by omega)).trans ((same_md (by omega)).trans (same_sr _ _ _)), fun _ => ⟨by omega, ?_⟩⟩
          have := hz (16 + (j - 8)) (by omega)
          unfold un Vc.unpacklo8y
          rw [if_pos (by omega), if_neg (by omega), show 16 * (2 * j / 16) + 2 * j % 16 / 2 = 16 + (j - 8) by omega,
            show 16 * ((2 * j + 1) / 16) + (2 * j + 1) % 16 / 2 = 16 + (j - 8) by omega]
          omega
        · exact Or.inr ⟨(same_cat2 (by omega)).trans (same_md0 (by omega)), by omega⟩
    · by_cases hj : j < 8
      · refine Or.inl ⟨8 + j, (same_cat1 hj).trans (same_sr _ _ _), fun _ => ⟨by omega, ?_⟩⟩
        have := hz (8 + j) (by omega)
        unfold un Vc.unpackhi8y
        rw [if_pos (by omega), if_neg (by omega), show 16 * (2 * j / 16) + 8 + 2 * j % 16 / 2 = 8 + j by omega,
          show 16 * ((2 * j + 1) / 16) + 8 + (2 * j + 1) % 16 / 2 = 8 + j by omega]
        omega
      · by_cases hj' : j < 16
        · refine Or.inl ⟨24 + (j - 8), (same_cat2 (by omega)).trans ((same_md (by omega)).trans (same_sr _ _ _)), fun _ => ⟨by omega, ?_⟩⟩
          have := hz (24 + (j - 8)) (by omega)
          unfold un Vc.unpackhi8y
          rw [if_pos (by omega), if_neg (by omega), show 16 * (2 * j / 16) + 8 + 2 * j % 16 / 2 = 24 + (j - 8) by omega,
            show 16 * ((2 * j + 1) / 16) + 8 + (2 * j + 1) % 16 / 2 = 24 + (j - 8) by omega]
          omega
        · exact Or.inr ⟨(same_cat2 (by omega)).trans (same_md0 (by omega)), by omega⟩
  · rw [if_neg h0] at h3
    rw [mkB_eq h3]
    refine RB.gath hW ha hb fun j hj => mov2_ok ?_ h1 h2 hj
    rcases ho with ⟨rfl, rfl | rfl⟩ | ⟨rfl, rfl | rfl⟩ <;> simp

theorem onW_ok {f : Bool → Nat → Nat → Nat → Bd → Kn → Bool → Nat → Nat → Nat → Bd → Kn → Option SR} {r s q : SR} {a b v : V}
    (h : onW f r s = some q) (ha : RR σ W r a) (hb : RR σ W s b)
    (hf : ∀ {sa la x da ba ka sb lb y db bb kb}, f sa la x da ba ka sb lb y db bb kb = some q → RW σ W sa la x da ba ka a → RW σ W sb lb y db bb kb b → RR σ W q v) :
    RR σ W q v := by
  cases r with
  | b => simp [onW] at h
  | w => cases s with
    | b => simp [onW] at h
    | w => exact hf h ha hb

theorem onB_ok {f : Bool → Nat → Nat → Bool → Nat → Nat → Option SR} {r s q : SR} {a b v : V}
    (h : onB f r s = some q) (ha : RR σ W r a) (hb : RR σ W s b)
    (hf : ∀ {pa la x pb lb y}, f pa la x pb lb y = some q → RB σ W pa la x a → RB σ W pb lb y b → RR σ W q v) : RR σ W q v := by
  cases r with
  | w => simp [onB] at h
  | b => cases s with
    | w => simp [onB] at h
    | b => exact hf h ha hb

theorem sop2_ok (hW : 3 < W) {o : O2} {r s q : SR} {a b : V} (h : sop2 (16 * W) o r s = some q) (ha : RR σ W r a) (hb : RR σ W s b) :
    RR σ W q (op2 o a b) := by
  cases o with
  | add16 => exact onW_ok h ha hb fun h ha hb => addW_ok h (by omega) ha hb fun i hi => (un_add16 _ _ i).trans (Nat.mod_eq_of_lt (by omega))
  | adds16 => exact onW_ok h ha hb fun h ha hb => addW_ok h (by omega) ha hb fun i hi => un_adds16 _ _ _ hi
  | mullo16 => exact onW_ok h ha hb fun h ha hb => oMul_ok hW h ha hb
  | packus16 => exact onW_ok h ha hb fun h ha hb => oPack_ok hW h ha hb
  | packus16y => exact onW_ok h ha hb fun h ha hb => oPackY_ok hW h ha hb
  | unpacklo8 => exact onB_ok h ha hb fun h ha hb => oUnp_ok hW h (by simp) ha hb
  | unpackhi8 => exact onB_ok h ha hb fun h ha hb => oUnp_ok hW h (by simp) ha hb
  | unpacklo16 => exact onB_ok h ha hb fun h ha hb => oMov_ok hW h (by simp) ha hb
  | unpackhi16 => exact onB_ok h ha hb fun h ha hb => oMov_ok hW h (by simp) ha hb
  | unpacklo32 => exact onB_ok h ha hb fun h ha hb => oMov_ok hW h (by simp) ha hb
  | unpackhi32 => exact onB_ok h ha hb fun h ha hb => oMov_ok hW h (by simp) ha hb
  | unpacklo8y => exact onB_ok h ha hb fun h ha hb => oUnp_ok hW h (by simp) ha hb
  | unpackhi8y => exact onB_ok h ha hb fun h ha hb => oUnp_ok hW h (by simp) ha hb
  | unpacklo16y => exact onB_ok h ha hb fun h ha hb => oMov_ok hW h (by simp) ha hb
  | unpackhi16y => exact onB_ok h ha hb fun h ha hb => oMov_ok hW h (by simp) ha hb
  | shuffle8 => exact onB_ok h ha hb fun h ha hb => oShuf_ok hW h ha hb
  | shuffle8y => exact onB_ok h ha hb fun h ha hb => oShufY_ok hW h ha hb
  | permv => exact onB_ok h ha hb fun h ha hb => oPermV_ok hW h ha hb
  | perm2 imm =>
    cases r with
    | b p l n => exact onB_ok (f := oMov (16 * W) (.perm2 imm) 32) (r := .b p l n) h ha hb fun h ha hb => oMov_ok hW h (by simp) ha hb
    | w sh l n dm bd kn => exact onW_ok (f := oPerm2W (16 * W) imm) (r := .w sh l n dm bd kn) h ha hb fun h ha hb => oPerm2W_ok hW h ha hb

theorem oSrl_ok {n la a da : Nat} {sa : Bool} {ba : Bd} {ka : Kn} {va : V} {q : SR} (h : oSrl n sa la a da ba = some q)
    (ha : RW σ W sa la a da ba ka va) : RR σ W q (Vc.srli16 va n) := by
  simp only [oSrl, brec0, brec1, Nat.ble_eq, nmul, npow, nsub] at h
  obtain ⟨rfl, h1, h2, h3⟩ := h
  rw [mkW_eq h3]
  have hp := pow2_pos (7 - n)
  have hc : ∀ k, dig a k * 2 ^ (7 - n) ≤ da * 2 ^ (7 - n) := fun k => Nat.mul_le_mul_right _ (ha.le k)
  have hc' : ∀ k, dig a k * 2 ^ (7 - n) < 65536 := fun k => by have := hc k; omega
  have hut : ∀ j, Ut W (a * 2 ^ (7 - n)) j → Ut W a j := fun j hu => by
    unfold Ut at *; rw [dig_mul hc'] at hu; exact (Nat.mul_eq_zero.mp hu).resolve_right (by omega)
  exact {
    le := fun k => by rw [dig_mul hc']; exact hc k
    flg := fun j => by rw [dig_mul hc', ha.flg, Nat.zero_mul]
    val := fun j hj hu => by
      rw [un_srli16, ha.val j hj (hut j hu), num_mul hc']
      simp only [Bool.false_eq_true, if_false, if_true]
      rw [show (128 : Nat) = 2 ^ n * 2 ^ (7 - n) by rw [← Nat.pow_add, show n + (7 - n) = 7 by omega]]
      rw [Nat.mul_div_mul_right _ _ hp]
    bnd := fun j hj hu => by
      rw [un_srli16, Bd.shr_at (by have := ha.bdl; omega)]
      exact Nat.div_le_div_right (ha.bnd j hj (hut j hu))
    kno := trivial
    bdl := by rw [Bd.shr_len]; exact ha.bdl }

theorem sop1_ok (hW : 3 < W) {o : O1} {r q : SR} {a : V} (h : sop1 (16 * W) o r = some q) (ha : RR σ W r a) : RR σ W q (op1 o a) := by
  cases r with
  | w sh len N dm bd kn =>
    cases o with
    | srli16 n => exact oSrl_ok h ha
    | _ => simp [sop1, on1B] at h
  | b pa la x =>
    replace ha : RB σ W pa la x a := ha
    cases o with
    | srli16 n => simp [sop1, on1W] at h
    | srliB n =>
      simp only [sop1, on1B, oSrlB, brec1, Nat.ble_eq, nsub] at h
      obtain ⟨h1, h2, h3⟩ := h
      rw [mkB_eq h3]
      refine RB.mdsr hW ha fun j hj => ?_
      simp only [op1, Vc.srliB]
      by_cases hh : j < 16 - n
      · rw [if_pos hh, if_pos (by omega), Nat.add_comm]; exact ⟨by omega, rfl⟩
      · rw [if_neg hh, if_neg (by omega)]
    | srliBy n =>
      simp only [sop1, on1B, oSrlBy, brec1, Nat.ble_eq] at h
      obtain ⟨h1, h3⟩ := h
      rw [mkB_eq h3]
      refine RB.gath1 hW ha fun j hj => ?_
      simp only [op1, brec, Nat.ble_eq, srliBy]
      by_cases hh : j % 16 + n ≤ 15
      · rw [if_pos hh]; exact ⟨by omega, if_pos (by omega)⟩
      · rw [if_neg hh]; exact if_neg (by omega)
    | cvtu8 =>
      simp only [sop1, on1B, oCvt, brec1, Nat.ble_eq] at h
      obtain ⟨rfl, h1, h3⟩ := h
      rw [mkW_eq h3]
      refine RW.widen hW ha (by omega) fun j => ?_
      by_cases hj : j < 16
      · exact Or.inl ⟨j, same_md hj, fun _ => ⟨by omega, un_cvt a j⟩⟩
      · exact Or.inr ⟨same_md0 (by omega), by omega⟩
    | half k =>
      simp only [sop1, on1B, oHalf, brec1, Nat.ble_eq, nmul] at h
      obtain ⟨h1, h2, h3⟩ := h
      rw [mkB_eq h3]
      refine RB.mdsr hW ha fun j hj => ?_
      rw [if_pos hj]; exact ⟨by omega, rfl⟩
    | perm4 imm =>
      simp only [sop1, on1B, oPerm4, brec1, Nat.ble_eq] at h
      obtain ⟨h1, h3⟩ := h
      rw [mkB_eq h3]
      refine RB.gath1 hW ha fun j hj => ⟨?_, rfl⟩
      have := Nat.mod_lt (imm / 4 ^ (j / 8)) (show 4 > 0 by decide)
      omega
    | ext16 k =>
      simp only [sop1, on1B, oExt, brec1, Nat.ble_eq, nmul] at h
      obtain ⟨h1, h2, h3⟩ := h
      rw [mkB_eq h3]
      refine RB.mdsr hW ha fun j hj => ?_
      simp only [op1, ext16]
      by_cases hh : j < 2
      · rw [if_pos hh, if_pos hh]; exact ⟨by omega, rfl⟩
      · rw [if_neg hh, if_neg hh]

end

end Davs2.Vp.Sym
