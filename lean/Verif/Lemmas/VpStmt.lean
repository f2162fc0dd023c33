import Verif.Lemmas.VpSim
/-
The evaluator of Lemmas/VpSym follows the programs of Model/VecProg: registers and statements.
-/
namespace Davs2.Vp.Sym

open Vc (V)

section
variable {σ : Nat → Nat} {W : Nat} {cfg : Cfg} {base : Nat} {I : T FN} {P : T FP} {Vs : T SR} {M : T SA} {e : Env} {mem : Mem}
  {jk : Nat → Nat → BitVec 8} {jr : V}

theorem dig_65536 (k : Nat) : dig 65536 k = if k = 1 then 1 else 0 := by
  cases k with
  | zero => rfl
  | succ k => rw [dig_succ, show 65536 / 65536 = 1 from rfl, dig_small (by decide)]; simp

theorem dig_taint (k : Nat) : dig 4294967296 k = if k = 2 then 1 else 0 := by
  cases k with
  | zero => rfl
  | succ k => rw [dig_succ, show 4294967296 / 65536 = 65536 from rfl, dig_65536]; simp

theorem bcast_ok (hW : 3 < W) {c : SC} {r : SR} {x : Nat} (h : bcast (16 * W) c = some r) (hc : RC σ W c x) : RR σ W r (Vc.set1_8 x) := by
  simp only [bcast, brec1, Nat.ble_eq] at h
  obtain ⟨h1, h⟩ := h
  rw [mkB_eq h]
  simp only [brec]
  generalize hN : (if c.sh = true then Nat.add c.N 65536 else c.N) = N
  have hs : ∀ j < 32, Same W (build (16 * W) (fun _ => N) 32 0) j N 0 := fun j hj => same_build (W := W) (f := fun _ => N) hj 0
  have hd : ∀ k, dig N k = dig c.N k + if c.sh = true ∧ k = 1 then 1 else 0 := fun k => by
    rw [← hN]
    cases hsh : c.sh with
    | false => simp
    | true =>
      simp only [if_true, nadd, true_and]
      rw [dig_add, dig_65536]
      intro k; rw [dig_65536]
      have := dig_lt c.N k
      by_cases hk : k = 1
      · subst hk; rw [hc.flg]; simp
      · rw [if_neg hk]; omega
  refine ⟨fun j hj hu => ?_, fun hp k => ?_, fun hp j => ?_⟩
  · rw [(hs j hj).ut hW] at hu
    have hu' : Ut W c.N 0 := by unfold Ut at *; rw [hd, if_neg (by omega)] at hu; omega
    have hx := hc.bnd hu'
    rw [toNat_set1 x j (by omega), (hs j hj).cv hW, hc.val hu']
    have hnum : num σ W N 0 = num σ W c.N 0 := by
      unfold num
      rw [hd, if_neg (by omega), Nat.add_zero]
      congr 1
      refine Finset.sum_congr rfl fun i _ => ?_
      rw [hd, if_neg (by omega), Nat.add_zero]
    unfold cv
    rw [hnum, hd, Nat.mul_zero, Nat.zero_add, hc.flg, Nat.zero_add]
    cases c.sh <;> simp
  · simp only [Bool.and_eq_true, Bool.not_eq_true', Nat.ble_eq] at hp
    refine dig_build_le (by omega) (fun _ k => ?_) k
    rw [hd, if_neg (by rw [hp.1]; simp)]
    have := hc.le k; omega
  · simp only [Bool.and_eq_true, Bool.not_eq_true', Nat.ble_eq] at hp
    rw [dig_build' _ _ _ _ _ (by omega)]
    split
    · rw [hd, if_neg (by rw [hp.1]; simp), hc.flg]
    · rfl

theorem xSet1_ok (hW : 3 < W) (hI : RI I e.I) (hP : RPs P e.P) (hM : RMs σ W M mem) {s : SE} {r : SR} (h : xSet1 (16 * W) cfg base I P M s = some r) :
    ∃ v, (X.set1_16 s).ev cfg jr base e mem = some v ∧ RR σ W r v := by
  simp only [xSet1, orec, brec0, brec1, Nat.ble_eq] at h
  obtain ⟨c, hc, h1, hsh, h⟩ := h
  obtain ⟨x, e1, rc⟩ := fSE_ok hW hI hP hM hc
  rw [mkW_eq h]
  refine ⟨Vc.set1_16 x, by simp [X.ev, e1], ?_⟩
  have hs : ∀ j < 16, Same W (build (16 * W) (fun _ => c.N) 16 0) j c.N 0 := fun j hj => same_build (W := W) (f := fun _ => c.N) hj 0
  exact {
    le := fun k => dig_build_le (by omega) (fun _ k => rc.le k) k
    flg := fun j => by
      rw [dig_build' _ _ _ _ _ (by omega)]
      split
      · exact rc.flg
      · rfl
    val := fun j hj hu => by
      rw [(hs j hj).ut hW] at hu
      have := rc.bnd hu
      rw [un_set1 x j (by omega), (hs j hj).num hW, rc.val hu, hsh]
    bnd := fun j hj hu => by
      rw [(hs j hj).ut hW] at hu
      have := rc.bnd hu
      rw [un_set1 x j (by omega), at_u hj]; exact this
    kno := by
      cases hk : c.kn with
      | none => trivial
      | some k =>
        intro j hj
        have := rc.kno k hk
        rw [un_set1 x j (by omega), this.1]
    bdl := by simp [Bd.toL] }

/-- Cells that are numbers. -/
theorem RB.nums (hW : 3 < W) {f : Nat → Nat} {n : Nat} {v : V} (hf : ∀ j < n, f j ≤ 255) (hv : ∀ j < n, (v j).toNat = f j) :
    RB σ W false n (build (16 * W) f n 0) v := by
  refine ⟨fun j hj hu => ?_, fun h => by simp at h, fun h => by simp at h⟩
  have hs := same_build (W := W) (f := f) hj 0
  rw [Nat.zero_add] at hs
  have hd := dig_small (show f j < 65536 by have := hf j hj; omega)
  have hz : dig (f j) (W * 0 + 1) = 0 := by rw [hd, if_neg (by omega)]
  have hn : num σ W (f j) 0 = f j := by
    rw [num, hd, if_pos (by omega), Finset.sum_eq_zero fun i hi => ?_]
    · rfl
    · rw [hd, if_neg (by omega), Nat.zero_mul]
  rw [hv j hj, hs.cv hW, cv, hz, if_pos rfl, hn]

theorem xSetr8_ok (hW : 3 < W) {l : List Nat} {r : SR} (h : xSetr8 (16 * W) l = some r) :
    ∃ v, (X.setr8 l).ev cfg jr base e mem = some v ∧ RR σ W r v := by
  simp only [xSetr8, brec1, List.all_eq_true, Nat.ble_eq] at h
  obtain ⟨h1, h⟩ := h
  rw [mkB_eq h]
  have hl : ∀ j, l.getD j 0 ≤ 255 := fun j => by
    by_cases hj : j < l.length
    · rw [getD_lt hj]; exact h1 _ (List.getElem_mem hj)
    · rw [List.getD, List.getElem?_eq_none (by omega)]; simp
  refine ⟨_, rfl, RB.nums hW (fun j _ => hl j) fun j _ => ?_⟩
  have := toNat_ofB (fun j => ((l.getD j 0 : Nat) : Int)) j
  have := hl j
  omega

theorem fList_ok (hW : 3 < W) (hI : RI I e.I) (hP : RPs P e.P) (hM : RMs σ W M mem) {l : List SE} {cs : List SC}
    (h : fList (16 * W) cfg base I P M l = some cs) :
    ∃ xs : List Nat, evList cfg base e mem l = some xs ∧ ∀ (j : Nat) (c : SC), cs[j]? = some c → ∃ x, xs[j]? = some x ∧ RC σ W c x := by
  induction l generalizing cs with
  | nil =>
    simp only [fList, Option.some.injEq] at h
    subst h
    exact ⟨[], rfl, fun j c hc => by simp at hc⟩
  | cons s l ih =>
    simp only [fList, orec, Option.some.injEq] at h
    obtain ⟨c, hc, ds, hd, rfl⟩ := h
    obtain ⟨x, e1, rc⟩ := fSE_ok hW hI hP hM hc
    obtain ⟨xs, e2, rs⟩ := ih hd
    refine ⟨x :: xs, by simp [evList, e1, e2], fun j d hj => ?_⟩
    cases j with
    | zero => simp at hj; subst hj; exact ⟨x, by simp, rc⟩
    | succ j => simpa using rs j d (by simpa using hj)

theorem knList_ok {cs : List SC} {ks : List Nat} (h : knList cs = some ks) : cs.length = ks.length ∧ ∀ (j : Nat) (c : SC), cs[j]? = some c → c.kn = some (ks.getD j 0) := by
  induction cs generalizing ks with
  | nil =>
    simp only [knList, Option.some.injEq] at h
    subst h; exact ⟨rfl, fun j c hc => by simp at hc⟩
  | cons c cs ih =>
    simp only [knList, orec, Option.some.injEq] at h
    obtain ⟨k, hk, l, hl, rfl⟩ := h
    refine ⟨by simp [(ih hl).1], fun j d hj => ?_⟩
    cases j with
    | zero => simp at hj; subst hj; simpa using hk
    | succ j => simpa using (ih hl).2 j d (by simpa using hj)

theorem getD_map {cs : List SC} {f : SC → Nat} {j : Nat} {c : SC} (h : cs[j]? = some c) : (cs.map f).getD j 0 = f c := by
  simp [List.getD, h]

theorem xSetr16_ok (hW : 3 < W) (hI : RI I e.I) (hP : RPs P e.P) (hM : RMs σ W M mem) {l : List SE} {r : SR} (h : xSetr16 (16 * W) cfg base I P M l = some r) :
    ∃ v, (X.setr16 l).ev cfg jr base e mem = some v ∧ RR σ W r v := by
  simp only [xSetr16, orec, brec1, List.all_eq_true, Bool.and_eq_true, Nat.ble_eq, Bool.not_eq_true'] at h
  obtain ⟨cs, hcs, h1, h⟩ := h
  obtain ⟨xs, e1, rs⟩ := fList_ok hW hI hP hM hcs
  rw [mkW_eq h]
  refine ⟨Vc.ofW fun i => (xs.getD i 0 : Nat), by simp [X.ev, e1], ?_⟩
  have hsome : ∀ j < cs.length, ∃ c x, cs[j]? = some c ∧ RC σ W c x ∧ c.hi ≤ 65535 ∧ c.sh = false ∧
      (x ≤ 65535 → un (Vc.ofW fun i => ((xs.getD i 0 : Nat) : Int)) j = x) := fun j hj => by
    have hc : cs[j]? = some cs[j] := List.getElem?_eq_getElem hj
    obtain ⟨x, hx, rc⟩ := rs j _ hc
    have hm := h1 cs[j] (List.getElem_mem hj)
    refine ⟨cs[j], x, hc, rc, hm.1, hm.2, fun hle => ?_⟩
    have := un_ofW (fun i => ((xs.getD i 0 : Nat) : Int)) j
    have hg : xs.getD j 0 = x := by simp [List.getD, hx]
    rw [hg] at this; omega
  have hs : ∀ j < cs.length, ∀ c, cs[j]? = some c → Same W (build (16 * W) (fun j => (cs.map (·.N)).getD j 0) cs.length 0) j c.N 0 := fun j hj c hc => by
    have := same_build (W := W) (f := fun j => (cs.map (·.N)).getD j 0) hj 0
    rw [Nat.zero_add, getD_map hc] at this
    exact this
  exact {
    le := fun k => by
      refine dig_build_le (by omega) (fun i k => ?_) k
      by_cases hi : i < cs.length
      · obtain ⟨c, x, hc, rc, -⟩ := hsome i hi
        rw [getD_map hc]
        refine (rc.le k).trans ?_
        have := getD_le_foldr (cs.map (·.dm)) i
        rwa [getD_map hc] at this
      · rw [List.getD, List.getElem?_eq_none (by simpa using hi), Option.getD_none, dig_zero]; omega
    flg := fun j => by
      rw [dig_build' _ _ _ _ _ (by omega)]
      split
      · rename_i hj
        obtain ⟨c, x, hc, rc, -⟩ := hsome j hj
        rw [Nat.zero_add, getD_map hc]; exact rc.flg
      · rfl
    val := fun j hj hu => by
      obtain ⟨c, x, hc, rc, hhi, hsh, hv⟩ := hsome j hj
      have hsm := hs j hj c hc
      rw [hsm.ut hW] at hu
      have := rc.bnd hu
      rw [hv (by omega), hsm.num hW, rc.val hu, hsh]
    bnd := fun j hj hu => by
      obtain ⟨c, x, hc, rc, hhi, hsh, hv⟩ := hsome j hj
      have hsm := hs j hj c hc
      rw [hsm.ut hW] at hu
      have := rc.bnd hu
      rw [hv (by omega)]
      show x ≤ (cs.map (·.hi)).getD j 0
      rw [getD_map hc]; exact this
    kno := by
      cases hk : knList cs with
      | none => trivial
      | some ks =>
        refine ⟨by rw [(knList_ok hk).1], fun j hj => ?_⟩
        obtain ⟨c, x, hc, rc, hhi, hsh, hv⟩ := hsome j hj
        have := rc.kno _ ((knList_ok hk).2 j c hc)
        rw [hv (by omega), this.1]
    bdl := by simp [Bd.toL] }

theorem xMask_ok (hW : 3 < W) (hI : RI I e.I) {rows : Nat} {i : E} {r : SR} (h : xMask (16 * W) cfg I rows i = some r) :
    ∃ v, (X.mask rows i).ev cfg jr base e mem = some v ∧ RR σ W r v := by
  simp only [xMask, orec] at h
  obtain ⟨p, hp, h⟩ := h
  obtain ⟨k, e1, rk⟩ := fZ_ok hI hp
  rw [brec] at h
  simp only [Bool.and_eq_true, Nat.ble_eq, Nat.succ_eq_add_one, nsub] at h
  obtain ⟨n, hn⟩ : ∃ n, p - 1048576 + 1 = n := ⟨_, rfl⟩
  rw [hn] at h
  by_cases hc : (1048576 ≤ p ∧ n ≤ rows) ∧ rows ≤ 32
  · rw [if_pos hc] at h
    rw [mkB_eq h]
    refine ⟨Vc.ofB fun j => if (j : Int) ≤ k then 255 else 0, by simp only [X.ev, e1, Option.bind_eq_bind, Option.bind_some]; rw [if_pos (by omega)]; rfl, ?_⟩
    refine RB.nums hW (fun j hj => ?_) fun j hj => ?_
    · rw [brec]; split <;> omega
    · have := toNat_ofB (fun j => if (j : Int) ≤ k then 255 else 0) j
      rw [brec]
      simp only [Nat.ble_eq]
      by_cases hjk : (j : Int) ≤ k
      · rw [if_pos hjk] at this; rw [if_neg (by omega)]; omega
      · rw [if_neg hjk] at this; rw [if_pos (by omega)]; omega
  · rw [if_neg hc, brec1] at h
    obtain ⟨ha, h⟩ := h
    simp only [Option.some.injEq] at h
    subst h
    have hany : ∀ v : V, RR σ W (.b false 0 0) v := fun v => ⟨fun j hj => absurd hj (by omega), fun h => by simp at h, fun h => by simp at h⟩
    simp only [X.ev, e1, Option.bind_eq_bind, Option.bind_some]
    by_cases hk : 0 ≤ k ∧ k < rows
    · rw [if_pos hk]; exact ⟨_, rfl, hany _⟩
    · rw [if_neg hk, if_pos ha]; exact ⟨_, rfl, hany _⟩

theorem fX_ok (hW : 3 < W) (hI : RI I e.I) (hP : RPs P e.P) (hV : RVs σ W Vs e.V) (hM : RMs σ W M mem) {x : X} {r : SR}
    (h : fX (16 * W) cfg base I P Vs M x = some r) : ∃ v, x.ev cfg jr base e mem = some v ∧ RR σ W r v := by
  induction x generalizing r with
  | v i => exact hV i r h
  | ld n p =>
    replace h : xLd (16 * W) cfg base I P M n p = some r := h
    simp only [xLd, orec] at h
    obtain ⟨q, hq, h⟩ := h
    obtain ⟨k, e1, rp⟩ := fP_ok hI hP hq
    obtain ⟨v, e2, rv, -⟩ := fRd_ok hW hM h rp
    exact ⟨v, by simp [X.ev, e1, e2], rv⟩
  | zero =>
    simp only [fX, Option.some.injEq] at h
    subst h
    exact ⟨_, rfl, RB.zero 32⟩
  | set1_16 s => exact xSet1_ok hW hI hP hM h
  | set1_8 s =>
    simp only [fX, orec] at h
    obtain ⟨c, hc, h⟩ := h
    obtain ⟨y, e1, rc⟩ := fSE_ok hW hI hP hM hc
    exact ⟨Vc.set1_8 y, by simp [X.ev, e1], bcast_ok hW h rc⟩
  | setr8 l => exact xSetr8_ok hW h
  | setr16 l => exact xSetr16_ok hW hI hP hM h
  | mask rows i => exact xMask_ok hW hI h
  | o1 o x ih =>
    replace h : xO1 (16 * W) o (fX (16 * W) cfg base I P Vs M x) = some r := h
    simp only [xO1, orec] at h
    obtain ⟨q, hq, h⟩ := h
    obtain ⟨v, e1, rv⟩ := ih hq
    exact ⟨op1 o v, by simp [X.ev, e1], sop1_ok hW h rv⟩
  | o2 o x y ihx ihy =>
    replace h : xO2 (16 * W) o (fX (16 * W) cfg base I P Vs M x) (fX (16 * W) cfg base I P Vs M y) = some r := h
    simp only [xO2, orec] at h
    obtain ⟨q, hq, s, hs, h⟩ := h
    obtain ⟨v, e1, rv⟩ := ihx hq
    obtain ⟨u, e2, ru⟩ := ihy hs
    exact ⟨op2 o v u, by simp [X.ev, e1, e2], sop2_ok hW h rv ru⟩

theorem sB_ok (hW : 3 < W) (hI : RI I e.I) (hP : RPs P e.P) (hM : RMs σ W M mem) {s : SE} {r : SR} (h : sB (16 * W) cfg base I P M s = some r) :
    ∃ x, s.ev cfg base e mem = some x ∧ ∃ v, RR σ W r v ∧ v 0 = Vc.set1_8 x 0 := by
  have key : (Option.rec (motive := fun _ => Option SR) none (fun c => bcast (16 * W) c) (fSE (16 * W) cfg base I P M s) = some r) →
      ∃ x, s.ev cfg base e mem = some x ∧ ∃ v, RR σ W r v ∧ v 0 = Vc.set1_8 x 0 := fun h => by
    rw [orec] at h
    obtain ⟨c, hc, h⟩ := h
    obtain ⟨y, e1, rc⟩ := fSE_ok hW hI hP hM hc
    exact ⟨y, e1, _, bcast_ok hW h rc, rfl⟩
  cases s with
  | ld p =>
    simp only [sB, orec] at h
    obtain ⟨q, hq, h⟩ := h
    obtain ⟨k, e1, rp⟩ := fP_ok hI hP hq
    obtain ⟨v, e2, rv, -⟩ := fRd_ok hW hM h rp
    refine ⟨(v 0).toNat, by simp [SE.ev, e1, e2], v, rv, ?_⟩
    apply BitVec.eq_of_toNat_eq
    rw [toNat_set1 _ _ (by have := (v 0).isLt; omega)]
  | n k => exact key h
  | add x y => exact key h
  | mul k x => exact key h
  | shr x n => exact key h

/-! ### Statements -/

theorem fMst_ok (hW : 3 < W) {p : FP} {k : Ptr} (hp : RP p k) {pm pu : Bool} {ml K len N u : Nat} {m r : V} (hm : RB σ W pm ml K m) (hr : RB σ W pu len N r)
    (hu : 0 < u) (n : Nat) : ∀ (q : Nat) (M M' : T SA) (mem : Mem), fMst (16 * W) cfg p len N ml K pu u n q M = some M' → RMs σ W M mem →
      ∃ mem', mstore cfg k m r u n q mem = some mem' ∧ RMs σ W M' mem' := by
  induction n with
  | zero =>
    intro q M M' mem h hM
    have h := Option.some.inj (show some M = some M' from h)
    subst h
    exact ⟨mem, rfl, hM⟩
  | succ n ih =>
    intro q M M' mem h hM
    replace h : Bool.rec (motive := fun _ => Option (T SA)) none
        (Bool.rec (motive := fun _ => Option (T SA)) none
          (Bool.rec (motive := fun _ => Option (T SA)) (fMst (16 * W) cfg p len N ml K pu u n (Nat.add q u) M)
            (Option.rec (motive := fun _ => Option (T SA)) none (fun M => fMst (16 * W) cfg p len N ml K pu u n (Nat.add q u) M)
              (fWr (16 * W) cfg M ⟨p.arr, Nat.add p.a q, p.b⟩ u (.b pu (Nat.sub len q) (sr (16 * W) N q))))
            (Nat.ble 128 (cl (16 * W) K (Nat.sub (Nat.add q u) 1))))
          (Nat.ble (cl (16 * W) K (Nat.sub (Nat.add q u) 1)) 255))
        (Nat.ble (Nat.add q u) ml) = some M' := h
    rw [brec1, brec1, Nat.ble_eq, Nat.ble_eq] at h
    obtain ⟨h1, h2, h⟩ := h
    simp only [nadd, nsub] at h1 h2 h
    have hc := cl_small (σ := σ) hW (show cl (16 * W) K (q + u - 1) < 65536 by omega)
    have hv : (m (q + u - 1)).toNat = cl (16 * W) K (q + u - 1) := by rw [hm.val _ (by omega) hc.1, hc.2]
    have hmsb := msb_iff (m (q + u - 1))
    rw [hv] at hmsb
    rw [brec] at h
    simp only [Nat.ble_eq] at h
    rw [mstore, hmsb]
    by_cases hb : 128 ≤ cl (16 * W) K (q + u - 1)
    · rw [if_pos hb, orec] at h
      obtain ⟨M1, hw, h⟩ := h
      obtain ⟨mem1, e1, r1⟩ := fWr_ok (k := ⟨k.arr, ⟨k.off.a + q, k.off.b⟩⟩) (v := fun j => r (q + j)) hW hM hw
        ⟨hp.arr, by have := hp.a; simp only [nadd]; omega, hp.b⟩ (RB.shift hW hr)
      rw [if_pos (by simpa using hb), e1]
      exact ih _ _ _ _ h r1
    · rw [if_neg hb] at h
      rw [if_neg (by simpa using hb)]
      exact ih _ _ _ _ h hM

theorem RA.fresh (hW : 3 < W) (size : Nat) (f : Nat → BitVec 8) (d : Nat) :
    RA σ W ⟨size, true, T.full (some ⟨build (16 * W) (fun _ => 4294967296) 64 0, 0⟩) d, 0⟩ (size, f) where
  size := rfl
  val q X h := by
    have := T.get_full h
    simp only [Option.some.injEq] at this
    subst this
    refine ⟨fun j hj hu => ?_, fun _ k => ?_, fun _ j => ?_⟩
    · dsimp only at hu
      rw [(same_build (W := W) (f := fun _ => 4294967296) hj 0).ut hW] at hu
      unfold Ut at hu; rw [dig_taint, if_pos (by omega)] at hu; omega
    · dsimp only
      refine dig_build_le (W := W) (f := fun _ => 4294967296) (by omega) (fun _ k => ?_) k
      rw [dig_taint]; split <;> omega
    · rw [dig_build' _ _ _ _ _ (by omega), dig_taint]; simp

theorem wr_congr {k : Ptr} {v v' : V} (h : v 0 = v' 0) : wr cfg mem k 1 v = wr cfg mem k 1 v' := by
  unfold wr
  congr 1
  funext o
  split
  · rfl
  · congr 1; funext i
    split
    · congr 1; funext j
      split
      · rw [show j - o = 0 by omega, h]
      · rfl
    · rfl

theorem fL_ok (hW : 3 < W) {l : L} {s s' : FS} (h : fL (16 * W) cfg base l s = some s') (hs : RS σ W s e mem) :
    ∃ e' mem', l.ex cfg jk jr base e mem = some (e', mem') ∧ RS σ W s' e' mem' := by
  obtain ⟨I, P, Vs, M⟩ := s
  have hI := hs.i; have hP := hs.p; have hV := hs.v; have hM := hs.m
  simp only at hI hP hV hM
  cases l with
  | I d x =>
    replace h : lI I P Vs M d x = some s' := h
    simp only [lI, orec] at h
    obtain ⟨k, hk, h⟩ := h
    obtain ⟨k', e1, rk⟩ := fE_ok hI hk
    simp only [frc_eq, T.frc_eq, Option.some.injEq] at h
    subst h
    refine ⟨{ e with I := fun i => if i = d then k' else e.I i }, mem, by simp [L.ex, e1], fun i p hi => ?_, hP, hV, hM⟩
    rcases T.get_set hi with ⟨rfl, rfl⟩ | ⟨hne, hi⟩
    · simp only [if_true]; exact rk
    · simp only [if_neg hne]; exact hI i p hi
  | P d p =>
    replace h : lP base I P Vs M d p = some s' := h
    simp only [lP, orec] at h
    obtain ⟨d', hd, q, hq, h⟩ := h
    obtain ⟨q', e1, rq⟩ := fP_ok hI hP hq
    simp only [frc_eq, T.frc_eq, Option.some.injEq] at h
    subst h
    refine ⟨{ e with P := fun i => if i = d' then some q' else e.P i }, mem, by simp [L.ex, e1, fNat_ok hI hd], hI, fun i p hi => ?_, hV, hM⟩
    rcases T.get_set hi with ⟨rfl, rfl⟩ | ⟨hne, hi⟩
    · simp only [if_true]; exact ⟨_, rfl, rq⟩
    · simp only [if_neg hne]; exact hP i p hi
  | V d x =>
    replace h : lV (16 * W) cfg base I P Vs M d x = some s' := h
    simp only [lV, orec, T.frc_eq, Option.some.injEq] at h
    obtain ⟨r, hr, rfl⟩ := h
    obtain ⟨v, e1, rv⟩ := fX_ok (jr := jr) hW hI hP hV hM hr
    refine ⟨{ e with V := fun i => if i = d then some v else e.V i }, mem, by simp [L.ex, e1], hI, hP, fun i p hi => ?_, hM⟩
    rcases T.get_set hi with ⟨rfl, rfl⟩ | ⟨hne, hi⟩
    · simp only [if_true]; exact ⟨_, rfl, rv⟩
    · simp only [if_neg hne]; exact hV i p hi
  | alloc k size =>
    replace h : lAlloc (16 * W) base I P Vs M k size = some s' := h
    simp only [lAlloc, T.frc_eq, Option.some.injEq, nadd] at h
    subst h
    refine ⟨e, fun i => if i = base + k then (size, jk i) else mem i, rfl, hI, hP, hV, fun i a hi => ?_⟩
    rcases T.get_set hi with ⟨rfl, rfl⟩ | ⟨hne, hi⟩
    · simp only [if_true]; exact RA.fresh hW _ _ _
    · simp only [if_neg hne]; exact hM i a hi
  | st n p x =>
    replace h : lSt (16 * W) cfg base I P Vs M n p x = some s' := h
    simp only [lSt, orec, Option.some.injEq] at h
    obtain ⟨q, hq, r, hr, M', hw, rfl⟩ := h
    obtain ⟨q', e1, rq⟩ := fP_ok hI hP hq
    obtain ⟨v, e2, rv⟩ := fX_ok (jr := jr) hW hI hP hV hM hr
    obtain ⟨mem', e3, rm⟩ := fWr_ok hW hM hw rq rv
    exact ⟨e, mem', by simp [L.ex, e1, e2, e3], hI, hP, hV, rm⟩
  | mst u len p m x =>
    replace h : lMst (16 * W) cfg base I P Vs M u len p m x = some s' := h
    simp only [lMst, orec] at h
    obtain ⟨q, hq, k, hk, r, hr, h⟩ := h
    obtain ⟨q', e1, rq⟩ := fP_ok hI hP hq
    obtain ⟨v, e2, rv⟩ := fX_ok (jr := jr) hW hI hP hV hM hk
    obtain ⟨z, e3, rz⟩ := fX_ok (jr := jr) hW hI hP hV hM hr
    cases k with
    | w => simp at h
    | b pm ml K => cases r with
      | w => simp at h
      | b pu rl N =>
        simp only [orec, Option.some.injEq, ndiv] at h
        obtain ⟨M', hm, rfl⟩ := h
        have key : ∃ mem', mstore cfg q' v z u (len / u) 0 mem = some mem' ∧ RMs σ W M' mem' := by
          by_cases hu : 0 < u
          · exact fMst_ok hW rq rv rz hu _ _ _ _ _ hm hM
          · have hu0 : u = 0 := by omega
            subst hu0
            rw [Nat.div_zero] at hm ⊢
            have hm := Option.some.inj (show some M = some M' from hm)
            subst hm
            exact ⟨mem, rfl, hM⟩
        obtain ⟨mem', e4, rm⟩ := key
        exact ⟨e, mem', by simp [L.ex, e1, e2, e3, e4], hI, hP, hV, rm⟩
  | st1 p s =>
    replace h : lSt1 (16 * W) cfg base I P Vs M p s = some s' := h
    simp only [lSt1, orec, Option.some.injEq] at h
    obtain ⟨q, hq, r, hr, M', hw, rfl⟩ := h
    obtain ⟨q', e1, rq⟩ := fP_ok hI hP hq
    obtain ⟨x, e2, v, rv, hv⟩ := sB_ok hW hI hP hM hr
    obtain ⟨mem', e3, rm⟩ := fWr_ok hW hM hw rq rv
    rw [wr_congr hv] at e3
    exact ⟨e, mem', by simp [L.ex, e1, e2, e3], hI, hP, hV, rm⟩
  | cpy p q n =>
    replace h : lCpy (16 * W) cfg base I P Vs M p q n = some s' := h
    simp only [lCpy, orec, frc_eq, Option.some.injEq] at h
    obtain ⟨p', hp, q', hq, n', hn, r, hr, M', hw, rfl⟩ := h
    obtain ⟨p'', e1, rp⟩ := fP_ok hI hP hp
    obtain ⟨q'', e2, rq⟩ := fP_ok hI hP hq
    obtain ⟨v, e3, rv, -⟩ := fRd_ok hW hM hr rq
    obtain ⟨mem', e4, rm⟩ := fWr_ok hW hM hw rp rv
    exact ⟨e, mem', by simp [L.ex, e1, e2, e3, e4, fNat_ok hI hn], hI, hP, hV, rm⟩
  | fill p s n =>
    replace h : lFill (16 * W) cfg base I P Vs M p s n = some s' := h
    simp only [lFill, orec, frc_eq, Option.some.injEq] at h
    obtain ⟨p', hp, c, hc, n', hn, r, hr, M', hw, rfl⟩ := h
    obtain ⟨p'', e1, rp⟩ := fP_ok hI hP hp
    obtain ⟨x, e2, rc⟩ := fSE_ok hW hI hP hM hc
    obtain ⟨mem', e4, rm⟩ := fWr_ok hW hM hw rp (bcast_ok hW hr rc)
    exact ⟨e, mem', by simp [L.ex, e1, e2, e4, fNat_ok hI hn], hI, hP, hV, rm⟩
  | bad => simp [fL] at h

theorem fExL_ok (hW : 3 < W) {l : List L} : ∀ {s s' : FS} {e : Env} {mem : Mem}, fExL (16 * W) cfg base l s = some s' → RS σ W s e mem →
    ∃ e' mem', exL cfg jk jr base l e mem = some (e', mem') ∧ RS σ W s' e' mem' := by
  induction l with
  | nil =>
    intro s s' e mem h hs
    simp only [fExL, Option.some.injEq] at h
    subst h
    exact ⟨e, mem, rfl, hs⟩
  | cons x l ih =>
    intro s s' e mem h hs
    replace h : Option.rec (motive := fun _ => Option FS) none (fun s => fExL (16 * W) cfg base l s) (fL (16 * W) cfg base x s) = some s' := h
    rw [orec] at h
    obtain ⟨t, ht, h⟩ := h
    obtain ⟨e1, m1, x1, r1⟩ := fL_ok (jk := jk) (jr := jr) hW ht hs
    obtain ⟨e2, m2, x2, r2⟩ := ih h r1
    exact ⟨e2, m2, by simp [exL, x1, x2], r2⟩

theorem fIter_ok {c : Cd} {f : FS → Option FS} {g : Env → Mem → Option (Env × Mem)}
    (hf : ∀ {s s' e mem}, f s = some s' → RS σ W s e mem → ∃ e' mem', g e mem = some (e', mem') ∧ RS σ W s' e' mem') (n : Nat) :
    ∀ {s s' : FS} {e : Env} {mem : Mem}, fIter c f n s = some s' → RS σ W s e mem → ∃ e' mem', iter c g n e mem = some (e', mem') ∧ RS σ W s' e' mem' := by
  induction n with
  | zero => intro s s' e mem h; simp [fIter] at h
  | succ n ih =>
    intro s s' e mem h hs
    replace h : Option.rec (motive := fun _ => Option FS) none (fun b => Bool.rec (motive := fun _ => Option FS) (some s)
      (Option.rec (motive := fun _ => Option FS) none (fun s => fIter c f n s) (f s)) b) (fC s.I c) = some s' := h
    rw [orec] at h
    obtain ⟨b, hb, h⟩ := h
    have hc := fC_ok hs.i hb
    cases b with
    | false =>
      simp only [Option.some.injEq] at h
      subst h
      exact ⟨e, mem, by simp [iter, hc], hs⟩
    | true =>
      dsimp only at h
      rw [orec] at h
      obtain ⟨t, ht, h⟩ := h
      obtain ⟨e1, m1, x1, r1⟩ := hf ht hs
      obtain ⟨e2, m2, x2, r2⟩ := ih h r1
      exact ⟨e2, m2, by simp [iter, hc, x1, x2], r2⟩

theorem fStart_ok {src dst : FP} {src' dst' : Ptr} {stride mode w h : FN} {stride' mode' w' h' : Num} (h1 : RP src src') (h2 : RP dst dst')
    (h3 : RN stride stride') (h4 : RN mode mode') (h5 : RN w w') (h6 : RN h h') (hM : RMs σ W M mem) :
    RS σ W (fStart src dst stride mode w h M) (start src' dst' stride' mode' w' h') mem := by
  refine ⟨fun i p hi => ?_, fun i p hi => ?_, fun i p hi => ?_, hM⟩
  · simp only [fStart] at hi
    simp only [start]
    rcases T.get_set hi with ⟨rfl, rfl⟩ | ⟨n3, hi⟩
    · exact h6
    · rcases T.get_set hi with ⟨rfl, rfl⟩ | ⟨n2, hi⟩
      · exact h5
      · rcases T.get_set hi with ⟨rfl, rfl⟩ | ⟨n1, hi⟩
        · exact h4
        · rcases T.get_set hi with ⟨rfl, rfl⟩ | ⟨n0, hi⟩
          · exact h3
          · have := T.get_full hi
            simp only [Option.some.injEq] at this
            subst this
            rw [if_neg n0, if_neg n1, if_neg n2, if_neg n3]
            exact ⟨by simp, by simp⟩
  · simp only [fStart] at hi
    simp only [start]
    rcases T.get_set hi with ⟨rfl, rfl⟩ | ⟨n1, hi⟩
    · exact ⟨_, rfl, h2⟩
    · rcases T.get_set hi with ⟨rfl, rfl⟩ | ⟨n0, hi⟩
      · exact ⟨_, rfl, h1⟩
      · exact absurd (T.get_full hi) (by simp)
  · simp only [fStart] at hi
    exact absurd (T.get_full hi) (by simp)

/-- If the evaluator gets through the program, so does the machine, and the states agree. -/
theorem fEx_ok (hW : 3 < W) (t : Stmt) : ∀ {base : Nat} {s s' : FS} {e : Env} {mem : Mem}, fEx (16 * W) cfg t base s = some s' → RS σ W s e mem →
    ∃ e' mem', t.ex cfg jk jr base e mem = some (e', mem') ∧ RS σ W s' e' mem' := by
  induction t with
  | run l => intro base s s' e mem h hs; exact fExL_ok hW h hs
  | seq t u iht ihu =>
    intro base s s' e mem h hs
    replace h : eSeq (fEx (16 * W) cfg t) (fEx (16 * W) cfg u) base s = some s' := h
    simp only [eSeq, orec] at h
    obtain ⟨r, hr, h⟩ := h
    obtain ⟨e1, m1, x1, r1⟩ := iht hr hs
    obtain ⟨e2, m2, x2, r2⟩ := ihu h r1
    exact ⟨e2, m2, by simp [Stmt.ex, x1, x2], r2⟩
  | ite c t u iht ihu =>
    intro base s s' e mem h hs
    replace h : eIte c (fEx (16 * W) cfg t) (fEx (16 * W) cfg u) base s = some s' := h
    simp only [eIte, orec] at h
    obtain ⟨b, hb, h⟩ := h
    have hc := fC_ok hs.i hb
    cases b with
    | false =>
      obtain ⟨e1, m1, x1, r1⟩ := ihu h hs
      exact ⟨e1, m1, by simp [Stmt.ex, hc, x1], r1⟩
    | true =>
      obtain ⟨e1, m1, x1, r1⟩ := iht h hs
      exact ⟨e1, m1, by simp [Stmt.ex, hc, x1], r1⟩
  | loop c t ih =>
    intro base s s' e mem h hs
    replace h : eLoop c (fEx (16 * W) cfg t) base s = some s' := h
    unfold eLoop at h
    unfold Stmt.ex
    generalize 4096 = n at h ⊢
    exact fIter_ok (fun h hs => ih h hs) n h hs
  | call t src dst stride mode w h ih =>
    intro base s s' e mem hh hs
    replace hh : eCall src dst stride mode w h (fEx (16 * W) cfg t) base s = some s' := hh
    simp only [eCall, orec, Option.some.injEq] at hh
    obtain ⟨a1, ha1, a2, ha2, a3, ha3, a4, ha4, a5, ha5, a6, ha6, r, hr, rfl⟩ := hh
    obtain ⟨b1, x1, r1⟩ := fP_ok hs.i hs.p ha1
    obtain ⟨b2, x2, r2⟩ := fP_ok hs.i hs.p ha2
    obtain ⟨b3, x3, r3⟩ := fE_ok hs.i ha3
    obtain ⟨b4, x4, r4⟩ := fE_ok hs.i ha4
    obtain ⟨b5, x5, r5⟩ := fE_ok hs.i ha5
    obtain ⟨b6, x6, r6⟩ := fE_ok hs.i ha6
    obtain ⟨e1, m1, x7, r7⟩ := ih hr (fStart_ok r1 r2 r3 r4 r5 r6 hs.m)
    rw [nadd] at x7
    exact ⟨e, m1, by simp [Stmt.ex, x1, x2, x3, x4, x5, x6, x7], hs.i, hs.p, hs.v, r7.m⟩

end

end Davs2.Vp.Sym
