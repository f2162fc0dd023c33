import Verif.Lemmas.VpOps
/-
The evaluator of Lemmas/VpSym follows the programs of Model/VecProg.
-/
namespace Davs2.Vp.Sym

open Vc (V)

/-! ### Integers -/

theorem add1_some {α : Type} {x y : Nat} {k : Nat → Option α} {q : α} :
    add1 x y k = some q ↔ 1048576 ≤ x + y ∧ k (x + y - 1048576) = some q := by simp only [add1, brec1, Nat.ble_eq, nadd, nsub]

theorem sub1_some {α : Type} {x y : Nat} {k : Nat → Option α} {q : α} :
    sub1 x y k = some q ↔ y ≤ x + 1048576 ∧ k (x + 1048576 - y) = some q := by simp only [sub1, brec1, Nat.ble_eq, nadd, nsub]

theorem mul1_some {α : Type} {x y : Nat} {k : Nat → Option α} {q : α} :
    mul1 x y k = some q ↔ 1048576 * x ≤ 1048576 + x * y ∧ k (1048576 + x * y - 1048576 * x) = some q := by
  simp only [mul1, brec1, Nat.ble_eq, nadd, nsub, nmul]

theorem mul1_val {m y r : Nat} {A : Int} (h : 1048576 * m ≤ 1048576 + m * y) (hr : 1048576 + m * y - 1048576 * m = r) (hy : (y : Int) = A + 1048576) :
    (r : Int) = m * A + 1048576 := by
  have h1 : r + m * 1048576 = 1048576 + m * y := by omega
  have h2 : (r : Int) + m * 1048576 = 1048576 + m * y := by exact_mod_cast h1
  rw [hy] at h2
  linarith

theorem mulN_ok {m : Nat} {q r : FN} {A B : Int} (h : FN.mulN m q = some r) (ha : (q.a : Int) = A + 1048576) (hb : (q.b : Int) = B + 1048576) :
    (r.a : Int) = m * A + 1048576 ∧ (r.b : Int) = m * B + 1048576 := by
  simp only [FN.mulN, mul1_some, Option.some.injEq] at h
  obtain ⟨h1, h2, rfl⟩ := h
  exact ⟨mul1_val h1 rfl ha, mul1_val h2 rfl hb⟩

section
variable {I : T FN} {J : Nat → Num}

def RI (I : T FN) (J : Nat → Num) : Prop := ∀ i p, I.get i = some p → RN p (J i)

theorem fE_ok (hI : RI I J) {e : E} {p : FN} (h : fE I e = some p) : ∃ k, e.ev J = some k ∧ RN p k := by
  induction e generalizing p with
  | n k =>
    refine ⟨⟨k, 0⟩, rfl, ?_⟩
    replace h : zb k = some p := h
    cases k with
    | ofNat n =>
      simp only [zb, Option.some.injEq, nadd] at h
      subst h; exact ⟨by simp; omega, by simp⟩
    | negSucc n =>
      simp only [zb, brec1, Nat.ble_eq, Option.some.injEq, nsub] at h
      obtain ⟨h1, rfl⟩ := h
      exact ⟨by simp only []; omega, by simp⟩
  | v i => exact ⟨_, rfl, hI i p h⟩
  | add x y ihx ihy =>
    replace h : eAdd (fE I x) (fE I y) = some p := h
    simp only [eAdd, orec, FN.add, add1_some, Option.some.injEq] at h
    obtain ⟨a, ha, b, hb, h1, h2, rfl⟩ := h
    obtain ⟨ka, e1, r1⟩ := ihx ha; obtain ⟨kb, e2, r2⟩ := ihy hb
    have := r1.a; have := r1.b; have := r2.a; have := r2.b
    exact ⟨⟨ka.a + kb.a, ka.b + kb.b⟩, by simp [E.ev, e1, e2], ⟨by simp only []; omega, by simp only []; omega⟩⟩
  | sub x y ihx ihy =>
    replace h : eSub (fE I x) (fE I y) = some p := h
    simp only [eSub, orec, FN.sub, sub1_some, Option.some.injEq] at h
    obtain ⟨a, ha, b, hb, h1, h2, rfl⟩ := h
    obtain ⟨ka, e1, r1⟩ := ihx ha; obtain ⟨kb, e2, r2⟩ := ihy hb
    have := r1.a; have := r1.b; have := r2.a; have := r2.b
    exact ⟨⟨ka.a - kb.a, ka.b - kb.b⟩, by simp [E.ev, e1, e2], ⟨by simp only []; omega, by simp only []; omega⟩⟩
  | mul x y ihx ihy =>
    replace h : eMul (fE I x) (fE I y) = some p := h
    simp only [eMul, orec] at h
    obtain ⟨a, ha, b, hb, h⟩ := h
    obtain ⟨ka, e1, r1⟩ := ihx ha; obtain ⟨kb, e2, r2⟩ := ihy hb
    have ra := r1.a; have rb := r1.b; have sa := r2.a; have sb := r2.b
    unfold FN.mul at h
    rw [brec] at h
    by_cases h0 : Nat.beq a.b 1048576 = true
    · rw [if_pos h0, brec1, Nat.ble_eq] at h
      rw [Nat.beq_eq] at h0
      obtain ⟨h1, h2⟩ := h
      have := mulN_ok h2 sa sb
      have hm : ((Nat.sub a.a 1048576 : Nat) : Int) = ka.a := by rw [nsub]; omega
      rw [hm] at this
      have hz : ka.b = 0 := by omega
      exact ⟨⟨ka.a * kb.a, ka.a * kb.b⟩, by simp [E.ev, e1, e2, hz], ⟨this.1, this.2⟩⟩
    · rw [if_neg h0, brec1, brec1, Nat.ble_eq] at h
      rw [Nat.beq_eq] at h0 h
      obtain ⟨h1, h2, h3⟩ := h
      have := mulN_ok h3 ra rb
      have hm : ((Nat.sub b.a 1048576 : Nat) : Int) = kb.a := by rw [nsub]; omega
      rw [hm] at this
      have hz : kb.b = 0 := by omega
      have hn : ka.b ≠ 0 := by omega
      exact ⟨⟨ka.a * kb.a, ka.b * kb.a⟩, by simp [E.ev, e1, e2, hz, hn],
        ⟨by rw [this.1, Int.mul_comm], by rw [this.2, Int.mul_comm]⟩⟩
  | div x y ihx ihy =>
    replace h : eDiv (fE I x) (fE I y) = some p := h
    simp only [eDiv, orec, FN.div, brec1, Nat.ble_eq, Nat.beq_eq, Option.some.injEq, nadd, ndiv, nsub] at h
    obtain ⟨a, ha, b, hb, h1, h2, h3, h4, rfl⟩ := h
    obtain ⟨ka, e1, r1⟩ := ihx ha; obtain ⟨kb, e2, r2⟩ := ihy hb
    have := r1.a; have := r1.b; have := r2.a; have := r2.b
    have z1 : ka.b = 0 := by omega
    have z2 : kb.b = 0 := by omega
    have z3 : kb.a ≠ 0 := by omega
    refine ⟨⟨ka.a.tdiv kb.a, 0⟩, by simp [E.ev, e1, e2, z1, z2, z3], ⟨?_, by simp⟩⟩
    obtain ⟨m, hm⟩ : ∃ m : Nat, a.a - 1048576 = m := ⟨_, rfl⟩
    obtain ⟨n, hn⟩ : ∃ n : Nat, b.a - 1048576 = n := ⟨_, rfl⟩
    have e3 : ka.a = (m : Int) := by omega
    have e4 : kb.a = (n : Int) := by omega
    rw [e3, e4, hm, hn]
    simp only [Nat.cast_add]
    rw [show ((m : Int).tdiv n) = ((m / n : Nat) : Int) from rfl]; omega
  | shl x k ih =>
    replace h : eShl k (fE I x) = some p := h
    simp only [eShl, orec] at h
    obtain ⟨a, ha, h⟩ := h
    obtain ⟨ka, e1, r1⟩ := ih ha
    have := mulN_ok h r1.a r1.b
    have hp : ((Nat.pow 2 k : Nat) : Int) = 2 ^ k := by rw [npow]; simp
    rw [hp] at this
    exact ⟨⟨ka.a * 2 ^ k, ka.b * 2 ^ k⟩, by simp [E.ev, e1], ⟨by rw [this.1, Int.mul_comm], by rw [this.2, Int.mul_comm]⟩⟩
  | shr x k ih =>
    replace h : eShr k (fE I x) = some p := h
    simp only [eShr, orec, FN.shr, brec1, Nat.ble_eq, Nat.beq_eq, Option.some.injEq, nadd, ndiv, nsub, npow] at h
    obtain ⟨a, ha, h1, h2, rfl⟩ := h
    obtain ⟨ka, e1, r1⟩ := ih ha
    have := r1.a; have := r1.b
    have z1 : ka.b = 0 := by omega
    refine ⟨⟨ka.a / 2 ^ k, 0⟩, by simp [E.ev, e1, z1], ⟨?_, by simp⟩⟩
    have e3 : ka.a = ((a.a - 1048576 : Nat) : Int) := by omega
    rw [e3]; push_cast; ring
  | land x k ih =>
    replace h : eLand k (fE I x) = some p := h
    simp only [eLand, orec, FN.land, brec1, Nat.ble_eq, Nat.beq_eq, Option.some.injEq, nadd, nland, nsub] at h
    obtain ⟨a, ha, h1, h2, rfl⟩ := h
    obtain ⟨ka, e1, r1⟩ := ih ha
    have := r1.a; have := r1.b
    have z1 : ka.b = 0 := by omega
    have z2 : 0 ≤ ka.a := by omega
    refine ⟨⟨(ka.a.toNat &&& k : Nat), 0⟩, by simp [E.ev, e1, z1, z2], ⟨?_, by simp⟩⟩
    have e3 : ka.a.toNat = a.a - 1048576 := by omega
    rw [e3]; push_cast; ring

theorem fZ_ok (hI : RI I J) {e : E} {p : Nat} (h : fZ I e = some p) : ∃ k : Int, e.evZ J = some k ∧ (p : Int) = k + 1048576 := by
  simp only [fZ, orec, brec1, Nat.beq_eq, Option.some.injEq] at h
  obtain ⟨a, ha, h1, rfl⟩ := h
  obtain ⟨k, e1, r⟩ := fE_ok hI ha
  have := r.a; have := r.b
  have z : k.b = 0 := by omega
  exact ⟨k.a, by simp [E.evZ, e1, z], r.a⟩

theorem fNat_ok (hI : RI I J) {e : E} {p : Nat} (h : fNat I e = some p) : e.evN J = some p := by
  simp only [fNat, orec, brec1, Nat.beq_eq, Nat.ble_eq, Option.some.injEq, nsub] at h
  obtain ⟨a, ha, h1, h2, rfl⟩ := h
  obtain ⟨k, e1, r⟩ := fE_ok hI ha
  have := r.a; have := r.b
  have z : k.b = 0 := by omega
  have z2 : 0 ≤ k.a := by omega
  simp [E.evN, e1, z, z2]; omega

theorem fC_ok (hI : RI I J) {c : Cd} {b : Bool} (h : fC I c = some b) : c.ev J = some b := by
  induction c generalizing b with
  | lt x y =>
    simp only [fC, orec, Option.some.injEq] at h
    obtain ⟨p, hp, q, hq, rfl⟩ := h
    obtain ⟨k, e1, r1⟩ := fZ_ok hI hp; obtain ⟨l, e2, r2⟩ := fZ_ok hI hq
    simp only [Cd.ev, e1, e2, Option.bind_eq_bind, Option.bind_some, Option.pure_def, Option.some.injEq]
    rw [Bool.eq_iff_iff, decide_eq_true_iff, Nat.ble_eq]; omega
  | le x y =>
    simp only [fC, orec, Option.some.injEq] at h
    obtain ⟨p, hp, q, hq, rfl⟩ := h
    obtain ⟨k, e1, r1⟩ := fZ_ok hI hp; obtain ⟨l, e2, r2⟩ := fZ_ok hI hq
    simp only [Cd.ev, e1, e2, Option.bind_eq_bind, Option.bind_some, Option.pure_def, Option.some.injEq]
    rw [Bool.eq_iff_iff, decide_eq_true_iff, Nat.ble_eq]; omega
  | eq x y =>
    simp only [fC, orec, Option.some.injEq] at h
    obtain ⟨p, hp, q, hq, rfl⟩ := h
    obtain ⟨k, e1, r1⟩ := fZ_ok hI hp; obtain ⟨l, e2, r2⟩ := fZ_ok hI hq
    simp only [Cd.ev, e1, e2, Option.bind_eq_bind, Option.bind_some, Option.pure_def, Option.some.injEq]
    rw [Bool.eq_iff_iff, decide_eq_true_iff, Nat.beq_eq]; omega
  | ne x y =>
    simp only [fC, orec, Option.some.injEq] at h
    obtain ⟨p, hp, q, hq, rfl⟩ := h
    obtain ⟨k, e1, r1⟩ := fZ_ok hI hp; obtain ⟨l, e2, r2⟩ := fZ_ok hI hq
    simp only [Cd.ev, e1, e2, Option.bind_eq_bind, Option.bind_some, Option.pure_def, Option.some.injEq, brec]
    rw [Bool.eq_iff_iff, decide_eq_true_iff]
    by_cases hpq : Nat.beq p q = true
    · rw [if_pos hpq]; rw [Nat.beq_eq] at hpq; simp only [Bool.false_eq_true, iff_false]; omega
    · rw [if_neg hpq]; rw [Nat.beq_eq] at hpq; simp only [iff_true]; omega
  | and c d ihc ihd =>
    replace h : Option.rec (motive := fun _ => Option Bool) none (fun b => Bool.rec (motive := fun _ => Option Bool) (some false) (fC I d) b) (fC I c) = some b := h
    rw [orec] at h
    obtain ⟨x, hx, h⟩ := h
    simp only [Cd.ev, ihc hx, Option.bind_eq_bind, Option.bind_some]
    cases x with
    | false => simpa using h
    | true => simpa using ihd h
  | or c d ihc ihd =>
    replace h : Option.rec (motive := fun _ => Option Bool) none (fun b => Bool.rec (motive := fun _ => Option Bool) (fC I d) (some true) b) (fC I c) = some b := h
    rw [orec] at h
    obtain ⟨x, hx, h⟩ := h
    simp only [Cd.ev, ihc hx, Option.bind_eq_bind, Option.bind_some]
    cases x with
    | false => simpa using ihd h
    | true => simpa using h

end

/-! ### Addresses -/

theorem fAddr_ok {cfg : Cfg} {size n o : Nat} {p : FP} {q : Ptr} (h : fAddr cfg size p.arr p.a p.b n = some o) (hr : RP p q) :
    cfg.addr size q n = some o := by
  have h1 := hr.arr; have h2 := hr.a; have h3 := hr.b
  unfold fAddr at h
  unfold Cfg.addr
  rw [← h1]
  rw [brec] at h
  by_cases h0 : p.arr = 0
  · rw [if_pos (by rw [Nat.beq_eq]; exact h0)] at h
    simp only [brec1, Nat.ble_eq, Nat.beq_eq, Option.some.injEq, nadd, nsub] at h
    rw [if_pos h0, if_pos (by omega)]; exact congrArg some (by omega)
  · rw [if_neg (by rw [Nat.beq_eq]; exact h0), brec] at h
    rw [if_neg h0]
    by_cases h1 : p.arr = 1
    · rw [if_pos (by rw [Nat.beq_eq]; exact h1)] at h
      simp only [brec1, Nat.ble_eq, Option.some.injEq, nadd, nsub, nmul] at h
      rw [if_pos h1, if_pos (by omega)]; exact congrArg some (by omega)
    · rw [if_neg (by rw [Nat.beq_eq]; exact h1)] at h
      simp only [brec1, Nat.ble_eq, Nat.beq_eq, Option.some.injEq, nadd, nsub, nmul] at h
      rw [if_neg h1, if_pos (by omega)]; exact congrArg some (by omega)

section
variable {σ : Nat → Nat} {W : Nat}

/-! ### Arrays -/

theorem RB.cut {p : Bool} {la la' a : Nat} {va : V} (h : RB σ W p la a va) (hl : la' ≤ la) : RB σ W p la' a va :=
  ⟨fun j hj => h.val j (by omega), h.one, h.flg⟩

theorem RB.weak {p p' : Bool} {la a : Nat} {va : V} (h : RB σ W p la a va) : RB σ W (p && p') la a va :=
  ⟨h.val, fun hp => h.one (by simp at hp; exact hp.1), fun hp => h.flg (by simp at hp; exact hp.1)⟩

theorem RB.congr {p : Bool} {la a : Nat} {va vb : V} (h : RB σ W p la a va) (hv : ∀ j < la, vb j = va j) : RB σ W p la a vb :=
  ⟨fun j hj hu => by rw [hv j hj]; exact h.val j hj hu, h.one, h.flg⟩

theorem sload_ok (hW : 3 < W) {a : SA} {m : Nat × (Nat → BitVec 8)} {o n : Nat} {q : SR} (h : sload (16 * W) a.pure a.cs o n = some q) (ha : RA σ W a m) :
    RR σ W q fun j => if j < n then m.2 (o + j) else 0 := by
  simp only [sload, brec1, orec, Nat.ble_eq, nadd, nsub, nmod, ndiv] at h
  obtain ⟨h1, x, hx, h⟩ := h
  rw [brec] at h; simp only [Nat.ble_eq] at h
  have rx := ha.val _ _ hx
  by_cases h2 : o % 64 + n ≤ 64
  · rw [if_pos h2] at h
    rw [mkB_eq h]
    refine RB.mdsr hW rx fun j hj => ?_
    by_cases hjn : j < n
    · rw [if_pos hjn, if_pos hjn]; refine ⟨by omega, ?_⟩
      rw [show 64 * (o / 64) + (o % 64 + j) = o + j by omega]
    · rw [if_neg hjn, if_neg hjn]
  · rw [if_neg h2, orec] at h
    obtain ⟨y, hy, h⟩ := h
    rw [mkB_eq h]
    have ry := ha.val _ _ hy
    show RB σ W a.pure 64 _ _
    rw [← Bool.and_self a.pure]
    refine RB.move hW rx ry fun j => ?_
    by_cases hjn : j < n
    · by_cases hj : j < 64 - o % 64
      · refine Or.inl ⟨o % 64 + j, (same_md hjn).trans ((same_cat1 hj).trans (same_sr _ _ _)), fun _ => ⟨by omega, ?_⟩⟩
        rw [if_pos hjn, show 64 * (o / 64) + (o % 64 + j) = o + j by omega]
      · refine Or.inr (Or.inl ⟨j - (64 - o % 64), (same_md hjn).trans (same_cat2 (by omega)), fun _ => ⟨by omega, ?_⟩⟩)
        rw [if_pos hjn, show 64 * Nat.succ (o / 64) + (j - (64 - o % 64)) = o + j by simp only [Nat.succ_eq_add_one]; omega]
    · exact Or.inr (Or.inr ⟨same_md0 (by omega), fun _ => if_neg hjn⟩)

theorem dig_splice (r n N x k : Nat) : dig (splice (16 * W) r n N x) k =
    if k < W * r then dig x k else if k < W * (r + n) then dig N (k - W * r) else dig x k := by
  unfold splice
  simp only [nadd]
  have hle : W * r ≤ W * (r + n) := Nat.mul_le_mul_left W (by omega)
  have hd : W * (r + n) = W * r + W * n := Nat.mul_add _ _ _
  have c1 : ∀ k, dig (md (16 * W) x r) k + dig (sl (16 * W) (md (16 * W) N n) r) k < 65536 := fun k => by
    rw [dig_md, dig_sl]; have := dig_lt x k; have := dig_lt (md (16 * W) N n) (k - W * r)
    split <;> omega
  have e1 : ∀ k, dig (md (16 * W) x r + sl (16 * W) (md (16 * W) N n) r) k =
      if k < W * r then dig x k else if k < W * (r + n) then dig N (k - W * r) else 0 := fun k => by
    rw [dig_add c1, dig_md, dig_sl, dig_md]
    by_cases h : k < W * r
    · rw [if_pos h, if_pos h, if_pos h]; rfl
    · rw [if_neg h, if_neg h, if_neg h, Nat.zero_add]
      by_cases h' : k < W * (r + n)
      · rw [if_pos h', if_pos (by omega)]
      · rw [if_neg h', if_neg (by omega)]
  have e2 : ∀ k, dig (sl (16 * W) (sr (16 * W) x (r + n)) (r + n)) k = if k < W * (r + n) then 0 else dig x k := fun k => by
    rw [dig_sl, dig_sr]; split
    · rfl
    · congr 1; omega
  rw [dig_add, e1, e2]
  · by_cases h : k < W * r
    · rw [if_pos h, if_pos (by omega), if_pos h]; rfl
    · rw [if_neg h, if_neg h]
      by_cases h' : k < W * (r + n)
      · rw [if_pos h', if_pos h', if_pos h']; rfl
      · rw [if_neg h', if_neg h', if_neg h', Nat.zero_add]
  · intro k; rw [e1, e2]
    have := dig_lt x k; have := dig_lt N (k - W * r)
    by_cases h : k < W * r
    · rw [if_pos h, if_pos (by omega)]; omega
    · rw [if_neg h]; split <;> omega

/-- Cells replaced. -/
theorem RB.splice (hW : 3 < W) {p p' : Bool} {r n len N x : Nat} {vx vn v : V} (hx : RB σ W p 64 x vx) (hn : RB σ W p' len N vn) (hl : n ≤ len)
    (hv : ∀ j < 64, v j = if r ≤ j ∧ j < r + n then vn (j - r) else vx j) : RB σ W (p && p') 64 (splice (16 * W) r n N x) v := by
  refine RB.move hW hx hn fun j => ?_
  by_cases h : r ≤ j ∧ j < r + n
  · refine Or.inr (Or.inl ⟨j - r, fun k hk => ?_, fun hj => ⟨by omega, by rw [hv j hj, if_pos h]⟩⟩)
    have h1 := Nat.mul_le_mul_left W h.1
    have h2 := Nat.mul_le_mul_left W (show j + 1 ≤ r + n by omega)
    rw [Nat.mul_succ] at h2
    rw [dig_splice, if_neg (by omega), if_pos (by omega), Nat.mul_sub]; congr 1; omega
  · refine Or.inl ⟨j, fun k hk => ?_, fun hj => ⟨hj, by rw [hv j hj, if_neg h]⟩⟩
    rw [dig_splice]
    by_cases h1 : j < r
    · have h2 := Nat.mul_le_mul_left W (show j + 1 ≤ r by omega)
      rw [Nat.mul_succ] at h2
      rw [if_pos (by omega)]
    · have h2 := Nat.mul_le_mul_left W (show r + n ≤ j by omega)
      rw [Nat.mul_add] at h2
      rw [if_neg (by omega), if_neg (by rw [Nat.mul_add]; omega)]

theorem RB.shift (hW : 3 < W) {p : Bool} {len N q : Nat} {v : V} (h : RB σ W p len N v) : RB σ W p (len - q) (sr (16 * W) N q) fun j => v (q + j) :=
  RB.move1 hW h fun j => Or.inl ⟨q + j, same_sr N q j, fun hj => ⟨by omega, rfl⟩⟩

theorem sstore_ok (hW : 3 < W) {a a' : SA} {m : Nat × (Nat → BitVec 8)} {o n : Nat} {r : SR} {v : V} (h : sstore (16 * W) a o n r = some a')
    (ha : RA σ W a m) (hr : RR σ W r v) : RA σ W a' (m.1, fun k => if o ≤ k ∧ k < o + n then v (k - o) else m.2 k) := by
  cases r with
  | w => simp [sstore] at h
  | b p len N =>
    replace hr : RB σ W p len N v := hr
    simp only [sstore, brec1, orec, Nat.ble_eq, nadd, nsub, nmod, ndiv] at h
    obtain ⟨h1, h2, x, hx, h⟩ := h
    rw [brec] at h; simp only [Nat.ble_eq] at h
    have rx := ha.val _ _ hx
    by_cases h3 : o % 64 + n ≤ 64
    · rw [if_pos h3] at h
      simp only [frc_eq, frcB_eq, T.frc_eq, Option.some.injEq] at h
      subst h
      refine ⟨ha.size, fun q X hq => ?_⟩
      rcases T.get_set hq with ⟨rfl, rfl⟩ | ⟨hne, hq⟩
      · refine RB.splice hW rx hr h1 fun j hj => ?_
        dsimp only
        by_cases hc : o % 64 ≤ j ∧ j < o % 64 + n
        · rw [if_pos hc, if_pos (by omega)]; congr 1; omega
        · rw [if_neg hc, if_neg (by omega)]
      · refine RB.congr (RB.weak (ha.val _ _ hq)) fun j hj => ?_
        dsimp only
        rw [if_neg (by omega)]
    · rw [if_neg h3, orec] at h
      obtain ⟨y, hy, h⟩ := h
      have ry := ha.val _ _ hy
      simp only [frc_eq, frcB_eq, T.frc_eq, Option.some.injEq] at h
      subst h
      refine ⟨ha.size, fun q X hq => ?_⟩
      rcases T.get_set hq with ⟨rfl, rfl⟩ | ⟨hne, hq⟩
      · refine RB.splice hW ry (RB.shift (q := 64 - o % 64) hW hr) (by omega) fun j hj => ?_
        simp only [Nat.succ_eq_add_one]
        by_cases hc : 0 ≤ j ∧ j < 0 + (n - (64 - o % 64))
        · rw [if_pos hc, if_pos (by omega)]; congr 1; omega
        · rw [if_neg hc, if_neg (by omega)]
      · rcases T.get_set hq with ⟨rfl, rfl⟩ | ⟨hne', hq⟩
        · refine RB.splice hW rx hr (by omega) fun j hj => ?_
          dsimp only
          by_cases hc : o % 64 ≤ j ∧ j < o % 64 + (64 - o % 64)
          · rw [if_pos hc, if_pos (by omega)]; congr 1; omega
          · rw [if_neg hc, if_neg (by omega)]
        · refine RB.congr (RB.weak (ha.val _ _ hq)) fun j hj => ?_
          simp only [Nat.succ_eq_add_one] at hne
          dsimp only
          rw [if_neg (by omega)]

/-! ### States -/

def RPs (P : T FP) (Q : Nat → Option Ptr) : Prop := ∀ i p, P.get i = some p → ∃ q, Q i = some q ∧ RP p q

variable (σ W) in
def RVs (Vs : T SR) (U : Nat → Option V) : Prop := ∀ i r, Vs.get i = some r → ∃ v, U i = some v ∧ RR σ W r v

variable (σ W) in
def RMs (M : T SA) (mem : Mem) : Prop := ∀ i a, M.get i = some a → RA σ W a (mem i)

variable (σ W) in
structure RS (s : FS) (e : Env) (mem : Mem) : Prop where
  i : RI s.I e.I
  p : RPs s.P e.P
  v : RVs σ W s.V e.V
  m : RMs σ W s.M mem

variable {cfg : Cfg} {base : Nat} {I : T FN} {P : T FP} {Vs : T SR} {M : T SA} {e : Env} {mem : Mem}

theorem fP_ok (hI : RI I e.I) (hP : RPs P e.P) {p : PE} {q : FP} (h : fP base I P p = some q) : ∃ k, p.ev base e = some k ∧ RP q k := by
  induction p generalizing q with
  | pv i =>
    simp only [fP, orec] at h
    obtain ⟨k, hk, h⟩ := h
    obtain ⟨r, hr, h1⟩ := hP _ _ h
    exact ⟨r, by simp [PE.ev, fNat_ok hI hk, hr], h1⟩
  | pa i =>
    simp only [fP, Option.some.injEq] at h
    subst h
    exact ⟨_, rfl, ⟨rfl, by simp, by simp⟩⟩
  | add p d ih =>
    replace h : Option.rec (motive := fun _ => Option FP) none (fun q => Option.rec (motive := fun _ => Option FP) none
      (fun d => add1 q.a d.a fun a => add1 q.b d.b fun b => some ⟨q.arr, a, b⟩) (fE I d)) (fP base I P p) = some q := h
    simp only [orec, add1_some, Option.some.injEq] at h
    obtain ⟨a, ha, b, hb, h1, h2, rfl⟩ := h
    obtain ⟨k, e1, r1⟩ := ih ha; obtain ⟨l, e2, r2⟩ := fE_ok hI hb
    have := r1.a; have := r1.b; have := r2.a; have := r2.b
    exact ⟨⟨k.arr, ⟨k.off.a + l.a, k.off.b + l.b⟩⟩, by simp [PE.ev, e1, e2], ⟨r1.arr, by simp only []; omega, by simp only []; omega⟩⟩
  | sub p d ih =>
    replace h : Option.rec (motive := fun _ => Option FP) none (fun q => Option.rec (motive := fun _ => Option FP) none
      (fun d => sub1 q.a d.a fun a => sub1 q.b d.b fun b => some ⟨q.arr, a, b⟩) (fE I d)) (fP base I P p) = some q := h
    simp only [orec, sub1_some, Option.some.injEq] at h
    obtain ⟨a, ha, b, hb, h1, h2, rfl⟩ := h
    obtain ⟨k, e1, r1⟩ := ih ha; obtain ⟨l, e2, r2⟩ := fE_ok hI hb
    have := r1.a; have := r1.b; have := r2.a; have := r2.b
    exact ⟨⟨k.arr, ⟨k.off.a - l.a, k.off.b - l.b⟩⟩, by simp [PE.ev, e1, e2], ⟨r1.arr, by simp only []; omega, by simp only []; omega⟩⟩

theorem fRd_ok (hW : 3 < W) (hM : RMs σ W M mem) {p : FP} {k : Ptr} {n : Nat} {r : SR} (h : fRd (16 * W) cfg M p n = some r) (hp : RP p k) :
    ∃ v, rd cfg mem k n = some v ∧ RR σ W r v ∧ ∃ o, v = fun j => if j < n then (mem k.arr).2 (o + j) else 0 := by
  simp only [fRd, orec, frc_eq] at h
  obtain ⟨a, ha, o, ho, h⟩ := h
  have ra := hM _ _ ha
  have e1 := fAddr_ok ho hp
  rw [hp.arr] at ra
  rw [ra.size] at e1
  exact ⟨_, by simp [rd, e1], sload_ok hW h ra, o, rfl⟩

theorem fWr_ok (hW : 3 < W) (hM : RMs σ W M mem) {p : FP} {k : Ptr} {n : Nat} {r : SR} {v : V} {M' : T SA} (h : fWr (16 * W) cfg M p n r = some M')
    (hp : RP p k) (hr : RR σ W r v) : ∃ mem', wr cfg mem k n v = some mem' ∧ RMs σ W M' mem' := by
  simp only [fWr, brec0, orec, frc_eq, T.frc_eq, Option.some.injEq] at h
  obtain ⟨h0, a, ha, o, ho, a', h, rfl⟩ := h
  have ra := hM _ _ ha
  have e1 := fAddr_ok ho hp
  rw [hp.arr] at ra
  rw [ra.size] at e1
  have h0 : k.arr ≠ 0 := by
    intro hk
    rw [hp.arr, hk] at h0
    simp at h0
  refine ⟨fun i => if i = k.arr then ((mem i).1, fun j => if o ≤ j ∧ j < o + n then v (j - o) else (mem i).2 j) else mem i,
    by simp only [wr, e1, h0, Option.bind_eq_bind, Option.bind_some, if_false, Option.pure_def], fun i b hb => ?_⟩
  rcases T.get_set hb with ⟨rfl, rfl⟩ | ⟨hne, hb⟩
  · rw [hp.arr]; dsimp only; rw [if_pos rfl]
    exact sstore_ok hW h ra hr
  · dsimp only; rw [if_neg (by rw [← hp.arr]; exact hne)]
    exact hM _ _ hb

/-! ### Scalars -/

theorem fSE_ok (hW : 3 < W) (hI : RI I e.I) (hP : RPs P e.P) (hM : RMs σ W M mem) {s : SE} {c : SC} (h : fSE (16 * W) cfg base I P M s = some c) :
    ∃ x, s.ev cfg base e mem = some x ∧ RC σ W c x := by
  induction s generalizing c with
  | n k =>
    simp only [fSE, brec1, Nat.ble_eq, Option.some.injEq] at h
    obtain ⟨h1, rfl⟩ := h
    have hd := dig_small (show k < 65536 by omega)
    refine ⟨k, rfl, fun j => ?_, ?_, fun _ => ?_, fun _ => Nat.le_refl _, fun l hl => ⟨by simpa using hl, Nat.le_refl _⟩⟩
    · simp only []; rw [hd]; split <;> omega
    · rw [hd]; rfl
    · have h0 : num σ W k 0 = k := by
        unfold num
        rw [hd, if_pos (by omega), Finset.sum_eq_zero fun i hi => ?_]
        · rfl
        · rw [hd, if_neg (by omega), Nat.zero_mul]
      simp only [Bool.false_eq_true, if_false]; exact h0.symm
  | ld p =>
    replace h : sLd (16 * W) cfg base I P M p = some c := h
    simp only [sLd, orec] at h
    obtain ⟨q, hq, r, hr, h⟩ := h
    obtain ⟨k, e1, rp⟩ := fP_ok hI hP hq
    obtain ⟨v, e2, rv, -⟩ := fRd_ok hW hM hr rp
    cases r with
    | w => simp at h
    | b pu len N =>
      simp only [brec1, Nat.ble_eq, frc_eq, Option.some.injEq] at h
      obtain ⟨rfl, h1, rfl⟩ := h
      replace rv : RB σ W true len N v := rv
      have hs := same_md (W := W) (N := N) (show 0 < 1 by omega)
      refine ⟨(v 0).toNat, by simp [SE.ev, e1, e2], fun k => ?_, ?_, fun hu => ?_, fun _ => ?_, fun l hl => by simp at hl⟩
      · show dig (md (16 * W) N 1) k ≤ 1
        rw [dig_md]; split
        · exact rv.one rfl k
        · omega
      · show dig (md (16 * W) N 1) 1 = 0
        rw [dig_md, if_pos (by omega)]
        have := rv.flg rfl 0; rwa [Nat.mul_zero, Nat.zero_add] at this
      · simp only [Bool.false_eq_true, if_false]
        rw [rv.val 0 (by omega) ((hs.ut hW).mp hu), hs.num hW, cv, if_pos (rv.flg rfl 0)]
      · have := (v 0).isLt; show (v 0).toNat ≤ 255; omega
  | add x y ihx ihy =>
    replace h : sAdd (fSE (16 * W) cfg base I P M x) (fSE (16 * W) cfg base I P M y) = some c := h
    simp only [sAdd, orec, brec0, brec1, Nat.ble_eq, frc_eq, Option.some.injEq, nadd] at h
    obtain ⟨a, ha, b, hb, sa, sb, h1, rfl⟩ := h
    obtain ⟨x', e1, r1⟩ := ihx ha; obtain ⟨y', e2, r2⟩ := ihy hb
    have hc : ∀ k, dig a.N k + dig b.N k < 65536 := fun k => by have := r1.le k; have := r2.le k; omega
    have hut : Ut W (a.N + b.N) 0 → Ut W a.N 0 ∧ Ut W b.N 0 := fun hu => by unfold Ut at *; rw [dig_add hc] at hu; omega
    refine ⟨x' + y', by simp [SE.ev, e1, e2], fun k => ?_, ?_, fun hu => ?_, fun hu => ?_, fun l hl => by simp at hl⟩
    · simp only []; rw [dig_add hc]; have := r1.le k; have := r2.le k; omega
    · simp only []; rw [dig_add hc, r1.flg, r2.flg]
    · have v1 := r1.val (hut hu).1; have v2 := r2.val (hut hu).2
      rw [sa] at v1; rw [sb] at v2
      simp only [Bool.false_eq_true, if_false] at v1 v2 ⊢
      rw [num_add hc, v1, v2]
    · have := r1.bnd (hut hu).1; have := r2.bnd (hut hu).2; simp only []; omega
  | mul k x ih =>
    replace h : sMul k (fSE (16 * W) cfg base I P M x) = some c := h
    simp only [sMul, orec, brec0, brec1, Nat.ble_eq, frc_eq, Option.some.injEq, nmul] at h
    obtain ⟨a, ha, sa, h1, rfl⟩ := h
    obtain ⟨x', e1, r1⟩ := ih ha
    have hc : ∀ j, dig a.N j * k ≤ a.dm * k := fun j => Nat.mul_le_mul_right k (r1.le j)
    have hc' : ∀ j, dig a.N j * k < 65536 := fun j => by have := hc j; omega
    have hut : Ut W (a.N * k) 0 → k = 0 ∨ Ut W a.N 0 := fun hu => by
      unfold Ut at *; rw [dig_mul hc'] at hu; exact (Nat.mul_eq_zero.mp hu).symm
    refine ⟨x' * k, by simp [SE.ev, e1], fun j => ?_, ?_, fun hu => ?_, fun hu => ?_, fun l hl => by simp at hl⟩
    · simp only []; rw [dig_mul hc']; exact hc j
    · simp only []; rw [dig_mul hc', r1.flg, Nat.zero_mul]
    · simp only [Bool.false_eq_true, if_false]
      rw [num_mul hc']
      rcases hut hu with rfl | hu
      · simp
      · have v1 := r1.val hu
        rw [sa] at v1
        simp only [Bool.false_eq_true, if_false] at v1
        rw [v1]
    · rcases hut hu with rfl | hu
      · simp
      · exact Nat.mul_le_mul_right k (r1.bnd hu)
  | shr x n ih =>
    replace h : sShr n (fSE (16 * W) cfg base I P M x) = some c := h
    simp only [sShr, orec, brec0, brec1, Nat.ble_eq, frc_eq, Option.some.injEq, nmul, npow, nsub, ndiv] at h
    obtain ⟨a, ha, sa, h0, h1, rfl⟩ := h
    obtain ⟨x', e1, r1⟩ := ih ha
    have hp := pow2_pos (7 - n)
    have hc : ∀ j, dig a.N j * 2 ^ (7 - n) ≤ a.dm * 2 ^ (7 - n) := fun j => Nat.mul_le_mul_right _ (r1.le j)
    have hc' : ∀ j, dig a.N j * 2 ^ (7 - n) < 65536 := fun j => by have := hc j; omega
    have hut : Ut W (a.N * 2 ^ (7 - n)) 0 → Ut W a.N 0 := fun hu => by
      unfold Ut at *; rw [dig_mul hc'] at hu; exact (Nat.mul_eq_zero.mp hu).resolve_right (by omega)
    refine ⟨x' / 2 ^ n, by simp [SE.ev, e1], fun j => ?_, ?_, fun hu => ?_, fun hu => ?_, fun l hl => by simp at hl⟩
    · simp only []; rw [dig_mul hc']; exact hc j
    · simp only []; rw [dig_mul hc', r1.flg, Nat.zero_mul]
    · have v1 := r1.val (hut hu)
      rw [sa] at v1
      simp only [Bool.false_eq_true, if_false, if_true] at v1 ⊢
      rw [num_mul hc', v1, show (128 : Nat) = 2 ^ n * 2 ^ (7 - n) by rw [← Nat.pow_add, show n + (7 - n) = 7 by omega], Nat.mul_div_mul_right _ _ hp]
    · exact Nat.div_le_div_right (r1.bnd (hut hu))

end

end Davs2.Vp.Sym
