import Verif.Lemmas.SimdDct
/-
Symbolic evaluation of the programs of the inverse wavelet transforms, and its soundness.

Every 16-bit lane has a number that stands for a value: the number `a < 4096` for the word at address `a` at the start, the number
`4096 + 128 y + x` for the result at row `y` and column `x`.
-/
namespace Davs2.Si

open Davs2.Vc Davs2.Spec

/-- A register: lanes, sums of two lanes, or nothing known. -/
inductive AW
  | h (l : List Oct)
  | p (l : List (Oct × Oct))
  | u

/-- The size of the low band: `w` × `h`. -/
structure Wx where
  w : Nat
  h : Nat

/-- Half of a source word: a result at an even row and an even column. -/
def cHalf (wx : Wx) (c : Nat) : Option Nat :=
  cond (Nat.blt c (Nat.mul wx.w wx.h))
    (some (Nat.add 4096 (Nat.add (Nat.mul 256 (Nat.div c wx.w)) (Nat.mul 2 (Nat.mod c wx.w))))) none

/-- Half of the sum of two results: equal, neighbours in a row, neighbours in a column. -/
def cAvg (wx : Wx) (a b : Nat) : Option Nat :=
  let d := Nat.sub a 4096
  cond (Nat.ble 4096 a)
    (cond (Nat.beq a b) (some a)
      (cond (Nat.beq (Nat.mod d 2) 0)
        (cond (Nat.beq b (Nat.add a 2) && Nat.blt (Nat.add (Nat.mod d 128) 2) (Nat.mul 2 wx.w)) (some (Nat.add a 1))
          (cond (Nat.beq b (Nat.add a 256) && Nat.beq (Nat.mod (Nat.div d 128) 2) 0 && Nat.blt (Nat.add (Nat.div d 128) 2) (Nat.mul 2 wx.h))
            (some (Nat.add a 128)) none)) none)) none

def oMap (f : Nat → Option Nat) (o : Oct) : Option Oct :=
  cond (Nat.beq o.f 0)
  (match f o.c0, f o.c1, f o.c2, f o.c3, f o.c4, f o.c5, f o.c6, f o.c7 with
    | some c0, some c1, some c2, some c3, some c4, some c5, some c6, some c7 => some ⟨c0, c1, c2, c3, c4, c5, c6, c7, 0⟩
    | _, _, _, _, _, _, _, _ => none) none

def oMap2 (f : Nat → Nat → Option Nat) (o : Oct × Oct) : Option Oct :=
  cond (Nat.beq o.1.f 0 && Nat.beq o.2.f 0)
  (match f o.1.c0 o.2.c0, f o.1.c1 o.2.c1, f o.1.c2 o.2.c2, f o.1.c3 o.2.c3, f o.1.c4 o.2.c4, f o.1.c5 o.2.c5, f o.1.c6 o.2.c6, f o.1.c7 o.2.c7 with
    | some c0, some c1, some c2, some c3, some c4, some c5, some c6, some c7 => some ⟨c0, c1, c2, c3, c4, c5, c6, c7, 0⟩
    | _, _, _, _, _, _, _, _ => none) none

/-- Lane by lane as far as both are known. -/
def zipT {γ : Type} (f : Oct → Oct → Option γ) : List Oct → List Oct → Option (List γ)
  | a :: l, b :: m => match f a b with
    | none => none
    | some c => match zipT f l m with
      | none => none
      | some r => some (c :: r)
  | _, _ => some []

def toHW : Option (List Oct) → AW
  | none => .u
  | some l => .h l

def pair1 (a b : Oct) : Option (Oct × Oct) := some (a, b)

def unpkW (f : Oct → Oct → Option Oct) : AW → AW → AW
  | .h l, .h m => toHW (zipT f l m)
  | _, _ => .u

def Op.absW : Op → AW → AW → AW
  | .lo16, a, b => unpkW oLo16 a b
  | .hi16, a, b => unpkW oHi16 a b
  | .lo32, a, b => unpkW oLo32 a b
  | .hi32, a, b => unpkW oHi32 a b
  | .lo64, a, b => unpkW oLo64 a b
  | .hi64, a, b => unpkW oHi64 a b
  | .add16, .h l, .h m => match zipT pair1 l m with
    | none => .u
    | some r => .p r
  | .perm20, .h (a :: _), .h (b :: _) => .h [a, b]
  | .perm31, .h [_, a], .h [_, b] => .h [a, b]
  | _, _, _ => .u

structure Sw where
  reg : Tr AW
  mem : Tr Oct

noncomputable def ldW (wx : Wx) (m : Tr Oct) (off : Nat) : Option Oct := cond (Nat.beq (Nat.mod off 8) 0) (m.get (Nat.div off 8)) none

noncomputable def X.absW (wx : Wx) (s : Sw) : X → AW
  | .r n => match s.reg.get n with
    | none => .u
    | some v => v
  | .ld n off => cond (Nat.beq n 8)
      (match ldW wx s.mem off with
        | none => .u
        | some o => .h [o])
      (cond (Nat.beq n 16)
        (match ldW wx s.mem off with
          | none => .u
          | some o => match ldW wx s.mem (Nat.add off 8) with
            | none => .h [o]
            | some o' => .h [o, o']) .u)
  | .op o a b => o.absW (a.absW wx s) (b.absW wx s)
  | .sra16 a n => cond (Nat.beq n 1)
      (match a.absW wx s with
        | .h l => toHW (map1 (oMap (cHalf wx)) l)
        | .p l => toHW (map1 (oMap2 (cAvg wx)) l)
        | .u => .u) .u
  | _ => .u

noncomputable def stW (wx : Wx) (m : Tr Oct) (off : Nat) (o : Oct) : Option (Tr Oct) :=
  cond (Nat.beq (Nat.mod off 8) 0 && Nat.ble (Nat.add off 8) (Nat.mul 4 (Nat.mul wx.w wx.h))) (some (m.set 9 (Nat.div off 8) o)) none

noncomputable def S.absW (wx : Wx) (s : Sw) : S → Option Sw
  | .set r e => some ⟨s.reg.set 11 r (e.absW wx s), s.mem⟩
  | .st n off e => match e.absW wx s with
      | .h [o] => cond (Nat.beq n 8)
          (match stW wx s.mem off o with
            | none => none
            | some m => some ⟨s.reg, m⟩) none
      | .h [o, o'] => cond (Nat.beq n 16)
          (match stW wx s.mem off o with
            | none => none
            | some m => match stW wx m (Nat.add off 8) o' with
              | none => none
              | some m' => some ⟨s.reg, m'⟩) none
      | _ => none
  | _ => none

noncomputable def absExecW (wx : Wx) : List S → Sw → Option Sw
  | [], s => some s
  | i :: p, s => match i.absW wx s with
    | none => none
    | some s' => absExecW wx p s'

def octW (a : Nat) : Oct := ⟨a, Nat.add a 1, Nat.add a 2, Nat.add a 3, Nat.add a 4, Nat.add a 5, Nat.add a 6, Nat.add a 7, 0⟩

noncomputable def initW : Nat → Tr Oct
  | 0 => .e
  | k + 1 => (initW k).set 9 k (octW (Nat.mul 8 k))

/-- The code of the result at an address: the last row and the last column are copies. -/
def codeW (wx : Wx) (a : Nat) : Nat :=
  let y := Nat.div a (Nat.mul 2 wx.w)
  let x := Nat.mod a (Nat.mul 2 wx.w)
  let y' := cond (Nat.beq (Nat.add y 1) (Nat.mul 2 wx.h)) (Nat.sub y 1) y
  let x' := cond (Nat.beq (Nat.add x 1) (Nat.mul 2 wx.w)) (Nat.sub x 1) x
  Nat.add 4096 (Nat.add (Nat.mul 128 y') x')

def goodW (wx : Wx) (a : Nat) (o : Oct) : Bool :=
  Nat.beq o.f 0 &&
  Nat.beq o.c0 (codeW wx a) && Nat.beq o.c1 (codeW wx (Nat.add a 1)) && Nat.beq o.c2 (codeW wx (Nat.add a 2)) && Nat.beq o.c3 (codeW wx (Nat.add a 3)) &&
  Nat.beq o.c4 (codeW wx (Nat.add a 4)) && Nat.beq o.c5 (codeW wx (Nat.add a 5)) && Nat.beq o.c6 (codeW wx (Nat.add a 6)) && Nat.beq o.c7 (codeW wx (Nat.add a 7))

noncomputable def allW (wx : Wx) (m : Tr Oct) : Nat → Bool
  | 0 => true
  | k + 1 => match m.get k with
    | none => false
    | some o => cond (goodW wx (Nat.mul 8 k) o) (allW wx m k) false

noncomputable def checkW (wx : Wx) (p : List S) : Bool :=
  match absExecW wx p ⟨.e, initW (Nat.div (Nat.mul wx.w wx.h) 8)⟩ with
  | none => false
  | some s => allW wx s.mem (Nat.div (Nat.mul 4 (Nat.mul wx.w wx.h)) 8)


/-! ### Soundness -/

theorem zipT_get {γ : Type} {f : Oct → Oct → Option γ} : ∀ {l m : List Oct} {r : List γ}, zipT f l m = some r →
    ∀ (k : Nat) c, r[k]? = some c → ∃ a b, l[k]? = some a ∧ m[k]? = some b ∧ f a b = some c := by
  intro l
  induction l with
  | nil =>
    intro m r h k c hc
    unfold zipT at h; cases h; simp at hc
  | cons a l ih =>
    intro m r h k c hc
    cases m with
    | nil => unfold zipT at h; cases h; simp at hc
    | cons b m =>
      unfold zipT at h
      split at h
      · cases h
      · next x hx =>
        split at h
        · cases h
        · next t ht =>
          cases h
          cases k with
          | zero => simp only [List.getElem?_cons_zero] at hc ⊢; cases hc; exact ⟨a, b, rfl, rfl, hx⟩
          | succ k => simp only [List.getElem?_cons_succ] at hc ⊢; exact ih ht k c hc

variable {cx : Cx} {E : Nat → Int}

def AW.Rel (cx : Cx) (E : Nat → Int) : AW → V → Prop
  | .h l, v => ∀ (k : Nat) o, l[k]? = some o → laneRel cx E o v k
  | .p l, v => ∀ (k : Nat) o, l[k]? = some o → ∀ j < 8, w16 v (8 * k + j) = wrap16 (lim cx o.1.f (E (o.1.lane j)) + lim cx o.2.f (E (o.2.lane j)))
  | .u, _ => True

/-- What the codes must satisfy. -/
structure OkW (wx : Wx) (E : Nat → Int) : Prop where
  rng : ∀ c, -32768 ≤ E c ∧ E c ≤ 32767
  half : ∀ c d, cHalf wx c = some d → E c / 2 = E d
  avg : ∀ a b d, cAvg wx a b = some d → wrap16 (E a + E b) / 2 = E d

theorem toHW_h {o : Option (List Oct)} {v : V} (h : ∀ l, o = some l → AW.Rel cx E (.h l) v) : AW.Rel cx E (toHW o) v := by
  unfold toHW
  split
  · trivial
  · exact h _ rfl

theorem unpkW_rel {f : Oct → Oct → Option Oct} {o : V → V → V}
    (hf : ∀ {a b c : Oct} {va vb : V} {k : Nat}, f a b = some c → laneRel cx E a va k → laneRel cx E b vb k → laneRel cx E c (o va vb) k)
    {x y : AW} {va vb : V} (hx : x.Rel cx E va) (hy : y.Rel cx E vb) : (unpkW f x y).Rel cx E (o va vb) := by
  unfold unpkW
  split
  · refine toHW_h fun r hr => ?_
    intro k c hc
    obtain ⟨a, b, ha, hb, hab⟩ := zipT_get hr k c hc
    exact hf hab (hx k a ha) (hy k b hb)
  · trivial

theorem Op.soundW {o : Op} {x y : AW} {va vb : V} (hx : x.Rel cx E va) (hy : y.Rel cx E vb) : (o.absW x y).Rel cx E (o.run va vb) := by
  unfold Op.absW
  split
  · exact unpkW_rel oLo16_rel hx hy
  · exact unpkW_rel oHi16_rel hx hy
  · exact unpkW_rel oLo32_rel hx hy
  · exact unpkW_rel oHi32_rel hx hy
  · exact unpkW_rel oLo64_rel hx hy
  · exact unpkW_rel oHi64_rel hx hy
  · split
    · trivial
    · next r hr =>
      intro k c hc j hj
      obtain ⟨a, b, ha, hb, hab⟩ := zipT_get hr k c hc
      cases hab
      rw [show Op.run .add16 va vb = Vc.add16 va vb from rfl, w16_add16, hx k a ha j hj, hy k b hb j hj]
  · intro k q hq
    refine get2 (P := fun k q => laneRel cx E q (permute2x128_20 va vb) k) ?_ ?_ k q hq
    · intro j hj
      have := hx 0 _ rfl j hj
      rw [Nat.mul_zero, Nat.zero_add] at this ⊢
      rw [(w16_perm20 va vb j hj).1, this]
    · intro j hj
      have := hy 0 _ rfl j hj
      rw [Nat.mul_zero, Nat.zero_add] at this
      rw [Nat.mul_one, (w16_perm20 va vb j hj).2, this]
  · intro k q hq
    refine get2 (P := fun k q => laneRel cx E q (permute2x128_31 va vb) k) ?_ ?_ k q hq
    · intro j hj
      have := hx 1 _ rfl j hj
      rw [Nat.mul_one] at this
      rw [Nat.mul_zero, Nat.zero_add, (w16_perm31 va vb j hj).1, this]
    · intro j hj
      have := hy 1 _ rfl j hj
      rw [Nat.mul_one] at this ⊢
      rw [(w16_perm31 va vb j hj).2, this]
  · trivial

theorem oMap_some {f : Nat → Option Nat} {o o' : Oct} (h : oMap f o = some o') : o.f = 0 ∧ o'.f = 0 ∧ ∀ j < 8, f (o.lane j) = some (o'.lane j) := by
  unfold oMap at h
  obtain ⟨h0, h1⟩ := cond_some h
  clear h
  split at h1
  · next a0 a1 a2 a3 a4 a5 a6 a7 =>
    cases h1
    exact ⟨beq_eq h0, rfl, lane8 a0 a1 a2 a3 a4 a5 a6 a7⟩
  · cases h1

theorem oMap2_some {f : Nat → Nat → Option Nat} {o : Oct × Oct} {o' : Oct} (h : oMap2 f o = some o') :
    o.1.f = 0 ∧ o.2.f = 0 ∧ o'.f = 0 ∧ ∀ j < 8, f (o.1.lane j) (o.2.lane j) = some (o'.lane j) := by
  unfold oMap2 at h
  obtain ⟨h0, h1⟩ := cond_some h
  clear h
  simp only [Bool.and_eq_true] at h0
  split at h1
  · next a0 a1 a2 a3 a4 a5 a6 a7 =>
    cases h1
    exact ⟨beq_eq h0.1, beq_eq h0.2, rfl, lane8 a0 a1 a2 a3 a4 a5 a6 a7⟩
  · cases h1

theorem w16_srai1 (a : V) (i : Nat) : w16 (srai16 a 1) i = w16 a i / 2 := by
  refine (w16_ofW _ i).trans ?_
  have : -32768 ≤ w16 a i ∧ w16 a i ≤ 32767 := by unfold w16 wrap16; omega
  rw [pow_one]
  exact wrap16_id (by omega)

structure WRel (cx : Cx) (E : Nat → Int) (a : Sw) (s : St) : Prop where
  reg : ∀ (r : Nat) v, a.reg.get r = some v → v.Rel cx E (s.reg r)
  mem : ∀ (k : Nat) o, a.mem.get k = some o → ∀ j < 8, s.mem (8 * k + j) = lim cx o.f (E (o.lane j))

theorem ldW_rel {wx : Wx} (ok : OkW wx E) {m : Tr Oct} {f : Nat → Int} (hm : ∀ (k : Nat) o, m.get k = some o → ∀ j < 8, f (8 * k + j) = lim cx o.f (E (o.lane j)))
    {off : Nat} {o : Oct} (h : ldW wx m off = some o) :
    ∀ j < 8, f (off + j) = lim cx o.f (E (o.lane j)) ∧ -32768 ≤ f (off + j) ∧ f (off + j) ≤ 32767 := by
  unfold ldW at h
  obtain ⟨hc, h2⟩ := cond_some h
  have e : off % 8 = 0 := beq_eq hc
  intro j hj
  have := hm _ _ h2 j hj
  rw [show 8 * off.div 8 = off from by show 8 * (off / 8) = off; omega] at this
  refine ⟨this, ?_⟩
  rw [this]
  exact lim_range (ok.rng _)

theorem ldW1_rel {wx : Wx} (ok : OkW wx E) {m : Tr Oct} {f : Nat → Int} (hm : ∀ (k : Nat) o, m.get k = some o → ∀ j < 8, f (8 * k + j) = lim cx o.f (E (o.lane j)))
    {off n : Nat} (hn : 8 ≤ n) {o : Oct} (h : ldW wx m off = some o) : AW.Rel cx E (.h [o]) (loadC n f off) := by
  intro k c hc
  match k, hc with
  | 0, hc =>
    simp at hc; subst hc
    intro j hj
    have := ldW_rel ok hm h j hj
    rw [Nat.mul_zero, Nat.zero_add]
    exact (w16_loadC (by omega) this.2).trans this.1
  | k + 1, hc => simp at hc

theorem X.soundW {wx : Wx} (ok : OkW wx E) {a : Sw} {s : St} (hr : WRel cx E a s) : ∀ (e : X), (e.absW wx a).Rel cx E (e.run s) := by
  intro e
  induction e with
  | r n =>
    unfold X.absW
    split
    · trivial
    · next v hv => exact hr.reg n v hv
  | ld n off =>
    unfold X.absW
    cases hb : Nat.beq n 8 with
    | true =>
      rw [cond_true]
      have e := beq_eq hb
      subst e
      split
      · trivial
      · next o ho => exact ldW1_rel ok hr.mem (by omega) ho
    | false =>
      rw [cond_false]
      cases hb2 : Nat.beq n 16 with
      | false => rw [cond_false]; trivial
      | true =>
        rw [cond_true]
        have e := beq_eq hb2
        subst e
        split
        · trivial
        · next o ho =>
          split
          · exact ldW1_rel ok hr.mem (by omega) ho
          · next o' ho' =>
            intro k c hc
            match k, hc with
            | 0, hc =>
              simp at hc; subst hc
              intro j hj
              have := ldW_rel ok hr.mem ho j hj
              rw [Nat.mul_zero, Nat.zero_add]
              exact (w16_loadC (by omega) this.2).trans this.1
            | 1, hc =>
              simp at hc; subst hc
              intro j hj
              have := ldW_rel ok hr.mem ho' j hj
              rw [show off.add 8 + j = off + (8 * 1 + j) by show off + 8 + j = _; omega] at this
              exact (w16_loadC (by omega) this.2).trans this.1
            | k + 2, hc => simp at hc
  | ld2 hi lo => trivial
  | k32 k => trivial
  | k16 k => trivial
  | kk c0 c1 => trivial
  | op o x y ihx ihy => unfold X.absW; exact Op.soundW ihx ihy
  | sra32 x n ih => trivial
  | sra16 x n ih =>
    unfold X.absW
    cases hb : Nat.beq n 1 with
    | false => rw [cond_false]; trivial
    | true =>
      rw [cond_true]
      have e := beq_eq hb
      subst e
      split
      · next l hl =>
        rw [hl] at ih
        refine toHW_h fun r hr => ?_
        intro k c hc j hj
        obtain ⟨a, ha, hab⟩ := map1_get hr k c hc
        obtain ⟨f0, f1, hv⟩ := oMap_some hab
        have := ih k a ha j hj
        rw [f0] at this
        refine (w16_srai1 _ _).trans ?_
        rw [this, f1]
        exact ok.half _ _ (hv j hj)
      · next l hl =>
        rw [hl] at ih
        refine toHW_h fun r hr => ?_
        intro k c hc j hj
        obtain ⟨a, ha, hab⟩ := map1_get hr k c hc
        obtain ⟨f0, f0', f1, hv⟩ := oMap2_some hab
        have := ih k a ha j hj
        rw [f0, f0'] at this
        refine (w16_srai1 _ _).trans ?_
        rw [this, f1]
        exact ok.avg _ _ _ (hv j hj)
      · trivial

theorem stW_rel {wx : Wx} {m m' : Tr Oct} {f f' : Nat → Int} (hm : ∀ (k : Nat) o, m.get k = some o → ∀ j < 8, f (8 * k + j) = lim cx o.f (E (o.lane j)))
    {off : Nat} {o : Oct} (h : stW wx m off o = some m')
    (h1 : ∀ j < 8, f' (off + j) = lim cx o.f (E (o.lane j))) (h2 : ∀ a, (a < off ∨ off + 8 ≤ a) → f' a = f a) :
    ∀ (k : Nat) o, m'.get k = some o → ∀ j < 8, f' (8 * k + j) = lim cx o.f (E (o.lane j)) := by
  refine st_rel (cx := { cx with n := 4 * (wx.w * wx.h) }) hm ?_ h1 h2
  exact h

theorem stW_lt {wx : Wx} {m m' : Tr Oct} {off : Nat} {o : Oct} (h : stW wx m off o = some m') : off + 8 ≤ 4 * (wx.w * wx.h) := by
  unfold stW at h
  obtain ⟨hc, _⟩ := cond_some h
  simp only [Bool.and_eq_true] at hc
  exact Nat.le_of_ble_eq_true hc.2

theorem S.soundW {wx : Wx} (ok : OkW wx E) {a a' : Sw} {s : St} (hr : WRel cx E a s) {i : S} (h : i.absW wx a = some a') :
    WRel cx E a' (i.run s) ∧ ∀ b, 4 * (wx.w * wx.h) ≤ b → (i.run s).mem b = s.mem b := by
  unfold S.absW at h
  split at h
  · next r e =>
    cases h
    refine ⟨⟨?_, hr.mem⟩, fun _ _ => rfl⟩
    intro k c hk
    have hk : (a.reg.set 11 r (e.absW wx a)).get k = some c := hk
    by_cases hq : k = r
    · subst hq
      rw [Tr.get_set_self] at hk
      cases hk
      show AW.Rel cx E _ (if k = k then _ else _)
      rw [if_pos rfl]
      exact X.soundW ok hr e
    · have := Tr.get_set_ne hq hk
      show AW.Rel cx E _ (if k = r then _ else _)
      rw [if_neg hq]
      exact hr.reg k c this
  · next n off e =>
    have hx := X.soundW ok hr e
    split at h
    · next o hv =>
      rw [hv] at hx
      replace h := cond_some h
      obtain ⟨hn, h⟩ := h
      have en := beq_eq hn
      subst en
      split at h
      · cases h
      · next m hm =>
        cases h
        have hl := stW_lt hm
        refine ⟨⟨hr.reg, ?_⟩, ?_⟩
        · refine stW_rel hr.mem hm ?_ ?_
          · intro j hj
            show (if off ≤ off + j ∧ off + j < off + 8 then _ else _) = _
            rw [if_pos (by omega), show off + j - off = j by omega]
            have := hx 0 _ rfl j hj
            rwa [Nat.mul_zero, Nat.zero_add] at this
          · intro b hb
            show (if off ≤ b ∧ b < off + 8 then _ else _) = _
            rw [if_neg (by omega)]
        · intro b hb
          show (if off ≤ b ∧ b < off + 8 then _ else _) = _
          rw [if_neg (by omega)]
    · next o o' hv =>
      rw [hv] at hx
      replace h := cond_some h
      obtain ⟨hn, h⟩ := h
      have en := beq_eq hn
      subst en
      split at h
      · cases h
      · next m hm =>
        split at h
        · cases h
        · next m' hm' =>
          cases h
          have hl := stW_lt hm
          have hl' := stW_lt hm'
          have hl'' : off + 8 + 8 ≤ 4 * (wx.w * wx.h) := hl'
          refine ⟨⟨hr.reg, ?_⟩, ?_⟩
          · have A := stW_rel (f' := storeC 8 s.mem off (e.run s)) hr.mem hm ?_ ?_
            · refine stW_rel A hm' ?_ ?_
              · intro j hj
                show (if off ≤ off + 8 + j ∧ off + 8 + j < off + 16 then _ else _) = _
                rw [if_pos (by omega), show off + 8 + j - off = 8 * 1 + j by omega]
                exact hx 1 _ rfl j hj
              · intro b hb
                have hb' : b < off + 8 ∨ off + 8 + 8 ≤ b := hb
                show (if off ≤ b ∧ b < off + 16 then _ else _) = if off ≤ b ∧ b < off + 8 then _ else _
                by_cases q : off ≤ b ∧ b < off + 8
                · rw [if_pos (by omega), if_pos q]
                · rw [if_neg (by omega), if_neg q]
            · intro j hj
              show (if off ≤ off + j ∧ off + j < off + 8 then _ else _) = _
              rw [if_pos (by omega), show off + j - off = j by omega]
              have := hx 0 _ rfl j hj
              rwa [Nat.mul_zero, Nat.zero_add] at this
            · intro b hb
              show (if off ≤ b ∧ b < off + 8 then _ else _) = _
              rw [if_neg (by omega)]
          · intro b hb
            show (if off ≤ b ∧ b < off + 16 then _ else _) = _
            rw [if_neg (by omega)]
    · cases h
  · cases h

theorem exec_soundW {wx : Wx} (ok : OkW wx E) : ∀ {p : List S} {a a' : Sw} {s : St}, WRel cx E a s → absExecW wx p a = some a' →
    WRel cx E a' (exec p s) ∧ ∀ b, 4 * (wx.w * wx.h) ≤ b → (exec p s).mem b = s.mem b := by
  intro p
  induction p with
  | nil => intro a a' s hr h; unfold absExecW at h; cases h; exact ⟨hr, fun _ _ => rfl⟩
  | cons i p ih =>
    intro a a' s hr h
    unfold absExecW at h
    split at h
    · cases h
    · next b hb =>
      have h1 := S.soundW ok hr hb
      have h2 := ih h1.1 h
      exact ⟨h2.1, fun c hc => (h2.2 c hc).trans (h1.2 c hc)⟩

theorem initW_get : ∀ (n k : Nat) o, (initW n).get k = some o → o = octW (8 * k) ∧ k < n := by
  intro n
  induction n with
  | zero => intro k o h; exfalso; revert h; show Tr.get Tr.e k = some o → False; intro h; rw [Tr.get_look] at h; unfold Tr.look at h; cases h
  | succ n ih =>
    intro k o h
    have h : ((initW n).set 9 n (octW (8 * n))).get k = some o := h
    by_cases hq : k = n
    · subst hq
      rw [Tr.get_set_self] at h
      cases h; exact ⟨rfl, by omega⟩
    · have := ih k o (Tr.get_set_ne hq h)
      exact ⟨this.1, by omega⟩

theorem allW_get {wx : Wx} {m : Tr Oct} : ∀ {n : Nat}, allW wx m n = true → ∀ k < n, ∃ o, m.get k = some o ∧ goodW wx (8 * k) o = true := by
  intro n
  induction n with
  | zero => intro _ k hk; omega
  | succ n ih =>
    intro h k hk
    unfold allW at h
    split at h
    · cases h
    · next o ho =>
      cases hg : goodW wx (Nat.mul 8 n) o with
      | false => rw [hg] at h; cases h
      | true =>
        rw [hg, cond_true] at h
        by_cases hq : k = n
        · subst hq; exact ⟨o, ho, hg⟩
        · exact ih h k (by omega)

theorem checkW_sound {wx : Wx} (ok : OkW wx E) {p : List S} (h : checkW wx p = true) {s : St} (h8 : wx.w * wx.h % 8 = 0)
    (hm : ∀ a < wx.w * wx.h, s.mem a = E a) :
    (∀ a < 4 * (wx.w * wx.h), (exec p s).mem a = E (codeW wx a)) ∧ ∀ a, 4 * (wx.w * wx.h) ≤ a → (exec p s).mem a = s.mem a := by
  unfold checkW at h
  split at h
  · cases h
  · next t ht =>
    have init : WRel ⟨0, 0, [], [], 0, 0, 0, 0, 0⟩ E ⟨.e, initW (Nat.div (Nat.mul wx.w wx.h) 8)⟩ s := by
      constructor
      · intro r v hv
        exfalso
        have hv : Tr.get Tr.e r = some v := hv
        rw [Tr.get_look] at hv; unfold Tr.look at hv; cases hv
      · intro k o ho j hj
        obtain ⟨rfl, hk⟩ := initW_get _ _ _ ho
        have hk : k < wx.w * wx.h / 8 := hk
        rw [hm _ (by omega)]
        interval_cases j <;> rfl
    have := exec_soundW ok init ht
    refine ⟨fun a ha => ?_, this.2⟩
    obtain ⟨o, ho, hg⟩ := allW_get h (a / 8) (show a / 8 < 4 * (wx.w * wx.h) / 8 by omega)
    have hv := this.1.mem _ _ ho (a % 8) (by omega)
    rw [show 8 * (a / 8) + a % 8 = a by omega] at hv
    unfold goodW at hg
    simp only [Bool.and_eq_true] at hg
    obtain ⟨⟨⟨⟨⟨⟨⟨⟨hf, h0⟩, h1⟩, h2⟩, h3⟩, h4⟩, h5⟩, h6⟩, h7⟩ := hg
    have key : o.lane (a % 8) = codeW wx a := by
      have := lane8 (P := fun j => o.lane j = codeW wx (8 * (a / 8) + j)) (beq_eq h0) (beq_eq h1) (beq_eq h2) (beq_eq h3) (beq_eq h4) (beq_eq h5)
        (beq_eq h6) (beq_eq h7) (a % 8) (by omega)
      rwa [show 8 * (a / 8) + a % 8 = a by omega] at this
    rw [hv, key, beq_eq hf]
    rfl

/-! ### The values -/

/-- A function that is 0 outside the block. -/
def inBlk (n : Nat) (b : Nat → Int) (a : Nat) : Int := if a < n then b a else 0

def valsW (w h : Nat) (b : Nat → Int) (c : Nat) : Int :=
  if c < 4096 then inBlk (w * h) b c
  else lift w (fun j => lift h (fun i => inBlk (w * h) b (i * w + j) / 2) ((c - 4096) / 128)) ((c - 4096) % 128)

theorem lift_range {n : Nat} {f : Nat → Int} (hf : ∀ i, -16384 ≤ f i ∧ f i ≤ 16383) (y : Nat) : -16384 ≤ lift n f y ∧ lift n f y ≤ 16383 := by
  unfold lift
  split
  · exact hf _
  · have h1 := hf (y / 2)
    have h2 := hf (min (y / 2 + 1) (n - 1))
    omega

theorem lift_even {n : Nat} {f : Nat → Int} {y : Nat} (h : y % 2 = 0) : lift n f y = f (y / 2) := by unfold lift; rw [if_pos h]

theorem lift_odd {n : Nat} {f : Nat → Int} {y : Nat} (h : y % 2 = 0) (h2 : y + 2 < 2 * n) : lift n f (y + 1) = (f (y / 2) + f (y / 2 + 1)) / 2 := by
  unfold lift
  rw [if_neg (by omega), show (y + 1) / 2 = y / 2 by omega, show min (y / 2 + 1) (n - 1) = y / 2 + 1 by omega]

theorem lift_last {n : Nat} {f : Nat → Int} (hn : 0 < n) : lift n f (2 * n - 1) = lift n f (2 * n - 2) := by
  unfold lift
  rw [if_neg (by omega), if_pos (by omega), show (2 * n - 1) / 2 = n - 1 by omega, show (2 * n - 2) / 2 = n - 1 by omega,
    show min (n - 1 + 1) (n - 1) = n - 1 by omega]
  omega

theorem inBlk_range {n : Nat} {b : Nat → Int} (hb : ∀ a < n, -32768 ≤ b a ∧ b a ≤ 32767) (a : Nat) : -32768 ≤ inBlk n b a ∧ inBlk n b a ≤ 32767 := by
  unfold inBlk
  split
  · next q => exact hb a q
  · omega

theorem valsW_high {w h : Nat} {b : Nat → Int} (hb : ∀ a < w * h, -32768 ≤ b a ∧ b a ≤ 32767) {c : Nat} (hc : 4096 ≤ c) :
    -16384 ≤ valsW w h b c ∧ valsW w h b c ≤ 16383 := by
  unfold valsW
  rw [if_neg (by omega)]
  refine lift_range (fun j => lift_range (fun i => ?_) _) _
  have := inBlk_range hb (i * w + j)
  omega

theorem valsW_at {w h : Nat} {b : Nat → Int} {c y x : Nat} (hc : c = 4096 + (128 * y + x)) (hx : x < 128) :
    valsW w h b c = lift w (fun j => lift h (fun i => inBlk (w * h) b (i * w + j) / 2) y) x := by
  have h1 : (c - 4096) / 128 = y := by omega
  have h2 : (c - 4096) % 128 = x := by omega
  unfold valsW
  rw [if_neg (by omega), h1, h2]

theorem valsW_ok {w h : Nat} {b : Nat → Int} (hw : 0 < w) (hw2 : w ≤ 32) (hh : h ≤ 32) (hb : ∀ a < w * h, -32768 ≤ b a ∧ b a ≤ 32767) :
    OkW ⟨w, h⟩ (valsW w h b) := by
  have wh : w * h ≤ 1024 := Nat.mul_le_mul hw2 hh
  constructor
  · intro c
    by_cases hc : 4096 ≤ c
    · have := valsW_high hb hc; omega
    · unfold valsW; rw [if_pos (by omega)]; exact inBlk_range hb c
  · intro c d hd
    unfold cHalf at hd
    obtain ⟨hc, hd⟩ := cond_some hd
    have hc : c < w * h := blt_lt hc
    have hd : 4096 + (256 * (c / w) + 2 * (c % w)) = d := Option.some.inj hd
    have hm := Nat.mod_lt c hw
    have e : valsW w h b c = inBlk (w * h) b c := by
      unfold valsW; rw [if_pos (by omega)]
    rw [e, valsW_at (y := 2 * (c / w)) (x := 2 * (c % w)) (by omega) (by omega), lift_even (by omega), lift_even (by omega),
      show 2 * (c / w) / 2 = c / w by omega, show 2 * (c % w) / 2 = c % w by omega, Nat.mul_comm (c / w) w, Nat.div_add_mod]
  · intro a b' d hd
    unfold cAvg at hd
    dsimp only at hd
    replace hd := cond_some hd
    obtain ⟨ha, hd⟩ := hd
    have ha : 4096 ≤ a := Nat.le_of_ble_eq_true ha
    have ra := valsW_high hb ha
    obtain ⟨y, x, hx, hyx⟩ : ∃ y x, x < 128 ∧ a = 4096 + (128 * y + x) := ⟨(a - 4096) / 128, (a - 4096) % 128, by omega, by omega⟩
    have q1 : (a - 4096) / 128 = y := by omega
    have q2 : (a - 4096) % 128 = x := by omega
    cases h1 : Nat.beq a b' with
    | true =>
      rw [h1, cond_true] at hd
      have hd := Option.some.inj hd
      have e := beq_eq h1
      rw [← e, ← hd, wrap16_id (by omega)]; omega
    | false =>
      rw [h1, cond_false] at hd
      replace hd := cond_some hd
      obtain ⟨he, hd⟩ := hd
      have he : (a - 4096) % 2 = 0 := beq_eq he
      cases h2 : (Nat.beq b' (Nat.add a 2) && Nat.blt (Nat.add (Nat.mod (Nat.sub a 4096) 128) 2) (Nat.mul 2 w)) with
      | true =>
        rw [h2, cond_true] at hd
        have hd : a + 1 = d := Option.some.inj hd
        simp only [Bool.and_eq_true] at h2
        have e : b' = a + 2 := beq_eq h2.1
        have l : (a - 4096) % 128 + 2 < 2 * w := blt_lt h2.2
        have rb := valsW_high hb (show 4096 ≤ b' by omega)
        rw [wrap16_id (by omega), valsW_at hyx hx, valsW_at (c := b') (y := y) (x := x + 2) (by omega) (by omega),
          valsW_at (c := d) (y := y) (x := x + 1) (by omega) (by omega), lift_odd (n := w) (y := x) (by omega) (by omega), lift_even (n := w) (y := x) (by omega), lift_even (n := w) (y := x + 2) (by omega),
          show (x + 2) / 2 = x / 2 + 1 by omega]
      | false =>
        rw [h2, cond_false] at hd
        replace hd := cond_some hd
        obtain ⟨h3, hd⟩ := hd
        have hd : a + 128 = d := Option.some.inj hd
        simp only [Bool.and_eq_true] at h3
        have e : b' = a + 256 := beq_eq h3.1.1
        have ev : (a - 4096) / 128 % 2 = 0 := beq_eq h3.1.2
        have l : (a - 4096) / 128 + 2 < 2 * h := blt_lt h3.2
        rw [q1] at ev l
        have rb := valsW_high hb (show 4096 ≤ b' by omega)
        have xe : x % 2 = 0 := by omega
        rw [wrap16_id (by omega), valsW_at hyx hx, valsW_at (c := b') (y := y + 2) (x := x) (by omega) (by omega),
          valsW_at (c := d) (y := y + 1) (x := x) (by omega) (by omega), lift_even (n := w) xe, lift_even (n := w) xe, lift_even (n := w) xe,
          lift_odd ev l, lift_even ev, lift_even (y := y + 2) (by omega), show (y + 2) / 2 = y / 2 + 1 by omega]

theorem lift_congr {n : Nat} {f g : Nat → Int} (hfg : ∀ i < n, f i = g i) {y : Nat} (hy : y < 2 * n) : lift n f y = lift n g y := by
  unfold lift
  rw [hfg _ (by omega), hfg _ (by omega)]

/-- A program that has been checked computes the inverse wavelet transform in place and touches nothing else. -/
theorem wavelet_of_check {w h : Nat} {p : List S} (hw : 0 < w) (hw2 : w ≤ 32) (hh0 : 0 < h) (hh : h ≤ 32) (h8 : w * h % 8 = 0)
    (hp : checkW ⟨w, h⟩ p = true) {b : Nat → Int} (hb : ∀ a < w * h, -32768 ≤ b a ∧ b a ≤ 32767) {s : St} (hs : ∀ a < w * h, s.mem a = b a) :
    (∀ y < 2 * h, ∀ x < 2 * w, (exec p s).mem (y * (2 * w) + x) = lift w (fun j => lift h (fun i => b (i * w + j) / 2) y) x) ∧
    ∀ a, 4 * (w * h) ≤ a → (exec p s).mem a = s.mem a := by
  have wh : w * h ≤ 1024 := Nat.mul_le_mul hw2 hh
  have := checkW_sound (valsW_ok hw hw2 hh hb) hp (s := s) h8 (by
    intro a ha
    have ha : a < w * h := ha
    unfold valsW inBlk
    rw [if_pos (by omega), if_pos ha, hs a ha])
  refine ⟨fun y hy x hx => ?_, this.2⟩
  have hlt : y * (2 * w) + x < 4 * (w * h) := by
    have := Nat.mul_le_mul_right (2 * w) (show y + 1 ≤ 2 * h by omega)
    rw [Nat.add_mul, Nat.one_mul, show 2 * h * (2 * w) = 4 * (w * h) by ring] at this
    omega
  rw [this.1 _ hlt]
  have e1 : (y * (2 * w) + x) / (2 * w) = y := by
    rw [Nat.mul_comm y, Nat.mul_add_div (by omega), Nat.div_eq_of_lt hx, Nat.add_zero]
  have e2 : (y * (2 * w) + x) % (2 * w) = x := by
    rw [Nat.mul_comm y, Nat.mul_add_mod, Nat.mod_eq_of_lt hx]
  have e : valsW w h b (codeW ⟨w, h⟩ (y * (2 * w) + x)) = lift w (fun j => lift h (fun i => inBlk (w * h) b (i * w + j) / 2) y) x := by
    have : codeW ⟨w, h⟩ (y * (2 * w) + x) = 4096 + (128 * (bif Nat.beq ((y * (2 * w) + x) / (2 * w) + 1) (2 * h) then (y * (2 * w) + x) / (2 * w) - 1 else (y * (2 * w) + x) / (2 * w)) +
      bif Nat.beq ((y * (2 * w) + x) % (2 * w) + 1) (2 * w) then (y * (2 * w) + x) % (2 * w) - 1 else (y * (2 * w) + x) % (2 * w)) := rfl
    rw [this, e1, e2]
    have cy : (bif Nat.beq (y + 1) (2 * h) then y - 1 else y) = if y + 1 = 2 * h then y - 1 else y := by
      by_cases q : y + 1 = 2 * h
      · rw [if_pos q, q, Nat.beq_refl, cond_true]
      · rw [if_neg q]
        cases hq : Nat.beq (y + 1) (2 * h)
        · rfl
        · exact absurd (beq_eq hq) q
    have cx' : (bif Nat.beq (x + 1) (2 * w) then x - 1 else x) = if x + 1 = 2 * w then x - 1 else x := by
      by_cases q : x + 1 = 2 * w
      · rw [if_pos q, q, Nat.beq_refl, cond_true]
      · rw [if_neg q]
        cases hq : Nat.beq (x + 1) (2 * w)
        · rfl
        · exact absurd (beq_eq hq) q
    rw [cy, cx']
    have ly : ∀ f : Nat → Int, lift h f (if y + 1 = 2 * h then y - 1 else y) = lift h f y := by
      intro f
      split
      · next q =>
        rw [show y = 2 * h - 1 by omega, lift_last hh0]; congr 1
      · rfl
    have lx : ∀ f : Nat → Int, lift w f (if x + 1 = 2 * w then x - 1 else x) = lift w f x := by
      intro f
      split
      · next q =>
        rw [show x = 2 * w - 1 by omega, lift_last hw]; congr 1
      · rfl
    have hx' : (if x + 1 = 2 * w then x - 1 else x) < 64 := by split <;> omega
    rw [valsW_at rfl (by omega), lx]
    congr 1
    funext j
    exact ly _
  rw [e]
  refine lift_congr (fun j hj => lift_congr (fun i hi => ?_) hy) hx
  unfold inBlk
  rw [if_pos]
  have := Nat.mul_le_mul_right w (show i + 1 ≤ h by omega)
  rw [Nat.add_mul, Nat.one_mul, Nat.mul_comm h w] at this
  omega

end Davs2.Si
