import Verif.Model.SimdProg
/-
A symbolic evaluation of the programs of Model/SimdProg.lean on the vector versions of the inverse transforms: each 16-bit lane is
known by a code, each 32-bit lane is a linear form in the lanes of a row or column.  Evaluated by the kernel; that what it finds is true is proved in
Lemmas/SimdSound.lean.
-/
namespace Davs2.Si

/-! ### Finite maps -/

/-- Binary tries with the key at the leaf. -/
inductive Tr (α : Type)
  | e
  | lf (k : Nat) (v : α)
  | nd (l r : Tr α)

noncomputable def Tr.get {α : Type} (t : Tr α) (k0 : Nat) : Option α :=
  Tr.rec (motive := fun _ => Nat → Option α) (fun _ => none) (fun k v _ => cond (Nat.beq k k0) (some v) none)
    (fun _ _ gl gr k => cond (Nat.beq (Nat.mod k 2) 0) (gl (Nat.div k 2)) (gr (Nat.div k 2))) t k0

noncomputable def Tr.set {α : Type} (d : Nat) (t : Tr α) (k0 : Nat) (v : α) : Tr α :=
  Nat.rec (motive := fun _ => Tr α → Nat → Tr α) (fun _ _ => .lf k0 v)
    (fun _ s t k => Tr.casesOn (motive := fun _ => Tr α) t
      (cond (Nat.beq (Nat.mod k 2) 0) (.nd (s .e (Nat.div k 2)) .e) (.nd .e (s .e (Nat.div k 2))))
      (fun _ _ => cond (Nat.beq (Nat.mod k 2) 0) (.nd (s .e (Nat.div k 2)) .e) (.nd .e (s .e (Nat.div k 2))))
      (fun l r => cond (Nat.beq (Nat.mod k 2) 0) (.nd (s l (Nat.div k 2)) r) (.nd l (s r (Nat.div k 2))))) d t k0

/-! ### Values

The code of a lane is `64 g + d`, `1 ≤ d`: number `d - 1` of group `g`.  Code 0 is the lane 0.  -/

/-- Eight 16-bit lanes; `f`: 0 as they are, 1 limited above, 2 then below, 3 limited below, 4 then above. -/
structure Oct where
  c0 : Nat
  c1 : Nat
  c2 : Nat
  c3 : Nat
  c4 : Nat
  c5 : Nat
  c6 : Nat
  c7 : Nat
  f : Nat

/-- Four 32-bit lanes: the same linear form in the members of the groups `g0` … `g3`.  The coefficients, at most `K`, are the digits of `P` minus those of `N` to the base
`2^16`; digit 0 is the constant. -/
structure Q where
  g0 : Nat
  g1 : Nat
  g2 : Nat
  g3 : Nat
  K : Nat
  P : Nat
  N : Nat

/-- Registers: 16-bit lanes, 32-bit lanes, shifted 32-bit lanes (in one or two halves), a constant pair of words. -/
inductive AV
  | h (l : List Oct)
  | w (l : List Q)
  | s (n : Nat) (l : List Q)
  | k (lo hi : Nat)

/-- What is to be recognised: the linear forms of the first and the second pass, how many coefficients matter, the second shift and the limits. -/
structure Cx where
  w : Nat
  n : Nat
  tab1 : List (Nat × Nat)
  tab2 : List (Nat × Nat)
  m1 : Nat
  m2 : Nat
  sh2 : Nat
  hi : Nat
  lo : Nat

def zip2 {α β γ : Type} (f : α → β → Option γ) : List α → List β → Option (List γ)
  | [], [] => some []
  | a :: l, b :: m => match f a b with
    | none => none
    | some c => match zip2 f l m with
      | none => none
      | some r => some (c :: r)
  | _, _ => none

def map1 {α γ : Type} (f : α → Option γ) : List α → Option (List γ)
  | [] => some []
  | a :: l => match f a with
    | none => none
    | some c => match map1 f l with
      | none => none
      | some r => some (c :: r)

def Oct.zero : Oct := ⟨0, 0, 0, 0, 0, 0, 0, 0, 0⟩

def oLo16 (a b : Oct) : Option Oct := cond (Nat.beq a.f b.f) (some ⟨a.c0, b.c0, a.c1, b.c1, a.c2, b.c2, a.c3, b.c3, a.f⟩) none
def oHi16 (a b : Oct) : Option Oct := cond (Nat.beq a.f b.f) (some ⟨a.c4, b.c4, a.c5, b.c5, a.c6, b.c6, a.c7, b.c7, a.f⟩) none
def oLo32 (a b : Oct) : Option Oct := cond (Nat.beq a.f b.f) (some ⟨a.c0, a.c1, b.c0, b.c1, a.c2, a.c3, b.c2, b.c3, a.f⟩) none
def oHi32 (a b : Oct) : Option Oct := cond (Nat.beq a.f b.f) (some ⟨a.c4, a.c5, b.c4, b.c5, a.c6, a.c7, b.c6, b.c7, a.f⟩) none
def oLo64 (a b : Oct) : Option Oct := cond (Nat.beq a.f b.f) (some ⟨a.c0, a.c1, a.c2, a.c3, b.c0, b.c1, b.c2, b.c3, a.f⟩) none
def oHi64 (a b : Oct) : Option Oct := cond (Nat.beq a.f b.f) (some ⟨a.c4, a.c5, a.c6, a.c7, b.c4, b.c5, b.c6, b.c7, a.f⟩) none

/-- The magnitude of a 16-bit constant if it is positive, if it is negative. -/
def posOf (u : Nat) : Nat := cond (Nat.blt u 32768) u 0
def negOf (u : Nat) : Nat := cond (Nat.blt u 32768) 0 (Nat.sub 65536 u)

/-- Group and number of the even lanes, number of the odd lanes (0: the odd lanes are 0). -/
structure Pr where
  g0 : Nat
  g1 : Nat
  g2 : Nat
  g3 : Nat
  d : Nat
  e : Nat

def pairs (o : Oct) : Option Pr :=
  let d := Nat.mod o.c0 64
  let e := Nat.mod o.c1 64
  let g0 := Nat.div o.c0 64
  let g1 := Nat.div o.c2 64
  let g2 := Nat.div o.c4 64
  let g3 := Nat.div o.c6 64
  cond (Nat.beq o.f 0 && Nat.blt 0 d && Nat.beq (Nat.mod o.c2 64) d && Nat.beq (Nat.mod o.c4 64) d && Nat.beq (Nat.mod o.c6 64) d)
    (cond (Nat.beq o.c1 0)
      (cond (Nat.beq o.c3 0 && Nat.beq o.c5 0 && Nat.beq o.c7 0) (some ⟨g0, g1, g2, g3, d, 0⟩) none)
      (cond (Nat.blt 0 e && Nat.beq o.c1 (Nat.add (Nat.mul 64 g0) e) && Nat.beq o.c3 (Nat.add (Nat.mul 64 g1) e) &&
          Nat.beq o.c5 (Nat.add (Nat.mul 64 g2) e) && Nat.beq o.c7 (Nat.add (Nat.mul 64 g3) e))
        (some ⟨g0, g1, g2, g3, d, e⟩) none))
    none

def oMadd (lo hi : Nat) (o : Oct) : Option Q :=
  match pairs o with
  | none => none
  | some p =>
    let bd := Nat.pow 65536 p.d
    cond (Nat.beq p.e 0)
      (some ⟨p.g0, p.g1, p.g2, p.g3, Nat.add (posOf lo) (negOf lo), Nat.mul (posOf lo) bd, Nat.mul (negOf lo) bd⟩)
      (let be := Nat.pow 65536 p.e
       some ⟨p.g0, p.g1, p.g2, p.g3, Nat.add (Nat.add (posOf lo) (negOf lo)) (Nat.add (posOf hi) (negOf hi)),
        Nat.add (Nat.mul (posOf lo) bd) (Nat.mul (posOf hi) be), Nat.add (Nat.mul (negOf lo) bd) (Nat.mul (negOf hi) be)⟩)

def sameG (a b : Q) : Bool := Nat.beq a.g0 b.g0 && Nat.beq a.g1 b.g1 && Nat.beq a.g2 b.g2 && Nat.beq a.g3 b.g3

def qAdd (a b : Q) : Option Q :=
  cond (sameG a b) (some ⟨a.g0, a.g1, a.g2, a.g3, Nat.add a.K b.K, Nat.add a.P b.P, Nat.add a.N b.N⟩) none
def qSub (a b : Q) : Option Q :=
  cond (sameG a b) (some ⟨a.g0, a.g1, a.g2, a.g3, Nat.add a.K b.K, Nat.add a.P b.N, Nat.add a.N b.P⟩) none
def qAddK (lo : Nat) (a : Q) : Option Q := some ⟨a.g0, a.g1, a.g2, a.g3, Nat.add a.K lo, Nat.add a.P lo, a.N⟩

def qSubK (lo : Nat) (a : Q) : Option Q := some ⟨a.g0, a.g1, a.g2, a.g3, Nat.add a.K lo, a.P, Nat.add a.N lo⟩

/-- The number of a pair in a table. -/
def find (P N : Nat) : Nat → List (Nat × Nat) → Option Nat
  | _, [] => none
  | i, (p, n) :: l => cond (Nat.beq P p && Nat.beq N n) (some i) (find P N (Nat.add i 1) l)

/-- The codes of the four lanes after shift and saturation. -/
def name (cx : Cx) (n : Nat) (q : Q) : Option (Nat × Nat × Nat × Nat) :=
  cond (Nat.blt q.K 65536)
    (cond (Nat.beq n 5 && Nat.blt q.g0 64 && Nat.blt q.g1 64 && Nat.blt q.g2 64 && Nat.blt q.g3 64)
      (match find (Nat.mod q.P cx.m1) (Nat.mod q.N cx.m1) 0 cx.tab1 with
        | none => none
        | some y =>
          let b := Nat.add (Nat.mul 64 (Nat.add 64 y)) 1
          some (Nat.add b q.g0, Nat.add b q.g1, Nat.add b q.g2, Nat.add b q.g3))
      (cond (Nat.beq n cx.sh2 && Nat.ble 64 q.g0 && Nat.ble 64 q.g1 && Nat.ble 64 q.g2 && Nat.ble 64 q.g3 &&
          Nat.blt q.g0 128 && Nat.blt q.g1 128 && Nat.blt q.g2 128 && Nat.blt q.g3 128)
        (match find (Nat.mod q.P cx.m2) (Nat.mod q.N cx.m2) 0 cx.tab2 with
          | none => none
          | some x =>
            let b := Nat.add 1 x
            some (Nat.add b (Nat.mul 64 (Nat.add 64 q.g0)), Nat.add b (Nat.mul 64 (Nat.add 64 q.g1)),
              Nat.add b (Nat.mul 64 (Nat.add 64 q.g2)), Nat.add b (Nat.mul 64 (Nat.add 64 q.g3))))
        none))
    none

def oPacks (cx : Cx) (n : Nat) (a b : Q) : Option Oct :=
  match name cx n a with
  | none => none
  | some (a0, a1, a2, a3) => match name cx n b with
    | none => none
    | some (b0, b1, b2, b3) => some ⟨a0, a1, a2, a3, b0, b1, b2, b3, 0⟩

def oPacksZ (cx : Cx) (n : Nat) (a : Q) : Option Oct :=
  match name cx n a with
  | none => none
  | some (a0, a1, a2, a3) => some ⟨a0, a1, a2, a3, 0, 0, 0, 0, 0⟩

def oMin (cx : Cx) (u : Nat) (o : Oct) : Option Oct :=
  cond (Nat.beq u cx.hi)
    (cond (Nat.beq o.f 0) (some ⟨o.c0, o.c1, o.c2, o.c3, o.c4, o.c5, o.c6, o.c7, 1⟩)
      (cond (Nat.beq o.f 3) (some ⟨o.c0, o.c1, o.c2, o.c3, o.c4, o.c5, o.c6, o.c7, 4⟩) none)) none
def oMax (cx : Cx) (u : Nat) (o : Oct) : Option Oct :=
  cond (Nat.beq u cx.lo)
    (cond (Nat.beq o.f 0) (some ⟨o.c0, o.c1, o.c2, o.c3, o.c4, o.c5, o.c6, o.c7, 3⟩)
      (cond (Nat.beq o.f 1) (some ⟨o.c0, o.c1, o.c2, o.c3, o.c4, o.c5, o.c6, o.c7, 2⟩) none)) none

def toH : Option (List Oct) → Option AV
  | none => none
  | some l => some (.h l)
def toW : Option (List Q) → Option AV
  | none => none
  | some l => some (.w l)

/-- Unpacking, also with the constant 0. -/
def unpk (f : Oct → Oct → Option Oct) : AV → AV → Option AV
  | .h l, .h m => toH (zip2 f l m)
  | .h l, .k lo hi => cond (Nat.beq lo 0 && Nat.beq hi 0) (toH (map1 (fun o => f o Oct.zero) l)) none
  | .k lo hi, .h l => cond (Nat.beq lo 0 && Nat.beq hi 0) (toH (map1 (fun o => f Oct.zero o) l)) none
  | _, _ => none

def Op.abs (cx : Cx) : Op → AV → AV → Option AV
  | .lo16, a, b => unpk oLo16 a b
  | .hi16, a, b => unpk oHi16 a b
  | .lo32, a, b => unpk oLo32 a b
  | .hi32, a, b => unpk oHi32 a b
  | .lo64, a, b => unpk oLo64 a b
  | .hi64, a, b => unpk oHi64 a b
  | .madd, .h l, .k lo hi => toW (map1 (oMadd lo hi) l)
  | .add32, .w l, .w m => toW (zip2 qAdd l m)
  | .add32, .w l, .k lo hi => cond (Nat.beq hi 0 && Nat.blt lo 32768) (toW (map1 (qAddK lo) l)) none
  | .sub32, .w l, .w m => toW (zip2 qSub l m)
  | .sub32, .w l, .k lo hi => cond (Nat.beq hi 0 && Nat.blt lo 32768) (toW (map1 (qSubK lo) l)) none
  | .packs, .s n l, .s m l' => cond (Nat.beq n m) (toH (zip2 (oPacks cx n) l l')) none
  | .packs, .s n l, .k lo hi => cond (Nat.beq lo 0 && Nat.beq hi 0) (toH (map1 (oPacksZ cx n) l)) none
  | .min16, .h l, .k lo hi => cond (Nat.beq lo hi) (toH (map1 (oMin cx lo) l)) none
  | .max16, .h l, .k lo hi => cond (Nat.beq lo hi) (toH (map1 (oMax cx lo) l)) none
  | .perm20, .h [a, _], .h [b, _] => some (.h [a, b])
  | .perm31, .h [_, a], .h [_, b] => some (.h [a, b])
  | .perm20, .w [a, _], .w [b, _] => some (.w [a, b])
  | .perm31, .w [_, a], .w [_, b] => some (.w [a, b])
  | .perm20, .s n [a, _], .s m [b, _] => cond (Nat.beq n m) (some (.s n [a, b])) none
  | .perm31, .s n [_, a], .s m [_, b] => cond (Nat.beq n m) (some (.s n [a, b])) none
  | _, _, _ => none

/-- Registers and what has been stored, by eight words. -/
structure Sa where
  reg : Tr AV
  mem : Tr Oct

/-- The code of the coefficient at an address. -/
def code (w a : Nat) : Nat := Nat.add (Nat.mul 64 (Nat.mod a w)) (Nat.add (Nat.div a w) 1)

def octAt (w a : Nat) : Oct :=
  ⟨code w a, code w (Nat.add a 1), code w (Nat.add a 2), code w (Nat.add a 3), code w (Nat.add a 4), code w (Nat.add a 5), code w (Nat.add a 6), code w (Nat.add a 7), 0⟩

/-- The memory at the start: the coefficients. -/
noncomputable def initMem (w : Nat) : Nat → Tr Oct
  | 0 => .e
  | k + 1 => (initMem w k).set 9 k (octAt w (Nat.mul 8 k))

noncomputable def ldOct (cx : Cx) (m : Tr Oct) (off : Nat) : Option Oct :=
  cond (Nat.beq (Nat.mod off 8) 0 && Nat.ble (Nat.add off 8) cx.n)
    (m.get (Nat.div off 8)) none

def u16Of (x : Int) : Nat := (x % 65536).toNat

noncomputable def X.abs (cx : Cx) (s : Sa) : X → Option AV
  | .r n => s.reg.get n
  | .ld n off => cond (Nat.beq n 8)
      (match ldOct cx s.mem off with
        | none => none
        | some o => some (.h [o]))
      (cond (Nat.beq n 16)
        (match ldOct cx s.mem off with
          | none => none
          | some o => match ldOct cx s.mem (Nat.add off 8) with
            | none => none
            | some o' => some (.h [o, o'])) none)
  | .ld2 hi lo => match ldOct cx s.mem lo with
      | none => none
      | some o => match ldOct cx s.mem hi with
        | none => none
        | some o' => some (.h [o, o'])
  | .k32 k => cond (Nat.blt k 4294967296) (some (.k (Nat.mod k 65536) (Nat.div k 65536))) none
  | .k16 k => some (.k (u16Of k) (u16Of k))
  | .kk c0 c1 => some (.k (u16Of c0) (u16Of c1))
  | .op o a b => match a.abs cx s with
      | none => none
      | some x => match b.abs cx s with
        | none => none
        | some y => o.abs cx x y
  | .sra32 a n => match a.abs cx s with
      | some (.w l) => some (.s n l)
      | _ => none
  | .sra16 _ _ => none

noncomputable def stOct (cx : Cx) (m : Tr Oct) (off : Nat) (o : Oct) : Option (Tr Oct) :=
  cond (Nat.beq (Nat.mod off 8) 0 && Nat.ble (Nat.add off 8) cx.n) (some (m.set 9 (Nat.div off 8) o)) none

noncomputable def S.abs (cx : Cx) (s : Sa) : S → Option Sa
  | .set r e => match e.abs cx s with
      | none => none
      | some v => some ⟨s.reg.set 11 r v, s.mem⟩
  | .st n off e => match e.abs cx s with
      | some (.h [o]) => cond (Nat.beq n 8)
          (match stOct cx s.mem off o with
            | none => none
            | some m => some ⟨s.reg, m⟩) none
      | some (.h [o, o']) => cond (Nat.beq n 16)
          (match stOct cx s.mem off o with
            | none => none
            | some m => match stOct cx m (Nat.add off 8) o' with
              | none => none
              | some m' => some ⟨s.reg, m'⟩) none
      | _ => none
  | .st2 hi lo e => match e.abs cx s with
      | some (.h [o, o']) =>
          (match stOct cx s.mem lo o with
            | none => none
            | some m => match stOct cx m hi o' with
              | none => none
              | some m' => some ⟨s.reg, m'⟩)
      | _ => none

noncomputable def absExec (cx : Cx) : List S → Sa → Option Sa
  | [], s => some s
  | i :: p, s => match i.abs cx s with
    | none => none
    | some s' => absExec cx p s'

/-- The code of the result at an address. -/
def code3 (w a : Nat) : Nat := Nat.add (Nat.mul 64 (Nat.add 128 (Nat.div a w))) (Nat.add (Nat.mod a w) 1)

def goodOct (w a : Nat) (o : Oct) : Bool :=
  (Nat.beq o.f 2 || Nat.beq o.f 4) &&
  Nat.beq o.c0 (code3 w a) && Nat.beq o.c1 (code3 w (Nat.add a 1)) && Nat.beq o.c2 (code3 w (Nat.add a 2)) && Nat.beq o.c3 (code3 w (Nat.add a 3)) &&
  Nat.beq o.c4 (code3 w (Nat.add a 4)) && Nat.beq o.c5 (code3 w (Nat.add a 5)) && Nat.beq o.c6 (code3 w (Nat.add a 6)) && Nat.beq o.c7 (code3 w (Nat.add a 7))

noncomputable def allGood (w : Nat) (m : Tr Oct) : Nat → Bool
  | 0 => true
  | k + 1 => match m.get k with
    | none => false
    | some o => cond (goodOct w (Nat.mul 8 k) o) (allGood w m k) false

noncomputable def check (cx : Cx) (p : List S) : Bool :=
  match absExec cx p ⟨.e, initMem cx.w (Nat.div cx.n 8)⟩ with
  | none => false
  | some s => allGood cx.w s.mem (Nat.div cx.n 8)

end Davs2.Si
