import Verif.Model.VecProg
import Verif.Model.Intra
/-
Running the programs of Model/VecProg.lean on linear forms in the border samples, written for evaluation by the kernel: recursors instead of
pattern matching, numbers instead of integers, values reduced to numerals as they are stored.

Cells are packed into numbers: a cell has `S = 16 W` bits, `W` digits to the base 65536.  Digit 0 is the constant, digit 1 whether the form is
divided by 128 (rounded down), digit 2 whether nothing is known of the cell, digits 3 and up are the coefficients of the border samples.
-/
namespace Davs2.Vp.Sym

noncomputable section

/-- `k n`, with `n` reduced to a numeral first when the kernel computes. -/
def frc {α : Type} (n : Nat) (k : Nat → α) : α := Nat.rec (motive := fun _ => α) (k 0) (fun m _ => k (Nat.succ m)) n
def frcB {α : Type} (b : Bool) (k : Bool → α) : α := Bool.rec (motive := fun _ => α) (k false) (k true) b

local macro "let? " p:ident " := " x:term "; " b:term : term =>
  `(Option.rec (motive := fun _ => Option _) none (fun $p => $b) $x)
local macro "ifb " c:term " then " a:term " else " b:term : term =>
  `(Bool.rec (motive := fun _ => _) $b $a $c)

/-! ### Trees with the values at the leaves, all at the same depth; the lowest digit of the index tells the branch at the root -/

inductive T (α : Type) where
  | e (v : Option α) | n (l r : T α)

def T.get {α : Type} (t : T α) (j : Nat) : Option α :=
  T.rec (motive := fun _ => Nat → Option α) (fun v j => Nat.rec (motive := fun _ => Option α) v (fun _ _ => none) j)
    (fun _ _ gl gr j => Nat.rec (motive := fun _ => Option α) (gl (Nat.div j 2)) (fun _ _ => gr (Nat.div j 2)) (Nat.mod j 2)) t j

/-- `k t`, with `t` reduced to a constructor first. -/
def T.frc {α β : Type} (t : T α) (k : T α → β) : β := T.rec (motive := fun _ => β) (fun v => k (.e v)) (fun l r _ _ => k (.n l r)) t

/-- An index too large for the tree makes a value unknown. -/
def T.set {α : Type} (t : T α) (j : Nat) (x : α) : T α :=
  T.rec (motive := fun _ => Nat → T α) (fun _ j => Nat.rec (motive := fun _ => T α) (.e (some x)) (fun _ _ => .e none) j)
    (fun l r sl sr j => Nat.rec (motive := fun _ => T α) (.n (sl (Nat.div j 2)) r) (fun _ _ => .n l (sr (Nat.div j 2))) (Nat.mod j 2)) t j

/-- A tree of depth `d` with `v` everywhere. -/
def T.full {α : Type} (v : Option α) (d : Nat) : T α := Nat.rec (.e v) (fun _ t => .n t t) d

/-! ### Integers, biased by `K` -/

def K : Nat := 1048576

structure FN where
  a : Nat
  b : Nat

structure FP where
  arr : Nat
  a : Nat
  b : Nat

def zb (k : Int) : Option FN :=
  Int.rec (motive := fun _ => Option FN) (fun n => some ⟨Nat.add 1048576 n, 1048576⟩)
    (fun n => ifb Nat.ble (Nat.succ n) 1048576 then some ⟨Nat.sub 1048576 (Nat.succ n), 1048576⟩ else none) k

def add1 (x y : Nat) (k : Nat → Option α) : Option α :=
  ifb Nat.ble 1048576 (Nat.add x y) then k (Nat.sub (Nat.add x y) 1048576) else none
def sub1 (x y : Nat) (k : Nat → Option α) : Option α :=
  ifb Nat.ble y (Nat.add x 1048576) then k (Nat.sub (Nat.add x 1048576) y) else none
/-- `m` times the biased `y`. -/
def mul1 (m y : Nat) (k : Nat → Option α) : Option α :=
  ifb Nat.ble (Nat.mul 1048576 m) (Nat.add 1048576 (Nat.mul m y)) then
    k (Nat.sub (Nat.add 1048576 (Nat.mul m y)) (Nat.mul 1048576 m)) else none

def FN.add (p q : FN) : Option FN := add1 p.a q.a fun a => add1 p.b q.b fun b => some ⟨a, b⟩
def FN.sub (p q : FN) : Option FN := sub1 p.a q.a fun a => sub1 p.b q.b fun b => some ⟨a, b⟩
def FN.mulN (m : Nat) (q : FN) : Option FN := mul1 m q.a fun a => mul1 m q.b fun b => some ⟨a, b⟩
def FN.mul (p q : FN) : Option FN :=
  ifb Nat.beq p.b 1048576 then
    ifb Nat.ble 1048576 p.a then FN.mulN (Nat.sub p.a 1048576) q else none
  else
    ifb Nat.beq q.b 1048576 then
      ifb Nat.ble 1048576 q.a then FN.mulN (Nat.sub q.a 1048576) p else none
    else none
def FN.div (p q : FN) : Option FN :=
  ifb Nat.beq p.b 1048576 then ifb Nat.beq q.b 1048576 then ifb Nat.ble 1048576 p.a then ifb Nat.ble 1048577 q.a then
    some ⟨Nat.add 1048576 (Nat.div (Nat.sub p.a 1048576) (Nat.sub q.a 1048576)), 1048576⟩ else none else none else none else none
def FN.shr (p : FN) (k : Nat) : Option FN :=
  ifb Nat.beq p.b 1048576 then ifb Nat.ble 1048576 p.a then
    some ⟨Nat.add 1048576 (Nat.div (Nat.sub p.a 1048576) (Nat.pow 2 k)), 1048576⟩ else none else none
def FN.land (p : FN) (k : Nat) : Option FN :=
  ifb Nat.beq p.b 1048576 then ifb Nat.ble 1048576 p.a then
    some ⟨Nat.add 1048576 (Nat.land (Nat.sub p.a 1048576) k), 1048576⟩ else none else none

def eAdd (x y : Option FN) : Option FN := let? p := x; let? q := y; p.add q
def eSub (x y : Option FN) : Option FN := let? p := x; let? q := y; p.sub q
def eMul (x y : Option FN) : Option FN := let? p := x; let? q := y; p.mul q
def eDiv (x y : Option FN) : Option FN := let? p := x; let? q := y; p.div q
def eShl (k : Nat) (x : Option FN) : Option FN := let? p := x; FN.mulN (Nat.pow 2 k) p
def eShr (k : Nat) (x : Option FN) : Option FN := let? p := x; p.shr k
def eLand (k : Nat) (x : Option FN) : Option FN := let? p := x; p.land k

def fE (I : T FN) (e : E) : Option FN :=
  E.rec (motive := fun _ => Option FN) zb (fun i => I.get i) (fun _ _ => eAdd) (fun _ _ => eSub)
    (fun _ _ => eMul) (fun _ _ => eDiv) (fun _ => eShl) (fun _ => eShr) (fun _ => eLand) e

/-- A plain number, biased. -/
def fZ (I : T FN) (e : E) : Option Nat := let? p := fE I e; ifb Nat.beq p.b 1048576 then some p.a else none
/-- A plain number that is not negative. -/
def fNat (I : T FN) (e : E) : Option Nat :=
  let? p := fE I e; ifb Nat.beq p.b 1048576 then ifb Nat.ble 1048576 p.a then some (Nat.sub p.a 1048576) else none else none

def fC (I : T FN) (c : Cd) : Option Bool :=
  Cd.rec (motive := fun _ => Option Bool)
    (fun x y => let? p := fZ I x; let? q := fZ I y; some (Nat.ble (Nat.succ p) q))
    (fun x y => let? p := fZ I x; let? q := fZ I y; some (Nat.ble p q))
    (fun x y => let? p := fZ I x; let? q := fZ I y; some (Nat.beq p q))
    (fun x y => let? p := fZ I x; let? q := fZ I y; some (ifb Nat.beq p q then false else true))
    (fun _ _ c d => let? b := c; ifb b then d else some false)
    (fun _ _ c d => let? b := c; ifb b then some true else d) c

/-! ### Cells -/

/-- The lowest `k` bits. -/
def low (n k : Nat) : Nat := Nat.mod n (Nat.pow 2 k)

/-- Drop `k` cells; keep `k` cells; move up by `k` cells; cell `k`. -/
def sr (S N k : Nat) : Nat := Nat.shiftRight N (Nat.mul S k)
def md (S N k : Nat) : Nat := low N (Nat.mul S k)
def sl (S N k : Nat) : Nat := Nat.shiftLeft N (Nat.mul S k)
def cl (S N k : Nat) : Nat := low (Nat.shiftRight N (Nat.mul S k)) S

/-- `n` cells, `f j`, `f (j + 1)`, … -/
def build (S : Nat) (f : Nat → Nat) (n j : Nat) : Nat :=
  Nat.rec (motive := fun _ => Nat → Nat) (fun _ => 0)
    (fun _ ih j => Nat.add (Nat.mod (f j) (Nat.pow 2 S)) (Nat.shiftLeft (ih (Nat.succ j)) S)) n j

/-- The low `n` cells of `x`, then `y`. -/
def cat (S x n y : Nat) : Nat := Nat.add (md S x n) (sl S y n)

/-- Upper bounds of words: one for all, or for each. -/
inductive Bd where
  | u (n : Nat) | each (l : List Nat)

def Bd.toL : Bd → List Nat
  | .u n => List.replicate 16 n
  | .each l => l

def zipAdd : List Nat → List Nat → List Nat
  | a :: l, b :: m => Nat.add a b :: zipAdd l m
  | _, _ => []

def zipMul : List Nat → List Nat → List Nat
  | a :: l, b :: m => Nat.mul a b :: zipMul l m
  | _, _ => []

def Bd.add : Bd → Bd → Bd
  | .u a, .u b => .u (Nat.add a b)
  | a, b => .each (zipAdd a.toL b.toL)

def Bd.mul (c : Nat) : Bd → Bd
  | .u a => .u (Nat.mul a c)
  | .each l => .each (l.map (Nat.mul · c))

def Bd.mulL (l : List Nat) (b : Bd) : Bd := .each (zipMul b.toL l)

def Bd.shr (n : Nat) : Bd → Bd
  | .u a => .u (Nat.div a (Nat.pow 2 n))
  | .each l => .each (l.map fun a => Nat.div a (Nat.pow 2 n))

/-- All bounds are at most `k`. -/
def Bd.le (k : Nat) : Bd → Bool
  | .u a => Nat.ble a k
  | .each l => l.all (Nat.ble · k)

def Bd.frc {α : Type} (b : Bd) (k : Bd → α) : α := match b with | .u n => Sym.frc n fun n => k (.u n) | .each l => k (.each l)

/-- What is known of the words as numbers. -/
inductive Kn where
  | no | u (c : Nat) | each (l : List Nat)

/-- A register: bytes (`pure`: every cell is a border sample, 0 or unknown) or words (`sh`: all divided by 128; digits at most `dm`). -/
inductive SR where
  | b (pure : Bool) (len N : Nat)
  | w (sh : Bool) (len N dm : Nat) (bd : Bd) (kn : Kn)

/-- A scalar; `hi` bounds its value, `kn` is its value. -/
structure SC where
  sh : Bool
  N : Nat
  dm : Nat
  hi : Nat
  kn : Option Nat

/-- A chunk of 64 cells, and when it was stored.  The kernel tells terms apart by the lowest digits of numerals first, and those of chunks are
mostly the same. -/
structure CK where
  x : Nat
  g : Nat

/-- An array: chunks, and how often it was stored to. -/
structure SA where
  size : Nat
  pure : Bool
  cs : T CK
  gen : Nat

def mkB (pure : Bool) (len N : Nat) : Option SR := frcB pure fun pure => frc N fun N => some (.b pure len N)
def mkW (sh : Bool) (len N dm : Nat) (bd : Bd) (kn : Kn) : Option SR :=
  frc len fun len => frc N fun N => frc dm fun dm => bd.frc fun bd => some (.w sh len N dm bd kn)

/-- Where a cell of a result comes from. -/
inductive Sel where
  | a (i : Nat) | b (i : Nat) | z

def pick (S x y : Nat) (s : Sel) : Nat := Sel.rec (fun i => cl S x i) (fun i => cl S y i) 0 s

/-- Moves of bytes with two sources: where byte `j` of the result comes from. -/
def mov2 (o : O2) (j : Nat) : Sel :=
  match o with
  | .unpacklo8 => ifb Nat.beq (Nat.mod j 2) 0 then .a (Nat.div j 2) else .b (Nat.div j 2)
  | .unpackhi8 => ifb Nat.beq (Nat.mod j 2) 0 then .a (8 + j / 2) else .b (8 + j / 2)
  | .unpacklo16 => ifb Nat.beq (j / 2 % 2) 0 then .a (2 * (j / 4) + j % 2) else .b (2 * (j / 4) + j % 2)
  | .unpackhi16 => ifb Nat.beq (j / 2 % 2) 0 then .a (8 + 2 * (j / 4) + j % 2) else .b (8 + 2 * (j / 4) + j % 2)
  | .unpacklo32 => ifb Nat.beq (j / 4 % 2) 0 then .a (4 * (j / 8) + j % 4) else .b (4 * (j / 8) + j % 4)
  | .unpackhi32 => ifb Nat.beq (j / 4 % 2) 0 then .a (8 + 4 * (j / 8) + j % 4) else .b (8 + 4 * (j / 8) + j % 4)
  | .unpacklo8y => ifb Nat.beq (j % 2) 0 then .a (16 * (j / 16) + j % 16 / 2) else .b (16 * (j / 16) + j % 16 / 2)
  | .unpackhi8y => ifb Nat.beq (j % 2) 0 then .a (16 * (j / 16) + 8 + j % 16 / 2) else .b (16 * (j / 16) + 8 + j % 16 / 2)
  | .unpacklo16y => ifb Nat.beq (j / 2 % 2) 0 then .a (16 * (j / 16) + 2 * (j % 16 / 4) + j % 2)
      else .b (16 * (j / 16) + 2 * (j % 16 / 4) + j % 2)
  | .unpackhi16y => ifb Nat.beq (j / 2 % 2) 0 then .a (16 * (j / 16) + 8 + 2 * (j % 16 / 4) + j % 2)
      else .b (16 * (j / 16) + 8 + 2 * (j % 16 / 4) + j % 2)
  | .perm2 imm => ifb Nat.ble (imm / 16 ^ (j / 16) % 4) 1 then .a (16 * (imm / 16 ^ (j / 16) % 4) + j % 16)
      else .b (16 * (imm / 16 ^ (j / 16) % 4 - 2) + j % 16)
  | _ => .z

def gath (S : Nat) (sel : Nat → Sel) (n x y : Nat) : Nat := build S (fun j => pick S x y (sel j)) n 0

/-- The words of the bytes when the other operand of the unpacking is 0. -/
def widen (S : Nat) : O2 → Nat → Nat
  | .unpacklo8, N => md S N 8
  | .unpackhi8, N => md S (sr S N 8) 8
  | .unpacklo8y, N => cat S N 8 (md S (sr S N 16) 8)
  | .unpackhi8y, N => cat S (sr S N 8) 8 (md S (sr S N 24) 8)
  | _, _ => 0

/-- Set digit 1 of 16 cells. -/
def flag (S N : Nat) (sh : Bool) : Nat := ifb sh then Nat.add N (build S (fun _ => 65536) 16 0) else N

/-- All cells of a control register below `n` are plain bytes. -/
def plain (S N : Nat) : Nat → Bool
  | 0 => true
  | n + 1 => Nat.ble (cl S N n) 255 && plain S N n

def mulK (S : Nat) (len N dm : Nat) (bd : Bd) : Kn → Option SR
  | .no => none
  | .u c => ifb Nat.ble (Nat.mul dm c) 65535 then ifb (bd.mul c).le 65535 then
      mkW false len (Nat.mul N c) (Nat.mul dm c) (bd.mul c) .no else none else none
  | .each l =>
    ifb Nat.ble (dm * l.foldr max 0) 65535 then ifb (bd.mulL l).le 65535 then
      mkW false len (build S (fun j => Nat.mul (cl S N j) (l.getD j 0)) len 0) (dm * l.foldr max 0) (bd.mulL l) .no
    else none else none

def lmin (a b : Nat) : Nat := ifb Nat.ble a b then a else b
def lmax (a b : Nat) : Nat := ifb Nat.ble a b then b else a

def addW (hi : Nat) (sa : Bool) (la a da : Nat) (ba : Bd) (sb : Bool) (lb b db : Nat) (bb : Bd) : Option SR :=
  ifb sa then none else ifb sb then none else
    ifb Nat.ble (Nat.add da db) 65535 then
      (ba.add bb).frc fun bd => ifb bd.le hi then mkW false (lmin la lb) (Nat.add a b) (Nat.add da db) bd .no else none
    else none

/-- An operation on words, one on bytes. -/
def onW (f : Bool → Nat → Nat → Nat → Bd → Kn → Bool → Nat → Nat → Nat → Bd → Kn → Option SR) (r s : SR) : Option SR :=
  SR.rec (motive := fun _ => Option SR) (fun _ _ _ => none)
    (fun sa la a da ba ka => SR.rec (motive := fun _ => Option SR) (fun _ _ _ => none) (f sa la a da ba ka) s) r
def onB (f : Bool → Nat → Nat → Bool → Nat → Nat → Option SR) (r s : SR) : Option SR :=
  SR.rec (motive := fun _ => Option SR) (fun pa la a => SR.rec (motive := fun _ => Option SR) (f pa la a) (fun _ _ _ _ _ _ => none) s)
    (fun _ _ _ _ _ _ => none) r

def oMul (S : Nat) (sa : Bool) (la a da : Nat) (ba : Bd) (ka : Kn) (sb : Bool) (lb b db : Nat) (bb : Bd) (kb : Kn) : Option SR :=
  ifb sa then none else ifb sb then none else
    match kb with
    | .no => mulK S (lmin la lb) b db bb ka
    | k => mulK S (lmin la lb) a da ba k

def oPack (S : Nat) (sa : Bool) (la a da : Nat) (ba : Bd) (ka : Kn) (sb : Bool) (lb b db : Nat) (bb : Bd) (kb : Kn) : Option SR :=
  ifb Nat.ble 8 la then ifb Nat.ble 8 lb then ifb ba.le 255 then ifb bb.le 255 then
    mkB false 16 (cat S (flag S a sa) 8 (md S (flag S b sb) 8)) else none else none else none else none

def oPackY (S : Nat) (sa : Bool) (la a da : Nat) (ba : Bd) (ka : Kn) (sb : Bool) (lb b db : Nat) (bb : Bd) (kb : Kn) : Option SR :=
  ifb Nat.ble 16 la then ifb Nat.ble 16 lb then ifb ba.le 255 then ifb bb.le 255 then
    mkB false 32 (cat S (cat S (flag S a sa) 8 (md S (flag S b sb) 8)) 16 (cat S (sr S (flag S a sa) 8) 8 (md S (sr S (flag S b sb) 8) 8)))
    else none else none else none else none

def oPerm2W (S imm : Nat) (sa : Bool) (la a da : Nat) (ba : Bd) (ka : Kn) (sb : Bool) (lb b db : Nat) (bb : Bd) (kb : Kn) : Option SR :=
  ifb Nat.ble 16 la then ifb Nat.ble 16 lb then ifb sa then none else ifb sb then none else
    match ba, bb with
    | .u x, .u y => mkW false 16 (gath S (fun j => ifb Nat.ble (imm / 16 ^ (j / 8) % 4) 1 then .a (8 * (imm / 16 ^ (j / 8) % 4) + j % 8)
        else .b (8 * (imm / 16 ^ (j / 8) % 4 - 2) + j % 8)) 16 a b) (lmax da db) (.u (lmax x y)) .no
    | _, _ => none
  else none else none

def oShuf (S : Nat) (pa : Bool) (la a : Nat) (pb : Bool) (lb b : Nat) : Option SR :=
  ifb Nat.ble 16 la then ifb Nat.ble 16 lb then ifb plain S b 16 then
    mkB pa 16 (gath S (fun j => ifb Nat.ble 128 (cl S b j) then .z else .a (Nat.mod (cl S b j) 16)) 16 a 0) else none else none else none

def oShufY (S : Nat) (pa : Bool) (la a : Nat) (pb : Bool) (lb b : Nat) : Option SR :=
  ifb Nat.ble 32 la then ifb Nat.ble 32 lb then ifb plain S b 32 then
    mkB pa 32 (gath S (fun j => ifb Nat.ble 128 (cl S b j) then .z else
      .a (Nat.add (Nat.mul 16 (Nat.div j 16)) (Nat.mod (cl S b j) 16))) 32 a 0) else none else none else none

def oPermV (S : Nat) (pa : Bool) (la a : Nat) (pb : Bool) (lb b : Nat) : Option SR :=
  ifb Nat.ble 32 la then ifb Nat.ble 32 lb then ifb plain S b 32 then
    mkB pa 32 (gath S (fun j => .a (Nat.add (Nat.mul 4 (Nat.mod (cl S b (Nat.mul 4 (Nat.div j 4))) 8)) (Nat.mod j 4))) 32 a 0)
    else none else none else none

def oMov (S : Nat) (o : O2) (len : Nat) (pa : Bool) (la a : Nat) (pb : Bool) (lb b : Nat) : Option SR :=
  ifb Nat.ble len la then ifb Nat.ble len lb then mkB (pa && pb) len (gath S (mov2 o) len a b) else none else none

def oUnp (S : Nat) (o : O2) (len : Nat) (pa : Bool) (la a : Nat) (pb : Bool) (lb b : Nat) : Option SR :=
  ifb Nat.ble len la then ifb Nat.ble len lb then
    ifb Nat.beq b 0 then ifb pa then mkW false (Nat.div len 2) (widen S o a) 1 (.u 255) .no else none
    else mkB (pa && pb) len (gath S (mov2 o) len a b) else none else none

def oPerm2 (S imm : Nat) (r s : SR) : Option SR :=
  SR.rec (motive := fun _ => Option SR) (fun _ _ _ => onB (oMov S (.perm2 imm) 32) r s) (fun _ _ _ _ _ _ => onW (oPerm2W S imm) r s) r

def oAdd (hi : Nat) (sa : Bool) (la a da : Nat) (ba : Bd) (_ : Kn) (sb : Bool) (lb b db : Nat) (bb : Bd) (_ : Kn) : Option SR :=
  addW hi sa la a da ba sb lb b db bb

def sop2 (S : Nat) (o : O2) : SR → SR → Option SR :=
  O2.rec (motive := fun _ => SR → SR → Option SR)
    (onW (oAdd 65535)) (onW (oAdd 32767)) (onW (oMul S)) (onW (oPack S)) (onW (oPackY S)) (onB (oUnp S .unpacklo8 16))
    (onB (oUnp S .unpackhi8 16)) (onB (oMov S .unpacklo16 16)) (onB (oMov S .unpackhi16 16)) (onB (oMov S .unpacklo32 16))
    (onB (oMov S .unpackhi32 16)) (onB (oUnp S .unpacklo8y 32)) (onB (oUnp S .unpackhi8y 32)) (onB (oMov S .unpacklo16y 32))
    (onB (oMov S .unpackhi16y 32)) (onB (oShuf S)) (onB (oShufY S)) (oPerm2 S) (onB (oPermV S)) o

def on1W (f : Bool → Nat → Nat → Nat → Bd → Option SR) (r : SR) : Option SR :=
  SR.rec (motive := fun _ => Option SR) (fun _ _ _ => none) (fun sa la a da ba _ => f sa la a da ba) r
def on1B (f : Bool → Nat → Nat → Option SR) (r : SR) : Option SR :=
  SR.rec (motive := fun _ => Option SR) f (fun _ _ _ _ _ _ => none) r

def oSrl (n : Nat) (sa : Bool) (la a da : Nat) (ba : Bd) : Option SR :=
  ifb sa then none else ifb Nat.ble n 7 then ifb Nat.ble (Nat.mul da (Nat.pow 2 (Nat.sub 7 n))) 65535 then
    mkW true la (Nat.mul a (Nat.pow 2 (Nat.sub 7 n))) (Nat.mul da (Nat.pow 2 (Nat.sub 7 n))) (ba.shr n) .no else none else none
def oSrlB (S n : Nat) (pa : Bool) (la a : Nat) : Option SR :=
  ifb Nat.ble 16 la then ifb Nat.ble n 16 then mkB pa 16 (md S (sr S a n) (Nat.sub 16 n)) else none else none
def oCvt (S : Nat) (pa : Bool) (la a : Nat) : Option SR :=
  ifb pa then ifb Nat.ble 16 la then mkW false 16 (md S a 16) 1 (.u 255) .no else none else none
def oHalf (S k : Nat) (pa : Bool) (la a : Nat) : Option SR :=
  ifb Nat.ble 32 la then ifb Nat.ble k 1 then mkB pa 16 (md S (sr S a (Nat.mul 16 k)) 16) else none else none
def oExt (S k : Nat) (pa : Bool) (la a : Nat) : Option SR :=
  ifb Nat.ble 16 la then ifb Nat.ble k 7 then mkB pa 16 (md S (sr S a (Nat.mul 2 k)) 2) else none else none
def oSrlBy (S n : Nat) (pa : Bool) (la a : Nat) : Option SR :=
  ifb Nat.ble 32 la then mkB pa 32 (gath S (fun j => ifb Nat.ble (j % 16 + n) 15 then .a (j + n) else .z) 32 a 0) else none
def oPerm4 (S imm : Nat) (pa : Bool) (la a : Nat) : Option SR :=
  ifb Nat.ble 32 la then mkB pa 32 (gath S (fun j => .a (8 * (imm / 4 ^ (j / 8) % 4) + j % 8)) 32 a 0) else none

def sop1 (S : Nat) (o : O1) : SR → Option SR :=
  O1.rec (motive := fun _ => SR → Option SR)
    (fun n => on1W (oSrl n)) (fun n => on1B (oSrlB S n)) (fun n => on1B (oSrlBy S n)) (on1B (oCvt S)) (fun k => on1B (oHalf S k))
    (fun k => on1B (oPerm4 S k)) (fun k => on1B (oExt S k)) o

/-! ### Arrays -/

/-- Replace the cells `r`, …, `r + n - 1` of `x` by those of `N`. -/
def splice (S r n N x : Nat) : Nat :=
  Nat.add (Nat.add (md S x r) (sl S (md S N n) r)) (sl S (sr S x (Nat.add r n)) (Nat.add r n))

def sload (S : Nat) (pure : Bool) (cs : T CK) (o n : Nat) : Option SR :=
  ifb Nat.ble n 64 then
    let? x := cs.get (Nat.div o 64);
    ifb Nat.ble (Nat.add (Nat.mod o 64) n) 64 then
      mkB pure 64 (md S (sr S x.x (Nat.mod o 64)) n)
    else
      let? y := cs.get (Nat.succ (Nat.div o 64));
      mkB pure 64 (md S (cat S (sr S x.x (Nat.mod o 64)) (Nat.sub 64 (Nat.mod o 64)) y.x) n)
  else none

def sstore (S : Nat) (a : SA) (o n : Nat) (r : SR) : Option SA :=
  match r with
  | .b p len N =>
    ifb Nat.ble n len then ifb Nat.ble n 64 then
      let? x := a.cs.get (Nat.div o 64);
      ifb Nat.ble (Nat.add (Nat.mod o 64) n) 64 then
        frcB (a.pure && p) fun p => frc (splice S (Nat.mod o 64) n N x.x) fun x => frc (Nat.succ a.gen) fun g =>
          (a.cs.set (Nat.div o 64) ⟨x, g⟩).frc fun cs => some ⟨a.size, p, cs, g⟩
      else
        let? y := a.cs.get (Nat.succ (Nat.div o 64));
        frcB (a.pure && p) fun p => frc (splice S (Nat.mod o 64) (Nat.sub 64 (Nat.mod o 64)) N x.x) fun x =>
          frc (splice S 0 (Nat.sub n (Nat.sub 64 (Nat.mod o 64))) (sr S N (Nat.sub 64 (Nat.mod o 64))) y.x) fun y => frc (Nat.succ a.gen) fun g =>
            (a.cs.set (Nat.div o 64) ⟨x, g⟩).frc fun cs => (cs.set (Nat.succ (Nat.div o 64)) ⟨y, g⟩).frc fun cs => some ⟨a.size, p, cs, g⟩
    else none else none
  | _ => none

def fAddr (cfg : Cfg) (size arr a b n : Nat) : Option Nat :=
  ifb Nat.beq arr 0 then
    ifb Nat.beq b 1048576 then ifb Nat.ble 1048576 (Nat.add a 320) then ifb Nat.ble (Nat.add (Nat.add a 320) n) 1049216 then
      some (Nat.sub (Nat.add a 320) 1048576) else none else none else none
  else ifb Nat.beq arr 1 then
    ifb Nat.ble 1048576 b then ifb Nat.ble (Nat.succ (Nat.sub b 1048576)) cfg.rows then ifb Nat.ble 1048576 a then
      ifb Nat.ble (Nat.add (Nat.sub a 1048576) n) cfg.w then
        some (Nat.add (Nat.mul 64 (Nat.sub b 1048576)) (Nat.sub a 1048576)) else none else none else none else none
  else
    ifb Nat.beq b 1048576 then ifb Nat.ble 1048576 (Nat.add a cfg.slack) then
      ifb Nat.ble (Nat.add (Nat.sub (Nat.add a cfg.slack) 1048576) n) (Nat.add size (Nat.mul 2 cfg.slack)) then
        some (Nat.sub (Nat.add a cfg.slack) 1048576) else none else none else none

/-- Variables and arrays. -/
structure FS where
  I : T FN
  P : T FP
  V : T SR
  M : T SA

def fP (base : Nat) (I : T FN) (P : T FP) (p : PE) : Option FP :=
  PE.rec (motive := fun _ => Option FP)
    (fun i => let? k := fNat I i; P.get k)
    (fun i => some ⟨Nat.add base i, 1048576, 1048576⟩)
    (fun _ d q => let? q := q; let? d := fE I d; add1 q.a d.a fun a => add1 q.b d.b fun b => some ⟨q.arr, a, b⟩)
    (fun _ d q => let? q := q; let? d := fE I d; sub1 q.a d.a fun a => sub1 q.b d.b fun b => some ⟨q.arr, a, b⟩) p

section
variable (S : Nat) (cfg : Cfg) (base : Nat)

def fRd (mem : T SA) (p : FP) (n : Nat) : Option SR :=
  let? a := mem.get p.arr; let? o := fAddr cfg a.size p.arr p.a p.b n; frc o fun o => sload S a.pure a.cs o n

def fWr (mem : T SA) (p : FP) (n : Nat) (r : SR) : Option (T SA) :=
  ifb Nat.beq p.arr 0 then none else
    let? a := mem.get p.arr; let? o := fAddr cfg a.size p.arr p.a p.b n; frc o fun o =>
      let? a := sstore S a o n r; (mem.set p.arr a).frc fun mem => some mem

def sLd (I : T FN) (P : T FP) (M : T SA) (p : PE) : Option SC :=
  let? q := fP base I P p; let? r := fRd S cfg M q 1;
  SR.rec (motive := fun _ => Option SC)
    (fun pu len N => ifb pu then ifb Nat.ble 1 len then frc (md S N 1) fun N => some ⟨false, N, 1, 255, none⟩ else none else none)
    (fun _ _ _ _ _ _ => none) r
def sAdd (x y : Option SC) : Option SC :=
  let? a := x; let? b := y; ifb a.sh then none else ifb b.sh then none else
    ifb Nat.ble (Nat.add a.dm b.dm) 65535 then
      frc (Nat.add a.N b.N) fun N => some ⟨false, N, Nat.add a.dm b.dm, Nat.add a.hi b.hi, none⟩ else none
def sMul (k : Nat) (x : Option SC) : Option SC :=
  let? a := x; ifb a.sh then none else ifb Nat.ble (Nat.mul a.dm k) 65535 then
    frc (Nat.mul a.N k) fun N => some ⟨false, N, Nat.mul a.dm k, Nat.mul a.hi k, none⟩ else none
def sShr (n : Nat) (x : Option SC) : Option SC :=
  let? a := x; ifb a.sh then none else ifb Nat.ble n 7 then ifb Nat.ble (Nat.mul a.dm (Nat.pow 2 (Nat.sub 7 n))) 65535 then
    frc (Nat.mul a.N (Nat.pow 2 (Nat.sub 7 n))) fun N =>
      some ⟨true, N, Nat.mul a.dm (Nat.pow 2 (Nat.sub 7 n)), Nat.div a.hi (Nat.pow 2 n), none⟩ else none else none

def fSE (I : T FN) (P : T FP) (M : T SA) (s : SE) : Option SC :=
  SE.rec (motive := fun _ => Option SC)
    (fun k => ifb Nat.ble k 65535 then some ⟨false, k, k, k, some k⟩ else none)
    (sLd S cfg base I P M) (fun _ _ => sAdd) (fun k _ => sMul k) (fun _ => sShr) s

def fList (I : T FN) (P : T FP) (M : T SA) : List SE → Option (List SC)
  | [] => some []
  | s :: l => let? c := fSE S cfg base I P M s; let? cs := fList I P M l; some (c :: cs)

def knList : List SC → Option (List Nat)
  | [] => some []
  | c :: l => let? k := c.kn; let? ks := knList l; some (k :: ks)

/-- `n` bytes 255, then 0. -/
def ones (S n : Nat) : Nat := build S (fun j => ifb Nat.ble n j then 0 else 255) 32 0

/-- A register of equal bytes. -/
def bcast (c : SC) : Option SR :=
  ifb Nat.ble c.hi 255 then
    mkB (!c.sh && Nat.ble c.dm 1) 32 (build S (fun _ => ifb c.sh then Nat.add c.N 65536 else c.N) 32 0) else none

def xSet1 (I : T FN) (P : T FP) (M : T SA) (s : SE) : Option SR :=
  let? c := fSE S cfg base I P M s; ifb Nat.ble c.hi 65535 then ifb c.sh then none else
    mkW false 16 (build S (fun _ => c.N) 16 0) c.dm (.u c.hi) (match c.kn with | some k => .u k | none => .no) else none
def xSetr8 (l : List Nat) : Option SR :=
  ifb l.all (Nat.ble · 255) then mkB false 32 (build S (fun j => l.getD j 0) 32 0) else none
def xSetr16 (I : T FN) (P : T FP) (M : T SA) (l : List SE) : Option SR :=
  let? cs := fList S cfg base I P M l;
  ifb cs.all (fun c => Nat.ble c.hi 65535 && !c.sh) then
    mkW false cs.length (build S (fun j => (cs.map (·.N)).getD j 0) cs.length 0) ((cs.map (·.dm)).foldr max 0) (.each (cs.map (·.hi)))
      (match knList cs with | some ks => .each ks | none => .no)
  else none
def xMask (I : T FN) (rows : Nat) (i : E) : Option SR :=
  let? k := fZ I i;
  ifb Nat.ble 1048576 k && Nat.ble (Nat.succ (Nat.sub k 1048576)) rows && Nat.ble rows 32 then
    mkB false 32 (ones S (Nat.succ (Nat.sub k 1048576)))
  else ifb cfg.anyMask then some (.b false 0 0) else none
def xLd (I : T FN) (P : T FP) (M : T SA) (n : Nat) (p : PE) : Option SR := let? q := fP base I P p; fRd S cfg M q n
def xO1 (o : O1) (r : Option SR) : Option SR := let? r := r; sop1 S o r
def xO2 (o : O2) (r s : Option SR) : Option SR := let? r := r; let? s := s; sop2 S o r s

def fX (I : T FN) (P : T FP) (V : T SR) (M : T SA) (x : X) : Option SR :=
  X.rec (motive := fun _ => Option SR) (fun i => V.get i) (xLd S cfg base I P M) (some (.b true 32 0)) (xSet1 S cfg base I P M)
    (fun s => let? c := fSE S cfg base I P M s; bcast S c) (xSetr8 S) (xSetr16 S cfg base I P M) (xMask S cfg I)
    (fun o _ => xO1 S o) (fun o _ _ => xO2 S o) x

def fMst (p : FP) (len N mlen M : Nat) (pu : Bool) (u : Nat) (n q : Nat) (mem : T SA) : Option (T SA) :=
  Nat.rec (motive := fun _ => Nat → T SA → Option (T SA)) (fun _ mem => some mem)
    (fun _ ih q mem =>
      ifb Nat.ble (Nat.add q u) mlen then
        ifb Nat.ble (cl S M (Nat.sub (Nat.add q u) 1)) 255 then
          ifb Nat.ble 128 (cl S M (Nat.sub (Nat.add q u) 1)) then
            let? mem := fWr S cfg mem ⟨p.arr, Nat.add p.a q, p.b⟩ u (.b pu (Nat.sub len q) (sr S N q)); ih (Nat.add q u) mem
          else ih (Nat.add q u) mem
        else none
      else none) n q mem

def lI (I : T FN) (P : T FP) (V : T SR) (M : T SA) (d : Nat) (x : E) : Option FS :=
  let? k := fE I x; FN.rec (motive := fun _ => Option FS) (fun a b => frc a fun a => frc b fun b =>
    (I.set d ⟨a, b⟩).frc fun I => some ⟨I, P, V, M⟩) k
def lP (I : T FN) (P : T FP) (V : T SR) (M : T SA) (d : E) (p : PE) : Option FS :=
  let? d := fNat I d; let? q := fP base I P p; frc d fun d => FP.rec (motive := fun _ => Option FS) (fun r a b =>
    frc r fun r => frc a fun a => frc b fun b => (P.set d ⟨r, a, b⟩).frc fun P => some ⟨I, P, V, M⟩) q
def lV (I : T FN) (P : T FP) (V : T SR) (M : T SA) (d : Nat) (x : X) : Option FS :=
  let? r := fX S cfg base I P V M x; (V.set d r).frc fun V => some ⟨I, P, V, M⟩
def lAlloc (I : T FN) (P : T FP) (V : T SR) (M : T SA) (k size : Nat) : Option FS :=
  (M.set (Nat.add base k) ⟨size, true, T.full (some ⟨build S (fun _ => 4294967296) 64 0, 0⟩) 7, 0⟩).frc fun M => some ⟨I, P, V, M⟩
def lSt (I : T FN) (P : T FP) (V : T SR) (M : T SA) (n : Nat) (p : PE) (x : X) : Option FS :=
  let? q := fP base I P p; let? r := fX S cfg base I P V M x; let? M := fWr S cfg M q n r; some ⟨I, P, V, M⟩
def lMst (I : T FN) (P : T FP) (V : T SR) (M : T SA) (u len : Nat) (p : PE) (m x : X) : Option FS :=
  let? q := fP base I P p; let? k := fX S cfg base I P V M m; let? r := fX S cfg base I P V M x;
  SR.rec (motive := fun _ => Option FS)
    (fun _ ml K => SR.rec (motive := fun _ => Option FS)
      (fun pu rl N => let? M := fMst S cfg q rl N ml K pu u (Nat.div len u) 0 M; some ⟨I, P, V, M⟩) (fun _ _ _ _ _ _ => none) r)
    (fun _ _ _ _ _ _ => none) k
/-- A register with the scalar in its first byte. -/
def sB (I : T FN) (P : T FP) (M : T SA) (s : SE) : Option SR :=
  SE.rec (motive := fun _ => Option SR) (fun k => let? c := fSE S cfg base I P M (.n k); bcast S c) (fun p => let? q := fP base I P p; fRd S cfg M q 1)
    (fun x y _ _ => let? c := fSE S cfg base I P M (.add x y); bcast S c) (fun k x _ => let? c := fSE S cfg base I P M (.mul k x); bcast S c)
    (fun x n _ => let? c := fSE S cfg base I P M (.shr x n); bcast S c) s
def lSt1 (I : T FN) (P : T FP) (V : T SR) (M : T SA) (p : PE) (s : SE) : Option FS :=
  let? q := fP base I P p; let? r := sB S cfg base I P M s; let? M := fWr S cfg M q 1 r; some ⟨I, P, V, M⟩
def lCpy (I : T FN) (P : T FP) (V : T SR) (M : T SA) (p q : PE) (n : E) : Option FS :=
  let? p := fP base I P p; let? q := fP base I P q; let? n := fNat I n; frc n fun n =>
    let? r := fRd S cfg M q n; let? M := fWr S cfg M p n r; some ⟨I, P, V, M⟩
def lFill (I : T FN) (P : T FP) (V : T SR) (M : T SA) (p : PE) (s : SE) (n : E) : Option FS :=
  let? q := fP base I P p; let? c := fSE S cfg base I P M s; let? n := fNat I n; frc n fun n =>
    let? r := bcast S c; let? M := fWr S cfg M q n r; some ⟨I, P, V, M⟩

def fL (l : L) (s : FS) : Option FS :=
  FS.rec (motive := fun _ => Option FS) (fun I P V M =>
    L.rec (motive := fun _ => Option FS) (lI I P V M) (lP base I P V M) (lV S cfg base I P V M) (lAlloc S base I P V M) (lSt S cfg base I P V M)
      (lMst S cfg base I P V M) (lSt1 S cfg base I P V M) (lCpy S cfg base I P V M) (lFill S cfg base I P V M) none l) s

def fExL (l : List L) (s : FS) : Option FS :=
  List.rec (motive := fun _ => FS → Option FS) some (fun l _ ih s => let? s := fL S cfg base l s; ih s) l s

def fIter (c : Cd) (f : FS → Option FS) (n : Nat) (s : FS) : Option FS :=
  Nat.rec (motive := fun _ => FS → Option FS) (fun _ => none)
    (fun _ ih s => let? b := fC s.I c; ifb b then let? s := f s; ih s else some s) n s

def fStart (src dst : FP) (stride mode w h : FN) (M : T SA) : FS :=
  ⟨((((T.full (some ⟨1048576, 1048576⟩) 4).set 0 stride).set 1 mode).set 2 w).set 3 h, ((T.full none 8).set 0 src).set 1 dst, T.full none 6, M⟩

def eSeq (s t : Nat → FS → Option FS) (base : Nat) (e : FS) : Option FS := let? e := s base e; t base e
def eIte (c : Cd) (s t : Nat → FS → Option FS) (base : Nat) (e : FS) : Option FS := let? b := fC e.I c; ifb b then s base e else t base e
def eLoop (c : Cd) (s : Nat → FS → Option FS) (base : Nat) (e : FS) : Option FS := fIter c (s base) 4096 e
def eCall (src dst : PE) (stride mode w h : E) (s : Nat → FS → Option FS) (base : Nat) (e : FS) : Option FS :=
  let? src := fP base e.I e.P src; let? dst := fP base e.I e.P dst; let? stride := fE e.I stride; let? mode := fE e.I mode;
  let? w := fE e.I w; let? h := fE e.I h;
  let? r := s (Nat.add base 2) (fStart src dst stride mode w h e.M); some ⟨e.I, e.P, e.V, r.M⟩

def fEx (s : Stmt) : Nat → FS → Option FS :=
  Stmt.rec (motive := fun _ => Nat → FS → Option FS) (fun l base => fExL S cfg base l) (fun _ _ => eSeq) (fun c _ _ => eIte c) (fun c _ => eLoop c)
    (fun _ => eCall) s

end

/-! ### The border and the check -/

/-- Bits of a cell for a block of `w` by `h` samples: border samples `-2h` to `2w`. -/
def bits (w h : Nat) : Nat := 16 * (2 * w + 2 * h + 4)

/-- How far the border is continued beyond `2w` and `2h`: padding of fill_edge, see Model/Intra. -/
def padR (w h : Nat) : Nat := h * 11 / 4 + 4 - w
def padL (w h : Nat) : Nat := w * 11 / 4 + 4 - h

/-- The cell of border sample `i - 320`; `lo = 320 - 2h`, `hi = 320 + 2w`. -/
def srcCell (lo hi pl pr i : Nat) : Nat :=
  ifb Nat.ble lo (Nat.add i pl) then ifb Nat.ble i (Nat.add hi pr) then
    Nat.pow 2 (Nat.mul 16 (Nat.add 3 (Nat.sub (ifb Nat.ble i hi then i else hi) lo)))
  else 4294967296 else 4294967296

/-- Chunk `c` of the border; of the border in reverse order: the cell at `i` is that of border sample `320 - i`. -/
def srcChunk (w h c : Nat) : Nat := build (bits w h) (srcCell (320 - 2 * h) (320 + 2 * w) (padL w h) (padR w h)) 64 (64 * c)
def revChunk (w h c : Nat) : Nat :=
  build (bits w h) (fun i => srcCell (320 - 2 * h) (320 + 2 * w) (padL w h) (padR w h) (Nat.sub 640 i)) 64 (64 * c)

/-- Ten chunks. -/
def chunks (f : Nat → Nat) : T CK :=
  ((((((((((T.full none 4).set 0 ⟨f 0, 0⟩).set 1 ⟨f 1, 1⟩).set 2 ⟨f 2, 2⟩).set 3 ⟨f 3, 3⟩).set 4 ⟨f 4, 4⟩).set 5 ⟨f 5, 5⟩).set 6 ⟨f 6, 6⟩).set 7 ⟨f 7, 7⟩).set 8 ⟨f 8, 8⟩).set 9 ⟨f 9, 9⟩

def src (w h : Nat) : T CK := chunks (srcChunk w h)
def rev (w h : Nat) : T CK := chunks (revChunk w h)

/-- Coefficients and positions (plus 320) of the border samples for `x = 0` in row `y`. -/
def rowT (mode y : Nat) : List (Nat × Nat) :=
  let p := Ip.ctxPos 0 mode (y + 1)
  let c := Ip.ctxOff 0 mode (y + 1)
  if mode < 12 then [(32 - c, 320 + p), (64 - c, 321 + p), (32 + c, 322 + p), (c, 323 + p)]
  else [(32 - c, 322 - p), (64 - c, 321 - p), (32 + c, 320 - p), (c, 319 - p)]

/-- Coefficients and positions (320 minus position) of the border samples for `y = 0` in column `x`. -/
def colT (mode x : Nat) : List (Nat × Nat) :=
  let p := Ip.ctxPos 1 mode (x + 1)
  let c := Ip.ctxOff 1 mode (x + 1)
  if mode < 24 then [(32 - c, 322 - p), (64 - c, 321 - p), (32 + c, 320 - p), (c, 319 - p)]
  else [(32 - c, 320 + p), (64 - c, 321 + p), (32 + c, 322 + p), (c, 323 + p)]

/-- `n` cells from `o` on. -/
def slice (S : Nat) (cs : T CK) (o n : Nat) : Option Nat :=
  let? r := sload S true cs o n; SR.rec (motive := fun _ => Option Nat) (fun _ _ x => some x) (fun _ _ _ _ _ _ => none) r

/-- The `n` forms with these coefficients, plus 64, divided by 128. -/
def lin (S : Nat) (cs : T CK) (n : Nat) : List (Nat × Nat) → Option Nat
  | [] => some (build S (fun _ => 65600) n 0)
  | (c, o) :: l => let? x := slice S cs o n; let? y := lin S cs n l; frc (Nat.add (Nat.mul x c) y) fun z => some z

/-- What is expected in row `y` and column `x` as far as it is given along the row above, or along the column to the left. -/
def rowF (w h mode y : Nat) : Option Nat :=
  if mode = 12 then slice (bits w h) (src w h) 321 w else if mode < 24 then lin (bits w h) (src w h) w (rowT mode y) else some 0
def colF (w h mode x : Nat) : Option Nat :=
  if mode = 24 then slice (bits w h) (rev w h) 321 h else if 12 < mode then lin (bits w h) (rev w h) h (colT mode x) else some 0

/-- In column `x` the rows above this one are given along the row. -/
def thr (mode x : Nat) : Nat := if mode ≤ 12 then 4096 else if mode < 24 then Ip.ctxPos 1 mode (x + 1) else 0

/-- `n` columns from `x` on. -/
def columns (w h mode : Nat) : Nat → Nat → Option (List FN)
  | 0, _ => some []
  | n + 1, x => let? c := colF w h mode x; let? l := columns w h mode n (x + 1); frc (thr mode x) fun t => some (⟨t, c⟩ :: l)

/-- What is expected in row `y` from column `x` on. -/
def expect (S y row : Nat) (cols : List FN) (x : Nat) : Nat :=
  List.rec (motive := fun _ => Nat → Nat) (fun _ => 0)
    (fun c _ ih x => Nat.add (ifb Nat.ble (Nat.succ y) c.a then cl S row x else cl S c.b y) (Nat.shiftLeft (ih (Nat.succ x)) S)) cols x

/-- A cell is the expected one, or a border sample where 128 times that sample is expected. -/
def okCell (c e : Nat) : Bool :=
  ifb Nat.beq c e then true else
    ifb Nat.ble 3 (Nat.div (Nat.log2 c) 16) then
      ifb Nat.beq c (Nat.pow 2 (Nat.mul 16 (Nat.div (Nat.log2 c) 16))) then Nat.beq e (Nat.add (Nat.mul c 128) 65600) else false
    else false

/-- The first `n` cells. -/
def cellsOk (S c e : Nat) : Nat → Bool
  | 0 => true
  | n + 1 => ifb okCell (cl S c n) (cl S e n) then cellsOk S c e n else false

/-- The third digit of each of `n` cells. -/
def unk (S n : Nat) : Nat := build S (fun _ => 281470681743360) n 0

/-- `n` rows from `y` on: what is expected is known, and is there. -/
def rowsOk (w h mode mk : Nat) (cs : T CK) (cols : List FN) : Nat → Nat → Bool
  | 0, _ => true
  | n + 1, y =>
    Option.rec (motive := fun _ => Bool) false (fun row => Option.rec (motive := fun _ => Bool) false (fun c =>
      frc (ifb Nat.ble mode 12 then row else expect (bits w h) y row cols 0) fun e =>
        ifb Nat.beq (Nat.land e mk) 0 then
          ifb (ifb Nat.beq (md (bits w h) c.x w) e then true else cellsOk (bits w h) c.x e w) then rowsOk w h mode mk cs cols n (y + 1) else false
        else false)
      (cs.get y)) (rowF w h mode y)

/-- The arrays and variables at the start. -/
def mem0 (S w h : Nat) : T SA :=
  ((T.full none 3).set 0 ⟨640, true, src w h, 0⟩).set 1 ⟨4096, true, T.full (some ⟨build S (fun _ => 4294967296) 64 0, 0⟩) 7, 0⟩

def run (s : Stmt) (cfg : Cfg) (mode h : Nat) : Option (T SA) :=
  frc (bits cfg.w h) fun S =>
    let? r := fEx S cfg s 2 (fStart ⟨0, 1048576, 1048576⟩ ⟨1, 1048576, 1048576⟩ ⟨1048576, 1048577⟩ ⟨Nat.add 1048576 mode, 1048576⟩
      ⟨Nat.add 1048576 cfg.w, 1048576⟩ ⟨Nat.add 1048576 h, 1048576⟩ (mem0 S cfg.w h)); some r.M

/-- Does the routine, run on forms, give the forms of the prediction? -/
def check (s : Stmt) (cfg : Cfg) (mode h : Nat) : Bool :=
  Option.rec (motive := fun _ => Bool) false (fun mem => Option.rec (motive := fun _ => Bool) false (fun a =>
      Option.rec (motive := fun _ => Bool) false (fun cols =>
        frc (unk (bits cfg.w h) cfg.w) fun mk => rowsOk cfg.w h mode mk a.cs cols h 0) (columns cfg.w h mode cfg.w 0)) (mem.get 1))
    (run s cfg mode h)

end

end Davs2.Vp.Sym
