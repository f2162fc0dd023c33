import Verif.Model.Sao
/-
The 128-bit vector instructions used by source/common/vec/intrinsic_*.cc, with the meaning that Intel's
"Intrinsics Guide" gives them.  This is trusted: the code only names the instructions.

A register is its 16 bytes, lowest first; lanes from 16 on are not used.  Words and double words are read
from the bytes, low byte first, as the instructions do.  256-bit registers (AVX2) are 32 bytes; instructions that work on each
128-bit half for itself have their own definitions at the end, the others work lane by lane and are the same.
-/
namespace Davs2.Vc

abbrev V := Nat → BitVec 8

/-- The value of a byte without and with sign. -/
def u8 (v : V) (i : Nat) : Int := (v i).toNat
def i8 (v : V) (i : Nat) : Int := (v i).toInt

/-- A register from its bytes; higher bits are dropped. -/
def ofB (f : Nat → Int) : V := fun i => BitVec.ofInt 8 (f i)

def wrap16 (x : Int) : Int := (x + 32768) % 65536 - 32768
def wrap32 (x : Int) : Int := (x + 2147483648) % 4294967296 - 2147483648
def sat8 (x : Int) : Int := max (-128) (min 127 x)
def satu8 (x : Int) : Int := max 0 (min 255 x)
def sat16 (x : Int) : Int := max (-32768) (min 32767 x)

/-- Words without and with sign. -/
def u16 (v : V) (i : Nat) : Int := u8 v (2 * i) + 256 * u8 v (2 * i + 1)
def w16 (v : V) (i : Nat) : Int := wrap16 (u16 v i)

/-- A register from its eight words; higher bits are dropped. -/
def ofW (f : Nat → Int) : V := ofB fun j => if j % 2 = 0 then f (j / 2) else f (j / 2) / 256

/-- Double words with sign. -/
def d32 (v : V) (i : Nat) : Int := wrap32 (u16 v (2 * i) + 65536 * u16 v (2 * i + 1))
def ofD (f : Nat → Int) : V := ofW fun j => if j % 2 = 0 then f (j / 2) else f (j / 2) / 65536

/-! ### Constants, loads and stores -/

/-- `_mm_set1_epi8`, `_mm_set1_epi16`, `_mm_setr_epi8`. -/
def set1_8 (x : Int) : V := ofB fun _ => x
def set1_16 (x : Int) : V := ofW fun _ => x
def setr8 (l : List Int) : V := ofB fun j => l.getD j 0
def zero : V := fun _ => 0

/-- `_mm_loadu_si128` of 16 samples of a plane of 8-bit samples. -/
def load (p : Sa.Plane) (x y : Int) : V := ofB fun j => p (x + j) y

/-- `_mm_loadu_si128` of four `int`. -/
def load32 (f : Nat → Int) : V := ofD f

/-- `_mm_loadl_epi64`: eight samples, the rest 0. -/
def loadl (p : Sa.Plane) (x y : Int) : V := fun j => if j < 8 then load p x y j else 0

/-- `_mm_set_epi32`; the arguments from the highest double word to the lowest. -/
def set32 (e3 e2 e1 e0 : Int) : V := ofD fun i => if i = 0 then e0 else if i = 1 then e1 else if i = 2 then e2 else e3

/-- `((int32_t *)p)[0] = M128_I32(v, k)`: four bytes. -/
def store4 (p : Sa.Plane) (x y : Int) (v : V) (k : Nat) : Sa.Plane := fun x' y' =>
  if y' = y ∧ x ≤ x' ∧ x' < x + 4 then u8 v (4 * k + (x' - x).toNat) else p x' y'

/-- `_mm_set_epi32(0, 0, ((int32_t *)q)[0], ((int32_t *)p)[0])`: four samples of each of two planes. -/
def load4x2 (p q : Sa.Plane) (x y : Int) : V := fun j =>
  if j < 4 then load p x y j else if j < 8 then load q x y (j - 4) else 0

/-- `_mm_storeu_si128`. -/
def store (p : Sa.Plane) (x y : Int) (v : V) : Sa.Plane := fun x' y' =>
  if y' = y ∧ x ≤ x' ∧ x' < x + 16 then u8 v (x' - x).toNat else p x' y'

/-- `_mm_storel_epi64`. -/
def storel (p : Sa.Plane) (x y : Int) (v : V) : Sa.Plane := fun x' y' =>
  if y' = y ∧ x ≤ x' ∧ x' < x + 8 then u8 v (x' - x).toNat else p x' y'

/-- `_mm_maskmoveu_si128`: the bytes whose mask byte has its highest bit set. -/
def maskmove (p : Sa.Plane) (x y : Int) (v m : V) : Sa.Plane := fun x' y' =>
  if y' = y ∧ x ≤ x' ∧ x' < x + 16 ∧ (m (x' - x).toNat).msb = true then u8 v (x' - x).toNat else p x' y'

/-- Row `k` of `intrinsic_mask`, source/common/vec/intrinsic.cc:44-60: `k + 1` bytes −1, then 0.  `none` outside the table. -/
def maskRow (k : Int) : Option V :=
  if 0 ≤ k ∧ k < 15 then some (ofB fun j => if (j : Int) ≤ k then -1 else 0) else none

/-! ### Bytes -/

def unpacklo8 (a b : V) : V := fun j => if j % 2 = 0 then a (j / 2) else b (j / 2)
def unpackhi8 (a b : V) : V := fun j => if j % 2 = 0 then a (8 + j / 2) else b (8 + j / 2)
def unpacklo16 (a b : V) : V := fun j => if j / 2 % 2 = 0 then a (2 * (j / 4) + j % 2) else b (2 * (j / 4) + j % 2)
def unpackhi16 (a b : V) : V := fun j => if j / 2 % 2 = 0 then a (8 + 2 * (j / 4) + j % 2) else b (8 + 2 * (j / 4) + j % 2)
def unpacklo32 (a b : V) : V := fun j => if j / 4 % 2 = 0 then a (4 * (j / 8) + j % 4) else b (4 * (j / 8) + j % 4)
def unpackhi32 (a b : V) : V := fun j => if j / 4 % 2 = 0 then a (8 + 4 * (j / 8) + j % 4) else b (8 + 4 * (j / 8) + j % 4)
def shuffle8 (a m : V) : V := fun j => if (m j).msb then 0 else a ((m j).toNat % 16)
def and (a b : V) : V := fun j => a j &&& b j
def or (a b : V) : V := fun j => a j ||| b j
/-- `_mm_blendv_epi8 (a, b, mask)`: `b` where the mask has its highest bit set. -/
def blendv (a b m : V) : V := fun j => if (m j).msb then b j else a j
def cmpeq8 (a b : V) : V := ofB fun j => if a j = b j then -1 else 0
def minu8 (a b : V) : V := ofB fun j => min (u8 a j) (u8 b j)
def adds8 (a b : V) : V := ofB fun j => sat8 (i8 a j + i8 b j)
def subs8 (a b : V) : V := ofB fun j => sat8 (i8 a j - i8 b j)
def avgu8 (a b : V) : V := ofB fun j => (u8 a j + u8 b j + 1) / 2
/-- `_mm_srli_si128`: shift right by `n` bytes. -/
def srliB (a : V) (n : Nat) : V := fun j => if j + n < 16 then a (j + n) else 0

/-! ### Words -/

def add16 (a b : V) : V := ofW fun i => w16 a i + w16 b i
def sub16 (a b : V) : V := ofW fun i => w16 a i - w16 b i
def adds16 (a b : V) : V := ofW fun i => sat16 (w16 a i + w16 b i)
def subs16 (a b : V) : V := ofW fun i => sat16 (w16 a i - w16 b i)
def mullo16 (a b : V) : V := ofW fun i => w16 a i * w16 b i
def abs16 (a : V) : V := ofW fun i => max (w16 a i) (-w16 a i)
def min16 (a b : V) : V := ofW fun i => min (w16 a i) (w16 b i)
def max16 (a b : V) : V := ofW fun i => max (w16 a i) (w16 b i)
def srai16 (a : V) (n : Nat) : V := ofW fun i => w16 a i / 2 ^ n
def srli16 (a : V) (n : Nat) : V := ofW fun i => u16 a i / 2 ^ n
def slli16 (a : V) (n : Nat) : V := ofW fun i => w16 a i * 2 ^ n
def cmpeq16 (a b : V) : V := ofW fun i => if w16 a i = w16 b i then -1 else 0
def cmpgt16 (a b : V) : V := ofW fun i => if w16 a i > w16 b i then -1 else 0
def hadds16 (a b : V) : V := ofW fun i =>
  if i < 4 then sat16 (w16 a (2 * i) + w16 a (2 * i + 1)) else sat16 (w16 b (2 * (i - 4)) + w16 b (2 * (i - 4) + 1))
/-- `_mm_maddubs_epi16`: bytes of `a` without, of `b` with sign. -/
def maddubs (a b : V) : V := ofW fun i => sat16 (u8 a (2 * i) * i8 b (2 * i) + u8 a (2 * i + 1) * i8 b (2 * i + 1))
def cvtepi8_16 (a : V) : V := ofW fun i => i8 a i
def cvtepu8_16 (a : V) : V := ofW fun i => u8 a i

/-! ### Packing -/

def packs32 (a b : V) : V := ofW fun i => if i < 4 then sat16 (d32 a i) else sat16 (d32 b (i - 4))
def packs16 (a b : V) : V := ofB fun i => if i < 8 then sat8 (w16 a i) else sat8 (w16 b (i - 8))
def packus16 (a b : V) : V := ofB fun i => if i < 8 then satu8 (w16 a i) else satu8 (w16 b (i - 8))

/-! ### 256-bit registers -/

/-- `_mm256_storeu_si256`. -/
def store32 (p : Sa.Plane) (x y : Int) (v : V) : Sa.Plane := fun x' y' =>
  if y' = y ∧ x ≤ x' ∧ x' < x + 32 then u8 v (x' - x).toNat else p x' y'

/-- `_mm256_castsi256_si128` and `_mm256_extracti128_si256 (a, 1)`. -/
def low128 (a : V) : V := fun j => if j < 16 then a j else 0
def high128 (a : V) : V := fun j => if j < 16 then a (16 + j) else 0

/-- `_mm256_inserti128_si256 (_mm256_castsi128_si256 (a), a, 1)`: both halves are `a`. -/
def both128 (a : V) : V := fun j => a (j % 16)

/-- `_mm256_shuffle_epi8`: each half for itself. -/
def shuffle8y (a m : V) : V := fun j => if (m j).msb then 0 else a (16 * (j / 16) + (m j).toNat % 16)

/-- `_mm256_packus_epi16`: each half for itself. -/
def packus16y (a b : V) : V := ofB fun j =>
  if j % 16 < 8 then satu8 (w16 a (8 * (j / 16) + j % 16)) else satu8 (w16 b (8 * (j / 16) + (j % 16 - 8)))

/-- `_mm256_permute4x64_epi64 (a, 0xd8)`: the quarters 0, 2, 1, 3. -/
def permute4x64_d8 (a : V) : V := fun j =>
  if j < 8 then a j else if j < 16 then a (8 + j) else if j < 24 then a (j - 8) else a j

/-! ### Instructions of the interpolation (128 and 256 bits)

Where an instruction works on each 128-bit half for itself, the 128-bit instruction is its lower half. -/

/-- `_mm_hadd_epi16`, `_mm256_hadd_epi16`. -/
def hadd16 (a b : V) : V := ofW fun i =>
  if i % 8 < 4 then w16 a (8 * (i / 8) + 2 * (i % 8)) + w16 a (8 * (i / 8) + 2 * (i % 8) + 1)
  else w16 b (8 * (i / 8) + 2 * (i % 8 - 4)) + w16 b (8 * (i / 8) + 2 * (i % 8 - 4) + 1)

/-- `_mm_madd_epi16`, `_mm256_madd_epi16`. -/
def madd16 (a b : V) : V := ofD fun i => w16 a (2 * i) * w16 b (2 * i) + w16 a (2 * i + 1) * w16 b (2 * i + 1)
def add32 (a b : V) : V := ofD fun i => d32 a i + d32 b i
def srai32 (a : V) (n : Nat) : V := ofD fun i => d32 a i / 2 ^ n
def set1_32 (x : Int) : V := ofD fun _ => x

/-- `_mm256_unpacklo_epi8` and so on. -/
def unpacklo8y (a b : V) : V := fun j => if j % 2 = 0 then a (16 * (j / 16) + j % 16 / 2) else b (16 * (j / 16) + j % 16 / 2)
def unpackhi8y (a b : V) : V := fun j => if j % 2 = 0 then a (16 * (j / 16) + 8 + j % 16 / 2) else b (16 * (j / 16) + 8 + j % 16 / 2)
def unpacklo16y (a b : V) : V := fun j =>
  if j / 2 % 2 = 0 then a (16 * (j / 16) + 2 * (j % 16 / 4) + j % 2) else b (16 * (j / 16) + 2 * (j % 16 / 4) + j % 2)
def unpackhi16y (a b : V) : V := fun j =>
  if j / 2 % 2 = 0 then a (16 * (j / 16) + 8 + 2 * (j % 16 / 4) + j % 2) else b (16 * (j / 16) + 8 + 2 * (j % 16 / 4) + j % 2)
def packs32y (a b : V) : V := ofW fun i =>
  if i % 8 < 4 then sat16 (d32 a (4 * (i / 8) + i % 8)) else sat16 (d32 b (4 * (i / 8) + (i % 8 - 4)))

/-- `_mm256_permute4x64_epi64 (a, imm)`: quarter `k` is the quarter of `a` named by the bits `2k`, `2k + 1` of `imm`. -/
def permute4x64 (imm : Nat) (a : V) : V := fun j => a (8 * (imm / 4 ^ (j / 8) % 4) + j % 8)

/-- `_mm256_permutevar8x32_epi32`. -/
def permutevar8x32 (a : V) (idx : List Nat) : V := fun j => a (4 * idx.getD (j / 4) 0 + j % 4)

/-- `_mm256_permute2x128_si256 (a, b, 0x13)`: the upper half of `b`, then the upper half of `a`. -/
def permute2x128_13 (a b : V) : V := fun j => if j < 16 then b (16 + j) else a j

/-- `_mm256_set_m128i (hi, lo)`. -/
def setm128 (hi lo : V) : V := fun j => if j < 16 then lo j else hi (j - 16)

/-- `_mm256_maskstore_epi32` with a mask whose first `n` double words are −1 and whose others are 0 (`mask16`: 4, `mask24`: 6). -/
def maskstore (p : Sa.Plane) (x y : Int) (v : V) (n : Nat) : Sa.Plane := fun x' y' =>
  if y' = y ∧ x ≤ x' ∧ x' < x + 4 * n then u8 v (x' - x).toNat else p x' y'

/-- `_mm256_storeu2_m128i (hiaddr, loaddr, v)`. -/
def storeu2 (p : Sa.Plane) (xh yh xl yl : Int) (v : V) : Sa.Plane := store (store p xl yl (low128 v)) xh yh (high128 v)

/-- Loads of words from, and stores of `n` words to, an array of `int16_t`. -/
def loadW (t : Sa.Plane) (x y : Int) : V := ofW fun i => t (x + i) y
def storeW (t : Sa.Plane) (x y : Int) (v : V) (n : Nat) : Sa.Plane := fun x' y' =>
  if y' = y ∧ x ≤ x' ∧ x' < x + n then w16 v (x' - x).toNat else t x' y'

/-- `_mm_set1_epi16 (*(short *)c)`, `_mm_set1_epi32 (*(int *)c)` and `_mm256_set1_epi64x (*(long long *)c)` (or `_mm_loadl_epi64` and
`_mm_unpacklo_epi64`): two, four and eight coefficients repeated. -/
def set1_c2 (c0 c1 : Int) : V := ofB fun j => if j % 2 = 0 then c0 else c1
def set1_c4 (c : List Int) : V := ofB fun j => c.getD (j % 4) 0
def set1_c8 (c : List Int) : V := ofB fun j => c.getD (j % 8) 0

/-- `_mm_setr_epi8 (l)`; with 256 bits, `l` twice. -/
def setrBoth (l : List Int) : V := ofB fun j => l.getD (j % 16) 0

end Davs2.Vc
