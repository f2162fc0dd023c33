import Verif.Spec.Nearest
/-
Fractional-sample interpolation as the format defines it, for 8-bit samples: the picture is extended
infinitely by its border samples, and the sample at a fractional position is the two-dimensional separable
filter around it, rounded and limited to 8 bits.  An integer position has the filter with the single
coefficient 64.  There is no memory, no stride, no limit on positions and no case distinction here.
-/
namespace Davs2.Spec

/-- Luma filter of phase `k / 4`; the fourth coefficient belongs to the integer position. -/
def lumaFilter : Nat → List Int
  | 1 => [-1, 4, -10, 57, 19, -7, 3, -1]
  | 2 => [-1, 4, -11, 40, 40, -11, 4, -1]
  | 3 => [-1, 3, -7, 19, 57, -10, 4, -1]
  | _ => [0, 0, 0, 64, 0, 0, 0, 0]

/-- Chroma filter of phase `k / 8`; the second coefficient belongs to the integer position. -/
def chromaFilter : Nat → List Int
  | 1 => [-4, 62, 6, 0]
  | 2 => [-6, 56, 15, -1]
  | 3 => [-5, 47, 25, -3]
  | 4 => [-4, 36, 36, -4]
  | 5 => [-3, 25, 47, -5]
  | 6 => [-1, 15, 56, -6]
  | 7 => [0, 6, 62, -4]
  | _ => [0, 64, 0, 0]

/-- `f₀ · p (a) + f₁ · p (a + 1) + …` -/
def conv : List Int → (Int → Int) → Int → Int
  | [], _, _ => 0
  | f :: fs, p, a => f * p a + conv fs p (a + 1)

/-- Limit to `0 .. 255`. -/
def limit8 (v : Int) : Int := max 0 (min 255 v)

/-- Sample at `(x / n, y / n)` of the picture `p` (first argument horizontal), with the filters `F`, the integer
position being number `o` of the coefficients. -/
def interp (n : Nat) (F : Nat → List Int) (o : Int) (p : Int → Int → Int) (x y : Int) : Int :=
  limit8 ((conv (F (y % n).toNat) (fun r => conv (F (x % n).toNat) (fun c => p c r) (x / n - o)) (y / n - o) + 2048)
    / 4096)

def interpLuma := interp 4 lumaFilter 3
def interpChroma := interp 8 chromaFilter 1

/-- The infinite extension of a picture of `w` by `h` samples. -/
def extend (pic : Int → Int → Int) (w h : Nat) : Int → Int → Int := fun x y => pic (nearest x w) (nearest y h)

end Davs2.Spec
