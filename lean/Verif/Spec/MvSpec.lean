import Mathlib.Algebra.Order.Group.Unbundled.Int
import Mathlib.Algebra.Order.Ring.Int
/-
What motion vector derivation is meant to compute, independent of the decoder.
-/
namespace Davs2.Spec

/-- The legal value nearest to `v`. -/
def limit16 (v : Int) : Int := max (-32768) (min 32767 v)

/-- `n / 2^14` rounded to the nearest integer, halves away from zero. -/
def roundAway14 (n : Int) : Int := if 0 ≤ n then (n + 8192) / 16384 else -((-n + 8192) / 16384)

/-- `n / 2^14` rounded to the nearest integer, halves upwards. -/
def roundUp14 (n : Int) : Int := (n + 8192) / 16384

/-- A vector component. -/
def IsMv (x : Int) : Prop := -32768 ≤ x ∧ x ≤ 32767

/-- Between the smallest and the largest of three numbers. -/
def Between3 (v a b c : Int) : Prop := min a (min b c) ≤ v ∧ v ≤ max a (max b c)

/-- Distance from the centre with the step doubled beyond two quarter samples. -/
def expand (δ : Int) : Int := if 2 < δ then 2 * δ - 2 else if δ < -2 then 2 * δ + 2 else δ

/-- Progressive motion vector resolution: `q` is the prediction rounded down to half samples.  Within two quarter samples of it
vectors have quarter sample resolution, beyond they have half sample resolution. -/
def pmvr (mvd mvp : Int × Int) : Int × Int :=
  let q : Int × Int := (mvp.1 - mvp.1 % 2, mvp.2 - mvp.2 % 2)
  let δ : Int × Int := (mvp.1 + mvd.1 - q.1, mvp.2 + mvd.2 - q.2)
  if 2 < |δ.1| then (q.1 + expand δ.1, q.2 + 2 * mvd.2)
  else if 2 < |δ.2| then (q.1 + 2 * mvd.1, q.2 + expand δ.2)
  else (q.1 + δ.1, q.2 + δ.2)

end Davs2.Spec
