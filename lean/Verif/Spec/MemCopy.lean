/- What copying and filling memory mean, stated without any program. -/
namespace Davs2.MemSpec

/-- `n` bytes from `s` on stand at `d` on; nothing else changes. -/
def copied (m : Int → BitVec 8) (d s : Int) (n : Nat) : Int → BitVec 8 :=
  fun a => if d ≤ a ∧ a < d + n then m (s + (a - d)) else m a

/-- `n` bytes from `d` on have the value `v`; nothing else changes. -/
def filled (m : Int → BitVec 8) (d : Int) (n : Nat) (v : BitVec 8) : Int → BitVec 8 :=
  fun a => if d ≤ a ∧ a < d + n then v else m a

/-- The two ranges have no byte in common. -/
def apart (d s : Int) (n : Nat) : Prop := d + n ≤ s ∨ s + n ≤ d

/-- The memory `m'` is `m` with the block of `w` × `h` bytes at `s` (lines `b` apart) also at `d` (lines `a` apart); nothing else changes. -/
def blockCopied (m m' : Int → BitVec 8) (d a s b : Int) (w h : Nat) : Prop :=
  (∀ r c : Nat, r < h → c < w → m' (d + r * a + c) = m (s + r * b + c)) ∧
  ∀ z, (∀ r c : Nat, r < h → c < w → z ≠ d + r * a + c) → m' z = m z

/-- The two blocks have no byte in common. -/
def blocksApart (d a s b : Int) (w h : Nat) : Prop :=
  ∀ r c r' c' : Nat, r < h → c < w → r' < h → c' < w → s + r * b + c ≠ d + r' * a + c'

end Davs2.MemSpec
