import Verif.Model.VecIntra
import Verif.Lemmas.Vec
import Verif.Lemmas.IntraBorder
/-
The vector version of filling the border leaves the same border as the plain one, and mid-grey one sample further.
-/
namespace Davs2.Vc
open Davs2.Ip (Border Source Avail put fillEdge fillTop fillLeft fillCorner fillDown shapes)

/-- The function's values are bytes. -/
def IsByte (f : Int → Int) : Prop := ∀ i, 0 ≤ f i ∧ f i ≤ 255

theorem put_congr {ep : Border} {a : Int} {n : Nat} {f g : Int → Int} (h : ∀ i, a ≤ i → i < a + n → f i = g i) : put ep a n f = put ep a n g := by
  funext i
  unfold put
  split
  · next c => exact h i c.1 c.2
  · rfl

theorem put_join {ep : Border} {a b : Int} {n m : Nat} {f : Int → Int} (e : b = a + n) : put (put ep a n f) b m f = put ep a (n + m) f := by
  funext i
  unfold put
  subst e
  push_cast
  by_cases h1 : a + n ≤ i ∧ i < a + n + m
  · rw [if_pos h1, if_pos (by omega)]
  · rw [if_neg h1]
    by_cases h2 : a ≤ i ∧ i < a + n
    · rw [if_pos h2, if_pos (by omega)]
    · rw [if_neg h2, if_neg (by omega)]

theorem put_same {ep : Border} {a b : Int} {n m : Nat} {f : Int → Int} (h0 : a ≤ b) (h1 : b + m ≤ a + n) : put (put ep a n f) b m f = put ep a n f := by
  funext i
  unfold put
  by_cases h : b ≤ i ∧ i < b + m
  · rw [if_pos h, if_pos (by omega)]
  · rw [if_neg h]

theorem put_zero (ep : Border) (a : Int) (f : Int → Int) : put ep a 0 f = ep := by
  funext i
  unfold put
  rw [if_neg (by omega)]

theorem put_comm {ep : Border} {a b : Int} {n m : Nat} {f g : Int → Int} (h : a + n ≤ b ∨ b + m ≤ a) :
    put (put ep a n f) b m g = put (put ep b m g) a n f := by
  funext i
  unfold put
  by_cases h1 : b ≤ i ∧ i < b + m
  · rw [if_pos h1, if_neg (by omega), if_pos h1]
  · rw [if_neg h1, if_neg h1]

theorem put_out {ep : Border} {a i : Int} {n : Nat} {f : Int → Int} (h : i < a ∨ a + n ≤ i) : put ep a n f i = ep i := by
  unfold put
  rw [if_neg (by omega)]

theorem stB_ld {f : Int → Int} (hf : IsByte f) (ep : Border) (a : Int) (n : Nat) : stB ep a n (ldB f a) = put ep a n f := by
  refine put_congr fun i h0 h1 => ?_
  unfold ldB
  rw [u8_ofB, show a + ((i - a).toNat : Int) = i by omega]
  have := hf i
  omega

theorem stB_set {v : Int} (hv : 0 ≤ v ∧ v ≤ 255) (ep : Border) (a : Int) (n : Nat) : stB ep a n (set1_8 v) = put ep a n fun _ => v := by
  refine put_congr fun i h0 h1 => ?_
  unfold set1_8
  rw [u8_ofB]
  omega

theorem times_put {f : Int → Int} {step : Nat → Border → Border} (a : Int) (hs : ∀ k ep, step k ep = put ep (a + 16 * k) 16 f) (N : Nat) (ep : Border) :
    times step N ep = put ep a (16 * N) f := by
  induction N with
  | zero => exact (put_zero ep a f).symm
  | succ N ih => rw [times, ih, hs, put_join (by push_cast; omega)]; rfl

/-- The sizes of a side of a block. -/
def Side (n : Nat) : Prop := n = 4 ∨ n = 8 ∨ n = 16 ∨ n = 32 ∨ n = 64

theorem shape_side {w h : Nat} (hs : (w, h) ∈ shapes) : Side w ∧ Side h := by
  unfold Side
  have : ∀ p ∈ shapes, (p.1 = 4 ∨ p.1 = 8 ∨ p.1 = 16 ∨ p.1 = 32 ∨ p.1 = 64) ∧ (p.2 = 4 ∨ p.2 = 8 ∨ p.2 = 16 ∨ p.2 = 32 ∨ p.2 = 64) := by decide
  exact this _ hs

theorem copyV_eq {n : Nat} (hn : Side n) {f : Int → Int} (hf : IsByte f) (a : Int) (ep : Border) : copyV n f a ep = put ep a n f := by
  unfold copyV
  by_cases h4 : n = 4
  · rw [if_pos h4]
  rw [if_neg h4]
  by_cases h8 : n = 8
  · rw [if_pos h8, stB_ld hf, h8]
  rw [if_neg h8, times_put a (fun k ep => stB_ld hf ep _ 16)]
  unfold Side at hn
  rw [show 16 * ((n + 15) / 16) = n by omega]

theorem repeatV_eq {n : Nat} (hn : Side n) {v : Int} (hv : 0 ≤ v ∧ v ≤ 255) (a : Int) (ep : Border) : repeatV n v a ep = put ep a n fun _ => v := by
  unfold repeatV
  by_cases h4 : n = 4
  · rw [if_pos h4]
  rw [if_neg h4]
  by_cases h8 : n = 8
  · rw [if_pos h8, stB_set hv, h8]
  rw [if_neg h8, times_put a (fun k ep => stB_set hv ep _ 16)]
  unfold Side at hn
  rw [show 16 * ((n + 15) / 16) = n by omega]

theorem defaultV_eq {g : Int} (hg : 0 ≤ g ∧ g ≤ 255) {w h : Nat} (hh : 0 < h) (ep : Border) :
    defaultV g w h ep = put (put ep (2 * w + 1) 1 fun _ => g) (-(h * 2)) ((h + w) * 2 + 1) fun _ => g := by
  unfold defaultV
  dsimp only
  obtain ⟨q, r, hq, hr, e⟩ : ∃ q r, ((h + w) * 2 + 1) / 16 = q ∧ r < 16 ∧ (h + w) * 2 + 1 = q * 16 + r :=
    ⟨((h + w) * 2 + 1) / 16, ((h + w) * 2 + 1) % 16, rfl, by omega, by omega⟩
  rw [hq, e, show q * 16 / 16 = q by omega, times_put (-(h * 2 : Int)) (fun k ep => stB_set hg ep _ 16), put_join (a := -(h * 2 : Int)) (n := 16 * q) (b := -(h * 2 : Int) + (q * 16 : Nat)) (by push_cast; omega),
    put_same (by omega) (by push_cast; omega), put_comm (a := 2 * w + 1) (n := 1) (by right; push_cast; omega), put_join (by push_cast; omega)]
  rw [show 16 * q + (q * 16 + r - q * 16 + 1) = q * 16 + r + 1 by omega]

theorem columnV_eq (onLeft : Bool) (src : Source) (o n : Nat) (ep : Border) :
    columnV onLeft src o n ep = put ep (-(o + n : Nat)) n fun i => if onLeft then src.lcu i else src.pic 0 (-i) := by
  unfold columnV
  cases onLeft
  · rw [if_neg Bool.false_ne_true]
    induction n with
    | zero => exact (put_zero _ _ _).symm
    | succ n ih =>
      rw [times, ih]
      funext i
      unfold put
      push_cast
      by_cases h1 : -(o : Int) - 1 - n ≤ i ∧ i < -(o : Int) - 1 - n + 1
      · rw [if_pos h1, if_pos (by omega)]; congr 1; omega
      · rw [if_neg h1]
        by_cases h2 : -((o : Int) + n) ≤ i ∧ i < -((o : Int) + n) + n
        · rw [if_pos h2, if_pos (by omega)]
        · rw [if_neg h2, if_neg (by omega)]
  · rw [if_pos rfl]; exact put_congr fun i _ _ => (if_pos rfl).symm

theorem IsByte.put {ep : Border} {a : Int} {n : Nat} {f : Int → Int} {i : Int} (he : 0 ≤ ep i ∧ ep i ≤ 255) (hf : IsByte f) :
    0 ≤ Ip.put ep a n f i ∧ Ip.put ep a n f i ≤ 255 := by
  unfold Ip.put
  split
  · exact hf i
  · exact he

/-- The samples of the sources are bytes. -/
def SrcBytes (src : Source) : Prop := IsByte src.lcu ∧ ∀ x y, 0 ≤ src.pic x y ∧ src.pic x y ≤ 255

theorem topV_eq {top : Int → Int} (ht : IsByte top) (av : Avail) {g : Int} (hg : 0 ≤ g ∧ g ≤ 255) {w h : Nat} (hw : Side w) (hh : Side h) (ep : Border) :
    topV top av w h (defaultV g w h ep) = fillTop top av g w h (put ep (2 * w + 1) 1 fun _ => g) := by
  have hw0 : 0 < w ∧ 0 < h := by unfold Side at hw hh; omega
  unfold topV fillTop
  rw [defaultV_eq hg hw0.2]
  dsimp only
  rw [copyV_eq hw ht 1]
  have e : ∀ ep' : Border, (0 ≤ ep' w ∧ ep' w ≤ 255) →
      (if av.topRight = true then copyV w top (w + 1) ep' else repeatV w (ep' w) (w + 1) ep')
        = (if av.topRight = true then put ep' (w + 1) w top else put ep' (w + 1) w (fun _ => ep' w)) := fun ep' hb => by
    rw [copyV_eq hw ht, repeatV_eq hw hb]
  have hb : ∀ ep' : Border, 0 ≤ put ep' (-(h * 2)) ((h + w) * 2 + 1) (fun _ => g) w ∧ put ep' (-(h * 2)) ((h + w) * 2 + 1) (fun _ => g) w ≤ 255 := by
    intro ep'
    unfold put
    rw [if_pos (by push_cast; omega)]
    exact hg
  rw [e]
  split
  · exact IsByte.put (hb _) ht
  · exact hb _

theorem fillTop_byte {top : Int → Int} (ht : IsByte top) (av : Avail) {g : Int} (hg : 0 ≤ g ∧ g ≤ 255) {w h : Nat} (hh : 0 < h) (ep : Border) (i : Int)
    (h0 : -(h * 2) ≤ i) (h1 : i ≤ 0) : 0 ≤ fillTop top av g w h ep i ∧ fillTop top av g w h ep i ≤ 255 := by
  have e : fillTop top av g w h ep i = g := by
    unfold fillTop
    have d : put ep (-(h * 2)) ((h + w) * 2 + 1) (fun _ => g) i = g := by
      unfold put; rw [if_pos (by push_cast; omega)]
    split <;> (try rw [put_out (by omega)]) <;> split <;> (try rw [put_out (by omega)]) <;> split <;> (try rw [put_out (by omega)]) <;> exact d
  rw [e]; exact hg

theorem leftV_eq {onLeft : Bool} {src : Source} (hsrc : SrcBytes src) (av : Avail) {w h : Nat} (hh : Side h) (ep : Border)
    (hb : 0 ≤ ep (-h) ∧ ep (-h) ≤ 255) :
    leftV onLeft src av w h ep = fillDown w h (fillLeft (fun i => if onLeft then src.lcu i else src.pic 0 (-i)) av h ep) := by
  unfold leftV fillDown fillLeft
  dsimp only
  rw [columnV_eq onLeft src 0 h ep, show (-((0 + h : Nat) : Int)) = -h by omega]
  have e : ∀ ep' : Border, (0 ≤ ep' (-h) ∧ ep' (-h) ≤ 255) →
      (if av.leftDown = true then columnV onLeft src h h ep' else repeatV h (ep' (-h)) (-(h * 2)) ep')
        = (if av.leftDown = true then put ep' (-2 * h) h (fun i => if onLeft then src.lcu i else src.pic 0 (-i))
            else put ep' (-(h * 2)) h (fun _ => ep' (-h))) := fun ep' hb => by
    rw [columnV_eq, repeatV_eq hh hb, show (-((h + h : Nat) : Int)) = -2 * h by omega]
  rw [e]
  split
  · exact IsByte.put hb fun i => by
      split
      · exact hsrc.1 i
      · exact hsrc.2 0 (-i)
  · exact hb

theorem corner_down {own above beside : Int} (av : Avail) {w h : Nat} (hh : 0 < h) (ep : Border) :
    fillCorner own above beside av (fillDown w h ep) = fillDown w h (fillCorner own above beside av ep) := by
  have key : ∀ v : Int, put (fillDown w h ep) 0 1 (fun _ => v) = fillDown w h (put ep 0 1 fun _ => v) := by
    intro v
    unfold fillDown
    dsimp only
    split
    · rw [put_comm (by left; omega), put_out (by omega)]
    · rfl
  unfold fillCorner
  split
  · exact key _
  split
  · exact key _
  split
  · exact key _
  · rfl

theorem fillV_eq (onLeft onTop : Bool) {src : Source} (hsrc : SrcBytes src) (av : Avail) {g : Int} (hg : 0 ≤ g ∧ g ≤ 255) {w h : Nat}
    (hs : (w, h) ∈ shapes) (ep : Border) :
    fillV onLeft onTop src av g w h ep = fillEdge onLeft onTop src av g w h (put ep (2 * w + 1) 1 fun _ => g) := by
  have hsd := shape_side hs
  have hp : 0 < h := by have := hsd.2; unfold Side at this; omega
  have ht : IsByte fun i => if onTop then src.lcu i else src.pic i 0 := fun i => by
    dsimp only
    split
    · exact hsrc.1 i
    · exact hsrc.2 i 0
  unfold fillV fillEdge
  dsimp only
  rw [topV_eq ht av hg hsd.1 hsd.2, leftV_eq hsrc av hsd.2 _ (fillTop_byte ht av hg hp _ _ (by omega) (by omega)), ← corner_down av hp]
  unfold fillCorner
  simp only [Int.neg_neg]

end Davs2.Vc
