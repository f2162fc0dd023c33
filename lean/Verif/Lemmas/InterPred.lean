import Verif.Model.InterPred
import Verif.Spec.InterPred
import Verif.Props.Mc
import Verif.Props.Recon
import Verif.Props.Units
import Verif.Props.Transform
/-
Reconstruction of inter coding units: lemmas for C99.
-/
namespace Davs2.Ir
open Davs2.Spec Davs2.Un

/-- Read-modify-write steps on blocks, at a point that is in none or in one of the blocks. -/
theorem fold_once {β α V : Type} (P : β → α → Bool) (F : β → α → V → V) (z : α) (l : List β) (m : α → V) :
    (l.countP (P · z) = 0 → l.foldl (fun m b => fun z => if P b z then F b z (m z) else m z) m z = m z) ∧
    (l.countP (P · z) = 1 → ∀ b ∈ l, P b z = true → l.foldl (fun m b => fun z => if P b z then F b z (m z) else m z) m z = F b z (m z)) := by
  induction l generalizing m with
  | nil => exact ⟨fun _ => rfl, fun h => by simp at h⟩
  | cons a l ih =>
    obtain ⟨i0, i1⟩ := ih (fun z => if P a z then F a z (m z) else m z)
    rw [List.countP_cons, List.foldl_cons]
    refine ⟨fun h => ?_, fun h b hb hP => ?_⟩
    · have ha : ¬ P a z = true := by intro e; rw [if_pos e] at h; omega
      rw [if_neg ha] at h
      rw [i0 (by omega), if_neg ha]
    · by_cases ha : P a z = true
      · rw [if_pos ha] at h
        have h0 : l.countP (P · z) = 0 := by omega
        rcases List.mem_cons.mp hb with rfl | hb
        · rw [i0 h0, if_pos ha]
        · exact absurd hP (by simpa using (List.countP_eq_zero.mp h0) b hb)
      · rw [if_neg ha] at h
        rcases List.mem_cons.mp hb with rfl | hb
        · exact absurd hP ha
        · rw [i1 (by omega) b hb hP, if_neg ha]

theorem countP_zipIdx {β : Type} (q : β → Bool) (l : List β) : l.zipIdx.countP (fun p => q p.1) = l.countP q := by
  have : l.countP q = (l.zipIdx.map Prod.fst).countP q := by rw [List.zipIdx_map_fst]
  rw [this, List.countP_map]; rfl

/-- Point of the plane in a block, the block given in luma samples, the plane having `2 ^ s` luma samples for each of its own. -/
def inCb (u : Cu) (s : Nat) (b : Cb) (z : Int × Int) : Bool :=
  decide (((u.x + b.x) / 2 ^ s : Nat) ≤ z.1 ∧ z.1 < ((u.x + b.x) / 2 ^ s : Nat) + (b.w / 2 ^ s : Nat) ∧
    ((u.y + b.y) / 2 ^ s : Nat) ≤ z.2 ∧ z.2 < ((u.y + b.y) / 2 ^ s : Nat) + (b.h / 2 ^ s : Nat))

/-- Everything about a prediction unit that is used. -/
structure PuFits (n : Nat) (b : Cb) : Prop where
  w4 : 4 ≤ b.w ∧ b.w ≤ 64 ∧ b.w % 4 = 0
  h4 : 4 ≤ b.h ∧ b.h ≤ 64 ∧ b.h % 4 = 0
  x : b.x % 4 = 0 ∧ b.x + b.w ≤ n
  y : b.y % 4 = 0 ∧ b.y + b.h ≤ n

instance (n : Nat) (b : Cb) : Decidable (PuFits n b) :=
  decidable_of_iff ((4 ≤ b.w ∧ b.w ≤ 64 ∧ b.w % 4 = 0) ∧ (4 ≤ b.h ∧ b.h ≤ 64 ∧ b.h % 4 = 0) ∧ (b.x % 4 = 0 ∧ b.x + b.w ≤ n) ∧
    (b.y % 4 = 0 ∧ b.y + b.h ≤ n)) ⟨fun ⟨a, b, c, d⟩ => ⟨a, b, c, d⟩, fun ⟨a, b, c, d⟩ => ⟨a, b, c, d⟩⟩

theorem fits_tab : ∀ k, k < 4 → ∀ i, i < 13 → (i < 12 → TypeAt i (3 + k)) → (i = 12 → 0 < k) →
    ∀ c ∈ ((cbInfo.getD i []).take ((numPu ++ [4]).getD i 0)), PuFits (2 ^ (3 + k)) (shl c k) := by decide +kernel

theorem pu_fits (frame ds mode level : Nat) (hm : mode < 12) (ht : TypeAt mode level) (h3 : 3 ≤ level) (h6 : level ≤ 6) :
    ∀ c ∈ puUnits frame ds mode level, PuFits (2 ^ level) c := by
  have fin (i : Nat) (hi : i < 13) (h : i < 12 → TypeAt i level) (h12 : i = 12 → 3 < level) :
      ∀ c ∈ ((cbInfo.getD i []).take ((numPu ++ [4]).getD i 0)).map (shl · (level - 3)), PuFits (2 ^ level) c := by
    intro c hc
    rw [List.mem_map] at hc
    obtain ⟨c0, m, rfl⟩ := hc
    have := fits_tab (level - 3) (by omega) i hi (by rwa [show 3 + (level - 3) = level by omega]) (by omega) c0 m
    rwa [show 3 + (level - 3) = level by omega] at this
  unfold puUnits
  by_cases h0 : mode = 0
  · rw [if_pos h0]
    split
    · next hh => exact fin 12 (by omega) (fun h1 => by omega) (fun _ => hh.1)
    · exact fin 0 (by omega) (fun _ => by subst h0; exact ht) (by omega)
  · rw [if_neg h0]
    have : (numPu ++ [4]).getD mode 0 = numPu.getD mode 0 := by
      have : ∀ m, m < 12 → (numPu ++ [4]).getD m 0 = numPu.getD m 0 := by decide
      exact this mode hm
    rw [← this]
    exact fin mode (by omega) (fun _ => ht) (by omega)

/-- `write` as a read-modify-write step. -/
theorem write_eq (m : Rp.Plane) (x y w h : Nat) (f : Nat → Nat → Int) : Rp.write m x y w h f = fun X Y =>
    if (x : Int) ≤ X ∧ X < x + w ∧ (y : Int) ≤ Y ∧ Y < y + h then f (X - x).toNat (Y - y).toNat else m X Y := rfl

theorem write_congr (m : Rp.Plane) (x y w h : Nat) {f g : Nat → Nat → Int} (e : ∀ b < h, ∀ a < w, f a b = g a b) :
    Rp.write m x y w h f = Rp.write m x y w h g := by
  funext X Y
  unfold Rp.write
  split
  · next hc => exact e _ (by omega) _ (by omega)
  · rfl

theorem avg_write (m : Rp.Plane) (x y w h : Nat) (f g : Nat → Nat → Int) :
    blockAvg (Rp.write m x y w h f) x y w h g = Rp.write m x y w h fun a b => pixelAverage (f a b) (g a b) := by
  funext X Y
  unfold blockAvg
  unfold Rp.write
  split
  · next hc =>
    dsimp only
    rw [if_pos (by omega)]
    congr 2 <;> omega
  · next hc => rfl

theorem mcBlk_some {w h : Nat} {g : Nat → Nat → Option Int} {f : Nat → Nat → Int} (e : ∀ y < h, ∀ x < w, g x y = some (f x y)) :
    ∃ p, mcBlk w h g = some p ∧ ∀ y < h, ∀ x < w, p x y = f x y := by
  refine ⟨fun x y => (g x y).getD 0, ?_, fun y hy x hx => by simp [e y hy x hx]⟩
  unfold mcBlk
  rw [if_pos]
  intro y hy x hx
  rw [e y hy x hx]; rfl

theorem predPlane_one (st : Planes) (c x y w h : Nat) {g : Nat → Nat → Option Int} {f : Nat → Nat → Int}
    (e : ∀ y < h, ∀ x < w, g x y = some (f x y)) :
    predPlane st c x y w h g none = some (Function.update st c (Rp.write (st c) x y w h f)) := by
  obtain ⟨p, hp, hf⟩ := mcBlk_some e
  unfold predPlane
  rw [hp]
  simp only [Option.bind_eq_bind, Option.bind_some]
  rw [write_congr _ _ _ _ _ hf]

theorem predPlane_two (st : Planes) (c x y w h : Nat) {g g' : Nat → Nat → Option Int} {f f' : Nat → Nat → Int}
    (e : ∀ y < h, ∀ x < w, g x y = some (f x y)) (e' : ∀ y < h, ∀ x < w, g' x y = some (f' x y)) :
    predPlane st c x y w h g (some g') =
      some (Function.update st c (Rp.write (st c) x y w h fun a b => pixelAverage (f a b) (f' a b))) := by
  obtain ⟨p, hp, hf⟩ := mcBlk_some e
  obtain ⟨p', hp', hf'⟩ := mcBlk_some e'
  unfold predPlane
  rw [hp]
  simp only [Option.bind_eq_bind, Option.bind_some]
  rw [hp']
  simp only [Option.bind_some]
  rw [avg_write, write_congr]
  intro b hb a ha
  rw [hf b hb a ha, hf' b hb a ha]

/-- The references as the rest of the decoder leaves them: pictures of 8-bit samples with padded borders, all with the same strides.  `pic c i` is
plane `c` of picture `i`. -/
structure Refs (k : Ctx) (stride : Nat → Int) (pic : Nat → Nat → Int → Int → Int) : Prop where
  same : ∀ i < 4, ∀ f, k.fref i = some f → ∀ c < 3, f.stride c = stride c
  luma : ∀ i < 4, ∀ f, k.fref i = some f → Padded (f.plane 0) (stride 0) k.w k.h 80 (pic 0 i)
  chroma : ∀ i < 4, ∀ f, k.fref i = some f → ∀ c < 3, 0 < c → Padded (f.plane c) (stride c) (k.w / 2) (k.h / 2) 40 (pic c i)
  range : ∀ c i x y, 0 ≤ pic c i x y ∧ pic c i x y ≤ 255

/-- Size of a picture and position of the unit in it. -/
structure Fits (k : Ctx) (u : Cu) : Prop where
  w : 8 ≤ k.w ∧ k.w ≤ 8184 ∧ k.w % 2 = 0
  h : 8 ≤ k.h ∧ k.h ≤ 8184 ∧ k.h % 2 = 0
  level : 3 ≤ u.level ∧ u.level ≤ 6
  mode : u.mode < 8
  type : TypeAt u.mode u.level
  x : u.x % 8 = 0 ∧ u.x + 2 ^ u.level ≤ k.w
  y : u.y % 8 = 0 ∧ u.y + 2 ^ u.level ≤ k.h
  trans : u.trans < 4 ∧ (u.trans = 1 ∨ u.trans = 2 → 4 ≤ u.level)

/-- Pictures and vectors of prediction unit `i`. -/
def srcOf (k : Ctx) (u : Cu) (i : Nat) : List (Nat × Mv) :=
  sources (k.frame == 2) (u.dir i) u.dmh (u.ref i 0).toNat (u.ref i 1).toNat (u.mv i 0) (u.mv i 1)

/-- What is coded for prediction unit `i` can be decoded: the references exist and no displaced vector leaves 16 bits. -/
structure PuOk (k : Ctx) (u : Cu) (i : Nat) : Prop where
  dir : u.dir i < 5
  dmh : u.dmh < 9
  ref : ∀ j < 2, 0 ≤ u.ref i j
  src : ∀ s ∈ srcOf k u i, s.1 < 4 ∧ (k.fref s.1).isSome = true ∧ -32768 ≤ s.2.1 ∧ s.2.1 ≤ 32767 ∧ -32768 ≤ s.2.2 ∧ s.2.2 ≤ 32767

theorem toInt16_id' {v : Int} (h : -32768 ≤ v ∧ v ≤ 32767) : toInt16 v = v := by unfold toInt16; omega

theorem frefAt_nat (k : Ctx) {r : Int} (h0 : 0 ≤ r) (h4 : r.toNat < 4) : frefAt k r = some (k.fref r.toNat) := by
  unfold frefAt; rw [if_pos (by omega)]

theorem dmh_tab : ∀ d, d < 9 → 0 < d → dmhPos.getD d ((0, 0), (0, 0)) = ((-(hypothesis d).1, -(hypothesis d).2), hypothesis d) ∧
    hypothesis d ≠ (0, 0) := by decide

/-- The selection is the one of the specification. -/
theorem pick_eq {k : Ctx} {u : Cu} {i : Nat} (h : PuOk k u i) :
    (∃ s f, srcOf k u i = [s] ∧ k.fref s.1 = some f ∧ ∃ v, pick k u i = some ⟨some f, none, s.2, v⟩) ∨
    (∃ s t f g, srcOf k u i = [s, t] ∧ k.fref s.1 = some f ∧ k.fref t.1 = some g ∧ pick k u i = some ⟨some f, some g, s.2, t.2⟩) := by
  obtain ⟨hd, hm, hr, hs⟩ := h
  have r0 := hr 0 (by omega)
  have r1 := hr 1 (by omega)
  unfold srcOf at hs ⊢
  unfold pick
  dsimp only
  have get {s : Nat × Mv} (m : s ∈ sources (k.frame == 2) (u.dir i) u.dmh (u.ref i 0).toNat (u.ref i 1).toNat (u.mv i 0) (u.mv i 1)) :
      s.1 < 4 ∧ ∃ f, k.fref s.1 = some f := by
    obtain ⟨a, b, _⟩ := hs s m
    exact ⟨a, Option.isSome_iff_exists.mp b⟩
  by_cases d1 : u.dir i = 1
  · rw [if_pos d1]
    rw [d1] at get ⊢
    obtain ⟨_, f, hf⟩ := get (s := (0, u.mv i 1)) (by simp [sources])
    exact Or.inl ⟨(0, u.mv i 1), f, by simp [sources], hf, _, by rw [hf]⟩
  rw [if_neg d1]
  by_cases d2 : u.dir i = 2 ∨ u.dir i = 3
  · rw [if_pos d2]
    have e : sources (k.frame == 2) (u.dir i) u.dmh (u.ref i 0).toNat (u.ref i 1).toNat (u.mv i 0) (u.mv i 1) = [(1, u.mv i 0), (0, u.mv i 1)] := by
      rcases d2 with d | d <;> rw [d] <;> simp [sources]
    rw [e] at get ⊢
    obtain ⟨_, f, hf⟩ := get (s := (1, u.mv i 0)) (by simp)
    obtain ⟨_, g, hg⟩ := get (s := (0, u.mv i 1)) (by simp)
    exact Or.inr ⟨_, _, f, g, rfl, hf, hg, by rw [hf, hg]⟩
  rw [if_neg d2]
  have dd : u.dir i = 0 ∨ u.dir i = 4 := by omega
  by_cases hB : k.frame = 2
  · rw [if_pos hB]
    have e : sources (k.frame == 2) (u.dir i) u.dmh (u.ref i 0).toNat (u.ref i 1).toNat (u.mv i 0) (u.mv i 1) = [(1, u.mv i 0)] := by
      rcases dd with d | d <;> rw [d, hB] <;> simp [sources]
    rw [e] at get ⊢
    obtain ⟨_, f, hf⟩ := get (s := (1, u.mv i 0)) (by simp)
    exact Or.inl ⟨_, f, rfl, hf, _, by rw [hf]⟩
  rw [if_neg hB]
  have hB' : (k.frame == 2) = false := by simpa using hB
  rw [hB'] at get hs ⊢
  by_cases d4 : u.dir i = 4
  · rw [if_pos d4]
    rw [d4] at get ⊢
    obtain ⟨a, f, hf⟩ := get (s := ((u.ref i 0).toNat, u.mv i 0)) (by simp [sources])
    obtain ⟨b, g, hg⟩ := get (s := ((u.ref i 1).toNat, u.mv i 1)) (by simp [sources])
    refine Or.inr ⟨_, _, f, g, rfl, hf, hg, ?_⟩
    rw [frefAt_nat k r0 a, frefAt_nat k r1 b]
    dsimp only at hf hg
    rw [hf, hg]; rfl
  rw [if_neg d4]
  have d0 : u.dir i = 0 := by omega
  rw [d0] at get hs ⊢
  by_cases hh : u.dmh = 0
  · rw [if_neg (by omega)]
    have e : sources false 0 u.dmh (u.ref i 0).toNat (u.ref i 1).toNat (u.mv i 0) (u.mv i 1) = [((u.ref i 0).toNat, u.mv i 0)] := by
      rw [hh]; simp [sources, hypothesis]
    rw [e] at get ⊢
    obtain ⟨a, f, hf⟩ := get (s := ((u.ref i 0).toNat, u.mv i 0)) (by simp)
    refine Or.inl ⟨_, f, rfl, hf, (0, 0), ?_⟩
    rw [frefAt_nat k r0 a]
    dsimp only at hf
    rw [hf]; rfl
  · rw [if_pos hh]
    obtain ⟨e1, e2⟩ := dmh_tab u.dmh hm (by omega)
    have e : sources false 0 u.dmh (u.ref i 0).toNat (u.ref i 1).toNat (u.mv i 0) (u.mv i 1) =
        [((u.ref i 0).toNat, ((u.mv i 0).1 - (hypothesis u.dmh).1, (u.mv i 0).2 - (hypothesis u.dmh).2)),
         ((u.ref i 0).toNat, ((u.mv i 0).1 + (hypothesis u.dmh).1, (u.mv i 0).2 + (hypothesis u.dmh).2))] := by
      unfold sources
      simp only []
      rw [if_neg e2]
    rw [e] at get hs ⊢
    obtain ⟨a, f, hf⟩ := get (s := ((u.ref i 0).toNat, ((u.mv i 0).1 - (hypothesis u.dmh).1, (u.mv i 0).2 - (hypothesis u.dmh).2))) (by simp)
    obtain ⟨_, _, b1, b2, b3, b4⟩ := hs _ List.mem_cons_self
    obtain ⟨_, _, c1, c2, c3, c4⟩ := hs _ (List.mem_cons_of_mem _ List.mem_cons_self)
    refine Or.inr ⟨_, _, f, f, rfl, hf, hf, ?_⟩
    rw [frefAt_nat k r0 a]
    dsimp only at hf
    rw [hf, e1]
    unfold addMv
    dsimp only at *
    rw [← sub_eq_add_neg, ← sub_eq_add_neg, toInt16_id' ⟨b1, b2⟩, toInt16_id' ⟨b3, b4⟩, toInt16_id' ⟨c1, c2⟩, toInt16_id' ⟨c3, c4⟩]
    rfl

/-- Two samples: the average computed is the mean rounded up. -/
theorem average_eq {a b : Int} (ha : 0 ≤ a ∧ a ≤ 255) (hb : 0 ≤ b ∧ b ≤ 255) : pixelAverage a b = mean [a, b] := by
  show (a + b + 1) / 2 % 256 = (a + b + 1) / 2
  omega

theorem interp_range (n : Nat) (F : Nat → List Int) (o : Int) (p : Int → Int → Int) (x y : Int) :
    0 ≤ interp n F o p x y ∧ interp n F o p x y ≤ 255 := by
  unfold interp limit8; omega

/-- The planes after a prediction unit. -/
def puPlanes (k : Ctx) (u : Cu) (pic : Nat → Nat → Int → Int → Int) (st : Planes) (i : Nat) (b : Cb) : Planes := fun c X Y =>
  if inCb u (min c 1) b (X, Y) then
    if c = 0 then predLuma k.w k.h (pic 0) (srcOf k u i) X Y
    else if k.c420 = true ∧ c < 3 then predChroma (k.w / 2) (k.h / 2) (pic c) (srcOf k u i) X Y
    else st c X Y
  else st c X Y

theorem luma_block {k : Ctx} {stride : Nat → Int} {pic : Nat → Nat → Int → Int → Int} (hr : Refs k stride pic) {u : Cu} (hf : Fits k u)
    {b : Cb} (hb : PuFits (2 ^ u.level) b) {s : Nat × Mv} (hs : s.1 < 4) {f : Frame} (e : k.fref s.1 = some f) :
    ∀ y < b.h, ∀ x < b.w, mcLuma (f.plane 0) (stride 0) (cuGetMcPosMv k.w b.w (u.x + b.x : Nat) s.2.1) (cuGetMcPosMv k.h b.h (u.y + b.y : Nat) s.2.2) x y =
      some (interpLuma (extend (pic 0 s.1) k.w k.h) (4 * ((u.x + b.x + x : Nat) : Int) + s.2.1) (4 * ((u.y + b.y + y : Nat) : Int) + s.2.2)) := by
  intro y hy x hx
  exact C36_luma_partial (f.plane 0) (stride 0) k.w k.h (pic 0 s.1) (hr.range 0 s.1) (hr.luma _ hs _ e) hf.w.2.1 hf.h.2.1 (u.x + b.x) (u.y + b.y) b.w b.h
    ⟨hb.w4.1, hb.w4.2.1⟩ ⟨hb.h4.1, hb.h4.2.1⟩ (by have := hf.x.2; have := hb.x.2; omega) (by have := hf.y.2; have := hb.y.2; omega) _ _ x y hx hy

theorem chroma_block {k : Ctx} {stride : Nat → Int} {pic : Nat → Nat → Int → Int → Int} (hr : Refs k stride pic) {u : Cu} (hf : Fits k u)
    {b : Cb} (hb : PuFits (2 ^ u.level) b) {s : Nat × Mv} (hs : s.1 < 4) {f : Frame} (e : k.fref s.1 = some f) {c : Nat} (hc : c < 3) (hc' : 0 < c) :
    ∀ y < b.h / 2, ∀ x < b.w / 2,
      mcChroma (f.plane c) (stride c) (cuGetMcPosMv k.w b.w (u.x + b.x : Nat) s.2.1) (cuGetMcPosMv k.h b.h (u.y + b.y : Nat) s.2.2) x y =
      some (interpChroma (extend (pic c s.1) (k.w / 2) (k.h / 2)) (8 * (((u.x + b.x) / 2 + x : Nat) : Int) + s.2.1)
        (8 * (((u.y + b.y) / 2 + y : Nat) : Int) + s.2.2)) := by
  intro y hy x hx
  have h1 := hf.x; have h2 := hb.x; have h3 := hf.y; have h4 := hb.y; have h5 := hb.w4; have h6 := hb.h4
  have he : (u.x + b.x) % 2 = 0 ∧ (u.y + b.y) % 2 = 0 ∧ b.w % 2 = 0 ∧ b.h % 2 = 0 := by omega
  exact C36_chroma_partial (f.plane c) (stride c) k.w k.h (pic c s.1) (hr.range c s.1) hf.w.2.2 hf.h.2.2 (hr.chroma _ hs _ e c hc hc')
    ⟨hf.w.1, hf.w.2.1⟩ ⟨hf.h.1, hf.h.2.1⟩ (u.x + b.x) (u.y + b.y) b.w b.h
    ⟨hb.w4.1, hb.w4.2.1⟩ ⟨hb.h4.1, hb.h4.2.1⟩ he (by omega) (by omega) _ _ x y hx hy

/-- A block written with the predicted samples. -/
theorem write_pred (m : Rp.Plane) (u : Cu) (s : Nat) (b : Cb) (g : Int → Int → Int) :
    (Rp.write m ((u.x + b.x) / 2 ^ s) ((u.y + b.y) / 2 ^ s) (b.w / 2 ^ s) (b.h / 2 ^ s) fun x y =>
      g (((u.x + b.x) / 2 ^ s + x : Nat) : Int) (((u.y + b.y) / 2 ^ s + y : Nat) : Int)) =
      fun X Y => if inCb u s b (X, Y) then g X Y else m X Y := by
  funext X Y
  unfold Rp.write inCb
  simp only [decide_eq_true_eq]
  generalize (u.x + b.x) / 2 ^ s = a
  generalize (u.y + b.y) / 2 ^ s = a'
  split
  · next hc => congr 1 <;> omega
  · rfl

/-- One prediction unit. -/
theorem predPu_eq {k : Ctx} {stride : Nat → Int} {pic : Nat → Nat → Int → Int → Int} (hr : Refs k stride pic) (h0 : (k.fref 0).isSome = true)
    {u : Cu} (hf : Fits k u) {b : Cb} (hb : PuFits (2 ^ u.level) b) {i : Nat} (hp : PuOk k u i) (st : Planes) :
    predPu k u st i b = some (puPlanes k u pic st i b, true) := by
  obtain ⟨f0, hf0⟩ := Option.isSome_iff_exists.mp h0
  have s0 := hr.same 0 (by omega) f0 hf0 0 (by omega)
  have low := write_pred (u := u) (b := b) (s := 0)
  simp only [pow_zero, Nat.div_one] at low
  have high := write_pred (u := u) (b := b) (s := 1)
  simp only [pow_one] at high
  unfold predPu
  rcases pick_eq hp with ⟨s, f, e, hs, v, hpick⟩ | ⟨s, t, f, g, e, hs, ht, hpick⟩
  · obtain ⟨sl, _⟩ := hp.src s (by rw [e]; exact List.mem_cons_self)
    rw [hpick]
    simp only [Option.bind_eq_bind, Option.bind_some, Option.map_none]
    rw [hf0]
    simp only [Option.bind_some]
    rw [s0, predPlane_one _ _ _ _ _ _ (luma_block hr hf hb sl hs), low _ (fun X Y => interpLuma (extend (pic 0 s.1) k.w k.h) (4 * X + s.2.1) (4 * Y + s.2.2))]
    simp only [Option.bind_some]
    have s1 := hr.same _ sl f hs 1 (by omega)
    have s2 := hr.same _ sl f hs 2 (by omega)
    by_cases hc : k.c420 = true
    · rw [if_pos hc, s1, s2, predPlane_one _ _ _ _ _ _ (chroma_block hr hf hb sl hs (by omega : 1 < 3) (by omega)),
        high _ (fun X Y => interpChroma (extend (pic 1 s.1) (k.w / 2) (k.h / 2)) (8 * X + s.2.1) (8 * Y + s.2.2))]
      simp only [Option.bind_some]
      rw [predPlane_one _ _ _ _ _ _ (chroma_block hr hf hb sl hs (by omega : 2 < 3) (by omega)),
        high _ (fun X Y => interpChroma (extend (pic 2 s.1) (k.w / 2) (k.h / 2)) (8 * X + s.2.1) (8 * Y + s.2.2))]
      simp only [Option.bind_some]
      congr 2
      funext c X Y
      unfold puPlanes
      rw [e]
      match c with
      | 0 => simp [predLuma, mean]
      | 1 => simp [predChroma, mean, hc]
      | 2 => simp [predChroma, mean, hc]
      | c + 3 =>
        rw [Function.update_of_ne (by omega), Function.update_of_ne (by omega), Function.update_of_ne (by omega)]
        simp
    · rw [if_neg hc]
      congr 2
      funext c X Y
      unfold puPlanes
      rw [e]
      match c with
      | 0 => simp [predLuma, mean]
      | c + 1 =>
        rw [Function.update_of_ne (by omega)]
        simp [hc]
  · obtain ⟨sl, _⟩ := hp.src s (by rw [e]; exact List.mem_cons_self)
    obtain ⟨tl, _⟩ := hp.src t (by rw [e]; exact List.mem_cons_of_mem _ List.mem_cons_self)
    rw [hpick]
    simp only [Option.bind_eq_bind, Option.bind_some, Option.map_some]
    rw [hf0]
    simp only [Option.bind_some]
    rw [s0, predPlane_two _ _ _ _ _ _ (luma_block hr hf hb sl hs) (luma_block hr hf hb tl ht),
      low _ (fun X Y => pixelAverage (interpLuma (extend (pic 0 s.1) k.w k.h) (4 * X + s.2.1) (4 * Y + s.2.2))
        (interpLuma (extend (pic 0 t.1) k.w k.h) (4 * X + t.2.1) (4 * Y + t.2.2)))]
    simp only [Option.bind_some]
    have s1 := hr.same _ sl f hs 1 (by omega)
    have s2 := hr.same _ sl f hs 2 (by omega)
    have av : ∀ n F o p p' (x y x' y' : Int), pixelAverage (interp n F o p x y) (interp n F o p' x' y') = mean [interp n F o p x y, interp n F o p' x' y'] :=
      fun n F o p p' x y x' y' => average_eq (interp_range ..) (interp_range ..)
    by_cases hc : k.c420 = true
    · rw [if_pos hc, s1, s2, predPlane_two _ _ _ _ _ _ (chroma_block hr hf hb sl hs (by omega : 1 < 3) (by omega)) (chroma_block hr hf hb tl ht (by omega : 1 < 3) (by omega)),
        high _ (fun X Y => pixelAverage (interpChroma (extend (pic 1 s.1) (k.w / 2) (k.h / 2)) (8 * X + s.2.1) (8 * Y + s.2.2))
          (interpChroma (extend (pic 1 t.1) (k.w / 2) (k.h / 2)) (8 * X + t.2.1) (8 * Y + t.2.2)))]
      simp only [Option.bind_some]
      rw [predPlane_two _ _ _ _ _ _ (chroma_block hr hf hb sl hs (by omega : 2 < 3) (by omega)) (chroma_block hr hf hb tl ht (by omega : 2 < 3) (by omega)),
        high _ (fun X Y => pixelAverage (interpChroma (extend (pic 2 s.1) (k.w / 2) (k.h / 2)) (8 * X + s.2.1) (8 * Y + s.2.2))
          (interpChroma (extend (pic 2 t.1) (k.w / 2) (k.h / 2)) (8 * X + t.2.1) (8 * Y + t.2.2)))]
      simp only [Option.bind_some]
      congr 2
      funext c X Y
      unfold puPlanes
      rw [e]
      unfold interpLuma interpChroma
      match c with
      | 0 => simp [predLuma, av, interpLuma]
      | 1 => simp [predChroma, av, interpChroma, hc]
      | 2 => simp [predChroma, av, interpChroma, hc]
      | c + 3 =>
        rw [Function.update_of_ne (by omega), Function.update_of_ne (by omega), Function.update_of_ne (by omega)]
        simp
    · rw [if_neg hc]
      congr 2
      funext c X Y
      unfold puPlanes
      rw [e]
      unfold interpLuma
      match c with
      | 0 => simp [predLuma, av, interpLuma]
      | c + 1 =>
        rw [Function.update_of_ne (by omega)]
        simp [hc]

/-- All prediction units. -/
theorem predLoop_eq {k : Ctx} {stride : Nat → Int} {pic : Nat → Nat → Int → Int → Int} (hr : Refs k stride pic) (h0 : (k.fref 0).isSome = true)
    {u : Cu} (hf : Fits k u) (l : List (Cb × Nat)) (hl : ∀ p ∈ l, PuFits (2 ^ u.level) p.1 ∧ PuOk k u p.2) (st : Planes) :
    predLoop k u l st = some (l.foldl (fun st p => puPlanes k u pic st p.2 p.1) st, true) := by
  induction l generalizing st with
  | nil => rfl
  | cons p l ih =>
    obtain ⟨b, i⟩ := p
    obtain ⟨h1, h2⟩ := hl (b, i) List.mem_cons_self
    unfold predLoop
    rw [predPu_eq hr h0 hf h1 h2 st]
    simp only [Option.bind_eq_bind, Option.bind_some, if_true]
    exact ih (fun p hp => hl p (List.mem_cons_of_mem _ hp)) _

/-- Sides of the transform blocks of inter units. -/
def TuSize (w h : Nat) : Prop :=
  (w, h) ∈ [(4, 4), (8, 8), (16, 16), (32, 32), (64, 64), (64, 16), (16, 64), (4, 16), (8, 32), (16, 4), (32, 8)]

instance (w h : Nat) : Decidable (TuSize w h) := by unfold TuSize; infer_instance

/-- Number of coefficients of a block. -/
def coded (w h : Nat) : Nat := if w = 64 ∨ h = 64 then w / 2 * (h / 2) else w * h

theorem idctOf_eq {w h : Nat} (hs : TuSize w h) {c : Nat → Int} (hc : ∀ a < coded w h, -32768 ≤ c a ∧ c a ≤ 32767) :
    ∀ y < h, ∀ x < w, idctOf w h (fun a => some (c a)) (y * w + x) = some (blockResidual w h c y x) := by
  intro y hy x hx
  unfold TuSize at hs
  simp only [List.mem_cons, List.not_mem_nil, or_false, Prod.mk.injEq] at hs
  have hb (n : Nat) (hn : n ≤ coded w h) : Tr.IsBlock n c (fun a => some (c a)) := fun a ha => ⟨rfl, hc a (by omega)⟩
  rcases hs with ⟨rfl, rfl⟩ | ⟨rfl, rfl⟩ | ⟨rfl, rfl⟩ | ⟨rfl, rfl⟩ | ⟨rfl, rfl⟩ | ⟨rfl, rfl⟩ | ⟨rfl, rfl⟩ | ⟨rfl, rfl⟩ | ⟨rfl, rfl⟩ | ⟨rfl, rfl⟩ | ⟨rfl, rfl⟩
  case inr.inr.inr.inr.inl => 
    have := Tr.C38_64x64 (hb 1024 (by decide)) hy hx
    rw [mul_comm] at this
    exact this
  case inr.inr.inr.inr.inr.inl =>
    have := Tr.C38_64x16 (hb 256 (by decide)) hy hx
    rw [mul_comm] at this
    exact this
  case inr.inr.inr.inr.inr.inr.inl =>
    have := Tr.C38_16x64 (hb 256 (by decide)) hy hx
    rw [mul_comm] at this
    exact this
  all_goals exact Tr.C38_idct (by unfold Tr.IsSize; decide) (by unfold Tr.IsSize; decide) (by omega) (hb _ (by decide)) hy hx

theorem TuSize.pos {w h : Nat} (hs : TuSize w h) : 0 < w ∧ 0 < h := by
  unfold TuSize at hs
  simp only [List.mem_cons, List.not_mem_nil, or_false, Prod.mk.injEq] at hs
  omega

theorem limit_eq (v : Int) : clip1 v = limit8 v := by
  unfold clip1 limit8; omega

/-- One transform block. -/
theorem recons_eq {w h : Nat} (hs : TuSize w h) (m : Rp.Plane) {coef : Nat → Int} {off : Nat}
    (hc : ∀ a < coded w h, -32768 ≤ coef (off + a) ∧ coef (off + a) ≤ 32767) (x y : Nat) :
    ∃ coef', recons m coef off x y w h = some (fun X Y => if (x : Int) ≤ X ∧ X < x + w ∧ (y : Int) ≤ Y ∧ Y < y + h then
        limit8 (m X Y + blockResidual w h (fun a => coef (off + a)) (Y - y).toNat (X - x).toNat) else m X Y, coef') ∧
      ∀ a, ¬ (off ≤ a ∧ a < off + w * h) → coef' a = coef a := by
  have key := idctOf_eq hs hc
  obtain ⟨hw, hh⟩ := hs.pos
  unfold recons
  dsimp only
  rw [if_pos]
  · refine ⟨_, congrArg some (Prod.ext ?_ rfl), fun a ha => if_neg ha⟩
    funext X Y
    dsimp only
    unfold Rp.write
    split
    · next hX =>
      have hx : (X - x).toNat < w := by omega
      have hy : (Y - y).toNat < h := by omega
      have : (Y - y).toNat * w + (X - x).toNat < w * h := by
        have : ((Y - y).toNat + 1) * w ≤ h * w := Nat.mul_le_mul_right _ hy
        rw [Nat.add_mul, one_mul] at this
        rw [mul_comm w h]
        omega
      dsimp only
      rw [if_pos (by omega), Nat.add_sub_cancel_left, key _ hy _ hx, limit_eq]
      simp only [Option.getD_some]
      congr 2
      congr 1 <;> omega
    · rfl
  · intro a ha
    have h1 : a / w < h := Nat.div_lt_of_lt_mul ha
    have := key (a / w) h1 (a % w) (Nat.mod_lt _ hw)
    rw [mul_comm, Nat.div_add_mod] at this
    rw [this]; rfl

/-- The luma plane after a transform unit. -/
def tuPlane (u : Cu) (m : Rp.Plane) (i : Nat) (b : Cb) : Rp.Plane := fun X Y =>
  if inCb u 0 b (X, Y) then
    if u.cbp.testBit i then limit8 (m X Y + blockResidual b.w b.h (fun a => u.coefY (i * 2 ^ ((u.level - 1) * 2) + a))
      (Y - (u.y + b.y : Nat)).toNat (X - (u.x + b.x : Nat)).toNat) else m X Y
  else m X Y

/-- The transform units of the list are processed with the coefficients that were read for them. -/
theorem lumaLoop_eq (u : Cu) (N : Nat) (hN : N = 2 ^ ((u.level - 1) * 2)) (hc : ∀ a, -32768 ≤ u.coefY a ∧ u.coefY a ≤ 32767) (l : List Cb) (n : Nat)
    (hl : ∀ b ∈ l, TuSize b.w b.h ∧ b.w * b.h = N) (m : Rp.Plane) (coef : Nat → Int) (hco : ∀ a, n * N ≤ a → coef a = u.coefY a) :
    lumaLoop u (l.zipIdx n) m coef = some ((l.zipIdx n).foldl (fun m p => tuPlane u m p.2 p.1) m) := by
  induction l generalizing n m coef with
  | nil => rfl
  | cons b l ih =>
    obtain ⟨h1, h2⟩ := hl b List.mem_cons_self
    rw [List.zipIdx_cons, List.foldl_cons]
    unfold lumaLoop
    by_cases hb : u.cbp.testBit n = true
    · rw [if_pos hb, ← hN]
      obtain ⟨coef', e, hcoef⟩ := recons_eq h1 m (coef := coef) (off := n * N) (fun a _ => by rw [hco _ (by omega)]; exact hc _) (u.x + b.x) (u.y + b.y)
      rw [e]
      simp only [Option.bind_eq_bind, Option.bind_some]
      rw [ih (n + 1) (fun b hb => hl b (List.mem_cons_of_mem _ hb)) _ coef' (fun a ha => ?_)]
      · congr 2
        funext X Y
        unfold tuPlane inCb
        simp only [pow_zero, Nat.div_one, decide_eq_true_eq, hb, if_true]
        rw [← hN]
        have : (fun a => coef (n * N + a)) = fun a => u.coefY (n * N + a) := funext fun a => hco _ (by omega)
        rw [this]
      · rw [Nat.add_mul, one_mul] at ha
        rw [hcoef a (by omega), hco a (by omega)]
    · rw [if_neg hb, ih (n + 1) (fun b hb => hl b (List.mem_cons_of_mem _ hb)) m coef (fun a ha => hco a (by rw [Nat.add_mul] at ha; omega))]
      congr 2
      funext X Y
      unfold tuPlane
      simp [hb]

theorem tu_tab : ∀ k, k < 4 → ∀ t, t < 4 → 0 < t ∧ (t = 1 ∨ t = 2 → 1 ≤ k) →
    (tuUnits t (3 + k)).all (fun b => decide (TuSize b.w b.h ∧ b.w * b.h = 2 ^ ((3 + k - 1) * 2))) = true := by decide +kernel

theorem in_side (ux bx bw s : Nat) (hs : s = 0 ∨ s = 1) (hu : ux % 8 = 0) (he : s = 1 → bx % 2 = 0 ∧ bw % 2 = 0) (X : Int) (hX : ((ux / 2 ^ s : Nat) : Int) ≤ X) :
    ((((ux + bx) / 2 ^ s : Nat) : Int) ≤ X ∧ X < ((ux + bx) / 2 ^ s : Nat) + (bw / 2 ^ s : Nat)) ↔
      bx ≤ (X.toNat - ux / 2 ^ s) * 2 ^ s ∧ (X.toNat - ux / 2 ^ s) * 2 ^ s < bx + bw := by
  obtain ⟨n, rfl⟩ := Int.eq_ofNat_of_zero_le (le_trans (Int.natCast_nonneg _) hX)
  rw [Int.toNat_natCast]
  rcases hs with rfl | rfl
  · simp only [pow_zero, Nat.div_one, mul_one] at *; omega
  · obtain ⟨h1, h2⟩ := he rfl
    simp only [pow_one] at *; omega

/-- A point of the unit is in one of the blocks of an exact cover. -/
theorem covered {n : Nat} {us : List Cb} (ht : Tiles n (us.map Cb.rect)) {u : Cu} {s : Nat} (hs : s = 0 ∨ s = 1)
    (he : ∀ b ∈ us, s = 1 → b.x % 2 = 0 ∧ b.y % 2 = 0 ∧ b.w % 2 = 0 ∧ b.h % 2 = 0) (hu : u.x % 8 = 0 ∧ u.y % 8 = 0) (hn : n % 2 = 0) (X Y : Int) :
    us.zipIdx.countP (fun p => inCb u s p.1 (X, Y)) =
      if ((u.x / 2 ^ s : Nat) : Int) ≤ X ∧ X < (u.x / 2 ^ s : Nat) + (n / 2 ^ s : Nat) ∧ ((u.y / 2 ^ s : Nat) : Int) ≤ Y ∧
        Y < (u.y / 2 ^ s : Nat) + (n / 2 ^ s : Nat) then 1 else 0 := by
  rw [countP_zipIdx (fun b => inCb u s b (X, Y))]
  by_cases hX : ((u.x / 2 ^ s : Nat) : Int) ≤ X ∧ ((u.y / 2 ^ s : Nat) : Int) ≤ Y
  · have := ht ((X.toNat - u.x / 2 ^ s) * 2 ^ s) ((Y.toNat - u.y / 2 ^ s) * 2 ^ s)
    rw [List.countP_map] at this
    have e : us.countP (fun b => inCb u s b (X, Y)) =
        us.countP ((fun r => inRect r.1 r.2.1 r.2.2.1 r.2.2.2 ((X.toNat - u.x / 2 ^ s) * 2 ^ s) ((Y.toNat - u.y / 2 ^ s) * 2 ^ s)) ∘ Cb.rect) := by
      refine List.countP_congr fun b hb => ?_
      have := he b hb
      simp only [Function.comp, inCb, inRect, Cb.rect, Bool.and_eq_true, decide_eq_true_eq]
      have h1 := in_side u.x b.x b.w s hs hu.1 (fun e => ⟨(this e).1, (this e).2.2.1⟩) X hX.1
      have h2 := in_side u.y b.y b.h s hs hu.2 (fun e => ⟨(this e).2.1, (this e).2.2.2⟩) Y hX.2
      rw [← and_assoc, h1, h2]
      exact ⟨fun ⟨⟨a, b⟩, c, d⟩ => ⟨⟨⟨decide_eq_true a, decide_eq_true b⟩, decide_eq_true c⟩, decide_eq_true d⟩,
        fun ⟨⟨⟨a, b⟩, c⟩, d⟩ => ⟨⟨of_decide_eq_true a, of_decide_eq_true b⟩, of_decide_eq_true c, of_decide_eq_true d⟩⟩
    rw [e, this]
    congr 1
    rcases hs with rfl | rfl
    · simp only [pow_zero, Nat.div_one, mul_one] at hX ⊢; exact propext (by omega)
    · simp only [pow_one] at hX ⊢; exact propext (by omega)
  · rw [if_neg (by omega), List.countP_eq_zero]
    intro b hb
    have := he b hb
    simp only [inCb, decide_eq_true_eq]
    rcases hs with rfl | rfl
    · simp only [pow_zero, Nat.div_one] at hX ⊢; omega
    · have := this rfl
      simp only [pow_one] at hX ⊢; omega

end Davs2.Ir
