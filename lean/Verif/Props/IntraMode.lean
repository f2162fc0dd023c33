import Verif.Model.IntraMode
import Verif.Spec.IntraMode
/-
C47: derivation of intra prediction modes.
-/
namespace Davs2.Im
open Davs2.Spec.Im

/-- Coded indices: what can be read. -/
theorem readPmode_range (s : Nat → Bool) : -2 ≤ readPmode s ∧ readPmode s ≤ 31 := by
  unfold readPmode
  cases s 0 <;> cases s 1 <;> cases s 2 <;> cases s 3 <;> cases s 4 <;> cases s 5 <;> decide

/-- The unused code word is 31. -/
theorem mpm_lt (top left : Int) (ht : 0 ≤ top) (hl : 0 ≤ left) (ht' : top < 33) (hl' : left < 33) :
    0 ≤ (mpm top left).1 ∧ (mpm top left).1 < (mpm top left).2 ∧ (mpm top left).2 < 33 := by
  unfold mpm
  dsimp only
  by_cases h : min top left = max top left
  · rw [if_pos h]
    dsimp only
    split <;> omega
  · rw [if_neg h]
    dsimp only
    omega

/-- C47: whatever is read, the mode is legal. -/
theorem C47_legal (top left : Int) (s : Nat → Bool) (ht : 0 ≤ top) (hl : 0 ≤ left) (ht' : top < 33) (hl' : left < 33) :
    0 ≤ mode top left (readPmode s) ∧ mode top left (readPmode s) < 33 := by
  unfold mode
  dsimp only
  split
  · omega
  · omega

/-- C47: a first symbol 1 and one more symbol choose between the two probable modes, a first symbol 0 and five more
symbols are the number of another mode, most significant bit first. -/
theorem C47_codes (top left : Int) (s : Nat → Bool) :
    (s 0 = true → some (mode top left (readPmode s)) = [mode top left (-2), mode top left (-1)][(s 1).toNat]?) ∧
    (s 0 = false → readPmode s = [s 1, s 2, s 3, s 4, s 5].foldl (fun (n : Int) b => 2 * n + (b.toNat : Int)) 0) := by
  unfold readPmode
  cases s 0 <;> cases s 1 <;> cases s 2 <;> cases s 3 <;> cases s 4 <;> cases s 5 <;> simp

/-- C47: the two short codes select the two probable modes and the other codes 0 to 30 select the other modes in increasing
order. -/
theorem C47_selects (top left : Int) (ht : 0 ≤ top) (hl : 0 ≤ left) (ht' : top < 33) (hl' : left < 33) :
    [mode top left (-2), mode top left (-1)] = probable top left ∧
    (List.range 31).map (fun c => mode top left (Int.ofNat c)) = others top left := by
  have key : ∀ t, t < 33 → ∀ l, l < 33 →
      ([mode (Int.ofNat t) (Int.ofNat l) (-2), mode (Int.ofNat t) (Int.ofNat l) (-1)] =
        probable (Int.ofNat t) (Int.ofNat l) ∧
      (List.range 31).map (fun c => mode (Int.ofNat t) (Int.ofNat l) (Int.ofNat c)) =
        others (Int.ofNat t) (Int.ofNat l)) := by decide +kernel
  have := key top.toNat (by omega) left.toNat (by omega)
  rwa [show Int.ofNat top.toNat = top by simp; omega, show Int.ofNat left.toNat = left by simp; omega] at this

/-- C47: the coded indices -2 to 30 are mapped one to one onto the modes 0 to 32. -/
theorem C47_bijection (top left : Int) (ht : 0 ≤ top) (hl : 0 ≤ left) (ht' : top < 33) (hl' : left < 33) :
    (∀ c d : Int, -2 ≤ c → c ≤ 30 → -2 ≤ d → d ≤ 30 → mode top left c = mode top left d → c = d) ∧
    ∀ m : Int, 0 ≤ m → m < 33 → ∃ c, -2 ≤ c ∧ c ≤ 30 ∧ mode top left c = m := by
  have hm := mpm_lt top left ht hl ht' hl'
  constructor
  · intro c d h1 h2 h3 h4
    unfold mode rawMode
    dsimp only
    generalize (mpm top left).1 = p at *
    generalize (mpm top left).2 = q at *
    intro h
    split at h <;> split at h <;> split at h <;> split at h <;> omega
  · intro m h0 h1
    by_cases e1 : m = (mpm top left).1
    · refine ⟨-2, by omega, by omega, ?_⟩
      unfold mode rawMode
      dsimp only
      simp
      omega
    · by_cases e2 : m = (mpm top left).2
      · refine ⟨-1, by omega, by omega, ?_⟩
        unfold mode rawMode
        dsimp only
        simp
        omega
      · refine ⟨m - (if (mpm top left).1 < m then 1 else 0) - (if (mpm top left).2 < m then 1 else 0), ?_, ?_, ?_⟩
        · split <;> split <;> omega
        · split <;> split <;> omega
        · unfold mode rawMode
          dsimp only
          split <;> split <;> split <;> split <;> omega

example : (List.range 5).map (fun c => mode 12 24 (Int.ofNat c)) = [0, 1, 2, 3, 4] ∧ mode 12 24 12 = 13 ∧ mode 12 24 23 = 25 ∧
    mode 12 24 (-2) = 12 ∧ mode 12 24 (-1) = 24 ∧ mode 0 0 (-1) = 2 := by decide

/-- The chroma modes that repeat a luma mode: DC (1) for 0, bilinear (4) for 2, vertical (3) for 12, horizontal (2) for 24. -/
def repeats (luma : Nat) : List Nat := if luma = 0 then [1] else if luma = 2 then [4] else if luma = 12 then [3] else if luma = 24 then [2] else []

/-- C47 for chroma: the code words in use are mapped one to one, in increasing order, onto the chroma modes (0: derived from luma)
that do not repeat the luma mode; the unused code word (present if a mode is left out) still gives a legal mode. -/
theorem C47_chroma (luma : Nat) (hl : luma < 33) :
    chromaMode luma true 0 :: (List.range (4 - (repeats luma).length)).map (chromaMode luma false) =
      (List.range 5).filter (fun m => !(repeats luma).contains m) ∧
    ∀ u, u < 4 → ∀ f, chromaMode luma f u < 5 := by
  have key : ∀ l, l < 33 → (chromaMode l true 0 :: (List.range (4 - (repeats l).length)).map (chromaMode l false) =
      (List.range 5).filter (fun m => !(repeats l).contains m) ∧
    ∀ u, u < 4 → ∀ f, chromaMode l f u < 5) := by decide +kernel
  exact key luma hl

example : (List.range 4).map (chromaMode 24 false) = [1, 3, 4, 4] := by decide

/-! ### Where the modes above and to the left come from -/

theorem addr_inj {w : Nat} {c c' r r' : Int} (h1 : -16 ≤ c) (h2 : c < w) (h1' : -16 ≤ c') (h2' : c' < w)
    (h : addr w c r = addr w c' r') : c = c' ∧ r = r' := by
  unfold addr at h
  have hd : (r - r') * ((w : Int) + 16) = c' - c := by rw [Int.sub_mul]; omega
  have hr : r = r' := by
    rcases Int.lt_trichotomy r r' with hlt | he | hgt
    · exfalso
      have : (r - r') * ((w : Int) + 16) ≤ (-1) * ((w : Int) + 16) :=
        Int.mul_le_mul_of_nonneg_right (by omega) (by omega)
      omega
    · exact he
    · exfalso
      have : 1 * ((w : Int) + 16) ≤ (r - r') * ((w : Int) + 16) :=
        Int.mul_le_mul_of_nonneg_right (by omega) (by omega)
      omega
  subst hr
  exact ⟨by omega, rfl⟩

theorem foldl_set (l : List Int) (v : Int) (m : Buf) (a : Int) :
    l.foldl (fun (m : Buf) k => fun a => if a = k then v else m a) m a = if a ∈ l then v else m a := by
  induction l generalizing m with
  | nil => simp
  | cons k l ih =>
    rw [List.foldl_cons, ih]
    by_cases h1 : a ∈ l
    · rw [if_pos h1, if_pos (List.mem_cons_of_mem _ h1)]
    · rw [if_neg h1]
      by_cases h2 : a = k
      · rw [if_pos h2, if_pos (by rw [h2]; exact List.mem_cons_self ..)]
      · rw [if_neg h2, if_neg (by simp [h1, h2])]

/-- Addresses written for a block. -/
def cells (w : Nat) (b : Blk) : List Int :=
  (List.range b.h).flatMap fun j =>
    (List.range (b.w - (if j = b.h - 1 then 0 else b.w - 1))).map fun k =>
      addr w (b.x + (((if j = b.h - 1 then 0 else b.w - 1 : Nat) : Int) + (k : Nat))) (b.y + (j : Nat))

theorem store_eq (w : Nat) (m : Buf) (b : Blk) (v a : Int) : store w m b v a = if a ∈ cells w b then v else m a := by
  rw [← foldl_set, cells, List.foldl_flatMap]
  simp only [List.foldl_map]
  rfl

theorem mem_cells {w : Nat} {b : Blk} (hx : b.x + b.w ≤ w) {c r : Int} (h1 : -16 ≤ c) (h2 : c < w) :
    addr w c r ∈ cells w b ↔ ((b.x : Int) ≤ c ∧ c < b.x + b.w ∧ (b.y : Int) ≤ r ∧ r < b.y + b.h) ∧
      (c = b.x + b.w - 1 ∨ r = b.y + b.h - 1) := by
  unfold cells
  simp only [List.mem_flatMap, List.mem_range, List.mem_map]
  constructor
  · rintro ⟨j, hj, k, hk, e⟩
    by_cases hl : j = b.h - 1
    · rw [if_pos hl] at hk e
      obtain ⟨e1, e2⟩ := addr_inj (by omega) (by omega) h1 h2 e
      omega
    · rw [if_neg hl] at hk e
      obtain ⟨e1, e2⟩ := addr_inj (by omega) (by omega) h1 h2 e
      omega
  · rintro ⟨hin, hb⟩
    refine ⟨(r - b.y).toNat, by omega, ?_⟩
    by_cases hl : (r - b.y).toNat = b.h - 1
    · rw [if_pos hl]
      exact ⟨(c - b.x).toNat, by omega, by congr 1 <;> omega⟩
    · rw [if_neg hl]
      exact ⟨0, by omega, by congr 1 <;> omega⟩

theorem reset_at {w : Nat} (m : Buf) (r : Nat) {c q : Int} (h1 : -16 ≤ c) (h2 : c < w) :
    reset w m r (addr w c q) = if q = (r : Int) - 1 then 0 else m (addr w c q) := by
  unfold reset
  have key : (addr w (-16) ((r : Int) - 1) ≤ addr w c q ∧ addr w c q < addr w (-16) ((r : Int) - 1) + (w + 16)) ↔
      q = (r : Int) - 1 := by
    unfold addr
    constructor
    · rintro ⟨ha, hb⟩
      have hd : (q - ((r : Int) - 1)) * ((w : Int) + 16) = q * (w + 16) - ((r : Int) - 1) * (w + 16) := Int.sub_mul ..
      rcases Int.lt_trichotomy q ((r : Int) - 1) with hlt | he | hgt
      · exfalso
        have : (q - ((r : Int) - 1)) * ((w : Int) + 16) ≤ (-1) * ((w : Int) + 16) :=
          Int.mul_le_mul_of_nonneg_right (by omega) (by omega)
        omega
      · exact he
      · exfalso
        have : 1 * ((w : Int) + 16) ≤ (q - ((r : Int) - 1)) * ((w : Int) + 16) :=
          Int.mul_le_mul_of_nonneg_right (by omega) (by omega)
        omega
    · intro he
      subst he
      omega
  by_cases h : q = (r : Int) - 1
  · rw [if_pos (key.mpr h), if_pos h]
  · rw [if_neg (fun hh => h (key.mp hh)), if_neg h]

/-- The modes without any storage: for each block the neighbouring modes are those of the blocks of the same slice that contain
the positions to the left and above. -/
def specRun (ds : List Done) : List Item → List Int
  | [] => []
  | .start _ :: is => specRun [] is
  | .blk b c :: is =>
    let v := mode (modeAt ds b.x (b.y - 1)) (modeAt ds (b.x - 1) b.y) c
    v :: specRun (⟨b.x, b.y, b.w, b.h, v⟩ :: ds) is

def holds (d : Done) (px py : Int) : Prop := (d.x : Int) ≤ px ∧ px < d.x + d.w ∧ (d.y : Int) ≤ py ∧ py < d.y + d.h

instance (d : Done) (px py : Int) : Decidable (holds d px py) := by unfold holds; infer_instance

/-- Two blocks have no common position. -/
def apart (ax ay aw ah bx b_y bw bh : Nat) : Prop := ax + aw ≤ bx ∨ bx + bw ≤ ax ∨ ay + ah ≤ b_y ∨ b_y + bh ≤ ay

instance (ax ay aw ah bx b_y bw bh : Nat) : Decidable (apart ax ay aw ah bx b_y bw bh) := by unfold apart; infer_instance

/-- The sequence is possible in a picture of `w` times `h` (4x4 blocks) whose slices begin at the left border: blocks are inside
the picture and do not overlap, a slice begins below all blocks of the slices before it and has only blocks from its first row
on. `r` is the first row of the current slice, `bs` are its blocks so far. -/
def Possible (w h : Nat) (r : Nat) (bs : List Blk) : List Item → Prop
  | [] => True
  | .start r' :: is => r ≤ r' ∧ (∀ b ∈ bs, b.y + b.h ≤ r') ∧ Possible w h r' [] is
  | .blk b _ :: is => r ≤ b.y ∧ 0 < b.w ∧ 0 < b.h ∧ b.x + b.w ≤ w ∧ b.y + b.h ≤ h ∧
      (∀ d ∈ bs, apart d.x d.y d.w d.h b.x b.y b.w b.h) ∧ Possible w h r (b :: bs) is

structure Inv (w : Nat) (m : Buf) (r : Nat) (ds : List Done) (bs : List Blk) : Prop where
  same : ds.map (fun d => (d.x, d.y, d.w, d.h)) = bs.map (fun b => (b.x, b.y, b.w, b.h))
  fits : ∀ d ∈ ds, d.x + d.w ≤ w
  empty : ∀ c q : Int, -16 ≤ c → c < w → (r : Int) - 1 ≤ q → (∀ d ∈ ds, ¬ holds d c q) → m (addr w c q) = 0
  border : ∀ c q : Int, -16 ≤ c → c < w → (r : Int) - 1 ≤ q → ∀ d ∈ ds, holds d c q →
    (c = d.x + d.w - 1 ∨ q = d.y + d.h - 1) → m (addr w c q) = modeAt ds c q

theorem modeAt_none {ds : List Done} {c q : Int} (h : ∀ d ∈ ds, ¬ holds d c q) : modeAt ds c q = 0 := by
  unfold modeAt
  rw [List.find?_eq_none.mpr]
  intro d hd
  have := h d hd
  unfold holds at this
  simpa using this

theorem modeAt_cons_pos {ds : List Done} {d : Done} {c q : Int} (h : holds d c q) : modeAt (d :: ds) c q = d.mode := by
  unfold modeAt
  rw [List.find?_cons_of_pos (by unfold holds at h; exact decide_eq_true h)]

theorem modeAt_cons_neg {ds : List Done} {d : Done} {c q : Int} (h : ¬ holds d c q) :
    modeAt (d :: ds) c q = modeAt ds c q := by
  unfold modeAt
  rw [List.find?_cons_of_neg (by unfold holds at h; simpa using h)]

theorem run_spec {w h : Nat} (is : List Item) : ∀ (m : Buf) (r : Nat) (ds : List Done) (bs : List Blk), Inv w m r ds bs →
    Possible w h r bs is → run w m is = specRun ds is := by
  induction is with
  | nil => intros; rfl
  | cons i is ih =>
    intro m r ds bs hi hp
    cases i with
    | start r' =>
      obtain ⟨hr, hb, hp⟩ := hp
      show run w (reset w m r') is = specRun [] is
      apply ih _ r' [] [] _ hp
      refine ⟨rfl, by simp, ?_, by simp⟩
      intro c q h1 h2 h3 _
      rw [reset_at m r' h1 h2]
      split
      · rfl
      · next hq =>
        apply hi.empty c q h1 h2 (by omega)
        intro d hd hh
        have hm : (d.x, d.y, d.w, d.h) ∈ bs.map (fun b => (b.x, b.y, b.w, b.h)) := by
          rw [← hi.same]; exact List.mem_map.mpr ⟨d, hd, rfl⟩
        rw [List.mem_map] at hm
        obtain ⟨b, hbm, e⟩ := hm
        simp only [Prod.mk.injEq] at e
        have := hb b hbm
        unfold holds at hh
        omega
    | blk b c =>
      obtain ⟨hr, hw, hh, hxw, hyh, hap, hp⟩ := hp
      have hapd : ∀ d ∈ ds, apart d.x d.y d.w d.h b.x b.y b.w b.h := by
        intro d hd
        have hm : (d.x, d.y, d.w, d.h) ∈ bs.map (fun b => (b.x, b.y, b.w, b.h)) := by
          rw [← hi.same]; exact List.mem_map.mpr ⟨d, hd, rfl⟩
        rw [List.mem_map] at hm
        obtain ⟨b', hbm, e⟩ := hm
        simp only [Prod.mk.injEq] at e
        have := hap b' hbm
        rwa [e.1, e.2.1, e.2.2.1, e.2.2.2] at this
      -- the two neighbours
      have look (px py : Int) (h1 : -16 ≤ px) (h2 : px < w) (h3 : (r : Int) - 1 ≤ py)
          (hadj : ∀ d ∈ ds, holds d px py → (px = d.x + d.w - 1 ∨ py = d.y + d.h - 1)) :
          m (addr w px py) = modeAt ds px py := by
        by_cases he : ∀ d ∈ ds, ¬ holds d px py
        · rw [modeAt_none he, hi.empty px py h1 h2 h3 he]
        · simp only [Classical.not_forall, Decidable.not_not] at he
          obtain ⟨d, hd, hh⟩ := he
          exact hi.border px py h1 h2 h3 d hd hh (hadj d hd hh)
      have htop : m (addr w b.x (b.y - 1)) = modeAt ds b.x (b.y - 1) := by
        apply look _ _ (by omega) (by omega) (by omega)
        intro d hd hh
        right
        have := hapd d hd
        unfold apart at this
        unfold holds at hh
        omega
      have hleft : m (addr w (b.x - 1) b.y) = modeAt ds (b.x - 1) b.y := by
        apply look _ _ (by omega) (by omega) (by omega)
        intro d hd hh
        left
        have := hapd d hd
        unfold apart at this
        unfold holds at hh
        omega
      show _ :: _ = _ :: _
      rw [htop, hleft]
      congr 1
      generalize hv : mode (modeAt ds b.x (b.y - 1)) (modeAt ds (b.x - 1) b.y) c = v
      apply ih _ r _ (b :: bs) _ hp
      refine ⟨by simp [hi.same], ?_, ?_, ?_⟩
      · intro d hd
        rcases List.mem_cons.mp hd with e | e
        · subst e; exact hxw
        · exact hi.fits d e
      · intro c q h1 h2 h3 hno
        rw [store_eq, if_neg, hi.empty c q h1 h2 h3 fun d hd => hno d (List.mem_cons_of_mem _ hd)]
        rw [mem_cells hxw h1 h2]
        exact fun hh => hno _ (List.mem_cons_self ..) hh.1
      · intro c q h1 h2 h3 d hd hh hb
        rw [store_eq]
        rcases List.mem_cons.mp hd with e | e
        · subst e
          rw [if_pos ((mem_cells hxw h1 h2).mpr ⟨hh, hb⟩), modeAt_cons_pos hh]
        · have hnb : ¬ holds ⟨b.x, b.y, b.w, b.h, v⟩ c q := by
            have := hapd d e
            unfold apart at this
            unfold holds at hh ⊢
            dsimp only
            omega
          rw [if_neg (fun hc => hnb ((mem_cells hxw h1 h2).mp hc).1), modeAt_cons_neg hnb]
          exact hi.border c q h1 h2 h3 d e hh hb

/-- C47: for every picture size and every sequence of blocks that do not overlap, the modes are those obtained from the blocks to
the left and above (DC outside), although only the last row and the last column of each block are stored, in one buffer. -/
theorem C47_neighbours (w h : Nat) (is : List Item) (hp : Possible w h 0 [] is) : run w initBuf is = specRun [] is :=
  run_spec is initBuf 0 [] [] ⟨rfl, by simp, fun _ _ _ _ _ _ => rfl, by simp⟩ hp

/-- Two slices of one row of 4x4 blocks each. -/
example : Possible 4 2 0 [] [.start 0, .blk ⟨0, 0, 2, 1⟩ 20, .blk ⟨2, 0, 2, 1⟩ (-1), .start 1, .blk ⟨0, 1, 4, 1⟩ 0] ∧
    run 4 initBuf [.start 0, .blk ⟨0, 0, 2, 1⟩ 20, .blk ⟨2, 0, 2, 1⟩ (-1), .start 1, .blk ⟨0, 1, 4, 1⟩ 0] = [22, 22, 1] := by
  refine ⟨?_, by decide⟩
  simp [Possible, apart]

/-- The addresses used are inside the buffer of `(w + 16) * (h + 1)` entries that begins at `p_ipredmode - (w + 16) - 16`
(header.cc, `p_ipredmode` offset). -/
theorem C47_inside (w h : Nat) (c r : Int) (h1 : -16 ≤ c) (h2 : c < w) (h3 : -1 ≤ r) (h4 : r < h) :
    -((w : Int) + 16) - 16 ≤ addr w c r ∧ addr w c r < ((w : Int) + 16) * (h + 1) - ((w : Int) + 16) - 16 := by
  unfold addr
  have e1 : (-1) * ((w : Int) + 16) ≤ r * ((w : Int) + 16) := Int.mul_le_mul_of_nonneg_right h3 (by omega)
  have e2 : r * ((w : Int) + 16) ≤ ((h : Int) - 1) * ((w : Int) + 16) := Int.mul_le_mul_of_nonneg_right (by omega) (by omega)
  have e3 : ((w : Int) + 16) * (h + 1) = ((h : Int) - 1) * ((w : Int) + 16) + 2 * ((w : Int) + 16) := by
    rw [Int.sub_mul, Int.mul_add, Int.mul_comm]; omega
  omega

example : addr 4 (-16) (-1) = -36 := by decide

end Davs2.Im
