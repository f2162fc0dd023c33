import Verif.Lemmas.CoeffPairs
/-
Reading groups and blocks of coefficients from their code.
-/
namespace Davs2.Sx

variable {σ : Type} {m : Machine σ} {G : σ → Prop}

/-! ### Signs -/

theorem reads_signs (hm : m.Lawful G) (ss : List (Int × Nat)) (h : ∀ e ∈ ss, e.1 ≠ 0 ∧ e.1.natAbs ≤ 32767) :
    Reads G m (readSigns m (ss.map fun e => ((e.1.natAbs : Int), e.2))) ss (ss.map fun e => Bin.eq (decide (e.1 < 0))) := by
  induction ss with
  | nil => exact Reads.pure _
  | cons e ss ih =>
    have he := h e (List.mem_cons_self)
    rw [List.map_cons, List.map_cons, readSigns]
    refine Reads.bind (c := [_]) (Reads.eqp hm _) ?_
    refine Reads.cast (Reads.bind (v := _ :: ss) (ih fun e' h' => h e' (List.mem_cons_of_mem _ h')) (Reads.pure _)) ?_ (List.append_nil _)
    congr 1
    refine Prod.ext ?_ rfl
    dsimp only
    by_cases hn : e.1 < 0
    · rw [decide_eq_true hn, if_pos rfl]
      unfold toInt16
      omega
    · rw [decide_eq_false hn, if_neg Bool.false_ne_true]
      omega

theorem Rel.abs {g : Nat → Int} {p : Nat} {ps ss : List (Int × Nat)} (h : Rel g p ps ss) :
    ps = ss.map fun e => ((e.1.natAbs : Int), e.2) := by
  induction h with
  | nil => rfl
  | cons _ _ _ _ _ ih => rw [List.map_cons, ih]

theorem Rel.levels {g : Nat → Int} {p : Nat} {ps ss : List (Int × Nat)} (h : Rel g p ps ss)
    (hg : ∀ j, (g j).natAbs ≤ 32767) : ∀ e ∈ ss, e.1 ≠ 0 ∧ e.1.natAbs ≤ 32767 := by
  induction h with
  | nil => simp
  | cons _ _ hn _ _ ih =>
    intro e he
    rcases List.mem_cons.mp he with rfl | he
    · exact ⟨hn, hg _⟩
    · exact ih e he

/-- Signs of the positions from `p` up to `n`, downwards. -/
def signsTo (g : Nat → Int) (p : Nat) : Nat → List Bin
  | 0 => []
  | k + 1 => if k < p then [] else if g k = 0 then signsTo g p k else .eq (decide (g k < 0)) :: signsTo g p k

theorem signsTo_zero (g : Nat → Int) (n : Nat) : signsTo g 0 n = signCode g n := by
  induction n with
  | zero => rfl
  | succ n ih => unfold signsTo signCode; rw [if_neg (Nat.not_lt_zero n), ih]

theorem signsTo_cut (g : Nat → Int) (p q n : Nat) (hpq : p ≤ q) (hq : q < n) (hz : ∀ j, p ≤ j → j < q → g j = 0)
    (hn : g q ≠ 0) : signsTo g p n = signsTo g (q + 1) n ++ [.eq (decide (g q < 0))] := by
  have low : ∀ k, k ≤ q → signsTo g p k = [] := by
    intro k
    induction k with
    | zero => intro _; rfl
    | succ k ih =>
      intro hk
      unfold signsTo
      by_cases h : k < p
      · rw [if_pos h]
      · rw [if_neg h, if_pos (hz k (by omega) (by omega)), ih (by omega)]
  induction n with
  | zero => omega
  | succ n ih =>
    unfold signsTo
    by_cases e : n = q
    · subst e
      rw [if_neg (by omega), if_neg hn, if_pos (by omega), low n (Nat.le_refl n)]
      rfl
    · rw [if_neg (by omega), if_neg (by omega : ¬ n < q + 1), ih (by omega)]
      split <;> rfl

theorem signsTo_none (g : Nat → Int) (p n : Nat) (hz : ∀ j, p ≤ j → g j = 0) : signsTo g p n = [] := by
  induction n with
  | zero => rfl
  | succ n ih =>
    unfold signsTo
    by_cases h : n < p
    · rw [if_pos h]
    · rw [if_neg h, if_pos (hz n (by omega)), ih]

theorem Rel.signs {g : Nat → Int} {p : Nat} {ps ss : List (Int × Nat)} (h : Rel g p ps ss) :
    signsTo g p 16 = ss.reverse.map fun e => Bin.eq (decide (e.1 < 0)) := by
  induction h with
  | nil hz => exact signsTo_none g _ 16 hz
  | @cons p q ps ss _ hq hn hpq hz ih =>
    rw [signsTo_cut g p q 16 hpq hq hz hn, ih, List.reverse_cons, List.map_append]
    rfl

/-! ### Placing -/

theorem reads_place (b : Blk) (deq : Int → Int) (cx cy : Nat) (g : Nat → Int) {p : Nat} {ps ss : List (Int × Nat)}
    (h : Rel g p ps ss) :
    ∃ ws, Reads G m (place b deq cx cy ss p : P σ (List Wr)) ws [] ∧
      ∀ w, w ∈ ws ↔ ∃ j, p ≤ j ∧ j < 16 ∧ g j ≠ 0 ∧
        w = ⟨4 * cx + ((if b.swap then (zz j).2 else (zz j).1 : Nat)), 4 * cy + ((if b.swap then (zz j).1 else (zz j).2 : Nat)), deq (g j)⟩ := by
  induction h with
  | @nil p hz =>
    refine ⟨[], Reads.pure _, fun w => ⟨fun h => absurd h (List.not_mem_nil), ?_⟩⟩
    rintro ⟨j, h1, _, h2, _⟩
    exact absurd (hz j h1) h2
  | @cons p q ps ss _ hq hn hpq hz ih =>
    obtain ⟨ws, h1, h2⟩ := ih
    refine ⟨⟨4 * cx + ((if b.swap then (zz q).2 else (zz q).1 : Nat)), 4 * cy + ((if b.swap then (zz q).1 else (zz q).2 : Nat)), deq (g q)⟩ :: ws,
      ?_, fun w => ?_⟩
    · unfold place
      refine Reads.bind0 (a := zz q) (Reads.tab (by omega) ?_) ?_
      · rw [show (((p + (q - p) : Nat) : Int)).toNat = q by omega]
        exact scan4_get hq
      · rw [show p + (q - p) + 1 = q + 1 by omega]
        refine Reads.bind0 h1 ((Reads.pure _).cast ?_ rfl)
        cases b.swap <;> rfl
    · rw [List.mem_cons, h2]
      constructor
      · rintro (rfl | ⟨j, h1, h3⟩)
        · exact ⟨q, hpq, hq, hn, rfl⟩
        · exact ⟨j, by omega, h3⟩
      · rintro ⟨j, h1, h3, h4, rfl⟩
        by_cases hj : j = q
        · subst hj
          exact Or.inl rfl
        · by_cases hjq : j < q
          · exact absurd (hz j h1 hjq) h4
          · exact Or.inr ⟨j, by omega, h3, h4, rfl⟩

/-! ### Position of the last coefficient -/

theorem rankOf_eq_zero {x : Nat} : rankOf x = 0 ↔ x = 0 := by
  unfold rankOf
  repeat' split
  all_goals omega

theorem lastCtx_eq (b : Blk) (one : Bool) (top cx cy : Nat) :
    (if (!b.luma) = true then 48 + (if one = true then 0 else 4 + (if rankOf top = 0 then 1 else 0) * 4)
      else if one = true then 40 + b.diag.toNat * 4
      else if cx ≠ 0 ∧ cy ≠ 0 then 32 + (if rankOf top = 0 then 1 else 0) * 4
      else (4 * (if rankOf top = 0 then 1 else 0) + 2 * (if cx = 0 ∧ cy = 0 then 1 else 0) + b.diag.toNat) * 4) =
    lastCtx b one top cx cy := by
  unfold lastCtx
  simp only [rankOf_eq_zero]
  cases b.luma <;> cases one <;> cases b.diag <;> simp <;> repeat' split
  all_goals omega

theorem lastCtx_le (b : Blk) (one : Bool) (top cx cy : Nat) : lastCtx b one top cx cy ≤ 56 := by
  unfold lastCtx
  repeat' split
  all_goals omega

theorem reads_lastPos (hm : m.Lawful G) (b : Blk) (one : Bool) (top cx cy pos : Nat) (hp : pos < 16) :
    Reads G m (lastPos m b (rankOf top) cx cy one) pos (lastCode b one top cx cy pos) := by
  have hz := zz_raster pos hp
  have hle := lastCtx_le b one top cx cy
  unfold lastPos lastCode
  dsimp only
  rw [lastCtx_eq]
  generalize lastCtx b one top cx cy = c at hle
  generalize (zz pos).1 = x at hz
  generalize (zz pos).2 = y at hz
  have hr : (rankOf top ≠ 0) = (top ≠ 0) := by rw [ne_eq, rankOf_eq_zero]
  have hx' : (if top = 0 then x else 3 - x) ≤ 3 := by split <;> omega
  have hy' : (if top = 0 ∨ (!b.diag) = true then y else 3 - y) ≤ 3 := by split <;> omega
  have fin : ∀ x' y' : Nat, x' = (if top = 0 then x else 3 - x) → y' = (if top = 0 ∨ (!b.diag) = true then y else 3 - y) →
      ∀ Q : Int × Int, Q = ((x' : Int), (y' : Int)) → Reads G m
      (match (if rankOf top ≠ 0 then (3 - Q.1, if b.diag = true then 3 - Q.2 else Q.2) else (Q.1, Q.2) : Int × Int) with
        | (xx, yy) => if 0 ≤ xx ∧ xx < 4 ∧ 0 ≤ yy ∧ yy < 4 then tab raster4x4 (yy * 4 + xx) else fault .table : P σ Nat) pos [] := by
    rintro x' y' rfl rfl Q rfl
    have e : (if rankOf top ≠ 0 then (3 - ((if top = 0 then x else 3 - x : Nat) : Int),
        if b.diag = true then 3 - ((if top = 0 ∨ (!b.diag) = true then y else 3 - y : Nat) : Int)
          else ((if top = 0 ∨ (!b.diag) = true then y else 3 - y : Nat) : Int))
        else (((if top = 0 then x else 3 - x : Nat) : Int), ((if top = 0 ∨ (!b.diag) = true then y else 3 - y : Nat) : Int)) : Int × Int) =
        ((x : Int), (y : Int)) := by
      by_cases h0 : top = 0
      · subst h0
        rfl
      · rw [if_pos (by rw [ne_eq, rankOf_eq_zero]; exact h0)]
        cases hd : b.diag with
        | true =>
          simp only [h0, Bool.not_true, Bool.false_eq_true, or_self, if_false, if_true]
          refine Prod.ext ?_ ?_ <;> dsimp only <;> omega
        | false =>
          simp only [h0, Bool.not_false, or_true, if_false, if_true, Bool.false_eq_true]
          refine Prod.ext ?_ ?_ <;> dsimp only <;> omega
    dsimp only at e ⊢
    rw [e]
    dsimp only
    rw [if_pos (by omega)]
    refine Reads.tab (by omega) ?_
    rw [show ((y : Int) * 4 + x).toNat = y * 4 + x by omega]
    exact hz.2.2
  by_cases ht : cx = 0 ∧ cy > 0 ∧ b.diag = true
  · simp only [if_pos ht]
    refine Reads.bind (Reads.runExt hm (by simp only [Arr.size]; omega) hy') ?_
    refine (Reads.bind (Reads.runExt hm (by simp only [Arr.size]; omega) hx') ?_).cast rfl (List.append_nil _)
    exact fin _ _ rfl rfl _ rfl
  · simp only [if_neg ht]
    refine Reads.bind (Reads.runExt hm (by simp only [Arr.size]; omega) hx') ?_
    refine (Reads.bind (Reads.runExt hm (by simp only [Arr.size]; omega) hy') ?_).cast rfl (List.append_nil _)
    exact fin _ _ rfl rfl _ rfl

/-! ### Position of the last group -/

theorem reads_xy (hm : m.Lawful G) (c nx ny x y : Nat) (hc : c ≤ 6) (hx : x ≤ nx) (hy : y ≤ ny) (hn : 1 ≤ ny) :
    Reads G m (do
      if ← sym m .lastCg (c + 3) then
        let x ← run0 m .lastCg (c + 4) nx
        if x = 0 then
          let y ← (if ny ≠ 1 then run0 m .lastCg (c + 5) (ny - 1) else pure 0)
          pure (x, y + 1)
        else
          let y ← run0 m .lastCg (c + 5) ny
          pure (x, y)
      else pure (0, 0) : P σ (Nat × Nat)) (x, y)
      (if (x, y) = (0, 0) then [.ctx .lastCg (c + 3) false]
      else .ctx .lastCg (c + 3) true :: (unary .lastCg (fun _ => c + 4) nx x ++
        (if x = 0 then unary .lastCg (fun _ => c + 5) (ny - 1) (y - 1) else unary .lastCg (fun _ => c + 5) ny y))) := by
  by_cases h0 : (x, y) = (0, 0)
  · rw [if_pos h0, h0]
    refine Reads.bind (c := [_]) (d := []) (Reads.sym hm (by simp only [Arr.size]; omega) false) ?_
    rw [if_neg Bool.false_ne_true]
    exact Reads.pure _
  · rw [if_neg h0]
    refine Reads.bind (c := [_]) (Reads.sym hm (by simp only [Arr.size]; omega) true) ?_
    rw [if_pos rfl]
    refine Reads.bind (Reads.run0 hm (by simp only [Arr.size]; omega) hx) ?_
    by_cases hx0 : x = 0
    · rw [if_pos hx0, if_pos hx0]
      subst hx0
      have hy0 : y ≠ 0 := fun h => h0 (by rw [h])
      refine Reads.cast (Reads.bind (a := y - 1) (v := (0, y - 1 + 1)) ?_ (Reads.pure _)) ?_ (List.append_nil _)
      · by_cases h1 : ny ≠ 1
        · rw [if_pos h1]
          exact Reads.run0 hm (by simp only [Arr.size]; omega) (by omega)
        · rw [if_neg h1]
          have : ny = 1 := by omega
          subst this
          have : y = 1 := by omega
          subst this
          exact (Reads.pure 0).cast rfl rfl
      · rw [show y - 1 + 1 = y by omega]
    · rw [if_neg hx0, if_neg hx0]
      exact Reads.cast (Reads.bind (v := (x, y)) (Reads.run0 (i := c + 5) hm (by simp only [Arr.size]; omega) hy) (Reads.pure _)) rfl (List.append_nil _)

theorem Reads.tabN {α : Type} {l : List α} {i : Nat} {v : α} (h : l[i]? = some v) :
    Reads G m (Sx.tab l (i : Int) : P σ α) v [] := Reads.tab (by omega) (by rw [Int.toNat_natCast]; exact h)

theorem reads_raster (b : Blk) (n : Nat) (hn : n = numCg b) (x y k : Nat) (h : rasterOf b x y = some k) :
    Reads G m (if b.hor = true then tab raster2x8 ((y * 8 + x : Nat) : Int)
      else if b.ver = true then tab raster8x2 ((y * 2 + x : Nat) : Int)
      else if n = 16 then tab raster4x4 ((y * 4 + x : Nat) : Int)
      else tab raster8x8 ((y * 8 + x : Nat) : Int) : P σ Nat) k [] := by
  subst hn
  unfold rasterOf at h
  by_cases h1 : b.hor = true
  · rw [if_pos h1] at h ⊢
    exact Reads.tabN h
  · rw [if_neg h1] at h ⊢
    by_cases h2 : b.ver = true
    · rw [if_pos h2] at h ⊢
      exact Reads.tabN h
    · rw [if_neg h2] at h ⊢
      by_cases h3 : numCg b = 16
      · rw [if_pos h3] at h ⊢
        exact Reads.tabN h
      · rw [if_neg h3] at h ⊢
        exact Reads.tabN h

/-- The groups cover the block, and the last one is at the far corner. -/
structure Covers (b : Blk) : Prop where
  four : b.w % 4 = 0 ∧ b.h % 4 = 0
  all : ∀ cx < b.w / 4, ∀ cy < b.h / 4, (List.range (numCg b)).any (fun k => b.scan.getD k (0, 0) == (cx, cy)) = true
  last : b.scan.getD (numCg b - 1) (0, 0) = (b.w / 4 - 1, b.h / 4 - 1)

instance (b : Blk) : Decidable (Covers b) :=
  decidable_of_iff ((b.w % 4 = 0 ∧ b.h % 4 = 0) ∧
    (∀ cx < b.w / 4, ∀ cy < b.h / 4, (List.range (numCg b)).any (fun k => b.scan.getD k (0, 0) == (cx, cy)) = true) ∧
    b.scan.getD (numCg b - 1) (0, 0) = (b.w / 4 - 1, b.h / 4 - 1))
    ⟨fun ⟨a, b, c⟩ => ⟨a, b, c⟩, fun h => ⟨h.1, h.2, h.3⟩⟩

theorem reads_lastCg (hm : m.Lawful G) (b : Blk) (gd : Good b) (cv : Covers b) (h1 : 1 < numCg b) (k : Nat) (hk : k < numCg b) :
    Reads G m (lastCgPos m b (numCg b) (b.scan.getD (numCg b - 1) (0, 0)).1 (b.scan.getD (numCg b - 1) (0, 0)).2)
      (k, b.scan.getD k (0, 0)) (lastGroupCode b k) := by
  have hc : (if b.luma = true then 0 else 6) ≤ 6 := by split <;> omega
  have hin := gd.inside k hk
  have hlast := cv.last
  unfold lastCgPos lastGroupCode
  rw [show groupsIn b = numCg b from rfl]
  dsimp only
  by_cases h4 : numCg b = 4
  · rw [if_pos h4, if_pos h4]
    have hf := gd.four h4 k (by omega)
    refine (Reads.bind (Reads.runExt hm (by simp only [Arr.size]; omega) (by omega)) ?_).cast rfl (List.append_nil _)
    by_cases hh : b.hor = true
    · rw [if_pos hh] at hf ⊢
      exact (Reads.pure _).cast (by rw [hf]) rfl
    · rw [if_neg hh] at hf ⊢
      by_cases hv : b.ver = true
      · rw [if_pos hv] at hf ⊢
        exact (Reads.pure _).cast (by rw [hf]) rfl
      · rw [if_neg hv] at hf ⊢
        exact (Reads.pure _).cast (by rw [hf]) rfl
  · rw [if_neg h4, if_neg h4]
    obtain ⟨hx1, hy1, _⟩ := gd.last h1 h4
    have hl : rasterOf b (b.scan.getD k (0, 0)).1 (b.scan.getD k (0, 0)).2 = some k := by
      obtain ⟨k', h1', h2', h3'⟩ := gd.raster h1 h4 (x := (b.scan.getD k (0, 0)).1) (y := (b.scan.getD k (0, 0)).2)
        (by rw [hlast]; dsimp only; omega) (by rw [hlast]; dsimp only; omega)
      rw [h2', gd.inj k' h1' k hk h3']
    rw [hlast] at hx1 hy1 ⊢
    generalize b.scan.getD k (0, 0) = e at hin hl ⊢
    obtain ⟨x, y⟩ := e
    dsimp only at hin hl hx1 hy1 ⊢
    cases hd : (b.luma && b.diag)
    · simp only [Bool.false_eq_true, if_false]
      refine (Reads.bind (reads_xy hm _ _ _ x y hc (by omega) (by omega) hy1) ?_).cast rfl (List.append_nil _)
      exact Reads.bind0 (reads_raster b _ rfl x y k hl) (Reads.pure _)
    · simp only [if_true]
      refine (Reads.bind (reads_xy hm _ _ _ y x hc (by omega) (by omega) hx1) ?_).cast rfl (List.append_nil _)
      exact Reads.bind0 (reads_raster b _ rfl x y k hl) (Reads.pure _)

/-! ### Groups -/

theorem groupOf_big (b : Blk) (lev : Nat → Nat → Int) (k j : Nat) (h : 16 ≤ j) : groupOf b lev k j = 0 := by
  unfold groupOf
  rw [if_neg (by omega)]

theorem lastOf_spec (b : Blk) (lev : Nat → Nat → Int) (k : Nat) (h : ¬ emptyGroup (groupOf b lev k)) :
    lastOf (groupOf b lev k) < 16 ∧ groupOf b lev k (lastOf (groupOf b lev k)) ≠ 0 ∧
      ∀ j, lastOf (groupOf b lev k) + 1 ≤ j → groupOf b lev k j = 0 := by
  have hle : lastOf (groupOf b lev k) ≤ 15 := Nat.findGreatest_le _
  refine ⟨by omega, ?_, fun j hj => ?_⟩
  · unfold emptyGroup at h
    push Not at h
    obtain ⟨j, hj, hn⟩ := h
    exact Nat.findGreatest_spec (P := fun j => groupOf b lev k j ≠ 0) (m := j) (by omega) hn
  · by_cases h16 : 16 ≤ j
    · exact groupOf_big b lev k j h16
    · by_contra hc
      have := Nat.le_findGreatest (P := fun j => groupOf b lev k j ≠ 0) (n := 15) (m := j) (by omega) hc
      unfold lastOf at hj
      omega

theorem maxFrom_pos {g : Nat → Int} : 0 < maxFrom g 0 ↔ ¬ emptyGroup g := by
  have key : ∀ n p, n + p = 16 → (0 < maxFrom g p ↔ ∃ j, p ≤ j ∧ j < 16 ∧ g j ≠ 0) := by
    intro n
    induction n with
    | zero =>
      intro p hp
      have : p = 16 := by omega
      subst this
      exact ⟨fun h => absurd h (Nat.lt_irrefl 0), fun ⟨j, h1, h2, _⟩ => by omega⟩
    | succ n ih =>
      intro p hp
      rw [maxFrom_step g (by omega), lt_max_iff, ih (p + 1) (by omega)]
      constructor
      · rintro (h | ⟨j, h1, h2⟩)
        · exact ⟨p, Nat.le_refl _, by omega, by omega⟩
        · exact ⟨j, by omega, h2⟩
      · rintro ⟨j, h1, h2, h3⟩
        by_cases e : j = p
        · subst e; left; omega
        · exact Or.inr ⟨j, by omega, h2, h3⟩
  rw [key 16 0 rfl]
  unfold emptyGroup
  push Not
  exact ⟨fun ⟨j, _, h⟩ => ⟨j, h⟩, fun ⟨j, h⟩ => ⟨j, Nat.zero_le _, h⟩⟩

theorem topFrom_step (b : Blk) (lev : Nat → Nat → Int) {n : Nat} (h : n < groupsIn b) :
    topFrom b lev n = max (maxFrom (groupOf b lev n) 0) (topFrom b lev (n + 1)) := by
  unfold topFrom
  obtain ⟨k, hk⟩ : ∃ k, groupsIn b - n = k + 1 := ⟨groupsIn b - n - 1, by omega⟩
  rw [hk, show groupsIn b - (n + 1) = k by omega, List.range'_succ, List.foldr_cons]

/-- The coefficients of group `k`. -/
def InGroup (b : Blk) (lev : Nat → Nat → Int) (deq : Int → Int) (k : Nat) (w : Wr) : Prop :=
  ∃ j < 16, groupOf b lev k j ≠ 0 ∧ w = ⟨(placeOf b k j).1, (placeOf b k j).2, deq (groupOf b lev k j)⟩

theorem reads_body (hm : m.Lawful G) (b : Blk) (lev : Nat → Nat → Int) (hlev : ∀ x y, (lev x y).natAbs ≤ 32767)
    (deq : Int → Int) (one : Bool) (n top : Nat) (acc : Coeffs) (hne : ¬ emptyGroup (groupOf b lev n)) :
    ∃ ws, (∀ w, w ∈ ws ↔ InGroup b lev deq n w) ∧ ∃ cx' cy' p', (0 ≤ acc.pattern → 0 ≤ p') ∧ ∀ (v : Coeffs) (d : List Bin),
      Reads G m (groups m b deq one n (rankOf (max (maxFrom (groupOf b lev n) 0) top)) cx' cy' ⟨p', ws ++ acc.writes⟩) v d →
      Reads G m (do
        let pos ← lastPos m b (rankOf top) (b.scan.getD n (0, 0)).1 (b.scan.getD n (0, 0)).2 one
        match ← readPairs m b one (decide (n = 0)) 16 pos (rankOf top) [] with
        | none => pure { acc with pattern := -1 }
        | some (pairs, rank) =>
          let signed ← readSigns m pairs.reverse
          let (cx, cy) := if b.swap then ((b.scan.getD n (0, 0)).2, (b.scan.getD n (0, 0)).1) else ((b.scan.getD n (0, 0)).1, (b.scan.getD n (0, 0)).2)
          let ws ← place b deq cx cy signed.reverse 0
          groups m b deq one n rank cx cy ⟨patternStep b cx cy acc.pattern, ws ++ acc.writes⟩ : P σ Coeffs) v
        (groupCode b one (n == 0) top (b.scan.getD n (0, 0)).1 (b.scan.getD n (0, 0)).2 (groupOf b lev n) ++ d) := by
  have hg : ∀ j, (groupOf b lev n j).natAbs ≤ 32767 := by
    intro j
    unfold groupOf
    split
    · exact hlev _ _
    · decide
  obtain ⟨hl1, hl2, hl3⟩ := lastOf_spec b lev n hne
  have hcode : groupCode b one (n == 0) top (b.scan.getD n (0, 0)).1 (b.scan.getD n (0, 0)).2 (groupOf b lev n) =
      lastCode b one top (b.scan.getD n (0, 0)).1 (b.scan.getD n (0, 0)).2 (lastOf (groupOf b lev n)) ++
      ((levelAt b (n == 0) top (groupOf b lev n) (lastOf (groupOf b lev n)) ++
        restCode b one (n == 0) top (groupOf b lev n) (lastOf (groupOf b lev n)) (lastOf (groupOf b lev n))) ++
        signCode (groupOf b lev n) 16) := by
    unfold groupCode
    rw [List.append_assoc]
  generalize hgo : groupOf b lev n = g at *
  have hdec : decide (n = 0) = (n == 0) := by cases n <;> rfl
  have hm0 : maxFrom g (lastOf g + 1) = 0 := by
    rw [maxFrom_zeros g (p := lastOf g + 1) (q := 16) (by omega) (Nat.le_refl _) (fun j h _ => hl3 j h)]
    rfl
  obtain ⟨ps, ss, hrel, hps⟩ := reads_pairs hm b one (n == 0) top g hg 16 (lastOf g) [] [] hl1 hl1 hl2 (Rel.nil hl3)
  rw [hm0, Nat.max_zero] at hps
  obtain ⟨ws, hws, hmem⟩ := reads_place (G := G) (m := m) b deq
    (if b.swap then (b.scan.getD n (0, 0)).2 else (b.scan.getD n (0, 0)).1)
    (if b.swap then (b.scan.getD n (0, 0)).1 else (b.scan.getD n (0, 0)).2) g hrel
  have hpat : ∀ cx cy, 0 ≤ acc.pattern → 0 ≤ patternStep b cx cy acc.pattern := by
    intro cx cy h
    unfold patternStep
    repeat' split
    all_goals omega
  refine ⟨ws, fun w => ?_, if b.swap then (b.scan.getD n (0, 0)).2 else (b.scan.getD n (0, 0)).1,
    if b.swap then (b.scan.getD n (0, 0)).1 else (b.scan.getD n (0, 0)).2, _, hpat (if b.swap then (b.scan.getD n (0, 0)).2 else (b.scan.getD n (0, 0)).1)
    (if b.swap then (b.scan.getD n (0, 0)).1 else (b.scan.getD n (0, 0)).2), fun v d hd => ?_⟩
  · rw [hmem]
    unfold InGroup placeOf
    rw [hgo]
    constructor
    · rintro ⟨j, _, h1, h2, rfl⟩
      refine ⟨j, h1, h2, ?_⟩
      cases b.swap <;> simp
    · rintro ⟨j, h1, h2, rfl⟩
      refine ⟨j, Nat.zero_le _, h1, h2, ?_⟩
      cases b.swap <;> simp
  · rw [hcode, List.append_assoc, List.append_assoc, hdec]
    refine Reads.bind (reads_lastPos hm b one top _ _ _ hl1) ?_
    refine Reads.bind hps ?_
    dsimp only
    have hsg := reads_signs hm ss.reverse (fun e he => hrel.levels hg e (List.mem_reverse.mp he))
    rw [← hrel.signs, signsTo_zero, List.map_reverse, ← hrel.abs] at hsg
    refine Reads.bind hsg ?_
    rw [List.reverse_reverse, max_comm top]
    cases hs : b.swap with
    | true =>
      rw [hs, if_pos rfl, if_pos rfl] at hws
      rw [hs] at hd
      exact Reads.bind0 hws hd
    | false =>
      rw [hs, if_neg Bool.false_ne_true, if_neg Bool.false_ne_true] at hws
      rw [hs] at hd
      exact Reads.bind0 hws hd

/-- What the groups deliver. -/
structure Adds (b : Blk) (lev : Nat → Nat → Int) (deq : Int → Int) (n : Nat) (acc v : Coeffs) : Prop where
  mem : ∀ w, w ∈ v.writes ↔ w ∈ acc.writes ∨ ∃ k < n, InGroup b lev deq k w
  pat : 0 ≤ acc.pattern → 0 ≤ v.pattern

theorem InGroup.not {b : Blk} {lev : Nat → Nat → Int} {deq : Int → Int} {k : Nat} {w : Wr}
    (h : emptyGroup (groupOf b lev k)) : ¬ InGroup b lev deq k w := fun ⟨j, h1, h2, _⟩ => h2 (h j h1)

theorem reads_groups (hm : m.Lawful G) (b : Blk) (gd : Good b) (lev : Nat → Nat → Int)
    (hlev : ∀ x y, (lev x y).natAbs ≤ 32767) (deq : Int → Int) (last n cx cy : Nat) (acc : Coeffs) (hn : n ≤ last)
    (hl : last < numCg b) (ht : 0 < topFrom b lev n) :
    ∃ v, Adds b lev deq n acc v ∧
      Reads G m (groups m b deq (decide (numCg b = 1)) n (rankOf (topFrom b lev n)) cx cy acc) v (groupsCode b lev last n) := by
  induction n generalizing cx cy acc with
  | zero =>
    refine ⟨acc, ⟨fun w => ⟨Or.inl, fun h => h.elim id fun ⟨k, hk, _⟩ => absurd hk (Nat.not_lt_zero k)⟩, id⟩, ?_⟩
    exact Reads.pure _
  | succ n ih =>
    have hcn : n < numCg b := by omega
    have hts := topFrom_step b lev (n := n) hcn
    have hr : rankOf (topFrom b lev (n + 1)) > 0 := by
      have := (rankOf_eq_zero (x := topFrom b lev (n + 1))).not
      omega
    have hlen := gd.len
    have hscan : b.scan[n]? = some (b.scan.getD n (0, 0)) := by
      rw [List.getD_eq_getElem?_getD, List.getElem?_eq_getElem (by omega)]
      rfl
    have hone : (groupsIn b == 1) = decide (numCg b = 1) := rfl
    have hctx : (if b.luma = true then (if (n == 0) = true then 0 else 1) else 2) =
        (if b.luma = true then 0 else 2) + (if (b.luma && !decide (n = 0)) = true then 1 else 0) := by
      cases b.luma <;> cases n <;> rfl
    have hsz : (if b.luma = true then (if (n == 0) = true then 0 else 1) else 2) < Arr.sigCg.size := by
      simp only [Arr.size]
      split
      · split <;> omega
      · omega
    rw [groupsCode, if_neg (by omega)]
    unfold groups
    by_cases he : emptyGroup (groupOf b lev n)
    · have h0 : maxFrom (groupOf b lev n) 0 = 0 := by
        have := (maxFrom_pos (g := groupOf b lev n)).not
        rw [not_not] at this
        have := this.mpr he
        omega
      rw [h0, Nat.zero_max] at hts
      rw [← hts]
      obtain ⟨v, h1, h2⟩ := ih (b.scan.getD n (0, 0)).1 (b.scan.getD n (0, 0)).2 acc (by omega) (by omega)
      refine ⟨v, ⟨fun w => (h1.mem w).trans (or_congr Iff.rfl ⟨fun ⟨k, hk, h⟩ => ⟨k, by omega, h⟩, fun ⟨k, hk, h⟩ => ⟨k, ?_, h⟩⟩), h1.pat⟩, ?_⟩
      · by_cases e : k = n
        · subst e; exact absurd h (InGroup.not he)
        · omega
      · rw [hts]
        dsimp only
        rw [if_pos he]
        simp only [if_pos hr]
        refine Reads.bind0 (Reads.tabN hscan) ?_
        refine Reads.bind (a := false) ?_ ?_
        · rw [hctx] at hsz ⊢
          exact Reads.sym hm hsz false
        · rw [if_neg Bool.false_ne_true, ← hts]
          exact h2
    · obtain ⟨ws, hws, cx', cy', p', hp', hb⟩ :=
        reads_body hm b lev hlev deq (decide (numCg b = 1)) n (topFrom b lev (n + 1)) acc he
      rw [← hts] at hb
      obtain ⟨v, h1, h2⟩ := ih cx' cy' ⟨p', ws ++ acc.writes⟩ (by omega) (by omega)
      refine ⟨v, ⟨fun w => (h1.mem w).trans ?_, fun h => h1.pat (hp' h)⟩, ?_⟩
      · rw [List.mem_append, hws]
        constructor
        · rintro ((h | h) | ⟨k, hk, h⟩)
          · exact Or.inr ⟨n, by omega, h⟩
          · exact Or.inl h
          · exact Or.inr ⟨k, by omega, h⟩
        · rintro (h | ⟨k, hk, h⟩)
          · exact Or.inl (Or.inr h)
          · by_cases e : k = n
            · subst e; exact Or.inl (Or.inl h)
            · exact Or.inr ⟨k, by omega, h⟩
      · dsimp only
        rw [if_neg he, List.cons_append]
        simp only [if_pos hr]
        refine Reads.bind0 (Reads.tabN hscan) ?_
        refine Reads.bind (c := [_]) (a := true) ?_ ?_
        · rw [hctx] at hsz ⊢
          exact Reads.sym hm hsz true
        · rw [if_pos rfl]
          exact hb v _ h2

/-! ### Blocks -/

theorem lastGroup_spec (b : Blk) (gd : Good b) (lev : Nat → Nat → Int) (h : ∃ k < numCg b, ¬ emptyGroup (groupOf b lev k)) :
    lastGroup b lev < numCg b ∧ ¬ emptyGroup (groupOf b lev (lastGroup b lev)) ∧
      ∀ k, lastGroup b lev < k → k < numCg b → emptyGroup (groupOf b lev k) := by
  have hlen := gd.len
  have hle : lastGroup b lev ≤ numCg b - 1 := Nat.findGreatest_le _
  refine ⟨by omega, ?_, fun k h1 h2 => ?_⟩
  · obtain ⟨k, hk, hne⟩ := h
    exact Nat.findGreatest_spec (P := fun k => ¬ emptyGroup (groupOf b lev k)) (m := k) (show k ≤ numCg b - 1 by omega) hne
  · by_contra hc
    have := Nat.le_findGreatest (P := fun k => ¬ emptyGroup (groupOf b lev k)) (n := groupsIn b - 1) (m := k)
      (show k ≤ numCg b - 1 by omega) hc
    unfold lastGroup at h1
    omega

theorem topFrom_empty (b : Blk) (lev : Nat → Nat → Int) (p : Nat) (h : ∀ k, p ≤ k → k < numCg b → emptyGroup (groupOf b lev k)) :
    topFrom b lev p = 0 := by
  have key : ∀ n p, n + p = numCg b → (∀ k, p ≤ k → k < numCg b → emptyGroup (groupOf b lev k)) → topFrom b lev p = 0 := by
    intro n
    induction n with
    | zero =>
      intro p hp _
      unfold topFrom
      rw [show groupsIn b - p = 0 by unfold numCg at hp; unfold groupsIn; omega]
      rfl
    | succ n ih =>
      intro p hp hk
      rw [topFrom_step b lev (show p < numCg b by omega), ih (p + 1) (by omega) (fun k h1 h2 => hk k (by omega) h2)]
      have := (maxFrom_pos (g := groupOf b lev p)).not
      rw [not_not] at this
      have := this.mpr (hk p (Nat.le_refl _) (by omega))
      omega
  by_cases hp : p ≤ numCg b
  · exact key (numCg b - p) p (by omega) h
  · unfold topFrom
    rw [show groupsIn b - p = 0 by unfold numCg at hp; unfold groupsIn; omega]
    rfl

theorem place_inside (b : Blk) (gd : Good b) (cv : Covers b) (k : Nat) (hk : k < numCg b) (j : Nat) (hj : j < 16) :
    (placeOf b k j).1 < b.w ∧ (placeOf b k j).2 < b.h := by
  have h1 := gd.inside k hk
  have h2 := zz_raster j hj
  have h3 := cv.four
  have h4 := gd.sq
  unfold placeOf
  dsimp only
  cases hs : b.swap with
  | true =>
    rw [if_pos rfl]
    have := h4 hs
    dsimp only
    omega
  | false =>
    rw [if_neg Bool.false_ne_true]
    dsimp only
    omega

theorem zz_all : ∀ x < 4, ∀ y < 4, (List.range 16).any (fun j => zz j == (x, y)) = true := by decide +kernel

theorem place_covers (b : Blk) (gd : Good b) (cv : Covers b) (x y : Nat) (hx : x < b.w) (hy : y < b.h) :
    ∃ k < numCg b, ∃ j < 16, placeOf b k j = (x, y) := by
  have h3 := cv.four
  have h4 := gd.sq
  have key : ∀ x y, x < b.w → y < b.h → ∃ k < numCg b, ∃ j < 16,
      4 * (b.scan.getD k (0, 0)).1 + (zz j).1 = x ∧ 4 * (b.scan.getD k (0, 0)).2 + (zz j).2 = y := by
    intro x y hx hy
    have h1 := cv.all (x / 4) (by omega) (y / 4) (by omega)
    have h2 := zz_all (x % 4) (by omega) (y % 4) (by omega)
    rw [List.any_eq_true] at h1 h2
    obtain ⟨k, hk, ek⟩ := h1
    obtain ⟨j, hj, ej⟩ := h2
    rw [beq_iff_eq] at ek ej
    refine ⟨k, List.mem_range.mp hk, j, List.mem_range.mp hj, ?_⟩
    rw [ek, ej]
    dsimp only
    omega
  cases hs : b.swap with
  | true =>
    have := h4 hs
    obtain ⟨k, hk, j, hj, e1, e2⟩ := key y x (by omega) (by omega)
    refine ⟨k, hk, j, hj, ?_⟩
    unfold placeOf
    dsimp only
    rw [hs, if_pos rfl, e1, e2]
  | false =>
    obtain ⟨k, hk, j, hj, e1, e2⟩ := key x y hx hy
    refine ⟨k, hk, j, hj, ?_⟩
    unfold placeOf
    dsimp only
    rw [hs, if_neg Bool.false_ne_true, e1, e2]

theorem reads_block (hm : m.Lawful G) (b : Blk) (gd : Good b) (cv : Covers b) (lev : Nat → Nat → Int)
    (hlev : ∀ x y, (lev x y).natAbs ≤ 32767) (deq : Int → Int) (hne : ∃ x < b.w, ∃ y < b.h, lev x y ≠ 0) :
    ∃ v, Delivers b lev deq v.writes ∧ 0 ≤ v.pattern ∧ Reads G m (blockCoeffs m b deq) v (blockCode b lev) := by
  have hlen := gd.len
  have hk : ∃ k < numCg b, ¬ emptyGroup (groupOf b lev k) := by
    obtain ⟨x, hx, y, hy, hn⟩ := hne
    obtain ⟨k, hk, j, hj, e⟩ := place_covers b gd cv x y hx hy
    refine ⟨k, hk, fun he => hn ?_⟩
    have := he j hj
    unfold groupOf at this
    rw [if_pos hj, e] at this
    exact this
  obtain ⟨hl1, hl2, hl3⟩ := lastGroup_spec b gd lev hk
  have htop : topFrom b lev (lastGroup b lev + 1) = 0 := topFrom_empty b lev _ fun k h1 h2 => hl3 k (by omega) h2
  have hts := topFrom_step b lev (n := lastGroup b lev) hl1
  have hpos := (maxFrom_pos (g := groupOf b lev (lastGroup b lev))).mpr hl2
  unfold blockCode
  dsimp only
  generalize lastGroup b lev = last at *
  obtain ⟨ws, hws, cx', cy', p', hp', hb⟩ := reads_body hm b lev hlev deq (decide (numCg b = 1)) last
    (topFrom b lev (last + 1)) ⟨2, []⟩ hl2
  rw [← hts] at hb
  obtain ⟨v, h1, h2⟩ := reads_groups hm b gd lev hlev deq last last cx' cy' ⟨p', ws ++ []⟩ (Nat.le_refl _) hl1 (by omega)
  refine ⟨v, ?_, h1.pat (hp' (by decide)), ?_⟩
  · intro w
    rw [h1.mem, List.append_nil, hws]
    have : (InGroup b lev deq last w ∨ ∃ k < last, InGroup b lev deq k w) ↔ ∃ k < numCg b, InGroup b lev deq k w := by
      constructor
      · rintro (h | ⟨k, hk, h⟩)
        · exact ⟨last, hl1, h⟩
        · exact ⟨k, by omega, h⟩
      · rintro ⟨k, hk, h⟩
        rcases Nat.lt_trichotomy k last with h' | h' | h'
        · exact Or.inr ⟨k, h', h⟩
        · subst h'; exact Or.inl h
        · exact absurd h (InGroup.not (hl3 k h' hk))
    rw [this]
    constructor
    · rintro ⟨k, hk, j, hj, h2, rfl⟩
      have hin := place_inside b gd cv k hk j hj
      unfold groupOf at h2 ⊢
      rw [if_pos hj] at h2
      exact ⟨_, _, hin.1, hin.2, h2, by rw [if_pos hj]⟩
    · rintro ⟨x, y, hx, hy, h2, rfl⟩
      obtain ⟨k, hk, j, hj, e⟩ := place_covers b gd cv x y hx hy
      have hgk : groupOf b lev k j = lev x y := by unfold groupOf; rw [if_pos hj, e]
      exact ⟨k, hk, j, hj, by rw [hgk]; exact h2, by rw [hgk, e]⟩
  · rw [groupsCode, if_pos rfl]
    have h2' := hb v _ h2
    rw [htop] at h2' ⊢
    have hgr : Reads G m (groups m b deq (decide (numCg b = 1)) (last + 1) 0 (b.scan.getD last (0, 0)).1 (b.scan.getD last (0, 0)).2 ⟨2, []⟩) v
        (groupCode b (groupsIn b == 1) (last == 0) 0 (b.scan.getD last (0, 0)).1 (b.scan.getD last (0, 0)).2 (groupOf b lev last) ++
          groupsCode b lev last last) := by
      unfold groups
      dsimp only
      refine Reads.bind0 (a := b.scan.getD last (0, 0)) ?_ ?_
      · rw [if_neg (Nat.lt_irrefl 0)]
        exact Reads.pure _
      · refine Reads.bind0 (a := true) ?_ ?_
        · rw [if_neg (Nat.lt_irrefl 0)]
          exact Reads.pure _
        · rw [if_pos rfl]
          exact h2'
    unfold blockCoeffs
    dsimp only
    refine Reads.bind (a := (last, b.scan.getD last (0, 0))) ?_ hgr
    rw [show groupsIn b = numCg b from rfl, show b.w * b.h / 16 = numCg b from rfl]
    by_cases h1 : numCg b > 1
    · rw [if_pos h1, if_pos h1]
      refine Reads.bind0 (a := b.scan.getD (numCg b - 1) (0, 0)) (Reads.tab (by omega) ?_) (reads_lastCg hm b gd cv h1 last hl1)
      rw [show ((numCg b : Int) - 1).toNat = numCg b - 1 by omega, List.getD_eq_getElem?_getD, List.getElem?_eq_getElem (by omega)]
      rfl
    · rw [if_neg h1, if_neg h1]
      have : numCg b = 1 := by omega
      have hz := gd.zero this
      have : last = 0 := by omega
      subst this
      rw [hz]
      exact Reads.pure _

end Davs2.Sx
