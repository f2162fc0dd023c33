import Verif.Lemmas.AecSyntax
/-
The coefficient block: last group, loop over the groups.
-/
namespace Davs2.Sx

variable {σ : Type} {F : Fault → Prop} {m : Machine σ}

/-- Number of coefficient groups. -/
def numCg (b : Blk) : Nat := b.w * b.h / 16

/-- The table look-up at the end of `lastCgPos`. -/
def rasterOf (b : Blk) (x y : Nat) : Option Nat :=
  if b.hor then raster2x8[y * 8 + x]?
  else if b.ver then raster8x2[y * 2 + x]?
  else if numCg b = 16 then raster4x4[y * 4 + x]?
  else raster8x8[y * 8 + x]?

/-- What the block parameters must satisfy; a finite check for each combination in use. -/
structure Good (b : Blk) : Prop where
  len : 1 ≤ numCg b ∧ numCg b ≤ b.scan.length
  inside : ∀ j < numCg b, (b.scan.getD j (0, 0)).1 < b.w / 4 ∧ (b.scan.getD j (0, 0)).2 < b.h / 4
  inj : ∀ i < numCg b, ∀ j < numCg b, b.scan.getD i (0, 0) = b.scan.getD j (0, 0) → i = j
  sq : b.swap = true → b.w = b.h
  zero : numCg b = 1 → b.scan.getD 0 (0, 0) = (0, 0)
  four : numCg b = 4 → ∀ k < 4, b.scan.getD k (0, 0) =
    if b.hor then (k, 0) else if b.ver then (0, k) else (k % 2, k / 2)
  last : 1 < numCg b → numCg b ≠ 4 →
    1 ≤ (b.scan.getD (numCg b - 1) (0, 0)).1 ∧ 1 ≤ (b.scan.getD (numCg b - 1) (0, 0)).2 ∧
    ∀ x < (b.scan.getD (numCg b - 1) (0, 0)).1 + 1, ∀ y < (b.scan.getD (numCg b - 1) (0, 0)).2 + 1,
      (rasterOf b x y).any (fun k => k < numCg b && b.scan.getD k (0, 0) == (x, y)) = true

instance (b : Blk) : Decidable (Good b) :=
  decidable_of_iff
    ((1 ≤ numCg b ∧ numCg b ≤ b.scan.length) ∧
     (∀ j < numCg b, (b.scan.getD j (0, 0)).1 < b.w / 4 ∧ (b.scan.getD j (0, 0)).2 < b.h / 4) ∧
     (∀ i < numCg b, ∀ j < numCg b, b.scan.getD i (0, 0) = b.scan.getD j (0, 0) → i = j) ∧
     (b.swap = true → b.w = b.h) ∧
     (numCg b = 1 → b.scan.getD 0 (0, 0) = (0, 0)) ∧
     (numCg b = 4 → ∀ k < 4, b.scan.getD k (0, 0) =
       if b.hor then (k, 0) else if b.ver then (0, k) else (k % 2, k / 2)) ∧
     (1 < numCg b → numCg b ≠ 4 →
       1 ≤ (b.scan.getD (numCg b - 1) (0, 0)).1 ∧ 1 ≤ (b.scan.getD (numCg b - 1) (0, 0)).2 ∧
       ∀ x < (b.scan.getD (numCg b - 1) (0, 0)).1 + 1, ∀ y < (b.scan.getD (numCg b - 1) (0, 0)).2 + 1,
         (rasterOf b x y).any (fun k => k < numCg b && b.scan.getD k (0, 0) == (x, y)) = true))
    ⟨fun ⟨a, b, c, d, e, f, g⟩ => ⟨a, b, c, d, e, f, g⟩, fun h => ⟨h.1, h.2, h.3, h.4, h.5, h.6, h.7⟩⟩

theorem Good.raster {b : Blk} (g : Good b) (h1 : 1 < numCg b) (h4 : numCg b ≠ 4) {x y : Nat}
    (hx : x ≤ (b.scan.getD (numCg b - 1) (0, 0)).1) (hy : y ≤ (b.scan.getD (numCg b - 1) (0, 0)).2) :
    ∃ k, k < numCg b ∧ rasterOf b x y = some k ∧ b.scan.getD k (0, 0) = (x, y) := by
  have h := (g.last h1 h4).2.2 x (by omega) y (by omega)
  rw [Option.any_eq_true] at h
  obtain ⟨k, hk, h⟩ := h
  rw [Bool.and_eq_true, decide_eq_true_eq, beq_iff_eq] at h
  exact ⟨k, h.1, hk, h.2⟩

theorem getD_of_getElem? {l : List (Nat × Nat)} {i : Nat} {e : Nat × Nat} (h : l[i]? = some e) :
    l.getD i (0, 0) = e := by
  rw [List.getD_eq_getElem?_getD, h]; rfl

theorem within_tabScan (b : Blk) (g : Good b) (j : Nat) (hj : j < numCg b) :
    Within F (tab b.scan j : P σ (Nat × Nat)) fun e => e = b.scan.getD j (0, 0) := by
  have := g.len
  refine (within_tab_lt (by omega) (by omega)).mono fun e he => ?_
  exact (getD_of_getElem? he).symm

theorem within_rasterTab {l : List Nat} {i k : Nat} (h : l[i]? = some k) :
    Within F (tab l ((i : Nat) : Int) : P σ Nat) fun r => r = k :=
  within_tab (by omega) (by simpa using h)

theorem within_raster (b : Blk) (n : Nat) (hn : n = numCg b) (x y k : Nat) (h : rasterOf b x y = some k) :
    Within F (if b.hor = true then tab raster2x8 ((y * 8 + x : Nat) : Int)
      else if b.ver = true then tab raster8x2 ((y * 2 + x : Nat) : Int)
      else if n = 16 then tab raster4x4 ((y * 4 + x : Nat) : Int)
      else tab raster8x8 ((y * 8 + x : Nat) : Int) : P σ Nat) fun r => r = k := by
  subst hn
  unfold rasterOf at h
  refine Within.ite (fun h1 => ?_) fun h1 => Within.ite (fun h2 => ?_) fun h2 =>
    Within.ite (fun h3 => ?_) fun h3 => ?_
  · rw [if_pos h1] at h; exact within_rasterTab h
  · rw [if_neg h1, if_pos h2] at h; exact within_rasterTab h
  · rw [if_neg h1, if_neg h2, if_pos h3] at h; exact within_rasterTab h
  · rw [if_neg h1, if_neg h2, if_neg h3] at h; exact within_rasterTab h

theorem within_xy (hF : F .reader) (hm : m.Ok) (c nx ny : Nat) (hc : c ≤ 6) (hy : 1 ≤ ny) :
    Within F (do
      if ← sym m .lastCg (c + 3) then
        let x ← run0 m .lastCg (c + 4) nx
        if x = 0 then
          let y ← (if ny ≠ 1 then run0 m .lastCg (c + 5) (ny - 1) else pure 0)
          pure (x, y + 1)
        else
          let y ← run0 m .lastCg (c + 5) ny
          pure (x, y)
      else pure (0, 0) : P σ (Nat × Nat)) fun r => r.1 ≤ nx ∧ r.2 ≤ ny := by
  refine Within.bind (within_sym hF (by simp only [Arr.size]; omega)) fun s _ => Within.ite (fun _ => ?_)
    fun _ => Within.pure ⟨Nat.zero_le _, Nat.zero_le _⟩
  refine Within.bind (within_run0 hF hm (by simp only [Arr.size]; omega)) fun x hx => Within.ite (fun _ => ?_)
    fun _ => ?_
  · refine Within.bind (R := fun y => y ≤ ny - 1) ?_ fun y hyy => Within.pure ⟨hx, by dsimp only; omega⟩
    refine Within.ite (fun _ => ?_) fun _ => Within.pure (Nat.zero_le _)
    exact within_run0 hF hm (by simp only [Arr.size]; omega)
  · exact Within.bind (within_run0 hF hm (by simp only [Arr.size]; omega)) fun y hyy => Within.pure ⟨hx, hyy⟩

theorem within_lastCg (hF : F .reader) (hm : m.Ok) (b : Blk) (g : Good b) (h1 : 1 < numCg b) :
    Within F (lastCgPos m b (numCg b) (b.scan.getD (numCg b - 1) (0, 0)).1
      (b.scan.getD (numCg b - 1) (0, 0)).2) fun r =>
        r.1 < numCg b ∧ b.scan.getD r.1 (0, 0) = r.2 := by
  have hc : (if b.luma = true then 0 else 6) ≤ 6 := by split <;> omega
  unfold lastCgPos
  dsimp only
  refine Within.ite (fun h4 => ?_) fun h4 => ?_
  · have hf := g.four h4
    refine Within.bind (within_runExt hF hm (by simp only [Arr.size]; omega)) fun k hk => ?_
    have hk' := hf k (by omega)
    refine Within.ite (fun hh => Within.pure ?_) fun hh => Within.ite (fun hv => Within.pure ?_) fun hv =>
      Within.pure ?_
    · rw [if_pos hh] at hk'; exact ⟨by dsimp only; omega, hk'⟩
    · rw [if_neg hh, if_pos hv] at hk'; exact ⟨by dsimp only; omega, hk'⟩
    · rw [if_neg hh, if_neg hv] at hk'; exact ⟨by dsimp only; omega, hk'⟩
  · obtain ⟨hx1, hy1, _⟩ := g.last h1 h4
    have hl := fun x y => g.raster h1 h4 (x := x) (y := y)
    generalize b.scan.getD (numCg b - 1) (0, 0) = e at hx1 hy1 hl
    obtain ⟨nx, ny⟩ := e
    dsimp only at hx1 hy1 hl ⊢
    cases hd : (b.luma && b.diag)
    · simp only [Bool.false_eq_true, if_false]
      refine Within.bind (within_xy hF hm _ nx ny hc hy1) fun r hr => ?_
      obtain ⟨x, y⟩ := r
      dsimp only at hr ⊢
      obtain ⟨k, hk, hrk, hsk⟩ := hl x y (by omega) (by omega)
      refine Within.bind (within_raster b _ rfl x y k hrk) fun k' hk' => Within.pure ?_
      subst hk'
      exact ⟨hk, hsk⟩
    · simp only [if_true]
      refine Within.bind (within_xy hF hm _ ny nx hc hx1) fun r hr => ?_
      obtain ⟨y, x⟩ := r
      dsimp only at hr ⊢
      obtain ⟨k, hk, hrk, hsk⟩ := hl x y (by omega) (by omega)
      refine Within.bind (within_raster b _ rfl x y k hrk) fun k' hk' => Within.pure ?_
      subst hk'
      exact ⟨hk, hsk⟩

theorem raster4_lt : ∀ i < 16, ∀ v, raster4x4[i]? = some v → v < 16 := by decide

theorem within_lastPos (hF : F .reader) (hm : m.Ok) (b : Blk) (rank cx cy : Nat) (one : Bool) :
    Within F (lastPos m b rank cx cy one) fun p => p < 16 := by
  unfold lastPos
  dsimp only
  generalize hoff : (if (!b.luma) = true then 48 + (if one = true then 0 else 4 + (if rank = 0 then 1 else 0) * 4)
      else if one = true then 40 + b.diag.toNat * 4
      else if cx ≠ 0 ∧ cy ≠ 0 then 32 + (if rank = 0 then 1 else 0) * 4
      else (4 * (if rank = 0 then 1 else 0) + 2 * (if cx = 0 ∧ cy = 0 then 1 else 0) + b.diag.toNat) * 4) = off
  have ho : off ≤ 56 := by
    have hd : b.diag.toNat ≤ 1 := Bool.toNat_le _
    subst hoff
    split
    · split <;> (try split) <;> omega
    · split
      · omega
      · split
        · split <;> omega
        · split <;> split <;> omega
  refine Within.bind (within_runExt hF hm (by simp only [Arr.size]; omega)) fun xx hx =>
    Within.bind (within_runExt hF hm (by simp only [Arr.size]; omega)) fun yy hy => ?_
  have hpr : (if cx = 0 ∧ cy > 0 ∧ b.diag = true then (yy, xx) else (xx, yy)).1 ≤ 3 ∧
      (if cx = 0 ∧ cy > 0 ∧ b.diag = true then (yy, xx) else (xx, yy)).2 ≤ 3 := by
    split <;> exact ⟨by assumption, by assumption⟩
  generalize (if cx = 0 ∧ cy > 0 ∧ b.diag = true then (yy, xx) else (xx, yy)) = pr at hpr ⊢
  obtain ⟨u, v⟩ := pr
  dsimp only at hpr ⊢
  have hpq : 0 ≤ (if rank ≠ 0 then ((3 : Int) - u, if b.diag = true then (3 : Int) - v else v)
        else ((u : Int), (v : Int))).1 ∧
      (if rank ≠ 0 then ((3 : Int) - u, if b.diag = true then (3 : Int) - v else v) else ((u : Int), (v : Int))).1 < 4 ∧
      0 ≤ (if rank ≠ 0 then ((3 : Int) - u, if b.diag = true then (3 : Int) - v else v) else ((u : Int), (v : Int))).2 ∧
      (if rank ≠ 0 then ((3 : Int) - u, if b.diag = true then (3 : Int) - v else v)
        else ((u : Int), (v : Int))).2 < 4 := by
    split
    · dsimp only
      split <;> omega
    · dsimp only
      omega
  generalize (if rank ≠ 0 then ((3 : Int) - u, if b.diag = true then (3 : Int) - v else v)
    else ((u : Int), (v : Int))) = pq at hpq ⊢
  obtain ⟨x, y⟩ := pq
  dsimp only at hpq ⊢
  rw [if_pos hpq]
  exact (within_tab_lt (by omega) (by simp only [raster4x4, List.length_cons, List.length_nil]; omega)).mono
    fun v hv => raster4_lt _ (by omega) v hv

theorem patternStep_mem (b : Blk) (cx cy : Nat) (p : Int) (h : p ∈ [0, 1, 2]) :
    patternStep b cx cy p ∈ [0, 1, 2] := by
  unfold patternStep
  split
  · simp
  · split
    · simp
    · exact h

/-- The group `(gx, gy)` lies in the half area / the quarter area. -/
def GHalf (b : Blk) (k : Wr) : Prop := k.x / 4 < halfW b ∧ k.y / 4 < halfH b
def GQuad (b : Blk) (k : Wr) : Prop := k.x / 4 < quadW b ∧ k.y / 4 < quadH b

theorem quad_le_half (b : Blk) : quadW b ≤ halfW b ∧ quadH b ≤ halfH b := by
  unfold quadW halfW quadH halfH
  constructor <;> split <;> omega

/-- Invariant of the loop over the groups: `n` groups are left. -/
structure GInv (b : Blk) (n : Nat) (acc : Coeffs) : Prop where
  at_ : ∀ k ∈ acc.writes, ∃ j, n ≤ j ∧ j < numCg b ∧
    (k.x / 4, k.y / 4) = (if b.swap = true
      then (((b.scan.getD j (0, 0)).2 : Int), ((b.scan.getD j (0, 0)).1 : Int))
      else (((b.scan.getD j (0, 0)).1 : Int), ((b.scan.getD j (0, 0)).2 : Int)))
  nodup : (acc.writes.map fun k => (k.x, k.y)).Nodup
  pat : acc.pattern ∈ [0, 1, 2]
  half : acc.pattern ≠ 0 → ∀ k ∈ acc.writes, GHalf b k
  quad : acc.pattern = 2 → ∀ k ∈ acc.writes, GQuad b k

theorem GInv.good {b : Blk} (g : Good b) {n : Nat} {acc : Coeffs} (h : GInv b n acc) (p : Int)
    (hp : p = acc.pattern ∨ p = -1) : GoodCoeffs b.w b.h ⟨p, acc.writes⟩ := by
  have hq := quad_le_half b
  refine ⟨fun k hk => ?_, h.nodup, ?_, fun h1 k hk => ?_, fun h2 k hk => ?_⟩
  · obtain ⟨j, _, hj, e⟩ := h.at_ k hk
    have hin := g.inside j hj
    have hsq := g.sq
    cases hs : b.swap
    · rw [hs, if_neg (by decide), Prod.mk.injEq] at e
      omega
    · rw [hs, if_pos rfl, Prod.mk.injEq] at e
      have := hsq hs
      omega
  · rcases hp with h' | h'
    · have := h.pat
      subst h'
      simp only [List.mem_cons, List.not_mem_nil, or_false] at this ⊢
      omega
    · subst h'; simp
  · dsimp only at h1
    have hh := h.half (by omega) k hk
    unfold GHalf halfW halfH at hh
    unfold InHalf
    split at hh <;> split at hh <;> omega
  · dsimp only at h2
    have hh := h.quad (by omega) k hk
    unfold GQuad quadW quadH at hh
    unfold InQuarter
    split at hh <;> split at hh <;> omega

theorem GInv.mono {b : Blk} {n n' : Nat} {acc : Coeffs} (h : GInv b n acc) (hn : n' ≤ n) : GInv b n' acc :=
  ⟨fun k hk => by obtain ⟨j, h1, h2⟩ := h.at_ k hk; exact ⟨j, by omega, h2⟩, h.nodup, h.pat, h.half, h.quad⟩

theorem GInv.step {b : Blk} (g : Good b) {n : Nat} {acc : Coeffs} (h : GInv b (n + 1) acc) (hn : n < numCg b)
    (cx cy : Nat) (hc : (cx, cy) = if b.swap = true then ((b.scan.getD n (0, 0)).2, (b.scan.getD n (0, 0)).1)
      else b.scan.getD n (0, 0))
    (ws : List Wr) (is : List Nat) (h1 : is.Pairwise (· < ·)) (h2 : ∀ i ∈ is, i < 16)
    (h3 : (ws.map fun k => (k.x, k.y)) = is.map (posIn b.swap cx cy)) :
    GInv b n ⟨patternStep b cx cy acc.pattern, ws ++ acc.writes⟩ := by
  have hw : ∀ k ∈ ws, k.x / 4 = cx ∧ k.y / 4 = cy := by
    intro k hk
    have : (k.x, k.y) ∈ is.map (posIn b.swap cx cy) := by rw [← h3]; exact List.mem_map.2 ⟨k, hk, rfl⟩
    obtain ⟨i, hi, e⟩ := List.mem_map.1 this
    have := posIn_bounds b.swap cx cy i (h2 i hi)
    rw [e] at this
    exact this
  have hcg : ((cx : Int), (cy : Int)) = (if b.swap = true
      then (((b.scan.getD n (0, 0)).2 : Int), ((b.scan.getD n (0, 0)).1 : Int))
      else (((b.scan.getD n (0, 0)).1 : Int), ((b.scan.getD n (0, 0)).2 : Int))) := by
    cases hs : b.swap
    · rw [hs, if_neg (by decide)] at hc
      rw [if_neg (by decide), ← hc]
    · rw [hs, if_pos rfl, Prod.mk.injEq] at hc
      rw [if_pos rfl, ← hc.1, ← hc.2]
  have hq := quad_le_half b
  refine ⟨fun k hk => ?_, ?_, patternStep_mem b cx cy _ h.pat, fun hp k hk => ?_, fun hp k hk => ?_⟩
  · rcases List.mem_append.1 hk with hk | hk
    · exact ⟨n, Nat.le_refl _, hn, by rw [(hw k hk).1, (hw k hk).2]; exact hcg⟩
    · obtain ⟨j, hj, r⟩ := h.at_ k hk
      exact ⟨j, by omega, r⟩
  · rw [List.map_append]
    refine List.nodup_append.2 ⟨?_, h.nodup, ?_⟩
    · rw [h3]
      have hnd : is.Nodup := h1.imp fun hlt => Nat.ne_of_lt hlt
      refine List.pairwise_map.2 (hnd.imp_of_mem fun {i j} hi hj hne e => hne ?_)
      exact posIn_inj b.swap cx cy i j (h2 i hi) (h2 j hj) e
    · intro p hp q hq' e
      subst e
      obtain ⟨k, hk, e1⟩ := List.mem_map.1 hp
      obtain ⟨k', hk', e2⟩ := List.mem_map.1 hq'
      obtain ⟨j, hj, hjn, e⟩ := h.at_ k' hk'
      have hx := hw k hk
      rw [← e2, Prod.mk.injEq] at e1
      rw [← e1.1, ← e1.2, hx.1, hx.2, hcg] at e
      have : n = j := by
        apply g.inj n hn j hjn
        cases hs : b.swap
        · simp only [hs, Bool.false_eq_true, if_false, Prod.mk.injEq] at e
          exact Prod.ext (by omega) (by omega)
        · simp only [hs, if_true, Prod.mk.injEq] at e
          exact Prod.ext (by omega) (by omega)
      omega
  · dsimp only at hp hk
    unfold patternStep at hp
    split at hp
    · exact absurd rfl hp
    · rename_i hnh
      rcases List.mem_append.1 hk with hk | hk
      · have := hw k hk
        unfold GHalf
        omega
      · refine h.half ?_ k hk
        intro h0
        rw [h0] at hp
        simp at hp
  · dsimp only at hp hk
    unfold patternStep at hp
    split at hp
    · exact absurd hp (by decide)
    · split at hp
      · exact absurd hp (by decide)
      · rename_i hnh hnq
        rcases List.mem_append.1 hk with hk | hk
        · have := hw k hk
          unfold GQuad
          omega
        · exact h.quad hp k hk

theorem within_groups (hF : F .reader) (hA : F .arith) (hm : m.Ok) (b : Blk) (g : Good b) (deq : Int → Int)
    (one : Bool) (n rank cx cy : Nat) (acc : Coeffs) (hn : n ≤ numCg b) (hr : rank ≤ 4)
    (h0 : rank = 0 → 1 ≤ n ∧ (cx, cy) = b.scan.getD (n - 1) (0, 0)) (hi : GInv b n acc) :
    Within F (groups m b deq one n rank cx cy acc) (GoodCoeffs b.w b.h) := by
  induction n generalizing rank cx cy acc with
  | zero =>
    unfold groups
    exact Within.pure (hi.good g acc.pattern (Or.inl rfl))
  | succ n ih =>
    unfold groups
    refine Within.bind (R := fun e => e = b.scan.getD n (0, 0)) ?_ fun e he => ?_
    · refine Within.ite (fun _ => within_tabScan b g n (by omega)) fun h => Within.pure ?_
      have := (h0 (by omega)).2
      rwa [Nat.add_sub_cancel] at this
    · obtain ⟨gx, gy⟩ := e
      dsimp only
      refine Within.bind (R := fun f => f = false → 1 ≤ rank) ?_ fun flag hflag => ?_
      · refine Within.ite (fun h => ?_) fun _ => Within.pure (fun h => by cases h)
        refine (within_sym hF ?_).mono fun _ _ _ => h
        simp only [Arr.size]
        cases b.luma <;> simp <;> split <;> omega
      · refine Within.ite (fun _ => ?_) fun hf => ?_
        · refine Within.bind (within_lastPos hF hm b rank gx gy one) fun pos hpos => ?_
          refine Within.bind (within_readPairs hF hA hm b one _ pos hpos 16 pos rank [] hr (by simp [total]) hpos)
            fun q hq => ?_
          match q, hq with
          | none, _ => exact Within.pure (hi.good g (-1) (Or.inr rfl))
          | some (pairs, rk), hq =>
            obtain ⟨ht, hk1, hk4⟩ := hq pairs rk rfl
            refine Within.bind (within_signs hF _) fun signed hs => ?_
            have hts : total signed.reverse = pos + 1 := by
              rw [total_reverse, total_congr hs, total_reverse, ht]
            generalize hsw : (if b.swap = true then (gy, gx) else (gx, gy)) = sw
            obtain ⟨sx, sy⟩ := sw
            dsimp only
            refine Within.bind (within_place b deq sx sy signed.reverse 0 (by omega)) fun ws hws => ?_
            obtain ⟨is, h1, h2, h3⟩ := hws
            refine ih rk sx sy _ (by omega) hk4 (fun h => by omega) ?_
            refine hi.step g (by omega) sx sy ?_ ws is h1 (fun i hi => (h2 i hi).2) h3
            rw [← hsw, ← he]
        · have : 1 ≤ rank := hflag (by simpa using hf)
          exact ih rank gx gy acc (by omega) hr (fun h => by omega) (hi.mono (by omega))

/-- A block whose parameters pass the finite check is decoded into good coefficients. -/
theorem within_block (hF : F .reader) (hA : F .arith) (hm : m.Ok) (b : Blk) (g : Good b) (deq : Int → Int) :
    Within F (blockCoeffs m b deq) (GoodCoeffs b.w b.h) := by
  have hl := g.len
  unfold blockCoeffs
  dsimp only
  change Within F (_ >>= _) _
  refine Within.bind (R := fun r => r.1 < numCg b ∧ b.scan.getD r.1 (0, 0) = r.2) ?_ fun r hr => ?_
  · refine Within.ite (fun h => ?_) fun h => Within.pure ?_
    · have h' : 1 < numCg b := h
      have e : ((b.w * b.h / 16 : Nat) : Int) - 1 = ((numCg b - 1 : Nat) : Int) := by
        show ((numCg b : Nat) : Int) - 1 = _
        omega
      rw [e]
      refine Within.bind (within_tabScan b g (numCg b - 1) (by omega)) fun e he => ?_
      rw [he]
      exact within_lastCg hF hm b g h'
    · have h' : numCg b = 1 := by
        have : ¬ numCg b > 1 := h
        omega
      exact ⟨by dsimp only; omega, g.zero h'⟩
  · obtain ⟨k, cx, cy⟩ := r
    dsimp only at hr ⊢
    refine within_groups hF hA hm b g deq _ (k + 1) 0 cx cy ⟨2, []⟩ (by omega) (by omega)
      (fun _ => ⟨by omega, by rw [Nat.add_sub_cancel]; exact hr.2.symm⟩) ?_
    exact ⟨fun _ h => absurd h (List.not_mem_nil), List.nodup_nil, by simp, fun _ _ h => absurd h (List.not_mem_nil),
      fun _ _ h => absurd h (List.not_mem_nil)⟩

end Davs2.Sx
