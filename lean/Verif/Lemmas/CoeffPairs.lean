import Verif.Lemmas.CoeffCode
import Verif.Props.Binarise
/-
Reading the levels of one group from their code.
-/
namespace Davs2.Sx

variable {σ : Type} {m : Machine σ} {G : σ → Prop}

theorem reads_runCtx (b : Blk) (pos k : Nat) (one first : Bool) (hk : k < pos) (hp : pos < 16) :
    Reads G m (runCtx b pos k one first : P σ Nat) (sigCtx b.luma b.diag one first (pos - 1 - k)) [] := by
  unfold runCtx sigCtx
  have h0 : (pos = k + 1) ↔ (pos - 1 - k = 0) := by omega
  cases hl : b.luma with
  | true =>
    rw [if_pos rfl, if_pos rfl]
    cases hd : b.diag with
    | true =>
      refine Reads.bind0 (a := if pos - 1 - k < 3 then 0 else if pos - 1 - k < 10 then 1 else 2) ?_ ?_
      · rw [show (!true) = false from rfl, if_neg Bool.false_ne_true]
        refine (Reads.pure _).cast ?_ rfl
        repeat' split
        all_goals first | rfl | omega
      · refine (Reads.pure _).cast ?_ rfl
        simp only [h0]
        rfl
    | false =>
      refine Reads.bind0 (a := [0, 1, 1, 2].getD (zz (pos - 1 - k)).2 0) ?_ ?_
      · rw [show (!false) = true from rfl, if_pos rfl]
        have hz := zz_raster (pos - 1 - k) (by omega)
        refine Reads.bind0 (a := zz (pos - 1 - k)) (Reads.tab (by omega) ?_) ((Reads.pure _).cast ?_ rfl)
        · rw [show ((pos : Int) - 1 - k).toNat = pos - 1 - k by omega]
          exact scan4_get (by omega)
        · generalize (zz (pos - 1 - k)).2 = y at hz ⊢
          have : y < 4 := hz.2.1
          interval_cases y <;> rfl
      · refine (Reads.pure _).cast ?_ rfl
        simp only [h0]
        rfl
  | false =>
    rw [if_neg Bool.false_ne_true, if_neg Bool.false_ne_true]
    refine (Reads.pure _).cast ?_ rfl
    simp only [h0]
    have : (if pos ≥ 6 + k then 1 else 0) = (if pos - 1 - k < 5 then 0 else 1) := by split <;> split <;> omega
    rw [this]

theorem sigCtx_lt (luma diag one first : Bool) (p : Nat) : sigCtx luma diag one first p < 11 := by
  have h : ∀ y, [0, 1, 1, 2].getD y 0 ≤ 2 := by
    intro y
    match y with
    | 0 | 1 | 2 | 3 => decide
    | _ + 4 => simp
  have := h (zz p).2
  unfold sigCtx
  dsimp only
  generalize [0, 1, 1, 2].getD (zz p).2 0 = k at this
  cases luma <;> cases diag <;> cases one <;> cases first <;>
    simp only [if_true, if_false, Bool.false_eq_true, reduceIte] <;> repeat' split
  all_goals omega

/-- Flags of the positions below `n` down to the next level. -/
def runFlags (F : Nat → Bool → Bin) (g : Nat → Int) : Nat → List Bin
  | 0 => []
  | p + 1 => if g p = 0 then F p false :: runFlags F g p else [F p true]

/-- One more than the next position below `n` with a level, or 0. -/
def nextOf (g : Nat → Int) : Nat → Nat
  | 0 => 0
  | p + 1 => if g p = 0 then nextOf g p else p + 1

theorem nextOf_spec (g : Nat → Int) (n : Nat) : nextOf g n ≤ n ∧ (∀ j, nextOf g n ≤ j → j < n → g j = 0) ∧
    (∀ q, nextOf g n = q + 1 → g q ≠ 0) := by
  induction n with
  | zero => exact ⟨Nat.le_refl _, fun j _ h => absurd h (Nat.not_lt_zero j), fun q h => by simp [nextOf] at h⟩
  | succ n ih =>
    unfold nextOf
    by_cases h : g n = 0
    · rw [if_pos h]
      refine ⟨by omega, fun j h1 h2 => ?_, ih.2.2⟩
      by_cases hj : j = n
      · rw [hj]; exact h
      · exact ih.2.1 j h1 (by omega)
    · rw [if_neg h]
      exact ⟨Nat.le_refl _, fun j h1 h2 => by omega, fun q hq => by cases hq; exact h⟩

theorem restCode_eq (b : Blk) (one first : Bool) (top : Nat) (g : Nat → Int) (q n : Nat) :
    restCode b one first top g q n = runFlags (fun p v => Bin.ctx (.run (!b.luma) (min 2 (near g q / 2)))
      (sigCtx b.luma b.diag one first p) v) g n ++
      (match nextOf g n with
      | 0 => []
      | r + 1 => levelAt b first top g r ++ restCode b one first top g r r) := by
  induction n with
  | zero => rfl
  | succ n ih =>
    rw [restCode, runFlags, nextOf]
    by_cases h : g n = 0
    · rw [if_pos h, if_pos h, if_pos h, ih]
      rfl
    · rw [if_neg h, if_neg h, if_neg h]
      rfl

theorem reads_run (hm : m.Lawful G) (b : Blk) (grp pos : Nat) (one first : Bool) (g : Nat → Int) (hg : grp < 3) (hp : pos < 16)
    (n run : Nat) (h : run + n = pos) :
    Reads G m (readRun m b grp pos one first n run) (run + (n - nextOf g n))
      (runFlags (fun p v => Bin.ctx (.run (!b.luma) grp) (sigCtx b.luma b.diag one first p) v) g n) := by
  induction n generalizing run with
  | zero => exact (Reads.pure run).cast (by simp [nextOf]) rfl
  | succ n ih =>
    unfold readRun
    refine Reads.bind0 (reads_runCtx b pos run one first (by omega) hp) ?_
    rw [show pos - 1 - run = n by omega]
    have hs : sigCtx b.luma b.diag one first n < Arr.size (.run (!b.luma) grp) := by
      have := sigCtx_lt b.luma b.diag one first n
      simp only [Arr.size, if_pos hg]
      exact this
    rw [runFlags, nextOf]
    by_cases hz : g n = 0
    · rw [if_pos hz, if_pos hz]
      refine Reads.bind (c := [_]) (Reads.sym hm hs false) ?_
      rw [if_neg Bool.false_ne_true]
      have := (nextOf_spec g n).1
      exact (ih (run + 1) (by omega)).cast (by omega) rfl
    · rw [if_neg hz, if_neg hz]
      refine Reads.bind (c := [_]) (d := []) (Reads.sym hm hs true) ?_
      rw [if_pos rfl]
      exact (Reads.pure run).cast (by omega) rfl

theorem countFrom_le (g : Nat → Int) (p : Nat) : countFrom g p ≤ 16 - p := by
  unfold countFrom
  refine (List.length_filter_le _ _).trans ?_
  rw [List.length_range']

theorem rank_next (M x : Nat) (hx : 1 ≤ x) (hx' : x ≤ 32767) :
    ∃ t, tChr[rankOf M]? = some t ∧
      (if (x : Int) > t then ∃ r, tabRank[(min 5 (x : Int)).toNat]? = some r ∧ r = rankOf (max M x)
       else rankOf M = rankOf (max M x)) := by
  have key : ∀ M : Nat, M < 6 → ∀ x : Nat, x < 6 → 1 ≤ x → tChr[rankOf M]? = some (tChr.getD (rankOf M) 0) ∧
      ((x : Int) > tChr.getD (rankOf M) 0 → tabRank[(min 5 (x : Int)).toNat]? = some (rankOf (max M x))) ∧
      (¬ (x : Int) > tChr.getD (rankOf M) 0 → rankOf M = rankOf (max M x)) := by
    intro M hM x hx h1
    interval_cases M <;> interval_cases x <;> decide
  have hr : ∀ y, rankOf y = rankOf (min y 5) := by
    intro y
    unfold rankOf
    repeat' split
    all_goals omega
  by_cases h5 : x ≤ 5
  · obtain ⟨h1, h2⟩ := key (min M 5) (by omega) x (by omega) hx
    rw [← hr M] at h1 h2
    have e : rankOf (max (min M 5) x) = rankOf (max M x) := by
      rw [hr (max M x), hr (max (min M 5) x)]
      congr 1
      omega
    rw [e] at h2
    refine ⟨_, h1, ?_⟩
    split
    · rename_i h
      exact ⟨_, h2.1 h, rfl⟩
    · rename_i h
      exact h2.2 h
  · have e4 : rankOf (max M x) = 4 := by unfold rankOf; rw [if_neg (by omega), if_neg (by omega), if_neg (by omega), if_neg (by omega)]
    have em : (min 5 (x : Int)).toNat = 5 := by omega
    rw [e4, em]
    by_cases hM : M ≤ 4
    · obtain ⟨t, ht, hlt⟩ : ∃ t, tChr[rankOf M]? = some t ∧ t ≤ 4 := by
        have : ∀ M < 5, tChr[rankOf M]? = some (tChr.getD (rankOf M) 0) ∧ tChr.getD (rankOf M) 0 ≤ 4 := by decide +kernel
        exact ⟨_, this M (by omega)⟩
      refine ⟨t, ht, ?_⟩
      rw [if_pos (by omega)]
      exact ⟨4, rfl, rfl⟩
    · have e4' : rankOf M = 4 := by unfold rankOf; rw [if_neg (by omega), if_neg (by omega), if_neg (by omega), if_neg (by omega)]
      rw [e4']
      refine ⟨3000, rfl, ?_⟩
      split
      · exact ⟨4, rfl, rfl⟩
      · rfl

theorem sumFrom_le (g : Nat → Int) (hg : ∀ j, (g j).natAbs ≤ 32767) (p n : Nat) : sumFrom g p n ≤ n * 32767 := by
  induction n generalizing p with
  | zero => simp [sumFrom]
  | succ n ih =>
    have : sumFrom g p (n + 1) = (g p).natAbs + sumFrom g (p + 1) n := by unfold sumFrom; rw [List.range'_succ]; rfl
    have := ih (p + 1)
    have := hg p
    omega

theorem rankOf_le (x : Nat) : rankOf x ≤ 4 := by
  unfold rankOf
  repeat' split
  all_goals omega

theorem reads_pairs (hm : m.Lawful G) (b : Blk) (one first : Bool) (top : Nat) (g : Nat → Int)
    (hg : ∀ j, (g j).natAbs ≤ 32767) (n pos : Nat) (pairs ss : List (Int × Nat)) (hn : pos < n) (hp : pos < 16)
    (hz : g pos ≠ 0) (hr : Rel g (pos + 1) pairs ss) :
    ∃ ps' ss', Rel g 0 ps' ss' ∧ Reads G m
      (readPairs m b one first n pos (rankOf (max top (maxFrom g (pos + 1)))) pairs)
      (some (ps', rankOf (max top (maxFrom g 0))))
      (levelAt b first top g pos ++ restCode b one first top g pos pos) := by
  induction n generalizing pos pairs ss with
  | zero => omega
  | succ n ih =>
    have hlen := hr.length (by omega)
    have hcnt := countFrom_le g (pos + 1)
    have hx := hg pos
    have hx1 : 1 ≤ (g pos).natAbs := by omega
    generalize hX : (g pos).natAbs = x at hx hx1
    have hab := hr.absSum 0 0 (by omega)
    rw [show 6 - 0 = 6 from rfl] at hab
    have hns : near g pos = x + sumFrom g (pos + 1) 6 := by
      unfold near; rw [← hX, List.range'_succ]; rfl
    have hsl := sumFrom_le g hg (pos + 1) 6
    have hno := nextOf_spec g pos
    have hmx : max top (maxFrom g pos) = max (max top (maxFrom g (pos + 1))) x := by
      rw [maxFrom_step g hp, hX]; omega
    have hmn : maxFrom g (nextOf g pos) = maxFrom g pos := maxFrom_zeros g hno.1 (by omega) hno.2.1
    obtain ⟨t, ht, hrk⟩ := rank_next (max top (maxFrom g (pos + 1))) x hx1 hx
    rw [← hmx] at hrk
    have hrel : Rel g (nextOf g pos) (((x : Nat), pos - nextOf g pos) :: pairs) ((g pos, pos - nextOf g pos) :: ss) := by
      rw [← hX]
      exact Rel.cons hr hp hz hno.1 hno.2.1
    rw [restCode_eq]
    -- what remains after the run
    have rest : ∃ ps' ss', Rel g 0 ps' ss' ∧ Reads G m (do
          let t ← tab tChr (rankOf (max top (maxFrom g (pos + 1))))
          let rank ← (if (x : Int) > t then tab tabRank (min 5 (x : Int)) else pure (rankOf (max top (maxFrom g (pos + 1)))))
          if pos - nextOf g pos = pos then pure (some ((((x : Nat) : Int), pos - nextOf g pos) :: pairs, rank))
          else if pos < pos - nextOf g pos + 1 then fault .table
          else readPairs m b one first n (pos - (pos - nextOf g pos + 1)) rank ((((x : Nat) : Int), pos - nextOf g pos) :: pairs) : P σ _)
        (some (ps', rankOf (max top (maxFrom g 0))))
        (match nextOf g pos with
        | 0 => []
        | r + 1 => levelAt b first top g r ++ restCode b one first top g r r) := by
      have hrd : Reads G m (if (x : Int) > t then tab tabRank (min 5 (x : Int)) else pure (rankOf (max top (maxFrom g (pos + 1)))) : P σ Nat)
          (rankOf (max top (maxFrom g pos))) [] := by
        split at hrk
        · rename_i h
          rw [if_pos h]
          obtain ⟨r, h1, h2⟩ := hrk
          exact (Reads.tab (by omega) h1).cast h2 rfl
        · rename_i h
          rw [if_neg h]
          exact (Reads.pure _).cast hrk rfl
      cases hk : nextOf g pos with
      | zero =>
        rw [hk] at hrel hmn
        refine ⟨_, _, hrel, ?_⟩
        refine Reads.bind0 (Reads.tab (by omega) (by simpa using ht)) ?_
        refine Reads.bind0 hrd ?_
        rw [if_pos (by omega), hmn]
        exact Reads.pure _
      | succ q =>
        rw [hk] at hrel hmn hno
        obtain ⟨ps', ss', h1, h2⟩ := ih q _ _ (by omega) (by omega) (hno.2.2 q rfl) hrel
        refine ⟨ps', ss', h1, ?_⟩
        refine Reads.bind0 (Reads.tab (by omega) (by simpa using ht)) ?_
        refine Reads.bind0 hrd ?_
        rw [if_neg (by omega), if_neg (by omega), show pos - (pos - (q + 1) + 1) = q by omega, ← hmn]
        exact h2
    obtain ⟨ps', ss', h1, h2⟩ := rest
    refine ⟨ps', ss', h1, ?_⟩
    unfold readPairs
    refine Reads.bind (a := some (x : Int)) ((C79_level b _ _ pos first (rankOf_le _)).at hm ⟨x, hx1, by omega, rfl, ?_⟩) ?_
    · rw [hlen, levelAt, hX]
    dsimp only
    refine Reads.bind0 (Reads.i32 (by rw [hab]; omega)) ?_
    rw [hab]
    have hgrp : (min (((0 : Int) + (sumFrom g (pos + 1) 6 : Nat) + (x : Nat)) / 2) 2).toNat = min 2 (near g pos / 2) := by
      rw [hns]; omega
    rw [if_neg (by omega), hgrp]
    refine Reads.bind (a := pos - nextOf g pos) ?_ ?_
    · by_cases h0 : pos > 0
      · rw [if_pos h0]
        exact (reads_run hm b _ pos one first g (by omega) hp pos 0 (by omega)).cast (by omega) rfl
      · rw [if_neg h0]
        have : pos = 0 := by omega
        subst this
        exact (Reads.pure 0).cast (by omega) rfl
    refine Reads.bind0 (Reads.failed hm) ?_
    rw [if_neg Bool.false_ne_true, if_neg (by omega)]
    have ht16 : toInt16 (x : Int) = x := by unfold toInt16; omega
    rw [ht16]
    exact h2

end Davs2.Sx
