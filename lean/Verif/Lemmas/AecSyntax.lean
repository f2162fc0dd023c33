import Verif.Spec.AecSyntax
import Mathlib.Tactic.IntervalCases
/-
Rules for `Within`, and the coefficient block.
-/
namespace Davs2.Sx

variable {σ α β : Type} {F : Fault → Prop}

theorem Within.pure {a : α} {Q : α → Prop} (h : Q a) : Within F (Pure.pure a : P σ α) Q := fun _ => h

theorem Within.bind {p : P σ α} {f : α → P σ β} {R : α → Prop} {Q : β → Prop}
    (hp : Within F p R) (hf : ∀ a, R a → Within F (f a) Q) : Within F (p >>= f) Q := by
  intro s
  have h := hp s
  show match (match p s with | .ok (a, s) => f a s | .error e => .error e) with
    | .ok (a, _) => Q a
    | .error f => F f
  cases hps : p s with
  | error e => rw [hps] at h; exact h
  | ok r =>
    rw [hps] at h
    obtain ⟨a, s'⟩ := r
    exact hf a h s'

theorem Within.mono {p : P σ α} {R Q : α → Prop} (hp : Within F p R) (h : ∀ a, R a → Q a) :
    Within F p Q := by
  intro s
  have := hp s
  cases hps : p s with
  | error e => rw [hps] at this; exact this
  | ok r => rw [hps] at this; exact h _ this

theorem Within.weaken {p : P σ α} {G : Fault → Prop} {Q : α → Prop} (hp : Within F p Q) (h : ∀ f, F f → G f) :
    Within G p Q := by
  intro s
  have := hp s
  cases hps : p s with
  | error e => rw [hps] at this; exact h _ this
  | ok r => rw [hps] at this; exact this

theorem Within.ite {c : Prop} [Decidable c] {p q : P σ α} {Q : α → Prop} (hp : c → Within F p Q)
    (hq : ¬ c → Within F q Q) : Within F (if c then p else q) Q := by
  split
  · exact hp ‹_›
  · exact hq ‹_›

theorem Within.lift {f : σ → Option (α × σ)} {Q : α → Prop} (hF : F .reader)
    (h : ∀ s a s', f s = some (a, s') → Q a) : Within F (lift f) Q := by
  intro s
  unfold Sx.lift
  cases hs : f s with
  | none => exact hF
  | some r => exact h s r.1 r.2 hs

variable {m : Machine σ}

theorem within_sym (hF : F .reader) {a : Arr} {i : Nat} (h : i < a.size) :
    Within F (sym m a i) fun _ => True := by
  unfold sym
  rw [if_pos h]
  exact Within.lift hF fun _ _ _ _ => trivial

theorem within_eqp (hF : F .reader) : Within F (eqp m) fun _ => True := Within.lift hF fun _ _ _ _ => trivial

theorem within_fin (hF : F .reader) : Within F (fin m) fun _ => True := Within.lift hF fun _ _ _ _ => trivial

theorem within_run0 (hF : F .reader) (hm : m.Ok) {a : Arr} {i max : Nat} (h : i < a.size) :
    Within F (run0 m a i max) fun k => k ≤ max := by
  unfold run0
  rw [if_pos (Or.inl h)]
  exact Within.lift hF fun s v s' e => hm.run0 a i max s v s' e

theorem within_runExt (hF : F .reader) (hm : m.Ok) {a : Arr} {i inc max : Nat}
    (h : i + min (max - 1) inc < a.size) : Within F (runExt m a i inc max) fun k => k ≤ max := by
  unfold runExt
  rw [if_pos (Or.inr h)]
  exact Within.lift hF fun s v s' e => hm.runExt a i inc max s v s' e

theorem within_failed : Within F (failed m) fun _ => True := by
  intro s
  unfold failed
  cases m.err s <;> trivial

theorem within_i32 (hF : F .arith) (v : Int) : Within F (i32 v : P σ Int) fun r => r = v := by
  unfold i32
  split
  · exact Within.pure rfl
  · exact fun _ => hF

theorem within_tab {l : List α} {i : Int} {v : α} (h0 : 0 ≤ i) (h : l[i.toNat]? = some v) :
    Within F (tab l i : P σ α) fun r => r = v := by
  unfold tab
  rw [if_pos h0, h]
  exact Within.pure rfl

theorem within_tab_lt {l : List α} {i : Int} (h0 : 0 ≤ i) (h : i < l.length) :
    Within F (tab l i : P σ α) fun r => l[i.toNat]? = some r := by
  have hi : i.toNat < l.length := by omega
  unfold tab
  rw [if_pos h0, List.getElem?_eq_getElem hi]
  exact Within.pure rfl

/-! ### Exp-Golomb code -/

theorem within_shl1 (hF : F .arith) (n : Nat) : Within F (shl1 n : P σ Int) fun r => 0 ≤ r := by
  unfold shl1
  exact (within_i32 hF _).mono fun r hr => by rw [hr]; exact Int.natCast_nonneg _

theorem within_prefix (hF : F .reader) (hA : F .arith) (fuel order : Nat) (acc : Int) :
    Within F (golombPrefix m fuel order acc) fun r => ∀ o a, r = some (o, a) → acc ≤ a := by
  induction fuel generalizing order acc with
  | zero =>
    unfold golombPrefix
    exact fun _ => hA
  | succ n ih =>
    unfold golombPrefix
    refine Within.bind (within_eqp hF) fun l _ => Within.bind within_failed fun f _ => ?_
    refine Within.ite (fun _ => Within.pure (by intro o a h; cases h)) fun _ => Within.ite (fun _ =>
      Within.pure (by intro o a h; cases h; exact Int.le_refl _)) fun _ => ?_
    refine Within.bind (within_shl1 hA order) fun t ht => Within.bind (within_i32 hA _) fun u hu => ?_
    refine (ih (order + 1) u).mono fun r hr o a e => ?_
    have := hr o a e
    omega

theorem within_suffix (hF : F .reader) (order : Nat) (acc : Int) :
    Within F (golombSuffix m order acc) fun r => acc ≤ r := by
  induction order generalizing acc with
  | zero => exact Within.pure (Int.le_refl _)
  | succ n ih =>
    unfold golombSuffix
    refine Within.bind (within_eqp hF) fun b _ => (ih _).mono fun r hr => ?_
    have h2 : (0 : Int) ≤ 2 ^ n := Int.pow_nonneg (by decide)
    generalize (2 : Int) ^ n = q at *
    split at hr <;> omega

/-! ### One coefficient group -/

theorem absSum_nonneg (ps : List (Int × Nat)) (n : Nat) (acc : Int) (h : 0 ≤ acc) : 0 ≤ absSum ps n acc := by
  induction ps generalizing n acc with
  | nil => exact h
  | cons p ps ih =>
    obtain ⟨l, r⟩ := p
    unfold absSum
    dsimp only
    split
    · exact h
    · exact ih _ _ (by omega)

theorem scan4_lt : ∀ i < 16, ∀ e, scan4x4[i]? = some e → e.1 < 4 ∧ e.2 < 4 := by decide

theorem within_runCtx (b : Blk) {pos k : Nat} (one first : Bool) (hk : k < pos) (hp : pos < 16) :
    Within F (runCtx b pos k one first : P σ Nat) fun c => c < 11 := by
  unfold runCtx
  refine Within.ite (fun _ => ?_) fun _ => Within.pure ?_
  · refine Within.bind (R := fun md => md ≤ 2) ?_ fun md hmd => Within.pure ?_
    · refine Within.ite (fun _ => ?_) fun _ => Within.pure ?_
      · refine Within.bind (within_tab_lt (by omega) (by simp only [scan4x4, List.length_cons, List.length_nil]; omega))
          fun e he => Within.pure ?_
        have := scan4_lt _ (by omega) e he
        omega
      · split
        · omega
        · split <;> omega
    · split
      · split <;> split <;> omega
      · split <;> omega
  · split
    · split <;> split <;> (try split) <;> omega
    · split <;> split <;> omega

theorem within_readRun (hF : F .reader) (b : Blk) (grp : Nat) (hg : grp < 3) (pos : Nat) (one first : Bool)
    (hp : pos < 16) (n run : Nat) (h : n + run = pos) :
    Within F (readRun m b grp pos one first n run) fun r => run ≤ r ∧ r ≤ pos := by
  induction n generalizing run with
  | zero => exact Within.pure (by omega)
  | succ n ih =>
    unfold readRun
    refine Within.bind (within_runCtx b one first (by omega) hp) fun c hc =>
      Within.bind (within_sym hF (by simp only [Arr.size, if_pos hg]; exact hc)) fun s _ => ?_
    refine Within.ite (fun _ => Within.pure (by omega)) fun _ => ?_
    exact (ih (run + 1) (by omega)).mono fun r hr => by omega

theorem within_readLevel (hF : F .reader) (hA : F .arith) (hm : m.Ok) (b : Blk) (rank npairs pos : Nat)
    (first : Bool) (hr : rank ≤ 4) :
    Within F (readLevel m b rank npairs pos first) fun r => ∀ v, r = some v → 1 ≤ v := by
  unfold readLevel
  refine Within.bind (within_fin hF) fun e _ => Within.ite (fun _ => ?_) fun _ => ?_
  · refine Within.bind (within_prefix hF hA 32 0 1) fun q hq => ?_
    match q, hq with
    | none, _ => exact Within.pure (by intro v h; cases h)
    | some (o, a), hq =>
      have ha := hq o a rfl
      refine Within.bind (within_suffix hF o 0) fun s hs => Within.bind (within_i32 hA _) fun v hv =>
        Within.bind (within_i32 hA _) fun w hw => Within.bind within_failed fun f _ => ?_
      refine Within.ite (fun _ => Within.pure (by intro v h; cases h)) fun _ => Within.pure ?_
      intro v h; cases h; omega
  · refine Within.bind (within_run0 hF hm ?_) fun k _ => Within.bind within_failed fun f _ => ?_
    · simp only [Arr.size]
      generalize hp : min 2 ((npairs + 1) / 2) = p
      have : p ≤ 2 := by omega
      have : min rank (p + 2) ≤ 4 := by omega
      split <;> split <;> omega
    · refine Within.ite (fun _ => Within.pure (by intro v h; cases h)) fun _ => Within.pure ?_
      intro v h; cases h; omega

/-- Number of coefficient positions covered by the pairs. -/
def total : List (Int × Nat) → Nat
  | [] => 0
  | (_, r) :: ps => r + 1 + total ps

theorem length_le_total (ps : List (Int × Nat)) : ps.length ≤ total ps := by
  induction ps with
  | nil => exact Nat.le_refl _
  | cons p ps ih => obtain ⟨l, r⟩ := p; simp only [List.length_cons, total]; omega

theorem rank_step : ∀ l : Int, 1 ≤ l → ∀ v, tabRank[(min 5 l).toNat]? = some v → 1 ≤ v ∧ v ≤ 4 := by
  intro l hl v h
  have h5 : (min 5 l).toNat ≤ 5 := by omega
  have h1 : 1 ≤ (min 5 l).toNat := by omega
  generalize (min 5 l).toNat = k at *
  have : ∀ k ≤ 5, 1 ≤ k → ∀ v, tabRank[k]? = some v → 1 ≤ v ∧ v ≤ 4 := by decide
  exact this k h5 h1 v h

theorem within_readPairs (hF : F .reader) (hA : F .arith) (hm : m.Ok) (b : Blk) (one first : Bool) (pos0 : Nat)
    (h0 : pos0 < 16) (n pos rank : Nat) (pairs : List (Int × Nat)) (hr : rank ≤ 4)
    (ht : total pairs + pos = pos0) (hn : pos < n) :
    Within F (readPairs m b one first n pos rank pairs) fun r =>
      ∀ ps k, r = some (ps, k) → total ps = pos0 + 1 ∧ 1 ≤ k ∧ k ≤ 4 := by
  induction n generalizing pos rank pairs with
  | zero => omega
  | succ n ih =>
    unfold readPairs
    refine Within.bind (within_readLevel hF hA hm b rank _ pos first hr) fun q hq => ?_
    match q, hq with
    | none, _ => exact Within.pure (by intro ps k h; cases h)
    | some level, hq =>
      have hl := hq level rfl
      have hs := absSum_nonneg pairs 0 0 (Int.le_refl _)
      refine Within.bind (within_i32 hA _) fun s hse => ?_
      refine Within.ite (fun hneg => by omega) fun _ => ?_
      refine Within.bind (R := fun run => run ≤ pos) ?_ fun run hrun => ?_
      · refine Within.ite (fun _ => ?_) fun _ => Within.pure (by omega)
        exact (within_readRun hF b _ (by omega) pos one first (by omega) pos 0 (by omega)).mono
          fun r hr => hr.2
      · refine Within.bind within_failed fun f _ => Within.ite (fun _ => Within.pure (by intro ps k h; cases h))
          fun _ => ?_
        have hlen := length_le_total pairs
        refine Within.ite (fun h => by omega) fun _ => ?_
        refine Within.bind (within_tab_lt (by omega) (by simp only [tChr, List.length_cons, List.length_nil]; omega))
          fun t htt => ?_
        refine Within.bind (R := fun k => 1 ≤ k ∧ k ≤ 4) ?_ fun rk hrk => ?_
        · refine Within.ite (fun _ => ?_) fun hle => Within.pure ?_
          · refine (within_tab_lt (by omega) (by simp only [tabRank, List.length_cons, List.length_nil]; omega)).mono
              fun v hv => rank_step level hl v hv
          · refine ⟨?_, hr⟩
            rcases Nat.eq_zero_or_pos rank with h | h
            · subst h
              simp [tChr] at htt
              omega
            · exact h
        · refine Within.ite (fun he => Within.pure ?_) fun hne => Within.ite (fun h => by omega) fun _ => ?_
          · intro ps k h
            cases h
            refine ⟨?_, hrk⟩
            simp only [total]
            omega
          · refine ih _ rk _ hrk.2 ?_ (by omega)
            simp only [total]
            omega

theorem within_signs (hF : F .reader) (ps : List (Int × Nat)) :
    Within F (readSigns m ps) fun qs => qs.map (·.2) = ps.map (·.2) := by
  induction ps with
  | nil => exact Within.pure rfl
  | cons p ps ih =>
    obtain ⟨l, r⟩ := p
    unfold readSigns
    refine Within.bind (within_eqp hF) fun b _ => Within.bind ih fun qs hqs => Within.pure ?_
    simp only [List.map_cons, hqs]

theorem total_eq (ps : List (Int × Nat)) : total ps = ((ps.map (·.2)).map (· + 1)).sum := by
  induction ps with
  | nil => rfl
  | cons p ps ih => obtain ⟨l, r⟩ := p; simp [total, ih]

theorem total_reverse (ps : List (Int × Nat)) : total ps.reverse = total ps := by
  rw [total_eq, total_eq, List.map_reverse, List.map_reverse, List.sum_reverse]

theorem total_congr {ps qs : List (Int × Nat)} (h : qs.map (·.2) = ps.map (·.2)) : total qs = total ps := by
  rw [total_eq, total_eq, h]

/-- Position of the coefficient with index `i` of the scan inside group `(cx, cy)`. -/
def posIn (swap : Bool) (cx cy i : Nat) : Int × Int :=
  let e := scan4x4.getD i (0, 0)
  if swap then (4 * cx + e.2, 4 * cy + e.1) else (4 * cx + e.1, 4 * cy + e.2)

theorem posIn_bounds (swap : Bool) (cx cy i : Nat) (h : i < 16) :
    (posIn swap cx cy i).1 / 4 = cx ∧ (posIn swap cx cy i).2 / 4 = cy := by
  have := scan4_lt i h (scan4x4.getD i (0, 0)) (by
    rw [List.getD_eq_getElem?_getD, List.getElem?_eq_getElem (by simpa [scan4x4] using h)]; rfl)
  unfold posIn
  cases swap <;> simp only [if_true, Bool.false_eq_true, if_false] <;> omega

theorem scan4_inj : ∀ i < 16, ∀ j < 16, scan4x4.getD i (0, 0) = scan4x4.getD j (0, 0) → i = j := by decide

theorem posIn_inj (swap : Bool) (cx cy i j : Nat) (hi : i < 16) (hj : j < 16)
    (h : posIn swap cx cy i = posIn swap cx cy j) : i = j := by
  apply scan4_inj i hi j hj
  unfold posIn at h
  cases swap <;> simp only [if_true, Bool.false_eq_true, if_false, Prod.mk.injEq] at h <;>
    exact Prod.ext (by omega) (by omega)

theorem within_place (b : Blk) (deq : Int → Int) (cx cy : Nat) (ps : List (Int × Nat)) (ctr : Nat)
    (h : total ps + ctr ≤ 16) :
    Within F (place b deq cx cy ps ctr : P σ (List Wr)) fun ws => ∃ is : List Nat, is.Pairwise (· < ·) ∧
      (∀ i ∈ is, ctr ≤ i ∧ i < 16) ∧ (ws.map fun k => (k.x, k.y)) = is.map (posIn b.swap cx cy) := by
  induction ps generalizing ctr with
  | nil => exact Within.pure ⟨[], List.Pairwise.nil, by simp, rfl⟩
  | cons p ps ih =>
    obtain ⟨l, r⟩ := p
    simp only [total] at h
    unfold place
    refine Within.bind (within_tab_lt (by omega) (by simp only [scan4x4, List.length_cons, List.length_nil]; omega))
      fun e he => ?_
    refine Within.bind (ih (ctr + r + 1) (by omega)) fun ws hws => Within.pure ?_
    obtain ⟨is, h1, h2, h3⟩ := hws
    refine ⟨(ctr + r) :: is, List.pairwise_cons.2 ⟨fun i hi => by have := h2 i hi; omega, h1⟩, ?_, ?_⟩
    · intro i hi
      rcases List.mem_cons.1 hi with h | h
      · subst h; omega
      · have := h2 i h; omega
    · have hg : scan4x4.getD (ctr + r) (0, 0) = e := by
        rw [List.getD_eq_getElem?_getD]
        have : ((ctr + r : Nat) : Int).toNat = ctr + r := by omega
        rw [this] at he
        rw [he]; rfl
      simp only [List.map_cons, h3, List.cons.injEq, and_true]
      unfold posIn
      rw [hg]
      cases b.swap <;> rfl

end Davs2.Sx
