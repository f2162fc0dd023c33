import Verif.Lemmas.Binarise
import Verif.Lemmas.AecCoeffs
import Verif.Spec.CoeffCode
/-
Reading of a coefficient block from its code.
-/
namespace Davs2.Sx

variable {σ α β : Type} {m : Machine σ} {G : σ → Prop}

/-- Reading `p` when the bins `c` are delivered gives `v`. -/
def Reads (G : σ → Prop) (m : Machine σ) (p : P σ α) (v : α) (c : List Bin) : Prop :=
  ∀ s s', Produces G m s c s' → p s = .ok (v, s')

theorem Codes.at {p : P σ α} {T : α → List Bin → Prop} (h : Codes G m p T) (hm : m.Lawful G) {v : α} {c : List Bin}
    (hv : T v c) : Reads G m p v c := fun s s' hs => h.reads hm v c hv s s' hs

theorem Reads.pure (a : α) : Reads G m (Pure.pure a : P σ α) a [] := by
  intro s s' h
  cases h
  rfl

theorem Reads.bind {p : P σ α} {f : α → P σ β} {a : α} {v : β} {c d : List Bin} (hp : Reads G m p a c)
    (hf : Reads G m (f a) v d) : Reads G m (p >>= f) v (c ++ d) := by
  intro s s' h
  obtain ⟨s1, h1, h2⟩ := h.split
  exact bind_ok.mpr ⟨a, s1, hp s s1 h1, hf s1 s' h2⟩

theorem Reads.bind0 {p : P σ α} {f : α → P σ β} {a : α} {v : β} {d : List Bin} (hp : Reads G m p a [])
    (hf : Reads G m (f a) v d) : Reads G m (p >>= f) v d := Reads.bind hp hf

theorem Reads.cast {p : P σ α} {v w : α} {c d : List Bin} (h : Reads G m p v c) (e : v = w) (e' : c = d) :
    Reads G m p w d := e ▸ e' ▸ h

theorem Reads.tab {l : List α} {i : Int} {v : α} (h0 : 0 ≤ i) (h : l[i.toNat]? = some v) :
    Reads G m (tab l i : P σ α) v [] := by
  unfold Sx.tab
  rw [if_pos h0, h]
  exact Reads.pure v

theorem Reads.i32 {v : Int} (h : -2147483648 ≤ v ∧ v ≤ 2147483647) : Reads G m (i32 v : P σ Int) v [] := by
  unfold Sx.i32
  rw [if_pos h]
  exact Reads.pure v

theorem Reads.failed (hm : m.Lawful G) : Reads G m (failed m) false [] :=
  codes_failed.at hm (List.mem_singleton.mpr rfl)

theorem Reads.sym (hm : m.Lawful G) {a : Arr} {i : Nat} (h : i < a.size) (b : Bool) :
    Reads G m (sym m a i) b [.ctx a i b] := (codes_sym h).at hm (In_two.mpr rfl)

theorem Reads.eqp (hm : m.Lawful G) (b : Bool) : Reads G m (eqp m) b [.eq b] := codes_eqp.at hm (In_two.mpr rfl)

theorem Reads.run0 (hm : m.Lawful G) {a : Arr} {i max k : Nat} (h : i < a.size) (hk : k ≤ max) :
    Reads G m (run0 m a i max) k (unary a (fun _ => i) max k) := (codes_run0 h).at hm (In_unary.mpr ⟨hk, rfl⟩)

theorem Reads.runExt (hm : m.Lawful G) {a : Arr} {i inc max k : Nat} (h : i + min (max - 1) inc < a.size)
    (hk : k ≤ max) : Reads G m (runExt m a i inc max) k (unary a (fun j => i + min j inc) max k) :=
  (codes_runExt h).at hm (In_unary.mpr ⟨hk, rfl⟩)

/-! ### Positions -/

theorem zz_eq (j : Nat) : zz j = scan4x4.getD j (0, 0) := by
  have : zigzag 4 = scan4x4 := by decide +kernel
  unfold zz
  rw [this]

theorem scan4_get {j : Nat} (h : j < 16) : scan4x4[j]? = some (zz j) := by
  rw [zz_eq, List.getD_eq_getElem?_getD, List.getElem?_eq_getElem (by simpa [scan4x4] using h)]
  rfl

theorem zz_raster : ∀ j < 16, (zz j).1 < 4 ∧ (zz j).2 < 4 ∧ raster4x4[(zz j).2 * 4 + (zz j).1]? = some j := by
  decide +kernel

/-! ### Group functions -/

theorem countFrom_step (g : Nat → Int) {p : Nat} (hp : p < 16) :
    countFrom g p = (if g p = 0 then 0 else 1) + countFrom g (p + 1) := by
  unfold countFrom
  obtain ⟨n, hn⟩ : ∃ n, 16 - p = n + 1 := ⟨15 - p, by omega⟩
  rw [hn, show 16 - (p + 1) = n by omega, List.range'_succ, List.filter_cons]
  by_cases h : g p = 0
  · simp [h]
  · simp [h]; omega

theorem maxFrom_step (g : Nat → Int) {p : Nat} (hp : p < 16) :
    maxFrom g p = max (g p).natAbs (maxFrom g (p + 1)) := by
  unfold maxFrom
  obtain ⟨n, hn⟩ : ∃ n, 16 - p = n + 1 := ⟨15 - p, by omega⟩
  rw [hn, show 16 - (p + 1) = n by omega, List.range'_succ, List.foldr_cons]

/-- The pairs (level without sign, zeros below it) of the positions from `p` on, lowest first, and the same with signs. -/
inductive Rel (g : Nat → Int) : Nat → List (Int × Nat) → List (Int × Nat) → Prop
  | nil {p : Nat} : (∀ j, p ≤ j → g j = 0) → Rel g p [] []
  | cons {p q : Nat} {ps ss : List (Int × Nat)} : Rel g (q + 1) ps ss → q < 16 → g q ≠ 0 → p ≤ q → (∀ j, p ≤ j → j < q → g j = 0) →
      Rel g p (((g q).natAbs, q - p) :: ps) ((g q, q - p) :: ss)

theorem countFrom_zeros (g : Nat → Int) {p q : Nat} (hpq : p ≤ q) (hq : q ≤ 16) (h : ∀ j, p ≤ j → j < q → g j = 0) :
    countFrom g p = countFrom g q := by
  obtain ⟨k, rfl⟩ := Nat.exists_eq_add_of_le hpq
  clear hpq
  induction k generalizing p with
  | zero => rfl
  | succ k ih =>
    rw [countFrom_step g (by omega), h p (by omega) (by omega), if_pos rfl, Nat.zero_add]
    rw [ih (p := p + 1) (by omega) (fun j h1 h2 => h j (by omega) (by omega)), show p + 1 + k = p + (k + 1) by omega]

theorem maxFrom_zeros (g : Nat → Int) {p q : Nat} (hpq : p ≤ q) (hq : q ≤ 16) (h : ∀ j, p ≤ j → j < q → g j = 0) :
    maxFrom g p = maxFrom g q := by
  obtain ⟨k, rfl⟩ := Nat.exists_eq_add_of_le hpq
  clear hpq
  induction k generalizing p with
  | zero => rfl
  | succ k ih =>
    rw [maxFrom_step g (by omega), h p (by omega) (by omega)]
    simp only [Int.natAbs_zero, Nat.zero_max]
    rw [ih (p := p + 1) (by omega) (fun j h1 h2 => h j (by omega) (by omega)), show p + 1 + k = p + (k + 1) by omega]

theorem Rel.length {g : Nat → Int} {p : Nat} {ps ss : List (Int × Nat)} (h : Rel g p ps ss) (hp : p ≤ 16) :
    ps.length = countFrom g p := by
  induction h with
  | @nil p hz =>
    rw [countFrom_zeros g hp (Nat.le_refl 16) (fun j h1 _ => hz j h1)]
    rfl
  | @cons p q ps ss _ hq hn hpq hz ih =>
    rw [countFrom_zeros g hpq (by omega) hz, countFrom_step g hq, if_neg hn, List.length_cons, ih (by omega)]
    omega

def sumFrom (g : Nat → Int) (p n : Nat) : Nat := ((List.range' p n).map fun j => (g j).natAbs).sum

theorem sumFrom_zeros (g : Nat → Int) (p n k : Nat) (h : ∀ j, p ≤ j → j < p + k → g j = 0) :
    sumFrom g p n = sumFrom g (p + k) (n - k) := by
  induction k generalizing p n with
  | zero => rfl
  | succ k ih =>
    cases n with
    | zero => rw [Nat.zero_sub]; rfl
    | succ n =>
      have : sumFrom g p (n + 1) = (g p).natAbs + sumFrom g (p + 1) n := by
        unfold sumFrom; rw [List.range'_succ]; rfl
      rw [this, h p (Nat.le_refl _) (by omega), ih (p + 1) n (fun j h1 h2 => h j (by omega) (by omega))]
      rw [show p + 1 + k = p + (k + 1) by omega, show n + 1 - (k + 1) = n - k by omega]
      simp

theorem Rel.absSum {g : Nat → Int} {p : Nat} {ps ss : List (Int × Nat)} (h : Rel g p ps ss) (n : Nat) (acc : Int)
    (hn : n ≤ 6) : absSum ps n acc = acc + (sumFrom g p (6 - n) : Nat) := by
  induction h generalizing n acc with
  | @nil p hz =>
    rw [sumFrom_zeros g p (6 - n) (6 - n) (fun j h1 _ => hz j h1), Nat.sub_self]
    simp [Sx.absSum, sumFrom]
  | @cons p q ps ss _ hq hne hpq hz ih =>
    unfold Sx.absSum
    dsimp only
    rw [sumFrom_zeros g p (6 - n) (q - p) (fun j h1 h2 => hz j h1 (by omega)), show p + (q - p) = q by omega]
    by_cases h6 : n + (q - p) ≥ 6
    · rw [if_pos h6, show 6 - n - (q - p) = 0 by omega]
      simp [sumFrom]
    · rw [if_neg h6, ih _ _ (by omega)]
      obtain ⟨k, hk⟩ : ∃ k, 6 - n - (q - p) = k + 1 := ⟨5 - n - (q - p), by omega⟩
      rw [hk, show 6 - (n + (q - p) + 1) = k by omega]
      have : sumFrom g q (k + 1) = (g q).natAbs + sumFrom g (q + 1) k := by
        unfold sumFrom; rw [List.range'_succ]; rfl
      rw [this]
      push_cast
      simp
      omega

end Davs2.Sx
