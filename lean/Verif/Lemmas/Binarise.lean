import Verif.Spec.Binarise
/-
Rules for `Codes`.
-/
namespace Davs2.Sx

variable {σ α β : Type} {m : Machine σ} {G : σ → Prop}

theorem Produces.good_left {s s' : σ} {c : List Bin} (h : Produces G m s c s') : G s := by
  cases h <;> assumption

theorem Produces.good_right {s s' : σ} {c : List Bin} (h : Produces G m s c s') : G s' := by
  induction h with
  | nil h => exact h
  | cons _ _ _ ih => exact ih

theorem Produces.append {s s1 s2 : σ} {c d : List Bin} (h : Produces G m s c s1) (k : Produces G m s1 d s2) :
    Produces G m s (c ++ d) s2 := by
  induction h with
  | nil _ => exact k
  | cons e st _ ih => exact .cons e st (ih k)

theorem Produces.split {s s2 : σ} {c d : List Bin} (h : Produces G m s (c ++ d) s2) :
    ∃ s1, Produces G m s c s1 ∧ Produces G m s1 d s2 := by
  induction c generalizing s with
  | nil => exact ⟨s, .nil h.good_left, h⟩
  | cons b c ih =>
    cases h with
    | cons e st r =>
      obtain ⟨s1, h1, h2⟩ := ih r
      exact ⟨s1, .cons e st h1, h2⟩

theorem Produces.one {s s1 : σ} {b : Bin} (h : Produces G m s [b] s1) : m.step b s = some s1 := by
  cases h with
  | cons e st r => cases r; exact st

theorem Produces.unique {s s1 s2 : σ} {c : List Bin} (h : Produces G m s c s1) (k : Produces G m s c s2) : s1 = s2 := by
  induction h with
  | nil _ => cases k; rfl
  | cons _ st _ ih =>
    cases k with
    | cons _ st' r =>
      rw [st] at st'
      cases st'
      exact ih r

/-! ### Rules -/

theorem Codes.conv {p : P σ α} {T U : α → List Bin → Prop} (h : Codes G m p T) (e : ∀ v c, T v c ↔ U v c) :
    Codes G m p U :=
  ⟨fun l v c hv => h.reads l v c ((e v c).mpr hv), fun q s v s' hp => by
    obtain ⟨c, hc, hs⟩ := h.only q s v s' hp
    exact ⟨c, (e v c).mp hc, hs⟩⟩

theorem Codes.pure {a : α} {T : α → List Bin → Prop} (h : ∀ v c, T v c ↔ v = a ∧ c = []) :
    Codes G m (Pure.pure a : P σ α) T := by
  refine ⟨fun _ v c hv s s' hs => ?_, fun q s v s' hp => ⟨[], ?_⟩⟩
  · obtain ⟨rfl, rfl⟩ := (h v c).mp hv
    cases hs
    rfl
  · cases hp
    exact ⟨(h _ _).mpr ⟨rfl, rfl⟩, .nil (q.good s)⟩

theorem bind_ok {p : P σ α} {f : α → P σ β} {s s' : σ} {v : β} :
    (p >>= f) s = .ok (v, s') ↔ ∃ a s1, p s = .ok (a, s1) ∧ f a s1 = .ok (v, s') := by
  show (match p s with | .ok (a, s) => f a s | .error e => .error e) = .ok (v, s') ↔ _
  cases h : p s with
  | error e => exact ⟨(nomatch ·), fun ⟨a, s1, e, _⟩ => nomatch e⟩
  | ok r =>
    obtain ⟨a, s1⟩ := r
    exact ⟨fun e => ⟨a, s1, rfl, e⟩, fun ⟨a', s1', e, e'⟩ => by cases e; exact e'⟩

theorem Codes.bind {p : P σ α} {f : α → P σ β} {T : α → List Bin → Prop} {U : β → List Bin → Prop}
    (hp : Codes G m p T) (hu : ∀ v c, U v c → ∃ a c1 d, T a c1 ∧ c = c1 ++ d)
    (hf : ∀ a c1, T a c1 → Codes G m (f a) fun v d => U v (c1 ++ d)) : Codes G m (p >>= f) U := by
  refine ⟨fun l v c hv s s' hs => ?_, fun q s v s' h => ?_⟩
  · obtain ⟨a, c1, d, ha, rfl⟩ := hu v c hv
    obtain ⟨s1, h1, h2⟩ := hs.split
    exact bind_ok.mpr ⟨a, s1, hp.reads l a c1 ha s s1 h1, (hf a c1 ha).reads l v d hv s1 s' h2⟩
  · obtain ⟨a, s1, h1, h2⟩ := bind_ok.mp h
    obtain ⟨c1, ha, hs1⟩ := hp.only q s a s1 h1
    obtain ⟨d, hd, hs2⟩ := (hf a c1 ha).only q s1 v s' h2
    exact ⟨c1 ++ d, hd, hs1.append hs2⟩

theorem bind_assoc' {γ : Type} (p : P σ α) (g : α → P σ β) (f : β → P σ γ) :
    ((p >>= g) >>= f) = (p >>= fun a => g a >>= f) := by
  funext s
  show (match (match p s with | .ok (a, s) => g a s | .error e => .error e) with
    | .ok (a, s) => f a s | .error e => .error e) = (match p s with | .ok (a, s) => (g a >>= f) s | .error e => .error e)
  cases p s with
  | error e => rfl
  | ok r => rfl

theorem bind_pure' (p : P σ α) : (p >>= Pure.pure) = p := by
  funext s
  show (match p s with | .ok (a, s) => (Pure.pure a : P σ α) s | .error e => .error e) = p s
  cases p s with
  | error e => rfl
  | ok r => rfl

/-! ### Base pieces -/

/-- The two values of a bin. -/
def twoT (f : Bool → Bin) : List (Bool × List Bin) := [(true, [f true]), (false, [f false])]

theorem In_two {f : Bool → Bin} {v : Bool} {c : List Bin} : In (twoT f) v c ↔ c = [f v] := by
  unfold In twoT
  cases v <;> simp

theorem hit_iff {r : Option (Bool × σ)} {b : Bool} {s : σ} : hit r b = some s ↔ r = some (b, s) := by
  unfold hit
  cases r with
  | none => exact ⟨(nomatch ·), (nomatch ·)⟩
  | some q =>
    obtain ⟨b', s'⟩ := q
    dsimp only
    by_cases h : b' = b
    · rw [if_pos h]; subst h; simp
    · rw [if_neg h]
      exact ⟨(nomatch ·), fun e => by cases e; exact absurd rfl h⟩

theorem lift_ok {f : σ → Option (α × σ)} {s s' : σ} {v : α} : lift f s = .ok (v, s') ↔ f s = some (v, s') := by
  unfold lift
  cases f s with
  | none => exact ⟨(nomatch ·), (nomatch ·)⟩
  | some r => exact ⟨fun e => by cases e; rfl, fun e => by cases e; rfl⟩

theorem codes_bin {f : σ → Option (Bool × σ)} {g : Bool → Bin} (h : ∀ b s, m.step (g b) s = hit (f s) b) :
    Codes G m (lift f) (In (twoT g)) := by
  refine ⟨fun l v c hv s s' hs => ?_, fun q s v s' hp => ⟨[g v], In_two.mpr rfl, ?_⟩⟩
  · cases In_two.mp hv
    have := hs.one
    rw [h] at this
    exact lift_ok.mpr (hit_iff.mp this)
  · refine .cons (q.good s) (s1 := s') ?_ (.nil (q.good s'))
    rw [h]
    exact hit_iff.mpr (lift_ok.mp hp)

theorem codes_sym {a : Arr} {i : Nat} (h : i < a.size) : Codes G m (sym m a i) (In (twoT (.ctx a i))) := by
  unfold sym
  rw [if_pos h]
  exact codes_bin fun _ _ => rfl

theorem codes_eqp : Codes G m (eqp m) (In (twoT .eq)) := codes_bin fun _ _ => rfl

theorem codes_fin : Codes G m (fin m) (In (twoT .fin)) := codes_bin fun _ _ => rfl

theorem In_unary {a : Arr} {f : Nat → Nat} {max v : Nat} {c : List Bin} :
    In (unaryT a f max) v c ↔ v ≤ max ∧ c = unary a f max v := by
  unfold In unaryT
  simp only [List.mem_map, List.mem_range]
  constructor
  · rintro ⟨k, hk, e⟩
    cases e
    exact ⟨by omega, rfl⟩
  · rintro ⟨h, rfl⟩
    exact ⟨v, by omega, rfl⟩

theorem codes_run0 {a : Arr} {i max : Nat} (h : i < a.size) :
    Codes G m (run0 m a i max) (In (unaryT a (fun _ => i) max)) := by
  unfold run0
  rw [if_pos (Or.inl h)]
  refine ⟨fun l v c hv s s' hs => ?_, fun q s v s' hp => ?_⟩
  · obtain ⟨hk, rfl⟩ := In_unary.mp hv
    exact lift_ok.mpr (l.run0 a i max v s s' hk hs)
  · obtain ⟨hk, hs⟩ := q.run0 a i max v s s' (lift_ok.mp hp)
    exact ⟨_, In_unary.mpr ⟨hk, rfl⟩, hs⟩

theorem codes_runExt {a : Arr} {i inc max : Nat} (h : i + min (max - 1) inc < a.size) :
    Codes G m (runExt m a i inc max) (In (unaryT a (fun j => i + min j inc) max)) := by
  unfold runExt
  rw [if_pos (Or.inr h)]
  refine ⟨fun l v c hv s s' hs => ?_, fun q s v s' hp => ?_⟩
  · obtain ⟨hk, rfl⟩ := In_unary.mp hv
    exact lift_ok.mpr (l.runExt a i inc max v s s' hk hs)
  · obtain ⟨hk, hs⟩ := q.runExt a i inc max v s s' (lift_ok.mp hp)
    exact ⟨_, In_unary.mpr ⟨hk, rfl⟩, hs⟩

theorem codes_failed : Codes G m (failed m) (In [(false, [])]) := by
  unfold failed
  refine ⟨fun l v c hv s s' hs => ?_, fun q s v s' hp => ?_⟩
  · cases List.mem_singleton.mp hv
    cases hs with
    | nil h => rw [l.err _ h]; rfl
  · rw [q.err s] at hp
    cases hp
    exact ⟨[], List.mem_singleton.mpr rfl, .nil (q.good s)⟩

/-! ### Finite tables -/

/-- What follows the bins `c` in a table. -/
def strip (c : List Bin) (L : List (α × List Bin)) : List (α × List Bin) :=
  L.filterMap fun x => if c.isPrefixOf x.2 then some (x.1, x.2.drop c.length) else none

theorem In_strip {c d : List Bin} {L : List (α × List Bin)} {v : α} : In (strip c L) v d ↔ In L v (c ++ d) := by
  unfold In strip
  rw [List.mem_filterMap]
  constructor
  · rintro ⟨⟨w, e⟩, hx, hw⟩
    dsimp only at hw
    split at hw
    · next hp =>
      cases hw
      obtain ⟨t, rfl⟩ := List.isPrefixOf_iff_prefix.mp hp
      rw [List.drop_left]
      exact hx
    · cases hw
  · intro h
    refine ⟨(v, c ++ d), h, ?_⟩
    dsimp only
    rw [if_pos (List.isPrefixOf_iff_prefix.mpr ⟨d, rfl⟩), List.drop_left]

/-- Every code of `L` begins with a code of `K`. -/
def heads (K : List (α × List Bin)) (L : List (β × List Bin)) : Bool :=
  L.all fun x => K.any fun y => y.2.isPrefixOf x.2

theorem Codes.bindL {p : P σ α} {f : α → P σ β} {K : List (α × List Bin)} {L : List (β × List Bin)}
    (hp : Codes G m p (In K)) (hu : heads K L = true)
    (hf : ∀ x ∈ K, Codes G m (f x.1) (In (strip x.2 L))) : Codes G m (p >>= f) (In L) := by
  refine hp.bind (fun v c hv => ?_) fun a c1 ha => (hf (a, c1) ha).conv fun v d => In_strip
  obtain ⟨y, hy, hyp⟩ := List.any_eq_true.mp (List.all_eq_true.mp hu (v, c) hv)
  obtain ⟨d, hd⟩ := List.isPrefixOf_iff_prefix.mp hyp
  exact ⟨y.1, y.2, d, hy, hd.symm⟩

theorem Codes.sym {a : Arr} {i : Nat} {f : Bool → P σ β} {L : List (β × List Bin)} (h : i < a.size)
    (hu : heads (twoT (.ctx a i)) L = true) (h1 : Codes G m (f true) (In (strip [.ctx a i true] L)))
    (h0 : Codes G m (f false) (In (strip [.ctx a i false] L))) : Codes G m (sym m a i >>= f) (In L) :=
  (codes_sym h).bindL hu fun x hx => by
    rcases List.mem_cons.mp hx with rfl | hx
    · exact h1
    · cases List.mem_singleton.mp hx; exact h0

theorem Codes.eqp {f : Bool → P σ β} {L : List (β × List Bin)}
    (hu : heads (twoT .eq) L = true) (h1 : Codes G m (f true) (In (strip [.eq true] L)))
    (h0 : Codes G m (f false) (In (strip [.eq false] L))) : Codes G m (eqp m >>= f) (In L) :=
  codes_eqp.bindL hu fun x hx => by
    rcases List.mem_cons.mp hx with rfl | hx
    · exact h1
    · cases List.mem_singleton.mp hx; exact h0

theorem Codes.fin {f : Bool → P σ β} {L : List (β × List Bin)}
    (hu : heads (twoT .fin) L = true) (h1 : Codes G m (f true) (In (strip [.fin true] L)))
    (h0 : Codes G m (f false) (In (strip [.fin false] L))) : Codes G m (fin m >>= f) (In L) :=
  codes_fin.bindL hu fun x hx => by
    rcases List.mem_cons.mp hx with rfl | hx
    · exact h1
    · cases List.mem_singleton.mp hx; exact h0

theorem strip_nil (L : List (α × List Bin)) : strip [] L = L := by
  unfold strip
  simp only [List.isPrefixOf, if_true, List.length_nil, List.drop_zero]
  exact List.filterMap_some

theorem Codes.failed {f : Bool → P σ β} {T : β → List Bin → Prop}
    (h : Codes G m (f false) T) : Codes G m (failed m >>= f) T :=
  codes_failed.bind (fun v c _ => ⟨false, [], c, List.mem_singleton.mpr rfl, rfl⟩) fun a c1 ha => by
    cases List.mem_singleton.mp ha
    exact h

theorem Codes.last {p : P σ α} {T : α → List Bin → Prop} (h : Codes G m (p >>= Pure.pure) T) : Codes G m p T := by
  rwa [bind_pure'] at h

theorem Codes.assoc {γ : Type} {p : P σ α} {g : α → P σ β} {f : β → P σ γ} {T : γ → List Bin → Prop}
    (h : Codes G m (p >>= fun a => g a >>= f) T) : Codes G m ((p >>= g) >>= f) T := by
  rwa [bind_assoc']

theorem Codes.skip {a : α} {f : α → P σ β} {T : β → List Bin → Prop} (h : Codes G m (f a) T) :
    Codes G m ((Pure.pure a : P σ α) >>= f) T := h

theorem Codes.tabBind {l : List α} {i : Int} {a : α} {f : α → P σ β} {T : β → List Bin → Prop} (h0 : 0 ≤ i)
    (e : l[i.toNat]? = some a) (h : Codes G m (f a) T) : Codes G m ((tab l i : P σ α) >>= f) T := by
  unfold tab
  rw [if_pos h0, e]
  exact h

theorem Codes.tab {l : List α} {i : Int} {a : α} {T : α → List Bin → Prop} (h0 : 0 ≤ i)
    (e : l[i.toNat]? = some a) (h : Codes G m (Pure.pure a : P σ α) T) : Codes G m (Sx.tab l i : P σ α) T := by
  unfold Sx.tab
  rw [if_pos h0, e]
  exact h

theorem Codes.pos {c : Prop} [Decidable c] {p q : P σ α} {T : α → List Bin → Prop} (h : c) (hp : Codes G m p T) :
    Codes G m (if c then p else q) T := by rwa [if_pos h]

theorem Codes.neg {c : Prop} [Decidable c] {p q : P σ α} {T : α → List Bin → Prop} (h : ¬ c) (hp : Codes G m q T) :
    Codes G m (if c then p else q) T := by rwa [if_neg h]

theorem Codes.posB {c : Prop} [Decidable c] {p q : P σ α} {f : α → P σ β} {T : β → List Bin → Prop} (h : c)
    (hp : Codes G m (p >>= f) T) : Codes G m ((if c then p else q) >>= f) T := by rwa [if_pos h]

theorem Codes.negB {c : Prop} [Decidable c] {p q : P σ α} {f : α → P σ β} {T : β → List Bin → Prop} (h : ¬ c)
    (hp : Codes G m (q >>= f) T) : Codes G m ((if c then p else q) >>= f) T := by rwa [if_neg h]

/-- End of a piece with a finite table: one entry is left, which has no further bins. -/
theorem Codes.done {a : α} {L : List (α × List Bin)} (h : L = [(a, [])]) : Codes G m (Pure.pure a : P σ α) (In L) :=
  Codes.pure fun v c => by
    subst h
    unfold In
    rw [List.mem_singleton]
    exact Prod.mk.injEq v c a [] ▸ Iff.rfl

end Davs2.Sx

namespace Davs2.Sx

variable {σ α β : Type} {m : Machine σ} {G : σ → Prop}

/-! ### Further rules -/

/-- The table of a sequence. -/
theorem Codes.seq {p : P σ α} {f : α → P σ β} {T : α → List Bin → Prop} {V : α → β → List Bin → Prop}
    (hp : Codes G m p T) (hf : ∀ a c, T a c → Codes G m (f a) (V a)) :
    Codes G m (p >>= f) fun v c => ∃ a c1 d, T a c1 ∧ V a v d ∧ c = c1 ++ d := by
  refine ⟨fun l v c hv s s' hs => ?_, fun q s v s' h => ?_⟩
  · obtain ⟨a, c1, d, ha, hd, rfl⟩ := hv
    obtain ⟨s1, h1, h2⟩ := hs.split
    exact bind_ok.mpr ⟨a, s1, hp.reads l a c1 ha s s1 h1, (hf a c1 ha).reads l v d hd s1 s' h2⟩
  · obtain ⟨a, s1, h1, h2⟩ := bind_ok.mp h
    obtain ⟨c1, ha, hs1⟩ := hp.only q s a s1 h1
    obtain ⟨d, hd, hs2⟩ := (hf a c1 ha).only q s1 v s' h2
    exact ⟨c1 ++ d, ⟨a, c1, d, ha, hd, rfl⟩, hs1.append hs2⟩

theorem Codes.symR {a : Arr} {i : Nat} {f : Bool → P σ β} {U : β → List Bin → Prop} (h : i < a.size)
    (hu : ∀ v c, U v c → ∃ b d, c = .ctx a i b :: d)
    (hf : ∀ b, Codes G m (f b) fun v d => U v (.ctx a i b :: d)) : Codes G m (Sx.sym m a i >>= f) U :=
  (codes_sym h).bind (fun v c hv => by
      obtain ⟨b, d, e⟩ := hu v c hv
      exact ⟨b, _, d, In_two.mpr rfl, e⟩) fun b c1 hb => by
    cases In_two.mp hb
    exact hf b

theorem Codes.eqR {f : Bool → P σ β} {U : β → List Bin → Prop}
    (hu : ∀ v c, U v c → ∃ b d, c = .eq b :: d)
    (hf : ∀ b, Codes G m (f b) fun v d => U v (.eq b :: d)) : Codes G m (Sx.eqp m >>= f) U :=
  codes_eqp.bind (fun v c hv => by
      obtain ⟨b, d, e⟩ := hu v c hv
      exact ⟨b, _, d, In_two.mpr rfl, e⟩) fun b c1 hb => by
    cases In_two.mp hb
    exact hf b

theorem Codes.finR {f : Bool → P σ β} {U : β → List Bin → Prop}
    (hu : ∀ v c, U v c → ∃ b d, c = .fin b :: d)
    (hf : ∀ b, Codes G m (f b) fun v d => U v (.fin b :: d)) : Codes G m (Sx.fin m >>= f) U :=
  codes_fin.bind (fun v c hv => by
      obtain ⟨b, d, e⟩ := hu v c hv
      exact ⟨b, _, d, In_two.mpr rfl, e⟩) fun b c1 hb => by
    cases In_two.mp hb
    exact hf b

theorem Codes.runExt {a : Arr} {i inc max : Nat} {f : Nat → P σ β} {L : List (β × List Bin)}
    (h : i + min (max - 1) inc < a.size) (hu : heads (unaryT a (fun j => i + min j inc) max) L = true)
    (hf : ∀ k ≤ max, Codes G m (f k) (In (strip (unary a (fun j => i + min j inc) max k) L))) :
    Codes G m (Sx.runExt m a i inc max >>= f) (In L) :=
  (codes_runExt h).bindL hu fun x hx => by
    obtain ⟨hk, e⟩ := (In_unary (v := x.1) (c := x.2)).mp hx
    rw [e]
    exact hf x.1 hk

theorem Codes.run0 {a : Arr} {i max : Nat} {f : Nat → P σ β} {L : List (β × List Bin)}
    (h : i < a.size) (hu : heads (unaryT a (fun _ => i) max) L = true)
    (hf : ∀ k ≤ max, Codes G m (f k) (In (strip (unary a (fun _ => i) max k) L))) :
    Codes G m (Sx.run0 m a i max >>= f) (In L) :=
  (codes_run0 h).bindL hu fun x hx => by
    obtain ⟨hk, e⟩ := (In_unary (v := x.1) (c := x.2)).mp hx
    rw [e]
    exact hf x.1 hk

/-! ### Unary codes read bin by bin -/

/-- Codes of a unary number after `k` zeros with at most `n` further zeros. -/
def restT (a : Arr) (f : Nat → Nat) (n k v : Nat) (c : List Bin) : Prop :=
  k ≤ v ∧ v ≤ k + n ∧ unary a f (k + n) v = (List.range k).map (fun j => .ctx a (f j) false) ++ c

theorem unary_zeros {a : Arr} {f : Nat → Nat} {max k v : Nat} (h : k ≤ v) :
    unary a f max v = (List.range k).map (fun j => .ctx a (f j) false) ++
      ((List.range (v - k)).map (fun j => .ctx a (f (k + j)) false) ++ (if v < max then [.ctx a (f v) true] else [])) := by
  unfold unary
  rw [← List.append_assoc]
  congr 1
  conv_lhs => rw [show v = k + (v - k) by omega]
  rw [List.range_add, List.map_append, List.map_map]
  rfl

theorem restT_zero {a : Arr} {f : Nat → Nat} {k v : Nat} {c : List Bin} : restT a f 0 k v c ↔ v = k ∧ c = [] := by
  unfold restT
  constructor
  · rintro ⟨h1, h2, h3⟩
    obtain rfl : v = k := by omega
    rw [unary_zeros (Nat.le_refl v)] at h3
    have := List.append_cancel_left h3
    rw [if_neg (by omega), Nat.sub_self] at this
    exact ⟨rfl, this.symm⟩
  · rintro ⟨rfl, rfl⟩
    refine ⟨Nat.le_refl _, by omega, ?_⟩
    rw [unary_zeros (Nat.le_refl v), if_neg (by omega), Nat.sub_self]
    rfl

theorem restT_true {a : Arr} {f : Nat → Nat} {n k v : Nat} {c : List Bin} :
    restT a f (n + 1) k v (.ctx a (f k) true :: c) ↔ v = k ∧ c = [] := by
  unfold restT
  constructor
  · rintro ⟨h1, h2, h3⟩
    rw [unary_zeros h1] at h3
    have := List.append_cancel_left h3
    cases hv : v - k with
    | zero =>
      rw [hv, if_pos (by omega)] at this
      refine ⟨by omega, ?_⟩
      injection this with _ e
      exact e.symm
    | succ j =>
      rw [hv, List.range_succ_eq_map] at this
      injection this with e _
      injection e with _ _ e
      cases e
  · rintro ⟨rfl, rfl⟩
    refine ⟨Nat.le_refl _, by omega, ?_⟩
    rw [unary_zeros (Nat.le_refl v), if_pos (by omega), Nat.sub_self]
    rfl

theorem restT_false {a : Arr} {f : Nat → Nat} {n k v : Nat} {c : List Bin} :
    restT a f (n + 1) k v (.ctx a (f k) false :: c) ↔ restT a f n (k + 1) v c := by
  have e : (List.range k).map (fun j => Bin.ctx a (f j) false) ++ Bin.ctx a (f k) false :: c =
      (List.range (k + 1)).map (fun j => Bin.ctx a (f j) false) ++ c := by
    rw [List.range_succ, List.map_append, List.append_assoc]
    rfl
  unfold restT
  rw [e, show k + 1 + n = k + (n + 1) by omega]
  constructor
  · rintro ⟨h1, h2, h3⟩
    refine ⟨?_, h2, h3⟩
    rcases Nat.lt_or_ge k v with h | h
    · exact h
    · obtain rfl : v = k := by omega
      rw [unary_zeros (Nat.le_refl v), ← e] at h3
      have := List.append_cancel_left h3
      rw [if_pos (by omega), Nat.sub_self] at this
      injection this with e _
      injection e with _ _ e
      cases e
  · rintro ⟨h1, h2, h3⟩
    exact ⟨by omega, h2, h3⟩

theorem restT_head {a : Arr} {f : Nat → Nat} {n k v : Nat} {c : List Bin} (h : restT a f (n + 1) k v c) :
    ∃ b d, c = .ctx a (f k) b :: d := by
  obtain ⟨h1, h2, h3⟩ := h
  rw [unary_zeros h1] at h3
  have := List.append_cancel_left h3
  cases hv : v - k with
  | zero =>
    rw [hv, if_pos (by omega), show v = k by omega] at this
    exact ⟨true, [], this.symm⟩
  | succ j =>
    rw [hv, List.range_succ_eq_map] at this
    exact ⟨false, _, this.symm⟩

theorem restT_all {a : Arr} {f : Nat → Nat} {n v : Nat} {c : List Bin} :
    restT a f n 0 v c ↔ v ≤ n ∧ c = unary a f n v := by
  unfold restT
  rw [Nat.zero_add]
  exact ⟨fun ⟨_, h, e⟩ => ⟨h, e.symm⟩, fun ⟨h, e⟩ => ⟨Nat.zero_le _, h, e.symm⟩⟩

end Davs2.Sx
