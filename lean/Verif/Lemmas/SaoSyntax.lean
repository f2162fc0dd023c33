import Verif.Lemmas.CuTree
/-
Parameters of the in-loop filters.
-/
namespace Davs2.Cs
open Davs2.Sx Davs2.Mo

variable {σ : Type} {m : Machine σ} {G : σ → Prop}

theorem reads_more (hm : m.Lawful G) (n : Nat) : ∀ k ≤ n, Reads G m (saoMore m n) k (unaryEq n k) := by
  induction n with
  | zero =>
    intro k hk
    obtain rfl : k = 0 := by omega
    exact Reads.pure _
  | succ n ih =>
    intro k hk
    unfold saoMore
    cases k with
    | zero => exact Reads.last (c := [.eq true]) (Reads.eqp hm true) (Reads.pure _)
    | succ k =>
      have e : unaryEq (n + 1) (k + 1) = [.eq false] ++ unaryEq n k := by
        unfold unaryEq
        rw [List.replicate_succ]
        simp only [Nat.add_lt_add_iff_right, List.cons_append, List.nil_append]
      rw [e]
      refine Reads.bind (Reads.eqp hm false) ?_
      rw [if_neg (by decide)]
      exact Reads.last (ih k (by omega)) (Reads.pure _)

/-- The counter of an offset without context. -/
theorem reads_cnt (hm : m.Lawful G) (n : Nat) {k : Nat} (hk : k ≤ n + 1) {α : Type} {f : Nat → P σ α} {v : α} {d : List Bin}
    (hf : Reads G m (f k) v d) :
    Reads G m (eqp m >>= fun s => (if s then pure 0 else do
      let k ← saoMore m n
      pure (k + 1)) >>= f) v (unaryEq (n + 1) k ++ d) := by
  cases k with
  | zero =>
    exact Reads.bind (c := [.eq true]) (Reads.eqp hm true) (Reads.bind0 (Reads.pure _) hf)
  | succ k =>
    have e : unaryEq (n + 1) (k + 1) ++ d = [.eq false] ++ (unaryEq n k ++ d) := by
      unfold unaryEq
      rw [List.replicate_succ]
      simp only [Nat.add_lt_add_iff_right, List.cons_append, List.nil_append]
    rw [e]
    refine Reads.bind (Reads.eqp hm false) (Reads.bind (a := k + 1) ?_ hf)
    rw [if_neg (by decide)]
    exact Reads.last (reads_more hm n k (by omega)) (Reads.pure _)

theorem tab_eo {k : Nat} {v : Int} (h : ([1, 0, 2, -1, 3, 4, 5, 6] : List Int)[k]? = some v) :
    Reads G m (tab Sa.eoMap (k : Int) : P σ Int) v [] := Reads.tab (by omega) (by rw [Int.toNat_natCast]; exact h)

theorem reads_offset (hm : m.Lawful G) {t : Nat} (ht : t = 0 ∨ t = 1 ∨ t = 3 ∨ t = 4 ∨ t = 5) {v : Int} {c : List Bin}
    (h : saoOffT t v c) : Reads G m (saoOffset m t) v c := by
  unfold saoOffT at h
  unfold saoOffset
  rcases ht with rfl | rfl | rfl | rfl | rfl
  · rw [if_pos rfl] at h
    obtain ⟨k, hk, rfl⟩ := h
    have : k < 8 := (List.getElem?_eq_some_iff.mp hk).1
    rw [if_neg (by decide), ← List.append_nil (unaryEq 7 k)]
    refine reads_cnt hm 6 (by omega) ?_
    rw [if_pos rfl]
    refine Reads.bind0 (tab_eo hk) ?_
    rw [if_neg (by omega)]
    exact Reads.pure _
  · rw [if_neg (by decide), if_neg (by decide), if_pos rfl] at h
    obtain ⟨hv, rfl⟩ := h
    rw [if_neg (by decide), ← List.append_nil (unaryEq 1 _)]
    refine reads_cnt hm 0 (by omega) ?_
    rw [if_neg (by decide), if_neg (by decide), if_neg (by decide)]
    refine Reads.bind0 (Reads.pure _) ?_
    rw [if_neg (by omega), show ((v.natAbs : Nat) : Int) = v by omega]
    exact Reads.pure _
  · rw [if_neg (by decide), if_neg (by decide), if_neg (by decide), if_pos rfl] at h
    obtain ⟨hv, rfl⟩ := h
    rw [if_neg (by decide), ← List.append_nil (unaryEq 1 _)]
    refine reads_cnt hm 0 (by omega) ?_
    rw [if_neg (by decide), if_neg (by decide), if_pos rfl]
    refine Reads.bind0 (Reads.pure _) ?_
    rw [if_neg (by omega), show (-(v.natAbs : Nat) : Int) = v by omega]
    exact Reads.pure _
  · rw [if_neg (by decide), if_pos rfl] at h
    obtain ⟨k, hk, rfl⟩ := h
    have : k < 8 := (List.getElem?_eq_some_iff.mp hk).1
    rw [if_neg (by decide), ← List.append_nil (unaryEq 7 k)]
    refine reads_cnt hm 6 (by omega) ?_
    rw [if_neg (by decide), if_pos rfl]
    refine Reads.bind0 (a := v) (Reads.bind0 (tab_eo hk) ?_) ?_
    · rw [Int.neg_neg]; exact Reads.pure _
    · rw [if_neg (by omega)]
      exact Reads.pure _
  · rw [if_neg (by decide), if_neg (by decide), if_neg (by decide), if_neg (by decide)] at h
    rw [if_pos rfl]
    by_cases h0 : v = 0
    · rw [if_pos h0] at h
      subst h h0
      refine Reads.last (Reads.sym hm (by decide) true) ?_
      refine Reads.bind0 (Reads.pure _) (Reads.bind0 (a := 0) ?_ ?_)
      · rw [if_neg (by decide), if_neg (by decide), if_neg (by decide)]; exact Reads.pure _
      · rw [if_neg (by decide)]; exact Reads.pure _
    · rw [if_neg h0] at h
      obtain ⟨h7, rfl⟩ := h
      show Reads G m _ v ([.ctx .saoOff 0 false] ++ _)
      refine Reads.bind (Reads.sym hm (by decide) false) ?_
      refine Reads.bind (a := v.natAbs) ?_ ?_
      · rw [if_neg (by decide)]
        refine Reads.last (reads_more hm 6 (v.natAbs - 1) (by omega)) ?_
        rw [show v.natAbs = v.natAbs - 1 + 1 by omega]
        exact Reads.pure _
      · rw [if_neg (by decide), if_neg (by decide), if_neg (by decide)]
        refine Reads.bind0 (Reads.pure _) ?_
        rw [if_pos (by omega)]
        refine Reads.last (Reads.eqp hm _) ?_
        have e : (if decide (v < 0) = true then -((v.natAbs : Nat) : Int) else ((v.natAbs : Nat) : Int)) = v := by
          by_cases hv : v < 0
          · rw [if_pos (by simpa using hv)]; omega
          · rw [if_neg (by simpa using hv)]; omega
        rw [e]
        exact Reads.pure _

theorem reads_offsets (hm : m.Lawful G) (ts : List Nat) : ∀ {vs : List Int} {c : List Bin},
    (∀ t ∈ ts, t = 0 ∨ t = 1 ∨ t = 3 ∨ t = 4 ∨ t = 5) → saoOffsT ts vs c → Reads G m (saoOffsets m ts) vs c := by
  induction ts with
  | nil => rintro vs c _ ⟨rfl, rfl⟩; exact Reads.pure _
  | cons t ts ih =>
    rintro vs c ht ⟨v, vs', c1, c2, rfl, rfl, h1, h2⟩
    unfold saoOffsets
    exact Reads.bind (reads_offset hm (ht t List.mem_cons_self) h1)
      (Reads.last (ih (fun t h => ht t (List.mem_cons_of_mem _ h)) h2) (Reads.pure _))

theorem reads_bits2 (hm : m.Lawful G) : ∀ v < 4, Reads G m (saoBits m 2 0) v (lsbT 2 v) := by
  intro v hv
  have e : lsbT 2 v = [.eq (v.testBit 0)] ++ ([.eq (v.testBit 1)] ++ []) := rfl
  rw [e]
  unfold saoBits saoBits saoBits
  refine Reads.bind (Reads.eqp hm _) (Reads.last (Reads.bind (Reads.eqp hm _) (Reads.bind0 (Reads.pure _) (Reads.pure _))) ?_)
  interval_cases v <;> exact Reads.pure _

theorem reads_bits5 (hm : m.Lawful G) : ∀ v < 32, Reads G m (saoBits m 5 0) v (lsbT 5 v) := by
  intro v hv
  have e : lsbT 5 v = [.eq (v.testBit 0)] ++ ([.eq (v.testBit 1)] ++ ([.eq (v.testBit 2)] ++ ([.eq (v.testBit 3)] ++
    ([.eq (v.testBit 4)] ++ [])))) := rfl
  rw [e]
  unfold saoBits saoBits saoBits saoBits saoBits saoBits
  refine Reads.bind (Reads.eqp hm _) (Reads.last (Reads.bind (Reads.eqp hm _) (Reads.last (Reads.bind (Reads.eqp hm _)
    (Reads.last (Reads.bind (Reads.eqp hm _) (Reads.last (Reads.bind (Reads.eqp hm _) (Reads.bind0 (Reads.pure _) (Reads.pure _)))
    (Reads.pure _))) (Reads.pure _))) (Reads.pure _))) ?_)
  interval_cases v <;> exact Reads.pure _

theorem reads_delta (hm : m.Lawful G) : ∀ d ≤ 14, Reads G m (saoDelta m) (d : Nat) (deltaT d) := by
  intro d hd
  have pre1 : ∀ {n order acc : Nat}, Reads G m (saoPrefix m (n + 1) order acc) (some (order, acc)) [.eq true] := by
    intro n order acc
    unfold saoPrefix
    exact Reads.last (Reads.eqp hm true) (Reads.bind0 (Reads.failed hm) (Reads.pure _))
  have pre0 : ∀ {n order acc : Nat} {r : Option (Nat × Nat)} {c : List Bin},
      Reads G m (saoPrefix m n (order + 1) (acc + 2 ^ order)) r c →
      Reads G m (saoPrefix m (n + 1) order acc) r ([.eq false] ++ c) := by
    intro n order acc r c h
    conv => enter [3]; unfold saoPrefix
    exact Reads.bind (Reads.eqp hm false) (Reads.bind0 (Reads.failed hm) h)
  have rest1 : ∀ b, Reads G m (saoRest m 1) (if b then 1 else 0) [.eq b] := by
    intro b
    unfold saoRest saoRest
    refine Reads.last (Reads.eqp hm b) (Reads.bind0 (Reads.pure _) ?_)
    exact Reads.pure _
  have rest2 : ∀ a b, Reads G m (saoRest m 2) ((if a then 2 else 0) + (if b then 1 else 0)) [.eq a, .eq b] := by
    intro a b
    unfold saoRest
    refine Reads.bind (c := [.eq a]) (d := [.eq b]) (Reads.eqp hm a) (Reads.last (rest1 b) ?_)
    exact Reads.pure _
  have rest3 : ∀ x a b, Reads G m (saoRest m 3) ((if x then 4 else 0) + ((if a then 2 else 0) + (if b then 1 else 0))) [.eq x, .eq a, .eq b] := by
    intro x a b
    unfold saoRest
    refine Reads.bind (c := [.eq x]) (d := [.eq a, .eq b]) (Reads.eqp hm x) (Reads.last (rest2 a b) ?_)
    exact Reads.pure _
  unfold saoDelta deltaT
  by_cases h1 : d < 2
  · rw [if_pos h1]
    refine Reads.bind (c := [.eq true]) pre1 (Reads.last (rest1 _) ?_)
    interval_cases d <;> exact Reads.pure _
  · rw [if_neg h1]
    by_cases h2 : d < 6
    · rw [if_pos h2]
      refine Reads.bind (c := [.eq false, .eq true]) (pre0 pre1) (Reads.last (rest2 _ _) ?_)
      interval_cases d <;> exact Reads.pure _
    · rw [if_neg h2]
      by_cases h3 : d < 14
      · rw [if_pos h3]
        refine Reads.bind (c := [.eq false, .eq false, .eq true]) (pre0 (pre0 pre1)) (Reads.last (rest3 _ _ _) ?_)
        interval_cases d <;> exact Reads.pure _
      · rw [if_neg h3]
        obtain rfl : d = 14 := by omega
        refine Reads.last (c := [.eq false, .eq false, .eq false])
          (pre0 (pre0 (pre0 (c := []) (n := 0) (r := some (0, 14)) (Reads.pure _)))) ?_
        exact Reads.pure _

theorem reads_plane (hm : m.Lawful G) {p : SaoPl} {c : List Bin} (h : saoPlaneT p c) : Reads G m (saoPlane m) p c := by
  unfold saoPlane
  cases p with
  | off =>
    obtain rfl : c = [.ctx .saoMode 0 true] := h
    exact Reads.last (Reads.sym hm (by decide) true) (Reads.pure _)
  | band a b offs =>
    obtain ⟨d, co, ha, hd, rfl, ho, rfl⟩ := h
    show Reads G m _ _ ([.ctx .saoMode 0 false] ++ ([.eq true] ++ (co ++ lsbT 5 a ++ deltaT d)))
    refine Reads.bind (Reads.sym hm (by decide) false) ?_
    rw [if_neg (by decide)]
    refine Reads.bind (Reads.eqp hm true) ?_
    rw [if_pos rfl, List.append_assoc]
    refine Reads.bind (reads_offsets hm _ (by decide) ho) (Reads.bind (reads_bits5 hm a ha) (Reads.last (reads_delta hm d hd) ?_))
    rw [show ((a : Int) + ((d : Int) + 2)).toNat = a + d + 2 by omega]
    exact Reads.pure _
  | edge dir offs =>
    obtain ⟨co, hd, ho, rfl⟩ := h
    show Reads G m _ _ ([.ctx .saoMode 0 false] ++ ([.eq false] ++ (co ++ lsbT 2 dir)))
    refine Reads.bind (Reads.sym hm (by decide) false) ?_
    rw [if_neg (by decide)]
    refine Reads.bind (Reads.eqp hm false) ?_
    rw [if_neg (by decide)]
    exact Reads.bind (reads_offsets hm _ (by decide) ho) (Reads.last (reads_bits2 hm dir hd) (Reads.pure _))

theorem reads_planes (hm : m.Lawful G) (on : List Bool) : ∀ {ps : List SaoPl} {c : List Bin}, saoPlanesT on ps c →
    Reads G m (saoPlanes m on) ps c := by
  induction on with
  | nil => rintro ps c ⟨rfl, rfl⟩; exact Reads.pure _
  | cons o os ih =>
    rintro ps c ⟨p, ps', c1, c2, rfl, rfl, h1, h2⟩
    unfold saoPlanes
    refine Reads.bind (a := p) ?_ (Reads.last (ih h2) (Reads.pure _))
    cases o with
    | true => exact reads_plane hm h1
    | false =>
      obtain ⟨rfl, rfl⟩ := h1
      exact Reads.pure _

theorem reads_alf (hm : m.Lawful G) (on : List Bool) : ∀ {bs : List Bool} {c : List Bin}, alfT on bs c →
    Reads G m (alfLcu m on) bs c := by
  induction on with
  | nil => rintro bs c ⟨rfl, rfl⟩; exact Reads.pure _
  | cons o os ih =>
    rintro bs c ⟨b, bs', c', rfl, h1, h2⟩
    unfold alfLcu
    cases o with
    | true =>
      obtain rfl : c = .ctx .alf 0 b :: c' := h1
      exact Reads.bind (c := [.ctx .alf 0 b]) (Reads.sym hm (by decide) b) (Reads.last (ih h2) (Reads.pure _))
    | false =>
      obtain ⟨rfl, rfl⟩ := h1
      exact Reads.bind0 (Reads.pure _) (Reads.last (ih h2) (Reads.pure _))

/-- The parameters of an LCU, if the neighbours are those of the specification. -/
theorem reads_sao (hm : m.Lawful G) {E : Env} {F : Filt} {lw i x y : Nat} {S : SlState} {left up : Option (List SaoPl)} {ps : List SaoPl}
    {c : List Bin} (hl : (0 < x ∧ (S.pic.cu (x - 1) y).slice = E.slice) ↔ left.isSome = true)
    (hu : (0 < y ∧ (S.pic.cu x (y - 1)).slice = E.slice) ↔ up.isSome = true) (hl' : ∀ l, left = some l → S.sao (i - 1) = l)
    (hu' : ∀ u, up = some u → S.sao (i - lw) = u) (h : saoT F.saoOn left up ps c) : Reads G m (saoLcu m E F lw i x y S) ps c := by
  unfold saoT at h
  unfold saoLcu
  by_cases hon : ∀ b ∈ F.saoOn, b = false
  · rw [if_pos hon] at h
    obtain ⟨rfl, rfl⟩ := h
    rw [if_neg (by rw [List.any_eq_true]; rintro ⟨b, hb, h⟩; rw [hon b hb] at h; exact absurd h (by decide))]
    exact Reads.pure _
  · rw [if_neg hon] at h
    have hany : F.saoOn.any id = true := by
      rw [List.any_eq_true]
      by_contra hc
      refine hon fun b hb => ?_
      cases b with
      | false => rfl
      | true => exact absurd ⟨true, hb, rfl⟩ hc
    rw [if_pos hany]
    have el : decide (0 < x ∧ (S.pic.cu (x - 1) y).slice = E.slice) = left.isSome := by
      rw [Bool.eq_iff_iff, decide_eq_true_eq]; exact hl
    have eu : decide (0 < y ∧ (S.pic.cu x (y - 1)).slice = E.slice) = up.isSome := by
      rw [Bool.eq_iff_iff, decide_eq_true_eq]; exact hu
    dsimp only
    rw [el, eu]
    cases left with
    | none =>
      cases up with
      | none => exact Reads.bind0 (Reads.pure _) (reads_planes hm _ h)
      | some u =>
        rcases h with ⟨rfl, rfl⟩ | ⟨c', rfl, h⟩
        · refine Reads.last (a := 1) (Reads.last (Reads.sym hm (by decide) true) (Reads.pure _)) ?_
          rw [if_neg (by decide), if_neg (by decide), hu' ps rfl]
          exact Reads.pure _
        · exact Reads.bind (c := [.ctx .saoMerge 0 false]) (a := 0) (Reads.last (Reads.sym hm (by decide) false) (Reads.pure _))
            (reads_planes hm _ h)
    | some l =>
      cases up with
      | none =>
        rcases h with ⟨rfl, rfl⟩ | ⟨c', rfl, h⟩
        · refine Reads.last (a := 2) (Reads.last (Reads.sym hm (by decide) true) (Reads.pure _)) ?_
          rw [if_pos rfl, hl' ps rfl]
          exact Reads.pure _
        · exact Reads.bind (c := [.ctx .saoMerge 0 false]) (a := 0) (Reads.last (Reads.sym hm (by decide) false) (Reads.pure _))
            (reads_planes hm _ h)
      | some u =>
        rcases h with ⟨rfl, rfl⟩ | ⟨rfl, rfl⟩ | ⟨c', rfl, h⟩
        · refine Reads.last (a := 2) (Reads.last (Reads.sym hm (by decide) true) (Reads.bind0 (Reads.pure _) (Reads.pure _))) ?_
          rw [if_pos rfl, hl' ps rfl]
          exact Reads.pure _
        · refine Reads.last (a := 1) (Reads.bind (c := [.ctx .saoMerge 1 false]) (Reads.sym hm (by decide) false)
            (Reads.last (c := [.ctx .saoMerge 2 true]) (Reads.sym hm (by decide) true)
              ((Reads.pure (Sa.mergeFlag true true false true)).cast (by decide) rfl))) ?_
          rw [if_neg (by decide), if_neg (by decide), hu' ps rfl]
          exact Reads.pure _
        · exact Reads.bind (c := [.ctx .saoMerge 1 false, .ctx .saoMerge 2 false]) (a := 0)
            (Reads.bind (c := [.ctx .saoMerge 1 false]) (Reads.sym hm (by decide) false)
              (Reads.last (c := [.ctx .saoMerge 2 false]) (Reads.sym hm (by decide) false)
                ((Reads.pure (Sa.mergeFlag true true false false)).cast (by decide) rfl)))
            (reads_planes hm _ h)

end Davs2.Cs
