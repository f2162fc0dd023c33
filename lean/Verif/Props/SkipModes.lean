import Verif.Lemmas.SkipModes
/-
C91: the spatial skip modes take the candidates in the order F, G, C, A, B, D of the neighbours.
-/
namespace Davs2.Mo

theorem vecs_head {ns : List Blk} {i : Nat} {x : Blk} {t : List Blk} {k : Blk → Bool} (h : ns[i]? = (ns.filter k).head?) (e : ns.filter k = x :: t) :
    vecs ns i = (x.v1, x.v2) := by rw [vecs, h, e]; rfl

theorem refs_head {ns : List Blk} {i : Nat} {x : Blk} {t : List Blk} {k : Blk → Bool} (h : ns[i]? = (ns.filter k).head?) (e : ns.filter k = x :: t) :
    refsOf ns i = (x.r1, x.r2) := by rw [refsOf, h, e]; rfl

/-- A list is empty or has a first and a last element, the same if there is only one. -/
theorem ends (l : List Blk) : (l = [] ∧ l.length = 0) ∨ (∃ x, l.head? = some x ∧ l.getLast? = some x ∧ l.length = 1) ∨
    ∃ x z n, l.head? = some x ∧ l.getLast? = some z ∧ l.length = n + 2 := by
  cases l with
  | nil => exact Or.inl ⟨rfl, rfl⟩
  | cons x t =>
    cases t with
    | nil => exact Or.inr (Or.inl ⟨x, rfl, rfl, rfl⟩)
    | cons y u => exact Or.inr (Or.inr ⟨x, (x :: y :: u).getLast (by simp), u.length, rfl, List.getLast?_eq_some_getLast (by simp), rfl⟩)

/-- The same without the case of one element. -/
theorem ends' (l : List Blk) : (l = [] ∧ l.length = 0) ∨ ∃ z n, l.getLast? = some z ∧ l.length = n + 1 := by
  rcases ends l with h | ⟨x, _, h2, h3⟩ | ⟨x, z, n, _, h2, h3⟩
  · exact Or.inl h
  · exact Or.inr ⟨x, 0, h2, h3⟩
  · exact Or.inr ⟨z, n + 1, h2, h3⟩

theorem vecs_some {ns : List Blk} {i : Nat} {x : Blk} (h : ns[i]? = some x) : vecs ns i = (x.v1, x.v2) := by rw [vecs, h]; rfl
theorem refs_some {ns : List Blk} {i : Nat} {x : Blk} (h : ns[i]? = some x) : refsOf ns i = (x.r1, x.r2) := by rw [refsOf, h]; rfl

/-- **C91, B pictures.**  The function of the code, executed statement by statement over any list of neighbours, gives for each of the four
modes the vectors that the specification takes from the neighbours in the opposite order (F, G, C, A, B, D for the six of the code). -/
theorem C91_b_candidates (ns : List Blk) (ds : Nat) (hds : 1 ≤ ds ∧ ds ≤ 4) : bskipCode ns ds = Spec.bSkip ns.reverse ds := by
  have I := bInv ns
  unfold bskipCode Spec.bSkip
  dsimp only
  generalize bLoops ns 0 _ = s at I
  rw [find_rev, find_rev, find_rev, find_rev, last_rev, two_rev]
  obtain ⟨I1, I2, I3, I4, I5, I6, I7, I8, I9, I10, I11, I12, I13⟩ := I
  obtain ⟨s1, s2, sb, sw, sf, ss, s3⟩ := s
  dsimp only at *
  generalize hB : (ns.filter fun b => decide (b.dir = 3)) = B at *
  generalize hS : (ns.filter fun b => decide (b.dir = 2)) = S at *
  generalize hW : (ns.filter fun b => decide (b.dir = 1)) = W at *
  generalize hF : (ns.filter fun b => decide (b.dir = 0)) = F at *
  have hd : ds = 1 ∨ ds = 2 ∨ ds = 3 ∨ ds = 4 := by omega
  rcases ends B with ⟨b1, b2⟩ | ⟨bx, b1, b2, b3⟩ | ⟨bx, bz, bn, b1, b2, b3⟩
  all_goals rcases ends' S with ⟨c1, c2⟩ | ⟨cz, cn, c2, c3⟩
  all_goals rcases ends' W with ⟨d1, d2⟩ | ⟨dz, dn, d2, d3⟩
  all_goals rcases ends' F with ⟨e1, e2⟩ | ⟨ez, en, e2, e3⟩
  all_goals rcases hd with rfl | rfl | rfl | rfl
  all_goals simp_all [bBid, bSym, bBwd, bFwd, put, lastV, vecs]

/-- The closed form used by the model of a picture (Model/Motion) is the function of the code. -/
theorem C91_b_closed (ns : List Blk) (ds : Nat) (hds : 1 ≤ ds ∧ ds ≤ 4) : bskipVec ns ds = bskipCode ns ds := by
  rw [C91_b_candidates ns ds hds]
  unfold bskipVec Spec.bSkip
  dsimp only
  rw [find_rev, find_rev, find_rev, find_rev, last_rev, two_rev]
  generalize hB : (ns.filter fun b => decide (b.dir = 3)) = B at *
  generalize hS : (ns.filter fun b => decide (b.dir = 2)) = S at *
  generalize hW : (ns.filter fun b => decide (b.dir = 1)) = W at *
  generalize hF : (ns.filter fun b => decide (b.dir = 0)) = F at *
  have hd : ds = 1 ∨ ds = 2 ∨ ds = 3 ∨ ds = 4 := by omega
  rcases ends B with ⟨b1, b2⟩ | ⟨bx, b1, b2, b3⟩ | ⟨bx, bz, bn, b1, b2, b3⟩
  all_goals rcases ends' S with ⟨c1, c2⟩ | ⟨cz, cn, c2, c3⟩
  all_goals rcases ends' W with ⟨d1, d2⟩ | ⟨dz, dn, d2, d3⟩
  all_goals rcases ends' F with ⟨e1, e2⟩ | ⟨ez, en, e2, e3⟩
  all_goals rcases hd with rfl | rfl | rfl | rfl
  all_goals simp_all

theorem dual_eq : (fun b : Blk => decide (b.r1 ≠ -1) && decide (b.r2 ≠ -1)) = fun b => decide (b.r1 ≠ -1 ∧ b.r2 ≠ -1) := by
  funext b; exact (Bool.decide_and _ _).symm
theorem single_eq : (fun b : Blk => decide (b.r1 ≠ -1) && decide (b.r2 = -1)) = fun b => decide (b.r1 ≠ -1 ∧ b.r2 = -1) := by
  funext b; exact (Bool.decide_and _ _).symm

/-- **C91, F pictures.** -/
theorem C91_f_candidates (ns : List Blk) (ds : Nat) (hds : 1 ≤ ds ∧ ds ≤ 4) :
    ((fskipCode ns ds).r1, (fskipCode ns ds).r2, (fskipCode ns ds).v1, (fskipCode ns ds).v2) = Spec.fSkip ns.reverse ds := by
  have I := fInv ns
  unfold fskipCode Spec.fSkip
  dsimp only
  generalize fLoops ns 0 _ = s at I
  rw [dual_eq, single_eq, find_rev, find_rev, last_rev, last_rev, two_rev, two_rev]
  obtain ⟨I1, I2, I3, I4, I5, I6, I7, I8, I9, I10, I11⟩ := I
  obtain ⟨s1, s2, s3, s4, s5, s6, s7, s8⟩ := s
  dsimp only at *
  generalize hB : (ns.filter fun b => decide (b.r1 ≠ -1 ∧ b.r2 ≠ -1)) = B at *
  generalize hF : (ns.filter fun b => decide (b.r1 ≠ -1 ∧ b.r2 = -1)) = F at *
  have hd : ds = 1 ∨ ds = 2 ∨ ds = 3 ∨ ds = 4 := by omega
  rcases ends B with ⟨b1, b2⟩ | ⟨bx, b1, b2, b3⟩ | ⟨bx, bz, bn, b1, b2, b3⟩
  all_goals rcases ends F with ⟨e1, e2⟩ | ⟨ex, e1, e2, e3⟩ | ⟨ex, ez, en, e1, e2, e3⟩
  all_goals clear hB hF
  all_goals rcases hd with rfl | rfl | rfl | rfl
  all_goals simp_all [fDual1, fDual2, fSingle1, fSingle2, put, lastV, lastR, vecs, refsOf]

/-- The closed form used by the model of a picture (Model/Motion) is the function of the code. -/
theorem C91_f_closed (ns : List Blk) (ds : Nat) (hds : 1 ≤ ds ∧ ds ≤ 4) : fskip ns ds = fskipCode ns ds := by
  have h := C91_f_candidates ns ds hds
  have : ((fskip ns ds).r1, (fskip ns ds).r2, (fskip ns ds).v1, (fskip ns ds).v2) = Spec.fSkip ns.reverse ds := by
    unfold fskip Spec.fSkip
    dsimp only
    rw [dual_eq, single_eq, find_rev, find_rev, last_rev, last_rev, two_rev, two_rev]
    generalize hB : (ns.filter fun b => decide (b.r1 ≠ -1 ∧ b.r2 ≠ -1)) = B at *
    generalize hF : (ns.filter fun b => decide (b.r1 ≠ -1 ∧ b.r2 = -1)) = F at *
    have hd : ds = 1 ∨ ds = 2 ∨ ds = 3 ∨ ds = 4 := by omega
    clear hB hF h
    rcases ends B with ⟨b1, b2⟩ | ⟨bx, b1, b2, b3⟩ | ⟨bx, bz, bn, b1, b2, b3⟩
    all_goals rcases ends F with ⟨e1, e2⟩ | ⟨ex, e1, e2, e3⟩ | ⟨ex, ez, en, e1, e2, e3⟩
    all_goals rcases hd with rfl | rfl | rfl | rfl
    all_goals simp_all
  rw [← h] at this
  simp only [Prod.mk.injEq] at this
  obtain ⟨a1, a2, a3, a4⟩ := this
  cases hx : fskip ns ds; cases hy : fskipCode ns ds
  rw [hx, hy] at a1 a2 a3 a4
  dsimp only at a1 a2 a3 a4
  rw [a1, a2, a3, a4]

/-- Neighbours D, B, A, C, G, F of a unit of a B picture: D and G bidirectional, A backward, C forward. -/
def nb6 : List Blk :=
  [⟨3, 1, 0, some (1, 1), some (2, 2)⟩, ⟨-1, -1, -1, none, none⟩, ⟨1, -1, 0, some (0, 0), some (3, 4)⟩, ⟨0, 1, -1, some (5, 6), some (0, 0)⟩,
   ⟨3, 1, 0, some (7, 7), some (8, 8)⟩, ⟨-1, -1, -1, none, none⟩]

example : bskipCode nb6 1 = (some (7, 7), some (8, 8)) ∧ bskipCode nb6 2 = (some (0, 0), some (3, 4)) ∧
    bskipCode nb6 3 = (some (1, 1), some (2, 2)) ∧ bskipCode nb6 4 = (some (5, 6), some (0, 0)) := by decide +kernel

/-- Neighbours of a unit of an F picture: D single, B dual, A single. -/
def nb6f : List Blk :=
  [⟨0, 2, -1, some (1, 1), some (0, 0)⟩, ⟨4, 1, 0, some (3, 3), some (2, 2)⟩, ⟨0, 1, -1, some (5, 6), some (0, 0)⟩, ⟨-1, -1, -1, none, none⟩,
   ⟨-1, -1, -1, none, none⟩, ⟨-1, -1, -1, none, none⟩]

example : fskipCode nb6f 1 = ⟨1, 0, some (3, 3), some (2, 2)⟩ ∧ fskipCode nb6f 2 = ⟨1, 2, some (5, 6), some (1, 1)⟩ ∧
    fskipCode nb6f 3 = ⟨1, -1, some (5, 6), some (0, 0)⟩ ∧ fskipCode nb6f 4 = ⟨2, -1, some (1, 1), some (0, 0)⟩ := by decide +kernel

end Davs2.Mo
