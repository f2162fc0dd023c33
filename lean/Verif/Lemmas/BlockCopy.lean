import Verif.Model.BlockCopy
import Verif.Spec.MemCopy
import Mathlib.Tactic.SplitIfs
/- Lemmas for C107: a checker that follows which bytes of the source each register holds, and its soundness. -/
namespace Davs2.Bc
open Davs2.Ma (Mem Byte)
open Davs2.MemSpec

/-- A general register as `d * dst + s * src + a * i_dst + b * i_src`. -/
structure Lin where
  d : Nat
  s : Nat
  a : Nat
  b : Nat

def Lin.val (l : Lin) (dst i_dst src i_src : Int) : Int := l.d * dst + l.s * src + l.a * i_dst + l.b * i_src

def Lin.addk (x y : Lin) (k : Nat) : Lin := ⟨x.d + k * y.d, x.s + k * y.s, x.a + k * y.a, x.b + k * y.b⟩

theorem Lin.addk_val (x y : Lin) (k : Nat) (p q r t : Int) : (x.addk y k).val p q r t = x.val p q r t + k * y.val p q r t := by
  simp only [Lin.addk, Lin.val, Int.natCast_add, Int.natCast_mul, Int.add_mul, Int.mul_add, Int.mul_assoc]; omega

/-- A piece of a row: row, first byte, number of bytes. -/
structure Piece where
  r : Nat
  o : Nat
  n : Nat

/-- What is known: general registers, the piece of the source each vector register holds, the pieces written (last first). -/
structure A where
  g : List (Option Lin)
  v : List (Option Piece)
  log : List Piece

def astep (w h : Nat) (s : A) : Ins → Option A
  | .lea d a b k =>
    match s.g.getD a none, s.g.getD b none with
    | some x, some y => some { s with g := s.g.set d (some (x.addk y k)) }
    | _, _ => none
  | .ld n r a b k off =>
    match s.g.getD a none, s.g.getD b none with
    | some x, some y =>
      let l := x.addk y k
      if l.d = 0 ∧ l.s = 1 ∧ l.a = 0 ∧ l.b < h ∧ off + n ≤ w then some { s with v := s.v.set r (some ⟨l.b, off, n⟩) } else none
    | _, _ => none
  | .st n a b k off r =>
    match s.g.getD a none, s.g.getD b none, s.v.getD r none with
    | some x, some y, some p =>
      let l := x.addk y k
      if l.d = 1 ∧ l.s = 0 ∧ l.b = 0 ∧ l.a < h ∧ off + n ≤ w ∧ p.r = l.a ∧ p.o = off ∧ n ≤ p.n then some { s with log := ⟨l.a, off, n⟩ :: s.log } else none
    | _, _, _ => none

def arun (w h : Nat) : List Ins → A → Option A
  | [], s => some s
  | i :: p, s => match astep w h s i with
    | some s => arun w h p s
    | none => none

/-- The pieces of row `r`, from the end, leave nothing of the first `need` bytes out. -/
def coverRow (r : Nat) : Nat → List Piece → Bool
  | need, [] => need == 0
  | need, p :: l => if p.r = r then p.o + p.n == need && coverRow r p.o l else coverRow r need l

theorem coverRow_sound (r : Nat) : ∀ (l : List Piece) (need : Nat), coverRow r need l = true →
    ∀ c < need, ∃ p ∈ l, p.r = r ∧ p.o ≤ c ∧ c < p.o + p.n := by
  intro l
  induction l with
  | nil => intro need h c hc; simp [coverRow] at h; omega
  | cons p l ih =>
    intro need h c hc
    unfold coverRow at h
    by_cases e : p.r = r
    · rw [if_pos e, Bool.and_eq_true, beq_iff_eq] at h
      by_cases k : c < p.o
      · obtain ⟨q, hq, h2⟩ := ih _ h.2 c k; exact ⟨q, List.mem_cons_of_mem _ hq, h2⟩
      · exact ⟨p, List.mem_cons_self, e, by omega, by omega⟩
    · rw [if_neg e] at h
      obtain ⟨q, hq, h2⟩ := ih _ h c hc; exact ⟨q, List.mem_cons_of_mem _ hq, h2⟩

def init : A := ⟨[some ⟨1, 0, 0, 0⟩, some ⟨0, 0, 1, 0⟩, some ⟨0, 1, 0, 0⟩, some ⟨0, 0, 0, 1⟩, none, none, none], List.replicate 8 none, []⟩

def Prog.flat (p : Prog) : List Ins := p.pre ++ (List.replicate p.count p.body).flatten

def check (w h : Nat) (p : Prog) : Bool :=
  match arun w h p.flat init with
  | some s => (List.range h).all fun r => coverRow r w s.log
  | none => false

/-- The knowledge `x` holds of the state `s`. -/
structure Holds (w h : Nat) (m : Mem) (dst i_dst src i_src : Int) (x : A) (s : St) : Prop where
  g : ∀ i l, x.g.getD i none = some l → s.g i = l.val dst i_dst src i_src
  v : ∀ i p, x.v.getD i none = some p → ∀ j < p.n, s.v i j = m (src + p.r * i_src + p.o + j)
  inside : ∀ p ∈ x.log, p.r < h ∧ p.o + p.n ≤ w
  done : ∀ p ∈ x.log, ∀ c : Nat, p.o ≤ c → c < p.o + p.n → s.mem (dst + p.r * i_dst + c) = m (src + p.r * i_src + c)
  rest : ∀ z, (∀ p ∈ x.log, ∀ c : Nat, p.o ≤ c → c < p.o + p.n → z ≠ dst + p.r * i_dst + c) → s.mem z = m z

theorem getD_set {α : Type} (l : List (Option α)) (i j : Nat) (x y : α) (h : (l.set i (some x)).getD j none = some y) :
    (j = i ∧ y = x) ∨ (j ≠ i ∧ l.getD j none = some y) := by
  by_cases e : j = i
  · subst e
    left
    refine ⟨rfl, ?_⟩
    rw [List.getD_eq_getElem?_getD, List.getElem?_set] at h
    simp only [if_true] at h
    split_ifs at h with hl
    · simpa using h.symm
    · simp at h
  · right
    refine ⟨e, ?_⟩
    rw [List.getD_eq_getElem?_getD, List.getElem?_set_ne (Ne.symm e)] at h
    rw [List.getD_eq_getElem?_getD]; exact h

theorem rows_inj {w : Nat} {a : Int} (hw : (w : Int) ≤ a) {r c r' c' : Nat} (hc : c < w) (hc' : c' < w) (h : (r : Int) * a + c = r' * a + c') :
    r = r' ∧ c = c' := by
  rcases Nat.lt_trichotomy r r' with k | k | k
  · have := Int.mul_le_mul_of_nonneg_right (a := (r : Int) + 1) (b := r') (c := a) (by omega) (by omega)
    rw [Int.add_mul] at this; omega
  · subst k; exact ⟨rfl, by omega⟩
  · have := Int.mul_le_mul_of_nonneg_right (a := (r' : Int) + 1) (b := r) (c := a) (by omega) (by omega)
    rw [Int.add_mul] at this; omega

theorem astep_sound {w h : Nat} {m : Mem} {dst i_dst src i_src : Int} (hw : (w : Int) ≤ i_dst) (hd : blocksApart dst i_dst src i_src w h)
    {x x' : A} {s : St} (hx : Holds w h m dst i_dst src i_src x s) (i : Ins) (he : astep w h x i = some x') :
    Holds w h m dst i_dst src i_src x' (step s i) := by
  cases i with
  | lea d a b k =>
    simp only [astep] at he
    split at he
    · rename_i p q hp hq
      obtain rfl := Option.some.inj he
      refine ⟨?_, hx.v, hx.inside, hx.done, hx.rest⟩
      intro i l hl
      rcases getD_set _ _ _ _ _ hl with ⟨rfl, rfl⟩ | ⟨hn, h2⟩
      · simp only [step, if_true]
        rw [Lin.addk_val, hx.g _ _ hp, hx.g _ _ hq]
      · simp only [step, if_neg hn]; exact hx.g _ _ h2
    · simp at he
  | ld n r a b k off =>
    simp only [astep] at he
    split at he
    · rename_i p q hp hq
      split at he
      · rename_i hc
        obtain ⟨c1, c2, c3, c4, c5⟩ := hc
        obtain rfl := Option.some.inj he
        refine ⟨hx.g, ?_, hx.inside, hx.done, hx.rest⟩
        intro i l hl j hj
        rcases getD_set _ _ _ _ _ hl with ⟨rfl, rfl⟩ | ⟨hn, h2⟩
        · have hj' : j < n := hj
          simp only [step, if_true, if_pos hj']
          have ha : s.g a + k * s.g b = src + (p.addk q k).b * i_src := by
            rw [hx.g _ _ hp, hx.g _ _ hq, ← Lin.addk_val, Lin.val, c1, c2, c3]; simp
          rw [ha]
          apply hx.rest
          intro u hu c h1 h2 e
          have hin := hx.inside u hu
          apply hd (p.addk q k).b (off + j) u.r c c4 (by omega) hin.1 (by omega)
          rw [← e]; push_cast; omega
        · simp only [step, if_neg hn]; exact hx.v _ _ h2 j hj
      · simp at he
    · simp at he
  | st n a b k off r =>
    simp only [astep] at he
    split at he
    · rename_i p q t hp hq ht
      split at he
      · rename_i hc
        obtain ⟨c1, c2, c3, c4, c5, c6, c7, c8⟩ := hc
        obtain rfl := Option.some.inj he
        have ha : s.g a + k * s.g b = dst + (p.addk q k).a * i_dst := by
          rw [hx.g _ _ hp, hx.g _ _ hq, ← Lin.addk_val, Lin.val, c1, c2, c3]; simp
        generalize (p.addk q k).a = R at *
        have hv : ∀ j < n, s.v r j = m (src + R * i_src + off + j) := by
          intro j hj
          have := hx.v _ _ ht j (by omega)
          rw [c6, c7] at this; exact this
        have hmem : ∀ z, (step s (.st n a b k off r)).mem z = if dst + R * i_dst + off ≤ z ∧ z < dst + R * i_dst + off + n then s.v r (z - (dst + R * i_dst + off)).toNat else s.mem z := by
          intro z; simp only [step, ha]
        refine ⟨hx.g, hx.v, ?_, ?_, ?_⟩
        · intro u hu
          rcases List.mem_cons.1 hu with rfl | hu
          · exact ⟨c4, c5⟩
          · exact hx.inside u hu
        · intro u hu c h1 h2
          rw [hmem]
          have hin : u.r < h ∧ u.o + u.n ≤ w := by
            rcases List.mem_cons.1 hu with rfl | hu
            · exact ⟨c4, c5⟩
            · exact hx.inside u hu
          by_cases hz : dst + R * i_dst + off ≤ dst + u.r * i_dst + c ∧ dst + u.r * i_dst + c < dst + R * i_dst + off + n
          · rw [if_pos hz]
            obtain ⟨j, hj⟩ : ∃ j : Nat, dst + u.r * i_dst + c = dst + R * i_dst + off + j := ⟨(dst + u.r * i_dst + c - (dst + R * i_dst + off)).toNat, by omega⟩
            obtain ⟨e1, e2⟩ := rows_inj (w := w) (c := c) (c' := off + j) (r := u.r) (r' := R) hw (by omega) (by omega) (by push_cast; omega)
            rw [hj, hv _ (by omega), e1, e2]
            congr 1; push_cast; omega
          · rw [if_neg hz]
            rcases List.mem_cons.1 hu with rfl | hu
            · exfalso
              simp only at h1 h2 hz
              omega
            · exact hx.done u hu c h1 h2
        · intro z hz
          rw [hmem]
          rw [if_neg]
          · exact hx.rest z fun u hu => hz u (List.mem_cons_of_mem _ hu)
          · intro hk
            refine hz ⟨R, off, n⟩ List.mem_cons_self (off + (z - (dst + R * i_dst + off)).toNat) (by simp) ?_ ?_
            · simp only; omega
            · push_cast; omega
      · simp at he
    · simp at he

theorem arun_sound {w h : Nat} {m : Mem} {dst i_dst src i_src : Int} (hw : (w : Int) ≤ i_dst) (hd : blocksApart dst i_dst src i_src w h) :
    ∀ (p : List Ins) {x x' : A} {s : St}, Holds w h m dst i_dst src i_src x s → arun w h p x = some x' →
      Holds w h m dst i_dst src i_src x' (exec p s) := by
  intro p
  induction p with
  | nil => intro x x' s hx he; obtain rfl := Option.some.inj he; exact hx
  | cons i p ih =>
    intro x x' s hx he
    simp only [arun] at he
    split at he
    · rename_i y hy
      exact ih (astep_sound hw hd hx i hy) he
    · simp at he

theorem exec_flat (b : List Ins) (n : Nat) (s : St) : exec (List.replicate n b).flatten s = ((exec b)^[n]) s := by
  induction n generalizing s with
  | zero => rfl
  | succ n ih =>
    rw [List.replicate_succ, List.flatten_cons, Function.iterate_succ_apply, ← ih]
    exact List.foldl_append ..

theorem check_sound {w h : Nat} {p : Prog} (hp : check w h p = true) (g : Nat → Int) (v : Nat → Nat → Byte) (m : Mem) (dst i_dst src i_src : Int)
    (hw : (w : Int) ≤ i_dst) (hd : blocksApart dst i_dst src i_src w h) :
    blockCopied m (p.call g v m dst i_dst src i_src) dst i_dst src i_src w h := by
  unfold check at hp
  split at hp
  · rename_i x hx
    have h0 : Holds w h m dst i_dst src i_src init
        ⟨fun i => if i = 0 then dst else if i = 1 then i_dst else if i = 2 then src else if i = 3 then i_src else g i, v, m⟩ := by
      refine ⟨?_, ?_, ?_, ?_, ?_⟩
      · intro i l hl
        match i, hl with
        | 0, hl | 1, hl | 2, hl | 3, hl =>
          obtain rfl := Option.some.inj hl
          simp [Lin.val]
        | 4, hl | 5, hl | 6, hl => simp [init] at hl
        | n + 7, hl => simp [init] at hl
      · intro i p hl
        exfalso
        match i, hl with
        | 0, hl | 1, hl | 2, hl | 3, hl | 4, hl | 5, hl | 6, hl | 7, hl => simp [init] at hl
        | n + 8, hl => simp [init] at hl
      · intro p hp; simp [init] at hp
      · intro p hp; simp [init] at hp
      · intro z _; rfl
    have H := arun_sound hw hd p.flat h0 hx
    have e : (exec p.flat ⟨fun i => if i = 0 then dst else if i = 1 then i_dst else if i = 2 then src else if i = 3 then i_src else g i, v, m⟩).mem = p.call g v m dst i_dst src i_src := by
      unfold Prog.call Prog.flat
      simp only [← exec_flat]
      exact congrArg St.mem (List.foldl_append ..)
    rw [List.all_eq_true] at hp
    constructor
    · intro r c hr hc
      obtain ⟨q, hq, rfl, h1, h2⟩ := coverRow_sound r x.log w (hp r (List.mem_range.2 hr)) c hc
      rw [← e]; exact H.done q hq c h1 h2
    · intro z hz
      rw [← e]
      apply H.rest
      intro q hq c h1 h2
      have := H.inside q hq
      exact hz q.r c this.1 (by omega)
  · simp at hp

/-! ### the C function -/

theorem row_c (w : Nat) (m0 : Mem) (D S : Int) (m : Mem) (hs : ∀ x < w, m (S + (x : Nat)) = m0 (S + x)) (hn : ∀ x x' : Nat, x < w → x' < w → S + x ≠ D + x') :
    ∀ k ≤ w, ∀ z, (List.range k).foldl (fun (m : Mem) (x : Nat) => (fun z => if z = D + x then m (S + x) else m z : Mem)) m z =
      if D ≤ z ∧ z < D + k then m0 (S + (z - D)) else m z := by
  intro k
  induction k with
  | zero => intro _ z; simp only [List.range_zero, List.foldl_nil]; rw [if_neg (by omega)]
  | succ k ih =>
    intro hk z
    rw [List.range_succ, List.foldl_append]
    simp only [List.foldl_cons, List.foldl_nil]
    by_cases e : z = D + k
    · rw [if_pos e, if_pos (by omega), ih (by omega), if_neg, hs k (by omega)]
      · congr 1; omega
      · intro hc
        exact hn k (S + k - D).toNat (by omega) (by omega) (by omega)
    · rw [if_neg e, ih (by omega)]
      split_ifs <;> first | omega | rfl

theorem blockcopyC_spec (w h : Nat) (m : Mem) (dst i_dst src i_src : Int) (hw : (w : Int) ≤ i_dst) (hd : blocksApart dst i_dst src i_src w h) :
    blockCopied m (blockcopyC w h m dst i_dst src i_src) dst i_dst src i_src w h := by
  unfold blockcopyC
  suffices H : ∀ k ≤ h, blockCopied m ((List.range k).foldl (fun m (y : Nat) => (List.range w).foldl (fun m (x : Nat) =>
      fun z => if z = dst + y * i_dst + x then m (src + y * i_src + x) else m z) m) m) dst i_dst src i_src w k from H h (Nat.le_refl _)
  intro k
  induction k with
  | zero => intro _; exact ⟨fun r c hr => by omega, fun z _ => rfl⟩
  | succ k ih =>
    intro hk
    obtain ⟨i1, i2⟩ := ih (by omega)
    rw [List.range_succ, List.foldl_append]
    simp only [List.foldl_cons, List.foldl_nil]
    generalize (List.range k).foldl (fun m (y : Nat) => (List.range w).foldl (fun m (x : Nat) =>
      fun z => if z = dst + y * i_dst + x then m (src + y * i_src + x) else m z) m) m = M at *
    have R := row_c w m (dst + k * i_dst) (src + k * i_src) M
      (fun x hx => i2 _ fun r c hr hc => hd k x r c (by omega) hx (by omega) hc)
      (fun x x' hx hx' => hd k x k x' (by omega) hx (by omega) hx') w (Nat.le_refl _)
    constructor
    · intro r c hr hc
      rw [R]
      by_cases e : r = k
      · subst e
        rw [if_pos (by omega)]; congr 1; omega
      · rw [if_neg]
        · exact i1 r c (by omega) hc
        · intro hz
          obtain ⟨j, hj⟩ : ∃ j : Nat, dst + r * i_dst + c = dst + k * i_dst + j := ⟨(dst + r * i_dst + c - (dst + k * i_dst)).toNat, by omega⟩
          have := rows_inj (w := w) (r := r) (r' := k) (c := c) (c' := j) hw hc (by omega) (by omega)
          exact e this.1
    · intro z hz
      rw [R, if_neg]
      · exact i2 z fun r c hr hc => hz r c (by omega) hc
      · intro hk'
        exact hz k (z - (dst + k * i_dst)).toNat (by omega) (by omega) (by omega)

theorem blockCopyRows_spec (w h : Nat) (m : Mem) (dst i_dst src i_src : Int) (hw : (w : Int) ≤ i_dst) (hd : blocksApart dst i_dst src i_src w h) :
    blockCopied m (blockCopyRows w h m dst i_dst src i_src) dst i_dst src i_src w h := by
  unfold blockCopyRows
  suffices H : ∀ k ≤ h, blockCopied m ((List.range k).foldl (fun m (y : Nat) => fun z =>
      if dst + y * i_dst ≤ z ∧ z < dst + y * i_dst + w then m (src + y * i_src + (z - (dst + y * i_dst))) else m z) m) dst i_dst src i_src w k from H h (Nat.le_refl _)
  intro k
  induction k with
  | zero => intro _; exact ⟨fun r c hr => by omega, fun z _ => rfl⟩
  | succ k ih =>
    intro hk
    obtain ⟨i1, i2⟩ := ih (by omega)
    rw [List.range_succ, List.foldl_append]
    simp only [List.foldl_cons, List.foldl_nil]
    generalize (List.range k).foldl (fun m (y : Nat) => fun z =>
      if dst + y * i_dst ≤ z ∧ z < dst + y * i_dst + w then m (src + y * i_src + (z - (dst + y * i_dst))) else m z) m = M at *
    have hs : ∀ x < w, M (src + k * i_src + (x : Nat)) = m (src + k * i_src + x) := fun x hx => i2 _ fun r c hr hc => hd k x r c (by omega) hx (by omega) hc
    constructor
    · intro r c hr hc
      dsimp only
      by_cases e : r = k
      · subst e
        rw [if_pos (by omega), show dst + (r : Int) * i_dst + c - (dst + r * i_dst) = (c : Nat) by omega]
        exact hs c hc
      · rw [if_neg]
        · exact i1 r c (by omega) hc
        · intro hz
          obtain ⟨j, hj⟩ : ∃ j : Nat, dst + r * i_dst + c = dst + k * i_dst + j := ⟨(dst + r * i_dst + c - (dst + k * i_dst)).toNat, by omega⟩
          have := rows_inj (w := w) (r := r) (r' := k) (c := c) (c' := j) hw hc (by omega) (by omega)
          exact e this.1
    · intro z hz
      dsimp only
      rw [if_neg]
      · exact i2 z fun r c hr hc => hz r c (by omega) hc
      · intro hk'
        exact hz k (z - (dst + k * i_dst)).toNat (by omega) (by omega) (by omega)

end Davs2.Bc
