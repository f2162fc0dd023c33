import Verif.Model.AsmIdct
import Verif.Lemmas.SimdDct
/-
Half stores and half loads in the programs of Model/AsmIdct.lean, and the check of their results before the limit to 9 bits.
-/
namespace Davs2.Si

open Davs2.Vc Davs2.Spec Finset

/-! ### Half loads -/

/-- Two half loads into one register as halves of whole loads. -/
def S.nf : S → S
  | .set r (.op .lo64 (.ld n a) (.ld k b)) =>
    cond (Nat.beq n 4 && Nat.beq k 4)
      (cond (Nat.beq (Nat.mod a 8) 0 && Nat.beq (Nat.mod b 8) 0) (.set r (.op .lo64 (.ld 8 a) (.ld 8 b)))
        (cond (Nat.beq (Nat.mod a 8) 4 && Nat.beq (Nat.mod b 8) 4) (.set r (.op .hi64 (.ld 8 (Nat.sub a 4)) (.ld 8 (Nat.sub b 4))))
          (.set r (.op .lo64 (.ld n a) (.ld k b)))))
      (.set r (.op .lo64 (.ld n a) (.ld k b)))
  | i => i

theorem loadC_lo (m : Nat → Int) (a b : Nat) : unpacklo64y (loadC 4 m a) (loadC 4 m b) = unpacklo64y (loadC 8 m a) (loadC 8 m b) := by
  funext j
  unfold unpacklo64y loadC ofW ofB
  have h : ∀ (t : Nat) (f : Nat → Int), t = 16 * (j / 16) + j % 8 → (if t / 2 < 4 then f (t / 2) else 0) = (if t / 2 < 8 then f (t / 2) else 0) := by
    intro t f e
    by_cases h : j < 16
    · rw [if_pos (by omega), if_pos (by omega)]
    · rw [if_neg (by omega), if_neg (by omega)]
  dsimp only
  rw [h _ (fun i => m (a + i)) rfl, h _ (fun i => m (b + i)) rfl]

theorem loadC_hi (m : Nat → Int) (a b : Nat) (ha : 4 ≤ a) (hb : 4 ≤ b) :
    unpacklo64y (loadC 4 m a) (loadC 4 m b) = unpackhi64y (loadC 8 m (a - 4)) (loadC 8 m (b - 4)) := by
  funext j
  unfold unpacklo64y unpackhi64y loadC ofW ofB
  have h : ∀ (c : Nat), 4 ≤ c → (if (16 * (j / 16) + j % 8) / 2 < 4 then m (c + (16 * (j / 16) + j % 8) / 2) else 0) =
      (if (16 * (j / 16) + 8 + j % 8) / 2 < 8 then m (c - 4 + (16 * (j / 16) + 8 + j % 8) / 2) else 0) := by
    intro c hc
    by_cases h : j < 16
    · rw [if_pos (by omega), if_pos (by omega)]
      congr 1; omega
    · rw [if_neg (by omega), if_neg (by omega)]
  have e2 : (16 * (j / 16) + 8 + j % 8) % 2 = (16 * (j / 16) + j % 8) % 2 := by omega
  dsimp only
  rw [h _ ha, h _ hb, e2]

theorem S.nf_run (i : S) (s : St) : i.nf.run s = i.run s := by
  unfold S.nf
  split
  · next r n a k b =>
    cases h : (Nat.beq n 4 && Nat.beq k 4) with
    | false => rfl
    | true =>
      simp only [Bool.and_eq_true] at h
      have e1 := beq_eq h.1
      have e2 := beq_eq h.2
      subst e1 e2
      rw [cond_true]
      cases h1 : (Nat.beq (Nat.mod a 8) 0 && Nat.beq (Nat.mod b 8) 0) with
      | true =>
        rw [cond_true]
        show ({ s with reg := _ } : St) = { s with reg := _ }
        have := loadC_lo s.mem a b
        congr 1
        funext k
        show (if k = r then unpacklo64y (loadC 8 s.mem a) (loadC 8 s.mem b) else s.reg k) = if k = r then unpacklo64y (loadC 4 s.mem a) (loadC 4 s.mem b) else s.reg k
        rw [this]
      | false =>
        rw [cond_false]
        cases h2 : (Nat.beq (Nat.mod a 8) 4 && Nat.beq (Nat.mod b 8) 4) with
        | false => rfl
        | true =>
          simp only [Bool.and_eq_true] at h2
          have ha : a % 8 = 4 := beq_eq h2.1
          have hb : b % 8 = 4 := beq_eq h2.2
          have := loadC_hi s.mem a b (by omega) (by omega)
          rw [cond_true]
          show ({ s with reg := _ } : St) = { s with reg := _ }
          congr 1
          funext k
          show (if k = r then unpackhi64y (loadC 8 s.mem (a - 4)) (loadC 8 s.mem (b - 4)) else s.reg k) =
            if k = r then unpacklo64y (loadC 4 s.mem a) (loadC 4 s.mem b) else s.reg k
          rw [this]
  · rfl

theorem exec_nf (p : List S) (s : St) : exec (p.map S.nf) s = exec p s := by
  induction p generalizing s with
  | nil => rfl
  | cons i p ih =>
    show exec (p.map S.nf) (i.nf.run s) = exec p (i.run s)
    rw [S.nf_run]
    exact ih _

/-! ### Half stores -/

/-- A half store as an assignment to a register from 200 on. -/
def S.toReg : S → S
  | .st _ off e => .set (Nat.add 200 (Nat.div off 4)) e
  | i => i

/-- Registers below 200 only; loads only if `b` is false. -/
def X.small (b : Bool) : X → Bool
  | .r n => Nat.blt n 200
  | .ld _ _ => !b
  | .ld2 _ _ => !b
  | .op _ a c => a.small b && c.small b
  | .sra32 a _ => a.small b
  | .sra16 a _ => a.small b
  | _ => true

/-- Assignments to registers below 200, and half stores after which there are no loads. -/
def lin : Bool → List S → Bool
  | _, [] => true
  | b, .set r e :: p => Nat.blt r 200 && e.small b && lin b p
  | _, .st n off e :: p => Nat.beq n 4 && Nat.beq (Nat.mod off 4) 0 && e.small true && lin true p
  | _, _ => false

/-- The halves that are stored. -/
def halves : List S → List Nat
  | [] => []
  | .st _ off _ :: p => off / 4 :: halves p
  | _ :: p => halves p

theorem X.small_run {b : Bool} {s t : St} (hr : ∀ r < 200, s.reg r = t.reg r) (hm : b = false → s.mem = t.mem) :
    ∀ {e : X}, e.small b = true → e.run s = e.run t := by
  intro e
  induction e with
  | r n => intro h; exact hr n (blt_lt h)
  | ld n off => intro h; unfold X.run; rw [hm (by simpa [X.small] using h)]
  | ld2 hi lo => intro h; unfold X.run; rw [hm (by simpa [X.small] using h)]
  | k32 k => intro _; rfl
  | k16 k => intro _; rfl
  | kk c0 c1 => intro _; rfl
  | op o a c iha ihc =>
    intro h
    simp only [X.small, Bool.and_eq_true] at h
    unfold X.run
    rw [iha h.1, ihc h.2]
  | sra32 a n ih => intro h; unfold X.run; rw [ih h]
  | sra16 a n ih => intro h; unfold X.run; rw [ih h]

/-- `s` has stored the halves in `l`, `t` has them in registers. -/
structure Half (m0 : Nat → Int) (l : List Nat) (s t : St) : Prop where
  reg : ∀ r < 200, s.reg r = t.reg r
  mem : t.mem = m0
  on : ∀ a, a / 4 ∈ l → s.mem a = w16 (t.reg (200 + a / 4)) (a % 4)
  off : ∀ a, a / 4 ∉ l → s.mem a = m0 a

theorem half_exec {m0 : Nat → Int} : ∀ {p : List S} {b : Bool} {l : List Nat} {s t : St}, lin b p = true → (b = false → l = []) → Half m0 l s t →
    ∃ l', (∀ k, k ∈ l' ↔ k ∈ l ∨ k ∈ halves p) ∧ Half m0 l' (exec p s) (exec (p.map S.toReg) t) := by
  intro p
  induction p with
  | nil => intro b l s t _ _ h; exact ⟨l, fun k => by simp [halves], h⟩
  | cons i p ih =>
    intro b l s t hl hb h
    cases i with
    | set r e =>
      simp only [lin, Bool.and_eq_true] at hl
      have hr := blt_lt hl.1.1
      have he : e.run s = e.run t := X.small_run h.reg (fun hb' => by
        have := hb hb'
        subst this
        rw [h.mem]
        funext a
        exact h.off a (by simp)) hl.1.2
      refine ih (b := b) (l := l) hl.2 hb ⟨?_, h.mem, ?_, h.off⟩
      · intro k hk
        show (if k = r then e.run s else s.reg k) = if k = r then e.run t else t.reg k
        rw [he, h.reg k hk]
      · intro a ha
        show s.mem a = w16 (if 200 + a / 4 = r then e.run t else t.reg (200 + a / 4)) (a % 4)
        rw [if_neg (by omega)]
        exact h.on a ha
    | st n off e =>
      simp only [lin, Bool.and_eq_true] at hl
      have e4 := beq_eq hl.1.1.1
      have e0 : off % 4 = 0 := beq_eq hl.1.1.2
      subst e4
      have he : e.run s = e.run t := X.small_run h.reg (fun hb' => by cases hb') hl.1.2
      obtain ⟨l', h1, h2⟩ := ih (b := true) (l := off / 4 :: l) (s := S.run s (.st 4 off e)) (t := S.run t (.set (200 + off / 4) e)) hl.2 (by intro h; cases h) (by
        refine ⟨?_, h.mem, ?_, ?_⟩
        · intro k hk
          show s.reg k = if k = 200 + off / 4 then e.run t else t.reg k
          rw [if_neg (by omega)]
          exact h.reg k hk
        · intro a ha
          show storeC 4 s.mem off (e.run s) a = w16 (if 200 + a / 4 = 200 + off / 4 then e.run t else t.reg (200 + a / 4)) (a % 4)
          unfold storeC
          by_cases hq : a / 4 = off / 4
          · rw [if_pos (by omega), if_pos (by omega), he]
            congr 1; omega
          · rw [if_neg (by omega), if_neg (by omega)]
            refine h.on a ?_
            rcases List.mem_cons.1 ha with h | h
            · exact absurd h hq
            · exact h
        · intro a ha
          simp only [List.mem_cons, not_or] at ha
          show storeC 4 s.mem off (e.run s) a = m0 a
          unfold storeC
          rw [if_neg (by omega)]
          exact h.off a ha.2)
      refine ⟨l', fun k => ?_, h2⟩
      rw [h1]
      simp only [halves, List.mem_cons]
      tauto
    | st2 hi lo e => simp [lin] at hl

/-! ### The check -/

/-- Four lanes. -/
def goodHalf (w a : Nat) : Option AV → Bool
  | some (.h [o]) => Nat.beq o.f 0 && Nat.beq o.c0 (code3 w a) && Nat.beq o.c1 (code3 w (Nat.add a 1)) && Nat.beq o.c2 (code3 w (Nat.add a 2)) &&
      Nat.beq o.c3 (code3 w (Nat.add a 3))
  | _ => false

noncomputable def allHalf (w : Nat) (m : Tr AV) : Nat → Bool
  | 0 => true
  | k + 1 => goodHalf w (Nat.mul 4 k) (m.get (Nat.add 200 k)) && allHalf w m k

noncomputable def checkHalf (cx : Cx) (p : List S) : Bool :=
  match absExec cx (p.map S.toReg) ⟨.e, initMem cx.w (Nat.div cx.n 8)⟩ with
  | none => false
  | some s => allHalf cx.w s.reg (Nat.div cx.n 4)

/-- Where the symbolic evaluation starts. -/
theorem start {cx : Cx} {E : Nat → Int} {s : St} (h8 : cx.n % 8 = 0) (hm : ∀ a < cx.n, s.mem a = E (code cx.w a)) :
    SRel cx E ⟨.e, initMem cx.w (Nat.div cx.n 8)⟩ s := by
  constructor
  · intro r v hv
    exfalso
    have hv : Tr.get Tr.e r = some v := hv
    rw [Tr.get_look] at hv; unfold Tr.look at hv; cases hv
  · intro k o ho j hj
    obtain ⟨rfl, hk⟩ := initMem_get _ _ _ _ ho
    have hk : k < cx.n / 8 := hk
    rw [hm _ (by omega)]
    interval_cases j <;> rfl

theorem allHalf_get {w : Nat} {m : Tr AV} : ∀ {n : Nat}, allHalf w m n = true → ∀ k < n, goodHalf w (4 * k) (m.get (200 + k)) = true := by
  intro n
  induction n with
  | zero => intro _ k hk; omega
  | succ n ih =>
    intro h k hk
    simp only [allHalf, Bool.and_eq_true] at h
    by_cases hq : k = n
    · subst hq; exact h.1
    · exact ih h.2 k (by omega)

theorem checkHalf_sound {cx : Cx} {E : Nat → Int} (ok : Ok cx E) {p : List S} (h : checkHalf cx p = true) (hlin : lin false p = true)
    (hon : ∀ k < cx.n / 4, k ∈ halves p) (hoff : ∀ k ∈ halves p, k < cx.n / 4) {s : St} (h8 : cx.n % 8 = 0)
    (hm : ∀ a < cx.n, s.mem a = E (code cx.w a)) :
    (∀ a < cx.n, (exec p s).mem a = E (code3 cx.w a)) ∧ ∀ a, cx.n ≤ a → (exec p s).mem a = s.mem a := by
  obtain ⟨l, hl, H⟩ := half_exec (m0 := s.mem) (l := []) (s := s) (t := s) hlin (fun _ => rfl)
    ⟨fun _ _ => rfl, rfl, fun a h => by simp at h, fun _ _ => rfl⟩
  unfold checkHalf at h
  split at h
  · cases h
  · next t ht =>
    have R := exec_sound ok (start h8 hm) ht
    refine ⟨fun a ha => ?_, fun a ha => H.off a fun e => ?_⟩
    · rw [H.on a (by rw [hl]; right; exact hon _ (by omega))]
      have g := allHalf_get h (a / 4) (show a / 4 < cx.n / 4 by omega)
      unfold goodHalf at g
      split at g
      · next o ho =>
        simp only [Bool.and_eq_true] at g
        obtain ⟨⟨⟨⟨hf, h0⟩, h1⟩, h2⟩, h3⟩ := g
        have hv := R.1.reg _ _ ho 0 o rfl (a % 4) (by omega)
        rw [Nat.mul_zero, Nat.zero_add, beq_eq hf] at hv
        rw [hv]
        show E (o.lane (a % 4)) = _
        have := lane4 (P := fun j => o.lane j = code3 cx.w (4 * (a / 4) + j)) (beq_eq h0) (beq_eq h1) (beq_eq h2) (beq_eq h3) (a % 4) (by omega)
        rw [show 4 * (a / 4) + a % 4 = a by omega] at this
        rw [this]
      · cases g
    · rw [hl] at e
      rcases e with e | e
      · simp at e
      · have := hoff _ e; omega

/-! ### The result before the limit -/

/-- The inverse transform without the limit to 9 bits at the end. -/
def rawDct (w h : Nat) (c : Nat → Int) (y x : Nat) : Int := roundShift 12 (∑ j ∈ range w, dctMat w j x * invVert w h c y j)

theorem raw_limit (w h : Nat) (c : Nat → Int) (y x : Nat) : limitBits 9 (rawDct w h c y x) = invDct w h 0 c y x := rfl

theorem invVert_range (w h : Nat) (c : Nat → Int) (y j : Nat) : -32768 ≤ invVert w h c y j ∧ invVert w h c y j ≤ 32767 := by
  unfold invVert
  rw [← sat16_limit]
  exact sat16_range _

theorem raw_bound {w h : Nat} (hw : w ≤ 32) (c : Nat → Int) (y x : Nat) : |rawDct w h c y x| ≤ 11521 := by
  have := sum_bound (n := w) (y := x) hw (f := invVert w h c y) fun i _ => invVert_range w h c y i
  unfold rawDct roundShift
  rw [abs_le] at this ⊢
  norm_num
  omega

theorem raw_sat {w h : Nat} (hw : w ≤ 32) (c : Nat → Int) (y x : Nat) : sat16 (rawDct w h c y x) = rawDct w h c y x := by
  have := abs_le.1 (raw_bound (h := h) hw c y x)
  unfold sat16
  omega

/-- The program leaves the unlimited result of the transform in the array and changes nothing behind it. -/
def Raw (w h : Nat) (f : St → Nat → Int) : Prop :=
  ∀ (c : Nat → Int) (s : St), (∀ a < w * h, -32768 ≤ c a ∧ c a ≤ 32767) → (∀ a < w * h, s.mem a = c a) →
    (∀ y < h, ∀ x < w, f s (y * w + x) = rawDct w h c y x) ∧ ∀ a, w * h ≤ a → f s a = s.mem a

theorem code_eq {w h : Nat} {c : Nat → Int} {s : St} (hw : w ≤ 32) (hh : h ≤ 32) (hs : ∀ a < w * h, s.mem a = c a) :
    ∀ a < w * h, s.mem a = vals w h 0 c (code w a) := by
  intro a ha
  have hw0 : 0 < w := by rcases Nat.eq_zero_or_pos w with rfl | h; · simp at ha
                         · exact h
  have h1 : a / w < h := Nat.div_lt_of_lt_mul ha
  have h2 := Nat.mod_lt a hw0
  show _ = vals w h 0 c (64 * (a % w) + (a / w + 1))
  rw [vals0 (by omega) (by omega), if_pos ⟨h1, h2⟩, hs a ha, Nat.mul_comm, Nat.div_add_mod]

theorem raw_of_check {w h : Nat} {t1 t2 : List (Nat × Nat)} {p : List S} (hw : w ≤ 32) (hh : h ≤ 32)
    (ht1 : tabOk h h 16 t1) (ht2 : tabOk w w (2 ^ (11 - 0)) t2) (h8 : w * h % 8 = 0) (hp : checkHalf (mkCx w h h w 0 t1 t2) p = true)
    (hlin : lin false p = true) (hon : ∀ k < w * h / 4, k ∈ halves p) (hoff : ∀ k ∈ halves p, k < w * h / 4) :
    Raw w h fun s => (exec p s).mem := by
  intro c s hc hs
  have ok := vals_ok hw hh (show 0 ≤ 1 by omega) (le_refl h) (le_refl w) ht1 ht2 hc (fun i hi j hj hh => by omega)
  have := checkHalf_sound ok hp hlin hon hoff (s := s) h8 (code_eq hw hh hs)
  refine ⟨fun y hy x hx => ?_, this.2⟩
  have hlt : y * w + x < w * h := by
    have := Nat.mul_le_mul_right w (show y + 1 ≤ h by omega)
    rw [Nat.add_mul, Nat.one_mul, Nat.mul_comm h w] at this
    omega
  have e : vals w h 0 c (code3 w (y * w + x)) = rawDct w h c y x := by
    have : code3 w (y * w + x) = 64 * (128 + y) + (x + 1) := by
      show 64 * (128 + (y * w + x) / w) + ((y * w + x) % w + 1) = _
      rw [Nat.mul_comm y w, Nat.mul_add_div (by omega), Nat.div_eq_of_lt hx, Nat.mul_add_mod, Nat.mod_eq_of_lt hx, Nat.add_zero]
    rw [this, vals2 (by omega) (by omega), if_pos ⟨hy, hx⟩]
    exact raw_sat hw c y x
  exact (this.1 _ hlt).trans e

end Davs2.Si
