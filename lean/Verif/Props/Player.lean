import Verif.Model.Player
import Verif.Spec.Player
/-
C51: the sample player cuts the file into packets without loss.  C68: it announces the number of pictures it will send.
-/
namespace Davs2.Pl

variable {f : List Byte}

theorem buffer_get {i : Nat} (h : i < f.length) : (buffer f)[i]? = f[i]? := by
  unfold buffer
  rw [List.getElem?_append_left h]

/-- The word test on bytes inside the file. -/
theorem word3_eq {p : Nat} (h : p + 3 < f.length) :
    ∃ v, word3 (buffer f) p = some v ∧ (v = 0x00010000 ↔ IsCode f p) := by
  have e0 := List.getElem?_eq_getElem (l := f) (i := p) (by omega)
  have e1 := List.getElem?_eq_getElem (l := f) (i := p + 1) (by omega)
  have e2 := List.getElem?_eq_getElem (l := f) (i := p + 2) (by omega)
  have e3 := List.getElem?_eq_getElem (l := f) (i := p + 3) (by omega)
  unfold word3
  rw [buffer_get (by omega), buffer_get (by omega), buffer_get (by omega), buffer_get (by omega), e0, e1, e2, e3]
  refine ⟨_, rfl, ?_⟩
  unfold IsCode
  rw [e0, e1, e2]
  generalize f[p] = a
  generalize f[p + 1] = b
  generalize f[p + 2] = c
  have ha := a.isLt
  have hb := b.isLt
  have hc := c.isLt
  have key : ∀ (x : Byte) (n : Nat), n < 256 → ((some x : Option Byte) = some (BitVec.ofNat 8 n) ↔ x.toNat = n) := by
    intro x n hn
    rw [Option.some.injEq, ← BitVec.toNat_inj, BitVec.toNat_ofNat, Nat.mod_eq_of_lt hn]
  have k0 := key a 0 (by omega)
  have k1 := key b 0 (by omega)
  have k2 := key c 1 (by omega)
  constructor
  · intro h'
    exact ⟨k0.2 (by omega), k1.2 (by omega), k2.2 (by omega), h⟩
  · rintro ⟨q0, q1, q2, _⟩
    have := k0.1 q0
    have := k1.1 q1
    have := k2.1 q2
    omega

/-- The search never leaves the buffer and finds the first complete start code of the range. -/
theorem find_spec (n p : Nat) (h : 4 ≤ n → p + n ≤ f.length) :
    (findStartCode (buffer f) n p = some none ∧ ∀ i, p ≤ i → i + 4 ≤ p + n → ¬ IsCode f i) ∨
    (∃ q, findStartCode (buffer f) n p = some (some q) ∧ p ≤ q ∧ q + 4 ≤ p + n ∧ IsCode f q ∧
      ∀ i, p ≤ i → i < q → ¬ IsCode f i) := by
  induction n generalizing p with
  | zero => exact Or.inl ⟨rfl, fun i h1 h2 => by omega⟩
  | succ n ih =>
    unfold findStartCode
    by_cases h4 : n + 1 ≥ 4
    · rw [if_pos h4]
      obtain ⟨v, hv, hc⟩ := word3_eq (f := f) (p := p) (by have := h h4; omega)
      rw [hv]
      dsimp only
      by_cases hv' : v = 0x00010000
      · right
        rw [if_neg (by omega)]
        exact ⟨p, rfl, Nat.le_refl _, by omega, hc.1 hv', fun i h1 h2 => by omega⟩
      · rw [if_pos hv']
        have hn : ¬ IsCode f p := fun hp => hv' (hc.2 hp)
        rcases ih (p + 1) (fun h' => by have := h h4; omega) with ⟨he, hall⟩ | ⟨q, he, h1, h2, h3, hall⟩
        · refine Or.inl ⟨he, fun i hi hi' => ?_⟩
          rcases Nat.eq_or_lt_of_le hi with rfl | hlt
          · exact hn
          · exact hall i (by omega) (by omega)
        · refine Or.inr ⟨q, he, by omega, by omega, h3, fun i hi hi' => ?_⟩
          rcases Nat.eq_or_lt_of_le hi with rfl | hlt
          · exact hn
          · exact hall i (by omega) hi'
    · rw [if_neg h4]
      exact Or.inl ⟨rfl, fun i h1 h2 => by omega⟩

/-- The search from `p` to the end of the file. -/
theorem findSc_end (p : Nat) :
    (findSc (buffer f) p ((f.length : Int) - p) = some none ∧ ∀ i, p ≤ i → ¬ IsCode f i) ∨
    (∃ q, findSc (buffer f) p ((f.length : Int) - p) = some (some q) ∧ p ≤ q ∧ q + 4 ≤ f.length ∧ IsCode f q ∧
      ∀ i, p ≤ i → i < q → ¬ IsCode f i) := by
  unfold findSc
  have e : ((f.length : Int) - p).toNat = f.length - p := by omega
  rw [e]
  rcases find_spec (f := f) (f.length - p) p (by omega) with ⟨h1, h2⟩ | ⟨q, h1, h2, h3, h4, h5⟩
  · refine Or.inl ⟨h1, fun i hi hc => h2 i hi ?_ hc⟩
    have := hc.2.2.2
    omega
  · exact Or.inr ⟨q, h1, h2, by omega, h4, h5⟩

/-- What is said about the packets sent from position `p` on. -/
structure Cut (f : List Byte) (p : Nat) (l : List (Nat × Nat)) : Prop where
  ne : l ≠ []
  head : ∀ pk, l.head? = some pk → pk.1 = p
  bytes : (l.map (bytesOf f)).flatten = f.drop p
  inside : ∀ pk ∈ l, 1 ≤ pk.2 ∧ pk.1 + pk.2 ≤ f.length
  start : ∀ pk ∈ l.tail, IsCode f pk.1
  single : ∀ pk ∈ l, ∀ i, 4 ≤ i → i < pk.2 → ¬ IsCode f (pk.1 + i)

theorem loop_all (fuel k p : Nat) (hp : p < f.length) (hf : f.length - p ≤ fuel) :
    ∃ l, packetLoop (buffer f) (fun _ => true) fuel k p ((f.length : Int) - p) = some l ∧ Cut f p l := by
  induction fuel generalizing k p with
  | zero => omega
  | succ fuel ih =>
    unfold packetLoop
    have e4 : (f.length : Int) - p - 4 = (f.length : Int) - ((p + 4 : Nat) : Int) := by omega
    rw [e4]
    rcases findSc_end (f := f) (p + 4) with ⟨he, hno⟩ | ⟨q, he, h1, h2, h3, h4⟩
    · rw [he]
      refine ⟨[(p, f.length - p)], ?_, ?_⟩
      · have : ((f.length : Int) - p).toNat = f.length - p := by omega
        simp [pieceLen, this]
      · refine ⟨by simp, by simp, ?_, ?_, by simp, ?_⟩
        · simp only [List.map_cons, List.map_nil, List.flatten_cons, List.flatten_nil, List.append_nil, bytesOf]
          rw [List.take_of_length_le]
          rw [List.length_drop]
          exact Nat.le_refl _
        · intro pk hpk
          rw [List.mem_singleton] at hpk
          subst hpk
          dsimp only
          omega
        · intro pk hpk i h4 _
          rw [List.mem_singleton] at hpk
          subst hpk
          exact hno (p + i) (by omega)
    · rw [he]
      have eq1 : ((q : Int) - p).toNat = q - p := by omega
      have eq2 : (f.length : Int) - p - ((q : Int) - p) = (f.length : Int) - (q : Nat) := by omega
      have eq3 : p + (q - p) = q := by omega
      obtain ⟨rest, hr, hc⟩ := ih (k + 1) q (by omega) (by omega)
      refine ⟨(p, q - p) :: rest, ?_, ?_⟩
      · simp only [Option.bind_eq_bind, Option.bind_some, if_true, pieceLen, eq1, eq2, eq3]
        rw [if_neg (by omega), hr]
        rfl
      · refine ⟨by simp, by simp, ?_, ?_, ?_, ?_⟩
        · rw [List.map_cons, List.flatten_cons, hc.bytes]
          unfold bytesOf
          dsimp only
          have : f.drop q = (f.drop p).drop (q - p) := by rw [List.drop_drop, eq3]
          rw [this, List.take_append_drop]
        · intro pk hpk
          rcases List.mem_cons.1 hpk with rfl | hpk
          · dsimp only; omega
          · exact hc.inside pk hpk
        · intro pk hpk
          rw [List.tail_cons] at hpk
          cases rest with
          | nil => cases hpk
          | cons r rs =>
            rcases List.mem_cons.1 hpk with rfl | hpk
            · rw [hc.head pk rfl]; exact h3
            · exact hc.start pk hpk
        · intro pk hpk i hi hi'
          rcases List.mem_cons.1 hpk with rfl | hpk
          · exact h4 (p + i) (by omega) (by dsimp only at hi'; omega)
          · exact hc.single pk hpk i hi hi'

/-- **C51.**  For every file that is not empty, the player reads inside its buffer only and ends; the packets it
sends, in order, are a partition of the file into non-empty pieces; every packet but possibly the first begins
with a start code; and no packet contains a further start code after its first four bytes. -/
theorem C51_partition (f : List Byte) (hf : f ≠ []) : ∃ l, packets f (fun _ => true) = some l ∧
    (l.map (bytesOf f)).flatten = f ∧ (∀ pk ∈ l, 1 ≤ pk.2 ∧ pk.1 + pk.2 ≤ f.length) ∧
    (∀ pk ∈ l.tail, IsCode f pk.1) ∧ (∀ pk ∈ l, ∀ i, 4 ≤ i → i < pk.2 → ¬ IsCode f (pk.1 + i)) := by
  have hp := List.length_pos_iff.2 hf
  obtain ⟨l, h, hc⟩ := loop_all (f := f) f.length 0 0 hp (by omega)
  refine ⟨l, ?_, ?_, hc.inside, hc.start, hc.single⟩
  · unfold packets
    have : ((f.length : Int) - ((0 : Nat) : Int)) = f.length := by omega
    rw [this] at h
    exact h
  · rw [hc.bytes]
    rfl

theorem loop_prefix (ok : Nat → Bool) (fuel k p : Nat) (len : Int) (l : List (Nat × Nat))
    (h : packetLoop (buffer f) (fun _ => true) fuel k p len = some l) :
    ∃ l', packetLoop (buffer f) ok fuel k p len = some l' ∧ l' ≠ [] ∧ l' <+: l ∧
      (∀ i, i + 1 < l'.length → ok (k + i) = true) ∧ (l' ≠ l → ok (k + (l'.length - 1)) = false) := by
  induction fuel generalizing k p len l with
  | zero => cases h
  | succ fuel ih =>
    unfold packetLoop at h ⊢
    cases hr : findSc (buffer f) (p + 4) (len - 4) with
    | none => rw [hr] at h; cases h
    | some r =>
      rw [hr] at h
      simp only [Option.bind_eq_bind, Option.bind_some, if_true] at h ⊢
      generalize pieceLen p len r = n at h ⊢
      by_cases hk : ok k
      · rw [if_pos hk]
        by_cases h0 : len - n = 0
        · rw [if_pos h0] at h ⊢
          exact ⟨l, h, by cases h; simp, List.prefix_rfl, by cases h; simp, fun h => absurd rfl h⟩
        · rw [if_neg h0] at h ⊢
          cases hrest : packetLoop (buffer f) (fun _ => true) fuel (k + 1) (p + n.toNat) (len - n) with
          | none => rw [hrest] at h; cases h
          | some rest =>
            rw [hrest] at h
            cases h
            obtain ⟨l', e, hne, hpre, hok, hbad⟩ := ih (k + 1) _ _ rest hrest
            rw [e]
            refine ⟨(p, n.toNat) :: l', rfl, by simp, (List.prefix_cons_inj _).2 hpre, ?_, ?_⟩
            · intro i hi
              cases i with
              | zero => exact hk
              | succ i =>
                rw [List.length_cons] at hi
                have := hok i (by omega)
                rw [show k + (i + 1) = k + 1 + i by omega]
                exact this
            · intro hne'
              have := hbad (fun e => hne' (by rw [e]))
              rw [List.length_cons, show k + (l'.length + 1 - 1) = k + 1 + (l'.length - 1) by
                have := List.length_pos_iff.2 hne
                omega]
              exact this
      · rw [if_neg hk]
        refine ⟨[(p, n.toNat)], rfl, by simp, ?_, by simp, fun _ => ?_⟩
        · by_cases h0 : len - n = 0
          · rw [if_pos h0] at h
            cases h
            exact List.prefix_rfl
          · rw [if_neg h0] at h
            cases hrest : packetLoop (buffer f) (fun _ => true) fuel (k + 1) (p + n.toNat) (len - n) with
            | none => rw [hrest] at h; cases h
            | some rest =>
              rw [hrest] at h
              cases h
              exact ⟨rest, rfl⟩
        · simpa using hk

/-- **C51 (errors).**  If the decoder refuses a packet, the packets sent are those of the partition up to and
including the refused one. -/
theorem C51_error (f : List Byte) (hf : f ≠ []) (ok : Nat → Bool) : ∃ l l', packets f (fun _ => true) = some l ∧
    packets f ok = some l' ∧ l' ≠ [] ∧ l' <+: l ∧ (∀ i, i + 1 < l'.length → ok i = true) ∧
    (l' ≠ l → ok (l'.length - 1) = false) := by
  obtain ⟨l, h, _⟩ := C51_partition f hf
  obtain ⟨l', e, h1, h2, h3, h4⟩ := loop_prefix ok _ _ _ _ l h
  refine ⟨l, l', h, e, h1, h2, fun i hi => ?_, fun hne => ?_⟩
  · have := h3 i hi; rwa [Nat.zero_add] at this
  · have := h4 hne; rwa [Nat.zero_add] at this

/-! ### Number of pictures -/

/-- Start codes met by a search that continues four bytes after each. -/
def codes (f : List Byte) (p : Nat) : List Nat :=
  match findSc (buffer f) p ((f.length : Int) - p) with
  | some (some q) => if p ≤ q ∧ q < f.length then q :: codes f (q + 4) else []
  | _ => []
  termination_by f.length - p

/-- The code is that of a picture. -/
def picAt (f : List Byte) (q : Nat) : Bool := (f[q + 3]?).any isPic

def unitAt (f : List Byte) (q : Nat) : Bool := (f[q + 3]?).any isUnit

theorem codes_none {p : Nat} (h : findSc (buffer f) p ((f.length : Int) - p) = some none) : codes f p = [] := by
  rw [codes, h]

theorem codes_some {p q : Nat} (h : findSc (buffer f) p ((f.length : Int) - p) = some (some q)) (h1 : p ≤ q)
    (h2 : q + 4 ≤ f.length) : codes f p = q :: codes f (q + 4) := by
  rw [codes, h]
  dsimp only
  rw [if_pos ⟨h1, by omega⟩]

theorem codes_at {p : Nat} (h : IsCode f p) : codes f p = p :: codes f (p + 4) := by
  rcases findSc_end (f := f) p with ⟨he, hno⟩ | ⟨q, he, h1, h2, h3, h4⟩
  · exact absurd h (hno p (Nat.le_refl _))
  · have : q = p := by
      rcases Nat.eq_or_lt_of_le h1 with e | hlt
      · exact e.symm
      · exact absurd h (h4 p (Nat.le_refl _) hlt)
    subst this
    exact codes_some he h1 h2

theorem loop_codes (fuel k p : Nat) (hp : p < f.length) (hf : f.length - p ≤ fuel) (l : List (Nat × Nat))
    (h : packetLoop (buffer f) (fun _ => true) fuel k p ((f.length : Int) - p) = some l) :
    l.map Prod.fst = p :: codes f (p + 4) := by
  induction fuel generalizing k p l with
  | zero => omega
  | succ fuel ih =>
    unfold packetLoop at h
    have e4 : (f.length : Int) - p - 4 = (f.length : Int) - ((p + 4 : Nat) : Int) := by omega
    rw [e4] at h
    rcases findSc_end (f := f) (p + 4) with ⟨he, hno⟩ | ⟨q, he, h1, h2, h3, h4⟩
    · rw [he] at h
      simp [pieceLen] at h
      rw [codes_none he, ← h]
      rfl
    · rw [he] at h
      have eq1 : ((q : Int) - p).toNat = q - p := by omega
      have eq2 : (f.length : Int) - p - ((q : Int) - p) = (f.length : Int) - (q : Nat) := by omega
      have eq3 : p + (q - p) = q := by omega
      simp only [Option.bind_eq_bind, Option.bind_some, if_true, pieceLen, eq1, eq2, eq3] at h
      rw [if_neg (by omega)] at h
      cases hrest : packetLoop (buffer f) (fun _ => true) fuel (k + 1) q ((f.length : Int) - q) with
      | none => rw [hrest] at h; cases h
      | some rest =>
        rw [hrest] at h
        cases h
        rw [List.map_cons, ih (k + 1) q (by omega) (by omega) rest hrest, codes_some he h1 h2]

theorem check_spec (p0 : Nat) (len0 : Int) (fuel p : Nat) (hf : f.length - p < fuel) :
    checkLoop (buffer f) p0 len0 fuel p ((f.length : Int) - p) = some
      (match (codes f p).find? (unitAt f) with
        | some q => (q : Int) - p0
        | none => len0 + 1) := by
  induction fuel generalizing p with
  | zero => omega
  | succ fuel ih =>
    unfold checkLoop
    rcases findSc_end (f := f) p with ⟨he, hno⟩ | ⟨q, he, h1, h2, h3, h4⟩
    · rw [he, codes_none he]
      rfl
    · rw [he, codes_some he h1 h2]
      have hq : q + 3 < f.length := by omega
      have hb := buffer_get hq
      have e := List.getElem?_eq_getElem hq
      rw [e] at hb
      simp only [Option.bind_eq_bind, Option.bind_some, hb]
      rw [List.find?_cons]
      have hu : unitAt f q = isUnit f[q + 3] := by unfold unitAt; rw [e]; rfl
      rw [hu]
      cases isUnit f[q + 3] with
      | true => rfl
      | false =>
        simp only [Bool.false_eq_true, if_false]
        have : (f.length : Int) - p - ((q : Int) - p + 4) = (f.length : Int) - ((q + 4 : Nat) : Int) := by omega
        rw [this, ih (q + 4) (by omega)]

theorem codes_ge (p : Nat) : ∀ q ∈ codes f p, p ≤ q ∧ q + 4 ≤ f.length ∧ IsCode f q := by
  generalize hn : f.length - p = n
  induction n using Nat.strongRecOn generalizing p with
  | _ n ih =>
    rcases findSc_end (f := f) p with ⟨he, hno⟩ | ⟨r, he, h1, h2, h3, h4⟩
    · rw [codes_none he]; intro q hq; cases hq
    · rw [codes_some he h1 h2]
      intro q hq
      rcases List.mem_cons.1 hq with rfl | hq
      · exact ⟨h1, h2, h3⟩
      · have := ih (f.length - (r + 4)) (by omega) (r + 4) rfl q hq
        exact ⟨by omega, this.2⟩

/-- After the first code that satisfies `c`, the others follow from four bytes later. -/
theorem find_split (c : Nat → Bool) (p q : Nat) (h : (codes f p).find? c = some q) :
    ∃ before, codes f p = before ++ q :: codes f (q + 4) ∧ ∀ x ∈ before, c x = false := by
  generalize hn : f.length - p = n
  induction n using Nat.strongRecOn generalizing p with
  | _ n ih =>
    rcases findSc_end (f := f) p with ⟨he, hno⟩ | ⟨r, he, h1, h2, h3, h4⟩
    · rw [codes_none he] at h; cases h
    · rw [codes_some he h1 h2] at h ⊢
      rw [List.find?_cons] at h
      cases hc : c r with
      | true =>
        rw [hc] at h
        cases h
        exact ⟨[], rfl, by intro x hx; cases hx⟩
      | false =>
        rw [hc] at h
        obtain ⟨b, hb, hall⟩ := ih (f.length - (r + 4)) (by omega) (r + 4) h rfl
        refine ⟨r :: b, by rw [hb]; rfl, ?_⟩
        intro x hx
        rcases List.mem_cons.1 hx with rfl | hx
        · exact hc
        · exact hall x hx

theorem pic_unit (q : Nat) (h : unitAt f q = false) : picAt f q = false := by
  unfold unitAt at h
  unfold picAt
  cases he : f[q + 3]? with
  | none => rfl
  | some x =>
    rw [he] at h
    simp only [Option.any_some] at h ⊢
    unfold isUnit at h
    rw [Bool.or_eq_false_iff] at h
    exact h.2

theorem countP_zero {c : Nat → Bool} {l : List Nat} (h : ∀ x ∈ l, c x = false) : l.countP c = 0 := by
  rw [List.countP_eq_zero]
  intro x hx
  rw [h x hx]
  simp

theorem findOneFrame_none (p : Nat) (h : (codes f p).find? (unitAt f) = none) :
    findOneFrame (buffer f) p ((f.length : Int) - p) = some none := by
  unfold findOneFrame checkFrame
  rw [check_spec p _ _ p (by omega), h]
  simp only [Option.bind_eq_bind, Option.bind_some]
  rw [if_pos (by omega)]
  rfl

theorem findOneFrame_some (p q : Nat) (h : (codes f p).find? (unitAt f) = some q) :
    findOneFrame (buffer f) p ((f.length : Int) - p) = some (some ((q : Int) - p,
      match (codes f (q + 4)).find? (unitAt f) with
      | some r => (r : Int) - p
      | none => (f.length : Int) - p + 1)) := by
  have hq := codes_ge p q (List.mem_of_find?_eq_some h)
  unfold findOneFrame checkFrame
  rw [check_spec p _ _ p (by omega), h]
  simp only [Option.bind_eq_bind, Option.bind_some]
  rw [if_neg (by omega)]
  have e1 : p + ((q : Int) - p).toNat + 4 = q + 4 := by omega
  have e2 : (f.length : Int) - p - ((q : Int) - p) - 4 = (f.length : Int) - ((q + 4 : Nat) : Int) := by omega
  rw [e1, e2, check_spec (q + 4) _ _ (q + 4) (by omega)]
  simp only [Option.bind_some]
  cases hr : (codes f (q + 4)).find? (unitAt f) with
  | none =>
    have h5 : (f.length : Int) - ((q + 4 : Nat) : Int) + 1 ≤ (f.length : Int) - p := by omega
    have h6 : (f.length : Int) - ((q + 4 : Nat) : Int) + 1 + ((q : Int) - p) + 4 = (f.length : Int) - p + 1 := by omega
    dsimp only
    rw [if_pos h5, h6]
    rfl
  | some r =>
    have := codes_ge (q + 4) r (List.mem_of_find?_eq_some hr)
    have h5 : (r : Int) - ((q + 4 : Nat) : Int) ≤ (f.length : Int) - p := by omega
    have h6 : (r : Int) - ((q + 4 : Nat) : Int) + ((q : Int) - p) + 4 = (r : Int) - p := by omega
    dsimp only
    rw [if_pos h5, h6]
    rfl

theorem count_spec (fuel p count : Nat) (hf : f.length + 1 - p < fuel) (hp : p ≤ f.length + 1) :
    countLoop (buffer f) fuel p ((f.length : Int) - p) count = some (count + (codes f p).countP (picAt f)) := by
  induction fuel generalizing p count with
  | zero => omega
  | succ fuel ih =>
    unfold countLoop
    cases h : (codes f p).find? (unitAt f) with
    | none =>
      rw [findOneFrame_none p h]
      have : (codes f p).countP (picAt f) = 0 := countP_zero fun x hx => pic_unit x (by
        have := List.find?_eq_none.1 h x hx
        simpa using this)
      rw [this]
      rfl
    | some q =>
      rw [findOneFrame_some p q h]
      obtain ⟨b, hb, hall⟩ := find_split (unitAt f) p q h
      have hq := codes_ge p q (List.mem_of_find?_eq_some h)
      have hb0 : b.countP (picAt f) = 0 := countP_zero fun x hx => pic_unit x (hall x hx)
      have hq3 : q + 3 < f.length := by omega
      have hm := buffer_get hq3
      have e := List.getElem?_eq_getElem hq3
      rw [e] at hm
      have e1 : p + ((q : Int) - p).toNat + 3 = q + 3 := by omega
      have hpic : picAt f q = isPic f[q + 3] := by unfold picAt; rw [e]; rfl
      simp only [Option.bind_eq_bind, Option.bind_some, e1, hm]
      rw [hb, List.countP_append, hb0, List.countP_cons, hpic]
      cases hr : (codes f (q + 4)).find? (unitAt f) with
      | none =>
        have hrest : (codes f (q + 4)).countP (picAt f) = 0 := countP_zero fun x hx => pic_unit x (by
          have := List.find?_eq_none.1 hr x hx
          simpa using this)
        dsimp only
        have e2 : p + ((f.length : Int) - p + 1).toNat = f.length + 1 := by omega
        have e3 : (f.length : Int) - p - ((f.length : Int) - p + 1) = (f.length : Int) - ((f.length + 1 : Nat) : Int) := by omega
        have hend : codes f (f.length + 1) = [] := by
          cases hc : codes f (f.length + 1) with
          | nil => rfl
          | cons x xs =>
            have := codes_ge (f.length + 1) x (by rw [hc]; exact List.mem_cons_self ..)
            omega
        rw [e2, e3, ih (f.length + 1) _ (by omega) (by omega), hrest, hend]
        cases isPic f[q + 3] <;> rfl
      | some r =>
        have hr' := codes_ge (q + 4) r (List.mem_of_find?_eq_some hr)
        obtain ⟨b', hb', hall'⟩ := find_split (unitAt f) (q + 4) r hr
        have hb0' : b'.countP (picAt f) = 0 := countP_zero fun x hx => pic_unit x (hall' x hx)
        dsimp only
        have e2 : p + ((r : Int) - p).toNat = r := by omega
        have e3 : (f.length : Int) - p - ((r : Int) - p) = (f.length : Int) - (r : Nat) := by omega
        rw [e2, e3, ih r _ (by omega) (by omega), hb', List.countP_append, hb0', codes_at hr'.2.2]
        cases isPic f[q + 3] <;> simp <;> omega

/-- **C68 (number of pictures).**  For a file that begins with a start code, the number of pictures the player
announces is the number of packets it sends that begin with the start code of a picture. -/
theorem C68_frames_partial (f : List Byte) (h : IsCode f 0) : ∃ l, packets f (fun _ => true) = some l ∧
    countFrames f = some (l.countP fun pk => picAt f pk.1) := by
  have hp : 0 < f.length := by have := h.2.2.2; omega
  obtain ⟨l, hl, _⟩ := C51_partition f (List.length_pos_iff.1 hp)
  refine ⟨l, hl, ?_⟩
  unfold packets at hl
  have e0 : ((f.length : Int) - ((0 : Nat) : Int)) = f.length := by omega
  have hc := loop_codes f.length 0 0 hp (by omega) l (by rw [e0]; exact hl)
  unfold countFrames
  have := count_spec (f := f) (f.length + 2) 0 0 (by omega) (by omega)
  rw [e0] at this
  rw [this, codes_at h, Nat.zero_add, ← hc, List.countP_map]
  rfl

/-- Without the hypothesis the numbers differ: one byte before the first start code hides it from the packet
loop, which looks at offset 4 first. -/
theorem C68_frames_violated : ∃ f l, packets f (fun _ => true) = some l ∧
    countFrames f ≠ some (l.countP fun pk => picAt f pk.1) :=
  ⟨[7, 0, 0, 1, 0xB3, 9], [(0, 6)], by decide +kernel⟩

/-- Two pictures with a sequence header in front and a slice start code in between. -/
def twoPictures : List Byte := [0, 0, 1, 0xB0, 5, 0, 0, 1, 0xB3, 6, 7, 0, 0, 1, 0, 8, 0, 0, 1, 0xB6, 0, 0, 1]

example : packets twoPictures (fun _ => true) = some [(0, 5), (5, 6), (11, 5), (16, 7)] ∧ countFrames twoPictures = some 2 ∧
    packets twoPictures (fun k => decide (k < 1)) = some [(0, 5), (5, 6)] := by decide +kernel

end Davs2.Pl
