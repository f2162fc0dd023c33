import Verif.Lemmas.CuUnit
/-
Intra modes, directions, vectors and the type of a unit.
-/
namespace Davs2.Cs
open Davs2.Sx Davs2.Mo

variable {σ : Type} {m : Machine σ} {G : σ → Prop}

/-! ### Intra modes -/

/-- The part of `Rel` about intra modes. -/
structure ModeRel (E : Env) (buf : Im.Buf) (M : Int → Int → Int) (D : Int → Int → Prop) : Prop where
  edge : ∀ x y : Int, -1 ≤ x → x < 2 * E.w → -1 ≤ y → y < 2 * E.h → D x y → (¬ D (x + 1) y ∨ ¬ D x (y + 1)) →
    buf (Im.addr (2 * E.w) x y) = M x y ∧ 0 ≤ M x y ∧ M x y < 33
  fresh : ∀ x y : Int, 0 ≤ x → x < 2 * E.w → 0 ≤ y → y < 2 * E.h → ¬ D x y → buf (Im.addr (2 * E.w) x y) = 0

def InRect (b : Rect) (p q : Int) : Prop := (b.x : Int) ≤ p ∧ p < b.x + b.w ∧ (b.y : Int) ≤ q ∧ q < b.y + b.h

instance (b : Rect) (p q : Int) : Decidable (InRect b p q) := by unfold InRect; infer_instance

def Rect.blk (b : Rect) : Im.Blk := ⟨b.x, b.y, b.w, b.h⟩

/-- The blocks can be decoded one after the other. -/
def Chain (E : Env) : (Int → Int → Prop) → List Rect → Prop
  | _, [] => True
  | D, b :: bs => (0 < b.w ∧ 0 < b.h ∧ b.x + b.w ≤ 2 * E.w ∧ b.y + b.h ≤ 2 * E.h) ∧ (∀ p q, InRect b p q → ¬ D p q) ∧
      D b.x (b.y - 1) ∧ D (b.x - 1) b.y ∧ Chain E (fun p q => D p q ∨ InRect b p q) bs

/-- Positions in one of the blocks. -/
def InAny (bs : List Rect) (p q : Int) : Prop := ∃ b ∈ bs, InRect b p q

theorem mode_number {top left : Int} (ht : 0 ≤ top ∧ top < 33) (hl : 0 ≤ left ∧ left < 33) {k : Nat} {v : Int}
    (h : (Spec.Im.probable top left ++ Spec.Im.others top left)[k]? = some v) :
    Im.mode top left ((k : Int) - 2) = v ∧ 0 ≤ v ∧ v < 33 := by
  obtain ⟨h1, h2⟩ := Im.C47_selects top left ht.1 hl.1 ht.2 hl.2
  have hp : ∀ x ∈ Spec.Im.probable top left, 0 ≤ x ∧ x < 33 := by
    intro x hx
    unfold Spec.Im.probable at hx
    split at hx
    · split at hx <;> simp only [List.mem_cons, List.not_mem_nil, or_false] at hx <;> omega
    · split at hx <;> simp only [List.mem_cons, List.not_mem_nil, or_false] at hx <;> omega
  have ho : ∀ x ∈ Spec.Im.others top left, 0 ≤ x ∧ x < 33 := by
    intro x hx
    unfold Spec.Im.others at hx
    obtain ⟨hx, _⟩ := List.mem_filter.mp hx
    obtain ⟨n, hn, rfl⟩ := List.mem_map.mp hx
    have := List.mem_range.mp hn
    constructor
    · exact Int.natCast_nonneg n
    · exact Int.ofNat_lt.mpr this
  have hv := List.mem_of_getElem? h
  refine ⟨?_, ?_⟩
  · rw [← h1, ← h2] at h
    match k, h with
    | 0, h => exact Option.some.inj h
    | 1, h => exact Option.some.inj h
    | k + 2, h =>
      have e : ((List.range 31).map fun c => Im.mode top left (Int.ofNat c))[k]? = some v := h
      rw [List.getElem?_map, Option.map_eq_some_iff] at e
      obtain ⟨c, hc, e⟩ := e
      have hk : k < 31 := by
        have := (List.getElem?_eq_some_iff.mp hc).1
        rwa [List.length_range] at this
      rw [List.getElem?_range hk] at hc
      rw [← Option.some.inj hc] at e
      rw [← e]
      congr 1
      show ((k + 2 : Nat) : Int) - 2 = (k : Int)
      omega
  · rcases List.mem_append.mp hv with h | h
    · exact hp v h
    · exact ho v h

theorem setRect_in {M : Int → Int → Int} {b : Rect} {v p q : Int} (h : InRect b p q) : setRect M b v p q = v := if_pos h

theorem setRect_out {M : Int → Int → Int} {b : Rect} {v p q : Int} (h : ¬ InRect b p q) : setRect M b v p q = M p q := if_neg h

theorem ModeRel.store {E : Env} {buf : Im.Buf} {M : Int → Int → Int} {D : Int → Int → Prop} (r : ModeRel E buf M D) {b : Rect}
    (hb : 0 < b.w ∧ 0 < b.h ∧ b.x + b.w ≤ 2 * E.w ∧ b.y + b.h ≤ 2 * E.h) {v : Int}
    (hv : 0 ≤ v ∧ v < 33) : ModeRel E (Im.store (2 * E.w) buf b.blk v) (setRect M b v) (fun p q => D p q ∨ InRect b p q) := by
  have hw : ((2 * E.w : Nat) : Int) = 2 * (E.w : Int) := by omega
  constructor
  · intro x y h1 h2 h3 h4 hd hn
    rw [Im.store_eq]
    have hc := Im.mem_cells (b := b.blk) (w := 2 * E.w) hb.2.2.1 (c := x) (r := y) (by omega) (by omega)
    by_cases hin : InRect b x y
    · rw [setRect_in hin, if_pos]
      · exact ⟨rfl, hv⟩
      · refine hc.mpr ⟨hin, ?_⟩
        unfold InRect at hin hn
        show x = b.x + b.w - 1 ∨ y = b.y + b.h - 1
        rcases hn with hn | hn
        · left
          have : ¬ ((b.x : Int) ≤ x + 1 ∧ x + 1 < b.x + b.w ∧ (b.y : Int) ≤ y ∧ y < b.y + b.h) := fun h => hn (Or.inr h)
          omega
        · right
          have : ¬ ((b.x : Int) ≤ x ∧ x < b.x + b.w ∧ (b.y : Int) ≤ y + 1 ∧ y + 1 < b.y + b.h) := fun h => hn (Or.inr h)
          omega
    · have hc' : Im.addr (2 * E.w) x y ∉ Im.cells (2 * E.w) b.blk := fun h => hin (hc.mp h).1
      rw [if_neg hc', setRect_out hin]
      refine r.edge x y h1 h2 h3 h4 (hd.resolve_right hin) ?_
      rcases hn with hn | hn
      · exact Or.inl fun h => hn (Or.inl h)
      · exact Or.inr fun h => hn (Or.inl h)
  · intro x y h1 h2 h3 h4 hn
    rw [Im.store_eq]
    have hc := Im.mem_cells (b := b.blk) (w := 2 * E.w) hb.2.2.1 (c := x) (r := y) (by omega) (by omega)
    rw [if_neg fun h => hn (Or.inr (hc.mp h).1)]
    exact r.fresh x y h1 h2 h3 h4 fun h => hn (Or.inl h)

/-- A region without intra blocks. -/
theorem ModeRel.skip {E : Env} {buf : Im.Buf} {M : Int → Int → Int} {D : Int → Int → Prop} (r : ModeRel E buf M D) {b : Rect}
    (hb : b.x + b.w ≤ 2 * E.w ∧ b.y + b.h ≤ 2 * E.h) (hd : ∀ p q, InRect b p q → ¬ D p q) :
    ModeRel E buf (setRect M b 0) (fun p q => D p q ∨ InRect b p q) := by
  constructor
  · intro x y h1 h2 h3 h4 hD hn
    by_cases hin : InRect b x y
    · rw [setRect_in hin]
      have h := hin
      unfold InRect at h
      exact ⟨r.fresh x y (by omega) h2 (by omega) h4 (hd x y hin), by decide, by decide⟩
    · rw [setRect_out hin]
      refine r.edge x y h1 h2 h3 h4 (hD.resolve_right hin) ?_
      rcases hn with hn | hn
      · exact Or.inl fun h => hn (Or.inl h)
      · exact Or.inr fun h => hn (Or.inl h)
  · intro x y h1 h2 h3 h4 hn
    exact r.fresh x y h1 h2 h3 h4 fun h => hn (Or.inl h)

theorem ModeRel.congr {E : Env} {buf : Im.Buf} {M : Int → Int → Int} {D D' : Int → Int → Prop} (r : ModeRel E buf M D)
    (h : ∀ p q, D p q ↔ D' p q) : ModeRel E buf M D' := by
  have : D = D' := by funext p q; exact propext (h p q)
  rwa [← this]

theorem reads_modes (hm : m.Lawful G) {E : Env} (bs : List Rect) : ∀ {buf : Im.Buf} {M : Int → Int → Int} {D : Int → Int → Prop}
    {vs : List Int} {c : List Bin}, ModeRel E buf M D → Chain E D bs → modesT bs vs M c →
    ∃ buf', Reads G m (readModes m (2 * E.w) (bs.map Rect.blk) buf) (some vs, buf') c ∧
      ModeRel E buf' (setModes (bs.zip vs) M) (fun p q => D p q ∨ InAny bs p q) ∧ vs.length = bs.length ∧
      ∀ v ∈ vs, 0 ≤ v ∧ v < 33 := by
  induction bs with
  | nil =>
    rintro buf M D vs c r hc ⟨rfl, rfl⟩
    refine ⟨buf, Reads.pure _, ?_, rfl, by simp⟩
    refine ModeRel.congr r fun p q => ?_
    unfold InAny
    simp
  | cons b bs ih =>
    rintro buf M D vs c r ⟨hb, hd, htop, hleft, hc⟩ ⟨v, vs', k, cb, c', rfl, rfl, hk, hcb, hr⟩
    have hn : ¬ D b.x b.y := hd _ _ ⟨by omega, by omega, by omega, by omega⟩
    obtain ⟨t1, t2⟩ := r.edge b.x (b.y - 1) (by omega) (by omega) (by omega) (by omega) htop
      (Or.inr (by rw [Int.sub_add_cancel]; exact hn))
    obtain ⟨l1, l2⟩ := r.edge (b.x - 1) b.y (by omega) (by omega) (by omega) (by omega) hleft
      (Or.inl (by rw [Int.sub_add_cancel]; exact hn))
    obtain ⟨hv, hv2⟩ := mode_number t2 l2 hk
    obtain ⟨buf', h1, h2, h3, h4⟩ := ih (r.store hb hv2) hc hr
    refine ⟨buf', ?_, ?_, by simp [h3], ?_⟩
    · rw [List.map_cons]
      unfold readModes
      dsimp only
      refine Reads.bind ((C79_intraPmode (G := G)).at hm hcb) (Reads.bind0 (Reads.failed hm) ?_)
      rw [if_neg (by decide)]
      have e : Im.mode (buf (Im.addr (2 * E.w) b.blk.x (b.blk.y - 1))) (buf (Im.addr (2 * E.w) (b.blk.x - 1) b.blk.y))
          ((k : Int) - 2) = v := by
        show Im.mode (buf (Im.addr (2 * E.w) b.x (b.y - 1))) (buf (Im.addr (2 * E.w) (b.x - 1) b.y)) _ = v
        rw [t1, l1, hv]
      rw [e]
      exact Reads.last h1 (Reads.pure _)
    · refine ModeRel.congr h2 fun p q => ?_
      unfold InAny
      simp only [List.mem_cons, exists_eq_or_imp]
      tauto
    · intro x hx
      rcases List.mem_cons.mp hx with rfl | hx
      · exact hv2
      · exact h4 x hx

end Davs2.Cs
