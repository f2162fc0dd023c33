import Verif.Lemmas.Motion
/-
Lemmas for C85: the units of a coding unit.
-/
namespace Davs2.Mo
open Davs2.Sx Davs2.Un

/-- Block `(X, Y)` belongs to unit `u` of the coding unit at `(cx, cy)`. -/
def InU (cx cy : Nat) (u : Cb) (X Y : Nat) : Prop :=
  cx + u.x / 4 ≤ X ∧ X < cx + u.x / 4 + u.w / 4 ∧ cy + u.y / 4 ≤ Y ∧ Y < cy + u.y / 4 + u.h / 4

instance (cx cy : Nat) (u : Cb) (X Y : Nat) : Decidable (InU cx cy u X Y) := by unfold InU; infer_instance

/-- Units of a coding unit with `n` x `n` blocks. -/
def UnitsOk (us : List Cb) (n : Nat) : Prop :=
  us.length ≤ 4 ∧ (∀ u ∈ us, 0 < u.w / 4 ∧ 0 < u.h / 4 ∧ u.x / 4 + u.w / 4 ≤ n ∧ u.y / 4 + u.h / 4 ≤ n) ∧
  (∀ X, X < n → ∀ Y, Y < n → ∃ u ∈ us, InU 0 0 u X Y) ∧
  us.Pairwise fun u v => u.x / 4 + u.w / 4 ≤ v.x / 4 ∨ v.x / 4 + v.w / 4 ≤ u.x / 4 ∨ u.y / 4 + u.h / 4 ≤ v.y / 4 ∨ v.y / 4 + v.h / 4 ≤ u.y / 4

instance (us : List Cb) (n : Nat) : Decidable (UnitsOk us n) := by unfold UnitsOk; infer_instance

/-- Units of a coding unit that is neither intra nor skipped. -/
def PairOk (n : Nat) : List Cb → Prop
  | [a] => a.x / 4 = 0 ∧ a.y / 4 = 0 ∧ a.w / 4 = n
  | [a, b] => a.x / 4 = 0 ∧ a.y / 4 = 0 ∧
    ((b.x / 4 = 0 ∧ 0 < b.y / 4 ∧ b.w / 4 = n ∧ InU 0 0 a 0 (b.y / 4 - 1)) ∨ (b.y / 4 = 0 ∧ 0 < b.x / 4 ∧ b.x / 4 + b.w / 4 = n ∧ InU 0 0 a (b.x / 4 - 1) 0))
  | _ => False

instance (n : Nat) : ∀ us, Decidable (PairOk n us)
  | [] => by unfold PairOk; infer_instance
  | [_] => by unfold PairOk; infer_instance
  | [_, _] => by unfold PairOk; infer_instance
  | _ :: _ :: _ :: _ => by unfold PairOk; infer_instance

theorem units_table : ∀ k, k < 4 → ∀ f, f < 2 → ∀ m, m < 12 → TypeAt m (3 + k) → UnitsOk (puUnits f 0 m (3 + k)) (2 ^ (3 + k) / 4) := by decide +kernel

theorem pair_table : ∀ k, k < 4 → ∀ m, m < 8 → 1 ≤ m → TypeAt m (3 + k) →
    (puUnits 0 0 m (3 + k)).length = numUnits m ∧ PairOk (2 ^ (3 + k) / 4) (puUnits 0 0 m (3 + k)) := by decide +kernel

theorem units_frame (frame ds mode level : Nat) : ∃ f, f < 2 ∧ puUnits frame ds mode level = puUnits f 0 mode level := by
  unfold puUnits
  by_cases h : 3 < level ∧ (frame = 1 ∨ (frame = 4 ∧ ds = 0) ∨ (frame = 2 ∧ ds = 0))
  · refine ⟨1, by omega, ?_⟩
    rw [if_pos h, if_pos (⟨h.1, Or.inl rfl⟩ : 3 < level ∧ (1 = 1 ∨ _))]
  · refine ⟨0, by omega, ?_⟩
    rw [if_neg h, if_neg (show ¬ (3 < level ∧ (0 = 1 ∨ (0 = 4 ∧ 0 = 0) ∨ (0 = 2 ∧ 0 = 0))) by omega)]

theorem units_ok {frame ds mode level : Nat} (hm : mode < 12) (ht : TypeAt mode level) (h3 : 3 ≤ level) (h6 : level ≤ 6) :
    UnitsOk (puUnits frame ds mode level) (2 ^ level / 4) := by
  obtain ⟨f, hf, e⟩ := units_frame frame ds mode level
  rw [e]
  have := units_table (level - 3) (by omega) f hf mode hm (by rwa [show 3 + (level - 3) = level by omega])
  rwa [show 3 + (level - 3) = level by omega] at this

theorem pair_ok {frame ds mode level : Nat} (h1 : 1 ≤ mode) (h7 : mode ≤ 7) (ht : TypeAt mode level) (h3 : 3 ≤ level) (h6 : level ≤ 6) :
    (puUnits frame ds mode level).length = numUnits mode ∧ PairOk (2 ^ level / 4) (puUnits frame ds mode level) := by
  have e : puUnits frame ds mode level = puUnits 0 0 mode level := by
    unfold puUnits
    rw [if_neg (by omega), if_neg (by omega)]
  rw [e]
  have := pair_table (level - 3) (by omega) mode (by omega) h1 (by rwa [show 3 + (level - 3) = level by omega])
  rwa [show 3 + (level - 3) = level by omega] at this

/-- All blocks in `D` are complete. -/
def Inv (p : Pic) (D : Nat → Nat → Prop) (st : St) : Prop := ∀ X Y, D X Y → At st (BlkOk p) X Y

/-- The blocks around a coding unit at `(cx, cy)` with `n` x `n` blocks, in a picture of which the blocks in `D` have been decoded. -/
structure Env (p : Pic) (D : Nat → Nat → Prop) (cx cy n : Nat) : Prop where
  pos : 0 < n
  inw : cx + n ≤ p.w
  inh : cy + n ≤ p.h
  left : ∀ X Y, X < cx → Y < cy + n → D X Y
  top : ∀ X Y, Y < cy → X < cx + n → D X Y
  tr : ∀ x y bw, 0 < bw → cx ≤ x → x + bw ≤ cx + n → cy ≤ y → y < cy + n → y = cy ∨ x + bw = cx + n →
    ∃ b, Qt.availTR p.lcu x y bw = some b ∧ (b = true → 0 < y → x + bw < p.w → D (x + bw) (y - 1))
  out : ∀ X Y, D X Y → ¬ (cx ≤ X ∧ X < cx + n ∧ cy ≤ Y ∧ Y < cy + n)

theorem Around.mono {p : Pic} {x y bw : Nat} {G H : Nat → Nat → Prop} (h : Around p x y bw G) (hg : ∀ X Y, G X Y → H X Y) : Around p x y bw H := by
  obtain ⟨b, h1, h2⟩ := h.tr
  exact ⟨fun a => hg _ _ (h.left a), fun a => hg _ _ (h.top a), fun a c => hg _ _ (h.topLeft a c), b, h1, fun a c d => hg _ _ (h2 a c d)⟩

/-- Around the coding unit. -/
theorem Env.around {p : Pic} {D : Nat → Nat → Prop} {cx cy n : Nat} (e : Env p D cx cy n) : Around p cx cy n D where
  left h := e.left _ _ (by omega) (by have := e.pos; omega)
  top h := e.top _ _ (by omega) (by have := e.pos; omega)
  topLeft h h' := e.left _ _ (by omega) (by omega)
  tr := e.tr _ _ _ e.pos (Nat.le_refl _) (Nat.le_refl _) (Nat.le_refl _) (by have := e.pos; omega) (Or.inl rfl)

theorem rect_in {mot : Nat → Nat → Option Blk} {cx cy : Nat} {u : Cb} {f : Option Blk → Blk} {X Y : Nat} (h : InU cx cy u X Y) :
    rect mot (cx + u.x / 4) (cy + u.y / 4) (u.w / 4) (u.h / 4) f X Y = some (f (mot X Y)) := if_pos h

theorem rect_out {mot : Nat → Nat → Option Blk} {cx cy : Nat} {u : Cb} {f : Option Blk → Blk} {X Y : Nat} (h : ¬ InU cx cy u X Y) :
    rect mot (cx + u.x / 4) (cy + u.y / 4) (u.w / 4) (u.h / 4) f X Y = mot X Y := if_neg h

theorem at_rect_in {st : St} {G : Blk → Prop} {cx cy : Nat} {u : Cb} {f : Option Blk → Blk} {X Y : Nat} (h : InU cx cy u X Y) (hg : G (f (st.mot X Y))) :
    At { st with mot := rect st.mot (cx + u.x / 4) (cy + u.y / 4) (u.w / 4) (u.h / 4) f } G X Y := ⟨_, rect_in h, hg⟩

theorem at_rect_out {st : St} {G : Blk → Prop} {cx cy : Nat} {u : Cb} {f : Option Blk → Blk} {X Y : Nat} (h : ¬ InU cx cy u X Y) (hg : At st G X Y) :
    At { st with mot := rect st.mot (cx + u.x / 4) (cy + u.y / 4) (u.w / 4) (u.h / 4) f } G X Y := by
  obtain ⟨b, hb, hb'⟩ := hg
  refine ⟨b, ?_, hb'⟩
  dsimp only
  rw [rect_out h, hb]

theorem fine_skipUnits {p : Pic} {D : Nat → Nat → Prop} {cx cy : Nat} {dir : Option Int} {get : St → Nat → Nat → M Mv} (Q : Mv → Prop) (us0 : List (Cb × Nat))
    (hget : ∀ st, Inv p D st → ∀ q ∈ us0, Fine (get st (cx + q.1.x / 4) (cy + q.1.y / 4)) Q)
    (hQ : ∀ m, Q m → ∀ d0 : Int, BlkOk p ⟨dir.getD d0, m.r1, m.r2, m.v1, m.v2⟩) :
    ∀ us st (D' : Nat → Nat → Prop), (∀ q ∈ us, q ∈ us0) → (∀ X Y, D X Y → D' X Y) → Inv p D' st → Fine (skipUnits cx cy dir get st us) fun r =>
      Inv p (fun X Y => D' X Y ∨ ∃ q ∈ us, InU cx cy q.1 X Y) r.1 ∧ r.1.slice = st.slice ∧ r.1.cu = st.cu ∧
      r.2.map Prod.snd = us.map Prod.snd ∧ ∀ m ∈ r.2, Q m.1 := by
  intro us
  induction us with
  | nil =>
    intro st D' _ _ hi
    refine Fine.pure ⟨?_, rfl, rfl, rfl, by simp⟩
    intro X Y h
    rcases h with h | ⟨q, h, _⟩
    · exact hi X Y h
    · cases h
  | cons q us ih =>
    obtain ⟨u, i⟩ := q
    intro st D' hs hD hi
    unfold skipUnits
    refine Fine.bind (hget st (fun X Y h => hi X Y (hD X Y h)) _ (hs _ (List.mem_cons_self ..))) fun m hm => ?_
    have hi' : Inv p (fun X Y => D' X Y ∨ InU cx cy u X Y) { st with mot := rect st.mot (cx + u.x / 4) (cy + u.y / 4) (u.w / 4) (u.h / 4) fun o =>
        ⟨dir.getD ((o.map (·.dir)).getD (-1)), m.r1, m.r2, m.v1, m.v2⟩ } := by
      intro X Y h
      by_cases hu : InU cx cy u X Y
      · exact at_rect_in hu (hQ m hm _)
      · exact at_rect_out hu (hi X Y (h.resolve_right hu))
    refine Fine.bind (ih _ _ (fun q hq => hs q (List.mem_cons_of_mem _ hq)) (fun X Y h => Or.inl (hD X Y h)) hi') fun r hr => Fine.pure ?_
    obtain ⟨h1, h2, h3, h4, h5⟩ := hr
    refine ⟨?_, h2, h3, ?_, ?_⟩
    · intro X Y h
      apply h1
      rcases h with h | ⟨q, hq, hq'⟩
      · exact Or.inl (Or.inl h)
      · rcases List.mem_cons.mp hq with rfl | hq
        · exact Or.inl (Or.inr hq')
        · exact Or.inr ⟨q, hq, hq'⟩
    · simp only [List.map_cons, h4]
    · intro m' hm'
      rcases List.mem_cons.mp hm' with rfl | hm'
      · exact hm
      · exact h5 m' hm'

theorem fine_usesAll {p : Pic} (hp : p.Ok) {dirs : List Int} {dmh : Nat} (hd : dmh ≤ 8) :
    ∀ ms : List (Mv × Nat), (∀ m ∈ ms, UseOk p (dirs.getD m.2 (-1)) m.1) → Fine (usesAll p dirs dmh ms) fun r =>
      r.map (List.map fun e => (e.ref : Int)) = ms.map (fun m => named p (dirs.getD m.2 (-1)) dmh m.1) ∧ ∀ us ∈ r, ∀ u ∈ us, u.ref < p.refs.length := by
  intro ms
  induction ms with
  | nil => intro _; exact Fine.pure ⟨rfl, by simp⟩
  | cons m ms ih =>
    intro h
    obtain ⟨m, i⟩ := m
    unfold usesAll
    refine Fine.bind (fine_uses hp (h _ (List.mem_cons_self ..)) hd) fun u hu => Fine.bind (ih fun m hm => h m (List.mem_cons_of_mem _ hm)) fun r hr => Fine.pure ?_
    refine ⟨?_, ?_⟩
    · simp only [List.map_cons, hu.1, hr.1]
    · intro us hus e he
      rcases List.mem_cons.mp hus with rfl | hus
      · have := hu.2 (e.ref : Int) (by rw [← hu.1]; exact List.mem_map.mpr ⟨e, he, rfl⟩)
        omega
      · exact hr.2 us hus e he

/-! Motion of skipped units -/

theorem getLast_mem {l : List Blk} {b : Blk} (f : Blk → Bool) (h : (l.filter f).getLast? = some b) : b ∈ l ∧ f b = true :=
  List.mem_filter.mp (List.mem_of_getLast? h)

theorem head_mem {l : List Blk} {b : Blk} (f : Blk → Bool) (h : (l.filter f).head? = some b) : b ∈ l ∧ f b = true :=
  List.mem_filter.mp (List.mem_of_head? h)

/-- Motion with two references, or one. -/
def PfOk (p : Pic) (two : Bool) (m : Mv) : Prop :=
  (0 ≤ m.r1 ∧ m.r1 < p.refs.length) ∧ (if two then 0 ≤ m.r2 ∧ m.r2 < p.refs.length else m.r2 = -1) ∧ m.v1.isSome ∧ m.v2.isSome

theorem PfOk.blk {p : Pic} (h2 : p.frame ≠ 2) {two : Bool} {m : Mv} (h : PfOk p two m) (d : Int) : BlkOk p ⟨d, m.r1, m.r2, m.v1, m.v2⟩ := by
  unfold BlkOk
  rw [if_neg h2]
  obtain ⟨h3, h4, h5, h6⟩ := h
  refine Or.inr ⟨h3, ?_, h5, h6⟩
  cases two
  · exact Or.inl (by simpa using h4)
  · exact Or.inr (by simpa using h4)

theorem PfOk.use {p : Pic} (h2 : p.frame ≠ 2) {two : Bool} {m : Mv} (h : PfOk p two m) : UseOk p (if two then 4 else 0) m := by
  unfold UseOk
  rw [if_neg h2]
  obtain ⟨h3, h4, h5, h6⟩ := h
  refine ⟨⟨h3.1, h3.2, h5⟩, ?_⟩
  cases two
  · exact Or.inl rfl
  · rw [if_pos rfl] at h4
    exact Or.inr ⟨rfl, h4.1, h4.2, h6⟩

theorem fine_skipScale (p : Pic) (v : Vec) (a b : Int) : Fine (skipScale p v a b) fun _ => True := by
  unfold skipScale
  exact Fine.bind (fine_arith _) fun _ _ => Fine.bind (fine_arith _) fun _ _ => trivial

theorem fine_biskipScale (p : Pic) (v : Vec) (a b : Int) : Fine (biskipScale p v a b) fun _ => True := by
  unfold biskipScale
  exact Fine.bind (fine_arith _) fun _ _ => Fine.bind (fine_arith _) fun _ _ => trivial

theorem fine_pfCol {p : Pic} (hp : p.Ok) {x y : Nat} (hx : x < p.w) (hy : y < p.h) : Fine (pfCol p x y) fun _ => True := by
  unfold pfCol
  have h0 := hp.some
  refine Fine.bind (fine_fref 0 (by omega) (by omega) hp.four) fun f hf => ?_
  have hs := hp.saved f (List.mem_of_getElem? hf) x y hx hy
  dsimp only
  refine Fine.ite (fun hr => ?_) fun _ => trivial
  obtain ⟨h1, h2, h3⟩ := hs.resolve_left (by omega)
  exact Fine.bind (fine_dist_saved _ h1 h2) fun _ _ => Fine.bind (fine_known h3) fun _ _ => Fine.bind (fine_dist 0 (by omega) (by omega)) fun _ _ =>
    Fine.bind (fine_arith _) fun _ _ => Fine.bind (fine_arith _) fun _ _ => trivial

theorem fine_pfTemporal {p : Pic} (hp : p.Ok) {x y wsm : Nat} (hx : x < p.w) (hy : y < p.h) (hw : wsm = 0 ∨ wsm < p.refs.length) :
    Fine (pfTemporal p wsm x y) (PfOk p (decide (wsm ≠ 0))) := by
  unfold pfTemporal
  have h0 := hp.some
  refine Fine.bind (fine_pfCol hp hx hy) fun v1 _ => ?_
  refine Fine.ite (fun hr => ?_) fun hr => ?_
  · have := hw.resolve_left hr
    refine Fine.bind (fine_dist _ (by omega) (by omega)) fun _ _ => Fine.bind (fine_dist _ (by omega) (by omega)) fun _ _ =>
      Fine.bind (fine_skipScale _ _ _ _) fun _ _ => Fine.pure ?_
    refine ⟨⟨by dsimp only; omega, by dsimp only; omega⟩, ?_, rfl, rfl⟩
    rw [if_pos (by simpa using hr)]
    exact ⟨by dsimp only; omega, by dsimp only; omega⟩
  · refine Fine.pure ⟨⟨by dsimp only; omega, by dsimp only; omega⟩, ?_, rfl, rfl⟩
    rw [if_neg (by simpa using hr)]

theorem pf_facts {p : Pic} (h2 : p.frame ≠ 2) {b : Blk} (h : BlkOk p b) (h1 : b.r1 ≠ -1) :
    (0 ≤ b.r1 ∧ b.r1 < p.refs.length) ∧ (b.r2 ≠ -1 → 0 ≤ b.r2 ∧ b.r2 < p.refs.length) ∧ b.v1.isSome ∧ b.v2.isSome := by
  unfold BlkOk at h
  rw [if_neg h2] at h
  rcases h with h | ⟨h3, h4, h5, h6⟩
  · exact absurd h.1 h1
  · exact ⟨h3, fun h7 => h4.resolve_left h7, h5, h6⟩

theorem fskip_ok {p : Pic} (hp : p.Ok) (h2 : p.frame ≠ 2) {ns : List Blk} (hn : ∀ b ∈ ns, BlkOk p b) (ds : Nat) :
    PfOk p (decide (ds = 1 ∨ ds = 2)) (fskip ns ds) := by
  have h0 := hp.some
  have z : PfOk p true ⟨0, 0, some (0, 0), some (0, 0)⟩ := ⟨⟨by dsimp only; omega, by dsimp only; omega⟩, by rw [if_pos rfl]; dsimp only; omega, rfl, rfl⟩
  have z1 : PfOk p false ⟨0, -1, some (0, 0), some (0, 0)⟩ := ⟨⟨by dsimp only; omega, by dsimp only; omega⟩, by rw [if_neg (by decide)], rfl, rfl⟩
  have bid : ∀ b, (b ∈ ns ∧ (decide (b.r1 ≠ -1 ∧ b.r2 ≠ -1)) = true) → (0 ≤ b.r1 ∧ b.r1 < p.refs.length) ∧ (0 ≤ b.r2 ∧ b.r2 < p.refs.length) ∧ b.v1.isSome ∧ b.v2.isSome := by
    intro b hb
    obtain ⟨hm, hd⟩ := hb
    obtain ⟨hd1, hd2⟩ := of_decide_eq_true hd
    obtain ⟨f1, f2, f3, f4⟩ := pf_facts h2 (hn b hm) hd1
    exact ⟨f1, f2 hd2, f3, f4⟩
  have fw : ∀ b, (b ∈ ns ∧ (decide (b.r1 ≠ -1 ∧ b.r2 = -1)) = true) → (0 ≤ b.r1 ∧ b.r1 < p.refs.length) ∧ b.v1.isSome := by
    intro b hb
    obtain ⟨hm, hd⟩ := hb
    obtain ⟨hd1, hd2⟩ := of_decide_eq_true hd
    obtain ⟨f1, f2, f3, f4⟩ := pf_facts h2 (hn b hm) hd1
    exact ⟨f1, f3⟩
  have both : ∀ b, (b ∈ ns ∧ (decide (b.r1 ≠ -1 ∧ b.r2 ≠ -1)) = true) → PfOk p true ⟨b.r1, b.r2, b.v1, b.v2⟩ := by
    intro b hb
    obtain ⟨f1, f2, f3, f4⟩ := bid b hb
    exact ⟨f1, by rw [if_pos rfl]; exact f2, f3, f4⟩
  have single : ∀ (r : Int) (v : Option Vec), (0 ≤ r ∧ r < p.refs.length) → v.isSome → PfOk p false ⟨r, -1, v, some (0, 0)⟩ := by
    intro r v hr hv
    exact ⟨hr, by rw [if_neg (by decide)], hv, rfl⟩
  have pair : PfOk p true (match (ns.filter fun b => b.r1 ≠ -1 ∧ b.r2 = -1).getLast?, (ns.filter fun b => b.r1 ≠ -1 ∧ b.r2 = -1).head? with
      | some a, some b => ⟨a.r1, b.r1, a.v1, b.v1⟩
      | _, _ => ⟨0, 0, some (0, 0), some (0, 0)⟩) := by
    cases ha : (ns.filter fun b => decide (b.r1 ≠ -1 ∧ b.r2 = -1)).getLast? with
    | none => exact z
    | some a =>
      cases hb : (ns.filter fun b => decide (b.r1 ≠ -1 ∧ b.r2 = -1)).head? with
      | none => exact z
      | some b =>
        have f1 := fw a (getLast_mem _ ha)
        have f2 := fw b (head_mem _ hb)
        exact ⟨f1.1, by rw [if_pos rfl]; exact f2.1, f1.2, f2.2⟩
  unfold fskip
  dsimp only
  by_cases d1 : ds = 1
  · rw [if_pos d1, show decide (ds = 1 ∨ ds = 2) = true by simp [d1]]
    cases hb : (ns.filter fun b => decide (b.r1 ≠ -1 ∧ b.r2 ≠ -1)).getLast? with
    | some b => exact both b (getLast_mem _ hb)
    | none =>
      dsimp only
      split_ifs
      · exact pair
      · exact z
  · rw [if_neg d1]
    by_cases d2 : ds = 2
    · rw [if_pos d2, show decide (ds = 1 ∨ ds = 2) = true by simp [d2]]
      split_ifs
      · cases hb : (ns.filter fun b => decide (b.r1 ≠ -1 ∧ b.r2 ≠ -1)).head? with
        | some b => exact both b (head_mem _ hb)
        | none => exact z
      · exact pair
      · exact z
    · rw [if_neg d2, show decide (ds = 1 ∨ ds = 2) = false by simp [d1, d2]]
      split_ifs
      · cases hb : (ns.filter fun b => decide (b.r1 ≠ -1 ∧ b.r2 = -1)).getLast? with
        | some b => exact single _ _ (fw b (getLast_mem _ hb)).1 (fw b (getLast_mem _ hb)).2
        | none =>
          dsimp only
          cases hb : (ns.filter fun b => decide (b.r1 ≠ -1 ∧ b.r2 ≠ -1)).head? with
          | some b => exact single _ _ (bid b (head_mem _ hb)).1 (bid b (head_mem _ hb)).2.2.1
          | none => exact z1
      · cases hb : (ns.filter fun b => decide (b.r1 ≠ -1 ∧ b.r2 = -1)).head? with
        | some b => exact single _ _ (fw b (head_mem _ hb)).1 (fw b (head_mem _ hb)).2
        | none => exact z1
      · cases hb : (ns.filter fun b => decide (b.r1 ≠ -1 ∧ b.r2 ≠ -1)).head? with
        | some b => exact single _ _ (bid b (head_mem _ hb)).2.1 (bid b (head_mem _ hb)).2.2.2
        | none => exact z1

/-- Motion in a B picture with direction `d`. -/
def BOk (d : Int) (m : Mv) : Prop :=
  (0 ≤ d ∧ d ≤ 3) ∧ (m.r1 = if d = 1 then -1 else 1) ∧ (m.r2 = if d = 0 then -1 else 0) ∧ (d ≠ 1 → m.v1.isSome) ∧ (d ≠ 0 → m.v2.isSome)

theorem BOk.blk {p : Pic} (h2 : p.frame = 2) {d : Int} {m : Mv} (h : BOk d m) : BlkOk p ⟨d, m.r1, m.r2, m.v1, m.v2⟩ := by
  unfold BlkOk
  rw [if_pos h2]
  obtain ⟨⟨a, b⟩, h3, h4, h5, h6⟩ := h
  refine ⟨⟨by dsimp only; omega, b⟩, ?_, ?_, ?_, ?_⟩ <;> dsimp only
  · rw [h3]
    by_cases hd : d = 1
    · rw [if_pos hd, if_pos (Or.inr hd)]
    · rw [if_neg hd, if_neg (by omega)]
  · rw [h4]
    by_cases hd : d = 0
    · rw [if_pos hd, if_pos (Or.inr hd)]
    · rw [if_neg hd, if_neg (by omega)]
  · intro hr
    apply h5
    intro hd
    rw [if_pos hd] at h3
    exact hr h3
  · intro hr
    apply h6
    intro hd
    rw [if_pos hd] at h4
    exact hr h4

theorem BOk.use {p : Pic} (h2 : p.frame = 2) {d : Int} {m : Mv} (h : BOk d m) : UseOk p d m := by
  unfold UseOk
  rw [if_pos h2]
  exact ⟨h.1, h.2.2.2.1, h.2.2.2.2⟩

theorem b_facts {p : Pic} (h2 : p.frame = 2) {b : Blk} (h : BlkOk p b) : (b.dir = 0 ∨ b.dir = 2 ∨ b.dir = 3 → b.v1.isSome) ∧ (b.dir = 1 ∨ b.dir = 2 ∨ b.dir = 3 → b.v2.isSome) := by
  unfold BlkOk at h
  rw [if_pos h2] at h
  obtain ⟨-, h3, h4, h5, h6⟩ := h
  constructor
  · intro hd
    apply h5
    rw [h3, if_neg (by omega)]
    decide
  · intro hd
    apply h6
    rw [h4, if_neg (by omega)]
    decide

theorem bskipVec_ok {p : Pic} (h2 : p.frame = 2) {ns : List Blk} (hn : ∀ b ∈ ns, BlkOk p b) (ds : Nat) : (bskipVec ns ds).1.isSome ∧ (bskipVec ns ds).2.isSome := by
  have both : ∀ d : Int, (d = 2 ∨ d = 3) → ∀ b, (b ∈ ns ∧ (decide (b.dir = d)) = true) → b.v1.isSome ∧ b.v2.isSome := by
    intro d hd b hb
    have := of_decide_eq_true hb.2
    have f := b_facts h2 (hn b hb.1)
    exact ⟨f.1 (by omega), f.2 (by omega)⟩
  have bw : ∀ b, (b ∈ ns ∧ (decide (b.dir = 1)) = true) → b.v2.isSome := by
    intro b hb
    have := of_decide_eq_true hb.2
    exact (b_facts h2 (hn b hb.1)).2 (by omega)
  have fw : ∀ b, (b ∈ ns ∧ (decide (b.dir = 0)) = true) → b.v1.isSome := by
    intro b hb
    have := of_decide_eq_true hb.2
    exact (b_facts h2 (hn b hb.1)).1 (by omega)
  have first : (((ns.filter fun b => decide (b.dir = 3)).head?.elim ((some (0, 0) : Option Vec), (some (0, 0) : Option Vec)) fun b => (b.v1, b.v2)).1.isSome) ∧
      (((ns.filter fun b => decide (b.dir = 3)).head?.elim ((some (0, 0) : Option Vec), (some (0, 0) : Option Vec)) fun b => (b.v1, b.v2)).2.isSome) := by
    cases hb : (ns.filter fun b => decide (b.dir = 3)).head? with
    | some b => exact both 3 (Or.inr rfl) b (head_mem _ hb)
    | none => exact ⟨rfl, rfl⟩
  unfold bskipVec
  dsimp only
  by_cases d1 : ds = 1
  on_goal 2 => by_cases d2 : ds = 2
  on_goal 3 => by_cases d3 : ds = 3
  · rw [if_pos d1]
    cases hb : (ns.filter fun b => decide (b.dir = 3)).getLast? with
    | some b => exact both 3 (Or.inr rfl) b (getLast_mem _ hb)
    | none =>
      dsimp only
      cases hf : (ns.filter fun b => decide (b.dir = 0)).getLast? with
      | none => exact ⟨rfl, rfl⟩
      | some f =>
        cases hg : (ns.filter fun b => decide (b.dir = 1)).getLast? with
        | none => exact ⟨rfl, rfl⟩
        | some g => exact ⟨fw f (getLast_mem _ hf), bw g (getLast_mem _ hg)⟩
  · rw [if_neg d1, if_pos d2]
    refine ⟨rfl, ?_⟩
    cases hg : (ns.filter fun b => decide (b.dir = 1)).getLast? with
    | none => exact first.2
    | some g => exact bw g (getLast_mem _ hg)
  · rw [if_neg d1, if_neg d2, if_pos d3]
    cases hs : (ns.filter fun b => decide (b.dir = 2)).getLast? with
    | some b => exact both 2 (Or.inl rfl) b (getLast_mem _ hs)
    | none =>
      dsimp only
      split_ifs
      · exact first
      · cases hg : (ns.filter fun b => decide (b.dir = 1)).getLast? with
        | some g => exact ⟨by rw [Option.isSome_map]; exact bw g (getLast_mem _ hg), bw g (getLast_mem _ hg)⟩
        | none =>
          dsimp only
          cases hf : (ns.filter fun b => decide (b.dir = 0)).getLast? with
          | none => exact ⟨rfl, rfl⟩
          | some f => exact ⟨fw f (getLast_mem _ hf), by simp only [Option.elim]; rw [Option.isSome_map]; exact fw f (getLast_mem _ hf)⟩
  · rw [if_neg d1, if_neg d2, if_neg d3]
    refine ⟨?_, rfl⟩
    cases hf : (ns.filter fun b => decide (b.dir = 0)).getLast? with
    | none => exact first.1
    | some f => exact fw f (getLast_mem _ hf)

theorem bskip_ok {p : Pic} (h2 : p.frame = 2) {ns : List Blk} (hn : ∀ b ∈ ns, BlkOk p b) (ds : Nat) (h0 : ds ≠ 0) (h4 : ds ≤ 4) :
    BOk (pdirBskip.getD ds 0) (bskip ns ds) := by
  have hv := bskipVec_ok h2 hn ds
  obtain rfl | rfl | rfl | rfl : ds = 1 ∨ ds = 2 ∨ ds = 3 ∨ ds = 4 := by omega
  all_goals exact ⟨by decide, rfl, rfl, fun _ => hv.1, fun _ => hv.2⟩

theorem fine_bTemporal {p : Pic} (hp : p.Ok) (h2 : p.frame = 2) {D : Nat → Nat → Prop} {cx cy n : Nat} (e : Env p D cx cy n) {st : St} (hi : Inv p D st)
    {slice : Int} {x y : Nat} (hx : x < p.w) (hy : y < p.h) : Fine (bTemporal p st slice cx cy n x y) (BOk 2) := by
  have hl := hp.two h2
  have ok : ∀ v1 v2 : Vec, BOk 2 ⟨1, 0, some v1, some v2⟩ := fun _ _ => ⟨by decide, rfl, rfl, fun _ => rfl, fun _ => rfl⟩
  unfold bTemporal
  refine Fine.bind (fine_fref 0 (by omega) (by omega) hp.four) fun f hf => ?_
  have hs := hp.saved f (List.mem_of_getElem? hf) x y hx hy
  dsimp only
  refine Fine.ite (fun hr => ?_) fun hr => ?_
  · have ar (bwd : Bool) : Around p cx cy n (At st (CompOk p bwd)) := e.around.mono fun X Y h => by
      obtain ⟨b, hb, hb'⟩ := hi X Y h
      exact ⟨b, hb, compOk_of_blkOk hp.two hb' bwd⟩
    exact Fine.bind (fine_mvp (ar false) (fun h => absurd h2 h) hp.two) fun _ _ => Fine.bind (fine_mvp (ar true) (fun h => absurd h2 h) hp.two) fun _ _ => Fine.pure (ok _ _)
  · obtain ⟨s1, s2, s3⟩ := hs.resolve_left hr
    exact Fine.bind (fine_dist_saved _ s1 s2) fun _ _ => Fine.bind (fine_dist 0 (by omega) (by omega)) fun _ _ => Fine.bind (fine_dist 1 (by omega) (by omega)) fun _ _ =>
      Fine.bind (fine_known s3) fun _ _ => Fine.bind (fine_biskipScale _ _ _ _) fun _ _ => Fine.bind (fine_biskipScale _ _ _ _) fun _ _ => Fine.pure (ok _ _)

end Davs2.Mo
