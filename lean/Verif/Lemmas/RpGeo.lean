import Verif.Lemmas.RpCu
/-
C88: a coding unit is reconstructed as specified.
-/
namespace Davs2.Rp
open Davs2.Spec Davs2.Ip Davs2.Qt

variable {p : Pic} {k : Coded} {lx ly : Nat}

theorem T_units (hp : p.Ok) : p.T = 2 ^ (2 - p.s) * 2 ^ (p.lcu - 2) := by
  have := hp.s; have := hp.lo
  unfold Pic.T
  rw [← Nat.pow_add]; congr 1; omega

theorem cu_end {lcu l i : Nat} (hl : l ≤ lcu) (hi : i < 2 ^ (lcu - l)) : i * 2 ^ l + 2 ^ l ≤ 2 ^ lcu := by
  have e : 2 ^ lcu = 2 ^ (lcu - l) * 2 ^ l := by rw [← Nat.pow_add]; congr 1; omega
  have := Nat.mul_le_mul_right (2 ^ l) (Nat.succ_le_of_lt hi)
  rw [Nat.succ_mul] at this
  omega

theorem geo (hp : p.Ok) {i j : Nat} {pre post : List Cu} {c : Cu} (a : At p k lx ly pre post c i j) {tr t : Nat} (ht : tr ∈ splits c.l) {b : Blk}
    (hb : (cuBlks p lx ly c tr)[t]? = some b) :
    ∃ dl trf, Geo p lx ly (fun X Y => Cus p pre X Y ∨ Blks p lx ly ((cuBlks p lx ly c tr).take t) X Y) b dl trf := by
  have hb' := hb
  rw [rel_eq a] at hb'
  obtain ⟨ux, uy, uw, uh, B⟩ := blkOk_iff (blk_ok hp.s hp.lo hp.hi a.l3 a.ll a.il a.jl ht hb')
  have D := fun px py X Y => done_iff (t := t) (px := px) (py := py) (X := X) (Y := Y) hp a ht
  obtain ⟨vt, tr1, tr2⟩ := B.gtr
  obtain ⟨vd, dl1, dl2⟩ := B.gdl
  have hT := T_units hp
  have hN : 2 ^ p.lcu = 4 * 2 ^ (p.lcu - 2) := by
    have := hp.lo
    rw [show (4 : Nat) = 2 ^ 2 by rfl, ← Nat.pow_add]; congr 1; omega
  have ei := cu_end a.ll a.il
  have ej := cu_end a.ll a.jl
  have ax := a.x; have ay := a.y; have aw := a.inw; have ah := a.inh
  have ox := org_luma hp lx; have oy := org_luma hp ly
  have bx2 := B.x2; have by2 := B.y2; have ex := B.ex; have ey := B.ey; have ew := B.ew; have eh := B.eh; have hpw := B.pw; have hph := B.ph
  have hux : ux + uw ≤ 2 ^ (p.lcu - 2) := by omega
  have huy : uy + uh ≤ 2 ^ (p.lcu - 2) := by omega
  have T1 : b.x + b.w ≤ p.T := by rcases s01 hp with h0 | h0 <;> rw [h0] at hT ex ew <;> omega
  have T2 : b.y + b.h ≤ p.T := by rcases s01 hp with h0 | h0 <;> rw [h0] at hT ey eh <;> omega
  have W1 : p.org lx + b.x + b.w ≤ p.pw := by
    unfold Pic.pw
    rcases s01 hp with h0 | h0 <;> rw [h0] at ox ex ew ⊢ <;> omega
  have W2 : p.org ly + b.y + b.h ≤ p.ph := by
    unfold Pic.ph
    rcases s01 hp with h0 | h0 <;> rw [h0] at oy ey eh ⊢ <;> omega
  have hq : ∀ m i, i < 2 ^ (2 - p.s) * m → i / 2 ^ (2 - p.s) < m ∧ 2 ^ (2 - p.s) * (i / 2 ^ (2 - p.s)) ≤ i ∧ i < 2 ^ (2 - p.s) * (i / 2 ^ (2 - p.s)) + 2 ^ (2 - p.s) := by
    intro m i hi
    rcases s01 hp with h0 | h0 <;> rw [h0] at hi ⊢ <;> omega
  have mul2 : ∀ x y, 2 ^ (2 - p.s) * (x + y) = 2 ^ (2 - p.s) * x + 2 ^ (2 - p.s) * y := fun x y => Nat.mul_add _ _ _
  have sub1 : ∀ x, 0 < x → 2 ^ (2 - p.s) * (x - 1) = 2 ^ (2 - p.s) * x - 2 ^ (2 - p.s) := by
    intro x _
    rw [Nat.mul_sub, Nat.mul_one]
  have qp := Nat.two_pow_pos (2 - p.s)
  have pos : ∀ {z u : Nat}, z = 2 ^ (2 - p.s) * u → 0 < z → 0 < u ∧ 2 ^ (2 - p.s) ≤ z := by
    intro z u e h
    have hu : 0 < u := by
      rcases Nat.eq_zero_or_pos u with h0 | h0
      · rw [h0, Nat.mul_zero] at e; omega
      · exact h0
    exact ⟨hu, by rw [e]; exact Nat.le_mul_of_pos_right _ hu⟩
  refine ⟨vd, vt, B.shape, ⟨ux, B.ex⟩, ⟨uy, B.ey⟩, ⟨uw, B.ew⟩, ⟨uh, B.eh⟩, T1, T2, W1, W2, ?_, ?_, ?_, ?_, ?_, ?_, ?_, ?_⟩
  · intro h i hi
    obtain ⟨hu, hz⟩ := pos ex h
    rw [eh] at hi
    obtain ⟨q1, q2, q3⟩ := hq uh i hi
    have := B.left.resolve_left (by omega) _ q1
    refine (D _ _ _ _ ?_ ?_ ?_ ?_ ?_ ?_ ?_ ?_).mp this
    all_goals first | rw [sub1 _ hu] | rw [mul2] | skip
    all_goals omega
  · intro h i hi
    obtain ⟨hu, hz⟩ := pos ey h
    rw [ew] at hi
    obtain ⟨q1, q2, q3⟩ := hq uw i hi
    have := B.top.resolve_left (by omega) _ q1
    refine (D _ _ _ _ ?_ ?_ ?_ ?_ ?_ ?_ ?_ ?_).mp this
    all_goals first | rw [sub1 _ hu] | rw [mul2] | skip
    all_goals omega
  · intro h h'
    obtain ⟨hu, hz⟩ := pos ex h
    obtain ⟨hu', hz'⟩ := pos ey h'
    have := B.corner.resolve_left (by omega)
    refine (D _ _ _ _ ?_ ?_ ?_ ?_ ?_ ?_ ?_ ?_).mp this
    all_goals first | rw [sub1 _ hu] | rw [sub1 _ hu'] | skip
    all_goals omega
  · have c1 : b.x * 2 ^ p.s / 4 = ux := by rw [ex]; rcases s01 hp with h0 | h0 <;> rw [h0] <;> omega
    have c2 : b.y * 2 ^ p.s / 4 = uy := by rw [ey]; rcases s01 hp with h0 | h0 <;> rw [h0] <;> omega
    have c3 : b.w * 2 ^ p.s / 4 = uw := by rw [ew]; rcases s01 hp with h0 | h0 <;> rw [h0] <;> omega
    have c4 : b.h * 2 ^ p.s / 4 = uh := by rw [eh]; rcases s01 hp with h0 | h0 <;> rw [h0] <;> omega
    unfold tabs availDL availTR
    rw [c1, c2, c3, c4, Nat.add_mul_mod_self_right, Nat.add_mul_mod_self_right, Nat.mod_eq_of_lt (show ux < _ by omega), Nat.mod_eq_of_lt (show uy < _ by omega),
      tr1, dl1]
    rfl
  · have := B.wr
    rcases s01 hp with h0 | h0 <;> rw [h0] at hT ex ew <;> omega
  · have := B.hd
    rcases s01 hp with h0 | h0 <;> rw [h0] at hT ey eh <;> omega
  · intro hin
    rw [tr2]
    have hd : ux + 2 * uw ≤ 2 ^ (p.lcu - 2) ↔ b.x + 2 * b.w ≤ p.T := by
      rcases s01 hp with h0 | h0 <;> rw [h0] at hT ex ew <;> omega
    have hz : uy = 0 ↔ b.y = 0 := by
      rcases s01 hp with h0 | h0 <;> rw [h0] at ey <;> omega
    rw [hd, hz]
    by_cases h0 : b.y = 0
    · exact iff_of_true (Or.inl h0) (Or.inl h0)
    · rw [or_iff_right h0, or_iff_right h0]
      apply and_congr_right
      intro hT2
      obtain ⟨hu, hz⟩ := pos ey (by omega)
      constructor
      · intro h i hi
        have hi' := hi
        rw [ew] at hi'
        obtain ⟨q1, q2, q3⟩ := hq uw i hi'
        refine (D _ _ _ _ ?_ ?_ ?_ ?_ ?_ ?_ ?_ ?_).mp (h _ q1)
        all_goals first | rw [sub1 _ hu] | rw [mul2, mul2] | skip
        all_goals omega
      · intro h i hi
        have hi' : 2 ^ (2 - p.s) * i < b.w := by
          rw [ew]; exact (Nat.mul_lt_mul_left qp).mpr hi
        refine (D _ _ _ _ ?_ ?_ ?_ ?_ ?_ ?_ ?_ ?_).mpr (h _ hi')
        all_goals first | rw [sub1 _ hu] | rw [mul2, mul2] | skip
        all_goals omega
  · intro hin
    rw [dl2]
    have hd : uy + 2 * uh ≤ 2 ^ (p.lcu - 2) ↔ b.y + 2 * b.h ≤ p.T := by
      rcases s01 hp with h0 | h0 <;> rw [h0] at hT ey eh <;> omega
    have hz : ux = 0 ↔ b.x = 0 := by
      rcases s01 hp with h0 | h0 <;> rw [h0] at ex <;> omega
    rw [hd, hz]
    apply and_congr_right
    intro hT2
    by_cases h0 : b.x = 0
    · exact iff_of_true (Or.inl h0) (Or.inl h0)
    · rw [or_iff_right h0, or_iff_right h0]
      obtain ⟨hu, hz⟩ := pos ex (by omega)
      constructor
      · intro h i hi
        have hi' := hi
        rw [eh] at hi'
        obtain ⟨q1, q2, q3⟩ := hq uh i hi'
        refine (D _ _ _ _ ?_ ?_ ?_ ?_ ?_ ?_ ?_ ?_).mp (h _ q1)
        all_goals first | rw [sub1 _ hu] | rw [mul2, mul2] | skip
        all_goals omega
      · intro h i hi
        have hi' : 2 ^ (2 - p.s) * i < b.h := by
          rw [eh]; exact (Nat.mul_lt_mul_left qp).mpr hi
        refine (D _ _ _ _ ?_ ?_ ?_ ?_ ?_ ?_ ?_ ?_).mpr (h _ hi')
        all_goals first | rw [sub1 _ hu] | rw [mul2, mul2] | skip
        all_goals omega

/-- What reconstruction of a coding unit leaves alone. -/
structure Keep (st st' : St) : Prop where
  top : st'.top = st.top
  bottom : st'.bottom = st.bottom
  slice : st'.slice = st.slice
  err : st'.err = st.err
  inTab : st'.inTab = st.inTab
  out : st'.out = st.out

theorem Keep.refl (st : St) : Keep st st := ⟨rfl, rfl, rfl, rfl, rfl, rfl⟩
theorem Keep.trans {a b c : St} (h : Keep a b) (g : Keep b c) : Keep a c :=
  ⟨g.top.trans h.top, g.bottom.trans h.bottom, g.slice.trans h.slice, g.err.trans h.err, g.inTab.trans h.inTab, g.out.trans h.out⟩

theorem Inv.congr {R R' : Nat → Nat → Prop} {st : St} {u : Part} (I : Inv p k lx ly R st u) (h : ∀ X Y, R X Y ↔ R' X Y) : Inv p k lx ly R' st u := by
  have : R = R' := by funext X Y; exact propext (h X Y)
  rw [← this]; exact I

/-- Samples outside the coding tree stay as they are. -/
def Frame (p : Pic) (lx ly : Nat) (u u' : Part) : Prop := ∀ X Y : Nat, ¬ (p.lc X = lx ∧ p.lc Y = ly) → u'.val X Y = u.val X Y

theorem Frame.refl (u : Part) : Frame p lx ly u u := fun _ _ _ => rfl
theorem Frame.trans {a b c : Part} (h : Frame p lx ly a b) (g : Frame p lx ly b c) : Frame p lx ly a c :=
  fun X Y n => (g X Y n).trans (h X Y n)

theorem step_frame {b : Block} {u : Part} (h : ∀ X Y, InBlk b.x b.y b.w b.h X Y → p.lc X = lx ∧ p.lc Y = ly) (s : Setting) :
    Frame p lx ly u (Block.step s u b) := by
  intro X Y n
  have : ¬ InBlk b.x b.y b.w b.h X Y := fun g => n (h X Y g)
  unfold InBlk at this
  unfold Block.step
  dsimp only
  rw [if_neg]
  rw [decide_eq_true_eq]
  omega

/-- The blocks of a coding unit. -/
def cuSpec (p : Pic) (k : Coded) (lx ly : Nat) (c : Cu) : List Block :=
  match k.cu c with
  | .intra tr tu => (cuBlks p lx ly c tr).zipIdx.map fun b => ⟨p.org lx + b.1.x, p.org ly + b.1.y, b.1.w, b.1.h, .intra (tu b.2).1 (tu b.2).2⟩
  | .inter val => [⟨c.x / 2 ^ p.s, c.y / 2 ^ p.s, 2 ^ (c.l - p.s), 2 ^ (c.l - p.s), .other val⟩]

/-- Content the parser delivers: transform splits of `aec_read_intra_cu_type` (C50), prediction modes below 33. -/
def ContentOk (k : Coded) (c : Cu) : Prop :=
  match k.cu c with
  | .intra tr tu => (∃ sdip split sym, (Un.intraType sdip c.l split sym).2 = some tr) ∧ ∀ t, (tu t).1 < 33
  | .inter _ => True

theorem splits_ok {l tr : Nat} {sdip split sym : Bool} (h3 : 3 ≤ l) (h6 : l ≤ 6) (h : (Un.intraType sdip l split sym).2 = some tr) : tr ∈ splits l := by
  obtain rfl | rfl | rfl | rfl : l = 3 ∨ l = 4 ∨ l = 5 ∨ l = 6 := by omega
  all_goals
    revert h
    rcases sdip with _ | _ <;> rcases split with _ | _ <;> rcases sym with _ | _
  all_goals
    intro h
    have h := Option.some.inj h
    subst h
    decide

theorem blocks_fold (hp : p.Ok) (hk : SlicesOk p k) {i j : Nat} {pre post : List Cu} {c : Cu} (a : At p k lx ly pre post c i j) {tr : Nat} (ht : tr ∈ splits c.l)
    (scratch : Nat → Border × Border) (tu : Nat → Nat × (Bool → Bool → Nat → Nat → Int → Int)) (hm : ∀ t, (tu t).1 < 33) :
    ∀ (rest done : List Blk) (st : St) (u : Part), cuBlks p lx ly c tr = done ++ rest →
      Inv p k lx ly (fun X Y => Cus p pre X Y ∨ Blks p lx ly done X Y) st u →
      Inv p k lx ly (fun X Y => Cus p pre X Y ∨ Blks p lx ly (cuBlks p lx ly c tr) X Y)
          ((rest.zipIdx done.length).foldl (fun st b => intraBlk p lx ly (int8 (k.slice lx ly)) (scratch b.2) (tu b.2).1 (tu b.2).2 st b.1) st)
          (((rest.zipIdx done.length).map fun b => (⟨p.org lx + b.1.x, p.org ly + b.1.y, b.1.w, b.1.h, .intra (tu b.2).1 (tu b.2).2⟩ : Block)).foldl
            (Block.step (setting p k)) u) ∧
        Keep st ((rest.zipIdx done.length).foldl (fun st b => intraBlk p lx ly (int8 (k.slice lx ly)) (scratch b.2) (tu b.2).1 (tu b.2).2 st b.1) st) ∧
        Frame p lx ly u (((rest.zipIdx done.length).map fun b => (⟨p.org lx + b.1.x, p.org ly + b.1.y, b.1.w, b.1.h, .intra (tu b.2).1 (tu b.2).2⟩ : Block)).foldl
            (Block.step (setting p k)) u) := by
  intro rest
  induction rest with
  | nil =>
    intro done st u e I
    rw [List.append_nil] at e
    rw [e]
    exact ⟨I, Keep.refl st, Frame.refl u⟩
  | cons b rest ih =>
    intro done st u e I
    have hb : (cuBlks p lx ly c tr)[done.length]? = some b := by rw [e]; simp
    have ht' : (cuBlks p lx ly c tr).take done.length = done := by rw [e]; simp
    obtain ⟨dl, trf, G⟩ := geo hp a ht hb
    rw [ht'] at G
    obtain ⟨I', hin⟩ := intra_step hp hk I (hk lx ly a.w a.h) G (scratch done.length) (hm done.length) (tu done.length).2
    have I'' := I'.congr (R' := fun X Y => Cus p pre X Y ∨ Blks p lx ly (done ++ [b]) X Y) (by
      intro X Y
      unfold Blks
      simp only [List.mem_append, List.mem_singleton, or_and_right, exists_or, exists_eq_left, or_assoc])
    have key := ih (done ++ [b]) _ _ (by rw [e]; simp) I''
    rw [List.length_append, List.length_singleton] at key
    have K1 : Keep st (intraBlk p lx ly (int8 (k.slice lx ly)) (scratch done.length) (tu done.length).1 (tu done.length).2 st b) :=
      ⟨rfl, rfl, rfl, rfl, hin, rfl⟩
    exact ⟨key.1, K1.trans key.2.1, (step_frame (fun X Y g => I'.inR X Y (Or.inr g)) _).trans key.2.2⟩

theorem cus_app (pre : List Cu) (c : Cu) (X Y : Nat) : Cus p (pre ++ [c]) X Y ↔ Cus p pre X Y ∨ c.has (X * 2 ^ p.s) (Y * 2 ^ p.s) := by
  unfold Cus
  simp only [List.mem_append, List.mem_singleton, or_and_right, exists_or, exists_eq_left]

theorem cu_step (hp : p.Ok) (hk : SlicesOk p k) (env : Env) {i j : Nat} {pre post : List Cu} {c : Cu} (a : At p k lx ly pre post c i j) (hc : ContentOk k c)
    {st : St} {u : Part} (I : Inv p k lx ly (Cus p pre) st u) :
    Inv p k lx ly (Cus p (pre ++ [c])) (cuRecon p k env lx ly st c) ((cuSpec p k lx ly c).foldl (Block.step (setting p k)) u) ∧
      Keep st (cuRecon p k env lx ly st c) ∧ Frame p lx ly u ((cuSpec p k lx ly c).foldl (Block.step (setting p k)) u) := by
  have hlt := hk lx ly a.w a.h
  have ei := cu_end a.ll a.il
  have ej := cu_end a.ll a.jl
  have ax := a.x; have ay := a.y; have aw := a.inw; have ah := a.inh; have hl3 := a.l3; have hll := a.ll
  have ox := org_luma hp lx; have oy := org_luma hp ly
  have hT := pow_ts hp
  have h2l : 2 ^ c.l = 2 ^ (c.l - p.s) * 2 ^ p.s := by
    have := hp.s
    rw [← Nat.pow_add]; congr 1; omega
  have h2p := Nat.two_pow_pos (c.l - p.s)
  have dvd : ∀ n l : Nat, ∃ m, l * 2 ^ p.lcu + n * 2 ^ c.l = m * 2 ^ p.s := by
    intro n l
    exact ⟨l * p.T + n * 2 ^ (c.l - p.s), by rw [hT, h2l, Nat.add_mul, Nat.mul_assoc, Nat.mul_assoc]⟩
  obtain ⟨mx, hmx⟩ := dvd i lx
  obtain ⟨my, hmy⟩ := dvd j ly
  rw [← ax] at hmx
  rw [← ay] at hmy
  have hsp := Nat.two_pow_pos p.s
  have dx : c.x / 2 ^ p.s = mx := by rw [hmx, Nat.mul_div_cancel _ hsp]
  have dy : c.y / 2 ^ p.s = my := by rw [hmy, Nat.mul_div_cancel _ hsp]
  have has_iff : ∀ X Y, c.has (X * 2 ^ p.s) (Y * 2 ^ p.s) ↔ InBlk mx my (2 ^ (c.l - p.s)) (2 ^ (c.l - p.s)) X Y := by
    intro X Y
    unfold Cu.has InBlk
    rw [hmx, hmy, h2l, ← Nat.add_mul, ← Nat.add_mul, Nat.mul_le_mul_right_iff hsp, Nat.mul_lt_mul_right hsp, Nat.mul_le_mul_right_iff hsp, Nat.mul_lt_mul_right hsp]
  have bx : p.org lx ≤ mx ∧ mx + 2 ^ (c.l - p.s) ≤ p.org lx + p.T ∧ mx < p.pw := by
    unfold Pic.pw
    rcases s01 hp with h0 | h0 <;> rw [h0] at ox hmx h2l hT h2p ⊢ <;> omega
  have bY : p.org ly ≤ my ∧ my + 2 ^ (c.l - p.s) ≤ p.org ly + p.T ∧ my < p.ph := by
    unfold Pic.ph
    rcases s01 hp with h0 | h0 <;> rw [h0] at oy hmy h2l hT h2p ⊢ <;> omega
  have hcur : st.slice (c.y / 8) (c.x / 8) = int8 (k.slice lx ly) := by
    have l1 : p.lc mx = lx := lc_eq.mpr ⟨bx.1, by have := bx.2.1; show _ < p.org lx + _; omega⟩
    have l2 : p.lc my = ly := lc_eq.mpr ⟨bY.1, by have := bY.2.1; show _ < p.org ly + _; omega⟩
    have := I.slice mx my bx.2.2 bY.2.2 (Or.inr ⟨l1, l2⟩)
    rw [← hmx, ← hmy, l1, l2] at this
    exact this
  have eq : cuRecon p k env lx ly st c = match k.cu c with
    | .intra tr tu => (cuBlks p lx ly c tr).zipIdx.foldl (fun st b =>
        intraBlk p lx ly (int8 (k.slice lx ly)) (env.scratch c b.2) (tu b.2).1 (tu b.2).2 st b.1) st
    | .inter val => { st with plane := write st.plane (c.x / 2 ^ p.s) (c.y / 2 ^ p.s) (2 ^ (c.l - p.s)) (2 ^ (c.l - p.s)) val } := by
    unfold cuRecon
    dsimp only
    rw [hcur, if_neg (int8_ne hlt)]
    rcases k.cu c with ⟨_, _⟩ | _ <;> rfl
  rw [eq]
  unfold cuSpec
  unfold ContentOk at hc
  rcases hcu : k.cu c with ⟨tr, tu⟩ | val
  · rw [hcu] at hc
    obtain ⟨⟨sdip, split, sym, e⟩, hm⟩ := hc
    have ht := splits_ok hl3 (by have := hp.hi; omega) e
    dsimp only
    have key := blocks_fold hp hk a ht (env.scratch c) tu hm (cuBlks p lx ly c tr) [] st u rfl
      (I.congr (by intro X Y; unfold Blks; simp))
    refine ⟨key.1.congr ?_, key.2⟩
    intro X Y
    rw [cus_app, has_iff]
    apply or_congr_right
    have cv := cover (x := i * 2 ^ c.l) (y := j * 2 ^ c.l) hp.s hl3 (by have := hp.hi; omega) ht
    have rx : p.org lx + i * 2 ^ c.l / 2 ^ p.s = mx := by
      rw [h2l, ← Nat.mul_assoc, Nat.mul_div_cancel _ hsp]
      rw [ax, ← ox, h2l, ← Nat.mul_assoc, ← Nat.add_mul] at hmx
      exact Nat.eq_of_mul_eq_mul_right hsp hmx
    have ry : p.org ly + j * 2 ^ c.l / 2 ^ p.s = my := by
      rw [h2l, ← Nat.mul_assoc, Nat.mul_div_cancel _ hsp]
      rw [ay, ← oy, h2l, ← Nat.mul_assoc, ← Nat.add_mul] at hmy
      exact Nat.eq_of_mul_eq_mul_right hsp hmy
    rw [rel_eq a]
    unfold Blks
    constructor
    · rintro ⟨b, hb, g⟩
      unfold InBlk at g ⊢
      have := (cv (X - p.org lx) (Y - p.org ly)).mp ⟨b, hb, by unfold InBlk; omega⟩
      unfold InBlk at this
      omega
    · intro g
      unfold InBlk at g
      obtain ⟨b, hb, h⟩ := (cv (X - p.org lx) (Y - p.org ly)).mpr (by unfold InBlk; omega)
      unfold InBlk at h
      exact ⟨b, hb, by unfold InBlk; omega⟩
  · dsimp only
    rw [dx, dy]
    have I' := other_step I val bx.1 bx.2.1 bY.1 bY.2.1
    refine ⟨I'.congr ?_, ⟨rfl, rfl, rfl, rfl, rfl, rfl⟩, step_frame (fun X Y g => I'.inR X Y (Or.inr g)) (setting p k)⟩
    intro X Y
    rw [cus_app, has_iff]

theorem tree_fold (hp : p.Ok) (hk : SlicesOk p k) (env : Env) (h1 : lx * 2 ^ p.lcu < p.w) (h2 : ly * 2 ^ p.lcu < p.h)
    (hc : ∀ c ∈ parse p.w p.h k.split (p.lcu - 3) (lx * 2 ^ p.lcu) (ly * 2 ^ p.lcu), ContentOk k c) :
    ∀ (rest pre : List Cu) (st : St) (u : Part), parse p.w p.h k.split (p.lcu - 3) (lx * 2 ^ p.lcu) (ly * 2 ^ p.lcu) = pre ++ rest →
      Inv p k lx ly (Cus p pre) st u →
      Inv p k lx ly (Cus p (pre ++ rest)) (rest.foldl (cuRecon p k env lx ly) st) ((rest.flatMap (cuSpec p k lx ly)).foldl (Block.step (setting p k)) u) ∧
        Keep st (rest.foldl (cuRecon p k env lx ly) st) ∧ Frame p lx ly u ((rest.flatMap (cuSpec p k lx ly)).foldl (Block.step (setting p k)) u) := by
  intro rest
  induction rest with
  | nil =>
    intro pre st u _ I
    rw [List.append_nil]
    exact ⟨I, Keep.refl st, Frame.refl u⟩
  | cons c rest ih =>
    intro pre st u e I
    obtain ⟨i, j, a⟩ := at_mk hp h1 h2 e
    obtain ⟨I', K, F⟩ := cu_step hp hk env a (hc c (by rw [e]; simp)) I
    have key := ih (pre ++ [c]) _ _ (by rw [e]; simp) I'
    rw [List.append_assoc] at key
    rw [List.flatMap_cons, List.foldl_append]
    exact ⟨key.1, K.trans key.2.1, F.trans key.2.2⟩

end Davs2.Rp
