import Verif.Lemmas.SimdOps
/-
The symbolic evaluation of Lemmas/SimdAbs.lean is sound: values, statements, programs.
-/
namespace Davs2.Si

open Davs2.Vc Finset

variable {cx : Cx} {E : Nat → Int}

theorem toH_some {o : Option (List Oct)} {z : AV} (h : toH o = some z) : ∃ l, o = some l ∧ z = .h l := by
  unfold toH at h
  split at h
  · cases h
  · cases h; exact ⟨_, rfl, rfl⟩

theorem toW_some {o : Option (List Q)} {z : AV} (h : toW o = some z) : ∃ l, o = some l ∧ z = .w l := by
  unfold toW at h
  split at h
  · cases h
  · cases h; exact ⟨_, rfl, rfl⟩

theorem get2 {α : Type} {a b : α} {P : Nat → α → Prop} (h0 : P 0 a) (h1 : P 1 b) : ∀ (k : Nat) o, [a, b][k]? = some o → P k o := by
  intro k o h
  match k with
  | 0 => simp at h; subst h; exact h0
  | 1 => simp at h; subst h; exact h1
  | k + 2 => simp at h

theorem Op.sound (ok : Ok cx E) {o : Op} {x y z : AV} {va vb : V} (h : o.abs cx x y = some z) (hx : x.Rel cx E va) (hy : y.Rel cx E vb) :
    z.Rel cx E (o.run va vb) := by
  unfold Op.abs at h
  split at h
  · exact unpk_rel ok oLo16_rel h hx hy
  · exact unpk_rel ok oHi16_rel h hx hy
  · exact unpk_rel ok oLo32_rel h hx hy
  · exact unpk_rel ok oHi32_rel h hx hy
  · exact unpk_rel ok oLo64_rel h hx hy
  · exact unpk_rel ok oHi64_rel h hx hy
  · obtain ⟨l, hl, rfl⟩ := toW_some h
    intro k q hq
    obtain ⟨a, ha, hab⟩ := map1_get hl k q hq
    exact oMadd_rel ok hab (hx k a ha) hy
  · obtain ⟨l, hl, rfl⟩ := toW_some h
    intro k q hq
    obtain ⟨a, b, ha, hb, hab⟩ := zip2_get hl k q hq
    exact qAdd_rel hab (hx k a ha) (hy k b hb)
  · obtain ⟨hc, h2⟩ := cond_some h
    clear h
    simp only [Bool.and_eq_true] at hc
    have e := beq_eq hc.1
    subst e
    obtain ⟨l, hl, rfl⟩ := toW_some h2
    intro k q hq
    obtain ⟨a, ha, hab⟩ := map1_get hl k q hq
    exact qAddK_rel hab (blt_lt hc.2) (hx k a ha) hy
  · obtain ⟨l, hl, rfl⟩ := toW_some h
    intro k q hq
    obtain ⟨a, b, ha, hb, hab⟩ := zip2_get hl k q hq
    exact qSub_rel hab (hx k a ha) (hy k b hb)
  · obtain ⟨hc, h2⟩ := cond_some h
    clear h
    simp only [Bool.and_eq_true] at hc
    have e := beq_eq hc.1
    subst e
    obtain ⟨l, hl, rfl⟩ := toW_some h2
    intro k q hq
    obtain ⟨a, ha, hab⟩ := map1_get hl k q hq
    exact qSubK_rel hab (blt_lt hc.2) (hx k a ha) hy
  · obtain ⟨hc, h2⟩ := cond_some h
    clear h
    have e := beq_eq hc
    subst e
    obtain ⟨l, hl, rfl⟩ := toH_some h2
    intro k q hq
    obtain ⟨a, b, ha, hb, hab⟩ := zip2_get hl k q hq
    exact oPacks_rel ok hab (hx k a ha) (hy k b hb)
  · obtain ⟨hc, h2⟩ := cond_some h
    clear h
    simp only [Bool.and_eq_true] at hc
    have e := beq_eq hc.1
    have e' := beq_eq hc.2
    subst e e'
    obtain ⟨l, hl, rfl⟩ := toH_some h2
    intro k q hq
    obtain ⟨a, ha, hab⟩ := map1_get hl k q hq
    exact oPacksZ_rel ok hab (hx k a ha) hy
  · obtain ⟨hc, h2⟩ := cond_some h
    clear h
    have e := beq_eq hc
    subst e
    obtain ⟨l, hl, rfl⟩ := toH_some h2
    intro k q hq
    obtain ⟨a, ha, hab⟩ := map1_get hl k q hq
    exact oMin_rel hab (hx k a ha) hy
  · obtain ⟨hc, h2⟩ := cond_some h
    clear h
    have e := beq_eq hc
    subst e
    obtain ⟨l, hl, rfl⟩ := toH_some h2
    intro k q hq
    obtain ⟨a, ha, hab⟩ := map1_get hl k q hq
    exact oMax_rel hab (hx k a ha) hy
  · cases h
    intro k q hq
    refine get2 (P := fun k q => laneRel cx E q (permute2x128_20 va vb) k) ?_ ?_ k q hq
    · intro j hj
      have := hx 0 _ rfl j hj
      rw [Nat.mul_zero, Nat.zero_add] at this ⊢
      rw [(w16_perm20 va vb j hj).1, this]
    · intro j hj
      have := hy 0 _ rfl j hj
      rw [Nat.mul_zero, Nat.zero_add] at this
      rw [Nat.mul_one, (w16_perm20 va vb j hj).2, this]
  · cases h
    intro k q hq
    refine get2 (P := fun k q => laneRel cx E q (permute2x128_31 va vb) k) ?_ ?_ k q hq
    · intro j hj
      have := hx 1 _ rfl j hj
      rw [Nat.mul_one] at this
      rw [Nat.mul_zero, Nat.zero_add, (w16_perm31 va vb j hj).1, this]
    · intro j hj
      have := hy 1 _ rfl j hj
      rw [Nat.mul_one] at this ⊢
      rw [(w16_perm31 va vb j hj).2, this]
  · cases h
    intro k q hq
    refine get2 (P := fun k q => ∃ p m, Digits q.K q.P p ∧ Digits q.K q.N m ∧
      ∀ j < 4, d32 (permute2x128_20 va vb) (4 * k + j) = wrap32 (form E p m (q.grp j)) / 2 ^ 0) ?_ ?_ k q hq
    · obtain ⟨p, m, hp, hm, hv⟩ := hx 0 _ rfl
      refine ⟨p, m, hp, hm, fun j hj => ?_⟩
      have := hv j hj
      rw [Nat.mul_zero, Nat.zero_add] at this ⊢
      rw [(d32_perm20 va vb j hj).1, this]
    · obtain ⟨p, m, hp, hm, hv⟩ := hy 0 _ rfl
      refine ⟨p, m, hp, hm, fun j hj => ?_⟩
      have := hv j hj
      rw [Nat.mul_zero, Nat.zero_add] at this
      rw [Nat.mul_one, (d32_perm20 va vb j hj).2, this]
  · cases h
    intro k q hq
    refine get2 (P := fun k q => ∃ p m, Digits q.K q.P p ∧ Digits q.K q.N m ∧
      ∀ j < 4, d32 (permute2x128_31 va vb) (4 * k + j) = wrap32 (form E p m (q.grp j)) / 2 ^ 0) ?_ ?_ k q hq
    · obtain ⟨p, m, hp, hm, hv⟩ := hx 1 _ rfl
      refine ⟨p, m, hp, hm, fun j hj => ?_⟩
      have := hv j hj
      rw [Nat.mul_one] at this
      rw [Nat.mul_zero, Nat.zero_add, (d32_perm31 va vb j hj).1, this]
    · obtain ⟨p, m, hp, hm, hv⟩ := hy 1 _ rfl
      refine ⟨p, m, hp, hm, fun j hj => ?_⟩
      have := hv j hj
      rw [Nat.mul_one] at this ⊢
      rw [(d32_perm31 va vb j hj).2, this]
  · obtain ⟨hc, h2⟩ := cond_some h
    clear h
    have e := beq_eq hc
    subst e
    cases h2
    intro k q hq
    refine get2 (P := fun k q => ∃ p m, Digits q.K q.P p ∧ Digits q.K q.N m ∧
      ∀ j < 4, d32 (permute2x128_20 va vb) (4 * k + j) = wrap32 (form E p m (q.grp j)) / 2 ^ _) ?_ ?_ k q hq
    · obtain ⟨p, m, hp, hm, hv⟩ := hx 0 _ rfl
      refine ⟨p, m, hp, hm, fun j hj => ?_⟩
      have := hv j hj
      rw [Nat.mul_zero, Nat.zero_add] at this ⊢
      rw [(d32_perm20 va vb j hj).1, this]
    · obtain ⟨p, m, hp, hm, hv⟩ := hy 0 _ rfl
      refine ⟨p, m, hp, hm, fun j hj => ?_⟩
      have := hv j hj
      rw [Nat.mul_zero, Nat.zero_add] at this
      rw [Nat.mul_one, (d32_perm20 va vb j hj).2, this]
  · obtain ⟨hc, h2⟩ := cond_some h
    clear h
    have e := beq_eq hc
    subst e
    cases h2
    intro k q hq
    refine get2 (P := fun k q => ∃ p m, Digits q.K q.P p ∧ Digits q.K q.N m ∧
      ∀ j < 4, d32 (permute2x128_31 va vb) (4 * k + j) = wrap32 (form E p m (q.grp j)) / 2 ^ _) ?_ ?_ k q hq
    · obtain ⟨p, m, hp, hm, hv⟩ := hx 1 _ rfl
      refine ⟨p, m, hp, hm, fun j hj => ?_⟩
      have := hv j hj
      rw [Nat.mul_one] at this
      rw [Nat.mul_zero, Nat.zero_add, (d32_perm31 va vb j hj).1, this]
    · obtain ⟨p, m, hp, hm, hv⟩ := hy 1 _ rfl
      refine ⟨p, m, hp, hm, fun j hj => ?_⟩
      have := hv j hj
      rw [Nat.mul_one] at this ⊢
      rw [(d32_perm31 va vb j hj).2, this]
  · cases h

/-! ### Memory -/

/-- What is known of the registers and the array. -/
structure SRel (cx : Cx) (E : Nat → Int) (a : Sa) (s : St) : Prop where
  reg : ∀ (r : Nat) v, a.reg.get r = some v → v.Rel cx E (s.reg r)
  mem : ∀ (k : Nat) o, a.mem.get k = some o → ∀ j < 8, s.mem (8 * k + j) = lim cx o.f (E (o.lane j))

theorem ld_rel (ok : Ok cx E) {m : Tr Oct} {f : Nat → Int} (hm : ∀ (k : Nat) o, m.get k = some o → ∀ j < 8, f (8 * k + j) = lim cx o.f (E (o.lane j)))
    {off : Nat} {o : Oct} (h : ldOct cx m off = some o) :
    ∀ j < 8, f (off + j) = lim cx o.f (E (o.lane j)) ∧ -32768 ≤ f (off + j) ∧ f (off + j) ≤ 32767 := by
  unfold ldOct at h
  obtain ⟨hc, h2⟩ := cond_some h
  simp only [Bool.and_eq_true] at hc
  have e : off % 8 = 0 := beq_eq hc.1
  intro j hj
  have := hm _ _ h2 j hj
  rw [show 8 * off.div 8 = off from by show 8 * (off / 8) = off; omega] at this
  refine ⟨this, ?_⟩
  rw [this]
  exact lim_range (ok.rng _)

theorem u16Of_lt (x : Int) : u16Of x < 65536 := by unfold u16Of; omega

theorem u16_ofW' (f : Nat → Int) (i : Nat) : u16 (ofW f) i = u16Of (f i) := by
  rw [u16_ofW]; unfold u16Of
  rw [Int.toNat_of_nonneg (by omega)]

theorem u16_set1_32 (k : Nat) (hk : k < 4294967296) (i : Nat) :
    u16 (set1_32 k) (2 * i) = (k % 65536 : Nat) ∧ u16 (set1_32 k) (2 * i + 1) = (k / 65536 : Nat) := by
  unfold set1_32 ofD
  rw [u16_ofW, u16_ofW, if_pos (by omega), if_neg (by omega)]
  constructor <;> dsimp only <;> omega

theorem X.sound (ok : Ok cx E) {a : Sa} {s : St} (hr : SRel cx E a s) : ∀ {e : X} {v : AV}, e.abs cx a = some v → v.Rel cx E (e.run s) := by
  intro e
  induction e with
  | r n => intro v h; exact hr.reg n v h
  | ld n off =>
    intro v h
    unfold X.abs at h
    cases hb : Nat.beq n 8 with
    | true =>
      rw [hb, cond_true] at h
      have e := beq_eq hb
      subst e
      split at h
      · cases h
      · next o ho =>
        cases h
        intro k c hc
        match k, hc with
        | 0, hc =>
          simp at hc; subst hc
          intro j hj
          have := ld_rel ok hr.mem ho j hj
          rw [Nat.mul_zero, Nat.zero_add]
          exact (w16_loadC hj this.2).trans this.1
        | k + 1, hc => simp at hc
    | false =>
      rw [hb, cond_false] at h
      replace h := cond_some h
      obtain ⟨hb2, h⟩ := h
      have e := beq_eq hb2
      subst e
      split at h
      · cases h
      · next o ho =>
        split at h
        · cases h
        · next o' ho' =>
          cases h
          intro k c hc
          match k, hc with
          | 0, hc =>
            simp at hc; subst hc
            intro j hj
            have := ld_rel ok hr.mem ho j hj
            rw [Nat.mul_zero, Nat.zero_add]
            exact (w16_loadC (by omega) this.2).trans this.1
          | 1, hc =>
            simp at hc; subst hc
            intro j hj
            have := ld_rel ok hr.mem ho' j hj
            rw [show off.add 8 + j = off + (8 * 1 + j) by show off + 8 + j = _; omega] at this
            exact (w16_loadC (by omega) this.2).trans this.1
          | k + 2, hc => simp at hc
  | ld2 hi lo =>
    intro v h
    unfold X.abs at h
    split at h
    · cases h
    · next o ho =>
      split at h
      · cases h
      · next o' ho' =>
        cases h
        intro k c hc
        match k, hc with
        | 0, hc =>
          simp at hc; subst hc
          intro j hj
          have := ld_rel ok hr.mem ho j hj
          rw [Nat.mul_zero, Nat.zero_add]
          refine (w16_ofW _ j).trans ?_
          rw [if_pos hj, wrap16_id this.2]; exact this.1
        | 1, hc =>
          simp at hc; subst hc
          intro j hj
          have := ld_rel ok hr.mem ho' j hj
          refine (w16_ofW _ _).trans ?_
          rw [if_neg (by omega), show 8 * 1 + j - 8 = j by omega, wrap16_id this.2]; exact this.1
        | k + 2, hc => simp at hc
  | k32 k =>
    intro v h
    unfold X.abs at h
    replace h := cond_some h
    obtain ⟨hk, h⟩ := h
    have hk := blt_lt hk
    cases h
    refine ⟨by show k % 65536 < _; omega, by show k / 65536 < _; omega, fun i => ?_⟩
    have := u16_set1_32 k hk i
    exact ⟨this.1, this.2⟩
  | k16 k =>
    intro v h
    unfold X.abs at h
    cases h
    exact ⟨u16Of_lt _, u16Of_lt _, fun i => ⟨u16_ofW' _ _, u16_ofW' _ _⟩⟩
  | kk c0 c1 =>
    intro v h
    unfold X.abs at h
    cases h
    refine ⟨u16Of_lt _, u16Of_lt _, fun i => ⟨?_, ?_⟩⟩
    · refine (u16_ofW' _ _).trans ?_
      rw [if_pos (by omega)]
    · refine (u16_ofW' _ _).trans ?_
      rw [if_neg (by omega)]
  | op o x y ihx ihy =>
    intro v h
    unfold X.abs at h
    split at h
    · cases h
    · next vx hx =>
      split at h
      · cases h
      · next vy hy => exact Op.sound ok h (ihx hx) (ihy hy)
  | sra32 x n ih =>
    intro v h
    unfold X.abs at h
    split at h
    · next l hl =>
      cases h
      intro k q hq
      obtain ⟨p, m, hp, hm, hv⟩ := ih hl k q hq
      refine ⟨p, m, hp, hm, fun j hj => ?_⟩
      refine (d32_srai _ _ _).trans ?_
      rw [hv j hj, pow_zero, Int.ediv_one]
    · cases h
  | sra16 x n ih =>
    intro v h
    unfold X.abs at h
    cases h

theorem st_rel {m m' : Tr Oct} {f f' : Nat → Int} (hm : ∀ (k : Nat) o, m.get k = some o → ∀ j < 8, f (8 * k + j) = lim cx o.f (E (o.lane j)))
    {off : Nat} {o : Oct} (h : stOct cx m off o = some m')
    (h1 : ∀ j < 8, f' (off + j) = lim cx o.f (E (o.lane j))) (h2 : ∀ a, (a < off ∨ off + 8 ≤ a) → f' a = f a) :
    ∀ (k : Nat) o, m'.get k = some o → ∀ j < 8, f' (8 * k + j) = lim cx o.f (E (o.lane j)) := by
  unfold stOct at h
  obtain ⟨hc, h3⟩ := cond_some h
  clear h
  cases h3
  simp only [Bool.and_eq_true] at hc
  have e : off % 8 = 0 := beq_eq hc.1
  intro k c hk j hj
  by_cases hq : k = off / 8
  · subst hq
    have e2 := Tr.get_set_self 9 m (off / 8) o
    have e3 : (m.set 9 (off / 8) o).get (off / 8) = some c := hk
    rw [e2] at e3
    cases e3
    have := h1 j hj
    rwa [show 8 * (off / 8) + j = off + j by omega]
  · have := Tr.get_set_ne (show k ≠ off / 8 from hq) hk
    rw [h2 _ (by omega)]
    exact hm k c this j hj

theorem st_lt {m m' : Tr Oct} {off : Nat} {o : Oct} (h : stOct cx m off o = some m') : off + 8 ≤ cx.n := by
  unfold stOct at h
  obtain ⟨hc, _⟩ := cond_some h
  simp only [Bool.and_eq_true] at hc
  exact Nat.le_of_ble_eq_true hc.2

theorem S.sound (ok : Ok cx E) {a a' : Sa} {s : St} (hr : SRel cx E a s) {i : S} (h : i.abs cx a = some a') :
    SRel cx E a' (i.run s) ∧ ∀ b, cx.n ≤ b → (i.run s).mem b = s.mem b := by
  unfold S.abs at h
  split at h
  · next r e =>
    split at h
    · cases h
    · next v hv =>
      cases h
      refine ⟨⟨?_, hr.mem⟩, fun _ _ => rfl⟩
      intro k c hk
      by_cases hq : k = r
      · subst hq
        have e2 := Tr.get_set_self 11 a.reg k v
        have e3 : (a.reg.set 11 k v).get k = some c := hk
        rw [e2] at e3
        cases e3
        have := X.sound ok hr hv
        show AV.Rel cx E _ (if k = k then _ else _)
        rwa [if_pos rfl]
      · have hk : (a.reg.set 11 r v).get k = some c := hk
        have := Tr.get_set_ne hq hk
        show AV.Rel cx E _ (if k = r then _ else _)
        rw [if_neg hq]
        exact hr.reg k c this
  · next n off e =>
    split at h
    · next o hv =>
      replace h := cond_some h
      obtain ⟨hn, h⟩ := h
      have en := beq_eq hn
      subst en
      split at h
      · cases h
      · next m hm =>
        cases h
        have hx := X.sound ok hr hv
        have hl := st_lt hm
        refine ⟨⟨hr.reg, ?_⟩, ?_⟩
        · refine st_rel hr.mem hm ?_ ?_
          · intro j hj
            show (if off ≤ off + j ∧ off + j < off + 8 then _ else _) = _
            rw [if_pos (by omega), show off + j - off = j by omega]
            have := hx 0 _ rfl j hj
            rwa [Nat.mul_zero, Nat.zero_add] at this
          · intro b hb
            show (if off ≤ b ∧ b < off + 8 then _ else _) = _
            rw [if_neg (by omega)]
        · intro b hb
          show (if off ≤ b ∧ b < off + 8 then _ else _) = _
          rw [if_neg (by omega)]
    · next o o' hv =>
      replace h := cond_some h
      obtain ⟨hn, h⟩ := h
      have en := beq_eq hn
      subst en
      split at h
      · cases h
      · next m hm =>
        split at h
        · cases h
        · next m' hm' =>
          cases h
          have hx := X.sound ok hr hv
          have hl := st_lt hm
          have hl' := st_lt hm'
          have hl'' : off + 8 + 8 ≤ cx.n := hl'
          refine ⟨⟨hr.reg, ?_⟩, ?_⟩
          · have A := st_rel (f' := storeC 8 s.mem off (e.run s)) hr.mem hm ?_ ?_
            · refine st_rel A hm' ?_ ?_
              · intro j hj
                show (if off ≤ off + 8 + j ∧ off + 8 + j < off + 16 then _ else _) = _
                rw [if_pos (by omega), show off + 8 + j - off = 8 * 1 + j by omega]
                exact hx 1 _ rfl j hj
              · intro b hb
                have hb' : b < off + 8 ∨ off + 8 + 8 ≤ b := hb
                show (if off ≤ b ∧ b < off + 16 then _ else _) = if off ≤ b ∧ b < off + 8 then _ else _
                by_cases q : off ≤ b ∧ b < off + 8
                · rw [if_pos (by omega), if_pos q]
                · rw [if_neg (by omega), if_neg q]
            · intro j hj
              show (if off ≤ off + j ∧ off + j < off + 8 then _ else _) = _
              rw [if_pos (by omega), show off + j - off = j by omega]
              have := hx 0 _ rfl j hj
              rwa [Nat.mul_zero, Nat.zero_add] at this
            · intro b hb
              show (if off ≤ b ∧ b < off + 8 then _ else _) = _
              rw [if_neg (by omega)]
          · intro b hb
            show (if off ≤ b ∧ b < off + 16 then _ else _) = _
            rw [if_neg (by omega)]
    · cases h
  · next hi lo e =>
    split at h
    · next o o' hv =>
      split at h
      · cases h
      · next m hm =>
        split at h
        · cases h
        · next m' hm' =>
          cases h
          have hx := X.sound ok hr hv
          have hl := st_lt hm
          have hl' := st_lt hm'
          refine ⟨⟨hr.reg, ?_⟩, ?_⟩
          · have A := st_rel (f' := storeC 8 s.mem lo (e.run s)) hr.mem hm ?_ ?_
            · refine st_rel A hm' ?_ ?_
              · intro j hj
                show (if hi ≤ hi + j ∧ hi + j < hi + 8 then _ else _) = _
                rw [if_pos (by omega), show hi + j - hi = j by omega, w16_high _ _ hj]
                exact hx 1 _ rfl j hj
              · intro b hb
                show (if hi ≤ b ∧ b < hi + 8 then _ else _) = _
                rw [if_neg (by omega)]
            · intro j hj
              show (if lo ≤ lo + j ∧ lo + j < lo + 8 then _ else _) = _
              rw [if_pos (by omega), show lo + j - lo = j by omega]
              have := hx 0 _ rfl j hj
              rwa [Nat.mul_zero, Nat.zero_add] at this
            · intro b hb
              show (if lo ≤ b ∧ b < lo + 8 then _ else _) = _
              rw [if_neg (by omega)]
          · intro b hb
            show (if hi ≤ b ∧ b < hi + 8 then _ else (if lo ≤ b ∧ b < lo + 8 then _ else _)) = _
            rw [if_neg (by omega), if_neg (by omega)]
    · cases h

theorem exec_sound (ok : Ok cx E) : ∀ {p : List S} {a a' : Sa} {s : St}, SRel cx E a s → absExec cx p a = some a' →
    SRel cx E a' (exec p s) ∧ ∀ b, cx.n ≤ b → (exec p s).mem b = s.mem b := by
  intro p
  induction p with
  | nil => intro a a' s hr h; unfold absExec at h; cases h; exact ⟨hr, fun _ _ => rfl⟩
  | cons i p ih =>
    intro a a' s hr h
    unfold absExec at h
    split at h
    · cases h
    · next b hb =>
      have h1 := S.sound ok hr hb
      have h2 := ih h1.1 h
      exact ⟨h2.1, fun c hc => (h2.2 c hc).trans (h1.2 c hc)⟩

theorem initMem_get (w : Nat) : ∀ (n k : Nat) o, (initMem w n).get k = some o → o = octAt w (8 * k) ∧ k < n := by
  intro n
  induction n with
  | zero => intro k o h; exfalso; revert h; show Tr.get Tr.e k = some o → False; intro h; rw [Tr.get_look] at h; unfold Tr.look at h; cases h
  | succ n ih =>
    intro k o h
    have h : ((initMem w n).set 9 n (octAt w (8 * n))).get k = some o := h
    by_cases hq : k = n
    · subst hq
      rw [Tr.get_set_self] at h
      cases h; exact ⟨rfl, by omega⟩
    · have := ih k o (Tr.get_set_ne hq h)
      exact ⟨this.1, by omega⟩

theorem allGood_get {w : Nat} {m : Tr Oct} : ∀ {n : Nat}, allGood w m n = true → ∀ k < n, ∃ o, m.get k = some o ∧ goodOct w (8 * k) o = true := by
  intro n
  induction n with
  | zero => intro _ k hk; omega
  | succ n ih =>
    intro h k hk
    unfold allGood at h
    split at h
    · cases h
    · next o ho =>
      cases hg : goodOct w (Nat.mul 8 n) o with
      | false => rw [hg] at h; cases h
      | true =>
        rw [hg, cond_true] at h
        by_cases hq : k = n
        · subst hq; exact ⟨o, ho, hg⟩
        · exact ih h k (by omega)

/-- A program that has been checked leaves the limited results of the second pass in the array and touches nothing else. -/
theorem check_sound (ok : Ok cx E) {p : List S} (h : check cx p = true) {s : St} (h8 : cx.n % 8 = 0)
    (hm : ∀ a < cx.n, s.mem a = E (code cx.w a)) :
    (∀ a < cx.n, (exec p s).mem a = lim cx 2 (E (code3 cx.w a)) ∨ (exec p s).mem a = lim cx 4 (E (code3 cx.w a))) ∧
    ∀ a, cx.n ≤ a → (exec p s).mem a = s.mem a := by
  unfold check at h
  split at h
  · cases h
  · next t ht =>
    have init : SRel cx E ⟨.e, initMem cx.w (Nat.div cx.n 8)⟩ s := by
      constructor
      · intro r v hv
        exfalso
        have hv : Tr.get Tr.e r = some v := hv
        rw [Tr.get_look] at hv; unfold Tr.look at hv; cases hv
      · intro k o ho j hj
        obtain ⟨rfl, hk⟩ := initMem_get _ _ _ _ ho
        have hk : k < cx.n / 8 := hk
        rw [hm _ (by omega)]
        interval_cases j <;> rfl
    have := exec_sound ok init ht
    refine ⟨fun a ha => ?_, this.2⟩
    obtain ⟨o, ho, hg⟩ := allGood_get h (a / 8) (show a / 8 < cx.n / 8 by omega)
    have hv := this.1.mem _ _ ho (a % 8) (by omega)
    rw [show 8 * (a / 8) + a % 8 = a by omega] at hv
    unfold goodOct at hg
    simp only [Bool.and_eq_true, Bool.or_eq_true] at hg
    obtain ⟨⟨⟨⟨⟨⟨⟨⟨hf, h0⟩, h1⟩, h2⟩, h3⟩, h4⟩, h5⟩, h6⟩, h7⟩ := hg
    have key : o.lane (a % 8) = code3 cx.w a := by
      have := lane8 (P := fun j => o.lane j = code3 cx.w (8 * (a / 8) + j)) (beq_eq h0) (beq_eq h1) (beq_eq h2) (beq_eq h3) (beq_eq h4) (beq_eq h5)
        (beq_eq h6) (beq_eq h7) (a % 8) (by omega)
      rwa [show 8 * (a / 8) + a % 8 = a by omega] at this
    rw [hv, key]
    rcases hf with hf | hf
    · left; rw [beq_eq hf]
    · right; rw [beq_eq hf]

end Davs2.Si
