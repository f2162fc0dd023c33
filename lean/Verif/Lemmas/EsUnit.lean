import Verif.Model.EsUnit
import Verif.Spec.Packets
/- Auxiliary lemmas about packet assembly. -/
namespace Davs2
open Spec

theorem PackRes.bind_ok {α β : Type} (x : PackRes α) (f : α → PackRes β) (b : β) :
    (x >>= f) = .ok b ↔ ∃ a, x = .ok a ∧ f a = .ok b := by
  cases x <;> simp [Bind.bind, PackRes.bind]

@[simp] theorem PackRes.ok_bind {α β : Type} (a : α) (f : α → PackRes β) :
    ((PackRes.ok a) >>= f) = f a := rfl

/-- The packet of the specification. -/
def toPkt (p : Packet) : Pkt := ⟨p.data, p.pts, p.dts⟩

theorem isUnitCode_iff (p : Packet) (c : Byte) (h : p.data[3]? = some c) :
    isUnitCode c = beginsUnit (toPkt p) := by
  simp only [isUnitCode, beginsUnit, toPkt, h]
  have : ∀ x y : Byte, (some x == some y) = (x == y) := by intros; rfl
  simp only [this]
  cases (c == 0xB0#8) <;> cases (c == 0xB1#8) <;> cases (c == 0xB3#8) <;> cases (c == 0xB6#8) <;>
    cases (c == 0xB7#8) <;> rfl

/-- A unit carries a group: the bytes of the group and the timestamps of its last packet. -/
def Carries (u : EsUnit) (g : List Pkt) : Prop :=
  u.data = bytesOf g ∧ ∃ p, g.getLast? = some p ∧ u.pts = p.pts ∧ u.dts = p.dts

/-- Assembly invariant: the unit being assembled carries the open group. -/
structure PackInv (m : PackMgr) (g : List Pkt) : Prop where
  ne : ∀ p ∈ g, p.data ≠ []
  cur : match m.cur with
    | some u => g ≠ [] ∧ Carries u g
    | none => g = []
  idle : ∀ u ∈ m.idle, u.data = []

theorem bytesOf_ne_nil (g : List Pkt) (h : g ≠ []) (hn : ∀ p ∈ g, p.data ≠ []) : bytesOf g ≠ [] := by
  cases g with
  | nil => exact absurd rfl h
  | cons p g =>
    simp only [bytesOf, List.flatMap_cons]
    intro hh
    exact hn p (by simp) (List.append_eq_nil_iff.mp hh).1

theorem carries_append (u : EsUnit) (g : List Pkt) (p : Packet) (hu : u.data = bytesOf g) :
    Carries { u with data := u.data ++ p.data, pts := p.pts, dts := p.dts } (g ++ [toPkt p]) := by
  refine ⟨?_, toPkt p, by simp, rfl, rfl⟩
  simp [bytesOf, hu, toPkt]

theorem esGrow_ok (u v : EsUnit) (n : Nat) (h : esGrow u n = .ok v) :
    v.data = u.data ∧ v.pts = u.pts ∧ v.dts = u.dts ∧ v.size = u.size := by
  unfold esGrow at h
  split at h
  · simp at h
  · split at h
    · split at h
      · simp at h
      · simp only [PackRes.ok.injEq] at h; subst h; simp
    · simp only [PackRes.ok.injEq] at h; subst h; simp

theorem esAppend_ok (u v : EsUnit) (p : Packet) (h : esAppend u p = .ok v) :
    v = { u with data := u.data ++ p.data, pts := p.pts, dts := p.dts } := by
  unfold esAppend at h
  split at h
  · simp only [PackRes.ok.injEq] at h; exact h.symm
  · simp at h

/-- What the unit handed out must be. -/
def HandedBy (u : EsUnit) (g : List Pkt) (c : Closed) : Prop :=
  u.data = (match c with
    | .byPacket => disposePseudoCode (bytesOf g)
    | .byFlush => bytesOf g) ∧
  ∃ p, g.getLast? = some p ∧ u.pts = p.pts ∧ u.dts = p.dts

theorem packEsUnit_step (m m' : PackMgr) (g : List Pkt) (p : Packet) (ret : Option EsUnit)
    (hi : PackInv m g) (hp : p.data ≠ []) (h : packEsUnit m p = .ok (m', ret)) :
    (beginsUnit (toPkt p) ∧ g ≠ [] ∧ PackInv m' [toPkt p] ∧ ∃ u, ret = some u ∧ HandedBy u g .byPacket) ∨
    (¬ (beginsUnit (toPkt p) ∧ g ≠ []) ∧ PackInv m' (g ++ [toPkt p]) ∧ ret = none) := by
  unfold packEsUnit at h
  cases hc : p.data[3]? with
  | none => rw [hc] at h; simp at h
  | some code =>
    rw [hc] at h
    simp only [PackRes.bind_ok, Prod.exists] at h
    obtain ⟨u, idle, hf, u', hg, h⟩ := h
    obtain ⟨gd, gp, gt, _⟩ := esGrow_ok _ _ _ hg
    have hfetch : u.data = bytesOf g ∧ (∀ v ∈ idle, v.data = []) ∧ (g ≠ [] → Carries u g) := by
      unfold fetchUnit at hf
      have hcur := hi.cur
      cases hm : m.cur with
      | some w =>
        rw [hm] at hf hcur
        simp only [PackRes.ok.injEq, Prod.mk.injEq] at hf
        obtain ⟨rfl, rfl⟩ := hf
        exact ⟨hcur.2.1, hi.idle, fun _ => hcur.2⟩
      | none =>
        rw [hm] at hf hcur
        simp only at hf hcur
        cases hidle : m.idle with
        | nil => rw [hidle] at hf; simp at hf
        | cons w r =>
          rw [hidle] at hf
          simp only [PackRes.ok.injEq, Prod.mk.injEq] at hf
          obtain ⟨rfl, rfl⟩ := hf
          refine ⟨?_, ?_, fun hne => absurd hcur hne⟩
          · rw [hi.idle w (by rw [hidle]; simp), hcur]; rfl
          · intro v hv; exact hi.idle v (by rw [hidle]; simp [hv])
    obtain ⟨hud, hidle, hcar⟩ := hfetch
    have hlen : u'.data.length > 0 ↔ g ≠ [] := by
      rw [gd, hud]
      constructor
      · intro hh hg0; rw [hg0] at hh; simp [bytesOf] at hh
      · intro hg0
        exact List.length_pos_iff.mpr (bytesOf_ne_nil g hg0 hi.ne)
    rw [isUnitCode_iff p code hc] at h
    have hpne : ∀ q ∈ [toPkt p], q.data ≠ [] := by
      intro q hq; simp only [List.mem_singleton] at hq; subst hq; exact hp
    by_cases hb : beginsUnit (toPkt p) = true ∧ u'.data.length > 0
    · rw [if_pos hb] at h
      left
      refine ⟨hb.1, hlen.mp hb.2, ?_⟩
      cases hidle' : idle with
      | nil => rw [hidle'] at h; simp at h
      | cons v rest =>
        rw [hidle'] at h
        simp only [PackRes.bind_ok] at h
        obtain ⟨v', ha, h⟩ := h
        simp only [PackRes.ok.injEq, Prod.mk.injEq] at h
        obtain ⟨rfl, rfl⟩ := h
        have hv := esAppend_ok _ _ _ ha
        subst hv
        have hvd : v.data = [] := hidle v (by rw [hidle']; simp)
        refine ⟨⟨hpne, ?_, ?_⟩, _, rfl, ?_, ?_⟩
        · refine ⟨by simp, ?_⟩
          have := carries_append v [] p (by rw [hvd]; rfl)
          simpa using this
        · intro w hw; exact hidle w (by rw [hidle']; simp [hw])
        · simp only [gd, hud]
        · obtain ⟨_, q, hq, h1, h2⟩ := hcar (hlen.mp hb.2)
          exact ⟨q, hq, by simp [gp, h1], by simp [gt, h2]⟩
    · rw [if_neg hb] at h
      right
      simp only [PackRes.bind_ok] at h
      obtain ⟨v', ha, h⟩ := h
      simp only [PackRes.ok.injEq, Prod.mk.injEq] at h
      obtain ⟨rfl, rfl⟩ := h
      have hv := esAppend_ok _ _ _ ha
      subst hv
      refine ⟨fun hh => hb ⟨hh.1, hlen.mpr hh.2⟩, ⟨?_, ?_, hidle⟩, rfl⟩
      · intro q hq
        rcases List.mem_append.mp hq with hq | hq
        · exact hi.ne q hq
        · exact hpne q hq
      · refine ⟨by simp, carries_append u' g p (by rw [gd, hud])⟩

/-- The packet a well-behaved caller passes: the claimed length is the number of bytes. -/
def HonestOp : PackOp → Prop
  | .send p => ∃ d, p.data = some d ∧ p.len = d.length
  | _ => True

/-- Events of a history as the specification sees them: malformed packets do not count. -/
def evsOf : List PackOp → List Ev
  | [] => []
  | .send p :: ops =>
    match p.data with
    | some d => if Acceptable d then .pkt ⟨d, p.pts, p.dts⟩ :: evsOf ops else evsOf ops
    | none => evsOf ops
  | .flush :: ops => .flush :: evsOf ops
  | .finish _ :: ops => evsOf ops

theorem sendPacket_eq (m : PackMgr) (p : ApiPacket) (d : List Byte) (hd : p.data = some d)
    (hl : p.len = d.length) :
    sendPacket m (some p) = if Acceptable d then
      (packEsUnit m ⟨d, p.pts, p.dts⟩ >>= fun r => .ok (r.1, .default, r.2))
      else .ok (m, .error, none) := by
  unfold sendPacket
  simp only [hd, hl]
  match d with
  | [] => simp [Acceptable]
  | [_] => simp [Acceptable]
  | [_, _] => simp [Acceptable]
  | [_, _, _] => simp [Acceptable]
  | a :: b :: c :: e :: r =>
    have h1 : ¬ ((a :: b :: c :: e :: r).length : Int) ≤ 0 := by simp; omega
    have h2 : ¬ ((a :: b :: c :: e :: r).length : Int) < 4 := by simp; omega
    rw [if_neg h1, if_neg h2]
    simp only [List.getElem?_cons_zero, List.getElem?_cons_succ]
    have hacc : Acceptable (a :: b :: c :: e :: r) ↔ (a = 0#8 ∧ b = 0#8 ∧ c = 1#8) := by
      simp [Acceptable]
    by_cases hs : a = 0#8 ∧ b = 0#8 ∧ c = 1#8
    · rw [if_neg (by simp [hs]), if_pos (hacc.mpr hs), if_neg (by simp)]
      rw [Int.toNat_natCast, List.take_length]
    · rw [if_neg (fun h => hs (hacc.mp h))]
      rw [if_pos]
      by_cases ha : a = 0#8
      · by_cases hb : b = 0#8
        · right; right; exact fun hc => hs ⟨ha, hb, hc⟩
        · exact Or.inr (Or.inl hb)
      · exact Or.inl ha

theorem packInv_finish (m : PackMgr) (g : List Pkt) (k : Nat) (hi : PackInv m g) :
    PackInv (finishUnit m k) g := by
  unfold finishUnit
  split
  · refine ⟨hi.ne, hi.cur, ?_⟩
    intro u hu
    simp only [List.mem_append, List.mem_singleton] at hu
    rcases hu with h | h
    · exact hi.idle u h
    · subst h; rfl
  · exact hi

/-- Groups of acceptable packets have at least four bytes. -/
theorem four_le_bytesOf (g : List Pkt) (h : g ≠ []) (ha : ∀ p ∈ g, 4 ≤ p.data.length) :
    4 ≤ (bytesOf g).length := by
  cases g with
  | nil => exact absurd rfl h
  | cons p g =>
    have := ha p (by simp)
    simp only [bytesOf, List.flatMap_cons, List.length_append]
    omega

theorem packRun_groups (ops : List PackOp) (m m' : PackMgr) (g : List Pkt) (us : List EsUnit)
    (hon : ∀ o ∈ ops, HonestOp o) (hi : PackInv m g) (h4 : ∀ p ∈ g, 4 ≤ p.data.length)
    (h : packRun m ops = .ok (m', us)) :
    PackInv m' (group g (evsOf ops)).2 ∧
    us.length = (group g (evsOf ops)).1.length ∧
    ∀ (i : Nat) u x, us[i]? = some u → (group g (evsOf ops)).1[i]? = some x → HandedBy u x.1 x.2 := by
  induction ops generalizing m g us with
  | nil =>
    simp only [packRun, PackRes.ok.injEq, Prod.mk.injEq] at h
    obtain ⟨rfl, rfl⟩ := h
    exact ⟨hi, rfl, by simp⟩
  | cons op ops ih =>
    simp only [packRun, PackRes.bind_ok, Prod.exists] at h
    obtain ⟨m1, ret, hs, m2, us2, hr, h⟩ := h
    simp only [PackRes.ok.injEq, Prod.mk.injEq] at h
    obtain ⟨rfl, rfl⟩ := h
    have hon' : ∀ o ∈ ops, HonestOp o := fun o ho => hon o (by simp [ho])
    have consCase : ∀ (g0 : List Pkt) (c : Closed) (g1 : List Pkt) (u : EsUnit),
        HandedBy u g0 c → PackInv m1 g1 → (∀ p ∈ g1, 4 ≤ p.data.length) → ret = some u →
        group g (evsOf (op :: ops)) = ((g0, c) :: (group g1 (evsOf ops)).1, (group g1 (evsOf ops)).2) →
        PackInv m2 (group g (evsOf (op :: ops))).2 ∧
        (ret.toList ++ us2).length = (group g (evsOf (op :: ops))).1.length ∧
        ∀ (i : Nat) u x, (ret.toList ++ us2)[i]? = some u →
          (group g (evsOf (op :: ops))).1[i]? = some x → HandedBy u x.1 x.2 := by
      intro g0 c g1 u hh hinv h4' hret hg
      obtain ⟨i1, i2, i3⟩ := ih m1 g1 us2 hon' hinv h4' hr
      rw [hg, hret]
      refine ⟨i1, by simp [i2], ?_⟩
      intro i v x hv hx
      cases i with
      | zero =>
        simp at hv hx
        subst hv; subst hx; exact hh
      | succ i =>
        simp at hv hx
        exact i3 i v x hv hx
    have skipCase : ∀ (g1 : List Pkt), PackInv m1 g1 → (∀ p ∈ g1, 4 ≤ p.data.length) → ret = none →
        group g (evsOf (op :: ops)) = group g1 (evsOf ops) →
        PackInv m2 (group g (evsOf (op :: ops))).2 ∧
        (ret.toList ++ us2).length = (group g (evsOf (op :: ops))).1.length ∧
        ∀ (i : Nat) u x, (ret.toList ++ us2)[i]? = some u →
          (group g (evsOf (op :: ops))).1[i]? = some x → HandedBy u x.1 x.2 := by
      intro g1 hinv h4' hret hg
      rw [hg, hret]
      simpa using ih m1 g1 us2 hon' hinv h4' hr
    cases op with
    | send p =>
      obtain ⟨d, hd, hl⟩ := hon _ (List.mem_cons_self)
      simp only [packStep, PackRes.bind_ok, Prod.exists] at hs
      obtain ⟨m1', rc, ret', hs, he⟩ := hs
      simp only [PackRes.ok.injEq, Prod.mk.injEq] at he
      obtain ⟨rfl, rfl⟩ := he
      rw [sendPacket_eq m p d hd hl] at hs
      by_cases hacc : Acceptable d
      · rw [if_pos hacc] at hs
        simp only [PackRes.bind_ok, Prod.exists, PackRes.ok.injEq, Prod.mk.injEq] at hs
        obtain ⟨m1'', r'', hp, rfl, _, rfl⟩ := hs
        have hdne : d ≠ [] := by
          intro h0; rw [h0] at hacc; simp [Acceptable] at hacc
        have h4p : ∀ q ∈ [toPkt ⟨d, p.pts, p.dts⟩], 4 ≤ q.data.length := by
          intro q hq; simp only [List.mem_singleton] at hq; subst hq; exact hacc.1
        have hev : evsOf (.send p :: ops) = .pkt ⟨d, p.pts, p.dts⟩ :: evsOf ops := by
          simp only [evsOf, hd, if_pos hacc]
        rcases packEsUnit_step m _ g ⟨d, p.pts, p.dts⟩ _ hi hdne hp with
          ⟨hb, hg, hinv, u, hu, hh⟩ | ⟨hb, hinv, hu⟩
        · refine consCase g .byPacket [toPkt ⟨d, p.pts, p.dts⟩] u hh hinv h4p hu ?_
          rw [hev, group, if_pos ⟨hb, hg⟩]; rfl
        · refine skipCase (g ++ [toPkt ⟨d, p.pts, p.dts⟩]) hinv ?_ hu ?_
          · intro q hq
            rcases List.mem_append.mp hq with hq | hq
            · exact h4 q hq
            · exact h4p q hq
          · rw [hev, group]
            exact if_neg hb
      · rw [if_neg hacc] at hs
        simp only [PackRes.ok.injEq, Prod.mk.injEq] at hs
        obtain ⟨rfl, _, rfl⟩ := hs
        refine skipCase g hi h4 rfl ?_
        simp only [evsOf, hd, if_neg hacc]
    | flush =>
      simp only [packStep, PackRes.ok.injEq] at hs
      unfold flushUnit at hs
      have hcur := hi.cur
      cases hc : m.cur with
      | none =>
        rw [hc] at hs hcur
        simp only [Prod.mk.injEq] at hs hcur
        obtain ⟨rfl, rfl⟩ := hs
        refine skipCase g hi h4 rfl ?_
        rw [evsOf, group, if_neg (by simp [hcur]), hcur]
      | some u =>
        rw [hc] at hs hcur
        simp only at hs hcur
        obtain ⟨hg, hcar⟩ := hcur
        have : u.data.length ≥ 4 := by rw [hcar.1]; exact four_le_bytesOf g hg h4
        rw [if_pos this] at hs
        simp only [Prod.mk.injEq] at hs
        obtain ⟨rfl, rfl⟩ := hs
        refine consCase g .byFlush [] u hcar ⟨by simp, rfl, hi.idle⟩ (by simp) rfl ?_
        rw [evsOf, group, if_pos hg]
    | finish k =>
      simp only [packStep, PackRes.ok.injEq, Prod.mk.injEq] at hs
      obtain ⟨rfl, rfl⟩ := hs
      exact skipCase g (packInv_finish m g k hi) h4 rfl rfl


/-! ### Capacity -/

/-- Every unit has the nominal size, at least that much memory, and its data fits. -/
def UnitOk (u : EsUnit) : Prop := u.size = maxEsFrameSize ∧ maxEsFrameSize ≤ u.cap ∧ u.data.length ≤ u.cap

structure CapInv (m : PackMgr) (total : Nat) : Prop where
  cur : ∀ u, m.cur = some u → UnitOk u ∧ u.data.length ≤ total
  idle : ∀ u ∈ m.idle, UnitOk u ∧ u.data = []
  busy : ∀ u ∈ m.busy, UnitOk u

theorem CapInv.mono {m : PackMgr} {t t' : Nat} (h : CapInv m t) (hle : t ≤ t') : CapInv m t' :=
  ⟨fun u hu => ⟨(h.cur u hu).1, Nat.le_trans (h.cur u hu).2 hle⟩, h.idle, h.busy⟩

theorem dispose_length (src : List Byte) (h : (disposePseudoCode src).length ≤ src.length) (u : EsUnit)
    (hu : UnitOk { u with data := src }) : UnitOk { u with data := disposePseudoCode src } :=
  ⟨hu.1, hu.2.1, Nat.le_trans h hu.2.2⟩

theorem packEsUnit_safe (m : PackMgr) (p : Packet) (t : Nat) (hi : CapInv m t)
    (hgrow : ∀ src, (disposePseudoCode src).length ≤ src.length)
    (hcode : 4 ≤ p.data.length)
    (hsize : beginsUnit (toPkt p) = true → p.data.length ≤ maxEsFrameSize)
    (htot : t + p.data.length + maxEsFrameSize * 2 < 2147483648) :
    packEsUnit m p = .blocked ∨
    ∃ m' ret, packEsUnit m p = .ok (m', ret) ∧ CapInv m' (t + p.data.length) := by
  unfold packEsUnit
  have h3 : 3 < p.data.length := by omega
  rw [List.getElem?_eq_getElem h3]
  simp only
  have hc : p.data[3]? = some p.data[3] := List.getElem?_eq_getElem h3
  rw [isUnitCode_iff p _ hc]
  have hfetch : fetchUnit m = .blocked ∨ ∃ u idle, fetchUnit m = .ok (u, idle) ∧ UnitOk u ∧
      u.data.length ≤ t ∧ ∀ v ∈ idle, UnitOk v ∧ v.data = [] := by
    unfold fetchUnit
    cases hm : m.cur with
    | some u => exact Or.inr ⟨u, m.idle, rfl, (hi.cur u hm).1, (hi.cur u hm).2, hi.idle⟩
    | none =>
      cases hl : m.idle with
      | nil => exact Or.inl rfl
      | cons u r =>
        have h1 := hi.idle u (by rw [hl]; simp)
        refine Or.inr ⟨u, r, rfl, h1.1, by rw [h1.2]; simp, ?_⟩
        intro v hv; exact hi.idle v (by rw [hl]; simp [hv])
  rcases hfetch with hf | ⟨u, idle, hf, huok, hut, hidle⟩
  · left; rw [hf]; rfl
  · rw [hf]
    simp only [PackRes.ok_bind]
    have hgr : ∃ u', esGrow u p.data.length = .ok u' ∧ UnitOk u' ∧ u'.data = u.data ∧
        u.data.length + p.data.length ≤ u'.cap := by
      unfold esGrow
      rw [if_neg (by omega)]
      by_cases hs : u.size < u.data.length + p.data.length
      · rw [if_pos hs, if_neg (by omega)]
        refine ⟨_, rfl, ⟨huok.1, ?_, ?_⟩, rfl, ?_⟩ <;> simp only <;> omega
      · rw [if_neg hs]
        obtain ⟨h1, h2, h3⟩ := huok
        exact ⟨u, rfl, ⟨h1, h2, h3⟩, rfl, by omega⟩
    obtain ⟨u', hg, huok', hud, hcap⟩ := hgr
    rw [hg]
    simp only [PackRes.ok_bind]
    by_cases hb : beginsUnit (toPkt p) = true ∧ u'.data.length > 0
    · rw [if_pos hb]
      cases hidl : idle with
      | nil => left; rfl
      | cons v rest =>
        have hv := hidle v (by rw [hidl]; simp)
        obtain ⟨⟨v1, v2, v3⟩, v4⟩ := hv
        have hle := hsize hb.1
        have ha : esAppend v p = .ok { v with data := v.data ++ p.data, pts := p.pts, dts := p.dts } := by
          unfold esAppend
          rw [if_pos (by rw [v4]; simp; omega)]
        right
        simp only [ha, PackRes.ok_bind]
        refine ⟨_, _, rfl, ?_, ?_, ?_⟩
        · intro w hw
          simp only [Option.some.injEq] at hw
          subst hw
          refine ⟨⟨v1, v2, ?_⟩, ?_⟩ <;> simp [v4] <;> omega
        · intro w hw; exact hidle w (by rw [hidl]; simp [hw])
        · intro w hw
          simp only [List.mem_append, List.mem_singleton] at hw
          rcases hw with hw | hw
          · exact hi.busy w hw
          · subst hw
            exact dispose_length u'.data (hgrow _) u' huok'
    · rw [if_neg hb]
      have ha : esAppend u' p = .ok { u' with data := u'.data ++ p.data, pts := p.pts, dts := p.dts } := by
        unfold esAppend
        rw [if_pos (by rw [hud]; exact hcap)]
      right
      simp only [ha, PackRes.ok_bind]
      refine ⟨_, _, rfl, ?_, hidle, hi.busy⟩
      intro w hw
      simp only [Option.some.injEq] at hw
      subst hw
      obtain ⟨c1, c2, c3⟩ := huok'
      refine ⟨⟨c1, c2, ?_⟩, ?_⟩
      · simp [hud]; omega
      · simp [hud]; omega

/-- Bytes sent by an operation. -/
def opBytes : PackOp → Nat
  | .send p => match p.data with
    | some d => d.length
    | none => 0
  | _ => 0

/-- The operation, if it begins a unit, is not larger than a nominal buffer. -/
def SmallUnitOp : PackOp → Prop
  | .send p => ∀ d, p.data = some d → Acceptable d → beginsUnit ⟨d, p.pts, p.dts⟩ = true →
      d.length ≤ maxEsFrameSize
  | _ => True

theorem packRun_safe (hgrow : ∀ src, (disposePseudoCode src).length ≤ src.length) (ops : List PackOp)
    (m : PackMgr) (t : Nat) (hi : CapInv m t) (hon : ∀ o ∈ ops, HonestOp o)
    (hsm : ∀ o ∈ ops, SmallUnitOp o)
    (htot : t + (ops.map opBytes).sum + maxEsFrameSize * 2 < 2147483648) :
    packRun m ops = .blocked ∨ ∃ m' us, packRun m ops = .ok (m', us) ∧
      CapInv m' (t + (ops.map opBytes).sum) := by
  induction ops generalizing m t with
  | nil => exact Or.inr ⟨m, [], rfl, by simpa using hi⟩
  | cons op ops ih =>
    simp only [List.map_cons, List.sum_cons] at htot ⊢
    have step : packStep m op = .blocked ∨ ∃ m' r, packStep m op = .ok (m', r) ∧
        CapInv m' (t + opBytes op) := by
      cases op with
      | send p =>
        obtain ⟨d, hd, hl⟩ := hon _ (List.mem_cons_self)
        have hob : opBytes (.send p) = d.length := by simp [opBytes, hd]
        rw [hob] at htot ⊢
        simp only [packStep, sendPacket_eq m p d hd hl]
        by_cases hacc : Acceptable d
        · rw [if_pos hacc]
          have := hsm _ (List.mem_cons_self) d hd hacc
          rcases packEsUnit_safe m ⟨d, p.pts, p.dts⟩ t hi hgrow hacc.1 this (by simp only; omega) with
            h | ⟨m', r, h, hc⟩
          · left; rw [h]; rfl
          · right; rw [h]
            exact ⟨m', r, rfl, hc⟩
        · rw [if_neg hacc]
          exact Or.inr ⟨m, none, rfl, hi.mono (by omega)⟩
      | flush =>
        right
        refine ⟨(flushUnit m).1, (flushUnit m).2, rfl, ?_⟩
        unfold flushUnit
        split
        · rename_i u hu
          split
          · refine ⟨by simp, hi.idle, ?_⟩
            intro w hw
            simp only [List.mem_append, List.mem_singleton] at hw
            rcases hw with hw | hw
            · exact hi.busy w hw
            · rw [hw]; exact (hi.cur u hu).1
          · exact hi
        · exact hi
      | finish k =>
        right
        refine ⟨_, _, rfl, ?_⟩
        unfold finishUnit
        split
        · rename_i u hu
          have hub := hi.busy u (List.mem_of_getElem? hu)
          refine ⟨hi.cur, ?_, ?_⟩
          · intro w hw
            simp only [List.mem_append, List.mem_singleton] at hw
            rcases hw with hw | hw
            · exact hi.idle w hw
            · subst hw
              exact ⟨⟨hub.1, hub.2.1, by simp⟩, rfl⟩
          · intro w hw
            exact hi.busy w (List.mem_of_mem_eraseIdx hw)
        · exact hi
    rcases step with h | ⟨m1, r, h, hc⟩
    · left; simp only [packRun, h]; rfl
    · rcases ih m1 (t + opBytes op) hc (fun o ho => hon o (by simp [ho]))
        (fun o ho => hsm o (by simp [ho])) (by omega) with h2 | ⟨m2, us, h2, hc2⟩
      · left; simp only [packRun, h, PackRes.ok_bind, h2]; rfl
      · right
        refine ⟨m2, r.toList ++ us, ?_, hc2.mono (by omega)⟩
        simp only [packRun, h, PackRes.ok_bind, h2]

/-! ### Conservation of units -/

/-- Number of units the manager knows. -/
def unitCount (m : PackMgr) : Nat := (if m.cur.isSome then 1 else 0) + m.idle.length + m.busy.length

theorem packEsUnit_count (m m' : PackMgr) (p : Packet) (r : Option EsUnit)
    (h : packEsUnit m p = .ok (m', r)) : unitCount m' = unitCount m := by
  unfold packEsUnit at h
  cases hc : p.data[3]? with
  | none => rw [hc] at h; simp at h
  | some code =>
    rw [hc] at h
    simp only [PackRes.bind_ok, Prod.exists] at h
    obtain ⟨u, idle, hf, u', hg, h⟩ := h
    have hcnt : 1 + idle.length = (if m.cur.isSome then 1 else 0) + m.idle.length := by
      unfold fetchUnit at hf
      cases hm : m.cur with
      | some w =>
        rw [hm] at hf
        simp only [PackRes.ok.injEq, Prod.mk.injEq] at hf
        simp [hf.2]
      | none =>
        rw [hm] at hf
        simp only at hf
        cases hl : m.idle with
        | nil => rw [hl] at hf; simp at hf
        | cons w r =>
          rw [hl] at hf
          simp only [PackRes.ok.injEq, Prod.mk.injEq] at hf
          simp [← hf.2]; omega
    split at h
    · cases hl : idle with
      | nil => rw [hl] at h; simp at h
      | cons v rest =>
        rw [hl] at h hcnt
        simp only [PackRes.bind_ok] at h
        obtain ⟨v', _, h⟩ := h
        simp only [PackRes.ok.injEq, Prod.mk.injEq] at h
        rw [← h.1]
        simp only [unitCount, Option.isSome_some, if_true, List.length_append, List.length_cons,
          List.length_nil] at hcnt ⊢
        omega
    · simp only [PackRes.bind_ok] at h
      obtain ⟨v', _, h⟩ := h
      simp only [PackRes.ok.injEq, Prod.mk.injEq] at h
      rw [← h.1]
      simp only [unitCount, Option.isSome_some, if_true] at hcnt ⊢
      omega

theorem packStep_count (m m' : PackMgr) (op : PackOp) (r : Option EsUnit)
    (h : packStep m op = .ok (m', r)) : unitCount m' = unitCount m := by
  cases op with
  | send p =>
    simp only [packStep, PackRes.bind_ok, Prod.exists] at h
    obtain ⟨m1, rc, ret, hs, he⟩ := h
    simp only [PackRes.ok.injEq, Prod.mk.injEq] at he
    obtain ⟨rfl, rfl⟩ := he
    unfold sendPacket at hs
    simp only at hs
    split at hs
    · simp only [PackRes.ok.injEq, Prod.mk.injEq] at hs; rw [hs.1]
    · split at hs
      · simp only [PackRes.ok.injEq, Prod.mk.injEq] at hs; rw [hs.1]
      · split at hs
        · simp only [PackRes.ok.injEq, Prod.mk.injEq] at hs; rw [hs.1]
        · split at hs
          · split at hs
            · simp only [PackRes.ok.injEq, Prod.mk.injEq] at hs; rw [hs.1]
            · split at hs
              · simp at hs
              · simp only [PackRes.bind_ok, Prod.exists, PackRes.ok.injEq, Prod.mk.injEq] at hs
                obtain ⟨m2, r2, hp, rfl, _, rfl⟩ := hs
                exact packEsUnit_count _ _ _ _ hp
          · simp at hs
  | flush =>
    simp only [packStep, PackRes.ok.injEq] at h
    unfold flushUnit at h
    split at h
    · rename_i u hu
      split at h
      · simp only [Prod.mk.injEq] at h
        rw [← h.1]
        simp [unitCount, hu]; omega
      · simp only [Prod.mk.injEq] at h; rw [← h.1]
    · simp only [Prod.mk.injEq] at h; rw [← h.1]
  | finish k =>
    simp only [packStep, PackRes.ok.injEq, Prod.mk.injEq] at h
    obtain ⟨rfl, _⟩ := h
    unfold finishUnit
    split
    · rename_i u hu
      obtain ⟨hk, _⟩ := List.getElem?_eq_some_iff.mp hu
      simp only [unitCount, List.length_append, List.length_cons, List.length_nil,
        List.length_eraseIdx, if_pos hk]
      omega
    · rfl

end Davs2
