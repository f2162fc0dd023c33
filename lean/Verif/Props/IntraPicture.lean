import Verif.Lemmas.RpSlices
/-
C88, C89, C90: intra prediction in a whole plane of a picture.
-/
namespace Davs2.Rp
open Davs2.Spec Davs2.Ip Davs2.Qt

/-! ### C90: many slices -/

section
variable {p : Pic} {k : Coded} {lx ly : Nat}

theorem blk_keep (p : Pic) (lx ly : Nat) (cur : Int) (s : Nat → Border × Border) (tu : Nat → Nat × (Bool → Bool → Nat → Nat → Int → Int)) :
    ∀ (bs : List (Blk × Nat)) (st : St), (bs.foldl (fun st b => intraBlk p lx ly cur (s b.2) (tu b.2).1 (tu b.2).2 st b.1) st).err = st.err ∧
      (bs.foldl (fun st b => intraBlk p lx ly cur (s b.2) (tu b.2).1 (tu b.2).2 st b.1) st).slice = st.slice := by
  intro bs
  induction bs with
  | nil => intro st; exact ⟨rfl, rfl⟩
  | cons b bs ih =>
    intro st
    have h := ih (intraBlk p lx ly cur (s b.2) (tu b.2).1 (tu b.2).2 st b.1)
    exact ⟨h.1, h.2⟩

theorem cu_keep (env : Env) (st : St) (c : Cu) : (st.err = true → (cuRecon p k env lx ly st c).err = true) ∧ (cuRecon p k env lx ly st c).slice = st.slice := by
  unfold cuRecon
  dsimp only
  by_cases h : st.slice (c.y / 8) (c.x / 8) = -1
  · rw [if_pos h]; exact ⟨fun _ => rfl, rfl⟩
  · rw [if_neg h]
    rcases k.cu c with ⟨tr, tu⟩ | val
    · have := blk_keep p lx ly (st.slice (c.y / 8) (c.x / 8)) (env.scratch c) tu (cuBlks p lx ly c tr).zipIdx st
      exact ⟨fun e => this.1.trans e, this.2⟩
    · exact ⟨fun e => e, rfl⟩

theorem cus_keep (env : Env) : ∀ (cs : List Cu) (st : St), st.err = true → (cs.foldl (cuRecon p k env lx ly) st).err = true := by
  intro cs
  induction cs with
  | nil => intro st h; exact h
  | cons c cs ih => intro st h; exact ih _ ((cu_keep env st c).1 h)

theorem tail_err (st : St) : (backup p lx ly (cacheBorder p lx ly st)).err = st.err := by
  unfold backup
  by_cases h : ly < (p.h + 2 ^ p.lcu - 1) / 2 ^ p.lcu - 1
  · rw [if_pos h]; rfl
  · rw [if_neg h]; rfl

theorem lcu_keep (env : Env) (st : St) (h : st.err = true) : (lcuStep p k env ly st lx).err = true := by
  unfold lcuStep
  rw [if_pos h]
  exact h

theorem lcus_keep (env : Env) : ∀ (l : List Nat) (st : St), st.err = true → (l.foldl (lcuStep p k env ly) st).err = true := by
  intro l
  induction l with
  | nil => intro st h; exact h
  | cons a l ih => intro st h; exact ih _ (lcu_keep env st h)

theorem row_keep (env : Env) (st : St) (h : st.err = true) : (row p k env st ly).err = true := lcus_keep env _ _ h

theorem rows_keep (env : Env) : ∀ (l : List Nat) (st : St), st.err = true → (l.foldl (row p k env) st).err = true := by
  intro l
  induction l with
  | nil => intro st h; exact h
  | cons a l ih => intro st h; exact ih _ (row_keep env st h)

theorem lcu_err (hp : p.Ok) (env : Env) (h1 : lx * 2 ^ p.lcu < p.w) (h2 : ly * 2 ^ p.lcu < p.h) (hs : k.slice lx ly % 256 = 255) (st : St) :
    (lcuStep p k env ly st lx).err = true := by
  by_cases he : st.err = true
  · exact lcu_keep env st he
  unfold lcuStep
  rw [if_neg he]
  dsimp only
  show (backup p lx ly (cacheBorder p lx ly _)).err = true
  rw [tail_err]
  show St.err (List.foldl (cuRecon p k env lx ly) _ _) = true
  rcases hl : parse p.w p.h k.split (p.lcu - 3) (lx * 2 ^ p.lcu) (ly * 2 ^ p.lcu) with _ | ⟨c, cs⟩
  · have hp8 := Nat.two_pow_pos (p.lcu - 3 + 3)
    have := parse_cover (w := p.w) (h := p.h) k.split (p.lcu - 3) (lx * 2 ^ p.lcu) (ly * 2 ^ p.lcu) (lx * 2 ^ p.lcu) (ly * 2 ^ p.lcu)
      (by omega) (by omega) (by omega) (by omega) (by omega) (by omega)
    rw [hl] at this
    obtain ⟨c, hc, _⟩ := this
    cases hc
  · rw [List.foldl_cons]
    apply cus_keep
    obtain ⟨i, j, a⟩ := at_mk (pre := []) hp h1 h2 hl
    have e : 2 ^ p.lcu = 8 * 2 ^ (p.lcu - 3) := by
      have := hp.lo
      rw [show (8 : Nat) = 2 ^ 3 by rfl, ← Nat.pow_add]; congr 1; omega
    have ei := cu_end a.ll a.il
    have ej := cu_end a.ll a.jl
    have ax := a.x; have ay := a.y; have aw := a.inw; have ah := a.inh
    have hpos := Nat.two_pow_pos c.l
    obtain ⟨w', hw'⟩ := hp.w
    obtain ⟨h', hh'⟩ := hp.h
    have m1 : lx * 2 ^ p.lcu = 8 * (lx * 2 ^ (p.lcu - 3)) := by rw [e, Nat.mul_left_comm]
    have m2 : ly * 2 ^ p.lcu = 8 * (ly * 2 ^ (p.lcu - 3)) := by rw [e, Nat.mul_left_comm]
    have key : (firstTop p lx (lcuInit p k lx ly st)).slice (c.y / 8) (c.x / 8) = -1 := by
      have : (firstTop p lx (lcuInit p k lx ly st)).slice = (lcuInit p k lx ly st).slice := by
        unfold firstTop
        by_cases h0 : lx = 0
        · rw [if_pos h0]
        · rw [if_neg h0]
      rw [this]
      unfold lcuInit
      dsimp only
      rw [if_pos]
      · unfold int8; omega
      · rw [m1, m2]; omega
    unfold cuRecon
    dsimp only
    rw [if_pos key]

theorem run_err (hp : p.Ok) (env : Env) (h1 : lx * 2 ^ p.lcu < p.w) (h2 : ly * 2 ^ p.lcu < p.h) (hs : k.slice lx ly % 256 = 255) (st : St) :
    (run p k env st).err = true := by
  have c1 := (count_iff (w := p.w) (Nat.two_pow_pos p.lcu)).mpr h1
  have c2 := (count_iff (w := p.h) (Nat.two_pow_pos p.lcu)).mpr h2
  have rr : ∀ st : St, (row p k env st ly).err = true := by
    intro st
    unfold row
    obtain ⟨a, b, e⟩ := List.append_of_mem (List.mem_range.mpr c1)
    rw [e, List.foldl_append, List.foldl_cons]
    exact lcus_keep env _ _ (lcu_err hp env h1 h2 hs _)
  unfold run
  obtain ⟨a, b, e⟩ := List.append_of_mem (List.mem_range.mpr c2)
  rw [e, List.foldl_append, List.foldl_cons]
  exact rows_keep env _ _ (rr _)
end

/-- Coding trees in a row of the picture. -/
def Pic.cols (p : Pic) : Nat := (p.w + 2 ^ p.lcu - 1) / 2 ^ p.lcu

/-- Slice numbers as `check_slice_header` assigns them (decoder.cc:351-372): zero for the first coding tree, for each next one in decoding order the
same or one more. -/
structure Numbered (p : Pic) (k : Coded) : Prop where
  first : k.slice 0 0 = 0
  next : ∀ t, k.slice ((t + 1) % p.cols) ((t + 1) / p.cols) = k.slice (t % p.cols) (t / p.cols) ∨
    k.slice ((t + 1) % p.cols) ((t + 1) / p.cols) = k.slice (t % p.cols) (t / p.cols) + 1

theorem reach {f : Nat → Nat} {m : Nat} (h0 : f 0 ≤ m) (hs : ∀ t, f (t + 1) = f t ∨ f (t + 1) = f t + 1) : ∀ t, m ≤ f t → ∃ u ≤ t, f u = m := by
  intro t
  induction t with
  | zero => intro h; exact ⟨0, Nat.le_refl _, by omega⟩
  | succ t ih =>
    intro h
    by_cases h' : m ≤ f t
    · obtain ⟨u, hu, e⟩ := ih h'
      exact ⟨u, by omega, e⟩
    · exact ⟨t + 1, Nat.le_refl _, by have := hs t; omega⟩

theorem slices_ok {p : Pic} {k : Coded} (hp : p.Ok) (hn : Numbered p k) {env : Env} {st : St} (h : (run p k env st).err = false) : SlicesOk p k := by
  intro lx ly h1 h2
  by_contra hge
  have c1 : lx < p.cols := (count_iff (w := p.w) (Nat.two_pow_pos p.lcu)).mpr h1
  have hc : 0 < p.cols := by omega
  obtain ⟨t, ht, e⟩ := reach (f := fun t => k.slice (t % p.cols) (t / p.cols)) (m := 255)
    (by show k.slice (0 % p.cols) (0 / p.cols) ≤ 255; rw [Nat.zero_mod, Nat.zero_div, hn.first]; omega) hn.next (ly * p.cols + lx) (by
      show 255 ≤ k.slice ((ly * p.cols + lx) % p.cols) ((ly * p.cols + lx) / p.cols)
      rw [Nat.mul_comm ly, Nat.mul_add_mod, Nat.mul_add_div hc, Nat.mod_eq_of_lt c1, Nat.div_eq_of_lt c1, Nat.add_zero]
      omega)
  have hq : t / p.cols ≤ ly := by
    have : (ly * p.cols + lx) / p.cols = ly := by
      rw [Nat.mul_comm ly, Nat.mul_add_div hc, Nat.div_eq_of_lt c1]; rfl
    rw [← this]
    exact Nat.div_le_div_right ht
  have w1 : t % p.cols * 2 ^ p.lcu < p.w := (count_iff (Nat.two_pow_pos p.lcu)).mp (Nat.mod_lt t hc)
  have w2 : t / p.cols * 2 ^ p.lcu < p.h := Nat.lt_of_le_of_lt (Nat.mul_le_mul_right _ hq) h2
  have := run_err (k := k) hp env w1 w2 (by rw [show k.slice (t % p.cols) (t / p.cols) = 255 from e]) st
  rw [h] at this
  cases this

/-- **C88.**  Intra prediction in a picture.  Whatever the in-loop filters do to the coding trees already finished, however the picture is divided
into slices, coding units and transform blocks, whatever memory held before: unless an error is reported the samples of the plane which the in-loop
filters are given are those of `Spec.reconstruct`, which knows of no filters, no saved rows or columns, no availability tables: block after block,
each of the five groups of neighbours being used exactly if all its samples lie in the picture and the same slice and are reconstructed already.
No availability table is read outside its bounds. -/
theorem C88_intra_picture (p : Pic) (k : Coded) (env : Env) (st : St) (hp : p.Ok) (hk : AllOk p k) (hn : Numbered p k)
    (he : (run p k env st).err = false) (X Y : Nat) (hX : X < p.w / 2 ^ p.s) (hY : Y < p.h / 2 ^ p.s) :
    (run p k env st).out X Y = (reconstruct (setting p k) (blocks p k)).val X Y ∧ (run p k env st).inTab = st.inTab := by
  have h := picture hp (slices_ok hp hn he) env hk st
  exact ⟨(h.2.2 X Y hX hY).1, h.2.1⟩

/-- No error is reported for a picture of at most 255 slices. -/
theorem C88_no_error (p : Pic) (k : Coded) (env : Env) (st : St) (hp : p.Ok) (hk : AllOk p k)
    (hs : ∀ lx ly, lx * 2 ^ p.lcu < p.w → ly * 2 ^ p.lcu < p.h → k.slice lx ly < 255) : (run p k env st).err = false :=
  (picture hp hs env hk st).1

/-- Every sample of the plane belongs to a block, and the blocks lie in the coding trees: nothing is left as it was in the buffer. -/
theorem C88_all_samples (p : Pic) (k : Coded) (hp : p.Ok) (hk : AllOk p k) (X Y : Nat) (hX : X < p.w / 2 ^ p.s) (hY : Y < p.h / 2 ^ p.s) :
    ∃ b ∈ blocks p k, b.x ≤ X ∧ X < b.x + b.w ∧ b.y ≤ Y ∧ Y < b.y + b.h := by
  let k0 : Coded := { k with slice := fun _ _ => 0 }
  have h := ((picture (k := k0) hp (fun _ _ _ _ => by show 0 < 255; omega) ⟨fun _ _ m => m, fun _ _ => 0, fun _ _ => (fun _ => 0, fun _ => 0)⟩ hk
    ⟨fun _ _ => 0, fun _ => 0, fun _ => 0, fun _ _ => 0, false, true, fun _ _ => 0⟩).2.2 X Y hX hY).2
  rcases done_block (blocks p k0) _ h with h | ⟨b, hb, h⟩
  · cases h
  · exact ⟨b, hb, by omega⟩

/-- **C89.**  Slices are reconstructed independently.  Two coded pictures with the same slices, of which one has other split flags, modes, residuals
or motion compensated samples outside slice `n` (and other in-loop filtering, other initial memory): the samples of slice `n` are the same. -/
theorem C89_slices_independent (p : Pic) (k k' : Coded) (env env' : Env) (st st' : St) (hp : p.Ok) (hk : AllOk p k) (hk' : AllOk p k') (hn : Numbered p k)
    (he : (run p k env st).err = false) (he' : (run p k' env' st').err = false) (n : Nat) (hs : ∀ lx ly, k.slice lx ly = k'.slice lx ly)
    (hsplit : ∀ l x y, k.slice (x / 2 ^ p.lcu) (y / 2 ^ p.lcu) = n → k.split l x y = k'.split l x y)
    (hcu : ∀ c : Cu, k.slice (c.x / 2 ^ p.lcu) (c.y / 2 ^ p.lcu) = n → k.cu c = k'.cu c)
    (X Y : Nat) (hX : X < p.w / 2 ^ p.s) (hY : Y < p.h / 2 ^ p.s) (hXY : k.slice (X * 2 ^ p.s / 2 ^ p.lcu) (Y * 2 ^ p.s / 2 ^ p.lcu) = n) :
    (run p k env st).out X Y = (run p k' env' st').out X Y := by
  have hn' : Numbered p k' := ⟨by rw [← hs]; exact hn.first, by intro t; rw [← hs, ← hs]; exact hn.next t⟩
  have S : Same p n k k' := ⟨hs, hsplit, hcu⟩
  have hsl : (setting p k).slice X Y = n := by
    rw [← hXY, pow_ts hp, Nat.mul_div_mul_right _ _ (Nat.two_pow_pos p.s), Nat.mul_div_mul_right _ _ (Nat.two_pow_pos p.s)]
    rfl
  rw [(C88_intra_picture p k env st hp hk hn he X Y hX hY).1, (C88_intra_picture p k' env' st' hp hk' hn' he' X Y hX hY).1,
    slice_only (blocks_single hp hk), slice_only (blocks_single hp hk'), ← setting_same S, hsl, blocks_same hp hk hk' S, setting_same S]

/-- **C90, violated.**  A picture of 256 slices or more cannot be decoded: the number of a slice is stored in a signed byte, in which 255 becomes −1,
and −1 is taken for the mark of a coding unit that could not be parsed.  Whatever is coded and however the rest of the decoder behaves, an error
is reported for the picture. -/
theorem C90_many_slices_violated (p : Pic) (k : Coded) (env : Env) (st : St) (hp : p.Ok) (hn : Numbered p k) (lx ly : Nat)
    (h1 : lx * 2 ^ p.lcu < p.w) (h2 : ly * 2 ^ p.lcu < p.h) (hs : 255 ≤ k.slice lx ly) : (run p k env st).err = true := by
  rcases he : (run p k env st).err with _ | _
  · have := slices_ok hp hn he lx ly h1 h2
    omega
  · rfl

/-- **C90, partial.**  Up to 255 slices (numbers 0 to 254) no error is reported.  Missing: more slices, for which the property fails. -/
theorem C90_partial (p : Pic) (k : Coded) (env : Env) (st : St) (hp : p.Ok) (hk : AllOk p k)
    (hs : ∀ lx ly, lx * 2 ^ p.lcu < p.w → ly * 2 ^ p.lcu < p.h → k.slice lx ly ≤ 254) : (run p k env st).err = false :=
  C88_no_error p k env st hp hk fun lx ly h1 h2 => Nat.lt_succ_of_le (hs lx ly h1 h2)

/-! ### Examples -/

/-- A picture of 40x24 luma samples with coding trees of 16x16, two slices (the second begins in the second coding tree of the first row), coding
units of 16 and 8 samples, intra modes and splits of several kinds, one coding unit predicted from another picture. -/
def exPic (s : Nat) : Pic := ⟨40, 24, 4, s, 8⟩
def exCoded : Coded where
  split := fun l x _ => l = 4 && x = 16
  cu := fun c => if c.x = 24 ∧ c.y = 8 then .inter fun x y => 100 + x + y
    else if c.l = 3 then .intra (if c.x % 16 = 0 then 3 else 0) fun t => (t % 3, fun _ _ x y v => v + x - y)
    else .intra 1 fun t => (24 + t % 4, fun top left x _ v => if top && left then v + x else v + 3)
  slice := fun x y => if x = 0 ∧ y = 0 then 0 else 1

theorem ex_ok (s : Nat) (hs : s ≤ 1) : (exPic s).Ok := ⟨⟨5, rfl⟩, ⟨3, rfl⟩, by show 4 ≤ 4; omega, by show 4 ≤ 6; omega, hs⟩

theorem ex_numbered (s : Nat) : Numbered (exPic s) exCoded := by
  refine ⟨rfl, ?_⟩
  intro t
  have e : (exPic s).cols = 3 := by show (40 + 2 ^ 4 - 1) / 2 ^ 4 = 3; decide
  have h : ∀ x y, exCoded.slice x y = if x = 0 ∧ y = 0 then 0 else 1 := fun _ _ => rfl
  rw [e, h, h, if_neg (by omega)]
  by_cases h0 : t % 3 = 0 ∧ t / 3 = 0
  · rw [if_pos h0]; exact Or.inr rfl
  · rw [if_neg h0]; exact Or.inl rfl

theorem ex_content (c : Cu) (h : c.l = 3 ∨ c.l = 4) : ContentOk exCoded c := by
  unfold ContentOk
  have e : exCoded.cu c = if c.x = 24 ∧ c.y = 8 then Content.inter fun x y => 100 + x + y
    else if c.l = 3 then .intra (if c.x % 16 = 0 then 3 else 0) fun t => (t % 3, fun _ _ x y v => v + x - y)
    else .intra 1 fun t => (24 + t % 4, fun top left x _ v => if top && left then v + x else v + 3) := rfl
  rw [e]
  by_cases h1 : c.x = 24 ∧ c.y = 8
  · rw [if_pos h1]; trivial
  · rw [if_neg h1]
    by_cases h2 : c.l = 3
    · rw [if_pos h2, h2]
      refine ⟨?_, fun t => by show t % 3 < 33; omega⟩
      by_cases h3 : c.x % 16 = 0
      · rw [if_pos h3]; exact ⟨false, true, false, rfl⟩
      · rw [if_neg h3]; exact ⟨false, false, false, rfl⟩
    · rw [if_neg h2, h.resolve_left h2]
      exact ⟨⟨true, true, true, rfl⟩, fun t => by show 24 + t % 4 < 33; omega⟩

theorem ex_all (s : Nat) (hs : s ≤ 1) : AllOk (exPic s) exCoded := by
  intro lx ly h1 h2 c hc
  have f := tree_fits (ex_ok s hs).w (ex_ok s hs).h (show 3 ≤ (exPic s).lcu by show 3 ≤ 4; omega) exCoded.split h1 h2 c hc
  have e : (exPic s).lcu = 4 := rfl
  have := f.lo; have := f.hi
  exact ex_content c (by omega)

theorem ex_slices (s : Nat) : ∀ lx ly, lx * 2 ^ (exPic s).lcu < (exPic s).w → ly * 2 ^ (exPic s).lcu < (exPic s).h → exCoded.slice lx ly < 255 := by
  intro lx ly _ _
  show (if lx = 0 ∧ ly = 0 then 0 else 1) < 255
  by_cases h : lx = 0 ∧ ly = 0
  · rw [if_pos h]; omega
  · rw [if_neg h]; omega

/-- In the example no error is reported, both planes are reconstructed, whatever the filters do. -/
example (env : Env) (st : St) : (run (exPic 0) exCoded env st).err = false ∧
    (run (exPic 0) exCoded env st).out (39 : Nat) (23 : Nat) = (reconstruct (setting (exPic 0) exCoded) (blocks (exPic 0) exCoded)).val (39 : Nat) (23 : Nat) ∧
    (run (exPic 1) exCoded env st).out (19 : Nat) (11 : Nat) = (reconstruct (setting (exPic 1) exCoded) (blocks (exPic 1) exCoded)).val (19 : Nat) (11 : Nat) :=
  have e := fun s hs => C88_no_error (exPic s) exCoded env st (ex_ok s hs) (ex_all s hs) (ex_slices s)
  ⟨e 0 (by omega), (C88_intra_picture (exPic 0) exCoded env st (ex_ok 0 (by omega)) (ex_all 0 (by omega)) (ex_numbered 0) (e 0 (by omega)) 39 23 (by decide) (by decide)).1,
    (C88_intra_picture (exPic 1) exCoded env st (ex_ok 1 (by omega)) (ex_all 1 (by omega)) (ex_numbered 1) (e 1 (by omega)) 19 11 (by decide) (by decide)).1⟩

/-- The sample at (16, 4) starts the second slice's second row of blocks; it is predicted from the block above, not from the first slice on its left. -/
example : (reconstruct (setting (exPic 0) exCoded) (blocks (exPic 0) exCoded)).val 16 4 = 127 ∧
    (reconstruct (setting (exPic 0) exCoded) (blocks (exPic 0) exCoded)).val 15 4 = 131 := by decide +kernel

/-- C89: changing what is coded in the first slice does not change the second. -/
example (env env' : Env) (st st' : St) : (run (exPic 0) exCoded env st).out (16 : Nat) (4 : Nat) =
    (run (exPic 0) { exCoded with cu := fun c => if c.x = 0 ∧ c.y = 0 then .inter fun _ _ => 7 else exCoded.cu c } env' st').out (16 : Nat) (4 : Nat) := by
  have hk' : AllOk (exPic 0) { exCoded with cu := fun c => if c.x = 0 ∧ c.y = 0 then .inter fun _ _ => 7 else exCoded.cu c } := by
    intro lx ly h1 h2 c hc
    have := ex_all 0 (by omega) lx ly h1 h2 c hc
    unfold ContentOk at this ⊢
    dsimp only
    by_cases h : c.x = 0 ∧ c.y = 0
    · rw [if_pos h]; trivial
    · rw [if_neg h]; exact this
  refine C89_slices_independent (exPic 0) exCoded _ env env' st st' (ex_ok 0 (by omega)) (ex_all 0 (by omega)) hk' (ex_numbered 0)
    (C88_no_error _ _ env st (ex_ok 0 (by omega)) (ex_all 0 (by omega)) (ex_slices 0))
    (C88_no_error _ _ env' st' (ex_ok 0 (by omega)) hk' (ex_slices 0)) 1 (fun _ _ => rfl) (fun _ _ _ _ => rfl) ?_ 16 4 (by decide) (by decide) rfl
  intro c h
  show exCoded.cu c = if c.x = 0 ∧ c.y = 0 then .inter fun _ _ => 7 else exCoded.cu c
  rw [if_neg]
  rintro ⟨h1, h2⟩
  rw [h1, h2] at h
  exact absurd h (by decide)

/-- C90: 256 slices of one coding tree each. -/
example (env : Env) (st : St) (split : Nat → Nat → Nat → Bool) (cu : Cu → Content) :
    (run ⟨4096, 16, 4, 0, 8⟩ ⟨split, cu, fun x y => x + 256 * y⟩ env st).err = true := by
  have e : (⟨4096, 16, 4, 0, 8⟩ : Pic).cols = 256 := by decide
  refine C90_many_slices_violated _ _ env st ⟨⟨512, rfl⟩, ⟨2, rfl⟩, by decide, by decide, by decide⟩ ⟨rfl, ?_⟩ 255 0 (by decide) (by decide) (by show 255 ≤ 255 + 256 * 0; omega)
  intro t
  rw [e]
  dsimp only
  omega

end Davs2.Rp
