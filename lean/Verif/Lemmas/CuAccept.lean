import Verif.Lemmas.Binarise
import Verif.Model.CuSyntax
/-
What is known of an accepted unit, whatever was delivered.
-/
namespace Davs2.Cs
open Davs2.Sx Davs2.Mo

variable {σ : Type} {m : Machine σ}

/-- Every result without a fault has the property. -/
def Post {α : Type} (p : Sx.P σ α) (Q : α → Prop) : Prop := ∀ s v s', p s = .ok (v, s') → Q v

theorem Post.bind {α β : Type} {p : Sx.P σ α} {f : α → Sx.P σ β} {R : α → Prop} {Q : β → Prop} (hp : Post p R) (hf : ∀ a, R a → Post (f a) Q) :
    Post (p >>= f) Q := by
  intro s v s' h
  obtain ⟨a, s1, h1, h2⟩ := Sx.bind_ok.mp h
  exact hf a (hp s a s1 h1) s1 v s' h2

theorem Post.any {α : Type} (p : Sx.P σ α) : Post p (fun _ => True) := fun _ _ _ _ => trivial

theorem Post.next {α β : Type} {p : Sx.P σ α} {f : α → Sx.P σ β} {Q : β → Prop} (hf : ∀ a, Post (f a) Q) : Post (p >>= f) Q :=
  (Post.any p).bind fun a _ => hf a

theorem Post.pure {α : Type} {v : α} {Q : α → Prop} (h : Q v) : Post (pure v : Sx.P σ α) Q := by
  intro s v' s' e
  have : (v, s) = (v', s') := Except.ok.inj e
  rw [Prod.mk.injEq] at this
  rw [← this.1]; exact h

theorem Post.fault {α : Type} {e : Sx.Fault} {Q : α → Prop} : Post (Sx.fault e : Sx.P σ α) Q := fun _ _ _ h => nomatch h

theorem Post.ite {α : Type} {c : Prop} [Decidable c] {p q : Sx.P σ α} {Q : α → Prop} (hp : c → Post p Q) (hq : ¬ c → Post q Q) :
    Post (if c then p else q) Q := by
  by_cases h : c
  · rw [if_pos h]; exact hp h
  · rw [if_neg h]; exact hq h

/-- Blocks with a pattern. -/
def Full (keep : Nat → Prop) (o : Option (List (Nat × Coeffs))) : Prop := ∀ cs, o = some cs → ∀ i c, (i, c) ∈ cs → keep i → 0 ≤ c.pattern

theorem Full.none {k : Nat → Prop} : Full k none := fun _ h => nomatch h

theorem post_blocks (bs : List (Nat × Option Sx.Blk × (Int → Int))) : Post (readBlocks m bs) (Full fun _ => True) := by
  induction bs with
  | nil =>
    exact Post.pure fun cs h i c hc _ => by cases h; cases hc
  | cons b bs ih =>
    obtain ⟨i, b, deq⟩ := b
    unfold readBlocks
    refine Post.next fun b => Post.next fun c => Post.ite (fun _ => Post.pure Full.none) fun hc => ih.bind fun o ho => ?_
    cases o with
    | none => exact Post.pure Full.none
    | some cs =>
      refine Post.pure fun cs' h j c' hm _ => ?_
      cases h
      rcases List.mem_cons.mp hm with e | e
      · cases e; omega
      · exact ho cs rfl j c' e trivial

theorem post_coeffs (E : Env) (level k tr cbp : Nat) (qp : Int) (modes : List Int) :
    Post (readCoeffs m E level k tr cbp qp modes) (Full fun i => i ≠ 0 ∨ tr ≠ 0) := by
  unfold readCoeffs
  refine Post.bind (R := Full fun i => i ≠ 0 ∨ tr ≠ 0) ?_ fun o ho => ?_
  · refine Post.ite (fun h => Post.ite (fun _ => Post.next fun b => Post.next fun c => ?_) fun _ => ?_) fun _ => ?_
    · refine Post.pure fun cs' h' j c' hm hk => ?_
      cases h'
      cases List.mem_singleton.mp hm
      omega
    · exact Post.pure fun cs h i c hc _ => by cases h; cases hc
    · exact fun s v s' h cs hcs i c hc _ => post_blocks _ s v s' h cs hcs i c hc trivial
  · cases o with
    | none => exact Post.pure Full.none
    | some cs =>
      refine (post_blocks _).bind fun o' ho' => ?_
      cases o' with
      | none => exact Post.pure Full.none
      | some cs' =>
        refine Post.pure fun cs'' h j c hm hk => ?_
        cases h
        rcases List.mem_append.mp hm with e | e
        · exact ho cs rfl j c e hk
        · exact ho' cs' rfl j c e trivial

theorem post_rest (E : Env) (S : Pic) (level sx sy k tr : Nat) (modes : List Int) :
    Post (readRest m E S level sx sy k tr modes) (fun r => ∀ p t q cs, r.1 = some (p, t, q, cs) →
      ∀ i c, (i, c) ∈ cs → i ≠ 0 ∨ t ≠ 0 → 0 ≤ c.pattern) := by
  unfold readRest
  refine Post.next fun r => ?_
  obtain ⟨o, last⟩ := r
  cases o with
  | none => exact Post.pure fun _ _ _ _ h => nomatch h
  | some v =>
    obtain ⟨c, t, q⟩ := v
    dsimp only
    refine Post.bind (R := Full fun i => i ≠ 0 ∨ t ≠ 0) (Post.ite (fun _ => post_coeffs _ _ _ _ _ _ _) fun _ => Post.pure fun cs h i c hc _ => by cases h; cases hc)
      fun o ho => ?_
    cases o with
    | none => exact Post.pure fun _ _ _ _ h => nomatch h
    | some cs =>
      refine Post.next fun f => Post.ite (fun _ => Post.pure fun _ _ _ _ h => nomatch h) fun _ => Post.pure ?_
      intro p t' q' cs' h
      cases h
      exact ho cs rfl

/-- Patterns of an accepted unit. -/
def Good (r : Option CuRead × Pic) : Prop := ∀ u, r.1 = some u → ∀ i c, (i, c) ∈ u.coeffs → i ≠ 0 ∨ u.trans ≠ 0 → 0 ≤ c.pattern

theorem Good.none {S : Pic} : Good (none, S) := fun _ h => nomatch h

theorem post_intra (E : Env) (level sx sy ds : Nat) (S : Pic) : Post (readIntra m E level sx sy ds S) Good := by
  unfold readIntra
  dsimp only
  refine Post.next fun t => Post.next fun f => Post.ite (fun _ => Post.pure Good.none) fun _ => Post.next fun r => ?_
  obtain ⟨o, b⟩ := r
  cases o with
  | none => exact Post.pure Good.none
  | some modes =>
    dsimp only
    refine Post.next fun c => Post.next fun f => Post.ite (fun _ => Post.pure Good.none) fun _ => (post_rest _ _ _ _ _ _ _ _).bind fun r hr => ?_
    obtain ⟨o, l⟩ := r
    cases o with
    | none => exact Post.pure Good.none
    | some v =>
      obtain ⟨p, t, q, cs⟩ := v
      refine Post.pure fun u hu => ?_
      cases hu
      exact hr p t q cs rfl

theorem post_inter (E : Env) (level sx sy : Nat) (r : CuType) (S : Pic) : Post (readInter m E level sx sy r S) Good := by
  unfold readInter
  dsimp only
  refine Post.next fun d => Post.next fun f => Post.ite (fun _ => Post.pure Good.none) fun _ => Post.next fun v => ?_
  cases v with
  | none => exact Post.pure Good.none
  | some v =>
    obtain ⟨dmh, v1, v2⟩ := v
    dsimp only
    refine Post.ite (fun _ => Post.next fun f => Post.ite (fun _ => Post.pure Good.none) fun _ => ?_) fun _ => (post_rest _ _ _ _ _ _ _ _).bind fun r hr => ?_
    · refine Post.pure fun u hu => ?_
      cases hu
      intro i c hc; cases hc
    · obtain ⟨o, l⟩ := r
      cases o with
      | none => exact Post.pure Good.none
      | some v =>
        obtain ⟨p, t, q, cs⟩ := v
        refine Post.pure fun u hu => ?_
        cases hu
        exact hr p t q cs rfl

theorem post_cu (E : Env) (level sx sy : Nat) (S : Pic) : Post (readCu m E level sx sy S) Good := by
  unfold readCu
  refine Post.next fun r => ?_
  cases r with
  | none => exact Post.pure Good.none
  | some r => exact Post.ite (fun _ => post_inter _ _ _ _ _ _) fun _ => post_intra _ _ _ _ _ _

end Davs2.Cs
