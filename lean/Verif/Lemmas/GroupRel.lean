import Verif.Spec.GroupRel
import Verif.Lemmas.Group
import Verif.Lemmas.Window

/-!
# From relations to functions
-/
namespace Libff
open GroupOps

section
variable {G A : Type*} [GroupOps G] [AddCommGroup A] {Rep : G → A → Prop}

omit [GroupOps G] [AddCommGroup A] in
theorem denote_rep (g : {g : G // ∃ a, Rep g a}) : Rep g.1 (denote g) := g.2.choose_spec

theorem denote_eq (h : ImplementsRel Rep) {g : {g : G // ∃ a, Rep g a}} {a : A} (hg : Rep g.1 a) :
    denote g = a := h.unique (denote_rep g) hg

/-- On valid objects the class implements the group, so every theorem about generic group algorithms
applies. -/
theorem ImplementsRel.implements (h : ImplementsRel Rep) :
    @ImplementsGroup _ A h.validOps _ (denote (Rep := Rep)) :=
  letI := h.validOps
  { zero := denote_eq h h.zero
    add := fun a b => denote_eq h (h.add (denote_rep a) (denote_rep b))
    sub := fun a b => denote_eq h (h.sub (denote_rep a) (denote_rep b))
    dbl := fun a => denote_eq h (h.dbl (denote_rep a)) }

/-- The scalar multiplication of the raw class, run on valid objects. -/
theorem scalarMulLoop_val (h : ImplementsRel Rep) (e : List Limb) (base : {g : G // ∃ a, Rep g a}) (n : Nat)
    (found : Bool) (r : {g : G // ∃ a, Rep g a}) :
    (@scalarMulLoop _ h.validOps base e n (found, r)).1 = scalarMulLoop base.1 e n (found, r.1) := by
  induction n generalizing found r with
  | zero => rfl
  | succ i ih =>
    simp only [scalarMulLoop]
    split
    · rw [ih]
      congr 2
      cases found <;> rfl
    · rw [ih]
      congr 2
      cases found <;> rfl

theorem scalarMul_rel (h : ImplementsRel Rep) {g : G} {a : A} (hg : Rep g a) (e : List Limb) :
    Rep (scalarMul g e) (val e • a) := by
  let g' : {g : G // ∃ a, Rep g a} := ⟨g, a, hg⟩
  have e1 : (@scalarMul _ h.validOps g' e).1 = scalarMul g e := scalarMulLoop_val h e g' _ _ _
  have e2 := @scalarMul_spec _ _ h.validOps _ _ h.implements g' e
  rw [← e1, ← denote_eq h (g := g') hg, ← e2]
  exact denote_rep _

end

section
variable {G A : Type*} [Zero A] {Rep : G → A → Prop}

theorem writeBack_rel (Special : G → Prop) (isZero : G → Bool)
    (hz : ∀ {g a}, Rep g a → (isZero g = true ↔ a = 0)) (zs : G) (hzs : Rep zs 0) (hsp : Special zs)
    (vec : List G) (as : List A) (hv : List.Forall₂ Rep vec as) :
    ∃ as', List.Forall₂ Rep (vec.filter fun v => !isZero v) as' ∧ (∀ a ∈ as', a ≠ 0) ∧
      ∀ it, List.Forall₂ Rep it as' → (∀ x ∈ it, Special x) →
        ∃ l, writeBack isZero zs vec it = .ok l ∧ List.Forall₂ Rep l as ∧ ∀ x ∈ l, Special x := by
  induction hv with
  | nil => exact ⟨[], List.Forall₂.nil, by simp, fun _ _ _ => ⟨[], rfl, List.Forall₂.nil, by simp⟩⟩
  | @cons v a vs as hva hvs ih =>
    obtain ⟨as', h1, h2, h3⟩ := ih
    by_cases h0 : isZero v = true
    · refine ⟨as', by rwa [List.filter_cons_of_neg (by simp [h0])], h2, fun it hit hs => ?_⟩
      obtain ⟨l, l1, l2, l3⟩ := h3 it hit hs
      refine ⟨zs :: l, by simp [writeBack, h0, l1], ?_, ?_⟩
      · refine List.Forall₂.cons ?_ l2
        rw [(hz hva).1 h0]
        exact hzs
      · intro x hx
        rcases List.mem_cons.1 hx with rfl | hx
        · exact hsp
        · exact l3 x hx
    · refine ⟨a :: as', ?_, ?_, ?_⟩
      · rw [List.filter_cons_of_pos (by simp [h0])]
        exact List.Forall₂.cons hva h1
      · intro x hx
        rcases List.mem_cons.1 hx with rfl | hx
        · exact fun h => h0 ((hz hva).2 h)
        · exact h2 x hx
      · intro it hit hs
        cases hit with
        | @cons t _ it' _ ht hit' =>
          obtain ⟨l, l1, l2, l3⟩ := h3 it' hit' (fun x hx => hs x (List.mem_cons_of_mem _ hx))
          refine ⟨t :: l, by simp [writeBack, h0, l1], List.Forall₂.cons ht l2, ?_⟩
          intro x hx
          rcases List.mem_cons.1 hx with rfl | hx
          · exact hs x List.mem_cons_self
          · exact l3 x hx

theorem batchToSpecial_rel [GroupOps G] (Special : G → Prop) (isZero : G → Bool)
    (hz : ∀ {g a}, Rep g a → (isZero g = true ↔ a = 0)) (toSpecial : G → Outcome G)
    (hsp : ∃ z, toSpecial GroupOps.zero = .ok z ∧ Rep z 0 ∧ Special z) (batchNZ : List G → Outcome (List G))
    (hnz : ∀ l as, List.Forall₂ Rep l as → (∀ a ∈ as, a ≠ 0) →
      ∃ l', batchNZ l = .ok l' ∧ List.Forall₂ Rep l' as ∧ ∀ x ∈ l', Special x)
    (vec : List G) (as : List A) (hv : List.Forall₂ Rep vec as) :
    ∃ l, batchToSpecial isZero toSpecial batchNZ vec = .ok l ∧ List.Forall₂ Rep l as ∧ ∀ x ∈ l, Special x := by
  obtain ⟨z, z1, z2, z3⟩ := hsp
  obtain ⟨as', h1, h2, h3⟩ := writeBack_rel Special isZero hz z z2 z3 vec as hv
  obtain ⟨nz, n1, n2, n3⟩ := hnz _ _ h1 h2
  obtain ⟨l, l1, l2, l3⟩ := h3 nz n2 n3
  exact ⟨l, by simp only [batchToSpecial, n1, Outcome.bind_ok, z1, l1], l2, l3⟩

end
end Libff
