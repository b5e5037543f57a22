import Verif.Spec.GroupLaws
import Verif.Lemmas.GroupRel

/-!
# The laws from a denotation
-/
namespace Libff

/-- A class whose objects denote elements of an abelian group obeys the laws, if `==` decides equality of what is denoted. -/
theorem GroupClass.lawful {G A : Type} [AddCommGroup A] {ops : GroupOps G} {Rep : G → A → Prop} (hI : @ImplementsRel _ _ ops _ Rep)
    {C : GroupClass G} (hok : ∀ p, C.ok p ↔ ∃ a, Rep p a) (heq : ∀ {p q a b}, Rep p a → Rep q b → (C.eq p q = true ↔ a = b))
    (hzero : C.zero = ops.zero) (hadd : C.add = ops.add) (hsub : C.sub = ops.sub) (hdbl : C.dbl = ops.dbl)
    (hmul : C.mul = fun e p => @scalarMul _ ops p e)
    (hneg : ∀ {p a}, Rep p a → Rep (C.neg p) (-a)) (hisz : ∀ {p a}, Rep p a → (C.isZero p = true ↔ a = 0))
    (hsp : ∀ {p a}, Rep p a → ∃ r, C.toSpecial p = .ok r ∧ Rep r a ∧ C.isSpecial r = true)
    (hmix : ∀ {p q a b}, Rep p a → Rep q b → C.isSpecial q = true → ∃ r, C.mixedAdd p q = .ok r ∧ Rep r (a + b)) :
    C.Lawful := by
  have zr : Rep C.zero 0 := hzero ▸ hI.zero
  have ar : ∀ {p q a b}, Rep p a → Rep q b → Rep (C.add p q) (a + b) := fun hp hq => hadd ▸ hI.add hp hq
  have sr : ∀ {p q a b}, Rep p a → Rep q b → Rep (C.sub p q) (a - b) := fun hp hq => hsub ▸ hI.sub hp hq
  have dr : ∀ {p a}, Rep p a → Rep (C.dbl p) (a + a) := fun hp => hdbl ▸ hI.dbl hp
  have mr : ∀ {p a} (e), Rep p a → Rep (C.mul e p) (val e • a) := fun e hp => by
    rw [hmul]; exact @scalarMul_rel _ _ ops _ _ hI _ _ hp e
  have ok : ∀ {p a}, Rep p a → C.ok p := fun h => (hok _).2 ⟨_, h⟩
  refine
    { eq_refl := ?_, eq_symm := ?_, eq_trans := ?_, ok_zero := ok zr, ok_add := ?_, ok_sub := ?_, ok_neg := ?_, ok_dbl := ?_,
      ok_mul := ?_, add_congr := ?_, sub_congr := ?_, neg_congr := ?_, dbl_congr := ?_, isZero_congr := ?_, mul_congr := ?_,
      add_assoc := ?_, add_comm := ?_, add_zero := ?_, add_neg := ?_, sub_eq := ?_, dbl_eq := ?_, isZero_iff := ?_, mul_zero := ?_,
      mul_succ := ?_, mul_add := ?_, mul_mul := ?_, mul_dist := ?_, toSpecial_eq := ?_, mixedAdd_eq := ?_ }
  · intro p hp
    obtain ⟨a, ha⟩ := (hok p).1 hp
    exact (heq ha ha).2 rfl
  · intro p q hp hq h
    obtain ⟨a, ha⟩ := (hok p).1 hp
    obtain ⟨b, hb⟩ := (hok q).1 hq
    exact (heq hb ha).2 ((heq ha hb).1 h).symm
  · intro p q r hp hq hr h h'
    obtain ⟨a, ha⟩ := (hok p).1 hp
    obtain ⟨b, hb⟩ := (hok q).1 hq
    obtain ⟨c, hc⟩ := (hok r).1 hr
    exact (heq ha hc).2 (((heq ha hb).1 h).trans ((heq hb hc).1 h'))
  · intro p q hp hq
    obtain ⟨a, ha⟩ := (hok p).1 hp
    obtain ⟨b, hb⟩ := (hok q).1 hq
    exact ok (ar ha hb)
  · intro p q hp hq
    obtain ⟨a, ha⟩ := (hok p).1 hp
    obtain ⟨b, hb⟩ := (hok q).1 hq
    exact ok (sr ha hb)
  · intro p hp
    obtain ⟨a, ha⟩ := (hok p).1 hp
    exact ok (hneg ha)
  · intro p hp
    obtain ⟨a, ha⟩ := (hok p).1 hp
    exact ok (dr ha)
  · intro p e hp
    obtain ⟨a, ha⟩ := (hok p).1 hp
    exact ok (mr e ha)
  · intro p p' q q' hp hp' hq hq' h h'
    obtain ⟨a, ha⟩ := (hok p).1 hp
    obtain ⟨a', ha'⟩ := (hok p').1 hp'
    obtain ⟨b, hb⟩ := (hok q).1 hq
    obtain ⟨b', hb'⟩ := (hok q').1 hq'
    rw [heq (ar ha hb) (ar ha' hb'), (heq ha ha').1 h, (heq hb hb').1 h']
  · intro p p' q q' hp hp' hq hq' h h'
    obtain ⟨a, ha⟩ := (hok p).1 hp
    obtain ⟨a', ha'⟩ := (hok p').1 hp'
    obtain ⟨b, hb⟩ := (hok q).1 hq
    obtain ⟨b', hb'⟩ := (hok q').1 hq'
    rw [heq (sr ha hb) (sr ha' hb'), (heq ha ha').1 h, (heq hb hb').1 h']
  · intro p p' hp hp' h
    obtain ⟨a, ha⟩ := (hok p).1 hp
    obtain ⟨a', ha'⟩ := (hok p').1 hp'
    rw [heq (hneg ha) (hneg ha'), (heq ha ha').1 h]
  · intro p p' hp hp' h
    obtain ⟨a, ha⟩ := (hok p).1 hp
    obtain ⟨a', ha'⟩ := (hok p').1 hp'
    rw [heq (dr ha) (dr ha'), (heq ha ha').1 h]
  · intro p p' hp hp' h
    obtain ⟨a, ha⟩ := (hok p).1 hp
    obtain ⟨a', ha'⟩ := (hok p').1 hp'
    rw [Bool.eq_iff_iff, hisz ha, hisz ha', (heq ha ha').1 h]
  · intro p p' e e' hp hp' h he
    obtain ⟨a, ha⟩ := (hok p).1 hp
    obtain ⟨a', ha'⟩ := (hok p').1 hp'
    rw [heq (mr e ha) (mr e' ha'), (heq ha ha').1 h, he]
  · intro p q r hp hq hr
    obtain ⟨a, ha⟩ := (hok p).1 hp
    obtain ⟨b, hb⟩ := (hok q).1 hq
    obtain ⟨c, hc⟩ := (hok r).1 hr
    exact (heq (ar (ar ha hb) hc) (ar ha (ar hb hc))).2 (_root_.add_assoc a b c)
  · intro p q hp hq
    obtain ⟨a, ha⟩ := (hok p).1 hp
    obtain ⟨b, hb⟩ := (hok q).1 hq
    exact (heq (ar ha hb) (ar hb ha)).2 (_root_.add_comm a b)
  · intro p hp
    obtain ⟨a, ha⟩ := (hok p).1 hp
    exact (heq (ar ha zr) ha).2 (_root_.add_zero a)
  · intro p hp
    obtain ⟨a, ha⟩ := (hok p).1 hp
    exact (heq (ar ha (hneg ha)) zr).2 (add_neg_cancel a)
  · intro p q hp hq
    obtain ⟨a, ha⟩ := (hok p).1 hp
    obtain ⟨b, hb⟩ := (hok q).1 hq
    exact (heq (sr ha hb) (ar ha (hneg hb))).2 (sub_eq_add_neg a b)
  · intro p hp
    obtain ⟨a, ha⟩ := (hok p).1 hp
    exact (heq (dr ha) (ar ha ha)).2 rfl
  · intro p hp
    obtain ⟨a, ha⟩ := (hok p).1 hp
    rw [hisz ha, heq ha zr]
  · intro p e hp he
    obtain ⟨a, ha⟩ := (hok p).1 hp
    rw [heq (mr e ha) zr, he, zero_nsmul]
  · intro p e e' hp he
    obtain ⟨a, ha⟩ := (hok p).1 hp
    rw [heq (mr e' ha) (ar (mr e ha) ha), he, succ_nsmul]
  · intro p e f g hp he
    obtain ⟨a, ha⟩ := (hok p).1 hp
    rw [heq (mr g ha) (ar (mr e ha) (mr f ha)), he, add_nsmul]
  · intro p e f g hp he
    obtain ⟨a, ha⟩ := (hok p).1 hp
    rw [heq (mr g ha) (mr e (mr f ha)), he, mul_nsmul']
  · intro p q e hp hq
    obtain ⟨a, ha⟩ := (hok p).1 hp
    obtain ⟨b, hb⟩ := (hok q).1 hq
    rw [heq (mr e (ar ha hb)) (ar (mr e ha) (mr e hb)), nsmul_add]
  · intro p hp
    obtain ⟨a, ha⟩ := (hok p).1 hp
    obtain ⟨r, h1, h2, h3⟩ := hsp ha
    exact ⟨r, h1, ok h2, h3, (heq h2 ha).2 rfl⟩
  · intro p q hp hq hs
    obtain ⟨a, ha⟩ := (hok p).1 hp
    obtain ⟨b, hb⟩ := (hok q).1 hq
    obtain ⟨r, h1, h2⟩ := hmix ha hb hs
    exact ⟨r, h1, ok h2, (heq h2 (ar ha hb)).2 rfl⟩

end Libff
