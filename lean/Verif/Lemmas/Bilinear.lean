import Verif.Spec.Bilinear
import Verif.Spec.GroupRel
import Verif.Lemmas.GroupRel
import Verif.Lemmas.AteSetup

/-!
# From a bilinear map of groups to a bilinear pairing of group classes
-/
namespace Libff

/-- A bilinear map on a group and a subgroup. -/
structure BilinMap {A₁ A₂ L : Type*} [AddCommGroup A₁] [AddCommGroup A₂] [Field L] (D : AddSubgroup A₂) (e : A₁ → A₂ → L) : Prop where
  add_left : ∀ P P' Q, Q ∈ D → e (P + P') Q = e P Q * e P' Q
  add_right : ∀ P Q Q', Q ∈ D → Q' ∈ D → e P (Q + Q') = e P Q * e P Q'
  ne_zero : ∀ P Q, Q ∈ D → e P Q ≠ 0

namespace BilinMap
variable {A₁ A₂ L : Type*} [AddCommGroup A₁] [AddCommGroup A₂] [Field L] {D : AddSubgroup A₂} {e : A₁ → A₂ → L} (h : BilinMap D e)
include h

theorem zero_left {Q} (hQ : Q ∈ D) : e 0 Q = 1 := by
  have := h.add_left 0 0 Q hQ
  rw [add_zero] at this
  exact (mul_eq_left₀ (h.ne_zero 0 Q hQ)).1 this.symm

theorem zero_right (P) : e P 0 = 1 := by
  have := h.add_right P 0 0 (zero_mem D) (zero_mem D)
  rw [add_zero] at this
  exact (mul_eq_left₀ (h.ne_zero P 0 (zero_mem D))).1 this.symm

theorem nsmul_left {P Q} (hQ : Q ∈ D) (n : ℕ) : e (n • P) Q = e P Q ^ n := by
  induction n with
  | zero => rw [zero_smul, pow_zero, h.zero_left hQ]
  | succ n ih => rw [succ_nsmul, h.add_left _ _ _ hQ, ih, pow_succ]

theorem nsmul_right {P Q} (hQ : Q ∈ D) (n : ℕ) : e P (n • Q) = e P Q ^ n := by
  induction n with
  | zero => rw [zero_smul, pow_zero, h.zero_right]
  | succ n ih => rw [succ_nsmul, h.add_right _ _ _ (nsmul_mem hQ n) hQ, ih, pow_succ]

theorem root {P Q} (hQ : Q ∈ D) {r : ℕ} (hr : r • Q = 0) : e P Q ^ r = 1 := by
  rw [← h.nsmul_right hQ, hr, h.zero_right]

end BilinMap

section
variable {G₁ G₂ L : Type} [Field L] {ops₁ : GroupOps G₁} {ops₂ : GroupOps G₂} {eq₁ : G₁ → G₁ → Bool} {eq₂ : G₂ → G₂ → Bool}
  {arg₁ : G₁ → Prop} {arg₂ : G₂ → Prop} {r : ℕ} {pair : G₁ → G₂ → Outcome L}
  {A₁ A₂ : Type*} [AddCommGroup A₁] [AddCommGroup A₂] {Rep₁ : G₁ → A₁ → Prop} {Rep₂ : G₂ → A₂ → Prop} {C₁ : A₁ → Prop} {g : A₂}
  {e : A₁ → A₂ → L}

/-- `pair` computes `e`. -/
theorem BilinMap.pairing (h : BilinMap (AddSubgroup.zmultiples g) e) (hg : addOrderOf g = r) (i₁ : ImplementsRel Rep₁) (i₂ : ImplementsRel Rep₂)
    (q₁ : ∀ {p p' P P'}, Rep₁ p P → Rep₁ p' P' → (eq₁ p p' = true ↔ P = P'))
    (q₂ : ∀ {p p' P P'}, Rep₂ p P → Rep₂ p' P' → (eq₂ p p' = true ↔ P = P'))
    (a₁ : ∀ {p}, arg₁ p → ∃ P, Rep₁ p P ∧ C₁ P) (a₂ : ∀ {q}, arg₂ q → ∃ Q, Rep₂ q Q ∧ Q ∈ AddSubgroup.zmultiples g ∧ Q ≠ 0)
    (hp : ∀ {p P q Q}, Rep₁ p P → C₁ P → Rep₂ q Q → Q ∈ AddSubgroup.zmultiples g → Q ≠ 0 → pair p q = .ok (e P Q)) :
    BilinearPairing ops₁ ops₂ eq₁ eq₂ arg₁ arg₂ r pair where
  total {p q} hp' hq := by
    obtain ⟨P, rP, cP⟩ := a₁ hp'
    obtain ⟨Q, rQ, dQ, nQ⟩ := a₂ hq
    exact ⟨_, hp rP cP rQ dQ nQ, h.root dQ (smul_zmultiples hg dQ)⟩
  congr {p p' q q'} h1 h2 h3 h4 e1 e2 := by
    obtain ⟨P, rP, cP⟩ := a₁ h1
    obtain ⟨P', rP', cP'⟩ := a₁ h2
    obtain ⟨Q, rQ, dQ, nQ⟩ := a₂ h3
    obtain ⟨Q', rQ', dQ', nQ'⟩ := a₂ h4
    rw [hp rP cP rQ dQ nQ, hp rP' cP' rQ' dQ' nQ', (q₁ rP rP').1 e1, (q₂ rQ rQ').1 e2]
  add_left {p p' q v v'} h1 h2 h3 h4 e1 e2 := by
    obtain ⟨P, rP, cP⟩ := a₁ h1
    obtain ⟨P', rP', cP'⟩ := a₁ h2
    obtain ⟨P'', rP'', cP''⟩ := a₁ h3
    obtain ⟨Q, rQ, dQ, nQ⟩ := a₂ h4
    rw [hp rP cP rQ dQ nQ] at e1
    rw [hp rP' cP' rQ dQ nQ] at e2
    cases e1; cases e2
    rw [hp rP'' cP'' rQ dQ nQ, i₁.unique rP'' (i₁.add rP rP'), h.add_left _ _ _ dQ]
  add_right {p q q' v v'} h1 h2 h3 h4 e1 e2 := by
    obtain ⟨P, rP, cP⟩ := a₁ h1
    obtain ⟨Q, rQ, dQ, nQ⟩ := a₂ h2
    obtain ⟨Q', rQ', dQ', nQ'⟩ := a₂ h3
    obtain ⟨Q'', rQ'', dQ'', nQ''⟩ := a₂ h4
    rw [hp rP cP rQ dQ nQ] at e1
    rw [hp rP cP rQ' dQ' nQ'] at e2
    cases e1; cases e2
    rw [hp rP cP rQ'' dQ'' nQ'', i₂.unique rQ'' (i₂.add rQ rQ'), h.add_right _ _ _ dQ dQ']
  scalar {p q v} h1 h2 e1 a b h3 h4 := by
    obtain ⟨P, rP, cP⟩ := a₁ h1
    obtain ⟨Q, rQ, dQ, nQ⟩ := a₂ h2
    obtain ⟨P', rP', cP'⟩ := a₁ h3
    obtain ⟨Q', rQ', dQ', nQ'⟩ := a₂ h4
    rw [hp rP cP rQ dQ nQ] at e1
    cases e1
    rw [hp rP' cP' rQ' dQ' nQ', i₁.unique rP' (scalarMul_rel i₁ rP a), i₂.unique rQ' (scalarMul_rel i₂ rQ b),
      h.nsmul_left (nsmul_mem dQ _), h.nsmul_right dQ, ← pow_mul, mul_comm]

/-- Non-degeneracy follows from one value. -/
theorem BilinMap.nondegenerate (h : BilinMap (AddSubgroup.zmultiples g) e) (hr : r.Prime) (hg : addOrderOf g = r) {g₁ : A₁}
    (hg₁ : addOrderOf g₁ = r) {sub₁ : G₁ → Prop} {sub₂ : G₂ → Prop} (s₁ : ∀ {p}, sub₁ p → ∃ P, Rep₁ p P ∧ C₁ P ∧ P ≠ 0 ∧ ∃ n : ℕ, P = n • g₁)
    (s₂ : ∀ {q}, sub₂ q → ∃ Q, Rep₂ q Q ∧ Q ≠ 0 ∧ ∃ n : ℕ, Q = n • g)
    (hp : ∀ {p P q Q}, Rep₁ p P → C₁ P → Rep₂ q Q → Q ∈ AddSubgroup.zmultiples g → Q ≠ 0 → pair p q = .ok (e P Q))
    (h1 : e g₁ g ≠ 1) : NondegeneratePairing sub₁ sub₂ pair := by
  intro p q hp' hq'
  obtain ⟨P, rP, cP, nP, a, rfl⟩ := s₁ hp'
  obtain ⟨Q, rQ, nQ, b, rfl⟩ := s₂ hq'
  have hb : b • g ∈ AddSubgroup.zmultiples g := nsmul_mem (AddSubgroup.mem_zmultiples g) b
  have hg' := AddSubgroup.mem_zmultiples g
  refine ⟨_, hp rP cP rQ hb nQ, ?_⟩
  rw [h.nsmul_left hb, h.nsmul_right hg', ← pow_mul]
  intro h0
  have hroot : e g₁ g ^ r = 1 := h.root hg' (smul_zmultiples hg hg')
  have ho : orderOf (e g₁ g) = r := by
    have := Fact.mk hr
    exact orderOf_eq_prime hroot h1
  have hd := orderOf_dvd_of_pow_eq_one h0
  rw [ho, hr.dvd_mul] at hd
  rcases hd with hd | hd
  · exact nQ (addOrderOf_dvd_iff_nsmul_eq_zero.1 (by rwa [hg]))
  · exact nP (addOrderOf_dvd_iff_nsmul_eq_zero.1 (by rwa [hg₁]))
end

namespace WAteSetup
variable {K T L : Type*} [Field K] [DecidableEq K] [Field T] [DecidableEq T] [Field L] [DecidableEq L]
  {ι : K →+* L} {τ : T →+* L} {a₂ a b : K} {a₂' a' b' : T} {c₂ cx cy : L} {qX qY : T} {q r E : ℕ} {g : (weier a₂' a' b').Point}
  (S : WAteSetup ι τ a₂ a b a₂' a' b' c₂ cx cy qX qY q r E g)

theorem bilinMap {e : (weier c₂ (ι a) (ι b)).Point → (weier c₂ (ι a) (ι b)).Point → L} (h : Bilin e S.G S.H) :
    BilinMap (AddSubgroup.zmultiples g) fun P Q => e (S.psi Q) (S.inc P) where
  add_left P P' Q hQ := by rw [map_add, h.right _ (S.psi_mem hQ) _ (S.inc_mem P) _ (S.inc_mem P')]
  add_right P Q Q' hQ hQ' := by rw [map_add, h.left _ (S.psi_mem hQ) _ (S.psi_mem hQ') _ (S.inc_mem P)]
  ne_zero P Q hQ := h.ne_zero _ (S.psi_mem hQ) _ (S.inc_mem P)

end WAteSetup
end Libff
