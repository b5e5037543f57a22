import Mathlib.RingTheory.RootsOfUnity.PrimitiveRoots
import Verif.Spec.PairingBijection
import Verif.Props.PairingEq

/-!
# C86: with one argument fixed the pairing is a bijection onto the target group
-/
namespace Libff
set_option synthInstance.maxSize 2000
open WeierstrassCurve Affine

theorem exists_limbs (n : ℕ) : ∃ k : List Limb, val k = n := by
  refine ⟨limbsOf n n, ?_⟩
  rw [val_limbsOf]
  exact Nat.mod_eq_of_lt (Nat.lt_two_pow_self.trans_le (Nat.pow_le_pow_right (by norm_num) (by omega)))

theorem exists_nsmul_of_mem {A : Type*} [AddGroup A] {g x : A} (h : 0 < addOrderOf g) (hx : x ∈ AddSubgroup.zmultiples g) : ∃ n : ℕ, x = n • g := by
  obtain ⟨n, e⟩ := AddSubmonoid.mem_multiples_iff .. |>.1 ((addOrderOf_pos_iff.1 h).mem_multiples_iff_mem_zmultiples.2 hx)
  exact ⟨n, e.symm⟩

/-- A bilinear map on two groups of prime order `r` that is not 1 everywhere is never 1 on non-zero elements. -/
theorem BilinMap.ne_one {A₁ A₂ L : Type*} [AddCommGroup A₁] [AddCommGroup A₂] [Field L] {g : A₂} {e : A₁ → A₂ → L}
    (h : BilinMap (AddSubgroup.zmultiples g) e) {r : ℕ} (hr : r.Prime) (hg : addOrderOf g = r) {g₁ : A₁} (hg₁ : addOrderOf g₁ = r)
    (h1 : e g₁ g ≠ 1) {P : A₁} {Q : A₂} (hP : P ∈ AddSubgroup.zmultiples g₁) (hQ : Q ∈ AddSubgroup.zmultiples g) (hP0 : P ≠ 0) (hQ0 : Q ≠ 0) :
    e P Q ≠ 1 := by
  have hpos : 0 < r := hr.pos
  obtain ⟨a, rfl⟩ := exists_nsmul_of_mem (by rw [hg₁]; exact hpos) hP
  obtain ⟨b, rfl⟩ := exists_nsmul_of_mem (by rw [hg]; exact hpos) hQ
  have hg' := AddSubgroup.mem_zmultiples g
  rw [h.nsmul_left hQ, h.nsmul_right hg', ← pow_mul]
  intro h0
  have hroot : e g₁ g ^ r = 1 := h.root hg' (smul_zmultiples hg hg')
  have ho : orderOf (e g₁ g) = r := by
    have := Fact.mk hr
    exact orderOf_eq_prime hroot h1
  have hd := orderOf_dvd_of_pow_eq_one h0
  rw [ho, hr.dvd_mul] at hd
  rcases hd with hd | hd
  · exact hQ0 (addOrderOf_dvd_iff_nsmul_eq_zero.1 (by rwa [hg]))
  · exact hP0 (addOrderOf_dvd_iff_nsmul_eq_zero.1 (by rwa [hg₁]))

/-- An element of order `r` of a field has all `r`-th roots of unity as powers. -/
theorem exists_pow_eq {L : Type*} [Field L] {r : ℕ} (hr : r.Prime) {w v : L} (hw : w ^ r = 1) (hw1 : w ≠ 1) (hv : v ^ r = 1) (hv1 : v ≠ 1) :
    ∃ n, ¬ r ∣ n ∧ w ^ n = v := by
  haveI := Fact.mk hr
  have ho : orderOf w = r := orderOf_eq_prime hw hw1
  haveI : NeZero r := ⟨hr.ne_zero⟩
  obtain ⟨n, -, e⟩ := (ho ▸ IsPrimitiveRoot.orderOf w : IsPrimitiveRoot w r).eq_pow_of_pow_eq_one hv
  refine ⟨n, fun ⟨k, hk⟩ => hv1 ?_, e⟩
  rw [← e, hk, pow_mul, hw, one_pow]

/-- The bijection, from a bilinear map. -/
theorem BilinMap.bijection {G₁ G₂ L : Type} [Field L] {ops₁ : GroupOps G₁} {ops₂ : GroupOps G₂} {eq₁ : G₁ → G₁ → Bool}
    {eq₂ : G₂ → G₂ → Bool} {sub₁ : G₁ → Prop} {sub₂ : G₂ → Prop} {r : ℕ} {pair : G₁ → G₂ → Outcome L}
    {A₁ A₂ : Type*} [AddCommGroup A₁] [AddCommGroup A₂] {Rep₁ : G₁ → A₁ → Prop} {Rep₂ : G₂ → A₂ → Prop} {g₁ : A₁} {g : A₂}
    {e : A₁ → A₂ → L} {one₁ : G₁} {one : G₂}
    (h : BilinMap (AddSubgroup.zmultiples g) e) (hr : r.Prime) (hg : addOrderOf g = r) (hg₁ : addOrderOf g₁ = r)
    (i₁ : ImplementsRel Rep₁) (i₂ : ImplementsRel Rep₂) (o₁ : Rep₁ one₁ g₁) (o₂ : Rep₂ one g)
    (q₁ : ∀ {p p' P P'}, Rep₁ p P → Rep₁ p' P' → (eq₁ p p' = true ↔ P = P'))
    (q₂ : ∀ {p p' P P'}, Rep₂ p P → Rep₂ p' P' → (eq₂ p p' = true ↔ P = P'))
    (s₁ : ∀ {p}, sub₁ p → ∃ P, Rep₁ p P ∧ P ≠ 0 ∧ ∃ n : ℕ, P = n • g₁)
    (s₂ : ∀ {q}, sub₂ q → ∃ Q, Rep₂ q Q ∧ Q ≠ 0 ∧ ∃ n : ℕ, Q = n • g)
    (m₁ : ∀ {k : List Limb}, ¬ r ∣ val k → sub₁ (scalarMul one₁ k)) (m₂ : ∀ {k : List Limb}, ¬ r ∣ val k → sub₂ (scalarMul one k))
    (hp : ∀ {p P q Q}, Rep₁ p P → P ≠ 0 → Rep₂ q Q → Q ∈ AddSubgroup.zmultiples g → Q ≠ 0 → pair p q = .ok (e P Q))
    (h1 : e g₁ g ≠ 1) : PairingBijection eq₁ eq₂ sub₁ sub₂ r pair := by
  have n₁ : g₁ ≠ 0 := ne_zero_of_order hr hg₁
  have n₂ : g ≠ 0 := ne_zero_of_order hr hg
  have hm₁ : ∀ n : ℕ, n • g₁ ∈ AddSubgroup.zmultiples g₁ := fun n => nsmul_mem (AddSubgroup.mem_zmultiples g₁) n
  have hm : ∀ n : ℕ, n • g ∈ AddSubgroup.zmultiples g := fun n => nsmul_mem (AddSubgroup.mem_zmultiples g) n
  refine ⟨fun p p' q hp1 hp2 hq => ?_, fun p q q' hp1 hq1 hq2 => ?_, fun q v hq hv hv1 => ?_, fun p v hp1 hv hv1 => ?_⟩
  · obtain ⟨P, rP, nP, a, eP⟩ := s₁ hp1
    obtain ⟨P', rP', nP', a', eP'⟩ := s₁ hp2
    obtain ⟨Q, rQ, nQ, b, rfl⟩ := s₂ hq
    rw [hp rP nP rQ (hm b) nQ, hp rP' nP' rQ (hm b) nQ, q₁ rP rP']
    refine ⟨fun he => ?_, fun he => by rw [he]⟩
    by_contra hne
    refine h.ne_one hr hg hg₁ h1 (P := P - P') (hP := ?_) (hm b) (sub_ne_zero.2 hne) nQ ?_
    · rw [eP, eP']; exact sub_mem (hm₁ _) (hm₁ _)
    · have := h.add_left (P - P') P' _ (hm b)
      rw [sub_add_cancel, Outcome.ok.inj he] at this
      exact (mul_eq_right₀ (h.ne_zero P' _ (hm b))).1 this.symm
  · obtain ⟨P, rP, nP, a, eP⟩ := s₁ hp1
    obtain ⟨Q, rQ, nQ, b, eQ⟩ := s₂ hq1
    obtain ⟨Q', rQ', nQ', b', eQ'⟩ := s₂ hq2
    have hQ : Q ∈ AddSubgroup.zmultiples g := eQ ▸ hm b
    have hQ' : Q' ∈ AddSubgroup.zmultiples g := eQ' ▸ hm b'
    rw [hp rP nP rQ hQ nQ, hp rP nP rQ' hQ' nQ', q₂ rQ rQ']
    refine ⟨fun he => ?_, fun he => by rw [he]⟩
    by_contra hne
    refine h.ne_one hr hg hg₁ h1 (P := P) (Q := Q - Q') (eP ▸ hm₁ a) (sub_mem hQ hQ') nP (sub_ne_zero.2 hne) ?_
    have := h.add_right P (Q - Q') Q' (sub_mem hQ hQ') hQ'
    rw [sub_add_cancel, Outcome.ok.inj he] at this
    exact (mul_eq_right₀ (h.ne_zero P Q' hQ')).1 this.symm
  · obtain ⟨Q, rQ, nQ, b, rfl⟩ := s₂ hq
    have hw := h.ne_one hr hg hg₁ h1 (AddSubgroup.mem_zmultiples g₁) (hm b) n₁ nQ
    obtain ⟨n, hn, en⟩ := exists_pow_eq hr (h.root (P := g₁) (hm b) (smul_zmultiples hg (hm b))) hw hv hv1
    obtain ⟨k, rfl⟩ := exists_limbs n
    refine ⟨_, m₁ hn, ?_⟩
    rw [hp (scalarMul_rel i₁ o₁ k) (fun h0 => hn (by rw [← hg₁]; exact addOrderOf_dvd_of_nsmul_eq_zero h0)) rQ (hm b) nQ,
      h.nsmul_left (hm b), en]
  · obtain ⟨P, rP, nP, a, rfl⟩ := s₁ hp1
    have hgm := AddSubgroup.mem_zmultiples g
    have hw := h.ne_one hr hg hg₁ h1 (hm₁ a) hgm nP n₂
    obtain ⟨n, hn, en⟩ := exists_pow_eq hr (h.root (P := a • g₁) hgm (smul_zmultiples hg hgm)) hw hv hv1
    obtain ⟨k, rfl⟩ := exists_limbs n
    refine ⟨_, m₂ hn, ?_⟩
    rw [hp rP nP (scalarMul_rel i₂ o₂ k) (hm _) (fun h0 => hn (by rw [← hg]; exact addOrderOf_dvd_of_nsmul_eq_zero h0)),
      h.nsmul_right hgm, en]

/-- The bijection for two groups in Jacobian coordinates. -/
theorem Jac.bijection {K T L : Type} [Field K] [DecidableEq K] [Squared K] [LawfulSquared K] [Field T] [DecidableEq T] [Squared T]
    [LawfulSquared T] [Field L] {b : K} {b' : T} {one₁ : Coord3 K} {one : Coord3 T} {g₁ : (sw 0 b).Point} {g : (sw 0 b').Point} {r : ℕ}
    {e : (sw 0 b).Point → (sw 0 b').Point → L} {pair : Coord3 K → Coord3 T → Outcome L} (h : BilinMap (AddSubgroup.zmultiples g) e)
    (hr : r.Prime) (hg₁ : addOrderOf g₁ = r) (hg : addOrderOf g = r) (h2 : (2 : K) ≠ 0) (h3 : (3 : K) ≠ 0) (hb : b ≠ 0) (h2' : (2 : T) ≠ 0)
    (h3' : (3 : T) ≠ 0) (hb' : b' ≠ 0) (hone₁ : JacRep one₁ g₁) (hone : JacRep one g)
    (hp : ∀ {p P q Q}, JacRep p P → JacRep q Q → Q ∈ AddSubgroup.zmultiples g → Q ≠ 0 → pair p q = .ok (e P Q))
    (h1 : ∃ w, pair one₁ one = .ok w ∧ w ≠ 1) :
    PairingBijection Jac.eq Jac.eq (fun p => Jac.isWellFormed b p = true ∧ NonzeroMultiple Jac.ops Jac.eq Jac.isZero one₁ p)
      (fun q => Jac.isWellFormed b' q = true ∧ NonzeroMultiple Jac.ops Jac.eq Jac.isZero one q) r pair :=
  h.bijection (ops₁ := Jac.ops) (ops₂ := Jac.ops) hr hg hg₁ (Jac.implementsRel h2) (Jac.implementsRel h2') hone₁ hone Jac.eq_rep Jac.eq_rep
    (fun h => Jac.nonzeroMultiple h2 (sw_Δ_ne h2 h3 hb) hone₁ h.1 h.2)
    (fun h => Jac.nonzeroMultiple h2' (sw_Δ_ne h2' h3' hb') hone h.1 h.2)
    (fun hk => by
      have h := nonzeroMultiple_scalar (Jac.implementsRel h2) Jac.eq_rep Jac.isZero_rep hone₁ hg₁ hk
      exact ⟨(Jac.isWellFormed_iff (sw_Δ_ne h2 h3 hb) _).2 ⟨_, h.1⟩, h.2⟩)
    (fun hk => by
      have h := nonzeroMultiple_scalar (Jac.implementsRel h2') Jac.eq_rep Jac.isZero_rep hone hg hk
      exact ⟨(Jac.isWellFormed_iff (sw_Δ_ne h2' h3' hb') _).2 ⟨_, h.1⟩, h.2⟩)
    (fun hp' _ hq hQ h0 => hp hp' hq hQ h0)
    (by
      obtain ⟨w, hw, hw1⟩ := h1
      rw [hp hone₁ hone (AddSubgroup.mem_zmultiples g) (ne_zero_of_order hr hg)] at hw
      cases hw
      exact hw1)

/-- The bijection for two groups in projective coordinates. -/
theorem Proj.bijection {K T L : Type} [Field K] [DecidableEq K] [Squared K] [LawfulSquared K] [Field T] [DecidableEq T] [Squared T]
    [LawfulSquared T] [Field L] {a b : K} {a' b' : T} {mulA : K → K} {mulA' : T → T} (hA : ∀ x, mulA x = a * x) (hA' : ∀ x, mulA' x = a' * x)
    {one₁ : Coord3 K} {one : Coord3 T} {g₁ : (sw a b).Point} {g : (sw a' b').Point} {r : ℕ}
    {e : (sw a b).Point → (sw a' b').Point → L} {pair : Coord3 K → Coord3 T → Outcome L} (h : BilinMap (AddSubgroup.zmultiples g) e)
    (hr : r.Prime) (hg₁ : addOrderOf g₁ = r) (hg : addOrderOf g = r) (h2 : (2 : K) ≠ 0) (hΔ : (sw a b).Δ ≠ 0) (h2' : (2 : T) ≠ 0)
    (hΔ' : (sw a' b').Δ ≠ 0) (hone₁ : ProjRep one₁ g₁) (hone : ProjRep one g)
    (hp : ∀ {p P q Q}, ProjRep p P → P ≠ 0 → ProjRep q Q → Q ∈ AddSubgroup.zmultiples g → Q ≠ 0 → pair p q = .ok (e P Q))
    (h1 : ∃ w, pair one₁ one = .ok w ∧ w ≠ 1) :
    PairingBijection Proj.eq Proj.eq
      (fun p => Proj.isWellFormed a b p = true ∧ NonzeroMultiple (Proj.ops mulA) Proj.eq Proj.isZero one₁ p)
      (fun q => Proj.isWellFormed a' b' q = true ∧ NonzeroMultiple (Proj.ops mulA') Proj.eq Proj.isZero one q) r pair :=
  h.bijection (ops₁ := Proj.ops mulA) (ops₂ := Proj.ops mulA') hr hg hg₁ (Proj.implementsRel hA h2) (Proj.implementsRel hA' h2') hone₁ hone
    Proj.eq_rep Proj.eq_rep
    (fun h => Proj.nonzeroMultiple hA h2 hΔ hone₁ h.1 h.2)
    (fun h => Proj.nonzeroMultiple hA' h2' hΔ' hone h.1 h.2)
    (fun hk => by
      have h := nonzeroMultiple_scalar (Proj.implementsRel hA h2) Proj.eq_rep Proj.isZero_rep hone₁ hg₁ hk
      exact ⟨(Proj.isWellFormed_iff hΔ _).2 ⟨_, h.1⟩, h.2⟩)
    (fun hk => by
      have h := nonzeroMultiple_scalar (Proj.implementsRel hA' h2') Proj.eq_rep Proj.isZero_rep hone hg hk
      exact ⟨(Proj.isWellFormed_iff hΔ' _).2 ⟨_, h.1⟩, h.2⟩)
    (fun hp' hP hq hQ h0 => hp hp' hP hq hQ h0)
    (by
      obtain ⟨w, hw, hw1⟩ := h1
      rw [hp hone₁ (ne_zero_of_order hr hg₁) hone (AddSubgroup.mem_zmultiples g) (ne_zero_of_order hr hg)] at hw
      cases hw
      exact hw1)

/-- **C86.** alt_bn128: with one argument fixed, the pairing is a bijection between the non-zero elements of the other group of order `r` and
the `r`-th roots of unity other than 1. -/
theorem C86_alt_bn128 : PairingBijection Jac.eq Jac.eq alt_bn128_sub₁ alt_bn128_arg₂ alt_bn128_Fr_params.p alt_bn128_reduced_pairing :=
  Jac.bijection alt_bn128_bilin alt_bn128_Fr_prime C52_alt_bn128_G1_generator.2.2.2.2.choose_spec.2 alt_bn128_g_order
    (by have h := C52_alt_bn128_G1_generator.1; with_reducible_and_instances exact h)
    (by have h := C52_alt_bn128_G1_generator.2.1; with_reducible_and_instances exact h)
    (by have h := C52_alt_bn128_G1_generator.2.2.1; with_reducible_and_instances exact h)
    (by have h := C52_alt_bn128_G2_generator.1; with_reducible_and_instances exact h)
    (by have h := C52_alt_bn128_G2_generator.2.1; with_reducible_and_instances exact h)
    (by have h := C52_alt_bn128_G2_generator.2.2.1; with_reducible_and_instances exact h)
    C52_alt_bn128_G1_generator.2.2.2.2.choose_spec.1 alt_bn128_g_rep alt_bn128_pair alt_bn128_value

/-- The generators are elements of the two groups, and their pairing is a value other than 1. -/
example : ∃ v q, alt_bn128_reduced_pairing alt_bn128_G1_one alt_bn128_G2_one = .ok v ∧ v * v ≠ 1 ∧
    alt_bn128_arg₂ q ∧ alt_bn128_reduced_pairing alt_bn128_G1_one q = .ok (v * v) := by
  obtain ⟨v, h, h1⟩ := C51_alt_bn128_nondegenerate _ _ alt_bn128_one_arg.2.1 alt_bn128_one_arg.2.2
  obtain ⟨w, hw, hr⟩ := C51_alt_bn128.total alt_bn128_one_arg.1 alt_bn128_one_arg.2.2
  rw [h] at hw
  cases hw
  have h2 : v * v ≠ 1 := fun h2 => by
    have h3 : v ^ alt_bn128_Fr_params.p = v := by
      rw [show alt_bn128_Fr_params.p = 2 * (alt_bn128_Fr_params.p / 2) + 1 by decide +kernel, pow_succ, pow_mul, pow_two, h2, one_pow, one_mul]
    exact h1 (h3.symm.trans hr)
  obtain ⟨q, hq, e⟩ := C86_alt_bn128.surj_right alt_bn128_G1_one (v * v) alt_bn128_one_arg.2.1 (by rw [mul_pow, hr, one_mul]) h2
  exact ⟨v, q, h, h2, hq, e⟩

/-- **C86.** bls12_381. -/
theorem C86_bls12_381 : PairingBijection Jac.eq Jac.eq bls12_381_sub₁ bls12_381_arg₂ bls12_381_Fr_params.p bls12_381_reduced_pairing :=
  Jac.bijection bls12_381_bilin bls12_381_Fr_prime C52_bls12_381_G1_generator.2.2.2.2.choose_spec.2 bls12_381_g_order
    (by have h := C52_bls12_381_G1_generator.1; with_reducible_and_instances exact h)
    (by have h := C52_bls12_381_G1_generator.2.1; with_reducible_and_instances exact h)
    (by have h := C52_bls12_381_G1_generator.2.2.1; with_reducible_and_instances exact h)
    (by have h := C52_bls12_381_G2_generator.1; with_reducible_and_instances exact h)
    (by have h := C52_bls12_381_G2_generator.2.1; with_reducible_and_instances exact h)
    (by have h := C52_bls12_381_G2_generator.2.2.1; with_reducible_and_instances exact h)
    C52_bls12_381_G1_generator.2.2.2.2.choose_spec.1 bls12_381_g_rep bls12_381_pair bls12_381_value

example : bls12_381_sub₁ bls12_381_G1_one ∧ bls12_381_arg₂ bls12_381_G2_one := bls12_381_one_arg.2

/-- **C86.** mnt4. -/
theorem C86_mnt4 : PairingBijection Proj.eq Proj.eq mnt4_sub₁ mnt4_arg₂ mnt4_Fr_params.p mnt4_reduced_pairing :=
  Proj.bijection (fun _ => rfl) mnt4_mulA mnt4_bilin mnt4_Fr_prime C52_mnt4_G1_generator.2.2.2.choose_spec.2 mnt4_g_order
    C52_mnt4_G1_generator.1 (sw_Δ_ne_of_disc C52_mnt4_G1_generator.1 C52_mnt4_G1_generator.2.1) C52_mnt4_G2_generator.1 mnt4_Δ
    C52_mnt4_G1_generator.2.2.2.choose_spec.1 mnt4_g_rep mnt4_pair mnt4_value

example : mnt4_sub₁ mnt4_G1_one ∧ mnt4_arg₂ mnt4_G2_one := mnt4_one_arg.2

/-- **C86.** mnt6. -/
theorem C86_mnt6 : PairingBijection Proj.eq Proj.eq mnt6_sub₁ mnt6_arg₂ mnt6_Fr_params.p mnt6_reduced_pairing :=
  Proj.bijection (fun _ => rfl) mnt6_mulA mnt6_bilin mnt6_Fr_prime C52_mnt6_G1_generator.2.2.2.choose_spec.2 mnt6_g_order
    C52_mnt6_G1_generator.1 (sw_Δ_ne_of_disc C52_mnt6_G1_generator.1 C52_mnt6_G1_generator.2.1) C52_mnt6_G2_generator.1 mnt6_Δ
    C52_mnt6_G1_generator.2.2.2.choose_spec.1 mnt6_g_rep mnt6_pair mnt6_value

example : mnt6_sub₁ mnt6_G1_one ∧ mnt6_arg₂ mnt6_G2_one := mnt6_one_arg.2

/-- **C86.** edwards. -/
theorem C86_edwards : PairingBijection Edw.eq Edw.eq edwards_sub₁ edwards_arg₂ edwards_Fr_params.p edwards_reduced_pairing := by
  obtain ⟨g₁, hg₁, ho₁⟩ := edwards_g₁
  have e₁ : ∀ {p p' P P'}, EdwRepIn edwards_H₁ p P → EdwRepIn edwards_H₁ p' P' → (Edw.eq p p' = true ↔ P = P') :=
    fun h h' => Edw.eq_rep C52_edwards_G1_generator.1 C52_edwards_G1_generator.2.1 h.2 h'.2
  have e₂ : ∀ {p p' P P'}, EdwRepIn edwards_H₂ p P → EdwRepIn edwards_H₂ p' P' → (Edw.eq p p' = true ↔ P = P') :=
    fun h h' => Edw.eq_rep C52_edwards_G2_generator.1 C52_edwards_G2_generator.2.1 h.2 h'.2
  refine edwards_bilin.bijection (ops₁ := edwards_ops₁) (ops₂ := edwards_ops₂) (Rep₁ := EdwRepIn edwards_H₁) (Rep₂ := EdwRepIn edwards_H₂)
    edwards_Fr_prime edwards_g_order ho₁ edwards_impl₁ edwards_impl₂ hg₁ ⟨edwards_g_mem, edwards_g_rep⟩ e₁ e₂ ?_ ?_ ?_
    edwards_multiple₂ (fun hp _ hq hQ h0 => edwards_pair hp.2 hq.2 hQ h0) ?_
  · rintro p ⟨⟨P, hP⟩, h⟩
    exact ⟨P, hP, Edw.nonzeroMultiple C52_edwards_G1_generator.1 C52_edwards_G1_generator.2.1 edwards_impl₁ hg₁ hP h⟩
  · rintro q ⟨⟨Q, hQ⟩, h⟩
    exact ⟨Q, hQ, Edw.nonzeroMultiple C52_edwards_G2_generator.1 C52_edwards_G2_generator.2.1 edwards_impl₂
      ⟨edwards_g_mem, edwards_g_rep⟩ hQ h⟩
  · intro k hk
    have h := nonzeroMultiple_scalar (eq := Edw.eq) (isZero := Edw.isZero) edwards_impl₁ e₁ (fun h => Edw.isZero_rep h.2) hg₁ ho₁ hk
    exact ⟨⟨_, h.1⟩, h.2⟩
  · obtain ⟨w, hw, hw1⟩ := edwards_value
    rw [edwards_pair hg₁.2 edwards_g_rep (AddSubgroup.mem_zmultiples _) (ne_zero_of_order edwards_Fr_prime edwards_g_order)] at hw
    intro h1
    rw [h1] at hw
    exact hw1 (Outcome.ok.inj hw).symm

example : edwards_sub₁ edwards_G1_one ∧ edwards_arg₂ edwards_G2_one := edwards_one_arg.2

end Libff
