import Verif.Spec.PairingSum
import Verif.Props.MultiexpCurves
import Verif.Props.PairingEq

/-!
# C87: the pairing of a multi-exponentiation is the product of the powers of the pairings
-/
namespace Libff
set_option synthInstance.maxSize 2000
open WeierstrassCurve Affine

section
variable {G₁ G₂ L : Type} [Field L] {P : FpParams} [Fact P.Valid] {A₁ A₂ : Type} [AddCommGroup A₁] [AddCommGroup A₂]

theorem BilinMap.frSum_left {g : A₂} {e : A₁ → A₂ → L} (h : BilinMap (AddSubgroup.zmultiples g) e) {Q : A₂}
    (hQ : Q ∈ AddSubgroup.zmultiples g) (as : List A₁) (scalars : List (Fp P)) :
    e (frSum as scalars) Q = frProd (as.map fun a => e a Q) scalars := by
  induction as generalizing scalars with
  | nil => simpa [frSum, frProd] using h.zero_left hQ
  | cons a as ih =>
    cases scalars with
    | nil => simpa [frSum, frProd] using h.zero_left hQ
    | cons s ss =>
      have := ih ss
      simp only [frSum, frProd, List.map_cons, List.zipWith_cons_cons, List.sum_cons, List.prod_cons] at this ⊢
      rw [h.add_left _ _ _ hQ, h.nsmul_left hQ, this]

theorem frSum_mem {g : A₂} (as : List A₂) (has : ∀ a ∈ as, a ∈ AddSubgroup.zmultiples g) (scalars : List (Fp P)) :
    frSum as scalars ∈ AddSubgroup.zmultiples g := by
  induction as generalizing scalars with
  | nil => simp [frSum]
  | cons a as ih =>
    cases scalars with
    | nil => simp [frSum]
    | cons s ss =>
      have := ih (fun a ha => has a (List.mem_cons_of_mem _ ha)) ss
      simp only [frSum, List.zipWith_cons_cons, List.sum_cons] at this ⊢
      exact add_mem (nsmul_mem (has a List.mem_cons_self) _) this

theorem BilinMap.frSum_right {g : A₂} {e : A₁ → A₂ → L} (h : BilinMap (AddSubgroup.zmultiples g) e) (p : A₁) (as : List A₂)
    (has : ∀ a ∈ as, a ∈ AddSubgroup.zmultiples g) (scalars : List (Fp P)) :
    e p (frSum as scalars) = frProd (as.map fun a => e p a) scalars := by
  induction as generalizing scalars with
  | nil => simpa [frSum, frProd] using h.zero_right p
  | cons a as ih =>
    cases scalars with
    | nil => simpa [frSum, frProd] using h.zero_right p
    | cons s ss =>
      have has' : ∀ a ∈ as, a ∈ AddSubgroup.zmultiples g := fun a ha => has a (List.mem_cons_of_mem _ ha)
      have := ih has' ss
      have hm := frSum_mem as has' ss
      have h0 := has a List.mem_cons_self
      simp only [frSum, frProd, List.map_cons, List.zipWith_cons_cons, List.sum_cons, List.prod_cons] at this hm ⊢
      rw [h.add_right _ _ _ (nsmul_mem h0 _) hm, h.nsmul_right h0, this]

/-- Sums in the first argument. -/
theorem BilinMap.pairsSum_left {arg₁ : G₁ → Prop} {arg₂ : G₂ → Prop} {nz : G₁ → Prop} {pair : G₁ → G₂ → Outcome L} {ok : List G₁ → Prop}
    {sum : List G₁ → List (Fp P) → Outcome G₁} {Rep₁ : G₁ → A₁ → Prop} {Rep₂ : G₂ → A₂ → Prop} {C₁ : A₁ → Prop} {g : A₂} {e : A₁ → A₂ → L}
    (h : BilinMap (AddSubgroup.zmultiples g) e)
    (a₁ : ∀ {p}, arg₁ p → ∃ P, Rep₁ p P ∧ C₁ P) (a₂ : ∀ {q}, arg₂ q → ∃ Q, Rep₂ q Q ∧ Q ∈ AddSubgroup.zmultiples g ∧ Q ≠ 0)
    (hp : ∀ {p P q Q}, Rep₁ p P → C₁ P → Rep₂ q Q → Q ∈ AddSubgroup.zmultiples g → Q ≠ 0 → pair p q = .ok (e P Q))
    (hnz : ∀ {p P}, Rep₁ p P → nz p → C₁ P)
    (hs : ∀ bases as scalars, List.Forall₂ Rep₁ bases as → bases.length = scalars.length → ok bases →
      ∃ g, sum bases scalars = .ok g ∧ Rep₁ g (frSum as scalars)) : PairsSum arg₁ arg₂ nz pair ok sum := by
  intro bases values scalars q hq hl ho hb
  obtain ⟨Q, rQ, dQ, nQ⟩ := a₂ hq
  have : ∃ as : List A₁, List.Forall₂ Rep₁ bases as ∧ values = as.map fun a => e a Q := by
    clear hl ho
    induction hb with
    | nil => exact ⟨[], .nil, rfl⟩
    | cons hpv _ ih =>
      obtain ⟨as, h1, h2⟩ := ih
      obtain ⟨P, rP, cP⟩ := a₁ hpv.1
      have hv := hpv.2
      rw [hp rP cP rQ dQ nQ] at hv
      cases hv
      exact ⟨P :: as, .cons rP h1, by rw [h2]; rfl⟩
  obtain ⟨as, h1, rfl⟩ := this
  obtain ⟨s, hs1, hs2⟩ := hs bases as scalars h1 hl ho
  exact ⟨s, hs1, fun h0 => by rw [hp hs2 (hnz hs2 h0) rQ dQ nQ, h.frSum_left dQ]⟩

/-- Sums in the second argument. -/
theorem BilinMap.pairsSum_right {arg₁ : G₁ → Prop} {arg₂ : G₂ → Prop} {nz : G₂ → Prop} {pair : G₁ → G₂ → Outcome L} {ok : List G₂ → Prop}
    {sum : List G₂ → List (Fp P) → Outcome G₂} {Rep₁ : G₁ → A₁ → Prop} {Rep₂ : G₂ → A₂ → Prop} {C₁ : A₁ → Prop} {g : A₂} {e : A₁ → A₂ → L}
    (h : BilinMap (AddSubgroup.zmultiples g) e)
    (a₁ : ∀ {p}, arg₁ p → ∃ P, Rep₁ p P ∧ C₁ P) (a₂ : ∀ {q}, arg₂ q → ∃ Q, Rep₂ q Q ∧ Q ∈ AddSubgroup.zmultiples g ∧ Q ≠ 0)
    (hp : ∀ {p P q Q}, Rep₁ p P → C₁ P → Rep₂ q Q → Q ∈ AddSubgroup.zmultiples g → Q ≠ 0 → pair p q = .ok (e P Q))
    (hnz : ∀ {q Q}, Rep₂ q Q → nz q → Q ≠ 0)
    (hs : ∀ bases as scalars, List.Forall₂ Rep₂ bases as → bases.length = scalars.length → ok bases →
      ∃ g, sum bases scalars = .ok g ∧ Rep₂ g (frSum as scalars)) : PairsSum arg₂ arg₁ nz (fun q p => pair p q) ok sum := by
  intro bases values scalars p hp' hl ho hb
  obtain ⟨P, rP, cP⟩ := a₁ hp'
  have : ∃ as : List A₂, List.Forall₂ Rep₂ bases as ∧ (∀ a ∈ as, a ∈ AddSubgroup.zmultiples g) ∧ values = as.map fun a => e P a := by
    clear hl ho
    induction hb with
    | nil => exact ⟨[], .nil, by simp, rfl⟩
    | cons hpv _ ih =>
      obtain ⟨as, h1, h3, h2⟩ := ih
      obtain ⟨Q, rQ, dQ, nQ⟩ := a₂ hpv.1
      have hv : pair p _ = _ := hpv.2
      rw [hp rP cP rQ dQ nQ] at hv
      cases hv
      refine ⟨Q :: as, .cons rQ h1, fun a ha => ?_, by rw [h2]; rfl⟩
      rcases List.mem_cons.1 ha with rfl | ha
      · exact dQ
      · exact h3 a ha
  obtain ⟨as, h1, h3, rfl⟩ := this
  obtain ⟨s, hs1, hs2⟩ := hs bases as scalars h1 hl ho
  exact ⟨s, hs1, fun h0 => by beta_reduce; rw [hp rP cP hs2 (frSum_mem as h3 scalars) (hnz hs2 h0), h.frSum_right P as h3]⟩

/-- Both entry points in both arguments. -/
theorem BilinMap.pairsMultiExp {ops₁ : GroupOps G₁} {ops₂ : GroupOps G₂} {arg₁ : G₁ → Prop} {arg₂ : G₂ → Prop} {nz₁ : G₁ → Prop}
    {nz₂ : G₂ → Prop} {special₁ : G₁ → Prop} {special₂ : G₂ → Prop} {ma₁ : G₁ → G₁ → Outcome G₁} {norm₁ : List G₁ → Outcome (List G₁)}
    {ma₂ : G₂ → G₂ → Outcome G₂} {norm₂ : List G₂ → Outcome (List G₂)} {pair : G₁ → G₂ → Outcome L}
    {Rep₁ : G₁ → A₁ → Prop} {Rep₂ : G₂ → A₂ → Prop} {C₁ : A₁ → Prop} {g : A₂} {e : A₁ → A₂ → L}
    (h : BilinMap (AddSubgroup.zmultiples g) e)
    (a₁ : ∀ {p}, arg₁ p → ∃ P, Rep₁ p P ∧ C₁ P) (a₂ : ∀ {q}, arg₂ q → ∃ Q, Rep₂ q Q ∧ Q ∈ AddSubgroup.zmultiples g ∧ Q ≠ 0)
    (hp : ∀ {p P q Q}, Rep₁ p P → C₁ P → Rep₂ q Q → Q ∈ AddSubgroup.zmultiples g → Q ≠ 0 → pair p q = .ok (e P Q))
    (z₁ : ∀ {p P}, Rep₁ p P → nz₁ p → C₁ P) (z₂ : ∀ {q Q}, Rep₂ q Q → nz₂ q → Q ≠ 0)
    (m₁ : MultiExpCorrect P ops₁ Rep₁ special₁ ma₁ norm₁) (m₂ : MultiExpCorrect P ops₂ Rep₂ special₂ ma₂ norm₂) :
    PairsMultiExp P ops₁ ops₂ arg₁ arg₂ nz₁ nz₂ special₁ special₂ ma₁ norm₁ ma₂ norm₂ pair where
  mixed_left debug chunks order hc ho := h.pairsSum_left a₁ a₂ hp z₁
    fun bases as scalars hb hl hk => m₁.with_mixed_addition debug bases as scalars chunks order hb hl hk.1 hk.2 hc ho
  mixed_right debug chunks order hc ho := h.pairsSum_right a₁ a₂ hp z₂
    fun bases as scalars hb hl hk => m₂.with_mixed_addition debug bases as scalars chunks order hb hl hk.1 hk.2 hc ho
  bdlo12_left chunks order hc ho := h.pairsSum_left a₁ a₂ hp z₁
    fun bases as scalars hb hl hk => m₁.bdlo12 bases as scalars chunks order hb hl hk hc ho
  bdlo12_right chunks order hc ho := h.pairsSum_right a₁ a₂ hp z₂
    fun bases as scalars hb hl hk => m₂.bdlo12 bases as scalars chunks order hb hl hk hc ho

end

/-- Two groups in Jacobian coordinates. -/
theorem Jac.pairsMultiExp {K T L : Type} [Field K] [DecidableEq K] [Squared K] [LawfulSquared K] [Field T] [DecidableEq T] [Squared T]
    [LawfulSquared T] [Field L] {P : FpParams} [Fact P.Valid] {b : K} {b' : T} {one : Coord3 T} {g : (sw 0 b').Point}
    {e : (sw 0 b).Point → (sw 0 b').Point → L} {pair : Coord3 K → Coord3 T → Outcome L} {ma : Coord3 K → Coord3 K → Outcome (Coord3 K)}
    {no : List (Coord3 K) → Outcome (List (Coord3 K))} {ma' : Coord3 T → Coord3 T → Outcome (Coord3 T)}
    {no' : List (Coord3 T) → Outcome (List (Coord3 T))} (h : BilinMap (AddSubgroup.zmultiples g) e)
    (h2 : (2 : K) ≠ 0) (h3 : (3 : K) ≠ 0) (hb : b ≠ 0) (h2' : (2 : T) ≠ 0) (h3' : (3 : T) ≠ 0) (hb' : b' ≠ 0)
    (hone : JacRep one g)
    (hp : ∀ {p P q Q}, JacRep p P → JacRep q Q → Q ∈ AddSubgroup.zmultiples g → Q ≠ 0 → pair p q = .ok (e P Q))
    (hm : MultiExpCorrect P Jac.ops (JacRep (W := sw 0 b)) (fun p => Jac.isSpecial p = true) ma no)
    (hm' : MultiExpCorrect P Jac.ops (JacRep (W := sw 0 b')) (fun p => Jac.isSpecial p = true) ma' no') :
    PairsMultiExp P Jac.ops Jac.ops (fun p => Jac.isWellFormed b p = true)
      (fun q => Jac.isWellFormed b' q = true ∧ NonzeroMultiple Jac.ops Jac.eq Jac.isZero one q) (fun _ => True)
      (fun q => Jac.isZero q = false) (fun p => Jac.isSpecial p = true) (fun p => Jac.isSpecial p = true) ma no ma' no' pair :=
  h.pairsMultiExp (C₁ := fun _ => True)
    (fun h => by
      obtain ⟨P, hP⟩ := (Jac.isWellFormed_iff (sw_Δ_ne h2 h3 hb) _).1 h
      exact ⟨P, hP, trivial⟩)
    (fun h => by
      obtain ⟨Q, hQ, h0, n, e⟩ := Jac.nonzeroMultiple h2' (sw_Δ_ne h2' h3' hb') hone h.1 h.2
      exact ⟨Q, hQ, by rw [e]; exact nsmul_mem (AddSubgroup.mem_zmultiples _) n, h0⟩)
    (fun hp' _ hq hQ h0 => hp hp' hq hQ h0) (fun _ _ => trivial)
    (fun hq h0 h => by
      rw [(Jac.isZero_rep hq).2 h] at h0
      exact absurd h0 (by simp)) hm hm'

/-- Two groups in projective coordinates. -/
theorem Proj.pairsMultiExp {K T L : Type} [Field K] [DecidableEq K] [Squared K] [LawfulSquared K] [Field T] [DecidableEq T] [Squared T]
    [LawfulSquared T] [Field L] {P : FpParams} [Fact P.Valid] {a b : K} {a' b' : T} {mulA : K → K} {mulA' : T → T}
    (hA' : ∀ x, mulA' x = a' * x) {one : Coord3 T} {g : (sw a' b').Point}
    {e : (sw a b).Point → (sw a' b').Point → L} {pair : Coord3 K → Coord3 T → Outcome L} {ma : Coord3 K → Coord3 K → Outcome (Coord3 K)}
    {no : List (Coord3 K) → Outcome (List (Coord3 K))} {ma' : Coord3 T → Coord3 T → Outcome (Coord3 T)}
    {no' : List (Coord3 T) → Outcome (List (Coord3 T))} (h : BilinMap (AddSubgroup.zmultiples g) e)
    (hΔ : (sw a b).Δ ≠ 0) (h2' : (2 : T) ≠ 0) (hΔ' : (sw a' b').Δ ≠ 0)
    (hone : ProjRep one g)
    (hp : ∀ {p P q Q}, ProjRep p P → P ≠ 0 → ProjRep q Q → Q ∈ AddSubgroup.zmultiples g → Q ≠ 0 → pair p q = .ok (e P Q))
    (hm : MultiExpCorrect P (Proj.ops mulA) (ProjRep (W := sw a b)) (fun p => Proj.isSpecial p = true) ma no)
    (hm' : MultiExpCorrect P (Proj.ops mulA') (ProjRep (W := sw a' b')) (fun p => Proj.isSpecial p = true) ma' no') :
    PairsMultiExp P (Proj.ops mulA) (Proj.ops mulA') (fun p => Proj.isWellFormed a b p = true ∧ Proj.isZero p = false)
      (fun q => Proj.isWellFormed a' b' q = true ∧ NonzeroMultiple (Proj.ops mulA') Proj.eq Proj.isZero one q)
      (fun p => Proj.isZero p = false) (fun q => Proj.isZero q = false) (fun p => Proj.isSpecial p = true)
      (fun p => Proj.isSpecial p = true) ma no ma' no' pair :=
  h.pairsMultiExp (C₁ := fun P => P ≠ 0)
    (fun h => by
      obtain ⟨P, hP⟩ := (Proj.isWellFormed_iff hΔ _).1 h.1
      refine ⟨P, hP, fun h0 => ?_⟩
      rw [(Proj.isZero_rep hP).2 h0] at h
      exact absurd h.2 (by simp))
    (fun h => by
      obtain ⟨Q, hQ, h0, n, e⟩ := Proj.nonzeroMultiple hA' h2' hΔ' hone h.1 h.2
      exact ⟨Q, hQ, by rw [e]; exact nsmul_mem (AddSubgroup.mem_zmultiples _) n, h0⟩)
    (fun hp' hP hq hQ h0 => hp hp' hP hq hQ h0)
    (fun hq h0 h => by
      rw [(Proj.isZero_rep hq).2 h] at h0
      exact absurd h0 (by simp))
    (fun hq h0 h => by
      rw [(Proj.isZero_rep hq).2 h] at h0
      exact absurd h0 (by simp)) hm hm'

/-- **C87.** alt_bn128: the pairing of a multi-exponentiation in either argument is the product of the powers of the pairings. -/
theorem C87_alt_bn128 (d₁ d₂ : Bool) : PairsMultiExp alt_bn128_Fr_params Jac.ops Jac.ops alt_bn128_arg₁ alt_bn128_arg₂ (fun _ => True)
    (fun q => Jac.isZero q = false) (fun p => Jac.isSpecial p = true) (fun p => Jac.isSpecial p = true)
    (Jac.mixedAdd d₁) (@batchToSpecial _ Jac.ops Jac.isZero Jac.toAffine (Jac.batchToSpecialNZ d₁))
    (Jac.mixedAdd d₂) (@batchToSpecial _ Jac.ops Jac.isZero Jac.toAffine (Jac.batchToSpecialNZ d₂)) alt_bn128_reduced_pairing :=
  Jac.pairsMultiExp alt_bn128_bilin
    (by have h := C52_alt_bn128_G1_generator.1; with_reducible_and_instances exact h)
    (by have h := C52_alt_bn128_G1_generator.2.1; with_reducible_and_instances exact h)
    (by have h := C52_alt_bn128_G1_generator.2.2.1; with_reducible_and_instances exact h)
    (by have h := C52_alt_bn128_G2_generator.1; with_reducible_and_instances exact h)
    (by have h := C52_alt_bn128_G2_generator.2.1; with_reducible_and_instances exact h)
    (by have h := C52_alt_bn128_G2_generator.2.2.1; with_reducible_and_instances exact h) alt_bn128_g_rep alt_bn128_pair
    (by have h := C57_alt_bn128_G1 d₁; with_reducible_and_instances exact h)
    (by have h := C57_alt_bn128_G2 d₂; with_reducible_and_instances exact h)

/-- The hypotheses are met: two copies of the generators, which are special, with scalars 2 and 3. -/
example : ∃ v g, alt_bn128_reduced_pairing alt_bn128_G1_one alt_bn128_G2_one = .ok v ∧
    @sumMixed alt_bn128_Fr_params _ _ Jac.ops true (Jac.mixedAdd true)
      (@batchToSpecial _ Jac.ops Jac.isZero Jac.toAffine (Jac.batchToSpecialNZ true)) [1, 0] 2 [alt_bn128_G1_one, alt_bn128_G1_one] [2, 3] =
        .ok g ∧
    alt_bn128_reduced_pairing g alt_bn128_G2_one = .ok (v ^ 2 * v ^ 3) := by
  obtain ⟨v, h, -⟩ := C51_alt_bn128.total alt_bn128_one_arg.1 alt_bn128_one_arg.2.2
  obtain ⟨g, hg, he⟩ := (C87_alt_bn128 true true).mixed_left true 2 [1, 0] (by decide) (by decide) [alt_bn128_G1_one, alt_bn128_G1_one] [v, v]
    [2, 3] alt_bn128_G2_one alt_bn128_one_arg.2.2 rfl ⟨by decide, by decide +kernel⟩
    (.cons ⟨alt_bn128_one_arg.1, h⟩ (.cons ⟨alt_bn128_one_arg.1, h⟩ .nil))
  refine ⟨v, g, h, hg, ?_⟩
  rw [he trivial]
  have h2 : (2 : Fp alt_bn128_Fr_params).toZMod.val = 2 := by decide +kernel
  have h3 : (3 : Fp alt_bn128_Fr_params).toZMod.val = 3 := by decide +kernel
  simp [frProd, h2, h3]

/-- **C87.** bls12_381: the pairing of a multi-exponentiation in either argument is the product of the powers of the pairings. -/
theorem C87_bls12_381 (d₁ d₂ : Bool) : PairsMultiExp bls12_381_Fr_params Jac.ops Jac.ops bls12_381_arg₁ bls12_381_arg₂ (fun _ => True)
    (fun q => Jac.isZero q = false) (fun p => Jac.isSpecial p = true) (fun p => Jac.isSpecial p = true)
    (Jac.mixedAdd d₁) (@batchToSpecial _ Jac.ops Jac.isZero Jac.toAffine (Jac.batchToSpecialNZ d₁))
    (Jac.mixedAdd d₂) (@batchToSpecial _ Jac.ops Jac.isZero Jac.toAffine (Jac.batchToSpecialNZ d₂)) bls12_381_reduced_pairing :=
  Jac.pairsMultiExp bls12_381_bilin
    (by have h := C52_bls12_381_G1_generator.1; with_reducible_and_instances exact h)
    (by have h := C52_bls12_381_G1_generator.2.1; with_reducible_and_instances exact h)
    (by have h := C52_bls12_381_G1_generator.2.2.1; with_reducible_and_instances exact h)
    (by have h := C52_bls12_381_G2_generator.1; with_reducible_and_instances exact h)
    (by have h := C52_bls12_381_G2_generator.2.1; with_reducible_and_instances exact h)
    (by have h := C52_bls12_381_G2_generator.2.2.1; with_reducible_and_instances exact h) bls12_381_g_rep bls12_381_pair
    (by have h := C57_bls12_381_G1 d₁; with_reducible_and_instances exact h)
    (by have h := C57_bls12_381_G2 d₂; with_reducible_and_instances exact h)

/-- **C87.** mnt4 (results that are not zero). -/
theorem C87_mnt4 (d₁ d₂ : Bool) : PairsMultiExp mnt4_Fr_params (Proj.ops mnt4_G1_mul_by_a) (Proj.ops mnt4_G2_mul_by_a) mnt4_arg₁ mnt4_arg₂
    (fun p => Proj.isZero p = false) (fun q => Proj.isZero q = false) (fun p => Proj.isSpecial p = true) (fun p => Proj.isSpecial p = true)
    (Proj.mixedAdd mnt4_G1_mul_by_a d₁)
    (@batchToSpecial _ (Proj.ops mnt4_G1_mul_by_a) Proj.isZero Proj.toAffine (Proj.batchToSpecialNZ d₁))
    (Proj.mixedAdd mnt4_G2_mul_by_a d₂)
    (@batchToSpecial _ (Proj.ops mnt4_G2_mul_by_a) Proj.isZero Proj.toAffine (Proj.batchToSpecialNZ d₂)) mnt4_reduced_pairing :=
  Proj.pairsMultiExp mnt4_mulA mnt4_bilin
    (sw_Δ_ne_of_disc C52_mnt4_G1_generator.1 C52_mnt4_G1_generator.2.1) C52_mnt4_G2_generator.1 mnt4_Δ mnt4_g_rep mnt4_pair
    (by have h := C57_mnt4_G1 d₁; with_reducible_and_instances exact h)
    (by have h := C57_mnt4_G2 d₂; with_reducible_and_instances exact h)

/-- **C87.** mnt6 (results that are not zero). -/
theorem C87_mnt6 (d₁ d₂ : Bool) : PairsMultiExp mnt6_Fr_params (Proj.ops mnt6_G1_mul_by_a) (Proj.ops mnt6_G2_mul_by_a) mnt6_arg₁ mnt6_arg₂
    (fun p => Proj.isZero p = false) (fun q => Proj.isZero q = false) (fun p => Proj.isSpecial p = true) (fun p => Proj.isSpecial p = true)
    (Proj.mixedAdd mnt6_G1_mul_by_a d₁)
    (@batchToSpecial _ (Proj.ops mnt6_G1_mul_by_a) Proj.isZero Proj.toAffine (Proj.batchToSpecialNZ d₁))
    (Proj.mixedAdd mnt6_G2_mul_by_a d₂)
    (@batchToSpecial _ (Proj.ops mnt6_G2_mul_by_a) Proj.isZero Proj.toAffine (Proj.batchToSpecialNZ d₂)) mnt6_reduced_pairing :=
  Proj.pairsMultiExp mnt6_mulA mnt6_bilin
    (sw_Δ_ne_of_disc C52_mnt6_G1_generator.1 C52_mnt6_G1_generator.2.1) C52_mnt6_G2_generator.1 mnt6_Δ mnt6_g_rep mnt6_pair
    (by have h := C57_mnt6_G1 d₁; with_reducible_and_instances exact h)
    (by have h := C57_mnt6_G2 d₂; with_reducible_and_instances exact h)

/-- **C87.** edwards. -/
theorem C87_edwards (d₁ d₂ : Bool) : PairsMultiExp edwards_Fr_params edwards_ops₁ edwards_ops₂ edwards_arg₁ edwards_arg₂ (fun _ => True)
    (fun q => Edw.isZero q = false) (fun p => Edw.isSpecial p = true) (fun p => Edw.isSpecial p = true)
    (Edw.mixedAdd (fun x => x) edwards_G1_mul_by_d d₁)
    (@batchToSpecial _ edwards_ops₁ Edw.isZero (Edw.toSpecial d₁) (Edw.batchToSpecialNZ d₁))
    (Edw.mixedAdd edwards_G2_mul_by_a edwards_G2_mul_by_d d₂)
    (@batchToSpecial _ edwards_ops₂ Edw.isZero (Edw.toSpecial d₂) (Edw.batchToSpecialNZ d₂)) edwards_reduced_pairing :=
  edwards_bilin.pairsMultiExp (C₁ := fun _ => True) (Rep₁ := EdwRepIn edwards_H₁) (Rep₂ := EdwRepIn edwards_H₂)
    (fun ⟨P, hP⟩ => ⟨P, hP, trivial⟩)
    (fun ⟨⟨Q, hQ⟩, h⟩ => by
      obtain ⟨h0, n, e⟩ := Edw.nonzeroMultiple C52_edwards_G2_generator.1 C52_edwards_G2_generator.2.1 edwards_impl₂
        ⟨edwards_g_mem, edwards_g_rep⟩ hQ h
      exact ⟨Q, hQ, by rw [e]; exact nsmul_mem (AddSubgroup.mem_zmultiples _) n, h0⟩)
    (fun hp _ hq hQ h0 => edwards_pair hp.2 hq.2 hQ h0) (fun _ _ => trivial)
    (fun hq h0 h => by
      rw [(Edw.isZero_rep hq.2).2 h] at h0
      exact absurd h0 (by simp))
    (C57_edwards_G1 d₁) (C57_edwards_G2 d₂)

/-- The special form of the generator, and with it the hypotheses of the mixed entry point. -/
example (debug : Bool) : ∃ p, Edw.toSpecial debug edwards_G1_one = .ok p ∧ edwards_arg₁ p ∧ Edw.isSpecial p = true ∧
    Edw.isZero p = false ∧ edwards_arg₂ edwards_G2_one := by
  obtain ⟨g₁, hg₁, ho₁⟩ := edwards_g₁
  obtain ⟨p, hp, hr, hs⟩ := Edw.toSpecial_spec C52_edwards_G1_generator.1 C52_edwards_G1_generator.2.1 debug hg₁.2
  refine ⟨p, hp, ⟨g₁, hg₁.1, hr⟩, hs, ?_, edwards_one_arg.2.2⟩
  have := mt (Edw.isZero_rep hr).1 (ne_zero_of_order edwards_Fr_prime ho₁)
  simpa using this

end Libff
