import Verif.Spec.PairingBatch
import Verif.Props.PairingSum
import Mathlib.GroupTheory.OrderOfElement

/-!
# C88: a false pairing equation survives a batched check for at most one value of its scalar
-/
namespace Libff

section
variable {G₁ G₂ L : Type} [Field L] {P : FpParams} [Fact P.Valid]

theorem frProd_set : ∀ (vs : List L) (ss : List (Fp P)) (j : Nat) (hj : j < vs.length), j < ss.length → (∀ v ∈ vs, v ≠ 0) →
    ∃ c, c ≠ 0 ∧ ∀ x, frProd vs (ss.set j x) = c * vs[j] ^ x.toZMod.val
  | [], _, _, h, _, _ => absurd h (by simp)
  | _ :: _, [], _, _, h, _ => absurd h (by simp)
  | v :: vs, s :: ss, 0, _, _, h0 => by
    refine ⟨frProd vs ss, ?_, fun x => by simp [frProd, mul_comm]⟩
    rw [frProd, ne_eq, List.prod_eq_zero_iff]
    intro h
    obtain ⟨i, hi, e⟩ := List.mem_iff_getElem.1 h
    rw [List.getElem_zipWith] at e
    exact h0 _ (List.mem_cons_of_mem _ (List.getElem_mem _)) (eq_zero_of_pow_eq_zero e)
  | v :: vs, s :: ss, j + 1, hj, hs, h0 => by
    obtain ⟨c, hc, h⟩ := frProd_set vs ss j (by simpa using hj) (by simpa using hs) fun v hv => h0 v (List.mem_cons_of_mem _ hv)
    refine ⟨v ^ s.toZMod.val * c, mul_ne_zero (pow_ne_zero _ (h0 v (by simp))) hc, fun x => ?_⟩
    have := h x
    simp only [frProd, List.set_cons_succ, List.zipWith_cons_cons, List.prod_cons, List.getElem_cons_succ] at this ⊢
    rw [this, mul_assoc]

/-- Two exponents below the prime `r` that give an `r`-th root of unity other than 1 the same power are equal. -/
theorem pow_inj_of_prime {r : Nat} (hr : r.Prime) {w : L} (hw : w ^ r = 1) (h1 : w ≠ 1) {m n : Nat} (hm : m < r) (hn : n < r)
    (h : w ^ m = w ^ n) : m = n := by
  have : Fact r.Prime := ⟨hr⟩
  have ho : orderOf w = r := orderOf_eq_prime hw h1
  exact pow_injOn_Iio_orderOf (by simpa [ho] using hm) (by simpa [ho] using hn) h

theorem PairsSum.sound (hr : P.p.Prime) {arg₁ : G₁ → Prop} {arg₂ : G₂ → Prop} {nz : G₁ → Prop} {pair : G₁ → G₂ → Outcome L}
    {ok : List G₁ → Prop} {sum : List G₁ → List (Fp P) → Outcome G₁} (h : PairsSum arg₁ arg₂ nz pair ok sum)
    (tot : ∀ {p q}, arg₁ p → arg₂ q → ∃ v, pair p q = .ok v ∧ v ^ P.p = 1) : BatchSound arg₁ arg₂ nz pair ok sum := by
  intro bases claims scalars q j hb hc hl hl' hok hargs hq hcl hne x y hx hy
  have key : ∃ us : List L, List.Forall₂ (fun p v => arg₁ p ∧ pair p q = .ok v) bases us ∧ ∀ u ∈ us, u ^ P.p = 1 := by
    clear hne hok hl hb h hx hy
    induction bases with
    | nil => exact ⟨[], .nil, by simp⟩
    | cons b bs ih =>
      obtain ⟨us, h1, h2⟩ := ih fun b hb => hargs b (List.mem_cons_of_mem _ hb)
      obtain ⟨v, hv, hv'⟩ := tot (hargs b (by simp)) hq
      exact ⟨v :: us, .cons ⟨hargs b (by simp), hv⟩ h1, by simpa using ⟨hv', h2⟩⟩
  obtain ⟨us, hus, hus'⟩ := key
  have hp0 : P.p ≠ 0 := hr.ne_zero
  have nz0 : ∀ {v : L}, v ^ P.p = 1 → v ≠ 0 := by
    rintro v hv rfl
    rw [zero_pow hp0] at hv
    exact zero_ne_one hv
  have hju : j < us.length := hus.length_eq ▸ hb
  have hjs : j < scalars.length := hl ▸ hb
  have huj : pair bases[j] q = .ok us[j] := (List.Forall₂.get hus hb hju).2
  have hd : us[j] ≠ claims[j] := fun e => hne (by rw [huj, e])
  obtain ⟨c, hc0, hcx⟩ := frProd_set us scalars j hju hjs fun v hv => nz0 (hus' v hv)
  obtain ⟨d, hd0, hdx⟩ := frProd_set claims scalars j hc hjs fun v hv => nz0 (hcl v hv)
  have eqn : ∀ x, BatchCheck nz pair sum bases claims q (scalars.set j x) →
      (us[j] / claims[j]) ^ x.toZMod.val = d / c := by
    rintro x ⟨g, hg, hz, hv⟩
    obtain ⟨g', hg', hv'⟩ := h bases us (scalars.set j x) q hq (by simpa using hl) hok hus
    rw [hg] at hg'
    cases hg'
    rw [hv' hz, hcx, hdx] at hv
    have hv := Outcome.ok.inj hv
    have hcj : claims[j] ≠ 0 := nz0 (hcl _ (List.getElem_mem _))
    rw [div_pow, div_eq_div_iff (pow_ne_zero _ hcj) hc0, mul_comm, hv]
  have hw : (us[j] / claims[j]) ^ P.p = 1 := by
    rw [div_pow, hus' _ (List.getElem_mem _), hcl _ (List.getElem_mem _), div_one]
  have hw1 : us[j] / claims[j] ≠ 1 := fun e => hd (by
    rwa [div_eq_one_iff_eq (nz0 (hcl _ (List.getElem_mem _)))] at e)
  have : NeZero P.p := ⟨hp0⟩
  exact Fp.toZMod_injective (ZMod.val_injective _ (pow_inj_of_prime hr hw hw1 (ZMod.val_lt _) (ZMod.val_lt _)
    ((eqn x hx).trans (eqn y hy).symm)))

theorem PairsMultiExp.sound (hr : P.p.Prime) {ops₁ : GroupOps G₁} {ops₂ : GroupOps G₂} {eq₁ : G₁ → G₁ → Bool} {eq₂ : G₂ → G₂ → Bool}
    {arg₁ : G₁ → Prop} {arg₂ : G₂ → Prop} {nz₁ : G₁ → Prop}
    {nz₂ : G₂ → Prop} {special₁ : G₁ → Prop} {special₂ : G₂ → Prop} {ma₁ : G₁ → G₁ → Outcome G₁} {norm₁ : List G₁ → Outcome (List G₁)}
    {ma₂ : G₂ → G₂ → Outcome G₂} {norm₂ : List G₂ → Outcome (List G₂)} {pair : G₁ → G₂ → Outcome L}
    (h : PairsMultiExp P ops₁ ops₂ arg₁ arg₂ nz₁ nz₂ special₁ special₂ ma₁ norm₁ ma₂ norm₂ pair)
    (hb : BilinearPairing ops₁ ops₂ eq₁ eq₂ arg₁ arg₂ P.p pair) :
    BatchesSound P ops₁ ops₂ arg₁ arg₂ nz₁ nz₂ special₁ special₂ ma₁ norm₁ ma₂ norm₂ pair where
  mixed_left d c o hc ho := (h.mixed_left d c o hc ho).sound hr hb.total
  mixed_right d c o hc ho := (h.mixed_right d c o hc ho).sound hr fun hq hp => hb.total hp hq
  bdlo12_left c o hc ho := (h.bdlo12_left c o hc ho).sound hr hb.total
  bdlo12_right c o hc ho := (h.bdlo12_right c o hc ho).sound hr fun hq hp => hb.total hp hq

end

/-- **C88.** alt_bn128: if one of the equations is false, at most one value of its scalar lets the batched check pass. -/
theorem C88_alt_bn128 (d₁ d₂ : Bool) : BatchesSound alt_bn128_Fr_params Jac.ops Jac.ops alt_bn128_arg₁ alt_bn128_arg₂ (fun _ => True)
    (fun q => Jac.isZero q = false) (fun p => Jac.isSpecial p = true) (fun p => Jac.isSpecial p = true)
    (Jac.mixedAdd d₁) (@batchToSpecial _ Jac.ops Jac.isZero Jac.toAffine (Jac.batchToSpecialNZ d₁))
    (Jac.mixedAdd d₂) (@batchToSpecial _ Jac.ops Jac.isZero Jac.toAffine (Jac.batchToSpecialNZ d₂)) alt_bn128_reduced_pairing :=
  (C87_alt_bn128 d₁ d₂).sound alt_bn128_Fr_prime C51_alt_bn128

/-- The bound is attained: the false equation `e(G1::one(), G2::one()) = 1` passes the check with the scalar 0 (and with no other). -/
example (x : Fp alt_bn128_Fr_params) : alt_bn128_reduced_pairing alt_bn128_G1_one alt_bn128_G2_one ≠ .ok 1 ∧
    (BatchCheck (fun _ => True) alt_bn128_reduced_pairing (@sumBdlo alt_bn128_Fr_params _ Jac.ops [0] 1) [alt_bn128_G1_one] [1]
      alt_bn128_G2_one [x] ↔ x = 0) := by
  have hne : alt_bn128_reduced_pairing alt_bn128_G1_one alt_bn128_G2_one ≠ .ok 1 := by
    obtain ⟨v, hv, h1⟩ := C51_alt_bn128_nondegenerate _ _ alt_bn128_one_arg.2.1 alt_bn128_one_arg.2.2
    rw [hv]
    exact fun e => h1 (Outcome.ok.inj e)
  have hz : BatchCheck (fun _ => True) alt_bn128_reduced_pairing (@sumBdlo alt_bn128_Fr_params _ Jac.ops [0] 1) [alt_bn128_G1_one] [1]
      alt_bn128_G2_one [0] := by
    obtain ⟨v, h, -⟩ := C51_alt_bn128.total alt_bn128_one_arg.1 alt_bn128_one_arg.2.2
    obtain ⟨g, hg, he⟩ := (C87_alt_bn128 true true).bdlo12_left 1 [0] (by decide) (by decide) [alt_bn128_G1_one] [v]
      [0] alt_bn128_G2_one alt_bn128_one_arg.2.2 rfl (by decide) (.cons ⟨alt_bn128_one_arg.1, h⟩ .nil)
    refine ⟨g, hg, trivial, ?_⟩
    rw [he trivial]
    have h0 : (0 : Fp alt_bn128_Fr_params).toZMod.val = 0 := by decide +kernel
    simp [frProd, h0]
  refine ⟨hne, fun h => ?_, fun h => h ▸ hz⟩
  exact (C88_alt_bn128 true true).bdlo12_left 1 [0] (by decide) (by decide) [alt_bn128_G1_one] [1] [0] alt_bn128_G2_one 0 (by decide)
    (by decide) rfl rfl (by decide) (by simpa using alt_bn128_one_arg.1) alt_bn128_one_arg.2.2 (by simp) hne x 0 h hz

/-- **C88.** bls12_381: if one of the equations is false, at most one value of its scalar lets the batched check pass. -/
theorem C88_bls12_381 (d₁ d₂ : Bool) : BatchesSound bls12_381_Fr_params Jac.ops Jac.ops bls12_381_arg₁ bls12_381_arg₂ (fun _ => True)
    (fun q => Jac.isZero q = false) (fun p => Jac.isSpecial p = true) (fun p => Jac.isSpecial p = true)
    (Jac.mixedAdd d₁) (@batchToSpecial _ Jac.ops Jac.isZero Jac.toAffine (Jac.batchToSpecialNZ d₁))
    (Jac.mixedAdd d₂) (@batchToSpecial _ Jac.ops Jac.isZero Jac.toAffine (Jac.batchToSpecialNZ d₂)) bls12_381_reduced_pairing :=
  (C87_bls12_381 d₁ d₂).sound bls12_381_Fr_prime C51_bls12_381

/-- **C88.** mnt4: if one of the equations is false, at most one value of its scalar lets the batched check pass. -/
theorem C88_mnt4 (d₁ d₂ : Bool) : BatchesSound mnt4_Fr_params (Proj.ops mnt4_G1_mul_by_a) (Proj.ops mnt4_G2_mul_by_a) mnt4_arg₁ mnt4_arg₂
    (fun p => Proj.isZero p = false) (fun q => Proj.isZero q = false) (fun p => Proj.isSpecial p = true) (fun p => Proj.isSpecial p = true)
    (Proj.mixedAdd mnt4_G1_mul_by_a d₁)
    (@batchToSpecial _ (Proj.ops mnt4_G1_mul_by_a) Proj.isZero Proj.toAffine (Proj.batchToSpecialNZ d₁))
    (Proj.mixedAdd mnt4_G2_mul_by_a d₂)
    (@batchToSpecial _ (Proj.ops mnt4_G2_mul_by_a) Proj.isZero Proj.toAffine (Proj.batchToSpecialNZ d₂)) mnt4_reduced_pairing :=
  (C87_mnt4 d₁ d₂).sound mnt4_Fr_prime C51_mnt4

/-- **C88.** mnt6: if one of the equations is false, at most one value of its scalar lets the batched check pass. -/
theorem C88_mnt6 (d₁ d₂ : Bool) : BatchesSound mnt6_Fr_params (Proj.ops mnt6_G1_mul_by_a) (Proj.ops mnt6_G2_mul_by_a) mnt6_arg₁ mnt6_arg₂
    (fun p => Proj.isZero p = false) (fun q => Proj.isZero q = false) (fun p => Proj.isSpecial p = true) (fun p => Proj.isSpecial p = true)
    (Proj.mixedAdd mnt6_G1_mul_by_a d₁)
    (@batchToSpecial _ (Proj.ops mnt6_G1_mul_by_a) Proj.isZero Proj.toAffine (Proj.batchToSpecialNZ d₁))
    (Proj.mixedAdd mnt6_G2_mul_by_a d₂)
    (@batchToSpecial _ (Proj.ops mnt6_G2_mul_by_a) Proj.isZero Proj.toAffine (Proj.batchToSpecialNZ d₂)) mnt6_reduced_pairing :=
  (C87_mnt6 d₁ d₂).sound mnt6_Fr_prime C51_mnt6

/-- **C88.** edwards: if one of the equations is false, at most one value of its scalar lets the batched check pass. -/
theorem C88_edwards (d₁ d₂ : Bool) : BatchesSound edwards_Fr_params edwards_ops₁ edwards_ops₂ edwards_arg₁ edwards_arg₂ (fun _ => True)
    (fun q => Edw.isZero q = false) (fun p => Edw.isSpecial p = true) (fun p => Edw.isSpecial p = true)
    (Edw.mixedAdd (fun x => x) edwards_G1_mul_by_d d₁)
    (@batchToSpecial _ edwards_ops₁ Edw.isZero (Edw.toSpecial d₁) (Edw.batchToSpecialNZ d₁))
    (Edw.mixedAdd edwards_G2_mul_by_a edwards_G2_mul_by_d d₂)
    (@batchToSpecial _ edwards_ops₂ Edw.isZero (Edw.toSpecial d₂) (Edw.batchToSpecialNZ d₂)) edwards_reduced_pairing :=
  (C87_edwards d₁ d₂).sound edwards_Fr_prime C51_edwards

end Libff
