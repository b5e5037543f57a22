import Verif.Spec.Pairing
import Verif.Lemmas.FinalExp12
import Verif.Model.PairingCurves12
import Verif.Props.ConstAltBn128
import Verif.Props.ConstBls12381
import Verif.Lemmas.FinalExpW
import Verif.Model.PairingCurvesW
import Verif.Props.ConstMnt4
import Verif.Props.ConstMnt6
import Verif.Props.ConstEdwards

/-!
# C49: final exponentiation
-/
namespace Libff
set_option synthInstance.maxSize 2000

theorem alt_bn128_frobOK : alt_bn128_ate.FrobOK alt_bn128_Fq_params.p where
  prime := alt_bn128_Fq_prime
  card := Fp.card
  mod6 := by decide +kernel
  nonsquare := alt_bn128_ξ_nonsquare
  frob := C23_alt_bn128_Fq12

theorem bls12_381_frobOK : bls12_381_ate.FrobOK bls12_381_Fq_params.p where
  prime := bls12_381_Fq_prime
  card := Fp.card
  mod6 := by decide +kernel
  nonsquare := bls12_381_ξ_nonsquare
  frob := C23_bls12_381_Fq12

/-- **C49.** The result of a final exponentiation is an `r`-th root of unity. -/
theorem C49_root_of_unity {L : Type*} [Field L] [Fintype L] {fe : L → Outcome L} {r E : ℕ} (h : IsFinalExp fe r E) (x : L) (hx : x ≠ 0) :
    ∃ y, fe x = .ok y ∧ y ^ r = 1 := by
  refine ⟨_, h.pow x hx, ?_⟩
  obtain ⟨k, hk⟩ := h.dvd
  rw [← pow_mul, hk, mul_right_comm, Nat.div_mul_cancel h.dvd_card, pow_mul, FiniteField.pow_card_sub_one_eq_one x hx, one_pow]

/-- **C49.** A final exponentiation is multiplicative. -/
theorem C49_mul {L : Type*} [Field L] [Fintype L] {fe : L → Outcome L} {r E : ℕ} (h : IsFinalExp fe r E) (x y : L) (hx : x ≠ 0)
    (hy : y ≠ 0) : ∃ a b, fe x = .ok a ∧ fe y = .ok b ∧ fe (x * y) = .ok (a * b) :=
  ⟨_, _, h.pow x hx, h.pow y hy, by rw [h.pow _ (mul_ne_zero hx hy), mul_pow]⟩

/-- **C49.** A final exponentiation does not send everything to 1. -/
theorem C49_nontrivial {L : Type*} [Field L] [Fintype L] {fe : L → Outcome L} {r E : ℕ} (h : IsFinalExp fe r E) :
    ∃ x : L, x ≠ 0 ∧ fe x ≠ .ok 1 := by
  classical
  obtain ⟨g, hg⟩ := IsCyclic.exists_generator (α := Lˣ)
  refine ⟨g, g.ne_zero, fun e => h.not_dvd ?_⟩
  rw [h.pow _ g.ne_zero] at e
  have e' : ((g : L)) ^ E = 1 := Outcome.ok.inj e
  have e2 : g ^ E = 1 := by ext; rw [Units.val_pow_eq_pow_val, e', Units.val_one]
  rw [← Fintype.card_units, ← Nat.card_eq_fintype_card, ← orderOf_eq_card_of_forall_mem_zpowers hg]
  exact orderOf_dvd_of_pow_eq_one e2

/-- The exponent of `alt_bn128_final_exponentiation`, as the comments alt_bn128_pairing.cpp:117,168 have it. -/
def alt_bn128_E : ℕ :=
  let q := alt_bn128_Fq_params.p
  let z := alt_bn128_final_exponent_z
  (q ^ 6 - 1) * (q ^ 2 + 1) * (2 * z * (6 * z ^ 2 + 3 * z + 1) * ((q ^ 4 - q ^ 2 + 1) / alt_bn128_Fr_params.p))

/-- The exponent of `bls12_381_final_exponentiation`: three times the documented exponent `bls12_381_final_exponent`. -/
def bls12_381_E : ℕ := 3 * bls12_381_final_exponent

theorem zpow_natCast' {L : Type*} [Field L] (x : L) {e : ℤ} {n : ℕ} (h : e = n) : x ^ e = x ^ n := by rw [h, zpow_natCast]

/-- **C49.** `alt_bn128_final_exponentiation`. -/
theorem C49_alt_bn128 : IsFinalExp alt_bn128_final_exponentiation alt_bn128_Fr_params.p alt_bn128_E where
  zero := by
    unfold alt_bn128_final_exponentiation Ate12.bnFinalExponentiation
    rw [Ate12.firstChunk_zero]; rfl
  pow x hx := by
    unfold alt_bn128_final_exponentiation Ate12.bnFinalExponentiation
    rw [alt_bn128_frobOK.firstChunk_eq hx, Outcome.map_ok,
      alt_bn128_frobOK.bnLastChunk_eq (pow_ne_zero _ hx) (alt_bn128_frobOK.cyc hx)]
    refine congrArg Outcome.ok ?_
    rw [zpow_natCast' (n := 2 * alt_bn128_final_exponent_z * (6 * alt_bn128_final_exponent_z ^ 2 + 3 * alt_bn128_final_exponent_z + 1) *
      ((alt_bn128_Fq_params.p ^ 4 - alt_bn128_Fq_params.p ^ 2 + 1) / alt_bn128_Fr_params.p)) _ (by decide +kernel), ← pow_mul]
    rfl
  dvd_card := by rw [alt_bn128_Fq12_card]; decide +kernel
  dvd := by rw [alt_bn128_Fq12_card]; decide +kernel
  not_dvd := by rw [alt_bn128_Fq12_card]; decide +kernel

/-- **C49.** `bls12_381_final_exponentiation`. -/
theorem C49_bls12_381 : IsFinalExp bls12_381_final_exponentiation bls12_381_Fr_params.p bls12_381_E where
  zero := by
    unfold bls12_381_final_exponentiation Ate12.blsFinalExponentiation
    rw [Ate12.firstChunk_zero]; rfl
  pow x hx := by
    unfold bls12_381_final_exponentiation Ate12.blsFinalExponentiation
    rw [bls12_381_frobOK.firstChunk_eq hx, Outcome.map_ok,
      bls12_381_frobOK.blsLastChunk_eq (pow_ne_zero _ hx) (bls12_381_frobOK.cyc hx)]
    refine congrArg Outcome.ok ?_
    rw [zpow_natCast' (n := 3 * ((bls12_381_Fq_params.p ^ 4 - bls12_381_Fq_params.p ^ 2 + 1) / bls12_381_Fr_params.p)) _
      (by decide +kernel), ← pow_mul]
    rw [show (bls12_381_Fq_params.p ^ 6 - 1) * (bls12_381_Fq_params.p ^ 2 + 1) * (3 * ((bls12_381_Fq_params.p ^ 4 -
      bls12_381_Fq_params.p ^ 2 + 1) / bls12_381_Fr_params.p)) = bls12_381_E by decide +kernel]
  dvd_card := by rw [bls12_381_Fq12_card]; decide +kernel
  dvd := by rw [bls12_381_Fq12_card]; decide +kernel
  not_dvd := by rw [bls12_381_Fq12_card]; decide +kernel

/-! ## mnt4, mnt6, edwards -/

theorem mnt4_feOK : mnt4_feData.OK mnt4_Fq_params.p (mnt4_Fq_params.p ^ 2 + 1) (mnt4_Fq_params.p ^ 2 - 1) where
  frob := C23_mnt4_Fq4
  cexp x hx e he := C22_fp4_cyclotomic_exp _ Fp.card (by decide +kernel) _ mnt4_β_nonsquare mnt4_negβ_nonsquare x hx e he
  cyc x hx := C22_fp4_subgroup _ Fp.card _ mnt4_β_nonsquare mnt4_negβ_nonsquare x hx
  w0 := by decide +kernel
  w1 := by decide +kernel

theorem mnt6_feOK : mnt6_feData.OK mnt6_Fq_params.p (mnt6_Fq_params.p ^ 2 - mnt6_Fq_params.p + 1)
    ((mnt6_Fq_params.p ^ 3 - 1) * (mnt6_Fq_params.p + 1)) where
  frob := C23_mnt6_Fq6
  cexp x hx e he := C22_fp6_2over3_cyclotomic_exp _ Fp.card (by decide +kernel) _ mnt6_β_nonsquare mnt6_β_noncube x hx e he
  cyc x hx := C22_fp6_2over3_subgroup _ Fp.card _ mnt6_β_nonsquare mnt6_β_noncube x hx
  w0 := by decide +kernel
  w1 := by decide +kernel

theorem edwards_feOK : edwards_feData.OK edwards_Fq_params.p (edwards_Fq_params.p ^ 2 - edwards_Fq_params.p + 1)
    ((edwards_Fq_params.p ^ 3 - 1) * (edwards_Fq_params.p + 1)) where
  frob := C23_edwards_Fq6
  cexp x hx e he := C22_fp6_2over3_cyclotomic_exp _ Fp.card (by decide +kernel) _ edwards_β_nonsquare edwards_β_noncube x hx e he
  cyc x hx := C22_fp6_2over3_subgroup _ Fp.card _ edwards_β_nonsquare edwards_β_noncube x hx
  w0 := by decide +kernel
  w1 := by decide +kernel

/-- **C49.** `mnt4_final_exponentiation` raises to the documented power `mnt4_final_exponent`. -/
theorem C49_mnt4 : IsFinalExp mnt4_final_exponentiation mnt4_Fr_params.p mnt4_final_exponent where
  zero := FinalExpW.finalExponentiation_zero _
  pow x hx := by
    unfold mnt4_final_exponentiation
    rw [mnt4_feOK.finalExponentiation_eq (mnt4_feOK.firstChunk4_eq (by decide +kernel)) hx,
      zpow_natCast' (n := mnt4_final_exponent / (mnt4_Fq_params.p ^ 2 - 1)) _ (by decide +kernel), ← pow_mul]
    rw [show (mnt4_Fq_params.p ^ 2 - 1) * (mnt4_final_exponent / (mnt4_Fq_params.p ^ 2 - 1)) = mnt4_final_exponent by decide +kernel]
  dvd_card := by rw [mnt4_Fq4_card]; decide +kernel
  dvd := by rw [mnt4_Fq4_card]; decide +kernel
  not_dvd := by rw [mnt4_Fq4_card]; decide +kernel

/-- **C49.** `mnt6_final_exponentiation` raises to the documented power `mnt6_final_exponent`. -/
theorem C49_mnt6 : IsFinalExp mnt6_final_exponentiation mnt6_Fr_params.p mnt6_final_exponent where
  zero := FinalExpW.finalExponentiation_zero _
  pow x hx := by
    unfold mnt6_final_exponentiation
    rw [mnt6_feOK.finalExponentiation_eq (mnt6_feOK.firstChunk6_eq (by decide +kernel)) hx,
      zpow_natCast' (n := mnt6_final_exponent / ((mnt6_Fq_params.p ^ 3 - 1) * (mnt6_Fq_params.p + 1))) _ (by decide +kernel), ← pow_mul]
    rw [show (mnt6_Fq_params.p ^ 3 - 1) * (mnt6_Fq_params.p + 1) * (mnt6_final_exponent / ((mnt6_Fq_params.p ^ 3 - 1) *
      (mnt6_Fq_params.p + 1))) = mnt6_final_exponent by decide +kernel]
  dvd_card := by rw [mnt6_Fq6_card]; decide +kernel
  dvd := by rw [mnt6_Fq6_card]; decide +kernel
  not_dvd := by rw [mnt6_Fq6_card]; decide +kernel

/-- The exponent of `edwards_final_exponentiation`: exactly `(q^6 - 1) / r`. -/
def edwards_E : ℕ := (edwards_Fq_params.p ^ 6 - 1) / edwards_Fr_params.p

/-- **C49.** `edwards_final_exponentiation`. -/
theorem C49_edwards : IsFinalExp edwards_final_exponentiation edwards_Fr_params.p edwards_E where
  zero := FinalExpW.finalExponentiation_zero _
  pow x hx := by
    unfold edwards_final_exponentiation
    rw [edwards_feOK.finalExponentiation_eq (edwards_feOK.firstChunk6_eq (by decide +kernel)) hx,
      zpow_natCast' (n := edwards_E / ((edwards_Fq_params.p ^ 3 - 1) * (edwards_Fq_params.p + 1))) _ (by decide +kernel), ← pow_mul]
    rw [show (edwards_Fq_params.p ^ 3 - 1) * (edwards_Fq_params.p + 1) * (edwards_E / ((edwards_Fq_params.p ^ 3 - 1) *
      (edwards_Fq_params.p + 1))) = edwards_E by decide +kernel]
  dvd_card := by rw [edwards_Fq6_card]; decide +kernel
  dvd := by rw [edwards_Fq6_card]; decide +kernel
  not_dvd := by rw [edwards_Fq6_card]; decide +kernel

/-- The hypothesis `IsFinalExp` of the general theorems is met by the five curves; for instance: -/
example : (∃ x : alt_bn128_Fq12, x ≠ 0 ∧ alt_bn128_final_exponentiation x ≠ .ok 1) ∧
    (∃ y, mnt4_final_exponentiation 1 = .ok y ∧ y ^ mnt4_Fr_params.p = 1) :=
  ⟨C49_nontrivial C49_alt_bn128, C49_root_of_unity C49_mnt4 1 one_ne_zero⟩

end Libff
