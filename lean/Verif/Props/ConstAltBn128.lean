import Verif.Props.Constants
import Verif.Props.Frobenius
import Verif.Lemmas.FieldsAltBn128

/-! # C52, C23: the constants of alt_bn128 -/
namespace Libff
set_option synthInstance.maxSize 2000
open alt_bn128_K

/-- C52. The square root and Euler constants of `alt_bn128_Fq2` are right. -/
theorem C52_alt_bn128_Fq2 : alt_bn128_Fq2_data.Consistent (dec2 Nat.cast : _ → alt_bn128_Fq2) :=
  ExtField.check_sound o2 _ (dec2 NM.of) _ _ 512 alt_bn128_Fq2_card
    (dec2_rel _ (by decide +kernel)) (dec2_rel _ (by decide +kernel)) (by decide +kernel)

/-- C52. The square root and Euler constants of `alt_bn128_Fq6` are right. -/
theorem C52_alt_bn128_Fq6 : alt_bn128_Fq6_data.Consistent (dec6c Nat.cast : _ → alt_bn128_Fq6) :=
  ExtField.check_sound o6 _ (dec6c NM.of) _ _ 1536 alt_bn128_Fq6_card
    (dec6c_rel _ (by decide +kernel)) (dec6c_rel _ (by decide +kernel)) (by decide +kernel)

/-- C52. The square root and Euler constants of `alt_bn128_Fq12` are right. -/
theorem C52_alt_bn128_Fq12 : alt_bn128_Fq12_data.Consistent (dec12 Nat.cast : _ → alt_bn128_Fq12) :=
  ExtField.check_sound o12 _ (dec12 NM.of) _ _ 3072 alt_bn128_Fq12_card
    (dec12_rel _ (by decide +kernel)) (dec12_rel _ (by decide +kernel)) (by decide +kernel)

/-- C52. The non-residues define fields: `β` is not a square, `ξ` neither a square nor a cube, and `Fq12`
uses the non-residue of `Fq6`. -/
theorem C52_alt_bn128_non_residues : ¬ IsSquare alt_bn128_β ∧ (¬ ∃ y, y ^ 3 = alt_bn128_ξ) ∧ ¬ IsSquare alt_bn128_ξ ∧
    alt_bn128_γ = alt_bn128_ξ :=
  ⟨alt_bn128_β_nonsquare, alt_bn128_ξ_noncube, alt_bn128_ξ_nonsquare, alt_bn128_γ_eq⟩

theorem alt_bn128_frob2 : ∀ i < 2, ((alt_bn128_Fq2_frob_c1.getD i 0 : Nat) : alt_bn128_Fq) = alt_bn128_β ^ ((alt_bn128_Fq_params.p ^ i - 1) / 2) :=
  tableCheck_sound o1 NM.of Nat.cast 0 alt_bn128_Fq2_frob_c1 (fun v hv => FpRel.cast ((by decide +kernel :
    ∀ v ∈ alt_bn128_Fq2_frob_c1, v < alt_bn128_Fq_params.p) v hv)) _ _ rβ (fun i => (alt_bn128_Fq_params.p ^ i - 1) / 2) 512
    (by decide +kernel)

theorem alt_bn128_frob61 : ∀ i < 6, (dec2 Nat.cast (alt_bn128_Fq6_frob_c1.getD i (0, 0)) : alt_bn128_Fq2) = alt_bn128_ξ ^ ((alt_bn128_Fq_params.p ^ i - 1) / 3) :=
  tableCheck_sound o2 (dec2 NM.of) (dec2 Nat.cast) (0, 0) alt_bn128_Fq6_frob_c1 (fun v hv => dec2_rel v ((by decide +kernel :
    ∀ v ∈ alt_bn128_Fq6_frob_c1, v.1 < alt_bn128_Fq_params.p ∧ v.2 < alt_bn128_Fq_params.p) v hv)) _ _ rξ
    (fun i => (alt_bn128_Fq_params.p ^ i - 1) / 3) 1536 (by decide +kernel)

theorem alt_bn128_frob62 : ∀ i < 6, (dec2 Nat.cast (alt_bn128_Fq6_frob_c2.getD i (0, 0)) : alt_bn128_Fq2) = alt_bn128_ξ ^ (2 * ((alt_bn128_Fq_params.p ^ i - 1) / 3)) :=
  tableCheck_sound o2 (dec2 NM.of) (dec2 Nat.cast) (0, 0) alt_bn128_Fq6_frob_c2 (fun v hv => dec2_rel v ((by decide +kernel :
    ∀ v ∈ alt_bn128_Fq6_frob_c2, v.1 < alt_bn128_Fq_params.p ∧ v.2 < alt_bn128_Fq_params.p) v hv)) _ _ rξ
    (fun i => 2 * ((alt_bn128_Fq_params.p ^ i - 1) / 3)) 1536 (by decide +kernel)

theorem alt_bn128_frob12 : ∀ i < 12, (dec2 Nat.cast (alt_bn128_Fq12_frob_c1.getD i (0, 0)) : alt_bn128_Fq2) = alt_bn128_ξ ^ ((alt_bn128_Fq_params.p ^ i - 1) / 6) :=
  tableCheck_sound o2 (dec2 NM.of) (dec2 Nat.cast) (0, 0) alt_bn128_Fq12_frob_c1 (fun v hv => dec2_rel v ((by decide +kernel :
    ∀ v ∈ alt_bn128_Fq12_frob_c1, v.1 < alt_bn128_Fq_params.p ∧ v.2 < alt_bn128_Fq_params.p) v hv)) _ _ rξ
    (fun i => (alt_bn128_Fq_params.p ^ i - 1) / 6) 3072 (by decide +kernel)

/-- C23. `alt_bn128_Fq2::Frobenius_map(k)`, with the stored table, is `x ↦ x^(q^k)`. -/
theorem C23_alt_bn128_Fq2 (k : Nat) (x : alt_bn128_Fq2) :
    Fp2.frobeniusMap (fun i => ((alt_bn128_Fq2_frob_c1.getD i 0 : Nat) : alt_bn128_Fq)) k x = x ^ alt_bn128_Fq_params.p ^ k :=
  C23_fp2_frobenius _ Fp.card (by decide +kernel) _ alt_bn128_β_nonsquare _ alt_bn128_frob2 k x

/-- C23. `alt_bn128_Fq6::Frobenius_map(k)`, with the stored tables. -/
theorem C23_alt_bn128_Fq6 (k : Nat) (x : alt_bn128_Fq6) :
    Fp6_3over2.frobeniusMap (fun i => ((alt_bn128_Fq2_frob_c1.getD i 0 : Nat) : alt_bn128_Fq))
      (fun i => dec2 Nat.cast (alt_bn128_Fq6_frob_c1.getD i (0, 0))) (fun i => dec2 Nat.cast (alt_bn128_Fq6_frob_c2.getD i (0, 0))) k x =
      x ^ alt_bn128_Fq_params.p ^ k :=
  C23_fp6_3over2_frobenius _ Fp.card (by decide +kernel) (by decide +kernel) _ _ alt_bn128_β_nonsquare
    (fun ⟨y, hy⟩ => alt_bn128_ξ_fact.out y hy) _ _ _ alt_bn128_frob2 alt_bn128_frob61 alt_bn128_frob62 k x

/-- C23. `alt_bn128_Fq12::Frobenius_map(k)`, with the stored tables. -/
theorem C23_alt_bn128_Fq12 (k : Nat) (x : alt_bn128_Fq12) :
    Fp12.frobeniusMap (fun i => ((alt_bn128_Fq2_frob_c1.getD i 0 : Nat) : alt_bn128_Fq))
      (fun i => dec2 Nat.cast (alt_bn128_Fq6_frob_c1.getD i (0, 0))) (fun i => dec2 Nat.cast (alt_bn128_Fq6_frob_c2.getD i (0, 0)))
      (fun i => dec2 Nat.cast (alt_bn128_Fq12_frob_c1.getD i (0, 0))) k x = x ^ alt_bn128_Fq_params.p ^ k :=
  C23_fp12_frobenius _ Fp.card (by decide +kernel) _ _ alt_bn128_β_nonsquare
    (fun ⟨y, hy⟩ => alt_bn128_ξ_fact.out y hy) alt_bn128_ξ_nonsquare _ _ _ _ alt_bn128_frob2 alt_bn128_frob61 alt_bn128_frob62
    alt_bn128_frob12 k x

/-- C52. The Tonelli–Shanks constants of all extension fields meet the hypotheses of C09 and C10. -/
theorem C52_alt_bn128_square_roots : (alt_bn128_Fq2_data.sqrtConsts 8 (dec2 Nat.cast : _ → alt_bn128_Fq2)).Valid ∧
    (alt_bn128_Fq6_data.sqrtConsts 24 (dec6c Nat.cast : _ → alt_bn128_Fq6)).Valid ∧
    (alt_bn128_Fq12_data.sqrtConsts 48 (dec12 Nat.cast : _ → alt_bn128_Fq12)).Valid :=
  ⟨C52_ext_sqrt _ _ _ C52_alt_bn128_Fq2 (by decide +kernel),
   C52_ext_sqrt _ _ _ C52_alt_bn128_Fq6 (by decide +kernel),
   C52_ext_sqrt _ _ _ C52_alt_bn128_Fq12 (by decide +kernel)⟩

end Libff
