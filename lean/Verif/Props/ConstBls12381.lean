import Verif.Props.Constants
import Verif.Props.Frobenius
import Verif.Lemmas.FieldsBls12381

/-! # C52, C23: the constants of bls12_381 -/
namespace Libff
set_option synthInstance.maxSize 2000
open bls12_381_K

/-- C52. The square root and Euler constants of `bls12_381_Fq2` are right. -/
theorem C52_bls12_381_Fq2 : bls12_381_Fq2_data.Consistent (dec2 Nat.cast : _ → bls12_381_Fq2) :=
  ExtField.check_sound o2 _ (dec2 NM.of) _ _ 768 bls12_381_Fq2_card
    (dec2_rel _ (by decide +kernel)) (dec2_rel _ (by decide +kernel)) (by decide +kernel)

/-- C52. The square root and Euler constants of `bls12_381_Fq6` are right. -/
theorem C52_bls12_381_Fq6 : bls12_381_Fq6_data.Consistent (dec6c Nat.cast : _ → bls12_381_Fq6) :=
  ExtField.check_sound o6 _ (dec6c NM.of) _ _ 2304 bls12_381_Fq6_card
    (dec6c_rel _ (by decide +kernel)) (dec6c_rel _ (by decide +kernel)) (by decide +kernel)

/-- C52. The square root and Euler constants of `bls12_381_Fq12` are right. -/
theorem C52_bls12_381_Fq12 : bls12_381_Fq12_data.Consistent (dec12 Nat.cast : _ → bls12_381_Fq12) :=
  ExtField.check_sound o12 _ (dec12 NM.of) _ _ 4608 bls12_381_Fq12_card
    (dec12_rel _ (by decide +kernel)) (dec12_rel _ (by decide +kernel)) (by decide +kernel)

/-- C52. The non-residues define fields: `β` is not a square, `ξ` neither a square nor a cube, and `Fq12`
uses the non-residue of `Fq6`. -/
theorem C52_bls12_381_non_residues : ¬ IsSquare bls12_381_β ∧ (¬ ∃ y, y ^ 3 = bls12_381_ξ) ∧ ¬ IsSquare bls12_381_ξ ∧
    bls12_381_γ = bls12_381_ξ :=
  ⟨bls12_381_β_nonsquare, bls12_381_ξ_noncube, bls12_381_ξ_nonsquare, bls12_381_γ_eq⟩

theorem bls12_381_frob2 : ∀ i < 2, ((bls12_381_Fq2_frob_c1.getD i 0 : Nat) : bls12_381_Fq) = bls12_381_β ^ ((bls12_381_Fq_params.p ^ i - 1) / 2) :=
  tableCheck_sound o1 NM.of Nat.cast 0 bls12_381_Fq2_frob_c1 (fun v hv => FpRel.cast ((by decide +kernel :
    ∀ v ∈ bls12_381_Fq2_frob_c1, v < bls12_381_Fq_params.p) v hv)) _ _ rβ (fun i => (bls12_381_Fq_params.p ^ i - 1) / 2) 768
    (by decide +kernel)

theorem bls12_381_frob61 : ∀ i < 6, (dec2 Nat.cast (bls12_381_Fq6_frob_c1.getD i (0, 0)) : bls12_381_Fq2) = bls12_381_ξ ^ ((bls12_381_Fq_params.p ^ i - 1) / 3) :=
  tableCheck_sound o2 (dec2 NM.of) (dec2 Nat.cast) (0, 0) bls12_381_Fq6_frob_c1 (fun v hv => dec2_rel v ((by decide +kernel :
    ∀ v ∈ bls12_381_Fq6_frob_c1, v.1 < bls12_381_Fq_params.p ∧ v.2 < bls12_381_Fq_params.p) v hv)) _ _ rξ
    (fun i => (bls12_381_Fq_params.p ^ i - 1) / 3) 2304 (by decide +kernel)

theorem bls12_381_frob62 : ∀ i < 6, (dec2 Nat.cast (bls12_381_Fq6_frob_c2.getD i (0, 0)) : bls12_381_Fq2) = bls12_381_ξ ^ (2 * ((bls12_381_Fq_params.p ^ i - 1) / 3)) :=
  tableCheck_sound o2 (dec2 NM.of) (dec2 Nat.cast) (0, 0) bls12_381_Fq6_frob_c2 (fun v hv => dec2_rel v ((by decide +kernel :
    ∀ v ∈ bls12_381_Fq6_frob_c2, v.1 < bls12_381_Fq_params.p ∧ v.2 < bls12_381_Fq_params.p) v hv)) _ _ rξ
    (fun i => 2 * ((bls12_381_Fq_params.p ^ i - 1) / 3)) 2304 (by decide +kernel)

theorem bls12_381_frob12 : ∀ i < 12, (dec2 Nat.cast (bls12_381_Fq12_frob_c1.getD i (0, 0)) : bls12_381_Fq2) = bls12_381_ξ ^ ((bls12_381_Fq_params.p ^ i - 1) / 6) :=
  tableCheck_sound o2 (dec2 NM.of) (dec2 Nat.cast) (0, 0) bls12_381_Fq12_frob_c1 (fun v hv => dec2_rel v ((by decide +kernel :
    ∀ v ∈ bls12_381_Fq12_frob_c1, v.1 < bls12_381_Fq_params.p ∧ v.2 < bls12_381_Fq_params.p) v hv)) _ _ rξ
    (fun i => (bls12_381_Fq_params.p ^ i - 1) / 6) 4608 (by decide +kernel)

/-- C23. `bls12_381_Fq2::Frobenius_map(k)`, with the stored table, is `x ↦ x^(q^k)`. -/
theorem C23_bls12_381_Fq2 (k : Nat) (x : bls12_381_Fq2) :
    Fp2.frobeniusMap (fun i => ((bls12_381_Fq2_frob_c1.getD i 0 : Nat) : bls12_381_Fq)) k x = x ^ bls12_381_Fq_params.p ^ k :=
  C23_fp2_frobenius _ Fp.card (by decide +kernel) _ bls12_381_β_nonsquare _ bls12_381_frob2 k x

/-- C23. `bls12_381_Fq6::Frobenius_map(k)`, with the stored tables. -/
theorem C23_bls12_381_Fq6 (k : Nat) (x : bls12_381_Fq6) :
    Fp6_3over2.frobeniusMap (fun i => ((bls12_381_Fq2_frob_c1.getD i 0 : Nat) : bls12_381_Fq))
      (fun i => dec2 Nat.cast (bls12_381_Fq6_frob_c1.getD i (0, 0))) (fun i => dec2 Nat.cast (bls12_381_Fq6_frob_c2.getD i (0, 0))) k x =
      x ^ bls12_381_Fq_params.p ^ k :=
  C23_fp6_3over2_frobenius _ Fp.card (by decide +kernel) (by decide +kernel) _ _ bls12_381_β_nonsquare
    (fun ⟨y, hy⟩ => bls12_381_ξ_fact.out y hy) _ _ _ bls12_381_frob2 bls12_381_frob61 bls12_381_frob62 k x

/-- C23. `bls12_381_Fq12::Frobenius_map(k)`, with the stored tables. -/
theorem C23_bls12_381_Fq12 (k : Nat) (x : bls12_381_Fq12) :
    Fp12.frobeniusMap (fun i => ((bls12_381_Fq2_frob_c1.getD i 0 : Nat) : bls12_381_Fq))
      (fun i => dec2 Nat.cast (bls12_381_Fq6_frob_c1.getD i (0, 0))) (fun i => dec2 Nat.cast (bls12_381_Fq6_frob_c2.getD i (0, 0)))
      (fun i => dec2 Nat.cast (bls12_381_Fq12_frob_c1.getD i (0, 0))) k x = x ^ bls12_381_Fq_params.p ^ k :=
  C23_fp12_frobenius _ Fp.card (by decide +kernel) _ _ bls12_381_β_nonsquare
    (fun ⟨y, hy⟩ => bls12_381_ξ_fact.out y hy) bls12_381_ξ_nonsquare _ _ _ _ bls12_381_frob2 bls12_381_frob61 bls12_381_frob62
    bls12_381_frob12 k x

/-- C52. The Tonelli–Shanks constants of all extension fields meet the hypotheses of C09 and C10. -/
theorem C52_bls12_381_square_roots : (bls12_381_Fq2_data.sqrtConsts 12 (dec2 Nat.cast : _ → bls12_381_Fq2)).Valid ∧
    (bls12_381_Fq6_data.sqrtConsts 36 (dec6c Nat.cast : _ → bls12_381_Fq6)).Valid ∧
    (bls12_381_Fq12_data.sqrtConsts 72 (dec12 Nat.cast : _ → bls12_381_Fq12)).Valid :=
  ⟨C52_ext_sqrt _ _ _ C52_bls12_381_Fq2 (by decide +kernel),
   C52_ext_sqrt _ _ _ C52_bls12_381_Fq6 (by decide +kernel),
   C52_ext_sqrt _ _ _ C52_bls12_381_Fq12 (by decide +kernel)⟩

end Libff
