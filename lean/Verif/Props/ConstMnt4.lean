import Verif.Props.Constants
import Verif.Props.Frobenius
import Verif.Lemmas.FieldsMnt4

/-! # C52, C23: the constants of mnt4 -/
namespace Libff
set_option synthInstance.maxSize 2000
open mnt4_K

/-- C52. The square root and Euler constants of `mnt4_Fq2` are right. -/
theorem C52_mnt4_Fq2 : mnt4_Fq2_data.Consistent (dec2 Nat.cast : _ → mnt4_Fq2) :=
  ExtField.check_sound o2 _ (dec2 NM.of) _ _ 640 mnt4_Fq2_card
    (dec2_rel _ (by decide +kernel)) (dec2_rel _ (by decide +kernel)) (by decide +kernel)

/-- C52. The square root and Euler constants of `mnt4_Fq4` are right. -/
theorem C52_mnt4_Fq4 : mnt4_Fq4_data.Consistent (dec4 Nat.cast : _ → mnt4_Fq4) :=
  ExtField.check_sound o4 _ (dec4 NM.of) _ _ 1280 mnt4_Fq4_card
    (dec4_rel _ (by decide +kernel)) (dec4_rel _ (by decide +kernel)) (by decide +kernel)

/-- C52. The non-residues define fields. -/
theorem C52_mnt4_non_residues : ¬ IsSquare mnt4_β ∧ ¬ IsSquare (-mnt4_β) ∧ mnt4_γ = mnt4_β :=
  ⟨mnt4_β_nonsquare, mnt4_negβ_nonsquare, mnt4_γ_eq⟩

theorem mnt4_frob2 : ∀ i < 2, ((mnt4_Fq2_frob_c1.getD i 0 : Nat) : mnt4_Fq) = mnt4_β ^ ((mnt4_Fq_params.p ^ i - 1) / 2) :=
  tableCheck_sound o1 NM.of Nat.cast 0 mnt4_Fq2_frob_c1 (fun v hv => FpRel.cast ((by decide +kernel :
    ∀ v ∈ mnt4_Fq2_frob_c1, v < mnt4_Fq_params.p) v hv)) _ _ rβ (fun i => (mnt4_Fq_params.p ^ i - 1) / 2) 640
    (by decide +kernel)

theorem mnt4_frob4 : ∀ i < 4, ((mnt4_Fq4_frob_c1.getD i 0 : Nat) : mnt4_Fq) = mnt4_β ^ ((mnt4_Fq_params.p ^ i - 1) / 4) :=
  tableCheck_sound o1 NM.of Nat.cast 0 mnt4_Fq4_frob_c1 (fun v hv => FpRel.cast ((by decide +kernel :
    ∀ v ∈ mnt4_Fq4_frob_c1, v < mnt4_Fq_params.p) v hv)) _ _ rβ (fun i => (mnt4_Fq_params.p ^ i - 1) / 4) 1280
    (by decide +kernel)

/-- C23. `mnt4_Fq2::Frobenius_map(k)`, with the stored table, is `x ↦ x^(q^k)`. -/
theorem C23_mnt4_Fq2 (k : Nat) (x : mnt4_Fq2) :
    Fp2.frobeniusMap (fun i => ((mnt4_Fq2_frob_c1.getD i 0 : Nat) : mnt4_Fq)) k x = x ^ mnt4_Fq_params.p ^ k :=
  C23_fp2_frobenius _ Fp.card (by decide +kernel) _ mnt4_β_nonsquare _ mnt4_frob2 k x

/-- C23. `mnt4_Fq4::Frobenius_map(k)`, with the stored tables. -/
theorem C23_mnt4_Fq4 (k : Nat) (x : mnt4_Fq4) :
    Fp4.frobeniusMap (fun i => ((mnt4_Fq2_frob_c1.getD i 0 : Nat) : mnt4_Fq))
      (fun i => ((mnt4_Fq4_frob_c1.getD i 0 : Nat) : mnt4_Fq)) k x = x ^ mnt4_Fq_params.p ^ k :=
  C23_fp4_frobenius _ Fp.card (by decide +kernel) _ mnt4_β_nonsquare mnt4_negβ_nonsquare _ _ mnt4_frob2
    mnt4_frob4 k x

/-- C52. The Tonelli–Shanks constants of all extension fields meet the hypotheses of C09 and C10. -/
theorem C52_mnt4_square_roots : (mnt4_Fq2_data.sqrtConsts 10 (dec2 Nat.cast : _ → mnt4_Fq2)).Valid ∧
    (mnt4_Fq4_data.sqrtConsts 20 (dec4 Nat.cast : _ → mnt4_Fq4)).Valid :=
  ⟨C52_ext_sqrt _ _ _ C52_mnt4_Fq2 (by decide +kernel),
   C52_ext_sqrt _ _ _ C52_mnt4_Fq4 (by decide +kernel)⟩

end Libff
