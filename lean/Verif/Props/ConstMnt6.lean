import Verif.Props.Constants
import Verif.Props.Frobenius
import Verif.Lemmas.FieldsMnt6

/-! # C52, C23: the constants of mnt6 -/
namespace Libff
set_option synthInstance.maxSize 2000
open mnt6_K

/-- C52. The square root and Euler constants of `mnt6_Fq3` are right. -/
theorem C52_mnt6_Fq3 : mnt6_Fq3_data.Consistent (dec3 Nat.cast : _ → mnt6_Fq3) :=
  ExtField.check_sound o3 _ (dec3 NM.of) _ _ 960 mnt6_Fq3_card
    (dec3_rel _ (by decide +kernel)) (dec3_rel _ (by decide +kernel)) (by decide +kernel)

/-- C52. The square root and Euler constants of `mnt6_Fq6` are right. -/
theorem C52_mnt6_Fq6 : mnt6_Fq6_data.Consistent (dec6q Nat.cast : _ → mnt6_Fq6) :=
  ExtField.check_sound o6 _ (dec6q NM.of) _ _ 1920 mnt6_Fq6_card
    (dec6q_rel _ (by decide +kernel)) (dec6q_rel _ (by decide +kernel)) (by decide +kernel)

/-- C52. The non-residues define fields. -/
theorem C52_mnt6_non_residues : ¬ IsSquare mnt6_β ∧ (¬ ∃ y, y ^ 3 = mnt6_β) ∧ mnt6_γ = mnt6_β :=
  ⟨mnt6_β_nonsquare, mnt6_β_noncube, mnt6_γ_eq⟩

theorem mnt6_frob31 : ∀ i < 3, ((mnt6_Fq3_frob_c1.getD i 0 : Nat) : mnt6_Fq) = mnt6_β ^ ((mnt6_Fq_params.p ^ i - 1) / 3) :=
  tableCheck_sound o1 NM.of Nat.cast 0 mnt6_Fq3_frob_c1 (fun v hv => FpRel.cast ((by decide +kernel :
    ∀ v ∈ mnt6_Fq3_frob_c1, v < mnt6_Fq_params.p) v hv)) _ _ rβ (fun i => (mnt6_Fq_params.p ^ i - 1) / 3) 960
    (by decide +kernel)

theorem mnt6_frob32 : ∀ i < 3, ((mnt6_Fq3_frob_c2.getD i 0 : Nat) : mnt6_Fq) = mnt6_β ^ (2 * ((mnt6_Fq_params.p ^ i - 1) / 3)) :=
  tableCheck_sound o1 NM.of Nat.cast 0 mnt6_Fq3_frob_c2 (fun v hv => FpRel.cast ((by decide +kernel :
    ∀ v ∈ mnt6_Fq3_frob_c2, v < mnt6_Fq_params.p) v hv)) _ _ rβ (fun i => 2 * ((mnt6_Fq_params.p ^ i - 1) / 3)) 960
    (by decide +kernel)

theorem mnt6_frob6 : ∀ i < 6, ((mnt6_Fq6_frob_c1.getD i 0 : Nat) : mnt6_Fq) = mnt6_β ^ ((mnt6_Fq_params.p ^ i - 1) / 6) :=
  tableCheck_sound o1 NM.of Nat.cast 0 mnt6_Fq6_frob_c1 (fun v hv => FpRel.cast ((by decide +kernel :
    ∀ v ∈ mnt6_Fq6_frob_c1, v < mnt6_Fq_params.p) v hv)) _ _ rβ (fun i => (mnt6_Fq_params.p ^ i - 1) / 6) 1920
    (by decide +kernel)

/-- C23. `mnt6_Fq3::Frobenius_map(k)`, with the stored tables, is `x ↦ x^(q^k)`. -/
theorem C23_mnt6_Fq3 (k : Nat) (x : mnt6_Fq3) :
    Fp3.frobeniusMap (fun i => ((mnt6_Fq3_frob_c1.getD i 0 : Nat) : mnt6_Fq))
      (fun i => ((mnt6_Fq3_frob_c2.getD i 0 : Nat) : mnt6_Fq)) k x = x ^ mnt6_Fq_params.p ^ k :=
  C23_fp3_frobenius _ Fp.card (by decide +kernel) _ mnt6_β_noncube _ _ mnt6_frob31 mnt6_frob32 k x

/-- C23. `mnt6_Fq6::Frobenius_map(k)`, with the stored tables. -/
theorem C23_mnt6_Fq6 (k : Nat) (x : mnt6_Fq6) :
    Fp6_2over3.frobeniusMap (fun i => ((mnt6_Fq3_frob_c1.getD i 0 : Nat) : mnt6_Fq))
      (fun i => ((mnt6_Fq3_frob_c2.getD i 0 : Nat) : mnt6_Fq))
      (fun i => ((mnt6_Fq6_frob_c1.getD i 0 : Nat) : mnt6_Fq)) k x = x ^ mnt6_Fq_params.p ^ k :=
  C23_fp6_2over3_frobenius _ Fp.card (by decide +kernel) _ mnt6_β_nonsquare mnt6_β_noncube _ _ _ mnt6_frob31
    mnt6_frob32 mnt6_frob6 k x

/-- C52. The Tonelli–Shanks constants of all extension fields meet the hypotheses of C09 and C10. -/
theorem C52_mnt6_square_roots : (mnt6_Fq3_data.sqrtConsts 15 (dec3 Nat.cast : _ → mnt6_Fq3)).Valid ∧
    (mnt6_Fq6_data.sqrtConsts 30 (dec6q Nat.cast : _ → mnt6_Fq6)).Valid :=
  ⟨C52_ext_sqrt _ _ _ C52_mnt6_Fq3 (by decide +kernel),
   C52_ext_sqrt _ _ _ C52_mnt6_Fq6 (by decide +kernel)⟩

end Libff
