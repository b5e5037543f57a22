import Verif.Props.Constants
import Verif.Props.Frobenius
import Verif.Lemmas.FieldsEdwards

/-! # C52, C23: the constants of edwards -/
namespace Libff
set_option synthInstance.maxSize 2000
open edwards_K

/-- C52. The square root and Euler constants of `edwards_Fq3` are right. -/
theorem C52_edwards_Fq3 : edwards_Fq3_data.Consistent (dec3 Nat.cast : _ → edwards_Fq3) :=
  ExtField.check_sound o3 _ (dec3 NM.of) _ _ 576 edwards_Fq3_card
    (dec3_rel _ (by decide +kernel)) (dec3_rel _ (by decide +kernel)) (by decide +kernel)

/-- C52. The square root and Euler constants of `edwards_Fq6` are right. -/
theorem C52_edwards_Fq6 : edwards_Fq6_data.Consistent (dec6q Nat.cast : _ → edwards_Fq6) :=
  ExtField.check_sound o6 _ (dec6q NM.of) _ _ 1152 edwards_Fq6_card
    (dec6q_rel _ (by decide +kernel)) (dec6q_rel _ (by decide +kernel)) (by decide +kernel)

/-- C52. The non-residues define fields. -/
theorem C52_edwards_non_residues : ¬ IsSquare edwards_β ∧ (¬ ∃ y, y ^ 3 = edwards_β) ∧ edwards_γ = edwards_β :=
  ⟨edwards_β_nonsquare, edwards_β_noncube, edwards_γ_eq⟩

theorem edwards_frob31 : ∀ i < 3, ((edwards_Fq3_frob_c1.getD i 0 : Nat) : edwards_Fq) = edwards_β ^ ((edwards_Fq_params.p ^ i - 1) / 3) :=
  tableCheck_sound o1 NM.of Nat.cast 0 edwards_Fq3_frob_c1 (fun v hv => FpRel.cast ((by decide +kernel :
    ∀ v ∈ edwards_Fq3_frob_c1, v < edwards_Fq_params.p) v hv)) _ _ rβ (fun i => (edwards_Fq_params.p ^ i - 1) / 3) 576
    (by decide +kernel)

theorem edwards_frob32 : ∀ i < 3, ((edwards_Fq3_frob_c2.getD i 0 : Nat) : edwards_Fq) = edwards_β ^ (2 * ((edwards_Fq_params.p ^ i - 1) / 3)) :=
  tableCheck_sound o1 NM.of Nat.cast 0 edwards_Fq3_frob_c2 (fun v hv => FpRel.cast ((by decide +kernel :
    ∀ v ∈ edwards_Fq3_frob_c2, v < edwards_Fq_params.p) v hv)) _ _ rβ (fun i => 2 * ((edwards_Fq_params.p ^ i - 1) / 3)) 576
    (by decide +kernel)

theorem edwards_frob6 : ∀ i < 6, ((edwards_Fq6_frob_c1.getD i 0 : Nat) : edwards_Fq) = edwards_β ^ ((edwards_Fq_params.p ^ i - 1) / 6) :=
  tableCheck_sound o1 NM.of Nat.cast 0 edwards_Fq6_frob_c1 (fun v hv => FpRel.cast ((by decide +kernel :
    ∀ v ∈ edwards_Fq6_frob_c1, v < edwards_Fq_params.p) v hv)) _ _ rβ (fun i => (edwards_Fq_params.p ^ i - 1) / 6) 1152
    (by decide +kernel)

/-- C23. `edwards_Fq3::Frobenius_map(k)`, with the stored tables, is `x ↦ x^(q^k)`. -/
theorem C23_edwards_Fq3 (k : Nat) (x : edwards_Fq3) :
    Fp3.frobeniusMap (fun i => ((edwards_Fq3_frob_c1.getD i 0 : Nat) : edwards_Fq))
      (fun i => ((edwards_Fq3_frob_c2.getD i 0 : Nat) : edwards_Fq)) k x = x ^ edwards_Fq_params.p ^ k :=
  C23_fp3_frobenius _ Fp.card (by decide +kernel) _ edwards_β_noncube _ _ edwards_frob31 edwards_frob32 k x

/-- C23. `edwards_Fq6::Frobenius_map(k)`, with the stored tables. -/
theorem C23_edwards_Fq6 (k : Nat) (x : edwards_Fq6) :
    Fp6_2over3.frobeniusMap (fun i => ((edwards_Fq3_frob_c1.getD i 0 : Nat) : edwards_Fq))
      (fun i => ((edwards_Fq3_frob_c2.getD i 0 : Nat) : edwards_Fq))
      (fun i => ((edwards_Fq6_frob_c1.getD i 0 : Nat) : edwards_Fq)) k x = x ^ edwards_Fq_params.p ^ k :=
  C23_fp6_2over3_frobenius _ Fp.card (by decide +kernel) _ edwards_β_nonsquare edwards_β_noncube _ _ _ edwards_frob31
    edwards_frob32 edwards_frob6 k x

/-- C52. The Tonelli–Shanks constants of all extension fields meet the hypotheses of C09 and C10. -/
theorem C52_edwards_square_roots : (edwards_Fq3_data.sqrtConsts 9 (dec3 Nat.cast : _ → edwards_Fq3)).Valid ∧
    (edwards_Fq6_data.sqrtConsts 18 (dec6q Nat.cast : _ → edwards_Fq6)).Valid :=
  ⟨C52_ext_sqrt _ _ _ C52_edwards_Fq3 (by decide +kernel),
   C52_ext_sqrt _ _ _ C52_edwards_Fq6 (by decide +kernel)⟩

end Libff
