import Verif.Model.PairingEdwards
import Verif.Model.GroupsMnt4
import Verif.Model.GroupsMnt6
import Verif.Model.GroupsEdwards
import Verif.Spec.Limbs

/-!
# The pairings of mnt4, mnt6 and edwards, with their parameters
-/
namespace Libff
set_option synthInstance.maxSize 2000

/-- The final exponentiation data of mnt4: mnt4_init.cpp:194-196, mnt4_init.hpp:35-37 (`mnt4_q_limbs` = 5). -/
def mnt4_feData : FinalExpW mnt4_Fq4 where
  frob := Fp4.frobeniusMap (fun i => ((mnt4_Fq2_frob_c1.getD i 0 : Nat) : mnt4_Fq)) (fun i => ((mnt4_Fq4_frob_c1.getD i 0 : Nat) : mnt4_Fq))
  cexp := cyclotomicExpNaf Quad.cyclotomicSquared4
  w0 := limbsOf 5 mnt4_final_exponent_last_chunk_abs_of_w0
  w0Neg := mnt4_final_exponent_last_chunk_is_w0_neg
  w1 := limbsOf 5 mnt4_final_exponent_last_chunk_w1

/-- The final exponentiation data of mnt6: mnt6_init.cpp:199-201, mnt6_init.hpp:43-45 (`mnt6_q_limbs` = 5). -/
def mnt6_feData : FinalExpW mnt6_Fq6 where
  frob := Fp6_2over3.frobeniusMap (fun i => ((mnt6_Fq3_frob_c1.getD i 0 : Nat) : mnt6_Fq))
    (fun i => ((mnt6_Fq3_frob_c2.getD i 0 : Nat) : mnt6_Fq)) (fun i => ((mnt6_Fq6_frob_c1.getD i 0 : Nat) : mnt6_Fq))
  cexp := cyclotomicExpNaf (Fp6_2over3.cyclotomicSquared mnt6_β)
  w0 := limbsOf 5 mnt6_final_exponent_last_chunk_abs_of_w0
  w0Neg := mnt6_final_exponent_last_chunk_is_w0_neg
  w1 := limbsOf 5 mnt6_final_exponent_last_chunk_w1

/-- The final exponentiation data of edwards: edwards_init.cpp:179-181, edwards_init.hpp:33-35 (`edwards_q_limbs` = 3). -/
def edwards_feData : FinalExpW edwards_Fq6 where
  frob := Fp6_2over3.frobeniusMap (fun i => ((edwards_Fq3_frob_c1.getD i 0 : Nat) : edwards_Fq))
    (fun i => ((edwards_Fq3_frob_c2.getD i 0 : Nat) : edwards_Fq)) (fun i => ((edwards_Fq6_frob_c1.getD i 0 : Nat) : edwards_Fq))
  cexp := cyclotomicExpNaf (Fp6_2over3.cyclotomicSquared edwards_β)
  w0 := limbsOf 3 edwards_final_exponent_last_chunk_abs_of_w0
  w0Neg := edwards_final_exponent_last_chunk_is_w0_neg
  w1 := limbsOf 3 edwards_final_exponent_last_chunk_w1

/-- The parameters of mnt4: mnt4_init.cpp:44-45,191-192. -/
def mnt4_ate : AteMnt mnt4_Fq mnt4_Fq2 (fp4nr mnt4_β) where
  embed x := ⟨x, 0⟩
  scale := Quad.scale (· * ·)
  eight := ((8 : Nat) : mnt4_Fq)
  twist := ⟨0, 1⟩
  twistA := mnt4_twist_a
  loopCount := limbsOf 5 mnt4_ate_loop_count
  loopNeg := mnt4_ate_is_loop_count_neg
  mulSparse := Fp4.mulBy023

/-- The parameters of mnt6: mnt6_init.cpp:46-48,196-197. -/
def mnt6_ate : AteMnt mnt6_Fq mnt6_Fq3 (fp6nr mnt6_β) where
  embed x := ⟨x, 0, 0⟩
  scale := Cubic.scale (· * ·)
  eight := ((8 : Nat) : mnt6_Fq)
  twist := ⟨0, 1, 0⟩
  twistA := mnt6_twist_a
  loopCount := limbsOf 5 mnt6_ate_loop_count
  loopNeg := mnt6_ate_is_loop_count_neg
  mulSparse := Fp6_2over3.mulBy2345

/-- The parameters of edwards: edwards_init.cpp:41-46,178. -/
def edwards_ate : AteEdw edwards_Fq edwards_Fq3 (fp6nr edwards_β) where
  embed x := ⟨x, 0, 0⟩
  scale := Cubic.scale (· * ·)
  mulA := edwards_G2_mul_by_a
  loopCount := limbsOf 3 edwards_ate_loop_count
  modulusR := limbsOf 3 edwards_Fr_params.p

/-- `mnt4_final_exponentiation`. -/
noncomputable def mnt4_final_exponentiation : mnt4_Fq4 → Outcome mnt4_Fq4 := mnt4_feData.finalExponentiation mnt4_feData.firstChunk4
/-- `mnt6_final_exponentiation`. -/
noncomputable def mnt6_final_exponentiation : mnt6_Fq6 → Outcome mnt6_Fq6 := mnt6_feData.finalExponentiation mnt6_feData.firstChunk6
/-- `edwards_final_exponentiation`. -/
noncomputable def edwards_final_exponentiation : edwards_Fq6 → Outcome edwards_Fq6 :=
  edwards_feData.finalExponentiation edwards_feData.firstChunk6

/-- `mnt4_miller_loop`. -/
noncomputable def mnt4_miller_loop : MntG1Precomp mnt4_Fq mnt4_Fq2 → MntG2Precomp mnt4_Fq2 → Outcome mnt4_Fq4 := mnt4_ate.millerLoop
/-- `mnt4_double_miller_loop`. -/
noncomputable def mnt4_double_miller_loop : MntG1Precomp mnt4_Fq mnt4_Fq2 → MntG2Precomp mnt4_Fq2 → MntG1Precomp mnt4_Fq mnt4_Fq2 →
    MntG2Precomp mnt4_Fq2 → Outcome mnt4_Fq4 := mnt4_ate.doubleMillerLoop
/-- `mnt4_reduced_pairing`. -/
noncomputable def mnt4_reduced_pairing : Coord3 mnt4_Fq → Coord3 mnt4_Fq2 → Outcome mnt4_Fq4 :=
  mnt4_ate.reducedPairing mnt4_final_exponentiation
/-- `mnt4_affine_reduced_pairing`. -/
noncomputable def mnt4_affine_reduced_pairing : Coord3 mnt4_Fq → Coord3 mnt4_Fq2 → Outcome mnt4_Fq4 :=
  mnt4_ate.affineReducedPairing mnt4_final_exponentiation

/-- `mnt6_miller_loop`. -/
noncomputable def mnt6_miller_loop : MntG1Precomp mnt6_Fq mnt6_Fq3 → MntG2Precomp mnt6_Fq3 → Outcome mnt6_Fq6 := mnt6_ate.millerLoop
/-- `mnt6_double_miller_loop`. -/
noncomputable def mnt6_double_miller_loop : MntG1Precomp mnt6_Fq mnt6_Fq3 → MntG2Precomp mnt6_Fq3 → MntG1Precomp mnt6_Fq mnt6_Fq3 →
    MntG2Precomp mnt6_Fq3 → Outcome mnt6_Fq6 := mnt6_ate.doubleMillerLoop
/-- `mnt6_reduced_pairing`. -/
noncomputable def mnt6_reduced_pairing : Coord3 mnt6_Fq → Coord3 mnt6_Fq3 → Outcome mnt6_Fq6 :=
  mnt6_ate.reducedPairing mnt6_final_exponentiation
/-- `mnt6_affine_reduced_pairing`. -/
noncomputable def mnt6_affine_reduced_pairing : Coord3 mnt6_Fq → Coord3 mnt6_Fq3 → Outcome mnt6_Fq6 :=
  mnt6_ate.affineReducedPairing mnt6_final_exponentiation

/-- `edwards_miller_loop`. -/
noncomputable def edwards_miller_loop : EdwG1Precomp edwards_Fq → List (ConicCoeffs edwards_Fq3) → Outcome edwards_Fq6 :=
  edwards_ate.millerLoop
/-- `edwards_double_miller_loop`. -/
noncomputable def edwards_double_miller_loop : EdwG1Precomp edwards_Fq → List (ConicCoeffs edwards_Fq3) → EdwG1Precomp edwards_Fq →
    List (ConicCoeffs edwards_Fq3) → Outcome edwards_Fq6 := edwards_ate.doubleMillerLoop
/-- `edwards_reduced_pairing`. -/
noncomputable def edwards_reduced_pairing : Coord3 edwards_Fq → Coord3 edwards_Fq3 → Outcome edwards_Fq6 :=
  edwards_ate.reducedPairing edwards_final_exponentiation
/-- `edwards_tate_reduced_pairing`. -/
noncomputable def edwards_tate_reduced_pairing : Coord3 edwards_Fq → Coord3 edwards_Fq3 → Outcome edwards_Fq6 :=
  edwards_ate.tateReducedPairing edwards_final_exponentiation

end Libff
