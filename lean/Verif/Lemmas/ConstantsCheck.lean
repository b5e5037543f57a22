import Verif.Lemmas.Constants

/-! # The check evaluated for the twelve prime fields -/
namespace Libff

theorem alt_bn128_Fr_prime : alt_bn128_Fr_params.p.Prime := by
  have h : alt_bn128_Fr_params.p = 21888242871839275222246405745257275088548364400416034343698204186575808495617 := by decide +kernel
  rw [h]; exact prime_c5

theorem alt_bn128_Fr_consistent : alt_bn128_Fr_data.Consistent :=
  PrimeField.check_sound _ [(2, 28), (3, 2), (13, 1), (29, 1), (983, 1), (11003, 1), (237073, 1), (405928799, 1), (1670836401704629, 1), (13818364434197438864469338081, 1)] alt_bn128_Fr_prime (by decide +kernel)
    (List.forall_mem_cons.2 ⟨prime_2, List.forall_mem_cons.2 ⟨prime_3, List.forall_mem_cons.2 ⟨prime_13, List.forall_mem_cons.2 ⟨prime_29, List.forall_mem_cons.2 ⟨prime_983, List.forall_mem_cons.2 ⟨prime_11003, List.forall_mem_cons.2 ⟨prime_237073, List.forall_mem_cons.2 ⟨prime_405928799, List.forall_mem_cons.2 ⟨prime_c2, List.forall_mem_cons.2 ⟨prime_c4, List.forall_mem_nil _⟩⟩⟩⟩⟩⟩⟩⟩⟩⟩)

theorem alt_bn128_Fq_prime : alt_bn128_Fq_params.p.Prime := by
  have h : alt_bn128_Fq_params.p = 21888242871839275222246405745257275088696311157297823662689037894645226208583 := by decide +kernel
  rw [h]; exact prime_c7

theorem alt_bn128_Fq_consistent : alt_bn128_Fq_data.Consistent :=
  PrimeField.check_sound _ [(2, 1), (3, 2), (13, 1), (29, 1), (67, 1), (229, 1), (311, 1), (983, 1), (11003, 1), (405928799, 1), (11465965001, 1), (13427688667394608761327070753331941386769, 1)] alt_bn128_Fq_prime (by decide +kernel)
    (List.forall_mem_cons.2 ⟨prime_2, List.forall_mem_cons.2 ⟨prime_3, List.forall_mem_cons.2 ⟨prime_13, List.forall_mem_cons.2 ⟨prime_29, List.forall_mem_cons.2 ⟨prime_67, List.forall_mem_cons.2 ⟨prime_229, List.forall_mem_cons.2 ⟨prime_311, List.forall_mem_cons.2 ⟨prime_983, List.forall_mem_cons.2 ⟨prime_11003, List.forall_mem_cons.2 ⟨prime_405928799, List.forall_mem_cons.2 ⟨prime_11465965001, List.forall_mem_cons.2 ⟨prime_c6, List.forall_mem_nil _⟩⟩⟩⟩⟩⟩⟩⟩⟩⟩⟩⟩)

theorem bls12_381_Fr_prime : bls12_381_Fr_params.p.Prime := by
  have h : bls12_381_Fr_params.p = 52435875175126190479447740508185965837690552500527637822603658699938581184513 := by decide +kernel
  rw [h]; exact prime_c8

theorem bls12_381_Fr_consistent : bls12_381_Fr_data.Consistent :=
  PrimeField.check_sound _ [(2, 32), (3, 1), (11, 1), (19, 1), (10177, 1), (125527, 1), (859267, 1), (906349, 2), (2508409, 1), (52437899, 1), (2529403, 1), (254760293, 2)] bls12_381_Fr_prime (by decide +kernel)
    (List.forall_mem_cons.2 ⟨prime_2, List.forall_mem_cons.2 ⟨prime_3, List.forall_mem_cons.2 ⟨prime_11, List.forall_mem_cons.2 ⟨prime_19, List.forall_mem_cons.2 ⟨prime_10177, List.forall_mem_cons.2 ⟨prime_125527, List.forall_mem_cons.2 ⟨prime_859267, List.forall_mem_cons.2 ⟨prime_906349, List.forall_mem_cons.2 ⟨prime_2508409, List.forall_mem_cons.2 ⟨prime_52437899, List.forall_mem_cons.2 ⟨prime_2529403, List.forall_mem_cons.2 ⟨prime_254760293, List.forall_mem_nil _⟩⟩⟩⟩⟩⟩⟩⟩⟩⟩⟩⟩)

theorem bls12_381_Fq_prime : bls12_381_Fq_params.p.Prime := by
  have h : bls12_381_Fq_params.p = 4002409555221667393417789825735904156556882819939007885332058136124031650490837864442687629129015664037894272559787 := by decide +kernel
  rw [h]; exact prime_c16

theorem bls12_381_Fq_consistent : bls12_381_Fq_data.Consistent :=
  PrimeField.check_sound _ [(2, 1), (3, 2), (11, 1), (23, 1), (47, 1), (10177, 1), (859267, 1), (52437899, 1), (2584487767265781317813, 1), (15778400344354997994418419698270088123916926905054652752758194827714659, 1)] bls12_381_Fq_prime (by decide +kernel)
    (List.forall_mem_cons.2 ⟨prime_2, List.forall_mem_cons.2 ⟨prime_3, List.forall_mem_cons.2 ⟨prime_11, List.forall_mem_cons.2 ⟨prime_23, List.forall_mem_cons.2 ⟨prime_47, List.forall_mem_cons.2 ⟨prime_10177, List.forall_mem_cons.2 ⟨prime_859267, List.forall_mem_cons.2 ⟨prime_52437899, List.forall_mem_cons.2 ⟨prime_c12, List.forall_mem_cons.2 ⟨prime_c15, List.forall_mem_nil _⟩⟩⟩⟩⟩⟩⟩⟩⟩⟩)

theorem bn128_Fr_prime : bn128_Fr_params.p.Prime := by
  have h : bn128_Fr_params.p = 21888242871839275222246405745257275088548364400416034343698204186575808495617 := by decide +kernel
  rw [h]; exact prime_c5

theorem bn128_Fr_consistent : bn128_Fr_data.Consistent :=
  PrimeField.check_sound _ [(2, 28), (3, 2), (13, 1), (29, 1), (983, 1), (11003, 1), (237073, 1), (405928799, 1), (1670836401704629, 1), (13818364434197438864469338081, 1)] bn128_Fr_prime (by decide +kernel)
    (List.forall_mem_cons.2 ⟨prime_2, List.forall_mem_cons.2 ⟨prime_3, List.forall_mem_cons.2 ⟨prime_13, List.forall_mem_cons.2 ⟨prime_29, List.forall_mem_cons.2 ⟨prime_983, List.forall_mem_cons.2 ⟨prime_11003, List.forall_mem_cons.2 ⟨prime_237073, List.forall_mem_cons.2 ⟨prime_405928799, List.forall_mem_cons.2 ⟨prime_c2, List.forall_mem_cons.2 ⟨prime_c4, List.forall_mem_nil _⟩⟩⟩⟩⟩⟩⟩⟩⟩⟩)

theorem bn128_Fq_prime : bn128_Fq_params.p.Prime := by
  have h : bn128_Fq_params.p = 21888242871839275222246405745257275088696311157297823662689037894645226208583 := by decide +kernel
  rw [h]; exact prime_c7

theorem bn128_Fq_consistent : bn128_Fq_data.Consistent :=
  PrimeField.check_sound _ [(2, 1), (3, 2), (13, 1), (29, 1), (67, 1), (229, 1), (311, 1), (983, 1), (11003, 1), (405928799, 1), (11465965001, 1), (13427688667394608761327070753331941386769, 1)] bn128_Fq_prime (by decide +kernel)
    (List.forall_mem_cons.2 ⟨prime_2, List.forall_mem_cons.2 ⟨prime_3, List.forall_mem_cons.2 ⟨prime_13, List.forall_mem_cons.2 ⟨prime_29, List.forall_mem_cons.2 ⟨prime_67, List.forall_mem_cons.2 ⟨prime_229, List.forall_mem_cons.2 ⟨prime_311, List.forall_mem_cons.2 ⟨prime_983, List.forall_mem_cons.2 ⟨prime_11003, List.forall_mem_cons.2 ⟨prime_405928799, List.forall_mem_cons.2 ⟨prime_11465965001, List.forall_mem_cons.2 ⟨prime_c6, List.forall_mem_nil _⟩⟩⟩⟩⟩⟩⟩⟩⟩⟩⟩⟩)

theorem mnt4_Fr_prime : mnt4_Fr_params.p.Prime := by
  have h : mnt4_Fr_params.p = 475922286169261325753349249653048451545124878552823515553267735739164647307408490559963137 := by decide +kernel
  rw [h]; exact prime_c20

theorem mnt4_Fr_consistent : mnt4_Fr_data.Consistent :=
  PrimeField.check_sound _ [(2, 34), (3, 2), (7, 4), (43, 2), (832668823862928114206893884097921187, 2)] mnt4_Fr_prime (by decide +kernel)
    (List.forall_mem_cons.2 ⟨prime_2, List.forall_mem_cons.2 ⟨prime_3, List.forall_mem_cons.2 ⟨prime_7, List.forall_mem_cons.2 ⟨prime_43, List.forall_mem_cons.2 ⟨prime_c19, List.forall_mem_nil _⟩⟩⟩⟩⟩)

theorem mnt4_Fq_prime : mnt4_Fq_params.p.Prime := by
  have h : mnt4_Fq_params.p = 475922286169261325753349249653048451545124879242694725395555128576210262817955800483758081 := by decide +kernel
  rw [h]; exact prime_c24

theorem mnt4_Fq_consistent : mnt4_Fq_data.Consistent :=
  PrimeField.check_sound _ [(2, 17), (3, 1), (7, 2), (43, 1), (832668823862928114206893884097921187, 1), (5, 1), (67, 1), (167, 1), (263, 1), (46886843293762334669203941507635473727, 1)] mnt4_Fq_prime (by decide +kernel)
    (List.forall_mem_cons.2 ⟨prime_2, List.forall_mem_cons.2 ⟨prime_3, List.forall_mem_cons.2 ⟨prime_7, List.forall_mem_cons.2 ⟨prime_43, List.forall_mem_cons.2 ⟨prime_c19, List.forall_mem_cons.2 ⟨prime_5, List.forall_mem_cons.2 ⟨prime_67, List.forall_mem_cons.2 ⟨prime_167, List.forall_mem_cons.2 ⟨prime_263, List.forall_mem_cons.2 ⟨prime_c23, List.forall_mem_nil _⟩⟩⟩⟩⟩⟩⟩⟩⟩⟩)

theorem mnt6_Fr_prime : mnt6_Fr_params.p.Prime := by
  have h : mnt6_Fr_params.p = 475922286169261325753349249653048451545124879242694725395555128576210262817955800483758081 := by decide +kernel
  rw [h]; exact prime_c24

theorem mnt6_Fr_consistent : mnt6_Fr_data.Consistent :=
  PrimeField.check_sound _ [(2, 17), (3, 1), (7, 2), (43, 1), (832668823862928114206893884097921187, 1), (5, 1), (67, 1), (167, 1), (263, 1), (46886843293762334669203941507635473727, 1)] mnt6_Fr_prime (by decide +kernel)
    (List.forall_mem_cons.2 ⟨prime_2, List.forall_mem_cons.2 ⟨prime_3, List.forall_mem_cons.2 ⟨prime_7, List.forall_mem_cons.2 ⟨prime_43, List.forall_mem_cons.2 ⟨prime_c19, List.forall_mem_cons.2 ⟨prime_5, List.forall_mem_cons.2 ⟨prime_67, List.forall_mem_cons.2 ⟨prime_167, List.forall_mem_cons.2 ⟨prime_263, List.forall_mem_cons.2 ⟨prime_c23, List.forall_mem_nil _⟩⟩⟩⟩⟩⟩⟩⟩⟩⟩)

theorem mnt6_Fq_prime : mnt6_Fq_params.p.Prime := by
  have h : mnt6_Fq_params.p = 475922286169261325753349249653048451545124878552823515553267735739164647307408490559963137 := by decide +kernel
  rw [h]; exact prime_c20

theorem mnt6_Fq_consistent : mnt6_Fq_data.Consistent :=
  PrimeField.check_sound _ [(2, 34), (3, 2), (7, 4), (43, 2), (832668823862928114206893884097921187, 2)] mnt6_Fq_prime (by decide +kernel)
    (List.forall_mem_cons.2 ⟨prime_2, List.forall_mem_cons.2 ⟨prime_3, List.forall_mem_cons.2 ⟨prime_7, List.forall_mem_cons.2 ⟨prime_43, List.forall_mem_cons.2 ⟨prime_c19, List.forall_mem_nil _⟩⟩⟩⟩⟩)

theorem edwards_Fr_prime : edwards_Fr_params.p.Prime := by
  have h : edwards_Fr_params.p = 1552511030102430251236801561344621993261920897571225601 := by decide +kernel
  rw [h]; exact prime_c26

theorem edwards_Fr_consistent : edwards_Fr_data.Consistent :=
  PrimeField.check_sound _ [(2, 31), (3, 1), (5, 2), (7, 3), (17, 1), (29, 1), (53, 1), (79, 2), (113, 1), (263, 1), (1021, 1), (5679531856541001669394577, 1)] edwards_Fr_prime (by decide +kernel)
    (List.forall_mem_cons.2 ⟨prime_2, List.forall_mem_cons.2 ⟨prime_3, List.forall_mem_cons.2 ⟨prime_5, List.forall_mem_cons.2 ⟨prime_7, List.forall_mem_cons.2 ⟨prime_17, List.forall_mem_cons.2 ⟨prime_29, List.forall_mem_cons.2 ⟨prime_53, List.forall_mem_cons.2 ⟨prime_79, List.forall_mem_cons.2 ⟨prime_113, List.forall_mem_cons.2 ⟨prime_263, List.forall_mem_cons.2 ⟨prime_1021, List.forall_mem_cons.2 ⟨prime_c25, List.forall_mem_nil _⟩⟩⟩⟩⟩⟩⟩⟩⟩⟩⟩⟩)

theorem edwards_Fq_prime : edwards_Fq_params.p.Prime := by
  have h : edwards_Fq_params.p = 6210044120409721004947206240885978274523751269793792001 := by decide +kernel
  rw [h]; exact prime_c28

theorem edwards_Fq_consistent : edwards_Fq_data.Consistent :=
  PrimeField.check_sound _ [(2, 31), (3, 2), (5, 3), (7, 2), (17, 1), (29, 1), (53, 1), (79, 2), (263, 1), (1021, 1), (711890597413, 1), (1682846480381357, 1)] edwards_Fq_prime (by decide +kernel)
    (List.forall_mem_cons.2 ⟨prime_2, List.forall_mem_cons.2 ⟨prime_3, List.forall_mem_cons.2 ⟨prime_5, List.forall_mem_cons.2 ⟨prime_7, List.forall_mem_cons.2 ⟨prime_17, List.forall_mem_cons.2 ⟨prime_29, List.forall_mem_cons.2 ⟨prime_53, List.forall_mem_cons.2 ⟨prime_79, List.forall_mem_cons.2 ⟨prime_263, List.forall_mem_cons.2 ⟨prime_1021, List.forall_mem_cons.2 ⟨prime_711890597413, List.forall_mem_cons.2 ⟨prime_c27, List.forall_mem_nil _⟩⟩⟩⟩⟩⟩⟩⟩⟩⟩⟩⟩)

end Libff
