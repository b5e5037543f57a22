import Verif.Lemmas.Primality

/-!
# Prime numbers

Pocklington certificates for the moduli of all supported curves and for the primes they rest on.  Every
certificate is evaluated by the kernel.
-/
namespace Libff

theorem prime_2 : Nat.Prime 2 := by norm_num
theorem prime_3 : Nat.Prime 3 := by norm_num
theorem prime_13 : Nat.Prime 13 := by norm_num
theorem prime_29 : Nat.Prime 29 := by norm_num
theorem prime_983 : Nat.Prime 983 := by norm_num
theorem prime_11003 : Nat.Prime 11003 := by norm_num
theorem prime_11 : Nat.Prime 11 := by norm_num
theorem prime_237073 : Nat.Prime 237073 :=
  pockOk_prime _ 18 [(2, 4, 5), (3, 1, 3), (11, 1, 2)] (by decide +kernel)
    (List.forall_mem_cons.2 ⟨prime_2, List.forall_mem_cons.2 ⟨prime_3, List.forall_mem_cons.2 ⟨prime_11, List.forall_mem_nil _⟩⟩⟩)
theorem prime_3691 : Nat.Prime 3691 := by norm_num
theorem prime_405928799 : Nat.Prime 405928799 :=
  pockOk_prime _ 29 [(11, 1, 2), (3691, 1, 2)] (by decide +kernel)
    (List.forall_mem_cons.2 ⟨prime_11, List.forall_mem_cons.2 ⟨prime_3691, List.forall_mem_nil _⟩⟩)
theorem prime_7 : Nat.Prime 7 := by norm_num
theorem prime_661 : Nat.Prime 661 := by norm_num
theorem prime_12048837557 : Nat.Prime 12048837557 :=
  pockOk_prime _ 34 [(2, 2, 2), (7, 2, 2), (661, 1, 2)] (by decide +kernel)
    (List.forall_mem_cons.2 ⟨prime_2, List.forall_mem_cons.2 ⟨prime_7, List.forall_mem_cons.2 ⟨prime_661, List.forall_mem_nil _⟩⟩⟩)
theorem prime_c1 : Nat.Prime 5156902474397 :=
  pockOk_prime _ 43 [(12048837557, 1, 2)] (by decide +kernel)
    (List.forall_mem_cons.2 ⟨prime_12048837557, List.forall_mem_nil _⟩)
theorem prime_c2 : Nat.Prime 1670836401704629 :=
  pockOk_prime _ 51 [(5156902474397, 1, 2)] (by decide +kernel)
    (List.forall_mem_cons.2 ⟨prime_c1, List.forall_mem_nil _⟩)
theorem prime_229 : Nat.Prime 229 := by norm_num
theorem prime_853 : Nat.Prime 853 := by norm_num
theorem prime_639533339 : Nat.Prime 639533339 :=
  pockOk_prime _ 30 [(229, 1, 2), (853, 1, 2)] (by decide +kernel)
    (List.forall_mem_cons.2 ⟨prime_229, List.forall_mem_cons.2 ⟨prime_853, List.forall_mem_nil _⟩⟩)
theorem prime_c3 : Nat.Prime 65865678001877903 :=
  pockOk_prime _ 56 [(639533339, 1, 2)] (by decide +kernel)
    (List.forall_mem_cons.2 ⟨prime_639533339, List.forall_mem_nil _⟩)
theorem prime_c4 : Nat.Prime 13818364434197438864469338081 :=
  pockOk_prime _ 94 [(65865678001877903, 1, 2)] (by decide +kernel)
    (List.forall_mem_cons.2 ⟨prime_c3, List.forall_mem_nil _⟩)
theorem prime_c5 : Nat.Prime 21888242871839275222246405745257275088548364400416034343698204186575808495617 :=
  pockOk_prime _ 254 [(2, 28, 5), (3, 2, 3), (13, 1, 5), (29, 1, 2), (983, 1, 2), (11003, 1, 2), (237073, 1, 2), (405928799, 1, 2), (1670836401704629, 1, 2), (13818364434197438864469338081, 1, 2)] (by decide +kernel)
    (List.forall_mem_cons.2 ⟨prime_2, List.forall_mem_cons.2 ⟨prime_3, List.forall_mem_cons.2 ⟨prime_13, List.forall_mem_cons.2 ⟨prime_29, List.forall_mem_cons.2 ⟨prime_983, List.forall_mem_cons.2 ⟨prime_11003, List.forall_mem_cons.2 ⟨prime_237073, List.forall_mem_cons.2 ⟨prime_405928799, List.forall_mem_cons.2 ⟨prime_c2, List.forall_mem_cons.2 ⟨prime_c4, List.forall_mem_nil _⟩⟩⟩⟩⟩⟩⟩⟩⟩⟩)
theorem prime_67 : Nat.Prime 67 := by norm_num
theorem prime_311 : Nat.Prime 311 := by norm_num
theorem prime_19 : Nat.Prime 19 := by norm_num
theorem prime_37 : Nat.Prime 37 := by norm_num
theorem prime_327599 : Nat.Prime 327599 :=
  pockOk_prime _ 19 [(19, 1, 2), (37, 1, 2)] (by decide +kernel)
    (List.forall_mem_cons.2 ⟨prime_19, List.forall_mem_cons.2 ⟨prime_37, List.forall_mem_nil _⟩⟩)
theorem prime_11465965001 : Nat.Prime 11465965001 :=
  pockOk_prime _ 34 [(327599, 1, 2)] (by decide +kernel)
    (List.forall_mem_cons.2 ⟨prime_327599, List.forall_mem_nil _⟩)
theorem prime_1853641 : Nat.Prime 1853641 :=
  pockOk_prime _ 21 [(2, 3, 7), (3, 2, 2), (19, 1, 2)] (by decide +kernel)
    (List.forall_mem_cons.2 ⟨prime_2, List.forall_mem_cons.2 ⟨prime_3, List.forall_mem_cons.2 ⟨prime_19, List.forall_mem_nil _⟩⟩⟩)
theorem prime_17 : Nat.Prime 17 := by norm_num
theorem prime_109 : Nat.Prime 109 := by norm_num
theorem prime_4562087 : Nat.Prime 4562087 :=
  pockOk_prime _ 23 [(2, 1, 5), (17, 1, 2), (109, 1, 2)] (by decide +kernel)
    (List.forall_mem_cons.2 ⟨prime_2, List.forall_mem_cons.2 ⟨prime_17, List.forall_mem_cons.2 ⟨prime_109, List.forall_mem_nil _⟩⟩⟩)
theorem prime_13327 : Nat.Prime 13327 := by norm_num
theorem prime_173171039 : Nat.Prime 173171039 :=
  pockOk_prime _ 28 [(13327, 1, 2)] (by decide +kernel)
    (List.forall_mem_cons.2 ⟨prime_13327, List.forall_mem_nil _⟩)
theorem prime_c6 : Nat.Prime 13427688667394608761327070753331941386769 :=
  pockOk_prime _ 134 [(1853641, 1, 2), (4562087, 1, 2), (173171039, 1, 2)] (by decide +kernel)
    (List.forall_mem_cons.2 ⟨prime_1853641, List.forall_mem_cons.2 ⟨prime_4562087, List.forall_mem_cons.2 ⟨prime_173171039, List.forall_mem_nil _⟩⟩⟩)
theorem prime_c7 : Nat.Prime 21888242871839275222246405745257275088696311157297823662689037894645226208583 :=
  pockOk_prime _ 254 [(2, 1, 3), (3, 2, 3), (13, 1, 2), (29, 1, 2), (67, 1, 2), (229, 1, 2), (311, 1, 2), (983, 1, 2), (11003, 1, 2), (405928799, 1, 2), (11465965001, 1, 2), (13427688667394608761327070753331941386769, 1, 2)] (by decide +kernel)
    (List.forall_mem_cons.2 ⟨prime_2, List.forall_mem_cons.2 ⟨prime_3, List.forall_mem_cons.2 ⟨prime_13, List.forall_mem_cons.2 ⟨prime_29, List.forall_mem_cons.2 ⟨prime_67, List.forall_mem_cons.2 ⟨prime_229, List.forall_mem_cons.2 ⟨prime_311, List.forall_mem_cons.2 ⟨prime_983, List.forall_mem_cons.2 ⟨prime_11003, List.forall_mem_cons.2 ⟨prime_405928799, List.forall_mem_cons.2 ⟨prime_11465965001, List.forall_mem_cons.2 ⟨prime_c6, List.forall_mem_nil _⟩⟩⟩⟩⟩⟩⟩⟩⟩⟩⟩⟩)
theorem prime_10177 : Nat.Prime 10177 := by norm_num
theorem prime_20921 : Nat.Prime 20921 := by norm_num
theorem prime_125527 : Nat.Prime 125527 :=
  pockOk_prime _ 17 [(20921, 1, 2)] (by decide +kernel)
    (List.forall_mem_cons.2 ⟨prime_20921, List.forall_mem_nil _⟩)
theorem prime_47737 : Nat.Prime 47737 := by norm_num
theorem prime_859267 : Nat.Prime 859267 :=
  pockOk_prime _ 20 [(47737, 1, 2)] (by decide +kernel)
    (List.forall_mem_cons.2 ⟨prime_47737, List.forall_mem_nil _⟩)
theorem prime_1607 : Nat.Prime 1607 := by norm_num
theorem prime_906349 : Nat.Prime 906349 :=
  pockOk_prime _ 20 [(1607, 1, 2)] (by decide +kernel)
    (List.forall_mem_cons.2 ⟨prime_1607, List.forall_mem_nil _⟩)
theorem prime_2508409 : Nat.Prime 2508409 :=
  pockOk_prime _ 22 [(3, 4, 2), (7, 2, 2)] (by decide +kernel)
    (List.forall_mem_cons.2 ⟨prime_3, List.forall_mem_cons.2 ⟨prime_7, List.forall_mem_nil _⟩⟩)
theorem prime_18329 : Nat.Prime 18329 := by norm_num
theorem prime_2529403 : Nat.Prime 2529403 :=
  pockOk_prime _ 22 [(18329, 1, 2)] (by decide +kernel)
    (List.forall_mem_cons.2 ⟨prime_18329, List.forall_mem_nil _⟩)
theorem prime_97 : Nat.Prime 97 := by norm_num
theorem prime_609743 : Nat.Prime 609743 :=
  pockOk_prime _ 20 [(2, 1, 5), (7, 1, 2), (97, 1, 2)] (by decide +kernel)
    (List.forall_mem_cons.2 ⟨prime_2, List.forall_mem_cons.2 ⟨prime_7, List.forall_mem_cons.2 ⟨prime_97, List.forall_mem_nil _⟩⟩⟩)
theorem prime_52437899 : Nat.Prime 52437899 :=
  pockOk_prime _ 26 [(609743, 1, 2)] (by decide +kernel)
    (List.forall_mem_cons.2 ⟨prime_609743, List.forall_mem_nil _⟩)
theorem prime_359 : Nat.Prime 359 := by norm_num
theorem prime_110573 : Nat.Prime 110573 :=
  pockOk_prime _ 17 [(359, 1, 2)] (by decide +kernel)
    (List.forall_mem_cons.2 ⟨prime_359, List.forall_mem_nil _⟩)
theorem prime_2653753 : Nat.Prime 2653753 :=
  pockOk_prime _ 22 [(110573, 1, 2)] (by decide +kernel)
    (List.forall_mem_cons.2 ⟨prime_110573, List.forall_mem_nil _⟩)
theorem prime_63690073 : Nat.Prime 63690073 :=
  pockOk_prime _ 26 [(2653753, 1, 2)] (by decide +kernel)
    (List.forall_mem_cons.2 ⟨prime_2653753, List.forall_mem_nil _⟩)
theorem prime_254760293 : Nat.Prime 254760293 :=
  pockOk_prime _ 28 [(63690073, 1, 2)] (by decide +kernel)
    (List.forall_mem_cons.2 ⟨prime_63690073, List.forall_mem_nil _⟩)
theorem prime_c8 : Nat.Prime 52435875175126190479447740508185965837690552500527637822603658699938581184513 :=
  pockOk_prime _ 255 [(2, 32, 5), (3, 1, 2), (11, 1, 2), (19, 1, 2), (10177, 1, 2), (125527, 1, 2), (859267, 1, 2), (906349, 2, 2), (2508409, 1, 2), (2529403, 1, 2), (52437899, 1, 2), (254760293, 2, 2)] (by decide +kernel)
    (List.forall_mem_cons.2 ⟨prime_2, List.forall_mem_cons.2 ⟨prime_3, List.forall_mem_cons.2 ⟨prime_11, List.forall_mem_cons.2 ⟨prime_19, List.forall_mem_cons.2 ⟨prime_10177, List.forall_mem_cons.2 ⟨prime_125527, List.forall_mem_cons.2 ⟨prime_859267, List.forall_mem_cons.2 ⟨prime_906349, List.forall_mem_cons.2 ⟨prime_2508409, List.forall_mem_cons.2 ⟨prime_2529403, List.forall_mem_cons.2 ⟨prime_52437899, List.forall_mem_cons.2 ⟨prime_254760293, List.forall_mem_nil _⟩⟩⟩⟩⟩⟩⟩⟩⟩⟩⟩⟩)
theorem prime_23 : Nat.Prime 23 := by norm_num
theorem prime_47 : Nat.Prime 47 := by norm_num
theorem prime_5 : Nat.Prime 5 := by norm_num
theorem prime_7577 : Nat.Prime 7577 := by norm_num
theorem prime_c9 : Nat.Prime 9272813673901 :=
  pockOk_prime _ 44 [(3, 1, 2), (5, 2, 2), (7, 1, 2), (7577, 1, 2)] (by decide +kernel)
    (List.forall_mem_cons.2 ⟨prime_3, List.forall_mem_cons.2 ⟨prime_5, List.forall_mem_cons.2 ⟨prime_7, List.forall_mem_cons.2 ⟨prime_7577, List.forall_mem_nil _⟩⟩⟩⟩)
theorem prime_c10 : Nat.Prime 1928745244171409 :=
  pockOk_prime _ 51 [(9272813673901, 1, 2)] (by decide +kernel)
    (List.forall_mem_cons.2 ⟨prime_c9, List.forall_mem_nil _⟩)
theorem prime_c11 : Nat.Prime 7259797099061183477 :=
  pockOk_prime _ 63 [(1928745244171409, 1, 2)] (by decide +kernel)
    (List.forall_mem_cons.2 ⟨prime_c10, List.forall_mem_nil _⟩)
theorem prime_c12 : Nat.Prime 2584487767265781317813 :=
  pockOk_prime _ 72 [(7259797099061183477, 1, 2)] (by decide +kernel)
    (List.forall_mem_cons.2 ⟨prime_c11, List.forall_mem_nil _⟩)
theorem prime_113 : Nat.Prime 113 := by norm_num
theorem prime_1151 : Nat.Prime 1151 := by norm_num
theorem prime_755057 : Nat.Prime 755057 :=
  pockOk_prime _ 20 [(1151, 1, 2)] (by decide +kernel)
    (List.forall_mem_cons.2 ⟨prime_1151, List.forall_mem_nil _⟩)
theorem prime_c13 : Nat.Prime 3819663927398918131021 :=
  pockOk_prime _ 72 [(3, 2, 3), (5, 1, 3), (19, 1, 2), (113, 1, 2), (755057, 1, 2)] (by decide +kernel)
    (List.forall_mem_cons.2 ⟨prime_3, List.forall_mem_cons.2 ⟨prime_5, List.forall_mem_cons.2 ⟨prime_19, List.forall_mem_cons.2 ⟨prime_113, List.forall_mem_cons.2 ⟨prime_755057, List.forall_mem_nil _⟩⟩⟩⟩⟩)
theorem prime_c14 : Nat.Prime 1125266252156850182658904441386709967 :=
  pockOk_prime _ 120 [(3819663927398918131021, 1, 2)] (by decide +kernel)
    (List.forall_mem_cons.2 ⟨prime_c13, List.forall_mem_nil _⟩)
theorem prime_c15 : Nat.Prime 15778400344354997994418419698270088123916926905054652752758194827714659 :=
  pockOk_prime _ 234 [(1125266252156850182658904441386709967, 1, 2)] (by decide +kernel)
    (List.forall_mem_cons.2 ⟨prime_c14, List.forall_mem_nil _⟩)
theorem prime_c16 : Nat.Prime 4002409555221667393417789825735904156556882819939007885332058136124031650490837864442687629129015664037894272559787 :=
  pockOk_prime _ 381 [(2, 1, 2), (3, 2, 2), (11, 1, 2), (23, 1, 2), (47, 1, 2), (10177, 1, 2), (859267, 1, 2), (52437899, 1, 2), (2584487767265781317813, 1, 2), (15778400344354997994418419698270088123916926905054652752758194827714659, 1, 2)] (by decide +kernel)
    (List.forall_mem_cons.2 ⟨prime_2, List.forall_mem_cons.2 ⟨prime_3, List.forall_mem_cons.2 ⟨prime_11, List.forall_mem_cons.2 ⟨prime_23, List.forall_mem_cons.2 ⟨prime_47, List.forall_mem_cons.2 ⟨prime_10177, List.forall_mem_cons.2 ⟨prime_859267, List.forall_mem_cons.2 ⟨prime_52437899, List.forall_mem_cons.2 ⟨prime_c12, List.forall_mem_cons.2 ⟨prime_c15, List.forall_mem_nil _⟩⟩⟩⟩⟩⟩⟩⟩⟩⟩)
theorem prime_43 : Nat.Prime 43 := by norm_num
theorem prime_22013 : Nat.Prime 22013 := by norm_num
theorem prime_46755613 : Nat.Prime 46755613 :=
  pockOk_prime _ 26 [(22013, 1, 2)] (by decide +kernel)
    (List.forall_mem_cons.2 ⟨prime_22013, List.forall_mem_nil _⟩)
theorem prime_30204125999 : Nat.Prime 30204125999 :=
  pockOk_prime _ 35 [(46755613, 1, 2)] (by decide +kernel)
    (List.forall_mem_cons.2 ⟨prime_46755613, List.forall_mem_nil _⟩)
theorem prime_c17 : Nat.Prime 215503530768389060287 :=
  pockOk_prime _ 68 [(30204125999, 1, 2)] (by decide +kernel)
    (List.forall_mem_cons.2 ⟨prime_30204125999, List.forall_mem_nil _⟩)
theorem prime_c18 : Nat.Prime 688987631240801274977929423 :=
  pockOk_prime _ 90 [(215503530768389060287, 1, 2)] (by decide +kernel)
    (List.forall_mem_cons.2 ⟨prime_c17, List.forall_mem_nil _⟩)
theorem prime_c19 : Nat.Prime 832668823862928114206893884097921187 :=
  pockOk_prime _ 120 [(688987631240801274977929423, 1, 2)] (by decide +kernel)
    (List.forall_mem_cons.2 ⟨prime_c18, List.forall_mem_nil _⟩)
theorem prime_c20 : Nat.Prime 475922286169261325753349249653048451545124878552823515553267735739164647307408490559963137 :=
  pockOk_prime _ 298 [(2, 34, 5), (3, 2, 3), (7, 4, 2), (43, 2, 2), (832668823862928114206893884097921187, 2, 2)] (by decide +kernel)
    (List.forall_mem_cons.2 ⟨prime_2, List.forall_mem_cons.2 ⟨prime_3, List.forall_mem_cons.2 ⟨prime_7, List.forall_mem_cons.2 ⟨prime_43, List.forall_mem_cons.2 ⟨prime_c19, List.forall_mem_nil _⟩⟩⟩⟩⟩)
theorem prime_167 : Nat.Prime 167 := by norm_num
theorem prime_263 : Nat.Prime 263 := by norm_num
theorem prime_1022209 : Nat.Prime 1022209 :=
  pockOk_prime _ 20 [(11, 3, 2)] (by decide +kernel)
    (List.forall_mem_cons.2 ⟨prime_11, List.forall_mem_nil _⟩)
theorem prime_42932779 : Nat.Prime 42932779 :=
  pockOk_prime _ 26 [(1022209, 1, 2)] (by decide +kernel)
    (List.forall_mem_cons.2 ⟨prime_1022209, List.forall_mem_nil _⟩)
theorem prime_c21 : Nat.Prime 3365725416887341693 :=
  pockOk_prime _ 62 [(2, 2, 2), (3, 3, 3), (42932779, 1, 2)] (by decide +kernel)
    (List.forall_mem_cons.2 ⟨prime_2, List.forall_mem_cons.2 ⟨prime_3, List.forall_mem_cons.2 ⟨prime_42932779, List.forall_mem_nil _⟩⟩⟩)
theorem prime_c22 : Nat.Prime 211749493256267713227913350318551 :=
  pockOk_prime _ 108 [(3365725416887341693, 1, 2)] (by decide +kernel)
    (List.forall_mem_cons.2 ⟨prime_c21, List.forall_mem_nil _⟩)
theorem prime_c23 : Nat.Prime 46886843293762334669203941507635473727 :=
  pockOk_prime _ 126 [(211749493256267713227913350318551, 1, 2)] (by decide +kernel)
    (List.forall_mem_cons.2 ⟨prime_c22, List.forall_mem_nil _⟩)
theorem prime_c24 : Nat.Prime 475922286169261325753349249653048451545124879242694725395555128576210262817955800483758081 :=
  pockOk_prime _ 298 [(2, 17, 17), (3, 1, 3), (5, 1, 2), (7, 2, 2), (43, 1, 2), (67, 1, 2), (167, 1, 2), (263, 1, 2), (832668823862928114206893884097921187, 1, 2), (46886843293762334669203941507635473727, 1, 2)] (by decide +kernel)
    (List.forall_mem_cons.2 ⟨prime_2, List.forall_mem_cons.2 ⟨prime_3, List.forall_mem_cons.2 ⟨prime_5, List.forall_mem_cons.2 ⟨prime_7, List.forall_mem_cons.2 ⟨prime_43, List.forall_mem_cons.2 ⟨prime_67, List.forall_mem_cons.2 ⟨prime_167, List.forall_mem_cons.2 ⟨prime_263, List.forall_mem_cons.2 ⟨prime_c19, List.forall_mem_cons.2 ⟨prime_c23, List.forall_mem_nil _⟩⟩⟩⟩⟩⟩⟩⟩⟩⟩)
theorem prime_53 : Nat.Prime 53 := by norm_num
theorem prime_79 : Nat.Prime 79 := by norm_num
theorem prime_1021 : Nat.Prime 1021 := by norm_num
theorem prime_131 : Nat.Prime 131 := by norm_num
theorem prime_4789 : Nat.Prime 4789 := by norm_num
theorem prime_478901 : Nat.Prime 478901 :=
  pockOk_prime _ 19 [(4789, 1, 2)] (by decide +kernel)
    (List.forall_mem_cons.2 ⟨prime_4789, List.forall_mem_nil _⟩)
theorem prime_21481 : Nat.Prime 21481 := by norm_num
theorem prime_3866581 : Nat.Prime 3866581 :=
  pockOk_prime _ 22 [(21481, 1, 2)] (by decide +kernel)
    (List.forall_mem_cons.2 ⟨prime_21481, List.forall_mem_nil _⟩)
theorem prime_c25 : Nat.Prime 5679531856541001669394577 :=
  pockOk_prime _ 83 [(131, 1, 2), (478901, 1, 2), (3866581, 1, 2)] (by decide +kernel)
    (List.forall_mem_cons.2 ⟨prime_131, List.forall_mem_cons.2 ⟨prime_478901, List.forall_mem_cons.2 ⟨prime_3866581, List.forall_mem_nil _⟩⟩⟩)
theorem prime_c26 : Nat.Prime 1552511030102430251236801561344621993261920897571225601 :=
  pockOk_prime _ 181 [(2, 31, 11), (3, 1, 3), (5, 2, 2), (7, 3, 2), (17, 1, 2), (29, 1, 2), (53, 1, 2), (79, 2, 2), (113, 1, 2), (263, 1, 2), (1021, 1, 2), (5679531856541001669394577, 1, 2)] (by decide +kernel)
    (List.forall_mem_cons.2 ⟨prime_2, List.forall_mem_cons.2 ⟨prime_3, List.forall_mem_cons.2 ⟨prime_5, List.forall_mem_cons.2 ⟨prime_7, List.forall_mem_cons.2 ⟨prime_17, List.forall_mem_cons.2 ⟨prime_29, List.forall_mem_cons.2 ⟨prime_53, List.forall_mem_cons.2 ⟨prime_79, List.forall_mem_cons.2 ⟨prime_113, List.forall_mem_cons.2 ⟨prime_263, List.forall_mem_cons.2 ⟨prime_1021, List.forall_mem_cons.2 ⟨prime_c25, List.forall_mem_nil _⟩⟩⟩⟩⟩⟩⟩⟩⟩⟩⟩⟩)
theorem prime_281 : Nat.Prime 281 := by norm_num
theorem prime_19774738817 : Nat.Prime 19774738817 :=
  pockOk_prime _ 35 [(2, 7, 3), (7, 1, 2), (281, 1, 2)] (by decide +kernel)
    (List.forall_mem_cons.2 ⟨prime_2, List.forall_mem_cons.2 ⟨prime_7, List.forall_mem_cons.2 ⟨prime_281, List.forall_mem_nil _⟩⟩⟩)
theorem prime_711890597413 : Nat.Prime 711890597413 :=
  pockOk_prime _ 40 [(19774738817, 1, 2)] (by decide +kernel)
    (List.forall_mem_cons.2 ⟨prime_19774738817, List.forall_mem_nil _⟩)
theorem prime_6571 : Nat.Prime 6571 := by norm_num
theorem prime_105137 : Nat.Prime 105137 :=
  pockOk_prime _ 17 [(6571, 1, 2)] (by decide +kernel)
    (List.forall_mem_cons.2 ⟨prime_6571, List.forall_mem_nil _⟩)
theorem prime_39321239 : Nat.Prime 39321239 :=
  pockOk_prime _ 26 [(105137, 1, 2)] (by decide +kernel)
    (List.forall_mem_cons.2 ⟨prime_105137, List.forall_mem_nil _⟩)
theorem prime_1730134517 : Nat.Prime 1730134517 :=
  pockOk_prime _ 31 [(39321239, 1, 2)] (by decide +kernel)
    (List.forall_mem_cons.2 ⟨prime_39321239, List.forall_mem_nil _⟩)
theorem prime_c27 : Nat.Prime 1682846480381357 :=
  pockOk_prime _ 51 [(1730134517, 1, 2)] (by decide +kernel)
    (List.forall_mem_cons.2 ⟨prime_1730134517, List.forall_mem_nil _⟩)
theorem prime_c28 : Nat.Prime 6210044120409721004947206240885978274523751269793792001 :=
  pockOk_prime _ 183 [(2, 31, 23), (3, 2, 3), (5, 3, 2), (7, 2, 2), (17, 1, 2), (29, 1, 2), (53, 1, 2), (79, 2, 2), (263, 1, 2), (1021, 1, 2), (711890597413, 1, 2), (1682846480381357, 1, 2)] (by decide +kernel)
    (List.forall_mem_cons.2 ⟨prime_2, List.forall_mem_cons.2 ⟨prime_3, List.forall_mem_cons.2 ⟨prime_5, List.forall_mem_cons.2 ⟨prime_7, List.forall_mem_cons.2 ⟨prime_17, List.forall_mem_cons.2 ⟨prime_29, List.forall_mem_cons.2 ⟨prime_53, List.forall_mem_cons.2 ⟨prime_79, List.forall_mem_cons.2 ⟨prime_263, List.forall_mem_cons.2 ⟨prime_1021, List.forall_mem_cons.2 ⟨prime_711890597413, List.forall_mem_cons.2 ⟨prime_c27, List.forall_mem_nil _⟩⟩⟩⟩⟩⟩⟩⟩⟩⟩⟩⟩)

end Libff
