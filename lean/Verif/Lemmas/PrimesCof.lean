import Verif.Lemmas.Primes

/-!
# The prime factors of the cofactors

Pocklington certificates for the primes dividing the cofactors of the supported curves.
-/
namespace Libff

theorem prime_10069 : Nat.Prime 10069 := by norm_num
theorem prime_181 : Nat.Prime 181 := by norm_num
theorem prime_5864401 : Nat.Prime 5864401 :=
  pockOk_prime _ 23 [(181, 1, 2), (5, 2, 2)] (by decide +kernel)
    (List.forall_mem_cons.2 ⟨prime_181, List.forall_mem_cons.2 ⟨prime_5, List.forall_mem_nil _⟩⟩)
theorem prime_1511 : Nat.Prime 1511 := by norm_num
theorem prime_601379 : Nat.Prime 601379 :=
  pockOk_prime _ 20 [(1511, 1, 2)] (by decide +kernel)
    (List.forall_mem_cons.2 ⟨prime_1511, List.forall_mem_nil _⟩)
theorem prime_17367825521 : Nat.Prime 17367825521 :=
  pockOk_prime _ 35 [(601379, 1, 2)] (by decide +kernel)
    (List.forall_mem_cons.2 ⟨prime_601379, List.forall_mem_nil _⟩)
theorem prime_1875725156269 : Nat.Prime 1875725156269 :=
  pockOk_prime _ 41 [(17367825521, 1, 2)] (by decide +kernel)
    (List.forall_mem_cons.2 ⟨prime_17367825521, List.forall_mem_nil _⟩)
theorem prime_3359 : Nat.Prime 3359 := by norm_num
theorem prime_268721 : Nat.Prime 268721 :=
  pockOk_prime _ 19 [(3359, 1, 2)] (by decide +kernel)
    (List.forall_mem_cons.2 ⟨prime_3359, List.forall_mem_nil _⟩)
theorem prime_1612327 : Nat.Prime 1612327 :=
  pockOk_prime _ 21 [(268721, 1, 2)] (by decide +kernel)
    (List.forall_mem_cons.2 ⟨prime_268721, List.forall_mem_nil _⟩)
theorem prime_cof1 : Nat.Prime 677736056450657 :=
  pockOk_prime _ 50 [(1612327, 1, 2), (983, 1, 2)] (by decide +kernel)
    (List.forall_mem_cons.2 ⟨prime_1612327, List.forall_mem_cons.2 ⟨prime_983, List.forall_mem_nil _⟩⟩)
theorem prime_cof2 : Nat.Prime 209661715479349446893 :=
  pockOk_prime _ 68 [(677736056450657, 1, 2)] (by decide +kernel)
    (List.forall_mem_cons.2 ⟨prime_cof1, List.forall_mem_nil _⟩)
theorem prime_cof3 : Nat.Prime 3458579658547348475946929 :=
  pockOk_prime _ 82 [(209661715479349446893, 1, 2)] (by decide +kernel)
    (List.forall_mem_cons.2 ⟨prime_cof2, List.forall_mem_nil _⟩)
theorem prime_cof4 : Nat.Prime 213235097339095295568608163219551 :=
  pockOk_prime _ 108 [(3458579658547348475946929, 1, 2)] (by decide +kernel)
    (List.forall_mem_cons.2 ⟨prime_cof3, List.forall_mem_nil _⟩)
theorem prime_cof5 : Nat.Prime 197620364512881247228717050342013327560683201906968909 :=
  pockOk_prime _ 178 [(213235097339095295568608163219551, 1, 2)] (by decide +kernel)
    (List.forall_mem_cons.2 ⟨prime_cof4, List.forall_mem_nil _⟩)
theorem prime_2713 : Nat.Prime 2713 := by norm_num
theorem prime_11953 : Nat.Prime 11953 := by norm_num
theorem prime_21839 : Nat.Prime 21839 := by norm_num
theorem prime_262069 : Nat.Prime 262069 :=
  pockOk_prime _ 18 [(21839, 1, 2)] (by decide +kernel)
    (List.forall_mem_cons.2 ⟨prime_21839, List.forall_mem_nil _⟩)
theorem prime_587 : Nat.Prime 587 := by norm_num
theorem prime_233 : Nat.Prime 233 := by norm_num
theorem prime_1367711 : Nat.Prime 1367711 :=
  pockOk_prime _ 21 [(587, 1, 2), (233, 1, 2)] (by decide +kernel)
    (List.forall_mem_cons.2 ⟨prime_587, List.forall_mem_cons.2 ⟨prime_233, List.forall_mem_nil _⟩⟩)
theorem prime_541 : Nat.Prime 541 := by norm_num
theorem prime_cof6 : Nat.Prime 12192593745179 :=
  pockOk_prime _ 44 [(1367711, 1, 2), (541, 1, 2)] (by decide +kernel)
    (List.forall_mem_cons.2 ⟨prime_1367711, List.forall_mem_cons.2 ⟨prime_541, List.forall_mem_nil _⟩⟩)
theorem prime_cof7 : Nat.Prime 512088937297519 :=
  pockOk_prime _ 49 [(12192593745179, 1, 2)] (by decide +kernel)
    (List.forall_mem_cons.2 ⟨prime_cof6, List.forall_mem_nil _⟩)
theorem prime_cof8 : Nat.Prime 1857858664515398933 :=
  pockOk_prime _ 61 [(512088937297519, 1, 2)] (by decide +kernel)
    (List.forall_mem_cons.2 ⟨prime_cof7, List.forall_mem_nil _⟩)
theorem prime_cof9 : Nat.Prime 22294303974184787197 :=
  pockOk_prime _ 65 [(1857858664515398933, 1, 2)] (by decide +kernel)
    (List.forall_mem_cons.2 ⟨prime_cof8, List.forall_mem_nil _⟩)
theorem prime_cof10 : Nat.Prime 19931107752921199754119 :=
  pockOk_prime _ 75 [(22294303974184787197, 1, 2)] (by decide +kernel)
    (List.forall_mem_cons.2 ⟨prime_cof9, List.forall_mem_nil _⟩)
theorem prime_cof11 : Nat.Prime 81162125843606155545104998607900118769099783 :=
  pockOk_prime _ 146 [(19931107752921199754119, 1, 2)] (by decide +kernel)
    (List.forall_mem_cons.2 ⟨prime_cof10, List.forall_mem_nil _⟩)
theorem prime_cof12 : Nat.Prime 26935696298915610574513298451669528361624243820491956655650666425177 :=
  pockOk_prime _ 224 [(81162125843606155545104998607900118769099783, 1, 2)] (by decide +kernel)
    (List.forall_mem_cons.2 ⟨prime_cof11, List.forall_mem_nil _⟩)
theorem prime_cof13 : Nat.Prime 4638704574076146691498289350639807119782054683906549022985642612861209609656189848749536921852444848596916990932297 :=
  pockOk_prime _ 381 [(26935696298915610574513298451669528361624243820491956655650666425177, 1, 2)] (by decide +kernel)
    (List.forall_mem_cons.2 ⟨prime_cof12, List.forall_mem_nil _⟩)
theorem prime_cof14 : Nat.Prime 402096035359507321594726366720466575392706800671181159425656785868777272553337714697862511267018014931937703598282857976535744623203249 :=
  pockOk_prime _ 448 [(4638704574076146691498289350639807119782054683906549022985642612861209609656189848749536921852444848596916990932297, 1, 2)] (by decide +kernel)
    (List.forall_mem_cons.2 ⟨prime_cof13, List.forall_mem_nil _⟩)
theorem prime_521 : Nat.Prime 521 := by norm_num
theorem prime_31 : Nat.Prime 31 := by norm_num
theorem prime_76749553 : Nat.Prime 76749553 :=
  pockOk_prime _ 27 [(521, 1, 2), (31, 1, 2)] (by decide +kernel)
    (List.forall_mem_cons.2 ⟨prime_521, List.forall_mem_cons.2 ⟨prime_31, List.forall_mem_nil _⟩⟩)
theorem prime_100493 : Nat.Prime 100493 :=
  pockOk_prime _ 17 [(97, 1, 2), (37, 1, 2)] (by decide +kernel)
    (List.forall_mem_cons.2 ⟨prime_97, List.forall_mem_cons.2 ⟨prime_37, List.forall_mem_nil _⟩⟩)
theorem prime_22309447 : Nat.Prime 22309447 :=
  pockOk_prime _ 25 [(100493, 1, 2)] (by decide +kernel)
    (List.forall_mem_cons.2 ⟨prime_100493, List.forall_mem_nil _⟩)
theorem prime_254863122529 : Nat.Prime 254863122529 :=
  pockOk_prime _ 38 [(22309447, 1, 2)] (by decide +kernel)
    (List.forall_mem_cons.2 ⟨prime_22309447, List.forall_mem_nil _⟩)
theorem prime_95311 : Nat.Prime 95311 := by norm_num
theorem prime_22684019 : Nat.Prime 22684019 :=
  pockOk_prime _ 25 [(95311, 1, 2)] (by decide +kernel)
    (List.forall_mem_cons.2 ⟨prime_95311, List.forall_mem_nil _⟩)
theorem prime_26821 : Nat.Prime 26821 := by norm_num
theorem prime_cof15 : Nat.Prime 16415677260681114641 :=
  pockOk_prime _ 64 [(22684019, 1, 2), (26821, 1, 2)] (by decide +kernel)
    (List.forall_mem_cons.2 ⟨prime_22684019, List.forall_mem_cons.2 ⟨prime_26821, List.forall_mem_nil _⟩⟩)
theorem prime_11321 : Nat.Prime 11321 := by norm_num
theorem prime_2241559 : Nat.Prime 2241559 :=
  pockOk_prime _ 22 [(11321, 1, 2)] (by decide +kernel)
    (List.forall_mem_cons.2 ⟨prime_11321, List.forall_mem_nil _⟩)
theorem prime_13721 : Nat.Prime 13721 := by norm_num
theorem prime_cof16 : Nat.Prime 11257375635395869753 :=
  pockOk_prime _ 64 [(2241559, 1, 2), (13721, 1, 2)] (by decide +kernel)
    (List.forall_mem_cons.2 ⟨prime_2241559, List.forall_mem_cons.2 ⟨prime_13721, List.forall_mem_nil _⟩⟩)
theorem prime_cof17 : Nat.Prime 4165228985096471808611 :=
  pockOk_prime _ 72 [(11257375635395869753, 1, 2)] (by decide +kernel)
    (List.forall_mem_cons.2 ⟨prime_cof16, List.forall_mem_nil _⟩)
theorem prime_223 : Nat.Prime 223 := by norm_num
theorem prime_2965901 : Nat.Prime 2965901 :=
  pockOk_prime _ 22 [(223, 1, 2), (19, 1, 2)] (by decide +kernel)
    (List.forall_mem_cons.2 ⟨prime_223, List.forall_mem_cons.2 ⟨prime_19, List.forall_mem_nil _⟩⟩)
theorem prime_67759 : Nat.Prime 67759 := by norm_num
theorem prime_cof18 : Nat.Prime 364151272376509 :=
  pockOk_prime _ 49 [(2965901, 1, 2), (67759, 1, 2)] (by decide +kernel)
    (List.forall_mem_cons.2 ⟨prime_2965901, List.forall_mem_cons.2 ⟨prime_67759, List.forall_mem_nil _⟩⟩)
theorem prime_cof19 : Nat.Prime 3659648372342200581242468166289843753491957766807 :=
  pockOk_prime _ 162 [(4165228985096471808611, 1, 2), (364151272376509, 1, 2)] (by decide +kernel)
    (List.forall_mem_cons.2 ⟨prime_cof17, List.forall_mem_cons.2 ⟨prime_cof18, List.forall_mem_nil _⟩⟩)

end Libff
