import Verif.Lemmas.Primality

/-!
# The prime divisors of 2^n - 1 for n = 32, 64, 128, 192, 256
-/
namespace Libff

theorem bprime_3 : Nat.Prime 3 := by norm_num
theorem bprime_5 : Nat.Prime 5 := by norm_num
theorem bprime_7 : Nat.Prime 7 := by norm_num
theorem bprime_13 : Nat.Prime 13 := by norm_num
theorem bprime_17 : Nat.Prime 17 := by norm_num
theorem bprime_97 : Nat.Prime 97 := by norm_num
theorem bprime_193 : Nat.Prime 193 := by norm_num
theorem bprime_241 : Nat.Prime 241 := by norm_num
theorem bprime_257 : Nat.Prime 257 := by norm_num
theorem bprime_641 : Nat.Prime 641 := by norm_num
theorem bprime_673 : Nat.Prime 673 := by norm_num
theorem bprime_65537 : Nat.Prime 65537 := by norm_num
theorem bprime_17449 : Nat.Prime 17449 := by norm_num
theorem bprime_6700417 : Nat.Prime 6700417 :=
  pockOk_prime _ 23 [(17449, 1, 3)] (by decide +kernel)
    (List.forall_mem_cons.2 ⟨bprime_17449, List.forall_mem_nil _⟩)
theorem bprime_2 : Nat.Prime 2 := by norm_num
theorem bprime_274177 : Nat.Prime 274177 :=
  pockOk_prime _ 19 [(2, 8, 5), (3, 2, 3)] (by decide +kernel)
    (List.forall_mem_cons.2 ⟨bprime_2, List.forall_mem_cons.2 ⟨bprime_3, List.forall_mem_nil _⟩⟩)
theorem bprime_47 : Nat.Prime 47 := by norm_num
theorem bprime_115903 : Nat.Prime 115903 :=
  pockOk_prime _ 17 [(3, 2, 3), (47, 1, 2)] (by decide +kernel)
    (List.forall_mem_cons.2 ⟨bprime_3, List.forall_mem_cons.2 ⟨bprime_47, List.forall_mem_nil _⟩⟩)
theorem bprime_22253377 : Nat.Prime 22253377 :=
  pockOk_prime _ 25 [(115903, 1, 3)] (by decide +kernel)
    (List.forall_mem_cons.2 ⟨bprime_115903, List.forall_mem_nil _⟩)
theorem bprime_18446744069414584321 : Nat.Prime 18446744069414584321 :=
  pockOk_prime _ 64 [(2, 32, 7)] (by decide +kernel)
    (List.forall_mem_cons.2 ⟨bprime_2, List.forall_mem_nil _⟩)
theorem bprime_373 : Nat.Prime 373 := by norm_num
theorem bprime_67280421310721 : Nat.Prime 67280421310721 :=
  pockOk_prime _ 46 [(2, 8, 3), (5, 1, 3), (47, 1, 3), (373, 1, 3)] (by decide +kernel)
    (List.forall_mem_cons.2 ⟨bprime_2, List.forall_mem_cons.2 ⟨bprime_5, List.forall_mem_cons.2 ⟨bprime_47, List.forall_mem_cons.2 ⟨bprime_373, List.forall_mem_nil _⟩⟩⟩⟩)
theorem bprime_52673 : Nat.Prime 52673 := by norm_num
theorem bprime_1896229 : Nat.Prime 1896229 :=
  pockOk_prime _ 21 [(52673, 1, 2)] (by decide +kernel)
    (List.forall_mem_cons.2 ⟨bprime_52673, List.forall_mem_nil _⟩)
theorem bprime_18533742247 : Nat.Prime 18533742247 :=
  pockOk_prime _ 35 [(1896229, 1, 2)] (by decide +kernel)
    (List.forall_mem_cons.2 ⟨bprime_1896229, List.forall_mem_nil _⟩)
theorem bprime_116503103764643 : Nat.Prime 116503103764643 :=
  pockOk_prime _ 47 [(18533742247, 1, 2)] (by decide +kernel)
    (List.forall_mem_cons.2 ⟨bprime_18533742247, List.forall_mem_nil _⟩)
theorem bprime_59649589127497217 : Nat.Prime 59649589127497217 :=
  pockOk_prime _ 56 [(116503103764643, 1, 3)] (by decide +kernel)
    (List.forall_mem_cons.2 ⟨bprime_116503103764643, List.forall_mem_nil _⟩)
theorem bprime_139 : Nat.Prime 139 := by norm_num
theorem bprime_6939437 : Nat.Prime 6939437 :=
  pockOk_prime _ 23 [(2, 2, 2), (7, 1, 2), (139, 1, 2)] (by decide +kernel)
    (List.forall_mem_cons.2 ⟨bprime_2, List.forall_mem_cons.2 ⟨bprime_7, List.forall_mem_cons.2 ⟨bprime_139, List.forall_mem_nil _⟩⟩⟩)
theorem bprime_55515497 : Nat.Prime 55515497 :=
  pockOk_prime _ 26 [(6939437, 1, 2)] (by decide +kernel)
    (List.forall_mem_cons.2 ⟨bprime_6939437, List.forall_mem_nil _⟩)
theorem bprime_733803839347 : Nat.Prime 733803839347 :=
  pockOk_prime _ 40 [(55515497, 1, 2)] (by decide +kernel)
    (List.forall_mem_cons.2 ⟨bprime_55515497, List.forall_mem_nil _⟩)
theorem bprime_5704689200685129054721 : Nat.Prime 5704689200685129054721 :=
  pockOk_prime _ 73 [(733803839347, 1, 3)] (by decide +kernel)
    (List.forall_mem_cons.2 ⟨bprime_733803839347, List.forall_mem_nil _⟩)

end Libff
