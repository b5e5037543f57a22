import Verif.Lemmas.BinaryFields
import Verif.Lemmas.Stream
import Mathlib.Data.List.TakeWhile

/-!
# Inversion chains, powers and streams of the binary fields
-/
namespace Libff
open Polynomial

namespace BinRep
section
variable {G : Type} [inst : CommRing G] {nat : G → ℕ} {n : ℕ} {f : (ZMod 2)[X]}

theorem poly_pow (h : BinRep nat n f) (a : G) (k : ℕ) :
    bitPoly n (nat (a ^ k)) = (bitPoly n (nat a) ^ k) %ₘ f := by
  refine mk_inj f n h.monic h.natDegree (bitPoly_degree _ _) ?_ ?_
  · rw [← h.natDegree, ← degree_eq_natDegree h.monic.ne_zero]
    exact degree_modByMonic_lt _ h.monic
  · have e : AdjoinRoot.mk f ((bitPoly n (nat a) ^ k) %ₘ f) = AdjoinRoot.mk f (bitPoly n (nat a) ^ k) := by
      rw [AdjoinRoot.mk_eq_mk]
      refine ⟨-((bitPoly n (nat a) ^ k) /ₘ f), ?_⟩
      have := modByMonic_add_div (bitPoly n (nat a) ^ k) f
      linear_combination this
    rw [e, map_pow, ← nEval_root, ← nEval_root, ← h.hom_apply, ← h.hom_apply, map_pow]

theorem card (h : BinRep nat n f) : Nat.card G = 2 ^ n := by
  rw [Nat.card_congr h.equiv.toEquiv, quot_card f n h.monic h.natDegree]

theorem ne_one (h : BinRep nat n f) : (0 : G) ≠ 1 := by
  intro e
  have := congrArg nat e
  rw [h.zero, h.one] at this
  exact absurd this (by norm_num)

theorem inv_pow (h : BinRep nat n f) (g : G) (hg : orderOf g = 2 ^ n - 1) (a : G) (ha : a ≠ 0) :
    a * a ^ (2 ^ n - 2) = 1 := by
  have h4 : 2 ≤ 2 ^ n := le_trans (by norm_num) (Nat.pow_le_pow_right (n := 2) (by norm_num) h.pos)
  rw [← pow_succ', show 2 ^ n - 2 + 1 = 2 ^ n - 1 by omega, h.pow_sub_one g hg a ha]

theorem isField (h : BinRep nat n f) (g : G) (hg : orderOf g = 2 ^ n - 1) : IsField G where
  exists_pair_ne := ⟨0, 1, h.ne_one⟩
  mul_comm := mul_comm
  mul_inv_cancel := fun {a} ha => ⟨_, h.inv_pow g hg a ha⟩

theorem sqrt_pow (h : BinRep nat n f) (g : G) (hg : orderOf g = 2 ^ n - 1) (a : G) (e : List Limb)
    (he : val e = 2 ^ (n - 1)) : powerBigint a e * powerBigint a e = a ∧ powerBigint (a * a) e = a := by
  have h1 : 2 ^ (n - 1) + 2 ^ (n - 1) = 2 ^ n := by
    obtain ⟨m, rfl⟩ := Nat.exists_eq_add_of_lt h.pos'
    rw [show 0 + m + 1 - 1 = m by omega, show 0 + m + 1 = m + 1 by omega, pow_succ]; ring
  rw [powerBigint_eq, powerBigint_eq, he, mul_pow, ← pow_add, h1]
  exact ⟨h.pow_card g hg a, h.pow_card g hg a⟩

theorem gen_pow (h : BinRep nat n f) (g : G) (hg : orderOf g = 2 ^ n - 1) (m : ℕ) (hm : n ≤ 64 * m) (a : G)
    (ha : a ≠ 0) : ∃ e : List Limb, e.length = m ∧ powerBigint g e = a := by
  obtain ⟨k, hk, e⟩ := h.exists_pow g hg a ha
  refine ⟨limbsOf m k, length_limbsOf _ _, ?_⟩
  rw [powerBigint_eq, val_limbsOf, Nat.mod_eq_of_lt, e]
  calc k < 2 ^ n - 1 := hk
    _ ≤ 2 ^ n := Nat.sub_le _ _
    _ ≤ 2 ^ (64 * m) := Nat.pow_le_pow_right (by norm_num) hm

end
end BinRep

theorem GF64.invChain_eq (a : GF64) : a.invChain = a ^ (2 ^ 64 - 2) := by
  have h : ∀ (K : Type) [Monoid K] (t : K) (i j : ℕ), t ^ i * t ^ j = t ^ (i + j) := fun K _ t i j => (pow_add t i j).symm
  have hs : ∀ (K : Type) [Monoid K] (t : K) (i k : ℕ), gfSquareN k (t ^ i) = t ^ (i * 2 ^ k) := fun K _ t i k => by
    rw [gfSquareN_eq, ← pow_mul]
  obtain ⟨b, hb⟩ : ∃ b : GF64, b = a ^ 1 := ⟨_, rfl⟩
  have hb' : b = a := by rw [hb, pow_one]
  rw [← hb']
  unfold invChain
  simp only [hb, h, hs]
  congr 1
  exact (pow_one a).symm

namespace GF192

theorem invRound_spec (el : GF192) (i : ℕ) : (List.range (i + 1)).foldl invRound (el, 0, 0) =
    (((List.range (i + 1)).foldl gfInvRound (el, 0)).1, ((List.range (i + 1)).foldl gfInvRound (el, 0)).2,
      ((List.range i).foldl gfInvRound (el, 0)).2) := by
  induction i with
  | zero => rfl
  | succ i ih =>
    rw [List.range_succ, List.foldl_append, ih, List.foldl_cons, List.foldl_nil]
    rw [List.foldl_append, List.foldl_cons, List.foldl_nil]
    rfl

theorem invChain_eq (a : GF192) : a.invChain = a ^ (2 ^ 192 - 2) := by
  have e : (List.range 7).foldl invRound (a, 0, 0) =
      (a ^ (2 ^ 2 ^ 7 - 1), a ^ (2 ^ 2 ^ 7 - 2), a ^ (2 ^ 2 ^ 6 - 2)) := by
    have := invRound_spec a 6
    rw [show 6 + 1 = 7 from rfl] at this
    rw [this]
    have h7 := gfInvRound_spec a 6
    have h6 := gfInvRound_spec a 5
    rw [show 6 + 1 = 7 from rfl] at h7
    rw [show 5 + 1 = 6 from rfl] at h6
    rw [h7, h6]
  unfold invChain
  simp only [e, gfSquareN_eq, squared]
  rw [← pow_mul, ← pow_mul, ← pow_add, ← pow_two, ← pow_add]
  refine congrArg (a ^ ·) ?_
  norm_num

end GF192

/-! ## Streams -/

theorem readUInt_write (w v : ℕ) (hv : v < 2 ^ w) (rest : List Byte)
    (hr : ∀ c ∈ rest.head?, ¬ (48 ≤ c.toNat ∧ c.toNat ≤ 57)) (pre : List Byte) (hp : ∀ c ∈ pre, isSpace c = true) :
    readUInt w (pre ++ (writeNat v ++ rest)) = .ok (BitVec.ofNat w v, rest) := by
  have hd : ∀ c ∈ writeNat v, decide (48 ≤ c.toNat ∧ c.toNat ≤ 57) = true := by
    intro c hc
    obtain ⟨d, hd, rfl⟩ := List.mem_map.1 hc
    have := decDigits_lt v d hd
    simp only [digitCode, BitVec.toNat_ofNat, decide_eq_true_eq]
    rw [Nat.mod_eq_of_lt (by omega)]
    omega
  have h1 : (pre ++ (writeNat v ++ rest)).dropWhile isSpace = writeNat v ++ rest := by
    rw [List.dropWhile_append, List.dropWhile_eq_nil_iff.2 hp]
    simp only [List.isEmpty_nil, if_true]
    have hne := writeNat_ne_nil v
    have hns := writeNat_not_space v
    cases hw : writeNat v with
    | nil => exact absurd hw hne
    | cons c t =>
      rw [hw] at hns
      rw [List.cons_append, List.dropWhile_cons_of_neg (by rw [hns c List.mem_cons_self]; simp)]
  have h2 : (writeNat v ++ rest).takeWhile (fun c : Byte => decide (48 ≤ c.toNat ∧ c.toNat ≤ 57)) = writeNat v := by
    rw [List.takeWhile_append_of_pos hd]
    cases rest with
    | nil => simp
    | cons c t =>
      rw [List.takeWhile_cons_of_neg, List.append_nil]
      simpa using hr c rfl
  have h3 : (writeNat v ++ rest).dropWhile (fun c : Byte => decide (48 ≤ c.toNat ∧ c.toNat ≤ 57)) = rest := by
    rw [List.dropWhile_append_of_pos hd]
    cases rest with
    | nil => rfl
    | cons c t =>
      rw [List.dropWhile_cons_of_neg]
      simpa using hr c rfl
  have h4 : (writeNat v).foldl (fun acc c => acc * 10 + (c.toNat - 48)) 0 = v := by
    have : ∀ (ds : List ℕ), (∀ d ∈ ds, d < 10) → ∀ acc, (ds.map digitCode).foldl (fun acc c => acc * 10 + (c.toNat - 48)) acc =
        ds.foldl (fun acc d => acc * 10 + d) acc := by
      intro ds
      induction ds with
      | nil => intro _ _; rfl
      | cons d ds ih =>
        intro h acc
        have hd := h d List.mem_cons_self
        rw [List.map_cons, List.foldl_cons, List.foldl_cons, ih fun d hd => h d (List.mem_cons_of_mem _ hd)]
        congr 2
        simp only [digitCode, BitVec.toNat_ofNat]
        rw [Nat.mod_eq_of_lt (by omega)]
        omega
    rw [writeNat, this _ (decDigits_lt v)]
    have e := setStrVal_decDigits v
    rw [setStrVal] at e
    simp only [mul_comm 10] at e
    exact e
  unfold readUInt
  simp only [h1, h2, h3, h4]
  rw [if_neg]
  rintro (h | h)
  · exact writeNat_ne_nil v h
  · omega

/-! ## Exclusive or of the values -/

theorem xor_split (k a b c d : ℕ) (ha : a < 2 ^ k) (hb : b < 2 ^ k) :
    (a + 2 ^ k * c) ^^^ (b + 2 ^ k * d) = (a ^^^ b) + 2 ^ k * (c ^^^ d) := by
  have hx : a ^^^ b < 2 ^ k := Nat.xor_lt_two_pow ha hb
  apply Nat.eq_of_testBit_eq
  intro i
  rw [Nat.testBit_xor, add_comm a, add_comm b, add_comm (a ^^^ b), Nat.testBit_two_pow_mul_add _ ha,
    Nat.testBit_two_pow_mul_add _ hb, Nat.testBit_two_pow_mul_add _ hx]
  by_cases h : i < k
  · simp [h, Nat.testBit_xor]
  · simp [h, Nat.testBit_xor]

theorem GF32.nat_xor (a b : GF32) : (a + b).nat = a.nat ^^^ b.nat := BitVec.toNat_xor _ _
theorem GF64.nat_xor (a b : GF64) : (a + b).nat = a.nat ^^^ b.nat := BitVec.toNat_xor _ _
theorem GF128.nat_xor (a b : GF128) : (a + b).nat = a.nat ^^^ b.nat := by
  show (a.v0 ^^^ b.v0).toNat + 2 ^ 64 * (a.v1 ^^^ b.v1).toNat = _
  rw [BitVec.toNat_xor, BitVec.toNat_xor, nat, nat, xor_split _ _ _ _ _ a.v0.isLt b.v0.isLt]
theorem GF192.nat_xor (a b : GF192) : (a + b).nat = a.nat ^^^ b.nat := by
  show (a.v0 ^^^ b.v0).toNat + 2 ^ 64 * (a.v1 ^^^ b.v1).toNat + 2 ^ 128 * (a.v2 ^^^ b.v2).toNat = _
  have h : ∀ t : GF192, t.nat = t.v0.toNat + 2 ^ 64 * (t.v1.toNat + 2 ^ 64 * t.v2.toNat) := fun t => by rw [nat]; ring
  rw [BitVec.toNat_xor, BitVec.toNat_xor, BitVec.toNat_xor, h, h, xor_split _ _ _ _ _ a.v0.isLt b.v0.isLt,
    xor_split _ _ _ _ _ a.v1.isLt b.v1.isLt]
  ring
theorem GF256.nat_xor (a b : GF256) : (a + b).nat = a.nat ^^^ b.nat := by
  show (a.v0 ^^^ b.v0).toNat + 2 ^ 64 * (a.v1 ^^^ b.v1).toNat + 2 ^ 128 * (a.v2 ^^^ b.v2).toNat +
    2 ^ 192 * (a.v3 ^^^ b.v3).toNat = _
  have h : ∀ t : GF256, t.nat =
    t.v0.toNat + 2 ^ 64 * (t.v1.toNat + 2 ^ 64 * (t.v2.toNat + 2 ^ 64 * t.v3.toNat)) := fun t => by rw [nat]; ring
  rw [BitVec.toNat_xor, BitVec.toNat_xor, BitVec.toNat_xor, BitVec.toNat_xor, h, h,
    xor_split _ _ _ _ _ a.v0.isLt b.v0.isLt, xor_split _ _ _ _ _ a.v1.isLt b.v1.isLt,
    xor_split _ _ _ _ _ a.v2.isLt b.v2.isLt]
  ring

end Libff
