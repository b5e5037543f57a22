import Verif.Model.FieldUtils
import Verif.Lemmas.Quad
import Verif.Lemmas.Bigint
import Verif.Spec.BitVec
import Mathlib.Data.List.GetD

namespace Libff

section Invert
variable {K : Type*} [Field K] [InverseO K] [DecidableEq K]

/-- Products of the elements before each one. -/
def prefProds : List K → K → List K
  | [], _ => []
  | x :: xs, acc => acc :: prefProds xs (acc * x)

omit [InverseO K] [DecidableEq K] in
theorem prefProds_length (xs : List K) (acc : K) : (prefProds xs acc).length = xs.length := by
  induction xs generalizing acc with
  | nil => rfl
  | cons x xs ih => simp [prefProds, ih]

omit [InverseO K] in
theorem batchProducts_eq (debug : Bool) (xs : List K) (h : ∀ x ∈ xs, x ≠ 0) (acc : K) :
    batchProducts debug xs acc = .ok (prefProds xs acc, acc * xs.prod) := by
  induction xs generalizing acc with
  | nil => simp [batchProducts, prefProds]
  | cons x xs ih =>
    rw [batchProducts, if_neg (fun hh => h x List.mem_cons_self hh.2),
      ih (fun y hy => h y (List.mem_cons_of_mem _ hy)), Outcome.map_ok, prefProds, List.prod_cons, mul_assoc]

omit [InverseO K] in
theorem batchProducts_zero (xs : List K) (h : (0 : K) ∈ xs) (acc : K) :
    batchProducts true xs acc = .abort := by
  induction xs generalizing acc with
  | nil => simp at h
  | cons x xs ih =>
    rw [batchProducts]
    split
    · rfl
    · rename_i hx
      rw [ih (by
        rcases List.mem_cons.1 h with h | h
        · exact absurd ⟨rfl, h.symm⟩ hx
        · exact h)]
      rfl

omit [InverseO K] [DecidableEq K] in
theorem batchBack_append (l : List (K × K)) (el p c : K) :
    batchBack (l ++ [(el, p)]) c = batchBack l c ++ [(c * (l.map Prod.fst).prod) * p] := by
  induction l generalizing c with
  | nil => simp [batchBack]
  | cons x l ih =>
    obtain ⟨a, b⟩ := x
    rw [List.cons_append, batchBack, ih, batchBack, List.cons_append, List.map_cons, List.prod_cons]
    simp only [mul_assoc]

omit [InverseO K] [DecidableEq K] in
theorem batchBack_prefProds (xs : List K) (h : ∀ x ∈ xs, x ≠ 0) (acc : K) (hacc : acc ≠ 0) :
    (batchBack (xs.zip (prefProds xs acc)).reverse (acc * xs.prod)⁻¹).reverse = xs.map (·⁻¹) := by
  induction xs generalizing acc with
  | nil => rfl
  | cons x xs ih =>
    have hx := h x List.mem_cons_self
    have hxs : ∀ y ∈ xs, y ≠ 0 := fun y hy => h y (List.mem_cons_of_mem _ hy)
    have hp : xs.prod ≠ 0 := List.prod_ne_zero (fun h0 => hxs 0 h0 rfl)
    have hmap : ((xs.zip (prefProds xs (acc * x))).reverse.map Prod.fst).prod = xs.prod := by
      rw [List.map_reverse, List.map_fst_zip (by rw [prefProds_length]), List.prod_reverse]
    rw [prefProds, List.zip_cons_cons, List.reverse_cons, batchBack_append, List.reverse_append, hmap,
      List.prod_cons, ← mul_assoc, ih hxs (acc * x) (mul_ne_zero hacc hx)]
    simp only [List.reverse_cons, List.reverse_nil, List.nil_append, List.singleton_append, List.map_cons]
    congr 1
    field_simp

end Invert
end Libff

namespace Libff

/-! ## Bit vectors -/

theorem bitsVal_lt (v : List Bool) : bitsVal v < 2 ^ v.length := by
  induction v with
  | nil => simp [bitsVal]
  | cons b v ih =>
    rw [bitsVal, List.length_cons, pow_succ]
    have : b.toNat ≤ 1 := by cases b <;> simp
    omega

theorem bitsVal_testBit (v : List Bool) (i : Nat) : (bitsVal v).testBit i = v.getD i false := by
  induction v generalizing i with
  | nil => simp [bitsVal]
  | cons b v ih =>
    cases i with
    | zero =>
      rw [bitsVal, Nat.testBit_zero]
      cases b <;> simp <;> omega
    | succ i =>
      rw [bitsVal, Nat.testBit_succ, List.getD_cons_succ, ← ih]
      congr 1
      cases b <;> simp <;> omega

theorem bits_of_testBit (m N : Nat) (h : m < 2 ^ N) : bitsVal ((List.range N).map fun i => m.testBit i) = m := by
  apply Nat.eq_of_testBit_eq
  intro i
  rw [bitsVal_testBit]
  by_cases hi : i < N
  · rw [List.getD_eq_getElem _ _ (by simpa using hi), List.getElem_map, List.getElem_range]
  · rw [List.getD_eq_default _ _ (by simpa using hi), Nat.testBit_lt_two_pow (lt_of_lt_of_le h
      (Nat.pow_le_pow_right (by norm_num) (not_lt.1 hi)))]

theorem map_testBit_bitsVal (v : List Bool) (N : Nat) (h : v.length ≤ N) :
    ((List.range N).map fun i => (bitsVal v).testBit i) = padBits N v := by
  apply List.ext_getElem
  · simp [padBits]; omega
  · intro i h1 h2
    simp only [List.getElem_map, List.getElem_range, bitsVal_testBit, padBits]
    by_cases hi : i < v.length
    · rw [List.getD_eq_getElem _ _ hi, List.getElem_append_left hi]
    · rw [List.getD_eq_default _ _ (not_lt.1 hi), List.getElem_append_right (not_lt.1 hi), List.getElem_replicate]

theorem bitsVal_padBits (N : Nat) (v : List Bool) : bitsVal (padBits N v) = bitsVal v := by
  apply Nat.eq_of_testBit_eq
  intro i
  rw [bitsVal_testBit, bitsVal_testBit, padBits]
  by_cases hi : i < v.length
  · rw [List.getD_append _ _ _ _ hi]
  · rw [List.getD_append_right _ _ _ _ (not_lt.1 hi), List.getD_eq_default v _ (not_lt.1 hi)]
    by_cases h2 : i - v.length < N - v.length
    · rw [List.getD_replicate _ h2]
    · rw [List.getD_eq_default _ _ (by simpa using h2)]

theorem val_set (l : List Limb) (i : Nat) (x y : Limb) (h : l[i]? = some x) :
    val (l.set i y) + 2 ^ (64 * i) * x.toNat = val l + 2 ^ (64 * i) * y.toNat ∧
      2 ^ (64 * i) * x.toNat ≤ val l := by
  induction l generalizing i with
  | nil => simp at h
  | cons a l ih =>
    cases i with
    | zero =>
      simp only [List.getElem?_cons_zero, Option.some.injEq] at h
      subst h
      simp only [List.set_cons_zero, val_cons, Nat.mul_zero, pow_zero, Nat.one_mul]
      omega
    | succ i =>
      simp only [List.getElem?_cons_succ] at h
      obtain ⟨h1, h2⟩ := ih i h
      rw [List.set_cons_succ, val_cons, val_cons, Nat.mul_succ, pow_add]
      constructor
      · calc _ = a.toNat + 2 ^ 64 * (val (l.set i y) + 2 ^ (64 * i) * x.toNat) := by ring
          _ = _ := by rw [h1]; ring
      · calc _ = 2 ^ 64 * (2 ^ (64 * i) * x.toNat) := by ring
          _ ≤ 2 ^ 64 * val l := Nat.mul_le_mul_left _ h2
          _ ≤ _ := by omega

theorem orBit_spec (b : List Limb) (j : Nat) (bit : Bool) (hj : j < 64 * b.length) (hb : val b < 2 ^ j) :
    ∃ b', orBit b j bit = .ok b' ∧ b'.length = b.length ∧ val b' = val b + 2 ^ j * bit.toNat := by
  have hi : j / 64 < b.length := by omega
  have hx : b[j / 64]? = some b[j / 64] := List.getElem?_eq_getElem hi
  generalize b[j / 64] = x at hx
  unfold orBit
  rw [hx]
  refine ⟨_, rfl, by simp, ?_⟩
  obtain ⟨h1, h2⟩ := val_set b (j / 64) x (x ||| ((if bit then (1 : Limb) else 0) <<< (j % 64))) hx
  have hj' : j = 64 * (j / 64) + j % 64 := by omega
  have hlt : x.toNat < 2 ^ (j % 64) := by
    have h3 : 2 ^ (64 * (j / 64)) * x.toNat < 2 ^ (64 * (j / 64)) * 2 ^ (j % 64) := by
      rw [← pow_add, ← hj']; omega
    exact Nat.lt_of_mul_lt_mul_left h3
  have hy : (x ||| ((if bit then (1 : Limb) else 0) <<< (j % 64)) : Limb).toNat = x.toNat + 2 ^ (j % 64) * bit.toNat := by
    cases bit with
    | false => simp
    | true =>
      simp only [if_true, BitVec.toNat_or, BitVec.toNat_shiftLeft, Bool.toNat_true, Nat.mul_one]
      have e : ((1 : Limb).toNat <<< (j % 64)) % 2 ^ 64 = 2 ^ (j % 64) := by
        rw [Nat.shiftLeft_eq, Nat.mod_eq_of_lt]
        · simp
        · rw [show (1 : Limb).toNat = 1 from rfl]
          calc 1 * 2 ^ (j % 64) = 2 ^ (j % 64) := by norm_num
            _ < 2 ^ 64 := Nat.pow_lt_pow_right (by norm_num) (by omega)
      rw [e, Nat.or_comm]
      clear h1 h2 hj' hx
      have := Nat.two_pow_add_eq_or_of_lt hlt 1
      rw [Nat.mul_one] at this
      omega
  rw [hy, Nat.mul_add, ← Nat.mul_assoc, ← pow_add, ← hj'] at h1
  omega

theorem orBits_spec (bits : List Bool) (j : Nat) (b : List Limb) (hj : j + bits.length ≤ 64 * b.length)
    (hb : val b < 2 ^ j) :
    ∃ b', orBits bits j b = .ok b' ∧ b'.length = b.length ∧ val b' = val b + 2 ^ j * bitsVal bits := by
  induction bits generalizing j b with
  | nil => exact ⟨b, rfl, rfl, by simp [bitsVal]⟩
  | cons bit bits ih =>
    simp only [List.length_cons] at hj
    obtain ⟨b1, h1, h2, h3⟩ := orBit_spec b j bit (by omega) hb
    obtain ⟨b2, h4, h5, h6⟩ := ih (j + 1) b1 (by omega) (by
      rw [h3, pow_succ]
      have : bit.toNat ≤ 1 := by cases bit <;> simp
      have := Nat.mul_le_mul_left (2 ^ j) this
      omega)
    refine ⟨b2, by rw [orBits, h1, Outcome.bind_ok, h4], by omega, ?_⟩
    rw [h6, h3, bitsVal, pow_succ]
    ring

section Pack
variable {K : Type*} [CommRing K] {p n : Nat} {toB : K → List Limb} {ofB : List Limb → K}

theorem packLoop_spec (hc : BigintCodec K p n toB ofB) (c : Nat) (hcn : c ≤ 64 * n) (bitAt : Nat → Bool) (k i : Nat) :
    packLoop ofB n c bitAt k i = .ok ((List.range k).map fun t =>
      ((bitsVal ((List.range c).map fun j => bitAt ((i + t) * c + j)) : ℕ) : K)) := by
  induction k generalizing i with
  | zero => rfl
  | succ k ih =>
    obtain ⟨b, h1, h2, h3⟩ := orBits_spec ((List.range c).map fun j => bitAt (i * c + j)) 0 (List.replicate n 0)
      (by simpa using hcn) (by rw [val_replicate_zero]; norm_num)
    rw [val_replicate_zero, pow_zero, Nat.zero_add, Nat.one_mul] at h3
    rw [packLoop, h1, Outcome.bind_ok, ih, Outcome.map_ok, List.range_succ_eq_map, List.map_cons, List.map_map,
      hc.of b (by simpa using h2), h3, Nat.add_zero]
    congr 2
    apply List.map_congr_left
    intro t _
    simp only [Function.comp_apply]
    rw [show i + 1 + t = i + (t + 1) by omega]

omit [CommRing K] in
theorem map_getD_chunk (v : List Bool) (c i : Nat) :
    bitsVal ((List.range c).map fun j => v.getD (i * c + j) false) = bitsVal (bitChunk c v i) := by
  have : ((List.range c).map fun j => v.getD (i * c + j) false) = padBits c (bitChunk c v i) := by
    apply List.ext_getElem
    · simp [padBits, bitChunk]
    · intro j h1 h2
      simp only [List.getElem_map, List.getElem_range, padBits, bitChunk]
      have hj : j < c := by simpa using h1
      by_cases h : i * c + j < v.length
      · rw [List.getD_eq_getElem _ _ h, List.getElem_append_left (by simp; omega), List.getElem_take,
          List.getElem_drop]
      · rw [List.getD_eq_default _ _ (not_lt.1 h), List.getElem_append_right (by simp; omega),
          List.getElem_replicate]
  rw [this, bitsVal_padBits]

theorem bitsToFieldLoop_spec (v : List Bool) (res c : K) :
    bitsToFieldLoop v res c = res + (bitsVal v : K) * c := by
  induction v generalizing res c with
  | nil => simp [bitsToFieldLoop, bitsVal]
  | cons b v ih =>
    rw [bitsToFieldLoop, ih, bitsVal]
    cases b <;> simp <;> ring

theorem chunks_flatMap (c : Nat) (v : List Bool) (k : Nat) :
    ((List.range k).flatMap fun i => bitChunk c v i) = v.take (k * c) := by
  induction k with
  | zero => simp
  | succ k ih =>
    rw [List.range_succ, List.flatMap_append, ih, Nat.succ_mul, List.take_add]
    simp [bitChunk]

end Pack
end Libff
