import Verif.Lemmas.BinaryOps
import Verif.Spec.Codec

/-!
# C40 – C43, C56: the binary fields
-/
namespace Libff
open Polynomial

/-! ## gf32 -/

/-- C40 for gf32: the operations are those of polynomials over GF(2) of degree below 32 modulo the
documented polynomial. -/
theorem C40_gf32 : PolyArith GF32 32 (fun a => bitPoly 32 a.nat) gf32Poly := GF32.rep.polyArith

/-- C40: addition and subtraction are the exclusive or of the values. -/
theorem C40_gf32_xor (a b : GF32) : (a + b).nat = a.nat ^^^ b.nat ∧ (a - b).nat = a.nat ^^^ b.nat ∧ -a = a := by
  refine ⟨?_, ?_, rfl⟩
  · exact GF32.nat_xor a b
  · exact GF32.nat_xor a b

/-- C40: the square. -/
theorem C40_gf32_squared (a : GF32) : bitPoly 32 a.squared.nat = (bitPoly 32 a.nat ^ 2) %ₘ gf32Poly := by
  rw [GF32.squared, pow_two]
  exact C40_gf32.mul a a

/-- C40: the comparisons. -/
theorem C40_gf32_eq (a b : GF32) : (GF32.eq a b = true ↔ a = b) ∧ (a.isZero = true ↔ a = 0) := by
  constructor
  · rw [GF32.ext_iff]; simp [GF32.eq, and_assoc]
  · rw [GF32.ext_iff]; simp only [GF32.isZero, Bool.and_eq_true, beq_iff_eq, and_assoc]; rfl

/-- C40: the ring laws. -/
theorem C40_gf32_ring (a b d : GF32) : (a * b) * d = a * (b * d) ∧ a * b = b * a ∧ a * (b + d) = a * b + a * d ∧
    a * 1 = a ∧ a + a = 0 :=
  ⟨mul_assoc a b d, mul_comm a b, mul_add a b d, mul_one a, by
    have h : a - a = 0 := sub_self a
    exact h⟩

example : (⟨6⟩ : GF32) * ⟨3⟩ = ⟨10⟩ := by decide +kernel
example : (⟨2147483648⟩ : GF32) * ⟨2⟩ = ⟨BitVec.ofNat 32 0b10000000000000000000111⟩ := by decide +kernel

/-- C42 for gf32: the inverse of a nonzero element, in debug and release builds. -/
theorem C42_gf32_inverse (debug : Bool) (a : GF32) (ha : a ≠ 0) : ∃ b, a.inverse debug = .ok b ∧ a * b = 1 := by
  refine ⟨a ^ (2 ^ 32 - 2), ?_, GF32.rep.inv_pow GF32.prim GF32.order_prim a ha⟩
  have h0 : ¬ (debug = true ∧ a.isZero = true) := fun h => ha ((C40_gf32_eq a a).2.1 h.2)
  rw [GF32.inverse, if_neg h0, gfInvLoop_eq 4 a]
  rfl

/-- C42 for gf32: the inverse of zero is caught in a debug build and is zero in a release build. -/
theorem C42_gf32_inverse_zero : GF32.inverse true 0 = .abort ∧ GF32.inverse false 0 = .ok 0 := by
  refine ⟨rfl, ?_⟩
  rw [GF32.inverse, if_neg (by simp), gfInvLoop_eq 4 0, zero_pow (by norm_num)]

/-- C42 for gf32: powers with a multi-limb exponent. -/
theorem C42_gf32_pow (a : GF32) (e : List Limb) :
    bitPoly 32 (powerBigint a e).nat = (bitPoly 32 a.nat ^ val e) %ₘ gf32Poly := by
  rw [powerBigint_eq]
  exact GF32.rep.poly_pow a (val e)

/-- C42 for gf32: every element is a square; the square root is the inverse of squaring on both sides. -/
theorem C42_gf32_sqrt (a : GF32) : a.sqrt.squared = a ∧ a.squared.sqrt = a :=
  GF32.rep.sqrt_pow GF32.prim GF32.order_prim a _ (by decide +kernel)

example : (⟨5⟩ : GF32) ≠ 0 := by decide +kernel
example : (⟨16⟩ : GF32).sqrt = ⟨4⟩ := by
  have h : (⟨4⟩ : GF32).squared = ⟨16⟩ := by decide +kernel
  rw [← h]; exact (C42_gf32_sqrt _).2

/-- C43 for gf32: the documented polynomial is irreducible. -/
theorem C43_gf32_irreducible : Irreducible gf32Poly := GF32.rep.irreducible GF32.prim GF32.order_prim

/-- C43 for gf32: a field of `2^32` elements. -/
theorem C43_gf32_field : IsField GF32 ∧ Nat.card GF32 = 2 ^ 32 :=
  ⟨GF32.rep.isField GF32.prim GF32.order_prim, GF32.rep.card⟩

/-- C43 for gf32: every nonzero element is a power of the stored generator. -/
theorem C43_gf32_generator (a : GF32) (ha : a ≠ 0) : ∃ e : List Limb, e.length = 1 ∧ powerBigint GF32.generator e = a :=
  GF32.rep.gen_pow GF32.generator GF32.order_prim 1 (by norm_num) a ha

/-- C56 for gf32: words. -/
theorem C56_gf32_words (a : GF32) (more : List (BitVec 64)) :
    GF32.fromWords (a.toWords ++ more) = .ok (a, true) := by
  have h : (a.value.zeroExtend 64).truncate 32 = a.value := by
    apply BitVec.eq_of_toNat_eq; simp
  show Outcome.ok (GF32.mk ((a.value.zeroExtend 64).truncate 32), true) = _
  rw [h]

/-- C56 for gf32: every vector of enough words is accepted and gives the element with these low bits. -/
theorem C56_gf32_from_words (ws : List (BitVec 64)) :
    (1 ≤ ws.length → ∃ a, GF32.fromWords ws = .ok (a, true) ∧ a.nat = val ws % 2 ^ 32) ∧
    (ws.length < 1 → GF32.fromWords ws = .ub) := by
  constructor
  · intro h
    obtain ⟨w0, ws, rfl⟩ : ∃ w0 t, ws = w0 :: t := by
      match ws, h with
      | w0 :: t, _ => exact ⟨w0, t, rfl⟩
    refine ⟨_, rfl, ?_⟩
    simp only [GF32.nat, val_cons]
    have h0 := w0.isLt;
    generalize val ws = t
    simp only [BitVec.truncate_eq_setWidth, BitVec.toNat_setWidth]; omega
  · intro h
    match ws, h with
    | [], _ => rfl

/-- C56 for gf32: the text written by `<<` is read back by `>>`, whatever follows, unless that begins with a digit. -/
theorem C56_gf32_stream (a : GF32) (rest : List Byte) (hr : ∀ c ∈ rest.head?, ¬ (48 ≤ c.toNat ∧ c.toNat ≤ 57)) :
    GF32.read (a.write ++ rest) = .ok (a, rest) := by
  have h := readUInt_write 32 a.value.toNat a.value.isLt rest hr [] (by simp)
  rw [List.nil_append, BitVec.ofNat_toNat, BitVec.setWidth_eq] at h
  rw [GF32.read, GF32.write, h]
  rfl

example : GF32.read ((⟨7⟩ : GF32).write ++ [10, 65]) = .ok (⟨7⟩, [10, 65]) :=
  C56_gf32_stream _ _ (by decide)
example : GF32.fromWords [5, 1] = .ok (⟨5⟩, true) := by decide +kernel

/-! ## gf64 -/

/-- C40 for gf64: the operations are those of polynomials over GF(2) of degree below 64 modulo the
documented polynomial. -/
theorem C40_gf64 : PolyArith GF64 64 (fun a => bitPoly 64 a.nat) gf64Poly := GF64.rep.polyArith

/-- C40: addition and subtraction are the exclusive or of the values. -/
theorem C40_gf64_xor (a b : GF64) : (a + b).nat = a.nat ^^^ b.nat ∧ (a - b).nat = a.nat ^^^ b.nat ∧ -a = a := by
  refine ⟨?_, ?_, rfl⟩
  · exact GF64.nat_xor a b
  · exact GF64.nat_xor a b

/-- C40: the square. -/
theorem C40_gf64_squared (a : GF64) : bitPoly 64 a.squared.nat = (bitPoly 64 a.nat ^ 2) %ₘ gf64Poly := by
  rw [GF64.squared, pow_two]
  exact C40_gf64.mul a a

/-- C40: the comparisons. -/
theorem C40_gf64_eq (a b : GF64) : (GF64.eq a b = true ↔ a = b) ∧ (a.isZero = true ↔ a = 0) := by
  constructor
  · rw [GF64.ext_iff]; simp [GF64.eq, and_assoc]
  · rw [GF64.ext_iff]; simp only [GF64.isZero, Bool.and_eq_true, beq_iff_eq, and_assoc]; rfl

/-- C40: the ring laws. -/
theorem C40_gf64_ring (a b d : GF64) : (a * b) * d = a * (b * d) ∧ a * b = b * a ∧ a * (b + d) = a * b + a * d ∧
    a * 1 = a ∧ a + a = 0 :=
  ⟨mul_assoc a b d, mul_comm a b, mul_add a b d, mul_one a, by
    have h : a - a = 0 := sub_self a
    exact h⟩

example : (⟨6⟩ : GF64) * ⟨3⟩ = ⟨10⟩ := by decide +kernel
example : (⟨9223372036854775808⟩ : GF64) * ⟨2⟩ = ⟨GF64.modulus⟩ := by decide +kernel

/-- C41 for gf64: the carry-less multiply instructions compute the same product. -/
theorem C41_gf64 (a b : GF64) : GF64.mulAsm a b = a * b := by
  refine GF64.rep.φ_inj ?_
  simp only [GF64.eval_eq]
  rw [GF64.eval_mulAsm GF64.root_eq, GF64.eval_mul GF64.root_eq]

example : GF64.mulAsm ⟨6⟩ ⟨9223372036854775808⟩ ≠ 0 := by decide +kernel

/-- C42 for gf64: the inverse of a nonzero element, in debug and release builds. -/
theorem C42_gf64_inverse (debug : Bool) (a : GF64) (ha : a ≠ 0) : ∃ b, a.inverse debug = .ok b ∧ a * b = 1 := by
  refine ⟨a ^ (2 ^ 64 - 2), ?_, GF64.rep.inv_pow GF64.prim GF64.order_prim a ha⟩
  have h0 : ¬ (debug = true ∧ a.isZero = true) := fun h => ha ((C40_gf64_eq a a).2.1 h.2)
  rw [GF64.inverse, if_neg h0, GF64.invChain_eq a]

/-- C42 for gf64: the inverse of zero is caught in a debug build and is zero in a release build. -/
theorem C42_gf64_inverse_zero : GF64.inverse true 0 = .abort ∧ GF64.inverse false 0 = .ok 0 := by
  refine ⟨rfl, ?_⟩
  rw [GF64.inverse, if_neg (by simp), GF64.invChain_eq 0, zero_pow (by norm_num)]

/-- C42 for gf64: powers with a multi-limb exponent. -/
theorem C42_gf64_pow (a : GF64) (e : List Limb) :
    bitPoly 64 (powerBigint a e).nat = (bitPoly 64 a.nat ^ val e) %ₘ gf64Poly := by
  rw [powerBigint_eq]
  exact GF64.rep.poly_pow a (val e)

/-- C42 for gf64: every element is a square; the square root is the inverse of squaring on both sides. -/
theorem C42_gf64_sqrt (a : GF64) : a.sqrt.squared = a ∧ a.squared.sqrt = a :=
  GF64.rep.sqrt_pow GF64.prim GF64.order_prim a _ (by decide +kernel)

example : (⟨5⟩ : GF64) ≠ 0 := by decide +kernel
example : (⟨16⟩ : GF64).sqrt = ⟨4⟩ := by
  have h : (⟨4⟩ : GF64).squared = ⟨16⟩ := by decide +kernel
  rw [← h]; exact (C42_gf64_sqrt _).2

/-- C43 for gf64: the documented polynomial is irreducible. -/
theorem C43_gf64_irreducible : Irreducible gf64Poly := GF64.rep.irreducible GF64.prim GF64.order_prim

/-- C43 for gf64: a field of `2^64` elements. -/
theorem C43_gf64_field : IsField GF64 ∧ Nat.card GF64 = 2 ^ 64 :=
  ⟨GF64.rep.isField GF64.prim GF64.order_prim, GF64.rep.card⟩

/-- C43 for gf64: every nonzero element is a power of the stored generator. -/
theorem C43_gf64_generator (a : GF64) (ha : a ≠ 0) : ∃ e : List Limb, e.length = 1 ∧ powerBigint GF64.generator e = a :=
  GF64.rep.gen_pow GF64.generator GF64.order_prim 1 (by norm_num) a ha

/-- C56 for gf64: words. -/
theorem C56_gf64_words (a : GF64) (more : List (BitVec 64)) :
    GF64.fromWords (a.toWords ++ more) = .ok (a, true) := by
  rfl

/-- C56 for gf64: every vector of enough words is accepted and gives the element with these low bits. -/
theorem C56_gf64_from_words (ws : List (BitVec 64)) :
    (1 ≤ ws.length → ∃ a, GF64.fromWords ws = .ok (a, true) ∧ a.nat = val ws % 2 ^ 64) ∧
    (ws.length < 1 → GF64.fromWords ws = .ub) := by
  constructor
  · intro h
    obtain ⟨w0, ws, rfl⟩ : ∃ w0 t, ws = w0 :: t := by
      match ws, h with
      | w0 :: t, _ => exact ⟨w0, t, rfl⟩
    refine ⟨_, rfl, ?_⟩
    simp only [GF64.nat, val_cons]
    have h0 := w0.isLt;
    generalize val ws = t
    omega
  · intro h
    match ws, h with
    | [], _ => rfl

/-- C56 for gf64: the text written by `<<` is read back by `>>`, whatever follows, unless that begins with a digit. -/
theorem C56_gf64_stream (a : GF64) (rest : List Byte) (hr : ∀ c ∈ rest.head?, ¬ (48 ≤ c.toNat ∧ c.toNat ≤ 57)) :
    GF64.read (a.write ++ rest) = .ok (a, rest) := by
  have h := readUInt_write 64 a.value.toNat a.value.isLt rest hr [] (by simp)
  rw [List.nil_append, BitVec.ofNat_toNat, BitVec.setWidth_eq] at h
  rw [GF64.read, GF64.write, h]
  rfl

example : GF64.read ((⟨7⟩ : GF64).write ++ [10, 65]) = .ok (⟨7⟩, [10, 65]) :=
  C56_gf64_stream _ _ (by decide)
example : GF64.fromWords [5, 1] = .ok (⟨5⟩, true) := by decide +kernel

/-! ## gf128 -/

/-- C40 for gf128: the operations are those of polynomials over GF(2) of degree below 128 modulo the
documented polynomial. -/
theorem C40_gf128 : PolyArith GF128 128 (fun a => bitPoly 128 a.nat) gf128Poly := GF128.rep.polyArith

/-- C40: addition and subtraction are the exclusive or of the values. -/
theorem C40_gf128_xor (a b : GF128) : (a + b).nat = a.nat ^^^ b.nat ∧ (a - b).nat = a.nat ^^^ b.nat ∧ -a = a := by
  refine ⟨?_, ?_, rfl⟩
  · exact GF128.nat_xor a b
  · exact GF128.nat_xor a b

/-- C40: the square. -/
theorem C40_gf128_squared (a : GF128) : bitPoly 128 a.squared.nat = (bitPoly 128 a.nat ^ 2) %ₘ gf128Poly := by
  rw [GF128.squared, pow_two]
  exact C40_gf128.mul a a

/-- C40: the comparisons. -/
theorem C40_gf128_eq (a b : GF128) : (GF128.eq a b = true ↔ a = b) ∧ (a.isZero = true ↔ a = 0) := by
  constructor
  · rw [GF128.ext_iff]; simp [GF128.eq, and_assoc]
  · rw [GF128.ext_iff]; simp only [GF128.isZero, Bool.and_eq_true, beq_iff_eq, and_assoc]; rfl

/-- C40: the ring laws. -/
theorem C40_gf128_ring (a b d : GF128) : (a * b) * d = a * (b * d) ∧ a * b = b * a ∧ a * (b + d) = a * b + a * d ∧
    a * 1 = a ∧ a + a = 0 :=
  ⟨mul_assoc a b d, mul_comm a b, mul_add a b d, mul_one a, by
    have h : a - a = 0 := sub_self a
    exact h⟩

example : (⟨6, 0⟩ : GF128) * ⟨3, 0⟩ = ⟨10, 0⟩ := by decide +kernel
example : (⟨0, 9223372036854775808⟩ : GF128) * ⟨2, 0⟩ = ⟨GF128.modulus, 0⟩ := by decide +kernel

/-- C41 for gf128: the carry-less multiply instructions compute the same product. -/
theorem C41_gf128 (a b : GF128) : GF128.mulAsm a b = a * b := by
  refine GF128.rep.φ_inj ?_
  simp only [GF128.eval_eq]
  rw [GF128.eval_mulAsm GF128.root_eq, GF128.eval_mul GF128.root_eq]

example : GF128.mulAsm ⟨6, 0⟩ ⟨0, 9223372036854775808⟩ ≠ 0 := by decide +kernel

/-- C42 for gf128: the inverse of a nonzero element, in debug and release builds. -/
theorem C42_gf128_inverse (debug : Bool) (a : GF128) (ha : a ≠ 0) : ∃ b, a.inverse debug = .ok b ∧ a * b = 1 := by
  refine ⟨a ^ (2 ^ 128 - 2), ?_, GF128.rep.inv_pow GF128.prim GF128.order_prim a ha⟩
  have h0 : ¬ (debug = true ∧ a.isZero = true) := fun h => ha ((C40_gf128_eq a a).2.1 h.2)
  rw [GF128.inverse, if_neg h0, gfInvLoop_eq 6 a]
  rfl

/-- C42 for gf128: the inverse of zero is caught in a debug build and is zero in a release build. -/
theorem C42_gf128_inverse_zero : GF128.inverse true 0 = .abort ∧ GF128.inverse false 0 = .ok 0 := by
  refine ⟨rfl, ?_⟩
  rw [GF128.inverse, if_neg (by simp), gfInvLoop_eq 6 0, zero_pow (by norm_num)]

/-- C42 for gf128: powers with a multi-limb exponent. -/
theorem C42_gf128_pow (a : GF128) (e : List Limb) :
    bitPoly 128 (powerBigint a e).nat = (bitPoly 128 a.nat ^ val e) %ₘ gf128Poly := by
  rw [powerBigint_eq]
  exact GF128.rep.poly_pow a (val e)

/-- C42 for gf128: every element is a square; the square root is the inverse of squaring on both sides. -/
theorem C42_gf128_sqrt (a : GF128) : a.sqrt.squared = a ∧ a.squared.sqrt = a :=
  GF128.rep.sqrt_pow GF128.prim GF128.order_prim a _ (by decide +kernel)

example : (⟨5, 0⟩ : GF128) ≠ 0 := by decide +kernel
example : (⟨16, 0⟩ : GF128).sqrt = ⟨4, 0⟩ := by
  have h : (⟨4, 0⟩ : GF128).squared = ⟨16, 0⟩ := by decide +kernel
  rw [← h]; exact (C42_gf128_sqrt _).2

/-- C43 for gf128: the documented polynomial is irreducible. -/
theorem C43_gf128_irreducible : Irreducible gf128Poly := GF128.rep.irreducible GF128.prim GF128.order_prim

/-- C43 for gf128: a field of `2^128` elements. -/
theorem C43_gf128_field : IsField GF128 ∧ Nat.card GF128 = 2 ^ 128 :=
  ⟨GF128.rep.isField GF128.prim GF128.order_prim, GF128.rep.card⟩

/-- C43 for gf128: every nonzero element is a power of the stored generator. -/
theorem C43_gf128_generator (a : GF128) (ha : a ≠ 0) : ∃ e : List Limb, e.length = 2 ∧ powerBigint GF128.generator e = a :=
  GF128.rep.gen_pow GF128.generator GF128.order_prim 2 (by norm_num) a ha

/-- C56 for gf128: words. -/
theorem C56_gf128_words (a : GF128) (more : List (BitVec 64)) :
    GF128.fromWords (a.toWords ++ more) = .ok (a, true) := by
  rfl

/-- C56 for gf128: every vector of enough words is accepted and gives the element with these low bits. -/
theorem C56_gf128_from_words (ws : List (BitVec 64)) :
    (2 ≤ ws.length → ∃ a, GF128.fromWords ws = .ok (a, true) ∧ a.nat = val ws % 2 ^ 128) ∧
    (ws.length < 2 → GF128.fromWords ws = .ub) := by
  constructor
  · intro h
    obtain ⟨w0, w1, ws, rfl⟩ : ∃ w0 w1 t, ws = w0 :: w1 :: t := by
      match ws, h with
      | w0 :: w1 :: t, _ => exact ⟨w0, w1, t, rfl⟩
    refine ⟨_, rfl, ?_⟩
    simp only [GF128.nat, val_cons]
    have h0 := w0.isLt; have h1 := w1.isLt;
    generalize val ws = t
    omega
  · intro h
    match ws, h with
    | [], _ => rfl
    | [_], _ => rfl

/-- C56 for gf128: the text written by `<<` is read back by `>>`, whatever follows, unless that begins with a digit. -/
theorem C56_gf128_stream (a : GF128) (rest : List Byte) (hr : ∀ c ∈ rest.head?, ¬ (48 ≤ c.toNat ∧ c.toNat ≤ 57)) :
    GF128.read (a.write ++ rest) = .ok (a, rest) := by
  have h0 := readUInt_write 64 a.v0.toNat a.v0.isLt (spaceByte :: (writeNat a.v1.toNat ++ rest)) (by intro c hc; simp only [List.head?_cons, Option.mem_def, Option.some.injEq] at hc; subst hc; decide) [] (by decide)
  rw [BitVec.ofNat_toNat, BitVec.setWidth_eq] at h0
  have h1 := readUInt_write 64 a.v1.toNat a.v1.isLt rest hr [spaceByte] (by decide)
  rw [BitVec.ofNat_toNat, BitVec.setWidth_eq] at h1
  simp only [List.nil_append, List.singleton_append, List.cons_append] at h0 h1
  rw [GF128.read, GF128.write]
  simp only [List.append_assoc, List.cons_append]
  rw [h0]
  show (readUInt 64 _).map _ = _
  rw [h1]
  rfl

example : GF128.read ((⟨7, 9⟩ : GF128).write ++ [10, 65]) = .ok (⟨7, 9⟩, [10, 65]) :=
  C56_gf128_stream _ _ (by decide)
example : GF128.fromWords [5, 6, 1] = .ok (⟨5, 6⟩, true) := by decide +kernel

/-! ## gf192 -/

/-- C40 for gf192: the operations are those of polynomials over GF(2) of degree below 192 modulo the
documented polynomial. -/
theorem C40_gf192 : PolyArith GF192 192 (fun a => bitPoly 192 a.nat) gf192Poly := GF192.rep.polyArith

/-- C40: addition and subtraction are the exclusive or of the values. -/
theorem C40_gf192_xor (a b : GF192) : (a + b).nat = a.nat ^^^ b.nat ∧ (a - b).nat = a.nat ^^^ b.nat ∧ -a = a := by
  refine ⟨?_, ?_, rfl⟩
  · exact GF192.nat_xor a b
  · exact GF192.nat_xor a b

/-- C40: the square. -/
theorem C40_gf192_squared (a : GF192) : bitPoly 192 a.squared.nat = (bitPoly 192 a.nat ^ 2) %ₘ gf192Poly := by
  rw [GF192.squared, pow_two]
  exact C40_gf192.mul a a

/-- C40: the comparisons. -/
theorem C40_gf192_eq (a b : GF192) : (GF192.eq a b = true ↔ a = b) ∧ (a.isZero = true ↔ a = 0) := by
  constructor
  · rw [GF192.ext_iff]; simp [GF192.eq, and_assoc]
  · rw [GF192.ext_iff]; simp only [GF192.isZero, Bool.and_eq_true, beq_iff_eq, and_assoc]; rfl

/-- C40: the ring laws. -/
theorem C40_gf192_ring (a b d : GF192) : (a * b) * d = a * (b * d) ∧ a * b = b * a ∧ a * (b + d) = a * b + a * d ∧
    a * 1 = a ∧ a + a = 0 :=
  ⟨mul_assoc a b d, mul_comm a b, mul_add a b d, mul_one a, by
    have h : a - a = 0 := sub_self a
    exact h⟩

example : (⟨6, 0, 0⟩ : GF192) * ⟨3, 0, 0⟩ = ⟨10, 0, 0⟩ := by decide +kernel
example : (⟨0, 0, 9223372036854775808⟩ : GF192) * ⟨2, 0, 0⟩ = ⟨GF192.modulus, 0, 0⟩ := by decide +kernel

/-- C41 for gf192: the carry-less multiply instructions compute the same product. -/
theorem C41_gf192 (a b : GF192) : GF192.mulAsm a b = a * b := by
  refine GF192.rep.φ_inj ?_
  simp only [GF192.eval_eq]
  rw [GF192.eval_mulAsm GF192.root_eq, GF192.eval_mul GF192.root_eq]

example : GF192.mulAsm ⟨6, 0, 0⟩ ⟨0, 0, 9223372036854775808⟩ ≠ 0 := by decide +kernel

/-- C42 for gf192: the inverse of a nonzero element, in debug and release builds. -/
theorem C42_gf192_inverse (debug : Bool) (a : GF192) (ha : a ≠ 0) : ∃ b, a.inverse debug = .ok b ∧ a * b = 1 := by
  refine ⟨a ^ (2 ^ 192 - 2), ?_, GF192.rep.inv_pow GF192.prim GF192.order_prim a ha⟩
  have h0 : ¬ (debug = true ∧ a.isZero = true) := fun h => ha ((C40_gf192_eq a a).2.1 h.2)
  rw [GF192.inverse, if_neg h0, GF192.invChain_eq a]

/-- C42 for gf192: the inverse of zero is caught in a debug build and is zero in a release build. -/
theorem C42_gf192_inverse_zero : GF192.inverse true 0 = .abort ∧ GF192.inverse false 0 = .ok 0 := by
  refine ⟨rfl, ?_⟩
  rw [GF192.inverse, if_neg (by simp), GF192.invChain_eq 0, zero_pow (by norm_num)]

/-- C42 for gf192: powers with a multi-limb exponent. -/
theorem C42_gf192_pow (a : GF192) (e : List Limb) :
    bitPoly 192 (powerBigint a e).nat = (bitPoly 192 a.nat ^ val e) %ₘ gf192Poly := by
  rw [powerBigint_eq]
  exact GF192.rep.poly_pow a (val e)

/-- C42 for gf192: every element is a square; the square root is the inverse of squaring on both sides. -/
theorem C42_gf192_sqrt (a : GF192) : a.sqrt.squared = a ∧ a.squared.sqrt = a :=
  GF192.rep.sqrt_pow GF192.prim GF192.order_prim a _ (by decide +kernel)

example : (⟨5, 0, 0⟩ : GF192) ≠ 0 := by decide +kernel
example : (⟨16, 0, 0⟩ : GF192).sqrt = ⟨4, 0, 0⟩ := by
  have h : (⟨4, 0, 0⟩ : GF192).squared = ⟨16, 0, 0⟩ := by decide +kernel
  rw [← h]; exact (C42_gf192_sqrt _).2

/-- C43 for gf192: the documented polynomial is irreducible. -/
theorem C43_gf192_irreducible : Irreducible gf192Poly := GF192.rep.irreducible GF192.prim GF192.order_prim

/-- C43 for gf192: a field of `2^192` elements. -/
theorem C43_gf192_field : IsField GF192 ∧ Nat.card GF192 = 2 ^ 192 :=
  ⟨GF192.rep.isField GF192.prim GF192.order_prim, GF192.rep.card⟩

/-- C43 is false of gf192: the element `x^2 + x + 1` is not a power of the stored `multiplicative_generator`. -/
theorem C43_gf192_generator_wrong (e : List Limb) : powerBigint GF192.generator e ≠ ⟨7, 0, 0⟩ := by
  intro h
  rw [powerBigint_eq] at h
  have h1 := GF192.order_prim
  rw [GF192.prim, ← h] at h1
  have h2 := orderOf_pow_dvd (x := GF192.generator) (val e)
  rw [h1, GF192.order_generator] at h2
  revert h2
  decide +kernel

/-- What holds for gf192: the powers of the stored generator are a subgroup of index 2169. -/
theorem C43_gf192_generator_partial (e : List Limb) :
    powerBigint GF192.generator e = 1 ↔ (2 ^ 192 - 1) / 2169 ∣ val e := by
  rw [powerBigint_eq, ← GF192.order_generator]
  exact orderOf_dvd_iff_pow_eq_one.symm

/-- For gf192 every nonzero element is a power of `x^2 + x + 1`. -/
theorem C43_gf192_other_generator_partial (a : GF192) (ha : a ≠ 0) :
    ∃ e : List Limb, e.length = 3 ∧ powerBigint (⟨7, 0, 0⟩ : GF192) e = a :=
  GF192.rep.gen_pow GF192.prim GF192.order_prim 3 (by norm_num) a ha

example : (2 ^ 192 - 1) % 2169 = 0 := by decide +kernel

/-- C56 for gf192: words. -/
theorem C56_gf192_words (a : GF192) (more : List (BitVec 64)) :
    GF192.fromWords (a.toWords ++ more) = .ok (a, true) := by
  rfl

/-- C56 for gf192: every vector of enough words is accepted and gives the element with these low bits. -/
theorem C56_gf192_from_words (ws : List (BitVec 64)) :
    (3 ≤ ws.length → ∃ a, GF192.fromWords ws = .ok (a, true) ∧ a.nat = val ws % 2 ^ 192) ∧
    (ws.length < 3 → GF192.fromWords ws = .ub) := by
  constructor
  · intro h
    obtain ⟨w0, w1, w2, ws, rfl⟩ : ∃ w0 w1 w2 t, ws = w0 :: w1 :: w2 :: t := by
      match ws, h with
      | w0 :: w1 :: w2 :: t, _ => exact ⟨w0, w1, w2, t, rfl⟩
    refine ⟨_, rfl, ?_⟩
    simp only [GF192.nat, val_cons]
    have h0 := w0.isLt; have h1 := w1.isLt; have h2 := w2.isLt;
    generalize val ws = t
    omega
  · intro h
    match ws, h with
    | [], _ => rfl
    | [_], _ => rfl
    | [_, _], _ => rfl

/-- C56 for gf192: the text written by `<<` is read back by `>>`, whatever follows, unless that begins with a digit. -/
theorem C56_gf192_stream (a : GF192) (rest : List Byte) (hr : ∀ c ∈ rest.head?, ¬ (48 ≤ c.toNat ∧ c.toNat ≤ 57)) :
    GF192.read (a.write ++ rest) = .ok (a, rest) := by
  have h0 := readUInt_write 64 a.v0.toNat a.v0.isLt (spaceByte :: (writeNat a.v1.toNat ++ (spaceByte :: (writeNat a.v2.toNat ++ rest)))) (by intro c hc; simp only [List.head?_cons, Option.mem_def, Option.some.injEq] at hc; subst hc; decide) [] (by decide)
  rw [BitVec.ofNat_toNat, BitVec.setWidth_eq] at h0
  have h1 := readUInt_write 64 a.v1.toNat a.v1.isLt (spaceByte :: (writeNat a.v2.toNat ++ rest)) (by intro c hc; simp only [List.head?_cons, Option.mem_def, Option.some.injEq] at hc; subst hc; decide) [spaceByte] (by decide)
  rw [BitVec.ofNat_toNat, BitVec.setWidth_eq] at h1
  have h2 := readUInt_write 64 a.v2.toNat a.v2.isLt rest hr [spaceByte] (by decide)
  rw [BitVec.ofNat_toNat, BitVec.setWidth_eq] at h2
  simp only [List.nil_append, List.singleton_append, List.cons_append] at h0 h1 h2
  rw [GF192.read, GF192.write]
  simp only [List.append_assoc, List.cons_append]
  rw [h0]
  show (readUInt 64 _).bind _ = _
  rw [h1]
  show (readUInt 64 _).map _ = _
  rw [h2]
  rfl

example : GF192.read ((⟨7, 9, 9⟩ : GF192).write ++ [10, 65]) = .ok (⟨7, 9, 9⟩, [10, 65]) :=
  C56_gf192_stream _ _ (by decide)
example : GF192.fromWords [5, 6, 6, 1] = .ok (⟨5, 6, 6⟩, true) := by decide +kernel

/-! ## gf256 -/

/-- C40 for gf256: the operations are those of polynomials over GF(2) of degree below 256 modulo the
documented polynomial. -/
theorem C40_gf256 : PolyArith GF256 256 (fun a => bitPoly 256 a.nat) gf256Poly := GF256.rep.polyArith

/-- C40: addition and subtraction are the exclusive or of the values. -/
theorem C40_gf256_xor (a b : GF256) : (a + b).nat = a.nat ^^^ b.nat ∧ (a - b).nat = a.nat ^^^ b.nat ∧ -a = a := by
  refine ⟨?_, ?_, rfl⟩
  · exact GF256.nat_xor a b
  · exact GF256.nat_xor a b

/-- C40: the square. -/
theorem C40_gf256_squared (a : GF256) : bitPoly 256 a.squared.nat = (bitPoly 256 a.nat ^ 2) %ₘ gf256Poly := by
  rw [GF256.squared, pow_two]
  exact C40_gf256.mul a a

/-- C40: the comparisons. -/
theorem C40_gf256_eq (a b : GF256) : (GF256.eq a b = true ↔ a = b) ∧ (a.isZero = true ↔ a = 0) := by
  constructor
  · rw [GF256.ext_iff]; simp [GF256.eq, and_assoc]
  · rw [GF256.ext_iff]; simp only [GF256.isZero, Bool.and_eq_true, beq_iff_eq, and_assoc]; rfl

/-- C40: the ring laws. -/
theorem C40_gf256_ring (a b d : GF256) : (a * b) * d = a * (b * d) ∧ a * b = b * a ∧ a * (b + d) = a * b + a * d ∧
    a * 1 = a ∧ a + a = 0 :=
  ⟨mul_assoc a b d, mul_comm a b, mul_add a b d, mul_one a, by
    have h : a - a = 0 := sub_self a
    exact h⟩

example : (⟨6, 0, 0, 0⟩ : GF256) * ⟨3, 0, 0, 0⟩ = ⟨10, 0, 0, 0⟩ := by decide +kernel
example : (⟨0, 0, 0, 9223372036854775808⟩ : GF256) * ⟨2, 0, 0, 0⟩ = ⟨GF256.modulus, 0, 0, 0⟩ := by decide +kernel

/-- C41 for gf256: the carry-less multiply instructions compute the same product. -/
theorem C41_gf256 (a b : GF256) : GF256.mulAsm a b = a * b := by
  refine GF256.rep.φ_inj ?_
  simp only [GF256.eval_eq]
  rw [GF256.eval_mulAsm GF256.root_eq, GF256.eval_mul GF256.root_eq]

example : GF256.mulAsm ⟨6, 0, 0, 0⟩ ⟨0, 0, 0, 9223372036854775808⟩ ≠ 0 := by decide +kernel

/-- C41 for gf256: the carry-less multiply instructions compute the same product (with `ASM_MINIMIZE_CLMULS`). -/
theorem C41_gf256_karatsuba (a b : GF256) : GF256.mulAsmKaratsuba a b = a * b := by
  refine GF256.rep.φ_inj ?_
  simp only [GF256.eval_eq]
  rw [GF256.eval_mulAsmKaratsuba GF256.root_eq, GF256.eval_mul GF256.root_eq]

example : GF256.mulAsmKaratsuba ⟨6, 0, 0, 0⟩ ⟨0, 0, 0, 9223372036854775808⟩ ≠ 0 := by decide +kernel

/-- C42 for gf256: the inverse of a nonzero element, in debug and release builds. -/
theorem C42_gf256_inverse (debug : Bool) (a : GF256) (ha : a ≠ 0) : ∃ b, a.inverse debug = .ok b ∧ a * b = 1 := by
  refine ⟨a ^ (2 ^ 256 - 2), ?_, GF256.rep.inv_pow GF256.prim GF256.order_prim a ha⟩
  have h0 : ¬ (debug = true ∧ a.isZero = true) := fun h => ha ((C40_gf256_eq a a).2.1 h.2)
  rw [GF256.inverse, if_neg h0, gfInvLoop_eq 7 a]
  rfl

/-- C42 for gf256: the inverse of zero is caught in a debug build and is zero in a release build. -/
theorem C42_gf256_inverse_zero : GF256.inverse true 0 = .abort ∧ GF256.inverse false 0 = .ok 0 := by
  refine ⟨rfl, ?_⟩
  rw [GF256.inverse, if_neg (by simp), gfInvLoop_eq 7 0, zero_pow (by norm_num)]

/-- C42 for gf256: powers with a multi-limb exponent. -/
theorem C42_gf256_pow (a : GF256) (e : List Limb) :
    bitPoly 256 (powerBigint a e).nat = (bitPoly 256 a.nat ^ val e) %ₘ gf256Poly := by
  rw [powerBigint_eq]
  exact GF256.rep.poly_pow a (val e)

/-- C42 for gf256: every element is a square; the square root is the inverse of squaring on both sides. -/
theorem C42_gf256_sqrt (a : GF256) : a.sqrt.squared = a ∧ a.squared.sqrt = a :=
  GF256.rep.sqrt_pow GF256.prim GF256.order_prim a _ (by decide +kernel)

example : (⟨5, 0, 0, 0⟩ : GF256) ≠ 0 := by decide +kernel
example : (⟨16, 0, 0, 0⟩ : GF256).sqrt = ⟨4, 0, 0, 0⟩ := by
  have h : (⟨4, 0, 0, 0⟩ : GF256).squared = ⟨16, 0, 0, 0⟩ := by decide +kernel
  rw [← h]; exact (C42_gf256_sqrt _).2

/-- C43 for gf256: the documented polynomial is irreducible. -/
theorem C43_gf256_irreducible : Irreducible gf256Poly := GF256.rep.irreducible GF256.prim GF256.order_prim

/-- C43 for gf256: a field of `2^256` elements. -/
theorem C43_gf256_field : IsField GF256 ∧ Nat.card GF256 = 2 ^ 256 :=
  ⟨GF256.rep.isField GF256.prim GF256.order_prim, GF256.rep.card⟩

/-- C43 for gf256: every nonzero element is a power of the stored generator. -/
theorem C43_gf256_generator (a : GF256) (ha : a ≠ 0) : ∃ e : List Limb, e.length = 4 ∧ powerBigint GF256.generator e = a :=
  GF256.rep.gen_pow GF256.generator GF256.order_prim 4 (by norm_num) a ha

/-- C56 for gf256: words. -/
theorem C56_gf256_words (a : GF256) (more : List (BitVec 64)) :
    GF256.fromWords (a.toWords ++ more) = .ok (a, true) := by
  rfl

/-- C56 for gf256: every vector of enough words is accepted and gives the element with these low bits. -/
theorem C56_gf256_from_words (ws : List (BitVec 64)) :
    (4 ≤ ws.length → ∃ a, GF256.fromWords ws = .ok (a, true) ∧ a.nat = val ws % 2 ^ 256) ∧
    (ws.length < 4 → GF256.fromWords ws = .ub) := by
  constructor
  · intro h
    obtain ⟨w0, w1, w2, w3, ws, rfl⟩ : ∃ w0 w1 w2 w3 t, ws = w0 :: w1 :: w2 :: w3 :: t := by
      match ws, h with
      | w0 :: w1 :: w2 :: w3 :: t, _ => exact ⟨w0, w1, w2, w3, t, rfl⟩
    refine ⟨_, rfl, ?_⟩
    simp only [GF256.nat, val_cons]
    have h0 := w0.isLt; have h1 := w1.isLt; have h2 := w2.isLt; have h3 := w3.isLt;
    generalize val ws = t
    omega
  · intro h
    match ws, h with
    | [], _ => rfl
    | [_], _ => rfl
    | [_, _], _ => rfl
    | [_, _, _], _ => rfl

/-- C56 for gf256: the text written by `<<` is read back by `>>`, whatever follows, unless that begins with a digit. -/
theorem C56_gf256_stream (a : GF256) (rest : List Byte) (hr : ∀ c ∈ rest.head?, ¬ (48 ≤ c.toNat ∧ c.toNat ≤ 57)) :
    GF256.read (a.write ++ rest) = .ok (a, rest) := by
  have h0 := readUInt_write 64 a.v0.toNat a.v0.isLt (spaceByte :: (writeNat a.v1.toNat ++ (spaceByte :: (writeNat a.v2.toNat ++ (spaceByte :: (writeNat a.v3.toNat ++ rest)))))) (by intro c hc; simp only [List.head?_cons, Option.mem_def, Option.some.injEq] at hc; subst hc; decide) [] (by decide)
  rw [BitVec.ofNat_toNat, BitVec.setWidth_eq] at h0
  have h1 := readUInt_write 64 a.v1.toNat a.v1.isLt (spaceByte :: (writeNat a.v2.toNat ++ (spaceByte :: (writeNat a.v3.toNat ++ rest)))) (by intro c hc; simp only [List.head?_cons, Option.mem_def, Option.some.injEq] at hc; subst hc; decide) [spaceByte] (by decide)
  rw [BitVec.ofNat_toNat, BitVec.setWidth_eq] at h1
  have h2 := readUInt_write 64 a.v2.toNat a.v2.isLt (spaceByte :: (writeNat a.v3.toNat ++ rest)) (by intro c hc; simp only [List.head?_cons, Option.mem_def, Option.some.injEq] at hc; subst hc; decide) [spaceByte] (by decide)
  rw [BitVec.ofNat_toNat, BitVec.setWidth_eq] at h2
  have h3 := readUInt_write 64 a.v3.toNat a.v3.isLt rest hr [spaceByte] (by decide)
  rw [BitVec.ofNat_toNat, BitVec.setWidth_eq] at h3
  simp only [List.nil_append, List.singleton_append, List.cons_append] at h0 h1 h2 h3
  rw [GF256.read, GF256.write]
  simp only [List.append_assoc, List.cons_append]
  rw [h0]
  show (readUInt 64 _).bind _ = _
  rw [h1]
  show (readUInt 64 _).bind _ = _
  rw [h2]
  show (readUInt 64 _).map _ = _
  rw [h3]
  rfl

example : GF256.read ((⟨7, 9, 9, 9⟩ : GF256).write ++ [10, 65]) = .ok (⟨7, 9, 9, 9⟩, [10, 65]) :=
  C56_gf256_stream _ _ (by decide)
example : GF256.fromWords [5, 6, 6, 6, 1] = .ok (⟨5, 6, 6, 6⟩, true) := by decide +kernel

end Libff