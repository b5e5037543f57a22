import Verif.Lemmas.Counters
import Verif.Lemmas.Witness
import Verif.Lemmas.Tower
import Verif.Lemmas.Algorithms

/-!
# C71: operation counters are exact

`PROFILE_OP_COUNTS` (libff/algebra/fields): the counters of a class grow by one per call.  For prime fields of three limbs in a build
with `USE_ASM` this is false; the theorem for prime fields is therefore partial.
-/
namespace Libff
open CM

section
variable {K : Type} [Add K] [Sub K] [Neg K] [Mul K] [Squared K] [InverseO K] [LawfulSquared K] (asm3 : Bool)

private theorem own_quad {κ : FOp → Counters TowerCls} {ν : Counters TowerCls} {c : TowerCls} (h : ∀ o k, κ o c k = 0)
    (hν : ∀ k, ν c k = 0) : OwnUnit (quadCost c κ ν) c := by
  refine ⟨?_, ?_, ?_, ?_, ?_⟩ <;> intro k <;> simp [quadCost, unitC, h, hν]

private theorem own_cubic {κ : FOp → Counters TowerCls} {ν : Counters TowerCls} {c : TowerCls} (h : ∀ o k, κ o c k = 0)
    (hν : ∀ k, ν c k = 0) : OwnUnit (cubicCost c κ ν) c := by
  refine ⟨?_, ?_, ?_, ?_, ?_⟩ <;> intro k <;> simp [cubicCost, unitC, h, hν]

/-- **Prime fields**: in every build without `USE_ASM`, and for every number of limbs but three with it, the counters of `Fp_model` count
the calls.  Missing: `USE_ASM` with three limbs, where it is false (`C71_Fp_asm3_wrong`). -/
theorem C71_Fp_partial : CountsCalls (FpC false) (pureOps K) .Fp :=
  (FpC_exact false).countsCalls ⟨by decide, by decide, by decide, by decide, by decide⟩

/-- With `USE_ASM` and three limbs each squaring takes one product back: after `n` squarings the counter of products is `n` too low. -/
theorem C71_Fp_asm3_wrong (xs : List K) (s : Counters TowerCls) :
    ∃ s', Call.execs (FpC true) (xs.map Call.squared) s = .ok (xs.map squared, s') ∧ s' .Fp .mul = s .Fp .mul - xs.length := by
  induction xs generalizing s with
  | nil => exact ⟨s, rfl, by simp⟩
  | cons x xs ih =>
    obtain ⟨s', e, h⟩ := ih (s + fpCost true .sqr)
    refine ⟨s', ?_, ?_⟩
    · simp only [List.map_cons, Call.execs, Call.exec]
      rw [(FpC_exact true).squared x s]
      simp only [Outcome.bind_ok, e, Outcome.map_ok]
      rfl
    · have hd : fpCost true .sqr .Fp .mul = -1 := by decide
      rw [h, Pi.add_apply, Pi.add_apply, hd, List.length_cons]
      push_cast
      ring

/-- Hence the counters of three-limb prime fields with `USE_ASM` do not count the calls. -/
theorem C71_Fp_asm3_not_exact [Inhabited K] : ¬CountsCalls (FpC true) (pureOps K) .Fp := fun h => by
  have h1 := h [.squared default] 0
  obtain ⟨s1, e1, c1⟩ := h1
  obtain ⟨s2, e2, c2⟩ := C71_Fp_asm3_wrong [(default : K)] 0
  have e : s1 = s2 := congrArg Prod.snd (Outcome.ok.inj (e1.symm.trans e2))
  have := c1 .mul
  rw [e, c2] at this
  simp [Call.kind] at this

/-- **Extension fields** count their calls in every build. -/
theorem C71_Fp2 (β : K) : CountsCalls (Fp2C asm3 β) (pureOps (Fp2 K β)) .Fp2 :=
  (Fp2C_exact asm3 β).countsCalls (own_quad (by cases asm3 <;> decide) (by cases asm3 <;> decide))

theorem C71_Fp3 (β : K) : CountsCalls (Fp3C asm3 β) (pureOps (Fp3 K β)) .Fp3 :=
  (Fp3C_exact asm3 β).countsCalls (own_cubic (by cases asm3 <;> decide) (by cases asm3 <;> decide))

theorem C71_Fp4 (β γ : K) : CountsCalls (Fp4C asm3 β γ) (pureOps (Fp4 K β γ)) .Fp4 :=
  (Fp4C_exact asm3 β γ).countsCalls (own_quad (by cases asm3 <;> decide) (by cases asm3 <;> decide))

theorem C71_Fp6_2over3 (β γ : K) : CountsCalls (Fp6_2over3C asm3 β γ) (pureOps (Fp6_2over3 K β γ)) .Fp6_2over3 :=
  (Fp6_2over3C_exact asm3 β γ).countsCalls (own_quad (by cases asm3 <;> decide) (by cases asm3 <;> decide))

theorem C71_Fp6_3over2 (β : K) (ξ : Fp2 K β) : CountsCalls (Fp6_3over2C asm3 β ξ) (pureOps (Fp6_3over2 K β ξ)) .Fp6_3over2 :=
  (Fp6_3over2C_exact asm3 β ξ).countsCalls (own_cubic (by cases asm3 <;> decide) (by cases asm3 <;> decide))

theorem C71_Fp12 (β : K) (ξ γ : Fp2 K β) : CountsCalls (Fp12C asm3 β ξ γ) (pureOps (Fp12 K β ξ γ)) .Fp12 :=
  (Fp12C_exact asm3 β ξ γ).countsCalls (own_quad (by cases asm3 <;> decide) (by cases asm3 <;> decide))

/-- **Unary minus** is counted as a subtraction by `Fp_model` and not at all by the other classes: here `Fp2_model`. -/
theorem C71_neg_Fp (x : K) (s : Counters TowerCls) :
    ∃ s', (FpC asm3).neg x s = .ok (-x, s') ∧ s' .Fp .sub = s .Fp .sub + 1 :=
  ⟨_, (FpC_exact asm3).neg x s, by rw [Pi.add_apply, Pi.add_apply]; rfl⟩

theorem C71_neg_Fp2 (β : K) (x : Fp2 K β) (s : Counters TowerCls) :
    ∃ s', (Fp2C asm3 β).neg x s = .ok (-x, s') ∧ ∀ k, s' .Fp2 k = s .Fp2 k :=
  ⟨_, (Fp2C_exact asm3 β).neg x s, by
    intro k
    rw [Pi.add_apply, Pi.add_apply]
    have : fp2Cost asm3 .neg .Fp2 k = 0 := by revert k; cases asm3 <;> decide
    rw [this, add_zero]⟩

/-- **Costs**: what each operation adds to the counters of the prime field. Additions, subtractions, products, squarings, inversions. -/
theorem C71_cost_Fp2 (β : K) : HasCost (Fp2C false β) (pureOps (Fp2 K β)) .Fp
    { add := ⟨2, 0, 0, 0, 0⟩, sub := ⟨0, 2, 0, 0, 0⟩, neg := ⟨0, 2, 0, 0, 0⟩, mul := ⟨3, 2, 4, 0, 0⟩,
      squared := ⟨3, 2, 4, 0, 0⟩, inverse := ⟨0, 2, 3, 2, 1⟩ } :=
  (Fp2C_exact false β).hasCost _

theorem C71_cost_Fp3 (β : K) : HasCost (Fp3C false β) (pureOps (Fp3 K β)) .Fp
    { add := ⟨3, 0, 0, 0, 0⟩, sub := ⟨0, 3, 0, 0, 0⟩, neg := ⟨0, 3, 0, 0, 0⟩, mul := ⟨9, 6, 8, 0, 0⟩,
      squared := ⟨7, 3, 4, 3, 0⟩, inverse := ⟨2, 3, 12, 3, 1⟩ } :=
  (Fp3C_exact false β).hasCost _

theorem C71_cost_Fp4 (β γ : K) : HasCost (Fp4C false β γ) (pureOps (Fp4 K β γ)) .Fp
    { add := ⟨4, 0, 0, 0, 0⟩, sub := ⟨0, 4, 0, 0, 0⟩, neg := ⟨0, 4, 0, 0, 0⟩, mul := ⟨15, 10, 13, 0, 0⟩,
      squared := ⟨12, 8, 10, 0, 0⟩, inverse := ⟨12, 14, 20, 2, 1⟩ } :=
  (Fp4C_exact false β γ).hasCost _

theorem C71_cost_Fp6_2over3 (β γ : K) : HasCost (Fp6_2over3C false β γ) (pureOps (Fp6_2over3 K β γ)) .Fp
    { add := ⟨6, 0, 0, 0, 0⟩, sub := ⟨0, 6, 0, 0, 0⟩, neg := ⟨0, 6, 0, 0, 0⟩, mul := ⟨36, 24, 25, 0, 0⟩,
      squared := ⟨27, 18, 18, 0, 0⟩, inverse := ⟨34, 27, 37, 9, 1⟩ } :=
  (Fp6_2over3C_exact false β γ).hasCost _

theorem C71_cost_Fp6_3over2 (β : K) (ξ : Fp2 K β) : HasCost (Fp6_3over2C false β ξ) (pureOps (Fp6_3over2 K β ξ)) .Fp
    { add := ⟨6, 0, 0, 0, 0⟩, sub := ⟨0, 6, 0, 0, 0⟩, neg := ⟨0, 6, 0, 0, 0⟩, mul := ⟨42, 28, 32, 0, 0⟩,
      squared := ⟨35, 20, 28, 0, 0⟩, inverse := ⟨49, 38, 63, 2, 1⟩ } :=
  (Fp6_3over2C_exact false β ξ).hasCost _

theorem C71_cost_Fp12 (β : K) (ξ γ : Fp2 K β) : HasCost (Fp12C false β ξ γ) (pureOps (Fp12 K β ξ γ)) .Fp
    { add := ⟨12, 0, 0, 0, 0⟩, sub := ⟨0, 12, 0, 0, 0⟩, neg := ⟨0, 12, 0, 0, 0⟩, mul := ⟨147, 98, 100, 0, 0⟩,
      squared := ⟨108, 72, 72, 0, 0⟩, inverse := ⟨206, 148, 187, 2, 1⟩ } :=
  (Fp12C_exact false β ξ γ).hasCost _

end

/-! ## Binary fields -/

/-- The operations of the binary fields without counters; `debug`: the build has `assert`. -/
def gf32Ops (debug : Bool) : PureOps GF32 := ⟨(· + ·), (· - ·), (- ·), (· * ·), GF32.squared, GF32.inverse debug⟩
def gf64Ops (debug : Bool) : PureOps GF64 := ⟨(· + ·), (· - ·), (- ·), (· * ·), GF64.squared, GF64.inverse debug⟩
def gf128Ops (debug : Bool) : PureOps GF128 := ⟨(· + ·), (· - ·), (- ·), (· * ·), GF128.squared, GF128.inverse debug⟩
def gf192Ops (debug : Bool) : PureOps GF192 := ⟨(· + ·), (· - ·), (- ·), (· * ·), GF192.squared, GF192.inverse debug⟩
def gf256Ops (debug : Bool) : PureOps GF256 := ⟨(· + ·), (· - ·), (- ·), (· * ·), GF256.squared, GF256.inverse debug⟩

section
variable {K : Type} [Add K] [Sub K] [Neg K] [Mul K]

private theorem gfC_exact (c : GfCls) (inv : K → CM GfCls K) (pinv : K → Outcome K)
    (h : ∀ x s, inv x s = (pinv x).map fun y => (y, s + gfCost c .inv)) :
    Exact (gfC c inv) ⟨(· + ·), (· - ·), (- ·), (· * ·), fun x => x * x, pinv⟩ (gfCost c) where
  add x y s := by simp only [gfC, bind_apply, bump_apply, Outcome.bind_ok, pure_apply]; rfl
  sub x y s := by simp only [gfC, bind_apply, bump_apply, Outcome.bind_ok, pure_apply]; rfl
  neg x s := by simp only [gfC, pure_apply, gfCost, add_zero]
  mul x y s := gfMulC_apply c x y s
  squared x s := gfSquareC_apply c x s
  inverse := h
end

private theorem own_gf (c : GfCls) : OwnUnit (gfCost c) c := by revert c; unfold OwnUnit; decide

/-- **Binary fields** count their calls: although `square()` and `inverse()` are written with other operations of the class, the amounts
subtracted in advance are those that these operations add. -/
theorem C71_gf32 (debug : Bool) : CountsCalls (gf32C debug) (gf32Ops debug) .gf32 :=
  (gfC_exact .gf32 _ (GF32.inverse debug) (gfInverseC_apply debug _ _ 4 9 31 (by decide) (by decide))).countsCalls (own_gf _)

theorem C71_gf64 (debug : Bool) : CountsCalls (gf64C debug) (gf64Ops debug) .gf64 :=
  (gfC_exact .gf64 _ (GF64.inverse debug) (gf64InverseC_apply debug)).countsCalls (own_gf _)

theorem C71_gf128 (debug : Bool) : CountsCalls (gf128C debug) (gf128Ops debug) .gf128 :=
  (gfC_exact .gf128 _ (GF128.inverse debug) (gfInverseC_apply debug _ _ 6 13 127 (by decide) (by decide))).countsCalls (own_gf _)

theorem C71_gf192 (debug : Bool) : CountsCalls (gf192C debug) (gf192Ops debug) .gf192 :=
  (gfC_exact .gf192 _ (GF192.inverse debug) (gf192InverseC_apply debug)).countsCalls (own_gf _)

theorem C71_gf256 (debug : Bool) : CountsCalls (gf256C debug) (gf256Ops debug) .gf256 :=
  (gfC_exact .gf256 _ (GF256.inverse debug) (gfInverseC_apply debug _ _ 7 15 255 (by decide) (by decide))).countsCalls (own_gf _)

/-! ## Exponentiation -/

/-- **Exponentiation** with a `bigint` exponent of any length: the result is the power, and every counter of every class has grown by
`powMuls` times what a product costs; in particular squarings are counted as products. -/
theorem C71_power {C K : Type} [Monoid K] {F : CField C K} {P : PureOps K} (hP : P.mul = (· * ·)) {κ : Counters C}
    (hF : ∀ x y s, F.mul x y s = .ok (P.mul x y, fun c k => s c k + κ c k)) (base : K) (e : List Limb) (s : Counters C) :
    powerC F base e s = .ok (base ^ val e, fun c k => s c k + powMuls (val e) * κ c k) := by
  have hmul : ∀ x y s, F.mul x y s = .ok (x * y, fun c k => s c k + κ c k) := by rw [hP] at hF; exact hF
  have hb : testBit e = (val e).testBit := funext (testBit_eq e)
  have hlt : val e < 2 ^ bigintMaxBits e := by
    have := val_lt e
    rwa [bigintMaxBits, Nat.mul_comm]
  unfold powerC
  rw [bind_apply, powerLoopC_apply hmul, Outcome.bind_ok, pure_apply, ← powerBigint_eq]
  unfold powerBigint
  rw [hb, powCount_eq _ _ hlt]

set_option synthInstance.maxSize 2000 in
/-- With the counters of the extension field itself: the counter of products grows by `powMuls`, that of squarings not at all. -/
theorem C71_power_Fp12 {K : Type} [Field K] [Squared K] [InverseO K] [LawfulSquared K] (asm3 : Bool) (β : K) (ξ : Fp2 K β)
    (base : Fp12 K β ξ ξ) (e : List Limb) (s : Counters TowerCls) :
    ∃ s', powerC (Fp12C asm3 β ξ ξ) base e s = .ok (base ^ val e, s') ∧ s' .Fp12 .mul = s .Fp12 .mul + powMuls (val e) ∧
      s' .Fp12 .sqr = s .Fp12 .sqr := by
  refine ⟨_, C71_power (F := Fp12C asm3 β ξ ξ) (P := pureOps _) rfl (κ := fp12Cost asm3 .mul) (fun x y s => (Fp12C_exact asm3 β ξ ξ).mul x y s) base e s, ?_, ?_⟩
  · have : fp12Cost asm3 .mul .Fp12 .mul = 1 := by cases asm3 <;> decide
    rw [this, mul_one]
  · have : fp12Cost asm3 .mul .Fp12 .sqr = 0 := by cases asm3 <;> decide
    rw [this, mul_zero, add_zero]

/-! ## Non-vacuity -/

section
open scoped Libff.Witness

/-- The exponent 13 = 1101 in binary costs six products: three squarings and three products. -/
example : powMuls 13 = 6 := by decide

/-- A history of four calls in `gf64`: values and counters. -/
example : ∃ s', Call.execs (gf64C true) [.mul ⟨2⟩ ⟨3⟩, .squared ⟨2⟩, .inverse ⟨1⟩, .mul ⟨2⟩ ⟨2⟩] 0 =
      .ok ([⟨6⟩, ⟨4⟩, ⟨1⟩, ⟨4⟩], s') ∧ OpCounts.of s' .gf64 = ⟨0, 0, 2, 1, 1⟩ := by
  have h := C71_gf64 true [.mul ⟨2⟩ ⟨3⟩, .squared ⟨2⟩, .inverse ⟨1⟩, .mul ⟨2⟩ ⟨2⟩] 0
  have e : Call.values (gf64Ops true) [.mul ⟨2⟩ ⟨3⟩, .squared ⟨2⟩, .inverse ⟨1⟩, .mul ⟨2⟩ ⟨2⟩] = .ok [⟨6⟩, ⟨4⟩, ⟨1⟩, ⟨4⟩] := by
    decide +kernel
  rw [e] at h
  obtain ⟨s', e', hs⟩ := h
  refine ⟨s', e', ?_⟩
  unfold OpCounts.of
  rw [hs, hs, hs, hs, hs]
  decide

/-- The failing case exists: squarings in a field of five elements. -/
example : ¬CountsCalls (FpC true) (pureOps (ZMod 5)) .Fp := C71_Fp_asm3_not_exact

/-- In a debug build `inverse()` of zero aborts, with counters as without. -/
example : Call.execs (gf64C true) [.inverse ⟨0⟩] 0 = .abort := C71_gf64 true [.inverse ⟨0⟩] 0

end

end Libff
