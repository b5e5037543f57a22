import Verif.Lemmas.FpAsm3
import Verif.Lemmas.FieldsEdwards
import Verif.Lemmas.FieldsAltBn128
import Verif.Lemmas.FieldsMnt4

/-!
# C53: the assembly kernels compute what the portable code computes

The model of the assembly runs the instructions of fp_aux.tcc on a machine with 64-bit registers, a carry and a zero flag, and memory as
separate arrays (`Verif/Model/X86.lean`). The functions `asmAddAssign`, `asmSubAssign`, `asmMulReduce`, `asmSquared`
(`Verif/Model/FpAsm.lean`) take what is not determined by the C++ code as further arguments: `J`, `J2`, `J3` are the contents of all
registers and flags when an `asm` statement begins, `t` is the content of the uninitialised local array, and `same` says whether the
argument is the object itself (`x += x`). The theorems hold for all of them. An outcome `.ok` also says that every memory access is
inside its array.
-/
namespace Libff
open X86

/-- C53. Addition: the assembly has the outcome of the portable code, for all stored elements, moduli of `n` words, register contents,
and also if both operands are the same object. -/
theorem C53_add (P : FpParams) (hlen : P.modulus.length = P.n) (J : Junk) (same : Bool) (a b : List Limb) (ha : a.length = P.n)
    (hb : b.length = P.n) (hap : val a < P.p) (hbp : val b < P.p) (hs : same = true → b = a) :
    asmAddAssign P J same a b = addAssign P a b :=
  asmAddAssign_eq P hlen J same a b ha hb hap hbp hs

/-- C53. Subtraction. -/
theorem C53_sub (P : FpParams) (hlen : P.modulus.length = P.n) (J : Junk) (same : Bool) (a b : List Limb) (ha : a.length = P.n)
    (hb : b.length = P.n) (hap : val a < P.p) (hbp : val b < P.p) (hs : same = true → b = a) :
    asmSubAssign P J same a b = subAssign P a b :=
  asmSubAssign_eq P hlen J same a b ha hb hap hbp hs

/-- C53. Montgomery multiplication. As for the portable code (`C02_mul_reduce`) one of the factors has to be reduced. -/
theorem C53_mul (P : FpParams) (hP : P.Valid) (J J2 J3 : Junk) (t : List Limb) (same : Bool) (a b : List Limb) (ha : a.length = P.n)
    (hb : b.length = P.n) (hlt : val a < P.p ∨ val b < P.p) (ht : t.length = if P.n = 3 then 6 else P.n + 1) (hs : same = true → b = a) :
    asmMulReduce P J J2 J3 t same a b = mulReduce P a b := by
  refine asmMulReduce_eq P hP J J2 J3 t same a b ha hb ht ?_ hs
  rcases hlt with h | h
  · rw [Nat.mul_comm (val a)]; exact lt_pR hP hb h
  · exact lt_pR hP ha h

/-- C53. Squaring. -/
theorem C53_sq (P : FpParams) (hP : P.Valid) (J J2 J3 : Junk) (t : List Limb) (a : List Limb) (ha : a.length = P.n)
    (hlt : val a < P.p) (ht : t.length = if P.n = 3 then 6 else P.n + 1) :
    asmSquared P J J2 J3 t a = sqRepr P a :=
  asmSquared_eq P hP J J2 J3 t a ha ht (lt_pR hP ha hlt)

/-- C53 in terms of residues: with the assembly, too, the field operations on the stored forms of `x` and `y` give the stored forms of
`x + y`, `x - y`, `x * y` and `x ^ 2`. -/
theorem C53_residues (P : FpParams) (hP : P.Valid) (J J2 J3 : Junk) (t : List Limb) (same : Bool) (a b : List Limb) (x y : ZMod P.p)
    (ha : Represents P a x) (hb : Represents P b y) (ht : t.length = if P.n = 3 then 6 else P.n + 1) (hs : same = true → b = a) :
    (∃ r, asmAddAssign P J same a b = .ok r ∧ Represents P r (x + y)) ∧ (∃ r, asmSubAssign P J same a b = .ok r ∧ Represents P r (x - y)) ∧
    (∃ r, asmMulReduce P J J2 J3 t same a b = .ok r ∧ Represents P r (x * y)) ∧ (∃ r, asmSquared P J J2 J3 t a = .ok r ∧ Represents P r (x ^ 2)) := by
  rw [C53_add P hP.len J same a b ha.len hb.len ha.lt hb.lt hs, C53_sub P hP.len J same a b ha.len hb.len ha.lt hb.lt hs,
    C53_mul P hP J J2 J3 t same a b ha.len hb.len (.inl ha.lt) ht hs, C53_sq P hP J J2 J3 t a ha.len ha.lt ht, pow_two]
  exact ⟨ha.add hP hb, ha.sub hP hb, ha.mul hP hb, ha.mul hP ha⟩

/-- Three, four and five words occur: edwards, alt_bn128 and mnt4. -/
example : (edwards_Fr_params.n = 3 ∧ edwards_Fr_params.Valid) ∧ (alt_bn128_Fq_params.n = 4 ∧ alt_bn128_Fq_params.Valid) ∧
    (mnt4_Fq_params.n = 5 ∧ mnt4_Fq_params.Valid) :=
  ⟨⟨rfl, edwards_Fr_valid.out⟩, ⟨rfl, alt_bn128_Fq_valid.out⟩, ⟨rfl, mnt4_Fq_valid.out⟩⟩

/-- Registers and flags filled with ones. -/
def junkOnes : Junk := ⟨fun _ => 0xffffffffffffffff, true, some true⟩

/-- Runs of the assembly on concrete elements: `(p - 1) + (p - 2)` wraps around, `1 - 2` borrows, and a product. -/
example : asmAddAssign alt_bn128_Fq_params junkOnes false (limbsOf 4 (alt_bn128_Fq_params.p - 1)) (limbsOf 4 (alt_bn128_Fq_params.p - 2))
    = .ok (limbsOf 4 (alt_bn128_Fq_params.p - 3)) := by decide +kernel
example : asmSubAssign mnt4_Fq_params junkOnes false (limbsOf 5 1) (limbsOf 5 2) = .ok (limbsOf 5 (mnt4_Fq_params.p - 1)) := by decide +kernel
example : asmMulReduce alt_bn128_Fq_params junkOnes junkOnes junkOnes [7, 7, 7, 7, 7] false (limbsOf 4 (alt_bn128_Fq_params.p - 1)) alt_bn128_Fq_params.Rsquared
    = .ok (limbsOf 4 (alt_bn128_Fq_params.p - 2 ^ 256 % alt_bn128_Fq_params.p)) := by decide +kernel
example : asmMulReduce edwards_Fr_params junkOnes junkOnes junkOnes [7, 7, 7, 7, 7, 7] false (limbsOf 3 (edwards_Fr_params.p - 1)) edwards_Fr_params.Rsquared
    = .ok (limbsOf 3 (edwards_Fr_params.p - 2 ^ 192 % edwards_Fr_params.p)) := by decide +kernel
example : asmSquared edwards_Fr_params junkOnes junkOnes junkOnes [7, 7, 7, 7, 7, 7] (limbsOf 3 (edwards_Fr_params.p - 1))
    = sqRepr edwards_Fr_params (limbsOf 3 1) := by decide +kernel

/-- A modulus of four words that uses the top bit. -/
def fullFour : FpParams := ⟨4, limbsOf 4 (2 ^ 256 - 1), 1, limbsOf 4 1, limbsOf 4 1⟩

/-- The clear top bit is needed here as well. For a modulus that uses all bits (and is odd, with the right `inv`) the portable code stops
at an assertion (`C02_topBit_needed`), but the assembly ignores the word above the result and returns `0` for `(p - 1) * (p - 1)`, which is
wrong: `0` does not represent a product of two units. -/
theorem C53_topBit_needed : ∃ (P : FpParams) (a : List Limb), P.n = 4 ∧ P.modulus.length = P.n ∧ a.length = P.n ∧ val a < P.p ∧
    (P.inv.toNat * P.p + 1) % 2 ^ 64 = 0 ∧ asmMulReduce P junkOnes junkOnes junkOnes [0, 0, 0, 0, 0] true a a = .ok [0, 0, 0, 0] ∧
    ¬ (0 * 2 ^ (64 * P.n) ≡ val a * val a [MOD P.p]) ∧ mulReduce P a a = .abort :=
  ⟨fullFour, limbsOf 4 (2 ^ 256 - 2), by decide +kernel⟩

end Libff
