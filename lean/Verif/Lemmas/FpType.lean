import Verif.Lemmas.Represents
import Mathlib.Algebra.Ring.InjSurj

/-!
# The type of stored field elements and its algebraic structure

`Fp P` is the type of the values an `Fp_model<n, modulus>` object can hold (canonical Montgomery
representatives).  All operations are the results of the limb-level code (`Verif/Model/Fp.lean`).
-/
namespace Libff

/-- Objects of class `Fp_model<n, modulus>` (fp.hpp:44-56): a reduced `mont_repr`. -/
@[ext] structure Fp (P : FpParams) where
  repr : List Limb
  len : repr.length = P.n
  lt : val repr < P.p
  deriving DecidableEq

namespace Fp
variable {P : FpParams} [hP : Fact P.Valid]

/-- The element returned by a limb-level computation that is known to succeed. -/
def ofOutcome (o : Outcome (List Limb)) (h : ∃ r, o = .ok r ∧ r.length = P.n ∧ val r < P.p) :
    Fp P :=
  ⟨o.get (h.imp fun _ hr => hr.1),
    by obtain ⟨r, rfl, hl, _⟩ := h; exact hl, by obtain ⟨r, rfl, _, hlt⟩ := h; exact hlt⟩

omit hP in
theorem ofOutcome_repr (o : Outcome (List Limb)) (h : ∃ r, o = .ok r ∧
    r.length = P.n ∧ val r < P.p) : o = .ok (ofOutcome o h).repr := Outcome.eq_ok_get _ _

/-- The residue an object denotes. -/
def toZMod (x : Fp P) : ZMod P.p := (val x.repr : ZMod P.p) * ((2 : ZMod P.p) ^ (64 * P.n))⁻¹

theorem represents (x : Fp P) : Represents P x.repr x.toZMod :=
  Represents.exists_val hP.out x.len x.lt

omit hP in
omit hP in
theorem ofOutcome_represents {o : Outcome (List Limb)} {z : ZMod P.p}
    (h : ∃ r, o = .ok r ∧ Represents P r z) : ∃ r, o = .ok r ∧ r.length = P.n ∧ val r < P.p := by
  obtain ⟨r, h1, h2⟩ := h; exact ⟨r, h1, h2.len, h2.lt⟩

theorem toZMod_ofOutcome {o : Outcome (List Limb)} {z : ZMod P.p}
    (h : ∃ r, o = .ok r ∧ Represents P r z) (h') : (ofOutcome (P := P) o h').toZMod = z := by
  obtain ⟨r, rfl, h2⟩ := h
  exact Represents.val_unique hP.out (represents _) h2

theorem toZMod_injective : Function.Injective (toZMod : Fp P → ZMod P.p) := by
  intro x y h
  have hx := represents x
  rw [h] at hx
  exact Fp.ext (Represents.inj hx (represents y))

/-- `operator+` (fp.tcc:545-550 via `+=`). -/
instance : Add (Fp P) := ⟨fun x y => ofOutcome (addAssign P x.repr y.repr)
  (ofOutcome_represents (Represents.add hP.out x.represents y.represents))⟩
/-- `operator-` (fp.tcc:552-557 via `-=`). -/
instance : Sub (Fp P) := ⟨fun x y => ofOutcome (subAssign P x.repr y.repr)
  (ofOutcome_represents (Represents.sub hP.out x.represents y.represents))⟩
/-- unary `operator-`. -/
instance : Neg (Fp P) := ⟨fun x => ⟨negRepr P x.repr, (Represents.neg hP.out x.represents).len,
  (Represents.neg hP.out x.represents).lt⟩⟩
/-- `operator*` (via `*=` and `mul_reduce`). -/
instance : Mul (Fp P) := ⟨fun x y => ofOutcome (mulReduce P x.repr y.repr)
  (ofOutcome_represents (Represents.mul hP.out x.represents y.represents))⟩
instance : Zero (Fp P) := ⟨⟨fpZero P, (Represents.zero hP.out).len, (Represents.zero hP.out).lt⟩⟩
instance : One (Fp P) := ⟨ofOutcome (fpOne P) (ofOutcome_represents (Represents.one hP.out))⟩
/-- `Fp_model(bigint)` applied to the bigint of a natural number reduced to `n` limbs. -/
instance : NatCast (Fp P) := ⟨fun v => ofOutcome (fpOfBigint P (limbsOf P.n (v % P.p)))
  (ofOutcome_represents (Represents.ofBigint hP.out (by simp)))⟩
instance : IntCast (Fp P) := ⟨fun v => ((v % P.p).toNat : Nat)⟩
instance : SMul ℕ (Fp P) := ⟨fun k x => (k : Fp P) * x⟩
instance : SMul ℤ (Fp P) := ⟨fun k x => (k : Fp P) * x⟩
instance : Pow (Fp P) ℕ := ⟨fun x k => npowRec k x⟩

theorem toZMod_add (x y : Fp P) : (x + y).toZMod = x.toZMod + y.toZMod :=
  toZMod_ofOutcome (Represents.add hP.out x.represents y.represents) _
theorem toZMod_sub (x y : Fp P) : (x - y).toZMod = x.toZMod - y.toZMod :=
  toZMod_ofOutcome (Represents.sub hP.out x.represents y.represents) _
theorem toZMod_mul (x y : Fp P) : (x * y).toZMod = x.toZMod * y.toZMod :=
  toZMod_ofOutcome (Represents.mul hP.out x.represents y.represents) _
theorem toZMod_neg (x : Fp P) : (-x).toZMod = -x.toZMod :=
  Represents.val_unique hP.out (represents _) (Represents.neg hP.out x.represents)
theorem toZMod_zero : (0 : Fp P).toZMod = 0 :=
  Represents.val_unique hP.out (represents _) (Represents.zero hP.out)
theorem toZMod_one : (1 : Fp P).toZMod = 1 :=
  toZMod_ofOutcome (Represents.one hP.out) _
theorem toZMod_natCast (k : ℕ) : (k : Fp P).toZMod = k := by
  have hb := hP.out.topBit
  have hp := hP.out.one_lt
  have hm : k % P.p < P.p := Nat.mod_lt _ (by omega)
  have h := Represents.ofBigint hP.out (b := limbsOf P.n (k % P.p)) (by simp)
  rw [val_limbsOf, Nat.mod_eq_of_lt (b := 2 ^ (64 * P.n)) (by omega), ZMod.natCast_mod] at h
  exact toZMod_ofOutcome h _
theorem toZMod_intCast (k : ℤ) : (k : Fp P).toZMod = k := by
  change ((((k % P.p).toNat : ℕ) : Fp P)).toZMod = k
  rw [toZMod_natCast]
  have hp := hP.out.one_lt
  have h : (((k % P.p).toNat : ℕ) : ℤ) = k % P.p :=
    Int.toNat_of_nonneg (Int.emod_nonneg _ (by omega))
  rw [← Int.cast_natCast, h]
  simp
theorem toZMod_pow (x : Fp P) (k : ℕ) : (x ^ k).toZMod = x.toZMod ^ k := by
  change (npowRec k x).toZMod = _
  induction k with
  | zero => simp [npowRec, toZMod_one]
  | succ k ih => rw [npowRec, toZMod_mul, ih, pow_succ]

instance : CommRing (Fp P) :=
  Function.Injective.commRing toZMod toZMod_injective toZMod_zero toZMod_one toZMod_add toZMod_mul
    toZMod_neg toZMod_sub
    (fun k x => by
      change (((k : Fp P)) * x).toZMod = _
      rw [toZMod_mul, toZMod_natCast, nsmul_eq_mul])
    (fun k x => by
      change (((k : Fp P)) * x).toZMod = _
      rw [toZMod_mul, toZMod_intCast, zsmul_eq_mul])
    toZMod_pow toZMod_natCast toZMod_intCast

/-- Decoding as a ring homomorphism. -/
def toZModHom : Fp P →+* ZMod P.p where
  toFun := toZMod
  map_zero' := toZMod_zero
  map_one' := toZMod_one
  map_add' := toZMod_add
  map_mul' := toZMod_mul

theorem toZMod_surjective : Function.Surjective (toZMod : Fp P → ZMod P.p) := fun z => by
  have : NeZero P.p := hP.out.neZero
  exact ⟨(z.val : Fp P), by rw [toZMod_natCast, ZMod.natCast_zmod_val]⟩

/-- Decoding is a ring isomorphism onto the integers modulo `p`. -/
noncomputable def equivZMod : Fp P ≃+* ZMod P.p :=
  RingEquiv.ofBijective toZModHom ⟨toZMod_injective, toZMod_surjective⟩

@[simp] theorem equivZMod_apply (x : Fp P) : equivZMod x = x.toZMod := rfl

instance : CharP (Fp P) P.p :=
  toZModHom.charP toZMod_injective P.p

noncomputable instance : Fintype (Fp P) :=
  have : NeZero P.p := hP.out.neZero
  Fintype.ofEquiv _ (equivZMod (P := P)).symm.toEquiv

theorem card : Fintype.card (Fp P) = P.p := by
  have : NeZero P.p := hP.out.neZero
  rw [Fintype.card_congr (equivZMod (P := P)).toEquiv, ZMod.card]

variable [hp : Fact P.p.Prime]

/-- `inverse()` (fp.tcc:671-729); `0` (where the code aborts) is mapped to `0`.
`Verif/Props/Fp.lean` shows the choice of gcd routine does not matter. -/
instance : Inv (Fp P) := ⟨fun x => if h : x = 0 then 0 else
  ofOutcome (invertRepr P refGcdext x.repr) (ofOutcome_represents
    (Represents.inv hP.out hp.out refGcdext_contract x.represents
      (fun h' => h (toZMod_injective (h'.trans toZMod_zero.symm)))))⟩

theorem toZMod_inv (x : Fp P) : (x⁻¹).toZMod = (x.toZMod)⁻¹ := by
  change (if h : x = 0 then 0 else _ : Fp P).toZMod = _
  split
  · rename_i h; rw [h, toZMod_zero, inv_zero]
  · rename_i h
    exact toZMod_ofOutcome (Represents.inv hP.out hp.out refGcdext_contract x.represents
      (fun h' => h (toZMod_injective (h'.trans toZMod_zero.symm)))) _

instance : Field (Fp P) where
  exists_pair_ne := ⟨0, 1, fun h => by
    have := congrArg toZMod h
    rw [toZMod_zero, toZMod_one] at this
    exact zero_ne_one this⟩
  mul_inv_cancel x hx := by
    apply toZMod_injective
    rw [toZMod_mul, toZMod_inv, toZMod_one, mul_inv_cancel₀]
    intro h; exact hx (toZMod_injective (h.trans toZMod_zero.symm))
  inv_zero := by
    apply toZMod_injective; rw [toZMod_inv, toZMod_zero, inv_zero]
  nnqsmul := _
  nnqsmul_def := fun _ _ => rfl
  qsmul := _
  qsmul_def := fun _ _ => rfl

end Fp
end Libff
