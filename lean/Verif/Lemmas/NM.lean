import Verif.Lemmas.FpType
import Verif.Lemmas.Tower
import Mathlib.FieldTheory.Finite.Basic

/-!
# Evaluating field arithmetic inside the kernel

`NM p` is the natural numbers with arithmetic modulo `p`, which the kernel evaluates with its built-in
operations.  `RelOps R` says that `R` relates two types compatibly with all operations; it lifts to the
two extension shapes, so that a computation over `NM p` gives facts about the model of the library's
fields.
-/
namespace Libff

/-- Natural numbers with arithmetic modulo `p`. -/
def NM (_p : Nat) := Nat

namespace NM
variable {p : Nat}
instance instDecEq : DecidableEq (NM p) := inferInstanceAs (DecidableEq Nat)
instance instZero : Zero (NM p) := ⟨(0 : Nat)⟩
instance instOne : One (NM p) := ⟨(1 : Nat)⟩
instance instAdd : Add (NM p) := ⟨fun a b => (Nat.add a b) % p⟩
instance instSub : Sub (NM p) := ⟨fun a b => (Nat.add a (Nat.sub p b)) % p⟩
instance instNeg : Neg (NM p) := ⟨fun a => (Nat.sub p a) % p⟩
instance instMul : Mul (NM p) := ⟨fun a b => (Nat.mul a b) % p⟩
instance instSquared : Squared (NM p) := ⟨fun a => (Nat.mul a a) % p⟩
/-- A number as an element. -/
def of (v : Nat) : NM p := v
end NM

/-- `R` is compatible with the operations and with equality. -/
structure RelOps {K L : Type} [Zero K] [One K] [Add K] [Sub K] [Neg K] [Mul K] [Squared K]
    [Zero L] [One L] [Add L] [Sub L] [Neg L] [Mul L] [Squared L] (R : K → L → Prop) : Prop where
  zero : R 0 0
  one : R 1 1
  add : ∀ {a b x y}, R a x → R b y → R (a + b) (x + y)
  sub : ∀ {a b x y}, R a x → R b y → R (a - b) (x - y)
  neg : ∀ {a x}, R a x → R (-a) (-x)
  mul : ∀ {a b x y}, R a x → R b y → R (a * b) (x * y)
  squared : ∀ {a x}, R a x → R (squared a) (squared x)
  eq : ∀ {a b x y}, R a x → R b y → (a = b ↔ x = y)

/-- Exponentiation by squaring. -/
def fastPow {K : Type} [Mul K] [One K] : Nat → K → Nat → K
  | 0, _, _ => 1
  | fuel + 1, b, e =>
    if e = 0 then 1
    else
      let r := fastPow fuel (b * b) (e / 2)
      if e % 2 = 1 then b * r else r

theorem fastPow_eq {K : Type} [Monoid K] (fuel : Nat) (b : K) (e : Nat) (h : e < 2 ^ fuel) :
    fastPow fuel b e = b ^ e := by
  induction fuel generalizing b e with
  | zero => simp at h; simp [fastPow, h]
  | succ fuel ih =>
    unfold fastPow
    split
    · rename_i h0; simp [h0]
    · have h2 : e / 2 < 2 ^ fuel := by rw [pow_succ] at h; omega
      simp only [ih _ _ h2]
      rw [← pow_two, ← pow_mul]
      split
      · rw [← pow_succ']; congr 1; omega
      · congr 1; omega

section
variable {K L : Type} [Zero K] [One K] [Add K] [Sub K] [Neg K] [Mul K] [Squared K]

theorem RelOps.fastPow [Zero L] [One L] [Add L] [Sub L] [Neg L] [Mul L] [Squared L] {R : K → L → Prop}
    (h : RelOps R) (fuel : Nat) {a : K} {x : L} (hx : R a x) (e : Nat) :
    R (Libff.fastPow fuel a e) (Libff.fastPow fuel x e) := by
  induction fuel generalizing a x e with
  | zero => exact h.one
  | succ fuel ih =>
    unfold Libff.fastPow
    split
    · exact h.one
    · split
      · exact h.mul hx (ih (h.mul hx hx) _)
      · exact ih (h.mul hx hx) _

variable {K L : Type} [Zero K] [One K] [Add K] [Sub K] [Neg K] [Mul K] [Squared K]
  [Zero L] [One L] [Add L] [Sub L] [Neg L] [Mul L] [Squared L] {R : K → L → Prop}

/-- Componentwise relation. -/
def Quad.Rel (R : K → L → Prop) {nr : K → K} {nr' : L → L} (x : Quad K nr) (y : Quad L nr') : Prop :=
  R x.c0 y.c0 ∧ R x.c1 y.c1
/-- Componentwise relation. -/
def Cubic.Rel (R : K → L → Prop) {nr : K → K} {nr' : L → L} (x : Cubic K nr) (y : Cubic L nr') : Prop :=
  R x.c0 y.c0 ∧ R x.c1 y.c1 ∧ R x.c2 y.c2

theorem RelOps.quad (h : RelOps R) {nr : K → K} {nr' : L → L}
    (hnr : ∀ {a x}, R a x → R (nr a) (nr' x)) :
    RelOps (Quad.Rel R : Quad K nr → Quad L nr' → Prop) where
  zero := ⟨h.zero, h.zero⟩
  one := ⟨h.one, h.zero⟩
  add h1 h2 := ⟨h.add h1.1 h2.1, h.add h1.2 h2.2⟩
  sub h1 h2 := ⟨h.sub h1.1 h2.1, h.sub h1.2 h2.2⟩
  neg h1 := ⟨h.neg h1.1, h.neg h1.2⟩
  mul h1 h2 := ⟨h.add (h.mul h1.1 h2.1) (hnr (h.mul h1.2 h2.2)),
    h.sub (h.sub (h.mul (h.add h1.1 h1.2) (h.add h2.1 h2.2)) (h.mul h1.1 h2.1)) (h.mul h1.2 h2.2)⟩
  squared h1 := ⟨h.sub (h.sub (h.mul (h.add h1.1 h1.2) (h.add h1.1 (hnr h1.2))) (h.mul h1.1 h1.2))
    (hnr (h.mul h1.1 h1.2)), h.add (h.mul h1.1 h1.2) (h.mul h1.1 h1.2)⟩
  eq h1 h2 := by rw [Quad.ext_iff, Quad.ext_iff, h.eq h1.1 h2.1, h.eq h1.2 h2.2]

theorem RelOps.cubic (h : RelOps R) {nr : K → K} {nr' : L → L}
    (hnr : ∀ {a x}, R a x → R (nr a) (nr' x)) :
    RelOps (Cubic.Rel R : Cubic K nr → Cubic L nr' → Prop) where
  zero := ⟨h.zero, h.zero, h.zero⟩
  one := ⟨h.one, h.zero, h.zero⟩
  add h1 h2 := ⟨h.add h1.1 h2.1, h.add h1.2.1 h2.2.1, h.add h1.2.2 h2.2.2⟩
  sub h1 h2 := ⟨h.sub h1.1 h2.1, h.sub h1.2.1 h2.2.1, h.sub h1.2.2 h2.2.2⟩
  neg h1 := ⟨h.neg h1.1, h.neg h1.2.1, h.neg h1.2.2⟩
  mul h1 h2 :=
    have aA := h.mul h1.1 h2.1
    have bB := h.mul h1.2.1 h2.2.1
    have cC := h.mul h1.2.2 h2.2.2
    ⟨h.add aA (hnr (h.sub (h.sub (h.mul (h.add h1.2.1 h1.2.2) (h.add h2.2.1 h2.2.2)) bB) cC)),
     h.add (h.sub (h.sub (h.mul (h.add h1.1 h1.2.1) (h.add h2.1 h2.2.1)) aA) bB) (hnr cC),
     h.sub (h.add (h.sub (h.mul (h.add h1.1 h1.2.2) (h.add h2.1 h2.2.2)) aA) bB) cC⟩
  squared h1 :=
    have s0 := h.squared h1.1
    have ab := h.mul h1.1 h1.2.1
    have s1 := h.add ab ab
    have s2 := h.squared (h.add (h.sub h1.1 h1.2.1) h1.2.2)
    have bc := h.mul h1.2.1 h1.2.2
    have s3 := h.add bc bc
    have s4 := h.squared h1.2.2
    ⟨h.add s0 (hnr s3), h.add s1 (hnr s4), h.sub (h.sub (h.add (h.add s1 s2) s3) s0) s4⟩
  eq h1 h2 := by rw [Cubic.ext_iff, Cubic.ext_iff, h.eq h1.1 h2.1, h.eq h1.2.1 h2.2.1, h.eq h1.2.2 h2.2.2]

theorem RelOps.mulConst (h : RelOps R) {β : K} {β' : L} (hβ : R β β') {a : K} {x : L} (hx : R a x) :
    R (mulConst β a) (mulConst β' x) := h.mul hβ hx

theorem RelOps.fp4nr (h : RelOps R) {β γ : K} {β' γ' : L} (hγ : R γ γ') {a : Fp2 K β} {x : Fp2 L β'}
    (hx : Quad.Rel R a x) : Quad.Rel R (fp4nr γ a) (fp4nr γ' x) := ⟨h.mul hγ hx.2, hx.1⟩

theorem RelOps.fp6nr (h : RelOps R) {β γ : K} {β' γ' : L} (hγ : R γ γ') {a : Fp3 K β} {x : Fp3 L β'}
    (hx : Cubic.Rel R a x) : Cubic.Rel R (fp6nr γ a) (fp6nr γ' x) := ⟨h.mul hγ hx.2.2, hx.1, hx.2.1⟩

theorem RelOps.fp12nr (h : RelOps R) {β : K} {β' : L} (hβ : R β β') {ξ γ : Fp2 K β} {ξ' γ' : Fp2 L β'}
    (hγ : Quad.Rel R γ γ') {a : Fp6_3over2 K β ξ} {x : Fp6_3over2 L β' ξ'}
    (hx : Cubic.Rel (Quad.Rel R) a x) : Cubic.Rel (Quad.Rel R) (fp12nr γ a) (fp12nr γ' x) :=
  ⟨(h.quad (h.mulConst hβ)).mul hγ hx.2.2, hx.1, hx.2.1⟩
end

section Fp
variable {P : FpParams} [hP : Fact P.Valid]

/-- `a` is the reduced residue denoted by `x`. -/
def FpRel (P : FpParams) [Fact P.Valid] (a : NM P.p) (x : Fp P) : Prop :=
  Nat.lt a P.p ∧ x.toZMod = (Nat.cast a : ZMod P.p)

theorem FpRel.cast {v : Nat} (h : v < P.p) : FpRel P (NM.of v) (v : Fp P) := ⟨h, Fp.toZMod_natCast v⟩

variable [Fact P.p.Prime]

theorem fpRelOps : RelOps (FpRel P) where
  zero := ⟨Nat.lt_of_lt_of_le Nat.zero_lt_one hP.out.one_lt.le, by
    rw [Fp.toZMod_zero]; exact (Nat.cast_zero).symm⟩
  one := ⟨hP.out.one_lt, by rw [Fp.toZMod_one]; exact (Nat.cast_one).symm⟩
  add {a b x y} h1 h2 := ⟨Nat.mod_lt _ (Nat.lt_of_lt_of_le Nat.zero_lt_one hP.out.one_lt.le), by
    rw [Fp.toZMod_add, h1.2, h2.2]
    exact ((ZMod.natCast_mod _ _).trans (Nat.cast_add _ _)).symm⟩
  sub {a b x y} h1 h2 := ⟨Nat.mod_lt _ (Nat.lt_of_lt_of_le Nat.zero_lt_one hP.out.one_lt.le), by
    rw [Fp.toZMod_sub, h1.2, h2.2]
    refine Eq.trans ?_ ((ZMod.natCast_mod _ _).trans (Nat.cast_add _ _)).symm
    have : (Nat.cast (Nat.sub P.p b) : ZMod P.p) = Nat.cast P.p - Nat.cast b :=
      Nat.cast_sub (Nat.le_of_lt h2.1)
    rw [this, ZMod.natCast_self]; ring⟩
  neg {a x} h1 := ⟨Nat.mod_lt _ (Nat.lt_of_lt_of_le Nat.zero_lt_one hP.out.one_lt.le), by
    rw [Fp.toZMod_neg, h1.2]
    refine Eq.trans ?_ (ZMod.natCast_mod _ _).symm
    have : (Nat.cast (Nat.sub P.p a) : ZMod P.p) = Nat.cast P.p - Nat.cast a :=
      Nat.cast_sub (Nat.le_of_lt h1.1)
    rw [this, ZMod.natCast_self]; ring⟩
  mul {a b x y} h1 h2 := ⟨Nat.mod_lt _ (Nat.lt_of_lt_of_le Nat.zero_lt_one hP.out.one_lt.le), by
    rw [Fp.toZMod_mul, h1.2, h2.2]
    exact ((ZMod.natCast_mod _ _).trans (Nat.cast_mul _ _)).symm⟩
  squared {a x} h1 := ⟨Nat.mod_lt _ (Nat.lt_of_lt_of_le Nat.zero_lt_one hP.out.one_lt.le), by
    rw [LawfulSquared.squared_eq, Fp.toZMod_mul, h1.2]
    exact ((ZMod.natCast_mod _ _).trans (Nat.cast_mul _ _)).symm⟩
  eq {a b x y} h1 h2 := by
    rw [← Fp.toZMod_injective.eq_iff, h1.2, h2.2]
    constructor
    · rintro rfl; rfl
    · intro h
      have := (ZMod.natCast_eq_natCast_iff' _ _ _).1 h
      rwa [Nat.mod_eq_of_lt h1.1, Nat.mod_eq_of_lt h2.1] at this
end Fp

/-! ## Residue tests in finite fields -/

/-- An element whose `(|L|-1)/n`-th power is not one is no `n`-th power. -/
theorem not_nth_power {L : Type} [Field L] [Fintype L] (n : Nat) (hn : 0 < n) (hd : n ∣ Fintype.card L - 1)
    (x : L) (hx : x ≠ 0) (h : x ^ ((Fintype.card L - 1) / n) ≠ 1) : ¬ ∃ y, y ^ n = x := by
  rintro ⟨y, rfl⟩
  apply h
  rw [← pow_mul, Nat.mul_div_cancel' hd]
  exact FiniteField.pow_card_sub_one_eq_one y (fun h0 => hx (by rw [h0, zero_pow hn.ne']))

theorem not_isSquare_of_pow {L : Type} [Field L] [Fintype L] (hd : 2 ∣ Fintype.card L - 1)
    (x : L) (hx : x ≠ 0) (h : x ^ ((Fintype.card L - 1) / 2) ≠ 1) : ¬ IsSquare x := by
  rintro ⟨y, hy⟩
  exact not_nth_power 2 (by norm_num) hd x hx h ⟨y, by rw [hy, pow_two]⟩

end Libff
