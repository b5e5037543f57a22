import Verif.Model.Ext
import Verif.Model.Binary

/-!
# Operation counters (`PROFILE_OP_COUNTS`)

With `PROFILE_OP_COUNTS` every field class has the static counters `add_cnt`, `sub_cnt`, `mul_cnt`, `sqr_cnt`, `inv_cnt`
(field.hpp:34-38, fp.hpp:47-51, fp2.hpp:40-44, ..., gf32.hpp:24-28, ...).  Here the operations of the classes are transcribed once more,
as programs that return a value and change the counters: each `#ifdef PROFILE_OP_COUNTS` block is a `bump`, each operation on
coefficients is a call of the operation of the coefficient class.  The counters (`long long`) are integers.
-/
namespace Libff

/-- The five counters of a class. -/
inductive Kind | add | sub | mul | sqr | inv
  deriving DecidableEq

/-- The counters of all classes; `C` is the type of class names. -/
abbrev Counters (C : Type) := C → Kind → Int

/-- A computation that changes the counters and may abort. -/
def CM (C α : Type) := Counters C → Outcome (α × Counters C)

namespace CM
variable {C : Type}
instance instMonad : Monad (CM C) where
  pure a := fun s => .ok (a, s)
  bind x f := fun s => (x s).bind fun r => f r.1 r.2

/-- `c::k_cnt += d`. -/
def bump [DecidableEq C] (c : C) (k : Kind) (d : Int) : CM C Unit :=
  fun s => .ok ((), fun c' k' => if c' = c ∧ k' = k then s c' k' + d else s c' k')

/-- A computation that leaves the counters alone. -/
def lift {α : Type} (o : Outcome α) : CM C α := fun s => o.map fun y => (y, s)

/-- `assert(b)`. -/
def check (b : Bool) : CM C Unit := fun s => if b then .ok ((), s) else .abort
end CM
open CM

/-- The operations of a class. -/
structure CField (C K : Type) where
  add : K → K → CM C K
  sub : K → K → CM C K
  neg : K → CM C K
  mul : K → K → CM C K
  squared : K → CM C K
  inverse : K → CM C K

section
variable {C : Type} [DecidableEq C] {K : Type}

/-! ## Prime fields -/

/-- `Fp_model`, fp.tcc: `operator+=` 323-434, `operator-=` 440-535 (counter), unary `operator-` 596-613, `operator*=` 535-543,
`squared` 615-659, `invert` 669-718.  `asm3`: the build has `USE_ASM` and the class has three limbs, where `squared` does not go through
`operator*=`.  The values are those of the value model. -/
def fpC [Add K] [Sub K] [Neg K] [Mul K] [Squared K] [InverseO K] (asm3 : Bool) (c : C) : CField C K where
  add x y := do bump c .add 1; pure (x + y)
  sub x y := do bump c .sub 1; pure (x - y)
  neg x := do bump c .sub 1; pure (-x)
  mul x y := do bump c .mul 1; pure (x * y)
  squared x := do
    bump c .sqr 1
    bump c .mul (-1)
    if asm3 then pure (squared x)
    else
      bump c .mul 1
      pure (x * x)
  inverse x := do bump c .inv 1; CM.lift (inverseO x)

/-! ## Quadratic and cubic extensions -/

/-- `Fp2_model` (fp2.tcc:59-222), `Fp4_model` (fp4.tcc:70-245), `Fp6_2over3_model` (fp6_2over3.tcc:65-232),
`Fp12_2over3over2_model` (fp12_2over3over2.tcc:63-254); `nrM` is `mul_by_non_residue` (`non_residue * ...` in `Fp2`). -/
def quadC (c : C) (nr : K → K) (nrM : K → CM C K) (B : CField C K) : CField C (Quad K nr) where
  add x y := do
    bump c .add 1
    let c0 ← B.add x.c0 y.c0
    let c1 ← B.add x.c1 y.c1
    pure ⟨c0, c1⟩
  sub x y := do
    bump c .sub 1
    let c0 ← B.sub x.c0 y.c0
    let c1 ← B.sub x.c1 y.c1
    pure ⟨c0, c1⟩
  neg x := do
    let c0 ← B.neg x.c0
    let c1 ← B.neg x.c1
    pure ⟨c0, c1⟩
  mul x y := do
    bump c .mul 1
    let aA ← B.mul x.c0 y.c0
    let bB ← B.mul x.c1 y.c1
    let c0 ← B.add aA (← nrM bB)
    let m ← B.mul (← B.add x.c0 x.c1) (← B.add y.c0 y.c1)
    let c1 ← B.sub (← B.sub m aA) bB
    pure ⟨c0, c1⟩
  squared x := do
    bump c .sqr 1
    let ab ← B.mul x.c0 x.c1
    let m ← B.mul (← B.add x.c0 x.c1) (← B.add x.c0 (← nrM x.c1))
    let c0 ← B.sub (← B.sub m ab) (← nrM ab)
    let c1 ← B.add ab ab
    pure ⟨c0, c1⟩
  inverse x := do
    bump c .inv 1
    let t0 ← B.squared x.c0
    let t1 ← B.squared x.c1
    let t2 ← B.sub t0 (← nrM t1)
    let t3 ← B.inverse t2
    let c0 ← B.mul x.c0 t3
    let c1 ← B.neg (← B.mul x.c1 t3)
    pure ⟨c0, c1⟩

/-- `Fp3_model` (fp3.tcc:60-219), `Fp6_3over2_model` (fp6_3over2.tcc:65-234). -/
def cubicC (c : C) (nr : K → K) (nrM : K → CM C K) (B : CField C K) : CField C (Cubic K nr) where
  add x y := do
    bump c .add 1
    let c0 ← B.add x.c0 y.c0
    let c1 ← B.add x.c1 y.c1
    let c2 ← B.add x.c2 y.c2
    pure ⟨c0, c1, c2⟩
  sub x y := do
    bump c .sub 1
    let c0 ← B.sub x.c0 y.c0
    let c1 ← B.sub x.c1 y.c1
    let c2 ← B.sub x.c2 y.c2
    pure ⟨c0, c1, c2⟩
  neg x := do
    let c0 ← B.neg x.c0
    let c1 ← B.neg x.c1
    let c2 ← B.neg x.c2
    pure ⟨c0, c1, c2⟩
  mul x y := do
    bump c .mul 1
    let aA ← B.mul x.c0 y.c0
    let bB ← B.mul x.c1 y.c1
    let cC ← B.mul x.c2 y.c2
    let m0 ← B.mul (← B.add x.c1 x.c2) (← B.add y.c1 y.c2)
    let c0 ← B.add aA (← nrM (← B.sub (← B.sub m0 bB) cC))
    let m1 ← B.mul (← B.add x.c0 x.c1) (← B.add y.c0 y.c1)
    let c1 ← B.add (← B.sub (← B.sub m1 aA) bB) (← nrM cC)
    let m2 ← B.mul (← B.add x.c0 x.c2) (← B.add y.c0 y.c2)
    let c2 ← B.sub (← B.add (← B.sub m2 aA) bB) cC
    pure ⟨c0, c1, c2⟩
  squared x := do
    bump c .sqr 1
    let s0 ← B.squared x.c0
    let ab ← B.mul x.c0 x.c1
    let s1 ← B.add ab ab
    let s2 ← B.squared (← B.add (← B.sub x.c0 x.c1) x.c2)
    let bc ← B.mul x.c1 x.c2
    let s3 ← B.add bc bc
    let s4 ← B.squared x.c2
    let c0 ← B.add s0 (← nrM s3)
    let c1 ← B.add s1 (← nrM s4)
    let c2 ← B.sub (← B.sub (← B.add (← B.add s1 s2) s3) s0) s4
    pure ⟨c0, c1, c2⟩
  inverse x := do
    bump c .inv 1
    let t0 ← B.squared x.c0
    let t1 ← B.squared x.c1
    let t2 ← B.squared x.c2
    let t3 ← B.mul x.c0 x.c1
    let t4 ← B.mul x.c0 x.c2
    let t5 ← B.mul x.c1 x.c2
    let c0 ← B.sub t0 (← nrM t5)
    let c1 ← B.sub (← nrM t2) t3
    let c2 ← B.sub t1 t4
    let u ← B.mul x.c0 c0
    let v ← B.mul x.c2 c1
    let w ← B.mul x.c1 c2
    let t6 ← B.inverse (← B.add u (← nrM (← B.add v w)))
    let c0 ← B.mul t6 c0
    let c1 ← B.mul t6 c1
    let c2 ← B.mul t6 c2
    pure ⟨c0, c1, c2⟩

/-- The product of an element of a subfield, from the left, with an element of a quadratic extension: fp2.tcc:79-87, fp4.tcc:90-108,
fp6_2over3.tcc:85-93, fp12_2over3over2.tcc:83-111; `mul` is the product of the subfield with the coefficients. -/
def quadScaleC {L : Type} {nr : K → K} (c : C) (mul : L → K → CM C K) (l : L) (x : Quad K nr) : CM C (Quad K nr) := do
  bump c .mul 1
  let c0 ← mul l x.c0
  let c1 ← mul l x.c1
  pure ⟨c0, c1⟩

/-- The same for a cubic extension: fp3.tcc:82-91, fp6_3over2.tcc:87-107. -/
def cubicScaleC {L : Type} {nr : K → K} (c : C) (mul : L → K → CM C K) (l : L) (x : Cubic K nr) : CM C (Cubic K nr) := do
  bump c .mul 1
  let c0 ← mul l x.c0
  let c1 ← mul l x.c1
  let c2 ← mul l x.c2
  pure ⟨c0, c1, c2⟩

/-- `power(base, exponent)` for a `bigint` exponent, algorithms.tcc:21-42: squarings are written `result * result`. -/
def powerLoopC (F : CField C K) (base : K) (bit : Nat → Bool) : Nat → Bool × K → CM C (Bool × K)
  | 0, st => pure st
  | i + 1, st => do
    let res ← if st.1 then F.mul st.2 st.2 else pure st.2
    if bit i then
      let r ← F.mul res base
      powerLoopC F base bit i (true, r)
    else powerLoopC F base bit i (st.1, res)

def powerC [One K] (F : CField C K) (base : K) (e : List Limb) : CM C K := do
  let r ← powerLoopC F base (testBit e) (bigintMaxBits e) (false, 1)
  pure r.2
end

/-! ## The towers -/

/-- The classes over a prime field (with a given modulus). -/
inductive TowerCls | Fp | Fp2 | Fp3 | Fp4 | Fp6_2over3 | Fp6_3over2 | Fp12
  deriving DecidableEq

section
variable {K : Type} [Add K] [Sub K] [Neg K] [Mul K] [Squared K] [InverseO K] (asm3 : Bool)

/-- The prime field. -/
def FpC : CField TowerCls K := fpC asm3 .Fp
/-- `Fp2_model`. -/
def Fp2C (β : K) : CField TowerCls (Fp2 K β) := quadC .Fp2 _ ((FpC asm3).mul β) (FpC asm3)
/-- `Fp3_model`. -/
def Fp3C (β : K) : CField TowerCls (Fp3 K β) := cubicC .Fp3 _ ((FpC asm3).mul β) (FpC asm3)
/-- `Fp4_model::mul_by_non_residue`, fp4.tcc:22-26. -/
def fp4nrC {β : K} (γ : K) (e : Fp2 K β) : CM TowerCls (Fp2 K β) := do
  let c ← (FpC asm3).mul γ e.c1
  pure ⟨c, e.c0⟩
/-- `Fp4_model`. -/
def Fp4C (β γ : K) : CField TowerCls (Fp4 K β γ) := quadC .Fp4 _ (fp4nrC asm3 γ) (Fp2C asm3 β)
/-- `Fp6_2over3_model::mul_by_non_residue`, fp6_2over3.tcc:17-21. -/
def fp6nrC {β : K} (γ : K) (e : Fp3 K β) : CM TowerCls (Fp3 K β) := do
  let c ← (FpC asm3).mul γ e.c2
  pure ⟨c, e.c0, e.c1⟩
/-- `Fp6_2over3_model`. -/
def Fp6_2over3C (β γ : K) : CField TowerCls (Fp6_2over3 K β γ) := quadC .Fp6_2over3 _ (fp6nrC asm3 γ) (Fp3C asm3 β)
/-- `Fp6_3over2_model`. -/
def Fp6_3over2C (β : K) (ξ : Fp2 K β) : CField TowerCls (Fp6_3over2 K β ξ) :=
  cubicC .Fp6_3over2 _ ((Fp2C asm3 β).mul ξ) (Fp2C asm3 β)
/-- `Fp12_2over3over2_model::mul_by_non_residue`, fp12_2over3over2.tcc:17-21. -/
def fp12nrC {β : K} {ξ : Fp2 K β} (γ : Fp2 K β) (e : Fp6_3over2 K β ξ) : CM TowerCls (Fp6_3over2 K β ξ) := do
  let c ← (Fp2C asm3 β).mul γ e.c2
  pure ⟨c, e.c0, e.c1⟩
/-- `Fp12_2over3over2_model`. -/
def Fp12C (β : K) (ξ γ : Fp2 K β) : CField TowerCls (Fp12 K β ξ γ) := quadC .Fp12 _ (fp12nrC asm3 γ) (Fp6_3over2C asm3 β ξ)
end

/-! ## Binary fields -/

/-- The binary fields. -/
inductive GfCls | gf32 | gf64 | gf128 | gf192 | gf256
  deriving DecidableEq

section
variable {K : Type} [Mul K]

/-- `operator*=`: gf32.cpp:62-66, gf64.cpp:62-66, gf128.cpp:69-73, gf192.cpp:72-76, gf256.cpp:76-80. -/
def gfMulC (c : GfCls) (x y : K) : CM GfCls K := do bump c .mul 1; pure (x * y)

/-- `square()`: gf32.cpp:102-110, gf64.cpp:119-127, gf128.cpp:150-158, gf192.cpp:192-200, gf256.cpp:273-281. -/
def gfSquareC (c : GfCls) (x : K) : CM GfCls K := do
  bump c .sqr 1
  bump c .mul (-1)
  gfMulC c x x

/-- `for (...; n times) b.square();` -/
def gfSquareNC (c : GfCls) : Nat → K → CM GfCls K
  | 0, b => pure b
  | n + 1, b => do let b ← gfSquareC c b; gfSquareNC c n b

/-- Rounds `i`, ..., `i + n - 1` of the inversion loop: gf32.cpp:175-195, gf128.cpp:213-233, gf256.cpp:336-356; the third component is
`prev_result` of gf192.cpp:258-278. -/
def gfInvRoundsC (c : GfCls) : Nat → Nat → K × K × K → CM GfCls (K × K × K)
  | 0, _, st => pure st
  | n + 1, i, (a, result, _) => do
    let b ← gfSquareNC c (1 <<< i) a
    let a ← gfMulC c a b
    let r ← if i = 0 then pure b else gfMulC c result b
    gfInvRoundsC c n (i + 1) (a, r, result)

/-- `inverse()` of `gf32`, `gf128`, `gf256`: gf32.cpp:162-198, gf128.cpp:203-237, gf256.cpp:326-360; `muls`, `sqrs` are the amounts
subtracted in advance. -/
def gfInverseC [Zero K] (debug : Bool) (isZero : K → Bool) (c : GfCls) (last : Nat) (muls sqrs : Int) (x : K) : CM GfCls K := do
  bump c .inv 1
  bump c .mul (-muls)
  bump c .sqr (-sqrs)
  check (!(debug && isZero x))
  let r ← gfInvRoundsC c (last + 1) 0 (x, 0, 0)
  pure r.2.1

/-- `gf64::inverse()`, gf64.cpp:184-239. -/
def gf64InverseC (debug : Bool) (a : GF64) : CM GfCls GF64 := do
  bump .gf64 .inv 1
  bump .gf64 .mul (-15)
  bump .gf64 .sqr (-58)
  check (!(debug && a.isZero))
  let t0 := a
  let t1 ← gfMulC .gf64 t0 t0
  let t2 ← gfMulC .gf64 t1 t0
  let t0 ← gfMulC .gf64 t2 t2
  let t0 ← gfSquareNC .gf64 1 t0
  let t1 ← gfMulC .gf64 t1 t0
  let t2 ← gfMulC .gf64 t2 t0
  let t0 ← gfMulC .gf64 t2 t2
  let t0 ← gfSquareNC .gf64 3 t0
  let t1 ← gfMulC .gf64 t1 t0
  let t2 ← gfMulC .gf64 t2 t0
  let t0 ← gfMulC .gf64 t2 t2
  let t0 ← gfSquareNC .gf64 7 t0
  let t1 ← gfMulC .gf64 t1 t0
  let t2 ← gfMulC .gf64 t2 t0
  let t0 ← gfMulC .gf64 t2 t2
  let t0 ← gfSquareNC .gf64 15 t0
  let t1 ← gfMulC .gf64 t1 t0
  let t0 ← gfMulC .gf64 t0 t2
  let t0 ← gfSquareNC .gf64 32 t0
  gfMulC .gf64 t0 t1

/-- `gf192::inverse()`, gf192.cpp:245-288. -/
def gf192InverseC (debug : Bool) (x : GF192) : CM GfCls GF192 := do
  bump .gf192 .inv 1
  bump .gf192 .mul (-15)
  bump .gf192 .sqr (-193)
  check (!(debug && x.isZero))
  let r ← gfInvRoundsC .gf192 7 0 (x, 0, 0)
  let result ← gfSquareNC .gf192 64 r.2.1
  let prev ← gfSquareC .gf192 r.2.2
  let u ← gfMulC .gf192 result prev
  gfMulC .gf192 u (← gfSquareC .gf192 x)

/-- The operators of a binary field class with given `inverse()`: `+=` gf32.cpp:43-50, `-=` gf32.cpp:52-59, unary `-` gf32.cpp:130-134
and the same in the other classes. -/
def gfC [Add K] [Sub K] [Neg K] (c : GfCls) (inverse : K → CM GfCls K) : CField GfCls K where
  add x y := do bump c .add 1; pure (x + y)
  sub x y := do bump c .sub 1; pure (x - y)
  neg x := pure (-x)
  mul := gfMulC c
  squared := gfSquareC c
  inverse := inverse
end

/-- `gf32`. -/
def gf32C (debug : Bool) : CField GfCls GF32 := gfC .gf32 (gfInverseC debug GF32.isZero .gf32 4 9 31)
/-- `gf64`. -/
def gf64C (debug : Bool) : CField GfCls GF64 := gfC .gf64 (gf64InverseC debug)
/-- `gf128`. -/
def gf128C (debug : Bool) : CField GfCls GF128 := gfC .gf128 (gfInverseC debug GF128.isZero .gf128 6 13 127)
/-- `gf192`. -/
def gf192C (debug : Bool) : CField GfCls GF192 := gfC .gf192 (gf192InverseC debug)
/-- `gf256`. -/
def gf256C (debug : Bool) : CField GfCls GF256 := gfC .gf256 (gfInverseC debug GF256.isZero .gf256 7 15 255)

end Libff
