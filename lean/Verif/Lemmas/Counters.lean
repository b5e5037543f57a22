import Verif.Spec.Counters
import Verif.Lemmas.Quad
import Mathlib.Tactic.Ring
import Mathlib.Algebra.Group.Pi.Basic
import Mathlib.Data.Fintype.Defs
import Mathlib.Data.Fintype.Basic

/-! Lemmas on operation counters. -/
namespace Libff
open CM

instance instFintypeKind : Fintype Kind := ⟨{.add, .sub, .mul, .sqr, .inv}, fun k => by cases k <;> decide⟩
instance instFintypeGfCls : Fintype GfCls := ⟨{.gf32, .gf64, .gf128, .gf192, .gf256}, fun k => by cases k <;> decide⟩

variable {C : Type} [DecidableEq C] {K : Type}

/-- One more of kind `k` in class `c`. -/
def unitC (c : C) (k : Kind) (d : Int) : Counters C := fun c' k' => if c' = c ∧ k' = k then d else 0

theorem bump_apply (c : C) (k : Kind) (d : Int) (s : Counters C) : bump c k d s = .ok ((), s + unitC c k d) := by
  unfold bump unitC
  congr 2
  funext c' k'
  simp only [Pi.add_apply]
  split <;> simp

omit [DecidableEq C] in
theorem bind_apply {α β : Type} (x : CM C α) (f : α → CM C β) (s : Counters C) :
    (x >>= f) s = (x s).bind fun r => f r.1 r.2 := rfl

omit [DecidableEq C] in
theorem pure_apply {α : Type} (a : α) (s : Counters C) : (pure a : CM C α) s = .ok (a, s) := rfl

/-- The operations. -/
inductive FOp | add | sub | neg | mul | sqr | inv
  deriving DecidableEq

instance instFintypeFOp : Fintype FOp := ⟨{.add, .sub, .neg, .mul, .sqr, .inv}, fun k => by cases k <;> decide⟩

/-- `F` computes what `P` computes and each operation changes the counters by a fixed amount. -/
structure Exact (F : CField C K) (P : PureOps K) (κ : FOp → Counters C) : Prop where
  add : ∀ x y s, F.add x y s = .ok (P.add x y, s + κ .add)
  sub : ∀ x y s, F.sub x y s = .ok (P.sub x y, s + κ .sub)
  neg : ∀ x s, F.neg x s = .ok (P.neg x, s + κ .neg)
  mul : ∀ x y s, F.mul x y s = .ok (P.mul x y, s + κ .mul)
  squared : ∀ x s, F.squared x s = .ok (P.squared x, s + κ .sqr)
  inverse : ∀ x s, F.inverse x s = (P.inverse x).map fun y => (y, s + κ .inv)

/-- Amounts that count one call in class `c`. -/
def OwnUnit (κ : FOp → Counters C) (c : C) : Prop :=
  (∀ k, κ .add c k = if k = .add then 1 else 0) ∧ (∀ k, κ .sub c k = if k = .sub then 1 else 0) ∧
  (∀ k, κ .mul c k = if k = .mul then 1 else 0) ∧ (∀ k, κ .sqr c k = if k = .sqr then 1 else 0) ∧
  (∀ k, κ .inv c k = if k = .inv then 1 else 0)

def Call.fop : Call K → FOp
  | .add _ _ => .add
  | .sub _ _ => .sub
  | .mul _ _ => .mul
  | .squared _ => .sqr
  | .inverse _ => .inv

omit [DecidableEq C] in
theorem Exact.exec {F : CField C K} {P : PureOps K} {κ : FOp → Counters C} (h : Exact F P κ) (a : Call K) (s : Counters C) :
    a.exec F s = (a.value P).map fun y => (y, s + κ a.fop) := by
  cases a with
  | add x y => exact h.add x y s
  | sub x y => exact h.sub x y s
  | mul x y => exact h.mul x y s
  | squared x => exact h.squared x s
  | inverse x => exact h.inverse x s

omit [DecidableEq C] in
theorem Exact.countsCalls {F : CField C K} {P : PureOps K} {κ : FOp → Counters C} (h : Exact F P κ) {c : C} (ho : OwnUnit κ c) :
    CountsCalls F P c := by
  intro l
  induction l with
  | nil => intro s; exact ⟨s, rfl, by simp⟩
  | cons a l ih =>
    intro s
    have hk : ∀ k, κ a.fop c k = if k = a.kind then 1 else 0 := by
      obtain ⟨h1, h2, h3, h4, h5⟩ := ho
      cases a <;> assumption
    unfold Call.values Call.execs
    rw [h.exec]
    cases hv : a.value P with
    | abort => rfl
    | ub => rfl
    | ok v =>
      have := ih (s + κ a.fop)
      simp only [Outcome.bind_ok, Outcome.map_ok]
      cases hvs : Call.values P l with
      | abort => rw [hvs] at this; simp only at this; rw [this]; rfl
      | ub => rw [hvs] at this; simp only at this; rw [this]; rfl
      | ok vs =>
        rw [hvs] at this
        obtain ⟨s', e, hs⟩ := this
        refine ⟨s', by rw [e]; rfl, fun k => ?_⟩
        rw [hs k, Pi.add_apply, Pi.add_apply, hk k, List.countP_cons]
        by_cases hak : a.kind = k
        · simp [hak]; ring
        · have : ¬k = a.kind := fun h => hak h.symm
          simp [hak, this]

/-- The table of an amount. -/
def tableOf (κ : FOp → Counters C) (c : C) : OpTable :=
  ⟨.of (κ .add) c, .of (κ .sub) c, .of (κ .neg) c, .of (κ .mul) c, .of (κ .sqr) c, .of (κ .inv) c⟩

omit [DecidableEq C] in
theorem Exact.hasCost {F : CField C K} {P : PureOps K} {κ : FOp → Counters C} (h : Exact F P κ) (c : C) :
    HasCost F P c (tableOf κ c) := fun s =>
  ⟨fun x y => ⟨_, h.add x y s, rfl⟩, fun x y => ⟨_, h.sub x y s, rfl⟩, fun x => ⟨_, h.neg x s, rfl⟩, fun x y => ⟨_, h.mul x y s, rfl⟩,
    fun x => ⟨_, h.squared x s, rfl⟩, fun x v hv => ⟨_, by rw [h.inverse x s, hv]; rfl, rfl⟩⟩

/-! ## Towers -/

theorem fpC_exact [Add K] [Sub K] [Neg K] [Mul K] [Squared K] [InverseO K] [LawfulSquared K] (asm3 : Bool) (c : C) :
    Exact (fpC asm3 c) (pureOps K) (fun
      | .add => unitC c .add 1
      | .sub => unitC c .sub 1
      | .neg => unitC c .sub 1
      | .mul => unitC c .mul 1
      | .sqr => if asm3 then unitC c .sqr 1 + unitC c .mul (-1) else unitC c .sqr 1
      | .inv => unitC c .inv 1) where
  add x y s := by simp only [fpC, bind_apply, bump_apply, Outcome.bind_ok, pure_apply]; rfl
  sub x y s := by simp only [fpC, bind_apply, bump_apply, Outcome.bind_ok, pure_apply]; rfl
  neg x s := by simp only [fpC, bind_apply, bump_apply, Outcome.bind_ok, pure_apply]; rfl
  mul x y s := by simp only [fpC, bind_apply, bump_apply, Outcome.bind_ok, pure_apply]; rfl
  squared x s := by
    cases asm3
    · simp only [fpC, bind_apply, bump_apply, Outcome.bind_ok, pure_apply, Bool.false_eq_true, if_false, pureOps,
        LawfulSquared.squared_eq]
      congr 2
      funext c' k'
      simp only [Pi.add_apply, unitC]
      split <;> split <;> ring
    · simp only [fpC, bind_apply, bump_apply, Outcome.bind_ok, pure_apply, if_true, pureOps]
      congr 2
      funext c' k'
      simp only [Pi.add_apply]
      ring
  inverse x s := by
    simp only [fpC, bind_apply, bump_apply, Outcome.bind_ok]
    rfl

/-- What operations of a quadratic extension cost. -/
def quadCost (c : C) (κ : FOp → Counters C) (ν : Counters C) : FOp → Counters C
  | .add => fun c' k => unitC c .add 1 c' k + 2 * κ .add c' k
  | .sub => fun c' k => unitC c .sub 1 c' k + 2 * κ .sub c' k
  | .neg => fun c' k => 2 * κ .neg c' k
  | .mul => fun c' k => unitC c .mul 1 c' k + 3 * κ .mul c' k + 3 * κ .add c' k + 2 * κ .sub c' k + ν c' k
  | .sqr => fun c' k => unitC c .sqr 1 c' k + 2 * κ .mul c' k + 3 * κ .add c' k + 2 * κ .sub c' k + 2 * ν c' k
  | .inv => fun c' k => unitC c .inv 1 c' k + 2 * κ .sqr c' k + κ .sub c' k + ν c' k + κ .inv c' k + 2 * κ .mul c' k + κ .neg c' k

/-- What operations of a cubic extension cost. -/
def cubicCost (c : C) (κ : FOp → Counters C) (ν : Counters C) : FOp → Counters C
  | .add => fun c' k => unitC c .add 1 c' k + 3 * κ .add c' k
  | .sub => fun c' k => unitC c .sub 1 c' k + 3 * κ .sub c' k
  | .neg => fun c' k => 3 * κ .neg c' k
  | .mul => fun c' k => unitC c .mul 1 c' k + 6 * κ .mul c' k + 9 * κ .add c' k + 6 * κ .sub c' k + 2 * ν c' k
  | .sqr => fun c' k => unitC c .sqr 1 c' k + 3 * κ .sqr c' k + 2 * κ .mul c' k + 7 * κ .add c' k + 3 * κ .sub c' k + 2 * ν c' k
  | .inv => fun c' k => unitC c .inv 1 c' k + 3 * κ .sqr c' k + 9 * κ .mul c' k + 3 * κ .sub c' k + 2 * κ .add c' k + 3 * ν c' k +
      κ .inv c' k

section
variable [Add K] [Sub K] [Neg K] [Mul K] [Squared K] [InverseO K] {nr : K → K} {nrM : K → CM C K} {B : CField C K}
  {κ : FOp → Counters C} {ν : Counters C}

theorem quadC_exact (c : C) (hB : Exact B (pureOps K) κ) (hn : ∀ x s, nrM x s = .ok (nr x, s + ν)) :
    Exact (quadC c nr nrM B) (pureOps (Quad K nr)) (quadCost c κ ν) where
  add x y s := by
    simp only [quadC, bind_apply, bump_apply, Outcome.bind_ok, pure_apply, hB.add]
    exact congrArg Outcome.ok (Prod.ext rfl (by funext c' k; simp only [Pi.add_apply, quadCost]; ring))
  sub x y s := by
    simp only [quadC, bind_apply, bump_apply, Outcome.bind_ok, pure_apply, hB.sub]
    exact congrArg Outcome.ok (Prod.ext rfl (by funext c' k; simp only [Pi.add_apply, quadCost]; ring))
  neg x s := by
    simp only [quadC, bind_apply, Outcome.bind_ok, pure_apply, hB.neg]
    exact congrArg Outcome.ok (Prod.ext rfl (by funext c' k; simp only [Pi.add_apply, quadCost]; ring))
  mul x y s := by
    simp only [quadC, bind_apply, bump_apply, Outcome.bind_ok, pure_apply, hB.add, hB.sub, hB.mul, hn]
    exact congrArg Outcome.ok (Prod.ext rfl (by funext c' k; simp only [Pi.add_apply, quadCost]; ring))
  squared x s := by
    simp only [quadC, bind_apply, bump_apply, Outcome.bind_ok, pure_apply, hB.add, hB.sub, hB.mul, hn]
    exact congrArg Outcome.ok (Prod.ext rfl (by funext c' k; simp only [Pi.add_apply, quadCost]; ring))
  inverse x s := by
    simp only [quadC, bind_apply, bump_apply, Outcome.bind_ok, hB.squared, hB.sub, hn, hB.inverse]
    have e : (pureOps (Quad K nr)).inverse x = ((pureOps K).inverse ((pureOps K).sub ((pureOps K).squared x.c0)
        (nr ((pureOps K).squared x.c1)))).map fun t3 => ⟨(pureOps K).mul x.c0 t3, (pureOps K).neg ((pureOps K).mul x.c1 t3)⟩ := rfl
    rw [e]
    cases (pureOps K).inverse ((pureOps K).sub ((pureOps K).squared x.c0) (nr ((pureOps K).squared x.c1))) with
    | abort => rfl
    | ub => rfl
    | ok t3 =>
      simp only [Outcome.bind_ok, Outcome.map_ok, bind_apply, pure_apply, hB.mul, hB.neg]
      exact congrArg Outcome.ok (Prod.ext rfl (by funext c' k; simp only [Pi.add_apply, quadCost]; ring))

theorem cubicC_exact (c : C) (hB : Exact B (pureOps K) κ) (hn : ∀ x s, nrM x s = .ok (nr x, s + ν)) :
    Exact (cubicC c nr nrM B) (pureOps (Cubic K nr)) (cubicCost c κ ν) where
  add x y s := by
    simp only [cubicC, bind_apply, bump_apply, Outcome.bind_ok, pure_apply, hB.add]
    exact congrArg Outcome.ok (Prod.ext rfl (by funext c' k; simp only [Pi.add_apply, cubicCost]; ring))
  sub x y s := by
    simp only [cubicC, bind_apply, bump_apply, Outcome.bind_ok, pure_apply, hB.sub]
    exact congrArg Outcome.ok (Prod.ext rfl (by funext c' k; simp only [Pi.add_apply, cubicCost]; ring))
  neg x s := by
    simp only [cubicC, bind_apply, Outcome.bind_ok, pure_apply, hB.neg]
    exact congrArg Outcome.ok (Prod.ext rfl (by funext c' k; simp only [Pi.add_apply, cubicCost]; ring))
  mul x y s := by
    simp only [cubicC, bind_apply, bump_apply, Outcome.bind_ok, pure_apply, hB.add, hB.sub, hB.mul, hn]
    exact congrArg Outcome.ok (Prod.ext rfl (by funext c' k; simp only [Pi.add_apply, cubicCost]; ring))
  squared x s := by
    simp only [cubicC, bind_apply, bump_apply, Outcome.bind_ok, pure_apply, hB.add, hB.sub, hB.mul, hB.squared, hn]
    exact congrArg Outcome.ok (Prod.ext rfl (by funext c' k; simp only [Pi.add_apply, cubicCost]; ring))
  inverse x s := by
    simp only [cubicC, bind_apply, bump_apply, Outcome.bind_ok, hB.squared, hB.sub, hB.add, hB.mul, hn, hB.inverse]
    have e : (pureOps (Cubic K nr)).inverse x =
        let P := pureOps K
        let c0 := P.sub (P.squared x.c0) (nr (P.mul x.c1 x.c2))
        let c1 := P.sub (nr (P.squared x.c2)) (P.mul x.c0 x.c1)
        let c2 := P.sub (P.squared x.c1) (P.mul x.c0 x.c2)
        (P.inverse (P.add (P.mul x.c0 c0) (nr (P.add (P.mul x.c2 c1) (P.mul x.c1 c2))))).map fun t6 =>
          ⟨P.mul t6 c0, P.mul t6 c1, P.mul t6 c2⟩ := rfl
    rw [e]
    dsimp only
    generalize (pureOps K).inverse _ = o
    cases o with
    | abort => rfl
    | ub => rfl
    | ok t3 =>
      simp only [Outcome.bind_ok, Outcome.map_ok, bind_apply, pure_apply, hB.mul]
      exact congrArg Outcome.ok (Prod.ext rfl (by funext c' k; simp only [Pi.add_apply, cubicCost]; ring))

end

/-- What operations of the prime field cost. -/
def fpCost (asm3 : Bool) : FOp → Counters TowerCls
  | .add => unitC .Fp .add 1
  | .sub => unitC .Fp .sub 1
  | .neg => unitC .Fp .sub 1
  | .mul => unitC .Fp .mul 1
  | .sqr => if asm3 then unitC .Fp .sqr 1 + unitC .Fp .mul (-1) else unitC .Fp .sqr 1
  | .inv => unitC .Fp .inv 1

def fp2Cost (asm3 : Bool) := quadCost TowerCls.Fp2 (fpCost asm3) (fpCost asm3 .mul)
def fp3Cost (asm3 : Bool) := cubicCost TowerCls.Fp3 (fpCost asm3) (fpCost asm3 .mul)
def fp4Cost (asm3 : Bool) := quadCost TowerCls.Fp4 (fp2Cost asm3) (fpCost asm3 .mul)
def fp6_2over3Cost (asm3 : Bool) := quadCost TowerCls.Fp6_2over3 (fp3Cost asm3) (fpCost asm3 .mul)
def fp6_3over2Cost (asm3 : Bool) := cubicCost TowerCls.Fp6_3over2 (fp2Cost asm3) (fp2Cost asm3 .mul)
def fp12Cost (asm3 : Bool) := quadCost TowerCls.Fp12 (fp6_3over2Cost asm3) (fp2Cost asm3 .mul)

section
variable [Add K] [Sub K] [Neg K] [Mul K] [Squared K] [InverseO K] [LawfulSquared K] (asm3 : Bool)

theorem FpC_exact : Exact (FpC asm3) (pureOps K) (fpCost asm3) := by
  have h := fpC_exact (K := K) asm3 TowerCls.Fp
  refine ⟨h.add, h.sub, h.neg, h.mul, h.squared, h.inverse⟩

theorem Fp2C_exact (β : K) : Exact (Fp2C asm3 β) (pureOps (Fp2 K β)) (fp2Cost asm3) :=
  quadC_exact _ (FpC_exact asm3) fun x s => (FpC_exact asm3).mul β x s

theorem Fp3C_exact (β : K) : Exact (Fp3C asm3 β) (pureOps (Fp3 K β)) (fp3Cost asm3) :=
  cubicC_exact _ (FpC_exact asm3) fun x s => (FpC_exact asm3).mul β x s

theorem Fp4C_exact (β γ : K) : Exact (Fp4C asm3 β γ) (pureOps (Fp4 K β γ)) (fp4Cost asm3) :=
  quadC_exact _ (Fp2C_exact asm3 β) fun x s => by
    simp only [fp4nrC, bind_apply, (FpC_exact (K := K) asm3).mul, Outcome.bind_ok, pure_apply]; rfl

theorem Fp6_2over3C_exact (β γ : K) : Exact (Fp6_2over3C asm3 β γ) (pureOps (Fp6_2over3 K β γ)) (fp6_2over3Cost asm3) :=
  quadC_exact _ (Fp3C_exact asm3 β) fun x s => by
    simp only [fp6nrC, bind_apply, (FpC_exact (K := K) asm3).mul, Outcome.bind_ok, pure_apply]; rfl

theorem Fp6_3over2C_exact (β : K) (ξ : Fp2 K β) :
    Exact (Fp6_3over2C asm3 β ξ) (pureOps (Fp6_3over2 K β ξ)) (fp6_3over2Cost asm3) :=
  cubicC_exact _ (Fp2C_exact asm3 β) fun x s => (Fp2C_exact asm3 β).mul ξ x s

theorem Fp12C_exact (β : K) (ξ γ : Fp2 K β) : Exact (Fp12C asm3 β ξ γ) (pureOps (Fp12 K β ξ γ)) (fp12Cost asm3) :=
  quadC_exact _ (Fp6_3over2C_exact asm3 β ξ) fun x s => by
    simp only [fp12nrC, bind_apply, (Fp2C_exact asm3 β).mul, Outcome.bind_ok, pure_apply]; rfl

end

/-! ## Binary fields -/

section
variable [Mul K]

theorem gfMulC_apply (c : GfCls) (x y : K) (s : Counters GfCls) : gfMulC c x y s = .ok (x * y, s + unitC c .mul 1) := by
  simp only [gfMulC, bind_apply, bump_apply, Outcome.bind_ok, pure_apply]

theorem gfSquareC_apply (c : GfCls) (x : K) (s : Counters GfCls) : gfSquareC c x s = .ok (x * x, s + unitC c .sqr 1) := by
  simp only [gfSquareC, bind_apply, bump_apply, Outcome.bind_ok, gfMulC_apply]
  congr 2
  funext c' k'
  simp only [Pi.add_apply, unitC]
  split <;> split <;> ring

theorem gfSquareN_succ (n : Nat) (b : K) : gfSquareN (n + 1) b = gfSquareN n (b * b) := by
  unfold gfSquareN
  rw [List.range_succ_eq_map, List.foldl_cons, List.foldl_map]

theorem gfSquareNC_apply (c : GfCls) (n : Nat) (b : K) (s : Counters GfCls) :
    gfSquareNC c n b s = .ok (gfSquareN n b, s + unitC c .sqr n) := by
  induction n generalizing b s with
  | zero =>
    unfold gfSquareNC
    rw [pure_apply]
    refine congrArg Outcome.ok (Prod.ext rfl ?_)
    funext c' k'
    simp [unitC]
  | succ n ih =>
    unfold gfSquareNC
    simp only [bind_apply, gfSquareC_apply, Outcome.bind_ok, ih]
    rw [gfSquareN_succ]
    congr 2
    funext c' k'
    simp only [Pi.add_apply, unitC]
    split
    · push_cast; ring
    · ring

/-- A round with `prev_result`. -/
def gfRound3 (st : K × K × K) (i : Nat) : K × K × K :=
  let b := gfSquareN (1 <<< i) st.1
  (st.1 * b, if i = 0 then b else st.2.1 * b, st.2.1)

/-- Products in rounds `i`, ..., `i + n - 1`. -/
def roundMuls : Nat → Nat → Int
  | 0, _ => 0
  | n + 1, i => 1 + (if i = 0 then 0 else 1) + roundMuls n (i + 1)

/-- Squarings in rounds `i`, ..., `i + n - 1`. -/
def roundSqrs : Nat → Nat → Int
  | 0, _ => 0
  | n + 1, i => ((1 <<< i : Nat) : Int) + roundSqrs n (i + 1)

theorem gfInvRoundsC_apply (c : GfCls) (n i : Nat) (st : K × K × K) (s : Counters GfCls) :
    gfInvRoundsC c n i st s = .ok ((List.range' i n).foldl gfRound3 st,
      s + unitC c .mul (roundMuls n i) + unitC c .sqr (roundSqrs n i)) := by
  induction n generalizing i st s with
  | zero =>
    unfold gfInvRoundsC
    rw [pure_apply]
    refine congrArg Outcome.ok (Prod.ext rfl ?_)
    funext c' k'
    simp [unitC, roundMuls, roundSqrs]
  | succ n ih =>
    obtain ⟨a, r, p⟩ := st
    unfold gfInvRoundsC
    rw [List.range'_succ, List.foldl_cons]
    by_cases hi : i = 0
    · subst hi
      simp only [bind_apply, gfSquareNC_apply, gfMulC_apply, Outcome.bind_ok, if_true, pure_apply, ih, gfRound3]
      congr 2
      funext c' k'
      simp only [Pi.add_apply, unitC, roundMuls, roundSqrs, if_true]
      split <;> split <;> ring
    · simp only [bind_apply, gfSquareNC_apply, gfMulC_apply, Outcome.bind_ok, if_neg hi, ih, gfRound3]
      congr 2
      funext c' k'
      simp only [Pi.add_apply, unitC, roundMuls, roundSqrs, if_neg hi]
      split <;> split <;> ring

theorem gfRound3_proj (l : List Nat) (st : K × K × K) :
    (((l.foldl gfRound3 st).1, (l.foldl gfRound3 st).2.1) : K × K) = l.foldl gfInvRound (st.1, st.2.1) := by
  induction l generalizing st with
  | nil => rfl
  | cons i l ih => rw [List.foldl_cons, List.foldl_cons, ih]; rfl

/-- What operations of a binary field cost. -/
def gfCost (c : GfCls) : FOp → Counters GfCls
  | .add => unitC c .add 1
  | .sub => unitC c .sub 1
  | .neg => 0
  | .mul => unitC c .mul 1
  | .sqr => unitC c .sqr 1
  | .inv => unitC c .inv 1

theorem gfInverseC_apply [Zero K] (debug : Bool) (isZero : K → Bool) (c : GfCls) (last : Nat) (muls sqrs : Int)
    (hm : roundMuls (last + 1) 0 = muls) (hs : roundSqrs (last + 1) 0 = sqrs) (x : K) (s : Counters GfCls) :
    gfInverseC debug isZero c last muls sqrs x s =
      (if debug ∧ isZero x then Outcome.abort else Outcome.ok (gfInvLoop last x)).map fun y => (y, s + gfCost c .inv) := by
  simp only [gfInverseC, bind_apply, bump_apply, Outcome.bind_ok, CM.check]
  by_cases h : debug = true ∧ isZero x = true
  · rw [if_pos h, if_neg (by simp [h.1, h.2])]; rfl
  · rw [if_neg h, if_pos (by revert h; cases debug <;> simp)]
    simp only [Outcome.bind_ok, Outcome.map_ok, gfInvRoundsC_apply, pure_apply, hm, hs]
    have hv : (List.foldl gfRound3 (x, (0 : K), (0 : K)) (List.range' 0 (last + 1))).2.1 = gfInvLoop last x := by
      have := congrArg Prod.snd (gfRound3_proj (List.range' 0 (last + 1)) (x, (0 : K), (0 : K)))
      rw [gfInvLoop, List.range_eq_range']
      exact this
    rw [hv]
    congr 2
    funext c' k'
    simp only [Pi.add_apply, unitC, gfCost]
    split <;> split <;> split <;> simp_all <;> ring

end

theorem gf64InverseC_apply (debug : Bool) (x : GF64) (s : Counters GfCls) :
    gf64InverseC debug x s = (GF64.inverse debug x).map fun y => (y, s + gfCost .gf64 .inv) := by
  simp only [gf64InverseC, bind_apply, bump_apply, Outcome.bind_ok, CM.check, GF64.inverse]
  by_cases h : debug = true ∧ x.isZero = true
  · rw [if_pos h, if_neg (by simp [h.1, h.2])]; rfl
  · rw [if_neg h, if_pos (by revert h; cases debug <;> simp)]
    simp only [Outcome.bind_ok, Outcome.map_ok, gfMulC_apply, gfSquareNC_apply]
    refine congrArg Outcome.ok (Prod.ext rfl ?_)
    funext c' k'
    simp only [Pi.add_apply, unitC, gfCost]
    split <;> split <;> split <;> simp_all <;> ring

theorem gf192InverseC_apply (debug : Bool) (x : GF192) (s : Counters GfCls) :
    gf192InverseC debug x s = (GF192.inverse debug x).map fun y => (y, s + gfCost .gf192 .inv) := by
  simp only [gf192InverseC, bind_apply, bump_apply, Outcome.bind_ok, CM.check, GF192.inverse]
  by_cases h : debug = true ∧ x.isZero = true
  · rw [if_pos h, if_neg (by simp [h.1, h.2])]; rfl
  · rw [if_neg h, if_pos (by revert h; cases debug <;> simp)]
    have hm : roundMuls 7 0 = 13 := by decide
    have hs : roundSqrs 7 0 = 127 := by decide
    simp only [Outcome.bind_ok, Outcome.map_ok, gfMulC_apply, gfSquareNC_apply, gfSquareC_apply, gfInvRoundsC_apply, hm, hs]
    refine congrArg Outcome.ok (Prod.ext ?_ ?_)
    · unfold GF192.invChain
      rw [List.range_eq_range']
      rfl
    · funext c' k'
      simp only [Pi.add_apply, unitC, gfCost]
      split <;> split <;> split <;> simp_all <;> ring

/-! ## Exponentiation -/

/-- Products made by the loop from bit `m - 1` on. -/
def powCount (bit : Nat → Bool) : Nat → Bool → Nat
  | 0, _ => 0
  | i + 1, f => (if f then 1 else 0) + (if bit i then 1 + powCount bit i true else powCount bit i f)

omit [DecidableEq C] in
theorem powerLoopC_apply [Mul K] {F : CField C K} {κ : Counters C}
    (h : ∀ x y s, F.mul x y s = .ok (x * y, fun c k => s c k + κ c k)) (base : K) (bit : Nat → Bool)
    (m : Nat) (st : Bool × K) (s : Counters C) :
    powerLoopC F base bit m st s = .ok (powLoop (fun x => x * x) base bit m st,
      fun c k => s c k + powCount bit m st.1 * κ c k) := by
  induction m generalizing st s with
  | zero =>
    unfold powerLoopC
    rw [pure_apply]
    refine congrArg Outcome.ok (Prod.ext rfl ?_)
    funext c' k'
    simp [powCount]
  | succ m ih =>
    obtain ⟨f, x⟩ := st
    unfold powerLoopC powLoop powCount
    cases f <;> cases bit m <;>
      simp only [bind_apply, pure_apply, if_true, Bool.false_eq_true, if_false, Outcome.bind_ok, h, ih] <;>
      refine congrArg Outcome.ok (Prod.ext rfl ?_) <;> funext c' k' <;> push_cast <;> ring

theorem powCount_true (bit : Nat → Bool) (m : Nat) : powCount bit m true = m + (List.range m).countP bit := by
  induction m with
  | zero => rfl
  | succ m ih =>
    unfold powCount
    rw [ih, List.range_succ, List.countP_append]
    cases hb : bit m <;> simp [hb] <;> omega

theorem powCount_false_zero (bit : Nat → Bool) (k d : Nat) (h : ∀ i, k ≤ i → bit i = false) :
    powCount bit (k + d) false = powCount bit k false := by
  induction d with
  | zero => rfl
  | succ d ih =>
    rw [← Nat.add_assoc]
    conv_lhs => unfold powCount
    rw [h (k + d) (by omega), ih]
    simp

theorem powCount_eq (e m : Nat) (h : e < 2 ^ m) : powCount e.testBit m false = powMuls e := by
  have hs : e.size ≤ m := Nat.size_le.2 h
  obtain ⟨d, rfl⟩ := Nat.exists_eq_add_of_le hs
  rw [powCount_false_zero e.testBit e.size d fun i hi => Nat.testBit_lt_two_pow
    (lt_of_lt_of_le (Nat.size_le.1 le_rfl) (Nat.pow_le_pow_right (by norm_num) hi))]
  unfold powMuls
  cases hk : e.size with
  | zero => rfl
  | succ j =>
    have hlo : 2 ^ j ≤ e := Nat.lt_size.1 (by omega)
    have hhi : e < 2 ^ (j + 1) := Nat.size_le.1 (by omega)
    have hb : e.testBit j = true := Nat.testBit_of_two_pow_le_and_two_pow_add_one_gt hlo hhi
    unfold powCount
    rw [powCount_true, List.range_succ, List.countP_append]
    simp [hb]
    omega

end Libff
