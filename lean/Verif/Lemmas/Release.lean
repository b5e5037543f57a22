import Verif.Spec.Release
import Verif.Model.Release
import Verif.Model.Multiexp
import Verif.Model.CurveIO
import Verif.Model.Bn128
import Verif.Model.Parallel
import Verif.Model.Profiling
import Verif.Lemmas.MillerDouble
import Mathlib.Tactic.SplitIfs

/-!
# Helper lemmas on builds without assertions
-/
namespace Libff

theorem AssertOnly.refl {α : Type _} (a : Outcome α) : AssertOnly a a := fun _ h => h

theorem AssertOnly.of_abort {α : Type _} (a : Outcome α) : AssertOnly .abort a := fun _ h => by cases h

theorem AssertOnly.bind {α β : Type _} {a b : Outcome α} {f g : α → Outcome β} (h : AssertOnly a b)
    (h' : ∀ x, AssertOnly (f x) (g x)) : AssertOnly (a.bind f) (b.bind g) := by
  intro y hy
  cases a with
  | ok x => rw [h x rfl]; exact h' x y hy
  | abort => cases hy
  | ub => cases hy

theorem AssertOnly.bind' {α β : Type _} {a b : Outcome α} {f g : α → Outcome β} (h : AssertOnly a b)
    (h' : ∀ x, a = .ok x → AssertOnly (f x) (g x)) : AssertOnly (a.bind f) (b.bind g) := by
  intro y hy
  cases a with
  | ok x => rw [h x rfl]; exact h' x rfl y hy
  | abort => cases hy
  | ub => cases hy

theorem AssertOnly.map {α β : Type _} {a b : Outcome α} (f : α → β) (h : AssertOnly a b) :
    AssertOnly (a.map f) (b.map f) := h.bind fun _ => .refl _

/-- The shape of an assertion. -/
theorem AssertOnly.guard {α : Type _} {p : Prop} [Decidable p] {a b : Outcome α} (h : AssertOnly a b) :
    AssertOnly (if p then .abort else a) b := by
  split
  · exact .of_abort _
  · exact h

theorem AssertOnly.guard' {α : Type _} {p : Prop} [Decidable p] {a b : Outcome α} (h : AssertOnly a b) :
    AssertOnly (if p then a else .abort) b := by
  split
  · exact h
  · exact .of_abort _

theorem AssertOnly.ite {α : Type _} {p : Prop} [Decidable p] {a b a' b' : Outcome α} (h : p → AssertOnly a a')
    (h' : ¬ p → AssertOnly b b') : AssertOnly (if p then a else b) (if p then a' else b') := by
  by_cases hp : p
  · rw [if_pos hp, if_pos hp]; exact h hp
  · rw [if_neg hp, if_neg hp]; exact h' hp

theorem redLoop_assertOnly (P : FpParams) (i : Nat) (l : List Limb) : AssertOnly (redLoop P i l) (.ok (redLoopR P i l)) := by
  induction i generalizing l with
  | zero => exact .refl _
  | succ i ih => exact .guard' (ih _)

theorem mulReduce_assertOnly (P : FpParams) (a b : List Limb) : AssertOnly (mulReduce P a b) (.ok (mulReduceR P a b)) := by
  have h := (redLoop_assertOnly P P.n (mpn_mul a b)).bind (f := fun hi =>
    if (mpn_cmp hi P.modulus).isGE then
      let d := mpn_sub hi P.modulus
      if d.2 = 0 then .ok d.1 else .abort
    else .ok hi) (g := fun hi => .ok (if (mpn_cmp hi P.modulus).isGE then (mpn_sub hi P.modulus).1 else hi)) (by
      intro hi
      by_cases hc : (mpn_cmp hi P.modulus).isGE = true
      · simp only [hc, if_true]; exact .guard' (.refl _)
      · simp only [hc]; exact .refl _)
  exact h

theorem addAssign_assertOnly (P : FpParams) (a b : List Limb) : AssertOnly (addAssign P a b) (.ok (addAssignR P a b)) := by
  unfold addAssign addAssignR
  dsimp only
  by_cases hc : ((mpn_add_n a b).2 || (mpn_cmp (mpn_add_n a b).1 P.modulus).isGE) = true
  · rw [if_pos hc, if_pos hc]; exact .guard' (.refl _)
  · rw [if_neg hc, if_neg hc]; exact .refl _

theorem subAssign_assertOnly (P : FpParams) (a b : List Limb) : AssertOnly (subAssign P a b) (.ok (subAssignR P a b)) := by
  unfold subAssign subAssignR
  exact .guard' (.refl _)

theorem fpOfLong_assertOnly (P : FpParams) (x : BitVec 64) (u : Bool) : AssertOnly (fpOfLong P x u) (fpOfLongR P x u) := by
  unfold fpOfLong fpOfLongR
  exact .ite (fun _ => mulReduce_assertOnly _ _ _) fun _ => .ite (fun _ => .refl _) fun _ => .guard' (mulReduce_assertOnly _ _ _)

theorem invertRepr_assertOnly (P : FpParams) (gx : Gcdext) (a : List Limb) :
    AssertOnly (invertRepr P gx a) (invertReprR P gx a) := by
  unfold invertRepr invertReprR
  by_cases ha : limbsIsZero a = true
  · rw [if_pos ha]; exact .of_abort _
  · rw [if_neg ha, if_neg ha]
    refine .ite (fun _ => .refl _) fun _ => .guard' (.bind (.refl _) fun m => ?_)
    by_cases hn : (gx a P.modulus).neg = true
    · simp only [hn, if_true]; exact .guard (mulReduce_assertOnly _ _ _)
    · simp only [hn]; exact mulReduce_assertOnly _ _ _

theorem fromWords_assertOnly (mont : Bool) (P : FpParams) (bits : Nat) (w : List Limb) :
    AssertOnly (fromWords mont P bits w) (fromWordsR mont P bits w) := by
  unfold fromWords fromWordsR fromWordsIntR
  refine .bind ?_ fun d => ?_
  · by_cases h : w.length * 64 < bits
    · unfold fromWordsInt; rw [if_pos h]; exact .of_abort _
    · rw [if_neg h]; exact .refl _
  · cases mont with
    | true => exact .refl _
    | false => exact (mulReduce_assertOnly P d P.Rsquared).map _

theorem bigintOfMpz_assertOnly (n k : Nat) : AssertOnly (bigintOfMpz n k) (.ok (bigintOfMpzR n k)) := by
  induction n generalizing k with
  | zero => exact .guard' (.refl _)
  | succ n ih => exact (ih (k / 2 ^ 64)).map _

theorem digitVals_assertOnly (s : List (BitVec 8)) : AssertOnly (digitVals s) (digitValsR s) := by
  induction s with
  | nil => exact .refl _
  | cons c s ih =>
    unfold digitVals digitValsR
    exact .ite (fun _ => ih.map _) fun _ => .of_abort _

theorem sha512Rng_assertOnly (P : FpParams) (hash : Nat → BitVec 64 → List Limb) (bits idx fuel : Nat) (iter : BitVec 64) :
    AssertOnly (sha512Rng P hash bits idx fuel iter) (sha512RngR P hash idx fuel iter) := by
  induction fuel generalizing iter with
  | zero => exact .refl _
  | succ fuel ih =>
    unfold sha512Rng sha512RngR
    exact .guard (.ite (fun _ => .refl _) fun _ => .bind (.refl _) fun m =>
      .ite (fun _ => ih _) fun _ => (mulReduce_assertOnly _ _ _).map _)

theorem toTwosComplement_assertOnly (i : Int) (w : Nat) : AssertOnly (toTwosComplement i w) (toTwosComplementR i w) := by
  unfold toTwosComplement toTwosComplementR
  split
  · intro x h; cases h
  · cases oneShl (w - 1) with
    | ok h => exact .guard (.guard (.refl _))
    | abort => exact .of_abort _
    | ub => intro x h; cases h

theorem fromTwosComplement_assertOnly (i : BitVec 64) (w : Nat) :
    AssertOnly (fromTwosComplement i w) (fromTwosComplementR i w) := by
  unfold fromTwosComplement fromTwosComplementR
  exact .ite (fun _ => .refl _) fun _ => .guard (.refl _)

section
variable {K : Type*} [Zero K] [One K] [Mul K] [InverseO K] [DecidableEq K]

theorem batchProducts_assertOnly (v : List K) (acc : K) :
    AssertOnly (batchProducts true v acc) (batchProducts false v acc) := by
  induction v generalizing acc with
  | nil => exact .refl _
  | cons x v ih =>
    unfold batchProducts
    simp only [Bool.false_eq_true, false_and, if_false]
    exact .guard ((ih _).map _)

theorem batchInvert_assertOnly (v : List K) : AssertOnly (batchInvert true v) (batchInvert false v) :=
  (batchProducts_assertOnly v 1).bind fun _ => .refl _

end

section
variable {K : Type} [Field K] [DecidableEq K]

theorem bn128_batchProducts_assertOnly (v : List K) (acc : K) :
    AssertOnly (Bn128.batchProducts true v acc) (Bn128.batchProducts false v acc) := by
  induction v generalizing acc with
  | nil => exact .refl _
  | cons x v ih =>
    unfold Bn128.batchProducts
    simp only [Bool.false_eq_true, false_and, if_false]
    exact .guard ((ih _).map _)

end

theorem naiveLoop_assertOnly {G S : Type*} [GroupOps G] (exp : S → G → Outcome G) (gs : List G) (ss : List S) (r : G) :
    AssertOnly (naiveLoop true exp gs ss r) (naiveLoop false exp gs ss r) := by
  induction gs generalizing ss r with
  | nil =>
    cases ss with
    | nil => exact .refl _
    | cons s ss => exact .of_abort _
  | cons g gs ih =>
    cases ss with
    | nil => exact .refl _
    | cons s ss => exact .bind (.refl _) fun t => ih _ _

theorem innerProduct_assertOnly {K : Type*} [Zero K] [Add K] [Mul K] (a b : List K) (r : K) :
    AssertOnly (innerProduct true a b r) (innerProduct false a b r) := by
  induction a generalizing b r with
  | nil =>
    cases b with
    | nil => exact .refl _
    | cons s ss => exact .of_abort _
  | cons g gs ih =>
    cases b with
    | nil => exact .refl _
    | cons s ss => exact ih _ _

theorem readList_assertOnly {α : Type} {r r' : Reader α} (h : ∀ s, AssertOnly (r s) (r' s))
    (after : List Byte → Outcome (List Byte)) (k : Nat) (s : List Byte) :
    AssertOnly (readList r after k s) (readList r' after k s) := by
  induction k generalizing s with
  | zero => exact .refl _
  | succ k ih => exact (h s).bind fun x => .bind (.refl _) fun s' => (ih s').map _

theorem inputBool_assertOnly (s : List Byte) : AssertOnly (inputBool true s) (inputBool false s) := by
  unfold inputBool
  refine .bind (.refl _) fun r => .bind (.refl _) fun s => ?_
  simp only [Bool.false_eq_true, false_and, if_false]
  exact .guard (.refl _)

end Libff
