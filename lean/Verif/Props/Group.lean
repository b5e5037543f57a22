import Verif.Lemmas.Group
import Verif.Lemmas.WnafExact
import Mathlib.Data.Int.Basic
import Mathlib.Algebra.Group.Int.Defs

/-!
# Properties of scalar multiplication and of the wNAF code (C25, C26, C27)
-/
namespace Libff

/-- A toy group class whose objects are integers, used to show that hypotheses can be met. -/
abbrev IntGroup := Int

/-- The integers with their usual operations, as a group class. -/
instance instGroupOpsInt : GroupOps IntGroup := ⟨0, (· + ·), (· - ·), fun a => a + a⟩

/-- The integers implement a group. -/
theorem intGroup_implements : ImplementsGroup (A := Int) (fun a : IntGroup => (a : Int)) :=
  ⟨rfl, fun _ _ => rfl, fun _ _ => rfl, fun _ => rfl⟩

/-- **C25.** For every group class, `scalar * P` is `P` added to itself `scalar` times; no condition on the
scalar or its number of limbs. -/
theorem C25_scalar_mul {G A : Type*} [GroupOps G] [AddCommGroup A] {ψ : G → A}
    (h : ImplementsGroup ψ) (base : G) (scalar : List Limb) :
    ψ (scalarMul base scalar) = val scalar • ψ base :=
  scalarMul_spec h base scalar

example : scalarMul (G := IntGroup) (7 : Int) [5, 1] = 7 * (5 + 2 ^ 64) := by decide +kernel

/-- **C25.** Two scalars with the same value (whatever their limb counts, so whatever the number of leading
zero bits) give the same point. -/
theorem C25_leading_zeros {G A : Type*} [GroupOps G] [AddCommGroup A] {ψ : G → A}
    (h : ImplementsGroup ψ) (base : G) (s t : List Limb) (hst : val s = val t) :
    ψ (scalarMul base s) = ψ (scalarMul base t) := by
  rw [C25_scalar_mul h, C25_scalar_mul h, hst]

example : val [5] = val [5, 0, 0] := by decide

/-- **C26.** `find_wnaf(w, k)` for `1 ≤ w < 30` and `k ≤ 2^(64n) − 2^w`: it stays in bounds, returns
`64n + 1` digits of value `k`, each zero or odd of absolute value below `2^w`, and every nonzero digit is
followed by `w` zeros. -/
theorem C26_find_wnaf (w : Nat) (hw1 : 1 ≤ w) (hw : w < 30) (k : List Limb)
    (hk : val k + 2 ^ w ≤ 2 ^ (64 * k.length)) :
    ∃ ds, findWnaf w k = .ok ds ∧ ds.length = 64 * k.length + 1 ∧ digitsVal ds = val k ∧
      (∀ d ∈ ds, d = 0 ∨ (d % 2 = 1 ∧ |d| < 2 ^ w)) ∧ NonAdjacent w ds := by
  obtain ⟨ds, h1, h2, h3⟩ := findWnaf_spec w hw1 hw k hk
  exact ⟨ds, h1, by rw [h2, bigintMaxBits]; ring, h3⟩

example : val [0x8000000000003039, 77] + 2 ^ 5 ≤ 2 ^ (64 * 2) := by decide +kernel

example : (findWnaf 3 [(29 : Limb)]).map (·.take 6) = .ok [-3, 0, 0, 0, 0, 1] := by decide +kernel

/-- **C26.** The bound cannot be dropped: for the largest one-limb scalar the carry of `mpn_add_1` is lost
and the digits denote −1. -/
theorem C26_carry_lost :
    findWnaf 1 [0xFFFFFFFFFFFFFFFF] = .ok ((-1) :: List.replicate 64 0) ∧
    digitsVal ((-1) :: List.replicate 64 0) ≠ val [0xFFFFFFFFFFFFFFFF] := by
  constructor
  · decide +kernel
  · rw [digitsVal, digitsVal_replicate]; decide

/-- **C26.** The same in general: every all-ones scalar, of every positive limb count, is recoded to digits
of value −1. -/
theorem C26_carry_lost_all (n : Nat) (hn : 1 ≤ n) :
    ∃ ds, findWnaf 1 (List.replicate n 0xFFFFFFFFFFFFFFFF) = .ok ds ∧ digitsVal ds = -1 := by
  obtain ⟨m, rfl⟩ : ∃ m, n = m + 1 := ⟨n - 1, by omega⟩
  have hstep : wnafStep 1 (List.replicate (m + 1) 0xFFFFFFFFFFFFFFFF) = (-1, List.replicate (m + 1) 0) := by
    have hadd : ∀ k, mpn_add_1 (List.replicate k 0xFFFFFFFFFFFFFFFF) 1 = (List.replicate k 0, 1) := by
      intro k
      induction k with
      | zero => rfl
      | succ k ih =>
        rw [List.replicate_succ, mpn_add_1]
        have h1 : (0xFFFFFFFFFFFFFFFF : Limb).toNat + (1 : Limb).toNat = 2 ^ 64 := by decide
        have h2 : BitVec.ofNat 64 (2 ^ 64 / 2 ^ 64) = (1 : Limb) := by decide
        have h3 : BitVec.ofNat 64 (2 ^ 64) = (0 : Limb) := by decide
        simp only [h1, h2, h3, ih, List.replicate_succ]
    have hsh : ∀ k, rshift1 (List.replicate k 0) = List.replicate k 0 := by
      intro k
      induction k with
      | zero => rfl
      | succ k ih =>
        rw [List.replicate_succ, rshift1, ih]
        have hd : (List.replicate k (0 : Limb)).headD 0 = 0 := by cases k <;> simp [List.replicate_succ]
        rw [hd]
        simp
    unfold wnafStep
    have hh : (List.replicate (m + 1) (0xFFFFFFFFFFFFFFFF : Limb)).headD 0 = 0xFFFFFFFFFFFFFFFF := by
      rw [List.replicate_succ, List.headD_cons]
    rw [hh]
    have hd : wnafDigit 1 0xFFFFFFFFFFFFFFFF = -1 := by decide +kernel
    have hb : ((0xFFFFFFFFFFFFFFFF &&& 1 : Limb) == 1) = true := by decide
    rw [if_pos hb, hd]
    simp only
    have h1 : BitVec.ofNat 64 (- (-1 : Int)).toNat = (1 : Limb) := by decide
    rw [if_neg (by decide), h1, hadd, hsh]
  have hz : limbsIsZero (List.replicate (m + 1) (0 : Limb)) = true := by
    rw [limbsIsZero_iff]
    generalize m + 1 = k
    induction k with
    | zero => rfl
    | succ k ih => rw [List.replicate_succ, val_cons, ih]; rfl
  have hnz : ¬ (limbsIsZero (List.replicate (m + 1) (0xFFFFFFFFFFFFFFFF : Limb)) = true) := by
    rw [limbsIsZero_iff, List.replicate_succ, val_cons]
    have : (0xFFFFFFFFFFFFFFFF : Limb).toNat = 2 ^ 64 - 1 := by decide
    omega
  obtain ⟨j, hj⟩ : ∃ j, bigintMaxBits (List.replicate (m + 1) (0xFFFFFFFFFFFFFFFF : Limb)) = j + 1 := by
    refine ⟨bigintMaxBits (List.replicate (m + 1) (0xFFFFFFFFFFFFFFFF : Limb)) - 1, ?_⟩
    rw [bigintMaxBits, List.length_replicate]; omega
  refine ⟨(-1) :: List.replicate (j + 1) 0, ?_, by rw [digitsVal, digitsVal_replicate]; rfl⟩
  rw [findWnaf, if_neg (by decide), hj, wnafLoop, if_neg hnz, hstep]
  simp only
  rw [wnafLoop, if_pos hz]
  rfl

example : (1 : Nat) ≤ 4 := by decide

/-- **C26.** `find_wnaf` on every scalar whatsoever: it never writes out of bounds, its digits always have
the right shape, and their value is the scalar, except for the odd scalars less than `2^w` below the top of
the range, where it is the scalar minus `2^(64n)`. So the exceptions are exactly `2^(w−1)` scalars per limb
count. -/
theorem C26_exact (w : Nat) (hw1 : 1 ≤ w) (hw : w < 30) (k : List Limb) :
    ∃ ds, findWnaf w k = .ok ds ∧ ds.length = 64 * k.length + 1 ∧
      (∀ d ∈ ds, d = 0 ∨ (d % 2 = 1 ∧ |d| < 2 ^ w)) ∧ NonAdjacent w ds ∧
      digitsVal ds = (if val k % 2 = 1 ∧ 2 ^ (64 * k.length) < val k + 2 ^ w then
        (val k : Int) - 2 ^ (64 * k.length) else val k) ∧
      (digitsVal ds = val k ↔ ¬ (val k % 2 = 1 ∧ 2 ^ (64 * k.length) < val k + 2 ^ w)) := by
  obtain ⟨ds, h1, h2, h3, h4, h5⟩ := findWnaf_exact w hw1 hw k
  refine ⟨ds, h1, h2, h4, h5, h3, ?_⟩
  rw [h3]
  have hp : (0 : Int) < 2 ^ (64 * k.length) := by positivity
  split
  · rename_i h
    refine ⟨fun e => ?_, fun e => absurd h e⟩
    omega
  · rename_i h
    exact ⟨fun _ => h, fun _ => rfl⟩

/-- An even scalar and an odd one, both less than `2^3` below the top. -/
example : (findWnaf 3 [0xFFFFFFFFFFFFFFFC]).map digitsVal = .ok (2 ^ 64 - 4) ∧
    (findWnaf 3 [0xFFFFFFFFFFFFFFFB]).map digitsVal = .ok (-5) ∧
    val [(0xFFFFFFFFFFFFFFFB : Limb)] % 2 = 1 ∧
    2 ^ (64 * 1) < val [(0xFFFFFFFFFFFFFFFB : Limb)] + 2 ^ 3 := by decide +kernel

/-- **C27.** `fixed_window_wnaf_exp(w, base, k)` is `k * base` for every window `1 ≤ w < 30` and every
scalar outside the very top of the range. -/
theorem C27_fixed_window {G A : Type*} [GroupOps G] [AddCommGroup A] {ψ : G → A}
    (h : ImplementsGroup ψ) (w : Nat) (hw1 : 1 ≤ w) (hw : w < 30) (base : G) (k : List Limb)
    (hk : val k + 2 ^ w ≤ 2 ^ (64 * k.length)) :
    ∃ g, fixedWindowWnafExp w base k = .ok g ∧ ψ g = val k • ψ base :=
  fixedWindowWnafExp_spec h w hw1 hw base k hk

example : fixedWindowWnafExp (G := IntGroup) 4 (3 : Int) [1000003] = .ok (3 * 1000003) := by decide +kernel

theorem bestWindow_le (bits : Nat) (t : List Nat) : bestWindow bits t ≤ t.length := by
  induction t with
  | nil => exact Nat.le_refl _
  | cons x t ih => unfold bestWindow; split <;> simp; omega

/-- **C27.** `opt_window_wnaf_exp(base, k, bits)` is `k * base` for every window table with fewer than 30
entries and whatever `bits` is passed; the table only influences the cost. -/
theorem C27_opt_window {G A : Type*} [GroupOps G] [AddCommGroup A] {ψ : G → A}
    (h : ImplementsGroup ψ) (table : List Nat) (ht : table.length < 30) (base : G) (k : List Limb)
    (bits : Nat) (hk : val k + 2 ^ table.length ≤ 2 ^ (64 * k.length)) :
    ∃ g, optWindowWnafExp table base k bits = .ok g ∧ ψ g = val k • ψ base := by
  unfold optWindowWnafExp
  have hb := bestWindow_le bits table.reverse
  rw [List.length_reverse] at hb
  simp only
  split
  · apply fixedWindowWnafExp_spec h _ (by omega) (by omega)
    exact le_trans (Nat.add_le_add_left (Nat.pow_le_pow_right (by norm_num) hb) _) hk
  · exact ⟨_, rfl, scalarMul_spec h base k⟩

/-- The wNAF window table of alt_bn128 G1, alt_bn128_init.cpp:55-59. -/
example : optWindowWnafExp (G := IntGroup) [11, 24, 60, 127] (3 : Int) [1000003] 20 = .ok (3 * 1000003) := by
  decide +kernel

example : [11, 24, 60, 127].length < 30 ∧ val [1000003] + 2 ^ [11, 24, 60, 127].length ≤ 2 ^ (64 * 1) := by
  decide

/-- **C27.** At the top of the range the recoding error is visible in the group: `(2^64 − 1) * P` computed
with window 1 is `−P`. -/
theorem C27_top_scalar_wrong :
    fixedWindowWnafExp (G := IntGroup) 1 (1 : Int) [0xFFFFFFFFFFFFFFFF] = .ok (-1) ∧
    scalarMul (G := IntGroup) (1 : Int) [0xFFFFFFFFFFFFFFFF] = 2 ^ 64 - 1 := by
  decide +kernel

/-- **C27.** `fixed_window_wnaf_exp` on every scalar: it never fails, and it returns `k * base` exactly
when `k` is not one of the odd scalars less than `2^w` below the top of the range, or `2^(64n) * base` is
the zero of the group. -/
theorem C27_exact {G A : Type*} [GroupOps G] [AddCommGroup A] {ψ : G → A}
    (h : ImplementsGroup ψ) (w : Nat) (hw1 : 1 ≤ w) (hw : w < 30) (base : G) (k : List Limb) :
    ∃ g, fixedWindowWnafExp w base k = .ok g ∧
      (ψ g = val k • ψ base ↔
        ¬ (val k % 2 = 1 ∧ 2 ^ (64 * k.length) < val k + 2 ^ w) ∨ 2 ^ (64 * k.length) • ψ base = 0) := by
  obtain ⟨g, h1, h2⟩ := fixedWindowWnafExp_exact h w hw1 hw base k
  refine ⟨g, h1, ?_⟩
  rw [h2]
  split
  · rename_i hc
    have e : (2 : Int) ^ (64 * k.length) = ((2 ^ (64 * k.length) : Nat) : Int) := by norm_cast
    rw [sub_zsmul, natCast_zsmul, e, natCast_zsmul]
    constructor
    · intro hh
      right
      exact neg_eq_zero.1 (add_eq_left.1 hh)
    · rintro (hh | hh)
      · exact absurd hc hh
      · rw [hh]; simp
  · rename_i hc
    rw [natCast_zsmul]
    exact ⟨fun _ => Or.inl hc, fun _ => rfl⟩

example : fixedWindowWnafExp (G := IntGroup) 3 (7 : Int) [0xFFFFFFFFFFFFFFFC] = .ok (7 * (2 ^ 64 - 4)) := by
  decide +kernel

end Libff
