import Verif.Lemmas.WindowExact
import Verif.Props.Multiexp

/-!
# C31 for every scalar

`C31_windowed_exp` is about scalars below `2^scalar_size`. Here the scalar is arbitrary.
-/
namespace Libff
open GroupOps
variable {G A : Type*} [GroupOps G] [AddCommGroup A] {ψ : G → A}

/-- **C31.** What `windowed_exp` returns for any scalar `k` at all: with `rows = ⌈scalar_size / window⌉`, bits from `rows · window` on are
ignored; if what is left is still not below `2^scalar_size`, the whole last window is ignored. There is no error in either case. -/
theorem C31_exact (hG : ImplementsGroup ψ) (scalarSize window : Nat) (hw : 1 ≤ window) (hw2 : window ≤ 32)
    (hs : 1 ≤ scalarSize) (g : G) (T : List (List G)) (hT : getWindowTable scalarSize window g = .ok T) (e : List Limb)
    (rows : Nat) (hr : rows = (scalarSize + window - 1) / window) :
    ∃ t, windowedExp scalarSize window T e = .ok t ∧
      (val e % 2 ^ (rows * window) < 2 ^ scalarSize → ψ t = (val e % 2 ^ (rows * window)) • ψ g) ∧
      (2 ^ scalarSize ≤ val e % 2 ^ (rows * window) → ψ t = (val e % 2 ^ ((rows - 1) * window)) • ψ g) := by
  subst hr
  obtain ⟨t, h1, h2⟩ := windowedExp_all hG scalarSize window hw hw2 hs g T hT e
  refine ⟨t, h1, fun h => ?_, fun h => ?_⟩
  · rw [h2, if_pos h]
  · rw [h2, if_neg (not_lt.2 h)]

/-- **C31.** In a group where the base has infinite order (so that no two multiples agree) the result is `k · g` exactly for the scalars
below `2^scalar_size`. -/
theorem C31_correct_iff (hG : ImplementsGroup ψ) (scalarSize window : Nat) (hw : 1 ≤ window) (hw2 : window ≤ 32)
    (hs : 1 ≤ scalarSize) (g : G) (hinf : ∀ m n : Nat, m • ψ g = n • ψ g → m = n) (T : List (List G))
    (hT : getWindowTable scalarSize window g = .ok T) (e : List Limb) (t : G) (ht : windowedExp scalarSize window T e = .ok t) :
    ψ t = val e • ψ g ↔ val e < 2 ^ scalarSize := by
  obtain ⟨t', h1, h2, h3⟩ := C31_exact hG scalarSize window hw hw2 hs g T hT e _ rfl
  rw [ht] at h1
  obtain rfl := Outcome.ok.inj h1
  constructor
  · intro h
    rcases lt_or_ge (val e % 2 ^ ((scalarSize + window - 1) / window * window)) (2 ^ scalarSize) with hl | hl
    · rw [← hinf _ _ ((h2 hl).symm.trans h)]
      exact hl
    · have h4 := hinf _ _ ((h3 hl).symm.trans h)
      have h5 : val e < 2 ^ (((scalarSize + window - 1) / window - 1) * window) := by
        rw [← h4]
        exact Nat.mod_lt _ (Nat.pow_pos (by norm_num))
      have h6 : val e % 2 ^ ((scalarSize + window - 1) / window * window) ≤ val e := Nat.mod_le _ _
      have h7 : ((scalarSize + window - 1) / window - 1) * window ≤ scalarSize := by
        have := Nat.div_mul_le_self (scalarSize + window - 1) window
        rw [Nat.sub_mul]
        omega
      have h8 := Nat.pow_le_pow_right (n := 2) (by norm_num) h7
      omega
  · intro h
    obtain ⟨t', h1, h2⟩ := C31_windowed_exp hG scalarSize window hw hw2 hs g T hT e h
    rw [ht] at h1
    obtain rfl := Outcome.ok.inj h1
    exact h2

/-- Scalar size 4, window 3: the scalars 9, 9 + 64 and 9 + 32 give 9, 9 and (bits 3 to 5 dropped) 1 times the base. -/
example : ∃ T, getWindowTable (G := IntGroup) 4 3 (1 : Int) = .ok T ∧ windowedExp 4 3 T [9] = .ok 9 ∧
    windowedExp 4 3 T [9 + 64] = .ok 9 ∧ windowedExp 4 3 T [9 + 32] = .ok 1 := by
  refine ⟨_, rfl, ?_, ?_, ?_⟩ <;> decide +kernel
end Libff
