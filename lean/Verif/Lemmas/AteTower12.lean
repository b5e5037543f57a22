import Verif.Lemmas.MulByQ
import Verif.Props.Ext

/-!
# The roots of `ξ` in the tower of degree 12
-/
namespace Libff
set_option synthInstance.maxSize 2000

variable {K : Type*} [Field K] {β : K} {ξ : Fp2 K β}

namespace Ate12

/-- The embedding of the twist's field. -/
def tau (ξ : Fp2 K β) : Fp2 K β →+* Fp12 K β ξ ξ := Quad.ofBase.comp Cubic.ofBase

/-- The embedding of the base field. -/
def iota (ξ : Fp2 K β) : K →+* Fp12 K β ξ ξ := (tau ξ).comp Quad.ofBase

/-- `w²`. -/
def w2 : Fp12 K β ξ ξ := ⟨⟨0, 1, 0⟩, 0⟩
/-- `w³`. -/
def w3 : Fp12 K β ξ ξ := ⟨0, ⟨0, 1, 0⟩⟩
/-- `w⁴`. -/
def w4 : Fp12 K β ξ ξ := ⟨⟨0, 0, 1⟩, 0⟩

theorem w3_mul_w3 : (w3 : Fp12 K β ξ ξ) * w3 = tau ξ ξ := by
  ext <;> simp [w3, tau]

theorem w2_mul_w4 : (w2 : Fp12 K β ξ ξ) * w4 = tau ξ ξ := by
  ext <;> simp [w2, w4, tau]

theorem w2_mul_w2 : (w2 : Fp12 K β ξ ξ) * w2 = w4 := by
  ext <;> simp [w2, w4]

theorem line024 (a b c : Fp2 K β) : (⟨⟨a, 0, c⟩, ⟨0, b, 0⟩⟩ : Fp12 K β ξ ξ) = tau ξ a + tau ξ b * w3 + tau ξ c * w4 := by
  ext <;> simp [w3, w4, tau]

theorem line045 (a b c : Fp2 K β) : (⟨⟨b, 0, 0⟩, ⟨0, a, c⟩⟩ : Fp12 K β ξ ξ) = tau ξ b + tau ξ a * w3 + tau ξ c * (w2 * w3) := by
  ext <;> simp [w2, w3, tau]

theorem tau_scale (x : K) (t : Fp2 K β) : tau ξ (Quad.scale (· * ·) x t) = tau ξ t * iota ξ x := by
  rw [Quad.scale_eq_ofBase, map_mul, mul_comm]; rfl

theorem w2_pow : (w2 : Fp12 K β ξ ξ) ^ 3 = tau ξ ξ := by
  rw [pow_succ, pow_two, mul_comm, w2_mul_w2, w2_mul_w4]

theorem w3_pow : (w3 : Fp12 K β ξ ξ) ^ 2 = tau ξ ξ := by
  rw [pow_two, w3_mul_w3]

theorem w2_ne : (w2 : Fp12 K β ξ ξ) ≠ 0 := by
  intro h
  have := congrArg (fun x : Fp12 K β ξ ξ => x.c0.c1) h
  exact one_ne_zero (α := K) (congrArg Quad.c0 this)

/-- The abscissa minus that of an untwisted point lies in the sextic subfield. -/
theorem sub_mem (x : K) (z : Fp2 K β) :
    iota ξ x - w2 * tau ξ z = Quad.ofBase (⟨Quad.ofBase x, -z, 0⟩ : Fp6_3over2 K β ξ) := by
  ext <;> simp [iota, tau, w2]

theorem tau_eq (z : Fp2 K β) : tau ξ z = Quad.ofBase (Cubic.ofBase z : Fp6_3over2 K β ξ) := rfl

theorem w2_eq : (w2 : Fp12 K β ξ ξ) = Quad.ofBase (Cubic.gen : Fp6_3over2 K β ξ) := rfl

theorem w3_ne : (w3 : Fp12 K β ξ ξ) ≠ 0 := by
  intro h
  have := congrArg (fun x : Fp12 K β ξ ξ => x.c1.c1) h
  exact one_ne_zero (α := K) (congrArg Quad.c0 this)

/-- `1` and `w3` are independent over the twist's field. -/
theorem indep (s t : Fp2 K β) (h : tau ξ s + tau ξ t * w3 = 0) : s = 0 ∧ t = 0 := by
  have e : tau ξ s + tau ξ t * w3 = (⟨⟨s, 0, 0⟩, ⟨0, t, 0⟩⟩ : Fp12 K β ξ ξ) := by
    rw [line024, map_zero, zero_mul, add_zero]
  rw [e] at h
  exact ⟨congrArg (fun x : Fp12 K β ξ ξ => x.c0.c0) h, congrArg (fun x : Fp12 K β ξ ξ => x.c1.c1) h⟩

end Ate12
end Libff
