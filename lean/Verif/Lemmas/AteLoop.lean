import Verif.Model.Pairing
import Mathlib.Tactic.Ring
import Mathlib.Tactic.Linarith
import Mathlib.Data.Nat.Bitwise

/-!
# The loops of the Miller functions compute a double-and-add chain

`pre` precomputes coefficients, `mil` consumes them; run one after the other they keep every invariant `Inv n` that holds for
`n = 1` at the start and is preserved by `n ↦ 2 n` and `n ↦ 2 n + 1`.
-/
namespace Libff

/-- A precomputing step and a consuming step that fit together. `e` is what one step emits, `cs` the emitted coefficients, `ix` the
state of the consumer's indices after `cs` has been consumed. -/
structure AteFused {S C D F I : Type*} (app : C → D → C) (ix : C → I) (pre : Bool → S × C → Outcome (S × C))
    (mil : C → Bool → F × I → Outcome (F × I)) (le : C → C → Prop) (Inv : ℕ → S → F → Prop) (N : ℕ) : Prop where
  refl : ∀ c, le c c
  trans : ∀ a b c, le a b → le b c → le a c
  step : ∀ n b s cs f, 1 ≤ n → 2 * n + b.toNat ≤ N → Inv n s f → ∃ s' e f', pre b (s, cs) = .ok (s', app cs e) ∧ le cs (app cs e) ∧
    (∀ C', le (app cs e) C' → mil C' b (f, ix cs) = .ok (f', ix (app cs e))) ∧ Inv (2 * n + b.toNat) s' f'

namespace AteFused
variable {S C D F I : Type*} {app : C → D → C} {ix : C → I} {pre : Bool → S × C → Outcome (S × C)}
  {mil : C → Bool → F × I → Outcome (F × I)} {le : C → C → Prop} {Inv : ℕ → S → F → Prop} {N : ℕ}

theorem loop_true (h : AteFused app ix pre mil le Inv N) : ∀ (k n : ℕ) (s : S) (cs : C) (f : F), 1 ≤ n → N / 2 ^ k = n →
    Inv n s f → ∃ s' cs' f', ateLoop N.testBit pre k true (s, cs) = .ok (s', cs') ∧ le cs cs' ∧
      (∀ C', le cs' C' → ateLoop N.testBit (mil C') k true (f, ix cs) = .ok (f', ix cs')) ∧ Inv N s' f'
  | 0, n, s, cs, f, _, hn, hi => by
    rw [pow_zero, Nat.div_one] at hn
    subst hn
    exact ⟨s, cs, f, rfl, h.refl cs, fun _ _ => rfl, hi⟩
  | k + 1, n, s, cs, f, h1, hn, hi => by
    have hb : N / 2 ^ k = 2 * n + (N.testBit k).toNat := by
      rw [← hn, pow_succ, ← Nat.div_div_eq_div_mul, Nat.testBit_eq_decide_div_mod_eq]
      have : N / 2 ^ k % 2 = 0 ∨ N / 2 ^ k % 2 = 1 := by omega
      rcases this with e | e <;> simp [e] <;> omega
    have hle : 2 * n + (N.testBit k).toNat ≤ N := hb ▸ Nat.div_le_self _ _
    obtain ⟨s1, e, f1, e1, l1, m1, i1⟩ := h.step n (N.testBit k) s cs f h1 hle hi
    obtain ⟨s2, cs2, f2, e2, l2, m2, i2⟩ := loop_true h k _ s1 (app cs e) f1 (by omega) hb i1
    refine ⟨s2, cs2, f2, ?_, h.trans _ _ _ l1 l2, fun C' hC => ?_, i2⟩
    · rw [ateLoop, if_neg (by simp), e1]; exact e2
    · rw [ateLoop, if_neg (by simp), m1 C' (h.trans _ _ _ l2 hC)]; exact m2 C' hC

/-- The whole loop. -/
theorem loop (h : AteFused app ix pre mil le Inv N) (hN : 1 ≤ N) : ∀ (k : ℕ) (s : S) (cs : C) (f : F), N < 2 ^ k → Inv 1 s f →
    ∃ s' cs' f', ateLoop N.testBit pre k false (s, cs) = .ok (s', cs') ∧ le cs cs' ∧
      (∀ C', le cs' C' → ateLoop N.testBit (mil C') k false (f, ix cs) = .ok (f', ix cs')) ∧ Inv N s' f'
  | 0, s, cs, f, hk, _ => by rw [pow_zero] at hk; omega
  | k + 1, s, cs, f, hk, hi => by
    have hq : N / 2 ^ k < 2 := Nat.div_lt_of_lt_mul (by rw [← pow_succ]; exact hk)
    by_cases hb : N / 2 ^ k = 1
    · have ht : N.testBit k = true := by rw [Nat.testBit_eq_decide_div_mod_eq, hb]; rfl
      obtain ⟨s2, cs2, f2, e2, l2, m2, i2⟩ := h.loop_true k 1 s cs f le_rfl hb hi
      refine ⟨s2, cs2, f2, ?_, l2, fun C' hC => ?_, i2⟩
      · rw [ateLoop, if_pos rfl, ht]; exact e2
      · rw [ateLoop, if_pos rfl, ht]; exact m2 C' hC
    · have h0 : N / 2 ^ k = 0 := Nat.lt_one_iff.1 (lt_of_le_of_ne (Nat.lt_succ_iff.1 hq) hb)
      have ht : N.testBit k = false := by rw [Nat.testBit_eq_decide_div_mod_eq, h0]; rfl
      have hk' : N < 2 ^ k := by
        rcases Nat.div_eq_zero_iff.1 h0 with h' | h'
        · exact absurd h' (pow_ne_zero k two_ne_zero)
        · exact h'
      obtain ⟨s2, cs2, f2, e2, l2, m2, i2⟩ := loop h hN k s cs f hk' hi
      refine ⟨s2, cs2, f2, ?_, l2, fun C' hC => ?_, i2⟩
      · rw [ateLoop, if_pos rfl, ht]; exact e2
      · rw [ateLoop, if_pos rfl, ht]; exact m2 C' hC

end AteFused
end Libff
