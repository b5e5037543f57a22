import Verif.Lemmas.FpAsm
import Verif.Lemmas.Represents
import Mathlib.Tactic.Linarith
import Mathlib.Tactic.LinearCombination

/-! # The assembly of Montgomery multiplication for four and five words -/
namespace Libff.X86

/-- What stays the same, and the local array. -/
structure Mont (e : Env) (a b m : List Limb) (inv : Limb) (t : List Limb) (s : State) : Prop where
  A : s.mem (e .A).1 = a
  B : s.mem (e .B).1 = b
  M : s.mem (e .M).1 = m
  tmp : s.mem (e .tmp).1 = t
  inv : s.reg .inv = inv

/-- The operands of the `asm` statement. -/
structure MontEnv (e : Env) : Prop where
  A0 : (e .A).2 = 0
  B0 : (e .B).2 = 0
  M0 : (e .M).2 = 0
  tmp0 : (e .tmp).2 = 0
  A : (e .A).1 ≠ (e .tmp).1
  B : (e .B).1 ≠ (e .tmp).1
  M : (e .M).1 ≠ (e .tmp).1

/-- The high half of a product is at most `2 ^ 64 - 2`. -/
theorem mul_hi {lo hi x y : Limb} (h : lo.toNat + 18446744073709551616 * hi.toNat = x.toNat * y.toNat) : hi.toNat + 2 ≤ 18446744073709551616 := by
  have hx := x.isLt
  have hy := y.isLt
  have : x.toNat * y.toNat ≤ (2 ^ 64 - 1) * (2 ^ 64 - 1) := Nat.mul_le_mul (by omega) (by omega)
  omega

section
set_option linter.unusedSimpArgs false
variable {e : Env} (he : MontEnv e) {a b m t : List Limb} {inv : Limb} {s : State} {is : List Instr} {Q : State → Prop}
include he

theorem iterIter (i j : Nat) (hi : i < a.length) (hj : j + 1 < b.length) (hj' : j + 1 < m.length) (ht : j + 2 < t.length)
    (S : Mont e a b m inv t s)
    (k : ∀ s' x, Mont e a b m inv (t.set j x) s' → s'.reg .u = s.reg .u →
      x.toNat + 2 ^ 64 * (s'.reg .T1).toNat + 2 ^ 128 * (s'.reg .cy).toNat =
        (s.reg .T1).toNat + (a.getD i 0).toNat * (b.getD (j + 1) 0).toNat + (m.getD (j + 1) 0).toNat * (s.reg .u).toNat
          + 2 ^ 64 * ((s.reg .cy).toNat + (t.getD (j + 2) 0).toNat) → WP e is none s' Q) :
    WP e (MONT_ITERITER i (j + 1) ++ is) none s Q := by
  have h1 := he.A
  have h2 := he.B
  have h3 := he.M
  rw [MONT_ITERITER]
  simp only [List.cons_append, List.nil_append]
  refine WP.xorq ?_
  refine WP.movq ⟨rfl, by simp [State.okay_m, he.A0, S.A, hi], trivial⟩ ?_
  refine WP.mulq rfl (by simp [State.okay_m, he.B0, S.B, hj]) (fun p1 p0 c1 q1 => ?_)
  refine WP.addq ⟨rfl, trivial, trivial⟩ (fun x1 c2 q2 => ?_)
  refine WP.movq ⟨rfl, trivial, by simp [State.okay_m, he.tmp0, S.tmp]; omega⟩ ?_
  refine WP.adcq ⟨rfl, trivial, trivial⟩ (fun x2 c3 q3 => ?_)
  refine WP.movq ⟨rfl, trivial, trivial⟩ ?_
  refine WP.movq ⟨rfl, by simp [State.okay_m, he.M0, S.M, hj', h3], trivial⟩ ?_
  refine WP.mulq rfl trivial (fun p3 p2 c4 q4 => ?_)
  refine WP.addq ⟨rfl, trivial, by simp [State.okay_m, he.tmp0, S.tmp]; omega⟩ (fun x4 c5 q5 => ?_)
  refine WP.adcq ⟨rfl, trivial, trivial⟩ (fun x5 c6 q6 => ?_)
  refine WP.adcq ⟨rfl, trivial, trivial⟩ (fun x6 c7 q7 => ?_)
  refine WP.xorq ?_
  refine WP.addq ⟨rfl, trivial, trivial⟩ (fun x7 c8 q8 => ?_)
  refine WP.adcq ⟨rfl, trivial, trivial⟩ (fun x8 c9 q9 => ?_)
  refine WP.addq ⟨rfl, by simp [State.okay_m, he.tmp0, S.tmp]; omega, trivial⟩ (fun x9 c10 q10 => ?_)
  refine WP.adcq ⟨rfl, trivial, trivial⟩ (fun x10 c11 q11 => ?_)
  have htj : j < t.length := by omega
  simp [he.A0, he.B0, he.M0, he.tmp0, S.A, S.B, S.M, S.tmp, h1, h2, h3, htj] at q1 q2 q3 q4 q5 q6 q7 q8 q9 q10 q11
  refine k _ x4 ⟨?_, ?_, ?_, ?_, ?_⟩ ?_ ?_
  · simp [S.A, h1]
  · simp [S.B, h2]
  · simp [S.M, h3]
  · simp [S.tmp, he.tmp0]
  · simp [S.inv]
  · simp
  · simp
    rw [List.getElem?_set_ne (by omega), show j + 1 + 1 = j + 2 from rfl] at q10
    have b1 := mul_hi q1
    have b4 := mul_hi q4
    generalize BitVec.toNat (a[i]?.getD 0#64) * BitVec.toNat (b[j + 1]?.getD 0#64) = P1 at *
    generalize BitVec.toNat (m[j + 1]?.getD 0#64) * BitVec.toNat (s.reg Reg.u) = P2 at *
    clear k S
    have := Bool.toNat_le c2
    have := Bool.toNat_le c5
    have := Bool.toNat_le c6
    have := Bool.toNat_le c8
    have := Bool.toNat_le c10
    have : c3.toNat = 0 := by omega
    have : c7.toNat = 0 := by omega
    have : c9.toNat = 0 := by omega
    have : c11.toNat = 0 := by omega
    omega
theorem firstIter (j : Nat) (hi : 0 < a.length) (hj : j + 1 < b.length) (hj' : j + 1 < m.length) (ht : j + 1 < t.length)
    (S : Mont e a b m inv t s)
    (k : ∀ s' x, Mont e a b m inv (t.set j x) s' → s'.reg .u = s.reg .u →
      x.toNat + 2 ^ 64 * (s'.reg .T1).toNat + 2 ^ 128 * (s'.reg .cy).toNat =
        (s.reg .T1).toNat + (a.getD 0 0).toNat * (b.getD (j + 1) 0).toNat + (m.getD (j + 1) 0).toNat * (s.reg .u).toNat
          + 2 ^ 64 * (s.reg .cy).toNat → WP e is none s' Q) :
    WP e (MONT_FIRSTITER (j + 1) ++ is) none s Q := by
  have h1 := he.A
  have h2 := he.B
  have h3 := he.M
  rw [MONT_FIRSTITER]
  simp only [List.cons_append, List.nil_append]
  refine WP.xorq ?_
  refine WP.movq ⟨rfl, by simp [State.okay_m, he.A0, S.A]; exact hi, trivial⟩ ?_
  refine WP.mulq rfl (by simp [State.okay_m, he.B0, S.B, hj]) (fun p1 p0 c1 q1 => ?_)
  refine WP.addq ⟨rfl, trivial, trivial⟩ (fun x1 c2 q2 => ?_)
  refine WP.movq ⟨rfl, trivial, by simp [State.okay_m, he.tmp0, S.tmp]; omega⟩ ?_
  refine WP.adcq ⟨rfl, trivial, trivial⟩ (fun x2 c3 q3 => ?_)
  refine WP.movq ⟨rfl, trivial, trivial⟩ ?_
  refine WP.movq ⟨rfl, by simp [State.okay_m, he.M0, S.M, hj', h3], trivial⟩ ?_
  refine WP.mulq rfl trivial (fun p3 p2 c4 q4 => ?_)
  refine WP.addq ⟨rfl, trivial, by simp [State.okay_m, he.tmp0, S.tmp]; omega⟩ (fun x4 c5 q5 => ?_)
  refine WP.adcq ⟨rfl, trivial, trivial⟩ (fun x5 c6 q6 => ?_)
  refine WP.adcq ⟨rfl, trivial, trivial⟩ (fun x6 c7 q7 => ?_)
  refine WP.xorq ?_
  refine WP.addq ⟨rfl, trivial, trivial⟩ (fun x7 c8 q8 => ?_)
  refine WP.adcq ⟨rfl, trivial, trivial⟩ (fun x8 c9 q9 => ?_)
  have htj : j < t.length := by omega
  simp [he.A0, he.B0, he.M0, he.tmp0, S.A, S.B, S.M, S.tmp, h1, h2, h3, htj] at q1 q2 q3 q4 q5 q6 q7 q8 q9
  refine k _ x4 ⟨?_, ?_, ?_, ?_, ?_⟩ ?_ ?_
  · simp [S.A, h1]
  · simp [S.B, h2]
  · simp [S.M, h3]
  · simp [S.tmp, he.tmp0]
  · simp [S.inv]
  · simp
  · simp
    have b1 := mul_hi q1
    have b4 := mul_hi q4
    generalize BitVec.toNat (a[0]?.getD 0#64) * BitVec.toNat (b[j + 1]?.getD 0#64) = P1 at *
    generalize BitVec.toNat (m[j + 1]?.getD 0#64) * BitVec.toNat (s.reg Reg.u) = P2 at *
    clear k S
    have := Bool.toNat_le c2
    have := Bool.toNat_le c5
    have := Bool.toNat_le c6
    have := Bool.toNat_le c8
    have : c3.toNat = 0 := by omega
    have : c7.toNat = 0 := by omega
    have : c9.toNat = 0 := by omega
    omega

omit he in
theorem mont_zero {T0 inv u hi m0 x : Limb} {p2 p3 c : Nat} (hinv : (inv.toNat * m0.toNat + 1) % 2 ^ 64 = 0)
    (h1 : u.toNat + 18446744073709551616 * hi.toNat = T0.toNat * inv.toNat) (h2 : p2 + 18446744073709551616 * p3 = u.toNat * m0.toNat)
    (h3 : x.toNat + 18446744073709551616 * c = p2 + T0.toNat) : x.toNat = 0 := by
  obtain ⟨w, hw⟩ := Nat.dvd_of_mod_eq_zero hinv
  have hx := x.isLt
  have key : x.toNat + 18446744073709551616 * (c + p3 + hi.toNat * m0.toNat) = 18446744073709551616 * (T0.toNat * w) := by
    have e1 : T0.toNat * (inv.toNat * m0.toNat + 1) = T0.toNat * (2 ^ 64 * w) := by rw [hw]
    have e2 : (u.toNat + 18446744073709551616 * hi.toNat) * m0.toNat = T0.toNat * inv.toNat * m0.toNat := by rw [h1]
    have e3 : 18446744073709551616 = 2 ^ 64 := by norm_num
    rw [e3] at *
    nlinarith
  omega

theorem precompute (ha : 0 < a.length) (hb : 0 < b.length) (hm : 0 < m.length) (hinv : (inv.toNat * (m.getD 0 0).toNat + 1) % 2 ^ 64 = 0)
    (S : Mont e a b m inv t s)
    (k : ∀ s', Mont e a b m inv t s' →
      2 ^ 64 * ((s'.reg .T1).toNat + 2 ^ 64 * (s'.reg .cy).toNat) =
        (a.getD 0 0).toNat * (b.getD 0 0).toNat + (s'.reg .u).toNat * (m.getD 0 0).toNat → WP e is none s' Q) :
    WP e (MONT_PRECOMPUTE ++ is) none s Q := by
  have h1 := he.A
  have h2 := he.B
  have h3 := he.M
  rw [MONT_PRECOMPUTE]
  simp only [List.cons_append, List.nil_append]
  refine WP.xorq ?_
  refine WP.movq ⟨rfl, by simp [State.okay_m, he.A0, S.A]; exact ha, trivial⟩ ?_
  refine WP.mulq rfl (by simp [State.okay_m, he.B0, S.B]; exact hb) (fun p1 p0 c1 q1 => ?_)
  refine WP.movq ⟨rfl, trivial, trivial⟩ ?_
  refine WP.movq ⟨rfl, trivial, trivial⟩ ?_
  refine WP.mulq rfl trivial (fun v1 v0 c2 q2 => ?_)
  refine WP.movq ⟨rfl, trivial, trivial⟩ ?_
  refine WP.mulq rfl (by simp [State.okay_m, he.M0, S.M]; exact hm) (fun p3 p2 c3 q3 => ?_)
  refine WP.addq ⟨rfl, trivial, trivial⟩ (fun x4 c4 q4 => ?_)
  refine WP.adcq ⟨rfl, trivial, trivial⟩ (fun x5 c5 q5 => ?_)
  refine WP.adcq ⟨rfl, trivial, trivial⟩ (fun x6 c6 q6 => ?_)
  simp [he.A0, he.B0, he.M0, S.A, S.B, S.M, S.inv] at q1 q2 q3 q4 q5 q6
  refine k _ ⟨?_, ?_, ?_, ?_, ?_⟩ ?_
  · simp [S.A]
  · simp [S.B]
  · simp [S.M]
  · simp [S.tmp]
  · simp [S.inv]
  · simp
    simp at hinv
    have z := mont_zero hinv q2 q3 q4
    have := Bool.toNat_le c5
    clear k S
    generalize BitVec.toNat (a[0]?.getD 0#64) * BitVec.toNat (b[0]?.getD 0#64) = P1 at *
    generalize BitVec.toNat v0 * BitVec.toNat (m[0]?.getD 0#64) = P2 at *
    have : c6.toNat = 0 := by omega
    omega

theorem iterFirst (i : Nat) (ha : i < a.length) (hb : 0 < b.length) (hm : 0 < m.length) (ht : 1 < t.length)
    (hinv : (inv.toNat * (m.getD 0 0).toNat + 1) % 2 ^ 64 = 0)
    (S : Mont e a b m inv t s)
    (k : ∀ s', Mont e a b m inv t s' →
      2 ^ 64 * ((s'.reg .T1).toNat + 2 ^ 64 * (s'.reg .cy).toNat) =
        (a.getD i 0).toNat * (b.getD 0 0).toNat + (s'.reg .u).toNat * (m.getD 0 0).toNat + ((t.getD 0 0).toNat + 2 ^ 64 * (t.getD 1 0).toNat) →
      WP e is none s' Q) :
    WP e (MONT_ITERFIRST i ++ is) none s Q := by
  have h1 := he.A
  have h2 := he.B
  have h3 := he.M
  rw [MONT_ITERFIRST]
  simp only [List.cons_append, List.nil_append]
  refine WP.xorq ?_
  refine WP.movq ⟨rfl, by simp [State.okay_m, he.A0, S.A, ha], trivial⟩ ?_
  refine WP.mulq rfl (by simp [State.okay_m, he.B0, S.B]; exact hb) (fun p1 p0 c1 q1 => ?_)
  refine WP.addq ⟨rfl, by simp [State.okay_m, he.tmp0, S.tmp]; omega, trivial⟩ (fun y0 d0 r0 => ?_)
  refine WP.adcq ⟨rfl, by simp [State.okay_m, he.tmp0, S.tmp]; omega, trivial⟩ (fun y1 d1 r1 => ?_)
  refine WP.adcq ⟨rfl, trivial, trivial⟩ (fun y2 d2 r2 => ?_)
  refine WP.movq ⟨rfl, trivial, trivial⟩ ?_
  refine WP.movq ⟨rfl, trivial, trivial⟩ ?_
  refine WP.mulq rfl trivial (fun v1 v0 c2 q2 => ?_)
  refine WP.movq ⟨rfl, trivial, trivial⟩ ?_
  refine WP.mulq rfl (by simp [State.okay_m, he.M0, S.M]; exact hm) (fun p3 p2 c3 q3 => ?_)
  refine WP.addq ⟨rfl, trivial, trivial⟩ (fun x4 c4 q4 => ?_)
  refine WP.adcq ⟨rfl, trivial, trivial⟩ (fun x5 c5 q5 => ?_)
  refine WP.adcq ⟨rfl, trivial, trivial⟩ (fun x6 c6 q6 => ?_)
  simp [he.A0, he.B0, he.M0, he.tmp0, S.A, S.B, S.M, S.tmp, S.inv] at q1 q2 q3 q4 q5 q6 r0 r1 r2
  refine k _ ⟨?_, ?_, ?_, ?_, ?_⟩ ?_
  · simp [S.A]
  · simp [S.B]
  · simp [S.M]
  · simp [S.tmp]
  · simp [S.inv]
  · simp
    simp at hinv
    have z := mont_zero hinv q2 q3 q4
    have := Bool.toNat_le c5
    have := Bool.toNat_le d1
    clear k S
    generalize BitVec.toNat (a[i]?.getD 0#64) * BitVec.toNat (b[0]?.getD 0#64) = P1 at *
    generalize BitVec.toNat v0 * BitVec.toNat (m[0]?.getD 0#64) = P2 at *
    have : c6.toNat = 0 := by omega
    have : d2.toNat = 0 := by omega
    omega

theorem finalize (j : Nat) (ht : j + 1 < t.length) (S : Mont e a b m inv t s)
    (k : ∀ s', Mont e a b m inv ((t.set j (s.reg .T1)).set (j + 1) (s.reg .cy)) s' → WP e is none s' Q) :
    WP e (MONT_FINALIZE j ++ is) none s Q := by
  have h1 := he.A
  have h2 := he.B
  have h3 := he.M
  rw [MONT_FINALIZE]
  simp only [List.cons_append, List.nil_append]
  refine WP.movq ⟨rfl, trivial, by simp [State.okay_m, he.tmp0, S.tmp]; omega⟩ ?_
  refine WP.movq ⟨rfl, trivial, by simp [State.okay_m, he.tmp0, S.tmp]; omega⟩ ?_
  refine k _ ⟨?_, ?_, ?_, ?_, ?_⟩
  · simp [S.A, h1]
  · simp [S.B, h2]
  · simp [S.M, h3]
  · simp [S.tmp, he.tmp0]
  · simp [S.inv]

/-- What a column of a row does. `f` says what is added from the local array. -/
def ColSpec (e : Env) (a b m : List Limb) (inv : Limb) (mac : List Instr) (j i : Nat) (f : Nat → Nat) : Prop :=
  ∀ (t : List Limb) (s : State) (is : List Instr) (Q : State → Prop), j + 2 < t.length → Mont e a b m inv t s →
    (∀ s' x, Mont e a b m inv (t.set j x) s' → s'.reg .u = s.reg .u →
      x.toNat + 2 ^ 64 * (s'.reg .T1).toNat + 2 ^ 128 * (s'.reg .cy).toNat =
        (s.reg .T1).toNat + (a.getD i 0).toNat * (b.getD (j + 1) 0).toNat + (m.getD (j + 1) 0).toNat * (s.reg .u).toNat
          + 2 ^ 64 * ((s.reg .cy).toNat + f (t.getD (j + 2) 0).toNat) → WP e is none s' Q) →
    WP e (mac ++ is) none s Q

omit he in
theorem val_take_succ {l : List Limb} {j : Nat} (h : j < l.length) : val (l.take (j + 1)) = val (l.take j) + 2 ^ (64 * j) * (l.getD j 0).toNat := by
  rw [List.take_succ_eq_append_getElem h, val_append, List.length_take, min_eq_left (by omega), val_cons, val_nil,
    List.getD_eq_getElem?_getD, List.getElem?_eq_getElem h, Option.getD_some]
  ring

/-- The extra summand `f` of the first `j` words. -/
def extra (f : Nat → Nat) (t : List Limb) : Nat → Nat
  | 0 => 0
  | j + 1 => extra f t j + 2 ^ (64 * j) * f (t.getD j 0).toNat

omit he in
theorem extra_id (t : List Limb) : ∀ j, j ≤ t.length → extra id t j = val (t.take j)
  | 0, _ => by simp [extra, val_nil]
  | j + 1, h => by rw [extra, extra_id t j (by omega), val_take_succ (by omega)]; rfl

omit he in
theorem extra_zero (t : List Limb) : ∀ j, extra (fun _ => 0) t j = 0
  | 0 => rfl
  | j + 1 => by rw [extra, extra_zero t j]; simp

omit he in
theorem set_at {w : List Limb} {j : Nat} {t : List Limb} {x : Limb} (hw : w.length = j) (ht : j < t.length) :
    (w ++ t.drop j).set j x = (w ++ [x]) ++ t.drop (j + 1) := by
  subst hw
  rw [List.drop_eq_getElem_cons ht, List.set_append_right _ _ (le_refl _), Nat.sub_self, List.set_cons_zero, List.append_assoc]
  rfl

omit he in
theorem cols_spec (mac : Nat → List Instr) (i : Nat) (f : Nat → Nat) (t : List Limb) (u : Limb) (is : List Instr) (Q : State → Prop)
    (ht : t.length = b.length + 1) (hmb : m.length = b.length)
    (hmac : ∀ j, j + 1 < b.length → ColSpec e a b m inv (mac (j + 1)) j i f) : ∀ (r j : Nat) (w : List Limb) (s : State),
    j + 1 + r = b.length → w.length = j → Mont e a b m inv (w ++ t.drop j) s → s.reg .u = u →
    (val w + 2 ^ (64 * j) * ((s.reg .T1).toNat + 2 ^ 64 * (s.reg .cy).toNat)) * 2 ^ 64 =
      (a.getD i 0).toNat * val (b.take (j + 1)) + u.toNat * val (m.take (j + 1)) + extra f t (j + 2) →
    (∀ w s', w.length + 1 = b.length → Mont e a b m inv (w ++ t.drop w.length) s' →
      (val w + 2 ^ (64 * w.length) * ((s'.reg .T1).toNat + 2 ^ 64 * (s'.reg .cy).toNat)) * 2 ^ 64 =
        (a.getD i 0).toNat * val b + u.toNat * val m + extra f t (b.length + 1) → WP e is none s' Q) →
    WP e ((List.range' (j + 1) r).flatMap mac ++ is) none s Q := by
  intro r
  induction r with
  | zero =>
    intro j w s hr hw S hu hv k
    refine k w s (by omega) (by rw [hw]; exact S) ?_
    rw [List.take_of_length_le (by omega), List.take_of_length_le (by omega)] at hv
    rw [hw, hv, show b.length + 1 = j + 2 by omega]
  | succ r ih =>
    intro j w s hr hw S hu hv k
    rw [List.range'_succ, List.flatMap_cons, List.append_assoc]
    refine hmac j (by omega) _ s _ _ (by rw [List.length_append, List.length_drop]; omega) S (fun s' x S' hu' hx => ?_)
    refine ih (j + 1) (w ++ [x]) s' (by omega) (by simp [hw]) (by
      rw [← set_at hw (by omega)]; exact S') (hu'.trans hu) ?_ k
    have hget : (w ++ t.drop j).getD (j + 2) 0 = t.getD (j + 2) 0 := by
      rw [List.getD_eq_getElem?_getD, List.getElem?_append_right (by omega), hw, List.getElem?_drop, List.getD_eq_getElem?_getD]
      congr 2
      omega
    rw [hget, hu] at hx
    rw [val_append, hw, val_cons, val_nil, val_take_succ (l := b) (j := j + 1) (by omega), val_take_succ (l := m) (j := j + 1) (by omega),
      extra, show 64 * (j + 1) = 64 * j + 64 by ring, show 64 * (j + 2) = 64 * j + 128 by ring, pow_add, pow_add]
    generalize 2 ^ (64 * j) = B at *
    have : (val w + B * (x.toNat + 2 ^ 64 * 0) + B * 2 ^ 64 * ((s'.reg .T1).toNat + 2 ^ 64 * (s'.reg .cy).toNat)) * 2 ^ 64
      = val w * 2 ^ 64 + B * 2 ^ 64 * (x.toNat + 2 ^ 64 * (s'.reg .T1).toNat + 2 ^ 128 * (s'.reg .cy).toNat) := by ring
    rw [this, hx]
    have e2 : (val w + B * ((s.reg .T1).toNat + 2 ^ 64 * (s.reg .cy).toNat)) * 2 ^ 64 =
      val w * 2 ^ 64 + B * 2 ^ 64 * ((s.reg .T1).toNat + 2 ^ 64 * (s.reg .cy).toNat) := by ring
    rw [e2] at hv
    have e3 : (2 : Nat) ^ 128 = 2 ^ 64 * 2 ^ 64 := by rw [← pow_add]
    rw [e3]
    generalize 2 ^ 64 = D at *
    linear_combination hv

omit he in
theorem val_take_one {l : List Limb} (h : 0 < l.length) : val (l.take 1) = (l.getD 0 0).toNat := by
  rw [val_take_succ h]
  simp [val_nil]

/-- A row after its first column. -/
theorem rowTail_spec (mac : Nat → List Instr) (i : Nat) (f : Nat → Nat) (ht : t.length = b.length + 1) (hmb : m.length = b.length)
    (hb : 0 < b.length) (hmac : ∀ j, j + 1 < b.length → ColSpec e a b m inv (mac (j + 1)) j i f) (S : Mont e a b m inv t s)
    (hv : 2 ^ 64 * ((s.reg .T1).toNat + 2 ^ 64 * (s.reg .cy).toNat) =
      (a.getD i 0).toNat * (b.getD 0 0).toNat + (s.reg .u).toNat * (m.getD 0 0).toNat + extra f t 2)
    (k : ∀ s' t', t'.length = b.length + 1 → Mont e a b m inv t' s' →
      val t' * 2 ^ 64 = (a.getD i 0).toNat * val b + (s.reg .u).toNat * val m + extra f t (b.length + 1) → WP e is none s' Q) :
    WP e ((List.range' 1 (b.length - 1)).flatMap mac ++ (MONT_FINALIZE (b.length - 1) ++ is)) none s Q := by
  refine cols_spec mac i f t (s.reg .u) _ Q ht hmb hmac (b.length - 1) 0 [] s (by omega) rfl (by simpa using S) rfl ?_
    (fun w s' hw S' hv' => ?_)
  · rw [val_take_one hb, val_take_one (by omega), ← hv, val_nil]
    ring
  · have hwl : b.length - 1 = w.length := by omega
    rw [hwl]
    refine finalize he w.length (by rw [List.length_append, List.length_drop]; omega) S' (fun s2 S2 => ?_)
    have e1 : ((w ++ t.drop w.length).set w.length (s'.reg .T1)).set (w.length + 1) (s'.reg .cy) = w ++ [s'.reg .T1, s'.reg .cy] := by
      rw [set_at rfl (by omega), set_at (by simp) (by omega), List.drop_of_length_le (by omega)]
      simp
    rw [e1] at S2
    refine k s2 _ (by simp; omega) S2 ?_
    rw [← hv', val_append, val_cons, val_cons, val_nil]
    ring

/-- The first row. -/
def firstRow (n : Nat) : List Instr := MONT_PRECOMPUTE ++ ((List.range' 1 (n - 1)).flatMap MONT_FIRSTITER ++ MONT_FINALIZE (n - 1))

/-- Row `i`. -/
def row (n i : Nat) : List Instr := MONT_ITERFIRST i ++ ((List.range' 1 (n - 1)).flatMap (MONT_ITERITER i) ++ MONT_FINALIZE (n - 1))

/-- The whole. -/
def montProg (n : Nat) : List Instr := firstRow n ++ ((List.range' 1 (n - 1)).flatMap (row n) ++ condSub .M .tmp n)

theorem firstRow_spec (ht : t.length = b.length + 1) (hmb : m.length = b.length) (hab : a.length = b.length) (hb : 0 < b.length)
    (hinv : (inv.toNat * (m.getD 0 0).toNat + 1) % 2 ^ 64 = 0) (S : Mont e a b m inv t s)
    (k : ∀ s' t' (u : Limb), t'.length = b.length + 1 → Mont e a b m inv t' s' →
      val t' * 2 ^ 64 = (a.getD 0 0).toNat * val b + u.toNat * val m → WP e is none s' Q) :
    WP e (firstRow b.length ++ is) none s Q := by
  rw [firstRow, List.append_assoc, List.append_assoc]
  refine precompute he (by omega) hb (by omega) hinv S (fun s1 S1 h1 => ?_)
  refine rowTail_spec he MONT_FIRSTITER 0 (fun _ => 0) ht hmb hb (fun j hj t s is Q ht S k => ?_) S1 (by rw [extra_zero, h1]; rfl)
    (fun s2 t2 l2 S2 h2 => k s2 t2 (s1.reg .u) l2 S2 (by rw [h2, extra_zero]; rfl))
  exact firstIter he j (by omega) (by omega) (by omega) (by omega) S k

theorem row_spec (i : Nat) (hi : i < b.length) (ht : t.length = b.length + 1) (hmb : m.length = b.length) (hab : a.length = b.length)
    (hinv : (inv.toNat * (m.getD 0 0).toNat + 1) % 2 ^ 64 = 0) (S : Mont e a b m inv t s)
    (k : ∀ s' t' (u : Limb), t'.length = b.length + 1 → Mont e a b m inv t' s' →
      val t' * 2 ^ 64 = (a.getD i 0).toNat * val b + u.toNat * val m + val t → WP e is none s' Q) :
    WP e (row b.length i ++ is) none s Q := by
  rw [row, List.append_assoc, List.append_assoc]
  refine iterFirst he i (by omega) (by omega) (by omega) (by omega) hinv S (fun s1 S1 h1 => ?_)
  refine rowTail_spec he (MONT_ITERITER i) i id ht hmb (by omega) (fun j hj t s is Q ht S k => ?_) S1 (by
      rw [h1, extra, extra, extra]; simp)
    (fun s2 t2 l2 S2 h2 => k s2 t2 (s1.reg .u) l2 S2 (by rw [h2, extra_id _ _ (by omega), List.take_of_length_le (by omega)]))
  exact iterIter he i j (by omega) (by omega) (by omega) (by omega) S k

theorem rows_spec (hmb : m.length = b.length) (hab : a.length = b.length)
    (hinv : (inv.toNat * (m.getD 0 0).toNat + 1) % 2 ^ 64 = 0) (is : List Instr) (Q : State → Prop) : ∀ (r i : Nat) (t : List Limb) (s : State) (U : Nat),
    i + r = b.length → t.length = b.length + 1 → Mont e a b m inv t s → U < 2 ^ (64 * i) →
    val t * 2 ^ (64 * i) = val (a.take i) * val b + U * val m →
    (∀ s' t' U, t'.length = b.length + 1 → Mont e a b m inv t' s' → U < 2 ^ (64 * b.length) →
      val t' * 2 ^ (64 * b.length) = val a * val b + U * val m → WP e is none s' Q) →
    WP e ((List.range' i r).flatMap (row b.length) ++ is) none s Q := by
  intro r
  induction r with
  | zero =>
    intro i t s U hi ht S hU hv k
    obtain rfl : i = b.length := by omega
    rw [List.take_of_length_le (by omega)] at hv
    exact k s t U ht S hU hv
  | succ r ih =>
    intro i t s U hi ht S hU hv k
    rw [List.range'_succ, List.flatMap_cons, List.append_assoc]
    refine row_spec he i (by omega) ht hmb hab hinv S (fun s' t' u ht' S' hv' => ?_)
    have hu := u.isLt
    refine ih (i + 1) t' s' (U + 2 ^ (64 * i) * u.toNat) (by omega) ht' S' ?_ ?_ k
    · have : 2 ^ (64 * i) * (u.toNat + 1) ≤ 2 ^ (64 * i) * 2 ^ 64 := Nat.mul_le_mul_left _ hu
      rw [show 64 * (i + 1) = 64 * i + 64 by ring, pow_add]
      have e2 : 2 ^ (64 * i) * (u.toNat + 1) = 2 ^ (64 * i) * u.toNat + 2 ^ (64 * i) := by ring
      rw [e2] at this
      exact lt_of_lt_of_le (Nat.add_lt_add_right hU _) (by rw [Nat.add_comm]; exact this)
    · rw [val_take_succ (by omega), show 64 * (i + 1) = 64 * i + 64 by ring, pow_add]
      generalize 2 ^ (64 * i) = B at *
      have e1 : val t' * (B * 2 ^ 64) = B * (val t' * 2 ^ 64) := by ring
      rw [e1, hv']
      linear_combination hv

theorem montProg_spec (ht : t.length = b.length + 1) (hmb : m.length = b.length) (hab : a.length = b.length) (hb : 0 < b.length)
    (hinv : (inv.toNat * (m.getD 0 0).toNat + 1) % 2 ^ 64 = 0) (htop : 2 * val m ≤ 2 ^ (64 * b.length))
    (hlt : val a * val b < val m * 2 ^ (64 * b.length)) (S : Mont e a b m inv t s) :
    WP e (montProg b.length) none s fun s' => ∃ r x, s'.mem (e .tmp).1 = r ++ [x] ∧ r.length = b.length ∧ val r < val m ∧
      ∃ U, val r * 2 ^ (64 * b.length) + U * val m = val a * val b ∨ val r * 2 ^ (64 * b.length) = val a * val b + U * val m := by
  rw [montProg]
  refine firstRow_spec he ht hmb hab hb hinv S (fun s1 t1 u l1 S1 h1 => ?_)
  refine rows_spec he hmb hab hinv _ _ (b.length - 1) 1 t1 s1 u.toNat (by omega) l1 S1 u.isLt (by
    rw [val_take_one (by omega), ← h1]) (fun s2 t2 U l2 S2 hU h2 => ?_)
  have hR : 0 < 2 ^ (64 * b.length) := by positivity
  have hv2 : val t2 < 2 * val m := by
    refine Nat.lt_of_mul_lt_mul_right (a := 2 ^ (64 * b.length)) ?_
    rw [h2]
    have : U * val m ≤ 2 ^ (64 * b.length) * val m := Nat.mul_le_mul_right _ hU.le
    calc val a * val b + U * val m < val m * 2 ^ (64 * b.length) + 2 ^ (64 * b.length) * val m := by omega
      _ = 2 * val m * 2 ^ (64 * b.length) := by ring
  obtain ⟨w, x, rfl⟩ : ∃ w x, t2 = w ++ [x] := by
    rcases List.eq_nil_or_concat t2 with rfl | ⟨w, x, h⟩
    · simp at l2
    · exact ⟨w, x, by rw [h, List.concat_eq_append]⟩
  have hw : w.length = b.length := by simpa using l2
  have hx : x.toNat = 0 := by
    rw [val_append, val_cons, val_nil, hw] at hv2
    by_contra hx
    have : 2 ^ (64 * b.length) * 1 ≤ 2 ^ (64 * b.length) * (x.toNat + 2 ^ 64 * 0) := Nat.mul_le_mul_left _ (by omega)
    omega
  have hvw : val (w ++ [x]) = val w := by rw [val_append, val_cons, val_nil, hx]; simp
  rw [hvw] at hv2 h2
  rw [← hw]
  refine condSub_spec e .M .tmp _ w m s2 [] [x] [] [] (fun h => by rw [h] at hw; simp at hw; omega) (by omega) (by simpa using S2.tmp)
    he.tmp0.symm (by simpa using S2.M) he.M0.symm he.M (fun s3 r g1 g2 g3 g4 => ⟨r, x, by simpa using g1, g2, ?_, ?_⟩)
  · rw [g4]
    split_ifs <;> omega
  · rw [g4, hw]
    split_ifs with h
    · exact ⟨U, .inr h2⟩
    · obtain ⟨d, hd⟩ : ∃ d, val w = d + val m := ⟨val w - val m, by omega⟩
      rw [hd, Nat.add_sub_cancel]
      rw [hd] at h2
      generalize 2 ^ (64 * b.length) = R at *
      refine ⟨R - U, .inl ?_⟩
      obtain ⟨V, rfl⟩ : ∃ V, R = V + U := ⟨R - U, by omega⟩
      rw [Nat.add_sub_cancel]
      linear_combination h2
end

set_option maxRecDepth 100000 in
theorem montProg4_eq : montProg4 = montProg 4 := rfl
set_option maxRecDepth 100000 in
theorem montProg5_eq : montProg5 = montProg 5 := rfl

/-- The lowest word determines the residue modulo `2 ^ 64`. -/
theorem inv_low {m : List Limb} {inv : Limb} (hm : 0 < m.length) (h : (inv.toNat * val m + 1) % 2 ^ 64 = 0) :
    (inv.toNat * (m.getD 0 0).toNat + 1) % 2 ^ 64 = 0 := by
  obtain ⟨x, m, rfl⟩ := List.exists_cons_of_length_pos hm
  rw [val_cons] at h
  have e1 : inv.toNat * (x.toNat + 2 ^ 64 * val m) + 1 = (inv.toNat * x.toNat + 1) + 2 ^ 64 * (inv.toNat * val m) := by ring
  rw [e1, Nat.add_mul_mod_self_left] at h
  exact h

end Libff.X86

namespace Libff
open X86

/-- The Montgomery product is determined by its congruence. -/
theorem mont_unique {P : FpParams} (hP : P.Valid) {x y c : Nat} (hx : x < P.p) (hy : y < P.p) (h1 : x * 2 ^ (64 * P.n) ≡ c [MOD P.p])
    (h2 : y * 2 ^ (64 * P.n) ≡ c [MOD P.p]) : x = y := by
  have h := Nat.ModEq.cancel_right_of_coprime (c := 2 ^ (64 * P.n)) (hP.coprimeR.symm) (h1.trans h2.symm)
  unfold Nat.ModEq at h
  rwa [Nat.mod_eq_of_lt hx, Nat.mod_eq_of_lt hy] at h

/-- The congruence from the equation. -/
theorem modEq_of_exists {x c p : Nat} (h : ∃ U, x + U * p = c ∨ x = c + U * p) : x ≡ c [MOD p] := by
  obtain ⟨U, h | h⟩ := h
  · rw [← h]
    exact (Nat.ModEq.symm (Nat.ModEq.trans (Nat.ModEq.add_left x (Nat.modEq_zero_iff_dvd.2 ⟨U, Nat.mul_comm _ _⟩)) (by rfl)))
  · rw [h]
    exact Nat.ModEq.trans (Nat.ModEq.add_left c (Nat.modEq_zero_iff_dvd.2 ⟨U, Nat.mul_comm _ _⟩)) (by rfl)

theorem montEnv (same : Bool) : MontEnv (asmEnv same 0) := by
  constructor <;> cases same <;> simp [asmEnv]

theorem mont_main (P : FpParams) (hP : P.Valid) (J : Junk) (t : List Limb) (same : Bool) (a b : List Limb) (ha : a.length = P.n)
    (hb : b.length = P.n) (ht : t.length = P.n + 1) (hab : val a * val b < P.p * 2 ^ (64 * P.n)) (hs : same = true → b = a) :
    (exec (asmEnv same 0) (montProg P.n) none
        (J.start [(.inv, P.inv), (.T0, 0), (.T1, 1), (.cy, 2), (.u, 3)] (asmMem a b P.modulus t))).map (fun s => (s.mem 3).take P.n)
      = mulReduce P a b := by
  obtain ⟨r, hr, hr1, hr2, hr3⟩ := mulReduce_spec P hP a b ha hb hab
  have hn := hP.n_pos
  have S : Mont (asmEnv same 0) a b P.modulus P.inv t
      (J.start [(.inv, P.inv), (.T0, 0), (.T1, 1), (.cy, 2), (.u, 3)] (asmMem a b P.modulus t)) := by
    refine ⟨rfl, ?_, rfl, rfl, rfl⟩
    cases same with
    | true => exact (hs rfl).symm
    | false => rfl
  have h := montProg_spec (montEnv same) (ht.trans (by rw [hb])) (hP.len.trans hb.symm) (ha.trans hb.symm) (by omega)
    (inv_low (by rw [hP.len]; exact hn) hP.inv) (by rw [hb]; exact hP.topBit) (by rw [hb]; exact hab) S
  rw [hb] at h
  rw [hr]
  refine h.map_eq (fun s' ⟨r', x, g1, g2, g3, g4⟩ => ?_)
  have g1 : s'.mem 3 = r' ++ [x] := g1
  rw [g1, List.take_left' g2]
  exact val_inj (by rw [g2, hr1]) (mont_unique hP g3 hr2 (modEq_of_exists g4) hr3)

end Libff
