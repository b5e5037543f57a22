import Verif.Lemmas.FpAsmMont

/-! # The assembly of Montgomery multiplication for three words -/
namespace Libff.X86

/-- The operands of the `asm` statements. -/
structure Env3 (e : Env) : Prop where
  A0 : (e .A).2 = 0
  B0 : (e .B).2 = 0
  M0 : (e .mod).2 = 0
  res0 : (e .res).2 = 0
  A : (e .A).1 ≠ (e .res).1
  B : (e .B).1 ≠ (e .res).1
  M : (e .mod).1 ≠ (e .res).1

/-- A carry that does not occur. -/
theorem carry_zero {x c k B : Nat} (h : x + 18446744073709551616 * c = k) (hk : k ≤ B) (hB : B < 18446744073709551616) : c = 0 ∧ x ≤ B := by omega

theorem drop_carry {x c y N : Nat} (h : x + N * c = y) (hy : y < N) : x = y := by
  rcases Nat.eq_zero_or_pos c with rfl | hc
  · simpa using h
  · have : N * 1 ≤ N * c := Nat.mul_le_mul_left _ hc
    omega

section
set_option linter.unusedSimpArgs false
variable {e : Env} (he : Env3 e) {a0 a1 a2 b0 b1 b2 m0 m1 m2 t0 t1 t2 t3 t4 t5 inv : Limb} {s : State}
  {is : List Instr} {Q : State → Prop}
include he

set_option maxHeartbeats 1000000 in
theorem comba_mul (hA : s.mem (e .A).1 = [a0, a1, a2]) (hB : s.mem (e .B).1 = [b0, b1, b2]) (hM : s.mem (e .mod).1 = [m0, m1, m2])
    (hR : s.mem (e .res).1 = [t0, t1, t2, t3, t4, t5]) :
    WP e COMBA_3_BY_3_MUL none s fun s' => s'.mem (e .mod).1 = [m0, m1, m2] ∧ ∃ r0 r1 r2 r3 r4 r5, s'.mem (e .res).1 = [r0, r1, r2, r3, r4, r5] ∧
      val [r0, r1, r2, r3, r4, r5] = val [a0, a1, a2] * val [b0, b1, b2] := by
  have ne1 := he.A
  have ne3 := he.M
  rw [COMBA_3_BY_3_MUL]
  refine WP.movq ⟨rfl, (by simp [State.okay_m, he.A0, he.B0, he.M0, he.res0, hA, hB, hM, hR, he.A, he.B, he.M]), trivial⟩ ?_
  refine WP.mulq rfl (by simp [State.okay_m, he.A0, he.B0, he.M0, he.res0, hA, hB, hM, hR, he.A, he.B, he.M]) (fun h1 l1 c1 q1 => ?_)
  simp [he.A0, he.B0, he.M0, he.res0, hA, hB, hM, hR, he.A, he.B, he.M] at q1
  refine WP.movq ⟨rfl, trivial, (by simp [State.okay_m, he.A0, he.B0, he.M0, he.res0, hA, hB, hM, hR, he.A, he.B, he.M])⟩ ?_
  refine WP.movq ⟨rfl, trivial, trivial⟩ ?_
  refine WP.xorq ?_
  refine WP.movq ⟨rfl, (by simp [State.okay_m, he.A0, he.B0, he.M0, he.res0, hA, hB, hM, hR, he.A, he.B, he.M]), trivial⟩ ?_
  refine WP.mulq rfl (by simp [State.okay_m, he.A0, he.B0, he.M0, he.res0, hA, hB, hM, hR, he.A, he.B, he.M]) (fun h6 l6 c6 q6 => ?_)
  simp [he.A0, he.B0, he.M0, he.res0, hA, hB, hM, hR, he.A, he.B, he.M] at q6
  refine WP.addq ⟨rfl, trivial, trivial⟩ (fun x7 c7 q7 => ?_)
  simp [he.A0, he.B0, he.M0, he.res0, hA, hB, hM, hR, he.A, he.B, he.M] at q7
  refine WP.adcq ⟨rfl, trivial, trivial⟩ (fun x8 c8 q8 => ?_)
  simp [he.A0, he.B0, he.M0, he.res0, hA, hB, hM, hR, he.A, he.B, he.M] at q8
  refine WP.xorq ?_
  refine WP.movq ⟨rfl, (by simp [State.okay_m, he.A0, he.B0, he.M0, he.res0, hA, hB, hM, hR, he.A, he.B, he.M]), trivial⟩ ?_
  refine WP.mulq rfl (by simp [State.okay_m, he.A0, he.B0, he.M0, he.res0, hA, hB, hM, hR, he.A, he.B, he.M]) (fun h11 l11 c11 q11 => ?_)
  simp [he.A0, he.B0, he.M0, he.res0, hA, hB, hM, hR, he.A, he.B, he.M] at q11
  refine WP.addq ⟨rfl, trivial, trivial⟩ (fun x12 c12 q12 => ?_)
  simp [he.A0, he.B0, he.M0, he.res0, hA, hB, hM, hR, he.A, he.B, he.M] at q12
  refine WP.movq ⟨rfl, trivial, (by simp [State.okay_m, he.A0, he.B0, he.M0, he.res0, hA, hB, hM, hR, he.A, he.B, he.M])⟩ ?_
  refine WP.adcq ⟨rfl, trivial, trivial⟩ (fun x14 c14 q14 => ?_)
  simp [he.A0, he.B0, he.M0, he.res0, hA, hB, hM, hR, he.A, he.B, he.M] at q14
  refine WP.adcq ⟨rfl, trivial, trivial⟩ (fun x15 c15 q15 => ?_)
  simp [he.A0, he.B0, he.M0, he.res0, hA, hB, hM, hR, he.A, he.B, he.M] at q15
  refine WP.xorq ?_
  refine WP.movq ⟨rfl, (by simp [State.okay_m, he.A0, he.B0, he.M0, he.res0, hA, hB, hM, hR, he.A, he.B, he.M]), trivial⟩ ?_
  refine WP.mulq rfl (by simp [State.okay_m, he.A0, he.B0, he.M0, he.res0, hA, hB, hM, hR, he.A, he.B, he.M]) (fun h18 l18 c18 q18 => ?_)
  simp [he.A0, he.B0, he.M0, he.res0, hA, hB, hM, hR, he.A, he.B, he.M] at q18
  refine WP.addq ⟨rfl, trivial, trivial⟩ (fun x19 c19 q19 => ?_)
  simp [he.A0, he.B0, he.M0, he.res0, hA, hB, hM, hR, he.A, he.B, he.M] at q19
  refine WP.adcq ⟨rfl, trivial, trivial⟩ (fun x20 c20 q20 => ?_)
  simp [he.A0, he.B0, he.M0, he.res0, hA, hB, hM, hR, he.A, he.B, he.M] at q20
  refine WP.adcq ⟨rfl, trivial, trivial⟩ (fun x21 c21 q21 => ?_)
  simp [he.A0, he.B0, he.M0, he.res0, hA, hB, hM, hR, he.A, he.B, he.M] at q21
  refine WP.movq ⟨rfl, (by simp [State.okay_m, he.A0, he.B0, he.M0, he.res0, hA, hB, hM, hR, he.A, he.B, he.M]), trivial⟩ ?_
  refine WP.mulq rfl (by simp [State.okay_m, he.A0, he.B0, he.M0, he.res0, hA, hB, hM, hR, he.A, he.B, he.M]) (fun h23 l23 c23 q23 => ?_)
  simp [he.A0, he.B0, he.M0, he.res0, hA, hB, hM, hR, he.A, he.B, he.M] at q23
  refine WP.addq ⟨rfl, trivial, trivial⟩ (fun x24 c24 q24 => ?_)
  simp [he.A0, he.B0, he.M0, he.res0, hA, hB, hM, hR, he.A, he.B, he.M] at q24
  refine WP.adcq ⟨rfl, trivial, trivial⟩ (fun x25 c25 q25 => ?_)
  simp [he.A0, he.B0, he.M0, he.res0, hA, hB, hM, hR, he.A, he.B, he.M] at q25
  refine WP.adcq ⟨rfl, trivial, trivial⟩ (fun x26 c26 q26 => ?_)
  simp [he.A0, he.B0, he.M0, he.res0, hA, hB, hM, hR, he.A, he.B, he.M] at q26
  refine WP.movq ⟨rfl, (by simp [State.okay_m, he.A0, he.B0, he.M0, he.res0, hA, hB, hM, hR, he.A, he.B, he.M]), trivial⟩ ?_
  refine WP.mulq rfl (by simp [State.okay_m, he.A0, he.B0, he.M0, he.res0, hA, hB, hM, hR, he.A, he.B, he.M]) (fun h28 l28 c28 q28 => ?_)
  simp [he.A0, he.B0, he.M0, he.res0, hA, hB, hM, hR, he.A, he.B, he.M] at q28
  refine WP.addq ⟨rfl, trivial, trivial⟩ (fun x29 c29 q29 => ?_)
  simp [he.A0, he.B0, he.M0, he.res0, hA, hB, hM, hR, he.A, he.B, he.M] at q29
  refine WP.movq ⟨rfl, trivial, (by simp [State.okay_m, he.A0, he.B0, he.M0, he.res0, hA, hB, hM, hR, he.A, he.B, he.M])⟩ ?_
  refine WP.adcq ⟨rfl, trivial, trivial⟩ (fun x31 c31 q31 => ?_)
  simp [he.A0, he.B0, he.M0, he.res0, hA, hB, hM, hR, he.A, he.B, he.M] at q31
  refine WP.adcq ⟨rfl, trivial, trivial⟩ (fun x32 c32 q32 => ?_)
  simp [he.A0, he.B0, he.M0, he.res0, hA, hB, hM, hR, he.A, he.B, he.M] at q32
  refine WP.xorq ?_
  refine WP.movq ⟨rfl, (by simp [State.okay_m, he.A0, he.B0, he.M0, he.res0, hA, hB, hM, hR, he.A, he.B, he.M]), trivial⟩ ?_
  refine WP.mulq rfl (by simp [State.okay_m, he.A0, he.B0, he.M0, he.res0, hA, hB, hM, hR, he.A, he.B, he.M]) (fun h35 l35 c35 q35 => ?_)
  simp [he.A0, he.B0, he.M0, he.res0, hA, hB, hM, hR, he.A, he.B, he.M] at q35
  refine WP.addq ⟨rfl, trivial, trivial⟩ (fun x36 c36 q36 => ?_)
  simp [he.A0, he.B0, he.M0, he.res0, hA, hB, hM, hR, he.A, he.B, he.M] at q36
  refine WP.adcq ⟨rfl, trivial, trivial⟩ (fun x37 c37 q37 => ?_)
  simp [he.A0, he.B0, he.M0, he.res0, hA, hB, hM, hR, he.A, he.B, he.M] at q37
  refine WP.adcq ⟨rfl, trivial, trivial⟩ (fun x38 c38 q38 => ?_)
  simp [he.A0, he.B0, he.M0, he.res0, hA, hB, hM, hR, he.A, he.B, he.M] at q38
  refine WP.movq ⟨rfl, (by simp [State.okay_m, he.A0, he.B0, he.M0, he.res0, hA, hB, hM, hR, he.A, he.B, he.M]), trivial⟩ ?_
  refine WP.mulq rfl (by simp [State.okay_m, he.A0, he.B0, he.M0, he.res0, hA, hB, hM, hR, he.A, he.B, he.M]) (fun h40 l40 c40 q40 => ?_)
  simp [he.A0, he.B0, he.M0, he.res0, hA, hB, hM, hR, he.A, he.B, he.M] at q40
  refine WP.addq ⟨rfl, trivial, trivial⟩ (fun x41 c41 q41 => ?_)
  simp [he.A0, he.B0, he.M0, he.res0, hA, hB, hM, hR, he.A, he.B, he.M] at q41
  refine WP.movq ⟨rfl, trivial, (by simp [State.okay_m, he.A0, he.B0, he.M0, he.res0, hA, hB, hM, hR, he.A, he.B, he.M])⟩ ?_
  refine WP.adcq ⟨rfl, trivial, trivial⟩ (fun x43 c43 q43 => ?_)
  simp [he.A0, he.B0, he.M0, he.res0, hA, hB, hM, hR, he.A, he.B, he.M] at q43
  refine WP.adcq ⟨rfl, trivial, trivial⟩ (fun x44 c44 q44 => ?_)
  simp [he.A0, he.B0, he.M0, he.res0, hA, hB, hM, hR, he.A, he.B, he.M] at q44
  refine WP.xorq ?_
  refine WP.movq ⟨rfl, (by simp [State.okay_m, he.A0, he.B0, he.M0, he.res0, hA, hB, hM, hR, he.A, he.B, he.M]), trivial⟩ ?_
  refine WP.mulq rfl (by simp [State.okay_m, he.A0, he.B0, he.M0, he.res0, hA, hB, hM, hR, he.A, he.B, he.M]) (fun h47 l47 c47 q47 => ?_)
  simp [he.A0, he.B0, he.M0, he.res0, hA, hB, hM, hR, he.A, he.B, he.M] at q47
  refine WP.addq ⟨rfl, trivial, trivial⟩ (fun x48 c48 q48 => ?_)
  simp [he.A0, he.B0, he.M0, he.res0, hA, hB, hM, hR, he.A, he.B, he.M] at q48
  refine WP.movq ⟨rfl, trivial, (by simp [State.okay_m, he.A0, he.B0, he.M0, he.res0, hA, hB, hM, hR, he.A, he.B, he.M])⟩ ?_
  refine WP.adcq ⟨rfl, trivial, trivial⟩ (fun x50 c50 q50 => ?_)
  simp [he.A0, he.B0, he.M0, he.res0, hA, hB, hM, hR, he.A, he.B, he.M] at q50
  refine WP.movq ⟨rfl, trivial, (by simp [State.okay_m, he.A0, he.B0, he.M0, he.res0, hA, hB, hM, hR, he.A, he.B, he.M])⟩ ?_
  refine WP.nil ⟨?_, ?_⟩
  · simp [hM, he.M]
  · have hprod : val [a0, a1, a2] * val [b0, b1, b2] = 2 ^ 0 * ((a0.toNat * b0.toNat)) + 2 ^ 64 * ((a0.toNat * b1.toNat)) + 2 ^ 128 * ((a0.toNat * b2.toNat)) + 2 ^ 64 * ((a1.toNat * b0.toNat)) + 2 ^ 128 * ((a1.toNat * b1.toNat)) + 2 ^ 192 * ((a1.toNat * b2.toNat)) + 2 ^ 128 * ((a2.toNat * b0.toNat)) + 2 ^ 192 * ((a2.toNat * b1.toNat)) + 2 ^ 256 * ((a2.toNat * b2.toNat)) := by
      simp only [val_cons, val_nil]
      ring
    have hlt : val [a0, a1, a2] * val [b0, b1, b2] < 2 ^ 192 * 2 ^ 192 := by
      exact Nat.mul_lt_mul'' (val_lt [a0, a1, a2]) (val_lt [b0, b1, b2])
    refine ⟨_, _, _, _, _, _, by simp [hR, he.res0]; exact ⟨rfl, rfl, rfl, rfl, rfl, rfl⟩, ?_⟩
    refine drop_carry (c := c50.toNat) ?_ hlt
    rw [hprod]
    simp only [val_cons, val_nil]
    clear hprod hlt hA hB hM hR he
    have z8 := (carry_zero q8 (Nat.add_le_add (Nat.le_sub_of_add_le (mul_hi q6)) (Bool.toNat_le _)) (by norm_num)).1
    rw [z8, Nat.mul_zero, Nat.add_zero] at q8
    obtain ⟨z15, b15⟩ := carry_zero q15 (Bool.toNat_le _) (by norm_num)
    rw [z15, Nat.mul_zero, Nat.add_zero] at q15
    obtain ⟨z21, b21⟩ := carry_zero q21 (Bool.toNat_le _) (by norm_num)
    rw [z21, Nat.mul_zero, Nat.add_zero] at q21
    obtain ⟨z26, b26⟩ := carry_zero q26 (Nat.add_le_add b21 (Bool.toNat_le _)) (by norm_num)
    rw [z26, Nat.mul_zero, Nat.add_zero] at q26
    obtain ⟨z32, b32⟩ := carry_zero q32 (Nat.add_le_add b26 (Bool.toNat_le _)) (by norm_num)
    rw [z32, Nat.mul_zero, Nat.add_zero] at q32
    obtain ⟨z38, b38⟩ := carry_zero q38 (Bool.toNat_le _) (by norm_num)
    rw [z38, Nat.mul_zero, Nat.add_zero] at q38
    obtain ⟨z44, b44⟩ := carry_zero q44 (Nat.add_le_add b38 (Bool.toNat_le _)) (by norm_num)
    rw [z44, Nat.mul_zero, Nat.add_zero] at q44
    linear_combination 1 * (2 ^ 0) * q1 + 1 * (2 ^ 64) * q6 + 1 * (2 ^ 64) * q7 + 1 * (2 ^ 128) * q8 + 1 * (2 ^ 64) * q11 + 1 * (2 ^ 64) * q12 + 1 * (2 ^ 128) * q14 + 1 * (2 ^ 192) * q15 + 1 * (2 ^ 128) * q18 + 1 * (2 ^ 128) * q19 + 1 * (2 ^ 192) * q20 + 1 * (2 ^ 192 * 2 ^ 64) * q21 + 1 * (2 ^ 128) * q23 + 1 * (2 ^ 128) * q24 + 1 * (2 ^ 192) * q25 + 1 * (2 ^ 192 * 2 ^ 64) * q26 + 1 * (2 ^ 128) * q28 + 1 * (2 ^ 128) * q29 + 1 * (2 ^ 192) * q31 + 1 * (2 ^ 192 * 2 ^ 64) * q32 + 1 * (2 ^ 192) * q35 + 1 * (2 ^ 192) * q36 + 1 * (2 ^ 192 * 2 ^ 64) * q37 + 1 * (2 ^ 192 * 2 ^ 128) * q38 + 1 * (2 ^ 192) * q40 + 1 * (2 ^ 192) * q41 + 1 * (2 ^ 192 * 2 ^ 64) * q43 + 1 * (2 ^ 192 * 2 ^ 128) * q44 + 1 * (2 ^ 192 * 2 ^ 64) * q47 + 1 * (2 ^ 192 * 2 ^ 64) * q48 + 1 * (2 ^ 192 * 2 ^ 128) * q50

set_option maxHeartbeats 1000000 in
theorem comba_sqr (hA : s.mem (e .A).1 = [a0, a1, a2]) (hM : s.mem (e .mod).1 = [m0, m1, m2])
    (hR : s.mem (e .res).1 = [t0, t1, t2, t3, t4, t5]) :
    WP e COMBA_3_BY_3_SQR none s fun s' => s'.mem (e .mod).1 = [m0, m1, m2] ∧ ∃ r0 r1 r2 r3 r4 r5, s'.mem (e .res).1 = [r0, r1, r2, r3, r4, r5] ∧
      val [r0, r1, r2, r3, r4, r5] = val [a0, a1, a2] * val [a0, a1, a2] := by
  have ne1 := he.A
  have ne3 := he.M
  rw [COMBA_3_BY_3_SQR]
  refine WP.xorq ?_
  refine WP.xorq ?_
  refine WP.movq ⟨rfl, (by simp [State.okay_m, he.A0, he.M0, he.res0, hA, hM, hR, he.A, he.M]), trivial⟩ ?_
  refine WP.mulq rfl trivial (fun h3 l3 c3 q3 => ?_)
  simp [he.A0, he.M0, he.res0, hA, hM, hR, he.A, he.M] at q3
  refine WP.movq ⟨rfl, trivial, (by simp [State.okay_m, he.A0, he.M0, he.res0, hA, hM, hR, he.A, he.M])⟩ ?_
  refine WP.movq ⟨rfl, trivial, trivial⟩ ?_
  refine WP.movq ⟨rfl, (by simp [State.okay_m, he.A0, he.M0, he.res0, hA, hM, hR, he.A, he.M]), trivial⟩ ?_
  refine WP.mulq rfl (by simp [State.okay_m, he.A0, he.M0, he.res0, hA, hM, hR, he.A, he.M]) (fun h7 l7 c7 q7 => ?_)
  simp [he.A0, he.M0, he.res0, hA, hM, hR, he.A, he.M] at q7
  refine WP.addq ⟨rfl, trivial, trivial⟩ (fun x8 c8 q8 => ?_)
  simp [he.A0, he.M0, he.res0, hA, hM, hR, he.A, he.M] at q8
  refine WP.adcq ⟨rfl, trivial, trivial⟩ (fun x9 c9 q9 => ?_)
  simp [he.A0, he.M0, he.res0, hA, hM, hR, he.A, he.M] at q9
  refine WP.addq ⟨rfl, trivial, trivial⟩ (fun x10 c10 q10 => ?_)
  simp [he.A0, he.M0, he.res0, hA, hM, hR, he.A, he.M] at q10
  refine WP.movq ⟨rfl, trivial, (by simp [State.okay_m, he.A0, he.M0, he.res0, hA, hM, hR, he.A, he.M])⟩ ?_
  refine WP.adcq ⟨rfl, trivial, trivial⟩ (fun x12 c12 q12 => ?_)
  simp [he.A0, he.M0, he.res0, hA, hM, hR, he.A, he.M] at q12
  refine WP.adcq ⟨rfl, trivial, trivial⟩ (fun x13 c13 q13 => ?_)
  simp [he.A0, he.M0, he.res0, hA, hM, hR, he.A, he.M] at q13
  refine WP.movq ⟨rfl, (by simp [State.okay_m, he.A0, he.M0, he.res0, hA, hM, hR, he.A, he.M]), trivial⟩ ?_
  refine WP.xorq ?_
  refine WP.mulq rfl (by simp [State.okay_m, he.A0, he.M0, he.res0, hA, hM, hR, he.A, he.M]) (fun h16 l16 c16 q16 => ?_)
  simp [he.A0, he.M0, he.res0, hA, hM, hR, he.A, he.M] at q16
  refine WP.addq ⟨rfl, trivial, trivial⟩ (fun x17 c17 q17 => ?_)
  simp [he.A0, he.M0, he.res0, hA, hM, hR, he.A, he.M] at q17
  refine WP.adcq ⟨rfl, trivial, trivial⟩ (fun x18 c18 q18 => ?_)
  simp [he.A0, he.M0, he.res0, hA, hM, hR, he.A, he.M] at q18
  refine WP.adcq ⟨rfl, trivial, trivial⟩ (fun x19 c19 q19 => ?_)
  simp [he.A0, he.M0, he.res0, hA, hM, hR, he.A, he.M] at q19
  refine WP.addq ⟨rfl, trivial, trivial⟩ (fun x20 c20 q20 => ?_)
  simp [he.A0, he.M0, he.res0, hA, hM, hR, he.A, he.M] at q20
  refine WP.adcq ⟨rfl, trivial, trivial⟩ (fun x21 c21 q21 => ?_)
  simp [he.A0, he.M0, he.res0, hA, hM, hR, he.A, he.M] at q21
  refine WP.adcq ⟨rfl, trivial, trivial⟩ (fun x22 c22 q22 => ?_)
  simp [he.A0, he.M0, he.res0, hA, hM, hR, he.A, he.M] at q22
  refine WP.movq ⟨rfl, (by simp [State.okay_m, he.A0, he.M0, he.res0, hA, hM, hR, he.A, he.M]), trivial⟩ ?_
  refine WP.mulq rfl trivial (fun h24 l24 c24 q24 => ?_)
  simp [he.A0, he.M0, he.res0, hA, hM, hR, he.A, he.M] at q24
  refine WP.addq ⟨rfl, trivial, trivial⟩ (fun x25 c25 q25 => ?_)
  simp [he.A0, he.M0, he.res0, hA, hM, hR, he.A, he.M] at q25
  refine WP.movq ⟨rfl, trivial, (by simp [State.okay_m, he.A0, he.M0, he.res0, hA, hM, hR, he.A, he.M])⟩ ?_
  refine WP.adcq ⟨rfl, trivial, trivial⟩ (fun x27 c27 q27 => ?_)
  simp [he.A0, he.M0, he.res0, hA, hM, hR, he.A, he.M] at q27
  refine WP.adcq ⟨rfl, trivial, trivial⟩ (fun x28 c28 q28 => ?_)
  simp [he.A0, he.M0, he.res0, hA, hM, hR, he.A, he.M] at q28
  refine WP.movq ⟨rfl, (by simp [State.okay_m, he.A0, he.M0, he.res0, hA, hM, hR, he.A, he.M]), trivial⟩ ?_
  refine WP.xorq ?_
  refine WP.mulq rfl (by simp [State.okay_m, he.A0, he.M0, he.res0, hA, hM, hR, he.A, he.M]) (fun h31 l31 c31 q31 => ?_)
  simp [he.A0, he.M0, he.res0, hA, hM, hR, he.A, he.M] at q31
  refine WP.addq ⟨rfl, trivial, trivial⟩ (fun x32 c32 q32 => ?_)
  simp [he.A0, he.M0, he.res0, hA, hM, hR, he.A, he.M] at q32
  refine WP.adcq ⟨rfl, trivial, trivial⟩ (fun x33 c33 q33 => ?_)
  simp [he.A0, he.M0, he.res0, hA, hM, hR, he.A, he.M] at q33
  refine WP.adcq ⟨rfl, trivial, trivial⟩ (fun x34 c34 q34 => ?_)
  simp [he.A0, he.M0, he.res0, hA, hM, hR, he.A, he.M] at q34
  refine WP.addq ⟨rfl, trivial, trivial⟩ (fun x35 c35 q35 => ?_)
  simp [he.A0, he.M0, he.res0, hA, hM, hR, he.A, he.M] at q35
  refine WP.movq ⟨rfl, trivial, (by simp [State.okay_m, he.A0, he.M0, he.res0, hA, hM, hR, he.A, he.M])⟩ ?_
  refine WP.adcq ⟨rfl, trivial, trivial⟩ (fun x37 c37 q37 => ?_)
  simp [he.A0, he.M0, he.res0, hA, hM, hR, he.A, he.M] at q37
  refine WP.adcq ⟨rfl, trivial, trivial⟩ (fun x38 c38 q38 => ?_)
  simp [he.A0, he.M0, he.res0, hA, hM, hR, he.A, he.M] at q38
  refine WP.movq ⟨rfl, (by simp [State.okay_m, he.A0, he.M0, he.res0, hA, hM, hR, he.A, he.M]), trivial⟩ ?_
  refine WP.mulq rfl trivial (fun h40 l40 c40 q40 => ?_)
  simp [he.A0, he.M0, he.res0, hA, hM, hR, he.A, he.M] at q40
  refine WP.addq ⟨rfl, trivial, trivial⟩ (fun x41 c41 q41 => ?_)
  simp [he.A0, he.M0, he.res0, hA, hM, hR, he.A, he.M] at q41
  refine WP.movq ⟨rfl, trivial, (by simp [State.okay_m, he.A0, he.M0, he.res0, hA, hM, hR, he.A, he.M])⟩ ?_
  refine WP.adcq ⟨rfl, trivial, trivial⟩ (fun x43 c43 q43 => ?_)
  simp [he.A0, he.M0, he.res0, hA, hM, hR, he.A, he.M] at q43
  refine WP.movq ⟨rfl, trivial, (by simp [State.okay_m, he.A0, he.M0, he.res0, hA, hM, hR, he.A, he.M])⟩ ?_
  refine WP.nil ⟨?_, ?_⟩
  · simp [hM, he.M]
  · have hprod : val [a0, a1, a2] * val [a0, a1, a2] = 2 ^ 0 * ((a0.toNat * a0.toNat)) + 2 ^ 64 * (2 * (a0.toNat * a1.toNat)) + 2 ^ 128 * (2 * (a0.toNat * a2.toNat)) + 2 ^ 128 * ((a1.toNat * a1.toNat)) + 2 ^ 192 * (2 * (a1.toNat * a2.toNat)) + 2 ^ 256 * ((a2.toNat * a2.toNat)) := by
      simp only [val_cons, val_nil]
      ring
    have hlt : val [a0, a1, a2] * val [a0, a1, a2] < 2 ^ 192 * 2 ^ 192 := by
      exact Nat.mul_lt_mul'' (val_lt [a0, a1, a2]) (val_lt [a0, a1, a2])
    refine ⟨_, _, _, _, _, _, by simp [hR, he.res0]; exact ⟨rfl, rfl, rfl, rfl, rfl, rfl⟩, ?_⟩
    refine drop_carry (c := c43.toNat) ?_ hlt
    rw [hprod]
    simp only [val_cons, val_nil]
    clear hprod hlt hA  hM hR he
    have z9 := (carry_zero q9 (Nat.add_le_add (Nat.le_sub_of_add_le (mul_hi q7)) (Bool.toNat_le _)) (by norm_num)).1
    rw [z9, Nat.mul_zero, Nat.add_zero] at q9
    obtain ⟨z13, b13⟩ := carry_zero q13 (Bool.toNat_le _) (by norm_num)
    rw [z13, Nat.mul_zero, Nat.add_zero] at q13
    obtain ⟨z19, b19⟩ := carry_zero q19 (Bool.toNat_le _) (by norm_num)
    rw [z19, Nat.mul_zero, Nat.add_zero] at q19
    obtain ⟨z22, b22⟩ := carry_zero q22 (Nat.add_le_add b19 (Bool.toNat_le _)) (by norm_num)
    rw [z22, Nat.mul_zero, Nat.add_zero] at q22
    obtain ⟨z28, b28⟩ := carry_zero q28 (Nat.add_le_add b22 (Bool.toNat_le _)) (by norm_num)
    rw [z28, Nat.mul_zero, Nat.add_zero] at q28
    obtain ⟨z34, b34⟩ := carry_zero q34 (Bool.toNat_le _) (by norm_num)
    rw [z34, Nat.mul_zero, Nat.add_zero] at q34
    obtain ⟨z38, b38⟩ := carry_zero q38 (Nat.add_le_add b34 (Bool.toNat_le _)) (by norm_num)
    rw [z38, Nat.mul_zero, Nat.add_zero] at q38
    linear_combination 1 * (2 ^ 0) * q3 + 2 * (2 ^ 64) * q7 + 1 * (2 ^ 64) * q8 + 1 * (2 ^ 128) * q9 + 1 * (2 ^ 64) * q10 + 1 * (2 ^ 128) * q12 + 1 * (2 ^ 192) * q13 + 2 * (2 ^ 128) * q16 + 1 * (2 ^ 128) * q17 + 1 * (2 ^ 192) * q18 + 1 * (2 ^ 192 * 2 ^ 64) * q19 + 1 * (2 ^ 128) * q20 + 1 * (2 ^ 192) * q21 + 1 * (2 ^ 192 * 2 ^ 64) * q22 + 1 * (2 ^ 128) * q24 + 1 * (2 ^ 128) * q25 + 1 * (2 ^ 192) * q27 + 1 * (2 ^ 192 * 2 ^ 64) * q28 + 2 * (2 ^ 192) * q31 + 1 * (2 ^ 192) * q32 + 1 * (2 ^ 192 * 2 ^ 64) * q33 + 1 * (2 ^ 192 * 2 ^ 128) * q34 + 1 * (2 ^ 192) * q35 + 1 * (2 ^ 192 * 2 ^ 64) * q37 + 1 * (2 ^ 192 * 2 ^ 128) * q38 + 1 * (2 ^ 192 * 2 ^ 64) * q40 + 1 * (2 ^ 192 * 2 ^ 64) * q41 + 1 * (2 ^ 192 * 2 ^ 128) * q43

/-- Part 1 of the reduction. -/
def red1 : List Instr := [
  .movq (.m 0 .res) (.r .rax),
  .mulq (.r .modprime),
  .movq (.r .rax) (.r .k),
  .movq (.m 0 .mod) (.r .rax),
  .mulq (.r .k),
  .movq (.r .rax) (.r .tmp1),
  .movq (.r .rdx) (.r .tmp2),
  .xorq (.r .tmp3) (.r .tmp3),
  .movq (.m 8 .mod) (.r .rax),
  .mulq (.r .k),
  .addq (.r .tmp1) (.m 0 .res),
  .adcq (.r .rax) (.r .tmp2),
  .adcq (.r .rdx) (.r .tmp3),
  .xorq (.r .tmp1) (.r .tmp1),
  .movq (.m 16 .mod) (.r .rax),
  .mulq (.r .k),
  .addq (.r .tmp2) (.m 8 .res),
  .adcq (.r .rax) (.r .tmp3),
  .adcq (.r .rdx) (.r .tmp1),
  .addq (.r .tmp3) (.m 16 .res),
  .adcq (.r .tmp1) (.m 24 .res),
  .adcq (.i 0) (.m 32 .res),
  .adcq (.i 0) (.m 40 .res)]

set_option maxHeartbeats 1000000 in
theorem red1_spec (hinv : (inv.toNat * m0.toNat + 1) % 2 ^ 64 = 0) (hM : s.mem (e .mod).1 = [m0, m1, m2])
    (hR : s.mem (e .res).1 = [t0, t1, t2, t3, t4, t5]) (hI : s.reg .modprime = inv)
    (k : ∀ s' r1 r2 r3 r4 r5 (c : Bool) (u : Limb), s'.mem (e .mod).1 = [m0, m1, m2] → s'.reg .modprime = inv →
      s'.mem (e .res).1 = [0, r1, r2, r3, r4, r5] →
      val [0, r1, r2, r3, r4, r5] + 2 ^ 192 * 2 ^ 192 * c.toNat = val [t0, t1, t2, t3, t4, t5] + 2 ^ 0 * u.toNat * val [m0, m1, m2] → WP e is none s' Q) :
    WP e (red1 ++ is) none s Q := by
  have ne3 := he.M
  rw [red1]
  simp only [List.cons_append, List.nil_append]
  refine WP.movq ⟨rfl, (by simp [State.okay_m, he.M0, he.res0, hM, hR, hI, he.M, ne3]), trivial⟩ ?_
  refine WP.mulq rfl trivial (fun h1 l1 c1 q1 => ?_)
  simp [he.M0, he.res0, hM, hR, hI, he.M, ne3] at q1
  refine WP.movq ⟨rfl, trivial, trivial⟩ ?_
  refine WP.movq ⟨rfl, (by simp [State.okay_m, he.M0, he.res0, hM, hR, hI, he.M, ne3]), trivial⟩ ?_
  refine WP.mulq rfl trivial (fun h4 l4 c4 q4 => ?_)
  simp [he.M0, he.res0, hM, hR, hI, he.M, ne3] at q4
  refine WP.movq ⟨rfl, trivial, trivial⟩ ?_
  refine WP.movq ⟨rfl, trivial, trivial⟩ ?_
  refine WP.xorq ?_
  refine WP.movq ⟨rfl, (by simp [State.okay_m, he.M0, he.res0, hM, hR, hI, he.M, ne3]), trivial⟩ ?_
  refine WP.mulq rfl trivial (fun h9 l9 c9 q9 => ?_)
  simp [he.M0, he.res0, hM, hR, hI, he.M, ne3] at q9
  refine WP.addq ⟨rfl, trivial, (by simp [State.okay_m, he.M0, he.res0, hM, hR, hI, he.M, ne3])⟩ (fun x10 c10 q10 => ?_)
  simp [he.M0, he.res0, hM, hR, hI, he.M, ne3] at q10
  refine WP.adcq ⟨rfl, trivial, trivial⟩ (fun x11 c11 q11 => ?_)
  simp [he.M0, he.res0, hM, hR, hI, he.M, ne3] at q11
  refine WP.adcq ⟨rfl, trivial, trivial⟩ (fun x12 c12 q12 => ?_)
  simp [he.M0, he.res0, hM, hR, hI, he.M, ne3] at q12
  refine WP.xorq ?_
  refine WP.movq ⟨rfl, (by simp [State.okay_m, he.M0, he.res0, hM, hR, hI, he.M, ne3]), trivial⟩ ?_
  refine WP.mulq rfl trivial (fun h15 l15 c15 q15 => ?_)
  simp [he.M0, he.res0, hM, hR, hI, he.M, ne3] at q15
  refine WP.addq ⟨rfl, trivial, (by simp [State.okay_m, he.M0, he.res0, hM, hR, hI, he.M, ne3])⟩ (fun x16 c16 q16 => ?_)
  simp [he.M0, he.res0, hM, hR, hI, he.M, ne3] at q16
  refine WP.adcq ⟨rfl, trivial, trivial⟩ (fun x17 c17 q17 => ?_)
  simp [he.M0, he.res0, hM, hR, hI, he.M, ne3] at q17
  refine WP.adcq ⟨rfl, trivial, trivial⟩ (fun x18 c18 q18 => ?_)
  simp [he.M0, he.res0, hM, hR, hI, he.M, ne3] at q18
  refine WP.addq ⟨rfl, trivial, (by simp [State.okay_m, he.M0, he.res0, hM, hR, hI, he.M, ne3])⟩ (fun x19 c19 q19 => ?_)
  simp [he.M0, he.res0, hM, hR, hI, he.M, ne3] at q19
  refine WP.adcq ⟨rfl, trivial, (by simp [State.okay_m, he.M0, he.res0, hM, hR, hI, he.M, ne3])⟩ (fun x20 c20 q20 => ?_)
  simp [he.M0, he.res0, hM, hR, hI, he.M, ne3] at q20
  refine WP.adcq ⟨rfl, trivial, (by simp [State.okay_m, he.M0, he.res0, hM, hR, hI, he.M, ne3])⟩ (fun x21 c21 q21 => ?_)
  simp [he.M0, he.res0, hM, hR, hI, he.M, ne3] at q21
  refine WP.adcq ⟨rfl, trivial, (by simp [State.okay_m, he.M0, he.res0, hM, hR, hI, he.M, ne3])⟩ (fun x22 c22 q22 => ?_)
  simp [he.M0, he.res0, hM, hR, hI, he.M, ne3] at q22
  have hz := mont_zero hinv q1 (by rw [q4, Nat.mul_comm]) (by rw [q10, Nat.add_comm])
  refine k _ _ _ _ _ _ c22 l1 (by simp [hM, he.M]) (by simp [hI]) (by
    simp [hR, he.res0]
    exact ⟨BitVec.eq_of_toNat_eq hz, rfl, rfl, rfl, rfl, rfl⟩) ?_
  have h0 : (0 : Limb).toNat = 0 := rfl
  simp only [val_cons, val_nil, h0]
  rw [hz, Nat.zero_add] at q10
  clear k hM hR hI he hz hinv q1
  have z12 := (carry_zero q12 (Nat.add_le_add (Nat.le_sub_of_add_le (mul_hi q9)) (Bool.toNat_le _)) (by norm_num)).1
  rw [z12, Nat.mul_zero, Nat.add_zero] at q12
  have z18 := (carry_zero q18 (Nat.add_le_add (Nat.le_sub_of_add_le (mul_hi q15)) (Bool.toNat_le _)) (by norm_num)).1
  rw [z18, Nat.mul_zero, Nat.add_zero] at q18
  linear_combination (2 ^ 0) * q4 + (2 ^ 64) * q9 + (2 ^ 128) * q15 + (2 ^ 0) * q10 + (2 ^ 64) * q11 + (2 ^ 128) * q12 + (2 ^ 64) * q16 + (2 ^ 128) * q17 + (2 ^ 192) * q18 + (2 ^ 128) * q19 + (2 ^ 192) * q20 + (2 ^ 192 * 2 ^ 64) * q21 + (2 ^ 192 * 2 ^ 128) * q22

/-- Part 2 of the reduction. -/
def red2 : List Instr := [
  .movq (.m 8 .res) (.r .rax),
  .mulq (.r .modprime),
  .movq (.r .rax) (.r .k),
  .movq (.m 0 .mod) (.r .rax),
  .mulq (.r .k),
  .movq (.r .rax) (.r .tmp1),
  .movq (.r .rdx) (.r .tmp2),
  .xorq (.r .tmp3) (.r .tmp3),
  .movq (.m 8 .mod) (.r .rax),
  .mulq (.r .k),
  .addq (.r .tmp1) (.m 8 .res),
  .adcq (.r .rax) (.r .tmp2),
  .adcq (.r .rdx) (.r .tmp3),
  .xorq (.r .tmp1) (.r .tmp1),
  .movq (.m 16 .mod) (.r .rax),
  .mulq (.r .k),
  .addq (.r .tmp2) (.m 16 .res),
  .adcq (.r .rax) (.r .tmp3),
  .adcq (.r .rdx) (.r .tmp1),
  .addq (.r .tmp3) (.m 24 .res),
  .adcq (.r .tmp1) (.m 32 .res),
  .adcq (.i 0) (.m 40 .res)]

set_option maxHeartbeats 1000000 in
theorem red2_spec (hinv : (inv.toNat * m0.toNat + 1) % 2 ^ 64 = 0) (hM : s.mem (e .mod).1 = [m0, m1, m2])
    (hR : s.mem (e .res).1 = [0, t1, t2, t3, t4, t5]) (hI : s.reg .modprime = inv)
    (k : ∀ s' r2 r3 r4 r5 (c : Bool) (u : Limb), s'.mem (e .mod).1 = [m0, m1, m2] → s'.reg .modprime = inv →
      s'.mem (e .res).1 = [0, 0, r2, r3, r4, r5] →
      val [0, 0, r2, r3, r4, r5] + 2 ^ 192 * 2 ^ 192 * c.toNat = val [0, t1, t2, t3, t4, t5] + 2 ^ 64 * u.toNat * val [m0, m1, m2] → WP e is none s' Q) :
    WP e (red2 ++ is) none s Q := by
  have ne3 := he.M
  rw [red2]
  simp only [List.cons_append, List.nil_append]
  refine WP.movq ⟨rfl, (by simp [State.okay_m, he.M0, he.res0, hM, hR, hI, he.M, ne3]), trivial⟩ ?_
  refine WP.mulq rfl trivial (fun h1 l1 c1 q1 => ?_)
  simp [he.M0, he.res0, hM, hR, hI, he.M, ne3] at q1
  refine WP.movq ⟨rfl, trivial, trivial⟩ ?_
  refine WP.movq ⟨rfl, (by simp [State.okay_m, he.M0, he.res0, hM, hR, hI, he.M, ne3]), trivial⟩ ?_
  refine WP.mulq rfl trivial (fun h4 l4 c4 q4 => ?_)
  simp [he.M0, he.res0, hM, hR, hI, he.M, ne3] at q4
  refine WP.movq ⟨rfl, trivial, trivial⟩ ?_
  refine WP.movq ⟨rfl, trivial, trivial⟩ ?_
  refine WP.xorq ?_
  refine WP.movq ⟨rfl, (by simp [State.okay_m, he.M0, he.res0, hM, hR, hI, he.M, ne3]), trivial⟩ ?_
  refine WP.mulq rfl trivial (fun h9 l9 c9 q9 => ?_)
  simp [he.M0, he.res0, hM, hR, hI, he.M, ne3] at q9
  refine WP.addq ⟨rfl, trivial, (by simp [State.okay_m, he.M0, he.res0, hM, hR, hI, he.M, ne3])⟩ (fun x10 c10 q10 => ?_)
  simp [he.M0, he.res0, hM, hR, hI, he.M, ne3] at q10
  refine WP.adcq ⟨rfl, trivial, trivial⟩ (fun x11 c11 q11 => ?_)
  simp [he.M0, he.res0, hM, hR, hI, he.M, ne3] at q11
  refine WP.adcq ⟨rfl, trivial, trivial⟩ (fun x12 c12 q12 => ?_)
  simp [he.M0, he.res0, hM, hR, hI, he.M, ne3] at q12
  refine WP.xorq ?_
  refine WP.movq ⟨rfl, (by simp [State.okay_m, he.M0, he.res0, hM, hR, hI, he.M, ne3]), trivial⟩ ?_
  refine WP.mulq rfl trivial (fun h15 l15 c15 q15 => ?_)
  simp [he.M0, he.res0, hM, hR, hI, he.M, ne3] at q15
  refine WP.addq ⟨rfl, trivial, (by simp [State.okay_m, he.M0, he.res0, hM, hR, hI, he.M, ne3])⟩ (fun x16 c16 q16 => ?_)
  simp [he.M0, he.res0, hM, hR, hI, he.M, ne3] at q16
  refine WP.adcq ⟨rfl, trivial, trivial⟩ (fun x17 c17 q17 => ?_)
  simp [he.M0, he.res0, hM, hR, hI, he.M, ne3] at q17
  refine WP.adcq ⟨rfl, trivial, trivial⟩ (fun x18 c18 q18 => ?_)
  simp [he.M0, he.res0, hM, hR, hI, he.M, ne3] at q18
  refine WP.addq ⟨rfl, trivial, (by simp [State.okay_m, he.M0, he.res0, hM, hR, hI, he.M, ne3])⟩ (fun x19 c19 q19 => ?_)
  simp [he.M0, he.res0, hM, hR, hI, he.M, ne3] at q19
  refine WP.adcq ⟨rfl, trivial, (by simp [State.okay_m, he.M0, he.res0, hM, hR, hI, he.M, ne3])⟩ (fun x20 c20 q20 => ?_)
  simp [he.M0, he.res0, hM, hR, hI, he.M, ne3] at q20
  refine WP.adcq ⟨rfl, trivial, (by simp [State.okay_m, he.M0, he.res0, hM, hR, hI, he.M, ne3])⟩ (fun x21 c21 q21 => ?_)
  simp [he.M0, he.res0, hM, hR, hI, he.M, ne3] at q21
  have hz := mont_zero hinv q1 (by rw [q4, Nat.mul_comm]) (by rw [q10, Nat.add_comm])
  refine k _ _ _ _ _ c21 l1 (by simp [hM, he.M]) (by simp [hI]) (by
    simp [hR, he.res0]
    exact ⟨BitVec.eq_of_toNat_eq hz, rfl, rfl, rfl, rfl⟩) ?_
  have h0 : (0 : Limb).toNat = 0 := rfl
  simp only [val_cons, val_nil, h0]
  rw [hz, Nat.zero_add] at q10
  clear k hM hR hI he hz hinv q1
  have z12 := (carry_zero q12 (Nat.add_le_add (Nat.le_sub_of_add_le (mul_hi q9)) (Bool.toNat_le _)) (by norm_num)).1
  rw [z12, Nat.mul_zero, Nat.add_zero] at q12
  have z18 := (carry_zero q18 (Nat.add_le_add (Nat.le_sub_of_add_le (mul_hi q15)) (Bool.toNat_le _)) (by norm_num)).1
  rw [z18, Nat.mul_zero, Nat.add_zero] at q18
  linear_combination (2 ^ 64) * q4 + (2 ^ 128) * q9 + (2 ^ 192) * q15 + (2 ^ 64) * q10 + (2 ^ 128) * q11 + (2 ^ 192) * q12 + (2 ^ 128) * q16 + (2 ^ 192) * q17 + (2 ^ 192 * 2 ^ 64) * q18 + (2 ^ 192) * q19 + (2 ^ 192 * 2 ^ 64) * q20 + (2 ^ 192 * 2 ^ 128) * q21

/-- Part 3 of the reduction. -/
def red3 : List Instr := [
  .movq (.m 16 .res) (.r .rax),
  .mulq (.r .modprime),
  .movq (.r .rax) (.r .k),
  .movq (.m 0 .mod) (.r .rax),
  .mulq (.r .k),
  .movq (.r .rax) (.r .tmp1),
  .movq (.r .rdx) (.r .tmp2),
  .xorq (.r .tmp3) (.r .tmp3),
  .movq (.m 8 .mod) (.r .rax),
  .mulq (.r .k),
  .addq (.r .tmp1) (.m 16 .res),
  .adcq (.r .rax) (.r .tmp2),
  .adcq (.r .rdx) (.r .tmp3),
  .xorq (.r .tmp1) (.r .tmp1),
  .movq (.m 16 .mod) (.r .rax),
  .mulq (.r .k),
  .addq (.r .tmp2) (.m 24 .res),
  .adcq (.r .rax) (.r .tmp3),
  .adcq (.r .rdx) (.r .tmp1),
  .addq (.r .tmp3) (.m 32 .res),
  .adcq (.r .tmp1) (.m 40 .res)]

set_option maxHeartbeats 1000000 in
theorem red3_spec (hinv : (inv.toNat * m0.toNat + 1) % 2 ^ 64 = 0) (hM : s.mem (e .mod).1 = [m0, m1, m2])
    (hR : s.mem (e .res).1 = [0, 0, t2, t3, t4, t5]) (hI : s.reg .modprime = inv)
    (k : ∀ s' r3 r4 r5 (c : Bool) (u : Limb), s'.mem (e .mod).1 = [m0, m1, m2] → s'.reg .modprime = inv →
      s'.mem (e .res).1 = [0, 0, 0, r3, r4, r5] →
      val [0, 0, 0, r3, r4, r5] + 2 ^ 192 * 2 ^ 192 * c.toNat = val [0, 0, t2, t3, t4, t5] + 2 ^ 128 * u.toNat * val [m0, m1, m2] → WP e is none s' Q) :
    WP e (red3 ++ is) none s Q := by
  have ne3 := he.M
  rw [red3]
  simp only [List.cons_append, List.nil_append]
  refine WP.movq ⟨rfl, (by simp [State.okay_m, he.M0, he.res0, hM, hR, hI, he.M, ne3]), trivial⟩ ?_
  refine WP.mulq rfl trivial (fun h1 l1 c1 q1 => ?_)
  simp [he.M0, he.res0, hM, hR, hI, he.M, ne3] at q1
  refine WP.movq ⟨rfl, trivial, trivial⟩ ?_
  refine WP.movq ⟨rfl, (by simp [State.okay_m, he.M0, he.res0, hM, hR, hI, he.M, ne3]), trivial⟩ ?_
  refine WP.mulq rfl trivial (fun h4 l4 c4 q4 => ?_)
  simp [he.M0, he.res0, hM, hR, hI, he.M, ne3] at q4
  refine WP.movq ⟨rfl, trivial, trivial⟩ ?_
  refine WP.movq ⟨rfl, trivial, trivial⟩ ?_
  refine WP.xorq ?_
  refine WP.movq ⟨rfl, (by simp [State.okay_m, he.M0, he.res0, hM, hR, hI, he.M, ne3]), trivial⟩ ?_
  refine WP.mulq rfl trivial (fun h9 l9 c9 q9 => ?_)
  simp [he.M0, he.res0, hM, hR, hI, he.M, ne3] at q9
  refine WP.addq ⟨rfl, trivial, (by simp [State.okay_m, he.M0, he.res0, hM, hR, hI, he.M, ne3])⟩ (fun x10 c10 q10 => ?_)
  simp [he.M0, he.res0, hM, hR, hI, he.M, ne3] at q10
  refine WP.adcq ⟨rfl, trivial, trivial⟩ (fun x11 c11 q11 => ?_)
  simp [he.M0, he.res0, hM, hR, hI, he.M, ne3] at q11
  refine WP.adcq ⟨rfl, trivial, trivial⟩ (fun x12 c12 q12 => ?_)
  simp [he.M0, he.res0, hM, hR, hI, he.M, ne3] at q12
  refine WP.xorq ?_
  refine WP.movq ⟨rfl, (by simp [State.okay_m, he.M0, he.res0, hM, hR, hI, he.M, ne3]), trivial⟩ ?_
  refine WP.mulq rfl trivial (fun h15 l15 c15 q15 => ?_)
  simp [he.M0, he.res0, hM, hR, hI, he.M, ne3] at q15
  refine WP.addq ⟨rfl, trivial, (by simp [State.okay_m, he.M0, he.res0, hM, hR, hI, he.M, ne3])⟩ (fun x16 c16 q16 => ?_)
  simp [he.M0, he.res0, hM, hR, hI, he.M, ne3] at q16
  refine WP.adcq ⟨rfl, trivial, trivial⟩ (fun x17 c17 q17 => ?_)
  simp [he.M0, he.res0, hM, hR, hI, he.M, ne3] at q17
  refine WP.adcq ⟨rfl, trivial, trivial⟩ (fun x18 c18 q18 => ?_)
  simp [he.M0, he.res0, hM, hR, hI, he.M, ne3] at q18
  refine WP.addq ⟨rfl, trivial, (by simp [State.okay_m, he.M0, he.res0, hM, hR, hI, he.M, ne3])⟩ (fun x19 c19 q19 => ?_)
  simp [he.M0, he.res0, hM, hR, hI, he.M, ne3] at q19
  refine WP.adcq ⟨rfl, trivial, (by simp [State.okay_m, he.M0, he.res0, hM, hR, hI, he.M, ne3])⟩ (fun x20 c20 q20 => ?_)
  simp [he.M0, he.res0, hM, hR, hI, he.M, ne3] at q20
  have hz := mont_zero hinv q1 (by rw [q4, Nat.mul_comm]) (by rw [q10, Nat.add_comm])
  refine k _ _ _ _ c20 l1 (by simp [hM, he.M]) (by simp [hI]) (by
    simp [hR, he.res0]
    exact ⟨BitVec.eq_of_toNat_eq hz, rfl, rfl, rfl⟩) ?_
  have h0 : (0 : Limb).toNat = 0 := rfl
  simp only [val_cons, val_nil, h0]
  rw [hz, Nat.zero_add] at q10
  clear k hM hR hI he hz hinv q1
  have z12 := (carry_zero q12 (Nat.add_le_add (Nat.le_sub_of_add_le (mul_hi q9)) (Bool.toNat_le _)) (by norm_num)).1
  rw [z12, Nat.mul_zero, Nat.add_zero] at q12
  have z18 := (carry_zero q18 (Nat.add_le_add (Nat.le_sub_of_add_le (mul_hi q15)) (Bool.toNat_le _)) (by norm_num)).1
  rw [z18, Nat.mul_zero, Nat.add_zero] at q18
  linear_combination (2 ^ 128) * q4 + (2 ^ 192) * q9 + (2 ^ 192 * 2 ^ 64) * q15 + (2 ^ 128) * q10 + (2 ^ 192) * q11 + (2 ^ 192 * 2 ^ 64) * q12 + (2 ^ 192) * q16 + (2 ^ 192 * 2 ^ 64) * q17 + (2 ^ 192 * 2 ^ 128) * q18 + (2 ^ 192 * 2 ^ 64) * q19 + (2 ^ 192 * 2 ^ 128) * q20

end

theorem reduce_eq : REDUCE_6_LIMB_PRODUCT = red1 ++ (red2 ++ (red3 ++ [])) := rfl

theorem val6 (x y z : Limb) : val [0, 0, 0, x, y, z] = 2 ^ 192 * val [x, y, z] := by
  have h0 : (0 : Limb).toNat = 0 := rfl
  simp only [val_cons, val_nil, h0]
  ring

theorem reduce_spec {e : Env} (he : Env3 e) {m0 m1 m2 t0 t1 t2 t3 t4 t5 inv : Limb} {s : State} (hinv : (inv.toNat * m0.toNat + 1) % 2 ^ 64 = 0)
    (htop : 2 * val [m0, m1, m2] ≤ 2 ^ 192) (hM : s.mem (e .mod).1 = [m0, m1, m2])
    (hR : s.mem (e .res).1 = [t0, t1, t2, t3, t4, t5]) (hI : s.reg .modprime = inv)
    (hlt : val [t0, t1, t2, t3, t4, t5] < val [m0, m1, m2] * 2 ^ 192) :
    WP e REDUCE_6_LIMB_PRODUCT none s fun s' => s'.mem (e .mod).1 = [m0, m1, m2] ∧ ∃ r3 r4 r5 U, s'.mem (e .res).1 = [0, 0, 0, r3, r4, r5] ∧
      U < 2 ^ 192 ∧ val [r3, r4, r5] * 2 ^ 192 = val [t0, t1, t2, t3, t4, t5] + U * val [m0, m1, m2] := by
  rw [reduce_eq]
  refine red1_spec he hinv hM hR hI (fun s1 r1 r2 r3 r4 r5 c1 u1 hM1 hI1 hR1 h1 => ?_)
  refine red2_spec he hinv hM1 hR1 hI1 (fun s2 w2 w3 w4 w5 c2 u2 hM2 hI2 hR2 h2 => ?_)
  refine red3_spec he hinv hM2 hR2 hI2 (fun s3 v3 v4 v5 c3 u3 hM3 hI3 hR3 h3 => WP.nil ⟨hM3, v3, v4, v5, u1.toNat + 2 ^ 64 * u2.toNat + 2 ^ 128 * u3.toNat, hR3, ?_, ?_⟩)
  · have := u1.isLt
    have := u2.isLt
    have := u3.isLt
    omega
  · have hU : u1.toNat + 2 ^ 64 * u2.toNat + 2 ^ 128 * u3.toNat ≤ 2 ^ 192 := by
      have := u1.isLt
      have := u2.isLt
      have := u3.isLt
      omega
    have hsum : val [0, 0, 0, v3, v4, v5] + 2 ^ 192 * 2 ^ 192 * (c1.toNat + c2.toNat + c3.toNat) =
        val [t0, t1, t2, t3, t4, t5] + (u1.toNat + 2 ^ 64 * u2.toNat + 2 ^ 128 * u3.toNat) * val [m0, m1, m2] := by
      linear_combination h1 + h2 + h3
    have hb := drop_carry hsum (by
      have : (u1.toNat + 2 ^ 64 * u2.toNat + 2 ^ 128 * u3.toNat) * val [m0, m1, m2] ≤ 2 ^ 192 * val [m0, m1, m2] := Nat.mul_le_mul_right _ hU
      have : 2 ^ 192 * (2 * val [m0, m1, m2]) ≤ 2 ^ 192 * 2 ^ 192 := Nat.mul_le_mul_left _ htop
      omega)
    rw [← hb, val6, Nat.mul_comm]

end Libff.X86

namespace Libff
open X86

theorem env3 (same : Bool) (o : Nat) : Env3 (asmEnv same o) := by
  constructor <;> cases same <;> simp [asmEnv]

theorem exists_three {l : List Limb} (h : l.length = 3) : ∃ x y z, l = [x, y, z] := by
  match l, h with
  | [x, y, z], _ => exact ⟨x, y, z, rfl⟩

theorem exists_six {l : List Limb} (h : l.length = 6) : ∃ a b c d e f, l = [a, b, c, d, e, f] := by
  match l, h with
  | [a, b, c, d, e, f], _ => exact ⟨a, b, c, d, e, f, rfl⟩

theorem asmReduce3_spec (P : FpParams) (hP : P.Valid) (h3 : P.n = 3) (J2 J3 : Junk) (mem : Nat → List Limb) {r0 r1 r2 r3 r4 r5 : Limb}
    (hM : mem 2 = P.modulus) (hR : mem 3 = [r0, r1, r2, r3, r4, r5]) (hlt : val [r0, r1, r2, r3, r4, r5] < P.p * 2 ^ (64 * P.n)) :
    ∃ r, asmReduce3 P J2 J3 mem = .ok r ∧ r.length = P.n ∧ val r < P.p ∧ val r * 2 ^ (64 * P.n) ≡ val [r0, r1, r2, r3, r4, r5] [MOD P.p] := by
  obtain ⟨m0, m1, m2, hm⟩ := exists_three (hP.len.trans h3)
  have hp : P.p = val [m0, m1, m2] := congrArg val hm
  have hinv : (P.inv.toNat * m0.toNat + 1) % 2 ^ 64 = 0 := by
    have := inv_low (m := P.modulus) (by rw [hP.len, h3]; norm_num) hP.inv
    rwa [hm] at this
  have htop := hP.topBit
  rw [h3, show 64 * 3 = 192 from rfl, hp] at htop hlt
  rw [h3, show 64 * 3 = 192 from rfl, hp]
  obtain ⟨s1, e1, hM1, v3, v4, v5, U, hR1, hU, hv⟩ := reduce_spec (env3 false 0) (s := J2.start [(.modprime, P.inv)] mem) hinv htop
    (by show mem 2 = _; rw [hM, hm]) hR rfl hlt
  have hR1 : s1.mem 3 = [0, 0, 0] ++ ([v3, v4, v5] ++ []) := hR1
  have hM1 : s1.mem 2 = [] ++ ([m0, m1, m2] ++ []) := hM1
  have hc := condSub_spec (asmEnv false 3) .M .tmp
    (fun s' => ∃ r, s'.mem 3 = [0, 0, 0] ++ (r ++ []) ∧ r.length = 3 ∧
      val r = if val [v3, v4, v5] < val [m0, m1, m2] then val [v3, v4, v5] else val [v3, v4, v5] - val [m0, m1, m2])
    [v3, v4, v5] [m0, m1, m2] (J3.start [] s1.mem) [0, 0, 0] [] [] [] (by simp) rfl hR1 rfl hM1 rfl (by simp [asmEnv])
    (fun s' r g1 g2 _ g4 => ⟨r, g1, g2, g4⟩)
  obtain ⟨s2, e2, r, g1, g2, g4⟩ := hc
  have hv2 : val [v3, v4, v5] < 2 * val [m0, m1, m2] := by
    refine Nat.lt_of_mul_lt_mul_right (a := 2 ^ 192) ?_
    rw [hv]
    have : U * val [m0, m1, m2] ≤ 2 ^ 192 * val [m0, m1, m2] := Nat.mul_le_mul_right _ hU.le
    omega
  refine ⟨r, ?_, g2, ?_, ?_⟩
  · unfold asmReduce3
    rw [e1, Outcome.bind, condSubProg3_eq]
    have e2 : exec (asmEnv false 3) (condSub .M .tmp 3) none (J3.start [] s1.mem) = .ok s2 := e2
    rw [e2]
    show Outcome.ok ((s2.mem 3).drop 3) = _
    rw [g1]
    simp
  · rw [g4]
    split_ifs <;> omega
  · refine modEq_of_exists ?_
    rw [g4]
    split_ifs with h
    · exact ⟨U, .inr hv⟩
    · refine ⟨2 ^ 192 - U, .inl ?_⟩
      obtain ⟨d, hd⟩ : ∃ d, val [v3, v4, v5] = d + val [m0, m1, m2] := ⟨val [v3, v4, v5] - val [m0, m1, m2], by omega⟩
      rw [hd] at hv ⊢
      rw [Nat.add_sub_cancel]
      generalize (2 : Nat) ^ 192 = R at *
      obtain ⟨V, rfl⟩ : ∃ V, R = V + U := ⟨R - U, by omega⟩
      rw [Nat.add_sub_cancel]
      linear_combination hv

theorem asmMulReduce_eq (P : FpParams) (hP : P.Valid) (J J2 J3 : Junk) (t : List Limb) (same : Bool) (a b : List Limb) (ha : a.length = P.n)
    (hb : b.length = P.n) (ht : t.length = if P.n = 3 then 6 else P.n + 1) (hab : val a * val b < P.p * 2 ^ (64 * P.n))
    (hs : same = true → b = a) : asmMulReduce P J J2 J3 t same a b = mulReduce P a b := by
  unfold asmMulReduce
  simp only
  split_ifs at ht ⊢ with h3 h4 h5
  · obtain ⟨r, hr, hr1, hr2, hr3⟩ := mulReduce_spec P hP a b ha hb hab
    obtain ⟨m0, m1, m2, hm⟩ := exists_three (hP.len.trans h3)
    obtain ⟨a0, a1, a2, rfl⟩ := exists_three (ha.trans h3)
    obtain ⟨b0, b1, b2, rfl⟩ := exists_three (hb.trans h3)
    obtain ⟨t0, t1, t2, t3, t4, t5, rfl⟩ := exists_six ht
    obtain ⟨s1, e1, hM1, r0, r1, r2, r3, r4, r5, hR1, hv1⟩ := comba_mul (env3 same 0) (a0 := a0) (a1 := a1) (a2 := a2) (b0 := b0) (b1 := b1) (b2 := b2)
      (s := J.start [] (asmMem [a0, a1, a2] [b0, b1, b2] P.modulus [t0, t1, t2, t3, t4, t5])) rfl (by
        cases same with
        | true => exact (hs rfl).symm
        | false => rfl) hm rfl
    rw [e1, Outcome.bind]
    obtain ⟨r', hr', g1, g2, g3⟩ := asmReduce3_spec P hP h3 J2 J3 s1.mem (hM1.trans hm.symm) hR1 (by rw [hv1]; exact hab)
    rw [hr', hr]
    rw [hv1] at g3
    rw [val_inj (by rw [g1, hr1]) (mont_unique hP g2 hr2 g3 hr3)]
  · rw [montProg4_eq, ← mont_main P hP J t same a b ha hb ht hab hs, h4]
  · rw [montProg5_eq, ← mont_main P hP J t same a b ha hb ht hab hs, h5]
  · rfl

theorem asmSquared_eq (P : FpParams) (hP : P.Valid) (J J2 J3 : Junk) (t : List Limb) (a : List Limb) (ha : a.length = P.n)
    (ht : t.length = if P.n = 3 then 6 else P.n + 1) (hab : val a * val a < P.p * 2 ^ (64 * P.n)) :
    asmSquared P J J2 J3 t a = mulReduce P a a := by
  unfold asmSquared
  split_ifs with h3
  · rw [if_pos h3] at ht
    obtain ⟨r, hr, hr1, hr2, hr3⟩ := mulReduce_spec P hP a a ha ha hab
    obtain ⟨m0, m1, m2, hm⟩ := exists_three (hP.len.trans h3)
    obtain ⟨a0, a1, a2, rfl⟩ := exists_three (ha.trans h3)
    obtain ⟨t0, t1, t2, t3, t4, t5, rfl⟩ := exists_six ht
    obtain ⟨s1, e1, hM1, r0, r1, r2, r3, r4, r5, hR1, hv1⟩ := comba_sqr (env3 true 0) (a0 := a0) (a1 := a1) (a2 := a2)
      (s := J.start [] (asmMem [a0, a1, a2] [a0, a1, a2] P.modulus [t0, t1, t2, t3, t4, t5])) rfl hm rfl
    rw [e1, Outcome.bind]
    obtain ⟨r', hr', g1, g2, g3⟩ := asmReduce3_spec P hP h3 J2 J3 s1.mem (hM1.trans hm.symm) hR1 (by rw [hv1]; exact hab)
    rw [hr', hr]
    rw [hv1] at g3
    rw [val_inj (by rw [g1, hr1]) (mont_unique hP g2 hr2 g3 hr3)]
  · exact asmMulReduce_eq P hP J J2 J3 t true a a ha ha ht hab (fun _ => rfl)

end Libff
