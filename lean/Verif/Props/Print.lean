import Verif.Lemmas.Print
import Verif.Props.Edwards
import Verif.Props.CurveIO
import Verif.Lemmas.Canonical
import Verif.Props.GenAltBn128
import Verif.Props.GenMnt4
import Verif.Props.GenMnt6
import Verif.Props.GenEdwards

/-!
# What is printed identifies the value (C83)

`Numeral b t v`: the text `t` is the number `v` in base `b` without superfluous zeros; `Tells`, `TellsDenoted`: printing does not fail, and the
texts of two elements agree exactly if the elements do (`Verif/Spec/Print.lean`).
-/
namespace Libff
open Print WeierstrassCurve WeierstrassCurve.Affine

/-- **C83.** `bigint::print` writes the value in decimal and `print_hex` in hexadecimal, followed by a newline; different values are shown
differently. -/
theorem C83_bigint (a b : List Limb) :
    (∃ t, bigintPrint a = t ++ ['\n'] ∧ Numeral 10 t (val a)) ∧ (∃ t, bigintPrintHex a = t ++ ['\n'] ∧ Numeral 16 t (val a)) ∧
    (bigintPrint a = bigintPrint b ↔ val a = val b) ∧ (bigintPrintHex a = bigintPrintHex b ↔ val a = val b) := by
  refine ⟨⟨_, rfl, number_numeral (by norm_num) _⟩, ⟨_, rfl, number_numeral (by norm_num) _⟩, ⟨fun h => ?_, fun h => ?_⟩,
    ⟨fun h => ?_, fun h => ?_⟩⟩
  · exact number_inj (by norm_num) (by norm_num) (List.append_cancel_right h)
  · rw [bigintPrint, bigintPrint, h]
  · exact number_inj (by norm_num) (by norm_num) (List.append_cancel_right h)
  · rw [bigintPrintHex, bigintPrintHex, h]

example : bigintPrint [5, 1] = "18446744073709551621\n".toList ∧ bigintPrintHex [5, 1] = "10000000000000005\n".toList := by decide +kernel
example : bigintPrint [0, 0] = "0\n".toList := by decide +kernel

section
variable (P : FpParams) [hP : Fact P.Valid]

/-- **C83.** `Fp_model::print` writes the residue the element stands for (not the Montgomery representative) in decimal. -/
theorem C83_fp (x : Fp P) : ∃ t, fpPrint x = .ok (t ++ ['\n']) ∧ Numeral 10 t x.toZMod.val :=
  ⟨_, fpPrint_eq x, number_numeral (by norm_num) _⟩

/-- **C83.** The printed lines of elements of the prime field and of all towers over it identify the element. -/
theorem C83_towers (β γ : Fp P) (ξ δ : Fp2 (Fp P) β) :
    Tells (fpPrint (P := P)) ∧
    Tells (fun x : Fp2 (Fp P) β => quadPrint fpPrint x) ∧
    Tells (fun x : Fp3 (Fp P) β => cubicPrint fpPrint x) ∧
    Tells (fun x : Fp4 (Fp P) β γ => quadPrint (quadPrint fpPrint) x) ∧
    Tells (fun x : Fp6_2over3 (Fp P) β γ => quadPrint (cubicPrint fpPrint) x) ∧
    Tells (fun x : Fp6_3over2 (Fp P) β ξ => cubicPrint (quadPrint fpPrint) x) ∧
    Tells (fun x : Fp12 (Fp P) β ξ δ => quadPrint (cubicPrint (quadPrint fpPrint)) x) :=
  ⟨fpPrint_delim.tells, fpPrint_delim.quad.tells, fpPrint_delim.cubic.tells, fpPrint_delim.quad.quad.tells,
    fpPrint_delim.cubic.quad.tells, fpPrint_delim.quad.cubic.tells, fpPrint_delim.quad.cubic.quad.tells⟩

/-- **C83.** The coordinates inside a printed point: the coefficients of the extension element in decimal, the highest first. -/
theorem C83_coordinates {nr : Fp P → Fp P} :
    (∀ x : Fp P, ∃ t, coord1 x = .ok t ∧ Numeral 10 t x.toZMod.val) ∧
    (∀ x : Quad (Fp P) nr, ∃ t1 t0, coord2 x = .ok (t1 ++ "*z + ".toList ++ t0) ∧ Numeral 10 t1 x.c1.toZMod.val ∧
      Numeral 10 t0 x.c0.toZMod.val) ∧
    (∀ x : Cubic (Fp P) nr, ∃ t2 t1 t0, coord3 x = .ok (t2 ++ "*z^2 + ".toList ++ t1 ++ "*z + ".toList ++ t0) ∧
      Numeral 10 t2 x.c2.toZMod.val ∧ Numeral 10 t1 x.c1.toZMod.val ∧ Numeral 10 t0 x.c0.toZMod.val) ∧
    Tells (coord1 (P := P)) ∧ Tells (coord2 (nr := nr)) ∧ Tells (coord3 (nr := nr)) := by
  have tells : ∀ {K : Type} {sh : K → Outcome Text}, Coord sh → Tells sh := fun h =>
    ⟨fun x => (h.ok x).imp fun _ h => h.1, fun x y => ⟨h.inj x y, fun e => by rw [e]⟩⟩
  exact ⟨fun x => ⟨_, coord1_eq x, number_numeral (by norm_num) _⟩,
    fun x => ⟨_, _, coord2_eq x, number_numeral (by norm_num) _, number_numeral (by norm_num) _⟩,
    fun x => ⟨_, _, _, coord3_eq x, number_numeral (by norm_num) _, number_numeral (by norm_num) _, number_numeral (by norm_num) _⟩,
    tells coord1_coord, tells coord2_coord, tells coord3_coord⟩

end

/-- **C83.** The binary fields: gf32 is shown in decimal, the others as one hexadecimal number of exactly 16, 32, 48 or 64 digits, the most
significant first; equal text means equal elements. -/
theorem C83_binary :
    (∀ x : GF32, ∃ t, gf32Print x = t ++ ['\n'] ∧ Numeral 10 t x.value.toNat) ∧
    (∀ x : GF64, ∃ t, gf64Print x = t ++ ['\n'] ∧ HexNumeral 16 t x.value.toNat) ∧
    (∀ x : GF128, ∃ t, gf128Print x = t ++ ['\n'] ∧ HexNumeral 32 t (x.v1.toNat * 2 ^ 64 + x.v0.toNat)) ∧
    (∀ x : GF192, ∃ t, gf192Print x = t ++ ['\n'] ∧
      HexNumeral 48 t ((x.v2.toNat * 2 ^ 64 + x.v1.toNat) * 2 ^ 64 + x.v0.toNat)) ∧
    (∀ x : GF256, ∃ t, gf256Print x = t ++ ['\n'] ∧
      HexNumeral 64 t (((x.v3.toNat * 2 ^ 64 + x.v2.toNat) * 2 ^ 64 + x.v1.toNat) * 2 ^ 64 + x.v0.toNat)) ∧
    (∀ x y, gf32Print x = gf32Print y ↔ x = y) ∧ (∀ x y, gf64Print x = gf64Print y ↔ x = y) ∧
    (∀ x y, gf128Print x = gf128Print y ↔ x = y) ∧ (∀ x y, gf192Print x = gf192Print y ↔ x = y) ∧
    (∀ x y, gf256Print x = gf256Print y ↔ x = y) := by
  have len : ∀ x, (hex16 x).length = 16 := fun x => by simp [hex16]
  have inj : ∀ {x y}, hex16 x = hex16 y → x = y := fun {x y} h =>
    BitVec.eq_of_toNat_eq ((hex16_numeral x).inj (h ▸ hex16_numeral y))
  refine ⟨fun x => ⟨_, rfl, number_numeral (by norm_num) _⟩, fun x => ⟨_, rfl, hex16_numeral _⟩,
    fun x => ⟨_, rfl, (hex16_numeral _).append (hex16_numeral _)⟩,
    fun x => ⟨_, rfl, ((hex16_numeral _).append (hex16_numeral _)).append (hex16_numeral _)⟩,
    fun x => ⟨_, rfl, (((hex16_numeral _).append (hex16_numeral _)).append (hex16_numeral _)).append (hex16_numeral _)⟩,
    fun x y => ⟨fun h => ?_, fun h => by rw [h]⟩, fun x y => ⟨fun h => ?_, fun h => by rw [h]⟩, fun x y => ⟨fun h => ?_, fun h => by rw [h]⟩,
    fun x y => ⟨fun h => ?_, fun h => by rw [h]⟩, fun x y => ⟨fun h => ?_, fun h => by rw [h]⟩⟩
  · exact GF32.ext (BitVec.eq_of_toNat_eq (number_inj (by norm_num) (by norm_num) (List.append_cancel_right h)))
  · exact GF64.ext (inj (List.append_cancel_right h))
  · obtain ⟨h1, h0⟩ := List.append_inj (List.append_cancel_right h) (by simp [len])
    exact GF128.ext (inj h0) (inj h1)
  · obtain ⟨h, h0⟩ := List.append_inj (List.append_cancel_right h) (by simp [len])
    obtain ⟨h2, h1⟩ := List.append_inj h (by simp [len])
    exact GF192.ext (inj h0) (inj h1) (inj h2)
  · obtain ⟨h, h0⟩ := List.append_inj (List.append_cancel_right h) (by simp [len])
    obtain ⟨h, h1⟩ := List.append_inj h (by simp [len])
    obtain ⟨h3, h2⟩ := List.append_inj h (by simp [len])
    exact GF256.ext (inj h0) (inj h1) (inj h2) (inj h3)

example : gf128Print ⟨0xff, 1⟩ = "000000000000000100000000000000ff\n".toList := by decide +kernel
example : gf32Print ⟨77⟩ = "77\n".toList := by decide +kernel

/-! ## Points -/

section
variable {K : Type} [Field K] [DecidableEq K] [Squared K] [LawfulSquared K] [InverseO K] [LawfulInverse K] {sh : K → Outcome Text}

omit [Squared K] [LawfulSquared K] in
theorem Proj.print_tells (hs : Coord sh) (a b : K) :
    TellsDenoted (fun p (P : (sw a b).Point) => ProjRep p P) (pointPrint Proj.isZero Proj.toAffine sh) ∧
    (∀ p (P : (sw a b).Point), ProjRep p P → (pointPrint Proj.isZero Proj.toAffine sh p = .ok "O\n".toList ↔ P = 0)) ∧
    ∀ p x y h, ProjRep p (Point.some (W' := sw a b) x y h) → ∃ s t, sh x = .ok s ∧ sh y = .ok t ∧
      pointPrint Proj.isZero Proj.toAffine sh p = .ok ("(".toList ++ s ++ " , ".toList ++ t ++ ")\n".toList) := by
  obtain ⟨h1, h2⟩ := pointPrint_tells (Rep := fun p (P : (sw a b).Point) => ProjRep p P) hs (isZero := Proj.isZero) (toAffine := Proj.toAffine)
    (fun p P h => Proj.isZero_rep h)
    (fun p P h h0 => by
      rcases Proj.toAffine_rep h with ⟨e, -⟩ | ⟨x, y, -, -, e⟩
      · exact absurd e h0
      · exact ⟨x, y, 1, e⟩)
    (fun p q P hp hq => by
      rcases Proj.toAffine_rep hp with ⟨rfl, e⟩ | ⟨x, y, hP, rfl, e⟩ <;> rcases Proj.toAffine_rep hq with ⟨k, e'⟩ | ⟨x', y', hQ, k, e'⟩
      · rw [e, e']
      · exact absurd k.symm (Point.some_ne_zero hQ)
      · exact absurd k (Point.some_ne_zero hP)
      · obtain ⟨rfl, rfl⟩ := Point.some.inj k
        rw [e, e'])
    (fun p q P Q x y z z' hp hq h0 h0' hx hy => by
      rcases Proj.toAffine_rep hp with ⟨e, -⟩ | ⟨x1, y1, hP, rfl, e⟩
      · exact absurd e h0
      rcases Proj.toAffine_rep hq with ⟨e', -⟩ | ⟨x2, y2, hQ, rfl, e'⟩
      · exact absurd e' h0'
      have k := Outcome.ok.inj (hx.symm.trans e)
      have k' := Outcome.ok.inj (hy.symm.trans e')
      simp only [Coord3.mk.injEq] at k k'
      obtain ⟨rfl, rfl, -⟩ := k
      obtain ⟨rfl, rfl, -⟩ := k'
      rfl)
  refine ⟨h1, h2, fun p x y h hp => ?_⟩
  rcases Proj.toAffine_rep hp with ⟨e, -⟩ | ⟨x1, y1, hP, k, e⟩
  · exact absurd e (Point.some_ne_zero h)
  · obtain ⟨rfl, rfl⟩ := Point.some.inj k
    refine pointPrint_affine hs ?_ e
    rw [← Bool.not_eq_true, Proj.isZero_rep hp]
    exact Point.some_ne_zero h

theorem Jac.print_tells (hs : Coord sh) (b : K) :
    TellsDenoted (fun p (P : (sw 0 b).Point) => JacRep p P) (pointPrint Jac.isZero Jac.toAffine sh) ∧
    (∀ p (P : (sw 0 b).Point), JacRep p P → (pointPrint Jac.isZero Jac.toAffine sh p = .ok "O\n".toList ↔ P = 0)) ∧
    ∀ p x y h, JacRep p (Point.some (W' := sw 0 b) x y h) → ∃ s t, sh x = .ok s ∧ sh y = .ok t ∧
      pointPrint Jac.isZero Jac.toAffine sh p = .ok ("(".toList ++ s ++ " , ".toList ++ t ++ ")\n".toList) := by
  obtain ⟨h1, h2⟩ := pointPrint_tells (Rep := fun p (P : (sw 0 b).Point) => JacRep p P) hs (isZero := Jac.isZero) (toAffine := Jac.toAffine)
    (fun p P h => Jac.isZero_rep h)
    (fun p P h h0 => by
      rcases Jac.toAffine_rep h with ⟨e, -⟩ | ⟨x, y, -, -, e⟩
      · exact absurd e h0
      · exact ⟨x, y, 1, e⟩)
    (fun p q P hp hq => by
      rcases Jac.toAffine_rep hp with ⟨rfl, e⟩ | ⟨x, y, hP, rfl, e⟩ <;> rcases Jac.toAffine_rep hq with ⟨k, e'⟩ | ⟨x', y', hQ, k, e'⟩
      · rw [e, e']
      · exact absurd k.symm (Point.some_ne_zero hQ)
      · exact absurd k (Point.some_ne_zero hP)
      · obtain ⟨rfl, rfl⟩ := Point.some.inj k
        rw [e, e'])
    (fun p q P Q x y z z' hp hq h0 h0' hx hy => by
      rcases Jac.toAffine_rep hp with ⟨e, -⟩ | ⟨x1, y1, hP, rfl, e⟩
      · exact absurd e h0
      rcases Jac.toAffine_rep hq with ⟨e', -⟩ | ⟨x2, y2, hQ, rfl, e'⟩
      · exact absurd e' h0'
      have k := Outcome.ok.inj (hx.symm.trans e)
      have k' := Outcome.ok.inj (hy.symm.trans e')
      simp only [Coord3.mk.injEq] at k k'
      obtain ⟨rfl, rfl, -⟩ := k
      obtain ⟨rfl, rfl, -⟩ := k'
      rfl)
  refine ⟨h1, h2, fun p x y h hp => ?_⟩
  rcases Jac.toAffine_rep hp with ⟨e, -⟩ | ⟨x1, y1, hP, k, e⟩
  · exact absurd e (Point.some_ne_zero h)
  · obtain ⟨rfl, rfl⟩ := Point.some.inj k
    refine pointPrint_affine hs ?_ e
    rw [← Bool.not_eq_true, Jac.isZero_rep hp]
    exact Point.some_ne_zero h

omit [Squared K] [LawfulSquared K] in
theorem Edw.print_tells (hs : Coord sh) {a d : K} (h2 : (2 : K) ≠ 0) (had : a - d ≠ 0) :
    TellsDenoted (fun p (P : (edwW a d).Point) => EdwRep p P) (pointPrint Edw.isZero Edw.toAffine sh) ∧
    (∀ p (P : (edwW a d).Point), EdwRep p P → (pointPrint Edw.isZero Edw.toAffine sh p = .ok "O\n".toList ↔ P = 0)) ∧
    ∀ p (P : (edwW a d).Point), EdwRep p P → P ≠ 0 → ∃ s t, sh (p.Z / p.X) = .ok s ∧ sh (p.Z / p.Y) = .ok t ∧
      pointPrint Edw.isZero Edw.toAffine sh p = .ok ("(".toList ++ s ++ " , ".toList ++ t ++ ")\n".toList) := by
  obtain ⟨h1, h3⟩ := pointPrint_tells (Rep := fun p (P : (edwW a d).Point) => EdwRep p P) hs (isZero := Edw.isZero) (toAffine := Edw.toAffine)
    (fun p P h => Edw.isZero_rep h)
    (fun p P h h0 => by
      obtain ⟨x, y, e, -⟩ := C37_to_affine h
      exact ⟨x, y, 1, e⟩)
    (fun p q P hp hq => Edw.toAffine_congr h2 had hp hq)
    (fun p q P Q x y z z' hp hq h0 h0' hx hy => by
      obtain ⟨x1, y1, e, -, h3, -⟩ := C37_to_affine hp
      obtain ⟨x2, y2, e', -, h4, -⟩ := C37_to_affine hq
      have k := Outcome.ok.inj (hx.symm.trans e)
      have k' := Outcome.ok.inj (hy.symm.trans e')
      simp only [Coord3.mk.injEq] at k k'
      obtain ⟨rfl, rfl, -⟩ := k
      obtain ⟨rfl, rfl, -⟩ := k'
      exact (Edw.eq_rep h2 had h3 h4).1 ((Edw.eq_rep h2 had h3 h3).2 rfl))
  refine ⟨h1, h3, fun p P hp h0 => ?_⟩
  rcases Edw.toAffine_rep hp with ⟨e, -⟩ | ⟨-, e, -⟩
  · exact absurd e h0
  · refine pointPrint_affine hs ?_ e
    rw [← Bool.not_eq_true, Edw.isZero_rep hp]
    exact h0

end

section
variable (P : FpParams) [hP : Fact P.Valid] [hp : Fact P.p.Prime]

/-- **C83.** `print` of the Jacobian classes (alt_bn128, bls12_381; `G1` over the prime field, `G2` over its quadratic extension): it does not
fail; two objects are shown by the same text exactly if they are the same group element; zero and only zero is shown as `O`; any other element
is shown by its affine coordinates. -/
theorem C83_jacobian :
    (∀ b : Fp P,
      TellsDenoted (fun p (Q : (sw 0 b).Point) => JacRep p Q) (pointPrint Jac.isZero Jac.toAffine coord1) ∧
      (∀ p (Q : (sw 0 b).Point), JacRep p Q → (pointPrint Jac.isZero Jac.toAffine coord1 p = .ok "O\n".toList ↔ Q = 0)) ∧
      ∀ p x y h, JacRep p (Point.some (W' := sw 0 b) x y h) → ∃ s t, coord1 x = .ok s ∧ coord1 y = .ok t ∧
        pointPrint Jac.isZero Jac.toAffine coord1 p = .ok ("(".toList ++ s ++ " , ".toList ++ t ++ ")\n".toList)) ∧
    (∀ (β : Fp P) [Fact (¬ IsSquare β)] (b : Fp2 (Fp P) β),
      TellsDenoted (fun p (Q : (sw 0 b).Point) => JacRep p Q) (pointPrint Jac.isZero Jac.toAffine coord2) ∧
      (∀ p (Q : (sw 0 b).Point), JacRep p Q → (pointPrint Jac.isZero Jac.toAffine coord2 p = .ok "O\n".toList ↔ Q = 0)) ∧
      ∀ p x y h, JacRep p (Point.some (W' := sw 0 b) x y h) → ∃ s t, coord2 x = .ok s ∧ coord2 y = .ok t ∧
        pointPrint Jac.isZero Jac.toAffine coord2 p = .ok ("(".toList ++ s ++ " , ".toList ++ t ++ ")\n".toList)) :=
  ⟨fun b => Jac.print_tells coord1_coord b, fun β _ b => Jac.print_tells coord2_coord b⟩

/-- **C83.** `print` of the projective classes (mnt4 and mnt6; `G2` over the quadratic and the cubic extension). -/
theorem C83_projective :
    (∀ a b : Fp P,
      TellsDenoted (fun p (Q : (sw a b).Point) => ProjRep p Q) (pointPrint Proj.isZero Proj.toAffine coord1) ∧
      (∀ p (Q : (sw a b).Point), ProjRep p Q → (pointPrint Proj.isZero Proj.toAffine coord1 p = .ok "O\n".toList ↔ Q = 0)) ∧
      ∀ p x y h, ProjRep p (Point.some (W' := sw a b) x y h) → ∃ s t, coord1 x = .ok s ∧ coord1 y = .ok t ∧
        pointPrint Proj.isZero Proj.toAffine coord1 p = .ok ("(".toList ++ s ++ " , ".toList ++ t ++ ")\n".toList)) ∧
    (∀ (β : Fp P) [Fact (¬ IsSquare β)] (a b : Fp2 (Fp P) β),
      TellsDenoted (fun p (Q : (sw a b).Point) => ProjRep p Q) (pointPrint Proj.isZero Proj.toAffine coord2) ∧
      (∀ p (Q : (sw a b).Point), ProjRep p Q → (pointPrint Proj.isZero Proj.toAffine coord2 p = .ok "O\n".toList ↔ Q = 0)) ∧
      ∀ p x y h, ProjRep p (Point.some (W' := sw a b) x y h) → ∃ s t, coord2 x = .ok s ∧ coord2 y = .ok t ∧
        pointPrint Proj.isZero Proj.toAffine coord2 p = .ok ("(".toList ++ s ++ " , ".toList ++ t ++ ")\n".toList)) ∧
    (∀ (β : Fp P) [Fact (∀ y : Fp P, y * y * y ≠ β)] (a b : Fp3 (Fp P) β),
      TellsDenoted (fun p (Q : (sw a b).Point) => ProjRep p Q) (pointPrint Proj.isZero Proj.toAffine coord3) ∧
      (∀ p (Q : (sw a b).Point), ProjRep p Q → (pointPrint Proj.isZero Proj.toAffine coord3 p = .ok "O\n".toList ↔ Q = 0)) ∧
      ∀ p x y h, ProjRep p (Point.some (W' := sw a b) x y h) → ∃ s t, coord3 x = .ok s ∧ coord3 y = .ok t ∧
        pointPrint Proj.isZero Proj.toAffine coord3 p = .ok ("(".toList ++ s ++ " , ".toList ++ t ++ ")\n".toList)) :=
  ⟨fun a b => Proj.print_tells coord1_coord a b, fun β _ a b => Proj.print_tells coord2_coord a b,
    fun β _ a b => Proj.print_tells coord3_coord a b⟩

/-- **C83.** `print` of the Edwards classes, on objects that denote an element; the affine coordinates are `Z/X` and `Z/Y`. -/
theorem C83_edwards :
    (∀ a d : Fp P, a - d ≠ 0 →
      TellsDenoted (fun p (Q : (edwW a d).Point) => EdwRep p Q) (pointPrint Edw.isZero Edw.toAffine coord1) ∧
      (∀ p (Q : (edwW a d).Point), EdwRep p Q → (pointPrint Edw.isZero Edw.toAffine coord1 p = .ok "O\n".toList ↔ Q = 0)) ∧
      ∀ p (Q : (edwW a d).Point), EdwRep p Q → Q ≠ 0 → ∃ s t, coord1 (p.Z / p.X) = .ok s ∧ coord1 (p.Z / p.Y) = .ok t ∧
        pointPrint Edw.isZero Edw.toAffine coord1 p = .ok ("(".toList ++ s ++ " , ".toList ++ t ++ ")\n".toList)) ∧
    (∀ (β : Fp P) [Fact (∀ y : Fp P, y * y * y ≠ β)] (a d : Fp3 (Fp P) β), a - d ≠ 0 →
      TellsDenoted (fun p (Q : (edwW a d).Point) => EdwRep p Q) (pointPrint Edw.isZero Edw.toAffine coord3) ∧
      (∀ p (Q : (edwW a d).Point), EdwRep p Q → (pointPrint Edw.isZero Edw.toAffine coord3 p = .ok "O\n".toList ↔ Q = 0)) ∧
      ∀ p (Q : (edwW a d).Point), EdwRep p Q → Q ≠ 0 → ∃ s t, coord3 (p.Z / p.X) = .ok s ∧ coord3 (p.Z / p.Y) = .ok t ∧
        pointPrint Edw.isZero Edw.toAffine coord3 p = .ok ("(".toList ++ s ++ " , ".toList ++ t ++ ")\n".toList)) :=
  ⟨fun a d h => Edw.print_tells coord1_coord (fp_two_ne_zero P) h,
    fun β _ a d h => Edw.print_tells coord3_coord (fun h => fp_two_ne_zero P (congrArg Cubic.c0 h)) h⟩

/-- **C83.** An Edwards object that `is_well_formed` wrongly accepts (C38) cannot be printed: the inversion of zero aborts. -/
theorem C83_edwards_wrong (d y : Fp P) (hy : y ≠ 0) :
    Edw.isWellFormed (fun x => x) (fun x => d * x) (⟨0, y, 0⟩ : Coord3 (Fp P)) = true ∧
      pointPrint Edw.isZero Edw.toAffine coord1 (⟨0, y, 0⟩ : Coord3 (Fp P)) = .abort := by
  obtain ⟨h1, -, h3, h4⟩ := C38_edwards_wrong (a := 1) (d := d) (mulA := fun x : Fp P => x) (mulD := fun x => d * x) y hy
  refine ⟨h1, ?_⟩
  rw [pointPrint, if_neg (by simp [h3]), h4]
  rfl

/-- **C83.** `print_coordinates` never fails and shows the stored coordinates: two nonzero objects are shown alike exactly if they are stored
alike, all zero objects are shown as `O`. -/
theorem C83_print_coordinates {nr : Fp P → Fp P} :
    (∀ (isZero : Coord3 (Fp P) → Bool) p q, (∃ t, pointPrintCoordinates isZero coord1 p = .ok t) ∧
      (pointPrintCoordinates isZero coord1 p = pointPrintCoordinates isZero coord1 q ↔
        (isZero p = true ∧ isZero q = true) ∨ (isZero p = false ∧ isZero q = false ∧ p = q))) ∧
    (∀ (isZero : Coord3 (Quad (Fp P) nr) → Bool) p q, (∃ t, pointPrintCoordinates isZero coord2 p = .ok t) ∧
      (pointPrintCoordinates isZero coord2 p = pointPrintCoordinates isZero coord2 q ↔
        (isZero p = true ∧ isZero q = true) ∨ (isZero p = false ∧ isZero q = false ∧ p = q))) ∧
    (∀ (isZero : Coord3 (Cubic (Fp P) nr) → Bool) p q, (∃ t, pointPrintCoordinates isZero coord3 p = .ok t) ∧
      (pointPrintCoordinates isZero coord3 p = pointPrintCoordinates isZero coord3 q ↔
        (isZero p = true ∧ isZero q = true) ∨ (isZero p = false ∧ isZero q = false ∧ p = q))) :=
  ⟨fun _ p q => pointPrintCoordinates_iff coord1_coord p q, fun _ p q => pointPrintCoordinates_iff coord2_coord p q,
    fun _ p q => pointPrintCoordinates_iff coord3_coord p q⟩

end

/-! The hypotheses are met by the generators, and the texts are as expected: `(1 , 2)` for the generator of alt_bn128 `G1`, whatever the
stored coordinates. -/

example : fpPrint (-1 : alt_bn128_Fq) =
    .ok "21888242871839275222246405745257275088696311157297823662689037894645226208582\n".toList := by decide +kernel
example : quadPrint fpPrint (⟨7, 11⟩ : alt_bn128_Fq2) = .ok "c0/c1:\n7\n11\n".toList := by decide +kernel
example : pointPrint Jac.isZero Jac.toAffine coord1 alt_bn128_G1_one = .ok "(1 , 2)\n".toList := by decide +kernel
example : pointPrint Jac.isZero Jac.toAffine coord1 (⟨4, 16, 2⟩ : Coord3 alt_bn128_Fq) = .ok "(1 , 2)\n".toList := by decide +kernel
example : pointPrintCoordinates Jac.isZero coord1 (⟨4, 16, 2⟩ : Coord3 alt_bn128_Fq) = .ok "(4 : 16 : 2)\n".toList := by decide +kernel
example : pointPrintCoordinates Jac.isZero coord2 (⟨⟨4, 5⟩, ⟨6, 7⟩, 1⟩ : Coord3 alt_bn128_Fq2) =
    .ok "(5*z + 4 : 7*z + 6 : 0*z + 1)\n".toList := by decide +kernel
example : pointPrint Jac.isZero Jac.toAffine coord1 (⟨4, 16, 0⟩ : Coord3 alt_bn128_Fq) = .ok "O\n".toList := by decide +kernel

example : ∃ t, pointPrint Jac.isZero Jac.toAffine coord2 alt_bn128_G2_one = .ok t := by
  obtain ⟨-, -, -, -, Q, h, -⟩ := C52_alt_bn128_G2_generator
  exact ((C83_jacobian alt_bn128_Fq_params).2 _ _).1.1 _ Q h
example : ∃ t, pointPrint Proj.isZero Proj.toAffine coord2 mnt4_G2_one = .ok t := by
  obtain ⟨-, -, -, Q, h, -⟩ := C52_mnt4_G2_generator
  exact ((C83_projective mnt4_Fq_params).2.1 _ _ _).1.1 _ Q h
example : ∃ t, pointPrint Proj.isZero Proj.toAffine coord3 mnt6_G2_one = .ok t := by
  obtain ⟨-, -, -, Q, h, -⟩ := C52_mnt6_G2_generator
  exact ((C83_projective mnt6_Fq_params).2.2 _ _ _).1.1 _ Q h
example : ∃ t, pointPrint Edw.isZero Edw.toAffine coord1 edwards_G1_one = .ok t := by
  obtain ⟨-, h0, -, Q, h, -⟩ := C52_edwards_G1_generator
  exact ((C83_edwards edwards_Fq_params).1 _ _ h0).1.1 _ Q h
example : ∃ t, pointPrint Edw.isZero Edw.toAffine coord3 edwards_G2_one = .ok t := by
  obtain ⟨-, h0, -, Q, h, -⟩ := C52_edwards_G2_generator
  exact ((C83_edwards edwards_Fq_params).2 _ _ _ h0).1.1 _ Q h

end Libff
