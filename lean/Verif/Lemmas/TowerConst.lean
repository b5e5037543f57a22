import Verif.Lemmas.NM
import Verif.Lemmas.ConstantsCheck
import Verif.Model.TowerParams
import Verif.Spec.TowerConst

/-! # Checks for the constants of extension fields, evaluated over `NM p` -/
namespace Libff

/-- The computable check of `ExtField.Consistent`, `q` being the number of elements. -/
def ExtField.check {E K : Type} [Mul K] [One K] [Zero K] [DecidableEq K] (D : ExtField E) (dec : E → K)
    (q fuel : Nat) : Bool :=
  decide (2 * D.euler + 1 = q) && decide (0 < D.s) && decide (q = 2 ^ D.s * D.t + 1) &&
  decide (D.t = 2 * D.tMinus1Over2 + 1) && decide (D.t < 2 ^ fuel) && decide (dec D.nqr ≠ 0) &&
  decide (fastPow fuel (dec D.nqr) D.t = dec D.nqrToT) &&
  decide (fastPow D.s (dec D.nqrToT) (2 ^ (D.s - 1)) ≠ 1)

section
variable {K L : Type} [Zero K] [One K] [Add K] [Sub K] [Neg K] [Mul K] [Squared K] [DecidableEq K]

theorem RelOps.pow_eq [Field L] [Squared L] {R : K → L → Prop} (h : RelOps R) {a b : K} {x y : L}
    (hx : R a x) (hy : R b y) (fuel e : Nat) (he : e < 2 ^ fuel) (hc : Libff.fastPow fuel a e = b) :
    x ^ e = y := by
  rw [← fastPow_eq fuel x e he]
  exact (h.eq (h.fastPow fuel hx e) hy).1 hc

theorem RelOps.pow_ne [Field L] [Squared L] {R : K → L → Prop} (h : RelOps R) {a b : K} {x y : L}
    (hx : R a x) (hy : R b y) (fuel e : Nat) (he : e < 2 ^ fuel) (hc : Libff.fastPow fuel a e ≠ b) :
    x ^ e ≠ y := by
  rw [← fastPow_eq fuel x e he]
  exact fun h' => hc ((h.eq (h.fastPow fuel hx e) hy).2 h')

theorem ExtField.check_sound {E : Type} [Field L] [Fintype L] [Squared L] {R : K → L → Prop}
    (h : RelOps R) (D : ExtField E) (decK : E → K) (decL : E → L) (q fuel : Nat)
    (hq : Fintype.card L = q) (h1 : R (decK D.nqr) (decL D.nqr)) (h2 : R (decK D.nqrToT) (decL D.nqrToT))
    (hc : D.check decK q fuel = true) : D.Consistent decL := by
  simp only [ExtField.check, Bool.and_eq_true, decide_eq_true_eq] at hc
  obtain ⟨⟨⟨⟨⟨⟨⟨c1, c2⟩, c3⟩, c4⟩, c5⟩, c6⟩, c7⟩, c8⟩ := hc
  have e1 := h.pow_eq h1 h2 fuel D.t c5 c7
  have e2 : (decL D.nqrToT) ^ 2 ^ (D.s - 1) ≠ 1 :=
    h.pow_ne h2 h.one D.s _ (Nat.pow_lt_pow_right (by norm_num) (by omega)) c8
  have hs1 : 2 ^ D.s = 2 ^ (D.s - 1) * 2 := by
    rw [← pow_succ]; congr 1; omega
  refine ⟨by rw [hq]; exact c1, c2, by rw [hq]; exact c3, c4, ?_, e1.symm⟩
  refine not_isSquare_of_pow ?_ _ (fun h0 => c6 ((h.eq h1 h.zero).2 h0)) ?_
  · rw [hq, c3, hs1]; exact ⟨2 ^ (D.s - 1) * D.t, by rw [Nat.add_sub_cancel]; ring⟩
  · have : (Fintype.card L - 1) / 2 = D.t * 2 ^ (D.s - 1) := by
      rw [hq, c3, hs1, Nat.add_sub_cancel, show 2 ^ (D.s - 1) * 2 * D.t = 2 * (D.t * 2 ^ (D.s - 1)) by ring]
      exact Nat.mul_div_cancel_left _ (by norm_num)
    rw [this, pow_mul, e1]
    exact e2

/-- A table checked entry by entry. -/
def tableCheck {E : Type} (dec : E → K) (tab : List E) (b : K) (e : Nat → Nat) (fuel : Nat) : Bool :=
  (List.range tab.length).all fun i =>
    decide (e i < 2 ^ fuel) && match tab[i]? with
      | some v => decide (fastPow fuel b (e i) = dec v)
      | none => false

/-- Table lookup in C++ arrays whose index is in range. -/
theorem tableCheck_sound {E : Type} [Field L] [Squared L] {R : K → L → Prop}
    (h : RelOps R) (decK : E → K) (decL : E → L) (d : E)
    (tab : List E) (hdec : ∀ v ∈ tab, R (decK v) (decL v)) (a : K) (x : L) (hx : R a x) (e : Nat → Nat) (fuel : Nat)
    (hc : tableCheck decK tab a e fuel = true) : ∀ i < tab.length, decL (tab.getD i d) = x ^ e i := by
  intro i hi
  simp only [tableCheck, List.all_eq_true, List.mem_range, Bool.and_eq_true, decide_eq_true_eq] at hc
  obtain ⟨h1, h2⟩ := hc i hi
  rw [List.getElem?_eq_getElem hi] at h2
  simp only [decide_eq_true_eq] at h2
  have hg : tab.getD i d = tab[i] := by
    simp [List.getD, List.getElem?_eq_getElem hi]
  rw [hg]
  exact (h.pow_eq hx (hdec _ (List.getElem_mem hi)) fuel (e i) h1 h2).symm
end

/-! ## Decoding respects the relation -/
section Decode
variable {P : FpParams} [Fact P.Valid]

theorem dec2_rel {nr : NM P.p → NM P.p} {nr' : Fp P → Fp P} (v : Nat × Nat)
    (h : v.1 < P.p ∧ v.2 < P.p) :
    Quad.Rel (FpRel P) (dec2 NM.of v : Quad _ nr) (dec2 Nat.cast v : Quad _ nr') :=
  ⟨FpRel.cast h.1, FpRel.cast h.2⟩

theorem dec3_rel {nr : NM P.p → NM P.p} {nr' : Fp P → Fp P} (v : Nat × Nat × Nat)
    (h : v.1 < P.p ∧ v.2.1 < P.p ∧ v.2.2 < P.p) :
    Cubic.Rel (FpRel P) (dec3 NM.of v : Cubic _ nr) (dec3 Nat.cast v : Cubic _ nr') :=
  ⟨FpRel.cast h.1, FpRel.cast h.2.1, FpRel.cast h.2.2⟩

/-- All coefficients are reduced. -/
class Small (E : Type) where
  small : Nat → E → Prop
  dec : ∀ p e, Decidable (small p e)
instance : Small Nat := ⟨fun p v => v < p, fun _ _ => inferInstance⟩
instance {A B : Type} [Small A] [Small B] : Small (A × B) :=
  ⟨fun p v => Small.small p v.1 ∧ Small.small p v.2, fun p v =>
    @instDecidableAnd _ _ (Small.dec p v.1) (Small.dec p v.2)⟩
instance {E : Type} [Small E] (p : Nat) (e : E) : Decidable (Small.small p e) := Small.dec p e

theorem dec4_rel {nr : NM P.p → NM P.p} {nr' : Fp P → Fp P} {mr : Quad (NM P.p) nr → Quad (NM P.p) nr}
    {mr' : Quad (Fp P) nr' → Quad (Fp P) nr'} (v : (Nat × Nat) × (Nat × Nat)) (h : Small.small P.p v) :
    Quad.Rel (Quad.Rel (FpRel P)) (dec4 NM.of v : Quad _ mr) (dec4 Nat.cast v : Quad _ mr') :=
  ⟨dec2_rel _ h.1, dec2_rel _ h.2⟩

theorem dec6q_rel {nr : NM P.p → NM P.p} {nr' : Fp P → Fp P} {mr : Cubic (NM P.p) nr → Cubic (NM P.p) nr}
    {mr' : Cubic (Fp P) nr' → Cubic (Fp P) nr'} (v : (Nat × Nat × Nat) × (Nat × Nat × Nat))
    (h : Small.small P.p v) :
    Quad.Rel (Cubic.Rel (FpRel P)) (dec6q NM.of v : Quad _ mr) (dec6q Nat.cast v : Quad _ mr') :=
  ⟨dec3_rel _ h.1, dec3_rel _ h.2⟩

theorem dec6c_rel {nr : NM P.p → NM P.p} {nr' : Fp P → Fp P} {mr : Quad (NM P.p) nr → Quad (NM P.p) nr}
    {mr' : Quad (Fp P) nr' → Quad (Fp P) nr'} (v : (Nat × Nat) × (Nat × Nat) × (Nat × Nat))
    (h : Small.small P.p v) :
    Cubic.Rel (Quad.Rel (FpRel P)) (dec6c NM.of v : Cubic _ mr) (dec6c Nat.cast v : Cubic _ mr') :=
  ⟨dec2_rel _ h.1, dec2_rel _ h.2.1, dec2_rel _ h.2.2⟩

theorem dec12_rel {nr : NM P.p → NM P.p} {nr' : Fp P → Fp P} {mr : Quad (NM P.p) nr → Quad (NM P.p) nr}
    {mr' : Quad (Fp P) nr' → Quad (Fp P) nr'}
    {lr : Cubic (Quad (NM P.p) nr) mr → Cubic (Quad (NM P.p) nr) mr}
    {lr' : Cubic (Quad (Fp P) nr') mr' → Cubic (Quad (Fp P) nr') mr'}
    (v : ((Nat × Nat) × (Nat × Nat) × (Nat × Nat)) × ((Nat × Nat) × (Nat × Nat) × (Nat × Nat)))
    (h : Small.small P.p v) :
    Quad.Rel (Cubic.Rel (Quad.Rel (FpRel P))) (dec12 NM.of v : Quad _ lr) (dec12 Nat.cast v : Quad _ lr') :=
  ⟨dec6c_rel _ h.1, dec6c_rel _ h.2⟩

end Decode
end Libff
