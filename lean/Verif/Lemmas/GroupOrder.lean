import Verif.Lemmas.MulByQ
import Mathlib.GroupTheory.OrderOfElement
import Mathlib.GroupTheory.Perm.Cycle.Type
import Mathlib.NumberTheory.LegendreSymbol.Basic

/-!
# The number of points of a curve, from witnesses

A curve over a field with `q` elements has at most `2 q + 1` points; points of known orders give divisors of the number of
points.  The tests on the witnesses are computations with the model's own group operations.
-/
namespace Libff

/-! ## Divisors of the order of a finite commutative group -/
section abstract
variable {A : Type*} [AddCommGroup A]

theorem dvd_card_of_prime [Finite A] {ℓ : Nat} (hℓ : ℓ.Prime) {P : A} (h0 : P ≠ 0) (h1 : ℓ • P = 0) :
    ℓ ∣ Nat.card A := by
  rw [← addOrderOf_of_prime hℓ h0 h1]
  exact addOrderOf_dvd_natCard P

/-- Two points of order `ℓ^(a+1)` whose multiples of order `ℓ` are independent. -/
theorem dvd_card_pair [Finite A] {ℓ a : Nat} (hℓ : ℓ.Prime) {P Q : A} (hP : ℓ ^ (a + 1) • P = 0)
    (hQ : ℓ ^ (a + 1) • Q = 0) (hT : ℓ ^ a • P ≠ 0) (hS : ∀ k : ℕ, k < ℓ → ℓ ^ a • Q ≠ k • (ℓ ^ a • P)) :
    ℓ ^ (2 * (a + 1)) ∣ Nat.card A := by
  have := Fact.mk hℓ
  have oP : addOrderOf P = ℓ ^ (a + 1) := addOrderOf_eq_prime_pow hT hP
  let H := AddSubgroup.zmultiples P
  have cH : Nat.card H = ℓ ^ (a + 1) := by rw [Nat.card_zmultiples, oP]
  have oQ : addOrderOf (QuotientAddGroup.mk Q : A ⧸ H) = ℓ ^ (a + 1) := by
    refine addOrderOf_eq_prime_pow ?_ ?_
    · intro h
      have h' : (QuotientAddGroup.mk (ℓ ^ a • Q) : A ⧸ H) = 0 := h
      rw [QuotientAddGroup.eq_zero_iff] at h'
      obtain ⟨k, hk⟩ := mem_multiples_iff_mem_zmultiples.2 h'
      have hk : k • P = ℓ ^ a • Q := hk
      have h3 : (ℓ * k) • P = 0 := by rw [mul_smul, hk, ← mul_smul, ← pow_succ', hQ]
      have h4 := addOrderOf_dvd_of_nsmul_eq_zero h3
      rw [oP, pow_succ'] at h4
      obtain ⟨m, hm⟩ := Nat.dvd_of_mul_dvd_mul_left hℓ.pos h4
      refine hS (m % ℓ) (Nat.mod_lt _ hℓ.pos) ?_
      have h5 : ℓ ^ a • Q = m • (ℓ ^ a • P) := by rw [← hk, hm, mul_comm, mul_smul]
      rw [h5]
      nth_rewrite 1 [← Nat.div_add_mod m ℓ]
      rw [add_smul, mul_comm, mul_smul, ← mul_smul ℓ, ← pow_succ', hP, smul_zero, zero_add]
    · change (QuotientAddGroup.mk (ℓ ^ (a + 1) • Q) : A ⧸ H) = 0
      rw [hQ]; rfl
  rw [AddSubgroup.card_eq_card_quotient_mul_card_addSubgroup H, cH, two_mul, pow_add]
  exact Nat.mul_dvd_mul_right (oQ ▸ addOrderOf_dvd_natCard _) _

theorem nsmul_zmod {ℓ : Nat} (hℓ : ℓ.Prime) {P : A} (h0 : P ≠ 0) (h1 : ℓ • P = 0) {n : Nat} (h : n • P = 0) :
    (n : ZMod ℓ) = 0 := by
  have := addOrderOf_dvd_of_nsmul_eq_zero h
  rw [addOrderOf_of_prime hℓ h0 h1] at this
  exact (ZMod.natCast_eq_zero_iff _ _).2 this

/-- A map with `ψ² = -1` has no eigenvector of order `ℓ ≡ 3 (mod 4)`. -/
theorem dvd_card_irr4 [Finite A] {ℓ : Nat} (hℓ : ℓ.Prime) (h3 : ℓ % 4 = 3) (ψ : A →+ A) {P : A} (h0 : P ≠ 0)
    (h1 : ℓ • P = 0) (hψ : ψ (ψ P) + P = 0) : ℓ ^ 2 ∣ Nat.card A := by
  have := Fact.mk hℓ
  refine dvd_card_pair (a := 0) hℓ (P := P) (Q := ψ P) (by simpa using h1) ?_ (by simpa using h0) fun k _ h => ?_
  · rw [zero_add, pow_one, ← ψ.map_nsmul, h1, ψ.map_zero]
  · rw [pow_zero, one_smul, one_smul] at h
    rw [h, ψ.map_nsmul, h] at hψ
    have h2 : (k * k + 1) • P = 0 := by rw [add_smul, mul_smul, one_smul, hψ]
    have h4 := nsmul_zmod hℓ h0 h1 h2
    push_cast at h4
    exact ZMod.exists_sq_eq_neg_one_iff.1 ⟨k, by linear_combination -h4⟩ h3

/-- A map with `ψ² + ψ + 1 = 0` has no eigenvector of order `ℓ ≡ 2 (mod 3)`. -/
theorem dvd_card_irr3 [Finite A] {ℓ : Nat} (hℓ : ℓ.Prime) (h3 : ℓ % 3 = 2) (ψ : A →+ A) {P : A} (h0 : P ≠ 0)
    (h1 : ℓ • P = 0) (hψ : ψ (ψ P) + ψ P + P = 0) : ℓ ^ 2 ∣ Nat.card A := by
  have := Fact.mk hℓ
  refine dvd_card_pair (a := 0) hℓ (P := P) (Q := ψ P) (by simpa using h1) ?_ (by simpa using h0) fun k _ h => ?_
  · rw [zero_add, pow_one, ← ψ.map_nsmul, h1, ψ.map_zero]
  · rw [pow_zero, one_smul, one_smul] at h
    rw [h, ψ.map_nsmul, h] at hψ
    have h2 : (k * k + k + 1) • P = 0 := by rw [add_smul, add_smul, mul_smul, one_smul, hψ]
    have h4 := nsmul_zmod hℓ h0 h1 h2
    push_cast at h4
    have hc : (k : ZMod ℓ) ^ 3 = 1 := by linear_combination (k - 1 : ZMod ℓ) * h4
    have hk0 : (k : ZMod ℓ) ≠ 0 := fun h0 => by simp [h0] at hc
    have hf := ZMod.pow_card_sub_one_eq_one hk0
    have hm : ℓ - 1 = 3 * ((ℓ - 1) / 3) + 1 := by omega
    rw [hm, pow_succ, pow_mul, hc, one_pow, one_mul] at hf
    rw [hf] at h4
    have h5 : ((3 : Nat) : ZMod ℓ) = 0 := by push_cast; linear_combination h4
    rw [ZMod.natCast_eq_zero_iff, Nat.prime_dvd_prime_iff_eq hℓ Nat.prime_three] at h5
    omega

/-- Eigenvectors for different eigenvalues. -/
theorem dvd_card_eig [Finite A] {ℓ : Nat} (hℓ : ℓ.Prime) (ψ : A →+ A) {P Q : A} (h0 : P ≠ 0) (h1 : ℓ • P = 0)
    (h0' : Q ≠ 0) (h1' : ℓ • Q = 0) {k k' : Nat} (hk : ψ P = k • P) (hk' : ψ Q = (k + k') • Q) (hn : k' % ℓ ≠ 0) :
    ℓ ^ 2 ∣ Nat.card A := by
  refine dvd_card_pair (a := 0) hℓ (P := P) (Q := Q) (by simpa using h1) (by simpa using h1') (by simpa using h0)
    fun c _ h => ?_
  rw [pow_zero, one_smul, one_smul] at h
  have h2 : ψ Q = k • Q := by rw [h, ψ.map_nsmul, hk, smul_comm]
  rw [hk', add_smul, add_eq_left] at h2
  have h3 := addOrderOf_dvd_of_nsmul_eq_zero h2
  rw [addOrderOf_of_prime hℓ h0' h1'] at h3
  exact hn (Nat.mod_eq_zero_of_dvd h3)

/-- In a group of order `h r` the multiples by `h` are multiples of any element of order `r`. -/
theorem cofactor_mem [Finite A] {h r : Nat} (hr : r.Prime) (hc : Nat.card A = h * r) {g : A}
    (hg : addOrderOf g = r) (x : A) : ∃ k < r, h • x = k • g := by
  let H := AddSubgroup.zmultiples g
  have cH : Nat.card H = r := by rw [Nat.card_zmultiples, hg]
  have cQ : Nat.card (A ⧸ H) = h := by
    have := AddSubgroup.card_eq_card_quotient_mul_card_addSubgroup H
    rw [hc, cH] at this
    exact (Nat.eq_of_mul_eq_mul_right hr.pos this).symm
  have hm : h • x ∈ H := by
    rw [← QuotientAddGroup.eq_zero_iff]
    change h • (QuotientAddGroup.mk x : A ⧸ H) = 0
    rw [← cQ]; exact card_nsmul_eq_zero'
  obtain ⟨k, hk⟩ := mem_multiples_iff_mem_zmultiples.2 hm
  refine ⟨k % r, Nat.mod_lt _ hr.pos, ?_⟩
  have hk : k • g = h • x := hk
  rw [← hk, ← hg, mod_addOrderOf_nsmul]

/-- If `r` does not divide `h`, the elements killed by `r` are the multiples of any element of order `r`. -/
theorem torsion_mem [Finite A] {h r : Nat} (hr : r.Prime) (hc : Nat.card A = h * r) (hh : h % r ≠ 0) {g : A}
    (hg : addOrderOf g = r) {x : A} (hx : r • x = 0) : ∃ k < r, x = k • g := by
  have hco : Nat.Coprime h r := ((Nat.Prime.coprime_iff_not_dvd hr).2 fun hd => hh (Nat.mod_eq_zero_of_dvd hd)).symm
  obtain ⟨u, hu⟩ := Nat.exists_mul_mod_eq_one_of_coprime hco hr.one_lt
  obtain ⟨k, -, hk⟩ := cofactor_mem hr hc hg x
  refine ⟨k * u % r, Nat.mod_lt _ hr.pos, ?_⟩
  have hxr : ∀ n, (n % r) • x = n • x := fun n => by
    nth_rewrite 2 [← Nat.div_add_mod n r]
    rw [add_smul, mul_comm, mul_smul, hx, smul_zero, zero_add]
  have h1 : (h * u) • x = x := by rw [← hxr, hu.2, one_smul]
  rw [← hg, mod_addOrderOf_nsmul, ← h1, mul_comm, mul_smul, hk, mul_comm, mul_smul]

/-- Order from a divisor and an upper bound. -/
theorem eq_of_dvd_of_le {n N B : Nat} (hd : N ∣ n) (hn : n ≠ 0) (hb : n ≤ B) (h2 : B < 2 * N) : n = N := by
  obtain ⟨k, rfl⟩ := hd
  have hk : k ≠ 0 := fun h => hn (by rw [h, mul_zero])
  have : k < 2 := by
    by_contra h
    have : N * 2 ≤ N * k := Nat.mul_le_mul_left _ (by omega)
    omega
  have : k = 1 := by omega
  rw [this, mul_one]

theorem eq_of_dvd_of_odd {n N B : Nat} (hd : N ∣ n) (hn : n % 2 = 1) (hb : n ≤ B) (h2 : B < 3 * N) : n = N := by
  obtain ⟨k, rfl⟩ := hd
  have hk : k % 2 = 1 := by
    rw [Nat.mul_mod] at hn
    rcases Nat.mod_two_eq_zero_or_one k with h | h
    · rw [h, mul_zero] at hn; simp at hn
    · exact h
  have : k < 3 := by
    by_contra h
    have : N * 3 ≤ N * k := Nat.mul_le_mul_left _ (by omega)
    omega
  have : k = 1 := by omega
  rw [this, mul_one]

end abstract

/-! ## Tests on witnesses -/
section checks
variable {G : Type} {A : Type*} [ops : GroupOps G] [AddCommGroup A] {Rep : G → A → Prop}

/-- `n * g`. -/
def mulN (g : G) (n : Nat) : G := scalarMul g (limbsOf 8 n)

/-- No multiple `k T`, `k < n`, continued from `acc`, equals `S`. -/
def notMult (eq : G → G → Bool) (T S : G) : Nat → G → Bool
  | 0, _ => true
  | n + 1, acc => !eq acc S && notMult eq T S n (GroupOps.add acc T)

/-- `g` has order `ℓ`. -/
def chk1 (isZ : G → Bool) (g : G) (ℓ : Nat) : Bool :=
  decide (ℓ < 2 ^ 512) && (!isZ g && isZ (mulN g ℓ))

/-- `g` and `g'` have order `ℓ^(a+1)` and are independent. -/
def chk2 (eq : G → G → Bool) (isZ : G → Bool) (g g' : G) (ℓ a : Nat) : Bool :=
  let T := mulN g (ℓ ^ a)
  let S := mulN g' (ℓ ^ a)
  decide (ℓ ^ (a + 1) < 2 ^ 512) && (!isZ T && (isZ (mulN T ℓ) && (isZ (mulN S ℓ) && notMult eq T S ℓ GroupOps.zero)))

/-- `g` has order `ℓ ≡ 3 (mod 4)` and `m (m g) = - g`. -/
def chkIrr4 (isZ : G → Bool) (m : G → G) (g : G) (ℓ : Nat) : Bool :=
  chk1 isZ g ℓ && (decide (ℓ % 4 = 3) && isZ (GroupOps.add (m (m g)) g))

/-- `g` has order `ℓ ≡ 2 (mod 3)` and `m (m g) + m g + g = 0`. -/
def chkIrr3 (isZ : G → Bool) (m : G → G) (g : G) (ℓ : Nat) : Bool :=
  chk1 isZ g ℓ && (decide (ℓ % 3 = 2) && isZ (GroupOps.add (GroupOps.add (m (m g)) (m g)) g))

/-- `g`, `g'` have order `ℓ`, `m g = k g`, `m g' = (k + k') g'`. -/
def chkEig (eq : G → G → Bool) (isZ : G → Bool) (m : G → G) (g g' : G) (ℓ k k' : Nat) : Bool :=
  chk1 isZ g ℓ && (chk1 isZ g' ℓ && (decide (k + k' < 2 ^ 512) && (decide (k' % ℓ ≠ 0) &&
    (eq (m g) (mulN g k) && eq (m g') (mulN g' (k + k'))))))

variable (h : ImplementsRel Rep) {eq : G → G → Bool} {isZ : G → Bool}
  (heq : ∀ {g g' a a'}, Rep g a → Rep g' a' → (eq g g' = true ↔ a = a'))
  (hz : ∀ {g a}, Rep g a → (isZ g = true ↔ a = 0))
include h

theorem mulN_rep {g : G} {P : A} (hg : Rep g P) {n : Nat} (hn : n < 2 ^ 512) : Rep (mulN g n) (n • P) := by
  have := scalarMul_rel h hg (limbsOf 8 n)
  rwa [val_limbsOf, Nat.mod_eq_of_lt hn] at this

include heq in
theorem notMult_sound {T S : G} {P Q : A} (hT : Rep T P) (hS : Rep S Q) (n : Nat) (acc : G) (j : Nat)
    (ha : Rep acc (j • P)) (hc : notMult eq T S n acc = true) (k : Nat) (hk : k < n) : Q ≠ (j + k) • P := by
  induction n generalizing acc j k with
  | zero => omega
  | succ n ih =>
    simp only [notMult, Bool.and_eq_true, Bool.not_eq_true'] at hc
    rcases Nat.eq_zero_or_pos k with rfl | hk0
    · intro hq
      have := (heq ha hS).2 hq.symm
      rw [hc.1] at this; cases this
    · have ha' : Rep (GroupOps.add acc T) ((j + 1) • P) := by rw [add_smul, one_smul]; exact h.add ha hT
      have := ih _ (j + 1) ha' hc.2 (k - 1) (by omega)
      rwa [show j + 1 + (k - 1) = j + k by omega] at this

include hz

theorem chk1_sound {g : G} {P : A} (hg : Rep g P) {ℓ : Nat} (hc : chk1 isZ g ℓ = true) : P ≠ 0 ∧ ℓ • P = 0 := by
  simp only [chk1, Bool.and_eq_true, Bool.not_eq_true', decide_eq_true_eq] at hc
  refine ⟨fun h0 => ?_, (hz (mulN_rep h hg hc.1)).1 hc.2.2⟩
  have := (hz hg).2 h0
  rw [hc.2.1] at this; cases this

theorem chk1_dvd [Finite A] {g : G} {P : A} (hg : Rep g P) {ℓ : Nat} (hℓ : ℓ.Prime) (hc : chk1 isZ g ℓ = true) :
    ℓ ∣ Nat.card A :=
  have := chk1_sound h hz hg hc
  dvd_card_of_prime hℓ this.1 this.2

include heq in
theorem chk2_dvd [Finite A] {g g' : G} {P P' : A} (hg : Rep g P) (hg' : Rep g' P') {ℓ a : Nat} (hℓ : ℓ.Prime)
    (hc : chk2 eq isZ g g' ℓ a = true) : ℓ ^ (2 * (a + 1)) ∣ Nat.card A := by
  simp only [chk2, Bool.and_eq_true, Bool.not_eq_true', decide_eq_true_eq] at hc
  obtain ⟨hb, h0, h1, h1', hn⟩ := hc
  have hb' : ℓ ^ a < 2 ^ 512 := lt_of_le_of_lt (Nat.pow_le_pow_right hℓ.pos (Nat.le_succ a)) hb
  have hb'' : ℓ < 2 ^ 512 := lt_of_le_of_lt (Nat.le_self_pow (Nat.succ_ne_zero a) ℓ) hb
  have hT := mulN_rep h hg hb'
  have hS := mulN_rep h hg' hb'
  have e1 := (hz (mulN_rep h hT hb'')).1 h1
  have e2 := (hz (mulN_rep h hS hb'')).1 h1'
  rw [← mul_smul, ← pow_succ'] at e1 e2
  refine dvd_card_pair hℓ e1 e2 (fun e => ?_) fun k hk => ?_
  · have := (hz hT).2 e
    rw [h0] at this; cases this
  · have := notMult_sound h heq hT hS ℓ _ 0 (by rw [zero_smul]; exact h.zero) hn k hk
    rwa [zero_add] at this

variable {m : G → G} (ψ : A →+ A) (hm : ∀ {g a}, Rep g a → Rep (m g) (ψ a))
include hm

theorem chkIrr4_dvd [Finite A] {g : G} {P : A} (hg : Rep g P) {ℓ : Nat} (hℓ : ℓ.Prime)
    (hc : chkIrr4 isZ m g ℓ = true) : ℓ ^ 2 ∣ Nat.card A := by
  simp only [chkIrr4, Bool.and_eq_true, decide_eq_true_eq] at hc
  obtain ⟨h1, h3, h2⟩ := hc
  obtain ⟨h0, h1⟩ := chk1_sound h hz hg h1
  exact dvd_card_irr4 hℓ h3 ψ h0 h1 ((hz (h.add (hm (hm hg)) hg)).1 h2)

theorem chkIrr3_dvd [Finite A] {g : G} {P : A} (hg : Rep g P) {ℓ : Nat} (hℓ : ℓ.Prime)
    (hc : chkIrr3 isZ m g ℓ = true) : ℓ ^ 2 ∣ Nat.card A := by
  simp only [chkIrr3, Bool.and_eq_true, decide_eq_true_eq] at hc
  obtain ⟨h1, h3, h2⟩ := hc
  obtain ⟨h0, h1⟩ := chk1_sound h hz hg h1
  exact dvd_card_irr3 hℓ h3 ψ h0 h1 ((hz (h.add (h.add (hm (hm hg)) (hm hg)) hg)).1 h2)

include heq in
theorem chkEig_dvd [Finite A] {g g' : G} {P P' : A} (hg : Rep g P) (hg' : Rep g' P') {ℓ k k' : Nat} (hℓ : ℓ.Prime)
    (hc : chkEig eq isZ m g g' ℓ k k' = true) : ℓ ^ 2 ∣ Nat.card A := by
  simp only [chkEig, Bool.and_eq_true, decide_eq_true_eq] at hc
  obtain ⟨h1, h1', hb, hn, h2, h2'⟩ := hc
  obtain ⟨h0, h1⟩ := chk1_sound h hz hg h1
  obtain ⟨h0', h1'⟩ := chk1_sound h hz hg' h1'
  exact dvd_card_eig hℓ ψ h0 h1 h0' h1' ((heq (hm hg) (mulN_rep h hg (by omega))).1 h2)
    ((heq (hm hg') (mulN_rep h hg' hb)).1 h2') hn

end checks

/-! ## Lists of tests -/

/-- A test on witnesses of type `W`. -/
inductive OrdTest (W : Type) where
  | one (w : W) (ℓ : Nat)
  | pair (w w' : W) (ℓ a : Nat)
  | irr4 (w : W) (ℓ : Nat)
  | irr3 (w : W) (ℓ : Nat)
  | eig (w w' : W) (ℓ k k' : Nat)

namespace OrdTest
variable {W : Type}

/-- The prime number the test is about. -/
def prime : OrdTest W → Nat
  | one _ ℓ => ℓ
  | pair _ _ ℓ _ => ℓ
  | irr4 _ ℓ => ℓ
  | irr3 _ ℓ => ℓ
  | eig _ _ ℓ _ _ => ℓ

/-- The divisor of the group order the test establishes. -/
def factor : OrdTest W → Nat
  | one _ ℓ => ℓ
  | pair _ _ ℓ a => ℓ ^ (2 * (a + 1))
  | irr4 _ ℓ => ℓ ^ 2
  | irr3 _ ℓ => ℓ ^ 2
  | eig _ _ ℓ _ _ => ℓ ^ 2

/-- Evaluation of the test; `ok` says that a witness denotes a group element. -/
def run {G : Type} [GroupOps G] (eq : G → G → Bool) (isZ : G → Bool) (m : G → G) (ok : W → Bool) (dec : W → G) :
    OrdTest W → Bool
  | one w ℓ => ok w && chk1 isZ (dec w) ℓ
  | pair w w' ℓ a => ok w && (ok w' && chk2 eq isZ (dec w) (dec w') ℓ a)
  | irr4 w ℓ => ok w && chkIrr4 isZ m (dec w) ℓ
  | irr3 w ℓ => ok w && chkIrr3 isZ m (dec w) ℓ
  | eig w w' ℓ k k' => ok w && (ok w' && chkEig eq isZ m (dec w) (dec w') ℓ k k')

/-- All tests, and the coprimality of the divisors. -/
def runAll {G : Type} [GroupOps G] (eq : G → G → Bool) (isZ : G → Bool) (m : G → G) (ok : W → Bool) (dec : W → G) :
    List (OrdTest W) → Bool
  | [] => true
  | t :: ts => (run eq isZ m ok dec t && Nat.gcd t.factor (ts.map factor).prod == 1) && runAll eq isZ m ok dec ts

variable {G : Type} {A : Type*} [ops : GroupOps G] [AddCommGroup A] [Finite A] {Rep : G → A → Prop} (h : ImplementsRel Rep)
  {eq : G → G → Bool} {isZ : G → Bool}
  (heq : ∀ {g g' a a'}, Rep g a → Rep g' a' → (eq g g' = true ↔ a = a'))
  (hz : ∀ {g a}, Rep g a → (isZ g = true ↔ a = 0)) {m : G → G} (ψ : A →+ A) (hm : ∀ {g a}, Rep g a → Rep (m g) (ψ a))
  {ok : W → Bool} {dec : W → G} (hok : ∀ w, ok w = true → ∃ P, Rep (dec w) P)
include h heq hz ψ hm hok

theorem run_dvd (t : OrdTest W) (hp : t.prime.Prime) (hc : run eq isZ m ok dec t = true) : t.factor ∣ Nat.card A := by
  cases t <;> simp only [run, Bool.and_eq_true] at hc
  case one w ℓ =>
    obtain ⟨P, hP⟩ := hok _ hc.1
    exact chk1_dvd h hz hP hp hc.2
  case pair w w' ℓ a =>
    obtain ⟨P, hP⟩ := hok _ hc.1
    obtain ⟨P', hP'⟩ := hok _ hc.2.1
    exact chk2_dvd h heq hz hP hP' hp hc.2.2
  case irr4 w ℓ =>
    obtain ⟨P, hP⟩ := hok _ hc.1
    exact chkIrr4_dvd h hz ψ hm hP hp hc.2
  case irr3 w ℓ =>
    obtain ⟨P, hP⟩ := hok _ hc.1
    exact chkIrr3_dvd h hz ψ hm hP hp hc.2
  case eig w w' ℓ k k' =>
    obtain ⟨P, hP⟩ := hok _ hc.1
    obtain ⟨P', hP'⟩ := hok _ hc.2.1
    exact chkEig_dvd h heq hz ψ hm hP hP' hp hc.2.2

theorem runAll_dvd (ts : List (OrdTest W)) (hp : ∀ t ∈ ts, t.prime.Prime)
    (hc : runAll eq isZ m ok dec ts = true) : (ts.map factor).prod ∣ Nat.card A := by
  induction ts with
  | nil => exact one_dvd _
  | cons t ts ih =>
    simp only [runAll, Bool.and_eq_true, beq_iff_eq] at hc
    rw [List.map_cons, List.prod_cons]
    exact Nat.Coprime.mul_dvd_of_dvd_of_dvd hc.1.2 (run_dvd h heq hz ψ hm hok t (hp t (List.mem_cons_self ..)) hc.1.1)
      (ih (fun t ht => hp t (List.mem_cons_of_mem _ ht)) hc.2)

end OrdTest
end Libff
