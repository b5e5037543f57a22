import Verif.Lemmas.FpRepr
import Mathlib.Tactic.LinearCombination
import Mathlib.Data.Int.GCD
import Mathlib.Data.Nat.Prime.Basic

/-! # Specification of the limb-level inversion, and a reference extended gcd -/
namespace Libff

/-- A limb list with nonzero top limb has value at least `2^(64 (len-1))`. -/
theorem le_val_of_getLast (l : List Limb) (h : l.getLast?.getD 0 ≠ 0) :
    2 ^ (64 * (l.length - 1)) ≤ val l := by
  rcases List.eq_nil_or_concat l with rfl | ⟨l', x, rfl⟩
  · simp at h
  · simp only [List.concat_eq_append, List.getLast?_append, List.getLast?_singleton,
      Option.some_or, Option.getD_some] at h
    rw [List.concat_eq_append, val_append, val_cons, val_nil]
    have hx : x.toNat ≠ 0 := fun h' => h ((limb_eq_zero_iff x).2 h')
    have : 2 ^ (64 * l'.length) * 1 ≤ 2 ^ (64 * l'.length) * (x.toNat + 2 ^ 64 * 0) :=
      Nat.mul_le_mul_left _ (by omega)
    simp only [List.length_append, List.length_cons, List.length_nil]
    have e : l'.length + (0 + 1) - 1 = l'.length := by omega
    rw [e]; omega

theorem length_le_of_val_lt (l : List Limb) (n : Nat) (h : l = [] ∨ l.getLast?.getD 0 ≠ 0)
    (hv : val l < 2 ^ (64 * n)) : l.length ≤ n := by
  rcases h with rfl | h
  · simp
  · by_contra hlt
    have h1 := le_val_of_getLast l h
    have h2 : 2 ^ (64 * n) ≤ 2 ^ (64 * (l.length - 1)) :=
      Nat.pow_le_pow_right (by norm_num) (by omega)
    omega

theorem eq_one_of_val (l : List Limb) (h : l.getLast?.getD 0 ≠ 0) (hv : val l = 1) : l = [1] := by
  have hl := length_le_of_val_lt l 1 (Or.inr h) (by rw [hv]; norm_num)
  cases l with
  | nil => simp at hv
  | cons x t =>
    cases t with
    | nil =>
      rw [val_cons, val_nil] at hv
      have : x = 1 := BitVec.eq_of_toNat_eq (by simpa using hv)
      rw [this]
    | cons y t => simp at hl

/-- `invert` on a representative coprime to the modulus: no abort, no overrun,
`a · r ≡ R² (mod p)`. -/
theorem invertRepr_spec (P : FpParams) (hP : P.Valid) (gx : Gcdext) (hgx : gx.Contract)
    (a : List Limb) (ha : a.length = P.n) (h0 : val a ≠ 0) (hc : Nat.Coprime (val a) P.p) :
    ∃ r, invertRepr P gx a = .ok r ∧ r.length = P.n ∧ val r < P.p ∧
      val a * val r ≡ (2 ^ (64 * P.n)) ^ 2 [MOD P.p] := by
  have hl : a.length = P.modulus.length := by rw [ha, hP.len]
  have hg := hgx.gcd a P.modulus hl hP.topLimb h0
  have hgn := hgx.gnorm a P.modulus hl hP.topLimb h0
  obtain ⟨t, hbz⟩ := hgx.bezout a P.modulus hl hP.topLimb h0
  have hbd := hgx.bound a P.modulus hl hP.topLimb h0
  have hsn := hgx.snorm a P.modulus hl hP.topLimb h0
  have hplt : P.p < 2 ^ (64 * P.n) := by have := val_lt P.modulus; rwa [hP.len] at this
  have hp1 := hP.one_lt
  unfold invertRepr
  rw [if_neg (fun h => h0 ((limbsIsZero_iff a).1 h))]
  simp only
  generalize gx a P.modulus = r at *
  rw [hc] at hg
  have hg1 : r.g = [1] := eq_one_of_val _ hgn hg
  have hslt : val r.s < P.p := by
    rcases hbd with ⟨-, h⟩ | h
    · omega
    · rw [hg] at h
      have : val P.modulus = P.p := rfl
      omega
  have hslen : r.s.length ≤ P.n := length_le_of_val_lt _ _ hsn (by omega)
  have hn := hP.n_pos
  rw [if_neg (by rw [hg1]; simp; omega), if_pos hg1]
  rw [hg] at hbz
  -- the reduced |s|
  obtain ⟨m, hm, hml, hmv⟩ : ∃ m, (if P.n ≤ r.s.length then
        if 1 < r.s.length - P.n + 1 then Outcome.ub
        else if P.modulus.getLast?.getD 0 = 0 then Outcome.ub
        else Outcome.ok (limbsOf P.n (val r.s % val P.modulus))
      else Outcome.ok (r.s ++ List.replicate (P.n - r.s.length) 0)) = Outcome.ok m ∧
      m.length = P.n ∧ val m = val r.s := by
    by_cases h : P.n ≤ r.s.length
    · rw [if_pos h, if_neg (by omega), if_neg hP.topLimb]
      refine ⟨_, rfl, by simp, ?_⟩
      rw [val_limbsOf, Nat.mod_eq_of_lt hslt, Nat.mod_eq_of_lt (by omega)]
    · rw [if_neg h]
      refine ⟨_, rfl, by simp; omega, ?_⟩
      rw [val_append, val_replicate_zero]; simp
  rw [hm, Outcome.bind_ok]
  have hr3lt : val P.Rcubed < P.p := by rw [hP.r3]; exact Nat.mod_lt _ (by omega)
  have hRc : Nat.Coprime P.p (2 ^ (64 * P.n)) := by
    apply Nat.Coprime.pow_right
    have h2 : ¬ 2 ∣ P.p := by
      rintro ⟨k, hk⟩
      have := hP.inv
      rw [hk] at this
      have e : P.inv.toNat * (2 * k) = 2 * (P.inv.toNat * k) := by ring
      rw [e] at this
      omega
    exact (Nat.coprime_comm.1 ((Nat.Prime.coprime_iff_not_dvd Nat.prime_two).2 h2))
  -- finishing lemma
  have fin : ∀ m' : List Limb, m'.length = P.n → val m' < 2 ^ (64 * P.n) →
      ((val a : Int) * val m' ≡ 1 [ZMOD P.p]) →
      ∃ r', mulReduce P m' P.Rcubed = .ok r' ∧ r'.length = P.n ∧ val r' < P.p ∧
        val a * val r' ≡ (2 ^ (64 * P.n)) ^ 2 [MOD P.p] := by
    intro m' hm'l hm'v hm'c
    obtain ⟨r', hr', hr'l, hr'v, hr'c⟩ := mulReduce_spec P hP m' P.Rcubed hm'l hP.r3len (by
      rw [Nat.mul_comm P.p]
      exact Nat.mul_lt_mul_of_lt_of_le hm'v hr3lt.le (by omega))
    refine ⟨r', hr', hr'l, hr'v, ?_⟩
    have h3 : val P.Rcubed ≡ (2 ^ (64 * P.n)) ^ 3 [MOD P.p] := by
      rw [hP.r3]; exact Nat.mod_modEq _ _
    have hm'c' : val a * val m' ≡ 1 [MOD P.p] := by
      have : ((val a * val m' : Nat) : Int) ≡ ((1 : Nat) : Int) [ZMOD P.p] := by
        push_cast; exact hm'c
      exact (Int.natCast_modEq_iff).1 this
    apply Nat.ModEq.cancel_right_of_coprime hRc
    calc val a * val r' * 2 ^ (64 * P.n) = val a * (val r' * 2 ^ (64 * P.n)) := by ring
      _ ≡ val a * (val m' * val P.Rcubed) [MOD P.p] := Nat.ModEq.mul_left _ hr'c
      _ = val a * val m' * val P.Rcubed := by ring
      _ ≡ 1 * (2 ^ (64 * P.n)) ^ 3 [MOD P.p] := Nat.ModEq.mul hm'c' h3
      _ = (2 ^ (64 * P.n)) ^ 2 * 2 ^ (64 * P.n) := by ring
  by_cases hneg : r.neg = true
  · rw [if_pos hneg]
    rw [if_pos hneg] at hbz
    have hs := mpn_sub_n_spec P.modulus m (by rw [hP.len, hml])
    have hsl := mpn_sub_n_length P.modulus m (by rw [hP.len, hml])
    generalize mpn_sub_n P.modulus m = d at *
    have hdlt := val_lt d.1
    rw [hsl, hP.len] at hdlt
    have hpv : val P.modulus = P.p := rfl
    have hd2 : d.2 = false := by
      by_contra hne
      have h1 : d.2 = true := by simpa using hne
      rw [h1, hP.len] at hs; simp at hs
      omega
    rw [hd2] at hs ⊢
    simp at hs
    simp only [Bool.false_eq_true, if_false]
    apply fin _ (by rw [hsl, hP.len]) hdlt
    have hd : (val d.1 : Int) = P.p - val r.s := by
      rw [hmv] at hs; omega
    rw [hd]
    refine Int.modEq_iff_dvd.2 ⟨t - val a, ?_⟩
    push_cast at hbz
    rw [show (P.p : Int) = (val P.modulus : Int) from rfl]
    linear_combination hbz
  · rw [if_neg hneg]
    rw [if_neg hneg] at hbz
    apply fin _ hml (by have := val_lt m; rwa [hml] at this)
    rw [hmv]
    refine Int.modEq_iff_dvd.2 ⟨t, ?_⟩
    push_cast at hbz
    linear_combination hbz

/-- Limbs of a number without leading zeros. -/
def natLimbs (v : Nat) : List Limb :=
  if h : v = 0 then [] else BitVec.ofNat 64 v :: natLimbs (v / 2 ^ 64)
termination_by v
decreasing_by exact Nat.div_lt_self (by omega) (by norm_num)

theorem val_natLimbs (v : Nat) : val (natLimbs v) = v := by
  induction v using Nat.strongRecOn with
  | ind v ih =>
    rw [natLimbs]
    split
    · simp [*]
    · rename_i h
      rw [val_cons, ih _ (Nat.div_lt_self (by omega) (by norm_num)), BitVec.toNat_ofNat]
      exact Nat.mod_add_div _ _

theorem natLimbs_ne_nil {v : Nat} (h : v ≠ 0) : natLimbs v ≠ [] := by
  rw [natLimbs, dif_neg h]; simp

theorem natLimbs_getLast (v : Nat) (hv : v ≠ 0) : (natLimbs v).getLast?.getD 0 ≠ 0 := by
  induction v using Nat.strongRecOn with
  | ind v ih =>
    rw [natLimbs, dif_neg hv]
    by_cases h : v / 2 ^ 64 = 0
    · rw [h, natLimbs, dif_pos rfl]
      simp only [List.getLast?_singleton, Option.getD_some]
      intro h'
      have h2 := congrArg BitVec.toNat h'
      rw [BitVec.toNat_ofNat, Nat.mod_eq_of_lt (by
        rcases Nat.div_eq_zero_iff.1 h with h3 | h3
        · simp at h3
        · exact h3)] at h2
      exact hv h2
    · have := ih _ (Nat.div_lt_self (by omega) (by norm_num)) h
      rw [List.getLast?_cons]
      cases h3 : (natLimbs (v / 2 ^ 64)).getLast? with
      | none => rw [h3] at this; simp at this
      | some x => rw [h3] at this; simpa using this

/-- A reference implementation of the `mpn_gcdext` contract (it witnesses that the contract is
satisfiable; the theorems hold for any implementation meeting the contract). -/
def refGcdext : Gcdext := fun u v =>
  let g := Nat.gcd (val u) (val v)
  let s := Int.bmod (Nat.gcdA (val u) (val v)) (val v / g)
  -- the one boundary case: |s| = (v/g)/2 = 1
  if 2 * s.natAbs = val v / g then ⟨natLimbs g, [1], false⟩
  else ⟨natLimbs g, natLimbs s.natAbs, decide (s < 0)⟩

theorem refGcdext_contract : refGcdext.Contract := by
  have key : ∀ u v : List Limb, v.getLast?.getD 0 ≠ 0 → val u ≠ 0 →
      (refGcdext u v).g = natLimbs (Nat.gcd (val u) (val v)) ∧
      ((refGcdext u v).s = [] ∨ (refGcdext u v).s.getLast?.getD 0 ≠ 0) ∧
      (((refGcdext u v).neg = false ∧ val (refGcdext u v).s = 1) ∨
        2 * val (refGcdext u v).g * val (refGcdext u v).s < val v) ∧
      ∃ t : Int, (val (refGcdext u v).g : Int) = val u *
        (if (refGcdext u v).neg then -(val (refGcdext u v).s : Int)
          else val (refGcdext u v).s) + val v * t := by
    intro u v hv hu
    have hv0 : 0 < val v := by
      have := le_val_of_getLast v hv
      have h2 : 0 < 2 ^ (64 * (v.length - 1)) := by positivity
      omega
    obtain ⟨u', hu'⟩ := Nat.gcd_dvd_left (val u) (val v)
    obtain ⟨v', hv'⟩ := Nat.gcd_dvd_right (val u) (val v)
    have hbez := Nat.gcd_eq_gcd_ab (val u) (val v)
    set g := Nat.gcd (val u) (val v) with hg
    set s0 := Nat.gcdA (val u) (val v)
    set t0 := Nat.gcdB (val u) (val v)
    have hg0 : 0 < g := Nat.gcd_pos_of_pos_right _ hv0
    have hvg : val v / g = v' := by rw [hv', Nat.mul_div_cancel_left _ hg0]
    have hv'0 : 0 < v' := by
      rcases Nat.eq_zero_or_pos v' with h | h
      · rw [h] at hv'; omega
      · exact h
    set s := Int.bmod s0 v' with hs
    have hsmod : ∃ k : Int, s0 = s + v' * k := ⟨Int.bdiv s0 v', by
      rw [hs]; have := Int.bmod_add_bdiv s0 v'; omega⟩
    obtain ⟨k, hk⟩ := hsmod
    have hs1 : s < (v' + 1) / 2 := Int.bmod_lt hv'0
    have hs2 : -((v' : Int) / 2) ≤ s := Int.le_bmod hv'0
    have hbz : (g : Int) = val u * s + val v * (t0 + u' * k) := by
      have e1 : (val u : Int) = g * u' := by exact_mod_cast hu'
      have e2 : (val v : Int) = g * v' := by exact_mod_cast hv'
      rw [hbez, hk, e1, e2]; ring
    unfold refGcdext
    simp only [← hg, hvg]
    rw [← hs]
    by_cases hb : 2 * s.natAbs = v'
    · rw [if_pos hb]
      simp only
      refine ⟨trivial, Or.inr (by simp), Or.inl ⟨trivial, by simp⟩, ?_⟩
      -- s * u' ≡ 1 mod v' and 2|s| = v' force v' = 2, s = -1 or 1
      have e1 : (val u : Int) = g * u' := by exact_mod_cast hu'
      have e2 : (val v : Int) = g * v' := by exact_mod_cast hv'
      have h1 : (1 : Int) = u' * s + v' * (t0 + u' * k) := by
        have hgne : (g : Int) ≠ 0 := by omega
        apply mul_left_cancel₀ hgne
        rw [e1, e2] at hbz
        linear_combination hbz
      have hdvd : s ∣ 1 := by
        rw [h1]
        refine Int.dvd_add (Dvd.intro_left _ rfl) (Dvd.dvd.mul_right ?_ _)
        have : (v' : Int) = 2 * s ∨ (v' : Int) = 2 * (-s) := by omega
        rcases this with h | h
        · exact ⟨2, by rw [h]; ring⟩
        · exact ⟨-2, by rw [h]; ring⟩
      have hsu := Int.natAbs_dvd_natAbs.2 hdvd
      have hs1' : s.natAbs = 1 := by simpa using hsu
      have hv2 : v' = 2 := by omega
      rw [val_natLimbs]
      simp only [Bool.false_eq_true, if_false, val_cons, val_nil]
      have hs3 : s = 1 ∨ s = -1 := by omega
      rcases hs3 with h | h
      · refine ⟨t0 + u' * k, ?_⟩
        rw [h] at hbz
        simpa using hbz
      · refine ⟨t0 + u' * k - u', ?_⟩
        rw [h] at hbz
        rw [e1, e2, hv2] at hbz ⊢
        push_cast at hbz ⊢
        simp
        linear_combination hbz
    · rw [if_neg hb]
      simp only
      refine ⟨trivial, ?_, ?_, t0 + u' * k, ?_⟩
      · by_cases h : s.natAbs = 0
        · left; rw [h, natLimbs, dif_pos rfl]
        · right; exact natLimbs_getLast _ h
      · right
        rw [val_natLimbs, val_natLimbs, hv', Nat.mul_comm 2 g, Nat.mul_assoc]
        apply Nat.mul_lt_mul_of_pos_left _ hg0
        omega
      · rw [val_natLimbs, val_natLimbs]
        by_cases h : s < 0
        · have : (s.natAbs : Int) = -s := by omega
          simp only [h, decide_true, if_true, this]
          linear_combination hbz
        · have : (s.natAbs : Int) = s := by omega
          simp only [h, decide_false, Bool.false_eq_true, if_false, this]
          exact hbz
  constructor
  · intro u v _ hv hu
    rw [(key u v hv hu).1, val_natLimbs]
  · intro u v _ hv hu
    rw [(key u v hv hu).1]
    exact natLimbs_getLast _ (Nat.gcd_pos_of_pos_left _ (by omega)).ne'
  · intro u v _ hv hu; exact (key u v hv hu).2.2.2
  · intro u v _ hv hu; exact (key u v hv hu).2.2.1
  · intro u v _ hv hu; exact (key u v hv hu).2.1

end Libff
