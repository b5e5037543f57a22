import Verif.Lemmas.Cost
import Verif.Lemmas.BosCoster

/-!
# How long Bos-Coster runs

Every subtraction takes more than the `2 * bits`-th part off the largest scalar, because of the test that clears it otherwise.
-/
namespace Libff

/-- The number of times something greater than the `D`-th part can be taken off `v`. -/
def bosSteps (D : Nat) : Nat → Nat
  | 0 => 0
  | v + 1 => 1 + bosSteps D (v - (v + 1) / D)
termination_by v => v
decreasing_by exact Nat.lt_succ_of_le (Nat.sub_le _ _)

theorem div_add_le {D : Nat} (hD : 0 < D) (a k : Nat) : (a + k) / D ≤ a / D + k := by
  calc (a + k) / D ≤ (a + k * D) / D := Nat.div_le_div_right (Nat.add_le_add_left (Nat.le_mul_of_pos_right k hD) a)
    _ = a / D + k := Nat.add_mul_div_right a k hD

theorem bosSteps_mono {D : Nat} (hD : 0 < D) (y : Nat) : ∀ x, x ≤ y → bosSteps D x ≤ bosSteps D y := by
  induction y using Nat.strong_induction_on with
  | _ y ih =>
    intro x hx
    cases x with
    | zero => rw [bosSteps]; exact Nat.zero_le _
    | succ x =>
      obtain ⟨k, rfl⟩ := Nat.exists_eq_add_of_le hx
      rw [show x + 1 + k = (x + k) + 1 by omega]
      rw [bosSteps, bosSteps]
      refine Nat.add_le_add_left (ih _ (lt_of_le_of_lt (Nat.sub_le _ _) (by omega)) _ ?_) 1
      have h := div_add_le hD (x + 1) k
      rw [show x + k + 1 = x + 1 + k by omega]
      omega

theorem bosSteps_drop {D a b : Nat} (hD : 0 < D) (hba : b ≤ a) (h : a < D * b) : bosSteps D (a - b) + 1 ≤ bosSteps D a := by
  cases a with
  | zero =>
    obtain rfl : b = 0 := by omega
    simp at h
  | succ v =>
    rw [bosSteps.eq_2, Nat.add_comm]
    refine Nat.add_le_add_left (bosSteps_mono hD _ _ ?_) 1
    have : (v + 1) / D < b := Nat.div_lt_of_lt_mul h
    omega

theorem bosSteps_pos {D v : Nat} (h : v ≠ 0) : 1 ≤ bosSteps D v := by
  cases v with
  | zero => exact absurd rfl h
  | succ v => rw [bosSteps]; omega

theorem bosSteps_half {D : Nat} (hD : 0 < D) (h k : Nat) : ∀ x, x ≤ h + k * ((h + 1) / D + 1) → bosSteps D x ≤ k + bosSteps D h := by
  induction k with
  | zero => intro x hx; simpa using bosSteps_mono hD h x (by simpa using hx)
  | succ k ih =>
    intro x hx
    by_cases hxh : x ≤ h
    · exact le_trans (bosSteps_mono hD h x hxh) (by omega)
    · cases x with
      | zero => omega
      | succ x =>
        rw [bosSteps]
        have hd : (h + 1) / D ≤ (x + 1) / D := Nat.div_le_div_right (by omega)
        have := ih (x - (x + 1) / D) (by rw [Nat.succ_mul] at hx; omega)
        omega

theorem bosSteps_le {D : Nat} (hD : 0 < D) (s : Nat) : ∀ v, v < 2 ^ s → bosSteps D v ≤ D * s := by
  induction s with
  | zero =>
    intro v hv
    obtain rfl : v = 0 := by simpa using hv
    rw [bosSteps]; omega
  | succ s ih =>
    intro v hv
    have h1 := ih (v / 2) (by rw [pow_succ] at hv; omega)
    have h2 := bosSteps_half hD (v / 2) D v (by
      have h3 : v / 2 + 1 < D * ((v / 2 + 1) / D + 1) := Nat.lt_mul_div_succ _ hD
      omega)
    rw [Nat.mul_succ]; omega

/-- The number of bits of a `bigint` is the size of its value. -/
theorem bigintNumBits_size (l : List Limb) : bigintNumBits l = (val l).size := by
  obtain ⟨h1, h2⟩ := numBitsLoop_spec l
  apply Nat.le_antisymm
  · by_cases h : bigintNumBits l = 0
    · omega
    · have h3 : 2 ^ (bigintNumBits l - 1) ≤ val l := h2 h
      have := Nat.lt_size.2 h3
      omega
  · exact Nat.size_le.2 h1

theorem bosLimit_eq {a b : Nat} (hab : b ≤ a) (ha : a < 2 ^ 20) : bosLimit a b = if a - b ≥ 20 then 20 else a - b := by
  have e : (BitVec.ofNat 64 a - BitVec.ofNat 64 b).toNat = a - b := by
    rw [BitVec.toNat_sub, BitVec.toNat_ofNat, BitVec.toNat_ofNat, Nat.mod_eq_of_lt (show a < 2 ^ 64 by omega),
      Nat.mod_eq_of_lt (show b < 2 ^ 64 by omega)]
    omega
  unfold bosLimit
  simp only [e]

/-- If the largest scalar is not cleared, it is less than `2 * bits` times the second. -/
theorem bos_quotient {a b S : Nat} (hb : 0 < b) (hba : b ≤ a) (hS : a.size ≤ S) (hS' : S < 2 ^ 20)
    (h : ¬ b.size < 2 ^ bosLimit a.size b.size) : a < 2 * S * b := by
  have hs : b.size ≤ a.size := Nat.size_le_size hba
  rw [bosLimit_eq hs (by omega)] at h
  by_cases h20 : a.size - b.size ≥ 20
  · rw [if_pos h20] at h
    omega
  · rw [if_neg h20] at h
    have h1 : a < 2 ^ a.size := Nat.lt_size_self a
    have hb1 : 0 < b.size := Nat.size_pos.2 hb
    have h2 : 2 ^ (b.size - 1) ≤ b := Nat.lt_size.1 (by omega)
    have e : 2 ^ a.size = 2 ^ (a.size - b.size) * (2 * 2 ^ (b.size - 1)) := by
      rw [← pow_succ', ← pow_add]; congr 1; omega
    rw [e] at h1
    calc a < 2 ^ (a.size - b.size) * (2 * 2 ^ (b.size - 1)) := h1
      _ ≤ S * (2 * b) := Nat.mul_le_mul (by omega) (Nat.mul_le_mul_left 2 h2)
      _ = 2 * S * b := by ring

theorem sum_update {m : Nat} (q : Fin (m + 3) → OrderedExponent) (x : OrderedExponent) (F : OrderedExponent → Nat) :
    ∑ i, F (Function.update q 0 x i) + F (q 0) = ∑ i, F (q i) + F x := by
  rw [← Finset.add_sum_erase _ _ (Finset.mem_univ (0 : Fin (m + 3))),
    ← Finset.add_sum_erase (f := fun i => F (q i)) _ (Finset.mem_univ (0 : Fin (m + 3))), Function.update_self]
  have : ∑ i ∈ Finset.univ.erase (0 : Fin (m + 3)), F (Function.update q 0 x i) = ∑ i ∈ Finset.univ.erase (0 : Fin (m + 3)), F (q i) :=
    Finset.sum_congr rfl fun i hi => by rw [Function.update_of_ne (Finset.ne_of_mem_erase hi)]
  rw [this]; omega

section
variable {G S : Type} [GroupOps G]

/-- More fuel does not change a result. -/
theorem bosLoop_mono {m : Nat} (table : List Nat) (fuel k : Nat) (q : Fin (m + 3) → OrderedExponent) (g : Nat → G) (r t : G)
    (h : bosLoop table fuel q g r = .ok (some t)) : bosLoop table (fuel + k) q g r = .ok (some t) := by
  induction fuel generalizing q g r with
  | zero => unfold bosLoop at h; cases h
  | succ fuel ih =>
    rw [show fuel + 1 + k = (fuel + k) + 1 by omega]
    unfold bosLoop at h ⊢
    simp only at h ⊢
    generalize (if (q 1).lt (q 2) = true then (2 : Fin (m + 3)) else 1) = b at h ⊢
    split
    · rename_i hz
      rw [if_pos hz] at h
      exact h
    · rename_i hz
      rw [if_neg hz] at h
      split
      · rename_i hl
        rw [if_pos hl] at h
        generalize optWindowWnafExp table (g (q 0).idx) (q 0).r (bigintNumBits (q 0).r) = o at h
        cases o with
        | ok u => exact ih _ _ _ h
        | abort => cases h
        | ub => cases h
      · rename_i hl
        rw [if_neg hl] at h
        exact ih _ _ _ h

theorem multiExpBosCoster_mono (toB : S → List Limb) (table : List Nat) (n : Nat) (mk : List OrderedExponent → List OrderedExponent)
    (fuel k : Nat) (bases : List G) (scalars : List S) (t : G) (h : multiExpBosCoster toB table n mk fuel bases scalars = .ok (some t)) :
    multiExpBosCoster toB table n mk (fuel + k) bases scalars = .ok (some t) := by
  unfold multiExpBosCoster at h ⊢
  split
  · exact h
  · exact h
  · exact h
  · rename_i h1 h2 h3
    simp only at h ⊢
    split
    · rename_i hl
      rw [if_pos hl] at h
      exact h
    · rename_i hl
      rw [if_neg hl] at h
      split
      · rename_i heq
        rw [heq] at h
        exact bosLoop_mono _ _ _ _ _ _ _ h
      · rename_i hq
        split at h
        · rename_i heq
          exact absurd heq (hq _ _ _ _)
        · exact h
end

namespace Run
variable {G : Type} [GroupOps G]

theorem bosLoop_costs (table : List Nat) (n V W E S : Nat) (hS0 : 0 < S) (hS20 : S < 2 ^ 20)
    (hwn : ∀ (k : List Limb) (g : G), k.length = n → val k ≤ V →
      ∃ t, Libff.optWindowWnafExp table g k (bigintNumBits k) = .ok t ∧
        (optWindowWnafExp table g k (bigintNumBits k)).Costs (.ok t) (fun c => c.add ≤ W ∧ c.dbl ≤ E))
    {m : Nat} (hm : m % 2 = 0) (fuel : Nat) (q : Fin (m + 3) → OrderedExponent) (g : Nat → G) (r : G)
    (hl : LimbsF n q) (hh : HeapF q) (hV : ∀ i, (q i).v ≤ V) (hS : ∀ i, (q i).v.size ≤ S)
    (hfuel : ∑ i, bosSteps (2 * S) (q i).v < fuel) :
    ∃ t, Libff.bosLoop table fuel q g r = .ok (some t) ∧ (bosLoop table fuel q g r).Costs (.ok (some t))
      (fun c => c.add ≤ ∑ i, bosSteps (2 * S) (q i).v + ∑ i, (if (q i).v = 0 then 0 else W) + (W + 1) ∧
        c.dbl ≤ ∑ i, (if (q i).v = 0 then 0 else E) + E) := by
  induction fuel generalizing q g r with
  | zero => omega
  | succ fuel ih =>
    have v1 : ((1 : Fin (m + 3)) : ℕ) = 1 := rfl
    have v2 : ((2 : Fin (m + 3)) : ℕ) = 2 := rfl
    have hb : ∃ b : Fin (m + 3), (if (q 1).lt (q 2) then 2 else 1) = b ∧ (b = 1 ∨ b = 2) := by
      by_cases h : (q 1).lt (q 2) = true
      · exact ⟨2, if_pos h, Or.inr rfl⟩
      · exact ⟨1, if_neg h, Or.inl rfl⟩
    obtain ⟨b, e1, hb12⟩ := hb
    have hba : (q b).v ≤ (q 0).v := by
      apply hh b 0
      · rcases hb12 with rfl | rfl
        · rw [v1]; omega
        · rw [v2]; omega
      · rcases hb12 with rfl | rfl
        · rw [v1]; rfl
        · rw [v2]; rfl
    obtain ⟨t, ht1, ht2⟩ := hwn (q 0).r (g (q 0).idx) (hl 0) (hV 0)
    unfold bosLoop Libff.bosLoop
    simp only
    rw [e1, ht1]
    by_cases hz : limbsIsZero (q b).r = true
    · rw [if_pos hz, if_pos hz, Outcome.map_ok]
      refine ⟨_, rfl, ?_⟩
      refine Costs.step ht2 (Q := fun c => c = ⟨1, 0⟩) (Costs.step (add_costs _ _) (Costs.pure (P := (· = ⟨0, 0⟩)) _ rfl) (fun a b ha hb => ?_)) (fun a b ha hb => ?_)
      · rw [ha, hb]; rfl
      · rw [hb]
        simp only [Calls.add_add, Calls.add_dbl]
        omega
    · rw [if_neg hz, if_neg hz]
      have hbpos : 0 < (q b).v := Nat.pos_of_ne_zero (fun h => hz ((limbsIsZero_iff _).2 h))
      have ha0 : (q 0).v ≠ 0 := by omega
      have hstep : ∀ (x : OrderedExponent) (g' : Nat → G) (r' : G), x.r.length = n → x.v ≤ (q 0).v →
          bosSteps (2 * S) x.v + 1 ≤ bosSteps (2 * S) (q 0).v →
          ∃ t, Libff.bosLoop table fuel (siftUp (siftDown (Function.update q 0 x) 0).1 (siftDown (Function.update q 0 x) 0).2) g' r' =
              .ok (some t) ∧
            (bosLoop table fuel (siftUp (siftDown (Function.update q 0 x) 0).1 (siftDown (Function.update q 0 x) 0).2) g' r').Costs
              (.ok (some t)) (fun c =>
                c.add + (bosSteps (2 * S) (q 0).v + W) ≤ ∑ i, bosSteps (2 * S) (q i).v + ∑ i, (if (q i).v = 0 then 0 else W) + (W + 1) +
                  (bosSteps (2 * S) x.v + if x.v = 0 then 0 else W) ∧
                c.dbl + E ≤ ∑ i, (if (q i).v = 0 then 0 else E) + E + if x.v = 0 then 0 else E) := by
        intro x g' r' hxl hxv hxs
        obtain ⟨σ, s1, s2⟩ := sift_spec (m := m + 1) (by omega) q hl hh x hxl
        have hup : ∀ i, ((Function.update q 0 x) i).v ≤ (q i).v ∧ ((Function.update q 0 x) i).r.length = n := by
          intro i
          by_cases hi : i = 0
          · rw [hi, Function.update_self]; exact ⟨hxv, hxl⟩
          · rw [Function.update_of_ne hi]; exact ⟨le_rfl, hl i⟩
        have hsum : ∀ F : OrderedExponent → Nat, ∑ i, F ((Function.update q 0 x ∘ σ) i) + F (q 0) = ∑ i, F (q i) + F x := fun F => by
          rw [← sum_update q x F]
          congr 1
          exact Equiv.sum_comp σ (fun i => F ((Function.update q 0 x) i))
        have k1 : ∑ i, bosSteps (2 * S) ((Function.update q 0 x ∘ σ) i).v + bosSteps (2 * S) (q 0).v =
            ∑ i, bosSteps (2 * S) (q i).v + bosSteps (2 * S) x.v := hsum fun y => bosSteps (2 * S) y.v
        have k2 : ∑ i, (if ((Function.update q 0 x ∘ σ) i).v = 0 then 0 else W) + (if (q 0).v = 0 then 0 else W) =
            ∑ i, (if (q i).v = 0 then 0 else W) + (if x.v = 0 then 0 else W) := hsum fun y => if y.v = 0 then 0 else W
        have k3 : ∑ i, (if ((Function.update q 0 x ∘ σ) i).v = 0 then 0 else E) + (if (q 0).v = 0 then 0 else E) =
            ∑ i, (if (q i).v = 0 then 0 else E) + (if x.v = 0 then 0 else E) := hsum fun y => if y.v = 0 then 0 else E
        rw [if_neg ha0] at k2 k3
        obtain ⟨t, t1, t2⟩ := ih _ g' r' (by rw [s1]; exact fun i => (hup (σ i)).2) s2
          (by rw [s1]; exact fun i => le_trans (hup (σ i)).1 (hV _))
          (by rw [s1]; exact fun i => le_trans (Nat.size_le_size (hup (σ i)).1) (hS _))
          (by rw [s1]; generalize ∑ i, bosSteps (2 * S) ((Function.update q 0 x ∘ σ) i).v = A at *; omega)
        refine ⟨t, t1, t2.mono fun c hc => ?_⟩
        rw [s1] at hc
        generalize ∑ i, bosSteps (2 * S) ((Function.update q 0 x ∘ σ) i).v = A1 at *
        generalize ∑ i, (if ((Function.update q 0 x ∘ σ) i).v = 0 then 0 else W) = A2 at *
        generalize ∑ i, (if ((Function.update q 0 x ∘ σ) i).v = 0 then 0 else E) = A3 at *
        omega
      have hz0 : val (List.replicate (q 0).r.length (0 : Limb)) = 0 := by
        generalize (q 0).r.length = k
        induction k with
        | zero => rfl
        | succ k ih => rw [List.replicate_succ, val_cons, ih]; rfl
      by_cases hlim : bigintNumBits (q b).r < 2 ^ bosLimit (bigintNumBits (q 0).r) (bigintNumBits (q b).r)
      · rw [if_pos hlim, if_pos hlim, Outcome.bind_ok]
        have hp := bosSteps_pos (D := 2 * S) ha0
        have hs0 : bosSteps (2 * S) 0 = 0 := by rw [bosSteps]
        obtain ⟨u, u1, u2⟩ := hstep ⟨(q 0).idx, List.replicate (q 0).r.length 0⟩ g (GroupOps.add r t) (by simp [hl 0])
          (by simp only [OrderedExponent.v, hz0]; omega) (by simp only [OrderedExponent.v, hz0, hs0]; simp only [OrderedExponent.v] at hp; omega)
        refine ⟨u, u1, ?_⟩
        have u3 : (bosLoop table fuel (siftUp (siftDown (Function.update q 0 ⟨(q 0).idx, List.replicate (q 0).r.length 0⟩) 0).1
            (siftDown (Function.update q 0 ⟨(q 0).idx, List.replicate (q 0).r.length 0⟩) 0).2) g (GroupOps.add r t)).Costs (.ok (some u))
            (fun c => c.add + (1 + W) ≤ ∑ i, bosSteps (2 * S) (q i).v + ∑ i, (if (q i).v = 0 then 0 else W) + (W + 1) ∧
              c.dbl + E ≤ ∑ i, (if (q i).v = 0 then 0 else E) + E) := u2.mono fun c hc => by
          rw [show OrderedExponent.v ⟨(q 0).idx, List.replicate (q 0).r.length 0⟩ = 0 from hz0, hs0, if_pos rfl, if_pos rfl] at hc
          omega
        refine Costs.step ht2 (Costs.step (add_costs _ _) u3 (R := fun c => c.add + W ≤ ∑ i, bosSteps (2 * S) (q i).v +
          ∑ i, (if (q i).v = 0 then 0 else W) + (W + 1) ∧ c.dbl + E ≤ ∑ i, (if (q i).v = 0 then 0 else E) + E) (fun a d ha hd => ?_))
          (fun a c ha hc => ?_)
        · rw [ha]
          simp only [Calls.add_add, Calls.add_dbl]
          omega
        · simp only [Calls.add_add, Calls.add_dbl]
          omega
      · rw [if_neg hlim, if_neg hlim]
        have hlen : (q 0).r.length = (q b).r.length := by rw [hl, hl]
        have hsub := mpn_sub_n_spec (q 0).r (q b).r hlen
        have hslen := mpn_sub_n_length (q 0).r (q b).r hlen
        have hv' : val (mpn_sub_n (q 0).r (q b).r).1 = (q 0).v - (q b).v := by
          have hlt := val_lt (mpn_sub_n (q 0).r (q b).r).1
          rw [hslen] at hlt
          cases hc : (mpn_sub_n (q 0).r (q b).r).2 with
          | false => rw [hc] at hsub; simp at hsub; simp only [OrderedExponent.v]; omega
          | true =>
            exfalso
            rw [hc] at hsub
            simp at hsub
            simp only [OrderedExponent.v] at hba
            omega
        rw [bigintNumBits_size, bigintNumBits_size] at hlim
        have hdrop := bosSteps_drop (D := 2 * S) (by omega) hba (bos_quotient hbpos hba (hS 0) hS20 hlim)
        obtain ⟨u, u1, u2⟩ := hstep ⟨(q 0).idx, (mpn_sub_n (q 0).r (q b).r).1⟩
          (Function.update g (q b).idx (GroupOps.add (g (q b).idx) (g (q 0).idx))) r (by rw [hslen]; exact hl 0)
          (by show val _ ≤ _; rw [hv']; omega) (by show bosSteps _ (val _) + 1 ≤ _; rw [hv']; exact hdrop)
        refine ⟨u, u1, ?_⟩
        refine Costs.step (add_costs _ _) u2 (fun a c ha hc => ?_)
        have hw : (if OrderedExponent.v ⟨(q 0).idx, (mpn_sub_n (q 0).r (q b).r).1⟩ = 0 then 0 else W) ≤ W := by split <;> omega
        have he : (if OrderedExponent.v ⟨(q 0).idx, (mpn_sub_n (q 0).r (q b).r).1⟩ = 0 then 0 else E) ≤ E := by split <;> omega
        rw [show OrderedExponent.v ⟨(q 0).idx, (mpn_sub_n (q 0).r (q b).r).1⟩ = (q 0).v - (q b).v from hv'] at hc hw he
        rw [ha]
        simp only [Calls.add_add, Calls.add_dbl]
        omega

variable {S : Type} {toB : S → List Limb}

theorem naiveLoop_costs_le (debug : Bool) (expR : S → G → Run G) (exp : S → G → Outcome G) (A D : S → Nat) (bases : List G) (scalars : List S)
    (h : ∀ s ∈ scalars, ∀ g, (expR s g).Costs (exp s g) (fun c => c.add ≤ A s ∧ c.dbl ≤ D s)) (res : G) :
    (naiveLoop debug expR bases scalars res).Costs (Libff.naiveLoop debug exp bases scalars res)
      (fun c => c.add ≤ (scalars.map fun s => A s + 1).sum ∧ c.dbl ≤ (scalars.map D).sum) := by
  induction bases generalizing scalars res with
  | nil =>
    cases scalars with
    | nil => exact Costs.pure _ (by simp)
    | cons s ss =>
      unfold naiveLoop Libff.naiveLoop
      cases debug
      · exact Costs.pure _ (by simp)
      · exact Costs.lift_abort
  | cons g gs ih =>
    cases scalars with
    | nil => exact Costs.lift_ub
    | cons s ss =>
      unfold naiveLoop Libff.naiveLoop
      refine Costs.bind (h s List.mem_cons_self g) (fun v _ => Costs.step (add_costs res v)
        (ih ss (fun s' hs => h s' (List.mem_cons_of_mem _ hs)) _) (R := fun c => c.add ≤ (ss.map fun s => A s + 1).sum + 1 ∧ c.dbl ≤ (ss.map D).sum)
        (fun a b ha hb => ?_)) (fun v a b _ ha hb => ?_)
      · rw [ha]; simp only [Calls.add_add, Calls.add_dbl]; omega
      · simp only [Calls.add_add, Calls.add_dbl, List.map_cons, List.sum_cons]; omega

theorem multiExpBosCoster_costs (table : List Nat) (n V W E B : Nat) (hB0 : 0 < B) (hB20 : B < 2 ^ 20)
    (hwn : ∀ (k : List Limb) (g : G), k.length = n → val k ≤ V →
      ∃ t, Libff.optWindowWnafExp table g k (bigintNumBits k) = .ok t ∧
        (optWindowWnafExp table g k (bigintNumBits k)).Costs (.ok t) (fun c => c.add ≤ W ∧ c.dbl ≤ E))
    (hW : B ≤ W) (hE : B ≤ E)
    (mk : List OrderedExponent → List OrderedExponent) (hmk : IsMakeHeap mk)
    (bases : List G) (scalars : List S) (hlen : bases.length = scalars.length)
    (hn : ∀ s ∈ scalars, (toB s).length = n) (hV : ∀ s ∈ scalars, val (toB s) ≤ V) (hB : ∀ s ∈ scalars, (val (toB s)).size ≤ B) (fuel : Nat)
    (hfuel : 2 * B * (B * bases.length) < fuel) :
    ∃ t, Libff.multiExpBosCoster toB table n mk fuel bases scalars = .ok (some t) ∧
      (multiExpBosCoster toB table n mk fuel bases scalars).Costs (.ok (some t))
        (fun c => c.add ≤ 2 * B * (B * bases.length) + (bases.length + 1) * W + 1 ∧ c.dbl ≤ (bases.length + 1) * E) := by
  rcases bases with _ | ⟨g1, _ | ⟨g2, gs⟩⟩
  · exact ⟨_, rfl, Costs.pure _ (by simp)⟩
  · obtain ⟨s, rfl⟩ : ∃ s, scalars = [s] := List.length_eq_one_iff.1 hlen.symm
    refine ⟨_, rfl, Costs.step (scalarMul_costs g1 (toB s)) (Costs.pure (P := (· = ⟨0, 0⟩)) _ rfl) (fun a b ha hb => ?_)⟩
    have h1 : numOnes (val (toB s)) ≤ (val (toB s)).size := by
      rw [numOnes, onesBelow]
      exact le_trans List.countP_le_length (by simp)
    have h2 := hB s List.mem_cons_self
    rw [ha, hb]
    simp only [Calls.add_add, Calls.add_dbl, List.length_cons, List.length_nil]
    omega
  · obtain ⟨s1, s2, ss, rfl⟩ : ∃ s1 s2 ss, scalars = s1 :: s2 :: ss := by
      rcases scalars with _ | ⟨s1, _ | ⟨s2, ss⟩⟩
      · simp at hlen
      · simp at hlen
      · exact ⟨s1, s2, ss, rfl⟩
    unfold multiExpBosCoster Libff.multiExpBosCoster
    simp only
    have hge : 2 ≤ (g1 :: g2 :: gs).length := by simp
    generalize g1 :: g2 :: gs = bases at *
    generalize s1 :: s2 :: ss = scalars at *
    have hne : ¬ bases.length ≠ scalars.length := fun h => h hlen
    rw [if_neg hne, if_neg hne]
    generalize hq : (if bases.length % 2 = 1 then mk ((scalars.map toB).zipIdx.map fun (r, i) => ⟨i, r⟩)
      else mk ((scalars.map toB).zipIdx.map fun (r, i) => ⟨i, r⟩) ++
        [⟨bases.length, List.replicate n 0⟩]) = q
    have hst := bos_start mk hmk n (scalars.map toB) (by simpa using hn) bases.length
      (by simpa using hlen.symm) q hq
    clear hq
    obtain ⟨a1, a2, a3, a4, a5, a6, z, hz, a7⟩ := hst
    rw [List.length_map, ← hlen] at a5
    have hsz : ∀ x ∈ q, x.v.size ≤ B := fun x hx => by
      rcases a6 x hx with h | h
      · rw [h]; simp
      · obtain ⟨s, hs, hs'⟩ := List.mem_map.1 h
        simp only [OrderedExponent.v, ← hs']
        exact hB s hs
    have hsum : ∀ F : Nat → Nat, F 0 = 0 → ∀ M, (∀ x ∈ q, F x.v ≤ M) → (q.map fun x => F x.v).sum ≤ bases.length * M := by
      intro F hF M hM
      have hL : ((scalars.map toB).zipIdx.map fun x : List Limb × Nat => (⟨x.2, x.1⟩ : OrderedExponent)).length = bases.length := by
        simp [hlen]
      have key : ∀ L : List OrderedExponent, (∀ x ∈ L, F x.v ≤ M) → (L.map fun x => F x.v).sum ≤ L.length * M := by
        intro L
        induction L with
        | nil => simp
        | cons y L ih =>
          intro h
          have h1 := h y List.mem_cons_self
          have h2 := ih fun x hx => h x (List.mem_cons_of_mem _ hx)
          simp only [List.map_cons, List.sum_cons, List.length_cons]
          rw [Nat.succ_mul]; omega
      rcases a7 with h | h
      · rw [(h.map _).sum_eq, ← hL]
        exact key _ fun x hx => hM x (h.symm.subset hx)
      · rw [(h.map _).sum_eq, List.map_append, List.sum_append, ← hL]
        simp only [List.map_cons, List.map_nil, List.sum_cons, List.sum_nil, hz, hF, Nat.add_zero]
        exact key _ fun x hx => hM x (h.symm.subset (List.mem_append_left _ hx))
    match q, a1, a3, a4, a5, a6, hsz, hsum with
    | [], _, _, _, a5, _, _, _ => exact absurd (le_trans hge a5) (by simp)
    | [_], _, _, _, a5, _, _, _ => exact absurd (le_trans hge a5) (by simp)
    | [_, _], _, _, a4, _, _, _, _ => simp at a4
    | q0 :: q1 :: q2 :: rest, a1, a3, a4, a5, a6, hsz, hsum =>
      have hfin : ∀ F : Nat → Nat, ∑ i : Fin (rest.length + 3), F ((q0 :: q1 :: q2 :: rest).get i).v =
          ((q0 :: q1 :: q2 :: rest).map fun x => F x.v).sum := fun F => by
        rw [← List.sum_ofFn]
        congr 1
        conv_rhs => rw [← List.ofFn_get (q0 :: q1 :: q2 :: rest), List.map_ofFn]
        rfl
      have f1 := hsum (bosSteps (2 * B)) (by rw [bosSteps]) (2 * B * B) fun x hx =>
        bosSteps_le (by omega) B _ (Nat.size_le.1 (hsz x hx))
      have f2 := hsum (fun v => if v = 0 then 0 else W) rfl W fun x _ => by split <;> omega
      have f3 := hsum (fun v => if v = 0 then 0 else E) rfl E fun x _ => by split <;> omega
      rw [← hfin] at f1
      rw [← hfin fun v => if v = 0 then 0 else W] at f2
      rw [← hfin fun v => if v = 0 then 0 else E] at f3
      have e : bases.length * (2 * B * B) = 2 * B * (B * bases.length) := by ring
      rw [e] at f1
      obtain ⟨t, t1, t2⟩ := bosLoop_costs table n V W E B hB0 hB20 hwn (m := rest.length) (by simp at a4; omega) fuel
        (fun i : Fin (rest.length + 3) => (q0 :: q1 :: q2 :: rest).get i)
        (fun i => bases.getD i GroupOps.zero) GroupOps.zero
        (fun i => a1 _ (List.get_mem _ _))
        (fun i j hi hj => a3 i j hi hj)
        (by
          intro i
          rcases a6 _ (List.get_mem (q0 :: q1 :: q2 :: rest) i) with h | h
          · rw [h]; exact Nat.zero_le _
          · obtain ⟨s, hs, hs'⟩ := List.mem_map.1 h
            simp only [OrderedExponent.v, ← hs']
            exact hV s hs)
        (fun i => hsz _ (List.get_mem (q0 :: q1 :: q2 :: rest) i))
        (lt_of_le_of_lt f1 hfuel)
      refine ⟨t, t1, t2.mono fun c hc => ?_⟩
      have h1 := hc.1
      have h2 := hc.2
      refine ⟨le_trans h1 ?_, le_trans h2 ?_⟩
      · have := Nat.succ_mul bases.length W
        rw [Nat.succ_eq_add_one] at this
        rw [this]
        generalize 2 * B * (B * bases.length) = Z at *
        omega
      · have := Nat.succ_mul bases.length E
        rw [Nat.succ_eq_add_one] at this
        rw [this]
        omega

end Run
end Libff
