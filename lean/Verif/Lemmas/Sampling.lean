import Verif.Model.Sampling
import Verif.Spec.Sampling
import Mathlib.Algebra.BigOperators.Fin
import Mathlib.Algebra.BigOperators.Field
import Mathlib.Algebra.Order.BigOperators.Group.Finset
import Mathlib.Data.Fin.Tuple.Basic
import Mathlib.Algebra.Order.Archimedean.Basic
import Mathlib.Data.Rat.Floor
import Mathlib.Tactic.FieldSimp
import Mathlib.Tactic.Linarith
import Mathlib.Tactic.Positivity

/-! # Uniform sampling: calculus of averages over tapes -/
set_option linter.unusedSectionVars false
namespace Libff
open Sampler Finset

section avg
variable {W : Type} [Fintype W]

/-- The average of `g` over the tapes of `k` words. -/
noncomputable def avg (k : Nat) (g : List W → ℚ) : ℚ := (∑ v : Fin k → W, g (List.ofFn v)) / (Fintype.card W : ℚ) ^ k

theorem prob_eq_avg (k : Nat) (φ : List W → Prop) [DecidablePred φ] : prob k φ = avg k fun t => if φ t then 1 else 0 := by
  unfold prob avg
  rw [Finset.sum_boole]
  congr!

theorem avg_zero (g : List W → ℚ) : avg 0 g = g [] := by simp [avg]

theorem avg_succ (k : Nat) (g : List W → ℚ) : avg (k + 1) g = (∑ w : W, avg k fun t => g (w :: t)) / Fintype.card W := by
  unfold avg
  rw [← Finset.sum_div, div_div, ← pow_succ]
  congr 1
  rw [← (Fin.consEquiv fun _ => W).sum_comp, Fintype.sum_prod_type]
  simp [Fin.consEquiv, List.ofFn_succ]

theorem avg_congr {k : Nat} {g h : List W → ℚ} (H : ∀ t, t.length = k → g t = h t) : avg k g = avg k h := by
  unfold avg
  congr 1
  exact Finset.sum_congr rfl fun v _ => H _ (by simp)

theorem avg_mono {k : Nat} {g h : List W → ℚ} (H : ∀ t, t.length = k → g t ≤ h t) : avg k g ≤ avg k h := by
  unfold avg
  gcongr with v
  exact H _ (by simp)

theorem avg_add' (k : Nat) (g h : List W → ℚ) : avg k (fun t => g t + h t) = avg k g + avg k h := by
  unfold avg; rw [Finset.sum_add_distrib, add_div]

theorem avg_sum {ι : Type} (s : Finset ι) (k : Nat) (g : ι → List W → ℚ) : avg k (fun t => ∑ i ∈ s, g i t) = ∑ i ∈ s, avg k (g i) := by
  unfold avg; rw [Finset.sum_comm, Finset.sum_div]

theorem avg_mul (k : Nat) (c : ℚ) (g : List W → ℚ) : avg k (fun t => g t * c) = avg k g * c := by
  unfold avg; rw [← Finset.sum_mul, div_mul_eq_mul_div]

theorem avg_const [Nonempty W] (k : Nat) (c : ℚ) : avg k (fun _ : List W => c) = c := by
  unfold avg
  have : (Fintype.card W : ℚ) ≠ 0 := by exact_mod_cast Fintype.card_ne_zero
  simp [Finset.card_univ, this]

theorem avg_nonneg {k : Nat} {g : List W → ℚ} (H : ∀ t, 0 ≤ g t) : 0 ≤ avg k g := by
  unfold avg
  exact div_nonneg (Finset.sum_nonneg fun _ _ => H _) (by positivity)

theorem avg_append (j k : Nat) (g : List W → ℚ) : avg (j + k) g = avg j fun s => avg k fun t => g (s ++ t) := by
  induction j generalizing g with
  | zero => simp [avg_zero]
  | succ j ih =>
    rw [show j + 1 + k = (j + k) + 1 by omega, avg_succ, avg_succ]
    congr 1
    exact Finset.sum_congr rfl fun w _ => by rw [ih]; rfl

theorem prob_congr {k : Nat} {φ ψ : List W → Prop} (H : ∀ t, t.length = k → (φ t ↔ ψ t)) : prob k φ = prob k ψ := by
  classical
  rw [prob_eq_avg, prob_eq_avg]
  exact avg_congr fun t ht => by simp [H t ht]

theorem prob_mono {k : Nat} {φ ψ : List W → Prop} (H : ∀ t, t.length = k → φ t → ψ t) : prob k φ ≤ prob k ψ := by
  classical
  rw [prob_eq_avg, prob_eq_avg]
  refine avg_mono fun t ht => ?_
  by_cases h : φ t
  · simp [h, H t ht h]
  · simp only [h, if_false]; split <;> norm_num

theorem prob_nonneg (k : Nat) (φ : List W → Prop) : 0 ≤ prob k φ := by unfold prob; positivity

theorem prob_le_one [Nonempty W] (k : Nat) (φ : List W → Prop) : prob k φ ≤ 1 := by
  classical
  rw [prob_eq_avg]
  exact (avg_mono (h := fun _ => 1) fun t _ => by split <;> norm_num).trans_eq (avg_const k 1)

end avg

section sampler
variable {W α β : Type} [Fintype W]

/-- The value of `h` at the result of `S`, 0 if there is none. -/
def at' (S : Sampler W α) (h : α → List W → ℚ) (t : List W) : ℚ :=
  match S t with
  | .ok (some (x, rest)) => h x rest
  | _ => 0

theorem at'_some {S : Sampler W α} {h : α → List W → ℚ} {t x rest} (e : S t = .ok (some (x, rest))) : at' S h t = h x rest := by
  simp [at', e]

/-- Results depend on the words consumed only. -/
def OnlineIn (A : Finset α) (S : Sampler W α) : Prop :=
  ∀ t, S t = .ok none ∨ ∃ pre rest x, t = pre ++ rest ∧ x ∈ A ∧ ∀ rest', S (pre ++ rest') = .ok (some (x, rest'))

theorem OnlineIn.exact {A : Finset α} {S : Sampler W α} (hS : OnlineIn A S) {s : List W} {x : α} {r : List W}
    (h : S s = .ok (some (x, r))) : x ∈ A ∧ ∃ pre, s = pre ++ r ∧ ∀ rest', S (pre ++ rest') = .ok (some (x, rest')) := by
  obtain h0 | ⟨pre, rest, y, rfl, hy, H⟩ := hS s
  · rw [h0] at h; simp at h
  · have := (H rest).symm.trans h
    simp only [Outcome.ok.injEq, Option.some.injEq, Prod.mk.injEq] at this
    obtain ⟨rfl, rfl⟩ := this
    exact ⟨hy, pre, rfl, H⟩

theorem OnlineIn.extend {A : Finset α} {S : Sampler W α} (hS : OnlineIn A S) {s : List W} {x : α}
    (h : S s = .ok (some (x, []))) (r : List W) : S (s ++ r) = .ok (some (x, r)) := by
  obtain ⟨-, pre, he, H⟩ := hS.exact h
  rw [List.append_nil] at he
  subst he
  exact H r

theorem OnlineIn.at_split {A : Finset α} {S : Sampler W α} (hS : OnlineIn A S) (h : α → List W → ℚ) (t : List W) :
    at' S h t = ∑ j ∈ range (t.length + 1), at' S (fun x rest => if rest = [] then h x (t.drop j) else 0) (t.take j) := by
  have key : ∀ j, at' S (fun x rest => if rest = [] then h x (t.drop j) else 0) (t.take j) ≠ 0 →
      ∃ x, S t = .ok (some (x, t.drop j)) ∧ S (t.take j) = .ok (some (x, [])) := by
    intro j hj
    unfold at' at hj
    split at hj
    · rename_i x rest e
      by_cases hr : rest = []
      · subst hr
        refine ⟨x, ?_, e⟩
        have := hS.extend e (t.drop j)
        rwa [List.take_append_drop] at this
      · simp [hr] at hj
    · exact absurd rfl hj
  obtain h0 | ⟨pre, rest, x, rfl, hx, H⟩ := hS t
  · rw [Finset.sum_eq_zero]
    · simp [at', h0]
    · intro j _
      by_contra hj
      obtain ⟨x, hx, -⟩ := key j hj
      rw [h0] at hx; simp at hx
  · rw [Finset.sum_eq_single pre.length]
    · rw [at'_some (H rest), List.take_left, List.drop_left, at'_some (by simpa using H [])]
      simp
    · intro j hj hne
      by_contra hjj
      obtain ⟨y, hy, -⟩ := key j hjj
      rw [H rest] at hy
      simp only [Outcome.ok.injEq, Option.some.injEq, Prod.mk.injEq] at hy
      have := congrArg List.length hy.2
      simp only [List.length_drop, List.length_append, mem_range] at this hj
      omega
    · intro hj; simp at hj

theorem OnlineIn.avg_split {A : Finset α} {S : Sampler W α} (hS : OnlineIn A S) (h : α → List W → ℚ) (k : Nat) :
    avg k (at' S h) = ∑ j ∈ range (k + 1), avg j (at' S fun x rest => if rest = [] then avg (k - j) (h x) else 0) := by
  rw [avg_congr (h := fun t => ∑ j ∈ range (k + 1), at' S (fun x rest => if rest = [] then h x (t.drop j) else 0) (t.take j))
    (fun t ht => by rw [hS.at_split, ht]), avg_sum]
  refine Finset.sum_congr rfl fun j hj => ?_
  obtain ⟨i, rfl⟩ : ∃ i, k = j + i := ⟨k - j, by simp at hj; omega⟩
  rw [avg_append]
  refine avg_congr fun s hs => ?_
  rw [show j + i - j = i by omega]
  cases e : S s with
  | ok o =>
    cases o with
    | none =>
      rw [avg_congr (h := fun _ => 0) (fun t ht => by simp [← hs, at', e])]
      simp [at', e, avg]
    | some xr =>
      obtain ⟨x, rest⟩ := xr
      rw [at'_some e]
      rw [avg_congr (h := fun t => if rest = [] then h x t else 0) (fun t ht => by
        simp only [← hs, List.take_left, List.drop_left]; rw [at'_some e])]
      split
      · rfl
      · simp [avg]
  | abort =>
    rw [avg_congr (h := fun _ => 0) (fun t ht => by simp [← hs, at', e])]
    simp [at', e, avg]
  | ub =>
    rw [avg_congr (h := fun _ => 0) (fun t ht => by simp [← hs, at', e])]
    simp [at', e, avg]

/-- Uniform on the finite set `A`; `e k` is the probability of returning a given element after exactly `k` words. -/
structure Unif (A : Finset α) (S : Sampler W α) (e : Nat → ℚ) : Prop where
  result : OnlineIn A S
  fair : ∀ k, ∀ x ∈ A, prob k (fun t => S t = .ok (some (x, []))) = e k
  ends : ∀ ε : ℚ, 0 < ε → ∃ k, prob k (fun t => S t = .ok none) < ε

theorem Unif.avg {A : Finset α} {S : Sampler W α} {e : Nat → ℚ} (hS : Unif A S e) (h : α → List W → ℚ) (k : Nat) :
    avg k (at' S h) = ∑ j ∈ range (k + 1), e j * ∑ x ∈ A, Libff.avg (k - j) (h x) := by
  classical
  rw [hS.result.avg_split]
  refine Finset.sum_congr rfl fun j _ => ?_
  rw [avg_congr (h := fun t => ∑ x ∈ A, (if S t = .ok (some (x, [])) then 1 else 0) * Libff.avg (k - j) (h x)), avg_sum, Finset.mul_sum]
  · refine Finset.sum_congr rfl fun x hx => ?_
    rw [avg_mul, ← hS.fair j x hx, prob_eq_avg]
  · intro t ht
    obtain h0 | ⟨pre, rest, x, rfl, hx, H⟩ := hS.result t
    · simp [at', h0]
    · rw [at'_some (H rest), H rest]
      by_cases hr : rest = []
      · subst hr
        rw [Finset.sum_eq_single x]
        · simp
        · intro y _ hy; simp [Ne.symm hy]
        · intro h; exact absurd hx h
      · simp [hr]

theorem Unif.total [Nonempty W] {A : Finset α} {S : Sampler W α} {e : Nat → ℚ} (hS : Unif A S e) (k : Nat) :
    prob k (fun t => S t = .ok none) = 1 - (∑ j ∈ range (k + 1), e j) * A.card := by
  classical
  have h := hS.avg (fun _ _ => 1) k
  simp only [avg_const, Finset.sum_const, nsmul_eq_mul, mul_one, ← Finset.sum_mul] at h
  rw [← h, prob_eq_avg, eq_sub_iff_add_eq, ← avg_add']
  refine (avg_congr (h := fun _ => 1) fun t _ => ?_).trans (avg_const k 1)
  obtain h0 | ⟨pre, rest, x, rfl, hx, H⟩ := hS.result t
  · simp [at', h0]
  · simp [at', H rest]

theorem Unif.e_nonneg {A : Finset α} {S : Sampler W α} {e : Nat → ℚ} (hS : Unif A S e) (hA : A.Nonempty) (k : Nat) : 0 ≤ e k := by
  obtain ⟨x, hx⟩ := hA
  rw [← hS.fair k x hx]; exact prob_nonneg _ _

theorem Unif.nonempty [Nonempty W] {A : Finset α} {S : Sampler W α} {e : Nat → ℚ} (hS : Unif A S e) : A.Nonempty := by
  by_contra h
  rw [Finset.not_nonempty_iff_eq_empty] at h
  obtain ⟨k, hk⟩ := hS.ends 1 one_pos
  rw [hS.total, h] at hk
  simp at hk

theorem Unif.sum_le [Nonempty W] {A : Finset α} {S : Sampler W α} {e : Nat → ℚ} (hS : Unif A S e) (k : Nat) :
    (∑ j ∈ range (k + 1), e j) * A.card ≤ 1 := by
  have := prob_nonneg (W := W) k (fun t => S t = .ok none)
  rw [hS.total] at this
  linarith

theorem Unif.none_antitone [Nonempty W] {A : Finset α} {S : Sampler W α} {e : Nat → ℚ} (hS : Unif A S e) {k l : Nat} (h : k ≤ l) :
    prob l (fun t => S t = .ok none) ≤ prob k (fun t => S t = .ok none) := by
  rw [hS.total, hS.total]
  have : ∑ j ∈ range (k + 1), e j ≤ ∑ j ∈ range (l + 1), e j :=
    Finset.sum_le_sum_of_subset_of_nonneg (by simpa using h) fun j _ _ => hS.e_nonneg hS.nonempty j
  have h2 := mul_le_mul_of_nonneg_right this (Nat.cast_nonneg (α := ℚ) A.card)
  linarith

end sampler

section ops
variable {W α β : Type} [Fintype W]

theorem Unif.none_bound [Nonempty W] {A : Finset α} {S : Sampler W α} {e : Nat → ℚ} (hS : Unif A S e) {h : α → List W → ℚ}
    (h1 : ∀ x t, h x t ≤ 1) {δ : ℚ} (hδ : 0 ≤ δ) (k1 k2 : Nat) (H : ∀ i, k2 ≤ i → ∑ x ∈ A, Libff.avg i (h x) ≤ A.card * δ) :
    prob (k1 + k2) (fun t => S t = .ok none) + Libff.avg (k1 + k2) (at' S h) ≤ prob k1 (fun t => S t = .ok none) + δ := by
  have hA : (0 : ℚ) ≤ A.card := Nat.cast_nonneg _
  have he := hS.e_nonneg hS.nonempty
  rw [hS.total, hS.total, hS.avg, show k1 + k2 + 1 = (k1 + 1) + k2 by omega, Finset.sum_range_add _ (k1 + 1) k2, Finset.sum_range_add _ (k1 + 1) k2]
  have a1 : ∑ j ∈ range (k1 + 1), e j * ∑ x ∈ A, Libff.avg (k1 + k2 - j) (h x) ≤ ∑ j ∈ range (k1 + 1), e j * (A.card * δ) :=
    Finset.sum_le_sum fun j hj => mul_le_mul_of_nonneg_left (H _ (by simp at hj; omega)) (he j)
  have a2 : ∑ j ∈ range k2, e (k1 + 1 + j) * ∑ x ∈ A, Libff.avg (k1 + k2 - (k1 + 1 + j)) (h x) ≤ ∑ j ∈ range k2, e (k1 + 1 + j) * A.card := by
    refine Finset.sum_le_sum fun j _ => mul_le_mul_of_nonneg_left ?_ (he _)
    have : ∑ x ∈ A, Libff.avg (k1 + k2 - (k1 + 1 + j)) (h x) ≤ ∑ x ∈ A, (1 : ℚ) :=
      Finset.sum_le_sum fun x _ => (avg_mono fun t _ => h1 x t).trans_eq (avg_const _ 1)
    simpa using this
  rw [← Finset.sum_mul] at a1 a2
  have a3 := mul_le_mul_of_nonneg_right (hS.sum_le k1) hδ
  nlinarith [a1, a2, a3]

theorem bind_none {S : Sampler W α} {T : α → Sampler W β} {t} (h : S t = .ok none) : Sampler.bind S T t = .ok none := by
  simp [Sampler.bind, h]

theorem bind_some {S : Sampler W α} {T : α → Sampler W β} {t x rest} (h : S t = .ok (some (x, rest))) :
    Sampler.bind S T t = T x rest := by
  simp [Sampler.bind, h]

theorem Unif.not_mem {A : Finset α} {S : Sampler W α} {e : Nat → ℚ} (hS : Unif A S e) {x : α} (hx : x ∉ A) (k : Nat) :
    prob k (fun t => S t = .ok (some (x, []))) = 0 := by
  classical
  rw [prob_congr (ψ := fun _ => False) (fun t _ => ⟨fun h => hx (hS.result.exact h).1, False.elim⟩), prob]
  simp

theorem Unif.bind [Nonempty W] [DecidableEq β] {A : Finset α} {S : Sampler W α} {e : Nat → ℚ} (hS : Unif A S e) {T : α → Sampler W β}
    {B : α → Finset β} {e' : Nat → ℚ} (hT : ∀ x ∈ A, Unif (B x) (T x) e') (hd : ∀ x ∈ A, ∀ x' ∈ A, ∀ z ∈ B x, z ∈ B x' → x = x') :
    Unif (A.biUnion B) (Sampler.bind S T) (fun k => ∑ j ∈ range (k + 1), e j * e' (k - j)) := by
  classical
  refine ⟨fun t => ?_, fun k z hz => ?_, fun ε hε => ?_⟩
  · obtain h0 | ⟨pre, rest, x, rfl, hx, H⟩ := hS.result t
    · exact Or.inl (bind_none h0)
    rw [bind_some (H rest)]
    obtain h0 | ⟨pre2, rest2, z, rfl, hz, H2⟩ := (hT x hx).result rest
    · exact Or.inl h0
    refine Or.inr ⟨pre ++ pre2, rest2, z, by simp, mem_biUnion.2 ⟨x, hx, hz⟩, fun r => ?_⟩
    rw [List.append_assoc, bind_some (H _), H2]
  · obtain ⟨x0, hx0, hz0⟩ := mem_biUnion.1 hz
    rw [prob_eq_avg, avg_congr (h := at' S fun x rest => if T x rest = .ok (some (z, [])) then 1 else 0), hS.avg]
    · refine Finset.sum_congr rfl fun j _ => ?_
      congr 1
      rw [Finset.sum_eq_single x0, ← prob_eq_avg, (hT x0 hx0).fair _ _ hz0]
      · intro x hx hne
        rw [← prob_eq_avg]
        exact (hT x hx).not_mem (fun h => hne (hd x hx x0 hx0 z h hz0)) _
      · intro h; exact absurd hx0 h
    · intro t _
      obtain h0 | ⟨pre, rest, x, rfl, hx, H⟩ := hS.result t
      · simp [bind_none h0, at', h0]
      · rw [bind_some (H rest), at'_some (H rest)]
  · obtain ⟨k1, hk1⟩ := hS.ends (ε / 2) (by positivity)
    obtain ⟨k2, hk2⟩ : ∃ k2, ∀ x ∈ A, prob k2 (fun t => T x t = .ok none) ≤ ε / 2 := by
      have : ∀ C : Finset α, C ⊆ A → ∃ k2, ∀ x ∈ C, prob k2 (fun t => T x t = .ok none) ≤ ε / 2 := by
        intro C
        induction C using Finset.induction_on with
        | empty => intro _; exact ⟨0, by simp⟩
        | insert a C ha ih =>
          intro hC
          obtain ⟨k, hk⟩ := ih fun x hx => hC (mem_insert_of_mem hx)
          obtain ⟨l, hl⟩ := (hT a (hC (mem_insert_self a C))).ends (ε / 2) (by positivity)
          refine ⟨max k l, fun x hx => ?_⟩
          have hxA := hC hx
          rcases mem_insert.1 hx with rfl | hx
          · exact ((hT x hxA).none_antitone (le_max_right k l)).trans hl.le
          · exact ((hT x hxA).none_antitone (le_max_left k l)).trans (hk x hx)
      exact this A (Finset.Subset.refl _)
    refine ⟨k1 + k2, lt_of_le_of_lt ?_ (show prob k1 (fun t => S t = .ok none) + ε / 2 < ε by linarith)⟩
    refine le_trans (le_of_eq ?_) (hS.none_bound (h := fun x rest => if T x rest = .ok none then 1 else 0)
      (fun x t => by split <;> norm_num) (by positivity) k1 k2 fun i hi => ?_)
    · rw [prob_eq_avg, prob_eq_avg, ← avg_add']
      refine avg_congr fun t _ => ?_
      obtain h0 | ⟨pre, rest, x, rfl, hx, H⟩ := hS.result t
      · simp [bind_none h0, at', h0]
      · rw [bind_some (H rest), at'_some (H rest), H rest]; simp
    · rw [← nsmul_eq_mul, ← Finset.sum_const]
      refine Finset.sum_le_sum fun x hx => ?_
      rw [← prob_eq_avg]
      exact ((hT x hx).none_antitone hi).trans (hk2 x hx)

theorem Unif.ret [Nonempty W] (x : α) : Unif {x} (Sampler.ret (W := W) x) (fun k => if k = 0 then 1 else 0) := by
  classical
  refine ⟨fun t => Or.inr ⟨[], t, x, rfl, by simp, fun r => rfl⟩, fun k y hy => ?_, fun ε hε => ⟨0, ?_⟩⟩
  · obtain rfl := mem_singleton.1 hy
    rw [prob_eq_avg]
    cases k with
    | zero => simp [avg_zero, Sampler.ret]
    | succ k =>
      rw [avg_congr (h := fun _ => 0) (fun t ht => by
        have : t ≠ [] := by rintro rfl; simp at ht
        simp [Sampler.ret, this]), avg_const]
      simp
  · rw [prob_eq_avg, avg_zero]; simpa [Sampler.ret] using hε

/-- Applying an injective function to the result. -/
theorem Unif.map [Nonempty W] [DecidableEq β] {A : Finset α} {S : Sampler W α} {e : Nat → ℚ} (hS : Unif A S e) {T : α → Sampler W β}
    {g : α → β} (hg : ∀ x ∈ A, T x = Sampler.ret (g x)) (hi : ∀ x ∈ A, ∀ y ∈ A, g x = g y → x = y) :
    Unif (A.image g) (Sampler.bind S T) e := by
  have := hS.bind (T := T) (B := fun x => {g x}) (e' := fun k => if k = 0 then 1 else 0) (fun x hx => by rw [hg x hx]; exact Unif.ret (g x))
    (fun x hx y hy z hz hz' => hi x hx y hy ((mem_singleton.1 hz).symm.trans (mem_singleton.1 hz')))
  rw [← Finset.biUnion_singleton]
  convert this using 2 with k
  rw [Finset.sum_eq_single k]
  · simp
  · intro j hj hne
    simp only [mem_range] at hj
    rw [if_neg (by omega), mul_zero]
  · intro h; simp at h

theorem Unif.draw [Nonempty W] [DecidableEq W] : Unif (W := W) Finset.univ Sampler.draw
    (fun k => if k = 1 then (Fintype.card W : ℚ)⁻¹ else 0) := by
  classical
  refine ⟨fun t => ?_, fun k y hy => ?_, fun ε hε => ⟨1, ?_⟩⟩
  · cases t with
    | nil => exact Or.inl rfl
    | cons w t => exact Or.inr ⟨[w], t, w, rfl, by simp, fun r => rfl⟩
  · rw [prob_eq_avg]
    cases k with
    | zero => simp [avg_zero, Sampler.draw]
    | succ k =>
      rw [avg_succ]
      cases k with
      | zero =>
        simp [avg_zero, Sampler.draw]
      | succ k =>
        rw [Finset.sum_eq_zero fun w _ => (avg_congr (h := fun _ => 0) fun t ht => by
          have : t ≠ [] := by rintro rfl; simp at ht
          simp [Sampler.draw, this]).trans (avg_const _ 0)]
        simp
  · rw [prob_eq_avg, avg_succ, Finset.sum_eq_zero fun w _ => by simp [avg_zero, Sampler.draw]]
    simpa using hε

theorem Unif.congr {A B : Finset α} {S : Sampler W α} {e : Nat → ℚ} (hS : Unif A S e) (h : ∀ x, x ∈ A ↔ x ∈ B) : Unif B S e :=
  Finset.ext h ▸ hS

theorem Unif.drawN [Nonempty W] [DecidableEq W] (n : Nat) : ∃ (A : Finset (List W)) (e : Nat → ℚ), Unif A (Sampler.drawN (W := W) n) e ∧
    ∀ l, l ∈ A ↔ l.length = n := by
  induction n with
  | zero => exact ⟨{[]}, _, Unif.ret [], by simp⟩
  | succ n ih =>
    obtain ⟨A, e, hA, hm⟩ := ih
    refine ⟨_, _, Unif.draw.bind (B := fun w => A.image (w :: ·)) (fun w _ => hA.map (g := (w :: ·)) (fun _ _ => rfl) (by simp)) ?_, ?_⟩
    · intro x _ y _ z hz hz'
      obtain ⟨a, -, rfl⟩ := mem_image.1 hz
      obtain ⟨b, -, h⟩ := mem_image.1 hz'
      exact (List.cons.inj h).1.symm
    · intro l
      cases l with
      | nil => simp
      | cons w l => simp [hm]

end ops

section retry
variable {W α β : Type} [Fintype W]

/-- What follows a draw in a round of the loop. -/
def nextRound (R : Sampler W β) (f : α → Outcome (Option β)) (x : α) : Sampler W β := fun rest =>
  (f x).bind fun o => match o with
    | none => R rest
    | some y => .ok (some (y, rest))

theorem nextRound_none {R : Sampler W β} {f : α → Outcome (Option β)} {x : α} (h : f x = .ok none) (rest) :
    nextRound R f x rest = R rest := by simp [nextRound, h]

theorem nextRound_some {R : Sampler W β} {f : α → Outcome (Option β)} {x : α} {y} (h : f x = .ok (some y)) (rest) :
    nextRound R f x rest = .ok (some (y, rest)) := by simp [nextRound, h]

theorem OnlineIn.shorter {A : Finset α} {S : Sampler W α} (hS : OnlineIn A S) (h0 : S [] = .ok none) {t x rest}
    (h : S t = .ok (some (x, rest))) : rest.length < t.length := by
  obtain ⟨-, pre, rfl, H⟩ := hS.exact h
  cases pre with
  | nil => have := H []; rw [List.append_nil, h0] at this; simp at this
  | cons w pre => simp

theorem retryFor_stable {A : Finset α} {S : Sampler W α} (hS : OnlineIn A S) (h0 : S [] = .ok none) (f : α → Outcome (Option β)) :
    ∀ (m n : Nat) (t : List W), t.length < m → t.length < n → retryFor S f m t = retryFor S f n t := by
  intro m
  induction m with
  | zero => intro n t h; omega
  | succ m ih =>
    intro n t hm hn
    obtain ⟨n, rfl⟩ : ∃ n', n = n' + 1 := ⟨n - 1, by omega⟩
    simp only [retryFor]
    obtain e | ⟨pre, rest, x, rfl, hx, H⟩ := hS t
    · rw [bind_none e, bind_none e]
    · rw [bind_some (H rest), bind_some (H rest)]
      have := hS.shorter h0 (H rest)
      congr 1
      funext o
      cases o with
      | none => exact ih n rest (by omega) (by omega)
      | some y => rfl

theorem retry_eq {A : Finset α} {S : Sampler W α} (hS : OnlineIn A S) (h0 : S [] = .ok none) (f : α → Outcome (Option β)) (t : List W) :
    retry S f t = Sampler.bind S (nextRound (retry S f) f) t := by
  unfold retry
  rw [retryFor]
  obtain e | ⟨pre, rest, x, rfl, hx, H⟩ := hS t
  · rw [bind_none e, bind_none e]
  · rw [bind_some (H rest), bind_some (H rest)]
    have := hS.shorter h0 (H rest)
    unfold nextRound
    congr 1
    funext o
    cases o with
    | none => exact retryFor_stable hS h0 f _ _ rest (by omega) (by omega)
    | some y => rfl

theorem Unif.retry [Nonempty W] [DecidableEq β] {A : Finset α} {S : Sampler W α} {e : Nat → ℚ} (hS : Unif A S e) (h0 : S [] = .ok none)
    {f : α → Outcome (Option β)} {B : Finset β} (hB : B.Nonempty) {c : Nat} (hc : 0 < c)
    (hf : ∀ x ∈ A, f x = .ok none ∨ ∃ y ∈ B, f x = .ok (some y))
    (hcard : ∀ y ∈ B, (A.filter fun x => f x = .ok (some y)).card = c) :
    ∃ e', Unif B (Sampler.retry S f) e' := by
  classical
  have hon : OnlineIn B (Sampler.retry S f) := by
    intro t
    induction hn : t.length using Nat.strong_induction_on generalizing t with
    | _ n ih =>
    subst hn
    obtain e0 | ⟨pre, rest, x, rfl, hx, H⟩ := hS.result t
    · exact Or.inl ((retry_eq hS.result h0 f t).trans (bind_none e0))
    have hlt := hS.result.shorter h0 (H rest)
    have hr : ∀ r, Sampler.retry S f (pre ++ r) = nextRound (Sampler.retry S f) f x r := fun r =>
      (retry_eq hS.result h0 f _).trans (bind_some (H r))
    obtain hx0 | ⟨y, hy, hxy⟩ := hf x hx
    · obtain e1 | ⟨pre2, rest2, y, rfl, hy, H2⟩ := ih _ hlt rest rfl
      · exact Or.inl (by rw [hr, nextRound_none hx0, e1])
      · exact Or.inr ⟨pre ++ pre2, rest2, y, by simp, hy, fun r => by rw [List.append_assoc, hr, nextRound_none hx0, H2]⟩
    · exact Or.inr ⟨pre, rest, y, rfl, hy, fun r => by rw [hr, nextRound_some hxy]⟩
  have e0 : e 0 = 0 := by
    obtain ⟨x, hx⟩ := hS.nonempty
    rw [← hS.fair 0 x hx, prob_eq_avg, avg_zero, h0]; simp
  obtain ⟨y0, hy0⟩ := hB
  have split : ∀ (k : Nat) (y : β), y ∈ B → prob k (fun t => Sampler.retry S f t = .ok (some (y, []))) =
      ∑ j ∈ range (k + 1), e j * ((A.filter fun x => f x = .ok none).card *
        prob (k - j) (fun t => Sampler.retry S f t = .ok (some (y, []))) + if k - j = 0 then (c : ℚ) else 0) := by
    intro k y hy
    rw [prob_eq_avg, avg_congr (h := at' S fun x rest => if nextRound (Sampler.retry S f) f x rest = .ok (some (y, [])) then 1 else 0),
      hS.avg]
    · refine Finset.sum_congr rfl fun j _ => ?_
      congr 1
      have : ∀ x ∈ A, Libff.avg (k - j) (fun rest => if nextRound (Sampler.retry S f) f x rest = .ok (some (y, [])) then (1 : ℚ) else 0) =
          (if f x = .ok none then prob (k - j) (fun t => Sampler.retry S f t = .ok (some (y, []))) else 0) +
          (if f x = .ok (some y) then (if k - j = 0 then 1 else 0) else 0) := by
        intro x hx
        obtain hx0 | ⟨y', hy', hxy⟩ := hf x hx
        · simp only [nextRound_none hx0, hx0]
          rw [prob_eq_avg]; simp
        · simp only [nextRound_some hxy, hxy]
          rw [avg_congr (h := fun _ => if y' = y ∧ k - j = 0 then 1 else 0) (fun t ht => by
            simp only [Outcome.ok.injEq, Option.some.injEq, Prod.mk.injEq, ← List.length_eq_zero_iff, ht]), avg_const]
          simp [ite_and]
      rw [Finset.sum_congr rfl this, Finset.sum_add_distrib, ← Finset.sum_filter, ← Finset.sum_filter, Finset.sum_const, Finset.sum_const,
        hcard y hy]
      simp
    · intro t _
      rw [retry_eq hS.result h0]
      obtain e1 | ⟨pre, rest, x, rfl, hx, H⟩ := hS.result t
      · simp [bind_none e1, at', e1]
      · rw [bind_some (H rest), at'_some (H rest)]
  refine ⟨fun k => prob k (fun t => Sampler.retry S f t = .ok (some (y0, []))), hon, fun k y hy => ?_, fun ε hε => ?_⟩
  · induction k using Nat.strong_induction_on with
    | _ k ih =>
    rw [split k y hy, split k y0 hy0]
    refine Finset.sum_congr rfl fun j hj => ?_
    rcases Nat.eq_zero_or_pos j with rfl | hj0
    · rw [e0]; simp
    · rw [ih (k - j) (by simp at hj; omega)]
  · -- u k = probability that the loop has not ended
    have hApos : (0 : ℚ) < A.card := by exact_mod_cast hS.nonempty.card_pos
    have hrej : (A.filter fun x => f x = .ok none).card < A.card := by
      refine Finset.card_lt_card ((Finset.filter_ssubset).2 ?_)
      have : (A.filter fun x => f x = .ok (some y0)).Nonempty := Finset.card_pos.1 (by rw [hcard y0 hy0]; exact hc)
      obtain ⟨x, hx⟩ := this
      rw [mem_filter] at hx
      exact ⟨x, hx.1, by rw [hx.2]; simp⟩
    obtain ⟨ρ, hρ⟩ : ∃ ρ : ℚ, ρ = (A.filter fun x => f x = .ok none).card / A.card := ⟨_, rfl⟩
    have hρ0 : 0 ≤ ρ := by rw [hρ]; positivity
    have hρ1 : ρ < 1 := by rw [hρ, div_lt_one hApos]; exact_mod_cast hrej
    have anti : ∀ k l, k ≤ l → prob l (fun t => Sampler.retry S f t = .ok none) ≤ prob k (fun t => Sampler.retry S f t = .ok none) := by
      intro k l hkl
      obtain ⟨d, rfl⟩ := Nat.exists_eq_add_of_le hkl
      rw [prob_eq_avg, prob_eq_avg, avg_append]
      refine avg_mono fun s _ => ?_
      refine (avg_mono (h := fun _ => if Sampler.retry S f s = .ok none then 1 else 0) fun t _ => ?_).trans_eq (avg_const _ _)
      obtain e1 | ⟨pre, rest, x, rfl, hx, H⟩ := hon s
      · simp only [e1]; split <;> simp
      · rw [List.append_assoc, H, H]; simp
    have step : ∀ k1 k2, prob (k1 + k2) (fun t => Sampler.retry S f t = .ok none) ≤
        prob k1 (fun t => S t = .ok none) + ρ * prob k2 (fun t => Sampler.retry S f t = .ok none) := by
      intro k1 k2
      refine le_trans (le_of_eq ?_) (hS.none_bound (h := fun x rest => if nextRound (Sampler.retry S f) f x rest = .ok none then 1 else 0)
        (fun x t => by split <;> norm_num) (mul_nonneg hρ0 (prob_nonneg _ _)) k1 k2 fun i hi => ?_)
      · rw [prob_eq_avg, prob_eq_avg, ← avg_add']
        refine avg_congr fun t _ => ?_
        rw [retry_eq hS.result h0]
        obtain e1 | ⟨pre, rest, x, rfl, hx, H⟩ := hS.result t
        · simp [bind_none e1, at', e1]
        · rw [bind_some (H rest), at'_some (H rest), H rest]; simp
      · have : ∀ x ∈ A, Libff.avg i (fun rest => if nextRound (Sampler.retry S f) f x rest = .ok none then (1 : ℚ) else 0) =
            if f x = .ok none then prob i (fun t => Sampler.retry S f t = .ok none) else 0 := by
          intro x hx
          obtain hx0 | ⟨y', hy', hxy⟩ := hf x hx
          · simp only [nextRound_none hx0, hx0]
            rw [prob_eq_avg]; simp
          · simp only [nextRound_some hxy, hxy]
            simp [avg_const]
        rw [Finset.sum_congr rfl this, ← Finset.sum_filter, Finset.sum_const, nsmul_eq_mul, hρ, ← mul_assoc, mul_div_cancel₀ _ hApos.ne']
        exact mul_le_mul_of_nonneg_left (anti _ _ hi) (Nat.cast_nonneg _)
    obtain ⟨k1, hk1⟩ := hS.ends (ε / 2 * (1 - ρ)) (mul_pos (by positivity) (by linarith))
    have iter : ∀ i, prob (i * k1) (fun t => Sampler.retry S f t = .ok none) ≤ ε / 2 + ρ ^ i := by
      intro i
      induction i with
      | zero => have := prob_le_one (W := W) (0 * k1) (fun t => Sampler.retry S f t = .ok none); simp only [pow_zero]; linarith
      | succ i ih =>
        rw [show (i + 1) * k1 = k1 + i * k1 by ring]
        have h1 := step k1 (i * k1)
        have h2 := mul_le_mul_of_nonneg_left ih hρ0
        rw [pow_succ]
        nlinarith
    obtain ⟨i, hi⟩ := exists_pow_lt_of_lt_one (show (0 : ℚ) < ε / 2 by positivity) hρ1
    exact ⟨i * k1, by linarith [iter i]⟩

end retry

end Libff
