import Verif.Lemmas.Multiexp
import Mathlib.Algebra.BigOperators.Fin
import Mathlib.Algebra.BigOperators.Group.Finset.Piecewise
import Mathlib.Algebra.Order.BigOperators.Group.Finset
import Mathlib.Logic.Equiv.Basic

namespace Libff
open GroupOps

section Heap
variable {m : Nat}

/-- Value of an entry. -/
abbrev OrderedExponent.v (x : OrderedExponent) : Nat := val x.r

/-- Every entry is at most its parent. -/
def HeapF (q : Fin m → OrderedExponent) : Prop :=
  ∀ i j : Fin m, 0 < i.val → j.val = (i.val - 1) / 2 → (q i).v ≤ (q j).v

/-- All entries have `n` limbs. -/
def LimbsF (n : Nat) (q : Fin m → OrderedExponent) : Prop := ∀ i, (q i).r.length = n

/-- Heap with a hole at `a`. -/
def HoleF (q : Fin m → OrderedExponent) (a : Fin m) : Prop :=
  (∀ i j : Fin m, 0 < i.val → j.val = (i.val - 1) / 2 → i ≠ a → j ≠ a → (q i).v ≤ (q j).v) ∧
  (∀ i j : Fin m, 0 < i.val → a.val = (i.val - 1) / 2 → 0 < a.val → j.val = (a.val - 1) / 2 →
    (q i).v ≤ (q j).v)

/-- Heap except that `a` may be larger than its parent. -/
def UpF (q : Fin m → OrderedExponent) (a : Fin m) : Prop :=
  (∀ i j : Fin m, 0 < i.val → j.val = (i.val - 1) / 2 → i ≠ a → (q i).v ≤ (q j).v) ∧
  (∀ i j : Fin m, 0 < i.val → a.val = (i.val - 1) / 2 → 0 < a.val → j.val = (a.val - 1) / 2 →
    (q i).v ≤ (q j).v)

theorem lt_iff {n : Nat} (a b : OrderedExponent) (ha : a.r.length = n) (hb : b.r.length = n) :
    a.lt b = true ↔ a.v < b.v := by
  rw [OrderedExponent.lt, mpn_cmp_spec _ _ (by omega), isEq_compare]
  simp

theorem swapF_eq (q : Fin m → OrderedExponent) (i j : Fin m) : swapF q i j = q ∘ Equiv.swap i j := by
  funext k
  simp only [swapF, Function.comp_apply]
  rw [Equiv.swap_apply_def]
  split
  · rfl
  · split <;> rfl

theorem swapF_left {α : Type*} (q : Fin m → α) (i j : Fin m) : swapF q i j i = q j := by simp [swapF]

theorem swapF_right {α : Type*} (q : Fin m → α) (i j : Fin m) (h : j ≠ i) : swapF q i j j = q i := by
  simp [swapF, h]

theorem swapF_other {α : Type*} (q : Fin m → α) (i j k : Fin m) (h : k ≠ i) (h' : k ≠ j) :
    swapF q i j k = q k := by simp [swapF, h, h']

theorem LimbsF.comp {n : Nat} {q : Fin m → OrderedExponent} (h : LimbsF n q) (σ : Equiv.Perm (Fin m)) :
    LimbsF n (q ∘ σ) := fun i => h (σ i)

theorem hole_swap (q : Fin m → OrderedExponent) (a c o : Fin m) (hac : a.val = (c.val - 1) / 2)
    (hc0 : 0 < c.val) (hco : ∀ i : Fin m, 0 < i.val → a.val = (i.val - 1) / 2 → i = c ∨ i = o)
    (hle : (q o).v ≤ (q c).v) (h : HoleF q a) : HoleF (swapF q a c) c := by
  have hne : c ≠ a := by intro h; rw [h] at hac hc0; omega
  refine ⟨?_, ?_⟩
  · intro i j hi hj hic hjc
    by_cases hia : i = a
    · subst hia
      rw [swapF_left]
      by_cases hji : j = i
      · exfalso; rw [hji] at hj; omega
      rw [swapF_other _ _ _ _ hji hjc]
      exact h.2 c j hc0 hac hi hj
    · rw [swapF_other _ _ _ _ hia hic]
      by_cases hja : j = a
      · subst hja
        rw [swapF_left]
        rcases hco i hi hj with rfl | rfl
        · exact absurd rfl hic
        · exact hle
      · rw [swapF_other _ _ _ _ hja hjc]
        exact h.1 i j hi hj hia hja
  · intro i j hi hci hc hj
    have hja : j = a := Fin.ext (by omega)
    subst hja
    rw [swapF_left]
    have hij : i ≠ j := by intro h; rw [h] at hci; omega
    have hic : i ≠ c := by intro h; rw [h] at hci; omega
    rw [swapF_other _ _ _ _ hij hic]
    exact h.1 i c hi hci hij hne

theorem siftDown_spec {n : Nat} (q : Fin m → OrderedExponent) (a : Fin m) (hl : LimbsF n q) (h : HoleF q a) :
    ∃ σ : Equiv.Perm (Fin m), (siftDown q a).1 = q ∘ σ ∧ HoleF (siftDown q a).1 (siftDown q a).2 ∧
      m ≤ 2 * (siftDown q a).2.val + 2 := by
  unfold siftDown
  split
  · rename_i hlt
    simp only
    have hch : ∀ i : Fin m, 0 < i.val → a.val = (i.val - 1) / 2 →
        i = ⟨2 * a.val + 1, by omega⟩ ∨ i = ⟨2 * a.val + 2, hlt⟩ := by
      intro i hi hai
      have : i.val = 2 * a.val + 1 ∨ i.val = 2 * a.val + 2 := by omega
      rcases this with h | h
      · exact Or.inl (Fin.ext h)
      · exact Or.inr (Fin.ext h)
    have hcmp := lt_iff (n := n) (q ⟨2 * a.val + 1, by omega⟩) (q ⟨2 * a.val + 2, hlt⟩) (hl _) (hl _)
    split
    · rename_i hc
      obtain ⟨σ, h1, h2, h3⟩ := siftDown_spec (swapF q a ⟨2 * a.val + 2, hlt⟩) ⟨2 * a.val + 2, hlt⟩
        (by rw [swapF_eq]; exact hl.comp _)
        (hole_swap q a _ ⟨2 * a.val + 1, by omega⟩ (by simp only; omega) (by simp only; omega)
          (fun i hi hai => (hch i hi hai).symm) (le_of_lt (hcmp.1 hc)) h)
      refine ⟨σ.trans (Equiv.swap a ⟨2 * a.val + 2, hlt⟩), ?_, h2, h3⟩
      rw [h1, swapF_eq]; rfl
    · rename_i hc
      obtain ⟨σ, h1, h2, h3⟩ := siftDown_spec (swapF q a ⟨2 * a.val + 1, by omega⟩) ⟨2 * a.val + 1, by omega⟩
        (by rw [swapF_eq]; exact hl.comp _)
        (hole_swap q a _ ⟨2 * a.val + 2, hlt⟩ (by simp only; omega) (by simp only; omega)
          hch (not_lt.1 (fun hh => hc (hcmp.2 hh))) h)
      refine ⟨σ.trans (Equiv.swap a ⟨2 * a.val + 1, by omega⟩), ?_, h2, h3⟩
      rw [h1, swapF_eq]; rfl
  · rename_i hge
    exact ⟨Equiv.refl _, rfl, h, by simp only; omega⟩
termination_by m - a.val
decreasing_by all_goals (have := a.isLt; omega)

theorem siftUp_spec {n : Nat} (q : Fin m → OrderedExponent) (a : Fin m) (hl : LimbsF n q) (h : UpF q a) :
    ∃ σ : Equiv.Perm (Fin m), siftUp q a = q ∘ σ ∧ HeapF (siftUp q a) := by
  unfold siftUp
  split
  · rename_i ha
    simp only
    have hpv : ((⟨(a.val - 1) / 2, by have := a.isLt; omega⟩ : Fin m)).val = (a.val - 1) / 2 := rfl
    generalize (⟨(a.val - 1) / 2, by have := a.isLt; omega⟩ : Fin m) = p at *
    have hcmp := lt_iff (n := n) (q p) (q a) (hl _) (hl _)
    have hpa : p ≠ a := by intro hh; rw [hh] at hpv; omega
    split
    · rename_i hc
      have hlt := hcmp.1 hc
      have hU : UpF (swapF q a p) p := by
        refine ⟨?_, ?_⟩
        · intro i j hi hj hip
          by_cases hia : i = a
          · subst hia
            have : j = p := Fin.ext (by omega)
            subst this
            rw [swapF_left, swapF_right _ _ _ hpa]
            exact hlt.le
          · rw [swapF_other _ _ _ _ hia hip]
            by_cases hja : j = a
            · subst hja
              rw [swapF_left]
              exact h.2 i p hi hj ha hpv
            · by_cases hjp : j = p
              · subst hjp
                rw [swapF_right _ _ _ hpa]
                exact le_trans (h.1 i j hi hj hia) hlt.le
              · rw [swapF_other _ _ _ _ hja hjp]
                exact h.1 i j hi hj hia
        · intro i j hi hpi hp0 hj
          have hjp : j ≠ p := by intro hh; rw [hh] at hj; omega
          have hja : j ≠ a := by intro hh; rw [hh] at hj; omega
          rw [swapF_other _ _ _ _ hja hjp]
          have hpj : (q p).v ≤ (q j).v := h.1 p j hp0 hj hpa
          by_cases hia : i = a
          · subst hia; rw [swapF_left]; exact hpj
          · have hip : i ≠ p := by intro hh; rw [hh] at hpi; omega
            rw [swapF_other _ _ _ _ hia hip]
            exact le_trans (h.1 i p hi hpi hia) hpj
      obtain ⟨σ, h1, h2⟩ := siftUp_spec (swapF q a p) p (by rw [swapF_eq]; exact hl.comp _) hU
      exact ⟨σ.trans (Equiv.swap a p), by rw [h1, swapF_eq]; rfl, h2⟩
    · rename_i hc
      refine ⟨Equiv.refl _, rfl, ?_⟩
      intro i j hi hj
      by_cases hia : i = a
      · subst hia
        have : j = p := Fin.ext (by omega)
        subst this
        exact not_lt.1 (fun hh => hc (hcmp.2 hh))
      · exact h.1 i j hi hj hia
  · rename_i ha
    refine ⟨Equiv.refl _, rfl, ?_⟩
    intro i j hi hj
    exact h.1 i j hi hj (by intro hh; rw [hh] at hi; omega)
termination_by a.val
decreasing_by omega

/-- Both phases together: replacing the root by anything and sifting gives a heap on the same entries. -/
theorem sift_spec {n : Nat} (hm : m % 2 = 1) (q : Fin (m + 2) → OrderedExponent) (hl : LimbsF n q) (hh : HeapF q)
    (x : OrderedExponent) (hx : x.r.length = n) :
    ∃ σ : Equiv.Perm (Fin (m + 2)),
      siftUp (siftDown (Function.update q 0 x) 0).1 (siftDown (Function.update q 0 x) 0).2 =
        Function.update q 0 x ∘ σ ∧
      HeapF (siftUp (siftDown (Function.update q 0 x) 0).1 (siftDown (Function.update q 0 x) 0).2) := by
  have hl' : LimbsF n (Function.update q 0 x) := by
    intro i
    by_cases hi : i = 0
    · rw [hi, Function.update_self]; exact hx
    · rw [Function.update_of_ne hi]; exact hl i
  have hole : HoleF (Function.update q 0 x) 0 := by
    refine ⟨?_, ?_⟩
    · intro i j hi hj hi0 hj0
      rw [Function.update_of_ne hi0, Function.update_of_ne hj0]
      exact hh i j hi hj
    · intro i j _ _ h0; simp at h0
  obtain ⟨σ, h1, h2, h3⟩ := siftDown_spec _ _ hl' hole
  have hU : UpF (siftDown (Function.update q 0 x) 0).1 (siftDown (Function.update q 0 x) 0).2 := by
    refine ⟨?_, h2.2⟩
    intro i j hi hj hia
    apply h2.1 i j hi hj hia
    intro hja
    rw [hja] at hj
    have := i.isLt
    omega
  obtain ⟨τ, h4, h5⟩ := siftUp_spec (n := n) _ _ (by rw [h1]; exact hl'.comp σ) hU
  exact ⟨τ.trans σ, by rw [h4, h1]; rfl, h5⟩

end Heap

section Loop
variable {G A : Type*} [GroupOps G] [AddCommGroup A] {ψ : G → A}

/-- `∑ rᵢ · g[idxᵢ]`. -/
def entrySum {m : Nat} (ψ : G → A) (q : Fin m → OrderedExponent) (g : Nat → G) : A :=
  ∑ i, (q i).v • ψ (g (q i).idx)

omit [GroupOps G] in
theorem entrySum_comp {m : Nat} (q : Fin m → OrderedExponent) (g : Nat → G) (σ : Equiv.Perm (Fin m)) :
    entrySum ψ (q ∘ σ) g = entrySum ψ q g :=
  Equiv.sum_comp σ (fun i => (q i).v • ψ (g (q i).idx))

theorem bosLoop_spec (hG : ImplementsGroup ψ) (table : List Nat) (n V : Nat)
    (hwn : ∀ (k : List Limb) (g : G), k.length = n → val k ≤ V →
      ∃ t, optWindowWnafExp table g k (bigintNumBits k) = .ok t ∧ ψ t = val k • ψ g)
    {m : Nat} (hm : m % 2 = 0) (fuel : Nat) (q : Fin (m + 3) → OrderedExponent) (g : Nat → G) (r : G)
    (hl : LimbsF n q) (hh : HeapF q) (hinj : ∀ i j, (q i).idx = (q j).idx → i = j) (hV : ∀ i, (q i).v ≤ V)
    (hfuel : ∑ i, (q i).v < fuel) :
    ∃ t, bosLoop table fuel q g r = .ok (some t) ∧ ψ t = ψ r + entrySum ψ q g := by
  induction fuel generalizing q g r with
  | zero => omega
  | succ fuel ih =>
    have v1 : ((1 : Fin (m + 3)) : ℕ) = 1 := rfl
    have v2 : ((2 : Fin (m + 3)) : ℕ) = 2 := rfl
    have hcmp := lt_iff (n := n) (q 1) (q 2) (hl _) (hl _)
    have hb : ∃ b : Fin (m + 3), (if (q 1).lt (q 2) then 2 else 1) = b ∧ (b = 1 ∨ b = 2) ∧
        (q 1).v ≤ (q b).v ∧ (q 2).v ≤ (q b).v := by
      by_cases h : (q 1).lt (q 2) = true
      · exact ⟨2, if_pos h, Or.inr rfl, (hcmp.1 h).le, le_rfl⟩
      · exact ⟨1, if_neg h, Or.inl rfl, le_rfl, not_lt.1 (fun hh => h (hcmp.2 hh))⟩
    obtain ⟨b, e1, hb12, hb1, hb2⟩ := hb
    have hb0 : b ≠ 0 := by
      rcases hb12 with rfl | rfl
      · intro h; have := congrArg Fin.val h; rw [v1] at this; simp at this
      · intro h; have := congrArg Fin.val h; rw [v2] at this; simp at this
    have hba : (q b).v ≤ (q 0).v := by
      apply hh b 0
      · rcases hb12 with rfl | rfl
        · rw [v1]; omega
        · rw [v2]; omega
      · rcases hb12 with rfl | rfl
        · rw [v1]; rfl
        · rw [v2]; rfl
    obtain ⟨t, ht1, ht2⟩ := hwn (q 0).r (g (q 0).idx) (hl 0) (hV 0)
    unfold bosLoop
    simp only
    rw [e1, ht1]
    by_cases hz : limbsIsZero (q b).r = true
    · rw [if_pos hz, Outcome.map_ok]
      refine ⟨add r t, rfl, ?_⟩
      have hbz : (q b).v = 0 := (limbsIsZero_iff _).1 hz
      have hall : ∀ k : Nat, ∀ i : Fin (m + 3), i.val = k → 0 < k → (q i).v = 0 := by
        intro k
        induction k using Nat.strong_induction_on with
        | _ k ihk =>
          intro i hi hk
          by_cases h1 : k = 1
          · have : i = 1 := Fin.ext (by rw [v1]; omega)
            subst this; omega
          · by_cases h2 : k = 2
            · have : i = 2 := Fin.ext (by rw [v2]; omega)
              subst this; omega
            · have := ihk ((k - 1) / 2) (by omega) ⟨(k - 1) / 2, by have := i.isLt; omega⟩ rfl (by omega)
              have h' := hh i ⟨(k - 1) / 2, by have := i.isLt; omega⟩ (by omega) (by simp only; omega)
              omega
      rw [hG.add, ht2]
      congr 1
      unfold entrySum
      rw [Finset.sum_eq_single (0 : Fin (m + 3))]
      · intro i _ hi
        rw [hall i.val i rfl (Nat.pos_of_ne_zero (fun h => hi (Fin.ext h))), zero_nsmul]
      · simp
    · rw [if_neg hz]
      have hbpos : 0 < (q b).v := Nat.pos_of_ne_zero (fun h => hz ((limbsIsZero_iff _).2 h))
      have hstep : ∀ (x : OrderedExponent) (g' : Nat → G) (r' : G), x.idx = (q 0).idx → x.r.length = n →
          x.v < (q 0).v →
          ψ r' + entrySum ψ (Function.update q 0 x) g' = ψ r + entrySum ψ q g →
          ∃ t, bosLoop table fuel (siftUp (siftDown (Function.update q 0 x) 0).1
            (siftDown (Function.update q 0 x) 0).2) g' r' = .ok (some t) ∧
            ψ t = ψ r + entrySum ψ q g := by
        intro x g' r' hxi hxl hxv hsum
        obtain ⟨σ, s1, s2⟩ := sift_spec (m := m + 1) (by omega) q hl hh x hxl
        have hup : ∀ i, ((Function.update q 0 x) i).v ≤ (q i).v ∧ ((Function.update q 0 x) i).idx = (q i).idx ∧
            ((Function.update q 0 x) i).r.length = n := by
          intro i
          by_cases hi : i = 0
          · rw [hi, Function.update_self]; exact ⟨hxv.le, hxi, hxl⟩
          · rw [Function.update_of_ne hi]; exact ⟨le_rfl, rfl, hl i⟩
        obtain ⟨t, t1, t2⟩ := ih _ g' r' (by rw [s1]; exact fun i => (hup (σ i)).2.2) s2
          (by
            rw [s1]
            intro i j hij
            simp only [Function.comp_apply] at hij
            rw [(hup _).2.1, (hup _).2.1] at hij
            exact σ.injective (hinj _ _ hij))
          (by rw [s1]; exact fun i => le_trans (hup (σ i)).1 (hV _))
          (by
            rw [s1]
            have e : ∑ i, ((Function.update q 0 x ∘ σ) i).v = ∑ i, ((Function.update q 0 x) i).v :=
              Equiv.sum_comp σ (fun i => ((Function.update q 0 x) i).v)
            rw [e]
            have : ∑ i, ((Function.update q 0 x) i).v < ∑ i, (q i).v := by
              apply Finset.sum_lt_sum (fun i _ => (hup i).1)
              exact ⟨0, Finset.mem_univ _, by rw [Function.update_self]; exact hxv⟩
            omega)
        refine ⟨t, t1, ?_⟩
        rw [t2, s1, entrySum_comp, hsum]
      split
      · rw [Outcome.bind_ok]
        apply hstep
        · rfl
        · simp [hl 0]
        · have : val (List.replicate (q 0).r.length (0 : Limb)) = 0 := by
            generalize (q 0).r.length = k
            induction k with
            | zero => rfl
            | succ k ih => rw [List.replicate_succ, val_cons, ih]; rfl
          simp only [OrderedExponent.v, this]
          exact lt_of_lt_of_le hbpos hba
        · have hz0 : val (List.replicate (q 0).r.length (0 : Limb)) = 0 := by
            generalize (q 0).r.length = k
            induction k with
            | zero => rfl
            | succ k ih => rw [List.replicate_succ, val_cons, ih]; rfl
          rw [hG.add, ht2, add_assoc]
          congr 1
          unfold entrySum
          rw [← Finset.add_sum_erase _ _ (Finset.mem_univ (0 : Fin (m + 3))),
            ← Finset.add_sum_erase (f := fun i => (q i).v • ψ (g (q i).idx)) _ (Finset.mem_univ (0 : Fin (m + 3)))]
          rw [Function.update_self]
          simp only [OrderedExponent.v, hz0, zero_nsmul, zero_add]
          congr 1
          apply Finset.sum_congr rfl
          intro i hi
          rw [Function.update_of_ne (Finset.ne_of_mem_erase hi)]
      · have hlen : (q 0).r.length = (q b).r.length := by rw [hl, hl]
        have hsub := mpn_sub_n_spec (q 0).r (q b).r hlen
        have hslen := mpn_sub_n_length (q 0).r (q b).r hlen
        have hv' : val (mpn_sub_n (q 0).r (q b).r).1 = (q 0).v - (q b).v := by
          have hlt := val_lt (mpn_sub_n (q 0).r (q b).r).1
          rw [hslen] at hlt
          cases hc : (mpn_sub_n (q 0).r (q b).r).2 with
          | false => rw [hc] at hsub; simp at hsub; simp only [OrderedExponent.v]; omega
          | true =>
            exfalso
            rw [hc] at hsub
            simp at hsub
            simp only [OrderedExponent.v] at hba
            omega
        apply hstep
        · rfl
        · rw [hslen]; exact hl 0
        · simp only [OrderedExponent.v] at hv' hbpos hba ⊢; omega
        · congr 1
          unfold entrySum
          have hterm : ∀ i, ((Function.update q 0 ⟨(q 0).idx, (mpn_sub_n (q 0).r (q b).r).1⟩) i).v •
              ψ (Function.update g (q b).idx (add (g (q b).idx) (g (q 0).idx))
                ((Function.update q 0 ⟨(q 0).idx, (mpn_sub_n (q 0).r (q b).r).1⟩) i).idx) =
              (q i).v • ψ (g (q i).idx) + ((if i = 0 then -((q b).v • ψ (g (q 0).idx)) else 0) +
                (if i = b then (q b).v • ψ (g (q 0).idx) else 0)) := by
            intro i
            by_cases hi : i = 0
            · subst hi
              have hne : (q 0).idx ≠ (q b).idx := fun h => hb0 (hinj _ _ h).symm
              rw [Function.update_self, if_pos rfl, if_neg hb0.symm]
              simp only
              rw [Function.update_of_ne hne]
              simp only [OrderedExponent.v] at hv' hba ⊢
              rw [hv', sub_nsmul _ hba]; abel
            · rw [Function.update_of_ne hi, if_neg hi]
              by_cases hib : i = b
              · subst hib
                rw [Function.update_self, if_pos rfl, hG.add, nsmul_add, zero_add]
              · rw [if_neg hib, Function.update_of_ne (fun h => hib (hinj _ _ h))]
                simp
          rw [Finset.sum_congr rfl (fun i _ => hterm i), Finset.sum_add_distrib, Finset.sum_add_distrib]
          simp

end Loop
end Libff

namespace Libff
open GroupOps

section Top
variable {G A S : Type*} [GroupOps G] [AddCommGroup A] {ψ : G → A} {toB : S → List Limb}

omit [GroupOps G] in
theorem entrySum_get (l : List OrderedExponent) (g : Nat → G) :
    entrySum ψ (fun i : Fin l.length => l.get i) g = (l.map fun x => x.v • ψ (g x.idx)).sum := by
  unfold entrySum
  rw [← List.sum_ofFn]
  congr 1
  conv_rhs => rw [← List.ofFn_get l, List.map_ofFn]
  rfl

omit [GroupOps G] in
theorem sum_zipIdx (bases : List G) (rs : List (List Limb)) (h : bases.length = rs.length) (k : Nat)
    (g : Nat → G) (hg : ∀ i (hi : i < bases.length), g (k + i) = bases[i]) :
    ((rs.zipIdx k).map fun x => val x.1 • ψ (g x.2)).sum =
      ((bases.zip rs).map fun gs => val gs.2 • ψ gs.1).sum := by
  induction bases generalizing rs k with
  | nil =>
    obtain rfl : rs = [] := List.length_eq_zero_iff.1 h.symm
    rfl
  | cons b bases ih =>
    cases rs with
    | nil => simp at h
    | cons r rs =>
      simp only [List.length_cons, Nat.add_right_cancel_iff] at h
      rw [List.zipIdx_cons, List.map_cons, List.sum_cons, List.zip_cons_cons, List.map_cons, List.sum_cons,
        ih rs h (k + 1) (fun i hi => by
          have := hg (i + 1) (by simp; omega)
          rw [show k + (i + 1) = k + 1 + i by omega] at this
          rw [this]; rfl)]
      have := hg 0 (by simp)
      simp only [Nat.add_zero, List.getElem_cons_zero] at this
      simp only
      rw [this]

/-- The list the loop starts from. -/
theorem bos_start (mk : List OrderedExponent → List OrderedExponent) (hmk : IsMakeHeap mk) (n : Nat)
    (rs : List (List Limb)) (hn : ∀ r ∈ rs, r.length = n) (N : Nat) (hN : rs.length = N)
    (q : List OrderedExponent)
    (hq : (if N % 2 = 1 then mk (rs.zipIdx.map fun (r, i) => ⟨i, r⟩)
      else mk (rs.zipIdx.map fun (r, i) => ⟨i, r⟩) ++ [⟨N, List.replicate n 0⟩]) = q) :
    (∀ x ∈ q, x.r.length = n) ∧ (q.map (·.idx)).Nodup ∧
    (∀ i j : Fin q.length, 0 < i.val → j.val = (i.val - 1) / 2 → val (q.get i).r ≤ val (q.get j).r) ∧
    q.length % 2 = 1 ∧ rs.length ≤ q.length ∧
    (∀ x ∈ q, x.v = 0 ∨ x.r ∈ rs) ∧
    ∃ z : OrderedExponent, z.v = 0 ∧ (q.Perm (rs.zipIdx.map fun (r, i) => ⟨i, r⟩) ∨
      q.Perm ((rs.zipIdx.map fun (r, i) => ⟨i, r⟩) ++ [z])) := by
  subst hN
  obtain ⟨hp, hh⟩ := hmk (rs.zipIdx.map fun (r, i) => ⟨i, r⟩)
  generalize mk (rs.zipIdx.map fun (r, i) => ⟨i, r⟩) = q0 at hp hh hq
  have hz : val (List.replicate n (0 : Limb)) = 0 := by
    generalize n = k
    induction k with
    | zero => rfl
    | succ k ih => rw [List.replicate_succ, val_cons, ih]; rfl
  have hlen : q0.length = rs.length := by rw [hp.length_eq]; simp
  have hidx : (q0.map (·.idx)).Perm (List.range rs.length) := by
    refine (hp.map _).trans ?_
    rw [List.map_map]
    have : (fun x : OrderedExponent => x.idx) ∘ (fun x : List Limb × Nat => (⟨x.2, x.1⟩ : OrderedExponent)) =
        Prod.snd := rfl
    rw [show ((fun x : OrderedExponent => x.idx) ∘ fun (x : List Limb × Nat) =>
      match x with | (r, i) => (⟨i, r⟩ : OrderedExponent)) = Prod.snd from rfl]
    rw [List.zipIdx_map_snd, List.range_eq_range']
  have hmem : ∀ x ∈ q0, x.r ∈ rs := by
    intro x hx
    have := hp.subset hx
    simp only [List.mem_map, Prod.exists] at this
    obtain ⟨r, i, hri, rfl⟩ := this
    exact List.fst_mem_of_mem_zipIdx hri
  by_cases ho : rs.length % 2 = 1
  · rw [if_pos ho] at hq
    subst hq
    refine ⟨fun x hx => hn _ (hmem x hx), hidx.nodup_iff.2 List.nodup_range,
      fun i j hi hj => hh i.val j.val i.isLt j.isLt hi hj, by omega, by omega,
      fun x hx => Or.inr (hmem x hx),
      ⟨0, List.replicate n 0⟩, hz, Or.inl hp⟩
  · rw [if_neg ho] at hq
    subst hq
    refine ⟨?_, ?_, ?_, ?_, ?_, ?_, ?_⟩
    · intro x hx
      rcases List.mem_append.1 hx with h | h
      · exact hn _ (hmem x h)
      · rw [List.mem_singleton.1 h]; simp
    · rw [List.map_append, List.nodup_append]
      refine ⟨hidx.nodup_iff.2 List.nodup_range, by simp, ?_⟩
      intro a ha b hb
      have := List.mem_range.1 (hidx.subset ha)
      simp only [List.map_cons, List.map_nil, List.mem_singleton] at hb
      omega
    · rintro ⟨i, hi⟩ ⟨j, hj⟩ hi0 hji
      simp only at hi0 hji
      simp only [List.get_eq_getElem]
      by_cases h : i < q0.length
      · rw [List.getElem_append_left h, List.getElem_append_left (by omega : j < q0.length)]
        exact hh i j _ _ hi0 hji
      · have : i = q0.length := by simp at hi; omega
        subst this
        rw [List.getElem_append_right (le_refl _)]
        simp only [Nat.sub_self, List.getElem_cons_zero, hz]
        omega
    · simp; omega
    · simp; omega
    · intro x hx
      rcases List.mem_append.1 hx with h | h
      · exact Or.inr (hmem x h)
      · rw [List.mem_singleton.1 h]; exact Or.inl hz
    · exact ⟨_, hz, Or.inr (hp.append_right _)⟩

theorem perm_sum {L q : List OrderedExponent} {z : OrderedExponent} (hz : z.v = 0)
    (h : q.Perm L ∨ q.Perm (L ++ [z])) {A : Type*} [AddCommMonoid A] (f : Nat → A) :
    (q.map fun x => x.v • f x.idx).sum = (L.map fun x => x.v • f x.idx).sum := by
  rcases h with h | h
  · exact (h.map _).sum_eq
  · rw [(h.map _).sum_eq, List.map_append, List.sum_append]
    simp [hz]

/-- Total of the scalars, a bound on the number of steps. -/
theorem multiExpBosCoster_spec (hG : ImplementsGroup ψ) (table : List Nat) (n V : Nat)
    (hwn : ∀ (k : List Limb) (g : G), k.length = n → val k ≤ V →
      ∃ t, optWindowWnafExp table g k (bigintNumBits k) = .ok t ∧ ψ t = val k • ψ g)
    (mk : List OrderedExponent → List OrderedExponent) (hmk : IsMakeHeap mk)
    (bases : List G) (scalars : List S) (hlen : bases.length = scalars.length)
    (hn : ∀ s ∈ scalars, (toB s).length = n) (hV : ∀ s ∈ scalars, val (toB s) ≤ V) (fuel : Nat)
    (hfuel : (scalars.map fun s => val (toB s)).sum < fuel) :
    ∃ g, multiExpBosCoster toB table n mk fuel bases scalars = .ok (some g) ∧
      ψ g = multiSum ψ toB bases scalars := by
  have hsumG : multiSum ψ toB bases scalars =
      ((bases.zip (scalars.map toB)).map fun gs => val gs.2 • ψ gs.1).sum := by
    rw [List.zip_map_right, List.map_map]; rfl
  unfold multiExpBosCoster
  split
  · exact ⟨zero, rfl, by simp [multiSum, hG.zero]⟩
  · simp at hlen
  · rename_i g s ss
    obtain rfl : ss = [] := by simp at hlen; exact hlen
    exact ⟨_, rfl, by rw [scalarMul_spec hG]; simp [multiSum]⟩
  · rename_i h1 h2 h3
    rw [if_neg (by omega)]
    simp only
    have hge : 2 ≤ bases.length := by
      rcases bases with _ | ⟨a, _ | ⟨b, t⟩⟩
      · exact absurd rfl (h1)
      · rcases scalars with _ | ⟨s, ss⟩
        · simp at hlen
        · exact absurd rfl (h3 a s ss rfl)
      · simp
    generalize hq : (if bases.length % 2 = 1 then mk ((scalars.map toB).zipIdx.map fun (r, i) => ⟨i, r⟩)
      else mk ((scalars.map toB).zipIdx.map fun (r, i) => ⟨i, r⟩) ++
        [⟨bases.length, List.replicate n 0⟩]) = q
    have hst := bos_start mk hmk n (scalars.map toB) (by simpa using hn) bases.length
      (by simpa using hlen.symm) q hq
    clear hq
    obtain ⟨a1, a2, a3, a4, a5, a6, z, hz, a7⟩ := hst
    rw [List.length_map, ← hlen] at a5
    match q, a1, a2, a3, a4, a5, a6, a7 with
    | [], _, _, _, _, a5, _, _ => exact absurd (le_trans hge a5) (by simp)
    | [_], _, _, _, _, a5, _, _ => exact absurd (le_trans hge a5) (by simp)
    | [_, _], _, _, _, a4, a5, _, _ => simp at a4
    | q0 :: q1 :: q2 :: rest, a1, a2, a3, a4, a5, a6, a7 =>
      simp only
      obtain ⟨t, t1, t2⟩ := bosLoop_spec hG table n V hwn (m := rest.length) (by simp at a4; omega) fuel
        (fun i : Fin (rest.length + 3) => (q0 :: q1 :: q2 :: rest).get i)
        (fun i => bases.getD i zero) zero
        (fun i => a1 _ (List.get_mem _ _))
        (by
          intro i j hi hj
          exact a3 i j hi hj)
        (by
          intro i j hij
          have := List.nodup_iff_injective_get.1 a2
          have h2 : ((q0 :: q1 :: q2 :: rest).map (·.idx)).get ⟨i.val, by have := i.isLt; simp only [List.length_map, List.length_cons]; exact this⟩ =
              ((q0 :: q1 :: q2 :: rest).map (·.idx)).get ⟨j.val, by have := j.isLt; simp only [List.length_map, List.length_cons]; exact this⟩ := by
            simp only [List.get_eq_getElem, List.getElem_map]
            exact hij
          have := this h2
          simp only [Fin.mk.injEq] at this
          exact Fin.ext this)
        (by
          intro i
          rcases a6 _ (List.get_mem (q0 :: q1 :: q2 :: rest) i) with h | h
          · rw [h]; exact Nat.zero_le _
          · obtain ⟨s, hs, hs'⟩ := List.mem_map.1 h
            simp only [OrderedExponent.v, ← hs']
            exact hV s hs)
        (by
          have h := perm_sum hz a7 (fun _ => (1 : Int))
          rw [List.map_map] at h
          have e := entrySum_get (ψ := fun x : Int => x) (q0 :: q1 :: q2 :: rest) (fun _ => 1)
          rw [h] at e
          have e1 : entrySum (fun x : Int => x) (fun i : Fin (q0 :: q1 :: q2 :: rest).length =>
              (q0 :: q1 :: q2 :: rest).get i) (fun _ => 1) =
              ((∑ i : Fin (rest.length + 3), ((q0 :: q1 :: q2 :: rest).get i).v : Nat) : Int) := by
            unfold entrySum
            simp only [nsmul_eq_mul, mul_one, Nat.cast_sum]
            rfl
          have e2 : (((scalars.map toB).zipIdx).map fun x => val x.1 • (1 : Int)).sum =
              (((scalars.map fun s => val (toB s)).sum : Nat) : Int) := by
            have : ((scalars.map toB).zipIdx).map (fun x => val x.1 • (1 : Int)) =
                (((scalars.map toB).zipIdx).map Prod.fst).map (fun r => (val r : Int)) := by
              rw [List.map_map]; apply List.map_congr_left; intro x _; simp
            rw [this, List.zipIdx_map_fst, List.map_map]
            clear * -
            induction scalars with
            | nil => rfl
            | cons s ss ih => simp only [List.map_cons, List.sum_cons, Nat.cast_add, ih]; rfl
          rw [e1] at e
          have e' := Int.ofNat.inj (e.trans e2)
          exact lt_of_le_of_lt (le_of_eq e') hfuel)
      refine ⟨t, t1, ?_⟩
      rw [t2, hG.zero, zero_add, hsumG]
      have e := entrySum_get (ψ := ψ) (q0 :: q1 :: q2 :: rest) (fun i => bases.getD i zero)
      rw [perm_sum hz a7 (fun i => ψ (bases.getD i zero)), List.map_map] at e
      have e' := sum_zipIdx (ψ := ψ) bases (scalars.map toB) (by simpa using hlen) 0 (fun i => bases.getD i zero) (by
        intro i hi
        simp only [Nat.zero_add]
        exact List.getD_eq_getElem _ _ hi)
      exact e.trans e'

end Top
end Libff
