import Verif.Lemmas.Window

/-!
# Fixed base tables: all entries, and the look-up for every scalar

The last row of a table has entries only for the bits below `scalar_size`; the rest of the row is zero.
-/
namespace Libff
open GroupOps
variable {G A : Type*} [GroupOps G] [AddCommGroup A] {ψ : G → A}

/-- The multiple of the base that the table holds at `[j][i]`, for `k` rows, the last with `last` entries. -/
def tableCoeff (w last k j i : Nat) : Nat := if j + 1 = k ∧ last ≤ i then 0 else i * 2 ^ (j * w)

theorem windowRows_all (hG : ImplementsGroup ψ) (w inW last k : Nat) (g : G) (j : Nat) (hj : j < k) :
    ∃ row, (windowRows w inW last k g)[j]? = some row ∧
      ∀ i, i < inW → ∃ t, row[i]? = some t ∧ ψ t = tableCoeff w last k j i • ψ g := by
  induction k generalizing g j with
  | zero => omega
  | succ k ih =>
    cases j with
    | zero =>
      refine ⟨_, rfl, fun i hi => ?_⟩
      by_cases h : i < (if k = 0 then last else inW)
      · obtain ⟨t, t1, t2⟩ := windowRow_get hG g _ zero i h
        refine ⟨t, ?_, ?_⟩
        · rw [List.getElem?_append_left (by rw [windowRow_length]; exact h)]
          exact t1
        · rw [t2, hG.zero, tableCoeff, if_neg (fun hc => by
            rw [if_pos (by omega)] at h
            omega)]
          simp
      · have hk : k = 0 := by
          by_contra hk
          rw [if_neg hk] at h
          omega
        rw [if_pos hk] at h
        refine ⟨zero, ?_, ?_⟩
        · rw [List.getElem?_append_right (by rw [windowRow_length, if_pos hk]; omega), windowRow_length, if_pos hk,
            List.getElem?_replicate, if_pos (by omega)]
        · rw [hG.zero, tableCoeff, if_pos ⟨by omega, by omega⟩, zero_nsmul]
    | succ j =>
      obtain ⟨row, r1, r3⟩ := ih (Nat.repeat (fun g => add g g) w g) j (by omega)
      refine ⟨row, r1, fun i hi => ?_⟩
      obtain ⟨t, t1, t2⟩ := r3 i hi
      refine ⟨t, t1, ?_⟩
      rw [t2, repeat_dbl hG, ← mul_nsmul']
      congr 1
      unfold tableCoeff
      by_cases hc : j + 1 = k ∧ last ≤ i
      · rw [if_pos hc, if_pos ⟨by omega, hc.2⟩, Nat.zero_mul]
      · rw [if_neg hc, if_neg (by omega), Nat.succ_mul, pow_add]
        ring

theorem windowedLoop_all (hG : ImplementsGroup ψ) (w : Nat) (e : List Limb) (g : A) (cf : Nat → Nat) (rows : List (List G))
    (outer : Nat)
    (hrows : ∀ j row, rows[j]? = some row → ∃ t, row[val e / 2 ^ ((outer + j) * w) % 2 ^ w]? = some t ∧
      ψ t = cf (outer + j) • g) (res : G) :
    ∃ t, windowedLoop w e rows outer res = .ok t ∧
      ψ t = ψ res + (∑ j ∈ Finset.range rows.length, cf (outer + j)) • g := by
  induction rows generalizing outer res with
  | nil => exact ⟨res, rfl, by simp⟩
  | cons row rows ih =>
    obtain ⟨t, t1, t2⟩ := hrows 0 row rfl
    rw [Nat.add_zero] at t1 t2
    obtain ⟨t', h1, h2⟩ := ih (outer + 1) (by
      intro j row' hj
      have := hrows (j + 1) row' hj
      rw [show outer + (j + 1) = outer + 1 + j by omega] at this
      exact this) (add res t)
    refine ⟨t', ?_, ?_⟩
    · rw [windowedLoop, windowId_eq, t1]
      exact h1
    · rw [h2, hG.add, t2, add_assoc, ← add_nsmul]
      congr 2
      rw [List.length_cons, Finset.sum_range_succ', Nat.add_comm, Nat.add_zero]
      congr 1
      refine Finset.sum_congr rfl fun j _ => ?_
      congr 1
      omega

theorem digits_sum (w e m : Nat) : ∑ j ∈ Finset.range m, e / 2 ^ (j * w) % 2 ^ w * 2 ^ (j * w) = e % 2 ^ (m * w) := by
  induction m with
  | zero => simp [Nat.mod_one]
  | succ m ih =>
    rw [Finset.sum_range_succ, ih, Nat.succ_mul, pow_add, Nat.mod_mul]
    ring

theorem windowedExp_all (hG : ImplementsGroup ψ) (size w : Nat) (hw : 1 ≤ w) (hw2 : w ≤ 32) (hs : 1 ≤ size)
    (g : G) (T : List (List G)) (hT : getWindowTable size w g = .ok T) (e : List Limb) :
    ∃ t, windowedExp size w T e = .ok t ∧
      ψ t = (if val e % 2 ^ ((size + w - 1) / w * w) < 2 ^ size then val e % 2 ^ ((size + w - 1) / w * w)
        else val e % 2 ^ (((size + w - 1) / w - 1) * w)) • ψ g := by
  obtain ⟨T', t00, row, rest, h1, h2, -⟩ := windowedExp_spec hG size w hw hw2 hs g
  rw [h1] at hT
  obtain rfl := Outcome.ok.inj hT
  unfold getWindowTable at h1
  rw [if_neg (by omega)] at h1
  simp only at h1
  unfold windowedExp
  rw [if_neg (by omega)]
  simp only
  generalize hk : (size + w - 1) / w = k at *
  have hk1 : 1 ≤ k := by rw [← hk]; exact Nat.div_pos (by omega) (by omega)
  have hkle : (k - 1) * w < size := by
    have := Nat.div_mul_le_self (size + w - 1) w
    rw [hk] at this
    obtain ⟨m, rfl⟩ : ∃ m, k = m + 1 := ⟨k - 1, by omega⟩
    simp only [Nat.add_sub_cancel, Nat.succ_mul] at *
    omega
  have hrow := Outcome.ok.inj h1
  have hl : T'.length = k := by rw [← hrow, windowRows_length]
  rw [if_neg (by omega), List.take_of_length_le (by omega)]
  have h00 : ψ t00 = 0 := by
    obtain ⟨r0, q1, q2⟩ := windowRows_all hG w (2 ^ w) (2 ^ (size - (k - 1) * w)) k g 0 (by omega)
    obtain ⟨t, t1, t2⟩ := q2 0 (Nat.pow_pos (by norm_num))
    rw [hrow, h2] at q1
    obtain rfl := Option.some.inj q1
    obtain rfl := Option.some.inj t1
    rw [t2, tableCoeff]
    simp
  obtain ⟨t', t1, t2⟩ := windowedLoop_all hG w e (ψ g)
    (fun j => tableCoeff w (2 ^ (size - (k - 1) * w)) k j (val e / 2 ^ (j * w) % 2 ^ w)) T' 0 (by
      intro j row' hj
      rw [Nat.zero_add]
      have hjl := (List.getElem?_eq_some_iff.1 hj).1
      obtain ⟨r0, q1, q2⟩ := windowRows_all hG w (2 ^ w) (2 ^ (size - (k - 1) * w)) k g j (by omega)
      rw [hrow, hj] at q1
      obtain rfl := Option.some.inj q1
      exact q2 _ (Nat.mod_lt _ (Nat.pow_pos (by norm_num)))) t00
  subst h2
  refine ⟨t', t1, ?_⟩
  rw [t2, h00, zero_add, hl]
  congr 1
  simp only [Nat.zero_add]
  obtain ⟨m, rfl⟩ : ∃ m, k = m + 1 := ⟨k - 1, by omega⟩
  rw [Finset.sum_range_succ, Nat.add_sub_cancel] at *
  have hsum : ∑ j ∈ Finset.range m, tableCoeff w (2 ^ (size - m * w)) (m + 1) j (val e / 2 ^ (j * w) % 2 ^ w) =
      val e % 2 ^ (m * w) := by
    rw [← digits_sum]
    refine Finset.sum_congr rfl fun j hj => ?_
    rw [Finset.mem_range] at hj
    rw [tableCoeff, if_neg (by omega)]
  rw [hsum, tableCoeff]
  have hmod : val e % 2 ^ ((m + 1) * w) = val e % 2 ^ (m * w) + 2 ^ (m * w) * (val e / 2 ^ (m * w) % 2 ^ w) := by
    rw [Nat.succ_mul, pow_add, Nat.mod_mul]
  have hpow : 2 ^ size = 2 ^ (m * w) * 2 ^ (size - m * w) := by rw [← pow_add]; congr 1; omega
  have hlt : val e % 2 ^ (m * w) < 2 ^ (m * w) := Nat.mod_lt _ (Nat.pow_pos (by norm_num))
  generalize val e / 2 ^ (m * w) % 2 ^ w = d at *
  generalize val e % 2 ^ (m * w) = r at *
  rw [hmod, hpow]
  generalize 2 ^ (size - m * w) = l at *
  generalize 2 ^ (m * w) = M at *
  by_cases hd : l ≤ d
  · rw [if_pos ⟨rfl, hd⟩, if_neg, Nat.add_zero]
    have := Nat.mul_le_mul_left M hd
    omega
  · rw [if_neg (by omega), if_pos]
    · ring
    · have := Nat.mul_le_mul_left M (show d + 1 ≤ l by omega)
      rw [Nat.mul_succ] at this
      omega
end Libff
