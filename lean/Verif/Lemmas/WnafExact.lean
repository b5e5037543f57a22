import Verif.Lemmas.Group

/-!
# The wNAF recoding at the top of the bigint range

`find_wnaf` for scalars within `2^w` of the top of the range: the even ones are recoded correctly, and for
the odd ones the carry of the first `mpn_add_1` is lost.
-/
namespace Libff

/-- Recoding of an odd scalar less than `2^w` below the top: one digit, the distance to the top. -/
theorem findWnaf_top_odd (w : Nat) (hw1 : 1 ≤ w) (hw : w < 30) (c : List Limb)
    (ho : val c % 2 = 1) (hov : 2 ^ (64 * c.length) < val c + 2 ^ w) :
    findWnaf w c = .ok (((val c : Int) - 2 ^ (64 * c.length)) :: List.replicate (64 * c.length) 0) := by
  have hlt := val_lt c
  have hn0 : 1 ≤ c.length := by
    rcases c with _ | ⟨x, l⟩
    · simp at ho
    · simp
  obtain ⟨t, ht⟩ : ∃ t, val c + t = 2 ^ (64 * c.length) := ⟨_, Nat.add_sub_cancel' hlt.le⟩
  have ht0 : 0 < t := by omega
  have htw : t < 2 ^ w := by omega
  have hM : 2 ^ (w + 1) = 2 * 2 ^ w := pow_succ' 2 w
  have hw64 : 2 ^ (w + 1) ≤ 2 ^ 63 := Nat.pow_le_pow_right (by norm_num) (by omega)
  have hdvd : 2 ^ (64 * c.length) = 2 ^ (w + 1) * 2 ^ (64 * c.length - (w + 1)) := by
    rw [← pow_add]; congr 1; omega
  have hmod : val c % 2 ^ (w + 1) = 2 ^ (w + 1) - t := by
    have hk : 1 ≤ 2 ^ (64 * c.length - (w + 1)) := Nat.pow_pos (by norm_num)
    obtain ⟨k, hk⟩ : ∃ k, 2 ^ (64 * c.length - (w + 1)) = k + 1 := ⟨_, (Nat.sub_add_cancel hk).symm⟩
    have e : val c = 2 ^ (w + 1) - t + 2 ^ (w + 1) * k := by
      rw [hdvd, hk, Nat.mul_add, Nat.mul_one] at ht
      omega
    rw [e, Nat.add_mul_mod_self_left, Nat.mod_eq_of_lt (by omega)]
  have hdig : wnafDigit w (c.headD 0) = -(t : Int) := by
    unfold wnafDigit
    rw [headD_mod c (w + 1) (by omega), hmod]
    simp only
    have e : (((2 ^ (w + 1) - t : Nat)) : Int) = 2 ^ (w + 1) - t := by
      rw [Nat.cast_sub (by omega)]; push_cast; rfl
    have e2 : (2 : Int) ^ (w + 1) = 2 * ((2 ^ w : Nat) : Int) := by rw [pow_succ']; push_cast; rfl
    have e3 : (2 : Int) ^ w = ((2 ^ w : Nat) : Int) := by norm_cast
    rw [if_pos (by rw [e, e2, e3]; omega), e]
    ring
  obtain ⟨h1, h2⟩ := mpn_add_1_spec c (BitVec.ofNat 64 t)
  rw [BitVec.toNat_ofNat, Nat.mod_eq_of_lt (a := t) (b := 2 ^ 64) (by omega), ht] at h1
  have hz : val (mpn_add_1 c (BitVec.ofNat 64 t)).1 = 0 := by
    have h3 := val_lt (mpn_add_1 c (BitVec.ofNat 64 t)).1
    rw [h2] at h3
    rcases Nat.lt_trichotomy (mpn_add_1 c (BitVec.ofNat 64 t)).2.toNat 1 with h | h | h
    · have : (mpn_add_1 c (BitVec.ofNat 64 t)).2.toNat = 0 := by omega
      rw [this] at h1; omega
    · rw [h] at h1; omega
    · have : 2 ^ (64 * c.length) * 2 ≤ 2 ^ (64 * c.length) * (mpn_add_1 c (BitVec.ofNat 64 t)).2.toNat :=
        Nat.mul_le_mul_left _ h
      have := hlt
      omega
  have hstep : (wnafStep w c).1 = -(t : Int) ∧ val (wnafStep w c).2 = 0 := by
    unfold wnafStep
    rw [headD_odd, hdig]
    simp only [ho, decide_true, if_true]
    rw [if_neg (by omega), neg_neg, Int.toNat_natCast]
    exact ⟨trivial, by rw [(rshift1_spec _).1, hz]⟩
  have hnz : ¬ (limbsIsZero c = true) := by rw [limbsIsZero_iff]; omega
  have hlen : bigintMaxBits c = 64 * c.length := by rw [bigintMaxBits, Nat.mul_comm]
  obtain ⟨j, hj⟩ : ∃ j, 64 * c.length = j + 1 := ⟨64 * c.length - 1, by omega⟩
  have hval : (val c : Int) - 2 ^ (64 * c.length) = -(t : Int) := by
    have : ((val c + t : Nat) : Int) = ((2 ^ (64 * c.length) : Nat) : Int) := by rw [ht]
    push_cast at this
    linear_combination this
  rw [hval, findWnaf, if_neg (by omega), hlen, hj, wnafLoop, if_neg hnz]
  simp only
  rw [hstep.1, wnafLoop, if_pos ((limbsIsZero_iff _).2 hstep.2)]
  rfl

/-- Recoding of an even scalar, at the top of the range or not. -/
theorem findWnaf_even (w : Nat) (hw1 : 1 ≤ w) (hw : w < 30) (c : List Limb) (he : val c % 2 = 0) :
    ∃ ds, findWnaf w c = .ok ds ∧ ds.length = bigintMaxBits c + 1 ∧ digitsVal ds = val c ∧
      (∀ d ∈ ds, d = 0 ∨ (d % 2 = 1 ∧ |d| < 2 ^ w)) ∧ NonAdjacent w ds := by
  have hlen : bigintMaxBits c = 64 * c.length := by rw [bigintMaxBits, Nat.mul_comm]
  by_cases hz : val c = 0
  · refine ⟨List.replicate (bigintMaxBits c + 1) 0, ?_, by simp, by rw [digitsVal_replicate, hz]; rfl, ?_,
      nonAdjacent_replicate _ _⟩
    · rw [findWnaf, if_neg (by omega), wnafLoop, if_pos ((limbsIsZero_iff c).2 hz)]
    · intro d hd; left; exact List.eq_of_mem_replicate hd
  have hlt := val_lt c
  have hn0 : 1 ≤ c.length := by
    rcases c with _ | ⟨x, l⟩
    · simp at hz
    · simp
  obtain ⟨j, hj⟩ : ∃ j, 64 * c.length = j + 1 := ⟨64 * c.length - 1, by omega⟩
  have hstep : wnafStep w c = (0, rshift1 c) := by
    unfold wnafStep
    rw [headD_odd]
    simp [he]
  have hnz : ¬ (limbsIsZero c = true) := fun h => hz ((limbsIsZero_iff c).1 h)
  have hhalf : val (rshift1 c) ≤ 2 ^ j := by
    rw [(rshift1_spec c).1]
    rw [hj, pow_succ'] at hlt
    omega
  have hwle : 2 ^ w ≤ 2 ^ j := Nat.pow_le_pow_right (by norm_num) (by omega)
  obtain ⟨ds, h1, h2, h3, h4, h5, _⟩ := wnafLoop_spec w c.length hw1 hw j (rshift1 c) (rshift1_spec c).2
    hhalf (by rw [hj, pow_succ']; omega)
  refine ⟨0 :: ds, ?_, by rw [List.length_cons, h2, hlen, hj], ?_, ?_, ⟨fun h => absurd rfl h, h5⟩⟩
  · rw [findWnaf, if_neg (by omega), hlen, hj, wnafLoop, if_neg hnz, hstep]
    simp only
    rw [h1]
    rfl
  · rw [digitsVal, h3, (rshift1_spec c).1]; omega
  · intro d hd
    rcases List.mem_cons.1 hd with rfl | hd
    · left; rfl
    · exact h4 d hd

/-- `find_wnaf` for every scalar. -/
theorem findWnaf_exact (w : Nat) (hw1 : 1 ≤ w) (hw : w < 30) (c : List Limb) :
    ∃ ds, findWnaf w c = .ok ds ∧ ds.length = 64 * c.length + 1 ∧
      digitsVal ds = (if val c % 2 = 1 ∧ 2 ^ (64 * c.length) < val c + 2 ^ w then
        (val c : Int) - 2 ^ (64 * c.length) else val c) ∧
      (∀ d ∈ ds, d = 0 ∨ (d % 2 = 1 ∧ |d| < 2 ^ w)) ∧ NonAdjacent w ds := by
  have hlen : bigintMaxBits c + 1 = 64 * c.length + 1 := by rw [bigintMaxBits, Nat.mul_comm]
  by_cases ho : val c % 2 = 1
  · by_cases hov : 2 ^ (64 * c.length) < val c + 2 ^ w
    · rw [if_pos ⟨ho, hov⟩]
      refine ⟨_, findWnaf_top_odd w hw1 hw c ho hov, by simp, ?_, ?_, ?_, nonAdjacent_replicate _ _⟩
      · rw [digitsVal, digitsVal_replicate]; ring
      · intro d hd
        rcases List.mem_cons.1 hd with rfl | hd
        · right
          have hlt := val_lt c
          have e : (2 : Int) ^ (64 * c.length) = ((2 ^ (64 * c.length) : Nat) : Int) := by norm_cast
          have e3 : (2 : Int) ^ w = ((2 ^ w : Nat) : Int) := by norm_cast
          have hev : 2 ^ (64 * c.length) % 2 = 0 := by
            obtain ⟨j, hj⟩ : ∃ j, 64 * c.length = j + 1 := by
              rcases c with _ | ⟨x, l⟩
              · simp at ho
              · exact ⟨64 * l.length + 63, by simp; ring⟩
            rw [hj, pow_succ]; omega
          rw [abs_lt, e, e3]
          omega
        · left; exact List.eq_of_mem_replicate hd
      · intro _ j hj
        rw [List.getD_eq_getElem?_getD, List.getElem?_replicate]
        split <;> rfl
    · rw [if_neg (fun h => hov h.2)]
      obtain ⟨ds, h1, h2, h3⟩ := findWnaf_spec w hw1 hw c (not_lt.1 hov)
      exact ⟨ds, h1, by rw [h2, hlen], h3⟩
  · rw [if_neg (fun h => ho h.1)]
    obtain ⟨ds, h1, h2, h3⟩ := findWnaf_even w hw1 hw c (by omega)
    exact ⟨ds, h1, by rw [h2, hlen], h3⟩

/-- `fixed_window_wnaf_exp` for every scalar. -/
theorem fixedWindowWnafExp_exact {G A : Type*} [GroupOps G] [AddCommGroup A] {ψ : G → A}
    (h : ImplementsGroup ψ) (w : Nat) (hw1 : 1 ≤ w) (hw : w < 30) (base : G) (c : List Limb) :
    ∃ g, fixedWindowWnafExp w base c = .ok g ∧
      ψ g = (if val c % 2 = 1 ∧ 2 ^ (64 * c.length) < val c + 2 ^ w then
        (val c : Int) - 2 ^ (64 * c.length) else (val c : Int)) • ψ base := by
  obtain ⟨ds, h1, _, h3, h4, _⟩ := findWnaf_exact w hw1 hw c
  unfold fixedWindowWnafExp
  rw [if_neg (by omega), h1, Outcome.bind_ok]
  obtain ⟨g, h5, h6⟩ := wnafExpLoop_spec h w hw1 (oddTable (2 ^ (w - 1)) base (GroupOps.dbl base)) (ψ base)
    (fun i hi => by
      obtain ⟨x, hx, hx'⟩ := oddTable_get h (2 ^ (w - 1)) base (GroupOps.dbl base) i hi
      refine ⟨x, hx, ?_⟩
      rw [hx', h.dbl, add_nsmul, one_nsmul, Nat.mul_comm, mul_nsmul, two_nsmul]
      rw [nsmul_add]; abel)
    ds.reverse (fun d hd => h4 d (List.mem_reverse.1 hd)) false GroupOps.zero 0 (by simp [h.zero])
    (fun _ => rfl)
  exact ⟨g, h5, by rw [h6, foldl_reverse_digits, h3]⟩

end Libff
