import Verif.Spec.Cost
import Verif.Lemmas.Group
import Verif.Lemmas.Counters

namespace Libff

@[simp] theorem Calls.add_add (a b : Calls) : (a + b).add = a.add + b.add := rfl
@[simp] theorem Calls.add_dbl (a b : Calls) : (a + b).dbl = a.dbl + b.dbl := rfl
theorem Calls.add_assoc' (a b c : Calls) : a + b + c = a + (b + c) := by ext <;> simp [Nat.add_assoc]
theorem Calls.add_nil (a : Calls) : a + ⟨0, 0⟩ = a := rfl
theorem Calls.nil_add (a : Calls) : (⟨0, 0⟩ : Calls) + a = a := by ext <;> simp

namespace Run
variable {α β : Type}

theorem Costs.mono {r : Run α} {o : Outcome α} {P Q : Calls → Prop} (h : r.Costs o P) (hpq : ∀ n, P n → Q n) : r.Costs o Q := by
  intro s
  have := h s
  cases o with
  | ok v => obtain ⟨n, h1, h2⟩ := this; exact ⟨n, h1, hpq n h2⟩
  | abort => exact this
  | ub => exact this

theorem Costs.pure (v : α) {P : Calls → Prop} (h : P ⟨0, 0⟩) : (Pure.pure v : Run α).Costs (.ok v) P :=
  fun s => ⟨⟨0, 0⟩, rfl, h⟩

theorem Costs.lift_abort {P : Calls → Prop} : (lift .abort : Run α).Costs .abort P := fun _ => rfl
theorem Costs.lift_ub {P : Calls → Prop} : (lift .ub : Run α).Costs .ub P := fun _ => rfl
theorem Costs.lift (o : Outcome α) {P : Calls → Prop} (h : P ⟨0, 0⟩) : (Run.lift o).Costs o P := by
  intro s
  cases o with
  | ok v => exact ⟨⟨0, 0⟩, rfl, h⟩
  | abort => rfl
  | ub => rfl

theorem Costs.bind {r : Run α} {o : Outcome α} {f : α → Run β} {g : α → Outcome β} {P R : Calls → Prop} {Q : α → Calls → Prop}
    (h : r.Costs o P) (hf : ∀ v, o = .ok v → (f v).Costs (g v) (Q v)) (hR : ∀ v a b, o = .ok v → P a → Q v b → R (a + b)) :
    (r >>= f).Costs (o.bind g) R := by
  intro s
  have h1 := h s
  cases o with
  | ok v =>
    obtain ⟨n, h1, h2⟩ := h1
    have h3 := hf v rfl (s + n)
    have e : (r >>= f) s = f v (s + n) := by
      show (r s).bind _ = _
      rw [h1]; rfl
    rw [show (Outcome.ok v).bind g = g v from rfl]
    cases hg : g v with
    | ok w =>
      rw [hg] at h3
      obtain ⟨m, h4, h5⟩ := h3
      exact ⟨n + m, by rw [e, h4, Calls.add_assoc'], hR v n m rfl h2 h5⟩
    | abort => rw [hg] at h3; exact e.trans h3
    | ub => rw [hg] at h3; exact e.trans h3
  | abort => show (r s).bind _ = _; rw [show r s = _ from h1]; rfl
  | ub => show (r s).bind _ = _; rw [show r s = _ from h1]; rfl

variable {G : Type} [GroupOps G]

theorem add_costs (p q : G) : (add p q).Costs (.ok (GroupOps.add p q)) (· = ⟨1, 0⟩) := fun _ => ⟨_, rfl, rfl⟩
theorem sub_costs (p q : G) : (sub p q).Costs (.ok (GroupOps.sub p q)) (· = ⟨1, 0⟩) := fun _ => ⟨_, rfl, rfl⟩
theorem dbl_costs (p : G) : (dbl p).Costs (.ok (GroupOps.dbl p)) (· = ⟨0, 1⟩) := fun _ => ⟨_, rfl, rfl⟩

theorem dbl_if_costs (f : Bool) (p : G) :
    (dblIf f p).Costs (.ok (if f then GroupOps.dbl p else p)) (· = ⟨0, if f then 1 else 0⟩) := by
  cases f
  · exact Costs.pure _ rfl
  · exact dbl_costs p

/-- A step whose plain counterpart is `ok`. -/
theorem Costs.step {r : Run α} {v : α} {f : α → Run β} {o : Outcome β} {P Q R : Calls → Prop}
    (h : r.Costs (.ok v) P) (hf : (f v).Costs o Q) (hR : ∀ a b, P a → Q b → R (a + b)) : (r >>= f).Costs o R :=
  Costs.bind (g := fun _ => o) (Q := fun _ => Q) h (fun w hw => by rw [← Outcome.ok.inj hw]; exact hf) (fun _ a b _ ha hb => hR a b ha hb)

/-! ## Scalar multiplication -/

theorem scalarMulLoop_costs_true (base : G) (e : List Limb) (i : Nat) (res : G) :
    (scalarMulLoop base e i (true, res)).Costs (.ok (Libff.scalarMulLoop base e i (true, res))) (· = ⟨onesBelow (val e) i, i⟩) := by
  induction i generalizing res with
  | zero => exact Costs.pure _ rfl
  | succ i ih =>
    unfold scalarMulLoop Libff.scalarMulLoop
    refine Costs.step (dbl_if_costs true res) (Q := (· = ⟨onesBelow (val e) (i + 1), i⟩)) ?_ (fun a b ha hb => by
      rw [ha, hb]; ext <;> simp; omega)
    have ho : onesBelow (val e) (i + 1) = onesBelow (val e) i + if testBit e i then 1 else 0 := by
      rw [onesBelow, List.range_succ, List.countP_append, testBit_eq]; simp [onesBelow, List.countP_cons]
    simp only [if_true]
    by_cases hb : testBit e i
    · rw [if_pos hb] at ho
      simp only [hb, if_true]
      refine Costs.step (add_costs _ _) (ih _) (fun a b ha hb => by rw [ha, hb, ho]; ext <;> simp; omega)
    · rw [if_neg hb] at ho
      simp only [hb]
      exact (ih _).mono (fun n hn => by rw [hn, ho]; rfl)

theorem scalarMulLoop_costs_false (base : G) (e : List Limb) (i : Nat) (res : G) (hi : (val e).size ≤ i) :
    (scalarMulLoop base e i (false, res)).Costs (.ok (Libff.scalarMulLoop base e i (false, res)))
      (· = ⟨numOnes (val e), (val e).size - 1⟩) := by
  induction i generalizing res with
  | zero =>
    have h0 : (val e).size = 0 := by omega
    exact Costs.pure _ (by rw [numOnes, h0]; rfl)
  | succ i ih =>
    unfold scalarMulLoop Libff.scalarMulLoop
    refine Costs.step (dbl_if_costs false res) (Q := (· = ⟨numOnes (val e), (val e).size - 1⟩)) ?_ (fun a b ha hb => by
      rw [ha, hb]; ext <;> simp)
    simp only [Bool.false_eq_true, if_false]
    by_cases hs : (val e).size = i + 1
    · have hb : testBit e i = true := by
        rw [testBit_eq]
        have h1 : 2 ^ i ≤ val e := by
          by_contra hlt
          have := Nat.size_le.2 (not_le.1 hlt)
          omega
        have h2 : val e < 2 ^ (i + 1) := Nat.size_le.1 (le_of_eq hs)
        rw [Nat.testBit_eq_decide_div_mod_eq]
        have : val e / 2 ^ i = 1 := by
          apply le_antisymm
          · rw [← Nat.lt_succ_iff, Nat.div_lt_iff_lt_mul (by positivity)]
            rw [pow_succ] at h2; omega
          · rw [Nat.le_div_iff_mul_le (by positivity)]; omega
        rw [this]; rfl
      have ho : numOnes (val e) = onesBelow (val e) i + 1 := by
        rw [testBit_eq] at hb
        rw [numOnes, hs, onesBelow, List.range_succ, List.countP_append]; simp [onesBelow, List.countP_cons, hb]
      simp only [hb, if_true]
      refine Costs.step (add_costs _ _) (scalarMulLoop_costs_true base e i _) (fun a b ha hb => by
        rw [ha, hb, ho, hs]; ext <;> simp; omega)
    · have hs : (val e).size ≤ i := by omega
      have hb : testBit e i = false := by
        rw [testBit_eq]
        exact Nat.testBit_lt_two_pow (Nat.size_le.1 hs)
      simp only [hb, Bool.false_eq_true, if_false]
      exact ih _ hs

theorem scalarMul_costs (base : G) (e : List Limb) :
    (scalarMul base e).Costs (.ok (Libff.scalarMul base e)) (· = ⟨numOnes (val e), (val e).size - 1⟩) := by
  refine scalarMulLoop_costs_false base e _ _ (Nat.size_le.2 ?_)
  have := val_lt e
  rwa [bigintMaxBits, Nat.mul_comm]

/-! ## wNAF -/

theorem oddTable_costs (k : Nat) (tmp d : G) : (oddTable k tmp d).Costs (.ok (Libff.oddTable k tmp d)) (· = ⟨k, 0⟩) := by
  induction k generalizing tmp with
  | zero => exact Costs.pure _ rfl
  | succ k ih =>
    unfold oddTable Libff.oddTable
    refine Costs.step (add_costs _ _) (Q := (· = ⟨k, 0⟩)) ?_ (fun a b ha hb => by rw [ha, hb]; ext <;> simp; omega)
    exact Costs.step (ih _) (Costs.pure _ (P := (· = ⟨0, 0⟩)) rfl) (fun a b ha hb => by rw [ha, hb]; rfl)

/-- The number of nonzero digits. -/
def nonzeros (ds : List Int) : Nat := ds.countP (· ≠ 0)

/-- Doublings in the main loop, for digits from the most significant one. -/
def dblsOf : Bool → List Int → Nat
  | _, [] => 0
  | true, ds => ds.length
  | false, d :: ds => if d ≠ 0 then ds.length else dblsOf false ds

theorem dblsOf_true (ds : List Int) : dblsOf true ds = ds.length := by cases ds <;> rfl

theorem wnafExpLoop_costs (table : List G) (ds : List Int) (found : Bool) (res : G) :
    (wnafExpLoop table ds (found, res)).Costs (Libff.wnafExpLoop table ds (found, res)) (· = ⟨nonzeros ds, dblsOf found ds⟩) := by
  induction ds generalizing found res with
  | nil => exact Costs.pure _ (by cases found <;> rfl)
  | cons d ds ih =>
    unfold wnafExpLoop Libff.wnafExpLoop
    have hn : nonzeros (d :: ds) = nonzeros ds + if d ≠ 0 then 1 else 0 := by simp [nonzeros, List.countP_cons]
    refine Costs.step (dbl_if_costs found res) (Q := (· = ⟨nonzeros (d :: ds), dblsOf (found || decide (d ≠ 0)) ds⟩)) ?_ (fun a b ha hb => by
      rw [ha, hb]
      ext
      · simp
      · cases found <;> by_cases hd : d = 0 <;> simp [dblsOf, hd, dblsOf_true] <;> omega)
    by_cases hd : d = 0
    · simp only [hd, ne_eq, not_true_eq_false, if_false, decide_false, Bool.or_false]
      refine (ih _ _).mono (fun n h => ?_)
      rw [h]; simp [nonzeros]
    · rw [if_pos hd] at hn
      have hf : (found || decide (d ≠ 0)) = true := by simp [hd]
      rw [hf, hn]
      simp only [ne_eq, hd, not_false_eq_true, if_true]
      by_cases hp : d > 0
      · simp only [hp, if_true]
        cases table[(d / 2).toNat]? with
        | none => exact Costs.lift_ub
        | some t =>
          exact Costs.step (add_costs _ _) (ih true _) (fun a b ha hb => by rw [ha, hb]; ext <;> simp; omega)
      · simp only [hp, if_false]
        cases table[((-d) / 2).toNat]? with
        | none => exact Costs.lift_ub
        | some t =>
          exact Costs.step (sub_costs _ _) (ih true _) (fun a b ha hb => by rw [ha, hb]; ext <;> simp; omega)

/-- The position of the highest nonzero digit (0 if there is none). -/
def topPos (ds : List Int) : Nat := dblsOf false ds.reverse

theorem dblsOf_append (es : List Int) (d : Int) :
    dblsOf false (es ++ [d]) = if nonzeros es ≠ 0 then dblsOf false es + 1 else 0 := by
  induction es with
  | nil => by_cases h : d = 0 <;> simp [dblsOf, nonzeros, h]
  | cons e es ih =>
    rw [List.cons_append]
    by_cases h : e = 0
    · have hn : nonzeros (e :: es) = nonzeros es := by simp [nonzeros, h]
      rw [hn]
      simpa [dblsOf, h] using ih
    · have hn : nonzeros (e :: es) ≠ 0 := by simp [nonzeros, h]
      rw [if_pos hn]
      simp [dblsOf, h]

theorem nonzeros_reverse (ds : List Int) : nonzeros ds.reverse = nonzeros ds := by simp [nonzeros]

theorem topPos_cons (d : Int) (ds : List Int) : topPos (d :: ds) = if nonzeros ds ≠ 0 then topPos ds + 1 else 0 := by
  rw [topPos, List.reverse_cons, dblsOf_append, nonzeros_reverse]; rfl

theorem nonzeros_cons (d : Int) (ds : List Int) : nonzeros (d :: ds) = nonzeros ds + if d = 0 then 0 else 1 := by
  by_cases h : d = 0 <;> simp [nonzeros, h]

theorem digitsVal_of_nonzeros {ds : List Int} (h : nonzeros ds = 0) : digitsVal ds = 0 := by
  induction ds with
  | nil => rfl
  | cons d ds ih =>
    rw [nonzeros_cons] at h
    by_cases hd : d = 0
    · rw [digitsVal, hd, ih (by omega)]; rfl
    · rw [if_neg hd] at h; omega

theorem leading_zeros (w : Nat) (ds : List Int) (h : ∀ j < w, ds.getD j 0 = 0) :
    nonzeros ds = nonzeros (ds.drop w) ∧ digitsVal ds = 2 ^ w * digitsVal (ds.drop w) ∧
      (nonzeros ds ≠ 0 → topPos ds = topPos (ds.drop w) + w) := by
  induction w generalizing ds with
  | zero => simp
  | succ w ih =>
    cases ds with
    | nil => simp [nonzeros, digitsVal]
    | cons d ds =>
      have hd : d = 0 := h 0 (by omega)
      obtain ⟨h1, h2, h3⟩ := ih ds (fun j hj => by simpa using h (j + 1) (by omega))
      have hn : nonzeros (d :: ds) = nonzeros ds := by rw [nonzeros_cons, if_pos hd]; rfl
      rw [List.drop_succ_cons, hn]
      refine ⟨h1, ?_, fun hne => ?_⟩
      · rw [digitsVal, hd, h2, pow_succ]; ring
      · rw [topPos_cons, if_pos hne, h3 hne]; omega

theorem nonAdjacent_drop (w m : Nat) (ds : List Int) (h : NonAdjacent w ds) : NonAdjacent w (ds.drop m) := by
  induction m generalizing ds with
  | zero => exact h
  | succ m ih =>
    cases ds with
    | nil => trivial
    | cons d ds => exact ih ds h.2

/-- The highest digit of a non-adjacent form is near the highest bit of the number, and the nonzero digits are sparse. -/
theorem naf_sparse (w : Nat) (hw : 1 ≤ w) (n : Nat) (ds : List Int) (hn : ds.length ≤ n)
    (hd : ∀ d ∈ ds, d = 0 ∨ (d % 2 = 1 ∧ |d| < 2 ^ w)) (ha : NonAdjacent w ds) (h0 : nonzeros ds ≠ 0) :
    2 ^ topPos ds < 2 * |digitsVal ds| ∧ nonzeros ds * (w + 1) ≤ topPos ds + w + 1 := by
  induction n generalizing ds with
  | zero => rw [List.length_eq_zero_iff.1 (by omega : ds.length = 0)] at h0; exact absurd rfl h0
  | succ n ih =>
    cases ds with
    | nil => exact absurd rfl h0
    | cons d ds =>
      simp only [List.length_cons] at hn
      rw [topPos_cons, nonzeros_cons, digitsVal]
      rw [nonzeros_cons] at h0
      by_cases hz : d = 0
      · rw [if_pos hz, Nat.add_zero] at h0
        obtain ⟨i1, i2⟩ := ih ds (by omega) (fun e he => hd e (List.mem_cons_of_mem _ he)) ha.2 h0
        rw [if_pos h0, if_pos hz, hz]
        refine ⟨?_, by simp only [Nat.add_zero]; omega⟩
        rw [zero_add, abs_mul, abs_two, pow_succ]
        linarith
      · rw [if_neg hz]
        obtain ⟨hd1, hd2⟩ := (hd d List.mem_cons_self).resolve_left hz
        have habs : 1 ≤ |d| := Int.one_le_abs hz
        by_cases hns : nonzeros ds = 0
        · rw [digitsVal_of_nonzeros hns, if_neg (by simpa using hns), hns]
          refine ⟨?_, by omega⟩
          rw [mul_zero, add_zero, pow_zero]
          omega
        · rw [if_pos hns]
          obtain ⟨z1, z2, z3⟩ := leading_zeros w ds (ha.1 hz)
          have hne : nonzeros (ds.drop w) ≠ 0 := by rwa [← z1]
          obtain ⟨i1, i2⟩ := ih (ds.drop w) (by rw [List.length_drop]; omega)
            (fun e he => hd e (List.mem_cons_of_mem _ (List.mem_of_mem_drop he))) (nonAdjacent_drop w w ds ha.2) hne
          rw [z3 hns, z2, z1]
          refine ⟨?_, by rw [Nat.add_mul]; omega⟩
          set v := digitsVal (ds.drop w)
          set t := topPos (ds.drop w)
          have e1 : |2 * (2 ^ w * v)| - |d| ≤ |d + 2 * (2 ^ w * v)| := by
            have := abs_sub_abs_le_abs_sub (2 * (2 ^ w * v)) (-d)
            rw [abs_neg, sub_neg_eq_add, add_comm (2 * (2 ^ w * v)) d] at this
            exact this
          have e2 : |2 * (2 ^ w * v)| = 2 ^ w * (2 * |v|) := by
            rw [abs_mul, abs_mul, abs_two, abs_of_pos (by positivity : (0 : Int) < 2 ^ w)]; ring
          have e3 : (2 : Int) ^ w * (2 ^ t + 1) ≤ 2 ^ w * (2 * |v|) := mul_le_mul_of_nonneg_left (by omega) (by positivity)
          have e4 : (2 : Int) ^ (t + w + 1) = 2 * (2 ^ w * 2 ^ t) := by rw [pow_succ, pow_add]; ring
          rw [e4]
          have : (0 : Int) < 2 ^ w := by positivity
          nlinarith

theorem fixedWindowWnafExp_costs (w : Nat) (hw1 : 1 ≤ w) (hw : w < 30) (base : G) (k : List Limb)
    (hk : val k + 2 ^ w ≤ 2 ^ (64 * k.length)) :
    (fixedWindowWnafExp w base k).Costs (Libff.fixedWindowWnafExp w base k)
      (fun n => n.add ≤ 2 ^ (w - 1) + (val k).size / (w + 1) + 1 ∧ n.dbl ≤ (val k).size + 1) := by
  obtain ⟨ds, h1, _, h3, h4, h5⟩ := findWnaf_spec w hw1 hw k hk
  unfold fixedWindowWnafExp Libff.fixedWindowWnafExp
  rw [if_neg (by omega), if_neg (by omega), h1]
  refine Costs.bind (g := fun naf => Libff.wnafExpLoop (Libff.oddTable (2 ^ (w - 1)) base (GroupOps.dbl base)) naf.reverse (false, GroupOps.zero))
    (P := (· = ⟨0, 0⟩)) (Q := fun ds n => n = ⟨2 ^ (w - 1) + nonzeros ds, topPos ds + 1⟩) (Costs.lift _ rfl) ?_ ?_
  · intro ds _
    refine Costs.step (dbl_costs base) (Q := fun n => n = ⟨2 ^ (w - 1) + nonzeros ds, topPos ds⟩) ?_ (fun a b ha hb => by
      rw [ha, hb]; ext <;> simp; omega)
    refine Costs.step (oddTable_costs _ _ _) (wnafExpLoop_costs _ _ _ _) (fun a b ha hb => by
      rw [ha, hb, nonzeros_reverse]; ext <;> simp [topPos])
  · intro v a b hv ha hb
    rw [← Outcome.ok.inj hv] at hb
    rw [ha, hb, Calls.nil_add]
    show _ ≤ _ ∧ _ ≤ _
    by_cases h0 : nonzeros ds = 0
    · have : topPos ds = 0 := by
        cases ds with
        | nil => rfl
        | cons d ds =>
          rw [nonzeros_cons] at h0
          rw [topPos_cons, if_neg (by omega)]
      simp only [h0, this]
      generalize (val k).size / (w + 1) = x
      omega
    · obtain ⟨s1, s2⟩ := naf_sparse w hw1 ds.length ds le_rfl h4 h5 h0
      have ht : topPos ds ≤ (val k).size := by
        rw [h3] at s1
        have : (2 : Nat) ^ topPos ds < 2 * val k := by
          have e : |(val k : Int)| = val k := abs_of_nonneg (by positivity)
          rw [e] at s1
          exact_mod_cast s1
        have h2 : 2 * val k < 2 ^ ((val k).size + 1) := by
          have := Nat.lt_size_self (val k)
          rw [pow_succ]; omega
        have := (Nat.pow_lt_pow_iff_right (by norm_num : 1 < 2)).1 (this.trans h2)
        omega
      have hnz : nonzeros ds ≤ (val k).size / (w + 1) + 1 := by
        have h7 : nonzeros ds - 1 ≤ (val k).size / (w + 1) := by
          rw [Nat.le_div_iff_mul_le (by omega), Nat.sub_mul]
          omega
        omega
      constructor <;> simp only <;> omega

theorem optWindowWnafExp_costs (table : List Nat) (ht : table.length < 30) (base : G) (k : List Limb) (bits : Nat)
    (hk : val k + 2 ^ table.length ≤ 2 ^ (64 * k.length)) :
    (optWindowWnafExp table base k bits).Costs (Libff.optWindowWnafExp table base k bits)
      (fun n => n.dbl ≤ (val k).size + 1 ∧
        n.add ≤ if bestWindow bits table.reverse = 0 then numOnes (val k)
          else 2 ^ (bestWindow bits table.reverse - 1) + (val k).size / (bestWindow bits table.reverse + 1) + 1) := by
  have hb : bestWindow bits table.reverse ≤ table.length := by
    have : ∀ t : List Nat, bestWindow bits t ≤ t.length := fun t => by
      induction t with
      | nil => exact Nat.le_refl _
      | cons x t ih => unfold bestWindow; split <;> simp; omega
    simpa using this table.reverse
  unfold optWindowWnafExp Libff.optWindowWnafExp
  generalize bestWindow bits table.reverse = b at hb ⊢
  simp only
  by_cases h : b > 0
  · rw [if_pos h, if_pos h, if_neg (by omega)]
    refine (fixedWindowWnafExp_costs b h (by omega) base k ?_).mono fun n hn => ⟨hn.2, hn.1⟩
    exact le_trans (Nat.add_le_add_left (Nat.pow_le_pow_right (by norm_num) hb) _) hk
  · rw [if_neg h, if_neg h, if_pos (by omega)]
    exact (scalarMul_costs base k).mono fun n hn => by rw [hn]; exact ⟨by simp only; omega, le_rfl⟩

/-! ## Fixed-base windows -/

theorem windowRow_costs (gouter : G) (k : Nat) (g : G) : (windowRow gouter k g).Costs (.ok (Libff.windowRow gouter k g)) (· = ⟨k, 0⟩) := by
  induction k generalizing g with
  | zero => exact Costs.pure _ rfl
  | succ k ih =>
    unfold windowRow Libff.windowRow
    refine Costs.step (add_costs _ _) (Q := (· = ⟨k, 0⟩)) ?_ (fun a b ha hb => by rw [ha, hb]; ext <;> simp; omega)
    exact Costs.step (ih _) (Costs.pure _ (P := (· = ⟨0, 0⟩)) rfl) (fun a b ha hb => by rw [ha, hb]; rfl)

theorem selfAdd_costs (k : Nat) (g : G) : (selfAdd k g).Costs (.ok (Nat.repeat (fun g => GroupOps.add g g) k g)) (· = ⟨k, 0⟩) := by
  induction k with
  | zero => exact Costs.pure _ rfl
  | succ k ih => exact Costs.step ih (add_costs _ _) (fun a b ha hb => by rw [ha, hb]; rfl)

theorem windowRows_costs (window inWindow last k : Nat) (g : G) :
    (windowRows window inWindow last k g).Costs (.ok (Libff.windowRows window inWindow last k g))
      (· = ⟨if k = 0 then 0 else (k - 1) * inWindow + last + k * window, 0⟩) := by
  induction k generalizing g with
  | zero => exact Costs.pure _ rfl
  | succ k ih =>
    unfold windowRows Libff.windowRows
    refine Costs.step (windowRow_costs _ _ _)
      (Q := (· = ⟨window + if k = 0 then 0 else (k - 1) * inWindow + last + k * window, 0⟩)) ?_ (fun a b ha hb => ?_)
    · refine Costs.step (selfAdd_costs _ _) (Q := (· = ⟨if k = 0 then 0 else (k - 1) * inWindow + last + k * window, 0⟩)) ?_
        (fun a b ha hb => by rw [ha, hb]; rfl)
      exact Costs.step (ih _) (Costs.pure _ (P := (· = ⟨0, 0⟩)) rfl) (fun a b ha hb => by rw [ha, hb]; rfl)
    · rw [ha, hb]
      ext
      · cases k with
        | zero => simp
        | succ k => simp; ring
      · rfl

theorem getWindowTable_costs (scalarSize window : Nat) (g : G) (hs : 0 < scalarSize) :
    (getWindowTable scalarSize window g).Costs (Libff.getWindowTable scalarSize window g)
      (· = ⟨((scalarSize + window - 1) / window - 1) * 2 ^ window +
        2 ^ (scalarSize - ((scalarSize + window - 1) / window - 1) * window) + (scalarSize + window - 1) / window * window, 0⟩) := by
  unfold getWindowTable Libff.getWindowTable
  by_cases h : window = 0 ∨ 64 ≤ window
  · rw [if_pos h, if_pos h]; exact Costs.lift_ub
  · rw [if_neg h, if_neg h]
    refine (windowRows_costs _ _ _ _ _).mono fun n hn => ?_
    have : (scalarSize + window - 1) / window ≠ 0 := by
      have := Nat.div_pos (by omega : window ≤ scalarSize + window - 1) (by omega); omega
    rw [hn, if_neg this]

theorem windowedLoop_costs (window : Nat) (e : List Limb) (rows : List (List G)) (outer : Nat) (res : G) :
    (windowedLoop window e rows outer res).Costs (Libff.windowedLoop window e rows outer res) (· = ⟨rows.length, 0⟩) := by
  induction rows generalizing outer res with
  | nil => exact Costs.pure _ rfl
  | cons row rows ih =>
    unfold windowedLoop Libff.windowedLoop
    cases row[windowId e (outer * window) window]? with
    | none => exact Costs.lift_ub
    | some t => exact Costs.step (add_costs _ _) (ih _ _) (fun a b ha hb => by rw [ha, hb]; ext <;> simp; omega)

theorem windowedExp_costs (scalarSize window : Nat) (table : List (List G)) (e : List Limb) :
    (windowedExp scalarSize window table e).Costs (Libff.windowedExp scalarSize window table e)
      (· = ⟨(scalarSize + window - 1) / window, 0⟩) := by
  unfold windowedExp Libff.windowedExp
  by_cases h : window = 0 ∨ 32 < window
  · rw [if_pos h, if_pos h]; exact Costs.lift_ub
  · rw [if_neg h, if_neg h]
    simp only
    by_cases hl : table.length < (scalarSize + window - 1) / window
    · rw [if_pos hl, if_pos hl]; exact Costs.lift_ub
    · rw [if_neg hl, if_neg hl]
      match table, hl with
      | [], _ => exact Costs.lift_ub
      | [] :: _, _ => exact Costs.lift_ub
      | (t00 :: row) :: rows, hl =>
        refine (windowedLoop_costs _ _ _ _ _).mono fun n hn => ?_
        rw [hn, List.length_take, Nat.min_eq_left (by omega)]

theorem runBatch_costs {S : Type} (toB : S → List Limb) (scalarSize window : Nat) (table : List (List G)) (scalar : Nat → Option S)
    (order : List Nat) (res : List G) :
    (runBatch toB scalarSize window table scalar order res).Costs (Libff.runBatch toB scalarSize window table scalar order res)
      (· = ⟨order.length * ((scalarSize + window - 1) / window), 0⟩) := by
  induction order generalizing res with
  | nil => exact Costs.pure _ (by simp)
  | cons i is ih =>
    unfold runBatch Libff.runBatch
    cases scalar i with
    | none => exact Costs.lift_ub
    | some s =>
      refine Costs.bind (windowedExp_costs _ _ _ _) (fun v _ => ih _) (fun v a b _ ha hb => ?_)
      rw [ha, hb]
      ext
      · simp [Nat.succ_mul, Nat.add_comm]
      · rfl

/-! ## Multi-exponentiation -/

theorem runChunks_costs {S : Type} {inner : List G → List S → Run G} {innerO : List G → List S → Outcome G} {A D : List G → List S → Nat}
    (hi : ∀ gs ss, (inner gs ss).Costs (innerO gs ss) (fun n => n.add ≤ A gs ss ∧ n.dbl ≤ D gs ss))
    (bases : List G) (scalars : List S) (one chunks : Nat) (order : List Nat) (part : List G) :
    (runChunks inner bases scalars one chunks order part).Costs (Libff.runChunks innerO bases scalars one chunks order part)
      (fun n => n.add ≤ (order.map fun i => A (chunkOf bases one chunks i) (chunkOf scalars one chunks i)).sum ∧
        n.dbl ≤ (order.map fun i => D (chunkOf bases one chunks i) (chunkOf scalars one chunks i)).sum) := by
  induction order generalizing part with
  | nil => exact Costs.pure _ (by simp)
  | cons i is ih =>
    unfold runChunks Libff.runChunks
    refine Costs.bind (hi _ _) (fun v _ => ih _) (fun v a b _ ha hb => ?_)
    rw [List.map_cons, List.sum_cons, List.map_cons, List.sum_cons]
    exact ⟨Nat.add_le_add ha.1 hb.1, Nat.add_le_add ha.2 hb.2⟩

theorem addAll_costs (part : List G) (acc : G) :
    (addAll part acc).Costs (.ok (part.foldl GroupOps.add acc)) (· = ⟨part.length, 0⟩) := by
  induction part generalizing acc with
  | nil => exact Costs.pure _ rfl
  | cons p ps ih =>
    exact Costs.step (add_costs _ _) (ih _) (fun a b ha hb => by rw [ha, hb]; ext <;> simp; omega)

theorem runChunks_ok_length {S : Type} (innerO : List G → List S → Outcome G) (bases : List G) (scalars : List S) (one chunks : Nat)
    (order : List Nat) (part r : List G) (h : Libff.runChunks innerO bases scalars one chunks order part = .ok r) :
    r.length = part.length := by
  induction order generalizing part with
  | nil => rw [← Outcome.ok.inj h]
  | cons i is ih =>
    unfold Libff.runChunks at h
    cases hc : innerO (chunkOf bases one chunks i) (chunkOf scalars one chunks i) with
    | ok t => rw [hc] at h; rw [ih _ h, List.length_set]
    | abort => rw [hc] at h; exact absurd h (by simp)
    | ub => rw [hc] at h; exact absurd h (by simp)


theorem multiExpPlain_costs {S : Type} (toB : S → List Limb) (debug : Bool) (bases : List G) (scalars : List S) (res : G) :
    (naiveLoop debug (fun s g => scalarMul g (toB s)) bases scalars res).Costs
      (Libff.naiveLoop debug (fun s g => .ok (Libff.scalarMul g (toB s))) bases scalars res)
      (fun n => bases.length = scalars.length →
        n = ⟨(scalars.map fun s => numOnes (val (toB s)) + 1).sum, (scalars.map fun s => (val (toB s)).size - 1).sum⟩) := by
  induction bases generalizing scalars res with
  | nil =>
    cases scalars with
    | nil => exact Costs.pure _ (fun _ => rfl)
    | cons s ss =>
      unfold naiveLoop Libff.naiveLoop
      cases debug
      · exact Costs.pure _ (fun h => by simp at h)
      · exact Costs.lift_abort
  | cons g gs ih =>
    cases scalars with
    | nil => exact Costs.lift_ub
    | cons s ss =>
      unfold naiveLoop Libff.naiveLoop
      refine Costs.step (scalarMul_costs g (toB s)) (Q := fun n => gs.length = ss.length → n = ⟨1 + (ss.map fun s => numOnes (val (toB s)) + 1).sum,
        (ss.map fun s => (val (toB s)).size - 1).sum⟩) ?_ (fun a b ha hb h => ?_)
      · exact Costs.step (add_costs _ _) (ih _ _) (fun a b ha hb h => by rw [ha, hb h]; ext <;> simp)
      · rw [ha, hb (by simpa using h)]
        ext
        · simp; omega
        · simp

theorem addTo_costs (p : G × Bool) (q : G) :
    (addTo p q).Costs (.ok (if p.2 then GroupOps.add p.1 q else q)) (fun n => n.add ≤ 1 ∧ n.dbl = 0) := by
  unfold addTo
  cases p.2
  · exact Costs.pure _ ⟨by simp, rfl⟩
  · exact (add_costs _ _).mono fun n hn => by rw [hn]; exact ⟨le_rfl, rfl⟩

theorem fillBuckets_costs (c k : Nat) (bases : List G) (exps : List (List Limb)) (buckets : List (G × Bool)) :
    (fillBuckets c k bases exps buckets).Costs (Libff.fillBuckets plainAdd c k bases exps buckets)
      (fun n => n.add ≤ bases.length ∧ n.dbl = 0) := by
  induction bases generalizing exps buckets with
  | nil => exact Costs.pure _ ⟨by simp, rfl⟩
  | cons g gs ih =>
    cases exps with
    | nil => exact Costs.lift_ub
    | cons e es =>
      unfold fillBuckets Libff.fillBuckets
      simp only
      by_cases h : windowId e (k * c) c = 0
      · rw [if_pos h, if_pos h]
        exact (ih _ _).mono fun n hn => ⟨by simp; omega, hn.2⟩
      · rw [if_neg h, if_neg h]
        cases buckets[windowId e (k * c) c]? with
        | none => exact Costs.lift_ub
        | some b =>
          have e1 : (if b.2 = true then plainAdd b.1 g else .ok g) = .ok (if b.2 then GroupOps.add b.1 g else g) := by
            cases b.2 <;> rfl
          simp only [e1]
          exact Costs.step (addTo_costs _ _) (ih _ _) (fun x y hx hy => ⟨by simp; omega, by simp; omega⟩)

theorem accumulate_costs (sum b : G × Bool) :
    (accumulate sum b).Costs (.ok (if b.2 then (if sum.2 then GroupOps.add sum.1 b.1 else b.1, true) else sum))
      (fun n => n.add ≤ 1 ∧ n.dbl = 0) := by
  unfold accumulate
  cases b.2
  · exact Costs.pure _ ⟨by simp, rfl⟩
  · exact Costs.step (addTo_costs _ _) (Costs.pure _ (P := (· = ⟨0, 0⟩)) rfl) (fun x y hx hy => by
      rw [hy]; exact hx)

theorem sumBuckets_costs (bs : List (G × Bool)) (running result : G × Bool) :
    (sumBuckets bs running result).Costs (Libff.sumBuckets plainAdd bs running result)
      (fun n => n.add ≤ 2 * bs.length ∧ n.dbl = 0) := by
  induction bs generalizing running result with
  | nil => exact Costs.pure _ ⟨by simp, rfl⟩
  | cons b bs ih =>
    unfold sumBuckets Libff.sumBuckets
    have e1 : (if b.2 = true then (if running.2 = true then plainAdd running.1 b.1 else .ok b.1).map (·, true) else .ok running) =
        .ok (if b.2 then (if running.2 then GroupOps.add running.1 b.1 else b.1, true) else running) := by
      cases b.2 <;> cases running.2 <;> rfl
    simp only [e1, Outcome.bind_ok]
    refine Costs.step (accumulate_costs _ _) (Q := fun n => n.add ≤ 2 * bs.length + 1 ∧ n.dbl = 0) ?_ (fun x y hx hy => ⟨by simp; omega, by simp; omega⟩)
    exact Costs.step (accumulate_costs _ _) (ih _ _) (fun x y hx hy => ⟨by simp; omega, by simp; omega⟩)

theorem dblN_costs (c : Nat) (g : G) : (dblN c g).Costs (.ok (Libff.dblN c g)) (· = ⟨0, c⟩) := by
  induction c generalizing g with
  | zero => exact Costs.pure _ rfl
  | succ c ih => exact Costs.step (dbl_costs _) (ih _) (fun a b ha hb => by rw [ha, hb]; ext <;> simp; omega)

theorem fillBuckets_ok_length (c k : Nat) (bases : List G) (exps : List (List Limb)) (buckets b' : List (G × Bool))
    (h : Libff.fillBuckets plainAdd c k bases exps buckets = .ok b') : b'.length = buckets.length := by
  induction bases generalizing exps buckets with
  | nil => rw [← Outcome.ok.inj h]
  | cons g gs ih =>
    cases exps with
    | nil => cases h
    | cons e es =>
      unfold Libff.fillBuckets at h
      simp only at h
      by_cases h0 : windowId e (k * c) c = 0
      · rw [if_pos h0] at h; exact ih _ _ h
      · rw [if_neg h0] at h
        cases hb : buckets[windowId e (k * c) c]? with
        | none => rw [hb] at h; cases h
        | some b =>
          rw [hb] at h
          have e1 : (if b.2 = true then plainAdd b.1 g else .ok g) = .ok (if b.2 then GroupOps.add b.1 g else g) := by
            cases b.2 <;> rfl
          simp only [e1, Outcome.bind_ok] at h
          rw [ih _ _ h, List.length_set]

theorem bdloLoop_costs (c : Nat) (bases : List G) (exps : List (List Limb)) (k : Nat) (result : G × Bool) :
    (bdloLoop c bases exps k result).Costs (Libff.bdloLoop plainAdd (fun l => .ok l) c bases exps k result)
      (fun n => n.add ≤ k * (bases.length + 2 * (2 ^ c - 1)) ∧ n.dbl ≤ (if result.2 then k else k - 1) * c) := by
  induction k generalizing result with
  | zero => exact Costs.pure _ (by simp)
  | succ k ih =>
    unfold bdloLoop Libff.bdloLoop
    simp only
    have e1 : (if result.2 = true then (Libff.dblN c result.1, true) else result) =
        (Libff.dblN (if result.2 then c else 0) result.1, result.2) := by
      obtain ⟨r, b⟩ := result
      cases b <;> rfl
    rw [e1]
    refine Costs.step (dblN_costs _ _) (Q := fun n => n.add ≤ (k + 1) * (bases.length + 2 * (2 ^ c - 1)) ∧ n.dbl ≤ k * c) ?_
      (fun a b ha hb => ?_)
    · refine Costs.bind (fillBuckets_costs _ _ _ _ _)
        (Q := fun _ n => n.add ≤ 2 * (2 ^ c - 1) + k * (bases.length + 2 * (2 ^ c - 1)) ∧ n.dbl ≤ k * c) (fun bs hbs => ?_)
        (fun _ a b _ ha hb => ⟨by simp only [Calls.add_add]; rw [Nat.add_mul]; omega, by simp only [Calls.add_dbl]; omega⟩)
      have hl : bs.tail.reverse.length = 2 ^ c - 1 := by
        rw [List.length_reverse, List.length_tail, fillBuckets_ok_length _ _ _ _ _ _ hbs, List.length_replicate]
      have hz : (bs.map Prod.fst).zip (bs.map Prod.snd) = bs := by
        rw [List.zip_map', List.map_id'']; intro x; rfl
      simp only [Outcome.bind_ok, hz]
      refine Costs.bind (sumBuckets_costs _ _ _) (fun r _ => ih r) (fun r a b _ ha hb => ⟨?_, ?_⟩)
      · rw [hl] at ha
        simp only [Calls.add_add]; omega
      · have : (if r.2 = true then k else k - 1) * c ≤ k * c := Nat.mul_le_mul_right _ (by split <;> omega)
        simp only [Calls.add_dbl]; omega
    · rw [ha]
      refine ⟨by simp only [Calls.add_add]; omega, ?_⟩
      simp only [Calls.add_dbl]
      cases result.2
      · simpa using hb.2
      · simp only [if_true]; rw [Nat.add_mul]; omega

end Run

/-! ## Batch inversion -/

section
open CM
variable {C K : Type} [Zero K] [One K] [DecidableEq K] [Mul K] [InverseO K] {F : CField C K} {κ : Counters C}

theorem batchProductsC_apply (hF : ∀ x y s, F.mul x y s = .ok (x * y, fun c k => s c k + κ c k)) (debug : Bool) (vec : List K) (acc : K)
    (s : Counters C) :
    batchProductsC F debug vec acc s = (batchProducts debug vec acc).map (·, fun c k => s c k + vec.length * κ c k) := by
  induction vec generalizing acc s with
  | nil =>
    show Outcome.ok _ = Outcome.ok _
    simp
  | cons el els ih =>
    unfold batchProductsC batchProducts
    by_cases h : debug = true ∧ el = 0
    · rw [if_pos h, if_pos h]; rfl
    · rw [if_neg h, if_neg h, bind_apply, hF, Outcome.bind_ok, bind_apply, ih]
      cases batchProducts debug els (acc * el) with
      | ok r =>
        show Outcome.ok _ = Outcome.ok _
        congr 2
        funext c k
        simp only [List.length_cons]; push_cast; ring
      | abort => rfl
      | ub => rfl

theorem batchBackC_apply (hF : ∀ x y s, F.mul x y s = .ok (x * y, fun c k => s c k + κ c k)) (l : List (K × K)) (a : K)
    (s : Counters C) : batchBackC F l a s = .ok (batchBack l a, fun c k => s c k + 2 * l.length * κ c k) := by
  induction l generalizing a s with
  | nil =>
    show Outcome.ok _ = Outcome.ok _
    simp [batchBack]
  | cons p l ih =>
    unfold batchBackC batchBack
    rw [bind_apply, hF, Outcome.bind_ok, bind_apply, hF, Outcome.bind_ok, bind_apply, ih]
    show Outcome.ok _ = Outcome.ok _
    congr 2
    funext c k
    simp only [List.length_cons]; push_cast; ring

theorem batchProducts_ok_length (debug : Bool) (vec : List K) (acc : K) (r : List K × K) (h : batchProducts debug vec acc = .ok r) :
    r.1.length = vec.length := by
  induction vec generalizing acc r with
  | nil => rw [← Outcome.ok.inj h]
  | cons el els ih =>
    unfold batchProducts at h
    by_cases h0 : debug = true ∧ el = 0
    · rw [if_pos h0] at h; cases h
    · rw [if_neg h0] at h
      cases hr : batchProducts debug els (acc * el) with
      | ok r' =>
        rw [hr] at h
        rw [← Outcome.ok.inj h]
        show _ + 1 = _ + 1
        rw [ih _ _ hr]
      | abort => rw [hr] at h; cases h
      | ub => rw [hr] at h; cases h

theorem batchInvertC_apply {κi : Counters C} (hF : ∀ x y s, F.mul x y s = .ok (x * y, fun c k => s c k + κ c k))
    (hi : ∀ x s, F.inverse x s = (inverseO x).map (·, fun c k => s c k + κi c k)) (debug : Bool) (vec : List K) (s : Counters C) :
    batchInvertC F debug vec s = (batchInvert debug vec).map (·, fun c k => s c k + (3 * vec.length * κ c k + κi c k)) := by
  unfold batchInvertC batchInvert
  rw [bind_apply, batchProductsC_apply hF]
  cases h : batchProducts debug vec 1 with
  | ok r =>
    obtain ⟨prod, acc⟩ := r
    have hl := batchProducts_ok_length _ _ _ _ h
    simp only [Outcome.map_ok, Outcome.bind_ok]
    rw [bind_apply, hi]
    cases inverseO acc with
    | ok v =>
      simp only [Outcome.map_ok, Outcome.bind_ok]
      rw [bind_apply, batchBackC_apply hF, Outcome.bind_ok]
      show Outcome.ok _ = Outcome.ok _
      congr 2
      funext c k
      have e : (vec.zip prod).reverse.length = vec.length := by
        rw [List.length_reverse, List.length_zip]
        have : prod.length = vec.length := hl
        omega
      rw [e]; ring
    | abort => rfl
    | ub => rfl
  | abort => rfl
  | ub => rfl

omit [Zero K] [DecidableEq K] [InverseO K] in
theorem Jac.scaleAllC_apply [Squared K] {κs : Counters C} (hF : ∀ x y s, F.mul x y s = .ok (x * y, fun c k => s c k + κ c k))
    (hs : ∀ x s, F.squared x s = .ok (squared x, fun c k => s c k + κs c k)) (vec : List (Coord3 K)) (zs : List K)
    (hl : vec.length = zs.length) (s : Counters C) :
    Jac.scaleAllC F vec zs s = .ok (Jac.scaleAll vec zs, fun c k => s c k + vec.length * (κs c k + 3 * κ c k)) := by
  induction vec generalizing zs s with
  | nil =>
    show Outcome.ok _ = Outcome.ok _
    simp [Jac.scaleAll]
  | cons p ps ih =>
    cases zs with
    | nil => simp at hl
    | cons z zs =>
      unfold Jac.scaleAllC Jac.scaleAll
      simp only [bind_apply, hs, hF, Outcome.bind_ok, ih zs (by simpa using hl)]
      show Outcome.ok _ = Outcome.ok _
      congr 2
      funext c k
      simp only [List.length_cons]; push_cast; ring

omit [Zero K] [DecidableEq K] [InverseO K] in
theorem Proj.scaleAllC_apply (hF : ∀ x y s, F.mul x y s = .ok (x * y, fun c k => s c k + κ c k)) (vec : List (Coord3 K)) (zs : List K)
    (hl : vec.length = zs.length) (s : Counters C) :
    Proj.scaleAllC F vec zs s = .ok (Proj.scaleAll vec zs, fun c k => s c k + vec.length * (2 * κ c k)) := by
  induction vec generalizing zs s with
  | nil =>
    show Outcome.ok _ = Outcome.ok _
    simp [Proj.scaleAll]
  | cons p ps ih =>
    cases zs with
    | nil => simp at hl
    | cons z zs =>
      unfold Proj.scaleAllC Proj.scaleAll
      simp only [bind_apply, hF, Outcome.bind_ok, ih zs (by simpa using hl)]
      show Outcome.ok _ = Outcome.ok _
      congr 2
      funext c k
      simp only [List.length_cons]; push_cast; ring

omit [Zero K] [One K] [DecidableEq K] [InverseO K] in
theorem batchBack_length' (l : List (K × K)) (a : K) : (batchBack l a).length = l.length := by
  induction l generalizing a with
  | nil => rfl
  | cons p l ih => unfold batchBack; simp [ih]

theorem batchInvert_ok_length (debug : Bool) (vec v : List K) (h : batchInvert debug vec = .ok v) : v.length = vec.length := by
  unfold batchInvert at h
  cases hp : batchProducts debug vec 1 with
  | ok r =>
    obtain ⟨prod, acc⟩ := r
    have hl : prod.length = vec.length := batchProducts_ok_length _ _ _ _ hp
    rw [hp] at h
    simp only [Outcome.bind_ok] at h
    cases hi : inverseO acc with
    | ok i =>
      rw [hi] at h
      rw [← Outcome.ok.inj h, List.length_reverse, batchBack_length', List.length_reverse, List.length_zip]
      omega
    | abort => rw [hi] at h; cases h
    | ub => rw [hi] at h; cases h
  | abort => rw [hp] at h; cases h
  | ub => rw [hp] at h; cases h

end
end Libff
