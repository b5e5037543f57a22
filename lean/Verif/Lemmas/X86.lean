import Verif.Model.X86
import Verif.Lemmas.Mpn
import Mathlib.Tactic.Ring

/-!
# Reasoning about runs of the instructions
-/
namespace Libff.X86

theorem addc_spec (x y : Limb) (c : Bool) : (addc x y c).1.toNat + 2 ^ 64 * (addc x y c).2.toNat = x.toNat + y.toNat + c.toNat := by
  have hx := x.isLt
  have hy := y.isLt
  have : c.toNat ≤ 1 := Bool.toNat_le c
  have hc : (if c then (1 : Limb) else 0).toNat = c.toNat := by cases c <;> rfl
  simp only [addc, BitVec.toNat_add, hc]
  by_cases h : 2 ^ 64 ≤ x.toNat + y.toNat + c.toNat
  · simp only [h, decide_true, Bool.toNat_true]; omega
  · simp only [h, decide_false, Bool.toNat_false]; omega

theorem subb_spec (x y : Limb) (c : Bool) : (subb x y c).1.toNat + y.toNat + c.toNat = x.toNat + 2 ^ 64 * (subb x y c).2.toNat := by
  have hx := x.isLt
  have hy := y.isLt
  have : c.toNat ≤ 1 := Bool.toNat_le c
  have hc : (if c then (1 : Limb) else 0).toNat = c.toNat := by cases c <;> rfl
  simp only [subb, BitVec.toNat_sub, hc]
  by_cases h : x.toNat < y.toNat + c.toNat
  · simp only [h, decide_true, Bool.toNat_true]; omega
  · simp only [h, decide_false, Bool.toNat_false]; omega

namespace State
variable (e : Env) (s : State)

@[simp] theorem reg_setFlags (c z) : (s.setFlags c z).reg = s.reg := rfl
@[simp] theorem mem_setFlags (c z) : (s.setFlags c z).mem = s.mem := rfl
@[simp] theorem cf_setFlags (c z) : (s.setFlags c z).cf = c := rfl
@[simp] theorem zf_setFlags (c z) : (s.setFlags c z).zf = z := rfl
@[simp] theorem reg_put_r (r r' : Reg) (v) : (s.put e (.r r) v).reg r' = if r' = r then v else s.reg r' := rfl
@[simp] theorem mem_put_r (r : Reg) (v) : (s.put e (.r r) v).mem = s.mem := rfl
@[simp] theorem reg_put_m (o p v) : (s.put e (.m o p) v).reg = s.reg := rfl
@[simp] theorem mem_put_m (o p v b) : (s.put e (.m o p) v).mem b =
    if b = (e p).1 then (s.mem b).set ((e p).2 + o / 8) v else s.mem b := rfl
@[simp] theorem cf_put (o v) : (s.put e o v).cf = s.cf := by cases o <;> rfl
@[simp] theorem zf_put (o v) : (s.put e o v).zf = s.zf := by cases o <;> rfl
@[simp] theorem get_r (r) : s.get e (.r r) = s.reg r := rfl
@[simp] theorem get_i (v) : s.get e (.i v) = v := rfl
@[simp] theorem get_m (o p) : s.get e (.m o p) = (s.mem (e p).1).getD ((e p).2 + o / 8) 0 := rfl
@[simp] theorem okay_r (r) : s.okay e (.r r) := trivial
@[simp] theorem okay_i (v) : s.okay e (.i v) := trivial
theorem okay_m (o p) : s.okay e (.m o p) ↔ o % 8 = 0 ∧ (e p).2 + o / 8 < (s.mem (e p).1).length := Iff.rfl
@[simp] theorem length_put (o v b) : ((s.put e o v).mem b).length = (s.mem b).length := by
  cases o with
  | r => rfl
  | i => rfl
  | m o p =>
    rw [mem_put_m]
    split_ifs
    · rw [List.length_set]
    · rfl
end State

/-- The run succeeds and its final state satisfies `Q`. -/
def WP (e : Env) (is : List Instr) (o : Option Label) (s : State) (Q : State → Prop) : Prop := ∃ s', exec e is o s = .ok s' ∧ Q s'

/-- The condition that `access` checks. -/
def Acc (e : Env) (s : State) (src dst : Opnd) : Prop :=
  ((src.isMem && dst.isMem) || dst.isImm) = false ∧ s.okay e src ∧ s.okay e dst

theorem access_eq {e : Env} {s : State} {src dst : Opnd} (h : Acc e s src dst) (k : Outcome State) : access e s src dst k = k := by
  unfold access
  rw [if_neg (by rw [h.1]; simp), if_pos h.2]

namespace WP
variable {e : Env} {is : List Instr} {s : State} {Q : State → Prop}

theorem nil (h : Q s) : WP e [] none s Q := ⟨s, rfl, h⟩

theorem step {i : Instr} (hi : ∀ c l, i ≠ .jmp c l) {s' : State} (h : X86.step e s i = .ok s') (k : WP e is none s' Q) : WP e (i :: is) none s Q := by
  obtain ⟨t, ht, hQ⟩ := k
  refine ⟨t, ?_, hQ⟩
  rw [exec, h]
  · exact ht
  · exact hi

theorem movq {src dst : Opnd} (h : Acc e s src dst) (k : WP e is none (s.put e dst (s.get e src)) Q) : WP e (.movq src dst :: is) none s Q :=
  step (by simp) (by rw [X86.step, access_eq h]) k

theorem addq {src dst : Opnd} (h : Acc e s src dst)
    (k : ∀ r c, BitVec.toNat r + 2 ^ 64 * Bool.toNat c = (s.get e dst).toNat + (s.get e src).toNat →
      WP e is none ((s.put e dst r).setFlags c (some (r == 0))) Q) : WP e (.addq src dst :: is) none s Q :=
  step (by simp) (by rw [X86.step, access_eq h]) (k _ _ (addc_spec _ _ _))

theorem adcq {src dst : Opnd} (h : Acc e s src dst)
    (k : ∀ r c, BitVec.toNat r + 2 ^ 64 * Bool.toNat c = (s.get e dst).toNat + (s.get e src).toNat + s.cf.toNat →
      WP e is none ((s.put e dst r).setFlags c (some (r == 0))) Q) : WP e (.adcq src dst :: is) none s Q :=
  step (by simp) (by rw [X86.step, access_eq h]) (k _ _ (addc_spec _ _ _))

theorem subq {src dst : Opnd} (h : Acc e s src dst)
    (k : ∀ r c, BitVec.toNat r + (s.get e src).toNat = (s.get e dst).toNat + 2 ^ 64 * Bool.toNat c →
      WP e is none ((s.put e dst r).setFlags c (some (r == 0))) Q) : WP e (.subq src dst :: is) none s Q :=
  step (by simp) (by rw [X86.step, access_eq h]) (k _ _ (subb_spec _ _ false))

theorem sbbq {src dst : Opnd} (h : Acc e s src dst)
    (k : ∀ r c, BitVec.toNat r + (s.get e src).toNat + s.cf.toNat = (s.get e dst).toNat + 2 ^ 64 * Bool.toNat c →
      WP e is none ((s.put e dst r).setFlags c (some (r == 0))) Q) : WP e (.sbbq src dst :: is) none s Q :=
  step (by simp) (by rw [X86.step, access_eq h]) (k _ _ (subb_spec _ _ _))

theorem cmpq {src dst : Opnd} (h : Acc e s src dst)
    (k : WP e is none (s.setFlags (decide ((s.get e dst).toNat < (s.get e src).toNat)) (some (s.get e dst == s.get e src))) Q) :
    WP e (.cmpq src dst :: is) none s Q := by
  refine step (by simp) (by rw [X86.step, access_eq h]) ?_
  have h1 : (subb (s.get e dst) (s.get e src) false).2 = decide ((s.get e dst).toNat < (s.get e src).toNat) := by simp [subb]
  have h2 : ((subb (s.get e dst) (s.get e src) false).1 == 0) = (s.get e dst == s.get e src) := by
    have h3 : (subb (s.get e dst) (s.get e src) false).1 = s.get e dst - s.get e src := by simp [subb]
    rw [h3, Bool.eq_iff_iff, beq_iff_eq, beq_iff_eq]
    constructor
    · intro h
      bv_omega
    · intro h
      rw [h]
      exact BitVec.sub_self _
  rw [h1, h2]
  exact k

/-- `xorq` of a register with itself. -/
theorem xorq {r : Reg} (k : WP e is none ((s.put e (.r r) 0).setFlags false (some true)) Q) : WP e (.xorq (.r r) (.r r) :: is) none s Q :=
  step (by simp) (by
    have h : Acc e s (.r r) (.r r) := ⟨rfl, trivial, trivial⟩
    rw [X86.step, access_eq h]
    simp only [BitVec.xor_self]
    rfl) k

theorem mulq {src : Opnd} (h : src.isImm = false) (h' : s.okay e src)
    (k : ∀ hi lo c, BitVec.toNat lo + 2 ^ 64 * BitVec.toNat hi = (s.reg .rax).toNat * (s.get e src).toNat →
      WP e is none (((s.put e (.r .rax) lo).put e (.r .rdx) hi).setFlags c none) Q) : WP e (.mulq src :: is) none s Q :=
  step (by simp) (by
    rw [X86.step, if_neg (by rw [h]; simp), if_pos h']) (k _ _ _ (by
      rw [BitVec.toNat_ofNat, BitVec.toNat_ofNat]
      have : (s.reg .rax).toNat * (s.get e src).toNat < 2 ^ 64 * 2 ^ 64 :=
        Nat.mul_lt_mul'' (BitVec.isLt _) (BitVec.isLt _)
      rw [Nat.mod_eq_of_lt (a := _ / _) (Nat.div_lt_of_lt_mul this)]
      exact Nat.mod_add_div _ _))

theorem jmp_carry {l : Label} (k1 : s.cf = true → WP e is (some l) s Q) (k0 : s.cf = false → WP e is none s Q) :
    WP e (.jmp .carry l :: is) none s Q := by
  have h : exec e (.jmp .carry l :: is) none s = exec e is (if s.cf then some l else none) s := rfl
  unfold WP
  rw [h]
  cases hc : s.cf with
  | true => exact k1 hc
  | false => exact k0 hc

theorem jmp_noCarry {l : Label} (k1 : s.cf = true → WP e is none s Q) (k0 : s.cf = false → WP e is (some l) s Q) :
    WP e (.jmp .noCarry l :: is) none s Q := by
  have h : exec e (.jmp .noCarry l :: is) none s = exec e is (if !s.cf then some l else none) s := rfl
  unfold WP
  rw [h]
  cases hc : s.cf with
  | true => exact k1 hc
  | false => exact k0 hc

theorem jmp_above {l : Label} {z : Bool} (hz : s.zf = some z) (k1 : s.cf = false → z = false → WP e is (some l) s Q)
    (k0 : s.cf = true ∨ z = true → WP e is none s Q) : WP e (.jmp .above l :: is) none s Q := by
  have h : exec e (.jmp .above l :: is) none s = exec e is (if (!s.cf && !z) then some l else none) s := by
    rw [exec, Cond.holds, hz]
    rfl
  unfold WP
  rw [h]
  cases hc : s.cf with
  | true => exact k0 (.inl hc)
  | false =>
    cases z with
    | true => exact k0 (.inr rfl)
    | false => exact k1 hc rfl

theorem label {l : Label} (k : WP e is none s Q) : WP e (.label l :: is) none s Q := k
theorem label_hit {l : Label} (k : WP e is none s Q) : WP e (.label l :: is) (some l) s Q := by
  unfold WP
  rw [exec]
  simp only [if_true]
  exact k
theorem label_miss {l l' : Label} (h : l' ≠ l) (k : WP e is (some l) s Q) : WP e (.label l' :: is) (some l) s Q := by
  unfold WP
  rw [exec]
  simp only [if_neg h]
  exact k

/-- Instructions that are skipped. -/
theorem skip {l : Label} : ∀ {blk : List Instr}, (∀ i ∈ blk, ∀ l', i ≠ .label l') → WP e is (some l) s Q → WP e (blk ++ is) (some l) s Q
  | [], _, k => k
  | i :: blk, h, k => by
    have ih := skip (fun i hi => h i (List.mem_cons_of_mem _ hi)) k
    have hi := h i List.mem_cons_self
    obtain ⟨t, ht, hQ⟩ := ih
    refine ⟨t, ?_, hQ⟩
    rw [List.cons_append, exec]
    · exact ht
    · exact hi

end WP
end Libff.X86
