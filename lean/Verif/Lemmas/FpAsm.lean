import Verif.Model.FpAsm
import Verif.Lemmas.X86Chain
import Verif.Lemmas.FpRepr
import Verif.Spec.FpParams

/-! # The assembly of addition, subtraction and the final conditional subtraction -/
namespace Libff.X86

/-- Addition, for `n` words. -/
def addProg (n : Nat) : List Instr := addChain .B .A n ++ .jmp .carry .subtract :: condSub .mod .A n

/-- Subtraction, for `n` words. -/
def subProg (n : Nat) : List Instr := subChain .B .A n ++ .jmp .noCarry .done :: (addChain .mod .A n ++ [.label .done])

theorem addProg3_eq : addProg3 = addProg 3 := rfl
theorem addProg4_eq : addProg4 = addProg 4 := rfl
theorem addProg5_eq : addProg5 = addProg 5 := rfl
theorem subProg3_eq : subProg3 = subProg 3 := rfl
theorem subProg4_eq : subProg4 = subProg 4 := rfl
theorem subProg5_eq : subProg5 = subProg 5 := rfl
theorem condSubProg3_eq : condSubProg3 = condSub .M .tmp 3 := rfl

theorem addProg_spec (e : Env) (a b m : List Limb) (s : State) (h0 : a ≠ []) (hb : b.length = a.length) (hm : m.length = a.length)
    (hA : s.mem (e .A).1 = a) (hA0 : (e .A).2 = 0) (hB : Reads e s .B .A 0 a b) (hM : s.mem (e .mod).1 = m) (hM0 : (e .mod).2 = 0)
    (hne : (e .mod).1 ≠ (e .A).1) (ha' : val a < val m) (hb' : val b < val m) :
    WP e (addProg a.length) none s fun s' =>
      ∃ r, s'.mem (e .A).1 = r ∧ r.length = a.length ∧ val r = (val a + val b) % val m := by
  have hmlt := val_lt m
  rw [hm] at hmlt
  refine addChain_spec e _ _ .B .A a b s [] [] h0 hb (by simpa using hA) hA0.symm hB (fun s1 r h1 h2 h3 h4 => ?_)
  have hr := val_lt r
  rw [h2] at hr
  have hM1 : s1.mem (e .mod).1 = [] ++ (m ++ []) := by rw [h3 _ hne, hM]; simp
  have hr0 : r ≠ [] := fun h => h0 (List.length_eq_zero_iff.1 (by rw [← h2, h]; rfl))
  refine WP.jmp_carry (fun hc => ?_) (fun hc => ?_)
  · rw [hc] at h4
    refine WP.skip (cmpChain_noLabel _ _ _) (WP.label_hit ?_)
    rw [← h2]
    refine subDone_spec e .mod .A _ r m s1 [] [] [] [] hr0 (hm.trans h2.symm) h1 hA0.symm hM1 hM0.symm hne
      (fun s2 r2 g1 g2 g3 g4 => ⟨r2, by simpa using g1, g2, ?_⟩)
    have hr2 := val_lt r2
    rw [g2, h2] at hr2
    rw [h2] at g4
    rw [Nat.mod_eq_sub_mod (by simp at h4; omega), Nat.mod_eq_of_lt (by omega)]
    cases hc2 : s2.cf <;> rw [hc2] at g4 <;> simp at h4 g4 <;> omega
  · rw [hc] at h4
    rw [← h2]
    refine condSub_spec e .mod .A _ r m s1 [] [] [] [] hr0 (hm.trans h2.symm) h1 hA0.symm hM1 hM0.symm hne
      (fun s2 r2 g1 g2 g3 g4 => ⟨r2, by simpa using g1, g2, ?_⟩)
    simp at h4
    rw [g4, ← h4]
    split_ifs with h
    · rw [Nat.mod_eq_of_lt h]
    · rw [Nat.mod_eq_sub_mod (by omega), Nat.mod_eq_of_lt (by omega)]

theorem subProg_spec (e : Env) (a b m : List Limb) (s : State) (h0 : a ≠ []) (hb : b.length = a.length) (hm : m.length = a.length)
    (hA : s.mem (e .A).1 = a) (hA0 : (e .A).2 = 0) (hB : Reads e s .B .A 0 a b) (hM : s.mem (e .mod).1 = m) (hM0 : (e .mod).2 = 0)
    (hne : (e .mod).1 ≠ (e .A).1) (ha' : val a < val m) (hb' : val b < val m) :
    WP e (subProg a.length) none s fun s' =>
      ∃ r, s'.mem (e .A).1 = r ∧ r.length = a.length ∧ val r = (val a + val m - val b) % val m := by
  have hmlt := val_lt m
  rw [hm] at hmlt
  refine subChain_spec e _ _ .B .A a b s [] [] h0 hb (by simpa using hA) hA0.symm hB (fun s1 r h1 h2 h3 h4 => ?_)
  have hr := val_lt r
  rw [h2] at hr
  have hM1 : s1.mem (e .mod).1 = [] ++ (m ++ []) := by rw [h3 _ hne, hM]; simp
  have hr0 : r ≠ [] := fun h => h0 (List.length_eq_zero_iff.1 (by rw [← h2, h]; rfl))
  refine WP.jmp_noCarry (fun hc => ?_) (fun hc => ?_)
  · rw [hc] at h4
    rw [← h2]
    refine addChain_spec e _ _ .mod .A r m s1 [] [] hr0 (hm.trans h2.symm) h1 hA0.symm
      (.inl ⟨hne, [], [], hM1, hM0.symm⟩)
      (fun s2 r2 g1 g2 g3 g4 => WP.label (WP.nil ⟨r2, by simpa using g1, g2, ?_⟩))
    have hr2 := val_lt r2
    rw [g2, h2] at hr2
    rw [h2] at g4
    simp at h4
    rw [Nat.mod_eq_of_lt (by omega)]
    cases hc2 : s2.cf <;> rw [hc2] at g4 <;> simp at g4 <;> omega
  · rw [hc] at h4
    refine WP.skip (addChain_noLabel _ _ _) (WP.label_hit (WP.nil ⟨r, by simpa using h1, h2, ?_⟩))
    simp at h4
    rw [Nat.mod_eq_sub_mod (by omega), Nat.mod_eq_of_lt (by omega)]
    omega

/-- From a weakest precondition to the outcome of the function. -/
theorem WP.map_eq {α : Type} {e : Env} {is : List Instr} {s : State} {Q : State → Prop} {f : State → α} {v : α} (h : WP e is none s Q)
    (k : ∀ s', Q s' → f s' = v) : (exec e is none s).map f = .ok v := by
  obtain ⟨s', h1, h2⟩ := h
  rw [h1, ← k s' h2]
  rfl

theorem reads_start (J : Junk) (same : Bool) (o : Nat) (binds : List (Reg × Limb)) (a b m t : List Limb) (hs : same = true → b = a) :
    Reads (asmEnv same o) (J.start binds (asmMem a b m t)) .B .A 0 a b := by
  cases same with
  | true => exact .inr ⟨rfl, hs rfl⟩
  | false => exact .inl ⟨by simp [asmEnv], [], [], by simp [asmEnv, Junk.start, asmMem], rfl⟩

end Libff.X86

namespace Libff
open X86

theorem asmAddAssign_eq (P : FpParams) (hlen : P.modulus.length = P.n) (J : Junk) (same : Bool) (a b : List Limb) (ha : a.length = P.n)
    (hb : b.length = P.n) (hap : val a < P.p) (hbp : val b < P.p) (hs : same = true → b = a) :
    asmAddAssign P J same a b = addAssign P a b := by
  obtain ⟨r, hr, hr1, hr2⟩ := addAssign_spec P hlen a b ha hb hap hbp
  have main : 0 < P.n → (exec (asmEnv same 0) (X86.addProg P.n) none (J.start [] (asmMem a b P.modulus []))).map (·.mem 0) = addAssign P a b := by
    intro hn
    have h0 : a ≠ [] := fun h => by rw [h] at ha; simp at ha; omega
    have h := addProg_spec (asmEnv same 0) a b P.modulus (J.start [] (asmMem a b P.modulus [])) h0 (hb.trans ha.symm) (hlen.trans ha.symm) rfl rfl
      (reads_start J same 0 [] a b P.modulus [] hs) rfl rfl (by simp [asmEnv]) hap hbp
    rw [ha] at h
    rw [hr]
    refine h.map_eq (fun s' ⟨r', g1, g2, g3⟩ => ?_)
    show s'.mem 0 = r
    rw [show s'.mem 0 = r' from g1]
    exact val_inj (by rw [g2, hr1]) (g3.trans hr2.symm)
  unfold asmAddAssign
  simp only
  split_ifs with h h h
  · rw [addProg3_eq, ← main (by omega), h]
  · rw [addProg4_eq, ← main (by omega), h]
  · rw [addProg5_eq, ← main (by omega), h]
  · rfl

theorem asmSubAssign_eq (P : FpParams) (hlen : P.modulus.length = P.n) (J : Junk) (same : Bool) (a b : List Limb) (ha : a.length = P.n)
    (hb : b.length = P.n) (hap : val a < P.p) (hbp : val b < P.p) (hs : same = true → b = a) :
    asmSubAssign P J same a b = subAssign P a b := by
  obtain ⟨r, hr, hr1, hr2⟩ := subAssign_spec P hlen a b ha hb hap hbp
  have main : 0 < P.n → (exec (asmEnv same 0) (X86.subProg P.n) none (J.start [] (asmMem a b P.modulus []))).map (·.mem 0) = subAssign P a b := by
    intro hn
    have h0 : a ≠ [] := fun h => by rw [h] at ha; simp at ha; omega
    have h := subProg_spec (asmEnv same 0) a b P.modulus (J.start [] (asmMem a b P.modulus [])) h0 (hb.trans ha.symm) (hlen.trans ha.symm) rfl rfl
      (reads_start J same 0 [] a b P.modulus [] hs) rfl rfl (by simp [asmEnv]) hap hbp
    rw [ha] at h
    rw [hr]
    refine h.map_eq (fun s' ⟨r', g1, g2, g3⟩ => ?_)
    show s'.mem 0 = r
    rw [show s'.mem 0 = r' from g1]
    exact val_inj (by rw [g2, hr1]) (g3.trans hr2.symm)
  unfold asmSubAssign
  simp only
  split_ifs with h h h
  · rw [subProg3_eq, ← main (by omega), h]
  · rw [subProg4_eq, ← main (by omega), h]
  · rw [subProg5_eq, ← main (by omega), h]
  · rfl

end Libff
