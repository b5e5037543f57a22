import Verif.Spec.Multiexp
import Verif.Lemmas.Group
import Verif.Lemmas.Utils
import Mathlib.Algebra.BigOperators.Group.List.Basic

namespace Libff
open GroupOps

section
variable {G S A : Type*} [GroupOps G] [AddCommGroup A] {ψ : G → A} (toB : S → List Limb)

omit [GroupOps G] in
theorem multiSum_cons (g : G) (gs : List G) (s : S) (ss : List S) :
    multiSum ψ toB (g :: gs) (s :: ss) = val (toB s) • ψ g + multiSum ψ toB gs ss := by
  simp [multiSum]

omit [GroupOps G] in
theorem multiSum_append (gs gs' : List G) (ss ss' : List S) (h : gs.length = ss.length) :
    multiSum ψ toB (gs ++ gs') (ss ++ ss') = multiSum ψ toB gs ss + multiSum ψ toB gs' ss' := by
  simp [multiSum, List.zip_append h]

theorem naiveLoop_spec (hG : ImplementsGroup ψ) (debug : Bool) (exp : S → G → Outcome G) (gs : List G)
    (ss : List S) (hlen : gs.length = ss.length)
    (hexp : ∀ s ∈ ss, ∀ g, ∃ t, exp s g = .ok t ∧ ψ t = val (toB s) • ψ g) (r : G) :
    ∃ t, naiveLoop debug exp gs ss r = .ok t ∧ ψ t = ψ r + multiSum ψ toB gs ss := by
  induction gs generalizing ss r with
  | nil =>
    obtain rfl : ss = [] := List.length_eq_zero_iff.1 hlen.symm
    exact ⟨r, rfl, by simp [multiSum]⟩
  | cons g gs ih =>
    obtain _ | ⟨s, ss⟩ := ss
    · simp at hlen
    obtain ⟨t, h1, h2⟩ := hexp s List.mem_cons_self g
    obtain ⟨t', h3, h4⟩ := ih ss (by simpa using hlen) (fun s hs => hexp s (List.mem_cons_of_mem _ hs))
      (add r t)
    refine ⟨t', ?_, ?_⟩
    · rw [naiveLoop, h1, Outcome.bind_ok, h3]
    · rw [h4, hG.add, h2, multiSum_cons, add_assoc]

/-! ### BDLO12 -/

theorem windowId_eq (e : List Limb) (base j : Nat) : windowId e base j = val e / 2 ^ base % 2 ^ j := by
  induction j with
  | zero => simp [windowId, Nat.mod_one]
  | succ j ih =>
    have hm : val e / 2 ^ base % 2 ^ (j + 1) =
        val e / 2 ^ base % 2 ^ j + 2 ^ j * ((val e).testBit (base + j)).toNat := by
      rw [Nat.mod_pow_succ, Nat.toNat_testBit, Nat.div_div_eq_div_mul, ← pow_add]
    have hlt : val e / 2 ^ base % 2 ^ j < 2 ^ j := Nat.mod_lt _ (Nat.pow_pos (by norm_num))
    rw [windowId, testBit_eq, ih, hm]
    by_cases hb : (val e).testBit (base + j) = true
    · rw [if_pos hb, hb, Nat.lor_comm]
      have := Nat.two_pow_add_eq_or_of_lt hlt 1
      rw [Nat.mul_one] at this
      rw [← this]; simp [Nat.add_comm]
    · rw [if_neg hb]
      have hb' : (val e).testBit (base + j) = false := by simpa using hb
      simp [hb']

/-- `∑ (k + i) · lᵢ`. -/
def wsumFrom (k : Nat) : List A → A
  | [] => 0
  | x :: l => k • x + wsumFrom (k + 1) l

theorem wsumFrom_set (k : Nat) (l : List A) (i : Nat) (y : A) (hi : i < l.length) :
    wsumFrom k (l.set i y) = wsumFrom k l + (k + i) • (y - l[i]) := by
  induction l generalizing k i with
  | nil => simp at hi
  | cons x l ih =>
    cases i with
    | zero => simp only [List.set_cons_zero, wsumFrom, List.getElem_cons_zero, add_zero, nsmul_sub]; abel
    | succ i =>
      simp only [List.set_cons_succ, wsumFrom, List.getElem_cons_succ]
      rw [ih (k + 1) i (by simpa using hi), show k + 1 + i = k + (i + 1) by omega]; abel

theorem wsumFrom_zeros (k : Nat) (l : List A) (h : ∀ x ∈ l, x = 0) : wsumFrom k l = 0 := by
  induction l generalizing k with
  | nil => rfl
  | cons x l ih =>
    rw [wsumFrom, h x List.mem_cons_self, ih (k + 1) (fun y hy => h y (List.mem_cons_of_mem _ hy))]; simp

omit [GroupOps G] in
theorem fillBuckets_spec (addB : G → G → Outcome G) (Special : G → Prop)
    (hadd : ∀ a b, Special b → ∃ r, addB a b = .ok r ∧ ψ r = ψ a + ψ b) (c k : Nat) (gs : List G)
    (hs : ∀ g ∈ gs, Special g) (es : List (List Limb)) (hlen : gs.length = es.length)
    (buckets : List (G × Bool)) (hb : buckets.length = 2 ^ c)
    (hz : ∀ b ∈ buckets, b.2 = false → ψ b.1 = 0) :
    ∃ b', fillBuckets addB c k gs es buckets = .ok b' ∧ b'.length = 2 ^ c ∧
      (∀ b ∈ b', b.2 = false → ψ b.1 = 0) ∧
      wsumFrom 0 (b'.map fun b => ψ b.1) = wsumFrom 0 (buckets.map fun b => ψ b.1) +
        ((gs.zip es).map fun ge => (val ge.2 / 2 ^ (k * c) % 2 ^ c) • ψ ge.1).sum := by
  induction gs generalizing es buckets with
  | nil => exact ⟨buckets, rfl, hb, hz, by simp⟩
  | cons g gs ih =>
    obtain _ | ⟨e, es⟩ := es
    · simp at hlen
    rw [fillBuckets]
    simp only [windowId_eq]
    have hlen' : gs.length = es.length := by simpa using hlen
    have hs' : ∀ g ∈ gs, Special g := fun g hg => hs g (List.mem_cons_of_mem _ hg)
    by_cases h0 : val e / 2 ^ (k * c) % 2 ^ c = 0
    · rw [if_pos h0]
      obtain ⟨b', h1, h2, h3, h4⟩ := ih hs' es hlen' buckets hb hz
      exact ⟨b', h1, h2, h3, by rw [h4]; simp [h0]⟩
    · rw [if_neg h0]
      have hi : val e / 2 ^ (k * c) % 2 ^ c < buckets.length := by
        rw [hb]; exact Nat.mod_lt _ (Nat.pow_pos (by norm_num))
      generalize hid : val e / 2 ^ (k * c) % 2 ^ c = id at *
      rw [List.getElem?_eq_getElem hi]
      simp only
      obtain ⟨t, ht, hnew⟩ : ∃ t, (if buckets[id].2 then addB buckets[id].1 g else .ok g) = .ok t ∧
          ψ t = ψ buckets[id].1 + ψ g := by
        by_cases hf : buckets[id].2 = true
        · rw [if_pos hf]
          exact hadd _ _ (hs g List.mem_cons_self)
        · exact ⟨g, if_neg hf, by rw [hz _ (List.getElem_mem hi) (by simpa using hf), zero_add]⟩
      rw [ht, Outcome.bind_ok]
      obtain ⟨b', h1, h2, h3, h4⟩ := ih hs' es hlen'
        (buckets.set id (t, true)) (by simpa using hb)
        (by
          intro b hb' hf
          rcases List.mem_or_eq_of_mem_set hb' with h | h
          · exact hz b h hf
          · rw [h] at hf; simp at hf)
      refine ⟨b', h1, h2, h3, ?_⟩
      rw [h4, List.map_set, wsumFrom_set _ _ _ _ (by simpa using hi)]
      simp only [List.getElem_map, hnew, List.zip_cons_cons, List.map_cons, List.sum_cons, zero_add, hid]
      rw [show ψ buckets[id].1 + ψ g - ψ buckets[id].1 = ψ g by abel]
      abel

/-- Sum of all partial sums, starting from `r`. -/
def prefSum (r : A) : List A → A
  | [] => 0
  | x :: l => (r + x) + prefSum (r + x) l

theorem prefSum_append (r : A) (l : List A) (x : A) : prefSum r (l ++ [x]) = prefSum r l + (r + l.sum + x) := by
  induction l generalizing r with
  | nil => simp [prefSum]
  | cons y l ih => simp only [List.cons_append, prefSum, ih, List.sum_cons]; abel

theorem wsumFrom_succ (k : Nat) (l : List A) : wsumFrom (k + 1) l = wsumFrom k l + l.sum := by
  induction l generalizing k with
  | nil => simp [wsumFrom]
  | cons x l ih => rw [wsumFrom, ih (k + 1), wsumFrom, List.sum_cons, succ_nsmul]; abel

theorem wsumFrom_one_eq (l : List A) : wsumFrom 1 l = prefSum 0 l.reverse := by
  induction l with
  | nil => rfl
  | cons x l ih =>
    rw [List.reverse_cons, prefSum_append, ← ih, wsumFrom, wsumFrom_succ, List.sum_reverse]
    simp; abel

theorem sumBuckets_spec (hG : ImplementsGroup ψ) (addB : G → G → Outcome G) (Special : G → Prop)
    (hadd : ∀ a b, Special b → ∃ r, addB a b = .ok r ∧ ψ r = ψ a + ψ b) (bs : List (G × Bool))
    (hs : ∀ b ∈ bs, Special b.1) (hz : ∀ b ∈ bs, b.2 = false → ψ b.1 = 0)
    (running result : G × Bool) (h1 : running.2 = false → ψ running.1 = 0)
    (h2 : result.2 = false → ψ result.1 = 0) :
    ∃ r, sumBuckets addB bs running result = .ok r ∧
      ψ r.1 = ψ result.1 + prefSum (ψ running.1) (bs.map fun b => ψ b.1) ∧ (r.2 = false → ψ r.1 = 0) := by
  induction bs generalizing running result with
  | nil => exact ⟨result, rfl, by simp [prefSum], h2⟩
  | cons b bs ih =>
    obtain ⟨b, nz⟩ := b
    obtain ⟨run, rf⟩ := running
    obtain ⟨res, ef⟩ := result
    simp only [sumBuckets, List.map_cons, prefSum]
    have hsb := hs (b, nz) List.mem_cons_self
    have hzb := hz (b, nz) List.mem_cons_self
    simp only at h1 h2 hsb hzb
    have ih' := ih (fun b hb => hs b (List.mem_cons_of_mem _ hb)) (fun b hb => hz b (List.mem_cons_of_mem _ hb))
    have hrun : ∃ run' rf', (if nz then (if rf then addB run b else .ok b).map (·, true) else .ok (run, rf)) =
          .ok (run', rf') ∧
        ψ run' = ψ run + ψ b ∧ (rf' = false → ψ run' = 0) := by
      cases nz with
      | true =>
        cases rf with
        | true =>
          obtain ⟨t, t1, t2⟩ := hadd run b hsb
          exact ⟨t, true, by simp [t1], t2, by simp⟩
        | false => exact ⟨b, true, rfl, by rw [h1 rfl, zero_add], by simp⟩
      | false => exact ⟨run, rf, rfl, by rw [hzb rfl, add_zero], h1⟩
    obtain ⟨run', rf', e1, e2, e3⟩ := hrun
    rw [e1, Outcome.bind_ok]
    have hres : ∃ res' ef', (if rf' then (if ef then add res run' else run', true) else (res, ef)) = (res', ef') ∧
        ψ res' = ψ res + ψ run' ∧ (ef' = false → ψ res' = 0) := by
      cases rf' with
      | true =>
        cases ef with
        | true => exact ⟨add res run', true, rfl, hG.add _ _, by simp⟩
        | false => exact ⟨run', true, rfl, by rw [h2 rfl, zero_add], by simp⟩
      | false => exact ⟨res, ef, rfl, by rw [e3 rfl, add_zero], h2⟩
    obtain ⟨res', ef', e4, e5, e6⟩ := hres
    simp only
    rw [e4]
    obtain ⟨r, i0, i1, i2⟩ := ih' (run', rf') (res', ef') e3 e6
    refine ⟨r, i0, ?_, i2⟩
    rw [i1]
    simp only [e2, e5]
    abel

theorem dblN_spec (hG : ImplementsGroup ψ) (n : Nat) (g : G) : ψ (dblN n g) = 2 ^ n • ψ g := by
  induction n generalizing g with
  | zero => simp [dblN]
  | succ n ih => rw [dblN, ih, hG.dbl, ← two_nsmul, ← mul_nsmul', pow_succ]

/-- What `batch_to_special` (or nothing) has to do between the two phases. -/
def NormOk (ψ : G → A) (Special : G → Prop) (norm : List G → Outcome (List G)) : Prop :=
  ∀ l, ∃ l', norm l = .ok l' ∧ l'.map ψ = l.map ψ ∧ ∀ x ∈ l', Special x

theorem sum_map_add_nsmul {ι : Type*} (l : List ι) (f h : ι → Nat) (x : ι → A) (n : Nat) :
    (l.map fun i => (n * f i + h i) • x i).sum = n • (l.map fun i => f i • x i).sum +
      (l.map fun i => h i • x i).sum := by
  induction l with
  | nil => simp
  | cons i l ih =>
    rw [List.map_cons, List.sum_cons, ih, List.map_cons, List.sum_cons, List.map_cons, List.sum_cons,
      add_nsmul, nsmul_add, mul_nsmul']
    abel

theorem bdloLoop_spec (hG : ImplementsGroup ψ) (addB : G → G → Outcome G) (Special : G → Prop)
    (hadd : ∀ a b, Special b → ∃ r, addB a b = .ok r ∧ ψ r = ψ a + ψ b) (norm : List G → Outcome (List G))
    (hnorm : NormOk ψ Special norm) (c : Nat) (gs : List G) (hs : ∀ g ∈ gs, Special g)
    (es : List (List Limb)) (hlen : gs.length = es.length) (k : Nat) (result : G × Bool)
    (hr : result.2 = false → ψ result.1 = 0) :
    ∃ g, bdloLoop addB norm c gs es k result = .ok g ∧
      ψ g = 2 ^ (k * c) • ψ result.1 +
        ((gs.zip es).map fun ge => (val ge.2 % 2 ^ (k * c)) • ψ ge.1).sum := by
  induction k generalizing result with
  | zero =>
    refine ⟨result.1, rfl, ?_⟩
    rw [Nat.zero_mul, pow_zero, one_nsmul]
    simp [Nat.mod_one]
  | succ k ih =>
    obtain ⟨res, rf⟩ := result
    simp only at hr
    have hdbl : ∃ res', (if rf then (dblN c res, true) else (res, rf)) = (res', rf) ∧
        ψ res' = 2 ^ c • ψ res ∧ (rf = false → ψ res' = 0) := by
      cases rf with
      | true => exact ⟨_, rfl, dblN_spec hG c res, by simp⟩
      | false => exact ⟨res, rfl, by rw [hr rfl, nsmul_zero], hr⟩
    obtain ⟨res', e1, e2, e3⟩ := hdbl
    obtain ⟨b', h1, h2, h3, h4⟩ := fillBuckets_spec (ψ := ψ) addB Special hadd c k gs hs es hlen
      (List.replicate (2 ^ c) (zero, false)) (by simp)
      (by intro b hb _; rw [List.eq_of_mem_replicate hb]; exact hG.zero)
    have h0 : wsumFrom 0 ((List.replicate (2 ^ c) ((zero : G), false)).map fun b => ψ b.1) = 0 := by
      apply wsumFrom_zeros
      intro x hx
      rw [List.map_replicate] at hx
      rw [List.eq_of_mem_replicate hx]; exact hG.zero
    rw [h0, zero_add] at h4
    obtain ⟨pts, n1, n2, n3⟩ := hnorm (b'.map Prod.fst)
    unfold bdloLoop
    simp only
    rw [e1, h1, Outcome.bind_ok, n1, Outcome.bind_ok]
    have hl : pts.length = b'.length := by
      have := congrArg List.length n2
      simpa using this
    have hpz : ∀ i, ∀ (hi : i < pts.length) (hi' : i < b'.length), ψ pts[i] = ψ b'[i].1 := by
      intro i hi hi'
      have := congrArg (fun l => l[i]?) n2
      simp only [List.getElem?_map, List.getElem?_eq_getElem hi, List.getElem?_eq_getElem hi',
        Option.map_some, Option.some.injEq] at this
      exact this
    have hmap : (pts.zip (b'.map Prod.snd)).map (fun b => ψ b.1) = b'.map fun b => ψ b.1 := by
      apply List.ext_getElem
      · simp [hl]
      · intro i hi hi'
        simp only [List.length_map] at hi'
        simp [hpz i (by omega) hi']
    have hzz : ∀ b ∈ pts.zip (b'.map Prod.snd), b.2 = false → ψ b.1 = 0 := by
      intro b hb hf
      obtain ⟨i, hi, rfl⟩ := List.getElem_of_mem hb
      simp only [List.length_zip, List.length_map] at hi
      simp only [List.getElem_zip, List.getElem_map] at hf ⊢
      rw [hpz i (by omega) (by omega)]
      exact h3 _ (List.getElem_mem _) hf
    have hss : ∀ b ∈ pts.zip (b'.map Prod.snd), Special b.1 := by
      intro b hb
      exact n3 _ (List.of_mem_zip (a := b.1) (b := b.2) hb).1
    generalize hZ : pts.zip (b'.map Prod.snd) = Z at *
    have hmt : ∀ b, b ∈ Z.tail.reverse → b ∈ Z := fun b hb => List.mem_of_mem_tail (List.mem_reverse.1 hb)
    obtain ⟨sb, s0, s1, s2⟩ := sumBuckets_spec hG addB Special hadd Z.tail.reverse (fun b hb => hss b (hmt b hb))
      (fun b hb => hzz b (hmt b hb)) (zero, false) (res', rf) (fun _ => hG.zero) e3
    rw [s0, Outcome.bind_ok]
    obtain ⟨g, g1, g2⟩ := ih _ s2
    refine ⟨g, g1, ?_⟩
    rw [g2, s1]
    have hw : prefSum (ψ (zero : G)) (Z.tail.reverse.map fun b => ψ b.1) =
        ((gs.zip es).map fun ge => (val ge.2 / 2 ^ (k * c) % 2 ^ c) • ψ ge.1).sum := by
      rw [hG.zero, List.map_reverse, ← wsumFrom_one_eq, ← h4, ← hmap]
      cases Z with
      | nil => rfl
      | cons z Z => simp [wsumFrom]
    rw [hw, e2, nsmul_add, ← mul_nsmul', ← pow_add]
    have hsplit : ∀ v : Nat, v % 2 ^ ((k + 1) * c) =
        2 ^ (k * c) * (v / 2 ^ (k * c) % 2 ^ c) + v % 2 ^ (k * c) := by
      intro v
      rw [Nat.succ_mul, pow_add, Nat.mod_mul, Nat.add_comm]
    simp only [hsplit]
    rw [sum_map_add_nsmul, Nat.succ_mul]
    abel

theorem bdloC_eq (n : Nat) (h : n ≤ 2 ^ 63) : bdloC n = Nat.clog 2 n - Nat.clog 2 n / 3 + 2 := by
  have hl : log2 (BitVec.ofNat 64 n) = Nat.clog 2 n := by
    rw [log2_eq_clog, BitVec.toNat_ofNat, Nat.mod_eq_of_lt (by omega)]
  have hle : Nat.clog 2 n ≤ 63 := by
    rw [Nat.clog_le_iff_le_pow (by norm_num)]; exact h
  unfold bdloC
  rw [hl]
  generalize Nat.clog 2 n = L at hle
  simp only
  have : ∀ L : Fin 64, (BitVec.ofNat 64 L.val - (BitVec.ofNat 64 L.val / 3 - 2)).toNat = L.val - L.val / 3 + 2 := by
    decide +kernel
  exact this ⟨L, by omega⟩

theorem foldl_max_numBits (es : List (List Limb)) (m : Nat) :
    m ≤ es.foldl (fun m e => max m (bigintNumBits e)) m ∧
    ∀ e ∈ es, bigintNumBits e ≤ es.foldl (fun m e => max m (bigintNumBits e)) m := by
  induction es generalizing m with
  | nil => simp
  | cons e es ih =>
    obtain ⟨h1, h2⟩ := ih (max m (bigintNumBits e))
    rw [List.foldl_cons]
    refine ⟨le_trans (le_max_left _ _) h1, ?_⟩
    intro x hx
    rcases List.mem_cons.1 hx with rfl | hx
    · exact le_trans (le_max_right _ _) h1
    · exact h2 x hx

theorem multiExpBdlo_spec (hG : ImplementsGroup ψ) (addB : G → G → Outcome G) (Special : G → Prop)
    (hadd : ∀ a b, Special b → ∃ r, addB a b = .ok r ∧ ψ r = ψ a + ψ b) (norm : List G → Outcome (List G))
    (hnorm : NormOk ψ Special norm) (gs : List G) (hs : ∀ g ∈ gs, Special g)
    (ss : List S) (hlen : gs.length = ss.length) (hsize : gs.length ≤ 2 ^ 42) :
    ∃ g, multiExpBdlo toB addB norm gs ss = .ok g ∧ ψ g = multiSum ψ toB gs ss := by
  have hc := bdloC_eq gs.length (le_trans hsize (by norm_num))
  have hcl : Nat.clog 2 gs.length ≤ 42 := by
    rw [Nat.clog_le_iff_le_pow (by norm_num)]; exact hsize
  unfold multiExpBdlo
  simp only
  rw [if_neg (by omega), if_neg (by omega), hlen, List.take_length]
  have hc1 : 1 ≤ bdloC ss.length := by rw [← hlen]; omega
  generalize bdloC ss.length = c at *
  obtain ⟨g, h1, h2⟩ := bdloLoop_spec hG addB Special hadd norm hnorm c gs hs (ss.map toB) (by simpa using hlen)
    (((ss.map toB).foldl (fun m e => max m (bigintNumBits e)) 0 + c - 1) / c) (zero, false)
    (fun _ => hG.zero)
  refine ⟨g, h1, ?_⟩
  rw [h2, hG.zero, nsmul_zero, zero_add, multiSum, List.zip_map_right, List.map_map]
  congr 1
  apply List.map_congr_left
  intro x hx
  simp only [Function.comp_apply, Prod.map_snd, Prod.map_fst, id]
  rw [Nat.mod_eq_of_lt]
  have hmem : toB x.2 ∈ ss.map toB := List.mem_map_of_mem (List.of_mem_zip (a := x.1) (b := x.2) hx).2
  have hb := (foldl_max_numBits (ss.map toB) 0).2 _ hmem
  refine lt_of_lt_of_le (numBitsLoop_spec (toB x.2)).1 (Nat.pow_le_pow_right (by norm_num) (le_trans hb ?_))
  have := Nat.div_add_mod ((ss.map toB).foldl (fun m e => max m (bigintNumBits e)) 0 + c - 1) c
  have h3 := Nat.mod_lt ((ss.map toB).foldl (fun m e => max m (bigintNumBits e)) 0 + c - 1) hc1
  rw [Nat.mul_comm]
  omega

end
end Libff
