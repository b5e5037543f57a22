import Verif.Lemmas.X86

/-!
# Chains of additions and subtractions with carry, and comparisons
-/
namespace Libff.X86

theorem getD_append_cons (pre l : List Limb) (x : Limb) {n : Nat} (h : pre.length = n) : (pre ++ x :: l).getD n 0 = x := by
  subst h
  rw [List.getD_eq_getElem?_getD, List.getElem?_append_right (le_refl _), Nat.sub_self]
  rfl

theorem set_append_cons (pre l : List Limb) (x v : Limb) {n : Nat} (h : pre.length = n) : (pre ++ x :: l).set n v = pre ++ [v] ++ l := by
  subst h
  rw [List.set_append_right _ _ (le_refl _), Nat.sub_self]
  simp

theorem lt_append_cons (pre l : List Limb) (x : Limb) {n : Nat} (h : pre.length = n) : n < (pre ++ x :: l).length := by
  subst h
  rw [List.length_append, List.length_cons]
  omega

/-- The words that a chain reads from `p` while it writes to `d`: either the arrays are different, or the pointers are the same and so
are the words. -/
def Reads (e : Env) (s : State) (p d : Ptr) (j : Nat) (l x : List Limb) : Prop :=
  ((e p).1 ≠ (e d).1 ∧ ∃ pre post, s.mem (e p).1 = pre ++ (x ++ post) ∧ pre.length = (e p).2 + j) ∨ (e p = e d ∧ x = l)

/-- The part of a chain from word `j` on. -/
def addTail (p d : Ptr) (j k : Nat) : List Instr :=
  (List.range' j k).flatMap fun i => [.movq (.m (8 * i) p) (.r .rax), .adcq (.r .rax) (.m (8 * i) d)]

/-- A chain of `n` words. -/
def addChain (p d : Ptr) (n : Nat) : List Instr :=
  [.movq (.m 0 p) (.r .rax), .addq (.r .rax) (.m 0 d)] ++ addTail p d 1 (n - 1)

theorem addTail_spec (e : Env) (is : List Instr) (Q : State → Prop) (p d : Ptr) : ∀ (l x : List Limb) (j : Nat) (s : State) (pre post : List Limb),
    x.length = l.length → s.mem (e d).1 = pre ++ (l ++ post) → pre.length = (e d).2 + j → Reads e s p d j l x →
    (∀ s' r, s'.mem (e d).1 = pre ++ (r ++ post) → r.length = l.length → (∀ b, b ≠ (e d).1 → s'.mem b = s.mem b) →
      val r + 2 ^ (64 * l.length) * s'.cf.toNat = val l + val x + s.cf.toNat → WP e is none s' Q) → WP e (addTail p d j l.length ++ is) none s Q
  | [], x, j, s, pre, post, hx, hl, hpre, hr, k => k s [] hl rfl (fun _ _ => rfl) (by
      obtain rfl := List.length_eq_zero_iff.1 hx
      simp)
  | y :: l, [], _, _, _, _, hx, _, _, _, _ => by simp at hx
  | y :: l, x0 :: x, j, s, pre, post, hx, hl, hpre, hr, k => by
    have hlen : (8 * j) % 8 = 0 ∧ (8 * j) / 8 = j := by omega
    have hsrc : s.okay e (.m (8 * j) p) ∧ s.get e (.m (8 * j) p) = x0 := by
      rw [State.okay_m, State.get_m, hlen.2]
      rcases hr with ⟨_, prep, postp, h1, h2⟩ | ⟨h1, h2⟩
      · rw [h1, List.cons_append]
        exact ⟨⟨hlen.1, lt_append_cons _ _ _ h2⟩, getD_append_cons _ _ _ h2⟩
      · obtain ⟨rfl, rfl⟩ := List.cons.inj h2
        rw [h1, hl, List.cons_append]
        exact ⟨⟨hlen.1, lt_append_cons _ _ _ hpre⟩, getD_append_cons _ _ _ hpre⟩
    have hdst : s.okay e (.m (8 * j) d) ∧ s.get e (.m (8 * j) d) = y := by
      rw [State.okay_m, State.get_m, hlen.2, hl, List.cons_append]
      exact ⟨⟨hlen.1, lt_append_cons _ _ _ hpre⟩, getD_append_cons _ _ _ hpre⟩
    have e1 : addTail p d j (l.length + 1) ++ is =
        .movq (.m (8 * j) p) (.r .rax) :: .adcq (.r .rax) (.m (8 * j) d) :: (addTail p d (j + 1) l.length ++ is) := by
      unfold addTail
      rw [List.range'_succ]
      rfl
    rw [List.length_cons, e1]
    refine WP.movq ⟨rfl, hsrc.1, trivial⟩ ?_
    refine WP.adcq ⟨rfl, trivial, hdst.1⟩ fun v c hv => ?_
    rw [hsrc.2] at hv ⊢
    have hm : ∀ b, (((s.put e (.r .rax) x0).put e (.m (8 * j) d) v).setFlags c (some (v == 0))).mem b =
        if b = (e d).1 then pre ++ [v] ++ (l ++ post) else s.mem b := fun b => by
      rw [State.mem_setFlags, State.mem_put_m, hlen.2, State.mem_put_r]
      split_ifs with h
      · rw [h, hl, List.cons_append, set_append_cons _ _ _ _ hpre]
      · rfl
    refine addTail_spec e is Q p d l x (j + 1) _ (pre ++ [v]) post (by simpa using hx) ?_ (by simp; omega) ?_ ?_
    · rw [hm, if_pos rfl]
    · rcases hr with ⟨h0, prep, postp, h1, h2⟩ | ⟨h1, h2⟩
      · refine .inl ⟨h0, prep ++ [x0], postp, ?_, by simp; omega⟩
        rw [hm, if_neg h0, h1]
        simp
      · exact .inr ⟨h1, (List.cons.inj h2).2⟩
    · intro s' r h1 h2 h3 h4
      refine k s' (v :: r) (by rw [h1]; simp) (by simp [h2]) (fun b hb => by rw [h3 b hb, hm, if_neg hb]) ?_
      have hv' : BitVec.toNat v + 2 ^ 64 * Bool.toNat c = y.toNat + x0.toNat + s.cf.toNat := by
        have h5 : (s.put e (.r .rax) x0).get e (.m (8 * j) d) = y := hdst.2
        rw [h5] at hv
        simpa using hv
      simp only [State.cf_setFlags] at h4
      rw [val_cons, val_cons, val_cons, List.length_cons]
      have h6 : (2 : Nat) ^ (64 * (l.length + 1)) = 2 ^ 64 * 2 ^ (64 * l.length) := by rw [← Nat.pow_add]; congr 1; ring
      rw [h6]
      generalize 2 ^ (64 * l.length) = W at *
      generalize s'.cf.toNat = c' at *
      have h7 : 2 ^ 64 * W * c' = 2 ^ 64 * (W * c') := by ring
      rw [h7]
      generalize W * c' = Z at *
      omega

theorem addChain_spec (e : Env) (is : List Instr) (Q : State → Prop) (p d : Ptr) (l x : List Limb) (s : State) (pre post : List Limb)
    (h0 : l ≠ []) (hx : x.length = l.length) (hl : s.mem (e d).1 = pre ++ (l ++ post)) (hpre : pre.length = (e d).2) (hr : Reads e s p d 0 l x)
    (k : ∀ s' r, s'.mem (e d).1 = pre ++ (r ++ post) → r.length = l.length → (∀ b, b ≠ (e d).1 → s'.mem b = s.mem b) →
      val r + 2 ^ (64 * l.length) * s'.cf.toNat = val l + val x + 0 → WP e is none s' Q) : WP e (addChain p d l.length ++ is) none s Q := by
  have h1 : WP e (addTail p d 0 l.length ++ is) none (s.setFlags false none) Q :=
    addTail_spec e is Q p d l x 0 (s.setFlags false none) pre post hx hl hpre hr (fun s' r h1 h2 h3 h4 => k s' r h1 h2 h3 h4)
  obtain ⟨n, hn⟩ : ∃ n, l.length = n + 1 := Nat.exists_eq_succ_of_ne_zero (fun h => h0 (List.length_eq_zero_iff.1 h))
  rw [hn] at h1 ⊢
  have e1 : addTail p d 0 (n + 1) ++ is = .movq (.m 0 p) (.r .rax) :: .adcq (.r .rax) (.m 0 d) :: (addTail p d 1 n ++ is) := by
    unfold addTail
    rw [List.range'_succ]
    rfl
  have e2 : addChain p d (n + 1) ++ is = .movq (.m 0 p) (.r .rax) :: .addq (.r .rax) (.m 0 d) :: (addTail p d 1 n ++ is) := rfl
  rw [e1] at h1
  rw [e2]
  obtain ⟨s', hs', hQ⟩ := h1
  refine ⟨s', ?_, hQ⟩
  have ec : ∀ (i : Instr) (is : List Instr) (s : State), (∀ c l, i ≠ .jmp c l) → exec e (i :: is) none s = (step e s i).bind (exec e is none) :=
    fun i is s h => by rw [exec]; exact h
  rw [ec _ _ _ (by simp)] at hs' ⊢
  rw [X86.step, access] at hs' ⊢
  split_ifs at hs' ⊢ with h3 h4 h5 h5
  all_goals first
    | exact absurd h4 h5
    | exact absurd h5 h4
    | (rw [Outcome.bind_ok, ec _ _ _ (by simp)] at hs' ⊢
       exact hs')
    | cases hs'

/-- The part of a chain from word `j` on. -/
def subTail (p d : Ptr) (j k : Nat) : List Instr :=
  (List.range' j k).flatMap fun i => [.movq (.m (8 * i) p) (.r .rax), .sbbq (.r .rax) (.m (8 * i) d)]

/-- A chain of `n` words. -/
def subChain (p d : Ptr) (n : Nat) : List Instr :=
  [.movq (.m 0 p) (.r .rax), .subq (.r .rax) (.m 0 d)] ++ subTail p d 1 (n - 1)

theorem subTail_spec (e : Env) (is : List Instr) (Q : State → Prop) (p d : Ptr) : ∀ (l x : List Limb) (j : Nat) (s : State) (pre post : List Limb),
    x.length = l.length → s.mem (e d).1 = pre ++ (l ++ post) → pre.length = (e d).2 + j → Reads e s p d j l x →
    (∀ s' r, s'.mem (e d).1 = pre ++ (r ++ post) → r.length = l.length → (∀ b, b ≠ (e d).1 → s'.mem b = s.mem b) →
      val r + val x + s.cf.toNat = val l + 2 ^ (64 * l.length) * s'.cf.toNat → WP e is none s' Q) → WP e (subTail p d j l.length ++ is) none s Q
  | [], x, j, s, pre, post, hx, hl, hpre, hr, k => k s [] hl rfl (fun _ _ => rfl) (by
      obtain rfl := List.length_eq_zero_iff.1 hx
      simp)
  | y :: l, [], _, _, _, _, hx, _, _, _, _ => by simp at hx
  | y :: l, x0 :: x, j, s, pre, post, hx, hl, hpre, hr, k => by
    have hlen : (8 * j) % 8 = 0 ∧ (8 * j) / 8 = j := by omega
    have hsrc : s.okay e (.m (8 * j) p) ∧ s.get e (.m (8 * j) p) = x0 := by
      rw [State.okay_m, State.get_m, hlen.2]
      rcases hr with ⟨_, prep, postp, h1, h2⟩ | ⟨h1, h2⟩
      · rw [h1, List.cons_append]
        exact ⟨⟨hlen.1, lt_append_cons _ _ _ h2⟩, getD_append_cons _ _ _ h2⟩
      · obtain ⟨rfl, rfl⟩ := List.cons.inj h2
        rw [h1, hl, List.cons_append]
        exact ⟨⟨hlen.1, lt_append_cons _ _ _ hpre⟩, getD_append_cons _ _ _ hpre⟩
    have hdst : s.okay e (.m (8 * j) d) ∧ s.get e (.m (8 * j) d) = y := by
      rw [State.okay_m, State.get_m, hlen.2, hl, List.cons_append]
      exact ⟨⟨hlen.1, lt_append_cons _ _ _ hpre⟩, getD_append_cons _ _ _ hpre⟩
    have e1 : subTail p d j (l.length + 1) ++ is =
        .movq (.m (8 * j) p) (.r .rax) :: .sbbq (.r .rax) (.m (8 * j) d) :: (subTail p d (j + 1) l.length ++ is) := by
      unfold subTail
      rw [List.range'_succ]
      rfl
    rw [List.length_cons, e1]
    refine WP.movq ⟨rfl, hsrc.1, trivial⟩ ?_
    refine WP.sbbq ⟨rfl, trivial, hdst.1⟩ fun v c hv => ?_
    rw [hsrc.2] at hv ⊢
    have hm : ∀ b, (((s.put e (.r .rax) x0).put e (.m (8 * j) d) v).setFlags c (some (v == 0))).mem b =
        if b = (e d).1 then pre ++ [v] ++ (l ++ post) else s.mem b := fun b => by
      rw [State.mem_setFlags, State.mem_put_m, hlen.2, State.mem_put_r]
      split_ifs with h
      · rw [h, hl, List.cons_append, set_append_cons _ _ _ _ hpre]
      · rfl
    refine subTail_spec e is Q p d l x (j + 1) _ (pre ++ [v]) post (by simpa using hx) ?_ (by simp; omega) ?_ ?_
    · rw [hm, if_pos rfl]
    · rcases hr with ⟨h0, prep, postp, h1, h2⟩ | ⟨h1, h2⟩
      · refine .inl ⟨h0, prep ++ [x0], postp, ?_, by simp; omega⟩
        rw [hm, if_neg h0, h1]
        simp
      · exact .inr ⟨h1, (List.cons.inj h2).2⟩
    · intro s' r h1 h2 h3 h4
      refine k s' (v :: r) (by rw [h1]; simp) (by simp [h2]) (fun b hb => by rw [h3 b hb, hm, if_neg hb]) ?_
      have hv' : BitVec.toNat v + x0.toNat + s.cf.toNat = y.toNat + 2 ^ 64 * Bool.toNat c := by
        have h5 : (s.put e (.r .rax) x0).get e (.m (8 * j) d) = y := hdst.2
        rw [h5] at hv
        simpa using hv
      simp only [State.cf_setFlags] at h4
      rw [val_cons, val_cons, val_cons, List.length_cons]
      have h6 : (2 : Nat) ^ (64 * (l.length + 1)) = 2 ^ 64 * 2 ^ (64 * l.length) := by rw [← Nat.pow_add]; congr 1; ring
      rw [h6]
      generalize 2 ^ (64 * l.length) = W at *
      generalize s'.cf.toNat = c' at *
      have h7 : 2 ^ 64 * W * c' = 2 ^ 64 * (W * c') := by ring
      rw [h7]
      generalize W * c' = Z at *
      omega

theorem subChain_spec (e : Env) (is : List Instr) (Q : State → Prop) (p d : Ptr) (l x : List Limb) (s : State) (pre post : List Limb)
    (h0 : l ≠ []) (hx : x.length = l.length) (hl : s.mem (e d).1 = pre ++ (l ++ post)) (hpre : pre.length = (e d).2) (hr : Reads e s p d 0 l x)
    (k : ∀ s' r, s'.mem (e d).1 = pre ++ (r ++ post) → r.length = l.length → (∀ b, b ≠ (e d).1 → s'.mem b = s.mem b) →
      val r + val x + 0 = val l + 2 ^ (64 * l.length) * s'.cf.toNat → WP e is none s' Q) : WP e (subChain p d l.length ++ is) none s Q := by
  have h1 : WP e (subTail p d 0 l.length ++ is) none (s.setFlags false none) Q :=
    subTail_spec e is Q p d l x 0 (s.setFlags false none) pre post hx hl hpre hr (fun s' r h1 h2 h3 h4 => k s' r h1 h2 h3 h4)
  obtain ⟨n, hn⟩ : ∃ n, l.length = n + 1 := Nat.exists_eq_succ_of_ne_zero (fun h => h0 (List.length_eq_zero_iff.1 h))
  rw [hn] at h1 ⊢
  have e1 : subTail p d 0 (n + 1) ++ is = .movq (.m 0 p) (.r .rax) :: .sbbq (.r .rax) (.m 0 d) :: (subTail p d 1 n ++ is) := by
    unfold subTail
    rw [List.range'_succ]
    rfl
  have e2 : subChain p d (n + 1) ++ is = .movq (.m 0 p) (.r .rax) :: .subq (.r .rax) (.m 0 d) :: (subTail p d 1 n ++ is) := rfl
  rw [e1] at h1
  rw [e2]
  obtain ⟨s', hs', hQ⟩ := h1
  refine ⟨s', ?_, hQ⟩
  have ec : ∀ (i : Instr) (is : List Instr) (s : State), (∀ c l, i ≠ .jmp c l) → exec e (i :: is) none s = (step e s i).bind (exec e is none) :=
    fun i is s h => by rw [exec]; exact h
  rw [ec _ _ _ (by simp)] at hs' ⊢
  rw [X86.step, access] at hs' ⊢
  split_ifs at hs' ⊢ with h3 h4 h5 h5
  all_goals first
    | exact absurd h4 h5
    | exact absurd h5 h4
    | (rw [Outcome.bind_ok, ec _ _ _ (by simp)] at hs' ⊢
       exact hs')
    | cases hs'

/-- Comparison of `n` words from the top: `jb done`, `ja subtract`, else the next word. -/
def cmpChain (p d : Ptr) : Nat → List Instr
  | 0 => []
  | j + 1 => .movq (.m (8 * j) p) (.r .rax) :: .cmpq (.r .rax) (.m (8 * j) d) :: .jmp .carry .done :: .jmp .above .subtract :: cmpChain p d j

theorem cmpChain_noLabel (p d : Ptr) : ∀ n, ∀ i ∈ cmpChain p d n, ∀ l, i ≠ .label l
  | 0, i, h => by simp [cmpChain] at h
  | n + 1, i, h => by
    simp only [cmpChain, List.mem_cons] at h
    rcases h with rfl | rfl | rfl | rfl | h
    · simp
    · simp
    · simp
    · simp
    · exact cmpChain_noLabel p d n i h

theorem cmpChain_spec (e : Env) (is : List Instr) (Q : State → Prop) (p d : Ptr) : ∀ (n : Nat) (l x : List Limb) (s : State)
    (pre post prep postp : List Limb), l.length = n → x.length = n → s.mem (e d).1 = pre ++ (l ++ post) → pre.length = (e d).2 →
    s.mem (e p).1 = prep ++ (x ++ postp) → prep.length = (e p).2 →
    (val l < val x → ∀ s', s'.mem = s.mem → WP e is (some .done) s' Q) →
    (val x ≤ val l → ∀ s', s'.mem = s.mem → WP e is (some .subtract) s' Q ∧ WP e is none s' Q) → WP e (cmpChain p d n ++ is) none s Q
  | 0, l, x, s, _, _, _, _, hl, hx, _, _, _, _, _, k2 => by
    obtain rfl := List.length_eq_zero_iff.1 hl
    obtain rfl := List.length_eq_zero_iff.1 hx
    exact (k2 (le_refl _) s rfl).2
  | n + 1, l, x, s, pre, post, prep, postp, hl, hx, hd, hpre, hp, hprep, k1, k2 => by
    obtain ⟨l, y, rfl⟩ : ∃ l' y, l = l' ++ [y] := by
      rcases List.eq_nil_or_concat l with rfl | ⟨l', y, h⟩
      · simp at hl
      · exact ⟨l', y, by rw [h, List.concat_eq_append]⟩
    obtain ⟨x, z, rfl⟩ : ∃ l' y, x = l' ++ [y] := by
      rcases List.eq_nil_or_concat x with rfl | ⟨l', y, h⟩
      · simp at hx
      · exact ⟨l', y, by rw [h, List.concat_eq_append]⟩
    rw [List.length_append, List.length_singleton] at hl hx
    have hl' : l.length = n := by omega
    have hx' : x.length = n := by omega
    have hlen : (8 * n) % 8 = 0 ∧ (8 * n) / 8 = n := by omega
    have hd' : s.mem (e d).1 = (pre ++ l) ++ y :: post := by rw [hd]; simp
    have hp' : s.mem (e p).1 = (prep ++ x) ++ z :: postp := by rw [hp]; simp
    have hsrc : s.okay e (.m (8 * n) p) ∧ s.get e (.m (8 * n) p) = z := by
      rw [State.okay_m, State.get_m, hlen.2, hp']
      have h : (prep ++ x).length = (e p).2 + n := by rw [List.length_append]; omega
      exact ⟨⟨hlen.1, lt_append_cons _ _ _ h⟩, getD_append_cons _ _ _ h⟩
    have hdst : s.okay e (.m (8 * n) d) ∧ s.get e (.m (8 * n) d) = y := by
      rw [State.okay_m, State.get_m, hlen.2, hd']
      have h : (pre ++ l).length = (e d).2 + n := by rw [List.length_append]; omega
      exact ⟨⟨hlen.1, lt_append_cons _ _ _ h⟩, getD_append_cons _ _ _ h⟩
    rw [cmpChain, List.cons_append, List.cons_append, List.cons_append, List.cons_append]
    refine WP.movq ⟨rfl, hsrc.1, trivial⟩ ?_
    have hv1 : val (l ++ [y]) = val l + 2 ^ (64 * n) * y.toNat := by rw [val_append, hl', val_cons, val_nil]; ring
    have hv2 : val (x ++ [z]) = val x + 2 ^ (64 * n) * z.toNat := by rw [val_append, hx', val_cons, val_nil]; ring
    have hlt1 : val l < 2 ^ (64 * n) := by rw [← hl']; exact val_lt l
    have hlt2 : val x < 2 ^ (64 * n) := by rw [← hx']; exact val_lt x
    rw [hv1, hv2] at k1 k2
    have key : ∀ u v : Nat, u < v → 2 ^ (64 * n) * u + 2 ^ (64 * n) ≤ 2 ^ (64 * n) * v := fun u v h => by
      rw [← Nat.mul_succ]; exact Nat.mul_le_mul_left _ h
    refine WP.cmpq ⟨rfl, trivial, hdst.1⟩ ?_
    rw [hsrc.2, show (s.put e (.r .rax) z).get e (.m (8 * n) d) = y from hdst.2, State.get_r, State.reg_put_r, if_pos rfl]
    refine WP.jmp_carry (fun h => ?_) (fun h => ?_)
    · have h : y.toNat < z.toNat := by simpa using h
      have := key _ _ h
      exact WP.skip (blk := .jmp .above .subtract :: cmpChain p d n)
        (fun i hi => by
          rcases List.mem_cons.1 hi with rfl | hi
          · simp
          · exact cmpChain_noLabel p d n i hi) (k1 (by omega) _ rfl)
    · have h : z.toNat ≤ y.toNat := by simpa using h
      refine WP.jmp_above rfl (fun _ h2 => ?_) (fun h2 => ?_)
      · have h2 : y ≠ z := by simpa using h2
        have h2 : z.toNat < y.toNat := lt_of_le_of_ne h (fun h3 => h2 (BitVec.eq_of_toNat_eq h3.symm))
        have := key _ _ h2
        refine WP.skip (cmpChain_noLabel p d n) (And.left (k2 (by omega) _ ?_))
        rfl
      · have h2 : y = z := by
          rcases h2 with h2 | h2
          · have h2 : y.toNat < z.toNat := by simpa using h2
            omega
          · simpa using h2
        subst h2
        refine cmpChain_spec e is Q p d n l x _ pre (y :: post) prep (y :: postp) hl' hx' (by
            rw [State.mem_setFlags, State.mem_put_r, hd]; simp) hpre (by rw [State.mem_setFlags, State.mem_put_r, hp]; simp) hprep
          (fun h s' hs' => k1 (by omega) s' (hs'.trans rfl)) (fun h s' hs' => k2 (by omega) s' (hs'.trans rfl))

theorem subTail_noLabel (p d : Ptr) (j k : Nat) : ∀ i ∈ subTail p d j k, ∀ l, i ≠ .label l := by
  intro i hi l
  unfold subTail at hi
  obtain ⟨m, _, hm⟩ := List.mem_flatMap.1 hi
  simp only [List.mem_cons, List.not_mem_nil, or_false] at hm
  rcases hm with rfl | rfl <;> simp

theorem subChain_noLabel (p d : Ptr) (n : Nat) : ∀ i ∈ subChain p d n, ∀ l, i ≠ .label l := by
  intro i hi l
  unfold subChain at hi
  rcases List.mem_append.1 hi with hi | hi
  · simp only [List.mem_cons, List.not_mem_nil, or_false] at hi
    rcases hi with rfl | rfl <;> simp
  · exact subTail_noLabel p d 1 (n - 1) i hi l

theorem addTail_noLabel (p d : Ptr) (j k : Nat) : ∀ i ∈ addTail p d j k, ∀ l, i ≠ .label l := by
  intro i hi l
  unfold addTail at hi
  obtain ⟨m, _, hm⟩ := List.mem_flatMap.1 hi
  simp only [List.mem_cons, List.not_mem_nil, or_false] at hm
  rcases hm with rfl | rfl <;> simp

theorem addChain_noLabel (p d : Ptr) (n : Nat) : ∀ i ∈ addChain p d n, ∀ l, i ≠ .label l := by
  intro i hi l
  unfold addChain at hi
  rcases List.mem_append.1 hi with hi | hi
  · simp only [List.mem_cons, List.not_mem_nil, or_false] at hi
    rcases hi with rfl | rfl <;> simp
  · exact addTail_noLabel p d 1 (n - 1) i hi l

/-- The code after the label `subtract`. -/
def subDone (p d : Ptr) (n : Nat) : List Instr := subChain p d n ++ [.label .done]

/-- Conditional subtraction. -/
def condSub (p d : Ptr) (n : Nat) : List Instr := cmpChain p d n ++ .label .subtract :: subDone p d n

theorem subDone_spec (e : Env) (p d : Ptr) (Q : State → Prop) (l x : List Limb) (s : State) (pre post prep postp : List Limb) (h0 : l ≠ [])
    (hx : x.length = l.length) (hl : s.mem (e d).1 = pre ++ (l ++ post)) (hpre : pre.length = (e d).2)
    (hp : s.mem (e p).1 = prep ++ (x ++ postp)) (hprep : prep.length = (e p).2) (hne : (e p).1 ≠ (e d).1)
    (k : ∀ s' r, s'.mem (e d).1 = pre ++ (r ++ post) → r.length = l.length → (∀ b, b ≠ (e d).1 → s'.mem b = s.mem b) →
      val r + val x = val l + 2 ^ (64 * l.length) * s'.cf.toNat → Q s') : WP e (subDone p d l.length) none s Q :=
  subChain_spec e [.label .done] Q p d l x s pre post h0 hx hl hpre (.inl ⟨hne, prep, postp, hp, hprep⟩)
    (fun s' r h1 h2 h3 h4 => WP.label (WP.nil (k s' r h1 h2 h3 h4)))

theorem condSub_spec (e : Env) (p d : Ptr) (Q : State → Prop) (l x : List Limb) (s : State) (pre post prep postp : List Limb) (h0 : l ≠ [])
    (hx : x.length = l.length) (hl : s.mem (e d).1 = pre ++ (l ++ post)) (hpre : pre.length = (e d).2)
    (hp : s.mem (e p).1 = prep ++ (x ++ postp)) (hprep : prep.length = (e p).2) (hne : (e p).1 ≠ (e d).1)
    (k : ∀ s' r, s'.mem (e d).1 = pre ++ (r ++ post) → r.length = l.length → (∀ b, b ≠ (e d).1 → s'.mem b = s.mem b) →
      val r = (if val l < val x then val l else val l - val x) → Q s') : WP e (condSub p d l.length) none s Q := by
  have hsub : val x ≤ val l → ∀ s', s'.mem = s.mem → WP e (subDone p d l.length) none s' Q := fun h s' hs' =>
    subDone_spec e p d Q l x s' pre post prep postp h0 hx (by rw [hs']; exact hl) hpre (by rw [hs']; exact hp) hprep hne
      (fun s'' r h1 h2 h3 h4 => k s'' r h1 h2 (by rw [← hs']; exact h3) (by
        rw [if_neg (by omega)]
        have hr := val_lt r
        rw [h2] at hr
        cases hc : s''.cf with
        | false => rw [hc] at h4; simp at h4; omega
        | true =>
          rw [hc] at h4
          simp at h4
          omega))
  refine cmpChain_spec e _ Q p d l.length l x s pre post prep postp rfl hx hl hpre hp hprep (fun h s' hs' => ?_) (fun h s' hs' => ?_)
  · refine WP.label_miss (by simp) (WP.skip (subChain_noLabel p d _) (WP.label_hit (WP.nil (k s' l ?_ rfl ?_ ?_))))
    · rw [hs']; exact hl
    · intro b _; rw [hs']
    · rw [if_pos h]
  · exact ⟨WP.label_hit (hsub h s' hs'), WP.label (hsub h s' hs')⟩

end Libff.X86
