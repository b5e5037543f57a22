import Verif.Lemmas.Multiexp
import Mathlib.Data.List.Perm.Basic

namespace Libff
open GroupOps

section Chunks
variable {G A S : Type*} [GroupOps G] [AddCommGroup A] {ψ : G → A} {toB : S → List Limb}

omit [GroupOps G] in
theorem multiSum_split (n : Nat) (gs : List G) (ss : List S) (h : gs.length = ss.length) :
    multiSum ψ toB gs ss = multiSum ψ toB (gs.take n) (ss.take n) + multiSum ψ toB (gs.drop n) (ss.drop n) := by
  have := multiSum_append (ψ := ψ) (toB := toB) (gs.take n) (gs.drop n) (ss.take n) (ss.drop n) (by simp [h])
  rw [List.take_append_drop, List.take_append_drop] at this
  exact this

theorem foldl_add_spec (hG : ImplementsGroup ψ) (l : List G) (r : G) :
    ψ (l.foldl add r) = ψ r + (l.map ψ).sum := by
  induction l generalizing r with
  | nil => simp
  | cons x l ih => rw [List.foldl_cons, ih, hG.add, List.map_cons, List.sum_cons, add_assoc]

omit [GroupOps G] [AddCommGroup A] in
theorem runChunks_spec [GroupOps G] {P : Nat → G → Prop} (inner : List G → List S → Outcome G) (bases : List G) (scalars : List S)
    (one chunks : Nat) (hin : ∀ i < chunks, ∃ t,
      inner (chunkOf bases one chunks i) (chunkOf scalars one chunks i) = .ok t ∧ P i t)
    (order : List Nat) (hnd : order.Nodup) (hlt : ∀ i ∈ order, i < chunks) (part : List G)
    (hlen : part.length = chunks) :
    ∃ res, runChunks inner bases scalars one chunks order part = .ok res ∧ res.length = chunks ∧
      (∀ i ∈ order, ∃ t, res[i]? = some t ∧ P i t) ∧ (∀ i, i ∉ order → res[i]? = part[i]?) := by
  induction order generalizing part with
  | nil => exact ⟨part, rfl, hlen, by simp, fun _ _ => rfl⟩
  | cons i is ih =>
    obtain ⟨t, h1, h2⟩ := hin i (hlt i List.mem_cons_self)
    have hnd' := List.nodup_cons.1 hnd
    obtain ⟨res, r1, r2, r3, r4⟩ := ih hnd'.2 (fun j hj => hlt j (List.mem_cons_of_mem _ hj)) (part.set i t)
      (by simpa using hlen)
    refine ⟨res, ?_, r2, ?_, ?_⟩
    · rw [runChunks, h1, Outcome.bind_ok, r1]
    · intro j hj
      rcases List.mem_cons.1 hj with rfl | hj
      · refine ⟨t, ?_, h2⟩
        rw [r4 j hnd'.1, List.getElem?_set_self (by rw [hlen]; exact hlt j List.mem_cons_self)]
      · exact r3 j hj
    · intro j hj
      rw [r4 j (fun h => hj (List.mem_cons_of_mem _ h)),
        List.getElem?_set_ne (by rintro rfl; exact hj List.mem_cons_self)]

omit [GroupOps G] in
theorem chunk_sum (bases : List G) (scalars : List S) (hlen : bases.length = scalars.length) (one k : Nat) :
    ((List.range k).map fun i => multiSum ψ toB ((bases.drop (i * one)).take one)
      ((scalars.drop (i * one)).take one)).sum =
      multiSum ψ toB (bases.take (k * one)) (scalars.take (k * one)) := by
  induction k with
  | zero => simp [multiSum]
  | succ k ih =>
    rw [List.range_succ, List.map_append, List.sum_append, ih]
    simp only [List.map_cons, List.map_nil, List.sum_cons, List.sum_nil, add_zero]
    rw [multiSum_split (k * one) (bases.take ((k + 1) * one)) (scalars.take ((k + 1) * one)) (by simp [hlen])]
    have e : min (k * one) ((k + 1) * one) = k * one := by rw [Nat.succ_mul]; omega
    have e2 : (k + 1) * one - k * one = one := by rw [Nat.succ_mul]; omega
    rw [List.take_take, List.take_take, List.drop_take, List.drop_take, e, e2]

theorem multiExp_spec (hG : ImplementsGroup ψ) (inner : List G → List S → Outcome G)
    (bases : List G) (scalars : List S) (hlen : bases.length = scalars.length)
    (hin : ∀ gs ss, gs.length = ss.length → gs.length ≤ bases.length → gs.Sublist bases → ss.Sublist scalars →
      ∃ t, inner gs ss = .ok t ∧ ψ t = multiSum ψ toB gs ss)
    (chunks : Nat) (hc : 1 ≤ chunks) (order : List Nat) (ho : order.Perm (List.range chunks)) :
    ∃ g, multiExp inner order bases scalars chunks = .ok g ∧ ψ g = multiSum ψ toB bases scalars := by
  unfold multiExp
  simp only
  split
  · exact hin bases scalars hlen le_rfl (List.Sublist.refl _) (List.Sublist.refl _)
  · rename_i h
    rw [if_neg (by omega)]
    obtain ⟨k, rfl⟩ : ∃ k, chunks = k + 1 := ⟨chunks - 1, by omega⟩
    generalize bases.length / (k + 1) = one
    have hsub : ∀ {α : Type _} (l : List α) i, (chunkOf l one (k + 1) i).Sublist l := by
      intro α l i
      unfold chunkOf
      split
      · exact List.drop_sublist _ _
      · exact List.Sublist.trans (List.take_sublist _ _) (List.drop_sublist _ _)
    have hsub' : ∀ {α : Type _} (l : List α) i, (chunkOf l one (k + 1) i).Sublist l := by
      intro α l i
      unfold chunkOf
      split
      · exact List.drop_sublist _ _
      · exact List.Sublist.trans (List.take_sublist _ _) (List.drop_sublist _ _)
    obtain ⟨res, r1, r2, r3, _⟩ := runChunks_spec (P := fun i t => ψ t =
        multiSum ψ toB (chunkOf bases one (k + 1) i) (chunkOf scalars one (k + 1) i)) inner bases scalars one (k + 1)
      (by
        intro i hi
        apply hin
        · unfold chunkOf; split <;> simp [hlen]
        · unfold chunkOf; split <;> simp
        · exact hsub _ _
        · exact hsub' _ _)
      order (ho.nodup_iff.2 List.nodup_range) (fun i hi => List.mem_range.1 (ho.subset hi))
      (List.replicate (k + 1) zero) (by simp)
    rw [r1, Outcome.map_ok]
    refine ⟨_, rfl, ?_⟩
    rw [foldl_add_spec hG, hG.zero, zero_add]
    have hmap : res.map ψ = (List.range (k + 1)).map fun i =>
        multiSum ψ toB (chunkOf bases one (k + 1) i) (chunkOf scalars one (k + 1) i) := by
      apply List.ext_getElem (by simp [r2])
      intro i h1 h2
      simp only [List.getElem_map, List.getElem_range]
      obtain ⟨t, t1, t2⟩ := r3 i (ho.symm.subset (List.mem_range.2 (by simpa using h2)))
      have := List.getElem?_eq_getElem (l := res) (i := i) (by simpa using h1)
      rw [t1] at this
      rw [← Option.some.inj this, t2]
    rw [hmap, List.range_succ, List.map_append, List.sum_append,
      multiSum_split (k * one) bases scalars hlen, ← chunk_sum bases scalars hlen]
    congr 1
    · congr 1
      apply List.map_congr_left
      intro i hi
      have : i < k := List.mem_range.1 hi
      unfold chunkOf
      rw [if_neg (by omega), if_neg (by omega)]
    · simp [chunkOf]

theorem classify_spec [Zero S] [One S] [DecidableEq S] (addB : G → G → Outcome G) (Special : G → Prop)
    (hadd : ∀ a b, Special b → ∃ r, addB a b = .ok r ∧ ψ r = ψ a + ψ b) (h0 : val (toB 0) = 0) (h1 : val (toB 1) = 1)
    (gs : List G) (ss : List S) (hlen : gs.length = ss.length) (hs : ∀ g ∈ gs, Special g)
    (acc : G) (bs : List G) (ps : List S) (hl : bs.length = ps.length) :
    ∃ acc' bs' ps', classify addB gs ss (acc, bs, ps) = .ok (acc', bs ++ bs', ps ++ ps') ∧
      bs'.length = ps'.length ∧ bs'.Sublist gs ∧ ps'.Sublist ss ∧
      ψ acc' + multiSum ψ toB bs' ps' = ψ acc + multiSum ψ toB gs ss := by
  induction gs generalizing ss acc bs ps with
  | nil =>
    obtain rfl : ss = [] := List.length_eq_zero_iff.1 hlen.symm
    exact ⟨acc, [], [], by simp [classify], rfl, .slnil, .slnil, rfl⟩
  | cons g gs ih =>
    cases ss with
    | nil => simp at hlen
    | cons s ss =>
      simp only [List.length_cons, Nat.add_right_cancel_iff] at hlen
      have hs' : ∀ g ∈ gs, Special g := fun x hx => hs x (List.mem_cons_of_mem _ hx)
      rw [classify]
      split
      · rename_i h
        subst h
        obtain ⟨acc', bs', ps', e1, e2, e3, e4, e5⟩ := ih ss hlen hs' acc bs ps hl
        exact ⟨acc', bs', ps', e1, e2, e3.cons _, e4.cons _, by rw [e5, multiSum_cons, h0, zero_nsmul, zero_add]⟩
      · split
        · rename_i h
          subst h
          obtain ⟨t, t1, t2⟩ := hadd acc g (hs g List.mem_cons_self)
          rw [t1, Outcome.bind_ok]
          obtain ⟨acc', bs', ps', e1, e2, e3, e4, e5⟩ := ih ss hlen hs' t bs ps hl
          exact ⟨acc', bs', ps', e1, e2, e3.cons _, e4.cons _, by
            rw [e5, multiSum_cons, h1, one_nsmul, t2, add_assoc]⟩
        · obtain ⟨acc', bs', ps', e1, e2, e3, e4, e5⟩ := ih ss hlen hs' acc (bs ++ [g]) (ps ++ [s])
            (by simp [hl])
          refine ⟨acc', g :: bs', s :: ps', by rw [e1]; simp, by simp [e2], e3.cons₂ _, e4.cons₂ _, ?_⟩
          rw [multiSum_cons, multiSum_cons, add_left_comm, e5]
          abel

theorem innerProduct_spec {K : Type*} [CommRing K] (debug : Bool) (as bs : List K)
    (h : as.length = bs.length) (r : K) :
    innerProduct debug as bs r = .ok (r + (List.zipWith (· * ·) as bs).sum) := by
  induction as generalizing bs r with
  | nil =>
    obtain rfl : bs = [] := List.length_eq_zero_iff.1 h.symm
    simp [innerProduct]
  | cons a as ih =>
    cases bs with
    | nil => simp at h
    | cons b bs =>
      rw [innerProduct, ih bs (by simpa using h), List.zipWith_cons_cons, List.sum_cons, mul_comm b a, add_assoc]

end Chunks

section Windows
variable {G A S : Type*} [GroupOps G] [AddCommGroup A] {ψ : G → A} {toB : S → List Limb}

theorem windowRow_length (go : G) (k : Nat) (gi : G) : (windowRow go k gi).length = k := by
  induction k generalizing gi with
  | zero => rfl
  | succ k ih => rw [windowRow, List.length_cons, ih]

theorem windowRow_get (hG : ImplementsGroup ψ) (go : G) (k : Nat) (gi : G) (i : Nat) (hi : i < k) :
    ∃ t, (windowRow go k gi)[i]? = some t ∧ ψ t = ψ gi + i • ψ go := by
  induction k generalizing gi i with
  | zero => omega
  | succ k ih =>
    cases i with
    | zero => exact ⟨gi, rfl, by simp⟩
    | succ i =>
      obtain ⟨t, t1, t2⟩ := ih (add gi go) i (by omega)
      exact ⟨t, t1, by rw [t2, hG.add, succ_nsmul]; abel⟩

theorem repeat_dbl (hG : ImplementsGroup ψ) (w : Nat) (g : G) :
    ψ (Nat.repeat (fun g => add g g) w g) = 2 ^ w • ψ g := by
  induction w with
  | zero => simp [Nat.repeat]
  | succ w ih => rw [Nat.repeat, hG.add, ih, ← two_nsmul, ← mul_nsmul', pow_succ, Nat.mul_comm]

theorem windowRows_length (w a b k : Nat) (g : G) : (windowRows w a b k g).length = k := by
  induction k generalizing g with
  | zero => rfl
  | succ k ih => rw [windowRows, List.length_cons, ih]

theorem windowRows_get (hG : ImplementsGroup ψ) (w inW last k : Nat) (hlast : last ≤ inW) (g : G) (j : Nat)
    (hj : j < k) :
    ∃ row, (windowRows w inW last k g)[j]? = some row ∧ row.length = inW ∧
      ∀ i, i < (if j + 1 = k then last else inW) →
        ∃ t, row[i]? = some t ∧ ψ t = (i * 2 ^ (j * w)) • ψ g := by
  induction k generalizing g j with
  | zero => omega
  | succ k ih =>
    cases j with
    | zero =>
      refine ⟨_, rfl, ?_, ?_⟩
      · simp only [List.length_append, windowRow_length, List.length_replicate]
        split <;> omega
      · intro i hi
        have hi' : i < (if k = 0 then last else inW) := by
          by_cases hk : k = 0
          · rw [if_pos hk]; rw [if_pos (by omega)] at hi; exact hi
          · rw [if_neg hk]; rw [if_neg (by omega)] at hi; exact hi
        obtain ⟨t, t1, t2⟩ := windowRow_get hG g _ zero i hi'
        refine ⟨t, ?_, by rw [t2, hG.zero]; simp⟩
        rw [List.getElem?_append_left (by rw [windowRow_length]; exact hi')]
        exact t1
    | succ j =>
      obtain ⟨row, r1, r2, r3⟩ := ih (Nat.repeat (fun g => add g g) w g) j (by omega)
      refine ⟨row, r1, r2, ?_⟩
      intro i hi
      obtain ⟨t, t1, t2⟩ := r3 i (by
        by_cases hk : j + 1 = k
        · rw [if_pos hk]; rw [if_pos (by omega)] at hi; exact hi
        · rw [if_neg hk]; rw [if_neg (by omega)] at hi; exact hi)
      refine ⟨t, t1, ?_⟩
      rw [t2, repeat_dbl hG, ← mul_nsmul']
      congr 1
      rw [Nat.succ_mul, pow_add, Nat.mul_assoc]

theorem windowedLoop_spec (hG : ImplementsGroup ψ) (w : Nat) (e : List Limb) (g : A) (rows : List (List G))
    (outer : Nat)
    (hrows : ∀ j row, rows[j]? = some row → ∃ t, row[val e / 2 ^ ((outer + j) * w) % 2 ^ w]? = some t ∧
      ψ t = (val e / 2 ^ ((outer + j) * w) % 2 ^ w * 2 ^ ((outer + j) * w)) • g) (res : G) :
    ∃ t, windowedLoop w e rows outer res = .ok t ∧
      ψ t = ψ res + (val e / 2 ^ (outer * w) % 2 ^ (rows.length * w) * 2 ^ (outer * w)) • g := by
  induction rows generalizing outer res with
  | nil => exact ⟨res, rfl, by simp [Nat.mod_one]⟩
  | cons row rows ih =>
    obtain ⟨t, t1, t2⟩ := hrows 0 row rfl
    rw [Nat.add_zero] at t1 t2
    obtain ⟨t', h1, h2⟩ := ih (outer + 1) (by
      intro j row' hj
      have := hrows (j + 1) row' hj
      rw [show outer + (j + 1) = outer + 1 + j by omega] at this
      exact this) (add res t)
    refine ⟨t', ?_, ?_⟩
    · rw [windowedLoop, windowId_eq, t1]
      exact h1
    · rw [h2, hG.add, t2, add_assoc, ← add_nsmul]
      congr 2
      rw [List.length_cons, Nat.succ_mul, Nat.succ_mul, Nat.add_comm (rows.length * w) w, pow_add _ w,
        Nat.mod_mul, pow_add, ← Nat.div_div_eq_div_mul]
      ring

theorem getWindowTable_entries (hG : ImplementsGroup ψ) (size w : Nat) (hw : 1 ≤ w) (hw2 : w < 64) (hs : 1 ≤ size)
    (g : G) : ∃ T, getWindowTable size w g = .ok T ∧ T.length = (size + w - 1) / w ∧
      (∀ row ∈ T, row.length = 2 ^ w) ∧
      ∀ outer inner, outer < T.length → inner < 2 ^ w → inner * 2 ^ (outer * w) < 2 ^ size →
        ∃ row t, T[outer]? = some row ∧ row[inner]? = some t ∧ ψ t = (inner * 2 ^ (outer * w)) • ψ g := by
  unfold getWindowTable
  rw [if_neg (by omega)]
  simp only
  generalize hk : (size + w - 1) / w = k
  have hk1 : 1 ≤ k := by rw [← hk]; exact Nat.div_pos (by omega) (by omega)
  have hkle : (k - 1) * w < size := by
    have := Nat.div_mul_le_self (size + w - 1) w
    rw [hk] at this
    obtain ⟨m, rfl⟩ : ∃ m, k = m + 1 := ⟨k - 1, by omega⟩
    simp only [Nat.add_sub_cancel, Nat.succ_mul] at *
    omega
  have hkge : size ≤ k * w := by
    have := Nat.lt_div_mul_add (a := size + w - 1) (b := w) (by omega)
    rw [hk] at this
    omega
  have hlast : size - (k - 1) * w ≤ w := by
    obtain ⟨m, rfl⟩ : ∃ m, k = m + 1 := ⟨k - 1, by omega⟩
    simp only [Nat.add_sub_cancel, Nat.succ_mul] at *
    omega
  have hlast' := Nat.pow_le_pow_right (n := 2) (by norm_num) hlast
  refine ⟨_, rfl, windowRows_length _ _ _ _ _, ?_, ?_⟩
  · intro row hrow
    obtain ⟨j, hj, rfl⟩ := List.getElem_of_mem hrow
    rw [windowRows_length] at hj
    obtain ⟨row, r1, r2, _⟩ := windowRows_get hG w (2 ^ w) _ k hlast' g j hj
    rw [List.getElem?_eq_getElem (by rw [windowRows_length]; exact hj)] at r1
    rw [Option.some.inj r1, r2]
  · intro outer inner ho hi hlt
    rw [windowRows_length] at ho
    obtain ⟨row, r1, r2, r3⟩ := windowRows_get hG w (2 ^ w) _ k hlast' g outer ho
    obtain ⟨t, t1, t2⟩ := r3 inner (by
      split
      · rename_i h
        have : outer = k - 1 := by omega
        rw [this] at hlt
        by_contra hcon
        have h1 : 2 ^ (size - (k - 1) * w) * 2 ^ ((k - 1) * w) ≤ inner * 2 ^ ((k - 1) * w) :=
          Nat.mul_le_mul_right _ (not_lt.1 hcon)
        rw [← pow_add, Nat.sub_add_cancel hkle.le] at h1
        omega
      · exact hi)
    exact ⟨row, t, r1, t1, t2⟩

theorem windowedExp_spec (hG : ImplementsGroup ψ) (size w : Nat) (hw : 1 ≤ w) (hw2 : w ≤ 32) (hs : 1 ≤ size)
    (g : G) : ∃ T t00 row rest, getWindowTable size w g = .ok T ∧ T = (t00 :: row) :: rest ∧
      ∀ e, val e < 2 ^ size → ∃ t, windowedExp size w T e = .ok t ∧ ψ t = val e • ψ g := by
  obtain ⟨T, h1, h2, h3, h4⟩ := getWindowTable_entries hG size w hw (by omega) hs g
  have hk1 : 1 ≤ (size + w - 1) / w := Nat.div_pos (by omega) (by omega)
  have hkge : size ≤ (size + w - 1) / w * w := by
    have := Nat.lt_div_mul_add (a := size + w - 1) (b := w) (by omega)
    omega
  obtain ⟨row, t, r1, r2, r3⟩ := h4 0 0 (by omega) (Nat.pow_pos (by norm_num))
    (by rw [Nat.zero_mul]; exact Nat.pow_pos (by norm_num))
  rw [Nat.zero_mul, zero_nsmul] at r3
  cases T with
  | nil => simp at r1
  | cons row0 rest =>
    obtain rfl : row0 = row := by simpa using r1
    cases row0 with
    | nil => simp at r2
    | cons t00 row =>
      obtain rfl : t00 = t := by simpa using r2
      refine ⟨_, t00, row, rest, h1, rfl, ?_⟩
      intro e he
      unfold windowedExp
      rw [if_neg (by omega)]
      simp only
      rw [if_neg (by omega), List.take_of_length_le (by omega)]
      obtain ⟨t', t1, t2⟩ := windowedLoop_spec hG w e (ψ g) ((t00 :: row) :: rest) 0 (by
        intro j row' hj
        rw [Nat.zero_add]
        have hjl := (List.getElem?_eq_some_iff.1 hj).1
        obtain ⟨row'', t', q1, q2, q3⟩ := h4 j (val e / 2 ^ (j * w) % 2 ^ w) hjl
          (Nat.mod_lt _ (Nat.pow_pos (by norm_num)))
          (lt_of_le_of_lt (le_trans (Nat.mul_le_mul_right _ (Nat.mod_le _ _)) (Nat.div_mul_le_self _ _)) he)
        rw [hj] at q1
        obtain rfl := Option.some.inj q1
        exact ⟨t', q2, q3⟩) t00
      refine ⟨t', t1, ?_⟩
      rw [t2, r3, zero_add, Nat.zero_mul, pow_zero, Nat.div_one, Nat.mul_one, h2,
        Nat.mod_eq_of_lt (lt_of_lt_of_le he (Nat.pow_le_pow_right (by norm_num) hkge))]

theorem runBatch_spec {P : Nat → G → Prop} (size w : Nat) (T : List (List G)) (scalar : Nat → Option S) (n : Nat)
    (hin : ∀ i < n, ∃ s t, scalar i = some s ∧ windowedExp size w T (toB s) = .ok t ∧ P i t)
    (order : List Nat) (hnd : order.Nodup) (hlt : ∀ i ∈ order, i < n) (part : List G)
    (hlen : part.length = n) :
    ∃ res, runBatch toB size w T scalar order part = .ok res ∧ res.length = n ∧
      (∀ i ∈ order, ∃ t, res[i]? = some t ∧ P i t) ∧ (∀ i, i ∉ order → res[i]? = part[i]?) := by
  induction order generalizing part with
  | nil => exact ⟨part, rfl, hlen, by simp, fun _ _ => rfl⟩
  | cons i is ih =>
    obtain ⟨s, t, h0, h1, h2⟩ := hin i (hlt i List.mem_cons_self)
    have hnd' := List.nodup_cons.1 hnd
    obtain ⟨res, r1, r2, r3, r4⟩ := ih hnd'.2 (fun j hj => hlt j (List.mem_cons_of_mem _ hj)) (part.set i t)
      (by simpa using hlen)
    refine ⟨res, ?_, r2, ?_, ?_⟩
    · rw [runBatch, h0]
      simp only
      rw [h1, Outcome.bind_ok, r1]
    · intro j hj
      rcases List.mem_cons.1 hj with rfl | hj
      · refine ⟨t, ?_, h2⟩
        rw [r4 j hnd'.1, List.getElem?_set_self (by rw [hlen]; exact hlt j List.mem_cons_self)]
      · exact r3 j hj
    · intro j hj
      rw [r4 j (fun h => hj (List.mem_cons_of_mem _ h)),
        List.getElem?_set_ne (by rintro rfl; exact hj List.mem_cons_self)]

theorem batch_map {n : Nat} {f : Nat → A} {res : List G} (hlen : res.length = n) (order : List Nat)
    (ho : order.Perm (List.range n)) (h : ∀ i ∈ order, ∃ t, res[i]? = some t ∧ ψ t = f i) :
    res.map ψ = (List.range n).map f := by
  apply List.ext_getElem (by simp [hlen])
  intro i h1 h2
  simp only [List.getElem_map, List.getElem_range]
  obtain ⟨t, t1, t2⟩ := h i (ho.symm.subset (List.mem_range.2 (by simpa using h2)))
  have := List.getElem?_eq_getElem (l := res) (i := i) (by simpa using h1)
  rw [t1] at this
  rw [← Option.some.inj this, t2]

end Windows

section Special
variable {G A : Type*}

theorem writeBack_spec (ψ : G → A) (z : A) (Special : G → Prop) (isZero : G → Bool) (zs : G)
    (hzs : ψ zs = z) (hsp : Special zs) (vec : List G) (hz : ∀ v ∈ vec, isZero v = true → ψ v = z)
    (it : List G) (hit : it.map ψ = (vec.filter fun v => !isZero v).map ψ) (his : ∀ x ∈ it, Special x) :
    ∃ l, writeBack isZero zs vec it = .ok l ∧ l.map ψ = vec.map ψ ∧ ∀ x ∈ l, Special x := by
  induction vec generalizing it with
  | nil => exact ⟨[], rfl, rfl, by simp⟩
  | cons v vs ih =>
    have hz' : ∀ v ∈ vs, isZero v = true → ψ v = z := fun x hx => hz x (List.mem_cons_of_mem _ hx)
    unfold writeBack
    split
    · rename_i hv
      rw [List.filter_cons_of_neg (by simp [hv])] at hit
      obtain ⟨l, l1, l2, l3⟩ := ih hz' it hit his
      refine ⟨zs :: l, by rw [l1, Outcome.map_ok], ?_, ?_⟩
      · rw [List.map_cons, List.map_cons, l2, hzs, hz v List.mem_cons_self hv]
      · intro x hx
        rcases List.mem_cons.1 hx with rfl | hx
        · exact hsp
        · exact l3 x hx
    · rename_i hv
      rw [List.filter_cons_of_pos (by simp [hv]), List.map_cons] at hit
      cases it with
      | nil => simp at hit
      | cons t it =>
        rw [List.map_cons, List.cons.injEq] at hit
        obtain ⟨l, l1, l2, l3⟩ := ih hz' it hit.2 (fun x hx => his x (List.mem_cons_of_mem _ hx))
        refine ⟨t :: l, by simp only [l1, Outcome.map_ok], ?_, ?_⟩
        · rw [List.map_cons, List.map_cons, l2, hit.1]
        · intro x hx
          rcases List.mem_cons.1 hx with rfl | hx
          · exact his _ List.mem_cons_self
          · exact l3 x hx

end Special
end Libff
