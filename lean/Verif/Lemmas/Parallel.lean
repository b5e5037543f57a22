import Mathlib.Tactic.Ring
import Verif.Lemmas.Threads
import Verif.Model.Parallel

/-! The parallel loops of `multiexp.tcc` write disjoint entries. -/
namespace Libff

section
variable {G S : Type}

/-- What all iterations may read. -/
def mShared : MLoc → Prop
  | .base _ => True
  | .scalar _ => True
  | .table _ _ => True
  | .coeff => True
  | .slot _ => False
  | .addCnt => False

/-- What iteration `i` may write. -/
def mOwn (i : Nat) (l : MLoc) : Prop := l = .slot i

theorem mSeparate : Separate mShared mOwn :=
  ⟨fun t l h e => by rw [e] at h; exact h, fun s t l h h' => by rw [h] at h'; exact MLoc.slot.inj h'⟩

theorem readBases_conf (W : MLoc → Prop) : ∀ (n lo : Nat) (k : List G → MProg G S), (∀ gs, Confined mShared W (k gs)) →
    Confined mShared W (readBases lo n k)
  | 0, _, k, h => h []
  | n + 1, lo, k, h => ⟨.inl trivial, fun v => by
      cases v with
      | none => trivial
      | some g => exact readBases_conf W n (lo + 1) _ fun gs => h (g :: gs)⟩

theorem readScalars_conf (W : MLoc → Prop) : ∀ (n lo : Nat) (k : List S → MProg G S), (∀ ss, Confined mShared W (k ss)) →
    Confined mShared W (readScalars lo n k)
  | 0, _, k, h => h []
  | n + 1, lo, k, h => ⟨.inl trivial, fun v => by
      cases v with
      | none => trivial
      | some g => exact readScalars_conf W n (lo + 1) _ fun gs => h (g :: gs)⟩

theorem orFail_conf {α : Type} {R W : MLoc → Prop} (o : Outcome α) (k : α → MProg G S) (h : ∀ a, Confined R W (k a)) :
    Confined R W (o.orFail k) := by
  cases o with
  | ok a => exact h a
  | abort => trivial
  | ub => trivial

theorem multiExpBody_conf (inner : List G → List S → Outcome G) (nb ns one chunks i : Nat) :
    Confined mShared (mOwn i) (multiExpBody inner (fun _ _ => 0) nb ns one chunks i) :=
  readBases_conf _ _ _ _ fun _ => readScalars_conf _ _ _ _ fun _ => orFail_conf _ _ fun _ => ⟨rfl, trivial⟩

theorem readBases_run {bases : List G} {m : Mem MLoc (MVal G S)} (hm : ∀ j, m (.base j) = (bases[j]? : Option G)) :
    ∀ (n lo : Nat) (k : List G → MProg G S), lo + n ≤ bases.length →
      (readBases lo n k).run m = (k ((bases.drop lo).take n)).run m
  | 0, lo, k, _ => by simp [readBases]
  | n + 1, lo, k, h => by
    have hl : lo < bases.length := by omega
    have e : m (.base lo) = (some bases[lo] : Option G) := (hm lo).trans (List.getElem?_eq_getElem hl)
    rw [readBases, run_read, e]
    show (readBases (lo + 1) n fun gs => k (bases[lo] :: gs)).run m = _
    rw [readBases_run hm n (lo + 1) _ (by omega), ← List.getElem_cons_drop hl, List.take_succ_cons]

theorem readScalars_run {scalars : List S} {m : Mem MLoc (MVal G S)} (hm : ∀ j, m (.scalar j) = (scalars[j]? : Option S)) :
    ∀ (n lo : Nat) (k : List S → MProg G S), lo + n ≤ scalars.length →
      (readScalars lo n k).run m = (k ((scalars.drop lo).take n)).run m
  | 0, lo, k, _ => by simp [readScalars]
  | n + 1, lo, k, h => by
    have hl : lo < scalars.length := by omega
    have e : m (.scalar lo) = (some scalars[lo] : Option S) := (hm lo).trans (List.getElem?_eq_getElem hl)
    rw [readScalars, run_read, e]
    show (readScalars (lo + 1) n fun gs => k (scalars[lo] :: gs)).run m = _
    rw [readScalars_run hm n (lo + 1) _ (by omega), ← List.getElem_cons_drop hl, List.take_succ_cons]

theorem orFail_run {α : Type} (o : Outcome α) (k : α → MProg G S) (m : Mem MLoc (MVal G S)) :
    (o.orFail k).run m = o.bind fun a => (k a).run m := by
  cases o <;> rfl

theorem chunk_eq {α : Type} (v : List α) {chunks i : Nat} (hc : 0 < chunks) (hi : i < chunks) :
    i * (v.length / chunks) + chunkLen v.length (v.length / chunks) chunks i ≤ v.length ∧
    (v.drop (i * (v.length / chunks))).take (chunkLen v.length (v.length / chunks) chunks i) =
      chunkOf v (v.length / chunks) chunks i := by
  have h1 : (i + 1) * (v.length / chunks) ≤ v.length :=
    le_trans (Nat.mul_le_mul_right _ hi) (Nat.mul_div_le _ _)
  have h2 : i * (v.length / chunks) + v.length / chunks = (i + 1) * (v.length / chunks) := by ring
  unfold chunkLen chunkOf
  generalize v.length / chunks = d at *
  generalize i * d = x at *
  split
  · refine ⟨by omega, ?_⟩
    exact List.take_of_length_le (by simp)
  · exact ⟨by omega, rfl⟩

theorem multiExpMem_slot (bases : List G) (scalars : List S) (part : List G) (cnt i : Nat) (hi : i < part.length) (t : G) :
    Function.update (multiExpMem bases scalars part cnt) (.slot i) (some t : Option G) =
      multiExpMem bases scalars (part.set i t) cnt := by
  funext l
  by_cases h : l = .slot i
  · subst h
    rw [Function.update_self]
    show (some t : Option G) = (part.set i t)[i]?
    simp [hi]
  · rw [Function.update_of_ne h]
    cases l with
    | slot j =>
      have : i ≠ j := fun e => h (by rw [e])
      show part[j]? = (part.set i t)[j]?
      rw [List.getElem?_set_ne this]
    | _ => rfl

theorem multiExp_iterations (inner : List G → List S → Outcome G) (bases : List G) (scalars : List S)
    (hlen : bases.length = scalars.length) {chunks : Nat} (hc : 0 < chunks) (cnt : Nat) : ∀ (is : List Nat) (part : List G),
    part.length = chunks → (∀ i ∈ is, i < chunks) →
    (iterations (multiExpBody inner (fun _ _ => 0) bases.length scalars.length (bases.length / chunks) chunks) is).run
      (multiExpMem bases scalars part cnt) =
    (runChunks inner bases scalars (bases.length / chunks) chunks is part).map fun p => multiExpMem bases scalars p cnt
  | [], part, _, _ => rfl
  | i :: is, part, hp, hi => by
    have hi0 := hi i (List.mem_cons_self ..)
    obtain ⟨a1, a2⟩ := chunk_eq bases hc hi0
    obtain ⟨b1, b2⟩ := chunk_eq scalars hc hi0
    rw [iterations, run_andThen, multiExpBody, readBases_run (fun _ => rfl) _ _ _ a1, a2]
    rw [← hlen] at b1 b2
    have hns : scalars.length = bases.length := hlen.symm
    rw [show chunkLen scalars.length (bases.length / chunks) chunks i = chunkLen bases.length (bases.length / chunks) chunks i by rw [hlen],
      readScalars_run (fun _ => rfl) _ _ _ (by rw [← hlen]; exact b1), b2, orFail_run, runChunks]
    cases h : inner (chunkOf bases (bases.length / chunks) chunks i) (chunkOf scalars (bases.length / chunks) chunks i) with
    | abort => rfl
    | ub => rfl
    | ok t =>
      simp only [Outcome.bind_ok]
      show ((Outcome.ok (Function.update _ _ _)).bind _) = _
      rw [multiExpMem_slot _ _ _ _ _ (by omega), Outcome.bind_ok]
      exact multiExp_iterations inner bases scalars hlen hc cnt is (part.set i t) (by simpa using hp)
        fun j hj => hi j (List.mem_cons_of_mem _ hj)

theorem slots_eq (m : Mem MLoc (MVal G S)) (part : List G) (h : ∀ i, m (.slot i) = (part[i]? : Option G)) :
    slots part.length m = part := by
  unfold slots
  have : (fun i => (m (.slot i) : Option G)) = fun i => part[i]? := funext h
  rw [this]
  clear this h
  induction part using List.reverseRecOn with
  | nil => simp
  | append_singleton l a ih =>
    rw [List.length_append, List.length_singleton, List.range_succ, List.filterMap_append]
    have e : (List.range l.length).filterMap (fun i => (l ++ [a])[i]?) = (List.range l.length).filterMap (fun i => l[i]?) :=
      List.filterMap_congr fun j hj => List.getElem?_append_left (List.mem_range.1 hj)
    rw [e, ih]
    simp

theorem runChunks_length (inner : List G → List S → Outcome G) (bases : List G) (scalars : List S) (one chunks : Nat) :
    ∀ (is : List Nat) (part res : List G), runChunks inner bases scalars one chunks is part = .ok res → res.length = part.length
  | [], part, res, h => by rw [Outcome.ok.inj h]
  | i :: is, part, res, h => by
    rw [runChunks] at h
    cases e : inner (chunkOf bases one chunks i) (chunkOf scalars one chunks i) with
    | abort => rw [e] at h; cases h
    | ub => rw [e] at h; cases h
    | ok t =>
      rw [e, Outcome.bind_ok] at h
      rw [runChunks_length inner bases scalars one chunks is _ res h, List.length_set]

theorem classify_lengths [Zero S] [One S] [DecidableEq S] (addB : G → G → Outcome G) : ∀ (gs : List G) (ss : List S)
    (acc : G) (bs : List G) (ps : List S), bs.length = ps.length → ∀ a b p, classify addB gs ss (acc, bs, ps) = .ok (a, b, p) →
    b.length = p.length
  | gs, [], acc, bs, ps, h, a, b, p, e => by
    have e' : classify addB gs ([] : List S) (acc, bs, ps) = .ok (acc, bs, ps) := by cases gs <;> rfl
    have := Outcome.ok.inj (e'.symm.trans e)
    simp only [Prod.mk.injEq] at this
    rw [← this.2.1, ← this.2.2]; exact h
  | [], _ :: _, _, _, _, _, _, _, _, e => by cases e
  | g :: gs, s :: ss, acc, bs, ps, h, a, b, p, e => by
    rw [classify] at e
    split at e
    · exact classify_lengths addB gs ss acc bs ps h a b p e
    · split at e
      · cases h2 : addB acc g with
        | ok acc' => rw [h2, Outcome.bind_ok] at e; exact classify_lengths addB gs ss acc' bs ps h a b p e
        | abort => rw [h2] at e; cases e
        | ub => rw [h2] at e; cases e
      · exact classify_lengths addB gs ss acc _ _ (by simp [h]) a b p e

/-! ## The batch loops -/

variable [GroupOps G]
open GroupOps

theorem windowedProg_conf (W : MLoc → Prop) (window : Nat) (e : List Limb) : ∀ (n outer : Nat) (res : G) (k : G → MProg G S),
    (∀ t, Confined mShared W (k t)) → Confined mShared W (windowedProg (fun _ _ => false) window e n outer res k)
  | 0, _, res, k, h => h res
  | n + 1, outer, res, k, h => ⟨.inl trivial, fun v => by
      cases v with
      | none => trivial
      | some t => exact windowedProg_conf W window e n (outer + 1) (add res t) k h⟩

theorem batchBody_conf [Mul S] (toB : S → List Limb) (withCoeff : Bool) (size window i : Nat) :
    Confined mShared (mOwn i) (batchBody (G := G) toB (fun _ _ => false) withCoeff size window i) := by
  refine ⟨.inl trivial, fun v => ?_⟩
  cases v with
  | none => trivial
  | some s =>
    refine ⟨.inl trivial, fun c => ?_⟩
    show Confined _ _ (if window = 0 ∨ 32 < window then _ else _)
    split
    · trivial
    · refine ⟨.inl trivial, fun v => ?_⟩
      cases v with
      | none => trivial
      | some t00 => exact windowedProg_conf _ _ _ _ _ _ _ fun t => ⟨rfl, trivial⟩

/-- The rows a thread reads, against the loop over the list of rows; a missing row is undefined. -/
theorem windowedProg_run {T : List (List G)} {m : Mem MLoc (MVal G S)}
    (hm : ∀ r c, m (.table r c) = (T[r]?.bind (·[c]?) : Option G)) (window : Nat) (e : List Limb) :
    ∀ (n outer : Nat) (res : G) (k : G → MProg G S),
      (outer + n ≤ T.length → (windowedProg (fun _ _ => false) window e n outer res k).run m =
        (windowedLoop window e ((T.drop outer).take n) outer res).bind fun t => (k t).run m) ∧
      (T.length < outer + n → (outer < T.length ∨ outer = T.length) → (windowedProg (fun _ _ => false) window e n outer res k).run m = .ub)
  | 0, outer, res, k => ⟨fun _ => by simp [windowedProg, windowedLoop], fun h h' => by omega⟩
  | n + 1, outer, res, k => by
    have e0 : m (.table outer (windowId e (outer * window) window)) =
      (T[outer]?.bind (·[windowId e (outer * window) window]?) : Option G) := hm _ _
    rw [windowedProg, run_read, e0]
    refine ⟨fun h => ?_, fun h h' => ?_⟩
    · have hl : outer < T.length := by omega
      rw [List.getElem?_eq_getElem hl, ← List.getElem_cons_drop hl, List.take_succ_cons, windowedLoop, Option.bind_some]
      cases h2 : T[outer][windowId e (outer * window) window]? with
      | none => rfl
      | some t => exact (windowedProg_run hm window e n (outer + 1) (add res t) k).1 (by omega)
    · by_cases hl : outer < T.length
      · rw [List.getElem?_eq_getElem hl, Option.bind_some]
        cases h2 : T[outer][windowId e (outer * window) window]? with
        | none => rfl
        | some t => exact (windowedProg_run hm window e n (outer + 1) (add res t) k).2 (by omega) (by omega)
      · rw [List.getElem?_eq_none (by omega)]; rfl

theorem batchMem_slot (T : List (List G)) (coeff : Option S) (v : List S) (res : List G) (cnt i : Nat) (hi : i < res.length)
    (t : G) : Function.update (batchMem T coeff v res cnt) (.slot i) (some t : Option G) =
      batchMem T coeff v (res.set i t) cnt := by
  funext l
  by_cases h : l = .slot i
  · subst h
    rw [Function.update_self]
    show (some t : Option G) = (res.set i t)[i]?
    simp [hi]
  · rw [Function.update_of_ne h]
    cases l with
    | slot j =>
      have : i ≠ j := fun e => h (by rw [e])
      show res[j]? = (res.set i t)[j]?
      rw [List.getElem?_set_ne this]
    | _ => rfl

theorem batchBody_run [Mul S] (toB : S → List Limb) (size window : Nat) (T : List (List G)) (coeff : Option S) (v : List S)
    (res : List G) (cnt i : Nat) (hi : i < res.length) :
    (batchBody toB (fun _ _ => false) coeff.isSome size window i).run (batchMem T coeff v res cnt) =
      match (v[i]?.map (effScalar coeff)) with
      | none => .ub
      | some s => (windowedExp size window T (toB s)).bind fun t => .ok (batchMem T coeff v (res.set i t) cnt) := by
  have e0 : batchMem (G := G) T coeff v res cnt (.scalar i) = (v[i]? : Option S) := rfl
  have e1 : batchMem (G := G) T coeff v res cnt .coeff = (coeff : Option S) := rfl
  have e2 : batchMem (G := G) T coeff v res cnt (.table 0 0) = (T[0]?.bind (·[0]?) : Option G) := rfl
  rw [batchBody, run_read, e0]
  cases hv : v[i]? with
  | none => rfl
  | some s =>
    simp only [Option.map_some]
    rw [run_read, e1]
    have hs : effScalar (if coeff.isSome then coeff else none) s = effScalar coeff s := by
      cases coeff <;> rfl
    rw [hs]
    generalize effScalar coeff s = x
    rw [windowedExp]
    split
    · rfl
    · rw [run_read, e2]
      have key : ∀ t00 : G, (windowedProg (fun _ _ => false) window (toB x) ((size + window - 1) / window) 0 t00 fun t =>
            Prog.write (.slot i) (some t : Option G) .done).run (batchMem T coeff v res cnt) =
          if T.length < (size + window - 1) / window then .ub else
            (windowedLoop window (toB x) (T.take ((size + window - 1) / window)) 0 t00).bind fun t =>
              .ok (batchMem T coeff v (res.set i t) cnt) := by
        intro t00
        obtain ⟨h1, h2⟩ := windowedProg_run (T := T) (m := batchMem T coeff v res cnt) (fun _ _ => rfl) window (toB x)
          ((size + window - 1) / window) 0 t00 fun t => Prog.write (.slot i) (some t : Option G) .done
        split
        · next h => exact h2 (by omega) (by omega)
        · next h =>
          rw [h1 (by omega), List.drop_zero]
          congr 1
          funext t
          rw [run_write, batchMem_slot _ _ _ _ _ _ hi]
          rfl
      cases T with
      | nil =>
        by_cases h : ([] : List (List G)).length < (size + window - 1) / window
        · simp only [h, if_true]; rfl
        · simp only [h, if_false]; rfl
      | cons row rows =>
        cases row with
        | nil =>
          by_cases h : (([] : List G) :: rows).length < (size + window - 1) / window
          · simp only [h, if_true]; rfl
          · simp only [h, if_false]; rfl
        | cons t00 r =>
          refine (key t00).trans ?_
          by_cases h : ((t00 :: r) :: rows).length < (size + window - 1) / window
          · simp only [h, if_true]; rfl
          · simp only [h, if_false]

theorem batch_iterations [Mul S] (toB : S → List Limb) (size window : Nat) (T : List (List G)) (coeff : Option S) (v : List S)
    (cnt : Nat) : ∀ (is : List Nat) (res : List G), (∀ i ∈ is, i < res.length) →
    (iterations (batchBody toB (fun _ _ => false) coeff.isSome size window) is).run (batchMem T coeff v res cnt) =
    (runBatch toB size window T (fun i => v[i]?.map (effScalar coeff)) is res).map fun p =>
      batchMem T coeff v p cnt
  | [], res, _ => rfl
  | i :: is, res, hi => by
    rw [iterations, run_andThen, batchBody_run _ _ _ _ _ _ _ _ _ (hi i (List.mem_cons_self ..)), runBatch]
    cases hx : (v[i]?.map (effScalar coeff)) with
    | none => rfl
    | some s =>
      simp only
      cases windowedExp size window T (toB s) with
      | abort => rfl
      | ub => rfl
      | ok t =>
        simp only [Outcome.bind_ok]
        exact batch_iterations toB size window T coeff v cnt is (res.set i t) fun j hj => by
          rw [List.length_set]; exact hi j (List.mem_cons_of_mem _ hj)

theorem runBatch_length (toB : S → List Limb) (size window : Nat) (T : List (List G)) (scalar : Nat → Option S) :
    ∀ (is : List Nat) (res res' : List G), runBatch toB size window T scalar is res = .ok res' → res'.length = res.length
  | [], res, res', h => by rw [Outcome.ok.inj h]
  | i :: is, res, res', h => by
    rw [runBatch] at h
    cases e : scalar i with
    | none => rw [e] at h; cases h
    | some s =>
      rw [e] at h
      simp only at h
      cases e2 : windowedExp size window T (toB s) with
      | abort => rw [e2] at h; cases h
      | ub => rw [e2] at h; cases h
      | ok t =>
        rw [e2, Outcome.bind_ok] at h
        rw [runBatch_length toB size window T scalar is _ res' h, List.length_set]

end
end Libff
