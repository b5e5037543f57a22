import Verif.Lemmas.ParallelRace
import Verif.Props.MultiexpCurves

/-!
# C66: in a MULTICORE build the results do not depend on the threads
-/
namespace Libff
open GroupOps

/-- **C66.** A parallel loop whose iterations write only locations that no other iteration accesses does, in every
interleaving and for every distribution of the iterations to threads, what the sequential loop does; there is no data race. -/
theorem C66_parallel_for {L : Type*} {V : L → Type*} [DecidableEq L] {R : L → Prop} {W : Nat → L → Prop} (hs : Separate R W)
    {body : Nat → Prog L V} {n : Nat} (hc : ∀ i < n, Confined R (W i) (body i)) {asg : List (List Nat)} (ha : Assigns asg n)
    (m : Mem L V) : SameAs (parallelFor body asg m) ((iterations body (List.range n)).run m) :=
  parallelFor_sameAs hs hc ha m

section
variable {G S : Type} [GroupOps G]

/-- **C66.** The loop of `multi_exp` in a build without operation counters: no data race, no execution that goes on for ever. -/
theorem C66_multi_exp_race_free (inner : List G → List S → Outcome G) (bases : List G) (scalars : List S)
    (chunks : Nat) (asg : List (List Nat)) (ha : Assigns asg chunks) (m : Mem MLoc (MVal G S)) :
    Terminates (parallelFor (multiExpBody inner (fun _ _ => 0) bases.length scalars.length (bases.length / chunks) chunks) asg m) ∧
    ∀ c, Reaches (parallelFor (multiExpBody inner (fun _ _ => 0) bases.length scalars.length (bases.length / chunks) chunks) asg m) c →
      ¬ c.Race :=
  have h := parallelFor_sameAs mSeparate (fun i _ => multiExpBody_conf inner bases.length scalars.length (bases.length / chunks) chunks i) ha m
  ⟨h.ends, h.noRace⟩

/-- **C66.** `multi_exp` with threads, for any method: if the sequential function returns `g`, then `g` is what every execution
returns (the same object, not only the same group element); if it does not return normally, no execution does. -/
theorem C66_multi_exp (inner : List G → List S → Outcome G) (bases : List G) (scalars : List S)
    (hlen : bases.length = scalars.length) (chunks : Nat) (asg : List (List Nat)) (ha : Assigns asg chunks) :
    (∀ g, multiExp inner (List.range chunks) bases scalars chunks = .ok g →
      ∀ o, MultiExpMulticore inner (fun _ _ => 0) asg bases scalars chunks o ↔ o = .ok g) ∧
    ((∀ g, multiExp inner (List.range chunks) bases scalars chunks ≠ .ok g) →
      ∀ g, ¬ MultiExpMulticore inner (fun _ _ => 0) asg bases scalars chunks (.ok g)) := by
  unfold multiExp MultiExpMulticore
  simp only
  split
  · exact ⟨fun g hg o => by rw [hg], fun h g hg => h g hg.symm⟩
  · split
    · exact ⟨fun g hg => (by cases hg), fun _ g hg => (by cases hg)⟩
    · next h1 h2 =>
      have hc : 0 < chunks := Nat.pos_of_ne_zero h2
      have hs := parallelFor_sameAs mSeparate
        (fun i _ => multiExpBody_conf inner bases.length scalars.length (bases.length / chunks) chunks i) ha
        (multiExpMem bases scalars (List.replicate chunks zero) 0)
      have e := multiExp_iterations inner bases scalars hlen hc 0 (List.range chunks) (List.replicate chunks zero)
        (List.length_replicate ..) (fun i hi => List.mem_range.1 hi)
      rw [e] at hs
      cases hr : runChunks inner bases scalars (bases.length / chunks) chunks (List.range chunks) (List.replicate chunks zero) with
      | ok part =>
        rw [hr] at hs
        have hlp : part.length = chunks := by
          rw [runChunks_length _ _ _ _ _ _ _ _ hr, List.length_replicate]
        have hsl : slots chunks (multiExpMem bases scalars part 0) = part := by
          rw [← hlp]; exact slots_eq _ _ fun _ => rfl
        have hpos := hs.result _ rfl
        refine ⟨fun g hg o => ?_, fun h => absurd rfl (h _)⟩
        have hg' : part.foldl add zero = g := Outcome.ok.inj hg
        constructor
        · rintro ⟨o', hp, rfl⟩
          rw [(hpos o').1 hp, Outcome.map_ok, hsl, hg']
        · rintro rfl
          exact ⟨_, (hpos _).2 rfl, by rw [Outcome.map_ok, hsl, hg']⟩
      | abort =>
        rw [hr] at hs
        refine ⟨fun g hg => (by cases hg), ?_⟩
        rintro - g ⟨o', hp, ho⟩
        cases o' with
        | ok m => exact hs.failure (fun m hm => by cases hm) m hp
        | abort => cases ho
        | ub => cases ho
      | ub =>
        rw [hr] at hs
        refine ⟨fun g hg => (by cases hg), ?_⟩
        rintro - g ⟨o', hp, ho⟩
        cases o' with
        | ok m => exact hs.failure (fun m hm => by cases hm) m hp
        | abort => cases ho
        | ub => cases ho

/-- **C66.** `multi_exp_with_mixed_addition` with threads. -/
theorem C66_multi_exp_with_mixed_addition [Zero S] [One S] [DecidableEq S] (debug : Bool) (addB : G → G → Outcome G)
    (inner : List G → List S → Outcome G) (bases : List G) (scalars : List S) (chunks : Nat) (asg : List (List Nat))
    (ha : Assigns asg chunks) :
    (∀ g, multiExpMixed debug addB inner (List.range chunks) bases scalars chunks = .ok g →
      ∀ o, MultiExpMixedMulticore debug addB inner (fun _ _ => 0) asg bases scalars chunks o ↔ o = .ok g) ∧
    ((∀ g, multiExpMixed debug addB inner (List.range chunks) bases scalars chunks ≠ .ok g) →
      ∀ g, ¬ MultiExpMixedMulticore debug addB inner (fun _ _ => 0) asg bases scalars chunks (.ok g)) := by
  unfold multiExpMixed MultiExpMixedMulticore
  split
  · exact ⟨fun g hg => (by cases hg), fun _ g hg => (by cases hg)⟩
  · cases hcl : classify addB bases scalars (zero, [], []) with
    | abort => exact ⟨fun g hg => (by cases hg), fun _ g hg => (by cases hg)⟩
    | ub => exact ⟨fun g hg => (by cases hg), fun _ g hg => (by cases hg)⟩
    | ok r =>
      obtain ⟨acc, bs, ps⟩ := r
      simp only [Outcome.bind_ok]
      obtain ⟨h1, h2⟩ := C66_multi_exp inner bs ps (classify_lengths addB bases scalars zero [] [] rfl acc bs ps hcl) chunks asg ha
      cases hm : multiExp inner (List.range chunks) bs ps chunks with
      | ok t =>
        have h1 := h1 t hm
        refine ⟨fun g hg o => ⟨?_, ?_⟩, fun h => absurd rfl (h _)⟩
        · rintro ⟨o', hp, rfl⟩
          rw [(h1 o').1 hp, ← hg]
        · rintro rfl
          exact ⟨_, (h1 _).2 rfl, hg.symm⟩
      | abort =>
        refine ⟨fun g hg => (by cases hg), ?_⟩
        rintro - g ⟨o', hp, ho⟩
        cases o' with
        | ok m => exact h2 (fun m e => by rw [hm] at e; cases e) m hp
        | abort => cases ho
        | ub => cases ho
      | ub =>
        refine ⟨fun g hg => (by cases hg), ?_⟩
        rintro - g ⟨o', hp, ho⟩
        cases o' with
        | ok m => exact h2 (fun m e => by rw [hm] at e; cases e) m hp
        | abort => cases ho
        | ub => cases ho

/-- The two batch functions at once; `coeff` is `none` for `batch_exp`. -/
theorem batch_multicore [Mul S] (toB : S → List Limb) (size window : Nat) (t00 : G) (r : List G) (rows : List (List G))
    (coeff : Option S) (v : List S) (asg : List (List Nat)) (ha : Assigns asg v.length) :
    let seq := runBatch toB size window ((t00 :: r) :: rows) (fun i => v[i]?.map (effScalar coeff)) (List.range v.length)
      (List.replicate v.length t00)
    (∀ res, seq = .ok res → ∀ o, BatchExpMulticore toB (fun _ _ => false) size window ((t00 :: r) :: rows) asg coeff v o ↔ o = .ok res) ∧
    ((∀ res, seq ≠ .ok res) → ∀ res, ¬ BatchExpMulticore toB (fun _ _ => false) size window ((t00 :: r) :: rows) asg coeff v (.ok res)) := by
  intro seq
  have hs := parallelFor_sameAs mSeparate (fun i _ => batchBody_conf (G := G) toB coeff.isSome size window i) ha
    (batchMem ((t00 :: r) :: rows) coeff v (List.replicate v.length t00) 0)
  have e := batch_iterations toB size window ((t00 :: r) :: rows) coeff v 0 (List.range v.length) (List.replicate v.length t00)
    (fun i hi => by rw [List.length_replicate]; exact List.mem_range.1 hi)
  rw [e] at hs
  unfold BatchExpMulticore
  simp only
  cases hr : seq with
  | ok part =>
    rw [show runBatch _ _ _ _ _ _ _ = Outcome.ok part from hr] at hs
    have hlp : part.length = v.length := by
      rw [runBatch_length _ _ _ _ _ _ _ _ hr, List.length_replicate]
    have hsl : slots v.length (batchMem ((t00 :: r) :: rows) coeff v part 0) = part := by
      rw [← hlp]; exact slots_eq _ _ fun _ => rfl
    have hpos := hs.result _ rfl
    refine ⟨fun res hres o => ?_, fun h => absurd rfl (h _)⟩
    have hg' : part = res := Outcome.ok.inj hres
    constructor
    · rintro ⟨o', hp, rfl⟩
      rw [(hpos o').1 hp, Outcome.map_ok, hsl, hg']
    · rintro rfl
      exact ⟨_, (hpos _).2 rfl, by rw [Outcome.map_ok, hsl, hg']⟩
  | abort =>
    rw [show runBatch _ _ _ _ _ _ _ = Outcome.abort from hr] at hs
    refine ⟨fun g hg => (by cases hg), ?_⟩
    rintro - g ⟨o', hp, ho⟩
    cases o' with
    | ok m => exact hs.failure (fun m hm => by cases hm) m hp
    | abort => cases ho
    | ub => cases ho
  | ub =>
    rw [show runBatch _ _ _ _ _ _ _ = Outcome.ub from hr] at hs
    refine ⟨fun g hg => (by cases hg), ?_⟩
    rintro - g ⟨o', hp, ho⟩
    cases o' with
    | ok m => exact hs.failure (fun m hm => by cases hm) m hp
    | abort => cases ho
    | ub => cases ho

/-- **C66.** `batch_exp` with threads: every execution returns the vector the sequential function returns. -/
theorem C66_batch_exp [Mul S] (toB : S → List Limb) (size window : Nat) (T : List (List G)) (v : List S) (asg : List (List Nat))
    (ha : Assigns asg v.length) :
    (∀ res, batchExp toB size window T (List.range v.length) v = .ok res →
      ∀ o, BatchExpMulticore toB (fun _ _ => false) size window T asg none v o ↔ o = .ok res) ∧
    ((∀ res, batchExp toB size window T (List.range v.length) v ≠ .ok res) →
      ∀ res, ¬ BatchExpMulticore toB (fun _ _ => false) size window T asg none v (.ok res)) := by
  match T with
  | [] => exact ⟨fun _ h => (by cases h), fun _ _ h => (by cases h)⟩
  | [] :: _ => exact ⟨fun _ h => (by cases h), fun _ _ h => (by cases h)⟩
  | (t00 :: r) :: rows =>
    have h := batch_multicore toB size window t00 r rows none v asg ha
    have e : (fun i : Nat => v[i]?.map (effScalar (none : Option S))) = fun i : Nat => v[i]? := by
      funext i; cases v[i]? <;> rfl
    rw [e] at h
    exact h

/-- **C66.** `batch_exp_with_coeff` with threads. -/
theorem C66_batch_exp_with_coeff [Mul S] (toB : S → List Limb) (size window : Nat) (T : List (List G)) (coeff : S) (v : List S)
    (asg : List (List Nat)) (ha : Assigns asg v.length) :
    (∀ res, batchExpWithCoeff toB size window T (List.range v.length) coeff v = .ok res →
      ∀ o, BatchExpMulticore toB (fun _ _ => false) size window T asg (some coeff) v o ↔ o = .ok res) ∧
    ((∀ res, batchExpWithCoeff toB size window T (List.range v.length) coeff v ≠ .ok res) →
      ∀ res, ¬ BatchExpMulticore toB (fun _ _ => false) size window T asg (some coeff) v (.ok res)) := by
  match T with
  | [] => exact ⟨fun _ h => (by cases h), fun _ _ h => (by cases h)⟩
  | [] :: _ => exact ⟨fun _ h => (by cases h), fun _ _ h => (by cases h)⟩
  | (t00 :: r) :: rows =>
    have h := batch_multicore toB size window t00 r rows (some coeff) v asg ha
    have e : (fun i : Nat => v[i]?.map (effScalar (some coeff))) = fun i : Nat => v[i]?.map (coeff * ·) := by
      funext i; cases v[i]? <;> rfl
    rw [e] at h
    exact h

end

/-- **C66.** On a group class for which C57 holds: `multi_exp` with threads returns an object denoting `∑ sᵢ · aᵢ`. -/
theorem C66_multi_exp_sum {G A : Type} [AddCommGroup A] {P : FpParams} [Fact P.Valid] {ops : GroupOps G} {Rep : G → A → Prop}
    {Ok : List G → List (Fp P) → Prop} {inner : List G → List (Fp P) → Outcome G} (h : SumsTo ops Rep Ok inner)
    (bases : List G) (as : List A) (scalars : List (Fp P)) (chunks : Nat) (asg : List (List Nat)) (hr : List.Forall₂ Rep bases as)
    (hlen : bases.length = scalars.length) (hok : Ok bases scalars) (hc : 1 ≤ chunks) (ha : Assigns asg chunks) :
    ∃ g, Rep g (frSum as scalars) ∧ ∀ o, MultiExpMulticore inner (fun _ _ => 0) asg bases scalars chunks o ↔ o = .ok g := by
  obtain ⟨g, h1, h2⟩ := h bases as scalars chunks (List.range chunks) hr hlen hok hc (List.Perm.refl _)
  exact ⟨g, h2, (C66_multi_exp inner bases scalars hlen chunks asg ha).1 g h1⟩

/-- **C66.** In particular `alt_bn128_G1` with the BDLO12 method and mixed addition; the other groups are the same with their
theorem of C57. -/
theorem C66_alt_bn128_G1 (debug : Bool) (bases : List (Coord3 alt_bn128_Fq)) (as : List (sw 0 alt_bn128_b).Point)
    (scalars : List alt_bn128_Fr) (chunks : Nat) (asg : List (List Nat)) (hr : List.Forall₂ (JacRep (W := sw 0 alt_bn128_b)) bases as)
    (hlen : bases.length = scalars.length) (hsize : bases.length ≤ 2 ^ 42) (hsp : ∀ g ∈ bases, Jac.isSpecial g = true)
    (hc : 1 ≤ chunks) (ha : Assigns asg chunks) :
    ∃ g, JacRep (W := sw 0 alt_bn128_b) g (frSum as scalars) ∧
      ∀ o, @MultiExpMulticore _ _ Jac.ops (@multiExpBdlo _ _ Jac.ops frLimbs (Jac.mixedAdd debug)
        (@batchToSpecial _ Jac.ops Jac.isZero Jac.toAffine (Jac.batchToSpecialNZ debug))) (fun _ _ => 0) asg bases scalars chunks o ↔
        o = .ok g :=
  C66_multi_exp_sum (C57_alt_bn128_G1 debug).bdlo12_mixed bases as scalars chunks asg hr hlen ⟨hsize, hsp⟩ hc ha

/-! ## Where the threads do interfere -/

/-- **C66.** Finding: with PROFILE_OP_COUNTS the static counters are incremented by all threads without synchronisation. If two
chunks make at least one counted addition each, `multi_exp` has executions with a data race, that is, undefined behaviour. -/
theorem C66_counters_race {G S : Type} [GroupOps G] (inner : List G → List S → Outcome G) (adds : List G → List S → Nat)
    (bases : List G) (scalars : List S) (hlen : bases.length = scalars.length) (chunks : Nat) (hc : 2 ≤ chunks)
    (hb : chunks ≤ bases.length)
    (h : ∀ i < 2, (∃ t, inner (chunkOf bases (bases.length / chunks) chunks i) (chunkOf scalars (bases.length / chunks) chunks i) = .ok t) ∧
      0 < adds (chunkOf bases (bases.length / chunks) chunks i) (chunkOf scalars (bases.length / chunks) chunks i)) :
    ∃ asg, Assigns asg chunks ∧ MultiExpMulticore inner adds asg bases scalars chunks .ub := by
  refine ⟨[[0], (List.range (chunks - 1)).map (· + 1)], ?_, ?_⟩
  · obtain ⟨n, rfl⟩ : ∃ n, chunks = n + 1 := ⟨chunks - 1, by omega⟩
    unfold Assigns
    rw [List.range_succ_eq_map]
    simp
  · unfold MultiExpMulticore
    rw [if_neg (by omega), if_neg (by omega)]
    refine ⟨.ub, ?_, rfl⟩
    obtain ⟨⟨t0, h0⟩, a0⟩ := h 0 (by omega)
    obtain ⟨⟨t1, h1⟩, a1⟩ := h 1 (by omega)
    obtain ⟨n0, s0⟩ := multiExpBody_alone inner adds bases scalars hlen (by omega) (by omega) (List.replicate chunks zero) 0 h0 a0
    obtain ⟨n1, s1⟩ := multiExpBody_alone inner adds bases scalars hlen (by omega) (by omega) (List.replicate chunks zero) 0 h1 a1
    obtain ⟨n, rfl⟩ : ∃ n, chunks = n + 2 := ⟨chunks - 2, by omega⟩
    refine race_of_alone (s := 1) (t := 0) (l := .addCnt) (by decide) rfl rfl
      (p' := (bump (n1 + 1) (.write (.slot 1) (some t1 : Option G) .done)).andThen
        (iterations (multiExpBody inner adds bases.length scalars.length (bases.length / (n + 2)) (n + 2))
          (((List.range (n + 1)).map (· + 1)).tail)))
      (q' := .write .addCnt (0 + 1 : Nat) ((bump n0 (.write (.slot 0) (some t0 : Option G) .done)).andThen .done)) ?_ ?_ ?_ ?_
    · have e : (List.range (n + 2 - 1)).map (· + 1) = 1 :: ((List.range (n + 1)).map (· + 1)).tail := by
        rw [show n + 2 - 1 = n + 1 by omega, List.range_succ_eq_map]; simp
      rw [e]
      exact s1.andThen _
    · exact (s0.andThen _).trans (.read _ _ _ _ _ (.refl _ _))
    · rfl
    · rfl

/-- **C66.** Finding: `enter_block` and `leave_block` have critical sections for MULTICORE builds, but change `block_names` and the
other tables before entering them. Two threads that call them (any of the two) at the same time race, whatever else the
threads do, unless `inhibit_profiling_counters` is set. All pairing functions call `enter_block`. -/
theorem C66_blocks_race (msg msg' : String) (t t' : Int) (k k' : Prog PLoc PVal) (m : Mem PLoc PVal)
    (hm : m .inhibitCounters = false) :
    Possible ⟨m, [enterProg msg t k, enterProg msg' t' k']⟩ .ub ∧
    (m .blockNames ≠ [] → Possible ⟨m, [enterProg msg t k, leaveProg msg' k']⟩ .ub ∧
      Possible ⟨m, [leaveProg msg k, leaveProg msg' k']⟩ .ub) := by
  have he : ∀ (msg : String) (t : Int) (k : Prog PLoc PVal), ∃ p q, Alone m (enterProg msg t k) m p ∧
      p.Accesses PLoc.blockNames ∧ Alone m (enterProg msg t k) m q ∧ q.Writes PLoc.blockNames := by
    intro msg t k
    refine ⟨.read .blockNames fun names : List String => .write .blockNames (msg :: names : List String) <|
        .read .enterTimes fun m : String → Int => .write .enterTimes (Prof.set m msg t : String → Int) k,
      .write .blockNames (msg :: m .blockNames : List String) <|
        .read .enterTimes fun m : String → Int => .write .enterTimes (Prof.set m msg t : String → Int) k,
      .read _ _ _ _ _ ?_, rfl, .read _ _ _ _ _ ?_, rfl⟩
    · rw [hm]; exact .refl _ _
    · rw [hm]; exact .read _ _ _ _ _ (.refl _ _)
  have hl : m .blockNames ≠ [] → ∀ (msg : String) (k : Prog PLoc PVal), ∃ p q, Alone m (leaveProg msg k) m p ∧
      p.Accesses PLoc.blockNames ∧ Alone m (leaveProg msg k) m q ∧ q.Writes PLoc.blockNames := by
    intro hb msg k
    obtain ⟨top, rest, e⟩ := List.exists_cons_of_ne_nil hb
    refine ⟨.read .blockNames fun names : List String =>
        match names with
        | [] => .fail true
        | _ :: rest => .write .blockNames (rest : List String) <|
          .read .invocationCounts fun m : String → Nat => .write .invocationCounts (Prof.set m msg (m msg + 1) : String → Nat) k,
      .write .blockNames (rest : List String) <|
          .read .invocationCounts fun m : String → Nat => .write .invocationCounts (Prof.set m msg (m msg + 1) : String → Nat) k,
      .read _ _ _ _ _ ?_, rfl, .read _ _ _ _ _ ?_, rfl⟩
    · rw [hm]; exact .refl _ _
    · rw [hm]
      refine .read _ _ _ _ _ ?_
      rw [e]
      exact .refl _ _
  have go : ∀ p q : Prog PLoc PVal, (∃ p' q', Alone m p m p' ∧ p'.Accesses PLoc.blockNames ∧ Alone m p m q' ∧ q'.Writes PLoc.blockNames) →
      (∃ p' q', Alone m q m p' ∧ p'.Accesses PLoc.blockNames ∧ Alone m q m q' ∧ q'.Writes PLoc.blockNames) → Possible ⟨m, [p, q]⟩ .ub := by
    rintro p q ⟨p', _, h1, h2, -⟩ ⟨_, q', -, -, h3, h4⟩
    exact race_of_alone (s := 0) (t := 1) (by decide) rfl rfl h1 h3 h2 h4
  exact ⟨go _ _ (he ..) (he ..), fun hb => ⟨go _ _ (he ..) (hl hb ..), go _ _ (hl hb ..) (hl hb ..)⟩⟩

/-- **C66.** With `inhibit_profiling_counters` set any number of threads may call them: there is no race, and nothing changes. -/
theorem C66_blocks_inhibited (calls : List (Prog PLoc PVal)) (m : Mem PLoc PVal) (hm : m .inhibitCounters = true)
    (hc : ∀ p ∈ calls, (∃ msg t k, p = enterProg msg t k) ∨ ∃ msg k, p = leaveProg msg k) :
    ∀ o, Possible ⟨m, calls⟩ o ↔ o = .ok m := by
  have inv : ∀ c, Reaches ⟨m, calls⟩ c → c.mem = m ∧ ∀ p ∈ c.pool, p = .done ∨ ((∃ msg t k, p = enterProg msg t k) ∨ ∃ msg k, p = leaveProg msg k) := by
    intro c hr
    induction hr with
    | refl => exact ⟨rfl, fun p hp => .inr (hc p hp)⟩
    | tail _ st ih =>
      obtain ⟨h1, h2⟩ := ih
      cases st with
      | read m' pool t l k e =>
        simp only at h1 h2
        subst h1
        refine ⟨rfl, fun p hp => ?_⟩
        have hdone : k (m' l) = .done := by
          rcases h2 _ (List.mem_of_getElem? e) with h | ⟨_, _, _, h⟩ | ⟨_, _, h⟩
          · cases h
          · obtain ⟨rfl, h⟩ := Prog.read.inj h
            rw [eq_of_heq h]; simp [hm]
          · obtain ⟨rfl, h⟩ := Prog.read.inj h
            rw [eq_of_heq h]; simp [hm]
        rcases List.mem_or_eq_of_mem_set hp with hp | rfl
        · exact h2 p hp
        · exact .inl hdone
      | write m' pool t l v k e =>
        rcases h2 _ (List.mem_of_getElem? e) with h | ⟨_, _, _, h⟩ | ⟨_, _, h⟩ <;> cases h
  have hnw : ∀ c, Reaches ⟨m, calls⟩ c → ¬ c.Race := by
    rintro c hr ⟨l, s, t, p, q, _, _, hq, _, hw⟩
    rcases (inv c hr).2 q (List.mem_of_getElem? hq) with rfl | ⟨_, _, _, rfl⟩ | ⟨_, _, rfl⟩ <;> cases hw
  have hnf : ∀ c, Reaches ⟨m, calls⟩ c → ∀ u, .fail u ∉ c.pool := by
    intro c hr u hu
    rcases (inv c hr).2 _ hu with h | ⟨_, _, _, h⟩ | ⟨_, _, h⟩ <;> cases h
  intro o
  constructor
  · intro hp
    cases hp with
    | finished c hr hf => rw [(inv c hr).1]
    | abort c hr hf => exact absurd hf (hnf c hr _)
    | undefined c hr hf => exact absurd hf (hnf c hr _)
    | race c hr hf => exact absurd hf (hnw c hr)
  · rintro rfl
    obtain ⟨c, hr, hst⟩ := exists_stuck (⟨m, calls⟩ : Config PLoc PVal)
    rcases stuck_cases c hst with hf | ⟨u, hu⟩
    · have h := Possible.finished c hr hf
      rwa [(inv c hr).1] at h
    · exact absurd hu (hnf c hr u)

/-! ## Non-vacuity -/

/-- Three iterations on two threads, out of order. -/
example : Assigns [[2, 0], [1]] 3 := by unfold Assigns; decide

/-- The example of C29 run by two threads: all interleavings give 336. -/
example (o : Outcome IntGroup) : MultiExpMulticore (multiExpPlain (G := IntGroup) toyB true) (fun _ _ => 0) [[2, 0], [1]]
    [(3 : Int), 5, -7, 11, 13, 17, 19] [1, 2, 3, 4, 5, 6, 7] 3 o ↔ o = .ok (336 : Int) :=
  (C66_multi_exp (multiExpPlain (G := IntGroup) toyB true) [(3 : Int), 5, -7, 11, 13, 17, 19] [1, 2, 3, 4, 5, 6, 7] rfl 3 [[2, 0], [1]]
    (by unfold Assigns; decide)).1 (336 : Int) (by decide +kernel) o

/-- With the counter the same call can be undefined. -/
example : ∃ asg, Assigns asg 3 ∧ MultiExpMulticore (multiExpPlain (G := IntGroup) toyB true) (fun gs _ => gs.length) asg
    [(3 : Int), 5, -7, 11, 13, 17, 19] [1, 2, 3, 4, 5, 6, 7] 3 .ub := by
  refine C66_counters_race (G := IntGroup) (multiExpPlain (G := IntGroup) toyB true) (fun gs _ => gs.length) [(3 : Int), 5, -7, 11, 13, 17, 19] [1, 2, 3, 4, 5, 6, 7] rfl 3 (by decide) (by decide) fun i hi => ?_
  have : i = 0 ∨ i = 1 := by omega
  rcases this with rfl | rfl
  · exact ⟨⟨(3 + 10 : Int), by decide +kernel⟩, by decide⟩
  · exact ⟨⟨(-21 + 44 : Int), by decide +kernel⟩, by decide⟩

end Libff
