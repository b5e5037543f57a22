import Verif.Lemmas.Profiling

/-!
# C64: profiling blocks

The profiling state is global and changes with every `enter_block` and `leave_block`; the claims are about all histories, all
clock and counter readings and all states a program may be in when it calls a function of the library.
-/
namespace Libff
open Prof

/-- **C64.** In every properly nested history, from every state and in every build: no assertion fails and nothing is undefined;
the open blocks and the indentation are as before; each invocation count has grown by the number of blocks of that name. -/
theorem C64_balanced (B : Build) (es : List Ev) (bs : List Done) (h : Nested es bs) (s : State)
    (hc : s.inhibitCounters = false) :
    ∃ s', run B s es = .ok s' ∧ s'.blockNames = s.blockNames ∧ s'.indentation = s.indentation ∧
      ∀ m, (s'.invocationCounts m).getD 0 = (s.invocationCounts m).getD 0 + (named m bs).length := by
  obtain ⟨s', h1, h2, h3, -, -, h6⟩ := run_closes B h s s.blockNames hc rfl
  exact ⟨s', h1, h2, by rw [h3, indentOf_nil]; simp, h6⟩

/-- **C64.** Without recursion the times are right: the cumulative time of a name grows by the sum of the durations of its blocks,
and the last time is the duration of the last block of that name. -/
theorem C64_times (B : Build) (es : List Ev) (bs : List Done) (h : NestedFlat es bs) (s : State)
    (hc : s.inhibitCounters = false) :
    ∃ s', run B s es = .ok s' ∧
      (∀ m, (s'.cumulativeTimes m).getD 0 = (s.cumulativeTimes m).getD 0 + totalTime m bs) ∧
      (∀ m b, (named m bs).getLast? = some b →
        s'.lastTimes m = some (b.stop.t - b.start.t) ∧ s'.lastCpuTimes m = some (b.stop.cpu - b.start.cpu)) ∧
      (∀ m, named m bs = [] → s'.lastTimes m = s.lastTimes m ∧ s'.lastCpuTimes m = s.lastCpuTimes m) := by
  obtain ⟨s', h1, h2, h3, h4⟩ := run_closesFlat B h s s.blockNames hc rfl List.nodup_nil (by simp)
  exact ⟨s', h1, h2, fun m b hb => ⟨by rw [h3, hb]; rfl, by rw [h4, hb]; rfl⟩,
    fun m hm => ⟨by rw [h3, hm]; rfl, by rw [h4, hm]; rfl⟩⟩

/-- **C64.** So are the operation counts, if also `inhibit_profiling_info` is off. -/
theorem C64_ops (B : Build) (es : List Ev) (bs : List Done) (h : NestedFlat es bs) (s : State)
    (hc : s.inhibitCounters = false) (hi : s.inhibitInfo = false) :
    ∃ s', run B s es = .ok s' ∧
      ∀ m, ∀ d ∈ B.dataPoints, s'.cumulativeOpCounts m d = s.cumulativeOpCounts m d + totalOps m d bs :=
  run_closesFlat_ops B h s s.blockNames hc hi rfl List.nodup_nil (by simp)

/-- **C64.** With `inhibit_profiling_counters` set, entering and leaving blocks changes nothing, nested or not. -/
theorem C64_inhibited (B : Build) (s : State) (hc : s.inhibitCounters = true) : ∀ es : List Ev,
    (∀ e ∈ es, (∃ m i r, e = .enter m i r) ∨ ∃ m i r, e = .leave m i r) → run B s es = .ok s
  | [], _ => rfl
  | e :: es, h => by
    have ih := C64_inhibited B s hc es fun e he => h e (List.mem_cons_of_mem _ he)
    rcases h e List.mem_cons_self with ⟨m, i, r, rfl⟩ | ⟨m, i, r, rfl⟩
    · rw [run_cons, step, enterBlock, hc, if_pos rfl, Outcome.bind_ok]; exact ih
    · rw [run_cons, step, leaveBlock, hc, if_pos rfl, Outcome.bind_ok]; exact ih

/-- Only calls of `enter_block` and `leave_block` with `indent` true. -/
def BlockCalls (es : List Ev) : Prop := ∀ e ∈ es, e.mark.isSome

theorem closes_of_run (B : Build) (h1 : B.multicore = false) (h2 : B.ndebug = false) : ∀ (es : List Ev) (S : List Opened) (s s' : State),
    BlockCalls es → (∀ o ∈ S, o.indent = true) → s.inhibitCounters = false → s.blockNames = S.map Opened.name →
    run B s es = .ok s' → s'.blockNames = [] → ∃ bs, Closes S es bs
  | [], S, s, s', _, _, _, hb, hr, he => by
    have : s = s' := Outcome.ok.inj hr
    subst this
    rw [hb, List.map_eq_nil_iff] at he
    subst he
    exact ⟨[], .nil⟩
  | e :: es, S, s, s', hm, hS, hc, hb, hr, he => by
    have hm' : BlockCalls es := fun e he => hm e (List.mem_cons_of_mem _ he)
    have hme := hm e List.mem_cons_self
    cases e with
    | enter m i r =>
      obtain ⟨f1, -, -, -, -, -, -, -, -, f10, -, -⟩ := enterBlock_fields B m i r s hc
      cases i with
      | false => simp [Ev.mark] at hme
      | true =>
        obtain ⟨bs, h⟩ := closes_of_run B h1 h2 es (⟨m, true, r⟩ :: S) _ s' hm'
          (by intro o ho; rcases List.mem_cons.1 ho with rfl | ho; · rfl
              · exact hS o ho) f10 (by rw [f1, hb]; rfl) hr he
        exact ⟨bs, .enter m true r h⟩
    | leave m i r =>
      cases i with
      | false => simp [Ev.mark] at hme
      | true =>
        cases S with
        | nil =>
          rw [run_cons, step, leaveBlock, hc] at hr
          simp only [Bool.false_eq_true, if_false, hb, List.map_nil] at hr
          cases hr
        | cons o S =>
          obtain ⟨n, i, r0⟩ := o
          have hi : i = true := hS _ List.mem_cons_self
          subst hi
          by_cases hn : n = m
          · subst hn
            obtain ⟨f1, -, -, -, -, -, -, -, -, f10, -, -⟩ := leaveTail_fields B n true r s (S.map Opened.name)
            rw [run_cons, step, leaveBlock_top B n true r s hc (S.map Opened.name) hb, Outcome.bind_ok] at hr
            obtain ⟨bs, h⟩ := closes_of_run B h1 h2 es S _ s' hm' (fun o ho => hS o (List.mem_cons_of_mem _ ho))
              (f10.trans hc) f1 hr he
            exact ⟨_, .leave n true r0 r h⟩
          · rw [run_cons, step, leaveBlock, hc] at hr
            simp only [Bool.false_eq_true, if_false, hb, List.map_cons, h1, h2, Bool.not_false, Bool.and_self,
              Bool.true_and, decide_eq_true_eq, ne_eq, hn, not_false_eq_true, if_true] at hr
            cases hr
    | clear => simp [Ev.mark] at hme
    | inhibitInfo b => simp [Ev.mark] at hme
    | inhibitCounters b => simp [Ev.mark] at hme

/-- **C64.** In a single-core build with assertions the histories that run through and close all blocks are exactly the properly
nested ones: the assertion in `leave_block` misses no mistake. -/
theorem C64_assertion_exact (B : Build) (h1 : B.multicore = false) (h2 : B.ndebug = false) (es : List Ev) (hm : BlockCalls es)
    (s : State) (hc : s.inhibitCounters = false) (hb : s.blockNames = []) :
    (∃ s', run B s es = .ok s' ∧ s'.blockNames = []) ↔ ∃ bs, Nested es bs := by
  constructor
  · rintro ⟨s', h, h'⟩
    exact closes_of_run B h1 h2 es [] s s' hm (by simp) hc hb h h'
  · rintro ⟨bs, h⟩
    obtain ⟨s', h1, h2, -⟩ := C64_balanced B es bs h s hc
    exact ⟨s', h1, h2.trans hb⟩

/-- The times and the counts have the same keys, and no count is 0. -/
def Printable (s : State) : Prop := ∀ k,
  (s.cumulativeTimes k = none ∧ s.invocationCounts k = none) ∨
    ∃ t n, s.cumulativeTimes k = some t ∧ s.invocationCounts k = some (n + 1)

theorem Printable.step {B : Build} {s s' : State} (e : Ev) (h : Printable s) (hs : step B s e = .ok s') : Printable s' := by
  cases e with
  | enter m i r =>
    have := Outcome.ok.inj hs
    subst this
    cases hc : s.inhibitCounters with
    | true => rw [enterBlock, hc, if_pos rfl]; exact h
    | false =>
      obtain ⟨-, f2, -, -, f5, -⟩ := enterBlock_fields B m i r s hc
      intro k; rw [f2, f5]; exact h k
  | leave m i r =>
    rw [Prof.step, leaveBlock] at hs
    split at hs
    · have := Outcome.ok.inj hs; subst this; exact h
    · split at hs
      · cases hs
      · rename_i top rest _
        split at hs
        · cases hs
        · have := Outcome.ok.inj hs
          subst this
          obtain ⟨-, f2, -, -, f5, -⟩ := leaveTail_fields B m i r s rest
          intro k
          rw [f2, f5]
          by_cases hk : k = m
          · subst hk; rw [set_same, set_same]; exact Or.inr ⟨_, _, rfl, rfl⟩
          · rw [set_other _ hk, set_other _ hk]; exact h k
  | clear => have := Outcome.ok.inj hs; subst this; exact fun k => Or.inl ⟨rfl, rfl⟩
  | inhibitInfo b => have := Outcome.ok.inj hs; subst this; exact h
  | inhibitCounters b => have := Outcome.ok.inj hs; subst this; exact h

theorem Printable.run {B : Build} : ∀ (es : List Ev) {s s' : State}, Printable s → run B s es = .ok s' → Printable s'
  | [], _, _, h, hr => Outcome.ok.inj hr ▸ h
  | e :: es, s, s', h, hr => by
    obtain ⟨s1, h1, h2⟩ := Outcome.bind_eq_ok.1 hr
    exact Printable.run es (h.step e h1) h2

/-- **C64.** After every history of the program, nested or not and with flags changed at any point: `print_cumulative_times` finds an
invocation count for every time it prints, and never divides by zero. -/
theorem C64_printable (B : Build) (es : List Ev) (s : State) (h : run B .init es = .ok s) (key : String) (t : Int)
    (hk : s.cumulativeTimes key = some t) : ∃ n, 0 < n ∧ timeEntry key s = .ok (t, n) := by
  rcases Printable.run es (fun k => Or.inl ⟨rfl, rfl⟩) h key with ⟨h1, -⟩ | ⟨t', n, h1, h2⟩
  · rw [h1] at hk; cases hk
  · rw [h1] at hk
    have := Option.some.inj hk
    subst this
    exact ⟨n + 1, Nat.succ_pos n, by rw [timeEntry, h1, h2]; simp⟩

/-! ## The functions of the library -/

set_option maxRecDepth 100000 in
theorem libraryFunctions_check : libraryFunctions.all (fun f => checkMarks [] f.2) = true := by decide +kernel

/-- **C64.** Whatever the clock and the counters show, the events of each library function (but `edwards_tate_reduced_pairing`) are
properly nested and without recursion, so that a caller's profile is right, too.
The full claim would be this for all library functions; `C64_edwards_tate_reduced_aborts` shows it is wrong. -/
theorem C64_library_partial (f : String × List Mark) (hf : f ∈ libraryFunctions) (es : List Ev) (he : es.map Ev.mark = f.2.map some) :
    ∃ bs, NestedFlat es bs :=
  checkMarks_sound f.2 [] es (by simp) (List.all_eq_true.1 libraryFunctions_check f hf) he

/-- What `edwards_tate_reduced_pairing` does between its first and its last line. -/
def edwardsTateReducedBody : List Mark :=
  edwardsTate ++ block "Call to edwards_final_exponentiation" (chunkFe "edwards")

/-- The name that is entered. -/
def reducedName : String := "Call to edwards_tate_reduced_pairing"

/-- The name that is left. -/
def reduceName : String := "Call to edwards_tate_reduce_pairing"

theorem edwardsTateReduced_split (es : List Ev) (he : es.map Ev.mark = edwardsTateReduced.map some) :
    ∃ r body r', es = .enter reducedName true r :: (body ++ [.leave reduceName true r']) ∧
      body.map Ev.mark = edwardsTateReducedBody.map some := by
  have hs : edwardsTateReduced = .enter reducedName :: (edwardsTateReducedBody ++ [.leave reduceName]) := rfl
  rw [hs, List.map_cons, List.map_eq_cons_iff] at he
  obtain ⟨e, es, rfl, h1, h2⟩ := he
  rw [List.map_append, List.map_eq_append_iff] at h2
  obtain ⟨body, l, rfl, h3, h4⟩ := h2
  rw [List.map_cons, List.map_nil, List.map_eq_cons_iff] at h4
  obtain ⟨e', l', rfl, h5, h6⟩ := h4
  rw [List.map_eq_nil_iff] at h6
  subst h6
  have he : ∃ r, e = .enter reducedName true r := by
    cases e with
    | enter m i r => cases i <;> simp [Ev.mark] at h1; exact ⟨r, by rw [h1]⟩
    | leave m i r => cases i <;> simp [Ev.mark] at h1
    | clear => simp [Ev.mark] at h1
    | inhibitInfo b => simp [Ev.mark] at h1
    | inhibitCounters b => simp [Ev.mark] at h1
  have he' : ∃ r, e' = .leave reduceName true r := by
    cases e' with
    | leave m i r => cases i <;> simp [Ev.mark] at h5; exact ⟨r, by rw [h5]⟩
    | enter m i r => cases i <;> simp [Ev.mark] at h5
    | clear => simp [Ev.mark] at h5
    | inhibitInfo b => simp [Ev.mark] at h5
    | inhibitCounters b => simp [Ev.mark] at h5
  obtain ⟨r, rfl⟩ := he
  obtain ⟨r', rfl⟩ := he'
  exact ⟨r, body, r', rfl, h3⟩

set_option maxRecDepth 100000 in
theorem edwardsTateReducedBody_check : checkMarks [] edwardsTateReducedBody = true := by decide +kernel

set_option maxRecDepth 100000 in
theorem edwardsTateReducedBody_names : ∀ n ∈ [reducedName, reduceName],
    Mark.enter n ∉ edwardsTateReducedBody ∧ Mark.leave n ∉ edwardsTateReducedBody := by decide +kernel

theorem edwardsTateReduced_body (B : Build) (s : State) (hc : s.inhibitCounters = false) (body : List Ev)
    (hb : body.map Ev.mark = edwardsTateReducedBody.map some) :
    ∃ s', run B s body = .ok s' ∧ s'.blockNames = s.blockNames ∧ s'.inhibitCounters = false ∧
      ∀ n ∈ [reducedName, reduceName], s'.enterTimes n = s.enterTimes n ∧ s'.invocationCounts n = s.invocationCounts n ∧
        s'.cumulativeTimes n = s.cumulativeTimes n := by
  obtain ⟨bs, h⟩ := checkMarks_sound _ [] body (by simp) edwardsTateReducedBody_check hb
  obtain ⟨s', h1, h2, -, -, h5, -⟩ := run_closes B h.closes s s.blockNames hc rfl
  refine ⟨s', h1, h2, h5, fun n hn => run_untouched B n body (fun e he => ?_) s s' h1⟩
  obtain ⟨q1, q2⟩ := edwardsTateReducedBody_names n hn
  have hm : e.mark ∈ edwardsTateReducedBody.map some := hb ▸ List.mem_map_of_mem he
  obtain ⟨m, hm1, hm2⟩ := List.mem_map.1 hm
  exact ⟨m, hm2.symm, fun hx => q1 (hx ▸ hm1), fun hx => q2 (hx ▸ hm1)⟩

/-- **C64.** In a single-core build with assertions `edwards_tate_reduced_pairing` aborts, from every state and with whatever
arguments, unless `inhibit_profiling_counters` is set: it enters one name and leaves another. -/
theorem C64_edwards_tate_reduced_aborts (B : Build) (h1 : B.multicore = false) (h2 : B.ndebug = false) (s : State)
    (hc : s.inhibitCounters = false) (es : List Ev) (he : es.map Ev.mark = edwardsTateReduced.map some) :
    run B s es = .abort := by
  obtain ⟨r, body, r', rfl, hb⟩ := edwardsTateReduced_split es he
  obtain ⟨f1, -, -, -, -, -, -, -, -, f10, -, -⟩ := enterBlock_fields B reducedName true r s hc
  obtain ⟨s', g1, g2, g3, -⟩ := edwardsTateReduced_body B (enterBlock B reducedName true r s) f10 body hb
  rw [run_cons, step, Outcome.bind_ok, run_append, g1, Outcome.bind_ok, run_cons, step, leaveBlock, g3]
  rw [f1] at g2
  simp [g2, h1, h2, reducedName, reduceName]

/-- **C64.** In the other builds it goes on, but the call is not counted under the name that was entered; the name that is left gets one
invocation more and a time measured from the last time *this* name was entered, which is never (0, the epoch) in a program
that does not itself enter it. -/
theorem C64_edwards_tate_reduced_misfiled (B : Build) (hB : B.multicore = true ∨ B.ndebug = true) (s : State)
    (hc : s.inhibitCounters = false) (es : List Ev) (he : es.map Ev.mark = edwardsTateReduced.map some) :
    ∃ s' r', run B s es = .ok s' ∧ s'.blockNames = s.blockNames ∧ .leave reduceName true r' ∈ es ∧
      s'.invocationCounts reducedName = s.invocationCounts reducedName ∧
      s'.cumulativeTimes reducedName = s.cumulativeTimes reducedName ∧
      s'.invocationCounts reduceName = some ((s.invocationCounts reduceName).getD 0 + 1) ∧
      s'.lastTimes reduceName = some (r'.t - s.enterTimes reduceName) := by
  obtain ⟨r, body, r', rfl, hb⟩ := edwardsTateReduced_split es he
  obtain ⟨f1, f2, f3, -, f5, -, -, -, -, f10, -, -⟩ := enterBlock_fields B reducedName true r s hc
  obtain ⟨s', g1, g2, g3, g4⟩ := edwardsTateReduced_body B (enterBlock B reducedName true r s) f10 body hb
  obtain ⟨a1, a2, a3⟩ := g4 reducedName (by simp)
  obtain ⟨b1, b2, b3⟩ := g4 reduceName (by simp)
  rw [f1] at g2
  have hne : reducedName ≠ reduceName := by decide +kernel
  obtain ⟨l1, l2, -, l4, l5, -⟩ := leaveTail_fields B reduceName true r' s' s.blockNames
  refine ⟨leaveTail B reduceName true r' s.blockNames s', r', ?_, l1, by simp, ?_, ?_, ?_, ?_⟩
  · rw [run_cons, step, Outcome.bind_ok, run_append, g1, Outcome.bind_ok, run_cons, step, leaveBlock, g3]
    rcases hB with h | h <;> simp [g2, h, run]
  · rw [l2, set_other _ hne, a2, f2]
  · rw [l5, set_other _ hne, a3, f5]
  · rw [l2, set_same, b2, f2]
  · rw [l4, set_same, b1, f3, set_other _ hne.symm]

/-! ## What goes wrong outside these conditions -/

/-- A reading with a given time, other clocks and counters at `c`. -/
def readingAt (t c : Int) : Reading := ⟨t, c, fun _ => c⟩

/-- **C64.** Recursion: two blocks of the same name, one from 10 to 11 inside one from 0 to 20, sum up to 11 instead of 21. -/
theorem C64_recursion_wrong (B : Build) :
    ∃ es bs s, Nested es bs ∧ run B .init es = .ok s ∧ totalTime "a" bs = 21 ∧ s.cumulativeTimes "a" = some 11 := by
  have h : ∃ s, run B .init [.enter "a" true (readingAt 0 0), .enter "a" true (readingAt 10 0), .leave "a" true (readingAt 11 0),
      .leave "a" true (readingAt 20 0)] = .ok s ∧ s.cumulativeTimes "a" = some 11 := by
    refine ⟨_, by simp [run, step, enterBlock, leaveBlock, State.init, opEnter, leaveTail, opLeave]; rfl, ?_⟩
    simp [Prof.set, readingAt]
  obtain ⟨s, h1, h2⟩ := h
  exact ⟨_, _, s, .enter _ _ _ (.enter _ _ _ (.leave _ _ _ _ (.leave _ _ _ _ .nil))), h1, by decide +kernel, h2⟩

/-- **C64.** Allowing counters inside a block: `leave_block` pops an empty vector. -/
theorem C64_toggle_counters_undefined (B : Build) (r r' : Reading) :
    run B .init [.inhibitCounters true, .enter "a" true r, .inhibitCounters false, .leave "a" true r'] = .ub := by
  simp [run, step, enterBlock, leaveBlock, State.init]

/-- **C64.** Allowing output inside a block: the indentation wraps round to 2^64 − 1. -/
theorem C64_toggle_info_indentation (B : Build) (r r' : Reading) :
    ∃ s, run B .init [.inhibitInfo true, .enter "a" true r, .inhibitInfo false, .leave "a" true r'] = .ok s ∧
      s.indentation = BitVec.allOnes 64 := by
  refine ⟨_, by simp [run, step, enterBlock, leaveBlock, State.init]; rfl, ?_⟩
  simp [leaveTail, opLeave]

/-- **C64.** With `inhibit_profiling_info` the operation counts are wrong: a block in which one operation was done, after a thousand
before it, counts 1001. -/
theorem C64_ops_info_inhibited_wrong (B : Build) (hB : "Fqmul" ∈ B.dataPoints) :
    ∃ es bs s, NestedFlat es bs ∧ run B { State.init with inhibitInfo := true } es = .ok s ∧ totalOps "a" "Fqmul" bs = 1 ∧
      s.cumulativeOpCounts "a" "Fqmul" = 1001 := by
  have h : ∃ s, run B { State.init with inhibitInfo := true } [.enter "a" true (readingAt 0 1000), .leave "a" true (readingAt 1 1001)] = .ok s ∧
      s.cumulativeOpCounts "a" "Fqmul" = 1001 := by
    refine ⟨_, by simp [run, step, enterBlock, leaveBlock, State.init, leaveTail, opLeave]; rfl, ?_⟩
    simp [Prof.set, readingAt, hB]
  obtain ⟨s, h1, h2⟩ := h
  exact ⟨_, _, s, .enter _ _ _ (by simp) (.leave _ _ _ _ .nil), h1, by decide +kernel, h2⟩

/-- **C64.** `clear_profiling_counters` forgets the operation counts: after it, one block with one operation has one invocation and 101
operations, if there were 100 before. -/
theorem C64_clear_ops_wrong (B : Build) (hB : "Fqmul" ∈ B.dataPoints) :
    ∃ s, run B .init [.enter "a" true (readingAt 0 0), .leave "a" true (readingAt 1 100), .clear,
        .enter "a" true (readingAt 2 100), .leave "a" true (readingAt 3 101)] = .ok s ∧
      s.invocationCounts "a" = some 1 ∧ s.cumulativeOpCounts "a" "Fqmul" = 101 := by
  refine ⟨_, by simp [run, step, enterBlock, leaveBlock, State.init, clearCounters, leaveTail, opLeave, opEnter]; rfl, ?_, ?_⟩
  · simp [Prof.set]
  · simp [Prof.set, readingAt, hB]

/-! ## Concrete cases -/

/-- The hypotheses of `C64_balanced`, `C64_times`, `C64_ops`: nested blocks, times 10 and 2, from the initial state. -/
example : ∃ es bs, NestedFlat es bs ∧ Nested es bs ∧ totalTime "a" bs = 10 ∧ totalTime "b" bs = 2 ∧ State.init.inhibitCounters = false :=
  ⟨[.enter "a" true (readingAt 0 0), .enter "b" true (readingAt 3 0), .leave "b" true (readingAt 5 0),
    .leave "a" true (readingAt 10 0)], _, .enter _ _ _ (by simp) (.enter _ _ _ (by simp) (.leave _ _ _ _ (.leave _ _ _ _ .nil))),
    .enter _ _ _ (.enter _ _ _ (.leave _ _ _ _ (.leave _ _ _ _ .nil))), by decide +kernel, by decide +kernel, rfl⟩

/-- The events of a text, all read at the same moment. -/
def eventsOf (ms : List Mark) (r : Reading) : List Ev :=
  ms.map fun | .enter m => .enter m true r | .leave m => .leave m true r

theorem eventsOf_mark (ms : List Mark) (r : Reading) : (eventsOf ms r).map Ev.mark = ms.map some := by
  rw [eventsOf, List.map_map]
  exact List.map_congr_left fun m _ => by cases m <;> rfl

/-- Each text has histories, for instance that of `mnt4_reduced_pairing`: eight blocks. -/
example : ∃ f ∈ libraryFunctions, f.1 = "mnt4_reduced_pairing" ∧ f.2.length = 18 ∧
    (eventsOf f.2 (readingAt 7 7)).map Ev.mark = f.2.map some :=
  ⟨_, List.mem_append_left _ (List.mem_append_left _ (List.mem_append_left _ (List.mem_append_left _ (List.mem_append_left _
    (List.mem_append_left _ (List.mem_append_right _ (List.mem_of_getElem? (i := 6) rfl))))))), by decide +kernel, by decide +kernel,
    eventsOf_mark _ _⟩

end Libff
