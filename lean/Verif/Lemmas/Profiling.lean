import Verif.Spec.Profiling
import Verif.Lemmas.MillerDouble

/-! Lemmas on the profiling state. -/
namespace Libff.Prof

theorem set_same {β : Type} (m : String → β) (k : String) (v : β) : set m k v k = v := by simp [set]
theorem set_other {β : Type} (m : String → β) {k x : String} (h : x ≠ k) (v : β) : set m k v x = m x := by simp [set, h]

theorem ClosesFlat.closes {S : List Opened} {es : List Ev} {bs : List Done} (h : ClosesFlat S es bs) : Closes S es bs := by
  induction h with
  | nil => exact .nil
  | enter m i r _ _ ih => exact .enter m i r ih
  | leave m i r r' _ ih => exact .leave m i r r' ih

theorem named_cons (m : String) (r r' : Reading) (bs : List Done) :
    named m (⟨m, r, r'⟩ :: bs) = ⟨m, r, r'⟩ :: named m bs := by simp [named]

/-- How far the open blocks `S` move the indentation. -/
def indentOf (info : Bool) (S : List Opened) : BitVec 64 :=
  BitVec.ofNat 64 (if info then 0 else (S.filter fun o => o.indent).length)

theorem indentOf_nil (info : Bool) : indentOf info [] = 0#64 := by cases info <;> rfl

theorem indentOf_cons (info : Bool) (o : Opened) (S : List Opened) :
    indentOf info (o :: S) = if info then 0#64 else if o.indent then indentOf info S + 1#64 else indentOf info S := by
  cases info with
  | true => rfl
  | false =>
    cases h : o.indent with
    | true => simp [indentOf, h, BitVec.ofNat_add]
    | false => simp [indentOf, h]

theorem indentOf_true (S : List Opened) : indentOf true S = 0#64 := rfl

section
variable (B : Build) (m : String) (i : Bool) (r : Reading) (s : State)

theorem enterBlock_fields (hc : s.inhibitCounters = false) :
    (enterBlock B m i r s).blockNames = m :: s.blockNames ∧
    (enterBlock B m i r s).invocationCounts = s.invocationCounts ∧
    (enterBlock B m i r s).enterTimes = set s.enterTimes m r.t ∧
    (enterBlock B m i r s).lastTimes = s.lastTimes ∧
    (enterBlock B m i r s).cumulativeTimes = s.cumulativeTimes ∧
    (enterBlock B m i r s).enterCpuTimes = set s.enterCpuTimes m r.cpu ∧
    (enterBlock B m i r s).lastCpuTimes = s.lastCpuTimes ∧
    (enterBlock B m i r s).cumulativeOpCounts = s.cumulativeOpCounts ∧
    (enterBlock B m i r s).inhibitInfo = s.inhibitInfo ∧
    (enterBlock B m i r s).inhibitCounters = false ∧
    (enterBlock B m i r s).indentation =
      (if s.inhibitInfo then s.indentation else if i then s.indentation + 1#64 else s.indentation) ∧
    (s.inhibitInfo = false → (enterBlock B m i r s).opCounts =
      set s.opCounts m fun d => if d ∈ B.dataPoints then r.ops d else s.opCounts m d) := by
  cases hi : s.inhibitInfo <;> cases i <;> simp [enterBlock, hc, hi, opEnter]

theorem leaveTail_fields (rest : List String) :
    (leaveTail B m i r rest s).blockNames = rest ∧
    (leaveTail B m i r rest s).invocationCounts = set s.invocationCounts m (some ((s.invocationCounts m).getD 0 + 1)) ∧
    (leaveTail B m i r rest s).enterTimes = s.enterTimes ∧
    (leaveTail B m i r rest s).lastTimes = set s.lastTimes m (some (r.t - s.enterTimes m)) ∧
    (leaveTail B m i r rest s).cumulativeTimes =
      set s.cumulativeTimes m (some ((s.cumulativeTimes m).getD 0 + (r.t - s.enterTimes m))) ∧
    (leaveTail B m i r rest s).enterCpuTimes = s.enterCpuTimes ∧
    (leaveTail B m i r rest s).lastCpuTimes = set s.lastCpuTimes m (some (r.cpu - s.enterCpuTimes m)) ∧
    (leaveTail B m i r rest s).cumulativeOpCounts = (set s.cumulativeOpCounts m fun d =>
      if d ∈ B.dataPoints then s.cumulativeOpCounts m d + (r.ops d - s.opCounts m d) else s.cumulativeOpCounts m d) ∧
    (leaveTail B m i r rest s).inhibitInfo = s.inhibitInfo ∧
    (leaveTail B m i r rest s).inhibitCounters = s.inhibitCounters ∧
    (leaveTail B m i r rest s).indentation =
      (if s.inhibitInfo then s.indentation else if i then s.indentation - 1#64 else s.indentation) ∧
    (leaveTail B m i r rest s).opCounts = s.opCounts := by
  cases hi : s.inhibitInfo <;> cases i <;> simp [leaveTail, hi, opLeave]

end

theorem leaveBlock_top (B : Build) (m : String) (i : Bool) (r : Reading) (s : State) (hc : s.inhibitCounters = false)
    (rest : List String) (hb : s.blockNames = m :: rest) :
    leaveBlock B m i r s = .ok (leaveTail B m i r rest s) := by
  rw [leaveBlock, hc]; simp [hb]

theorem run_cons (B : Build) (s : State) (e : Ev) (es : List Ev) :
    run B s (e :: es) = (step B s e).bind fun s' => run B s' es := rfl

/-- The core induction: stack, indentation, flags and counts. -/
theorem run_closes (B : Build) {S : List Opened} {es : List Ev} {bs : List Done} (h : Closes S es bs) :
    ∀ (s : State) (base : List String), s.inhibitCounters = false → s.blockNames = S.map Opened.name ++ base →
      ∃ s', run B s es = .ok s' ∧ s'.blockNames = base ∧ s'.indentation = s.indentation - indentOf s.inhibitInfo S ∧
        s'.inhibitInfo = s.inhibitInfo ∧ s'.inhibitCounters = false ∧
        ∀ m, (s'.invocationCounts m).getD 0 = (s.invocationCounts m).getD 0 + (named m bs).length := by
  induction h with
  | nil =>
    intro s base hc hb
    exact ⟨s, rfl, by simpa using hb, by rw [indentOf_nil]; simp, rfl, hc, by simp [named]⟩
  | @enter S es bs m i r h ih =>
    intro s base hc hb
    obtain ⟨f1, f2, -, -, -, -, -, -, f9, f10, f11, -⟩ := enterBlock_fields B m i r s hc
    obtain ⟨s', h1, h2, h3, h4, h5, h6⟩ := ih (enterBlock B m i r s) base f10 (by rw [f1, hb]; rfl)
    refine ⟨s', by rw [run_cons]; exact h1, h2, ?_, h4.trans f9, h5, by rw [f2] at h6; exact h6⟩
    rw [h3, f11, f9, indentOf_cons]
    cases s.inhibitInfo with
    | true => simp [indentOf_true]
    | false => cases i <;> simp <;> bv_omega
  | @leave S es bs m i r r' h ih =>
    intro s base hc hb
    obtain ⟨f1, f2, -, -, -, -, -, -, f9, f10, f11, -⟩ := leaveTail_fields B m i r' s (S.map Opened.name ++ base)
    obtain ⟨s', h1, h2, h3, h4, h5, h6⟩ := ih _ base (f10.trans hc) f1
    refine ⟨s', ?_, h2, ?_, h4.trans f9, h5, fun k => ?_⟩
    · rw [run_cons, step, leaveBlock_top B m i r' s hc _ hb, Outcome.bind_ok]; exact h1
    · rw [h3, f11, f9, indentOf_cons]
      cases s.inhibitInfo with
      | true => simp [indentOf_true]
      | false => cases i <;> simp <;> bv_omega
    · rw [h6, f2]
      by_cases hk : k = m
      · subst hk; rw [set_same]; simp [named]; omega
      · rw [set_other _ hk]; simp [named, Ne.symm hk]

/-- Times: no recursion is needed. -/
theorem run_closesFlat (B : Build) {S : List Opened} {es : List Ev} {bs : List Done} (h : ClosesFlat S es bs) :
    ∀ (s : State) (base : List String), s.inhibitCounters = false → s.blockNames = S.map Opened.name ++ base →
      (S.map Opened.name).Nodup →
      (∀ o ∈ S, s.enterTimes o.name = o.start.t ∧ s.enterCpuTimes o.name = o.start.cpu) →
      ∃ s', run B s es = .ok s' ∧
        (∀ m, (s'.cumulativeTimes m).getD 0 = (s.cumulativeTimes m).getD 0 + totalTime m bs) ∧
        (∀ m, s'.lastTimes m = ((named m bs).getLast?.map fun b => b.stop.t - b.start.t).or (s.lastTimes m)) ∧
        (∀ m, s'.lastCpuTimes m = ((named m bs).getLast?.map fun b => b.stop.cpu - b.start.cpu).or (s.lastCpuTimes m)) := by
  induction h with
  | nil => intro s base _ _ _ _; exact ⟨s, rfl, by simp [totalTime, named], by simp [named], by simp [named]⟩
  | @enter S es bs m i r hm h ih =>
    intro s base hc hb hd he
    obtain ⟨f1, f2, f3, f4, f5, f6, f7, -, f9, f10, -, -⟩ := enterBlock_fields B m i r s hc
    obtain ⟨s', h1, h2, h3, h4⟩ := ih (enterBlock B m i r s) base f10 (by rw [f1, hb]; rfl)
      (by
        rw [List.map_cons, List.nodup_cons]
        exact ⟨fun hmem => by
          obtain ⟨o, ho, hn⟩ := List.mem_map.1 hmem
          exact hm o ho hn, hd⟩)
      (by
        intro o ho
        rw [f3, f6]
        rcases List.mem_cons.1 ho with rfl | ho
        · exact ⟨set_same _ _ _, set_same _ _ _⟩
        · rw [set_other _ (hm o ho), set_other _ (hm o ho)]; exact he o ho)
    refine ⟨s', by rw [run_cons]; exact h1, ?_, ?_, ?_⟩
    · rw [f5] at h2; exact h2
    · rw [f4] at h3; exact h3
    · rw [f7] at h4; exact h4
  | @leave S es bs m i r r' h ih =>
    intro s base hc hb hd he
    obtain ⟨f1, f2, f3, f4, f5, f6, f7, -, f9, f10, -, -⟩ := leaveTail_fields B m i r' s (S.map Opened.name ++ base)
    rw [List.map_cons, List.nodup_cons] at hd
    obtain ⟨s', h1, h2, h3, h4⟩ := ih _ base (f10.trans hc) f1 hd.2
      (fun o ho => by rw [f3, f6]; exact he o (List.mem_cons_of_mem _ ho))
    obtain ⟨e1, e2⟩ := he _ List.mem_cons_self
    refine ⟨s', ?_, fun k => ?_, fun k => ?_, fun k => ?_⟩
    · rw [run_cons, step, leaveBlock_top B m i r' s hc _ hb, Outcome.bind_ok]; exact h1
    · rw [h2, f5]
      by_cases hk : k = m
      · subst hk; rw [set_same, Option.getD_some, e1]; simp [totalTime, named]; ring
      · rw [set_other _ hk]; simp [totalTime, named, Ne.symm hk]
    · rw [h3, f4]
      by_cases hk : k = m
      · subst hk
        rw [set_same, e1]
        rw [named_cons, List.getLast?_cons]
        cases (named k bs).getLast? <;> rfl
      · rw [set_other _ hk]; simp [named, Ne.symm hk]
    · rw [h4, f7]
      by_cases hk : k = m
      · subst hk
        rw [set_same, e2]
        rw [named_cons, List.getLast?_cons]
        cases (named k bs).getLast? <;> rfl
      · rw [set_other _ hk]; simp [named, Ne.symm hk]

/-- Operation counts: also `inhibit_profiling_info` must be off. -/
theorem run_closesFlat_ops (B : Build) {S : List Opened} {es : List Ev} {bs : List Done} (h : ClosesFlat S es bs) :
    ∀ (s : State) (base : List String), s.inhibitCounters = false → s.inhibitInfo = false →
      s.blockNames = S.map Opened.name ++ base → (S.map Opened.name).Nodup →
      (∀ o ∈ S, ∀ d ∈ B.dataPoints, s.opCounts o.name d = o.start.ops d) →
      ∃ s', run B s es = .ok s' ∧
        ∀ m, ∀ d ∈ B.dataPoints, s'.cumulativeOpCounts m d = s.cumulativeOpCounts m d + totalOps m d bs := by
  induction h with
  | nil => intro s base _ _ _ _ _; exact ⟨s, rfl, by simp [totalOps, named]⟩
  | @enter S es bs m i r hm h ih =>
    intro s base hc hi hb hd he
    obtain ⟨f1, -, -, -, -, -, -, f8, f9, f10, -, f12⟩ := enterBlock_fields B m i r s hc
    obtain ⟨s', h1, h2⟩ := ih (enterBlock B m i r s) base f10 (f9.trans hi) (by rw [f1, hb]; rfl)
      (by
        rw [List.map_cons, List.nodup_cons]
        exact ⟨fun hmem => by
          obtain ⟨o, ho, hn⟩ := List.mem_map.1 hmem
          exact hm o ho hn, hd⟩)
      (by
        intro o ho d hd'
        rw [f12 hi]
        rcases List.mem_cons.1 ho with rfl | ho
        · rw [set_same, if_pos hd']
        · rw [set_other _ (hm o ho)]; exact he o ho d hd')
    refine ⟨s', by rw [run_cons]; exact h1, ?_⟩
    rw [f8] at h2; exact h2
  | @leave S es bs m i r r' h ih =>
    intro s base hc hi hb hd he
    obtain ⟨f1, -, -, -, -, -, -, f8, f9, f10, -, f12⟩ := leaveTail_fields B m i r' s (S.map Opened.name ++ base)
    rw [List.map_cons, List.nodup_cons] at hd
    obtain ⟨s', h1, h2⟩ := ih _ base (f10.trans hc) (f9.trans hi) f1 hd.2
      (fun o ho => by rw [f12]; exact he o (List.mem_cons_of_mem _ ho))
    refine ⟨s', ?_, fun k d hd' => ?_⟩
    · rw [run_cons, step, leaveBlock_top B m i r' s hc _ hb, Outcome.bind_ok]; exact h1
    · rw [h2 k d hd', f8]
      by_cases hk : k = m
      · subst hk; rw [set_same, if_pos hd', he _ List.mem_cons_self d hd']; simp [totalOps, named]; ring
      · rw [set_other _ hk]; simp [totalOps, named, Ne.symm hk]

theorem run_append (B : Build) : ∀ (es es' : List Ev) (s : State),
    run B s (es ++ es') = (run B s es).bind fun s' => run B s' es'
  | [], _, _ => rfl
  | e :: es, es', s => by
    rw [List.cons_append, run_cons, run_cons]
    cases h : step B s e with
    | ok s' => rw [Outcome.bind_ok, Outcome.bind_ok]; exact run_append B es es' s'
    | abort => rfl
    | ub => rfl

/-- Blocks of other names do not touch the entries of `n`. -/
theorem run_untouched (B : Build) (n : String) : ∀ (es : List Ev),
    (∀ e ∈ es, ∃ m, e.mark = some m ∧ m ≠ .enter n ∧ m ≠ .leave n) → ∀ s s', run B s es = .ok s' →
      s'.enterTimes n = s.enterTimes n ∧ s'.invocationCounts n = s.invocationCounts n ∧
        s'.cumulativeTimes n = s.cumulativeTimes n
  | [], _, s, s', hr => by have := Outcome.ok.inj hr; subst this; exact ⟨rfl, rfl, rfl⟩
  | e :: es, h, s, s', hr => by
    obtain ⟨s1, h1, h2⟩ := Outcome.bind_eq_ok.1 hr
    have ih := run_untouched B n es (fun e he => h e (List.mem_cons_of_mem _ he)) s1 s' h2
    rw [ih.1, ih.2.1, ih.2.2]
    obtain ⟨m, hm, hm1, hm2⟩ := h e List.mem_cons_self
    cases e with
    | enter m' i r =>
      cases i with
      | false => simp [Ev.mark] at hm
      | true =>
        have hn : n ≠ m' := fun hx => hm1 (by rw [hx]; exact (Option.some.inj hm).symm)
        have := Outcome.ok.inj h1
        subst this
        cases hc : s.inhibitCounters with
        | true => rw [enterBlock, hc, if_pos rfl]; exact ⟨rfl, rfl, rfl⟩
        | false =>
          obtain ⟨-, f2, f3, -, f5, -⟩ := enterBlock_fields B m' true r s hc
          rw [f2, f3, f5, set_other _ hn]; exact ⟨rfl, rfl, rfl⟩
    | leave m' i r =>
      cases i with
      | false => simp [Ev.mark] at hm
      | true =>
        have hn : n ≠ m' := fun hx => hm2 (by rw [hx]; exact (Option.some.inj hm).symm)
        rw [step, leaveBlock] at h1
        split at h1
        · have := Outcome.ok.inj h1; subst this; exact ⟨rfl, rfl, rfl⟩
        · split at h1
          · cases h1
          · rename_i top rest _
            split at h1
            · cases h1
            · have := Outcome.ok.inj h1
              subst this
              obtain ⟨-, f2, f3, -, f5, -⟩ := leaveTail_fields B m' true r s rest
              rw [f2, f3, f5, set_other _ hn, set_other _ hn]; exact ⟨rfl, rfl, rfl⟩
    | clear => simp [Ev.mark] at hm
    | inhibitInfo b => simp [Ev.mark] at hm
    | inhibitCounters b => simp [Ev.mark] at hm

/-! ## A checker for the texts of functions -/

/-- Every `leave` names the innermost open block, no name is entered while it is open, all are closed at the end. -/
def checkMarks : List String → List Mark → Bool
  | [], [] => true
  | _ :: _, [] => false
  | S, .enter m :: ms => !S.contains m && checkMarks (m :: S) ms
  | [], .leave _ :: _ => false
  | n :: S, .leave m :: ms => (n == m) && checkMarks S ms

theorem checkMarks_sound : ∀ (ms : List Mark) (S : List Opened) (es : List Ev), (∀ o ∈ S, o.indent = true) →
    checkMarks (S.map Opened.name) ms = true → es.map Ev.mark = ms.map some → ∃ bs, ClosesFlat S es bs
  | [], [], es, _, _, he => by
    have : es = [] := by simpa using he
    subst this; exact ⟨[], .nil⟩
  | [], _ :: _, _, _, hc, _ => by simp [checkMarks] at hc
  | .enter m :: ms, S, [], _, _, he => by simp at he
  | .leave m :: ms, S, [], _, _, he => by simp at he
  | .enter m :: ms, S, e :: es, hS, hc, he => by
    rw [List.map_cons, List.map_cons, List.cons.injEq] at he
    obtain ⟨he1, he2⟩ := he
    cases e with
    | enter m' i r =>
      cases i with
      | true =>
        have : m' = m := by simpa [Ev.mark] using he1
        subst this
        have hc' : ((S.map Opened.name).contains m' = false) ∧ checkMarks (m' :: S.map Opened.name) ms = true := by
          cases S <;> simpa [checkMarks] using hc
        obtain ⟨bs, h⟩ := checkMarks_sound ms (⟨m', true, r⟩ :: S) es
          (by intro o ho; rcases List.mem_cons.1 ho with rfl | ho; · rfl
              · exact hS o ho) hc'.2 he2
        refine ⟨bs, .enter m' true r (fun o ho hn => ?_) h⟩
        have hc1 := hc'.1
        rw [List.contains_eq_mem, decide_eq_false_iff_not] at hc1
        exact hc1 (List.mem_map.2 ⟨o, ho, hn⟩)
      | false => simp [Ev.mark] at he1
    | leave m' i r => cases i <;> simp [Ev.mark] at he1
    | clear => simp [Ev.mark] at he1
    | inhibitInfo b => simp [Ev.mark] at he1
    | inhibitCounters b => simp [Ev.mark] at he1
  | .leave m :: ms, S, e :: es, hS, hc, he => by
    rw [List.map_cons, List.map_cons, List.cons.injEq] at he
    obtain ⟨he1, he2⟩ := he
    cases S with
    | nil => simp [checkMarks] at hc
    | cons o S =>
      cases e with
      | leave m' i r =>
        cases i with
        | true =>
          have : m' = m := by simpa [Ev.mark] using he1
          subst this
          have hc' : o.name = m' ∧ checkMarks (S.map Opened.name) ms = true := by simpa [checkMarks] using hc
          obtain ⟨bs, h⟩ := checkMarks_sound ms S es (fun o' ho => hS o' (List.mem_cons_of_mem _ ho)) hc'.2 he2
          obtain ⟨n, i, r0⟩ := o
          have hi : i = true := hS _ List.mem_cons_self
          have hn : n = m' := hc'.1
          subst hi hn
          exact ⟨_, .leave n true r0 r h⟩
        | false => simp [Ev.mark] at he1
      | enter m' i r => cases i <;> simp [Ev.mark] at he1
      | clear => simp [Ev.mark] at he1
      | inhibitInfo b => simp [Ev.mark] at he1
      | inhibitCounters b => simp [Ev.mark] at he1

end Libff.Prof
