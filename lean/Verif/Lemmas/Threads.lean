import Mathlib.Logic.Hydra
import Mathlib.Data.Multiset.Basic
import Verif.Spec.Threads

/-! Threads that write only locations of their own. -/
namespace Libff

universe u v
variable {L : Type u} {V : L → Type v}

theorem Confined.mono {R W W' : L → Prop} (h : ∀ l, W l → W' l) : ∀ {p : Prog L V}, Confined R W p → Confined R W' p
  | .done, _ => trivial
  | .fail _, _ => trivial
  | .read l k, hp => ⟨hp.1.imp_right (h l), fun v => Confined.mono h (hp.2 v)⟩
  | .write _ _ _, hp => ⟨h _ hp.1, Confined.mono h hp.2⟩

theorem Confined.andThen {R W : L → Prop} {q : Prog L V} (hq : Confined R W q) :
    ∀ {p : Prog L V}, Confined R W p → Confined R W (p.andThen q)
  | .done, _ => hq
  | .fail _, _ => trivial
  | .read l k, hp => ⟨hp.1, fun v => Confined.andThen hq (hp.2 v)⟩
  | .write _ _ _, hp => ⟨hp.1, Confined.andThen hq hp.2⟩

theorem Confined.iterations {R W : L → Prop} {body : Nat → Prog L V} : ∀ {is : List Nat},
    (∀ i ∈ is, Confined R W (body i)) → Confined R W (iterations body is)
  | [], _ => trivial
  | i :: is, h => Confined.andThen (Confined.iterations fun j hj => h j (List.mem_cons_of_mem _ hj)) (h i (List.mem_cons_self ..))

variable [DecidableEq L]

theorem run_read (l : L) (k : V l → Prog L V) (m : Mem L V) : (Prog.read l k).run m = (k (m l)).run m := rfl

theorem run_write (l : L) (v : V l) (k : Prog L V) (m : Mem L V) :
    (Prog.write l v k).run m = k.run (Function.update m l v) := rfl

theorem run_andThen (q : Prog L V) : ∀ (p : Prog L V) (m : Mem L V), (p.andThen q).run m = (p.run m).bind fun m' => q.run m'
  | .done, _ => rfl
  | .fail false, _ => rfl
  | .fail true, _ => rfl
  | .read l k, m => run_andThen q (k (m l)) m
  | .write l v k, m => run_andThen q k (Function.update m l v)

/-- Same outcome as far as `S` is concerned. -/
def AgreeOn (S : L → Prop) (o o' : Outcome (Mem L V)) : Prop :=
  match o, o' with
  | .ok m, .ok m' => ∀ l, S l → m l = m' l
  | .abort, .abort => True
  | .ub, .ub => True
  | _, _ => False

theorem AgreeOn.refl (S : L → Prop) (o : Outcome (Mem L V)) : AgreeOn S o o := by
  cases o <;> simp [AgreeOn]

theorem AgreeOn.symm {S : L → Prop} {o o' : Outcome (Mem L V)} (h : AgreeOn S o o') : AgreeOn S o' o := by
  cases o <;> cases o' <;> simp_all [AgreeOn]

theorem AgreeOn.trans {S : L → Prop} {o o' o'' : Outcome (Mem L V)} (h : AgreeOn S o o') (h' : AgreeOn S o' o'') :
    AgreeOn S o o'' := by
  cases o <;> cases o' <;> cases o'' <;> simp_all [AgreeOn]

theorem AgreeOn.mono {S T : L → Prop} {o o' : Outcome (Mem L V)} (hST : ∀ l, S l → T l) (h : AgreeOn T o o') :
    AgreeOn S o o' := by
  cases o <;> cases o' <;> simp_all [AgreeOn]

theorem AgreeOn.ok_left {S : L → Prop} {m : Mem L V} {o : Outcome (Mem L V)} (h : AgreeOn S (.ok m) o) :
    ∃ m', o = .ok m' ∧ ∀ l, S l → m l = m' l := by
  cases o with
  | ok m' => exact ⟨m', rfl, h⟩
  | abort => exact h.elim
  | ub => exact h.elim

theorem run_agree {R W : L → Prop} : ∀ {p : Prog L V}, Confined R W p → ∀ {m m' : Mem L V},
    (∀ l, R l ∨ W l → m l = m' l) → AgreeOn (fun l => R l ∨ W l) (p.run m) (p.run m')
  | .done, _, _, _, h => h
  | .fail false, _, _, _, _ => trivial
  | .fail true, _, _, _, _ => trivial
  | .read l k, hp, m, m', h => by
      show AgreeOn _ ((k (m l)).run m) ((k (m' l)).run m')
      rw [h l hp.1]
      exact run_agree (hp.2 _) h
  | .write l v k, hp, m, m', h => by
      refine run_agree hp.2 fun l' hl' => ?_
      by_cases e : l' = l
      · subst e; simp
      · simp [Function.update_of_ne e, h l' hl']

theorem run_frame {R W : L → Prop} : ∀ {p : Prog L V}, Confined R W p → ∀ {m m' : Mem L V}, p.run m = .ok m' →
    ∀ l, ¬ W l → m' l = m l
  | .done, _, m, m', h, l, _ => by rw [Outcome.ok.inj h]
  | .fail false, _, _, _, h, _, _ => by cases h
  | .fail true, _, _, _, h, _, _ => by cases h
  | .read l k, hp, m, m', h, l', hl' => run_frame (hp.2 (m l)) h l' hl'
  | .write l v k, hp, m, m', h, l', hl' => by
      have e := run_frame hp.2 (m := Function.update m l v) h l' hl'
      rw [e, Function.update_of_ne]
      rintro rfl
      exact hl' hp.1

/-! ## Termination -/

/-- One access further. -/
inductive After : Prog L V → Prog L V → Prop
  | read (l : L) (k : V l → Prog L V) (v : V l) : After (k v) (.read l k)
  | write (l : L) (v : V l) (k : Prog L V) : After k (.write l v k)

omit [DecidableEq L] in
theorem after_wf : WellFounded (After (L := L) (V := V)) := by
  refine ⟨fun p => ?_⟩
  induction p with
  | done => exact ⟨_, fun q h => by cases h⟩
  | fail u => exact ⟨_, fun q h => by cases h⟩
  | read l k ih => exact ⟨_, fun q h => by cases h; exact ih _⟩
  | write l v k ih => exact ⟨_, fun q h => by cases h; exact ih⟩

theorem cut_of_set {pool : List (Prog L V)} {t : Nat} {p p' : Prog L V} (h : pool[t]? = some p) (ha : After p' p) :
    Relation.CutExpand After ((pool.set t p' : List (Prog L V)) : Multiset (Prog L V)) (pool : Multiset (Prog L V)) := by
  obtain ⟨ht, e⟩ := List.getElem?_eq_some_iff.1 h
  refine ⟨{p'}, p, fun a ha' => ?_, ?_⟩
  · rw [Multiset.mem_singleton.1 ha']; exact ha
  · have h1 : pool = pool.take t ++ p :: pool.drop (t + 1) := by
      rw [← e, List.getElem_cons_drop, List.take_append_drop]
    have h2 : pool.set t p' = pool.take t ++ p' :: pool.drop (t + 1) := List.set_eq_take_append_cons_drop ..  |>.trans (by simp [ht])
    rw [h2]
    conv_rhs => rw [h1]
    simp only [← Multiset.coe_add, ← Multiset.cons_coe, ← Multiset.singleton_add]
    generalize ({p} : Multiset (Prog L V)) = a, ({p'} : Multiset (Prog L V)) = b
    ac_rfl

theorem terminates (c : Config L V) : Terminates c := by
  rintro ⟨f, -, hf⟩
  have hw : WellFounded (Relation.CutExpand (After (L := L) (V := V))) := after_wf.cutExpand
  have : WellFounded (fun a b : Config L V => Relation.CutExpand After (a.pool : Multiset (Prog L V)) (b.pool : Multiset (Prog L V))) :=
    InvImage.wf (fun c : Config L V => (c.pool : Multiset (Prog L V))) hw
  have hs : ∀ n, Relation.CutExpand After ((f (n + 1)).pool : Multiset (Prog L V)) ((f n).pool : Multiset (Prog L V)) := by
    intro n
    have h := hf n
    generalize f n = a, f (n + 1) = b at h
    cases h with
    | read m pool t l k h => exact cut_of_set h (.read l k _)
    | write m pool t l v k h => exact cut_of_set h (.write l v k)
  obtain ⟨_, ⟨n, rfl⟩, hn⟩ := this.has_min (Set.range f) ⟨f 0, 0, rfl⟩
  exact hn _ ⟨n + 1, rfl⟩ (hs n)

/-! ## Disjoint writers -/

/-- The threads `p₀ t` have disjoint write sets `W t`; where the execution has got to from memory `m₀`. -/
structure Tracks (R : L → Prop) (W : Nat → L → Prop) (start : List (Prog L V)) (m₀ : Mem L V) (c : Config L V) : Prop where
  len : c.pool.length = start.length
  conf : ∀ t p, c.pool[t]? = some p → Confined R (W t) p
  same : ∀ l, (∀ t < start.length, ¬ W t l) → c.mem l = m₀ l
  future : ∀ t p q, c.pool[t]? = some p → start[t]? = some q →
    AgreeOn (fun l => R l ∨ W t l) (p.run c.mem) (q.run m₀)

omit [DecidableEq L] in
theorem getElem?_set_some {pool : List (Prog L V)} {t s : Nat} {p q : Prog L V} (h : (pool.set t q)[s]? = some p) :
    (s = t ∧ p = q) ∨ (s ≠ t ∧ pool[s]? = some p) := by
  rw [List.getElem?_set] at h
  split at h
  · next e => subst e; split at h
              · exact .inl ⟨rfl, (Option.some.inj h).symm⟩
              · cases h
  · next e => exact .inr ⟨fun e' => e e'.symm, h⟩

theorem Tracks.step {R : L → Prop} {W : Nat → L → Prop} (hs : Separate R W) {start : List (Prog L V)} {m₀ : Mem L V}
    {c c' : Config L V} (h : Tracks R W start m₀ c) (st : Step c c') : Tracks R W start m₀ c' := by
  cases st with
  | read m pool t l k e =>
    have hc := h.conf t _ e
    refine ⟨by simpa using h.len, fun s p hp => ?_, h.same, fun s p q hp hq => ?_⟩
    · rcases getElem?_set_some hp with ⟨rfl, rfl⟩ | ⟨_, hp⟩
      · exact hc.2 _
      · exact h.conf s p hp
    · rcases getElem?_set_some hp with ⟨rfl, rfl⟩ | ⟨_, hp⟩
      · exact h.future s (.read l k) q e hq
      · exact h.future s p q hp hq
  | write m pool t l v k e =>
    have hc := h.conf t _ e
    have ht : t < start.length := by
      have := h.len
      have := (List.getElem?_eq_some_iff.1 e).1
      simp only at *
      omega
    refine ⟨by simpa using h.len, fun s p hp => ?_, fun l' hl' => ?_, fun s p q hp hq => ?_⟩
    · rcases getElem?_set_some hp with ⟨rfl, rfl⟩ | ⟨_, hp⟩
      · exact hc.2
      · exact h.conf s p hp
    · have : l' ≠ l := by rintro rfl; exact hl' t ht hc.1
      simp only [Function.update_of_ne this]
      exact h.same l' hl'
    · rcases getElem?_set_some hp with ⟨rfl, rfl⟩ | ⟨hne, hp⟩
      · exact h.future s (.write l v p) q e hq
      · refine AgreeOn.trans (run_agree (h.conf s p hp) fun l' hl' => ?_) (h.future s p q hp hq)
        refine Function.update_of_ne ?_ _ _
        rintro rfl
        rcases hl' with hl' | hl'
        · exact hs.shared t _ hl' hc.1
        · exact hne (hs.disjoint s t _ hl' hc.1)

theorem Tracks.reaches {R : L → Prop} {W : Nat → L → Prop} (hs : Separate R W) {start : List (Prog L V)} {m₀ : Mem L V}
    {c c' : Config L V} (h : Tracks R W start m₀ c) (st : Reaches c c') : Tracks R W start m₀ c' := by
  induction st with
  | refl => exact h
  | tail _ s ih => exact ih.step hs s

theorem Tracks.noRace {R : L → Prop} {W : Nat → L → Prop} (hs : Separate R W) {start : List (Prog L V)} {m₀ : Mem L V}
    {c : Config L V} (h : Tracks R W start m₀ c) : ¬ c.Race := by
  rintro ⟨l, s, t, p, q, hne, hp, hq, ha, hw⟩
  have hcp := h.conf s p hp
  have hcq := h.conf t q hq
  have hwt : W t l := by
    cases q with
    | write l' v k => cases hw; exact hcq.1
    | _ => cases hw
  cases p with
  | read l' k =>
    cases ha
    rcases hcp.1 with h1 | h1
    · exact hs.shared t _ h1 hwt
    · exact hne (hs.disjoint s t _ h1 hwt)
  | write l' v k => cases ha; exact hne (hs.disjoint s t _ hcp.1 hwt)
  | _ => cases ha

/-- Progress: a configuration without steps is finished or has failed. -/
theorem stuck_cases (c : Config L V) (h : ∀ c', ¬ Step c c') : c.Finished ∨ ∃ u, .fail u ∈ c.pool := by
  obtain ⟨m, pool⟩ := c
  by_cases hf : ∃ u, .fail u ∈ pool
  · exact .inr hf
  · left
    intro p hp
    obtain ⟨t, ht, e⟩ := List.getElem_of_mem hp
    have e' : pool[t]? = some p := by simp [← e]
    cases p with
    | done => rfl
    | fail u => exact absurd ⟨u, hp⟩ hf
    | read l k => exact absurd (.read m pool t l k e') (h _)
    | write l v k => exact absurd (.write m pool t l v k e') (h _)

theorem exists_stuck (c : Config L V) : ∃ c', Reaches c c' ∧ ∀ c'', ¬ Step c' c'' := by
  by_contra hn
  push Not at hn
  choose! g hg using hn
  have hr : ∀ n, Reaches c (g^[n] c) := by
    intro n
    induction n with
    | zero => exact .refl
    | succ n ih => rw [Function.iterate_succ_apply']; exact ih.tail (hg _ ih)
  exact terminates c ⟨fun n => g^[n] c, rfl, fun n => by
    simp only [Function.iterate_succ_apply']; exact hg _ (hr n)⟩

/-! ## Iterations one after the other -/

theorem iterations_run {R : L → Prop} {W : Nat → L → Prop} (hs : Separate R W) {body : Nat → Prog L V} : ∀ (is : List Nat),
    is.Nodup → (∀ i ∈ is, Confined R (W i) (body i)) → ∀ (m : Mem L V),
    (∀ m', (iterations body is).run m = .ok m' →
      (∀ i ∈ is, ∃ mi, (body i).run m = .ok mi ∧ ∀ l, W i l → m' l = mi l) ∧ ∀ l, (∀ i ∈ is, ¬ W i l) → m' l = m l) ∧
    ((∀ i ∈ is, ∃ mi, (body i).run m = .ok mi) → ∃ m', (iterations body is).run m = .ok m')
  | [], _, _, m => ⟨fun m' h => ⟨by simp, fun l _ => by rw [Outcome.ok.inj h]⟩, fun _ => ⟨m, rfl⟩⟩
  | i :: is, hnd, hc, m => by
    have hi := hc i (List.mem_cons_self ..)
    have hc' : ∀ j ∈ is, Confined R (W j) (body j) := fun j hj => hc j (List.mem_cons_of_mem _ hj)
    have hni : i ∉ is := (List.nodup_cons.1 hnd).1
    -- what the first iteration does does not matter to the others
    have key : ∀ m1, (body i).run m = .ok m1 → ∀ j ∈ is, AgreeOn (fun l => R l ∨ W j l) ((body j).run m1) ((body j).run m) := by
      intro m1 h1 j hj
      refine run_agree (hc' j hj) fun l hl => run_frame hi h1 l fun hw => ?_
      rcases hl with hl | hl
      · exact hs.shared i l hl hw
      · exact hni (hs.disjoint i j l hw hl ▸ hj)
    have e : (iterations body (i :: is)).run m = ((body i).run m).bind fun m1 => (iterations body is).run m1 :=
      run_andThen _ _ _
    rw [e]
    refine ⟨fun m' h => ?_, fun h => ?_⟩
    · cases h1 : (body i).run m with
      | abort => rw [h1] at h; cases h
      | ub => rw [h1] at h; cases h
      | ok m1 =>
        rw [h1, Outcome.bind_ok] at h
        obtain ⟨h2, h3⟩ := (iterations_run hs is (List.nodup_cons.1 hnd).2 hc' m1).1 m' h
        refine ⟨fun j hj => ?_, fun l hl => ?_⟩
        · rcases List.mem_cons.1 hj with rfl | hj
          · exact ⟨m1, h1, fun l hl => h3 l fun j' hj' hw => hni (hs.disjoint _ _ l hl hw ▸ hj')⟩
          · obtain ⟨mi, hmi, hmi'⟩ := h2 j hj
            have := key m1 h1 j hj
            rw [hmi] at this
            obtain ⟨mj, hmj, hmj'⟩ := this.ok_left
            exact ⟨mj, hmj, fun l hl => (hmi' l hl).trans (hmj' l (.inr hl))⟩
        · rw [h3 l fun j hj => hl j (List.mem_cons_of_mem _ hj), run_frame hi h1 l (hl i (List.mem_cons_self ..))]
    · obtain ⟨m1, h1⟩ := h i (List.mem_cons_self ..)
      rw [h1, Outcome.bind_ok]
      refine (iterations_run hs is (List.nodup_cons.1 hnd).2 hc' m1).2 fun j hj => ?_
      obtain ⟨mj, hmj⟩ := h j (List.mem_cons_of_mem _ hj)
      have := (key m1 h1 j hj).symm
      rw [hmj] at this
      obtain ⟨mi, hmi, _⟩ := this.ok_left
      exact ⟨mi, hmi⟩

/-- **The parallel loop.** If iteration `i` writes only locations in `W i`, which no other iteration accesses, all executions do
what the sequential loop does. -/
theorem parallelFor_sameAs {R : L → Prop} {W : Nat → L → Prop} (hs : Separate R W) {body : Nat → Prog L V} {n : Nat}
    (hc : ∀ i < n, Confined R (W i) (body i)) {asg : List (List Nat)} (ha : Assigns asg n) (m : Mem L V) :
    SameAs (parallelFor body asg m) ((iterations body (List.range n)).run m) := by
  have hnd : asg.flatten.Nodup := ha.nodup_iff.2 List.nodup_range
  have hmem : ∀ is ∈ asg, ∀ i ∈ is, i < n := fun is his i hi =>
    List.mem_range.1 (ha.subset (List.mem_flatten.2 ⟨is, his, hi⟩))
  -- write sets of the threads
  let WT : Nat → L → Prop := fun t l => ∃ i ∈ asg.getD t [], W i l
  have hgd : ∀ t (ht : t < asg.length), asg.getD t [] = asg[t] := fun t ht => by
    simp [List.getD_eq_getElem?_getD, ht]
  have hpw := (List.nodup_flatten.1 hnd).2
  have hndt : ∀ is ∈ asg, is.Nodup := (List.nodup_flatten.1 hnd).1
  have hsT : Separate R WT := by
    refine ⟨fun t l hr ⟨i, _, hw⟩ => hs.shared i l hr hw, fun s t l ⟨i, hi, hwi⟩ ⟨j, hj, hwj⟩ => ?_⟩
    have : i = j := hs.disjoint i j l hwi hwj
    subst this
    by_contra hne
    have hls : s < asg.length := by
      by_contra h
      simp [List.getD_eq_getElem?_getD, List.getElem?_eq_none (Nat.le_of_not_lt h)] at hi
    have hlt : t < asg.length := by
      by_contra h
      simp [List.getD_eq_getElem?_getD, List.getElem?_eq_none (Nat.le_of_not_lt h)] at hj
    rw [hgd s hls] at hi
    rw [hgd t hlt] at hj
    rcases Nat.lt_or_gt_of_ne hne with h | h
    · exact (List.pairwise_iff_getElem.1 hpw s t hls hlt h) hi hj
    · exact (List.pairwise_iff_getElem.1 hpw t s hlt hls h) hj hi
  set start := asg.map (iterations body) with hstart
  have h0 : Tracks R WT start m (parallelFor body asg m) := by
    refine ⟨rfl, fun t p hp => ?_, fun _ _ => rfl, fun t p q hp hq => ?_⟩
    · obtain ⟨ht, e⟩ := List.getElem?_eq_some_iff.1 hp
      have ht' : t < asg.length := by simpa [parallelFor] using ht
      have e' : p = iterations body asg[t] := by rw [← e]; simp [parallelFor]
      rw [e']
      refine Confined.iterations fun i hi => Confined.mono (fun l hl => ?_) (hc i (hmem _ (List.getElem_mem ht') i hi))
      exact ⟨i, by rw [hgd t ht']; exact hi, hl⟩
    · have : p = q := Option.some.inj (hp.symm.trans hq)
      subst this
      exact AgreeOn.refl _ _
  have hall : ∀ c, Reaches (parallelFor body asg m) c → Tracks R WT start m c := fun c hr => h0.reaches hsT hr
  have hseq := iterations_run hs (body := body) (List.range n) List.nodup_range (fun i hi => hc i (List.mem_range.1 hi)) m
  -- a finished execution means that all iterations are defined, and determines the memory
  have hfin : ∀ c, Reaches (parallelFor body asg m) c → c.Finished → (iterations body (List.range n)).run m = .ok c.mem := by
    intro c hr hf
    have ht := hall c hr
    have hdone : ∀ t (ht' : t < asg.length), ∃ m', (iterations body asg[t]).run m = .ok m' ∧ ∀ l, WT t l → c.mem l = m' l := by
      intro t ht'
      have hl : t < c.pool.length := by rw [ht.len, hstart]; simpa using ht'
      have e1 : c.pool[t]? = some .done := by
        rw [List.getElem?_eq_getElem hl, hf _ (List.getElem_mem hl)]
      have e2 : start[t]? = some (iterations body asg[t]) := by simp [hstart, ht']
      obtain ⟨m', h1, h2⟩ := AgreeOn.ok_left (ht.future t _ _ e1 e2)
      exact ⟨m', h1, fun l hl => h2 l (.inr hl)⟩
    have hiter : ∀ i < n, ∃ mi, (body i).run m = .ok mi ∧ ∀ l, W i l → c.mem l = mi l := by
      intro i hi
      obtain ⟨is, his, hii⟩ := List.mem_flatten.1 (ha.symm.subset (List.mem_range.2 hi))
      obtain ⟨t, ht', rfl⟩ := List.getElem_of_mem his
      obtain ⟨m', h1, h2⟩ := hdone t ht'
      obtain ⟨h3, _⟩ := (iterations_run hs asg[t] (hndt _ his) (fun j hj => hc j (hmem _ his j hj)) m).1 m' h1
      obtain ⟨mi, h4, h5⟩ := h3 i hii
      exact ⟨mi, h4, fun l hl => (h2 l ⟨i, by rw [hgd t ht']; exact hii, hl⟩).trans (h5 l hl)⟩
    obtain ⟨m', hm'⟩ := hseq.2 fun i hi => (hiter i (List.mem_range.1 hi)).imp fun _ h => h.1
    obtain ⟨h6, h7⟩ := hseq.1 m' hm'
    have : m' = c.mem := by
      funext l
      by_cases hl : ∃ i, i < n ∧ W i l
      · obtain ⟨i, hi, hw⟩ := hl
        obtain ⟨mi, a1, a2⟩ := h6 i (List.mem_range.2 hi)
        obtain ⟨mi', b1, b2⟩ := hiter i hi
        rw [a2 l hw, b2 l hw, Outcome.ok.inj (a1.symm.trans b1)]
      · push Not at hl
        rw [h7 l fun i hi => hl i (List.mem_range.1 hi)]
        refine (ht.same l ?_).symm
        rintro t ht' ⟨i, hi, hw⟩
        have ht'' : t < asg.length := by simpa [hstart] using ht'
        rw [hgd t ht''] at hi
        exact hl i (hmem _ (List.getElem_mem ht'') i hi) hw
    rw [hm', this]
  -- a failed thread means that the sequential loop fails
  have hfail : ∀ c, Reaches (parallelFor body asg m) c → ∀ u, .fail u ∈ c.pool →
      ∀ m', (iterations body (List.range n)).run m ≠ .ok m' := by
    intro c hr u hu m' hm'
    have ht := hall c hr
    obtain ⟨t, htl, e⟩ := List.getElem_of_mem hu
    have ht' : t < asg.length := by
      have := ht.len
      rw [hstart, List.length_map] at this
      omega
    have e1 : c.pool[t]? = some (.fail u) := by rw [List.getElem?_eq_getElem htl, e]
    have e2 : start[t]? = some (iterations body asg[t]) := by simp [hstart, ht']
    have hf := ht.future t _ _ e1 e2
    obtain ⟨m'', h1⟩ := (iterations_run hs asg[t] (hndt _ (List.getElem_mem ht'))
      (fun j hj => hc j (hmem _ (List.getElem_mem ht') j hj)) m).2 fun i hi =>
        ((hseq.1 m' hm').1 i (List.mem_range.2 (hmem _ (List.getElem_mem ht') i hi))).imp fun _ h => h.1
    rw [h1] at hf
    cases u <;> exact hf
  refine ⟨terminates _, fun c hr => (hall c hr).noRace hsT, fun m' hm' o => ⟨fun hp => ?_, ?_⟩, fun hno m' hp => ?_⟩
  · cases hp with
    | finished c hr hf => rw [← hm', hfin c hr hf]
    | abort c hr hf => exact absurd hm' (hfail c hr _ hf m')
    | undefined c hr hf => exact absurd hm' (hfail c hr _ hf m')
    | race c hr hf => exact absurd hf ((hall c hr).noRace hsT)
  · rintro rfl
    obtain ⟨c, hr, hst⟩ := exists_stuck (parallelFor body asg m)
    rcases stuck_cases c hst with hf | ⟨u, hu⟩
    · have := hfin c hr hf
      rw [hm'] at this
      rw [Outcome.ok.inj this]
      exact .finished c hr hf
    · exact absurd hm' (hfail c hr u hu m')
  · generalize ho : Outcome.ok m' = o at hp
    cases hp with
    | finished c hr hf => exact hno _ (hfin c hr hf)
    | abort c hr hf => cases ho
    | undefined c hr hf => cases ho
    | race c hr hf => cases ho

end Libff
