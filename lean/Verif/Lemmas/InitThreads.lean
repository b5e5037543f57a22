import Verif.Lemmas.InitCurves
import Verif.Lemmas.ParallelRace
import Verif.Spec.InitThreads

/-!
# Lemmas on initialisation threads
-/
namespace Libff.Init
set_option maxRecDepth 100000

section
variable {V : Type} {I : Interp V}

/-- The static part of a memory. -/
abbrev statics (m : Memory V) : State V := fun x => m (.static x)

/-- The memory with other static variables. -/
def withStatics (m : Memory V) (σ : State V) : Memory V
  | .static x => σ x
  | .own t k => m (.own t k)

theorem feedThread_run (m : Memory V) (k : V → Prog SLoc fun _ => V) : ∀ (xs : List Var) (v : V),
    (feedThread I xs v k).run m = (k (xs.foldl (fun v x => I.feed v (m (.static x))) v)).run m
  | [], _ => rfl
  | _ :: xs, _ => feedThread_run m k xs _

theorem thread_run (m : Memory V) (e : Exp) : ∀ (k : V → Prog SLoc fun _ => V),
    (e.thread I k).run m = (k (e.eval I (statics m))).run m := by
  induction e with
  | num n => intro k; rfl
  | bool b => intro k; rfl
  | fn f => intro k; exact feedThread_run m k _ _
  | var x => intro k; rfl
  | app e e' ih ih' => intro k; exact (ih _).trans (ih' _)

theorem statics_update (m : Memory V) (x : Var) (v : V) :
    statics (Function.update m (.static x) v) = (statics m).set x v := by
  funext y
  by_cases h : y = x
  · subst h; simp [statics, State.set]
  · simp [statics, State.set, h, Function.update_of_ne]

theorem withStatics_update (m : Memory V) (x : Var) (v : V) :
    withStatics (Function.update m (.static x) v) = withStatics m := by
  funext σ l
  cases l with
  | static y => rfl
  | own t k => exact Function.update_of_ne (fun h : SLoc.own t k = .static x => by cases h) _ _

theorem withStatics_self (m : Memory V) : withStatics m (statics m) = m := by
  funext l; cases l <;> rfl

/-- A thread running alone does what the program does. -/
theorem execThread_run (p : List Cmd) : ∀ m : Memory V,
    (execThread I p).run m = (exec I p (statics m)).map (withStatics m) := by
  induction p with
  | nil => intro m; show Outcome.ok m = .ok _; rw [withStatics_self]
  | cons c p ih =>
    intro m
    cases c with
    | assign x e =>
      rw [execThread, thread_run, run_write, ih, exec, statics_update, withStatics_update]
    | clear x => rw [execThread, run_write, ih, exec, statics_update, withStatics_update]
    | push x e =>
      rw [execThread, thread_run, run_read, run_write, ih, exec, statics_update, withStatics_update]
    | check e =>
      rw [execThread, thread_run, exec]
      split
      · exact ih m
      · rfl

/-- The variables a right-hand side reads. -/
def Exp.vars : Exp → List Var
  | .num _ | .bool _ => []
  | .fn f => f.reads
  | .var x => [x]
  | .app e e' => e.vars ++ e'.vars

/-- The variables a statement accesses. -/
def Cmd.vars : Cmd → List Var
  | .assign x e | .push x e => x :: e.vars
  | .clear x => [x]
  | .check e => e.vars

theorem feedThread_confined {R W : SLoc → Prop} (k : V → Prog SLoc fun _ => V) (hk : ∀ v, Confined R W (k v)) : ∀ (xs : List Var) (v : V),
    (∀ x ∈ xs, W (.static x)) → Confined R W (feedThread I xs v k)
  | [], v, _ => hk v
  | x :: xs, _, h => ⟨.inr (h x List.mem_cons_self), fun _ => feedThread_confined k hk xs _ fun y hy => h y (List.mem_cons_of_mem _ hy)⟩

theorem thread_confined {R W : SLoc → Prop} (e : Exp) : ∀ (k : V → Prog SLoc fun _ => V), (∀ v, Confined R W (k v)) →
    (∀ x ∈ e.vars, W (.static x)) → Confined R W (e.thread I k) := by
  induction e with
  | num n => intro k hk _; exact hk _
  | bool b => intro k hk _; exact hk _
  | fn f => intro k hk h; exact feedThread_confined k hk _ _ h
  | var x => intro k hk h; exact ⟨.inr (h x List.mem_cons_self), hk⟩
  | app e e' ih ih' =>
    intro k hk h
    exact ih _ (fun v => ih' _ (fun w => hk _) fun x hx => h x (List.mem_append_right _ hx)) fun x hx => h x (List.mem_append_left _ hx)

theorem execThread_confined {R W : SLoc → Prop} (p : List Cmd) (h : ∀ c ∈ p, ∀ x ∈ c.vars, W (.static x)) :
    Confined R W (execThread I p) := by
  induction p with
  | nil => trivial
  | cons c p ih =>
    have ihp := ih fun d hd => h d (List.mem_cons_of_mem _ hd)
    have hc := h c List.mem_cons_self
    cases c with
    | assign x e =>
      exact thread_confined e _ (fun v => ⟨hc x List.mem_cons_self, ihp⟩) fun y hy => hc y (List.mem_cons_of_mem _ hy)
    | clear x => exact ⟨hc x List.mem_cons_self, ihp⟩
    | push x e =>
      exact thread_confined e _ (fun v => ⟨.inr (hc x List.mem_cons_self), fun w => ⟨hc x List.mem_cons_self, ihp⟩⟩)
        fun y hy => hc y (List.mem_cons_of_mem _ hy)
    | check e =>
      refine thread_confined e _ (fun v => ?_) hc
      split
      · exact ihp
      · trivial

theorem init_vars_family (c : Curve) : ∀ k ∈ c.init, ∀ x ∈ k.vars, x.family = c.family := by
  have h : c.init.all (fun k => k.vars.all fun x => Nat.beq x.family c.family) = true := by cases c <;> decide +kernel
  intro k hk x hx
  exact Nat.eq_of_beq_eq_true (List.all_eq_true.1 (List.all_eq_true.1 h k hk) x hx)

/-- A thread gets to a statement if the statements before do not fail. -/
theorem feedThread_alone (m : Memory V) (k : V → Prog SLoc fun _ => V) : ∀ (xs : List Var) (v : V),
    Alone m (feedThread I xs v k) m (k (xs.foldl (fun v x => I.feed v (m (.static x))) v))
  | [], _ => .refl _ _
  | _ :: xs, _ => .read _ _ _ _ _ (feedThread_alone m k xs _)

theorem thread_alone (m : Memory V) (e : Exp) : ∀ (k : V → Prog SLoc fun _ => V),
    Alone m (e.thread I k) m (k (e.eval I (statics m))) := by
  induction e with
  | num n => intro k; exact .refl _ _
  | bool b => intro k; exact .refl _ _
  | fn f => intro k; exact feedThread_alone m k _ _
  | var x => intro k; exact .read _ _ _ _ _ (.refl _ _)
  | app e e' ih ih' => intro k; exact (ih _).trans (ih' _)

theorem execThread_alone (q : List Cmd) (p : List Cmd) : ∀ m : Memory V, exec I p (statics m) ≠ .abort →
    ∃ m', Alone m (execThread I (p ++ q)) m' (execThread I q) := by
  induction p with
  | nil => intro m _; exact ⟨m, .refl _ _⟩
  | cons c p ih =>
    intro m h
    cases c with
    | assign x e =>
      rw [exec, ← statics_update] at h
      obtain ⟨m', hm'⟩ := ih _ h
      exact ⟨m', (thread_alone m e _).trans (.write _ _ _ _ _ _ hm')⟩
    | clear x =>
      rw [exec, ← statics_update] at h
      obtain ⟨m', hm'⟩ := ih _ h
      exact ⟨m', .write _ _ _ _ _ _ hm'⟩
    | push x e =>
      rw [exec, ← statics_update] at h
      obtain ⟨m', hm'⟩ := ih _ h
      exact ⟨m', (thread_alone m e _).trans (.read _ _ _ _ _ (.write _ _ _ _ _ _ hm'))⟩
    | check e =>
      rw [exec] at h
      by_cases ht : I.truth (e.eval I (statics m)) = true
      · rw [if_pos ht] at h
        obtain ⟨m', hm'⟩ := ih _ h
        refine ⟨m', (thread_alone m e _).trans ?_⟩
        rw [if_pos ht]
        exact hm'
      · rw [if_neg ht] at h; exact absurd rfl h

theorem Confined.monoBoth {R R' W W' : SLoc → Prop} (hR : ∀ l, R l → R' l) (hW : ∀ l, W l → W' l) :
    ∀ {p : Prog SLoc fun _ => V}, Confined R W p → Confined R' W' p
  | .done, _ => trivial
  | .fail _, _ => trivial
  | .read l _, h => ⟨h.1.imp (hR l) (hW l), fun v => Confined.monoBoth hR hW (h.2 v)⟩
  | .write l _ _, h => ⟨hW l h.1, Confined.monoBoth hR hW h.2⟩

/-- What thread `j` may write. -/
def writesOf (inits : List (List Curve)) (j : Nat) : SLoc → Prop
  | .static x => ∃ h, inits[j]? = some h ∧ ∃ c ∈ h, x.family = c.family
  | .own t _ => j = inits.length + t

/-- What all threads may read. -/
def readsOf (inits : List (List Curve)) : SLoc → Prop
  | .static x => ∀ h ∈ inits, ∀ c ∈ h, x.family ≠ c.family
  | .own _ _ => False

theorem separate (inits : List (List Curve)) (hp : inits.Pairwise fun h h' => ∀ c ∈ h, ∀ d ∈ h', ¬ c.SharesWith d) :
    Separate (readsOf inits) (writesOf inits) := by
  have key : ∀ (s t : Nat) (h h' : List Curve) (c d : Curve), s < t → inits[s]? = some h → inits[t]? = some h' → c ∈ h → d ∈ h' →
      c.family ≠ d.family := by
    intro s t h h' c d hst hs ht hc hd e
    obtain ⟨l1, e1⟩ := List.getElem?_eq_some_iff.1 hs
    obtain ⟨l2, e2⟩ := List.getElem?_eq_some_iff.1 ht
    exact List.pairwise_iff_getElem.1 hp s t l1 l2 hst c (e1 ▸ hc) d (e2 ▸ hd) (family_cases c d e)
  refine ⟨fun t l hr hw => ?_, fun s t l h1 h2 => ?_⟩
  · cases l with
    | static x =>
      obtain ⟨h, hh, c, hc, e⟩ := hw
      exact hr h (List.mem_of_getElem? hh) c hc e
    | own _ _ => exact hr
  · cases l with
    | static x =>
      obtain ⟨h, hh, c, hc, e⟩ := h1
      obtain ⟨h', hh', d, hd, e'⟩ := h2
      rcases Nat.lt_trichotomy s t with hlt | heq | hgt
      · exact absurd (e.symm.trans e') (key s t h h' c d hlt hh hh' hc hd)
      · exact heq
      · exact absurd (e'.symm.trans e) (key t s h' h d c hgt hh' hh hd hc)
    | own u _ => exact (show s = inits.length + u from h1).trans (show t = inits.length + u from h2).symm

theorem parallel_singletons {L : Type} {V : L → Type} (pool : List (Prog L V)) (m : Libff.Mem L V) :
    parallelFor (fun i => pool.getD i .done) ((List.range pool.length).map fun i => [i]) m = ⟨m, pool⟩ := by
  have hd : ∀ p : Prog L V, p.andThen .done = p := by
    intro p
    induction p with
    | done => rfl
    | fail u => rfl
    | read l k ih => simp only [Prog.andThen]; congr 1; funext v; exact ih v
    | write l v k ih => simp only [Prog.andThen]; rw [ih]
  unfold parallelFor
  congr 1
  refine List.ext_getElem (by simp) fun i h1 h2 => ?_
  simp only [List.getElem_map, List.getElem_range, iterations, hd]
  simp [List.getD_eq_getElem?_getD, h2]

theorem assigns_singletons (n : Nat) : Assigns ((List.range n).map fun i => [i]) n := by
  unfold Assigns
  rw [← List.flatMap_def]
  simp

end
end Libff.Init
