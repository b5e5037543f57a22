import Verif.Model.Init

/-!
# Symbolic execution of initialisation programs

`sym p` maps every variable to the term it holds after `p`; every interpretation factors through it.
-/
namespace Libff.Init

inductive Term
  | num (n : Nat) | bool (b : Bool) | fn (f : Fn) | init (x : Var) | feed (s t : Term) | app (s t : Term) | empty
  | push (s t : Term)

namespace Term

def closed : Term → Bool
  | num _ | bool _ | fn _ | empty => true
  | init _ => false
  | feed s t | app s t | push s t => s.closed && t.closed

def beq : Term → Term → Bool
  | num n, num m => Nat.beq n m
  | bool b, bool c => b == c
  | fn f, fn g => decide (f = g)
  | init x, init y => decide (x = y)
  | feed s t, feed s' t' => s.beq s' && t.beq t'
  | app s t, app s' t' => s.beq s' && t.beq t'
  | push s t, push s' t' => s.beq s' && t.beq t'
  | empty, empty => true
  | _, _ => false

theorem eq_of_beq : ∀ s t : Term, s.beq t = true → s = t := by
  intro s
  induction s with
  | num n => intro t h; cases t <;> simp_all [beq]
  | bool b => intro t h; cases t <;> simp_all [beq]
  | fn f => intro t h; cases t <;> simp_all [beq]
  | init x => intro t h; cases t <;> simp_all [beq]
  | empty => intro t h; cases t <;> simp_all [beq]
  | feed a b iha ihb =>
    intro t h
    cases t <;> simp_all [beq]
    exact ⟨iha _ h.1, ihb _ h.2⟩
  | app a b iha ihb =>
    intro t h
    cases t <;> simp_all [beq]
    exact ⟨iha _ h.1, ihb _ h.2⟩
  | push a b iha ihb =>
    intro t h
    cases t <;> simp_all [beq]
    exact ⟨iha _ h.1, ihb _ h.2⟩

variable {V : Type} (I : Interp V)

def denote (σ : State V) : Term → V
  | num n => I.num n
  | bool b => I.bool b
  | fn f => I.fn f
  | init x => σ x
  | feed s t => I.feed (s.denote σ) (t.denote σ)
  | app s t => I.app (s.denote σ) (t.denote σ)
  | empty => I.empty
  | push s t => I.push (s.denote σ) (t.denote σ)

theorem denote_closed (σ τ : State V) (t : Term) (h : t.closed = true) : t.denote I σ = t.denote I τ := by
  induction t <;> simp_all [closed, denote]

end Term

/-- The variables set so far, latest first. -/
abbrev SymState := List (Var × Term)

def lookup (s : SymState) (x : Var) : Option Term :=
  match s with
  | [] => none
  | (y, t) :: s => if y = x then some t else lookup s x

def SymState.get (s : SymState) (x : Var) : Term := (lookup s x).getD (.init x)

def Exp.sym (s : SymState) : Exp → Term
  | .num n => .num n
  | .bool b => .bool b
  | .fn f => f.reads.foldl (fun v x => .feed v (s.get x)) (.fn f)
  | .var x => s.get x
  | .app e e' => .app (e.sym s) (e'.sym s)

/-- The final symbolic state and the asserted terms. -/
def symRun : List Cmd → SymState → List Term → SymState × List Term
  | [], s, c => (s, c)
  | .assign x e :: p, s, c => symRun p ((x, e.sym s) :: s) c
  | .clear x :: p, s, c => symRun p ((x, .empty) :: s) c
  | .push x e :: p, s, c => symRun p ((x, .push (s.get x) (e.sym s)) :: s) c
  | .check e :: p, s, c => symRun p s (e.sym s :: c)

section
variable {V : Type} (I : Interp V)

/-- The state a symbolic state stands for. -/
def SymState.denote (s : SymState) (σ : State V) : State V := fun x => (s.get x).denote I σ

theorem Exp.eval_sym (s : SymState) (σ : State V) (e : Exp) : e.eval I (s.denote I σ) = (e.sym s).denote I σ := by
  induction e with
  | num n => rfl
  | bool b => rfl
  | var x => rfl
  | app e e' ih ih' => simp [Exp.eval, Exp.sym, Term.denote, ih, ih']
  | fn f =>
    simp only [Exp.eval, Exp.sym]
    have : ∀ (l : List Var) (v : V) (t : Term), v = t.denote I σ →
        l.foldl (fun v x => I.feed v (s.denote I σ x)) v = (l.foldl (fun v x => Term.feed v (s.get x)) t).denote I σ := by
      intro l
      induction l with
      | nil => intro v t h; exact h
      | cons x l ih => intro v t h; exact ih _ _ (by rw [h]; rfl)
    exact this _ _ _ rfl

theorem SymState.denote_cons (s : SymState) (σ : State V) (x : Var) (t : Term) :
    SymState.denote I ((x, t) :: s) σ = (s.denote I σ).set x (t.denote I σ) := by
  funext y
  simp only [SymState.denote, SymState.get, lookup, State.set]
  by_cases h : x = y
  · simp [h]
  · have : y ≠ x := fun e => h e.symm
    simp [h, this]

/-- Execution from the state denoted by a symbolic state. -/
theorem exec_sym (p : List Cmd) (s : SymState) (σ : State V) (c : List Term) :
    (symRun p s c).2.all (fun t => I.truth (t.denote I σ)) = true →
      exec I p (s.denote I σ) = .ok ((symRun p s c).1.denote I σ) := by
  induction p generalizing s c with
  | nil => intro _; rfl
  | cons a p ih =>
    intro h
    cases a with
    | assign x e =>
      simp only [exec, symRun] at h ⊢
      rw [Exp.eval_sym, ← SymState.denote_cons]
      exact ih _ _ h
    | clear x =>
      simp only [exec, symRun] at h ⊢
      have : I.empty = Term.empty.denote I σ := rfl
      rw [this, ← SymState.denote_cons]
      exact ih _ _ h
    | push x e =>
      simp only [exec, symRun] at h ⊢
      have : I.push (s.denote I σ x) (e.eval I (s.denote I σ)) = (Term.push (s.get x) (e.sym s)).denote I σ := by
        rw [Exp.eval_sym]; rfl
      rw [this, ← SymState.denote_cons]
      exact ih _ _ h
    | check e =>
      simp only [exec, symRun] at h ⊢
      have hm : ∀ (p : List Cmd) (s : SymState) (c : List Term) (t : Term), t ∈ c → t ∈ (symRun p s c).2 := by
        intro p
        induction p with
        | nil => intro s c t h; exact h
        | cons a p ih =>
          intro s c t h
          cases a <;> simp only [symRun]
          · exact ih _ _ _ h
          · exact ih _ _ _ h
          · exact ih _ _ _ h
          · exact ih _ _ _ (List.mem_cons_of_mem _ h)
      have := List.all_eq_true.1 h _ (hm p s (e.sym s :: c) (e.sym s) (List.mem_cons_self ..))
      rw [Exp.eval_sym, if_pos this]
      exact ih _ _ h

theorem exec_sym_abort (p : List Cmd) (s : SymState) (σ : State V) (c : List Term)
    (hc : c.all (fun t => I.truth (t.denote I σ)) = true) :
    (symRun p s c).2.all (fun t => I.truth (t.denote I σ)) = false → exec I p (s.denote I σ) = .abort := by
  induction p generalizing s c with
  | nil => intro h; simp only [symRun] at h; rw [hc] at h; cases h
  | cons a p ih =>
    intro h
    cases a with
    | assign x e =>
      simp only [exec, symRun] at h ⊢
      rw [Exp.eval_sym, ← SymState.denote_cons]
      exact ih _ _ hc h
    | clear x =>
      simp only [exec, symRun] at h ⊢
      have : I.empty = Term.empty.denote I σ := rfl
      rw [this, ← SymState.denote_cons]
      exact ih _ _ hc h
    | push x e =>
      simp only [exec, symRun] at h ⊢
      have : I.push (s.denote I σ x) (e.eval I (s.denote I σ)) = (Term.push (s.get x) (e.sym s)).denote I σ := by
        rw [Exp.eval_sym]; rfl
      rw [this, ← SymState.denote_cons]
      exact ih _ _ hc h
    | check e =>
      simp only [exec, symRun] at h ⊢
      rw [Exp.eval_sym]
      by_cases ht : I.truth ((e.sym s).denote I σ) = true
      · rw [if_pos ht]
        exact ih _ _ (by simp [ht, hc]) h
      · rw [if_neg ht]

/-- The final symbolic state and the asserted terms of a program run on its own. -/
def sym (p : List Cmd) : SymState := (symRun p [] []).1
def asserted (p : List Cmd) : List Term := (symRun p [] []).2

theorem denote_nil (σ : State V) : SymState.denote I [] σ = σ := rfl

/-- Nothing is read before it is set. -/
def closedProg (p : List Cmd) : Bool := (sym p).all (fun a => a.2.closed) && (asserted p).all Term.closed

/-- Two programs leave the same terms in the variables both of them set. -/
def agree (p q : List Cmd) : Bool :=
  let s := sym p
  let t := sym q
  s.all fun a => match lookup t a.1 with
    | none => true
    | some u => match lookup s a.1 with
      | none => false
      | some v => v.beq u

theorem lookup_mem {s : SymState} {x : Var} {t : Term} (h : lookup s x = some t) : (x, t) ∈ s := by
  induction s with
  | nil => cases h
  | cons a s ih =>
    obtain ⟨y, u⟩ := a
    simp only [lookup] at h
    by_cases e : y = x
    · rw [if_pos e] at h; cases h; subst e; exact List.mem_cons_self ..
    · rw [if_neg e] at h; exact List.mem_cons_of_mem _ (ih h)

theorem lookup_isSome {s : SymState} {x : Var} : (lookup s x).isSome ↔ x ∈ s.map Prod.fst := by
  induction s with
  | nil => simp [lookup]
  | cons a s ih =>
    obtain ⟨y, u⟩ := a
    simp only [lookup]
    by_cases e : y = x
    · simp [e]
    · have : x ≠ y := fun h => e h.symm
      simp [e, this, ih]

theorem symRun_dom (p : List Cmd) (s : SymState) (c : List Term) (x : Var) :
    x ∈ (symRun p s c).1.map Prod.fst ↔ x ∈ assigned p ∨ x ∈ s.map Prod.fst := by
  induction p generalizing s c with
  | nil => simp [symRun, assigned]
  | cons a p ih =>
    have h : assigned (a :: p) = a.target ++ assigned p := rfl
    rw [h, List.mem_append]
    cases a <;> simp only [symRun, ih, Cmd.target, List.map_cons, List.mem_cons, List.not_mem_nil, or_false, false_or]
    all_goals first | exact or_assoc.symm.trans (or_congr_left or_comm) | exact Iff.rfl | exact or_left_comm.trans or_assoc.symm

theorem mem_assigned {p : List Cmd} {x : Var} : x ∈ assigned p ↔ ∃ t, lookup (sym p) x = some t := by
  rw [← Option.isSome_iff_exists, lookup_isSome]
  unfold sym
  rw [symRun_dom]
  simp

variable {p q : List Cmd}

/-- A closed program either aborts from every state, or sets its variables to the same values from every state and leaves the others
alone. -/
theorem closed_cases (hp : closedProg p = true) :
    (∀ σ, exec I p σ = .abort) ∨ ∃ m : State V, ∀ σ, ∃ τ, exec I p σ = .ok τ ∧
      (∀ x t, lookup (sym p) x = some t → τ x = m x ∧ ∀ ρ, m x = t.denote I ρ) ∧ ∀ x, x ∉ assigned p → τ x = σ x := by
  rw [closedProg, Bool.and_eq_true, List.all_eq_true, List.all_eq_true] at hp
  obtain ⟨h1, h2⟩ := hp
  by_cases hV : Nonempty V
  · obtain ⟨v⟩ := hV
    let ρ : State V := fun _ => v
    have key : ∀ σ : State V, (asserted p).all (fun t => I.truth (t.denote I σ)) =
        (asserted p).all (fun t => I.truth (t.denote I ρ)) := by
      intro σ
      rw [Bool.eq_iff_iff, List.all_eq_true, List.all_eq_true]
      constructor
      · intro h t ht; rw [Term.denote_closed I ρ σ t (h2 t ht)]; exact h t ht
      · intro h t ht; rw [Term.denote_closed I σ ρ t (h2 t ht)]; exact h t ht
    cases hb : (asserted p).all (fun t => I.truth (t.denote I ρ)) with
    | false =>
      left
      intro σ
      have := exec_sym_abort I p [] σ [] rfl (by rw [← hb, ← key σ]; rfl)
      exact this
    | true =>
      right
      refine ⟨(sym p).denote I ρ, fun σ => ⟨_, exec_sym I p [] σ [] (by rw [← hb, ← key σ]; rfl), ?_, ?_⟩⟩
      · intro x t ht
        have hc := h1 _ (lookup_mem ht)
        have e : ∀ σ : State V, SymState.denote I (sym p) σ x = t.denote I σ := by
          intro σ
          simp only [SymState.denote, SymState.get, ht, Option.getD]
        refine ⟨?_, fun σ' => ?_⟩
        · have := e σ
          rw [sym] at this
          rw [this, e ρ]
          exact Term.denote_closed I _ _ _ hc
        · rw [e ρ]; exact Term.denote_closed I _ _ _ hc
      · intro x hx
        have : lookup (sym p) x = none := by
          cases h : lookup (sym p) x with
          | none => rfl
          | some t => exact absurd (mem_assigned.2 ⟨t, h⟩) hx
        rw [sym] at this
        simp only [SymState.denote, SymState.get, this, Option.getD, Term.denote]
  · left
    intro σ
    exact absurd ⟨σ (.glob .bn_Param)⟩ hV

theorem agree_lookup (h : agree p q = true) {x : Var} {t u : Term} (ht : lookup (sym p) x = some t)
    (hu : lookup (sym q) x = some u) : t = u := by
  unfold agree at h
  have := List.all_eq_true.1 h _ (lookup_mem ht)
  simp only [hu, ht] at this
  exact Term.eq_of_beq _ _ this

/-- The two programs leave the same terms in the variables both of them set. -/
def Agree (p q : List Cmd) : Prop := ∀ x t u, lookup (sym p) x = some t → lookup (sym q) x = some u → t = u

theorem Agree.refl (p : List Cmd) : Agree p p := fun _ _ _ ht hu => Option.some.inj (ht.symm.trans hu)

theorem Agree.symm (h : Agree p q) : Agree q p := fun x t u ht hu => (h x u t hu ht).symm

theorem Agree.of_agree (h : agree p q = true) : Agree p q := fun _ _ _ ht hu => agree_lookup h ht hu

/-- Programs whose variables carry different marks. -/
theorem Agree.of_mark {M : Type} (f : Var → M) (a b : M) (hab : a ≠ b) (hp : ∀ x ∈ assigned p, f x = a)
    (hq : ∀ x ∈ assigned q, f x = b) : Agree p q := fun x t u ht hu =>
  absurd ((hp x (mem_assigned.2 ⟨t, ht⟩)).symm.trans (hq x (mem_assigned.2 ⟨u, hu⟩))) hab

theorem exec_append (p q : List Cmd) (σ : State V) : exec I (p ++ q) σ = (exec I p σ).bind (exec I q) := by
  induction p generalizing σ with
  | nil => rfl
  | cons a p ih =>
    cases a <;> simp only [List.cons_append, exec, ih]
    split
    · rfl
    · rfl

/-- Any history of programs that are closed and pairwise agree. -/
theorem history {ι : Type} (prog : ι → List Cmd) (hc : ∀ c, closedProg (prog c) = true)
    (ha : ∀ c d, Agree (prog c) (prog d)) (h : List ι) (σ : State V) :
    ((∃ c ∈ h, ∀ ρ, exec I (prog c) ρ = .abort) ∧ exec I (h.flatMap prog) σ = .abort) ∨
    ((∀ c ∈ h, ∀ ρ, exec I (prog c) ρ ≠ .abort) ∧ ∃ τ, exec I (h.flatMap prog) σ = .ok τ ∧
      (∀ c ∈ h, ∀ x t, lookup (sym (prog c)) x = some t → ∀ ρ, τ x = t.denote I ρ) ∧
      ∀ x, (∀ c ∈ h, x ∉ assigned (prog c)) → τ x = σ x) := by
  induction h generalizing σ with
  | nil =>
    right
    exact ⟨by simp, σ, rfl, by simp, fun _ _ => rfl⟩
  | cons c h ih =>
    rw [List.flatMap_cons, exec_append]
    rcases closed_cases I (hc c) with hab | ⟨m, hm⟩
    · left
      refine ⟨⟨c, List.mem_cons_self .., hab⟩, ?_⟩
      rw [hab]; rfl
    · obtain ⟨τ₁, e₁, h₁, f₁⟩ := hm σ
      rw [e₁]
      change (_ ∧ exec I (h.flatMap prog) τ₁ = .abort) ∨ (_ ∧ ∃ τ, exec I (h.flatMap prog) τ₁ = .ok τ ∧ _)
      rcases ih τ₁ with ⟨⟨d, hd, hab⟩, e⟩ | ⟨hn, τ, e, hv, hf⟩
      · left
        exact ⟨⟨d, List.mem_cons_of_mem _ hd, hab⟩, e⟩
      · right
        refine ⟨?_, τ, e, ?_, ?_⟩
        · intro d hd ρ
          rcases List.mem_cons.1 hd with rfl | hd
          · obtain ⟨τ', e', _⟩ := hm ρ
            rw [e']; exact fun h => by cases h
          · exact hn d hd ρ
        · intro d hd x t ht ρ
          rcases List.mem_cons.1 hd with rfl | hd
          · by_cases hx : ∃ d' ∈ h, x ∈ assigned (prog d')
            · obtain ⟨d', hd', hx⟩ := hx
              obtain ⟨u, hu⟩ := mem_assigned.1 hx
              rw [ha d d' x t u ht hu]
              exact hv d' hd' x u hu ρ
            · rw [hf x (fun d' hd' hx' => hx ⟨d', hd', hx'⟩), (h₁ x t ht).1]
              exact (h₁ x t ht).2 ρ
          · exact hv d hd x t ht ρ
        · intro x hx
          rw [hf x (fun d hd => hx d (List.mem_cons_of_mem _ hd)), f₁ x (hx c (List.mem_cons_self ..))]

end

end Libff.Init
