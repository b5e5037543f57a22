import Mathlib.Logic.Function.Basic
import Mathlib.Logic.Relation
import Mathlib.Data.List.Perm.Basic
import Mathlib.Tactic.TypeStar
import Verif.Model.Outcome

/-!
# Threads over a shared memory

A thread is a tree of memory accesses. Threads run interleaved, one access at a time, in any order. Two threads that are about to
access the same location, at least one of them writing, are a data race, which in C++ is undefined behaviour; a program
without data races behaves as if its accesses were interleaved in this way (C++11 §1.10, the "DRF-SC" guarantee).
-/
namespace Libff

universe u v

/-- What a thread does: nothing more, stop the program (failed assertion or undefined behaviour), or access a location
and go on. `V l` is the type of what location `l` holds. -/
inductive Prog (L : Type u) (V : L → Type v) : Type (max u v)
  | done
  | fail (undefined : Bool)
  | read (l : L) (k : V l → Prog L V)
  | write (l : L) (v : V l) (k : Prog L V)

/-- The contents of the memory. -/
abbrev Mem (L : Type u) (V : L → Type v) := ∀ l, V l

/-- A moment of an execution: the memory and what each thread still has to do. -/
structure Config (L : Type u) (V : L → Type v) where
  mem : Mem L V
  pool : List (Prog L V)

section
variable {L : Type u} {V : L → Type v}

/-- One thread makes one access. -/
inductive Step [DecidableEq L] : Config L V → Config L V → Prop
  | read (m : Mem L V) (pool : List (Prog L V)) (t : Nat) (l : L) (k : V l → Prog L V)
      (h : pool[t]? = some (.read l k)) : Step ⟨m, pool⟩ ⟨m, pool.set t (k (m l))⟩
  | write (m : Mem L V) (pool : List (Prog L V)) (t : Nat) (l : L) (v : V l) (k : Prog L V)
      (h : pool[t]? = some (.write l v k)) : Step ⟨m, pool⟩ ⟨Function.update m l v, pool.set t k⟩

/-- The next access of the thread is to `l`. -/
def Prog.Accesses (l : L) : Prog L V → Prop
  | .read l' _ => l' = l
  | .write l' _ _ => l' = l
  | _ => False

/-- The next access of the thread is a write to `l`. -/
def Prog.Writes (l : L) : Prog L V → Prop
  | .write l' _ _ => l' = l
  | _ => False

/-- Two different threads are about to access the same location, one of them writing. -/
def Config.Race (c : Config L V) : Prop :=
  ∃ (l : L) (s t : Nat) (p q : Prog L V), s ≠ t ∧ c.pool[s]? = some p ∧ c.pool[t]? = some q ∧ p.Accesses l ∧ q.Writes l

/-- Every thread is through. -/
def Config.Finished (c : Config L V) : Prop := ∀ p ∈ c.pool, p = .done

/-- `c'` can come after `c`. -/
def Reaches [DecidableEq L] : Config L V → Config L V → Prop := Relation.ReflTransGen Step

/-- What can become of an execution that starts with `c`. -/
inductive Possible [DecidableEq L] (c : Config L V) : Outcome (Mem L V) → Prop
  | finished (c' : Config L V) (h : Reaches c c') (hf : c'.Finished) : Possible c (.ok c'.mem)
  | abort (c' : Config L V) (h : Reaches c c') (hf : .fail false ∈ c'.pool) : Possible c .abort
  | undefined (c' : Config L V) (h : Reaches c c') (hf : .fail true ∈ c'.pool) : Possible c .ub
  | race (c' : Config L V) (h : Reaches c c') (hr : c'.Race) : Possible c .ub

/-- First `p`, then `q`. -/
def Prog.andThen : Prog L V → Prog L V → Prog L V
  | .done, q => q
  | .fail u, _ => .fail u
  | .read l k, q => .read l fun v => (k v).andThen q
  | .write l v k, q => .write l v (k.andThen q)

/-- The iterations given by the list, one after the other. -/
def iterations (body : Nat → Prog L V) : List Nat → Prog L V
  | [] => .done
  | i :: is => (body i).andThen (iterations body is)

/-- `#pragma omp parallel for` over the iterations `0, …, n - 1`: `asg` says which thread executes which iterations, in which
order. -/
def parallelFor (body : Nat → Prog L V) (asg : List (List Nat)) (m : Mem L V) : Config L V :=
  ⟨m, asg.map (iterations body)⟩

/-- Every iteration is executed once, by some thread. -/
def Assigns (asg : List (List Nat)) (n : Nat) : Prop := asg.flatten.Perm (List.range n)

/-- The thread running alone. -/
def Prog.run [DecidableEq L] : Prog L V → Mem L V → Outcome (Mem L V)
  | .done, m => .ok m
  | .fail false, _ => .abort
  | .fail true, _ => .ub
  | .read l k, m => (k (m l)).run m
  | .write l v k, m => k.run (Function.update m l v)

/-- Executions from `c` end after finitely many accesses. -/
def Terminates [DecidableEq L] (c : Config L V) : Prop := ¬ ∃ f : Nat → Config L V, f 0 = c ∧ ∀ n, Step (f n) (f (n + 1))

/-- All executions from `c` do what the sequential outcome `o` says: they end; if `o` is a state, each ends with that state, none
fails or has a data race; if `o` is a failure, none ends normally. -/
structure SameAs [DecidableEq L] (c : Config L V) (o : Outcome (Mem L V)) : Prop where
  ends : Terminates c
  noRace : ∀ c', Reaches c c' → ¬ c'.Race
  result : ∀ m, o = .ok m → ∀ o', Possible c o' ↔ o' = .ok m
  failure : (∀ m, o ≠ .ok m) → ∀ m, ¬ Possible c (.ok m)

/-- Whatever it reads, the thread reads only in `R` and `W`, and writes only in `W`. -/
def Confined (R W : L → Prop) : Prog L V → Prop
  | .done => True
  | .fail _ => True
  | .read l k => (R l ∨ W l) ∧ ∀ v, Confined R W (k v)
  | .write l _ k => W l ∧ Confined R W k

/-- What iteration `i` writes is disjoint from what the others write and from what all read. -/
structure Separate (R : L → Prop) (W : Nat → L → Prop) : Prop where
  shared : ∀ t l, R l → ¬ W t l
  disjoint : ∀ s t l, W s l → W t l → s = t

end
end Libff
