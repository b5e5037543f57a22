import Verif.Model.InitCurves
import Verif.Spec.Threads

/-!
# Initialisation as a thread

`init_public_params()` of a curve (`Model/InitCurves`) as a sequence of accesses to a memory that other threads share.
-/
namespace Libff.Init

/-- The memory: the static variables, and objects that belong to one thread (`own t k`: object `k` of thread `t`). Simplifications: a
static variable is one location (a race on one of its words is a race on the variable), and `bn_Param` is the whole state of the
ate-pairing library. -/
inductive SLoc
  | static (x : Var)
  | own (t k : Nat)
deriving DecidableEq

/-- The contents of the memory. -/
abbrev Memory (V : Type) := Libff.Mem SLoc fun _ => V

section
variable {V : Type} (I : Interp V)

/-- Reading the static variables that a function uses (`Cls.reads`) and feeding it with them. -/
def feedThread : List Var → V → (V → Prog SLoc fun _ => V) → Prog SLoc fun _ => V
  | [], v, k => k v
  | x :: xs, v, k => .read (.static x) fun w => feedThread xs (I.feed v w) k

/-- Evaluating a right-hand side, from left to right. -/
def Exp.thread : Exp → (V → Prog SLoc fun _ => V) → Prog SLoc fun _ => V
  | .num n, k => k (I.num n)
  | .bool b, k => k (I.bool b)
  | .fn f, k => feedThread I f.reads (I.fn f) k
  | .var x, k => .read (.static x) k
  | .app e e', k => e.thread fun v => e'.thread fun w => k (I.app v w)

/-- The statements in program order: the right-hand side is evaluated, then the variable is written; `push_back` also reads it; a failed
assertion stops the program. -/
def execThread : List Cmd → Prog SLoc fun _ => V
  | [] => .done
  | .assign x e :: p => e.thread I fun v => .write (.static x) v (execThread p)
  | .clear x :: p => .write (.static x) I.empty (execThread p)
  | .push x e :: p => e.thread I fun v => .read (.static x) fun w => .write (.static x) (I.push w v) (execThread p)
  | .check e :: p => e.thread I fun v => if I.truth v then execThread p else .fail false

/-- A thread that initialises these curves one after the other. -/
def initThread (h : List Curve) : Prog SLoc fun _ => V := execThread I (h.flatMap Curve.init)

end
end Libff.Init
