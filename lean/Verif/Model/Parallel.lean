import Verif.Spec.Threads
import Verif.Model.Multiexp
import Verif.Model.Profiling

/-!
# The parallel loops of a MULTICORE build (libff/algebra/scalar_multiplication/multiexp.tcc, libff/common/profiling.cpp)

The three `#pragma omp parallel for` loops as threads over a shared memory (`Spec/Threads`). Locations hold whole objects: the
words of two different objects are different, and no object is written by one access and read by another in part, because
a race on one word would be a race on the object. Local variables of an iteration are not memory.
-/
namespace Libff

/-- The objects the loops share: the entries of the vectors of bases and scalars, of the window table, the coefficient, the
entries of the result vector (`partial`, `res`) and, with PROFILE_OP_COUNTS, the static counter of group additions. -/
inductive MLoc
  | base (j : Nat)
  | scalar (j : Nat)
  | table (r c : Nat)
  | coeff
  | slot (i : Nat)
  | addCnt
deriving DecidableEq

/-- What they hold; `none` is memory that is not an element of the vector. Simplification: the counter (`long long`) is a
natural number. -/
abbrev MVal (G S : Type) : MLoc → Type
  | .base _ => Option G
  | .scalar _ => Option S
  | .table _ _ => Option G
  | .coeff => Option S
  | .slot _ => Option G
  | .addCnt => Nat

section
variable {G S : Type}

/-- A thread of one of these loops. -/
abbrev MProg (G S : Type) := Prog MLoc (MVal G S)

/-- `n` bases from `lo` on. -/
def readBases : Nat → Nat → (List G → MProg G S) → MProg G S
  | _, 0, k => k []
  | lo, n + 1, k => .read (.base lo) fun v : Option G =>
      match v with
      | none => .fail true
      | some g => readBases (lo + 1) n fun gs => k (g :: gs)

/-- `n` scalars from `lo` on. -/
def readScalars : Nat → Nat → (List S → MProg G S) → MProg G S
  | _, 0, k => k []
  | lo, n + 1, k => .read (.scalar lo) fun v : Option S =>
      match v with
      | none => .fail true
      | some s => readScalars (lo + 1) n fun ss => k (s :: ss)

/-- `add_cnt++` (e.g. alt_bn128_g1.cpp:184-186), `n` times: a load and a store, not atomic. -/
def bump : Nat → MProg G S → MProg G S
  | 0, k => k
  | n + 1, k => .read .addCnt fun c : Nat => .write .addCnt (c + 1 : Nat) (bump n k)

/-- The value of a local computation, or the end of the program. -/
def Outcome.orFail {α : Type} (o : Outcome α) (k : α → MProg G S) : MProg G S :=
  match o with
  | .ok a => k a
  | .abort => .fail false
  | .ub => .fail true

/-- Number of elements of chunk `i` of a vector of `len`, multiexp.tcc:425-428. -/
def chunkLen (len one chunks i : Nat) : Nat := if i = chunks - 1 then len - i * one else one

/-- One iteration of the loop of `multi_exp`, multiexp.tcc:422-429. `adds` is how often the method increments the static
counter (always 0 without PROFILE_OP_COUNTS). Simplifications: the iteration reads its bases and scalars once, at the beginning,
and increments the counter afterwards, before it stores its result. -/
def multiExpBody (inner : List G → List S → Outcome G) (adds : List G → List S → Nat) (nb ns one chunks i : Nat) : MProg G S :=
  readBases (i * one) (chunkLen nb one chunks i) fun gs =>
    readScalars (i * one) (chunkLen ns one chunks i) fun ss =>
      (inner gs ss).orFail fun t => bump (adds gs ss) (.write (.slot i) (some t : Option G) .done)

/-- The memory before the loop: `partial` is filled with zeros, multiexp.tcc:417. -/
def multiExpMem (bases : List G) (scalars : List S) (part : List G) (cnt : Nat) : Mem MLoc (MVal G S)
  | .base j => bases[j]?
  | .scalar j => scalars[j]?
  | .table _ _ => none
  | .coeff => none
  | .slot i => part[i]?
  | .addCnt => cnt

/-- `partial` after the loop. -/
def slots (n : Nat) (m : Mem MLoc (MVal G S)) : List G := (List.range n).filterMap fun i => (m (.slot i) : Option G)

variable [GroupOps G]
open GroupOps

/-- `multi_exp<T, FieldT, Method>` in a MULTICORE build, multiexp.tcc:400-439: the outcomes that are possible when the
iterations are distributed to threads by `asg`. -/
def MultiExpMulticore (inner : List G → List S → Outcome G) (adds : List G → List S → Nat) (asg : List (List Nat))
    (bases : List G) (scalars : List S) (chunks : Nat) (o : Outcome G) : Prop :=
  if bases.length < chunks ∨ chunks = 1 then o = inner bases scalars
  else if chunks = 0 then o = .ub
  else ∃ o', Possible (parallelFor (multiExpBody inner adds bases.length scalars.length (bases.length / chunks) chunks) asg
      (multiExpMem bases scalars (List.replicate chunks zero) 0)) o' ∧
    o = o'.map fun m => (slots chunks m).foldl add zero

/-- `multi_exp_with_mixed_addition` in a MULTICORE build, multiexp.tcc:441-502: the scalars are classified before the parallel
loop. -/
def MultiExpMixedMulticore [Zero S] [One S] [DecidableEq S] (debug : Bool) (addB : G → G → Outcome G)
    (inner : List G → List S → Outcome G) (adds : List G → List S → Nat) (asg : List (List Nat)) (bases : List G)
    (scalars : List S) (chunks : Nat) (o : Outcome G) : Prop :=
  if debug ∧ bases.length ≠ scalars.length then o = .abort
  else match classify addB bases scalars (zero, [], []) with
    | .ok (acc, bs, ps) => ∃ o', MultiExpMulticore inner adds asg bs ps chunks o' ∧ o = o'.map fun t => add acc t
    | .abort => o = .abort
    | .ub => o = .ub

/-- The loop of `windowed_exp`, multiexp.tcc:603-615, reading the table from memory; `n` rows from `outer` on. `counts a b` says
whether `a + b` increments the static counter. -/
def windowedProg (counts : G → G → Bool) (window : Nat) (e : List Limb) : Nat → Nat → G → (G → MProg G S) → MProg G S
  | 0, _, res, k => k res
  | n + 1, outer, res, k => .read (.table outer (windowId e (outer * window) window)) fun v : Option G =>
      match v with
      | none => .fail true
      | some t => bump (if counts res t then 1 else 0) (windowedProg counts window e n (outer + 1) (add res t) k)

/-- The scalar used for an entry: `v[i]` in `batch_exp`, `coeff * v[i]` in `batch_exp_with_coeff`, multiexp.tcc:637, 672. -/
def effScalar [Mul S] : Option S → S → S
  | none, s => s
  | some c, s => c * s

/-- One iteration of the loops of `batch_exp` and `batch_exp_with_coeff`, multiexp.tcc:635-644 and 670-679, with
`windowed_exp`, multiexp.tcc:591-618; `withCoeff` says which of the two. Not modelled: the progress dots, printed with `printf`, which
locks the stream. -/
def batchBody [Mul S] (toB : S → List Limb) (counts : G → G → Bool) (withCoeff : Bool) (scalarSize window i : Nat) : MProg G S :=
  .read (.scalar i) fun v : Option S =>
    match v with
    | none => .fail true
    | some s => .read .coeff fun c : Option S =>
      if window = 0 ∨ 32 < window then .fail true
      else .read (.table 0 0) fun v : Option G =>
        match v with
        | none => .fail true
        | some t00 => windowedProg counts window (toB (effScalar (if withCoeff then c else none) s)) ((scalarSize + window - 1) / window) 0 t00 fun t =>
            .write (.slot i) (some t : Option G) .done

/-- The memory before these loops. -/
def batchMem (T : List (List G)) (coeff : Option S) (v : List S) (res : List G) (cnt : Nat) : Mem MLoc (MVal G S)
  | .base _ => none
  | .scalar j => v[j]?
  | .table r c => T[r]?.bind (·[c]?)
  | .coeff => coeff
  | .slot i => res[i]?
  | .addCnt => cnt

/-- `batch_exp` and, with a coefficient, `batch_exp_with_coeff` in a MULTICORE build, multiexp.tcc:620-687. -/
def BatchExpMulticore [Mul S] (toB : S → List Limb) (counts : G → G → Bool) (scalarSize window : Nat) (T : List (List G))
    (asg : List (List Nat)) (coeff : Option S) (v : List S) (o : Outcome (List G)) : Prop :=
  match T with
  | (t00 :: _) :: _ => ∃ o', Possible (parallelFor (batchBody toB counts coeff.isSome scalarSize window) asg
      (batchMem T coeff v (List.replicate v.length t00) 0)) o' ∧ o = o'.map (slots v.length)
  | _ => o = .ub

end

/-! ## Profiling blocks in several threads -/

/-- The global variables `enter_block` touches first, profiling.cpp:62-95. -/
inductive PLoc
  | inhibitCounters
  | blockNames
  | enterTimes
  | invocationCounts
deriving DecidableEq

/-- What they hold. -/
abbrev PVal : PLoc → Type
  | .inhibitCounters => Bool
  | .blockNames => List String
  | .enterTimes => String → Int
  | .invocationCounts => String → Nat

/-- `enter_block`, profiling.cpp:250-259, in a build of any kind: these lines are outside the critical section that begins
at line 269. `k` is what follows. -/
def enterProg (msg : String) (t : Int) (k : Prog PLoc PVal) : Prog PLoc PVal :=
  .read .inhibitCounters fun b : Bool =>
    if b then .done
    else .read .blockNames fun names : List String => .write .blockNames (msg :: names : List String) <|
      .read .enterTimes fun m : String → Int => .write .enterTimes (Prof.set m msg t : String → Int) k

/-- `leave_block` in a MULTICORE build, profiling.cpp:287-299 (no assertion), outside the critical section at line 321. -/
def leaveProg (msg : String) (k : Prog PLoc PVal) : Prog PLoc PVal :=
  .read .inhibitCounters fun b : Bool =>
    if b then .done
    else .read .blockNames fun names : List String =>
      match names with
      | [] => .fail true
      | _ :: rest => .write .blockNames (rest : List String) <|
        .read .invocationCounts fun m : String → Nat => .write .invocationCounts (Prof.set m msg (m msg + 1) : String → Nat) k

end Libff
