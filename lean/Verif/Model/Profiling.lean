import Verif.Model.Bigint

/-!
# Model of the profiling blocks (libff/common/profiling.{hpp,cpp})

The printed text is not modelled. What the clock, the CPU clock and the operation counters show is an input: each event
carries the values that were read.
-/
namespace Libff.Prof

/-- The build options that matter here: `MULTICORE`, `NDEBUG`, and the names in `op_data_points` (profiling.cpp:76-92), which is
empty without `PROFILE_OP_COUNTS`. -/
structure Build where
  multicore : Bool
  ndebug : Bool
  dataPoints : List String

/-- What is read at one moment: `get_nsec_time()`, `get_nsec_cpu_time()` and the operation counters by name.
Simplification: `long long` differences and sums are exact integers (no overflow in 292 years). -/
structure Reading where
  t : Int
  cpu : Int
  ops : String → Int

/-- The global variables, profiling.cpp:62-95. A `std::map` is a function into `Option`; those that are only read with
`operator[]`, which supplies 0 for a missing key, are total functions. `block_names` has the innermost block first. -/
structure State where
  blockNames : List String
  invocationCounts : String → Option Nat
  enterTimes : String → Int
  lastTimes : String → Option Int
  cumulativeTimes : String → Option Int
  enterCpuTimes : String → Int
  lastCpuTimes : String → Option Int
  opCounts : String → String → Int
  cumulativeOpCounts : String → String → Int
  indentation : BitVec 64
  inhibitInfo : Bool
  inhibitCounters : Bool

/-- The state at program start, profiling.cpp:62-95. -/
def State.init : State where
  blockNames := []
  invocationCounts := fun _ => none
  enterTimes := fun _ => 0
  lastTimes := fun _ => none
  cumulativeTimes := fun _ => none
  enterCpuTimes := fun _ => 0
  lastCpuTimes := fun _ => none
  opCounts := fun _ _ => 0
  cumulativeOpCounts := fun _ _ => 0
  indentation := 0
  inhibitInfo := false
  inhibitCounters := false

/-- `m[k] = v` on a map. -/
def set {β : Type} (m : String → β) (k : String) (v : β) : String → β := fun x => if x = k then v else m x

/-- `op_profiling_enter`, profiling.cpp:237-243. -/
def opEnter (B : Build) (msg : String) (r : Reading) (s : State) : State :=
  { s with opCounts := set s.opCounts msg fun d => if d ∈ B.dataPoints then r.ops d else s.opCounts msg d }

/-- `enter_block`, profiling.cpp:245-277. -/
def enterBlock (B : Build) (msg : String) (indent : Bool) (r : Reading) (s : State) : State :=
  if s.inhibitCounters then s
  else
    let s := { s with
      blockNames := msg :: s.blockNames
      enterTimes := set s.enterTimes msg r.t
      enterCpuTimes := set s.enterCpuTimes msg r.cpu }
    if s.inhibitInfo then s
    else
      let s := opEnter B msg r s
      if indent then { s with indentation := s.indentation + 1 } else s

/-- The update of `cumulative_op_counts`, profiling.cpp:299-304. -/
def opLeave (B : Build) (msg : String) (r : Reading) (s : State) : State :=
  { s with cumulativeOpCounts := set s.cumulativeOpCounts msg fun d =>
      if d ∈ B.dataPoints then s.cumulativeOpCounts msg d + (r.ops d - s.opCounts msg d) else s.cumulativeOpCounts msg d }

/-- `leave_block` after the assertion, profiling.cpp:289-325. `rest` is `block_names` after `pop_back`. -/
def leaveTail (B : Build) (msg : String) (indent : Bool) (r : Reading) (rest : List String) (s : State) : State :=
  let s := { s with
    blockNames := rest
    invocationCounts := set s.invocationCounts msg (some ((s.invocationCounts msg).getD 0 + 1))
    lastTimes := set s.lastTimes msg (some (r.t - s.enterTimes msg))
    cumulativeTimes := set s.cumulativeTimes msg (some ((s.cumulativeTimes msg).getD 0 + (r.t - s.enterTimes msg)))
    lastCpuTimes := set s.lastCpuTimes msg (some (r.cpu - s.enterCpuTimes msg)) }
  let s := opLeave B msg r s
  if s.inhibitInfo then s
  else if indent then { s with indentation := s.indentation - 1 } else s

/-- `leave_block`, profiling.cpp:279-326. `pop_back` (and `--end()`) on an empty vector is undefined. -/
def leaveBlock (B : Build) (msg : String) (indent : Bool) (r : Reading) (s : State) : Outcome State :=
  if s.inhibitCounters then .ok s
  else
    match s.blockNames with
    | [] => .ub
    | top :: rest =>
      if !B.multicore && !B.ndebug && top ≠ msg then .abort
      else .ok (leaveTail B msg indent r rest s)

/-- `clear_profiling_counters`, profiling.cpp:97-103. -/
def clearCounters (s : State) : State :=
  { s with
    invocationCounts := fun _ => none
    lastTimes := fun _ => none
    lastCpuTimes := fun _ => none
    cumulativeTimes := fun _ => none }

/-- `print_cumulative_time_entry`, profiling.cpp:105-111: the two numbers that are printed (total time, number of
invocations; the others are quotients of these). `at` throws when the key is missing, the average divides by the count. -/
def timeEntry (key : String) (s : State) : Outcome (Int × Nat) :=
  match s.cumulativeTimes key, s.invocationCounts key with
  | some t, some n => if n = 0 then .ub else .ok (t, n)
  | _, _ => .abort

/-- What a program can do to the profiling state. The two flags are plain global variables (profiling.cpp:94-95). -/
inductive Ev
  | enter (msg : String) (indent : Bool) (r : Reading)
  | leave (msg : String) (indent : Bool) (r : Reading)
  | clear
  | inhibitInfo (b : Bool)
  | inhibitCounters (b : Bool)

/-- One event. -/
def step (B : Build) (s : State) : Ev → Outcome State
  | .enter m i r => .ok (enterBlock B m i r s)
  | .leave m i r => leaveBlock B m i r s
  | .clear => .ok (clearCounters s)
  | .inhibitInfo b => .ok { s with inhibitInfo := b }
  | .inhibitCounters b => .ok { s with inhibitCounters := b }

/-- A history. -/
def run (B : Build) : State → List Ev → Outcome State
  | s, [] => .ok s
  | s, e :: es => (step B s e).bind fun s' => run B s' es

/-! ## The blocks of the library functions

All calls in the library use the default `indent = true`, and none is inside a parallel loop, so the events of a function are a
fixed sequence. -/

/-- An `enter_block` or `leave_block` call in the text of a function. -/
inductive Mark
  | enter (msg : String)
  | leave (msg : String)
deriving DecidableEq

/-- The call that an event is. -/
def Ev.mark : Ev → Option Mark
  | .enter m true _ => some (.enter m)
  | .leave m true _ => some (.leave m)
  | _ => none

/-- A function body between `enter_block(name)` and `leave_block(name)`. -/
def block (name : String) (body : List Mark) : List Mark := Mark.enter name :: (body ++ [Mark.leave name])

/-- The functions of a curve's pairing file: `pre` is the curve prefix, `fe` the blocks inside `final_exponentiation`. The
public names (`*_pp::pairing`, ...) forward to these. -/
def ateFunctions (c : String) (fe : List Mark) : List (String × List Mark) :=
  let fin := block s!"Call to {c}_final_exponentiation" fe
  let g1 := block s!"Call to {c}_ate_precompute_G1" []
  let g2 := block s!"Call to {c}_ate_precompute_G2" []
  let ml := block s!"Call to {c}_ate_miller_loop" []
  let dml := block s!"Call to {c}_ate_double_miller_loop" []
  let pr := block s!"Call to {c}_ate_pairing" (g1 ++ g2 ++ ml)
  let rp := block s!"Call to {c}_ate_reduced_pairing" (pr ++ fin)
  [(s!"{c}_final_exponentiation", fin), (s!"{c}_precompute_G1", g1), (s!"{c}_precompute_G2", g2), (s!"{c}_miller_loop", ml),
    (s!"{c}_double_miller_loop", dml), (s!"{c}_pairing", pr), (s!"{c}_reduced_pairing", rp)]

/-- `final_exponentiation` of alt_bn128, alt_bn128_pairing.cpp:112-237. -/
def altBn128Fe : List Mark :=
  block "Call to alt_bn128_final_exponentiation_first_chunk" [] ++
  block "Call to alt_bn128_final_exponentiation_last_chunk"
    (block "Call to alt_bn128_exp_by_neg_z" [] ++ block "Call to alt_bn128_exp_by_neg_z" [] ++
      block "Call to alt_bn128_exp_by_neg_z" [])

/-- `final_exponentiation` of bls12_381, bls12_381_pairing.cpp:113-200. -/
def bls12381Fe : List Mark :=
  block "Call to bls12_381_final_exponentiation_first_chunk" [] ++
  block "Call to bls12_381_final_exponentiation_last_chunk"
    (block "Call to bls12_381_exp_by_z" [] ++ block "Call to bls12_381_exp_by_z" [] ++ block "Call to bls12_381_exp_by_z" [] ++
      block "Call to bls12_381_exp_by_z" [] ++ block "Call to bls12_381_exp_by_z" [])

/-- `final_exponentiation` of mnt4, mnt6 and edwards: two first chunks, one last chunk (mnt4_pairing.cpp:182-225,
mnt6_pairing.cpp:184-230, edwards_pairing.cpp:173-219). -/
def chunkFe (c : String) : List Mark :=
  block s!"Call to {c}_final_exponentiation_first_chunk" [] ++ block s!"Call to {c}_final_exponentiation_first_chunk" [] ++
  block s!"Call to {c}_final_exponentiation_last_chunk" []

/-- The affine pairing of mnt4 and mnt6 (no block of its own), mnt4_pairing.cpp:229-388, 733-741, mnt6_pairing.cpp:234-394,
745-753. -/
def affineFunctions (c : String) : List (String × List Mark) :=
  let g1 := block s!"Call to {c}_affine_ate_precompute_G1" []
  let g2 := block s!"Call to {c}_affine_ate_precompute_G2" []
  let ml := block s!"Call to {c}_affine_ate_miller_loop" []
  [(s!"{c}_affine_ate_precompute_G1", g1), (s!"{c}_affine_ate_precompute_G2", g2), (s!"{c}_affine_ate_miller_loop", ml),
    (s!"{c}_affine_reduced_pairing", g1 ++ g2 ++ ml ++ block s!"Call to {c}_final_exponentiation" (chunkFe c))]

/-- `edwards_tate_pairing`, edwards_pairing.cpp:221-231, 348-441. -/
def edwardsTate : List Mark :=
  block "Call to edwards_tate_pairing" (block "Call to edwards_tate_precompute_G1" [] ++
    block "Call to edwards_tate_precompute_G2" [] ++ block "Call to edwards_tate_miller_loop" [])

/-- `edwards_tate_reduced_pairing`, edwards_pairing.cpp:443-450, with the two names as they are in the text. -/
def edwardsTateReduced : List Mark :=
  Mark.enter "Call to edwards_tate_reduced_pairing" ::
    (edwardsTate ++ block "Call to edwards_final_exponentiation" (chunkFe "edwards") ++
      [Mark.leave "Call to edwards_tate_reduce_pairing"])

/-- bn128_pairing.cpp:166-218, bn128_pp.cpp:32-73. -/
def bn128Functions : List (String × List Mark) :=
  let fin := block "Call to bn128_final_exponentiation" []
  let g1 := block "Call to bn128_ate_precompute_G1" []
  let g2 := block "Call to bn128_ate_precompute_G2" []
  let ml := block "Call to miller_loop<bn128_pp>" []
  let dml := block "Call to double_miller_loop<bn128_pp>" []
  let pr := block "Call to pairing<bn128_pp>" (g1 ++ g2 ++ ml)
  [("bn128_final_exponentiation", fin), ("bn128_precompute_G1", g1), ("bn128_precompute_G2", g2), ("bn128_miller_loop", ml),
    ("bn128_double_miller_loop", dml), ("bn128_pairing", pr),
    ("bn128_reduced_pairing", block "Call to reduced_pairing<bn128_pp>" (pr ++ fin))]

/-- All functions of the library that enter blocks, but for `edwards_tate_reduced_pairing`. -/
def libraryFunctions : List (String × List Mark) :=
  ateFunctions "alt_bn128" altBn128Fe ++ ateFunctions "bls12_381" bls12381Fe ++ ateFunctions "mnt4" (chunkFe "mnt4") ++
  ateFunctions "mnt6" (chunkFe "mnt6") ++ ateFunctions "edwards" (chunkFe "edwards") ++ affineFunctions "mnt4" ++
  affineFunctions "mnt6" ++ bn128Functions ++
  [("edwards_tate_precompute_G1", block "Call to edwards_tate_precompute_G1" []),
    ("edwards_tate_precompute_G2", block "Call to edwards_tate_precompute_G2" []),
    ("edwards_tate_miller_loop", block "Call to edwards_tate_miller_loop" []),
    ("edwards_tate_pairing", edwardsTate),
    -- multiexp.tcc:440-502; `multi_exp` itself enters no block
    ("multi_exp_with_mixed_addition", block "Process scalar vector" []),
    -- multiexp.tcc:689-721
    ("batch_to_special", block "Batch-convert elements to special form" [])]

end Libff.Prof
