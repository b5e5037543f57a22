import Verif.Model.Group
import Verif.Model.Multiexp
import Verif.Model.FieldUtils
import Verif.Model.Counters
import Verif.Model.Curve

/-!
# The generic algorithms with every call of a group or field operation recorded

The same loops as in `Model/Group.lean`, `Model/Multiexp.lean` and `Model/FieldUtils.lean`, with a record of how often `operator+` or
`operator-` and `dbl()` of the group class have been called.  The group operations can only be reached through `Run.add`, `Run.sub` and
`Run.dbl`.
-/
namespace Libff

/-- How often `+` or `-`, and `dbl`, have been called. -/
@[ext] structure Calls where
  add : Nat
  dbl : Nat
  deriving DecidableEq

/-- Both counts grow. -/
instance Calls.instAdd : Add Calls := ⟨fun a b => ⟨a.add + b.add, a.dbl + b.dbl⟩⟩

/-- A computation that calls group operations and may fail. -/
def Run (α : Type) := Calls → Outcome (α × Calls)

namespace Run

instance instMonad : Monad Run where
  pure a := fun s => .ok (a, s)
  bind x f := fun s => (x s).bind fun r => f r.1 r.2

/-- A step without calls. -/
def lift {α : Type} (o : Outcome α) : Run α := fun s => o.map (·, s)

variable {G : Type} [GroupOps G]

/-- `p + q`. -/
def add (p q : G) : Run G := fun s => .ok (GroupOps.add p q, s + ⟨1, 0⟩)

/-- `p - q`. -/
def sub (p q : G) : Run G := fun s => .ok (GroupOps.sub p q, s + ⟨1, 0⟩)

/-- `p.dbl()`. -/
def dbl (p : G) : Run G := fun s => .ok (GroupOps.dbl p, s + ⟨0, 1⟩)

/-- `if (b) p = p.dbl()`. -/
def dblIf (b : Bool) (p : G) : Run G := if b then dbl p else pure p

/-- `p + q` if `p` holds a value already, else `q`. -/
def addTo (p : G × Bool) (q : G) : Run G := if p.2 then add p.1 q else pure q

/-! ## Scalar multiplication -/

/-- The loop of `scalar_mul`, curve_utils.tcc:19-32. -/
def scalarMulLoop (base : G) (e : List Limb) : Nat → Bool × G → Run G
  | 0, st => pure st.2
  | i + 1, (found, result) => do
    let result ← dblIf found result
    if testBit e i then
      let result ← add result base
      scalarMulLoop base e i (true, result)
    else scalarMulLoop base e i (found, result)

/-- `scalar_mul(base, scalar)`, curve_utils.tcc:14-35. -/
def scalarMul (base : G) (e : List Limb) : Run G := scalarMulLoop base e (bigintMaxBits e) (false, GroupOps.zero)

/-- The table of odd multiples, wnaf.tcc:65-69. -/
def oddTable : Nat → G → G → Run (List G)
  | 0, _, _ => pure []
  | k + 1, tmp, d => do
    let tmp' ← add tmp d
    let rest ← oddTable k tmp' d
    pure (tmp :: rest)

/-- The main loop of `fixed_window_wnaf_exp`, wnaf.tcc:71-93. -/
def wnafExpLoop (table : List G) : List Int → Bool × G → Run G
  | [], st => pure st.2
  | d :: rest, (found, res) => do
    let res ← dblIf found res
    if d ≠ 0 then
      if d > 0 then
        match table[(d / 2).toNat]? with
        | some t =>
          let res ← add res t
          wnafExpLoop table rest (true, res)
        | none => lift .ub
      else
        match table[((-d) / 2).toNat]? with
        | some t =>
          let res ← sub res t
          wnafExpLoop table rest (true, res)
        | none => lift .ub
    else wnafExpLoop table rest (found, res)

/-- `fixed_window_wnaf_exp(window_size, base, scalar)`, wnaf.tcc:58-96. -/
def fixedWindowWnafExp (w : Nat) (base : G) (scalar : List Limb) : Run G :=
  if w = 0 then lift .ub
  else do
    let naf ← lift (findWnaf w scalar)
    let d ← dbl base
    let table ← oddTable (2 ^ (w - 1)) base d
    wnafExpLoop table naf.reverse (false, GroupOps.zero)

/-- `opt_window_wnaf_exp(base, scalar, scalar_bits)`, wnaf.tcc:98-119. -/
def optWindowWnafExp (table : List Nat) (base : G) (scalar : List Limb) (bits : Nat) : Run G :=
  let best := bestWindow bits table.reverse
  if best > 0 then fixedWindowWnafExp best base scalar else scalarMul base scalar

/-! ## Fixed-base windows -/

/-- One row of the table, multiexp.tcc:574-580. -/
def windowRow (gouter : G) : Nat → G → Run (List G)
  | 0, _ => pure []
  | k + 1, ginner => do
    let next ← add ginner gouter
    let rest ← windowRow gouter k next
    pure (ginner :: rest)

/-- `gouter = gouter + gouter` a number of times, multiexp.tcc:582-585. -/
def selfAdd : Nat → G → Run G
  | 0, g => pure g
  | k + 1, g => do
    let g' ← selfAdd k g
    add g' g'

/-- The outer loop, multiexp.tcc:572-586. -/
def windowRows (window inWindow lastInWindow : Nat) : Nat → G → Run (List (List G))
  | 0, _ => pure []
  | k + 1, gouter => do
    let count := if k = 0 then lastInWindow else inWindow
    let row ← windowRow gouter count GroupOps.zero
    let gouter ← selfAdd window gouter
    let rows ← windowRows window inWindow lastInWindow k gouter
    pure ((row ++ List.replicate (inWindow - count) GroupOps.zero) :: rows)

/-- `get_window_table(scalar_size, window, g)`, multiexp.tcc:553-589. -/
def getWindowTable (scalarSize window : Nat) (g : G) : Run (List (List G)) :=
  if window = 0 ∨ 64 ≤ window then lift .ub
  else
    let inWindow := 2 ^ window
    let outerc := (scalarSize + window - 1) / window
    let lastInWindow := 2 ^ (scalarSize - (outerc - 1) * window)
    windowRows window inWindow lastInWindow outerc g

/-- The loop of `windowed_exp`, multiexp.tcc:603-615. -/
def windowedLoop (window : Nat) (e : List Limb) : List (List G) → Nat → G → Run G
  | [], _, res => pure res
  | row :: rows, outer, res =>
    match row[windowId e (outer * window) window]? with
    | none => lift .ub
    | some t => do
      let res ← add res t
      windowedLoop window e rows (outer + 1) res

/-- `windowed_exp(scalar_size, window, powers_of_g, pow)`, multiexp.tcc:591-618. -/
def windowedExp (scalarSize window : Nat) (table : List (List G)) (e : List Limb) : Run G :=
  if window = 0 ∨ 32 < window then lift .ub
  else
    let outerc := (scalarSize + window - 1) / window
    if table.length < outerc then lift .ub
    else
      match table with
      | (t00 :: _) :: _ => windowedLoop window e (table.take outerc) 0 t00
      | _ => lift .ub

/-- The (possibly parallel) loop of `batch_exp`, multiexp.tcc:632-644 and 667-679, executed in the given order. -/
def runBatch {S : Type} (toB : S → List Limb) (scalarSize window : Nat) (table : List (List G)) (scalar : Nat → Option S) :
    List Nat → List G → Run (List G)
  | [], res => pure res
  | i :: is, res =>
    match scalar i with
    | none => lift .ub
    | some s => do
      let t ← windowedExp scalarSize window table (toB s)
      runBatch toB scalarSize window table scalar is (res.set i t)

/-- `batch_exp`, multiexp.tcc:620-652. -/
def batchExp {S : Type} (toB : S → List Limb) (scalarSize window : Nat) (table : List (List G)) (order : List Nat) (v : List S) :
    Run (List G) :=
  match table with
  | (t00 :: _) :: _ => runBatch toB scalarSize window table (fun i => v[i]?) order (List.replicate v.length t00)
  | _ => lift .ub

/-- `batch_exp_with_coeff`, multiexp.tcc:654-687. -/
def batchExpWithCoeff {S : Type} [Mul S] (toB : S → List Limb) (scalarSize window : Nat) (table : List (List G)) (order : List Nat)
    (coeff : S) (v : List S) : Run (List G) :=
  match table with
  | (t00 :: _) :: _ =>
    runBatch toB scalarSize window table (fun i => v[i]?.map (coeff * ·)) order (List.replicate v.length t00)
  | _ => lift .ub

/-! ## Multi-exponentiation -/

/-- The common loop of the two naive methods, multiexp.tcc:118-161. -/
def naiveLoop {S : Type} (debug : Bool) (exp : S → G → Run G) : List G → List S → G → Run G
  | [], [], result => pure result
  | [], _ :: _, result => if debug then lift .abort else pure result
  | _ :: _, [], _ => lift .ub
  | g :: gs, s :: ss, result => do
    let t ← exp s g
    let result ← add result t
    naiveLoop debug exp gs ss result

/-- `multi_exp_inner` with `multi_exp_method_naive`, multiexp.tcc:118-139. -/
def multiExpNaive {S : Type} (toB : S → List Limb) (debug : Bool) (table : List Nat) (bases : List G) (scalars : List S) : Run G :=
  naiveLoop debug (fun s g => optWindowWnafExp table g (toB s) (bigintNumBits (toB s))) bases scalars GroupOps.zero

/-- `multi_exp_inner` with `multi_exp_method_naive_plain`, multiexp.tcc:141-161. -/
def multiExpPlain {S : Type} (toB : S → List Limb) (debug : Bool) (bases : List G) (scalars : List S) : Run G :=
  naiveLoop debug (fun s g => scalarMul g (toB s)) bases scalars GroupOps.zero

/-- The bucket loop of BDLO12, multiexp.tcc:207-236 (USE_MIXED_ADDITION not defined). -/
def fillBuckets (c k : Nat) : List G → List (List Limb) → List (G × Bool) → Run (List (G × Bool))
  | [], _, buckets => pure buckets
  | _ :: _, [], _ => lift .ub
  | g :: gs, e :: es, buckets =>
    let id := windowId e (k * c) c
    if id = 0 then fillBuckets c k gs es buckets
    else
      match buckets[id]? with
      | none => lift .ub
      | some b => do
        let t ← addTo b g
        fillBuckets c k gs es (buckets.set id (t, true))

/-- Adding the value of a variable that may not hold one yet to another such variable, multiexp.tcc:247-262 and 264-275. -/
def accumulate (sum b : G × Bool) : Run (G × Bool) :=
  if b.2 then (do
    let r ← addTo sum b.1
    pure (r, true))
  else pure sum

/-- The summation loop of BDLO12, multiexp.tcc:245-276. -/
def sumBuckets : List (G × Bool) → G × Bool → G × Bool → Run (G × Bool)
  | [], _, result => pure result
  | b :: rest, running, result => do
    let running ← accumulate running b
    let result ← accumulate result running
    sumBuckets rest running result

/-- `n` doublings, multiexp.tcc:198-201. -/
def dblN : Nat → G → Run G
  | 0, g => pure g
  | n + 1, g => do
    let g ← dbl g
    dblN n g

/-- The loop over groups, multiexp.tcc:194-277. -/
def bdloLoop (c : Nat) (bases : List G) (exps : List (List Limb)) : Nat → G × Bool → Run G
  | 0, result => pure result.1
  | k + 1, result => do
    let r ← dblN (if result.2 then c else 0) result.1
    let buckets ← fillBuckets c k bases exps (List.replicate (2 ^ c) (GroupOps.zero, false))
    let result ← sumBuckets buckets.tail.reverse (GroupOps.zero, false) (r, result.2)
    bdloLoop c bases exps k result

/-- `multi_exp_inner` with `multi_exp_method_BDLO12`, multiexp.tcc:163-280. -/
def multiExpBdlo {S : Type} (toB : S → List Limb) (bases : List G) (scalars : List S) : Run G :=
  let c := bdloC bases.length
  if scalars.length < bases.length then lift .ub
  else
    let exps := (scalars.take bases.length).map toB
    let numBits := exps.foldl (fun m e => max m (bigintNumBits e)) 0
    let numGroups := (numBits + c - 1) / c
    if c ≥ 31 ∧ numGroups ≠ 0 then lift .ub
    else bdloLoop c bases exps numGroups (GroupOps.zero, false)

/-- The main loop of Bos-Coster, multiexp.tcc:331-395. `none` if the fuel runs out. -/
def bosLoop {m : Nat} (table : List Nat) : Nat → (Fin (m + 3) → OrderedExponent) → (Nat → G) → G → Run (Option G)
  | 0, _, _, _ => pure none
  | fuel + 1, q, g, result =>
    let a := q 0
    let bpos : Fin (m + 3) := if (q 1).lt (q 2) then 2 else 1
    let b := q bpos
    let abits := bigintNumBits a.r
    if limbsIsZero b.r then do
      let t ← optWindowWnafExp table (g a.idx) a.r abits
      let result ← add result t
      pure (some result)
    else
      let bbits := bigintNumBits b.r
      if bbits < 2 ^ bosLimit abits bbits then do
        let t ← optWindowWnafExp table (g a.idx) a.r abits
        let result ← add result t
        let q := Function.update q 0 ⟨a.idx, List.replicate a.r.length 0⟩
        let d := siftDown q 0
        bosLoop table fuel (siftUp d.1 d.2) g result
      else do
        let q := Function.update q 0 ⟨a.idx, (mpn_sub_n a.r b.r).1⟩
        let s ← add (g b.idx) (g a.idx)
        let g := Function.update g b.idx s
        let d := siftDown q 0
        bosLoop table fuel (siftUp d.1 d.2) g result

/-- `multi_exp_inner` with `multi_exp_method_bos_coster`, multiexp.tcc:282-398, on two vectors of the same length. -/
def multiExpBosCoster {S : Type} (toB : S → List Limb) (table : List Nat) (n : Nat)
    (mkHeap : List OrderedExponent → List OrderedExponent) (fuel : Nat) (bases : List G) (scalars : List S) : Run (Option G) :=
  match bases, scalars with
  | [], _ => pure (some GroupOps.zero)
  | [_], [] => lift .ub
  | [g], s :: _ => do
    let r ← scalarMul g (toB s)
    pure (some r)
  | bases, scalars =>
    if bases.length ≠ scalars.length then lift .ub
    else
      let q := mkHeap ((scalars.map toB).zipIdx.map fun (r, i) => ⟨i, r⟩)
      let q := if bases.length % 2 = 1 then q else q ++ [⟨bases.length, List.replicate n 0⟩]
      let g : Nat → G := fun i => bases.getD i GroupOps.zero
      match q with
      | q0 :: q1 :: q2 :: rest =>
        bosLoop table fuel (fun i : Fin (rest.length + 3) => (q0 :: q1 :: q2 :: rest).get i) g GroupOps.zero
      | _ => lift .ub

/-- The (possibly parallel) loop of `multi_exp`, multiexp.tcc:419-429, executed in the given order. -/
def runChunks {S : Type} (inner : List G → List S → Run G) (bases : List G) (scalars : List S) (one chunks : Nat) :
    List Nat → List G → Run (List G)
  | [], part => pure part
  | i :: is, part => do
    let t ← inner (chunkOf bases one chunks i) (chunkOf scalars one chunks i)
    runChunks inner bases scalars one chunks is (part.set i t)

/-- Adding the results of the chunks, multiexp.tcc:431-436. -/
def addAll : List G → G → Run G
  | [], acc => pure acc
  | p :: ps, acc => do
    let acc ← add acc p
    addAll ps acc

/-- `multi_exp<T, FieldT, Method>`, multiexp.tcc:400-439. -/
def multiExp {S : Type} (inner : List G → List S → Run G) (order : List Nat) (bases : List G) (scalars : List S) (chunks : Nat) : Run G :=
  if bases.length < chunks ∨ chunks = 1 then inner bases scalars
  else if chunks = 0 then lift .ub
  else do
    let part ← runChunks inner bases scalars (bases.length / chunks) chunks order (List.replicate chunks GroupOps.zero)
    addAll part GroupOps.zero

end Run

/-! ## Batch inversion and batch normalisation

Here the counters of the field class are used (`CField`, Model/Counters.lean), as they are compiled in with PROFILE_OP_COUNTS. -/

section
variable {C K : Type} [Zero K] [One K] [DecidableEq K]

/-- The first loop of `batch_invert`, field_utils.tcc:242-247. -/
def batchProductsC (F : CField C K) (debug : Bool) : List K → K → CM C (List K × K)
  | [], acc => pure ([], acc)
  | el :: els, acc =>
    if debug ∧ el = 0 then CM.lift .abort
    else do
      let acc' ← F.mul acc el
      let r ← batchProductsC F debug els acc'
      pure (acc :: r.1, r.2)

/-- The second loop, field_utils.tcc:251-256. -/
def batchBackC (F : CField C K) : List (K × K) → K → CM C (List K)
  | [], _ => pure []
  | (el, p) :: rest, accInv => do
    let v ← F.mul accInv p
    let accInv ← F.mul accInv el
    let r ← batchBackC F rest accInv
    pure (v :: r)

/-- `batch_invert(vec)`, field_utils.tcc:234-257. -/
def batchInvertC (F : CField C K) (debug : Bool) (vec : List K) : CM C (List K) := do
  let r ← batchProductsC F debug vec 1
  let accInv ← F.inverse r.2
  let v ← batchBackC F (vec.zip r.1).reverse accInv
  pure v.reverse

variable (F : CField C K)

/-- The second loop of `batch_to_special_all_non_zeros`, alt_bn128_g1.cpp:475-483. -/
def Jac.scaleAllC : List (Coord3 K) → List K → CM C (List (Coord3 K))
  | p :: ps, zi :: zs => do
    let Z2 ← F.squared zi
    let Z3 ← F.mul zi Z2
    let X ← F.mul p.X Z2
    let Y ← F.mul p.Y Z3
    let rest ← Jac.scaleAllC ps zs
    pure (⟨X, Y, 1⟩ :: rest)
  | _, _ => pure []

/-- `batch_to_special_all_non_zeros`, alt_bn128_g1.cpp:462-484. -/
def Jac.batchToSpecialNZC (debug : Bool) (vec : List (Coord3 K)) : CM C (List (Coord3 K)) := do
  let zs ← batchInvertC F debug (vec.map (·.Z))
  Jac.scaleAllC F vec zs

/-- The second loop of `batch_to_special_all_non_zeros`, mnt4_g1.cpp:505-510. -/
def Proj.scaleAllC : List (Coord3 K) → List K → CM C (List (Coord3 K))
  | p :: ps, zi :: zs => do
    let X ← F.mul p.X zi
    let Y ← F.mul p.Y zi
    let rest ← Proj.scaleAllC ps zs
    pure (⟨X, Y, 1⟩ :: rest)
  | _, _ => pure []

/-- `batch_to_special_all_non_zeros`, mnt4_g1.cpp:492-511. -/
def Proj.batchToSpecialNZC (debug : Bool) (vec : List (Coord3 K)) : CM C (List (Coord3 K)) := do
  let zs ← batchInvertC F debug (vec.map (·.Z))
  Proj.scaleAllC F vec zs

end
end Libff
