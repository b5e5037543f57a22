import Verif.Model.Group
import Verif.Model.Utils
import Mathlib.Data.Fin.VecNotation

/-!
# Multi-exponentiation (libff/algebra/scalar_multiplication/multiexp.tcc)

Vectors are lists. `toB` is the member function `as_bigint` of the scalar class `S`. `debug` tells whether
`assert` is active (`NDEBUG` not defined).
-/
namespace Libff

section
variable {G S : Type*} [GroupOps G] (toB : S → List Limb)
open GroupOps

/-! ## The naive methods -/

/-- `multi_exp_inner<…, multi_exp_method_naive>` (multiexp.tcc:118-139) with `exp = opt_window_wnaf_exp`, and
`multi_exp_method_naive_plain` (multiexp.tcc:141-161) with `exp` = `operator*`: the common loop.  Running
out of scalars reads past the end; scalars left over fail the assertion. -/
def naiveLoop (debug : Bool) (exp : S → G → Outcome G) : List G → List S → G → Outcome G
  | [], [], result => .ok result
  | [], _ :: _, result => if debug then .abort else .ok result
  | _ :: _, [], _ => .ub
  | g :: gs, s :: ss, result => (exp s g).bind fun t => naiveLoop debug exp gs ss (add result t)

/-- `multi_exp_inner` with `multi_exp_method_naive`, multiexp.tcc:118-139; `table` is
`T::wnaf_window_table`. -/
def multiExpNaive (debug : Bool) (table : List Nat) (bases : List G) (scalars : List S) : Outcome G :=
  naiveLoop debug (fun s g => optWindowWnafExp table g (toB s) (bigintNumBits (toB s))) bases scalars zero

/-- `multi_exp_inner` with `multi_exp_method_naive_plain`, multiexp.tcc:141-161. -/
def multiExpPlain (debug : Bool) (bases : List G) (scalars : List S) : Outcome G :=
  naiveLoop debug (fun s g => .ok (scalarMul g (toB s))) bases scalars zero

/-! ## BDLO12 -/

/-- `operator+` as the addition of the bucket loops (USE_MIXED_ADDITION not defined). -/
def plainAdd (a b : G) : Outcome G := .ok (add a b)

/-- The bits of one window, multiexp.tcc:209-216: `id |= 1 << j` for every set bit `k*c+j`, `j < c`. -/
def windowId (e : List Limb) (base : Nat) : Nat → Nat
  | 0 => 0
  | j + 1 => if testBit e (base + j) then windowId e base j ||| 2 ^ j else windowId e base j

/-- The bucket loop, multiexp.tcc:207-236. `buckets` holds the pairs (`buckets[i]`, `bucket_nonzero[i]`);
`addB` is `mixed_add` (which may fail its debug assertion) if USE_MIXED_ADDITION is defined, `operator+`
otherwise. -/
def fillBuckets (addB : G → G → Outcome G) (c k : Nat) :
    List G → List (List Limb) → List (G × Bool) → Outcome (List (G × Bool))
  | [], _, buckets => .ok buckets
  | _ :: _, [], _ => .ub
  | g :: gs, e :: es, buckets =>
    let id := windowId e (k * c) c
    if id = 0 then fillBuckets addB c k gs es buckets
    else
      match buckets[id]? with
      | none => .ub
      | some (b, nonzero) =>
        (if nonzero then addB b g else .ok g).bind fun t => fillBuckets addB c k gs es (buckets.set id (t, true))

/-- The summation loop, multiexp.tcc:245-276, over the buckets from the last one down to number 1. The state
is (`running_sum`, `running_sum_nonzero`), (`result`, `result_nonzero`). -/
def sumBuckets (addB : G → G → Outcome G) : List (G × Bool) → G × Bool → G × Bool → Outcome (G × Bool)
  | [], _, result => .ok result
  | (b, nonzero) :: rest, running, result =>
    (if nonzero then (if running.2 then addB running.1 b else .ok b).map (·, true) else .ok running).bind fun running =>
    let result := if running.2 then (if result.2 then add result.1 running.1 else running.1, true) else result
    sumBuckets addB rest running result

/-- `n` doublings, multiexp.tcc:198-201. -/
def dblN : Nat → G → G
  | 0, g => g
  | n + 1, g => dblN n (dbl g)

/-- The loop over groups, multiexp.tcc:194-277; the first argument counts the remaining groups, so the group
number is one less. `norm` is `batch_to_special` if USE_MIXED_ADDITION is defined and does nothing otherwise. -/
def bdloLoop (addB : G → G → Outcome G) (norm : List G → Outcome (List G)) (c : Nat) (bases : List G)
    (exps : List (List Limb)) : Nat → G × Bool → Outcome G
  | 0, result => .ok result.1
  | k + 1, result =>
    let result := if result.2 then (dblN c result.1, true) else result
    (fillBuckets addB c k bases exps (List.replicate (2 ^ c) (zero, false))).bind fun buckets =>
    (norm (buckets.map Prod.fst)).bind fun points =>
    let buckets := points.zip (buckets.map Prod.snd)
    (sumBuckets addB buckets.tail.reverse (zero, false) result).bind fun result =>
    bdloLoop addB norm c bases exps k result

/-- The choice of `c`, multiexp.tcc:175-176: `c = log2_length - (log2_length / 3 - 2)` in `size_t`. -/
def bdloC (length : Nat) : Nat :=
  let l := BitVec.ofNat 64 (log2 (BitVec.ofNat 64 length))
  (l - (l / 3 - 2)).toNat

/-- `multi_exp_inner` with `multi_exp_method_BDLO12`, multiexp.tcc:163-280. `1 << c` is undefined for
`c ≥ 31`; reading missing exponents is undefined. A default-constructed point is zero. -/
def multiExpBdlo (addB : G → G → Outcome G) (norm : List G → Outcome (List G)) (bases : List G)
    (scalars : List S) : Outcome G :=
  let c := bdloC bases.length
  if scalars.length < bases.length then .ub
  else
    let exps := (scalars.take bases.length).map toB
    let numBits := exps.foldl (fun m e => max m (bigintNumBits e)) 0
    let numGroups := (numBits + c - 1) / c
    if c ≥ 31 ∧ numGroups ≠ 0 then .ub
    else bdloLoop addB norm c bases exps numGroups (zero, false)

end

/-! ## Bos–Coster -/

/-- `ordered_exponent`, multiexp.tcc:28-36. -/
structure OrderedExponent where
  idx : Nat
  r : List Limb

/-- `ordered_exponent::operator<`, multiexp.tcc:37-102 (the portable branch). -/
def OrderedExponent.lt (a b : OrderedExponent) : Bool := mpn_cmp a.r b.r == .lt

/-- `std::swap(q[i], q[j])`. Arrays of `m` entries are functions on `Fin m`: every access in the model is in
range by its type. -/
def swapF {m : Nat} {α : Type*} (q : Fin m → α) (i j : Fin m) : Fin m → α := fun k =>
  if k = i then q j else if k = j then q i else q k

/-- "heapify A down", multiexp.tcc:372-387. -/
def siftDown {m : Nat} (q : Fin m → OrderedExponent) (a : Fin m) : (Fin m → OrderedExponent) × Fin m :=
  if h : 2 * a.val + 2 < m then
    let l : Fin m := ⟨2 * a.val + 1, by omega⟩
    let r : Fin m := ⟨2 * a.val + 2, h⟩
    if (q l).lt (q r) then siftDown (swapF q a r) r
    else siftDown (swapF q a l) l
  else (q, a)
termination_by m - a.val
decreasing_by all_goals (have := a.isLt; omega)

/-- "heapify A up", multiexp.tcc:389-394. -/
def siftUp {m : Nat} (q : Fin m → OrderedExponent) (a : Fin m) : Fin m → OrderedExponent :=
  if h : a.val > 0 then
    let p : Fin m := ⟨(a.val - 1) / 2, by have := a.isLt; omega⟩
    if (q p).lt (q a) then siftUp (swapF q a p) p else q
  else q
termination_by a.val
decreasing_by omega

section
variable {G S : Type*} [GroupOps G] (toB : S → List Limb)
open GroupOps

/-- `abits - bbits` in `size_t`, capped at 20, multiexp.tcc:346. -/
def bosLimit (abits bbits : Nat) : Nat :=
  let d := (BitVec.ofNat 64 abits - BitVec.ofNat 64 bbits).toNat
  if d ≥ 20 then 20 else d

/-- The main loop, multiexp.tcc:331-395, on `m + 3` entries. `none` if the fuel runs out. -/
def bosLoop {m : Nat} (table : List Nat) :
    Nat → (Fin (m + 3) → OrderedExponent) → (Nat → G) → G → Outcome (Option G)
  | 0, _, _, _ => .ok none
  | fuel + 1, q, g, result =>
    let a := q 0
    let bpos : Fin (m + 3) := if (q 1).lt (q 2) then 2 else 1
    let b := q bpos
    let abits := bigintNumBits a.r
    if limbsIsZero b.r then
      (optWindowWnafExp table (g a.idx) a.r abits).map fun t => some (add result t)
    else
      let bbits := bigintNumBits b.r
      if bbits < 2 ^ bosLimit abits bbits then
        (optWindowWnafExp table (g a.idx) a.r abits).bind fun t =>
          let result := add result t
          let q := Function.update q 0 ⟨a.idx, List.replicate a.r.length 0⟩
          let d := siftDown q 0
          bosLoop table fuel (siftUp d.1 d.2) g result
      else
        let q := Function.update q 0 ⟨a.idx, (mpn_sub_n a.r b.r).1⟩
        let g := Function.update g b.idx (add (g b.idx) (g a.idx))
        let d := siftDown q 0
        bosLoop table fuel (siftUp d.1 d.2) g result

/-- `multi_exp_inner` with `multi_exp_method_bos_coster`, multiexp.tcc:282-398, on two vectors of the same
length. `mkHeap` is `std::make_heap`, of which only the contract of the standard library is assumed in the
theorems; `n` is `num_limbs`. -/
def multiExpBosCoster (table : List Nat) (n : Nat) (mkHeap : List OrderedExponent → List OrderedExponent)
    (fuel : Nat) (bases : List G) (scalars : List S) : Outcome (Option G) :=
  match bases, scalars with
  | [], _ => .ok (some zero)
  | [_], [] => .ub
  | [g], s :: _ => .ok (some (scalarMul g (toB s)))
  | bases, scalars =>
    if bases.length ≠ scalars.length then .ub
    else
      let q := mkHeap ((scalars.map toB).zipIdx.map fun (r, i) => ⟨i, r⟩)
      let q := if bases.length % 2 = 1 then q else q ++ [⟨bases.length, List.replicate n 0⟩]
      let g : Nat → G := fun i => bases.getD i zero
      match q with
      | q0 :: q1 :: q2 :: rest =>
        bosLoop table fuel (fun i : Fin (rest.length + 3) => (q0 :: q1 :: q2 :: rest).get i) g zero
      | _ => .ub

/-! ## Chunks -/

/-- The part of a vector chunk `i` works on, multiexp.tcc:424-428. -/
def chunkOf {α : Type*} (v : List α) (one chunks i : Nat) : List α :=
  if i = chunks - 1 then v.drop (i * one) else (v.drop (i * one)).take one

/-- The (possibly parallel) loop, multiexp.tcc:419-429: the iterations are executed in the order given by
the list; each writes its own entry of `partial`. -/
def runChunks (inner : List G → List S → Outcome G) (bases : List G) (scalars : List S)
    (one chunks : Nat) : List Nat → List G → Outcome (List G)
  | [], part => .ok part
  | i :: is, part =>
    (inner (chunkOf bases one chunks i) (chunkOf scalars one chunks i)).bind fun t =>
      runChunks inner bases scalars one chunks is (part.set i t)

/-- `multi_exp<T, FieldT, Method>`, multiexp.tcc:400-439; `order` is the order in which the iterations of
the parallel loop are executed (`List.range chunks` when MULTICORE is not defined). Division by zero is
undefined. -/
def multiExp (inner : List G → List S → Outcome G) (order : List Nat) (bases : List G)
    (scalars : List S) (chunks : Nat) : Outcome G :=
  let total := bases.length
  if total < chunks ∨ chunks = 1 then inner bases scalars
  else if chunks = 0 then .ub
  else
    let one := total / chunks
    (runChunks inner bases scalars one chunks order (List.replicate chunks zero)).map fun part =>
      part.foldl add zero

/-- The classification loop of `multi_exp_with_mixed_addition`, multiexp.tcc:468-490: the accumulator and
the bases and scalars left. -/
def classify [Zero S] [One S] [DecidableEq S] (addB : G → G → Outcome G) :
    List G → List S → G × List G × List S → Outcome (G × List G × List S)
  | _, [], st => .ok st
  | [], _ :: _, _ => .ub
  | g :: gs, s :: ss, (acc, bs, ps) =>
    if s = 0 then classify addB gs ss (acc, bs, ps)
    else if s = 1 then (addB acc g).bind fun acc => classify addB gs ss (acc, bs, ps)
    else classify addB gs ss (acc, bs ++ [g], ps ++ [s])

/-- `multi_exp_with_mixed_addition`, multiexp.tcc:441-502. -/
def multiExpMixed [Zero S] [One S] [DecidableEq S] (debug : Bool) (addB : G → G → Outcome G)
    (inner : List G → List S → Outcome G) (order : List Nat) (bases : List G) (scalars : List S)
    (chunks : Nat) : Outcome G :=
  if debug ∧ bases.length ≠ scalars.length then .abort
  else
    (classify addB bases scalars (zero, [], [])).bind fun (acc, bs, ps) =>
      (multiExp inner order bs ps chunks).map fun t => add acc t

/-- `inner_product`, multiexp.tcc:504-513: the plain method with the field multiplication. -/
def innerProduct {K : Type*} [Zero K] [Add K] [Mul K] (debug : Bool) : List K → List K → K → Outcome K
  | [], [], r => .ok r
  | [], _ :: _, r => if debug then .abort else .ok r
  | _ :: _, [], _ => .ub
  | a :: as, b :: bs, r => innerProduct debug as bs (r + b * a)

/-! ## Fixed-base windows -/

/-- The window search, multiexp.tcc:526-540, on the table from the end. -/
def expWindowLoop (numScalars : Nat) : List Nat → Nat
  | [] => 1
  | t :: rest => if t ≠ 0 ∧ numScalars ≥ t then rest.length + 1 else expWindowLoop numScalars rest

/-- `get_exp_window_size`, multiexp.tcc:515-551. -/
def getExpWindowSize (lowmem : Bool) (table : List Nat) (numScalars : Nat) : Nat :=
  if table = [] then (if lowmem then 14 else 17)
  else
    let w := expWindowLoop numScalars table.reverse
    if lowmem then min 14 w else w

/-- One row of the table, multiexp.tcc:574-580: `count` multiples, then zeros. -/
def windowRow (gouter : G) : Nat → G → List G
  | 0, _ => []
  | k + 1, ginner => ginner :: windowRow gouter k (add ginner gouter)

/-- The outer loop, multiexp.tcc:572-586. The first argument counts the remaining rows. -/
def windowRows (window inWindow lastInWindow : Nat) : Nat → G → List (List G)
  | 0, _ => []
  | k + 1, gouter =>
    let count := if k = 0 then lastInWindow else inWindow
    (windowRow gouter count zero ++ List.replicate (inWindow - count) zero) ::
      windowRows window inWindow lastInWindow k (Nat.repeat (fun g => add g g) window gouter)

/-- `get_window_table(scalar_size, window, g)`, multiexp.tcc:553-589. Undefined for window 0 (division) and
for windows of 64 or more (shift). For scalar size 0 the `size_t` expression
`scalar_size - (outerc-1)*window` wraps around to `window`; the table is empty. -/
def getWindowTable (scalarSize window : Nat) (g : G) : Outcome (List (List G)) :=
  if window = 0 ∨ 64 ≤ window then .ub
  else
    let inWindow := 2 ^ window
    let outerc := (scalarSize + window - 1) / window
    let lastInWindow := 2 ^ (scalarSize - (outerc - 1) * window)
    .ok (windowRows window inWindow lastInWindow outerc g)

/-- The loop of `windowed_exp`, multiexp.tcc:603-615, over the rows from `outer` on. -/
def windowedLoop (window : Nat) (e : List Limb) : List (List G) → Nat → G → Outcome G
  | [], _, res => .ok res
  | row :: rows, outer, res =>
    match row[windowId e (outer * window) window]? with
    | none => .ub
    | some t => windowedLoop window e rows (outer + 1) (add res t)

/-- `windowed_exp(scalar_size, window, powers_of_g, pow)`, multiexp.tcc:591-618. `1u << i` is undefined for
windows over 32 (we do not look whether bit 32 or higher of a window is set). The table must have at least
`outerc` rows. -/
def windowedExp (scalarSize window : Nat) (table : List (List G)) (e : List Limb) : Outcome G :=
  if window = 0 ∨ 32 < window then .ub
  else
    let outerc := (scalarSize + window - 1) / window
    if table.length < outerc then .ub
    else
      match table with
      | (t00 :: _) :: _ => windowedLoop window e (table.take outerc) 0 t00
      | _ => .ub

/-- The (possibly parallel) loop of `batch_exp`, multiexp.tcc:632-644 and 667-679, executed in the given
order; `scalar i` is the scalar used for entry `i`. -/
def runBatch (scalarSize window : Nat) (table : List (List G)) (scalar : Nat → Option S) :
    List Nat → List G → Outcome (List G)
  | [], res => .ok res
  | i :: is, res =>
    match scalar i with
    | none => .ub
    | some s =>
      (windowedExp scalarSize window table (toB s)).bind fun t =>
        runBatch scalarSize window table scalar is (res.set i t)

/-- `batch_exp`, multiexp.tcc:620-652; `order` as for `multiExp`. -/
def batchExp (scalarSize window : Nat) (table : List (List G)) (order : List Nat) (v : List S) :
    Outcome (List G) :=
  match table with
  | (t00 :: _) :: _ =>
    runBatch toB scalarSize window table (fun i => v[i]?) order (List.replicate v.length t00)
  | _ => .ub

/-- `batch_exp_with_coeff`, multiexp.tcc:654-687. -/
def batchExpWithCoeff [Mul S] (scalarSize window : Nat) (table : List (List G)) (order : List Nat)
    (coeff : S) (v : List S) : Outcome (List G) :=
  match table with
  | (t00 :: _) :: _ =>
    runBatch toB scalarSize window table (fun i => v[i]?.map (coeff * ·)) order
      (List.replicate v.length t00)
  | _ => .ub

end

/-! ## Batch normalisation -/

/-- The write-back loop of `batch_to_special`, multiexp.tcc:708-719. -/
def writeBack {G : Type*} (isZero : G → Bool) (zeroSpecial : G) : List G → List G → Outcome (List G)
  | [], _ => .ok []
  | v :: vs, it =>
    if isZero v then (writeBack isZero zeroSpecial vs it).map (zeroSpecial :: ·)
    else
      match it with
      | [] => .ub
      | t :: it => (writeBack isZero zeroSpecial vs it).map (t :: ·)

/-- `batch_to_special`, multiexp.tcc:689-721; `batchNZ` is `T::batch_to_special_all_non_zeros`,
`toSpecial` is `to_special`. -/
def batchToSpecial {G : Type*} [GroupOps G] (isZero : G → Bool) (toSpecial : G → Outcome G)
    (batchNZ : List G → Outcome (List G)) (vec : List G) : Outcome (List G) :=
  (batchNZ (vec.filter fun v => !isZero v)).bind fun nz =>
  (toSpecial GroupOps.zero).bind fun zs =>
  writeBack isZero zs vec nz

end Libff
