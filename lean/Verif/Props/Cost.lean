import Verif.Lemmas.BosCost
import Verif.Props.Multiexp
import Verif.Model.Params
import Verif.Lemmas.Witness

/-!
# C81: what the fast methods cost

How often the generic algorithms call the operations of the group class (`+` or `-`, and `dbl`), for every group, every point and every
scalar: an upper bound on the running time of a call, and in what way it depends on the scalar.
-/
namespace Libff
open Run

section
variable {G : Type} [GroupOps G]

/-- **`scalar * point`** calls `+` once for every one in the binary expansion of the scalar and `dbl` once for every bit after the first;
it returns what it returns without the record. -/
theorem C81_scalar_mul (base : G) (e : List Limb) :
    (Run.scalarMul base e).Costs (.ok (Libff.scalarMul base e)) (· = ⟨numOnes (val e), (val e).size - 1⟩) :=
  scalarMul_costs base e

/-- **`fixed_window_wnaf_exp`** calls `dbl` at most once more than the scalar has bits, and `+` or `-` at most `2^(w-1)` times for the table
and once for every `w+1` bits, plus one. -/
theorem C81_fixed_window (w : Nat) (hw1 : 1 ≤ w) (hw : w < 30) (base : G) (k : List Limb)
    (hk : val k + 2 ^ w ≤ 2 ^ (64 * k.length)) :
    (Run.fixedWindowWnafExp w base k).Costs (Libff.fixedWindowWnafExp w base k)
      (fun n => n.add ≤ 2 ^ (w - 1) + (val k).size / (w + 1) + 1 ∧ n.dbl ≤ (val k).size + 1) :=
  fixedWindowWnafExp_costs w hw1 hw base k hk

/-- **`opt_window_wnaf_exp`**: the same with the window it chooses, or the cost of `scalar * point` when it chooses none. -/
theorem C81_opt_window (table : List Nat) (ht : table.length < 30) (base : G) (k : List Limb) (bits : Nat)
    (hk : val k + 2 ^ table.length ≤ 2 ^ (64 * k.length)) :
    (Run.optWindowWnafExp table base k bits).Costs (Libff.optWindowWnafExp table base k bits)
      (fun n => n.dbl ≤ (val k).size + 1 ∧
        n.add ≤ if bestWindow bits table.reverse = 0 then numOnes (val k)
          else 2 ^ (bestWindow bits table.reverse - 1) + (val k).size / (bestWindow bits table.reverse + 1) + 1) :=
  optWindowWnafExp_costs table ht base k bits hk

/-- **`get_window_table`**: one `+` for every entry that is filled in, and `window` ones for every row. -/
theorem C81_window_table (scalarSize window : Nat) (g : G) (hs : 0 < scalarSize) :
    (Run.getWindowTable scalarSize window g).Costs (Libff.getWindowTable scalarSize window g)
      (· = ⟨((scalarSize + window - 1) / window - 1) * 2 ^ window +
        2 ^ (scalarSize - ((scalarSize + window - 1) / window - 1) * window) + (scalarSize + window - 1) / window * window, 0⟩) :=
  getWindowTable_costs scalarSize window g hs

/-- **`windowed_exp`** calls `+` once per row of the table and never `dbl`, whatever the scalar: its cost does not depend on the scalar. -/
theorem C81_windowed_exp (scalarSize window : Nat) (table : List (List G)) (e : List Limb) :
    (Run.windowedExp scalarSize window table e).Costs (Libff.windowedExp scalarSize window table e)
      (· = ⟨(scalarSize + window - 1) / window, 0⟩) :=
  windowedExp_costs scalarSize window table e

/-- **`batch_exp`** calls `+` exactly (number of scalars) times (number of rows) times in whatever order the entries are computed, and never
`dbl`: its cost does not depend on the scalars. -/
theorem C81_batch_exp {S : Type} (toB : S → List Limb) (scalarSize window : Nat) (table : List (List G)) (order : List Nat) (v : List S)
    (ho : order.Perm (List.range v.length)) :
    (Run.batchExp toB scalarSize window table order v).Costs (Libff.batchExp toB scalarSize window table order v)
      (· = ⟨v.length * ((scalarSize + window - 1) / window), 0⟩) := by
  have hl : order.length = v.length := by rw [ho.length_eq, List.length_range]
  match table with
  | [] => exact Costs.lift_ub
  | [] :: _ => exact Costs.lift_ub
  | (t00 :: _) :: _ => rw [← hl]; exact runBatch_costs _ _ _ _ _ _ _

/-- **`batch_exp_with_coeff`**: the same number of calls. -/
theorem C81_batch_exp_with_coeff {S : Type} [Mul S] (toB : S → List Limb) (scalarSize window : Nat) (table : List (List G))
    (order : List Nat) (coeff : S) (v : List S) (ho : order.Perm (List.range v.length)) :
    (Run.batchExpWithCoeff toB scalarSize window table order coeff v).Costs
      (Libff.batchExpWithCoeff toB scalarSize window table order coeff v) (· = ⟨v.length * ((scalarSize + window - 1) / window), 0⟩) := by
  have hl : order.length = v.length := by rw [ho.length_eq, List.length_range]
  match table with
  | [] => exact Costs.lift_ub
  | [] :: _ => exact Costs.lift_ub
  | (t00 :: _) :: _ => rw [← hl]; exact runBatch_costs _ _ _ _ _ _ _

/-- **`multi_exp` in chunks** costs what the chunks cost, and one `+` for each chunk, whatever the order in which they are computed: if a
call of the method on `gs`, `ss` needs at most `A gs ss` additions and `D gs ss` doublings. -/
theorem C81_chunks {S : Type} {inner : List G → List S → Run G} {innerO : List G → List S → Outcome G} {A D : List G → List S → Nat}
    (hi : ∀ gs ss, (inner gs ss).Costs (innerO gs ss) (fun n => n.add ≤ A gs ss ∧ n.dbl ≤ D gs ss)) (order : List Nat) (bases : List G)
    (scalars : List S) (chunks : Nat) (hc : chunks ≠ 1) (hc' : chunks ≤ bases.length) (ho : order.Perm (List.range chunks)) :
    (Run.multiExp inner order bases scalars chunks).Costs (Libff.multiExp innerO order bases scalars chunks)
      (fun n =>
        n.add ≤ ((List.range chunks).map fun i =>
          A (chunkOf bases (bases.length / chunks) chunks i) (chunkOf scalars (bases.length / chunks) chunks i)).sum + chunks ∧
        n.dbl ≤ ((List.range chunks).map fun i =>
          D (chunkOf bases (bases.length / chunks) chunks i) (chunkOf scalars (bases.length / chunks) chunks i)).sum) := by
  unfold Run.multiExp Libff.multiExp
  have hn : ¬ (bases.length < chunks ∨ chunks = 1) := by omega
  simp only
  rw [if_neg hn, if_neg hn]
  by_cases h0 : chunks = 0
  · rw [if_pos h0, if_pos h0]; exact Costs.lift_ub
  rw [if_neg h0, if_neg h0]
  have hr := runChunks_costs hi bases scalars (bases.length / chunks) chunks order (List.replicate chunks GroupOps.zero)
  rw [(ho.map _).sum_eq, (ho.map _).sum_eq] at hr
  cases hp : Libff.runChunks innerO bases scalars (bases.length / chunks) chunks order (List.replicate chunks GroupOps.zero) with
  | ok part =>
    rw [hp] at hr
    have hl : part.length = chunks := by rw [runChunks_ok_length _ _ _ _ _ _ _ _ hp, List.length_replicate]
    refine Costs.step hr (addAll_costs part GroupOps.zero) (fun a b ha hb => ?_)
    rw [hb, hl]
    exact ⟨Nat.add_le_add_right ha.1 _, ha.2⟩
  | abort => rw [hp] at hr; exact Costs.bind (g := fun part => .ok (part.foldl GroupOps.add GroupOps.zero)) hr (fun v h => absurd h (by simp)) (Q := fun _ _ => True) (fun v _ _ h => absurd h (by simp))
  | ub => rw [hp] at hr; exact Costs.bind (g := fun part => .ok (part.foldl GroupOps.add GroupOps.zero)) hr (fun v h => absurd h (by simp)) (Q := fun _ _ => True) (fun v _ _ h => absurd h (by simp))

/-- **`multi_exp` with `multi_exp_method_naive_plain`**: the sum of the scalar multiplications, and one `+` for each. -/
theorem C81_naive_plain {S : Type} (toB : S → List Limb) (debug : Bool) (bases : List G) (scalars : List S)
    (hlen : bases.length = scalars.length) :
    (Run.multiExpPlain toB debug bases scalars).Costs (Libff.multiExpPlain toB debug bases scalars)
      (· = ⟨(scalars.map fun s => numOnes (val (toB s)) + 1).sum, (scalars.map fun s => (val (toB s)).size - 1).sum⟩) :=
  (multiExpPlain_costs toB debug bases scalars GroupOps.zero).mono fun _ h => h hlen

/-- **`multi_exp` with `multi_exp_method_naive`**: the sum of the exponentiations (`C81_opt_window`), and one `+` for each. -/
theorem C81_naive {S : Type} (toB : S → List Limb) (debug : Bool) (table : List Nat) (ht : table.length < 30) (bases : List G)
    (scalars : List S) (hk : ∀ s ∈ scalars, val (toB s) + 2 ^ table.length ≤ 2 ^ (64 * (toB s).length)) :
    (Run.multiExpNaive toB debug table bases scalars).Costs (Libff.multiExpNaive toB debug table bases scalars)
      (fun n => n.add ≤ (scalars.map fun s => (if bestWindow (bigintNumBits (toB s)) table.reverse = 0 then numOnes (val (toB s))
          else 2 ^ (bestWindow (bigintNumBits (toB s)) table.reverse - 1) +
            (val (toB s)).size / (bestWindow (bigintNumBits (toB s)) table.reverse + 1) + 1) + 1).sum ∧
        n.dbl ≤ (scalars.map fun s => (val (toB s)).size + 1).sum) :=
  naiveLoop_costs_le debug _ _ _ _ bases scalars
    (fun s hs g => (C81_opt_window table ht g (toB s) (bigintNumBits (toB s)) (hk s hs)).mono fun _ h => ⟨h.2, h.1⟩) GroupOps.zero

/-- **`multi_exp` with `multi_exp_method_BDLO12`** (without USE_MIXED_ADDITION): with `c` the width of the windows and `g` their number, at
most `g * (length + 2 * (2^c - 1))` calls of `+` and `(g - 1) * c` of `dbl`. -/
theorem C81_bdlo12 {S : Type} (toB : S → List Limb) (bases : List G) (scalars : List S) (c g : Nat) (hc : c = bdloC bases.length)
    (hg : g = (((scalars.take bases.length).map toB).foldl (fun m e => max m (bigintNumBits e)) 0 + c - 1) / c) :
    (Run.multiExpBdlo toB bases scalars).Costs (Libff.multiExpBdlo toB plainAdd .ok bases scalars)
      (fun n => n.add ≤ g * (bases.length + 2 * (2 ^ c - 1)) ∧ n.dbl ≤ (g - 1) * c) := by
  unfold Run.multiExpBdlo Libff.multiExpBdlo
  simp only [← hc, ← hg]
  by_cases h : scalars.length < bases.length
  · rw [if_pos h, if_pos h]; exact Costs.lift_ub
  · rw [if_neg h, if_neg h]
    by_cases h' : c ≥ 31 ∧ g ≠ 0
    · rw [if_pos h', if_pos h']; exact Costs.lift_ub
    · rw [if_neg h', if_neg h']
      exact bdloLoop_costs c bases _ g _

/-- **`multi_exp` with `multi_exp_method_bos_coster`** needs a number of operations that is polynomial in the length of the scalars: on `n`
scalars of at most `bits` bits the loop ends after at most `2 * bits * (bits * n)` rounds, with at most that many calls of `+`, plus
`n + 1` exponentiations.  (C28 alone bounds the rounds by the sum of the scalars.) -/
theorem C81_bos_coster {S : Type} (toB : S → List Limb) (table : List Nat) (ht : table.length < 30) (n bits : Nat) (hb : 0 < bits)
    (hb' : bits < 2 ^ 20) (mkHeap : List OrderedExponent → List OrderedExponent) (hmk : IsMakeHeap mkHeap)
    (bases : List G) (scalars : List S) (hlen : bases.length = scalars.length) (hn : ∀ s ∈ scalars, (toB s).length = n)
    (hk : ∀ s ∈ scalars, val (toB s) + 2 ^ table.length ≤ 2 ^ (64 * n)) (hbits : ∀ s ∈ scalars, val (toB s) < 2 ^ bits)
    (rounds : Nat) (hr : 2 * bits * (bits * bases.length) < rounds) :
    ∃ t, Libff.multiExpBosCoster toB table n mkHeap rounds bases scalars = .ok (some t) ∧
      (Run.multiExpBosCoster toB table n mkHeap rounds bases scalars).Costs (.ok (some t))
        (fun c => c.add ≤ 2 * bits * (bits * bases.length) + (bases.length + 1) * (2 ^ table.length + bits + 1) + 1 ∧
          c.dbl ≤ (bases.length + 1) * (bits + 1)) := by
  have hG : ImplementsGroup (fun _ : G => (0 : Int)) := ⟨rfl, fun _ _ => rfl, fun _ _ => rfl, fun _ => rfl⟩
  have hsz : ∀ s ∈ scalars, (val (toB s)).size ≤ bits := fun s hs => Nat.size_le.2 (hbits s hs)
  have hp0 := Nat.two_pow_pos table.length
  by_cases h0 : 2 ^ table.length ≤ 2 ^ (64 * n)
  · refine multiExpBosCoster_costs table n (min (2 ^ (64 * n) - 2 ^ table.length) (2 ^ bits - 1)) (2 ^ table.length + bits + 1) (bits + 1) bits
      hb hb' ?_ (by generalize 2 ^ table.length = Z; omega) (by omega) mkHeap hmk bases scalars hlen hn
      (fun s hs => le_min (by have := hk s hs; omega) (by have := hbits s hs; omega)) hsz rounds hr
    intro k g hkl hkv
    have h1 : val k ≤ 2 ^ (64 * n) - 2 ^ table.length := le_trans hkv (min_le_left _ _)
    have h2 : (val k).size ≤ bits := Nat.size_le.2 (by
      have : val k ≤ 2 ^ bits - 1 := le_trans hkv (min_le_right _ _)
      have := Nat.two_pow_pos bits
      omega)
    have h3 : val k + 2 ^ table.length ≤ 2 ^ (64 * k.length) := by rw [hkl]; omega
    obtain ⟨t, t1, -⟩ := C27_opt_window hG table ht g k (bigintNumBits k) h3
    have hc := C81_opt_window table ht g k (bigintNumBits k) h3
    rw [t1] at hc
    refine ⟨t, t1, hc.mono fun c hc => ⟨?_, by omega⟩⟩
    have hbw := bestWindow_le (bigintNumBits k) table.reverse
    rw [List.length_reverse] at hbw
    refine le_trans hc.2 ?_
    generalize bestWindow (bigintNumBits k) table.reverse = w at hbw
    split
    · have : numOnes (val k) ≤ (val k).size := by
        rw [numOnes, onesBelow]
        exact le_trans List.countP_le_length (by simp)
      omega
    · have hp : 2 ^ (w - 1) ≤ 2 ^ table.length := Nat.pow_le_pow_right (by norm_num) (by omega)
      have hd : (val k).size / (w + 1) ≤ (val k).size := Nat.div_le_self _ _
      omega
  · cases scalars with
    | nil =>
      obtain rfl : bases = [] := List.length_eq_zero_iff.1 hlen
      exact ⟨_, rfl, Costs.pure _ (by simp)⟩
    | cons s ss => exact absurd (le_trans (Nat.le_add_left _ _) (hk s List.mem_cons_self)) h0

/-- After that many rounds Bos-Coster has the right result, in every group. -/
theorem C81_bos_coster_result {S A : Type} [AddCommGroup A] {ψ : G → A} (hG : ImplementsGroup ψ) (toB : S → List Limb) (table : List Nat)
    (ht : table.length < 30) (n bits : Nat) (hb : 0 < bits) (hb' : bits < 2 ^ 20)
    (mkHeap : List OrderedExponent → List OrderedExponent) (hmk : IsMakeHeap mkHeap)
    (bases : List G) (scalars : List S) (hlen : bases.length = scalars.length) (hn : ∀ s ∈ scalars, (toB s).length = n)
    (hk : ∀ s ∈ scalars, val (toB s) + 2 ^ table.length ≤ 2 ^ (64 * n)) (hbits : ∀ s ∈ scalars, val (toB s) < 2 ^ bits)
    (rounds : Nat) (hr : 2 * bits * (bits * bases.length) < rounds) :
    ∃ t, Libff.multiExpBosCoster toB table n mkHeap rounds bases scalars = .ok (some t) ∧ ψ t = multiSum ψ toB bases scalars := by
  obtain ⟨t, t1, -⟩ := C81_bos_coster toB table ht n bits hb hb' mkHeap hmk bases scalars hlen hn hk hbits rounds hr
  obtain ⟨u, u1, u2⟩ := C28_bos_coster hG table ht n mkHeap hmk bases scalars hlen hn hk
    (rounds + ((scalars.map fun s => val (toB s)).sum + 1)) (by omega)
  refine ⟨t, t1, ?_⟩
  have := multiExpBosCoster_mono toB table n mkHeap rounds ((scalars.map fun s => val (toB s)).sum + 1) bases scalars t t1
  rw [u1] at this
  rw [← u2]
  exact congrArg ψ (Option.some.inj (Outcome.ok.inj this)).symm
end

/-! ## Batch inversion and batch normalisation -/

section
variable {C K : Type} [Zero K] [One K] [DecidableEq K] [Mul K] [InverseO K] {F : CField C K} {κ κi : Counters C}

/-- **`batch_invert`** of `n` elements costs `3 n` products and one inversion, in every class with counters: every counter grows by `3 n`
times what a product adds to it and once what an inversion adds. -/
theorem C81_batch_invert (hF : ∀ x y s, F.mul x y s = .ok (x * y, fun c k => s c k + κ c k))
    (hi : ∀ x s, F.inverse x s = (inverseO x).map (·, fun c k => s c k + κi c k)) (debug : Bool) (vec : List K) (s : Counters C) :
    batchInvertC F debug vec s = (batchInvert debug vec).map (·, fun c k => s c k + (3 * vec.length * κ c k + κi c k)) :=
  batchInvertC_apply hF hi debug vec s

/-- **`batch_to_special_all_non_zeros`** of `n` points in Jacobian coordinates: one inversion, `6 n` products, `n` squarings. -/
theorem C81_batch_to_special_jacobian [Squared K] {κs : Counters C} (hF : ∀ x y s, F.mul x y s = .ok (x * y, fun c k => s c k + κ c k))
    (hs : ∀ x s, F.squared x s = .ok (squared x, fun c k => s c k + κs c k))
    (hi : ∀ x s, F.inverse x s = (inverseO x).map (·, fun c k => s c k + κi c k)) (debug : Bool) (vec : List (Coord3 K)) (s : Counters C) :
    Jac.batchToSpecialNZC F debug vec s = (Jac.batchToSpecialNZ debug vec).map
      (·, fun c k => s c k + (6 * vec.length * κ c k + vec.length * κs c k + κi c k)) := by
  unfold Jac.batchToSpecialNZC Jac.batchToSpecialNZ
  rw [bind_apply, batchInvertC_apply hF hi]
  cases h : batchInvert debug (vec.map (·.Z)) with
  | ok v =>
    have hl : vec.length = v.length := by rw [batchInvert_ok_length _ _ _ h, List.length_map]
    simp only [Outcome.map_ok, Outcome.bind_ok]
    rw [Jac.scaleAllC_apply hF hs vec v hl]
    congr 2
    funext c k
    simp only [List.length_map]; ring
  | abort => rfl
  | ub => rfl

/-- **`batch_to_special_all_non_zeros`** of `n` points in projective coordinates: one inversion, `5 n` products. -/
theorem C81_batch_to_special_projective (hF : ∀ x y s, F.mul x y s = .ok (x * y, fun c k => s c k + κ c k))
    (hi : ∀ x s, F.inverse x s = (inverseO x).map (·, fun c k => s c k + κi c k)) (debug : Bool) (vec : List (Coord3 K)) (s : Counters C) :
    Proj.batchToSpecialNZC F debug vec s = (Proj.batchToSpecialNZ debug vec).map
      (·, fun c k => s c k + (5 * vec.length * κ c k + κi c k)) := by
  unfold Proj.batchToSpecialNZC Proj.batchToSpecialNZ
  rw [bind_apply, batchInvertC_apply hF hi]
  cases h : batchInvert debug (vec.map (·.Z)) with
  | ok v =>
    have hl : vec.length = v.length := by rw [batchInvert_ok_length _ _ _ h, List.length_map]
    simp only [Outcome.map_ok, Outcome.bind_ok]
    rw [Proj.scaleAllC_apply hF vec v hl]
    congr 2
    funext c k
    simp only [List.length_map]; ring
  | abort => rfl
  | ub => rfl
end

section
variable {K : Type} [Zero K] [One K] [DecidableEq K] [Add K] [Sub K] [Neg K] [Mul K] [Squared K] [InverseO K] [LawfulSquared K]

/-- For a prime field the counters of the class show it: `3 n` products and one inversion, nothing else. -/
theorem C81_batch_invert_Fp (asm3 debug : Bool) (vec v : List K) (h : batchInvert debug vec = .ok v) (s : Counters TowerCls) :
    ∃ s', batchInvertC (FpC asm3) debug vec s = .ok (v, s') ∧ s' .Fp .mul = s .Fp .mul + 3 * vec.length ∧
      s' .Fp .inv = s .Fp .inv + 1 ∧ s' .Fp .add = s .Fp .add ∧ s' .Fp .sub = s .Fp .sub ∧ s' .Fp .sqr = s .Fp .sqr := by
  have e := C81_batch_invert (F := FpC asm3) (fun x y s => (FpC_exact (K := K) asm3).mul x y s)
    (fun x s => (FpC_exact (K := K) asm3).inverse x s) debug vec s
  rw [h] at e
  exact ⟨_, e, by simp [fpCost, unitC], by simp [fpCost, unitC], by simp [fpCost, unitC], by simp [fpCost, unitC], by simp [fpCost, unitC]⟩

/-- Normalising `n` points with coordinates in a prime field takes one inversion of the class, not `n`. -/
theorem C81_batch_to_special_Fp (debug : Bool) (vec v : List (Coord3 K)) (h : Jac.batchToSpecialNZ debug vec = .ok v)
    (s : Counters TowerCls) :
    ∃ s', Jac.batchToSpecialNZC (FpC false) debug vec s = .ok (v, s') ∧ s' .Fp .mul = s .Fp .mul + 6 * vec.length ∧
      s' .Fp .sqr = s .Fp .sqr + vec.length ∧ s' .Fp .inv = s .Fp .inv + 1 := by
  have e := C81_batch_to_special_jacobian (F := FpC false) (fun x y s => (FpC_exact (K := K) false).mul x y s)
    (fun x s => (FpC_exact (K := K) false).squared x s) (fun x s => (FpC_exact (K := K) false).inverse x s) debug vec s
  rw [h] at e
  exact ⟨_, e, by simp [fpCost, unitC], by simp [fpCost, unitC], by simp [fpCost, unitC]⟩
end

/-! ## Non-vacuity -/

/-- The integers. -/
local instance instIntOps : GroupOps Int := ⟨0, (· + ·), (· - ·), fun x => 2 * x⟩

/-- 13 = 1101 in binary: three calls of `+` and three of `dbl`. -/
example : Run.scalarMul (5 : Int) [13] ⟨0, 0⟩ = .ok (65, ⟨3, 3⟩) := by decide +kernel

/-- A scalar of 20 bits with window 4: 8 calls for the table and at most 5 for the digits. -/
example : (Run.fixedWindowWnafExp 4 (3 : Int) [1000003] ⟨0, 0⟩) = .ok (3000009, ⟨12, 21⟩) ∧
    2 ^ (4 - 1) + (1000003 : Nat).size / 5 + 1 = 13 := by decide +kernel

example : val [(1000003 : Limb)] + 2 ^ 4 ≤ 2 ^ (64 * 1) := by decide

/-- Rows for three windows of two bits and one of one bit. -/
example : (Run.getWindowTable 7 2 (1 : Int) ⟨0, 0⟩).map Prod.snd = .ok ⟨3 * 4 + 2 + 4 * 2, 0⟩ := by decide +kernel

/-- Two scalars, two rows each. -/
example : Run.batchExp id 4 2 [[(0 : Int), 1, 2, 3], [0, 4, 8, 12]] [1, 0] [[9], [6]] ⟨0, 0⟩ = .ok ([9, 6], ⟨2 * 2, 0⟩) := by decide +kernel

/-- Two chunks, the second computed first: two calls of `+` more than the three exponentiations. -/
example : Run.multiExp (Run.multiExpPlain id true) [1, 0] [(10 : Int), 1, 100] [[3], [2], [1]] 2 ⟨0, 0⟩ =
    .ok (132, ⟨(2 + 1) + (1 + 1) + (1 + 1) + 2, 1 + 1⟩) := by decide +kernel

/-- Two bases: windows of three bits, three of them for scalars of eight bits. -/
example : (Run.multiExpBdlo id [(10 : Int), 1] [[200], [45]] ⟨0, 0⟩).map Prod.fst = .ok 2045 ∧ bdloC 2 = 3 := by decide +kernel

/-- The bound on the rounds is needed only because of a test in the code: scalars of very different size do not take `2^40` rounds. -/
example : ∃ t, Libff.multiExpBosCoster (G := Int) id [1, 5] 1 sortHeap 7057 [(10 : Int), 1] [[2 ^ 41], [3]] = .ok (some t) := by
  obtain ⟨t, h, -⟩ := C81_bos_coster (G := Int) id [1, 5] (by decide) 1 42 (by decide) (by decide) sortHeap sortHeap_isMakeHeap
    [(10 : Int), 1] [[2 ^ 41], [3]] rfl (by decide) (by decide +kernel) (by decide +kernel) 7057 (by decide)
  exact ⟨t, h⟩

end Libff
