import Verif.Lemmas.BosCoster
import Verif.Lemmas.Window
import Verif.Lemmas.FieldUtils
import Verif.Lemmas.Witness
import Verif.Props.Group
import Verif.Model.Params
import Verif.Spec.FpParams
import Mathlib.Data.List.Sort

/-!
# Properties of multi-exponentiation, window tables and batch operations (C28–C34)

`S` is any scalar class, `toB` its `as_bigint`; `ψ` maps objects of the group class to elements of an
abstract commutative group. `multiSum ψ toB bases scalars` is `∑ scalarᵢ · baseᵢ` in that group.
-/
namespace Libff
open GroupOps

/-- A toy scalar class for the examples: one limb. -/
abbrev ToyScalar := BitVec 64

/-- Its `as_bigint`. -/
def toyB (s : ToyScalar) : List Limb := [s]

/-! ## C28: the methods -/

section
variable {G A S : Type*} [GroupOps G] [AddCommGroup A] {ψ : G → A} {toB : S → List Limb}

/-- **C28**, `multi_exp_method_naive` (wNAF per base). -/
theorem C28_naive (hG : ImplementsGroup ψ) (debug : Bool) (table : List Nat) (ht : table.length < 30)
    (bases : List G) (scalars : List S) (hlen : bases.length = scalars.length)
    (hk : ∀ s ∈ scalars, val (toB s) + 2 ^ table.length ≤ 2 ^ (64 * (toB s).length)) :
    ∃ g, multiExpNaive toB debug table bases scalars = .ok g ∧ ψ g = multiSum ψ toB bases scalars := by
  obtain ⟨t, h1, h2⟩ := naiveLoop_spec (toB := toB) hG debug _ bases scalars hlen
    (fun s hs g => C27_opt_window hG table ht g (toB s) (bigintNumBits (toB s)) (hk s hs)) zero
  exact ⟨t, h1, by rw [h2, hG.zero, zero_add]⟩

/-- **C28**, `multi_exp_method_naive_plain`: no condition on the scalars at all. -/
theorem C28_naive_plain (hG : ImplementsGroup ψ) (debug : Bool)
    (bases : List G) (scalars : List S) (hlen : bases.length = scalars.length) :
    ∃ g, multiExpPlain toB debug bases scalars = .ok g ∧ ψ g = multiSum ψ toB bases scalars := by
  obtain ⟨t, h1, h2⟩ := naiveLoop_spec (toB := toB) hG debug (fun s g => .ok (scalarMul g (toB s))) bases scalars
    hlen (fun s _ g => ⟨_, rfl, scalarMul_spec hG g (toB s)⟩) zero
  exact ⟨t, h1, by rw [h2, hG.zero, zero_add]⟩

/-- **C28**, `multi_exp_method_BDLO12` without USE_MIXED_ADDITION, for all vectors of at most 2^42 entries
(beyond that `1 << c` overflows `int`). -/
theorem C28_bdlo12 (hG : ImplementsGroup ψ) (bases : List G) (scalars : List S)
    (hlen : bases.length = scalars.length) (hsize : bases.length ≤ 2 ^ 42) :
    ∃ g, multiExpBdlo toB plainAdd .ok bases scalars = .ok g ∧ ψ g = multiSum ψ toB bases scalars :=
  multiExpBdlo_spec toB hG plainAdd (fun _ => True) (fun a b _ => ⟨_, rfl, hG.add a b⟩) .ok
    (fun l => ⟨l, rfl, rfl, fun _ _ => trivial⟩) bases (fun _ _ => trivial) scalars hlen hsize

/-- **C28**, `multi_exp_method_BDLO12` with USE_MIXED_ADDITION: the bases must be special, mixed addition has
to be right when its second argument is, and `norm` (`batch_to_special`) has to preserve the points and
make them special (see C33). -/
theorem C28_bdlo12_mixed (hG : ImplementsGroup ψ) (mixedAdd : G → G → Outcome G) (Special : G → Prop)
    (hadd : ∀ a b, Special b → ∃ r, mixedAdd a b = .ok r ∧ ψ r = ψ a + ψ b) (norm : List G → Outcome (List G))
    (hnorm : ∀ l, ∃ l', norm l = .ok l' ∧ l'.map ψ = l.map ψ ∧ ∀ x ∈ l', Special x)
    (bases : List G) (hs : ∀ g ∈ bases, Special g) (scalars : List S)
    (hlen : bases.length = scalars.length) (hsize : bases.length ≤ 2 ^ 42) :
    ∃ g, multiExpBdlo toB mixedAdd norm bases scalars = .ok g ∧ ψ g = multiSum ψ toB bases scalars :=
  multiExpBdlo_spec toB hG mixedAdd Special hadd norm hnorm bases hs scalars hlen hsize

/-- **C28**, `multi_exp_method_bos_coster`: for every implementation of `std::make_heap` meeting its
contract, the loop ends after at most `∑ scalarᵢ` rounds, no subtraction borrows and the result is the sum.
The condition on the scalars leaves room for the wNAF recoding (C26); it holds for every prime field of the
library, see `C28_headroom`. -/
theorem C28_bos_coster (hG : ImplementsGroup ψ) (table : List Nat) (ht : table.length < 30)
    (n : Nat) (mkHeap : List OrderedExponent → List OrderedExponent) (hmk : IsMakeHeap mkHeap)
    (bases : List G) (scalars : List S) (hlen : bases.length = scalars.length)
    (hn : ∀ s ∈ scalars, (toB s).length = n)
    (hk : ∀ s ∈ scalars, val (toB s) + 2 ^ table.length ≤ 2 ^ (64 * n))
    (rounds : Nat) (hr : (scalars.map fun s => val (toB s)).sum < rounds) :
    ∃ g, multiExpBosCoster toB table n mkHeap rounds bases scalars = .ok (some g) ∧
      ψ g = multiSum ψ toB bases scalars := by
  by_cases h0 : 2 ^ table.length ≤ 2 ^ (64 * n)
  · refine multiExpBosCoster_spec hG table n (2 ^ (64 * n) - 2 ^ table.length) ?_ mkHeap hmk bases scalars hlen hn ?_
      rounds hr
    · intro k g hkl hkv
      apply C27_opt_window hG table ht
      rw [hkl]; omega
    · intro s hs
      have := hk s hs
      omega
  · cases scalars with
    | nil =>
      obtain rfl : bases = [] := List.length_eq_zero_iff.1 hlen
      exact ⟨zero, rfl, by simp [multiSum, hG.zero]⟩
    | cons s ss => exact absurd (le_trans (Nat.le_add_left _ _) (hk s List.mem_cons_self)) h0

end

/-- A heap construction: sort in descending order. -/
def sortHeap (l : List OrderedExponent) : List OrderedExponent :=
  l.mergeSort (fun a b => decide (val b.r ≤ val a.r))

/-- `sortHeap` meets the contract of `std::make_heap`. -/
theorem sortHeap_isMakeHeap : IsMakeHeap sortHeap := by
  intro l
  refine ⟨List.mergeSort_perm _ _, ?_⟩
  intro i j hi hj hi0 hji
  have hp := List.pairwise_mergeSort (le := fun a b : OrderedExponent => decide (val b.r ≤ val a.r))
    (by intro a b c h1 h2; simp only [decide_eq_true_eq] at *; omega)
    (by intro a b; simp only [Bool.or_eq_true, decide_eq_true_eq]; omega) l
  have := List.pairwise_iff_getElem.1 hp j i hj hi (by omega)
  exact of_decide_eq_true this

example : (multiExpNaive (G := IntGroup) toyB true [11, 24, 60, 127] [(3 : Int), 5, -7] [1000003, 0, 12]) =
    .ok (3 * 1000003 - 7 * 12) := by decide +kernel

example : (multiExpPlain (G := IntGroup) toyB true [(3 : Int), 5, -7] [1000003, 0, 12]) =
    .ok (3 * 1000003 - 7 * 12) := by decide +kernel

example : (multiExpBdlo (G := IntGroup) toyB plainAdd .ok [(3 : Int), 5, -7] [1000003, 0, 12]) =
    .ok (3 * 1000003 - 7 * 12) := by decide +kernel

example : ∀ s ∈ [(1000003 : ToyScalar), 0, 12], (toyB s).length = 1 ∧ val (toyB s) + 2 ^ 4 ≤ 2 ^ (64 * 1) := by
  simp [toyB, val]

example : ((([(1000003 : ToyScalar), 0, 12].map fun s => val (toyB s)).sum)) < 1000016 := by decide +kernel

/-- **C28.** The empty multi-exponentiation is zero in all methods. -/
theorem C28_empty {G S : Type*} [GroupOps G] (toB : S → List Limb) (debug : Bool) (table : List Nat) (n : Nat)
    (mk : List OrderedExponent → List OrderedExponent) (rounds : Nat) :
    multiExpNaive toB debug table ([] : List G) [] = .ok zero ∧
    multiExpPlain toB debug ([] : List G) [] = .ok zero ∧
    multiExpBdlo toB plainAdd .ok ([] : List G) [] = .ok zero ∧
    multiExpBosCoster toB table n mk rounds ([] : List G) [] = .ok (some zero) := by
  refine ⟨rfl, rfl, ?_, rfl⟩
  have hc : bdloC 0 = 2 := by decide +kernel
  simp [multiExpBdlo, hc, bdloLoop]

/-- **C28.** The room needed above the scalars is there in every prime field of the library: canonical
representatives are below the modulus and the modulus leaves 2^29 free. -/
theorem C28_headroom : ∀ F ∈ allPrimeFields, F.P.p + 2 ^ 29 ≤ 2 ^ (64 * F.P.n) := by decide +kernel

/-- **C28.** A sign that mistakes are visible: over the integers the sum distinguishes all coefficient
vectors of two bases 1 and 2^64. -/
theorem C28_sum_faithful (a b c d : ToyScalar)
    (h : multiSum (A := Int) (fun x : IntGroup => (x : Int)) toyB [(1 : Int), 2 ^ 64] [a, b] =
      multiSum (A := Int) (fun x : IntGroup => (x : Int)) toyB [(1 : Int), 2 ^ 64] [c, d]) : a = c ∧ b = d := by
  simp only [multiSum, List.zip_cons_cons, List.zip_nil_right, List.map_cons, List.map_nil, List.sum_cons,
    List.sum_nil, toyB, val, nsmul_eq_mul, Nat.mul_zero, Nat.add_zero] at h
  have ha := a.isLt; have hb := b.isLt; have hc := c.isLt; have hd := d.isLt
  constructor <;> apply BitVec.eq_of_toNat_eq <;> push_cast at h <;> omega

example : multiSum (A := Int) (fun x : IntGroup => (x : Int)) toyB [(1 : Int), 2 ^ 64] [3, 4] = 3 + 4 * 2 ^ 64 := by
  decide +kernel

/-! ## C29: chunks and schedules -/

section
variable {G A S : Type*} [GroupOps G] [AddCommGroup A] {ψ : G → A} {toB : S → List Limb}

/-- **C29.** Splitting into any positive number of chunks, executed in any order, gives the sum whenever
the inner method does for every vector of bases and scalars taken from the input. -/
theorem C29_chunks (hG : ImplementsGroup ψ) (inner : List G → List S → Outcome G)
    (bases : List G) (scalars : List S) (hlen : bases.length = scalars.length)
    (hin : ∀ gs ss, gs.length = ss.length → gs.length ≤ bases.length → gs.Sublist bases → ss.Sublist scalars →
      ∃ t, inner gs ss = .ok t ∧ ψ t = multiSum ψ toB gs ss)
    (chunks : Nat) (hc : 1 ≤ chunks) (order : List Nat) (ho : order.Perm (List.range chunks)) :
    ∃ g, multiExp inner order bases scalars chunks = .ok g ∧ ψ g = multiSum ψ toB bases scalars :=
  multiExp_spec hG inner bases scalars hlen hin chunks hc order ho

/-- **C29.** In particular two chunk counts and two schedules give the same group element; here with the
BDLO12 method. -/
theorem C29_schedule_independent (hG : ImplementsGroup ψ) (bases : List G) (scalars : List S)
    (hlen : bases.length = scalars.length) (hsize : bases.length ≤ 2 ^ 42)
    (c c' : Nat) (hc : 1 ≤ c) (hc' : 1 ≤ c') (o o' : List Nat) (ho : o.Perm (List.range c))
    (ho' : o'.Perm (List.range c')) :
    ∃ g g', multiExp (multiExpBdlo toB plainAdd .ok) o bases scalars c = .ok g ∧
      multiExp (multiExpBdlo toB plainAdd .ok) o' bases scalars c' = .ok g' ∧ ψ g = ψ g' := by
  have hin : ∀ gs : List G, ∀ ss : List S, gs.length = ss.length → gs.length ≤ bases.length → gs.Sublist bases →
      ss.Sublist scalars → ∃ t, multiExpBdlo toB plainAdd .ok gs ss = .ok t ∧ ψ t = multiSum ψ toB gs ss :=
    fun gs ss h1 h2 _ _ => C28_bdlo12 hG gs ss h1 (le_trans h2 hsize)
  obtain ⟨g, h1, h2⟩ := C29_chunks hG _ bases scalars hlen hin c hc o ho
  obtain ⟨g', h3, h4⟩ := C29_chunks hG _ bases scalars hlen hin c' hc' o' ho'
  exact ⟨g, g', h1, h3, by rw [h2, h4]⟩

/-- **C29.** Zero chunks is undefined (division by zero). -/
theorem C29_zero_chunks (inner : List G → List S → Outcome G) (order : List Nat) (bases : List G)
    (scalars : List S) : multiExp inner order bases scalars 0 = .ub := by
  unfold multiExp
  simp

/-- **C29.** `inner_product` is `∑ aᵢ bᵢ`; in a debug build a longer second vector is refused. -/
theorem C29_inner_product {K : Type*} [CommRing K] (debug : Bool) (as bs : List K) (h : as.length = bs.length) :
    innerProduct debug as bs 0 = .ok (List.zipWith (· * ·) as bs).sum := by
  rw [innerProduct_spec debug as bs h 0, zero_add]

end

example : [2, 0, 1].Perm (List.range 3) := by decide

example : multiExp (multiExpPlain (G := IntGroup) toyB true) [2, 0, 1] [(3 : Int), 5, -7, 11, 13, 17, 19]
    [1, 2, 3, 4, 5, 6, 7] 3 = .ok 336 := by decide +kernel

example : innerProduct (K := Int) true [1, 2, 3] [4, 5, 6] 0 = .ok 32 := by decide +kernel

/-! ## C30: zeros and ones -/

section
variable {G A S : Type*} [GroupOps G] [AddCommGroup A] {ψ : G → A} {toB : S → List Limb}

/-- **C30.** `multi_exp_with_mixed_addition` is the sum, for any mixture of zero, one and other scalars,
for all special bases, any positive number of chunks and any order of execution. -/
theorem C30_mixed [Zero S] [One S] [DecidableEq S] (hG : ImplementsGroup ψ) (debug : Bool)
    (mixedAdd : G → G → Outcome G) (Special : G → Prop)
    (hadd : ∀ a b, Special b → ∃ r, mixedAdd a b = .ok r ∧ ψ r = ψ a + ψ b)
    (h0 : val (toB 0) = 0) (h1 : val (toB 1) = 1)
    (inner : List G → List S → Outcome G)
    (bases : List G) (hs : ∀ g ∈ bases, Special g) (scalars : List S) (hlen : bases.length = scalars.length)
    (hin : ∀ gs ss, gs.length = ss.length → gs.length ≤ bases.length → gs.Sublist bases → ss.Sublist scalars →
      ∃ t, inner gs ss = .ok t ∧ ψ t = multiSum ψ toB gs ss)
    (chunks : Nat) (hc : 1 ≤ chunks) (order : List Nat) (ho : order.Perm (List.range chunks)) :
    ∃ g, multiExpMixed debug mixedAdd inner order bases scalars chunks = .ok g ∧
      ψ g = multiSum ψ toB bases scalars := by
  unfold multiExpMixed
  rw [if_neg (fun h => h.2 hlen)]
  obtain ⟨acc, bs, ps, e1, e2, e3, e4, e5⟩ := classify_spec (toB := toB) mixedAdd Special hadd h0 h1 bases scalars
    hlen hs zero [] [] rfl
  rw [List.nil_append, List.nil_append] at e1
  rw [e1, Outcome.bind_ok]
  obtain ⟨t, t1, t2⟩ := C29_chunks (toB := toB) hG inner bs ps e2
    (fun gs ss h1 h2 h3 h4 => hin gs ss h1 (le_trans h2 e3.length_le) (h3.trans e3)
      (h4.trans e4)) chunks hc order ho
  simp only [t1, Outcome.map_ok]
  exact ⟨_, rfl, by rw [hG.add, t2, e5, hG.zero, zero_add]⟩

end

example : multiExpMixed (G := IntGroup) (S := ToyScalar) true plainAdd (multiExpPlain (G := IntGroup) toyB true) [1, 0]
    [(3 : Int), 5, -7, 11] [1, 0, 3, 1] 2 = .ok (3 - 21 + 11) := by decide +kernel

example : val (toyB 0) = 0 ∧ val (toyB 1) = 1 := by decide

/-! ## C31: window tables -/

section
variable {G A S : Type*} [GroupOps G] [AddCommGroup A] {ψ : G → A} {toB : S → List Limb}

/-- **C31.** The entry `[outer][inner]` of the table is `inner · 2^(outer·window) · g` wherever that multiple
is below `2^scalar_size`; all rows have `2^window` entries. -/
theorem C31_table (hG : ImplementsGroup ψ) (scalarSize window : Nat) (hw : 1 ≤ window) (hw2 : window < 64)
    (hs : 1 ≤ scalarSize) (g : G) :
    ∃ T, getWindowTable scalarSize window g = .ok T ∧ T.length = (scalarSize + window - 1) / window ∧
      (∀ row ∈ T, row.length = 2 ^ window) ∧
      ∀ outer inner, outer < T.length → inner < 2 ^ window → inner * 2 ^ (outer * window) < 2 ^ scalarSize →
        ∃ row t, T[outer]? = some row ∧ row[inner]? = some t ∧
          ψ t = (inner * 2 ^ (outer * window)) • ψ g :=
  getWindowTable_entries hG scalarSize window hw hw2 hs g

/-- **C31.** Exponentiation by table look-up is scalar multiplication for every scalar below
`2^scalar_size`. -/
theorem C31_windowed_exp (hG : ImplementsGroup ψ) (scalarSize window : Nat) (hw : 1 ≤ window) (hw2 : window ≤ 32)
    (hs : 1 ≤ scalarSize) (g : G) (T : List (List G)) (hT : getWindowTable scalarSize window g = .ok T)
    (e : List Limb) (he : val e < 2 ^ scalarSize) :
    ∃ t, windowedExp scalarSize window T e = .ok t ∧ ψ t = val e • ψ g := by
  obtain ⟨T', _, _, _, h1, _, h3⟩ := windowedExp_spec hG scalarSize window hw hw2 hs g
  rw [h1] at hT
  obtain rfl := Outcome.ok.inj hT
  exact h3 e he

/-- **C31.** `get_exp_window_size` never returns a window for which the table code is undefined, as long as
the curve's table has at most 32 entries. -/
theorem C31_window_size (lowmem : Bool) (table : List Nat) (ht : table.length ≤ 32) (n : Nat) :
    1 ≤ getExpWindowSize lowmem table n ∧ getExpWindowSize lowmem table n ≤ 32 := by
  have h : ∀ t : List Nat, 1 ≤ expWindowLoop n t ∧ (expWindowLoop n t ≤ t.length ∨ expWindowLoop n t = 1) := by
    intro t
    induction t with
    | nil => simp [expWindowLoop]
    | cons x t ih =>
      unfold expWindowLoop
      split
      · simp
      · refine ⟨ih.1, ?_⟩
        rcases ih.2 with h | h
        · left; simp; omega
        · right; exact h
  have h' := h table.reverse
  rw [List.length_reverse] at h'
  unfold getExpWindowSize
  simp only
  split
  · split <;> omega
  · split <;> omega

end

example : ∃ T, getWindowTable (G := IntGroup) 10 3 (7 : Int) = .ok T ∧ T.length = 4 ∧
    windowedExp 10 3 T [1000] = .ok 7000 := by
  refine ⟨_, rfl, ?_, ?_⟩ <;> decide +kernel

example : getExpWindowSize false [1, 5, 11, 32, 55, 162, 360, 815, 2373, 6978, 7122, 0, 57818, 0, 169679] 100000 = 13 := by
  decide +kernel

/-- **C31.** The range condition matters: for scalar size 4 and window 3 the scalar 32 gives 0 instead of
`32 · g`, silently. -/
theorem C31_out_of_range_wrong :
    ∃ T, getWindowTable (G := IntGroup) 4 3 (1 : Int) = .ok T ∧ windowedExp 4 3 T [32] = .ok 0 := by
  refine ⟨_, rfl, ?_⟩
  decide +kernel

/-- **C31.** A table for scalar size 0 cannot be used: `powers_of_g[0]` does not exist. -/
theorem C31_size_zero_undefined {G : Type*} [GroupOps G] (window : Nat) (hw : 1 ≤ window) (hw2 : window ≤ 32) (g : G)
    (e : List Limb) :
    getWindowTable 0 window g = .ok [] ∧ windowedExp 0 window ([] : List (List G)) e = .ub := by
  have h : (0 + window - 1) / window = 0 := Nat.div_eq_of_lt (by omega)
  constructor
  · unfold getWindowTable
    rw [if_neg (by omega), h]
    rfl
  · unfold windowedExp
    rw [if_neg (by omega)]
    simp

/-! ## C32: batch exponentiation -/

section
variable {G A S : Type*} [GroupOps G] [AddCommGroup A] {ψ : G → A} {toB : S → List Limb}

/-- **C32.** `batch_exp` with the table of `g`: the result has the length of `v` and entry `i` is
`v[i] · g`, whatever the order in which the iterations are executed. -/
theorem C32_batch_exp (hG : ImplementsGroup ψ) (scalarSize window : Nat) (hw : 1 ≤ window) (hw2 : window ≤ 32)
    (hs : 1 ≤ scalarSize) (g : G) (T : List (List G)) (hT : getWindowTable scalarSize window g = .ok T)
    (v : List S) (hv : ∀ s ∈ v, val (toB s) < 2 ^ scalarSize) (order : List Nat)
    (ho : order.Perm (List.range v.length)) :
    ∃ res, batchExp toB scalarSize window T order v = .ok res ∧
      res.map ψ = v.map fun s => val (toB s) • ψ g := by
  obtain ⟨T', t00, row, rest, h1, h2, h3⟩ := windowedExp_spec hG scalarSize window hw hw2 hs g
  rw [h1] at hT
  obtain rfl := Outcome.ok.inj hT
  obtain ⟨res, r1, r2, r3, _⟩ := runBatch_spec (toB := toB)
    (P := fun i t => ψ t = (v.map fun s => val (toB s) • ψ g).getD i 0)
    scalarSize window T' (fun i => v[i]?) v.length (by
      intro i hi
      obtain ⟨t, t1, t2⟩ := h3 (toB v[i]) (hv _ (List.getElem_mem hi))
      refine ⟨v[i], t, List.getElem?_eq_getElem hi, t1, ?_⟩
      rw [t2, List.getD_eq_getElem _ _ (by simpa using hi), List.getElem_map])
    order (ho.nodup_iff.2 List.nodup_range) (fun i hi => List.mem_range.1 (ho.subset hi))
    (List.replicate v.length t00) (by simp)
  refine ⟨res, ?_, ?_⟩
  · subst h2; exact r1
  · rw [batch_map r2 order ho r3]
    apply List.ext_getElem (by simp)
    intro i h4 h5
    simp only [List.getElem_map, List.getElem_range]
    rw [List.getD_eq_getElem _ _ h5, List.getElem_map]

/-- **C32.** `batch_exp_with_coeff`: entry `i` is `(coeff · v[i]) · g`. -/
theorem C32_batch_exp_with_coeff [Mul S] (hG : ImplementsGroup ψ) (scalarSize window : Nat) (hw : 1 ≤ window)
    (hw2 : window ≤ 32) (hs : 1 ≤ scalarSize) (g : G) (T : List (List G))
    (hT : getWindowTable scalarSize window g = .ok T) (coeff : S)
    (v : List S) (hv : ∀ s ∈ v, val (toB (coeff * s)) < 2 ^ scalarSize) (order : List Nat)
    (ho : order.Perm (List.range v.length)) :
    ∃ res, batchExpWithCoeff toB scalarSize window T order coeff v = .ok res ∧
      res.map ψ = v.map fun s => val (toB (coeff * s)) • ψ g := by
  obtain ⟨T', t00, row, rest, h1, h2, h3⟩ := windowedExp_spec hG scalarSize window hw hw2 hs g
  rw [h1] at hT
  obtain rfl := Outcome.ok.inj hT
  obtain ⟨res, r1, r2, r3, _⟩ := runBatch_spec (toB := toB)
    (P := fun i t => ψ t = (v.map fun s => val (toB (coeff * s)) • ψ g).getD i 0)
    scalarSize window T' (fun i => v[i]?.map (coeff * ·)) v.length (by
      intro i hi
      obtain ⟨t, t1, t2⟩ := h3 (toB (coeff * v[i])) (hv _ (List.getElem_mem hi))
      refine ⟨coeff * v[i], t, by rw [List.getElem?_eq_getElem hi]; rfl, t1, ?_⟩
      rw [t2, List.getD_eq_getElem _ _ (by simpa using hi), List.getElem_map])
    order (ho.nodup_iff.2 List.nodup_range) (fun i hi => List.mem_range.1 (ho.subset hi))
    (List.replicate v.length t00) (by simp)
  refine ⟨res, ?_, ?_⟩
  · subst h2; exact r1
  · rw [batch_map r2 order ho r3]
    apply List.ext_getElem (by simp)
    intro i h4 h5
    simp only [List.getElem_map, List.getElem_range]
    rw [List.getD_eq_getElem _ _ h5, List.getElem_map]

end

example : ∃ T, getWindowTable (G := IntGroup) 10 3 (7 : Int) = .ok T ∧
    batchExp toyB 10 3 T [1, 2, 0] [5, 1000, 64] = .ok [35, 7000, 448] ∧
    batchExpWithCoeff toyB 10 3 T [1, 2, 0] 2 [5, 300, 64] = .ok [70, 4200, 896] := by
  refine ⟨_, rfl, ?_, ?_⟩ <;> decide +kernel

/-! ## C33: batch normalisation, the generic part -/

/-- **C33.** `batch_to_special`: every entry keeps denoting the same group element, zeros keep their places
and every entry ends up special, provided the curve's routine for vectors without zeros does so and
`to_special` of zero is a special zero. -/
theorem C33_batch_to_special {G A : Type*} [GroupOps G] [AddCommGroup A] {ψ : G → A} (hG : ImplementsGroup ψ)
    (Special : G → Prop) (isZero : G → Bool) (hz : ∀ g, isZero g = true ↔ ψ g = 0)
    (toSpecial : G → Outcome G)
    (hsp : ∃ z, toSpecial zero = .ok z ∧ ψ z = ψ zero ∧ Special z)
    (batchNZ : List G → Outcome (List G))
    (hnz : ∀ l, (∀ g ∈ l, ψ g ≠ 0) → ∃ l', batchNZ l = .ok l' ∧ l'.map ψ = l.map ψ ∧ ∀ x ∈ l', Special x)
    (vec : List G) :
    ∃ l, batchToSpecial isZero toSpecial batchNZ vec = .ok l ∧ l.map ψ = vec.map ψ ∧ ∀ x ∈ l, Special x := by
  obtain ⟨z, z1, z2, z3⟩ := hsp
  obtain ⟨nz, n1, n2, n3⟩ := hnz (vec.filter fun v => !isZero v) (by
    intro g hg h
    have := (List.mem_filter.1 hg).2
    rw [(hz g).2 h] at this
    simp at this)
  unfold batchToSpecial
  rw [n1, Outcome.bind_ok, z1, Outcome.bind_ok]
  exact writeBack_spec ψ 0 Special isZero z (by rw [z2, hG.zero]) z3 vec (fun v _ => (hz v).1) nz n2 n3

example : batchToSpecial (G := IntGroup) (· == 0) .ok .ok [(5 : Int), 0, 0, -3, 0] = .ok [5, 0, 0, -3, 0] := by
  decide +kernel

/-! ## C34: batch inversion -/

/-- **C34.** `batch_invert` on any vector without zeros replaces every element by its inverse. -/
theorem C34_batch_invert {K : Type*} [Field K] [DecidableEq K] [InverseO K] [LawfulInverse K] (debug : Bool)
    (vec : List K) (h : ∀ x ∈ vec, x ≠ 0) :
    ∃ res, batchInvert debug vec = .ok res ∧ res.length = vec.length ∧
      ∀ i (h1 : i < vec.length) (h2 : i < res.length), vec[i] * res[i] = 1 := by
  have hp : vec.prod ≠ 0 := List.prod_ne_zero (fun h0 => h 0 h0 rfl)
  refine ⟨vec.map (·⁻¹), ?_, by simp, ?_⟩
  · unfold batchInvert
    rw [batchProducts_eq debug vec h, Outcome.bind_ok]
    simp only
    rw [LawfulInverse.inverseO_ne _ (mul_ne_zero one_ne_zero hp), Outcome.map_ok,
      batchBack_prefProds vec h 1 one_ne_zero]
  · intro i h1 h2
    rw [List.getElem_map]
    exact mul_inv_cancel₀ (h _ (List.getElem_mem h1))

/-- **C34.** A zero anywhere in the vector is refused by the assertion. -/
theorem C34_zero_refused {K : Type*} [Field K] [DecidableEq K] [InverseO K] (vec : List K) (h : (0 : K) ∈ vec) :
    batchInvert true vec = .abort := by
  unfold batchInvert
  rw [batchProducts_zero vec h]
  rfl

section
open Witness

example : ∀ x ∈ [(2 : ZMod 7), 3, 6], x ≠ 0 := by decide

example : batchInvert true [(2 : ZMod 7), 3, 6] = .ok [4, 5, 6] := by decide +kernel

end

end Libff
