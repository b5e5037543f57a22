import Verif.Lemmas.InPlaceAsm
import Verif.Lemmas.Witness

/-!
# C78: the assigning operators work in place, also when both operands are the same object

`a += b`, `a -= b`, `a *= b`, `a.square()` on objects in memory: the object `a` holds the sum, difference, product, square of the values
before, also in `a += a` and `a *= a`, and nothing else in memory changes (`AssignsTo`, `Replaces` in `Verif/Spec/InPlace.lean`). What `+`, `-`, `*`
stand for is the subject of C01, C02, C05 and C41.
-/
namespace Libff
open X86

/-! ## Binary fields -/

/-- C78. `+=` and `-=` (the same code) of the five binary fields. -/
theorem C78_binary_add : AssignsTo 1 (fun x : GF32 => [x.value]) (· + ·) GF32.addTo ∧ AssignsTo 1 (fun x : GF64 => [x.value]) (· + ·) GF64.addTo ∧
    AssignsTo 2 (fun x : GF128 => [x.v0, x.v1]) (· + ·) GF128.addTo ∧ AssignsTo 3 (fun x : GF192 => [x.v0, x.v1, x.v2]) (· + ·) GF192.addTo ∧
    AssignsTo 4 (fun x : GF256 => [x.v0, x.v1, x.v2, x.v3]) (· + ·) GF256.addTo :=
  ⟨GF32.addTo_eq, GF64.addTo_eq, GF128.addTo_eq, GF192.addTo_eq, GF256.addTo_eq⟩

/-- C78. `-=` gives the difference. -/
theorem C78_binary_sub : AssignsTo 1 (fun x : GF32 => [x.value]) (· - ·) GF32.addTo ∧ AssignsTo 1 (fun x : GF64 => [x.value]) (· - ·) GF64.addTo ∧
    AssignsTo 2 (fun x : GF128 => [x.v0, x.v1]) (· - ·) GF128.addTo ∧ AssignsTo 3 (fun x : GF192 => [x.v0, x.v1, x.v2]) (· - ·) GF192.addTo ∧
    AssignsTo 4 (fun x : GF256 => [x.v0, x.v1, x.v2, x.v3]) (· - ·) GF256.addTo :=
  ⟨GF32.addTo_eq, GF64.addTo_eq, GF128.addTo_eq, GF192.addTo_eq, GF256.addTo_eq⟩

/-- C78. `*=`, the portable loops, which read `*this` and `other` bit by bit. -/
theorem C78_binary_mul : AssignsTo 1 (fun x : GF32 => [x.value]) (· * ·) GF32.mulTo ∧ AssignsTo 1 (fun x : GF64 => [x.value]) (· * ·) GF64.mulTo ∧
    AssignsTo 2 (fun x : GF128 => [x.v0, x.v1]) (· * ·) GF128.mulTo ∧ AssignsTo 3 (fun x : GF192 => [x.v0, x.v1, x.v2]) (· * ·) GF192.mulTo ∧
    AssignsTo 4 (fun x : GF256 => [x.v0, x.v1, x.v2, x.v3]) (· * ·) GF256.mulTo :=
  ⟨GF32.mulTo_eq, GF64.mulTo_eq, GF128.mulTo_eq, GF192.mulTo_eq, GF256.mulTo_eq⟩

/-- C78. `*=` with the carry-less multiplication instructions, for `gf256` in both variants. -/
theorem C78_binary_mul_asm (karatsuba : Bool) : AssignsTo 1 (fun x : GF64 => [x.value]) (· * ·) GF64.mulToAsm ∧
    AssignsTo 2 (fun x : GF128 => [x.v0, x.v1]) (· * ·) GF128.mulToAsm ∧ AssignsTo 3 (fun x : GF192 => [x.v0, x.v1, x.v2]) (· * ·) GF192.mulToAsm ∧
    AssignsTo 4 (fun x : GF256 => [x.v0, x.v1, x.v2, x.v3]) (· * ·) (GF256.mulToAsm karatsuba) :=
  ⟨GF64.mulToAsm_eq, GF128.mulToAsm_eq, GF192.mulToAsm_eq, GF256.mulToAsm_eq karatsuba⟩

/-- C78. `square()`, which is `operator*=(*this)`. -/
theorem C78_binary_square (asm karatsuba : Bool) : Replaces 1 (fun x : GF32 => [x.value]) (fun x => x * x) GF32.square ∧
    Replaces 1 (fun x : GF64 => [x.value]) (fun x => x * x) (GF64.square asm) ∧
    Replaces 2 (fun x : GF128 => [x.v0, x.v1]) (fun x => x * x) (GF128.square asm) ∧
    Replaces 3 (fun x : GF192 => [x.v0, x.v1, x.v2]) (fun x => x * x) (GF192.square asm) ∧
    Replaces 4 (fun x : GF256 => [x.v0, x.v1, x.v2, x.v3]) (fun x => x * x) (GF256.square asm karatsuba) :=
  ⟨GF32.square_eq, GF64.square_eq asm, GF128.square_eq asm, GF192.square_eq asm, GF256.square_eq asm karatsuba⟩

/-- `a += a`, `a *= b` and `a *= a` in a memory that holds `c + 2` in cell `c`: the elements `x ^ 64 + ...` with words `(5, 6)` and `(7, 8)`. -/
example : (GF128.addTo 3 3 fun c => BitVec.ofNat 64 (c + 2)).map (·.words 0 8) = .ok [2, 3, 4, 0, 0, 7, 8, 9] ∧
    (GF128.addTo 3 5 fun c => BitVec.ofNat 64 (c + 2)).map (·.words 0 8) = .ok [2, 3, 4, 5 ^^^ 7, 6 ^^^ 8, 7, 8, 9] ∧
    (GF128.mulTo 3 3 fun c => BitVec.ofNat 64 (c + 2)).map (·.words 0 8) = .ok ([2, 3, 4] ++ GF128.cells (⟨5, 6⟩ * ⟨5, 6⟩) ++ [7, 8, 9]) ∧
    (GF256.mulToAsm true 1 1 fun c => BitVec.ofNat 64 (c + 2)).map (·.words 0 6)
      = .ok ([2] ++ GF256.cells (⟨3, 4, 5, 6⟩ * ⟨3, 4, 5, 6⟩) ++ [7]) := by decide +kernel

/-! ## Prime fields -/

section Prime
variable (P : FpParams) [hP : Fact P.Valid]

/-- C78. `+=`, `-=`, `*=` of `Fp_model`, portable code. -/
theorem C78_fp : AssignsTo P.n Fp.repr (· + · : Fp P → Fp P → Fp P) (FpMem.addTo P) ∧ AssignsTo P.n Fp.repr (· - · : Fp P → Fp P → Fp P) (FpMem.subTo P) ∧
    AssignsTo P.n Fp.repr (· * · : Fp P → Fp P → Fp P) (FpMem.mulTo P) := ⟨FpMem.addTo_eq, FpMem.subTo_eq, FpMem.mulTo_eq⟩

/-- C78. `+=` and `-=` with the assembly, which works on `*this`, `other` and the modulus (at `q`) where they are in memory. `J` is what the registers
and flags contain before. -/
theorem C78_fp_asm (J : Junk) (q this other : Nat) (h : Heap Limb) (x y : Fp P) (hq : h.words q P.n = P.modulus)
    (hx : h.words this P.n = x.repr) (hy : h.words other P.n = y.repr) :
    (∃ h', FpMem.addToAsm P J q this other h = .ok h' ∧ h'.words this P.n = (x + y).repr ∧ OnlyChanges P.n this h h') ∧
    (∃ h', FpMem.subToAsm P J q this other h = .ok h' ∧ h'.words this P.n = (x - y).repr ∧ OnlyChanges P.n this h h') :=
  ⟨⟨_, FpMem.addToAsm_eq J q this other h x y hq hx hy, Heap.words_copy' (x + y).len h this, Heap.copy_onlyChanges (x + y).len h this⟩,
    ⟨_, FpMem.subToAsm_eq J q this other h x y hq hx hy, Heap.words_copy' (x - y).len h this, Heap.copy_onlyChanges (x - y).len h this⟩⟩

/-- C78. `*=` with the assembly, which computes in a local array with contents `t` before. -/
theorem C78_fp_asm_mul (J J2 J3 : Junk) (t : List Limb) (ht : t.length = if P.n = 3 then 6 else P.n + 1) :
    AssignsTo P.n Fp.repr (· * · : Fp P → Fp P → Fp P) (FpMem.mulToAsm P J J2 J3 t) := FpMem.mulToAsm_eq J J2 J3 t ht

end Prime

/-- C78. The assembly of the multiplication and of the squaring stores into the local array only: whatever the state before, `*this`, `other` and
the modulus (arrays 0, 1, 2) are the same after each `asm` statement. -/
theorem C78_asm_mul_frame (prog : List Instr)
    (hp : prog ∈ [COMBA_3_BY_3_MUL, COMBA_3_BY_3_SQR, REDUCE_6_LIMB_PRODUCT, condSubProg3, montProg4, montProg5]) (same : Bool) (o : Nat) (s s' : State)
    (h : exec (asmEnv same o) prog none s = .ok s') : s'.mem 0 = s.mem 0 ∧ s'.mem 1 = s.mem 1 ∧ s'.mem 2 = s.mem 2 := by
  have hw : prog.all (Instr.storesOnly fun p => p == .tmp || p == .res) = true := by
    simp only [List.mem_cons, List.not_mem_nil, or_false] at hp
    rcases hp with h | h | h | h | h | h <;> subst h <;> decide +kernel
  exact ⟨exec_frame_tmp same o prog hw s s' h 0 (by omega), exec_frame_tmp same o prog hw s s' h 1 (by omega),
    exec_frame_tmp same o prog hw s s' h 2 (by omega)⟩

/-- C78. The assembly of addition and subtraction stores into `*this` only. -/
theorem C78_asm_add_frame (prog : List Instr) (hp : prog ∈ [addProg3, addProg4, addProg5, subProg3, subProg4, subProg5]) (same : Bool) (o : Nat)
    (s s' : State) (h : exec (asmEnv same o) prog none s = .ok s') (b : Nat) (hb : b ≠ 0) : s'.mem b = s.mem b := by
  have hw : prog.all (Instr.storesOnly (· == .A)) = true := by
    simp only [List.mem_cons, List.not_mem_nil, or_false] at hp
    rcases hp with h | h | h | h | h | h <;> subst h <;> rfl
  exact exec_frame_A same o prog hw s s' h b hb

/-- A memory with the modulus of alt_bn128's `Fq` in the cells 0 to 3, `p - 1` in the cells 4 to 7 and 1 in the cells 8 to 11. -/
def sampleHeap : Heap Limb := fun c =>
  (alt_bn128_Fq_params.modulus ++ limbsOf 4 (alt_bn128_Fq_params.p - 1) ++ limbsOf 4 1).getD c 7

/-- `a += a` with `a = -1`, `a -= b` and `a -= a` with the assembly. -/
example : (FpMem.addToAsm alt_bn128_Fq_params junkOnes 0 4 4 sampleHeap).map (·.words 0 13)
      = .ok (alt_bn128_Fq_params.modulus ++ limbsOf 4 (alt_bn128_Fq_params.p - 2) ++ limbsOf 4 1 ++ [7]) ∧
    (FpMem.subToAsm alt_bn128_Fq_params junkOnes 0 8 4 sampleHeap).map (·.words 0 13)
      = .ok (alt_bn128_Fq_params.modulus ++ limbsOf 4 (alt_bn128_Fq_params.p - 1) ++ limbsOf 4 2 ++ [7]) ∧
    (FpMem.subToAsm alt_bn128_Fq_params junkOnes 0 4 4 sampleHeap).map (·.words 0 13)
      = .ok (alt_bn128_Fq_params.modulus ++ limbsOf 4 0 ++ limbsOf 4 1 ++ [7]) := by decide +kernel

/-! ## Extension fields -/

section Ext
variable {K : Type}

/-- C78. `+=`, `-=`, `*=` of `Fp2_model` and `Fp3_model`, for every base field: the code is `(*this) = *this + other` and so on, and the claim holds
for every operation in place of `+`. -/
theorem C78_fp2_fp3 (nr : K → K) (f : Quad K nr → Quad K nr → Quad K nr) (g : Cubic K nr → Cubic K nr → Cubic K nr) :
    AssignsTo 2 (fun x : Quad K nr => [x.c0, x.c1]) f (Layout.cell.quad.opTo f) ∧
    AssignsTo 3 (fun x : Cubic K nr => [x.c0, x.c1, x.c2]) g (Layout.cell.cubic.opTo g) :=
  ⟨(Layout.Lawful.cell (W := K)).quad.opTo f, (Layout.Lawful.cell (W := K)).cubic.opTo g⟩

/-- C78. The same for `Fp4_model` and the two models of the field of degree six. -/
theorem C78_fp4_fp6 (nr : K → K) (nr2 : Quad K nr → Quad K nr) (nr3 : Cubic K nr → Cubic K nr)
    (f : Quad (Quad K nr) nr2 → Quad (Quad K nr) nr2 → Quad (Quad K nr) nr2)
    (g : Quad (Cubic K nr) nr3 → Quad (Cubic K nr) nr3 → Quad (Cubic K nr) nr3)
    (k : Cubic (Quad K nr) nr2 → Cubic (Quad K nr) nr2 → Cubic (Quad K nr) nr2) :
    AssignsTo 4 (fun x : Quad (Quad K nr) nr2 => [x.c0.c0, x.c0.c1, x.c1.c0, x.c1.c1]) f (Layout.cell.quad.quad.opTo f) ∧
    AssignsTo 6 (fun x : Quad (Cubic K nr) nr3 => [x.c0.c0, x.c0.c1, x.c0.c2, x.c1.c0, x.c1.c1, x.c1.c2]) g (Layout.cell.cubic.quad.opTo g) ∧
    AssignsTo 6 (fun x : Cubic (Quad K nr) nr2 => [x.c0.c0, x.c0.c1, x.c1.c0, x.c1.c1, x.c2.c0, x.c2.c1]) k (Layout.cell.quad.cubic.opTo k) :=
  ⟨(Layout.Lawful.cell (W := K)).quad.quad.opTo f, (Layout.Lawful.cell (W := K)).cubic.quad.opTo g, (Layout.Lawful.cell (W := K)).quad.cubic.opTo k⟩

/-- C78. The same for `Fp12_2over3over2_model`. -/
theorem C78_fp12 (nr : K → K) (nr2 : Quad K nr → Quad K nr) (nr6 : Cubic (Quad K nr) nr2 → Cubic (Quad K nr) nr2)
    (f : Quad (Cubic (Quad K nr) nr2) nr6 → Quad (Cubic (Quad K nr) nr2) nr6 → Quad (Cubic (Quad K nr) nr2) nr6) :
    AssignsTo 12 (fun x : Quad (Cubic (Quad K nr) nr2) nr6 => [x.c0.c0.c0, x.c0.c0.c1, x.c0.c1.c0, x.c0.c1.c1, x.c0.c2.c0, x.c0.c2.c1,
      x.c1.c0.c0, x.c1.c0.c1, x.c1.c1.c0, x.c1.c1.c1, x.c1.c2.c0, x.c1.c2.c1]) f (Layout.cell.quad.cubic.quad.opTo f) :=
  (Layout.Lawful.cell (W := K)).quad.cubic.quad.opTo f

/-- C78. `square`, `invert`, `^=` and the like of `Fp12_2over3over2_model`: whatever the operation returns replaces `*this`. -/
theorem C78_fp12_replace (nr : K → K) (nr2 : Quad K nr → Quad K nr) (nr6 : Cubic (Quad K nr) nr2 → Cubic (Quad K nr) nr2)
    (f : Quad (Cubic (Quad K nr) nr2) nr6 → Outcome (Quad (Cubic (Quad K nr) nr2) nr6)) (this : Nat) (h : Heap K)
    (x r : Quad (Cubic (Quad K nr) nr2) nr6) (hx : h.words this 12 = Layout.cell.quad.cubic.quad.cells x) (hr : f x = .ok r) :
    ∃ h', Layout.cell.quad.cubic.quad.replace f this h = .ok h' ∧ h'.words this 12 = Layout.cell.quad.cubic.quad.cells r ∧ OnlyChanges 12 this h h' :=
  (Layout.Lawful.cell (W := K)).quad.cubic.quad.replace f this h x r hx hr

end Ext

/-- `a *= a` in `Fp2` over the integers modulo 7 with `-1` as the non-residue: `(3 + 4 i)² = -7 + 24 i = 3 i`. -/
example : (Layout.cell.quad.opTo (α := Quad (ZMod 7) fun x => -x) (· * ·) 1 1 fun c => ((c + 2 : Nat) : ZMod 7)).map (·.words 0 4)
    = .ok [2, 0, 3, 5] := by decide +kernel

end Libff
