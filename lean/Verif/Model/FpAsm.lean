import Verif.Model.FpAux
import Verif.Model.Fp

/-!
# `Fp_model` with `USE_ASM`

The code paths of fp.tcc under `#if defined(__x86_64__) && defined(USE_ASM)`.

Simplification: the C++ code passes `T0`, `T1`, `cy`, `u` as input operands of an `asm` statement that overwrites them (fp.tcc:62
"TODO: fix this"), which GCC's manual forbids. The model takes the statement to work on four registers of its own.
-/
namespace Libff
open X86

/-! ## The bodies of the `asm` statements -/

/-- fp.tcc:333-351. -/
def addProg3 : List Instr :=
  ADD_FIRSTADD ++ ADD_NEXTADD 8 ++ ADD_NEXTADD 16 ++
  [.jmp .carry .subtract] ++
  ADD_CMP 16 ++ ADD_CMP 8 ++ ADD_CMP 0 ++
  [.label .subtract] ++
  ADD_FIRSTSUB ++ ADD_NEXTSUB 8 ++ ADD_NEXTSUB 16 ++
  [.label .done]

/-- fp.tcc:359-380. -/
def addProg4 : List Instr :=
  ADD_FIRSTADD ++ ADD_NEXTADD 8 ++ ADD_NEXTADD 16 ++ ADD_NEXTADD 24 ++
  [.jmp .carry .subtract] ++
  ADD_CMP 24 ++ ADD_CMP 16 ++ ADD_CMP 8 ++ ADD_CMP 0 ++
  [.label .subtract] ++
  ADD_FIRSTSUB ++ ADD_NEXTSUB 8 ++ ADD_NEXTSUB 16 ++ ADD_NEXTSUB 24 ++
  [.label .done]

/-- fp.tcc:388-412. -/
def addProg5 : List Instr :=
  ADD_FIRSTADD ++ ADD_NEXTADD 8 ++ ADD_NEXTADD 16 ++ ADD_NEXTADD 24 ++ ADD_NEXTADD 32 ++
  [.jmp .carry .subtract] ++
  ADD_CMP 32 ++ ADD_CMP 24 ++ ADD_CMP 16 ++ ADD_CMP 8 ++ ADD_CMP 0 ++
  [.label .subtract] ++
  ADD_FIRSTSUB ++ ADD_NEXTSUB 8 ++ ADD_NEXTSUB 16 ++ ADD_NEXTSUB 24 ++ ADD_NEXTSUB 32 ++
  [.label .done]

/-- fp.tcc:450-460. -/
def subProg3 : List Instr :=
  SUB_FIRSTSUB ++ SUB_NEXTSUB 8 ++ SUB_NEXTSUB 16 ++
  [.jmp .noCarry .done] ++
  SUB_FIRSTADD ++ SUB_NEXTADD 8 ++ SUB_NEXTADD 16 ++
  [.label .done]

/-- fp.tcc:468-480. -/
def subProg4 : List Instr :=
  SUB_FIRSTSUB ++ SUB_NEXTSUB 8 ++ SUB_NEXTSUB 16 ++ SUB_NEXTSUB 24 ++
  [.jmp .noCarry .done] ++
  SUB_FIRSTADD ++ SUB_NEXTADD 8 ++ SUB_NEXTADD 16 ++ SUB_NEXTADD 24 ++
  [.label .done]

/-- fp.tcc:488-502. -/
def subProg5 : List Instr :=
  SUB_FIRSTSUB ++ SUB_NEXTSUB 8 ++ SUB_NEXTSUB 16 ++ SUB_NEXTSUB 24 ++ SUB_NEXTSUB 32 ++
  [.jmp .noCarry .done] ++
  SUB_FIRSTADD ++ SUB_NEXTADD 8 ++ SUB_NEXTADD 16 ++ SUB_NEXTADD 24 ++ SUB_NEXTADD 32 ++
  [.label .done]

/-- fp.tcc:64-96. -/
def montProg4 : List Instr :=
  MONT_PRECOMPUTE ++ MONT_FIRSTITER 1 ++ MONT_FIRSTITER 2 ++ MONT_FIRSTITER 3 ++ MONT_FINALIZE 3 ++
  MONT_ITERFIRST 1 ++ MONT_ITERITER 1 1 ++ MONT_ITERITER 1 2 ++ MONT_ITERITER 1 3 ++ MONT_FINALIZE 3 ++
  MONT_ITERFIRST 2 ++ MONT_ITERITER 2 1 ++ MONT_ITERITER 2 2 ++ MONT_ITERITER 2 3 ++ MONT_FINALIZE 3 ++
  MONT_ITERFIRST 3 ++ MONT_ITERITER 3 1 ++ MONT_ITERITER 3 2 ++ MONT_ITERITER 3 3 ++ MONT_FINALIZE 3 ++
  MONT_CMP 24 ++ MONT_CMP 16 ++ MONT_CMP 8 ++ MONT_CMP 0 ++
  [.label .subtract] ++
  MONT_FIRSTSUB ++ MONT_NEXTSUB 8 ++ MONT_NEXTSUB 16 ++ MONT_NEXTSUB 24 ++
  [.label .done]

/-- fp.tcc:110-154. -/
def montProg5 : List Instr :=
  MONT_PRECOMPUTE ++ MONT_FIRSTITER 1 ++ MONT_FIRSTITER 2 ++ MONT_FIRSTITER 3 ++ MONT_FIRSTITER 4 ++ MONT_FINALIZE 4 ++
  MONT_ITERFIRST 1 ++ MONT_ITERITER 1 1 ++ MONT_ITERITER 1 2 ++ MONT_ITERITER 1 3 ++ MONT_ITERITER 1 4 ++ MONT_FINALIZE 4 ++
  MONT_ITERFIRST 2 ++ MONT_ITERITER 2 1 ++ MONT_ITERITER 2 2 ++ MONT_ITERITER 2 3 ++ MONT_ITERITER 2 4 ++ MONT_FINALIZE 4 ++
  MONT_ITERFIRST 3 ++ MONT_ITERITER 3 1 ++ MONT_ITERITER 3 2 ++ MONT_ITERITER 3 3 ++ MONT_ITERITER 3 4 ++ MONT_FINALIZE 4 ++
  MONT_ITERFIRST 4 ++ MONT_ITERITER 4 1 ++ MONT_ITERITER 4 2 ++ MONT_ITERITER 4 3 ++ MONT_ITERITER 4 4 ++ MONT_FINALIZE 4 ++
  MONT_CMP 32 ++ MONT_CMP 24 ++ MONT_CMP 16 ++ MONT_CMP 8 ++ MONT_CMP 0 ++
  [.label .subtract] ++
  MONT_FIRSTSUB ++ MONT_NEXTSUB 8 ++ MONT_NEXTSUB 16 ++ MONT_NEXTSUB 24 ++ MONT_NEXTSUB 32 ++
  [.label .done]

/-- fp.tcc:42-52,636-646. -/
def condSubProg3 : List Instr :=
  MONT_CMP 16 ++ MONT_CMP 8 ++ MONT_CMP 0 ++
  [.label .subtract] ++
  MONT_FIRSTSUB ++ MONT_NEXTSUB 8 ++ MONT_NEXTSUB 16 ++
  [.label .done]

/-! ## The functions -/

/-- What the registers and flags contain when an `asm` statement begins, apart from the operands that are bound to values. -/
structure Junk where
  reg : Reg → Limb
  cf : Bool
  zf : Option Bool

/-- The state at the beginning of an `asm` statement. -/
def Junk.start (J : Junk) (binds : List (Reg × Limb)) (mem : Nat → List Limb) : State :=
  ⟨fun r => (binds.lookup r).getD (J.reg r), mem, J.cf, J.zf⟩

/-- The arrays: `this->mont_repr.data`, `other.data`, `modulus.data`, and the local array `tmp` or `res`. -/
def asmMem (a b m t : List Limb) : Nat → List Limb
  | 0 => a
  | 1 => b
  | 2 => m
  | _ => t

/-- The address operands. `same` says whether `other` is the object `*this` itself; `o` is the index in the local array that the
operand `tmp` points to. -/
def asmEnv (same : Bool) (o : Nat) : Env
  | .A => (0, 0)
  | .B => (if same then 0 else 1, 0)
  | .mod => (2, 0)
  | .M => (2, 0)
  | .tmp => (3, o)
  | .res => (3, 0)

/-- `Fp_model::operator+=` with `USE_ASM`, fp.tcc:325-439. -/
def asmAddAssign (P : FpParams) (J : Junk) (same : Bool) (a b : List Limb) : Outcome (List Limb) :=
  let go (prog : List Instr) : Outcome (List Limb) :=
    (exec (asmEnv same 0) prog none (J.start [] (asmMem a b P.modulus []))).map (·.mem 0)
  if P.n = 3 then go addProg3 else if P.n = 4 then go addProg4 else if P.n = 5 then go addProg5 else addAssign P a b

/-- `Fp_model::operator-=` with `USE_ASM`, fp.tcc:441-533. -/
def asmSubAssign (P : FpParams) (J : Junk) (same : Bool) (a b : List Limb) : Outcome (List Limb) :=
  let go (prog : List Instr) : Outcome (List Limb) :=
    (exec (asmEnv same 0) prog none (J.start [] (asmMem a b P.modulus []))).map (·.mem 0)
  if P.n = 3 then go subProg3 else if P.n = 4 then go subProg4 else if P.n = 5 then go subProg5 else subAssign P a b

/-- The second and third `asm` statements of the code for three limbs, fp.tcc:36-56 (and 630-652), followed by
`mpn_copyi(..., res+n, n)`. -/
def asmReduce3 (P : FpParams) (J2 J3 : Junk) (mem : Nat → List Limb) : Outcome (List Limb) :=
  (exec (asmEnv false 0) REDUCE_6_LIMB_PRODUCT none (J2.start [(.modprime, P.inv)] mem)).bind fun s =>
    (exec (asmEnv false 3) condSubProg3 none (J3.start [] s.mem)).map fun s => (s.mem 3).drop 3

/-- `Fp_model::mul_reduce` with `USE_ASM`, fp.tcc:25-195. `t` is the initial content of the uninitialised array `tmp` (or `res`). -/
def asmMulReduce (P : FpParams) (J J2 J3 : Junk) (t : List Limb) (same : Bool) (a b : List Limb) : Outcome (List Limb) :=
  if P.n = 3 then
    (exec (asmEnv same 0) COMBA_3_BY_3_MUL none (J.start [] (asmMem a b P.modulus t))).bind fun s => asmReduce3 P J2 J3 s.mem
  else
    let go (prog : List Instr) : Outcome (List Limb) :=
      (exec (asmEnv same 0) prog none
        (J.start [(.inv, P.inv), (.T0, 0), (.T1, 1), (.cy, 2), (.u, 3)] (asmMem a b P.modulus t))).map fun s => (s.mem 3).take P.n
    if P.n = 4 then go montProg4 else if P.n = 5 then go montProg5 else mulReduce P a b

/-- `Fp_model::squared` with `USE_ASM`, fp.tcc:615-661. -/
def asmSquared (P : FpParams) (J J2 J3 : Junk) (t : List Limb) (a : List Limb) : Outcome (List Limb) :=
  if P.n = 3 then
    (exec (asmEnv true 0) COMBA_3_BY_3_SQR none (J.start [] (asmMem a a P.modulus t))).bind fun s => asmReduce3 P J2 J3 s.mem
  else asmMulReduce P J J2 J3 t true a a

end Libff
