import Verif.Model.X86

/-!
# The assembly macros of `fp_aux.tcc`

Each definition is the sequence of instructions of the macro of the same name, in the same order and with the same operands.
-/
namespace Libff.X86

/-- `ADD_FIRSTADD`, fp_aux.tcc:22-24. -/
def ADD_FIRSTADD : List Instr := [
  .movq (.m 0 .B) (.r .rax),
  .addq (.r .rax) (.m 0 .A)]

/-- `ADD_NEXTADD`, fp_aux.tcc:26-28. -/
def ADD_NEXTADD (ofs : Nat) : List Instr := [
  .movq (.m ofs .B) (.r .rax),
  .adcq (.r .rax) (.m ofs .A)]

/-- `ADD_CMP`, fp_aux.tcc:30-34. -/
def ADD_CMP (ofs : Nat) : List Instr := [
  .movq (.m ofs .mod) (.r .rax),
  .cmpq (.r .rax) (.m ofs .A),
  .jmp .carry .done,
  .jmp .above .subtract]

/-- `ADD_FIRSTSUB`, fp_aux.tcc:36-38. -/
def ADD_FIRSTSUB : List Instr := [
  .movq (.m 0 .mod) (.r .rax),
  .subq (.r .rax) (.m 0 .A)]

/-- `ADD_NEXTSUB`, fp_aux.tcc:44-46. -/
def ADD_NEXTSUB (ofs : Nat) : List Instr := [
  .movq (.m ofs .mod) (.r .rax),
  .sbbq (.r .rax) (.m ofs .A)]

/-- `SUB_FIRSTSUB`, fp_aux.tcc:48-50. -/
def SUB_FIRSTSUB : List Instr := [
  .movq (.m 0 .B) (.r .rax),
  .subq (.r .rax) (.m 0 .A)]

/-- `SUB_NEXTSUB`, fp_aux.tcc:52-54. -/
def SUB_NEXTSUB (ofs : Nat) : List Instr := [
  .movq (.m ofs .B) (.r .rax),
  .sbbq (.r .rax) (.m ofs .A)]

/-- `SUB_FIRSTADD`, fp_aux.tcc:56-58. -/
def SUB_FIRSTADD : List Instr := [
  .movq (.m 0 .mod) (.r .rax),
  .addq (.r .rax) (.m 0 .A)]

/-- `SUB_NEXTADD`, fp_aux.tcc:60-62. -/
def SUB_NEXTADD (ofs : Nat) : List Instr := [
  .movq (.m ofs .mod) (.r .rax),
  .adcq (.r .rax) (.m ofs .A)]

/-- `MONT_CMP`, fp_aux.tcc:64-68. -/
def MONT_CMP (ofs : Nat) : List Instr := [
  .movq (.m ofs .M) (.r .rax),
  .cmpq (.r .rax) (.m ofs .tmp),
  .jmp .carry .done,
  .jmp .above .subtract]

/-- `MONT_FIRSTSUB`, fp_aux.tcc:70-72. -/
def MONT_FIRSTSUB : List Instr := [
  .movq (.m 0 .M) (.r .rax),
  .subq (.r .rax) (.m 0 .tmp)]

/-- `MONT_NEXTSUB`, fp_aux.tcc:74-76. -/
def MONT_NEXTSUB (ofs : Nat) : List Instr := [
  .movq (.m ofs .M) (.r .rax),
  .sbbq (.r .rax) (.m ofs .tmp)]

/-- `MONT_PRECOMPUTE`, fp_aux.tcc:85-96. -/
def MONT_PRECOMPUTE : List Instr := [
  .xorq (.r .cy) (.r .cy),
  .movq (.m 0 .A) (.r .rax),
  .mulq (.m 0 .B),
  .movq (.r .rax) (.r .T0),
  .movq (.r .rdx) (.r .T1),
  .mulq (.r .inv),
  .movq (.r .rax) (.r .u),
  .mulq (.m 0 .M),
  .addq (.r .T0) (.r .rax),
  .adcq (.r .rdx) (.r .T1),
  .adcq (.i 0) (.r .cy)]

/-- `MONT_FIRSTITER`, fp_aux.tcc:98-113. -/
def MONT_FIRSTITER (j : Nat) : List Instr := [
  .xorq (.r .T0) (.r .T0),
  .movq (.m 0 .A) (.r .rax),
  .mulq (.m (j * 8) .B),
  .addq (.r .T1) (.r .rax),
  .movq (.r .rax) (.m ((j - 1) * 8) .tmp),
  .adcq (.i 0) (.r .rdx),
  .movq (.r .rdx) (.r .T1),
  .movq (.m (j * 8) .M) (.r .rax),
  .mulq (.r .u),
  .addq (.r .rax) (.m ((j - 1) * 8) .tmp),
  .adcq (.r .cy) (.r .rdx),
  .adcq (.i 0) (.r .T0),
  .xorq (.r .cy) (.r .cy),
  .addq (.r .rdx) (.r .T1),
  .adcq (.r .T0) (.r .cy)]

/-- `MONT_ITERFIRST`, fp_aux.tcc:115-129. -/
def MONT_ITERFIRST (i : Nat) : List Instr := [
  .xorq (.r .cy) (.r .cy),
  .movq (.m (i * 8) .A) (.r .rax),
  .mulq (.m 0 .B),
  .addq (.m 0 .tmp) (.r .rax),
  .adcq (.m 8 .tmp) (.r .rdx),
  .adcq (.i 0) (.r .cy),
  .movq (.r .rax) (.r .T0),
  .movq (.r .rdx) (.r .T1),
  .mulq (.r .inv),
  .movq (.r .rax) (.r .u),
  .mulq (.m 0 .M),
  .addq (.r .T0) (.r .rax),
  .adcq (.r .rdx) (.r .T1),
  .adcq (.i 0) (.r .cy)]

/-- `MONT_ITERITER`, fp_aux.tcc:131-148. -/
def MONT_ITERITER (i : Nat) (j : Nat) : List Instr := [
  .xorq (.r .T0) (.r .T0),
  .movq (.m (i * 8) .A) (.r .rax),
  .mulq (.m (j * 8) .B),
  .addq (.r .T1) (.r .rax),
  .movq (.r .rax) (.m ((j - 1) * 8) .tmp),
  .adcq (.i 0) (.r .rdx),
  .movq (.r .rdx) (.r .T1),
  .movq (.m (j * 8) .M) (.r .rax),
  .mulq (.r .u),
  .addq (.r .rax) (.m ((j - 1) * 8) .tmp),
  .adcq (.r .cy) (.r .rdx),
  .adcq (.i 0) (.r .T0),
  .xorq (.r .cy) (.r .cy),
  .addq (.r .rdx) (.r .T1),
  .adcq (.r .T0) (.r .cy),
  .addq (.m ((j + 1) * 8) .tmp) (.r .T1),
  .adcq (.i 0) (.r .cy)]

/-- `MONT_FINALIZE`, fp_aux.tcc:150-152. -/
def MONT_FINALIZE (j : Nat) : List Instr := [
  .movq (.r .T1) (.m (j * 8) .tmp),
  .movq (.r .cy) (.m ((j + 1) * 8) .tmp)]

/-- `COMBA_3_BY_3_MUL`, fp_aux.tcc:165-232. -/
def COMBA_3_BY_3_MUL : List Instr := [
  .movq (.m 0 .A) (.r .rax),
  .mulq (.m 0 .B),
  .movq (.r .rax) (.m 0 .res),
  .movq (.r .rdx) (.r .c0),
  .xorq (.r .c1) (.r .c1),
  .movq (.m 0 .A) (.r .rax),
  .mulq (.m 8 .B),
  .addq (.r .rax) (.r .c0),
  .adcq (.r .rdx) (.r .c1),
  .xorq (.r .c2) (.r .c2),
  .movq (.m 8 .A) (.r .rax),
  .mulq (.m 0 .B),
  .addq (.r .rax) (.r .c0),
  .movq (.r .c0) (.m 8 .res),
  .adcq (.r .rdx) (.r .c1),
  .adcq (.i 0) (.r .c2),
  .xorq (.r .c0) (.r .c0),
  .movq (.m 0 .A) (.r .rax),
  .mulq (.m 16 .B),
  .addq (.r .rax) (.r .c1),
  .adcq (.r .rdx) (.r .c2),
  .adcq (.i 0) (.r .c0),
  .movq (.m 8 .A) (.r .rax),
  .mulq (.m 8 .B),
  .addq (.r .rax) (.r .c1),
  .adcq (.r .rdx) (.r .c2),
  .adcq (.i 0) (.r .c0),
  .movq (.m 16 .A) (.r .rax),
  .mulq (.m 0 .B),
  .addq (.r .rax) (.r .c1),
  .movq (.r .c1) (.m 16 .res),
  .adcq (.r .rdx) (.r .c2),
  .adcq (.i 0) (.r .c0),
  .xorq (.r .c1) (.r .c1),
  .movq (.m 8 .A) (.r .rax),
  .mulq (.m 16 .B),
  .addq (.r .rax) (.r .c2),
  .adcq (.r .rdx) (.r .c0),
  .adcq (.i 0) (.r .c1),
  .movq (.m 16 .A) (.r .rax),
  .mulq (.m 8 .B),
  .addq (.r .rax) (.r .c2),
  .movq (.r .c2) (.m 24 .res),
  .adcq (.r .rdx) (.r .c0),
  .adcq (.i 0) (.r .c1),
  .xorq (.r .c2) (.r .c2),
  .movq (.m 16 .A) (.r .rax),
  .mulq (.m 16 .B),
  .addq (.r .rax) (.r .c0),
  .movq (.r .c0) (.m 32 .res),
  .adcq (.r .rdx) (.r .c1),
  .movq (.r .c1) (.m 40 .res)]

/-- `COMBA_3_BY_3_SQR`, fp_aux.tcc:234-292. -/
def COMBA_3_BY_3_SQR : List Instr := [
  .xorq (.r .c1) (.r .c1),
  .xorq (.r .c2) (.r .c2),
  .movq (.m 0 .A) (.r .rax),
  .mulq (.r .rax),
  .movq (.r .rax) (.m 0 .res),
  .movq (.r .rdx) (.r .c0),
  .movq (.m 0 .A) (.r .rax),
  .mulq (.m 8 .A),
  .addq (.r .rax) (.r .c0),
  .adcq (.r .rdx) (.r .c1),
  .addq (.r .rax) (.r .c0),
  .movq (.r .c0) (.m 8 .res),
  .adcq (.r .rdx) (.r .c1),
  .adcq (.i 0) (.r .c2),
  .movq (.m 0 .A) (.r .rax),
  .xorq (.r .c0) (.r .c0),
  .mulq (.m 16 .A),
  .addq (.r .rax) (.r .c1),
  .adcq (.r .rdx) (.r .c2),
  .adcq (.i 0) (.r .c0),
  .addq (.r .rax) (.r .c1),
  .adcq (.r .rdx) (.r .c2),
  .adcq (.i 0) (.r .c0),
  .movq (.m 8 .A) (.r .rax),
  .mulq (.r .rax),
  .addq (.r .rax) (.r .c1),
  .movq (.r .c1) (.m 16 .res),
  .adcq (.r .rdx) (.r .c2),
  .adcq (.i 0) (.r .c0),
  .movq (.m 8 .A) (.r .rax),
  .xorq (.r .c1) (.r .c1),
  .mulq (.m 16 .A),
  .addq (.r .rax) (.r .c2),
  .adcq (.r .rdx) (.r .c0),
  .adcq (.i 0) (.r .c1),
  .addq (.r .rax) (.r .c2),
  .movq (.r .c2) (.m 24 .res),
  .adcq (.r .rdx) (.r .c0),
  .adcq (.i 0) (.r .c1),
  .movq (.m 16 .A) (.r .rax),
  .mulq (.r .rax),
  .addq (.r .rax) (.r .c0),
  .movq (.r .c0) (.m 32 .res),
  .adcq (.r .rdx) (.r .c1),
  .movq (.r .c1) (.m 40 .res)]

/-- `REDUCE_6_LIMB_PRODUCT`, fp_aux.tcc:299-386. -/
def REDUCE_6_LIMB_PRODUCT : List Instr := [
  .movq (.m 0 .res) (.r .rax),
  .mulq (.r .modprime),
  .movq (.r .rax) (.r .k),
  .movq (.m 0 .mod) (.r .rax),
  .mulq (.r .k),
  .movq (.r .rax) (.r .tmp1),
  .movq (.r .rdx) (.r .tmp2),
  .xorq (.r .tmp3) (.r .tmp3),
  .movq (.m 8 .mod) (.r .rax),
  .mulq (.r .k),
  .addq (.r .tmp1) (.m 0 .res),
  .adcq (.r .rax) (.r .tmp2),
  .adcq (.r .rdx) (.r .tmp3),
  .xorq (.r .tmp1) (.r .tmp1),
  .movq (.m 16 .mod) (.r .rax),
  .mulq (.r .k),
  .addq (.r .tmp2) (.m 8 .res),
  .adcq (.r .rax) (.r .tmp3),
  .adcq (.r .rdx) (.r .tmp1),
  .addq (.r .tmp3) (.m 16 .res),
  .adcq (.r .tmp1) (.m 24 .res),
  .adcq (.i 0) (.m 32 .res),
  .adcq (.i 0) (.m 40 .res),
  .movq (.m 8 .res) (.r .rax),
  .mulq (.r .modprime),
  .movq (.r .rax) (.r .k),
  .movq (.m 0 .mod) (.r .rax),
  .mulq (.r .k),
  .movq (.r .rax) (.r .tmp1),
  .movq (.r .rdx) (.r .tmp2),
  .xorq (.r .tmp3) (.r .tmp3),
  .movq (.m 8 .mod) (.r .rax),
  .mulq (.r .k),
  .addq (.r .tmp1) (.m 8 .res),
  .adcq (.r .rax) (.r .tmp2),
  .adcq (.r .rdx) (.r .tmp3),
  .xorq (.r .tmp1) (.r .tmp1),
  .movq (.m 16 .mod) (.r .rax),
  .mulq (.r .k),
  .addq (.r .tmp2) (.m 16 .res),
  .adcq (.r .rax) (.r .tmp3),
  .adcq (.r .rdx) (.r .tmp1),
  .addq (.r .tmp3) (.m 24 .res),
  .adcq (.r .tmp1) (.m 32 .res),
  .adcq (.i 0) (.m 40 .res),
  .movq (.m 16 .res) (.r .rax),
  .mulq (.r .modprime),
  .movq (.r .rax) (.r .k),
  .movq (.m 0 .mod) (.r .rax),
  .mulq (.r .k),
  .movq (.r .rax) (.r .tmp1),
  .movq (.r .rdx) (.r .tmp2),
  .xorq (.r .tmp3) (.r .tmp3),
  .movq (.m 8 .mod) (.r .rax),
  .mulq (.r .k),
  .addq (.r .tmp1) (.m 16 .res),
  .adcq (.r .rax) (.r .tmp2),
  .adcq (.r .rdx) (.r .tmp3),
  .xorq (.r .tmp1) (.r .tmp1),
  .movq (.m 16 .mod) (.r .rax),
  .mulq (.r .k),
  .addq (.r .tmp2) (.m 24 .res),
  .adcq (.r .rax) (.r .tmp3),
  .adcq (.r .rdx) (.r .tmp1),
  .addq (.r .tmp3) (.m 32 .res),
  .adcq (.r .tmp1) (.m 40 .res)]

end Libff.X86
