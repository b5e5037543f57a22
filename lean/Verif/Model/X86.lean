import Verif.Spec.Limbs
import Verif.Model.Outcome

/-!
# The x86-64 instructions used by the inline assembly of libff

`libff/algebra/field_utils/fp_aux.tcc` is written in AT&T syntax (source first) with named operands (`%[A]`, `%[T0]`, ...). A register
is known by the name that the code uses for it. The compiler's choice of machine registers is not modelled: the named operands and
`%rax`, `%rdx` are taken to be distinct, which is what the constraints of the `asm` statements ask for.
-/
namespace Libff.X86

/-- The registers that hold numbers: `%rax`, `%rdx` and the operands of fp_aux.tcc that are bound to integers. -/
inductive Reg where
  | rax | rdx | T0 | T1 | cy | u | inv | c0 | c1 | c2 | k | tmp1 | tmp2 | tmp3 | modprime
  deriving DecidableEq

/-- The operands that hold addresses. -/
inductive Ptr where
  | A | B | mod | M | tmp | res
  deriving DecidableEq

/-- Operands of instructions: a register, memory `ofs(%[p])` with a displacement in bytes, or a constant `$v`. -/
inductive Opnd where
  | r (r : Reg)
  | m (ofs : Nat) (p : Ptr)
  | i (v : Limb)

/-- The labels `subtract%=` and `done%=` (unique in each `asm` statement). -/
inductive Label where
  | subtract | done
  deriving DecidableEq

/-- The conditions of the jumps: `jb` = `jc` (carry), `jnc` (no carry), `ja` (neither carry nor zero). -/
inductive Cond where
  | carry | noCarry | above

/-- Instructions, source operand first. -/
inductive Instr where
  | movq (src dst : Opnd)
  | addq (src dst : Opnd)
  | adcq (src dst : Opnd)
  | subq (src dst : Opnd)
  | sbbq (src dst : Opnd)
  | cmpq (src dst : Opnd)
  | xorq (src dst : Opnd)
  | mulq (src : Opnd)
  | jmp (c : Cond) (l : Label)
  | label (l : Label)

/-- The machine state: registers, memory as a collection of separate arrays of 64-bit words, the carry flag, and the zero flag
(`none`: undefined, after `mulq`). -/
structure State where
  reg : Reg → Limb
  mem : Nat → List Limb
  cf : Bool
  zf : Option Bool

/-- Where the address operands point to: an array and an index in it. Two operands may point to the same array. -/
abbrev Env := Ptr → Nat × Nat

/-- `x + y + c` with carry out. -/
def addc (x y : Limb) (c : Bool) : Limb × Bool := (x + y + (if c then 1 else 0), decide (2 ^ 64 ≤ x.toNat + y.toNat + c.toNat))

/-- `x - y - c` with borrow out. -/
def subb (x y : Limb) (c : Bool) : Limb × Bool := (x - y - (if c then 1 else 0), decide (x.toNat < y.toNat + c.toNat))

namespace State

/-- The operand can be accessed: memory operands have to be aligned and inside the array that they point into. -/
def okay (e : Env) (s : State) : Opnd → Prop
  | .r _ => True
  | .m ofs p => ofs % 8 = 0 ∧ (e p).2 + ofs / 8 < (s.mem (e p).1).length
  | .i _ => True

instance (e : Env) (s : State) (o : Opnd) : Decidable (s.okay e o) := by
  cases o <;> unfold okay <;> infer_instance

/-- The value of an operand. -/
def get (e : Env) (s : State) : Opnd → Limb
  | .r r => s.reg r
  | .m ofs p => (s.mem (e p).1).getD ((e p).2 + ofs / 8) 0
  | .i v => v

/-- Storing into an operand. -/
def put (e : Env) (s : State) (o : Opnd) (v : Limb) : State :=
  match o with
  | .r r => { s with reg := fun r' => if r' = r then v else s.reg r' }
  | .m ofs p => { s with mem := fun b => if b = (e p).1 then (s.mem b).set ((e p).2 + ofs / 8) v else s.mem b }
  | .i _ => s

/-- Setting the flags. -/
def setFlags (s : State) (c : Bool) (z : Option Bool) : State := { s with cf := c, zf := z }

end State

/-- A memory operand. -/
def Opnd.isMem : Opnd → Bool
  | .m _ _ => true
  | _ => false

/-- A constant. -/
def Opnd.isImm : Opnd → Bool
  | .i _ => true
  | _ => false

/-- The access check of a two-operand instruction: no instruction has two memory operands or a constant as destination. -/
def access (e : Env) (s : State) (src dst : Opnd) (k : Outcome State) : Outcome State :=
  if (src.isMem && dst.isMem) || dst.isImm then .ub else if s.okay e src ∧ s.okay e dst then k else .ub

/-- Instructions other than jumps and labels (Intel SDM vol. 2). `movq` leaves the flags, `xorq` clears the carry flag, `mulq`
multiplies `%rax` into `%rdx:%rax`, sets the carry flag if the high half is not zero, and leaves the zero flag undefined. -/
def step (e : Env) (s : State) : Instr → Outcome State
  | .movq src dst => access e s src dst (.ok (s.put e dst (s.get e src)))
  | .addq src dst => access e s src dst
      (let w := addc (s.get e dst) (s.get e src) false
       .ok ((s.put e dst w.1).setFlags w.2 (some (w.1 == 0))))
  | .adcq src dst => access e s src dst
      (let w := addc (s.get e dst) (s.get e src) s.cf
       .ok ((s.put e dst w.1).setFlags w.2 (some (w.1 == 0))))
  | .subq src dst => access e s src dst
      (let w := subb (s.get e dst) (s.get e src) false
       .ok ((s.put e dst w.1).setFlags w.2 (some (w.1 == 0))))
  | .sbbq src dst => access e s src dst
      (let w := subb (s.get e dst) (s.get e src) s.cf
       .ok ((s.put e dst w.1).setFlags w.2 (some (w.1 == 0))))
  | .cmpq src dst => access e s src dst
      (let w := subb (s.get e dst) (s.get e src) false
       .ok (s.setFlags w.2 (some (w.1 == 0))))
  | .xorq src dst => access e s src dst
      (let w := s.get e dst ^^^ s.get e src
       .ok ((s.put e dst w).setFlags false (some (w == 0))))
  | .mulq src =>
      if src.isImm then .ub else if s.okay e src then
        let w := (s.reg .rax).toNat * (s.get e src).toNat
        let hi := BitVec.ofNat 64 (w / 2 ^ 64)
        .ok (((s.put e (.r .rax) (BitVec.ofNat 64 w)).put e (.r .rdx) hi).setFlags (hi != 0) none)
      else .ub
  | .jmp _ _ => .ub
  | .label _ => .ok s

/-- Whether a jump is taken. -/
def Cond.holds (s : State) : Cond → Outcome Bool
  | .carry => .ok s.cf
  | .noCarry => .ok !s.cf
  | .above => match s.zf with
    | some z => .ok (!s.cf && !z)
    | none => .ub

/-- Running a sequence of instructions. `some l` means that a jump to `l` has been taken and that the instructions up to the label
are being skipped; the code only jumps forward. -/
def exec (e : Env) : List Instr → Option Label → State → Outcome State
  | [], none, s => .ok s
  | [], some _, _ => .ub
  | i :: is, some l, s => match i with
    | .label l' => exec e is (if l' = l then none else some l) s
    | _ => exec e is (some l) s
  | i :: is, none, s => match i with
    | .jmp c l => (c.holds s).bind fun b => exec e is (if b then some l else none) s
    | i => (step e s i).bind (exec e is none)

end Libff.X86
