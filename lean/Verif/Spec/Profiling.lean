import Verif.Model.Profiling

/-!
# Specification: what a profile of a history of blocks should say
-/
namespace Libff.Prof

/-- A block that has been entered. -/
structure Opened where
  name : String
  indent : Bool
  start : Reading

/-- A block that has been entered and left. -/
structure Done where
  name : String
  start : Reading
  stop : Reading

/-- `Closes S es bs`: in the history `es`, which starts inside the open blocks `S` (innermost first), every `leave` names the
innermost open block and at the end all blocks are closed; `bs` are the blocks that were closed, in this order. -/
inductive Closes : List Opened → List Ev → List Done → Prop
  | nil : Closes [] [] []
  | enter {S es bs} (m : String) (i : Bool) (r : Reading) : Closes (⟨m, i, r⟩ :: S) es bs → Closes S (.enter m i r :: es) bs
  | leave {S es bs} (m : String) (i : Bool) (r r' : Reading) :
      Closes S es bs → Closes (⟨m, i, r⟩ :: S) (.leave m i r' :: es) (⟨m, r, r'⟩ :: bs)

/-- A properly nested history and its blocks. -/
def Nested (es : List Ev) (bs : List Done) : Prop := Closes [] es bs

/-- The same with no block inside a block of the same name. -/
inductive ClosesFlat : List Opened → List Ev → List Done → Prop
  | nil : ClosesFlat [] [] []
  | enter {S es bs} (m : String) (i : Bool) (r : Reading) : (∀ o ∈ S, o.name ≠ m) →
      ClosesFlat (⟨m, i, r⟩ :: S) es bs → ClosesFlat S (.enter m i r :: es) bs
  | leave {S es bs} (m : String) (i : Bool) (r r' : Reading) :
      ClosesFlat S es bs → ClosesFlat (⟨m, i, r⟩ :: S) (.leave m i r' :: es) (⟨m, r, r'⟩ :: bs)

/-- A properly nested history without recursion. -/
def NestedFlat (es : List Ev) (bs : List Done) : Prop := ClosesFlat [] es bs

/-- The blocks called `m`. -/
def named (m : String) (bs : List Done) : List Done := bs.filter fun b => b.name = m

/-- Time spent in blocks called `m`. -/
def totalTime (m : String) (bs : List Done) : Int := ((named m bs).map fun b => b.stop.t - b.start.t).sum

/-- Operations of kind `d` counted in blocks called `m`. -/
def totalOps (m d : String) (bs : List Done) : Int := ((named m bs).map fun b => b.stop.ops d - b.start.ops d).sum

end Libff.Prof
