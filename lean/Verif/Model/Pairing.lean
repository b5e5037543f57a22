import Verif.Model.Curve
import Verif.Model.Ext
import Verif.Model.Bigint

/-!
# Pairings: what the files `*_pairing.cpp` share
-/
namespace Libff

/-- The loop of the Miller functions and of the precomputations, e.g. alt_bn128_pairing.cpp:326-344: the index runs from `n - 1`
down to 0, `found_one` is false until the most significant one bit has been passed, and from then on every bit executes the
body `step`. -/
def ateLoop {σ : Type*} (bit : Nat → Bool) (step : Bool → σ → Outcome σ) : Nat → Bool → σ → Outcome σ
  | 0, _, s => .ok s
  | i + 1, found, s =>
    if found = false then ateLoop bit step i (bit i) s
    else (step (bit i) s).bind (ateLoop bit step i found)

/-- `v[idx]` of a `std::vector`: undefined behaviour out of range. -/
def vecAt {α : Type*} (v : List α) (idx : Nat) : Outcome α :=
  match v[idx]? with
  | none => .ub
  | some a => .ok a

end Libff
