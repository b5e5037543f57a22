import Verif.Model.Bigint

/-! # Random elements (fp.tcc:739-767, libff/common/rng.tcc:25-75) -/
namespace Libff

/-- "clear all bits higher than MSB of modulus", fp.tcc:749-760 and rng.tcc:53-66.
The argument `k` is `bitno + 1`; running below bit 0 (zero modulus) would index out of bounds. -/
def maskLoop (modulus : List Limb) : Nat → List Limb → Outcome (List Limb)
  | 0, _ => .ub
  | k + 1, r => if testBit modulus k then .ok r else maskLoop modulus k (clearBit r k)

/-- The `do ... while` of `random_element`, fp.tcc:745-764.  The tape lists the limb vectors produced
by successive `randomize()` calls (32-bit words of `std::random_device`, taken as given);
`none`: the tape ended before a candidate was accepted. Returns the accepted value and the unused
tape. -/
def randomLoop (P : FpParams) : List (List Limb) → Outcome (Option (List Limb × List (List Limb)))
  | [] => .ok none
  | r :: tape =>
    (maskLoop P.modulus (64 * P.n) r).bind fun m =>
      if (mpn_cmp m P.modulus).isGE then randomLoop P tape else .ok (some (m, tape))

/-- `SHA512_rng<FieldT>(idx)`, rng.tcc:25-75: `hash idx iter` are the 8 limbs of the digest, the
first `n` are used; the loop is run at most `fuel` times (`none`: not finished). -/
def sha512Rng (P : FpParams) (hash : Nat → BitVec 64 → List Limb) (bits idx : Nat) :
    Nat → BitVec 64 → Outcome (Option (List Limb))
  | 0, _ => .ok none
  | fuel + 1, iter =>
    -- rng.tcc:31
    if 512 < bits then .abort
    -- reading hash[i] for i >= 8 would be out of bounds
    else if 8 < P.n then .ub
    else
      (maskLoop P.modulus (64 * P.n) ((hash idx iter).take P.n)).bind fun m =>
        if (mpn_cmp m P.modulus).isGE then sha512Rng P hash bits idx fuel (iter + 1)
        else (fpOfBigint P m).map some

end Libff
