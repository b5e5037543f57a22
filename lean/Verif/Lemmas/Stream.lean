import Verif.Lemmas.Bigint
import Verif.Lemmas.Represents
import Mathlib.Data.Nat.Digits.Lemmas

namespace Libff

theorem setStrVal_eq (ds : List Nat) : setStrVal ds = Nat.ofDigits 10 ds.reverse := by
  unfold setStrVal
  induction ds using List.reverseRecOn with
  | nil => simp
  | append_singleton l x ih =>
    rw [List.foldl_append, List.foldl_cons, List.foldl_nil, ih, List.reverse_append,
      List.reverse_singleton, List.singleton_append, Nat.ofDigits_cons]
    simp [Nat.add_comm]

theorem setStrVal_decDigits (v : Nat) : setStrVal (decDigits v) = v := by
  unfold decDigits
  split
  · subst_vars; rfl
  · rw [setStrVal_eq, List.reverse_reverse, Nat.ofDigits_digits]

theorem decDigits_lt (v : Nat) : ∀ d ∈ decDigits v, d < 10 := by
  unfold decDigits
  split
  · simp
  · intro d hd
    exact Nat.digits_lt_base (by norm_num) (List.mem_reverse.1 hd)

theorem decDigits_ne_nil (v : Nat) : decDigits v ≠ [] := by
  unfold decDigits
  split
  · simp
  · simp [Nat.digits_ne_nil_iff_ne_zero]; assumption

theorem digitCode_not_space (d : Nat) (h : d < 10) : isSpace (digitCode d) = false := by
  have : (digitCode d).toNat = 48 + d := by
    rw [digitCode, BitVec.toNat_ofNat, Nat.mod_eq_of_lt (by omega)]
  unfold isSpace
  rw [this]
  simp; omega

theorem readToken_append (t rest : List Byte) (ht : ∀ c ∈ t, isSpace c = false) (hne : t ≠ [])
    (hr : TokenEnd rest) : readToken (t ++ rest) = (t, rest) := by
  have h1 : (t ++ rest).dropWhile isSpace = t ++ rest := by
    cases t with
    | nil => exact absurd rfl hne
    | cons c t => simp [ht c (by simp)]
  unfold readToken
  simp only [h1]
  have h2 : rest.takeWhile (fun c => !isSpace c) = [] := by
    cases rest with
    | nil => rfl
    | cons c r => simp [hr c (by simp)]
  have h3 : rest.dropWhile (fun c => !isSpace c) = rest := by
    cases rest with
    | nil => rfl
    | cons c r => simp [hr c (by simp)]
  rw [List.takeWhile_append_of_pos (by simpa using ht), List.dropWhile_append_of_pos (by simpa using ht),
    h2, h3]
  simp

theorem writeNat_not_space (v : Nat) : ∀ c ∈ writeNat v, isSpace c = false := by
  intro c hc
  unfold writeNat at hc
  obtain ⟨d, hd, rfl⟩ := List.mem_map.1 hc
  exact digitCode_not_space d (decDigits_lt v d hd)

theorem writeNat_ne_nil (v : Nat) : writeNat v ≠ [] := by
  simp [writeNat, decDigits_ne_nil]

theorem bigintOfString_writeNat (n v : Nat) (h : v < 2 ^ (64 * n)) :
    bigintOfString n (writeNat v) = .ok (limbsOf n v) := by
  unfold bigintOfString writeNat
  rw [digitVals_codes _ (decDigits_lt v), Outcome.bind_ok, if_neg (decDigits_ne_nil v),
    setStrVal_decDigits, if_neg]
  have := (limbCount_le_iff v n).2 h
  omega

@[simp] theorem limbBytes_length (x : Limb) : (limbBytes x).length = 8 := by simp [limbBytes]

theorem bytesVal_limbBytes (x : Limb) : bytesVal (limbBytes x) = x.toNat := by
  have h := x.isLt
  simp only [limbBytes, List.range, List.range.loop, List.map_cons, List.map_nil, bytesVal,
    BitVec.toNat_ofNat]
  omega

theorem readLimbs_write (a : List Limb) (rest : List Byte) :
    readLimbs a.length (a.flatMap limbBytes ++ rest) = .ok (a, rest) := by
  induction a with
  | nil => rfl
  | cons x a ih =>
    rw [List.length_cons, readLimbs, List.flatMap_cons, List.append_assoc]
    have hlen := limbBytes_length x
    rw [if_neg (by rw [List.length_append, hlen]; omega)]
    rw [List.drop_append_of_le_length (by omega), List.take_append_of_le_length (by omega)]
    rw [List.drop_of_length_le (by omega), List.take_of_length_le (by omega), List.nil_append, ih,
      Outcome.map_ok, bytesVal_limbBytes]
    simp

theorem bigintRead_write (binary : Bool) (a : List Limb) (rest : List Byte)
    (h : ContOk binary rest) :
    bigintRead binary a.length (bigintWrite binary a ++ rest) = .ok (a, rest) := by
  unfold bigintRead bigintWrite
  cases binary with
  | true => simpa using readLimbs_write a rest
  | false =>
    have ht : TokenEnd rest := by rcases h with h | h; · simp at h
                                  · exact h
    simp only [Bool.false_eq_true, if_false]
    rw [bigintToMpz_eq, readToken_append _ _ (writeNat_not_space _) (writeNat_ne_nil _) ht]
    rw [bigintOfString_writeNat _ _ (val_lt a), Outcome.map_ok, limbsOf_val]

end Libff
