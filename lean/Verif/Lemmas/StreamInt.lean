import Verif.Spec.StreamInt
import Verif.Lemmas.Stream
import Mathlib.Data.List.TakeWhile

/-!
# Reading an integer from an arbitrary stream
-/
namespace Libff

theorem bytesVal_eq (bs : List Byte) : bytesVal bs = leBytes bs := by
  induction bs with
  | nil => rfl
  | cons b bs ih => rw [bytesVal, leBytes, ih]

theorem leBytes_append (a b : List Byte) : leBytes (a ++ b) = leBytes a + 256 ^ a.length * leBytes b := by
  induction a with
  | nil => simp [leBytes]
  | cons x a ih => rw [List.cons_append, leBytes, leBytes, ih, List.length_cons]; ring

theorem leBytes_lt (a : List Byte) : leBytes a < 256 ^ a.length := by
  induction a with
  | nil => simp [leBytes]
  | cons x a ih =>
    rw [leBytes, List.length_cons, pow_succ]
    have := x.isLt
    omega

theorem readLimbs_append (n : Nat) (bs rest : List Byte) (h : bs.length = 8 * n) :
    readLimbs n (bs ++ rest) = .ok (limbsOf n (leBytes bs), rest) := by
  induction n generalizing bs with
  | zero =>
    rw [List.length_eq_zero_iff.1 (by omega : bs.length = 0)]
    rfl
  | succ n ih =>
    have h1 : bs = bs.take 8 ++ bs.drop 8 := (List.take_append_drop 8 bs).symm
    have hl : (bs.take 8).length = 8 := by rw [List.length_take]; omega
    have h2 : (bs ++ rest).drop 8 = bs.drop 8 ++ rest := by rw [List.drop_append_of_le_length (by omega)]
    have h3 : (bs ++ rest).take 8 = bs.take 8 := by rw [List.take_append_of_le_length (by omega)]
    rw [readLimbs, if_neg (by rw [List.length_append]; omega), h2, h3, ih _ (by rw [List.length_drop]; omega), bytesVal_eq]
    have h4 : leBytes bs = leBytes (bs.take 8) + 2 ^ 64 * leBytes (bs.drop 8) := by
      conv_lhs => rw [h1]
      rw [leBytes_append, hl]; norm_num
    have h5 := leBytes_lt (bs.take 8)
    rw [hl] at h5
    rw [Outcome.map_ok, limbsOf, h4]
    congr 2
    congr 1
    · apply BitVec.eq_of_toNat_eq
      rw [BitVec.toNat_ofNat, BitVec.toNat_ofNat]; omega
    · rw [show (leBytes (bs.take 8) + 2 ^ 64 * leBytes (bs.drop 8)) / 2 ^ 64 = leBytes (bs.drop 8) by omega]

theorem readLimbs_iff (n : Nat) (s : List Byte) (l : List Limb) (rest : List Byte) :
    readLimbs n s = .ok (l, rest) ↔ ∃ bs, s = bs ++ rest ∧ bs.length = 8 * n ∧ l = limbsOf n (leBytes bs) := by
  constructor
  · intro h
    have hl : 8 * n ≤ s.length := by
      induction n generalizing s l with
      | zero => omega
      | succ n ih =>
        rw [readLimbs] at h
        split at h
        · cases h
        · cases h' : readLimbs n (s.drop 8) with
          | ok r =>
            rw [h', Outcome.map_ok] at h
            have hr : r.2 = rest := by
              have := congrArg Prod.snd (Outcome.ok.inj h); exact this
            have := ih (s.drop 8) r.1 (by rw [h', ← hr])
            rw [List.length_drop] at this
            omega
          | abort => rw [h'] at h; cases h
          | ub => rw [h'] at h; cases h
    have h1 : (s.take (8 * n)).length = 8 * n := by rw [List.length_take]; omega
    have h2 := readLimbs_append n (s.take (8 * n)) (s.drop (8 * n)) h1
    rw [List.take_append_drop, h] at h2
    have h3 := Outcome.ok.inj h2
    have h4 := congrArg Prod.fst h3
    have h5 := congrArg Prod.snd h3
    exact ⟨_, by rw [show rest = s.drop (8 * n) from h5, List.take_append_drop], h1, h4⟩
  · rintro ⟨bs, rfl, hl, rfl⟩
    exact readLimbs_append n bs rest hl

theorem digitVals_iff (s : List Byte) (ds : List Nat) :
    digitVals s = .ok ds ↔ (∀ c ∈ s, IsDigit c) ∧ ds = s.map fun c => c.toNat - 48 := by
  induction s generalizing ds with
  | nil => simp [digitVals, eq_comm]
  | cons c s ih =>
    rw [digitVals]
    split
    case isTrue hc =>
      cases h : digitVals s with
      | ok r =>
        have := (ih r).1 h
        rw [Outcome.map_ok, Outcome.ok.injEq, List.map_cons, ← this.2]
        constructor
        · rintro rfl
          exact ⟨fun x hx => (List.mem_cons.1 hx).elim (fun e => e ▸ hc) (this.1 x), rfl⟩
        · rintro ⟨-, rfl⟩; rfl
      | abort =>
        have h1 : ¬ ∀ c ∈ s, IsDigit c := fun h1 => by
          have := (ih _).2 ⟨h1, rfl⟩
          rw [h] at this; cases this
        refine ⟨fun h' => (by cases h'), fun h' => absurd (fun x hx => h'.1 x (List.mem_cons_of_mem _ hx)) h1⟩
      | ub =>
        have h1 : ¬ ∀ c ∈ s, IsDigit c := fun h1 => by
          have := (ih _).2 ⟨h1, rfl⟩
          rw [h] at this; cases this
        refine ⟨fun h' => (by cases h'), fun h' => absurd (fun x hx => h'.1 x (List.mem_cons_of_mem _ hx)) h1⟩
    case isFalse hc =>
      exact ⟨fun h => (by cases h), fun h => absurd (h.1 c (by simp)) hc⟩

theorem bigintOfString_iff (n : Nat) (s : List Byte) (l : List Limb) :
    bigintOfString n s = .ok l ↔ s ≠ [] ∧ (∀ c ∈ s, IsDigit c) ∧
      Nat.ofDigits 10 (s.map fun c => c.toNat - 48).reverse < 2 ^ (64 * n) ∧
      l = limbsOf n (Nat.ofDigits 10 (s.map fun c => c.toNat - 48).reverse) := by
  rw [bigintOfString]
  cases h : digitVals s with
  | ok ds =>
    obtain ⟨h1, rfl⟩ := (digitVals_iff s ds).1 h
    rw [Outcome.bind_ok, ← setStrVal_eq, ← limbCount_le_iff]
    generalize setStrVal (s.map fun c => c.toNat - 48) = v
    by_cases h0 : s = []
    · simp [h0]
    · rw [if_neg (by simpa using h0)]
      split
      · constructor
        · intro h; cases h
        · intro h; omega
      · rw [Outcome.ok.injEq]
        exact ⟨fun h => ⟨h0, h1, by omega, h.symm⟩, fun h => h.2.2.2.symm⟩
  | abort =>
    refine ⟨fun h => (by cases h), fun h' => ?_⟩
    have := (digitVals_iff s _).2 ⟨h'.2.1, rfl⟩
    rw [h] at this; cases this
  | ub =>
    refine ⟨fun h => (by cases h), fun h' => ?_⟩
    have := (digitVals_iff s _).2 ⟨h'.2.1, rfl⟩
    rw [h] at this; cases this

theorem IsDigit.not_space {c : Byte} (h : IsDigit c) : isSpace c = false := by
  unfold isSpace
  obtain ⟨h1, h2⟩ := h
  simp; omega

theorem readToken_space (ws s : List Byte) (h : ∀ c ∈ ws, isSpace c = true) : readToken (ws ++ s) = readToken s := by
  rw [readToken, readToken, List.dropWhile_append_of_pos h]

theorem readToken_split (s : List Byte) : ∃ ws, s = ws ++ ((readToken s).1 ++ (readToken s).2) ∧
    (∀ c ∈ ws, isSpace c = true) ∧ TokenEnd (readToken s).2 := by
  refine ⟨s.takeWhile isSpace, ?_, fun c hc => List.mem_takeWhile_imp hc, ?_⟩
  · rw [readToken]
    simp only [List.takeWhile_append_dropWhile]
  · intro c hc
    have := List.head?_dropWhile_not (fun c => !isSpace c) (s.dropWhile isSpace)
    simp only [readToken] at hc
    rw [Option.mem_def] at hc
    rw [hc] at this
    simpa using this

/-- Reading an integer: exactly the streams that start with one that fits. -/
theorem bigintRead_iff (binary : Bool) (n : Nat) (s : List Byte) (l : List Limb) (rest : List Byte) :
    bigintRead binary n s = .ok (l, rest) ↔
      ∃ v, StartsWithInt binary n s v rest ∧ v < 2 ^ (64 * n) ∧ l = limbsOf n v := by
  cases binary with
  | true =>
    simp only [bigintRead, StartsWithInt, if_true]
    rw [readLimbs_iff]
    constructor
    · rintro ⟨bs, h1, h2, h3⟩
      refine ⟨_, ⟨bs, h1, h2, rfl⟩, ?_, h3⟩
      have := leBytes_lt bs
      rw [h2, show (256 : Nat) = 2 ^ 8 by norm_num, ← pow_mul] at this
      rwa [show 64 * n = 8 * (8 * n) by ring]
    · rintro ⟨_, ⟨bs, h1, h2, rfl⟩, -, h3⟩
      exact ⟨bs, h1, h2, h3⟩
  | false =>
    simp only [bigintRead, StartsWithInt, Bool.false_eq_true, if_false]
    constructor
    · intro h
      obtain ⟨ws, h1, h2, h3⟩ := readToken_split s
      cases h' : bigintOfString n (readToken s).1 with
      | ok a =>
        rw [h', Outcome.map_ok] at h
        have h4 := Outcome.ok.inj h
        have h5 : a = l := congrArg Prod.fst h4
        have h6 : (readToken s).2 = rest := congrArg Prod.snd h4
        obtain ⟨h7, h8, h9, h10⟩ := (bigintOfString_iff _ _ _).1 h'
        exact ⟨_, ⟨ws, _, h6 ▸ h1, h2, h7, h8, h6 ▸ h3, rfl⟩, h9, h5 ▸ h10⟩
      | abort => rw [h'] at h; cases h
      | ub => rw [h'] at h; cases h
    · rintro ⟨v, ⟨ws, ds, rfl, h2, h3, h4, h5, rfl⟩, h7, rfl⟩
      rw [readToken_space _ _ h2, readToken_append _ _ (fun c hc => (h4 c hc).not_space) h3 h5]
      rw [(bigintOfString_iff _ _ _).2 ⟨h3, h4, h7, rfl⟩]
      rfl

end Libff
