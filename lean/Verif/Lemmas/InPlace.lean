import Verif.Model.InPlace
import Verif.Props.Binary
import Verif.Props.FpAsm
import Verif.Lemmas.FpType
import Mathlib.Tactic.SplitIfs

/-! # Lemmas on programs that work on memory -/
namespace Libff

namespace Heap
variable {W : Type}

theorem put_same (h : Heap W) (p : Nat) (w : W) : h.put p w p = w := if_pos rfl
theorem put_ne (h : Heap W) {p c : Nat} (w : W) (hc : c ≠ p) : h.put p w c = h c := if_neg hc

theorem copy_frame (ws : List W) : ∀ (h : Heap W) (p c : Nat), c < p ∨ p + ws.length ≤ c → h.copy p ws c = h c := by
  induction ws with
  | nil => intro h p c _; rfl
  | cons w ws ih =>
    intro h p c hc
    rw [List.length_cons] at hc
    rw [copy, ih _ _ _ (by omega), put_ne _ _ (by omega)]

theorem words_zero (h : Heap W) (p : Nat) : h.words p 0 = [] := rfl

theorem words_succ (h : Heap W) (p n : Nat) : h.words p (n + 1) = h p :: h.words (p + 1) n := by
  unfold words
  rw [List.range_succ_eq_map, List.map_cons, List.map_map]
  congr 1
  apply List.map_congr_left
  intro i _
  change h (p + (i + 1)) = h (p + 1 + i)
  congr 1; omega

theorem words_add (h : Heap W) (p m n : Nat) : h.words p (m + n) = h.words p m ++ h.words (p + m) n := by
  unfold words
  rw [List.range_add, List.map_append, List.map_map]
  congr 1
  apply List.map_congr_left
  intro i _
  change h (p + (m + i)) = h (p + m + i)
  congr 1; omega

theorem words_length (h : Heap W) (p n : Nat) : (h.words p n).length = n := by simp [words]

theorem words_congr {h h' : Heap W} {p n : Nat} (H : ∀ c, p ≤ c → c < p + n → h' c = h c) : h'.words p n = h.words p n := by
  apply List.map_congr_left
  intro i hi
  rw [List.mem_range] at hi
  exact H _ (by omega) (by omega)

theorem words_copy (ws : List W) : ∀ (h : Heap W) (p : Nat), (h.copy p ws).words p ws.length = ws := by
  induction ws with
  | nil => intro h p; rfl
  | cons w ws ih =>
    intro h p
    rw [List.length_cons, words_succ, copy, copy_frame _ _ _ _ (by omega), put_same, ih]

theorem words_copy' {ws : List W} {n : Nat} (hn : ws.length = n) (h : Heap W) (p : Nat) : (h.copy p ws).words p n = ws := by
  subst hn; exact words_copy ws h p

theorem copy_onlyChanges {ws : List W} {n : Nat} (hn : ws.length = n) (h : Heap W) (p : Nat) : OnlyChanges n p h (h.copy p ws) := by
  subst hn; exact fun c hc => copy_frame ws h p c hc

/-- Copying what is already there changes nothing. -/
theorem copy_self (n : Nat) : ∀ (h : Heap W) (p : Nat), h.copy p (h.words p n) = h := by
  induction n with
  | zero => intro h p; rfl
  | succ n ih =>
    intro h p
    rw [words_succ, copy]
    have hp : h.put p (h p) = h := by
      funext c
      by_cases hc : c = p
      · rw [hc, put_same]
      · exact put_ne _ _ hc
    rw [hp, ih]

end Heap

theorem OnlyChanges.words {W : Type} {n p q m : Nat} {h h' : Heap W} (H : OnlyChanges n p h h') (hq : q + m ≤ p ∨ p + n ≤ q) :
    h'.words q m = h.words q m := Heap.words_congr fun c h1 h2 => H c (by omega)

/-- Reading everything and then copying the result. -/
theorem assignsTo_of_copy {W α : Type} {n : Nat} {enc : α → List W} (henc : ∀ x, (enc x).length = n) {f : α → α → α}
    {op : Nat → Nat → Heap W → Outcome (Heap W)}
    (H : ∀ this other h x y, SameOrApart n this other → h.words this n = enc x → h.words other n = enc y → op this other h = .ok (h.copy this (enc (f x y)))) :
    AssignsTo n enc f op := fun this other h x y hso hx hy =>
  ⟨_, H this other h x y hso hx hy, Heap.words_copy' (henc _) h this, Heap.copy_onlyChanges (henc _) h this⟩

theorem replaces_of_copy {W α : Type} {n : Nat} {enc : α → List W} (henc : ∀ x, (enc x).length = n) {f : α → α}
    {op : Nat → Heap W → Outcome (Heap W)}
    (H : ∀ this h x, h.words this n = enc x → op this h = .ok (h.copy this (enc (f x)))) : Replaces n enc f op := fun this h x hx =>
  ⟨_, H this h x hx, Heap.words_copy' (henc _) h this, Heap.copy_onlyChanges (henc _) h this⟩

/-! ## The binary fields -/

namespace GF32
theorem addTo_eq : AssignsTo 1 cells (· + ·) addTo := by
  refine assignsTo_of_copy (enc := cells) (fun _ => rfl) ?_
  intro t o h x y _ hx hy
  simp only [Heap.words_succ, Heap.words_zero, cells, List.cons.injEq, and_true] at hx hy
  simp only [addTo, xorWord, Nat.add_zero, hx, hy]; rfl

theorem mulTo_eq : AssignsTo 1 cells (· * ·) mulTo := by
  refine assignsTo_of_copy (enc := cells) (fun _ => rfl) ?_
  intro t o h x y _ hx hy
  simp only [Heap.words_succ, Heap.words_zero, cells, List.cons.injEq, and_true] at hx hy
  simp only [mulTo, hx, hy]; rfl

theorem square_eq : Replaces 1 cells (fun x => x * x) square := fun t h x hx => mulTo_eq t t h x x (Or.inl rfl) hx hx
end GF32

namespace GF64
theorem addTo_eq : AssignsTo 1 cells (· + ·) addTo := by
  refine assignsTo_of_copy (enc := cells) (fun _ => rfl) ?_
  intro t o h x y _ hx hy
  simp only [Heap.words_succ, Heap.words_zero, cells, List.cons.injEq, and_true] at hx hy
  simp only [addTo, xorWord, Nat.add_zero, hx, hy]; rfl

theorem mulTo_eq : AssignsTo 1 cells (· * ·) mulTo := by
  refine assignsTo_of_copy (enc := cells) (fun _ => rfl) ?_
  intro t o h x y _ hx hy
  simp only [Heap.words_succ, Heap.words_zero, cells, List.cons.injEq, and_true] at hx hy
  simp only [mulTo, hx, hy]; rfl

theorem mulToAsm_eq : AssignsTo 1 cells (· * ·) mulToAsm := by
  refine assignsTo_of_copy (enc := cells) (fun _ => rfl) ?_
  intro t o h x y _ hx hy
  simp only [Heap.words_succ, Heap.words_zero, cells, List.cons.injEq, and_true] at hx hy
  simp only [mulToAsm, hx, hy]
  rw [show (⟨x.value⟩ : GF64) = x from rfl, show (⟨y.value⟩ : GF64) = y from rfl, C41_gf64]; rfl

theorem square_eq (asm : Bool) : Replaces 1 cells (fun x => x * x) (square asm) := fun t h x hx => by
  cases asm
  · exact mulTo_eq t t h x x (Or.inl rfl) hx hx
  · exact mulToAsm_eq t t h x x (Or.inl rfl) hx hx
end GF64

namespace GF128
theorem addTo_eq : AssignsTo 2 cells (· + ·) addTo := by
  refine assignsTo_of_copy (enc := cells) (fun _ => rfl) ?_
  intro t o h x y hso hx hy
  simp only [Heap.words_succ, Heap.words_zero, cells, List.cons.injEq, and_true] at hx hy
  have e1 : o + 1 ≠ t := by unfold SameOrApart at hso; omega
  simp only [addTo, xorWord, Nat.add_zero, Heap.put_ne _ _ e1, Heap.put_ne _ _ (show t + 1 ≠ t by omega), hx, hy]; rfl

theorem mulTo_eq : AssignsTo 2 cells (· * ·) mulTo := by
  refine assignsTo_of_copy (enc := cells) (fun _ => rfl) ?_
  intro t o h x y _ hx hy
  simp only [Heap.words_succ, Heap.words_zero, cells, List.cons.injEq, and_true] at hx hy
  rw [mulTo, show List.range 2 = [0, 1] from rfl]
  rw [show x * y = GF128.mul x y from rfl, GF128.mul]
  simp only [List.foldl_cons, List.foldl_nil, Nat.add_zero, hx, hy, cells, Heap.copy, Nat.add_assoc, Nat.reduceAdd]

theorem mulToAsm_eq : AssignsTo 2 cells (· * ·) mulToAsm := by
  refine assignsTo_of_copy (enc := cells) (fun _ => rfl) ?_
  intro t o h x y _ hx hy
  simp only [Heap.words_succ, Heap.words_zero, cells, List.cons.injEq, and_true] at hx hy
  simp only [mulToAsm, hx, hy, cells]
  rw [show (⟨x.v0, x.v1⟩ : GF128) = x from rfl, show (⟨y.v0, y.v1⟩ : GF128) = y from rfl, C41_gf128]

theorem square_eq (asm : Bool) : Replaces 2 cells (fun x => x * x) (square asm) := fun t h x hx => by
  cases asm
  · exact mulTo_eq t t h x x (Or.inl rfl) hx hx
  · exact mulToAsm_eq t t h x x (Or.inl rfl) hx hx
end GF128

namespace GF192
theorem addTo_eq : AssignsTo 3 cells (· + ·) addTo := by
  refine assignsTo_of_copy (enc := cells) (fun _ => rfl) ?_
  intro t o h x y hso hx hy
  simp only [Heap.words_succ, Heap.words_zero, cells, List.cons.injEq, and_true, Nat.add_assoc, Nat.reduceAdd] at hx hy
  unfold SameOrApart at hso
  have e1 : o + 1 ≠ t := by omega
  have e2 : o + 2 ≠ t := by omega
  have e3 : o + 2 ≠ t + 1 := by omega
  simp only [addTo, xorWord, Nat.add_zero, Heap.put_ne _ _ e1, Heap.put_ne _ _ e2, Heap.put_ne _ _ e3,
    Heap.put_ne _ _ (show t + 1 ≠ t by omega), Heap.put_ne _ _ (show t + 2 ≠ t by omega), Heap.put_ne _ _ (show t + 2 ≠ t + 1 by omega), hx, hy]; rfl

theorem mulTo_eq : AssignsTo 3 cells (· * ·) mulTo := by
  refine assignsTo_of_copy (enc := cells) (fun _ => rfl) ?_
  intro t o h x y _ hx hy
  simp only [Heap.words_succ, Heap.words_zero, cells, List.cons.injEq, and_true, Nat.add_assoc, Nat.reduceAdd] at hx hy
  rw [mulTo, show List.range 3 = [0, 1, 2] from rfl]
  rw [show x * y = GF192.mul x y from rfl, GF192.mul]
  simp only [List.foldl_cons, List.foldl_nil, Nat.add_zero, hx, hy, cells, Heap.copy, Nat.add_assoc, Nat.reduceAdd]

theorem mulToAsm_eq : AssignsTo 3 cells (· * ·) mulToAsm := by
  refine assignsTo_of_copy (enc := cells) (fun _ => rfl) ?_
  intro t o h x y _ hx hy
  simp only [Heap.words_succ, Heap.words_zero, cells, List.cons.injEq, and_true, Nat.add_assoc, Nat.reduceAdd] at hx hy
  simp only [mulToAsm, hx, hy, cells]
  rw [show (⟨x.v0, x.v1, x.v2⟩ : GF192) = x from rfl, show (⟨y.v0, y.v1, y.v2⟩ : GF192) = y from rfl, C41_gf192]
  rfl

theorem square_eq (asm : Bool) : Replaces 3 cells (fun x => x * x) (square asm) := fun t h x hx => by
  cases asm
  · exact mulTo_eq t t h x x (Or.inl rfl) hx hx
  · exact mulToAsm_eq t t h x x (Or.inl rfl) hx hx
end GF192

namespace GF256
theorem addTo_eq : AssignsTo 4 cells (· + ·) addTo := by
  refine assignsTo_of_copy (enc := cells) (fun _ => rfl) ?_
  intro t o h x y hso hx hy
  simp only [Heap.words_succ, Heap.words_zero, cells, List.cons.injEq, and_true, Nat.add_assoc, Nat.reduceAdd] at hx hy
  unfold SameOrApart at hso
  have e1 : o + 1 ≠ t := by omega
  have e2 : o + 2 ≠ t := by omega
  have e3 : o + 2 ≠ t + 1 := by omega
  have e4 : o + 3 ≠ t := by omega
  have e5 : o + 3 ≠ t + 1 := by omega
  have e6 : o + 3 ≠ t + 2 := by omega
  simp only [addTo, xorWord, Nat.add_zero, Heap.put_ne _ _ e1, Heap.put_ne _ _ e2, Heap.put_ne _ _ e3, Heap.put_ne _ _ e4, Heap.put_ne _ _ e5,
    Heap.put_ne _ _ e6, Heap.put_ne _ _ (show t + 1 ≠ t by omega), Heap.put_ne _ _ (show t + 2 ≠ t by omega),
    Heap.put_ne _ _ (show t + 2 ≠ t + 1 by omega), Heap.put_ne _ _ (show t + 3 ≠ t by omega), Heap.put_ne _ _ (show t + 3 ≠ t + 1 by omega),
    Heap.put_ne _ _ (show t + 3 ≠ t + 2 by omega), hx, hy]; rfl

theorem mulTo_eq : AssignsTo 4 cells (· * ·) mulTo := by
  refine assignsTo_of_copy (enc := cells) (fun _ => rfl) ?_
  intro t o h x y _ hx hy
  simp only [Heap.words_succ, Heap.words_zero, cells, List.cons.injEq, and_true, Nat.add_assoc, Nat.reduceAdd] at hx hy
  rw [mulTo, show List.range 4 = [0, 1, 2, 3] from rfl]
  rw [show x * y = GF256.mul x y from rfl, GF256.mul]
  simp only [List.foldl_cons, List.foldl_nil, Nat.add_zero, hx, hy, cells, Heap.copy, Nat.add_assoc, Nat.reduceAdd]

theorem mulToAsm_eq (karatsuba : Bool) : AssignsTo 4 cells (· * ·) (mulToAsm karatsuba) := by
  refine assignsTo_of_copy (enc := cells) (fun _ => rfl) ?_
  intro t o h x y _ hx hy
  simp only [Heap.words_succ, Heap.words_zero, cells, List.cons.injEq, and_true, Nat.add_assoc, Nat.reduceAdd] at hx hy
  simp only [mulToAsm, hx, hy, cells]
  rw [show (⟨x.v0, x.v1, x.v2, x.v3⟩ : GF256) = x from rfl, show (⟨y.v0, y.v1, y.v2, y.v3⟩ : GF256) = y from rfl, C41_gf256,
    C41_gf256_karatsuba, ite_self]
  rfl

theorem square_eq (asm karatsuba : Bool) : Replaces 4 cells (fun x => x * x) (square asm karatsuba) := fun t h x hx => by
  cases asm
  · exact mulTo_eq t t h x x (Or.inl rfl) hx hx
  · exact mulToAsm_eq karatsuba t t h x x (Or.inl rfl) hx hx
end GF256

/-! ## Prime fields -/

namespace FpMem
open X86
variable {P : FpParams} [hP : Fact P.Valid]

theorem add_repr (x y : Fp P) : addAssign P x.repr y.repr = .ok (x + y).repr := Fp.ofOutcome_repr _ _
theorem sub_repr (x y : Fp P) : subAssign P x.repr y.repr = .ok (x - y).repr := Fp.ofOutcome_repr _ _
theorem mul_repr (x y : Fp P) : mulReduce P x.repr y.repr = .ok (x * y).repr := Fp.ofOutcome_repr _ _

theorem addTo_eq : AssignsTo P.n Fp.repr (· + · : Fp P → Fp P → Fp P) (addTo P) :=
  assignsTo_of_copy (fun x => x.len) fun t o h x y _ hx hy => by rw [addTo, hx, hy, add_repr]; rfl
theorem subTo_eq : AssignsTo P.n Fp.repr (· - · : Fp P → Fp P → Fp P) (subTo P) :=
  assignsTo_of_copy (fun x => x.len) fun t o h x y _ hx hy => by rw [subTo, hx, hy, sub_repr]; rfl
theorem mulTo_eq : AssignsTo P.n Fp.repr (· * · : Fp P → Fp P → Fp P) (mulTo P) :=
  assignsTo_of_copy (fun x => x.len) fun t o h x y _ hx hy => by rw [mulTo, hx, hy, mul_repr]; rfl

theorem mulToAsm_eq (J J2 J3 : Junk) (t : List Limb) (ht : t.length = if P.n = 3 then 6 else P.n + 1) :
    AssignsTo P.n Fp.repr (· * · : Fp P → Fp P → Fp P) (mulToAsm P J J2 J3 t) :=
  assignsTo_of_copy (fun x => x.len) fun th o h x y _ hx hy => by
    have hs : decide (th = o) = true → y.repr = x.repr := fun e => by rw [← hx, ← hy, of_decide_eq_true e]
    rw [mulToAsm, hx, hy, C53_mul P hP.out J J2 J3 t _ _ _ x.len y.len (Or.inl x.lt) ht hs, mul_repr]; rfl

end FpMem
end Libff
