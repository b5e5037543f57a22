import Verif.Lemmas.Sampling
import Verif.Lemmas.Random
import Mathlib.Data.Nat.Size

/-! # Uniform sampling in the fields -/
set_option linter.unusedSectionVars false
namespace Libff
open Sampler Finset

section basic
variable {W α β : Type} [Fintype W] [Nonempty W]

theorem Unif.uniformOn {A : Finset α} {S : Sampler W α} {e : Nat → ℚ} (h : Unif A S e) {B : Set α} (hB : ∀ x, x ∈ A ↔ x ∈ B) :
    UniformOn (· = ·) B S := by
  refine ⟨fun t => ?_, fun k x hx y hy => ?_, h.ends⟩
  · obtain h0 | ⟨pre, rest, x, e, hx, H⟩ := h.result t
    · exact Or.inl h0
    · exact Or.inr ⟨pre, rest, x, e, (hB x).1 hx, H⟩
  · have : ∀ z ∈ B, prob k (fun t => ∃ x', S t = .ok (some (x', [])) ∧ x' = z) = e k := fun z hz =>
      (prob_congr fun t _ => by simp).trans (h.fair k z ((hB z).2 hz))
    rw [this x hx, this y hy]

/-- The probability of returning `x` within `k` words. -/
theorem Unif.returns {A : Finset α} {S : Sampler W α} {e : Nat → ℚ} (h : Unif A S e) {x : α} (hx : x ∈ A) (k : Nat) :
    prob k (fun t => ∃ rest, S t = .ok (some (x, rest))) * A.card = 1 - prob k (fun t => S t = .ok none) := by
  classical
  have hr : prob k (fun t => ∃ rest, S t = .ok (some (x, rest))) = ∑ j ∈ range (k + 1), e j := by
    rw [prob_eq_avg, avg_congr (h := at' S fun y _ => if y = x then 1 else 0), h.avg]
    · refine Finset.sum_congr rfl fun j _ => ?_
      simp [avg_const, hx]
    · intro t _
      obtain h0 | ⟨pre, rest, y, rfl, hy, H⟩ := h.result t
      · simp [at', h0]
      · rw [at'_some (H rest), H rest]; simp
  rw [hr, h.total]; ring

theorem unif_drawN_map [DecidableEq W] [DecidableEq β] {n : Nat} {g : List W → β}
    (hi : ∀ l l', l.length = n → l'.length = n → g l = g l' → l = l') :
    ∃ (A : Finset β) (e : Nat → ℚ), Unif A (Sampler.bind (drawN n) fun ws => Sampler.ret (g ws)) e ∧
      ∀ b, b ∈ A ↔ ∃ l, l.length = n ∧ g l = b := by
  obtain ⟨A, e, hA, hm⟩ := Unif.drawN (W := W) n
  refine ⟨_, _, hA.map (g := g) (fun _ _ => rfl) fun x hx y hy => hi x y ((hm x).1 hx) ((hm y).1 hy), fun b => ?_⟩
  simp [mem_image, hm]

theorem drawN_nil {n : Nat} (h : 0 < n) {g : List W → Sampler W β} : Sampler.bind (drawN n) g [] = .ok none := by
  obtain ⟨n, rfl⟩ : ∃ m, n = m + 1 := ⟨n - 1, by omega⟩
  rfl

end basic

/-! ## Words and limbs -/

theorem append_inj' {m n : Nat} {x x' : BitVec m} {y y' : BitVec n} (h : x ++ y = x' ++ y') : x = x' ∧ y = y' := by
  have h1 := congrArg (BitVec.extractLsb' n m) h
  have h2 := congrArg (BitVec.setWidth n) h
  rw [BitVec.extractLsb'_append_eq_left, BitVec.extractLsb'_append_eq_left] at h1
  rw [BitVec.setWidth_append, BitVec.setWidth_append] at h2
  simp only [Nat.le_refl, dif_pos] at h2
  refine ⟨h1, ?_⟩
  simpa using h2

theorem exists_append {m n : Nat} (v : BitVec (m + n)) : ∃ (x : BitVec m) (y : BitVec n), v = x ++ y := by
  refine ⟨v.extractLsb' n m, v.setWidth n, ?_⟩
  ext i hi
  rw [BitVec.getElem_append]
  by_cases h : i < n
  · simp [h, BitVec.getLsbD_eq_getElem hi]
  · have : n + (i - n) = i := by omega
    simp [h, this, BitVec.getLsbD_eq_getElem hi]

theorem limbsOfWords_inj : ∀ (n : Nat) (l l' : List (BitVec 32)), l.length = 2 * n → l'.length = 2 * n →
    limbsOfWords l = limbsOfWords l' → l = l'
  | 0, l, l', h, h', _ => by
    rw [List.length_eq_zero_iff.1 (by omega : l.length = 0), List.length_eq_zero_iff.1 (by omega : l'.length = 0)]
  | n + 1, a :: b :: l, c :: d :: l', h, h', e => by
    simp only [limbsOfWords, List.cons.injEq] at e
    obtain ⟨rfl, rfl⟩ := append_inj' e.1
    rw [limbsOfWords_inj n l l' (by simp at h; omega) (by simp at h'; omega) e.2]
  | n + 1, [], _, h, _, _ => by simp at h
  | n + 1, [_], _, h, _, _ => by simp at h; omega
  | n + 1, _ :: _ :: _, [], _, h, _ => by simp at h
  | n + 1, _ :: _ :: _, [_], _, h, _ => by simp at h; omega

theorem limbsOfWords_surj : ∀ (n : Nat) (r : List Limb), (∃ l : List (BitVec 32), l.length = 2 * n ∧ limbsOfWords l = r) ↔ r.length = n
  | 0, r => by
    constructor
    · rintro ⟨l, h, rfl⟩
      rw [List.length_eq_zero_iff.1 (by omega : l.length = 0)]; rfl
    · intro h
      exact ⟨[], rfl, by rw [List.length_eq_zero_iff.1 h]; rfl⟩
  | n + 1, r => by
    constructor
    · rintro ⟨l, h, rfl⟩
      match l, h with
      | a :: b :: l, h =>
        have := (limbsOfWords_surj n (limbsOfWords l)).1 ⟨l, by simp at h; omega, rfl⟩
        simp [limbsOfWords, this]
      | [_], h => simp at h; omega
    · intro h
      match r, h with
      | v :: r, h =>
        obtain ⟨l, hl, rfl⟩ := (limbsOfWords_surj n r).2 (by simpa using h)
        obtain ⟨x, y, rfl⟩ := exists_append (m := 32) (n := 32) v
        exact ⟨y :: x :: l, by simp [hl]; omega, rfl⟩

theorem bigintRandomize_unif (n : Nat) : ∃ (A : Finset (List Limb)) (e : Nat → ℚ), Unif A (bigintRandomize n) e ∧
    ∀ r, r ∈ A ↔ r.length = n := by
  obtain ⟨A, e, h, hm⟩ := unif_drawN_map (W := BitVec 32) (n := 2 * n) (g := limbsOfWords) (limbsOfWords_inj n)
  exact ⟨A, e, h, fun r => (hm r).trans (limbsOfWords_surj n r)⟩

/-! ## Prime fields -/

theorem fpAccept_eq (P : FpParams) (hP : P.Valid) : ∃ bits, P.p < 2 ^ bits ∧ bits ≤ 64 * P.n ∧ ∀ r : List Limb, r.length = P.n →
    (fpAccept P r = .ok none ∧ P.p ≤ val r % 2 ^ bits) ∨
      ∃ y : Fp P, fpAccept P r = .ok (some y) ∧ val y.repr = val r % 2 ^ bits := by
  have h1 := hP.one_lt
  have hb : P.p < 2 ^ P.p.size := Nat.lt_size_self _
  have hs : 0 < P.p.size := Nat.size_pos.2 (by omega)
  have hlo : 2 ^ (P.p.size - 1) ≤ P.p := Nat.lt_size.1 (by omega)
  have hle : P.p.size ≤ 64 * P.n := Nat.size_le.2 (by have := hP.topBit; omega)
  refine ⟨P.p.size, hb, hle, fun r hr => ?_⟩
  obtain ⟨m, e1, e2, e3⟩ := maskLoop_spec P.modulus (P.p.size - 1) (by rw [hP.len]; omega) hlo
    (by rw [show P.p.size - 1 + 1 = P.p.size by omega]; exact hb) (64 * P.n) (by omega) r (by omega)
    (by have := val_lt r; rwa [hr] at this)
  rw [show P.p.size - 1 + 1 = P.p.size by omega] at e3
  unfold fpAccept
  rw [e1, Outcome.bind_ok, mpn_cmp_spec m P.modulus (by rw [e2, hr, hP.len]), isGE_compare]
  by_cases h : P.p ≤ val m
  · exact Or.inl ⟨if_pos (by simpa using h), by omega⟩
  · refine Or.inr ⟨⟨m, by omega, by omega⟩, ?_, e3⟩
    rw [if_neg (by simpa using h), dif_pos ⟨by omega, by omega⟩]

theorem fpRandom_unif (P : FpParams) [hP : Fact P.Valid] : ∃ e, Unif Finset.univ (fpRandom P) e := by
  obtain ⟨A, e, hA, hm⟩ := bigintRandomize_unif P.n
  obtain ⟨bits, hb, hle, H⟩ := fpAccept_eq P hP.out
  refine hA.retry (drawN_nil (by have := hP.out.n_pos; omega)) (Finset.univ_nonempty_iff.2 ⟨0⟩) (c := 2 ^ (64 * P.n - bits)) (by positivity)
    (fun r hr => ?_) (fun y _ => ?_)
  · obtain ⟨h, -⟩ | ⟨y, h, -⟩ := H r ((hm r).1 hr)
    · exact Or.inl h
    · exact Or.inr ⟨y, mem_univ _, h⟩
  · rw [← card_mod_eq (64 * P.n) bits (val y.repr) hle (lt_trans y.lt hb)]
    refine Finset.card_bij (fun r _ => val r) (fun r hr => ?_) (fun r hr r' hr' h => ?_) fun w hw => ?_
    · rw [mem_filter] at hr
      have hl := (hm r).1 hr.1
      obtain ⟨h, -⟩ | ⟨y', h, hy'⟩ := H r hl
      · rw [h] at hr; simp at hr
      · rw [h] at hr
        have hy : y' = y := Option.some.inj (Outcome.ok.inj hr.2)
        subst hy
        rw [mem_filter, mem_range]
        exact ⟨by have := val_lt r; rwa [hl] at this, hy'.symm⟩
    · rw [mem_filter] at hr hr'
      exact val_inj (((hm r).1 hr.1).trans ((hm r').1 hr'.1).symm) h
    · rw [mem_filter, mem_range] at hw
      have hl : (limbsOf P.n w).length = P.n := by simp
      have hv : val (limbsOf P.n w) = w := by rw [val_limbsOf, Nat.mod_eq_of_lt hw.1]
      refine ⟨limbsOf P.n w, ?_, hv⟩
      rw [mem_filter]
      refine ⟨(hm _).2 hl, ?_⟩
      obtain ⟨-, h⟩ | ⟨y', h, hy'⟩ := H _ hl
      · rw [hv, hw.2] at h
        exact absurd y.lt (by omega)
      · rw [h]
        congr 2
        refine Fp.ext (val_inj (y'.len.trans y.len.symm) ?_)
        rw [hy', hv, hw.2]

theorem fpRandom_nil (P : FpParams) (hP : P.Valid) : fpRandom P [] = .ok none := by
  show retryFor _ _ 1 [] = _
  exact bind_none (drawN_nil (by have := hP.n_pos; omega))

/-! ## Extensions -/
section ext
variable {W K : Type} [Fintype W] [Nonempty W] [DecidableEq K] {nr : K → K}

theorem quadRandom_unif {A : Finset K} {S : Sampler W K} {e : Nat → ℚ} (h : Unif A S e) (hA : ∀ x, x ∈ A) :
    ∃ (B : Finset (Quad K nr)) (e' : Nat → ℚ), Unif B (quadRandom S) e' ∧ ∀ x, x ∈ B := by
  refine ⟨_, _, h.bind (B := fun c0 => A.image fun c1 => ⟨c0, c1⟩)
    (fun c0 _ => h.map (g := fun c1 => (⟨c0, c1⟩ : Quad K nr)) (fun _ _ => rfl) fun x _ y _ h => (Quad.mk.inj h).2) ?_, ?_⟩
  · intro x _ y _ z hz hz'
    obtain ⟨a, -, rfl⟩ := mem_image.1 hz
    obtain ⟨b, -, h⟩ := mem_image.1 hz'
    exact (Quad.mk.inj h).1.symm
  · rintro ⟨c0, c1⟩
    exact mem_biUnion.2 ⟨c0, hA _, mem_image.2 ⟨c1, hA _, rfl⟩⟩

theorem cubicRandom_unif {A : Finset K} {S : Sampler W K} {e : Nat → ℚ} (h : Unif A S e) (hA : ∀ x, x ∈ A) :
    ∃ (B : Finset (Cubic K nr)) (e' : Nat → ℚ), Unif B (cubicRandom S) e' ∧ ∀ x, x ∈ B := by
  refine ⟨_, _, h.bind (B := fun c0 => A.biUnion fun c1 => A.image fun c2 => ⟨c0, c1, c2⟩)
    (fun c0 _ => h.bind (B := fun c1 => A.image fun c2 => (⟨c0, c1, c2⟩ : Cubic K nr)) (fun c1 _ => h.map (g := fun c2 => (⟨c0, c1, c2⟩ : Cubic K nr))
      (fun _ _ => rfl) fun x _ y _ h => (Cubic.mk.inj h).2.2) ?_) ?_, ?_⟩
  · intro x _ y _ z hz hz'
    obtain ⟨a, -, rfl⟩ := mem_image.1 hz
    obtain ⟨b, -, h⟩ := mem_image.1 hz'
    exact (Cubic.mk.inj h).2.1.symm
  · intro x _ y _ z hz hz'
    obtain ⟨a, -, hz⟩ := mem_biUnion.1 hz
    obtain ⟨b, -, rfl⟩ := mem_image.1 hz
    obtain ⟨a', -, hz'⟩ := mem_biUnion.1 hz'
    obtain ⟨b', -, h⟩ := mem_image.1 hz'
    exact (Cubic.mk.inj h).1.symm
  · rintro ⟨c0, c1, c2⟩
    exact mem_biUnion.2 ⟨c0, hA _, mem_biUnion.2 ⟨c1, hA _, mem_image.2 ⟨c2, hA _, rfl⟩⟩⟩

end ext

/-! ## Rejecting some elements -/
section reject
variable {W T : Type} [Fintype W] [Nonempty W] [DecidableEq T]

theorem retry_filter_unif {A : Finset T} {S : Sampler W T} {e : Nat → ℚ} (h : Unif A S e) (h0 : S [] = .ok none) (bad : T → Bool)
    (hB : ∃ x ∈ A, bad x = false) :
    ∃ e', Unif (A.filter fun x => bad x = false) (retry S fun x => .ok (if bad x then none else some x)) e' := by
  obtain ⟨x0, hx0, hb0⟩ := hB
  refine h.retry h0 ⟨x0, mem_filter.2 ⟨hx0, hb0⟩⟩ (c := 1) one_pos (fun x hx => ?_) fun y hy => ?_
  · cases hb : bad x with
    | true => exact Or.inl rfl
    | false => exact Or.inr ⟨x, mem_filter.2 ⟨hx, hb⟩, rfl⟩
  · rw [mem_filter] at hy
    rw [Finset.card_eq_one]
    refine ⟨y, Finset.ext fun x => ?_⟩
    rw [mem_filter, mem_singleton]
    constructor
    · rintro ⟨hx, h⟩
      cases hb : bad x with
      | true => simp [hb] at h
      | false => simpa [hb] using h
    · rintro rfl
      exact ⟨hy.1, by simp [hy.2]⟩

end reject

/-! ## Small facts -/
section small
variable {W K : Type} {nr : K → K}

theorem quadRandom_nil [Fintype W] {S : Sampler W K} (h : S [] = .ok none) : (quadRandom S : Sampler W (Quad K nr)) [] = .ok none := bind_none h
theorem cubicRandom_nil [Fintype W] {S : Sampler W K} (h : S [] = .ok none) : (cubicRandom S : Sampler W (Cubic K nr)) [] = .ok none := bind_none h

variable [Zero K] [One K]
theorem quad_one_ne' (h : (1 : K) ≠ 0) : (1 : Quad K nr) ≠ 0 := fun e => h (Quad.mk.inj e).1
theorem cubic_one_ne' (h : (1 : K) ≠ 0) : (1 : Cubic K nr) ≠ 0 := fun e => h (Cubic.mk.inj e).1
theorem quad_ne_zero' (h : (1 : K) ≠ 0) : (⟨0, 1⟩ : Quad K nr) ≠ 0 := fun e => h (Quad.mk.inj e).2
theorem quad_ne_one' (h : (1 : K) ≠ 0) : (⟨0, 1⟩ : Quad K nr) ≠ 1 := fun e => h (Quad.mk.inj e).2
theorem cubic_ne_zero' (h : (1 : K) ≠ 0) : (⟨0, 1, 0⟩ : Cubic K nr) ≠ 0 := fun e => h (Cubic.mk.inj e).2.1
theorem cubic_ne_one' (h : (1 : K) ≠ 0) : (⟨0, 1, 0⟩ : Cubic K nr) ≠ 1 := fun e => h (Cubic.mk.inj e).2.1

end small

section small
variable {P : FpParams} [hP : Fact P.Valid] {nr : Fp P → Fp P}

theorem fp_one_ne : (1 : Fp P) ≠ 0 := by
  have := hP.out.one_lt
  haveI : Fact (1 < P.p) := ⟨this⟩
  intro h
  have := congrArg Fp.toZMod h
  rw [Fp.toZMod_one, Fp.toZMod_zero] at this
  exact one_ne_zero this

theorem quad_one_ne : (1 : Quad (Fp P) nr) ≠ 0 := quad_one_ne' fp_one_ne
theorem cubic_one_ne : (1 : Cubic (Fp P) nr) ≠ 0 := cubic_one_ne' fp_one_ne
theorem quad_ne_zero : (⟨0, 1⟩ : Quad (Fp P) nr) ≠ 0 := quad_ne_zero' fp_one_ne
theorem quad_ne_one : (⟨0, 1⟩ : Quad (Fp P) nr) ≠ 1 := quad_ne_one' fp_one_ne
theorem cubic_ne_zero : (⟨0, 1, 0⟩ : Cubic (Fp P) nr) ≠ 0 := cubic_ne_zero' fp_one_ne
theorem cubic_ne_one : (⟨0, 1, 0⟩ : Cubic (Fp P) nr) ≠ 1 := cubic_ne_one' fp_one_ne

theorem fp_three_le (P : FpParams) (h : P.Valid) : 3 ≤ P.p := by
  have h1 := h.one_lt
  have h2 := h.inv
  by_contra hc
  rw [show P.p = 2 by omega] at h2
  omega

theorem fp_card : Fintype.card (Fp P) = P.p := by
  have := hP.out.neZero
  rw [Fintype.card_congr (Equiv.ofBijective (Fp.toZMod (P := P)) ⟨Fp.toZMod_injective, Fp.toZMod_surjective⟩), ZMod.card]

end small

end Libff
