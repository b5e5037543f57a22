import Verif.Lemmas.SamplingFields
import Verif.Lemmas.FrAction
import Verif.Props.Cofactor
import Verif.Props.Edwards
import Verif.Props.GenEdwards

/-!
# Random elements of groups, of binary fields, and the helpers that exclude elements
-/
namespace Libff
open Finset Sampler

section cls
variable {W α : Type} [Fintype W] [Nonempty W]

/-- `A` has exactly one element of each class of `eq` in `B`. -/
theorem Unif.uniformOn' {A : Finset α} {S : Sampler W α} {e : Nat → ℚ} (h : Unif A S e) {eq : α → α → Bool} {B : Set α}
    (hA : ∀ x ∈ A, x ∈ B) (hB : ∀ b ∈ B, ∃ x ∈ A, ∀ x' ∈ A, (eq x' b = true ↔ x' = x)) :
    UniformOn (fun p q => eq p q = true) B S := by
  have hu := h.uniformOn (B := {x | x ∈ A}) (fun _ => Iff.rfl)
  have key : ∀ b ∈ B, ∃ x ∈ A, ∀ t, (∃ x', S t = .ok (some (x', [])) ∧ eq x' b = true) ↔ ∃ x', S t = .ok (some (x', [])) ∧ x' = x := by
    intro b hb
    obtain ⟨x, hx, hu⟩ := hB b hb
    have hmem : ∀ t x', S t = .ok (some (x', [])) → x' ∈ A := by
      intro t x' ht
      obtain h0 | ⟨pre, rest, y, rfl, hy, H⟩ := h.result t
      · rw [h0] at ht; cases Outcome.ok.inj ht
      · rw [H rest] at ht
        have := (Prod.mk.inj (Option.some.inj (Outcome.ok.inj ht))).1
        exact this ▸ hy
    exact ⟨x, hx, fun t => ⟨fun ⟨x', ht, he⟩ => ⟨x', ht, (hu x' (hmem t x' ht)).1 he⟩,
      fun ⟨x', ht, he⟩ => ⟨x', ht, (hu x' (hmem t x' ht)).2 he⟩⟩⟩
  refine ⟨fun t => ?_, fun k x hx y hy => ?_, h.ends⟩
  · obtain h0 | ⟨pre, rest, x, e, hx, H⟩ := h.result t
    · exact Or.inl h0
    · exact Or.inr ⟨pre, rest, x, e, hA x hx, H⟩
  · obtain ⟨x0, hx0, Hx⟩ := key x hx
    obtain ⟨y0, hy0, Hy⟩ := key y hy
    rw [show (fun t => ∃ x', S t = .ok (some (x', [])) ∧ eq x' x = true) = _ from funext fun t => propext (Hx t),
      show (fun t => ∃ x', S t = .ok (some (x', [])) ∧ eq x' y = true) = _ from funext fun t => propext (Hy t)]
    exact hu.fair k x0 hx0 y0 hy0

theorem Unif.randomElements [DecidableEq α] {A : Finset α} {S : Sampler W α} {e : Nat → ℚ} (h : Unif A S e) (h0 : S [] = .ok none)
    {eq : α → α → Bool} {isZero : α → Bool} {one : α} {B : Set α} (hA : ∀ x ∈ A, x ∈ B)
    (hB : ∀ b ∈ B, ∃ x ∈ A, ∀ x' ∈ A, (eq x' b = true ↔ x' = x))
    (hc : ∀ x ∈ A, ∀ b ∈ B, eq x b = true → isZero x = isZero b ∧ ∀ y ∈ B, eq x y = eq b y) (hone : one ∈ B)
    (hz : ∃ x ∈ A, isZero x = true) (hex : ∃ x ∈ A, isZero x = false ∧ eq x one = false) :
    RandomElements eq isZero one B S (randomNonZeroS S isZero) (randomNonZeroOneS S isZero fun x => eq x one)
      fun y => randomExcludeS S fun x => eq x y := by
  have key : ∀ bad : α → Bool, (∀ x ∈ A, ∀ b ∈ B, eq x b = true → bad x = bad b) → (∃ x ∈ A, bad x = false) →
      UniformOn (fun p q => eq p q = true) {p | p ∈ B ∧ bad p = false} (Sampler.retry S fun x => .ok (if bad x then none else some x)) := by
    intro bad hbad hx
    obtain ⟨e', h'⟩ := retry_filter_unif h h0 bad hx
    refine h'.uniformOn' (fun x hx => ⟨hA x (mem_filter.1 hx).1, (mem_filter.1 hx).2⟩) fun b hb => ?_
    obtain ⟨x, hx, hu⟩ := hB b hb.1
    refine ⟨x, mem_filter.2 ⟨hx, ?_⟩, fun x' hx' => hu x' (mem_filter.1 hx').1⟩
    rw [hbad x hx b hb.1 ((hu x hx).2 rfl)]; exact hb.2
  obtain ⟨x1, hx1, h1, h1'⟩ := hex
  obtain ⟨z, hzA, hz⟩ := hz
  refine ⟨h.uniformOn' hA hB, ?_, ?_, fun y hy => ?_⟩
  · exact key isZero (fun x hx b hb he => (hc x hx b hb he).1) ⟨x1, hx1, h1⟩
  · have := key (fun x => isZero x || eq x one) (fun x hx b hb he => by
      rw [(hc x hx b hb he).1, (hc x hx b hb he).2 one hone]) ⟨x1, hx1, by rw [h1, h1']; rfl⟩
    simp only [Bool.or_eq_false_iff] at this
    exact this
  · refine key (fun x => eq x y) (fun x hx b hb he => (hc x hx b hb he).2 y hy) ?_
    obtain ⟨x, hx, hu⟩ := hB y hy
    by_contra hcon
    push Not at hcon
    have e1 := (hu x1 hx1).1 (by have := hcon x1 hx1; simpa using this)
    have e2 := (hu z hzA).1 (by have := hcon z hzA; simpa using this)
    rw [e1.trans e2.symm, hz] at h1
    cases h1

/-- If `==` is equality. -/
theorem Unif.randomElements_eq [DecidableEq α] {A : Finset α} {S : Sampler W α} {e : Nat → ℚ} (h : Unif A S e) (h0 : S [] = .ok none)
    (hA : ∀ x, x ∈ A) {zero one two : α} (h1 : two ≠ zero) (h2 : two ≠ one) :
    RandomElements (fun x y => decide (x = y)) (fun x => decide (x = zero)) one Set.univ S (randomNonZeroS S fun x => decide (x = zero))
      (randomNonZeroOneS S (fun x => decide (x = zero)) fun x => decide (x = one)) fun y => randomExcludeS S fun x => decide (x = y) := by
  refine h.randomElements h0 (fun _ _ => trivial) (fun b _ => ⟨b, hA b, fun x' _ => by simp⟩) (fun x _ b _ he => ?_) trivial
    ⟨zero, hA _, by simp⟩ ⟨two, hA _, by simpa using h1, by simpa using h2⟩
  have := of_decide_eq_true he
  exact ⟨by rw [this], fun y _ => by rw [this]⟩

end cls

section group
variable {G : Type} {A : Type*} [DecidableEq G] [ops : GroupOps G] [AddCommGroup A] {Rep : G → A → Prop} {P : FpParams}
  [hP : Fact P.Valid]

theorem groupRandom_randomElements (h : ImplementsRel Rep) {eq : G → G → Bool} {isZero : G → Bool}
    (heq : ∀ {g g' a a'}, Rep g a → Rep g' a' → (eq g g' = true ↔ a = a'))
    (hz : ∀ {g a}, Rep g a → (isZero g = true ↔ a = 0)) {one : G} {a : A} (ha : Rep one a) (ho : addOrderOf a = P.p)
    (h3 : 3 ≤ P.p) {dom : G → Prop} (hdom : ∀ g x, Rep g x → dom g)
    (hdom' : ∀ g, dom g → (∃ k : List Limb, eq g (scalarMul one k) = true) → ∃ x, Rep g x) :
    RandomElements eq isZero one {g | dom g ∧ ∃ k : List Limb, eq g (scalarMul one k) = true} (groupRandom ops P one)
      (randomNonZeroS (groupRandom ops P one) isZero) (randomNonZeroOneS (groupRandom ops P one) isZero fun x => eq x one)
      fun y => randomExcludeS (groupRandom ops P one) fun x => eq x y := by
  have hne := hP.out.neZero
  obtain ⟨e, hu⟩ := fpRandom_unif P
  have hk : ∀ m n : Nat, m • a = n • a ↔ (m : ZMod P.p) = n := by
    intro m n
    rw [ZMod.natCast_eq_natCast_iff, ← ho, nsmul_eq_nsmul_iff_modEq]
  have hv : ∀ x : ZMod P.p, ((x.val : Nat) : ZMod P.p) = x := fun x => ZMod.natCast_zmod_val x
  have hd := fun x : Fp P => (fieldMul_rel h ha x).2
  have hm := hu.map (T := fun x => Sampler.lift (fieldMul P x.repr one)) (g := fun x => scalarMul one (limbsOf P.n x.toZMod.val)) (fun x _ => by
    rw [(fieldMul_rel h ha x).1]; rfl) (fun x _ y _ hxy => by
      have e1 := (heq (hd x) (hd y)).1 (by rw [show scalarMul one (limbsOf P.n x.toZMod.val) = _ from hxy]; exact (heq (hd y) (hd y)).2 rfl)
      rw [hk, hv, hv] at e1
      exact Fp.toZMod_injective e1)
  have himg : ∀ {x}, x ∈ univ.image (fun x : Fp P => scalarMul one (limbsOf P.n x.toZMod.val)) → ∃ y : Fp P, Rep x (y.toZMod.val • a) ∧
      scalarMul one (limbsOf P.n y.toZMod.val) = x := by
    intro x hx
    obtain ⟨y, -, rfl⟩ := mem_image.1 hx
    exact ⟨y, hd y, rfl⟩
  have hset : ∀ b, (dom b ∧ ∃ k : List Limb, eq b (scalarMul one k) = true) → ∃ k : Nat, Rep b (k • a) := by
    rintro b ⟨h1, k, h2⟩
    obtain ⟨c, hc⟩ := hdom' b h1 ⟨k, h2⟩
    have := (heq hc (scalarMul_rel h ha k)).1 h2
    exact ⟨val k, this ▸ hc⟩
  have hnat : ∀ k : Nat, (((k : Fp P)).toZMod.val : ZMod P.p) = k := fun k => by
    rw [hv, Fp.toZMod_natCast]
  have hone : dom one ∧ ∃ k : List Limb, eq one (scalarMul one k) = true := by
    refine ⟨hdom _ _ ha, _, (heq ha (hd 1)).2 ?_⟩
    conv_lhs => rw [← one_nsmul a]
    rw [hk, hv, Fp.toZMod_one, Nat.cast_one]
  refine hm.randomElements ?_ (fun x hx => ?_) (fun b hb => ?_) (fun x hx b hb he => ?_) hone ?_ ?_
  · show Sampler.bind _ _ _ = _
    exact bind_none (fpRandom_nil P hP.out)
  · obtain ⟨y, hy, rfl⟩ := himg hx
    exact ⟨hdom _ _ hy, _, (heq hy hy).2 rfl⟩
  · obtain ⟨k, hb⟩ := hset b hb
    refine ⟨_, mem_image_of_mem _ (mem_univ (k : Fp P)), fun x' hx' => ?_⟩
    obtain ⟨y, hy, rfl⟩ := himg hx'
    rw [heq hy hb, hk, hv]
    constructor
    · intro e1
      have : y = (k : Fp P) := Fp.toZMod_injective (by rw [e1]; exact ((hv _).symm.trans (hnat k)).symm)
      rw [this]
    · intro e1
      have := (heq hy (hd (k : Fp P))).1 (by rw [e1]; exact (heq (hd _) (hd _)).2 rfl)
      rw [hk, hnat, hv] at this
      exact this
  · obtain ⟨y, hy, rfl⟩ := himg hx
    obtain ⟨k, hb⟩ := hset b hb
    have e1 := (heq hy hb).1 he
    rw [e1] at hy
    refine ⟨Bool.eq_iff_iff.2 ((hz hy).trans (hz hb).symm), fun c hc => ?_⟩
    obtain ⟨k', hc⟩ := hset c hc
    exact Bool.eq_iff_iff.2 ((heq hy hc).trans (heq hb hc).symm)
  · refine ⟨_, mem_image_of_mem _ (mem_univ ((0 : Nat) : Fp P)), (hz (hd _)).2 ?_⟩
    rw [← zero_nsmul a, hk, hnat]
  · refine ⟨_, mem_image_of_mem _ (mem_univ ((2 : Nat) : Fp P)), ?_, ?_⟩
    · rw [Bool.eq_false_iff, Ne, hz (hd _), ← zero_nsmul a, hk, hnat, ZMod.natCast_eq_natCast_iff]
      intro h2
      rw [Nat.ModEq, Nat.mod_eq_of_lt (by omega), Nat.zero_mod] at h2
      cases h2
    · rw [Bool.eq_false_iff, Ne, heq (hd _) (show Rep one (1 • a) by rwa [one_nsmul]), hk, hnat, ZMod.natCast_eq_natCast_iff]
      intro h2
      rw [Nat.ModEq, Nat.mod_eq_of_lt (by omega), Nat.mod_eq_of_lt (by omega)] at h2
      cases h2

theorem groupRandom_order (h : ImplementsRel Rep) {eq : G → G → Bool} {isZero : G → Bool}
    (heq : ∀ {g g' a a'}, Rep g a → Rep g' a' → (eq g g' = true ↔ a = a'))
    (hz : ∀ {g a}, Rep g a → (isZero g = true ↔ a = 0)) {one : G} {a : A} (ha : Rep one a) (ho : addOrderOf a = P.p)
    (h3 : 3 ≤ P.p) {wf : G → Bool} (hw : ∀ g, wf g = true ↔ ∃ x, Rep g x) {cof : G → G}
    (hC : CofactorClears ops eq wf one P.modulus cof) :
    RandomElements eq isZero one {g | wf g = true ∧ eq (scalarMul g P.modulus) ops.zero = true} (groupRandom ops P one)
      (randomNonZeroS (groupRandom ops P one) isZero) (randomNonZeroOneS (groupRandom ops P one) isZero fun x => eq x one)
      fun y => randomExcludeS (groupRandom ops P one) fun x => eq x y := by
  have := groupRandom_randomElements h heq hz ha ho h3 (dom := fun g => wf g = true) (fun g x hx => (hw g).2 ⟨x, hx⟩) (fun g hg _ => (hw g).1 hg)
  convert this using 1
  ext g
  refine and_congr_right fun hg => ⟨fun h0 => ?_, fun ⟨k, hk⟩ => ?_⟩
  · obtain ⟨k, hk, he⟩ := (hC.member g hg).1 h0
    exact ⟨limbsOf P.modulus.length k, he _ (by rw [val_limbsOf, Nat.mod_eq_of_lt (hk.trans (val_lt P.modulus))])⟩
  · obtain ⟨x, hx⟩ := (hw g).1 hg
    refine (heq (scalarMul_rel h hx P.modulus) h.zero).2 ?_
    have e1 := (heq hx (scalarMul_rel h ha k)).1 hk
    rw [e1, smul_comm, show val P.modulus = addOrderOf a from ho.symm, addOrderOf_nsmul_eq_zero, smul_zero]

end group

section curves
variable {K : Type} [Field K] [Finite K] [DecidableEq K] [Squared K] [LawfulSquared K] {P : FpParams} [hP : Fact P.Valid]

theorem Jac.random {b : K} (h2 : (2 : K) ≠ 0) (h3 : (3 : K) ≠ 0) (hb : b ≠ 0) {one : Coord3 K}
    (h : ∃ a : (sw 0 b).Point, JacRep one a ∧ addOrderOf a = P.p) (hp : 3 ≤ P.p) {cof : Coord3 K → Coord3 K}
    (hC : CofactorClears Jac.ops Jac.eq (Jac.isWellFormed b) one P.modulus cof) :
    RandomElements Jac.eq Jac.isZero one {g | Jac.isWellFormed b g = true ∧ Jac.eq (@scalarMul _ Jac.ops g P.modulus) Jac.zero = true}
      (groupRandom Jac.ops P one) (randomNonZeroS (groupRandom Jac.ops P one) Jac.isZero)
      (randomNonZeroOneS (groupRandom Jac.ops P one) Jac.isZero fun x => Jac.eq x one)
      fun y => randomExcludeS (groupRandom Jac.ops P one) fun x => Jac.eq x y := by
  obtain ⟨a, ha, ho⟩ := h
  exact @groupRandom_order _ _ _ Jac.ops _ _ _ _ (Jac.implementsRel (b := b) h2) _ _ Jac.eq_rep Jac.isZero_rep _ _ ha ho hp _
    (C38_jacobian h2 h3 hb) _ hC

theorem Proj.random {mA : K → K} {a b : K} (hA : ∀ x, mA x = a * x) (h2 : (2 : K) ≠ 0) (hd : 4 * a ^ 3 + 27 * b ^ 2 ≠ 0) {one : Coord3 K}
    (h : ∃ Q : (sw a b).Point, ProjRep one Q ∧ addOrderOf Q = P.p) (hp : 3 ≤ P.p) {cof : Coord3 K → Coord3 K}
    (hC : CofactorClears (Proj.ops mA) Proj.eq (Proj.isWellFormed a b) one P.modulus cof) :
    RandomElements Proj.eq Proj.isZero one
      {g | Proj.isWellFormed a b g = true ∧ Proj.eq (@scalarMul _ (Proj.ops mA) g P.modulus) Proj.zero = true}
      (groupRandom (Proj.ops mA) P one) (randomNonZeroS (groupRandom (Proj.ops mA) P one) Proj.isZero)
      (randomNonZeroOneS (groupRandom (Proj.ops mA) P one) Proj.isZero fun x => Proj.eq x one)
      fun y => randomExcludeS (groupRandom (Proj.ops mA) P one) fun x => Proj.eq x y := by
  obtain ⟨Q, ha, ho⟩ := h
  exact @groupRandom_order _ _ _ (Proj.ops mA) _ _ _ _ (Proj.implementsRel (b := b) hA h2) _ _ Proj.eq_rep Proj.isZero_rep _ _ ha ho hp _
    (C38_projective h2 hd) _ hC

end curves

section edw
variable {K : Type} [Field K] [DecidableEq K] [Squared K] [LawfulSquared K] {P : FpParams} [hP : Fact P.Valid]

theorem Edw.random {ops : GroupOps (Coord3 K)} {a d : K} (h2 : (2 : K) ≠ 0) (hc : a - d ≠ 0) {one : Coord3 K}
    (hi : @ImplementsRel _ _ ops _ (EdwRepIn (torsionSub P.p : AddSubgroup (edwW a d).Point)))
    (h : ∃ Q : (edwW a d).Point, EdwRep one Q ∧ addOrderOf Q = P.p) (hp : 3 ≤ P.p) :
    RandomElements Edw.eq Edw.isZero one
      {g | (∃ Q : (edwW a d).Point, EdwRep g Q) ∧ ∃ k : List Limb, Edw.eq g (@scalarMul _ ops one k) = true}
      (groupRandom ops P one) (randomNonZeroS (groupRandom ops P one) Edw.isZero)
      (randomNonZeroOneS (groupRandom ops P one) Edw.isZero fun x => Edw.eq x one)
      fun y => randomExcludeS (groupRandom ops P one) fun x => Edw.eq x y := by
  obtain ⟨Q, ha, ho⟩ := h
  have hQ : Q ∈ (torsionSub P.p : AddSubgroup (edwW a d).Point) := by
    change P.p • Q = 0
    rw [← ho, addOrderOf_nsmul_eq_zero]
  refine @groupRandom_randomElements _ _ _ ops _ _ _ _ hi _ _ (fun h h' => Edw.eq_rep h2 hc h.2 h'.2) (fun h => Edw.isZero_rep h.2) _ _
    ⟨hQ, ha⟩ ho hp _ (fun g x hx => ⟨x, hx.2⟩) (fun g hg hk => ?_)
  obtain ⟨R, hR⟩ := hg
  obtain ⟨k, hk⟩ := hk
  have hs := @scalarMul_rel _ _ ops _ _ hi _ _ ⟨hQ, ha⟩ k
  exact ⟨R, (Edw.eq_rep h2 hc hR hs.2).1 hk ▸ hs.1, hR⟩

end edw

/-! ## Binary fields -/
section binary

theorem list8 {l : List Byte} (h : l.length = 8) : ∃ a b c d e f g i, l = [a, b, c, d, e, f, g, i] := by
  match l, h with
  | [a, b, c, d, e, f, g, i], _ => exact ⟨a, b, c, d, e, f, g, i, rfl⟩

theorem list4 {l : List Byte} (h : l.length = 4) : ∃ a b c d, l = [a, b, c, d] := by
  match l, h with
  | [a, b, c, d], _ => exact ⟨a, b, c, d, rfl⟩

theorem u64OfBytes_inj {l l' : List Byte} (h : l.length = 8) (h' : l'.length = 8) (H : u64OfBytes l = u64OfBytes l') : l = l' := by
  obtain ⟨a, b, c, d, e, f, g, i, rfl⟩ := list8 h
  obtain ⟨a', b', c', d', e', f', g', i', rfl⟩ := list8 h'
  obtain ⟨H, h1⟩ := append_inj' H
  obtain ⟨H, h2⟩ := append_inj' H
  obtain ⟨H, h3⟩ := append_inj' H
  obtain ⟨H, h4⟩ := append_inj' H
  obtain ⟨H, h5⟩ := append_inj' H
  obtain ⟨H, h6⟩ := append_inj' H
  obtain ⟨H, h7⟩ := append_inj' H
  rw [H, h1, h2, h3, h4, h5, h6, h7]

theorem u64OfBytes_surj (v : BitVec 64) : ∃ l : List Byte, l.length = 8 ∧ u64OfBytes l = v := by
  obtain ⟨v, a, rfl⟩ := exists_append (m := 56) (n := 8) v
  obtain ⟨v, b, rfl⟩ := exists_append (m := 48) (n := 8) v
  obtain ⟨v, c, rfl⟩ := exists_append (m := 40) (n := 8) v
  obtain ⟨v, d, rfl⟩ := exists_append (m := 32) (n := 8) v
  obtain ⟨v, e, rfl⟩ := exists_append (m := 24) (n := 8) v
  obtain ⟨v, f, rfl⟩ := exists_append (m := 16) (n := 8) v
  obtain ⟨v, g, rfl⟩ := exists_append (m := 8) (n := 8) v
  exact ⟨[a, b, c, d, e, f, g, v], rfl, rfl⟩

theorem u32OfBytes_inj {l l' : List Byte} (h : l.length = 4) (h' : l'.length = 4) (H : u32OfBytes l = u32OfBytes l') : l = l' := by
  obtain ⟨a, b, c, d, rfl⟩ := list4 h
  obtain ⟨a', b', c', d', rfl⟩ := list4 h'
  obtain ⟨H, h1⟩ := append_inj' H
  obtain ⟨H, h2⟩ := append_inj' H
  obtain ⟨H, h3⟩ := append_inj' H
  rw [H, h1, h2, h3]

theorem u32OfBytes_surj (v : BitVec 32) : ∃ l : List Byte, l.length = 4 ∧ u32OfBytes l = v := by
  obtain ⟨v, a, rfl⟩ := exists_append (m := 24) (n := 8) v
  obtain ⟨v, b, rfl⟩ := exists_append (m := 16) (n := 8) v
  obtain ⟨v, c, rfl⟩ := exists_append (m := 8) (n := 8) v
  exact ⟨[a, b, c, v], rfl, rfl⟩

theorem gf32Random_unif : ∃ A e, Unif A gf32Random e ∧ ∀ x, x ∈ A := by
  obtain ⟨A, e, h, hm⟩ := unif_drawN_map (W := Byte) (n := 4) (g := fun b => (⟨u32OfBytes b⟩ : GF32))
    (fun l l' h h' e => u32OfBytes_inj h h' (GF32.mk.inj e))
  refine ⟨A, e, h, fun x => (hm x).2 ?_⟩
  obtain ⟨l, hl, e⟩ := u32OfBytes_surj x.value
  exact ⟨l, hl, by rw [e]⟩

theorem gf64Random_unif : ∃ A e, Unif A gf64Random e ∧ ∀ x, x ∈ A := by
  obtain ⟨A, e, h, hm⟩ := unif_drawN_map (W := Byte) (n := 8) (g := fun b => (⟨u64OfBytes b⟩ : GF64))
    (fun l l' h h' e => u64OfBytes_inj h h' (GF64.mk.inj e))
  refine ⟨A, e, h, fun x => (hm x).2 ?_⟩
  obtain ⟨l, hl, e⟩ := u64OfBytes_surj x.value
  exact ⟨l, hl, by rw [e]⟩

theorem split_inj {l l' : List Byte} (n : Nat) (h1 : l.take n = l'.take n) (h2 : l.drop n = l'.drop n) : l = l' := by
  rw [← List.take_append_drop n l, h1, h2, List.take_append_drop]

theorem gf128Random_unif : ∃ A e, Unif A gf128Random e ∧ ∀ x, x ∈ A := by
  obtain ⟨A, e, h, hm⟩ := unif_drawN_map (W := Byte) (n := 16) (g := fun b => (⟨u64OfBytes (b.take 8), u64OfBytes (b.drop 8)⟩ : GF128))
    (fun l l' h h' e => by
      obtain ⟨e1, e2⟩ := GF128.mk.inj e
      exact split_inj 8 (u64OfBytes_inj (by simp [h]) (by simp [h']) e1) (u64OfBytes_inj (by simp [h]) (by simp [h']) e2))
  refine ⟨A, e, h, fun ⟨x, y⟩ => (hm _).2 ?_⟩
  obtain ⟨l, hl, rfl⟩ := u64OfBytes_surj x
  obtain ⟨l', hl', rfl⟩ := u64OfBytes_surj y
  exact ⟨l ++ l', by simp [hl, hl'], by rw [← hl, List.take_left, List.drop_left]⟩

theorem gf192Random_unif : ∃ A e, Unif A gf192Random e ∧ ∀ x, x ∈ A := by
  obtain ⟨A, e, h, hm⟩ := unif_drawN_map (W := Byte) (n := 24)
    (g := fun b => (⟨u64OfBytes (b.take 8), u64OfBytes ((b.drop 8).take 8), u64OfBytes (b.drop 16)⟩ : GF192))
    (fun l l' h h' e => by
      obtain ⟨e1, e2, e3⟩ := GF192.mk.inj e
      refine split_inj 8 (u64OfBytes_inj (by simp [h]) (by simp [h']) e1) (split_inj 8 (u64OfBytes_inj (by simp [h]) (by simp [h']) e2) ?_)
      rw [List.drop_drop, List.drop_drop]
      exact u64OfBytes_inj (by simp [h]) (by simp [h']) e3)
  refine ⟨A, e, h, fun ⟨x, y, z⟩ => (hm _).2 ?_⟩
  obtain ⟨l1, h1, rfl⟩ := u64OfBytes_surj x
  obtain ⟨l2, h2, rfl⟩ := u64OfBytes_surj y
  obtain ⟨l3, h3, rfl⟩ := u64OfBytes_surj z
  refine ⟨l1 ++ (l2 ++ l3), by simp [h1, h2, h3], ?_⟩
  have e1 : (l1 ++ (l2 ++ l3)).take 8 = l1 := by rw [← h1, List.take_left]
  have e2 : (l1 ++ (l2 ++ l3)).drop 8 = l2 ++ l3 := by rw [← h1, List.drop_left]
  have e3 : (l1 ++ (l2 ++ l3)).drop 16 = l3 := by rw [show 16 = 8 + 8 from rfl, ← List.drop_drop, e2, ← h2, List.drop_left]
  rw [e1, e2, e3, ← h2, List.take_left]

theorem gf256Random_unif : ∃ A e, Unif A gf256Random e ∧ ∀ x, x ∈ A := by
  obtain ⟨A, e, h, hm⟩ := unif_drawN_map (W := Byte) (n := 32)
    (g := fun b => (⟨u64OfBytes (b.take 8), u64OfBytes ((b.drop 8).take 8), u64OfBytes ((b.drop 16).take 8), u64OfBytes (b.drop 24)⟩ : GF256))
    (fun l l' h h' e => by
      obtain ⟨e1, e2, e3, e4⟩ := GF256.mk.inj e
      refine split_inj 8 (u64OfBytes_inj (by simp [h]) (by simp [h']) e1) (split_inj 8 (u64OfBytes_inj (by simp [h]) (by simp [h']) e2) (split_inj 8 ?_ ?_))
      · rw [List.drop_drop, List.drop_drop]
        exact u64OfBytes_inj (by simp [h]) (by simp [h']) e3
      · rw [List.drop_drop, List.drop_drop, List.drop_drop, List.drop_drop]
        exact u64OfBytes_inj (by simp [h]) (by simp [h']) e4)
  refine ⟨A, e, h, fun ⟨x, y, z, w⟩ => (hm _).2 ?_⟩
  obtain ⟨l1, h1, rfl⟩ := u64OfBytes_surj x
  obtain ⟨l2, h2, rfl⟩ := u64OfBytes_surj y
  obtain ⟨l3, h3, rfl⟩ := u64OfBytes_surj z
  obtain ⟨l4, h4, rfl⟩ := u64OfBytes_surj w
  refine ⟨l1 ++ (l2 ++ (l3 ++ l4)), by simp [h1, h2, h3, h4], ?_⟩
  have e1 : (l1 ++ (l2 ++ (l3 ++ l4))).take 8 = l1 := by rw [← h1, List.take_left]
  have e2 : (l1 ++ (l2 ++ (l3 ++ l4))).drop 8 = l2 ++ (l3 ++ l4) := by rw [← h1, List.drop_left]
  have e3 : (l1 ++ (l2 ++ (l3 ++ l4))).drop 16 = l3 ++ l4 := by rw [show 16 = 8 + 8 from rfl, ← List.drop_drop, e2, ← h2, List.drop_left]
  have e4 : (l1 ++ (l2 ++ (l3 ++ l4))).drop 24 = l4 := by rw [show 24 = 16 + 8 from rfl, ← List.drop_drop, e3, ← h3, List.drop_left]
  rw [e1, e2, e3, e4, ← h2, List.take_left, h2, ← h3, List.take_left]

end binary

end Libff
