import Verif.Spec.MultiexpRel
import Verif.Lemmas.GroupParam
import Verif.Props.Multiexp

/-!
# From the theorems about abstract groups to group classes with malformed objects
-/
namespace Libff
open GroupOps

section
variable {G A : Type} [ops : GroupOps G] [AddCommGroup A] {Rep : G → A → Prop} {P : FpParams} [hP : Fact P.Valid]

omit [AddCommGroup A] ops in
theorem val_frLimbs (x : Fp P) : val (frLimbs x) = x.toZMod.val := by
  have := hP.out.neZero
  rw [frLimbs, val_limbsOf, Nat.mod_eq_of_lt (by
    have := ZMod.val_lt x.toZMod; have := hP.out.topBit; omega)]

omit [AddCommGroup A] ops in
theorem frLimbs_length (x : Fp P) : (frLimbs x).length = P.n := by simp [frLimbs]

omit ops in
theorem multiSum_frLimbs (as : List A) (scalars : List (Fp P)) :
    multiSum (fun a : A => a) frLimbs as scalars = frSum as scalars := by
  unfold multiSum frSum
  rw [List.zip_eq_zipWith, List.map_zipWith]
  simp only [val_frLimbs]

omit [GroupOps G] in
theorem forall₂_map_of {H : Type} {g : List G} {as : List A} {l : List H} {f : H → A} (h : List.Forall₂ Rep g as)
    (e : as.map (fun a => a) = l.map f) : List.Forall₂ Rep g (l.map f) := by
  rw [← e, List.map_id']; exact h

/-- Everything follows from the operations being right on objects that denote group elements. -/
theorem multiExpCorrect (h : ImplementsRel Rep) (hroom : P.p + 2 ^ 29 ≤ 2 ^ (64 * P.n)) {Special : G → Prop}
    {mixedAdd : G → G → Outcome G} {norm : List G → Outcome (List G)} (hB : AddsSpecial Rep Special mixedAdd)
    (hN : NormalisesTo Rep Special norm) : MultiExpCorrect P ops Rep Special mixedAdd norm := by
  have hnz := hP.out.neZero
  letI : GroupOps A := absOps A
  have hI : ImplementsGroup (fun a : A => a) := absOps_implements A
  have hlt : ∀ x : Fp P, val (frLimbs x) < P.p := fun x => by rw [val_frLimbs]; exact ZMod.val_lt _
  have hk : ∀ (table : List Nat), table.length < 30 → ∀ x : Fp P, val (frLimbs x) + 2 ^ table.length ≤ 2 ^ (64 * P.n) := by
    intro table ht x
    have h1 := hlt x
    have h2 : 2 ^ table.length ≤ 2 ^ 29 := Nat.pow_le_pow_right (by norm_num) (by omega)
    omega
  have htriv : ∀ {gs : List G} {as : List A}, List.Forall₂ Rep gs as → List.Forall₂ (fun g a => Rep g a ∧ True) gs as :=
    fun hg => forall₂_conj hg fun _ _ => trivial
  have hsum : ∀ {l l' : List (Fp P)}, l.Sublist l' →
      (l.map fun s => s.toZMod.val).sum ≤ (l'.map fun s => s.toZMod.val).sum :=
    fun hs => List.Sublist.sum_le_sum (hs.map _) (fun _ _ => Nat.zero_le _)
  have gen : ∀ (Spec : G → Prop) (Ok : List G → List (Fp P) → Prop) (inner : List G → List (Fp P) → Outcome G)
      (inner' : List A → List (Fp P) → Outcome A)
      (_ : ∀ {gs : List G} {as : List A} (ss : List (Fp P)), List.Forall₂ (fun g a => Rep g a ∧ Spec g) gs as →
        Outcome.Rel Rep (inner gs ss) (inner' as ss))
      (_ : ∀ bases ss, Ok bases ss → ∀ g ∈ bases, Spec g)
      (_ : ∀ (bases : List G) (as : List A) (ss : List (Fp P)), Ok bases ss → bases.length = as.length →
        ∀ gs ts, gs.length = ts.length → gs.length ≤ as.length → ts.Sublist ss →
          ∃ t, inner' gs ts = .ok t ∧ t = multiSum (fun a : A => a) frLimbs gs ts),
      SumsTo (P := P) ops Rep Ok inner := by
    intro Spec Ok inner inner' hin hok hin' bases as scalars chunks order hg hlen ho hc hp
    have hl := hg.length_eq
    obtain ⟨t, t1, t2⟩ := C29_chunks (toB := frLimbs) hI inner' as scalars (hl.symm.trans hlen)
      (fun gs ts h1 h2 _ h4 => hin' bases as scalars ho hl gs ts h1 h2 h4) chunks hc order hp
    obtain ⟨g, g1, g2⟩ := (multiExp_par h hin (forall₂_conj hg (hok _ _ ho)) scalars chunks order).ok_left t1
    refine ⟨g, g1, ?_⟩
    rw [← multiSum_frLimbs, ← t2]
    exact g2
  have mixed : ∀ (Spec : G → Prop) (addB : G → G → Outcome G) (norm : List G → Outcome (List G))
      (_ : AddsSpecial Rep Spec addB) (_ : NormalisesTo Rep Spec norm)
      (debug : Bool) (bases : List G) (as : List A) (scalars : List (Fp P)) (chunks : Nat)
      (order : List Nat), List.Forall₂ Rep bases as → bases.length = scalars.length → bases.length ≤ 2 ^ 42 →
      (∀ g ∈ bases, Spec g) → 1 ≤ chunks → order.Perm (List.range chunks) →
      ∃ g, multiExpMixed debug addB (multiExpBdlo frLimbs addB norm) order bases scalars chunks = .ok g ∧
        Rep g (frSum as scalars) := by
    intro Spec addB norm hB hN debug bases as scalars chunks order hg hlen hsz hsp hc hp
    have hl := hg.length_eq
    have hz : val (frLimbs (0 : Fp P)) = 0 := by rw [val_frLimbs, Fp.toZMod_zero, ZMod.val_zero]
    have h1 : val (frLimbs (1 : Fp P)) = 1 := by
      have : Fact (1 < P.p) := ⟨hP.out.one_lt⟩
      rw [val_frLimbs, Fp.toZMod_one, ZMod.val_one]
    obtain ⟨t, t1, t2⟩ := C30_mixed (toB := frLimbs) hI debug plainAdd (fun _ => True) (fun _ _ _ => ⟨_, rfl, rfl⟩) hz h1
      (multiExpBdlo frLimbs plainAdd .ok) as (fun _ _ => trivial) scalars (hl.symm.trans hlen)
      (fun gs ts h1 h2 _ _ => C28_bdlo12 hI gs ts h1 (by omega)) chunks hc order hp
    obtain ⟨g, g1, g2⟩ := (multiExpMixed_par h hB debug (fun ss hg => multiExpBdlo_par h hB hN hg ss)
      (forall₂_conj hg hsp) scalars chunks order).ok_left t1
    refine ⟨g, g1, ?_⟩
    rw [← multiSum_frLimbs, ← t2]
    exact g2
  refine
    { as_bigint := fun x => x.represents.asBigint hP.out
      naive := fun debug table ht => gen (fun _ => True) _ _ (multiExpNaive frLimbs debug table)
        (fun ss hg => multiExpNaive_par h debug table (forall₂_left hg) ss) (fun _ _ _ _ _ => trivial)
        (fun _ _ _ _ _ gs ts hl _ _ => C28_naive hI debug table ht gs ts hl
          (fun s _ => by rw [frLimbs_length]; exact hk table ht s))
      plain := fun debug => gen (fun _ => True) _ _ (multiExpPlain frLimbs debug)
        (fun ss hg => multiExpPlain_par h debug (forall₂_left hg) ss) (fun _ _ _ _ _ => trivial)
        (fun _ _ _ _ _ gs ts hl _ _ => C28_naive_plain hI debug gs ts hl)
      bdlo12 := gen (fun _ => True) _ _ (multiExpBdlo frLimbs plainAdd .ok)
        (fun ss hg => multiExpBdlo_par h (plainAdd_addsSpecial h) ok_normalisesTo hg ss) (fun _ _ _ _ _ => trivial)
        (fun _ _ _ ho hl gs ts h1 h2 _ => C28_bdlo12 hI gs ts h1 (by omega))
      bdlo12_mixed := gen Special _ _ (multiExpBdlo frLimbs plainAdd .ok)
        (fun ss hg => multiExpBdlo_par h hB hN hg ss) (fun _ _ ho => ho.2)
        (fun _ _ _ ho hl gs ts h1 h2 _ => C28_bdlo12 hI gs ts h1 (by have := ho.1; omega))
      bos_coster := fun table mk rounds ht hmk => gen (fun _ => True) _ _
        (fun bases scalars => (multiExpBosCoster frLimbs table P.n mk rounds bases scalars).bind fun r => r.elim .ub .ok)
        (fun ss hg => (multiExpBosCoster_par h table P.n mk rounds (forall₂_left hg) ss).bind fun hr => by
          cases hr with
          | none => exact .ub
          | some hr => exact .ok hr) (fun _ _ _ _ _ => trivial) ?_
      with_mixed_addition := mixed Special mixedAdd norm hB hN
      without_mixed_addition := fun debug bases as scalars chunks order hg hl hs hc hp =>
        mixed (fun _ => True) plainAdd .ok (plainAdd_addsSpecial h) ok_normalisesTo debug bases as scalars chunks order hg hl hs
          (fun _ _ => trivial) hc hp
      fixed_base := ?_ }
  · intro _ _ ss ho _ gs ts h1 _ h3
    obtain ⟨t, t1, t2⟩ := C28_bos_coster (toB := frLimbs) hI table ht P.n mk hmk gs ts h1 (fun s _ => frLimbs_length s)
      (fun s _ => hk table ht s) rounds (by simp only [val_frLimbs]; exact lt_of_le_of_lt (hsum h3) ho)
    exact ⟨t, by rw [t1]; rfl, t2⟩
  · intro size window g a hg hw hw2 hsz
    have hs : 1 ≤ size := by
      rcases Nat.eq_zero_or_pos size with rfl | h0
      · have := hP.out.one_lt; omega
      · exact h0
    have hlt' : ∀ x : Fp P, val (frLimbs x) < 2 ^ size := fun x => lt_of_lt_of_le (hlt x) hsz
    obtain ⟨U, u1, _⟩ := C31_table hI size window hw (by omega) hs a
    obtain ⟨T, T1, T2⟩ := (getWindowTable_par h size window hg).ok_left u1
    refine ⟨T, T1, fun x => ?_, fun v order hp => ⟨?_, fun c => ?_⟩⟩
    · obtain ⟨t, t1, t2⟩ := C31_windowed_exp hI size window hw hw2 hs a U u1 (frLimbs x) (hlt' x)
      obtain ⟨t', t3, t4⟩ := (windowedExp_par h size window T2 (frLimbs x)).ok_left t1
      exact ⟨t', t3, by rw [val_frLimbs] at t2; rw [← t2]; exact t4⟩
    · obtain ⟨r, r1, r2⟩ := C32_batch_exp (toB := frLimbs) hI size window hw hw2 hs a U u1 v (fun s _ => hlt' s) order hp
      obtain ⟨r', r3, r4⟩ := (batchExp_par (toB := frLimbs) h size window T2 order v).ok_left r1
      simp only [val_frLimbs] at r2
      exact ⟨r', r3, forall₂_map_of r4 r2⟩
    · obtain ⟨r, r1, r2⟩ := C32_batch_exp_with_coeff (toB := frLimbs) hI size window hw hw2 hs a U u1 c v
        (fun s _ => hlt' _) order hp
      obtain ⟨r', r3, r4⟩ := (batchExpWithCoeff_par (toB := frLimbs) h size window T2 order c v).ok_left r1
      simp only [val_frLimbs] at r2
      exact ⟨r', r3, forall₂_map_of r4 r2⟩

end
end Libff
