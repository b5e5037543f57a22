import Verif.Spec.GroupRel
import Verif.Model.Multiexp
import Verif.Lemmas.OutcomeRel
import Mathlib.Algebra.Group.Basic

/-!
# The generic group algorithms commute with the denotation of objects

Every algorithm, run on objects that denote group elements, does the same as the algorithm run on these group
elements with the exact group operations: same kind of outcome, and the result denotes the result.
-/
namespace Libff
set_option linter.unusedSectionVars false
open GroupOps

/-- A commutative group as a group class. -/
@[reducible] def absOps (A : Type) [AddCommGroup A] : GroupOps A := ⟨0, (· + ·), (· - ·), fun a => a + a⟩

theorem absOps_implements (A : Type) [AddCommGroup A] :
    @ImplementsGroup A A (absOps A) _ (fun a => a) :=
  @ImplementsGroup.mk A A (absOps A) _ _ rfl (fun _ _ => rfl) (fun _ _ => rfl) (fun _ => rfl)

section Lists
variable {α β : Type} {S : α → β → Prop}

theorem forall₂_get? {v : List α} {w : List β} (h : List.Forall₂ S v w) (i : Nat) :
    (v[i]? = none ∧ w[i]? = none) ∨ ∃ a b, v[i]? = some a ∧ w[i]? = some b ∧ S a b := by
  induction h generalizing i with
  | nil => exact .inl ⟨rfl, rfl⟩
  | cons h _ ih =>
    cases i with
    | zero => exact .inr ⟨_, _, rfl, rfl, h⟩
    | succ i => simpa using ih i

theorem forall₂_set {v : List α} {w : List β} (h : List.Forall₂ S v w) (i : Nat) {a : α} {b : β} (hab : S a b) :
    List.Forall₂ S (v.set i a) (w.set i b) := by
  induction h generalizing i with
  | nil => exact .nil
  | cons h t ih =>
    cases i with
    | zero => exact .cons hab t
    | succ i => exact .cons h (ih i)

theorem forall₂_replicate {a : α} {b : β} (hab : S a b) (n : Nat) :
    List.Forall₂ S (List.replicate n a) (List.replicate n b) := by
  induction n with
  | zero => exact .nil
  | succ n ih => exact .cons hab ih

theorem forall₂_append {v v' : List α} {w w' : List β} (h : List.Forall₂ S v w) (h' : List.Forall₂ S v' w') :
    List.Forall₂ S (v ++ v') (w ++ w') := by
  induction h with
  | nil => exact h'
  | cons h _ ih => exact .cons h ih

theorem forall₂_reverse {v : List α} {w : List β} (h : List.Forall₂ S v w) : List.Forall₂ S v.reverse w.reverse := by
  induction h with
  | nil => exact .nil
  | cons h _ ih => rw [List.reverse_cons, List.reverse_cons]; exact forall₂_app ih h

theorem forall₂_tail {v : List α} {w : List β} (h : List.Forall₂ S v w) : List.Forall₂ S v.tail w.tail := by
  cases h with
  | nil => exact .nil
  | cons _ h => exact h

theorem forall₂_drop {v : List α} {w : List β} (h : List.Forall₂ S v w) (n : Nat) : List.Forall₂ S (v.drop n) (w.drop n) :=
  List.forall₂_drop n h

theorem forall₂_take {v : List α} {w : List β} (h : List.Forall₂ S v w) (n : Nat) : List.Forall₂ S (v.take n) (w.take n) :=
  List.forall₂_take n h

theorem forall₂_conj {Q : α → Prop} {v : List α} {w : List β} (h : List.Forall₂ S v w) (hq : ∀ x ∈ v, Q x) :
    List.Forall₂ (fun a b => S a b ∧ Q a) v w := by
  induction h with
  | nil => exact .nil
  | cons h _ ih =>
    exact .cons ⟨h, hq _ List.mem_cons_self⟩ (ih fun x hx => hq x (List.mem_cons_of_mem _ hx))

theorem forall₂_left {v : List α} {w : List β} {Q : α → Prop} (h : List.Forall₂ (fun a b => S a b ∧ Q a) v w) :
    List.Forall₂ S v w := by
  induction h with
  | nil => exact .nil
  | cons h _ ih => exact .cons h.1 ih

theorem forall₂_mem {v : List α} {w : List β} {Q : α → Prop} (h : List.Forall₂ (fun a b => S a b ∧ Q a) v w) :
    ∀ x ∈ v, Q x := by
  induction h with
  | nil => simp
  | cons h _ ih =>
    intro x hx
    rcases List.mem_cons.1 hx with rfl | hx
    · exact h.2
    · exact ih x hx

end Lists

section
variable {G A : Type} [GroupOps G] [AddCommGroup A] {Rep : G → A → Prop}
local instance instAbsOps : GroupOps A := absOps A

theorem scalarMulLoop_par (h : ImplementsRel Rep) (e : List Limb) {g : G} {a : A} (hg : Rep g a) :
    ∀ n f {r : G} {s : A}, Rep r s → Rep (scalarMulLoop g e n (f, r)) (scalarMulLoop a e n (f, s))
  | 0, _, _, _, hr => hr
  | n + 1, f, r, s, hr => by
    have h1 : Rep (if f then dbl r else r) (if f then dbl s else s) := by
      cases f
      · exact hr
      · exact h.dbl hr
    simp only [scalarMulLoop]
    split
    · exact scalarMulLoop_par h e hg n _ (h.add h1 hg)
    · exact scalarMulLoop_par h e hg n _ h1

theorem scalarMul_par (h : ImplementsRel Rep) (e : List Limb) {g : G} {a : A} (hg : Rep g a) :
    Rep (scalarMul g e) (scalarMul a e) := scalarMulLoop_par h e hg _ _ h.zero

theorem oddTable_par (h : ImplementsRel Rep) : ∀ n {t d : G} {s b : A}, Rep t s → Rep d b →
    List.Forall₂ Rep (oddTable n t d) (oddTable n s b)
  | 0, _, _, _, _, _, _ => .nil
  | n + 1, _, _, _, _, ht, hd => .cons ht (oddTable_par h n (h.add ht hd) hd)

theorem wnafExpLoop_par (h : ImplementsRel Rep) {T : List G} {U : List A} (hT : List.Forall₂ Rep T U) :
    ∀ ds f {r : G} {s : A}, Rep r s → Outcome.Rel Rep (wnafExpLoop T ds (f, r)) (wnafExpLoop U ds (f, s))
  | [], _, _, _, hr => .ok hr
  | d :: ds, f, r, s, hr => by
    have h1 : Rep (if f then dbl r else r) (if f then dbl s else s) := by
      cases f
      · exact hr
      · exact h.dbl hr
    simp only [wnafExpLoop]
    refine Outcome.Rel.ite Iff.rfl (Outcome.Rel.ite Iff.rfl ?_ ?_) (wnafExpLoop_par h hT ds _ h1)
    · rcases forall₂_get? hT (d / 2).toNat with ⟨e1, e2⟩ | ⟨x, y, e1, e2, e3⟩
      · rw [e1, e2]; exact .ub
      · rw [e1, e2]; exact wnafExpLoop_par h hT ds _ (h.add h1 e3)
    · rcases forall₂_get? hT (-d / 2).toNat with ⟨e1, e2⟩ | ⟨x, y, e1, e2, e3⟩
      · rw [e1, e2]; exact .ub
      · rw [e1, e2]; exact wnafExpLoop_par h hT ds _ (h.sub h1 e3)

theorem Outcome.bind_rel_same {α β γ : Type} {S : β → γ → Prop} (x : Outcome α) {f : α → Outcome β} {g : α → Outcome γ}
    (h : ∀ a, Outcome.Rel S (f a) (g a)) : Outcome.Rel S (x.bind f) (x.bind g) := by
  cases x with
  | ok a => exact h a
  | abort => exact .abort
  | ub => exact .ub

theorem fixedWindowWnafExp_par (h : ImplementsRel Rep) (w : Nat) (e : List Limb) {g : G} {a : A} (hg : Rep g a) :
    Outcome.Rel Rep (fixedWindowWnafExp w g e) (fixedWindowWnafExp w a e) := by
  unfold fixedWindowWnafExp
  exact Outcome.Rel.ite Iff.rfl .ub
    (Outcome.bind_rel_same _ fun naf => wnafExpLoop_par h (oddTable_par h _ hg (h.dbl hg)) _ _ h.zero)

theorem optWindowWnafExp_par (h : ImplementsRel Rep) (T : List Nat) (e : List Limb) (bits : Nat) {g : G} {a : A}
    (hg : Rep g a) : Outcome.Rel Rep (optWindowWnafExp T g e bits) (optWindowWnafExp T a e bits) := by
  unfold optWindowWnafExp
  exact Outcome.Rel.ite Iff.rfl (fixedWindowWnafExp_par h _ e hg) (.ok (scalarMul_par h e hg))

variable {S : Type} {toB : S → List Limb}

theorem naiveLoop_par (h : ImplementsRel Rep) (debug : Bool) {exp : S → G → Outcome G} {exp' : S → A → Outcome A}
    (he : ∀ s {g : G} {a : A}, Rep g a → Outcome.Rel Rep (exp s g) (exp' s a)) {gs : List G} {as : List A}
    (hg : List.Forall₂ Rep gs as) :
    ∀ (ss : List S) {r : G} {s : A}, Rep r s → Outcome.Rel Rep (naiveLoop debug exp gs ss r) (naiveLoop debug exp' as ss s) := by
  induction hg with
  | nil =>
    intro ss r s hr
    cases ss with
    | nil => exact .ok hr
    | cons _ _ => simp only [naiveLoop]; exact Outcome.Rel.ite Iff.rfl .abort (.ok hr)
  | cons hg _ ih =>
    intro ss r s hr
    cases ss with
    | nil => exact .ub
    | cons _ _ => exact (he _ hg).bind fun ht => ih _ (h.add hr ht)

theorem multiExpNaive_par (h : ImplementsRel Rep) (debug : Bool) (T : List Nat) {gs : List G} {as : List A}
    (hg : List.Forall₂ Rep gs as) (ss : List S) :
    Outcome.Rel Rep (multiExpNaive toB debug T gs ss) (multiExpNaive toB debug T as ss) :=
  naiveLoop_par h debug (fun s _ _ hg => optWindowWnafExp_par h T (toB s) (bigintNumBits (toB s)) hg) hg ss h.zero

theorem multiExpPlain_par (h : ImplementsRel Rep) (debug : Bool) {gs : List G} {as : List A}
    (hg : List.Forall₂ Rep gs as) (ss : List S) :
    Outcome.Rel Rep (multiExpPlain toB debug gs ss) (multiExpPlain toB debug as ss) :=
  naiveLoop_par h debug (fun s _ _ hg => .ok (scalarMul_par h (toB s) hg)) hg ss h.zero

theorem plainAdd_addsSpecial (h : ImplementsRel Rep) : AddsSpecial Rep (fun _ => True) (plainAdd (G := G)) :=
  fun hg hh _ => ⟨_, rfl, h.add hg hh⟩

omit [GroupOps G] [AddCommGroup A] in
theorem ok_normalisesTo : NormalisesTo Rep (fun _ => True) (.ok : List G → _) :=
  fun hg => ⟨_, rfl, hg, fun _ _ => trivial⟩

theorem AddsSpecial.rel {Special : G → Prop} {addB : G → G → Outcome G} (hB : AddsSpecial Rep Special addB)
    {g k : G} {a b : A} (hg : Rep g a) (hk : Rep k b) (hs : Special k) : Outcome.Rel Rep (addB g k) (plainAdd a b) := by
  obtain ⟨r, e, hr⟩ := hB hg hk hs
  rw [e]
  exact .ok hr

variable {Special : G → Prop} {addB : G → G → Outcome G} {norm : List G → Outcome (List G)}

theorem fillBuckets_par (hB : AddsSpecial Rep Special addB) (c k : Nat) {gs : List G} {as : List A}
    (hg : List.Forall₂ (fun g a => Rep g a ∧ Special g) gs as) :
    ∀ (es : List (List Limb)) {B : List (G × Bool)} {C : List (A × Bool)},
      List.Forall₂ (fun x y => Rep x.1 y.1 ∧ x.2 = y.2) B C →
      Outcome.Rel (List.Forall₂ (fun x y => Rep x.1 y.1 ∧ x.2 = y.2)) (fillBuckets addB c k gs es B)
        (fillBuckets plainAdd c k as es C) := by
  induction hg with
  | nil => intro es B C h; exact .ok h
  | @cons g a _ _ hg _ ih =>
    intro es B C h
    cases es with
    | nil => exact .ub
    | cons e es =>
      simp only [fillBuckets]
      refine Outcome.Rel.ite Iff.rfl (ih es h) ?_
      rcases forall₂_get? h (windowId e (k * c) c) with ⟨e1, e2⟩ | ⟨⟨x, f⟩, ⟨y, f'⟩, e1, e2, e3, e4⟩
      · rw [e1, e2]; exact .ub
      · rw [e1, e2]
        simp only at e3 e4
        subst e4
        refine Outcome.Rel.bind (S := Rep) (Outcome.Rel.ite Iff.rfl (hB.rel e3 hg.1 hg.2) (.ok hg.1)) fun ht => ?_
        exact ih es (forall₂_set h _ ⟨ht, rfl⟩)

theorem sumBuckets_par (h : ImplementsRel Rep) (hB : AddsSpecial Rep Special addB) {B : List (G × Bool)}
    {C : List (A × Bool)} (hg : List.Forall₂ (fun x y => (Rep x.1 y.1 ∧ x.2 = y.2) ∧ Special x.1) B C) :
    ∀ {r s : G × Bool} {r' s' : A × Bool}, (Rep r.1 r'.1 ∧ r.2 = r'.2) → (Rep s.1 s'.1 ∧ s.2 = s'.2) →
      Outcome.Rel (fun x y => Rep x.1 y.1 ∧ x.2 = y.2) (sumBuckets addB B r s) (sumBuckets plainAdd C r' s') := by
  induction hg with
  | nil => intro r s r' s' _ hs; exact .ok hs
  | @cons b b' _ _ hb _ ih =>
    rintro ⟨r, f⟩ ⟨s, k⟩ ⟨r', f'⟩ ⟨s', k'⟩ ⟨hr, hf⟩ ⟨hs, hk⟩
    obtain ⟨b, n⟩ := b
    obtain ⟨b', n'⟩ := b'
    obtain ⟨⟨hb1, hb2⟩, hb3⟩ := hb
    simp only at hr hf hs hk hb1 hb2 hb3
    subst hf hk hb2
    simp only [sumBuckets]
    refine Outcome.Rel.bind (S := fun (x : G × Bool) (y : A × Bool) => Rep x.1 y.1 ∧ x.2 = y.2)
      (Outcome.Rel.ite Iff.rfl (Outcome.Rel.map (S := Rep)
        (Outcome.Rel.ite Iff.rfl (hB.rel hr hb1 hb3) (.ok hb1)) fun ht => ⟨ht, rfl⟩) (.ok ⟨hr, rfl⟩)) ?_
    rintro ⟨t, m⟩ ⟨t', m'⟩ ⟨ht, hm⟩
    simp only at ht hm
    subst hm
    refine ih ⟨ht, rfl⟩ ?_
    cases m
    · exact ⟨hs, rfl⟩
    · cases k
      · exact ⟨ht, rfl⟩
      · exact ⟨h.add hs ht, rfl⟩

theorem dblN_par (h : ImplementsRel Rep) : ∀ n {g : G} {a : A}, Rep g a → Rep (dblN n g) (dblN n a)
  | 0, _, _, hg => hg
  | n + 1, _, _, hg => dblN_par h n (h.dbl hg)

omit [GroupOps G] [AddCommGroup A] in
theorem buckets_fst {B : List (G × Bool)} {C : List (A × Bool)} (hb : List.Forall₂ (fun x y => Rep x.1 y.1 ∧ x.2 = y.2) B C) :
    List.Forall₂ Rep (B.map Prod.fst) (C.map Prod.fst) ∧ B.map Prod.snd = C.map Prod.snd := by
  induction hb with
  | nil => exact ⟨.nil, rfl⟩
  | cons h _ ih => exact ⟨.cons h.1 ih.1, by rw [List.map_cons, List.map_cons, h.2, ih.2]⟩

omit [GroupOps G] [AddCommGroup A] in
theorem zip_par {P : List G} {Q : List A} (h : List.Forall₂ (fun x y => Rep x y ∧ Special x) P Q) (fs : List Bool) :
    List.Forall₂ (fun (x : G × Bool) (y : A × Bool) => (Rep x.1 y.1 ∧ x.2 = y.2) ∧ Special x.1) (P.zip fs) (Q.zip fs) := by
  induction h generalizing fs with
  | nil => exact .nil
  | cons h _ ih =>
    cases fs with
    | nil => exact .nil
    | cons f fs => exact .cons ⟨⟨h.1, rfl⟩, h.2⟩ (ih fs)

theorem bdloLoop_par (h : ImplementsRel Rep) (hB : AddsSpecial Rep Special addB) (hN : NormalisesTo Rep Special norm)
    (c : Nat) {gs : List G} {as : List A} (hg : List.Forall₂ (fun g a => Rep g a ∧ Special g) gs as)
    (es : List (List Limb)) : ∀ k {r : G × Bool} {s : A × Bool}, (Rep r.1 s.1 ∧ r.2 = s.2) →
      Outcome.Rel Rep (bdloLoop addB norm c gs es k r) (bdloLoop plainAdd .ok c as es k s)
  | 0, _, _, hr => .ok hr.1
  | k + 1, ⟨r, f⟩, ⟨s, f'⟩, ⟨hr, hf⟩ => by
    simp only at hr hf
    subst hf
    have h1 : Rep (if f then (dblN c r, true) else (r, f)).1 (if f then (dblN c s, true) else (s, f)).1 ∧
        (if f then (dblN c r, true) else (r, f)).2 = (if f then (dblN c s, true) else (s, f)).2 := by
      cases f
      · exact ⟨hr, rfl⟩
      · exact ⟨dblN_par h c hr, rfl⟩
    simp only [bdloLoop]
    refine (fillBuckets_par hB c k hg es (forall₂_replicate ⟨h.zero, rfl⟩ _)).bind fun {B C} hb => ?_
    obtain ⟨hb1, hb2⟩ := buckets_fst hb
    obtain ⟨l, e, hl, hsp⟩ := hN hb1
    rw [e, Outcome.bind_ok, Outcome.bind_ok, hb2]
    refine (sumBuckets_par h hB (forall₂_reverse (forall₂_tail (zip_par (forall₂_conj hl hsp) _))) ⟨h.zero, rfl⟩ h1).bind
      fun ht => bdloLoop_par h hB hN c hg es k ht

theorem multiExpBdlo_par (h : ImplementsRel Rep) (hB : AddsSpecial Rep Special addB) (hN : NormalisesTo Rep Special norm)
    {gs : List G} {as : List A} (hg : List.Forall₂ (fun g a => Rep g a ∧ Special g) gs as) (ss : List S) :
    Outcome.Rel Rep (multiExpBdlo toB addB norm gs ss) (multiExpBdlo toB plainAdd .ok as ss) := by
  unfold multiExpBdlo
  rw [hg.length_eq]
  exact Outcome.Rel.ite Iff.rfl .ub (Outcome.Rel.ite Iff.rfl .ub (bdloLoop_par h hB hN _ hg _ _ ⟨h.zero, rfl⟩))

theorem bosLoop_par (h : ImplementsRel Rep) {m : Nat} (T : List Nat) : ∀ fuel (q : Fin (m + 3) → OrderedExponent)
    {g : Nat → G} {a : Nat → A} {r : G} {s : A}, (∀ i, Rep (g i) (a i)) → Rep r s →
      Outcome.Rel (Option.Rel Rep) (bosLoop T fuel q g r) (bosLoop T fuel q a s)
  | 0, _, _, _, _, _, _, _ => .ok .none
  | fuel + 1, q, g, a, r, s, hg, hr => by
    simp only [bosLoop]
    refine Outcome.Rel.ite Iff.rfl ?_ (Outcome.Rel.ite Iff.rfl ?_ ?_)
    · exact (optWindowWnafExp_par h T _ _ (hg _)).map fun ht => .some (h.add hr ht)
    · exact (optWindowWnafExp_par h T _ _ (hg _)).bind fun ht => bosLoop_par h T fuel _ hg (h.add hr ht)
    · refine bosLoop_par h T fuel _ (fun i => ?_) hr
      by_cases hi : i = (q (if (q 1).lt (q 2) then 2 else 1)).idx
      · subst hi
        rw [Function.update_self, Function.update_self]
        exact h.add (hg _) (hg _)
      · rw [Function.update_of_ne hi, Function.update_of_ne hi]
        exact hg i

theorem multiExpBosCoster_par (h : ImplementsRel Rep) (T : List Nat) (n : Nat)
    (mk : List OrderedExponent → List OrderedExponent) (fuel : Nat) {gs : List G} {as : List A}
    (hg : List.Forall₂ Rep gs as) (ss : List S) :
    Outcome.Rel (Option.Rel Rep) (multiExpBosCoster toB T n mk fuel gs ss) (multiExpBosCoster toB T n mk fuel as ss) := by
  have key : ∀ i, Rep (gs.getD i zero) (as.getD i zero) := by
    intro i
    rw [List.getD_eq_getElem?_getD, List.getD_eq_getElem?_getD]
    rcases forall₂_get? hg i with ⟨e1, e2⟩ | ⟨x, y, e1, e2, e3⟩
    · rw [e1, e2]; exact h.zero
    · rw [e1, e2]; exact e3
  have hl := hg.length_eq
  unfold multiExpBosCoster
  cases hg with
  | nil => exact .ok (.some h.zero)
  | @cons g a gs as h1 hg =>
    cases hg with
    | nil =>
      cases ss with
      | nil => exact .ub
      | cons s ss => exact .ok (.some (scalarMul_par h _ h1))
    | @cons g' a' gs as h2 hg =>
      simp only
      rw [hl]
      refine Outcome.Rel.ite Iff.rfl .ub ?_
      split
      · exact bosLoop_par h T fuel _ key h.zero
      · exact .ub

omit [GroupOps G] [AddCommGroup A] in
theorem chunkOf_par {gs : List G} {as : List A} (hg : List.Forall₂ Rep gs as) (one chunks i : Nat) :
    List.Forall₂ Rep (chunkOf gs one chunks i) (chunkOf as one chunks i) := by
  unfold chunkOf
  split
  · exact forall₂_drop hg _
  · exact forall₂_take (forall₂_drop hg _) _

theorem runChunks_par {inner : List G → List S → Outcome G} {inner' : List A → List S → Outcome A}
    (hin : ∀ {gs : List G} {as : List A} (ss), List.Forall₂ (fun g a => Rep g a ∧ Special g) gs as →
      Outcome.Rel Rep (inner gs ss) (inner' as ss)) {gs : List G} {as : List A}
    (hg : List.Forall₂ (fun g a => Rep g a ∧ Special g) gs as) (ss : List S) (one chunks : Nat) :
    ∀ (order : List Nat) {P : List G} {Q : List A}, List.Forall₂ Rep P Q →
      Outcome.Rel (List.Forall₂ Rep) (runChunks inner gs ss one chunks order P) (runChunks inner' as ss one chunks order Q)
  | [], _, _, hP => .ok hP
  | i :: is, _, _, hP => (hin _ (chunkOf_par hg one chunks i)).bind fun ht =>
      runChunks_par hin hg ss one chunks is (forall₂_set hP i ht)

theorem foldl_add_par (h : ImplementsRel Rep) {gs : List G} {as : List A} (hg : List.Forall₂ Rep gs as) :
    ∀ {r : G} {s : A}, Rep r s → Rep (gs.foldl add r) (as.foldl add s) := by
  induction hg with
  | nil => exact fun hr => hr
  | cons hg _ ih => exact fun hr => ih (h.add hr hg)

theorem multiExp_par (h : ImplementsRel Rep) {inner : List G → List S → Outcome G} {inner' : List A → List S → Outcome A}
    (hin : ∀ {gs : List G} {as : List A} (ss), List.Forall₂ (fun g a => Rep g a ∧ Special g) gs as →
      Outcome.Rel Rep (inner gs ss) (inner' as ss)) {gs : List G} {as : List A}
    (hg : List.Forall₂ (fun g a => Rep g a ∧ Special g) gs as) (ss : List S) (chunks : Nat) (order : List Nat) :
    Outcome.Rel Rep (multiExp inner order gs ss chunks) (multiExp inner' order as ss chunks) := by
  unfold multiExp
  rw [hg.length_eq]
  refine Outcome.Rel.ite Iff.rfl (hin _ hg) (Outcome.Rel.ite Iff.rfl .ub ?_)
  exact (runChunks_par hin hg ss _ chunks order (forall₂_replicate h.zero _)).map fun hP => foldl_add_par h hP h.zero

theorem classify_par [Zero S] [One S] [DecidableEq S] (hB : AddsSpecial Rep Special addB) :
    ∀ (ss : List S) {gs : List G} {as : List A}, List.Forall₂ (fun g a => Rep g a ∧ Special g) gs as →
    ∀ {acc : G} {acc' : A} {bs : List G} {bs' : List A} (ps : List S), Rep acc acc' →
      List.Forall₂ (fun g a => Rep g a ∧ Special g) bs bs' →
      Outcome.Rel (fun x y => Rep x.1 y.1 ∧ List.Forall₂ (fun g a => Rep g a ∧ Special g) x.2.1 y.2.1 ∧ x.2.2 = y.2.2)
        (classify addB gs ss (acc, bs, ps)) (classify plainAdd as ss (acc', bs', ps))
  | [], gs, as, hg, _, _, _, _, _, ha, hb => by
    cases hg <;> exact .ok ⟨ha, hb, rfl⟩
  | s :: ss, gs, as, hg, acc, acc', bs, bs', ps, ha, hb => by
    cases hg with
    | nil => exact .ub
    | @cons g a gs as hga hg =>
      simp only [classify]
      refine Outcome.Rel.ite Iff.rfl (classify_par hB ss hg ps ha hb) (Outcome.Rel.ite Iff.rfl ?_ ?_)
      · exact (hB.rel ha hga.1 hga.2).bind fun ht => classify_par hB ss hg ps ht hb
      · exact classify_par hB ss hg _ ha (forall₂_app hb hga)

theorem multiExpMixed_par [Zero S] [One S] [DecidableEq S] (h : ImplementsRel Rep) (hB : AddsSpecial Rep Special addB)
    (debug : Bool) {inner : List G → List S → Outcome G} {inner' : List A → List S → Outcome A}
    (hin : ∀ {gs : List G} {as : List A} (ss), List.Forall₂ (fun g a => Rep g a ∧ Special g) gs as →
      Outcome.Rel Rep (inner gs ss) (inner' as ss)) {gs : List G} {as : List A}
    (hg : List.Forall₂ (fun g a => Rep g a ∧ Special g) gs as) (ss : List S) (chunks : Nat) (order : List Nat) :
    Outcome.Rel Rep (multiExpMixed debug addB inner order gs ss chunks)
      (multiExpMixed debug plainAdd inner' order as ss chunks) := by
  unfold multiExpMixed
  rw [hg.length_eq]
  refine Outcome.Rel.ite Iff.rfl .abort ((classify_par hB ss hg [] h.zero .nil).bind ?_)
  rintro ⟨acc, bs, ps⟩ ⟨acc', bs', ps'⟩ ⟨h1, h2, h3⟩
  simp only at h1 h2 h3
  subst h3
  exact (multiExp_par h hin h2 ps chunks order).map fun ht => h.add h1 ht

theorem windowRow_par (h : ImplementsRel Rep) {g : G} {a : A} (hg : Rep g a) : ∀ n {r : G} {s : A}, Rep r s →
    List.Forall₂ Rep (windowRow g n r) (windowRow a n s)
  | 0, _, _, _ => .nil
  | n + 1, _, _, hr => .cons hr (windowRow_par h hg n (h.add hr hg))

theorem windowRows_par (h : ImplementsRel Rep) (w i l : Nat) : ∀ n {g : G} {a : A}, Rep g a →
    List.Forall₂ (List.Forall₂ Rep) (windowRows w i l n g) (windowRows w i l n a)
  | 0, _, _, _ => .nil
  | n + 1, g, a, hg => by
    refine .cons (forall₂_append (windowRow_par h hg _ h.zero) (forall₂_replicate h.zero _)) (windowRows_par h w i l n ?_)
    clear i l n
    induction w with
    | zero => exact hg
    | succ w ih => exact h.add ih ih

theorem getWindowTable_par (h : ImplementsRel Rep) (size window : Nat) {g : G} {a : A} (hg : Rep g a) :
    Outcome.Rel (List.Forall₂ (List.Forall₂ Rep)) (getWindowTable size window g) (getWindowTable size window a) := by
  unfold getWindowTable
  exact Outcome.Rel.ite Iff.rfl .ub (.ok (windowRows_par h _ _ _ _ hg))

theorem windowedLoop_par (h : ImplementsRel Rep) (w : Nat) (e : List Limb) {T : List (List G)} {U : List (List A)}
    (hT : List.Forall₂ (List.Forall₂ Rep) T U) : ∀ o {r : G} {s : A}, Rep r s →
      Outcome.Rel Rep (windowedLoop w e T o r) (windowedLoop w e U o s) := by
  induction hT with
  | nil => exact fun _ _ _ hr => .ok hr
  | @cons row row' _ _ hrow _ ih =>
    intro o r s hr
    simp only [windowedLoop]
    rcases forall₂_get? hrow (windowId e (o * w) w) with ⟨e1, e2⟩ | ⟨x, y, e1, e2, e3⟩
    · rw [e1, e2]; exact .ub
    · rw [e1, e2]; exact ih _ (h.add hr e3)

theorem windowedExp_par (h : ImplementsRel Rep) (size w : Nat) {T : List (List G)} {U : List (List A)}
    (hT : List.Forall₂ (List.Forall₂ Rep) T U) (e : List Limb) :
    Outcome.Rel Rep (windowedExp size w T e) (windowedExp size w U e) := by
  unfold windowedExp
  rw [hT.length_eq]
  refine Outcome.Rel.ite Iff.rfl .ub (Outcome.Rel.ite Iff.rfl .ub ?_)
  cases hT with
  | nil => exact .ub
  | cons h1 h2 =>
    cases h1 with
    | nil => exact .ub
    | cons h3 h4 => exact windowedLoop_par h w e (forall₂_take (.cons (.cons h3 h4) h2) _) _ h3

theorem runBatch_par (h : ImplementsRel Rep) (size w : Nat) {T : List (List G)} {U : List (List A)}
    (hT : List.Forall₂ (List.Forall₂ Rep) T U) (scalar : Nat → Option S) : ∀ (order : List Nat) {P : List G} {Q : List A},
      List.Forall₂ Rep P Q →
      Outcome.Rel (List.Forall₂ Rep) (runBatch toB size w T scalar order P) (runBatch toB size w U scalar order Q)
  | [], _, _, hP => .ok hP
  | i :: is, _, _, hP => by
    simp only [runBatch]
    split
    · exact .ub
    · exact (windowedExp_par h size w hT _).bind fun ht => runBatch_par h size w hT scalar is (forall₂_set hP i ht)

theorem batchExp_par (h : ImplementsRel Rep) (size w : Nat) {T : List (List G)} {U : List (List A)}
    (hT : List.Forall₂ (List.Forall₂ Rep) T U) (order : List Nat) (v : List S) :
    Outcome.Rel (List.Forall₂ Rep) (batchExp toB size w T order v) (batchExp toB size w U order v) := by
  unfold batchExp
  cases hT with
  | nil => exact .ub
  | cons h1 h2 =>
    cases h1 with
    | nil => exact .ub
    | cons h3 h4 => exact runBatch_par h size w (.cons (.cons h3 h4) h2) _ _ (forall₂_replicate h3 _)

theorem batchExpWithCoeff_par [Mul S] (h : ImplementsRel Rep) (size w : Nat) {T : List (List G)} {U : List (List A)}
    (hT : List.Forall₂ (List.Forall₂ Rep) T U) (order : List Nat) (coeff : S) (v : List S) :
    Outcome.Rel (List.Forall₂ Rep) (batchExpWithCoeff toB size w T order coeff v)
      (batchExpWithCoeff toB size w U order coeff v) := by
  unfold batchExpWithCoeff
  cases hT with
  | nil => exact .ub
  | cons h1 h2 =>
    cases h1 with
    | nil => exact .ub
    | cons h3 h4 => exact runBatch_par h size w (.cons (.cons h3 h4) h2) _ _ (forall₂_replicate h3 _)

end
end Libff
