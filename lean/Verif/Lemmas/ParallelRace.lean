import Verif.Lemmas.Parallel

/-! Executions that lead to a data race. -/
namespace Libff

universe u v
variable {L : Type u} {V : L → Type v} [DecidableEq L]

/-- One thread running while the others wait. -/
inductive Alone : Mem L V → Prog L V → Mem L V → Prog L V → Prop
  | refl (m : Mem L V) (p : Prog L V) : Alone m p m p
  | read (m m' : Mem L V) (l : L) (k : V l → Prog L V) (p' : Prog L V) (h : Alone m (k (m l)) m' p') : Alone m (.read l k) m' p'
  | write (m m' : Mem L V) (l : L) (v : V l) (k p' : Prog L V) (h : Alone (Function.update m l v) k m' p') :
      Alone m (.write l v k) m' p'

theorem Alone.trans {m m' m'' : Mem L V} {p p' p'' : Prog L V} (h : Alone m p m' p') (h' : Alone m' p' m'' p'') :
    Alone m p m'' p'' := by
  induction h with
  | refl => exact h'
  | read m m' l k p' _ ih => exact .read _ _ _ _ _ (ih h')
  | write m m' l v k p' _ ih => exact .write _ _ _ _ _ _ (ih h')

theorem Alone.andThen {m m' : Mem L V} {p p' : Prog L V} (h : Alone m p m' p') (q : Prog L V) :
    Alone m (p.andThen q) m' (p'.andThen q) := by
  induction h with
  | refl => exact .refl _ _
  | read m m' l k p' _ ih => exact .read _ _ _ _ _ ih
  | write m m' l v k p' _ ih => exact .write _ _ _ _ _ _ ih

theorem Alone.reaches {m m' : Mem L V} {p p' : Prog L V} (h : Alone m p m' p') : ∀ (pool : List (Prog L V)) (t : Nat),
    pool[t]? = some p → Reaches ⟨m, pool⟩ ⟨m', pool.set t p'⟩ := by
  induction h with
  | refl m p =>
    intro pool t e
    obtain ⟨ht, e⟩ := List.getElem?_eq_some_iff.1 e
    rw [← e, List.set_getElem_self]
    exact .refl
  | read m m' l k p' _ ih =>
    intro pool t e
    have h1 := ih (pool.set t (k (m l))) t (by
      rw [List.getElem?_set_self (List.getElem?_eq_some_iff.1 e).1])
    rw [List.set_set] at h1
    exact .head (.read m pool t l k e) h1
  | write m m' l v k p' _ ih =>
    intro pool t e
    have h1 := ih (pool.set t k) t (by
      rw [List.getElem?_set_self (List.getElem?_eq_some_iff.1 e).1])
    rw [List.set_set] at h1
    exact .head (.write m pool t l v k e) h1

/-- Two threads that, each running alone, come to an access and a write of the same location without changing anything, race. -/
theorem race_of_alone {m : Mem L V} {pool : List (Prog L V)} {s t : Nat} (hne : s ≠ t) {p q p' q' : Prog L V}
    (hp : pool[s]? = some p) (hq : pool[t]? = some q) (ha : Alone m p m p') (hb : Alone m q m q') {l : L} (hacc : p'.Accesses l)
    (hw : q'.Writes l) : Possible ⟨m, pool⟩ .ub := by
  have h1 := ha.reaches pool s hp
  have hq' : (pool.set s p')[t]? = some q := by rw [List.getElem?_set_ne hne]; exact hq
  have h2 := hb.reaches (pool.set s p') t hq'
  refine .race _ (h1.trans h2) ⟨l, s, t, p', q', hne, ?_, ?_, hacc, hw⟩
  · show ((pool.set s p').set t q')[s]? = _
    rw [List.getElem?_set_ne hne.symm, List.getElem?_set_self (List.getElem?_eq_some_iff.1 hp).1]
  · show ((pool.set s p').set t q')[t]? = _
    rw [List.getElem?_set_self (List.getElem?_eq_some_iff.1 hq').1]

section
variable {G S : Type}

theorem readBases_alone {bases : List G} {m : Mem MLoc (MVal G S)} (hm : ∀ j, m (.base j) = (bases[j]? : Option G)) :
    ∀ (n lo : Nat) (k : List G → MProg G S), lo + n ≤ bases.length →
      Alone m (readBases lo n k) m (k ((bases.drop lo).take n))
  | 0, lo, k, _ => by simpa [readBases] using Alone.refl _ _
  | n + 1, lo, k, h => by
    have hl : lo < bases.length := by omega
    have e : m (.base lo) = (some bases[lo] : Option G) := (hm lo).trans (List.getElem?_eq_getElem hl)
    refine .read _ _ _ _ _ ?_
    rw [e]
    have := readBases_alone hm n (lo + 1) (fun gs => k (bases[lo] :: gs)) (by omega)
    rwa [← List.getElem_cons_drop hl, List.take_succ_cons]

theorem readScalars_alone {scalars : List S} {m : Mem MLoc (MVal G S)} (hm : ∀ j, m (.scalar j) = (scalars[j]? : Option S)) :
    ∀ (n lo : Nat) (k : List S → MProg G S), lo + n ≤ scalars.length →
      Alone m (readScalars lo n k) m (k ((scalars.drop lo).take n))
  | 0, lo, k, _ => by simpa [readScalars] using Alone.refl _ _
  | n + 1, lo, k, h => by
    have hl : lo < scalars.length := by omega
    have e : m (.scalar lo) = (some scalars[lo] : Option S) := (hm lo).trans (List.getElem?_eq_getElem hl)
    refine .read _ _ _ _ _ ?_
    rw [e]
    have := readScalars_alone hm n (lo + 1) (fun gs => k (scalars[lo] :: gs)) (by omega)
    rwa [← List.getElem_cons_drop hl, List.take_succ_cons]

/-- An iteration that increments the counter gets to the load of the counter without having written anything. -/
theorem multiExpBody_alone (inner : List G → List S → Outcome G) (adds : List G → List S → Nat) (bases : List G) (scalars : List S)
    (hlen : bases.length = scalars.length) {chunks i : Nat} (hc : 0 < chunks) (hi : i < chunks) (part : List G) (cnt : Nat) {t : G}
    (hok : inner (chunkOf bases (bases.length / chunks) chunks i) (chunkOf scalars (bases.length / chunks) chunks i) = .ok t)
    (hadds : 0 < adds (chunkOf bases (bases.length / chunks) chunks i) (chunkOf scalars (bases.length / chunks) chunks i)) :
    ∃ n, Alone (multiExpMem bases scalars part cnt)
      (multiExpBody inner adds bases.length scalars.length (bases.length / chunks) chunks i) (multiExpMem bases scalars part cnt)
      (bump (n + 1) (.write (.slot i) (some t : Option G) .done)) := by
  obtain ⟨a1, a2⟩ := chunk_eq bases hc hi
  obtain ⟨b1, b2⟩ := chunk_eq scalars hc hi
  rw [← hlen] at b1 b2
  obtain ⟨n, hn⟩ := Nat.exists_eq_succ_of_ne_zero hadds.ne'
  refine ⟨n, ?_⟩
  have h1 := readBases_alone (S := S) (bases := bases) (m := multiExpMem bases scalars part cnt) (fun _ => rfl)
    (chunkLen bases.length (bases.length / chunks) chunks i) (i * (bases.length / chunks)) (fun gs =>
    readScalars (i * (bases.length / chunks)) (chunkLen scalars.length (bases.length / chunks) chunks i) fun ss =>
      (inner gs ss).orFail fun t => bump (adds gs ss) (.write (.slot i) (some t : Option G) .done)) a1
  refine h1.trans ?_
  rw [a2]
  have h2 := readScalars_alone (G := G) (scalars := scalars) (m := multiExpMem bases scalars part cnt) (fun _ => rfl)
    (chunkLen bases.length (bases.length / chunks) chunks i) (i * (bases.length / chunks)) (fun ss =>
      (inner (chunkOf bases (bases.length / chunks) chunks i) ss).orFail fun t =>
        bump (adds (chunkOf bases (bases.length / chunks) chunks i) ss) (.write (.slot i) (some t : Option G) .done)) (by rw [← hlen]; exact b1)
  rw [b2, hok, hn] at h2
  rw [← hlen]
  exact h2

end
end Libff
