import Verif.Lemmas.InitThreads
import Verif.Props.Init

/-!
# C82: initialising curves from several threads
-/
namespace Libff
open Init
set_option maxRecDepth 100000

/-- **C82.** Threads that initialise curves, each its own list of curves, no two threads curves that share variables, while further
threads compute with curves that no thread is initialising: there is no data race and every execution ends. If no thread fails when it
runs alone, there is one outcome: every parameter of every curve has the value the thread that initialises it gives it when it runs
alone, every computation has the result it has when it runs alone, and every other static variable is unchanged. -/
theorem C82_concurrent {V : Type} (I : Interp V) (inits : List (List Curve))
    (hp : inits.Pairwise fun h h' => ∀ c ∈ h, ∀ d ∈ h', ¬ c.SharesWith d) (users : List (Prog SLoc fun _ => V))
    (hu : ∀ i u, users[i]? = some u → UsesOnlyOthers inits i u) (m : Memory V) :
    Terminates ⟨m, inits.map (initThread I) ++ users⟩ ∧
    (∀ c', Reaches ⟨m, inits.map (initThread I) ++ users⟩ c' → ¬ c'.Race) ∧
    ((∀ h ∈ inits, ∃ τ, exec I (h.flatMap Curve.init) (fun x => m (.static x)) = .ok τ) → (∀ u ∈ users, ∃ mu, u.run m = .ok mu) →
      ∃ m', (∀ o, Possible ⟨m, inits.map (initThread I) ++ users⟩ o ↔ o = .ok m') ∧
        (∀ h ∈ inits, ∀ τ, exec I (h.flatMap Curve.init) (fun x => m (.static x)) = .ok τ →
          ∀ c ∈ h, ∀ x ∈ assigned c.init, m' (.static x) = τ x) ∧
        (∀ i u, users[i]? = some u → ∀ mu, u.run m = .ok mu → ∀ k, m' (.own i k) = mu (.own i k)) ∧
        ∀ x, (∀ h ∈ inits, ∀ c ∈ h, x ∉ assigned c.init) → m' (.static x) = m (.static x)) := by
  set pool := inits.map (initThread I) ++ users with hpool
  have hsep := separate inits hp
  have hlen : pool.length = inits.length + users.length := by simp [hpool]
  have hinit : ∀ j h, inits[j]? = some h → pool.getD j .done = initThread I h := by
    intro j h hj
    obtain ⟨lj, ej⟩ := List.getElem?_eq_some_iff.1 hj
    rw [List.getD_eq_getElem?_getD, hpool, List.getElem?_append_left (by simpa using lj), List.getElem?_map, hj]
    rfl
  have huser : ∀ i u, users[i]? = some u → pool.getD (inits.length + i) .done = u := by
    intro i u hi
    rw [List.getD_eq_getElem?_getD, hpool, List.getElem?_append_right (by simp), List.length_map, Nat.add_sub_cancel_left, hi]
    rfl
  have hconfI : ∀ j h, inits[j]? = some h → Confined (readsOf inits) (writesOf inits j) (initThread I h) := by
    intro j h hj
    refine execThread_confined _ fun k hk x hx => ?_
    obtain ⟨c, hc, hk⟩ := List.mem_flatMap.1 hk
    exact ⟨h, hj, c, hc, init_vars_family c k hk x hx⟩
  have hconf : ∀ j < pool.length, Confined (readsOf inits) (writesOf inits j) (pool.getD j .done) := by
    intro j hj
    by_cases hji : j < inits.length
    · rw [hinit j _ (List.getElem?_eq_getElem hji)]
      exact hconfI j _ (List.getElem?_eq_getElem hji)
    · obtain ⟨i, rfl⟩ := Nat.exists_eq_add_of_le (Nat.le_of_not_lt hji)
      have hi : i < users.length := by omega
      rw [huser i _ (List.getElem?_eq_getElem hi)]
      refine Confined.monoBoth ?_ ?_ (hu i _ (List.getElem?_eq_getElem hi))
      · rintro l ⟨d, x, rfl, hx, hd⟩ h hh c hc e
        rw [init_family d x hx] at e
        exact hd h hh c hc (family_cases c d e.symm)
      · rintro l ⟨k, rfl⟩; rfl
  have hsame := parallelFor_sameAs hsep hconf (assigns_singletons pool.length) m
  rw [parallel_singletons] at hsame
  refine ⟨hsame.ends, hsame.noRace, fun h1 h2 => ?_⟩
  have hseq := iterations_run hsep (body := fun j => pool.getD j .done) (List.range pool.length) List.nodup_range
    (fun j hj => hconf j (List.mem_range.1 hj)) m
  have hrun : ∀ j h τ, inits[j]? = some h → exec I (h.flatMap Curve.init) (fun x => m (.static x)) = .ok τ →
      (pool.getD j .done).run m = .ok (withStatics m τ) := by
    intro j h τ hj e
    rw [hinit j h hj, initThread, execThread_run, e]; rfl
  obtain ⟨m', hm'⟩ := hseq.2 (by
    intro j hj
    have hj := List.mem_range.1 hj
    by_cases hji : j < inits.length
    · obtain ⟨τ, e⟩ := h1 _ (List.getElem_mem hji)
      exact ⟨_, hrun j _ τ (List.getElem?_eq_getElem hji) e⟩
    · obtain ⟨i, rfl⟩ := Nat.exists_eq_add_of_le (Nat.le_of_not_lt hji)
      have hi : i < users.length := by omega
      obtain ⟨mu, e⟩ := h2 _ (List.getElem_mem hi)
      exact ⟨mu, by simpa only [huser i _ (List.getElem?_eq_getElem hi)] using e⟩)
  obtain ⟨g1, g2⟩ := hseq.1 m' hm'
  refine ⟨m', hsame.result m' hm', fun h hh τ e c hc x hx => ?_, fun i u hi mu e k => ?_, fun x hx => ?_⟩
  · obtain ⟨j, lj, rfl⟩ := List.getElem_of_mem hh
    obtain ⟨mi, e1, e2⟩ := g1 j (List.mem_range.2 (by omega))
    rw [hrun j _ τ (List.getElem?_eq_getElem lj) e] at e1
    rw [e2 (.static x) ⟨_, List.getElem?_eq_getElem lj, c, hc, init_family c x hx⟩, ← Outcome.ok.inj e1]
    rfl
  · obtain ⟨li, -⟩ := List.getElem?_eq_some_iff.1 hi
    obtain ⟨mi, e1, e2⟩ := g1 (inits.length + i) (List.mem_range.2 (by omega))
    simp only [huser i u hi] at e1
    rw [e] at e1
    rw [e2 (.own i k) rfl, ← Outcome.ok.inj e1]
  · by_cases hx' : ∀ j < pool.length, ¬ writesOf inits j (.static x)
    · exact g2 _ fun j hj => hx' j (List.mem_range.1 hj)
    · push Not at hx'
      obtain ⟨j, hj, h, hjh, c, hc, e⟩ := hx'
      obtain ⟨lj, ej⟩ := List.getElem?_eq_some_iff.1 hjh
      obtain ⟨τ, eτ⟩ := h1 h (List.mem_of_getElem? hjh)
      obtain ⟨mi, e1, e2⟩ := g1 j (List.mem_range.2 hj)
      rw [hrun j h τ hjh eτ] at e1
      rw [e2 (.static x) ⟨h, hjh, c, hc, e⟩, ← Outcome.ok.inj e1]
      rcases C67_init_history I h (fun x => m (.static x)) with ⟨hab, -⟩ | ⟨τ', e', -, hf⟩
      · rw [eτ] at hab; cases hab
      · rw [eτ] at e'
        rw [Outcome.ok.inj e']
        exact hf x (hx h (List.mem_of_getElem? hjh))

/-- **C82.** In particular, threads that initialise unrelated curves leave the parameters of all of them with the values that the other
theorems are about, in every execution. -/
theorem C82_concurrent_values (inits : List (List Curve))
    (hp : inits.Pairwise fun h h' => ∀ c ∈ h, ∀ d ∈ h', ¬ c.SharesWith d) (m : Memory Written) :
    ∃ m', (∀ o, Possible ⟨m, inits.map (initThread written)⟩ o ↔ o = .ok m') ∧
      ∀ h ∈ inits, ∀ c ∈ h, ∀ a ∈ values c, m' (.static a.1) = .nums a.2 := by
  obtain ⟨-, -, h⟩ := C82_concurrent written inits hp [] (by simp) m
  obtain ⟨m', h1, h2, -⟩ := h (fun h _ => by
    obtain ⟨τ, e, -⟩ := C67_init_values h (fun x => m (.static x)); exact ⟨τ, e⟩) (by simp)
  rw [List.append_nil] at h1
  refine ⟨m', h1, fun h hh c hc a ha => ?_⟩
  obtain ⟨τ, e, hv⟩ := C67_init_values h (fun x => m (.static x))
  have hx : (values c).all (fun a => (assigned c.init).contains a.1) = true := by cases c <;> decide +kernel
  rw [h2 h hh τ e c hc a.1 (List.contains_iff_mem.1 (List.all_eq_true.1 hx a ha)), hv c hc a ha]

/-- **C82.** Finding: two threads that initialise the same curve race, whatever the threads do afterwards. -/
theorem C82_same_curve_race {V : Type} (I : Interp V) (c : Curve) (h h' : List Curve) (m : Memory V) :
    Possible ⟨m, [initThread I (c :: h), initThread I (c :: h')]⟩ .ub := by
  refine .race _ .refl ⟨?_, 0, 1, _, _, by decide, rfl, rfl, ?_, ?_⟩
  · exact .static (match c with
      | .alt_bn128 => .glob .alt_bn128_modulus_r | .bls12_381 => .glob .bls12_381_modulus_r | .bn128 => .glob .bn_Param
      | .edwards => .glob .edwards_modulus_r | .mnt4 => .glob .mnt46_modulus_A | .mnt6 => .glob .mnt46_modulus_B)
  · cases c <;> rfl
  · cases c <;> rfl

/-- **C82.** Finding: so do two threads one of which initialises mnt4 and the other mnt6, if no assertion fails. -/
theorem C82_mnt_race {V : Type} (I : Interp V) (h h' : List Curve) (m : Memory V)
    (hok : exec I Curve.mnt6.init (fun x => m (.static x)) ≠ .abort) :
    Possible ⟨m, [initThread I (.mnt4 :: h), initThread I (.mnt6 :: h')]⟩ .ub := by
  have hsplit : ∃ p n q, Curve.mnt6.init = p ++ .assign (.glob .mnt46_modulus_A) (.big n) :: q :=
    ⟨Curve.mnt6.init.take 14, _, Curve.mnt6.init.drop 15, rfl⟩
  obtain ⟨p, n, q, e⟩ := hsplit
  have hp : exec I p (fun x => m (.static x)) ≠ .abort := by
    intro hab
    rw [e, exec_append, hab] at hok
    exact hok rfl
  obtain ⟨m', hm'⟩ := execThread_alone (.assign (.glob .mnt46_modulus_A) (.big n) :: (q ++ h'.flatMap Curve.init)) p m hp
  have e6 : initThread I (.mnt6 :: h') =
      execThread I (p ++ .assign (.glob .mnt46_modulus_A) (.big n) :: (q ++ h'.flatMap Curve.init)) := by
    rw [initThread, List.flatMap_cons, e, List.append_assoc, List.cons_append]
  rw [← e6] at hm'
  exact .race _ (hm'.reaches _ 1 rfl) ⟨.static (.glob .mnt46_modulus_A), 0, 1, _, _, by decide, rfl, rfl, rfl, rfl⟩

/-! ## Non-vacuity -/

/-- Curves that may be initialised at the same time: the bn curves, which have the same groups but not the same variables, and the two mnt
curves by one thread. -/
example : [[Curve.mnt4, .mnt6], [.alt_bn128], [.bn128, .edwards]].Pairwise fun h h' => ∀ c ∈ h, ∀ d ∈ h', ¬ c.SharesWith d := by decide

/-- The generators of these curves have their values in every execution. -/
example (m : Memory Written) : ∃ m',
    (∀ o, Possible ⟨m, [[Curve.mnt4, .mnt6], [.alt_bn128]].map (initThread written)⟩ o ↔ o = .ok m') ∧
    m' (.static (.stat .mnt4_G1 .G1_one)) = .nums (fl2 mnt4_G1_one_nat ++ [1]) := by
  obtain ⟨m', h1, h2⟩ := C82_concurrent_values [[.mnt4, .mnt6], [.alt_bn128]] (by decide) m
  exact ⟨m', h1, h2 [.mnt4, .mnt6] (by decide) .mnt4 (by decide) (.stat .mnt4_G1 .G1_one, _) (by decide +kernel)⟩

/-- A thread that computes with bls12_381 while alt_bn128 is initialised: it copies the modulus to an object of its own. -/
example : UsesOnlyOthers (V := Nat) [[.alt_bn128]] 0
    (.read (.static (.glob .bls12_381_modulus_q)) fun v => .write (.own 0 0) v .done) :=
  ⟨.inl ⟨.bls12_381, _, rfl, by decide +kernel, by decide⟩, fun _ => ⟨⟨0, rfl⟩, trivial⟩⟩

/-- The assertions of mnt6 hold. -/
example (m : Memory Written) : exec written Curve.mnt6.init (fun x => m (.static x)) ≠ .abort := by
  obtain ⟨τ, e, -⟩ := C67_init_values [.mnt6] (fun x => m (.static x))
  rw [List.flatMap_cons, List.flatMap_nil, List.append_nil] at e
  rw [e]; exact fun h => by cases h

end Libff
