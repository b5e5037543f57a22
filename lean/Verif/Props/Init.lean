import Verif.Lemmas.InitCurves
import Verif.Spec.Init

/-!
# C67: initialisation of the public parameters
-/
namespace Libff
open Init
set_option maxRecDepth 100000

/-- The order and the number of initialisations do not matter.  Let any curves be initialised, in any order and any number of times,
starting from any contents `σ` of the static variables, whatever the functions on the right-hand sides compute from the values they
read.  Then no assertion fails unless one fails when some of these curves is initialised alone; and if none fails, every parameter of
every one of these curves has the value a single initialisation of that curve alone, from any other state, gives it, and every other
variable is untouched. -/
theorem C67_init_history {V : Type} (I : Interp V) (h : List Curve) (σ : State V) :
    (exec I (h.flatMap Curve.init) σ = .abort ∧ ∃ c ∈ h, ∀ ρ, exec I c.init ρ = .abort) ∨
    ∃ τ, exec I (h.flatMap Curve.init) σ = .ok τ ∧
      (∀ c ∈ h, ∀ ρ, ∃ τ', exec I c.init ρ = .ok τ' ∧ ∀ x ∈ assigned c.init, τ x = τ' x) ∧
      ∀ x, (∀ c ∈ h, x ∉ assigned c.init) → τ x = σ x := by
  rcases history I Curve.init init_closed init_agree h σ with ⟨hab, e⟩ | ⟨hn, τ, e, hv, hf⟩
  · exact .inl ⟨e, hab⟩
  · refine .inr ⟨τ, e, fun c hc ρ => ?_, hf⟩
    rcases closed_cases I (init_closed c) with hab | ⟨m, hm⟩
    · exact absurd (hab ρ) (hn c hc ρ)
    · obtain ⟨τ', e', h', _⟩ := hm ρ
      refine ⟨τ', e', fun x hx => ?_⟩
      obtain ⟨t, ht⟩ := mem_assigned.1 hx
      rw [hv c hc x t ht ρ, (h' x t ht).1, (h' x t ht).2 ρ]

/-- Two histories with the same curves leave the same state. -/
theorem C67_init_order {V : Type} (I : Interp V) (h h' : List Curve) (hh : ∀ c, c ∈ h ↔ c ∈ h') (σ : State V) :
    exec I (h.flatMap Curve.init) σ = exec I (h'.flatMap Curve.init) σ := by
  rcases history I Curve.init init_closed init_agree h σ with ⟨⟨c, hc, hab⟩, e⟩ | ⟨hn, τ, e, hv, hf⟩ <;>
    rcases history I Curve.init init_closed init_agree h' σ with ⟨⟨c', hc', hab'⟩, e'⟩ | ⟨hn', τ', e', hv', hf'⟩
  · rw [e, e']
  · exact absurd (hab σ) (hn' c ((hh c).1 hc) σ)
  · exact absurd (hab' σ) (hn c' ((hh c').2 hc') σ)
  · rw [e, e']
    congr 1
    funext x
    by_cases hx : ∃ c ∈ h, x ∈ assigned c.init
    · obtain ⟨c, hc, hx⟩ := hx
      obtain ⟨t, ht⟩ := mem_assigned.1 hx
      rw [hv c hc x t ht σ, hv' c ((hh c).1 hc) x t ht σ]
    · rw [hf x (fun c hc hx' => hx ⟨c, hc, hx'⟩), hf' x (fun c hc hx' => hx ⟨c, (hh c).2 hc, hx'⟩)]

/-- Every static parameter the classes of a curve declare is set by its initialisation. -/
theorem C67_init_complete (c : Curve) : ∀ x ∈ declared c, x ∈ assigned c.init := by
  have h : (declared c).all (fun x => (assigned c.init).contains x) = true := by cases c <;> decide +kernel
  intro x hx
  exact List.contains_iff_mem.1 (List.all_eq_true.1 h x hx)

/-- After any history, the parameters of every initialised curve are those the other theorems are about; no assertion fails. -/
theorem C67_init_values (h : List Curve) (σ : State Written) :
    ∃ τ, exec written (h.flatMap Curve.init) σ = .ok τ ∧ ∀ c ∈ h, ∀ a ∈ values c, τ a.1 = .nums a.2 := by
  have hl : ∀ c : Curve, (values c).all (fun a => match lookup (sym c.init) a.1 with
      | some t => match t.denote written (fun _ => .computed) with
        | .nums l => decide (l = a.2)
        | _ => false
      | none => false) = true := by
    intro c; cases c <;> decide +kernel
  have hn : ∀ c : Curve, (asserted c.init).all (fun t => written.truth (t.denote written fun _ => .computed)) = true := by
    intro c; cases c <;> decide +kernel
  rcases history written Curve.init init_closed init_agree h σ with ⟨⟨c, _, hab⟩, _⟩ | ⟨_, τ, e, hv, _⟩
  · have := exec_sym written c.init [] (fun _ => .computed) [] (hn c)
    rw [denote_nil, hab] at this
    cases this
  · refine ⟨τ, e, fun c hc a ha => ?_⟩
    have := List.all_eq_true.1 (hl c) a ha
    cases ht : lookup (sym c.init) a.1 with
    | none => rw [ht] at this; cases this
    | some t =>
      rw [ht] at this
      rw [hv c hc a.1 t ht (fun _ => .computed)]
      dsimp only at this
      cases hd : t.denote written (fun _ => .computed) with
      | nums l => rw [hd] at this; exact congrArg _ (of_decide_eq_true this)
      | topLimb k => rw [hd] at this; cases this
      | computed => rw [hd] at this; cases this

/- Non-vacuity: after mnt4, mnt6 and mnt4 again the generators of both curves and the shared field have their values. -/
example : ∃ τ, exec written ([Curve.mnt4, .mnt6, .mnt4].flatMap Curve.init) (fun _ => .computed) = .ok τ ∧
    τ (.stat .mnt4_G1 .G1_one) = .nums (fl2 mnt4_G1_one_nat ++ [1]) ∧
    τ (.stat .mnt46_FpB .multiplicative_generator) = .nums [17] ∧
    τ (.stat .mnt6_Fq3 .non_residue) = .nums [5] := by
  obtain ⟨τ, e, hv⟩ := C67_init_values [.mnt4, .mnt6, .mnt4] (fun _ => .computed)
  exact ⟨τ, e, hv .mnt4 (by decide) (.stat .mnt4_G1 .G1_one, _) (by decide +kernel),
    hv .mnt4 (by decide) (.stat .mnt46_FpB .multiplicative_generator, _) (by decide +kernel),
    hv .mnt6 (by decide) (.stat .mnt6_Fq3 .non_residue, _) (by decide +kernel)⟩

/- The two curves that share variables really do. -/
example : ∃ x, x ∈ assigned Curve.mnt4.init ∧ x ∈ assigned Curve.mnt6.init :=
  ⟨.stat .mnt46_FpA .Rsquared, by decide +kernel, by decide +kernel⟩

/- Initialisation can abort: with a modulus that is not valid. -/
example (σ : State Written) : exec { written with truth := fun _ => false } Curve.mnt4.init σ = .abort := by
  rcases C67_init_history { written with truth := fun _ => false } [.mnt4] σ with ⟨h, _⟩ | ⟨_, _, h, _⟩
  · simpa using h
  · obtain ⟨τ, e, _⟩ := h .mnt4 (by decide) σ
    cases e

end Libff
