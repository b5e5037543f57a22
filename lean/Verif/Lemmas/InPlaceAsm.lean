import Verif.Lemmas.InPlace

/-! # Which arrays the assembly writes to -/
namespace Libff
namespace X86

/-- The address operands through which an operand, used as a destination, stores. -/
def Opnd.storesOnly (w : Ptr → Bool) : Opnd → Bool
  | .m _ p => w p
  | _ => true

/-- The instruction stores only through address operands in `w`. -/
def Instr.storesOnly (w : Ptr → Bool) : Instr → Bool
  | .movq _ d | .addq _ d | .adcq _ d | .subq _ d | .sbbq _ d | .xorq _ d => d.storesOnly w
  | .cmpq _ _ | .mulq _ | .jmp _ _ | .label _ => true

theorem State.put_frame (e : Env) (s : State) (o : Opnd) (v : Limb) (w : Ptr → Bool) (b : Nat) (hb : ∀ p, w p = true → (e p).1 ≠ b)
    (ho : o.storesOnly w = true) : (s.put e o v).mem b = s.mem b := by
  cases o with
  | r r => rfl
  | i v => rfl
  | m ofs p => exact if_neg (Ne.symm (hb p ho))

theorem access_ok {e : Env} {s s' : State} {a b : Opnd} {k : Outcome State} (h : access e s a b k = .ok s') : k = .ok s' := by
  unfold access at h
  split_ifs at h
  exact h

theorem step_frame (e : Env) (s s' : State) (i : Instr) (w : Ptr → Bool) (b : Nat) (hb : ∀ p, w p = true → (e p).1 ≠ b)
    (hi : i.storesOnly w = true) (h : step e s i = .ok s') : s'.mem b = s.mem b := by
  cases i with
  | movq a d => cases Outcome.ok.inj (access_ok h); exact State.put_frame e s d _ w b hb hi
  | addq a d => cases Outcome.ok.inj (access_ok h); exact State.put_frame e s d _ w b hb hi
  | adcq a d => cases Outcome.ok.inj (access_ok h); exact State.put_frame e s d _ w b hb hi
  | subq a d => cases Outcome.ok.inj (access_ok h); exact State.put_frame e s d _ w b hb hi
  | sbbq a d => cases Outcome.ok.inj (access_ok h); exact State.put_frame e s d _ w b hb hi
  | xorq a d => cases Outcome.ok.inj (access_ok h); exact State.put_frame e s d _ w b hb hi
  | cmpq a d => cases Outcome.ok.inj (access_ok h); rfl
  | mulq a =>
    simp only [step] at h
    split_ifs at h
    cases Outcome.ok.inj h; rfl
  | jmp c l => cases h
  | label l => cases Outcome.ok.inj h; rfl

theorem exec_frame (e : Env) (w : Ptr → Bool) (b : Nat) (hb : ∀ p, w p = true → (e p).1 ≠ b) (is : List Instr) :
    ∀ (l : Option Label) (s s' : State), is.all (Instr.storesOnly w) = true → exec e is l s = .ok s' → s'.mem b = s.mem b := by
  induction is with
  | nil =>
    intro l s s' _ h
    cases l with
    | none => cases Outcome.ok.inj h; rfl
    | some l => cases h
  | cons i is ih =>
    intro l s s' hw h
    rw [List.all_cons, Bool.and_eq_true] at hw
    cases l with
    | some l =>
      cases i with
      | label l' => exact ih _ _ _ hw.2 h
      | movq _ _ => exact ih _ _ _ hw.2 h
      | addq _ _ => exact ih _ _ _ hw.2 h
      | adcq _ _ => exact ih _ _ _ hw.2 h
      | subq _ _ => exact ih _ _ _ hw.2 h
      | sbbq _ _ => exact ih _ _ _ hw.2 h
      | cmpq _ _ => exact ih _ _ _ hw.2 h
      | xorq _ _ => exact ih _ _ _ hw.2 h
      | mulq _ => exact ih _ _ _ hw.2 h
      | jmp _ _ => exact ih _ _ _ hw.2 h
    | none =>
      have key : ∀ j, j.storesOnly w = true → (step e s j).bind (exec e is none) = .ok s' → s'.mem b = s.mem b := by
        intro j hj hh
        cases hs : step e s j with
        | ok s1 => rw [hs] at hh; rw [ih _ _ _ hw.2 hh, step_frame e s s1 j w b hb hj hs]
        | abort => rw [hs] at hh; cases hh
        | ub => rw [hs] at hh; cases hh
      cases i with
      | jmp c l =>
        change (c.holds s).bind _ = _ at h
        cases hc : c.holds s with
        | ok t => rw [hc] at h; exact ih _ _ _ hw.2 h
        | abort => rw [hc] at h; cases h
        | ub => rw [hc] at h; cases h
      | label l' => exact key _ hw.1 h
      | movq _ _ => exact key _ hw.1 h
      | addq _ _ => exact key _ hw.1 h
      | adcq _ _ => exact key _ hw.1 h
      | subq _ _ => exact key _ hw.1 h
      | sbbq _ _ => exact key _ hw.1 h
      | cmpq _ _ => exact key _ hw.1 h
      | xorq _ _ => exact key _ hw.1 h
      | mulq _ => exact key _ hw.1 h

/-- Programs that store only through `A` leave the arrays of `other` and of the modulus alone. -/
theorem exec_frame_A (same : Bool) (o : Nat) (prog : List Instr) (hp : prog.all (Instr.storesOnly (· == .A)) = true) (s s' : State)
    (h : exec (asmEnv same o) prog none s = .ok s') (b : Nat) (hb : b ≠ 0) : s'.mem b = s.mem b := by
  refine exec_frame _ (· == .A) b ?_ prog none s s' hp h
  intro p hp
  rw [beq_iff_eq] at hp
  subst hp
  exact Ne.symm hb

/-- Programs that store only through `tmp` and `res` leave all three objects alone. -/
theorem exec_frame_tmp (same : Bool) (o : Nat) (prog : List Instr) (hp : prog.all (Instr.storesOnly fun p => p == .tmp || p == .res) = true)
    (s s' : State) (h : exec (asmEnv same o) prog none s = .ok s') (b : Nat) (hb : b ≠ 3) : s'.mem b = s.mem b := by
  refine exec_frame _ (fun p => p == .tmp || p == .res) b ?_ prog none s s' hp h
  intro p hp
  cases p with
  | tmp => exact Ne.symm hb
  | res => exact Ne.symm hb
  | A => cases hp
  | B => cases hp
  | mod => cases hp
  | M => cases hp

end X86

namespace FpMem
open X86

theorem asmOn_eq (P : FpParams) (J : Junk) (prog : List Instr) (q this other : Nat) (h : Heap Limb) (r : List Limb)
    (hp : prog.all (Instr.storesOnly (· == .A)) = true)
    (hr : (exec (asmEnv (decide (this = other)) 0) prog none
      (J.start [] (asmMem (h.words this P.n) (h.words other P.n) (h.words q P.n) []))).map (·.mem 0) = .ok r) :
    asmOn P J prog q this other h = .ok (h.copy this r) := by
  unfold asmOn
  cases hs : exec (asmEnv (decide (this = other)) 0) prog none
      (J.start [] (asmMem (h.words this P.n) (h.words other P.n) (h.words q P.n) [])) with
  | abort => rw [hs] at hr; cases hr
  | ub => rw [hs] at hr; cases hr
  | ok s =>
    rw [hs] at hr
    have h0 : s.mem 0 = r := Outcome.ok.inj hr
    have h1 : s.mem 1 = h.words other P.n := exec_frame_A _ _ _ hp _ _ hs 1 (by omega)
    have h2 : s.mem 2 = h.words q P.n := exec_frame_A _ _ _ hp _ _ hs 2 (by omega)
    change Outcome.ok _ = _
    simp only [h0, h1, h2, Heap.copy_self, ite_self]

variable {P : FpParams} [hP : Fact P.Valid]

theorem addToAsm_eq (J : Junk) (q this other : Nat) (h : Heap Limb) (x y : Fp P) (hq : h.words q P.n = P.modulus)
    (hx : h.words this P.n = x.repr) (hy : h.words other P.n = y.repr) : addToAsm P J q this other h = .ok (h.copy this (x + y).repr) := by
  have hs : decide (this = other) = true → y.repr = x.repr := fun e => by rw [← hx, ← hy, of_decide_eq_true e]
  have hr := C53_add P hP.out.len J (decide (this = other)) _ _ x.len y.len x.lt y.lt hs
  rw [add_repr] at hr
  unfold asmAddAssign at hr
  unfold addToAsm
  split_ifs at hr ⊢
  · exact asmOn_eq P J _ q this other h _ rfl (by rw [hx, hy, hq]; exact hr)
  · exact asmOn_eq P J _ q this other h _ rfl (by rw [hx, hy, hq]; exact hr)
  · exact asmOn_eq P J _ q this other h _ rfl (by rw [hx, hy, hq]; exact hr)
  · rw [addTo, hx, hy, hr]; rfl

theorem subToAsm_eq (J : Junk) (q this other : Nat) (h : Heap Limb) (x y : Fp P) (hq : h.words q P.n = P.modulus)
    (hx : h.words this P.n = x.repr) (hy : h.words other P.n = y.repr) : subToAsm P J q this other h = .ok (h.copy this (x - y).repr) := by
  have hs : decide (this = other) = true → y.repr = x.repr := fun e => by rw [← hx, ← hy, of_decide_eq_true e]
  have hr := C53_sub P hP.out.len J (decide (this = other)) _ _ x.len y.len x.lt y.lt hs
  rw [sub_repr] at hr
  unfold asmSubAssign at hr
  unfold subToAsm
  split_ifs at hr ⊢
  · exact asmOn_eq P J _ q this other h _ rfl (by rw [hx, hy, hq]; exact hr)
  · exact asmOn_eq P J _ q this other h _ rfl (by rw [hx, hy, hq]; exact hr)
  · exact asmOn_eq P J _ q this other h _ rfl (by rw [hx, hy, hq]; exact hr)
  · rw [subTo, hx, hy, hr]; rfl

end FpMem

/-! ## Layouts -/

/-- The layout is what the name says: an object is determined by its cells, and assigning makes them those of the value and touches no
other cell. -/
structure Layout.Lawful {W α : Type} (L : Layout W α) : Prop where
  len : ∀ x, (L.cells x).length = L.size
  load : ∀ p h x, h.words p L.size = L.cells x → L.load p h = x
  assign : ∀ p x h, L.assign p x h = h.copy p (L.cells x)

theorem Heap.copy_append {W : Type} (a b : List W) : ∀ (h : Heap W) (p : Nat), h.copy p (a ++ b) = (h.copy p a).copy (p + a.length) b := by
  induction a with
  | nil => intro h p; rfl
  | cons w a ih =>
    intro h p
    rw [List.cons_append, Heap.copy, Heap.copy, ih, List.length_cons]
    congr 1; omega

namespace Layout
variable {W α : Type} {nr : α → α}

theorem Lawful.cell : (Layout.cell : Layout W W).Lawful := ⟨fun _ => rfl, fun p h x hx => by
  change h.words p 1 = [x] at hx
  rw [Heap.words_succ] at hx
  exact (List.cons.inj hx).1, fun _ _ _ => rfl⟩

theorem Lawful.quad {L : Layout W α} (hL : L.Lawful) : (L.quad (nr := nr)).Lawful where
  len := fun x => by
    change (L.cells x.c0 ++ L.cells x.c1).length = 2 * L.size
    rw [List.length_append, hL.len, hL.len]; omega
  load := fun p h x hx => by
    change h.words p (2 * L.size) = L.cells x.c0 ++ L.cells x.c1 at hx
    rw [two_mul, Heap.words_add] at hx
    obtain ⟨h0, h1⟩ := List.append_inj hx (by rw [Heap.words_length, hL.len])
    change (⟨L.load p h, L.load (p + L.size) h⟩ : Quad α nr) = x
    rw [hL.load _ _ _ h0, hL.load _ _ _ h1]
  assign := fun p x h => by
    change L.assign (p + L.size) x.c1 (L.assign p x.c0 h) = h.copy p (L.cells x.c0 ++ L.cells x.c1)
    rw [hL.assign, hL.assign, Heap.copy_append, hL.len]

theorem Lawful.cubic {L : Layout W α} (hL : L.Lawful) : (L.cubic (nr := nr)).Lawful where
  len := fun x => by
    change (L.cells x.c0 ++ (L.cells x.c1 ++ L.cells x.c2)).length = 3 * L.size
    rw [List.length_append, List.length_append, hL.len, hL.len, hL.len]; omega
  load := fun p h x hx => by
    change h.words p (3 * L.size) = L.cells x.c0 ++ (L.cells x.c1 ++ L.cells x.c2) at hx
    rw [show 3 * L.size = L.size + (L.size + L.size) by omega, Heap.words_add, Heap.words_add] at hx
    obtain ⟨h0, hx⟩ := List.append_inj hx (by rw [Heap.words_length, hL.len])
    obtain ⟨h1, h2⟩ := List.append_inj hx (by rw [Heap.words_length, hL.len])
    rw [show p + L.size + L.size = p + 2 * L.size by omega] at h2
    change (⟨L.load p h, L.load (p + L.size) h, L.load (p + 2 * L.size) h⟩ : Cubic α nr) = x
    rw [hL.load _ _ _ h0, hL.load _ _ _ h1, hL.load _ _ _ h2]
  assign := fun p x h => by
    change L.assign (p + 2 * L.size) x.c2 (L.assign (p + L.size) x.c1 (L.assign p x.c0 h))
      = h.copy p (L.cells x.c0 ++ (L.cells x.c1 ++ L.cells x.c2))
    rw [hL.assign, hL.assign, hL.assign, Heap.copy_append, Heap.copy_append, hL.len, hL.len]
    congr 1; omega

theorem Lawful.opTo {L : Layout W α} (hL : L.Lawful) (f : α → α → α) : AssignsTo L.size L.cells f (L.opTo f) :=
  assignsTo_of_copy hL.len fun t o h x y _ hx hy => by
    rw [Layout.opTo, hL.load _ _ _ hx, hL.load _ _ _ hy, hL.assign]

theorem Lawful.replace {L : Layout W α} (hL : L.Lawful) (f : α → Outcome α) (this : Nat) (h : Heap W) (x r : α)
    (hx : h.words this L.size = L.cells x) (hr : f x = .ok r) :
    ∃ h', L.replace f this h = .ok h' ∧ h'.words this L.size = L.cells r ∧ OnlyChanges L.size this h h' := by
  refine ⟨h.copy this (L.cells r), ?_, Heap.words_copy' (hL.len r) h this, Heap.copy_onlyChanges (hL.len r) h this⟩
  rw [Layout.replace, hL.load _ _ _ hx, hr]
  change Outcome.ok (L.assign this r h) = _
  rw [hL.assign]

end Layout
end Libff
