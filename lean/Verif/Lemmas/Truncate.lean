import Verif.Spec.Truncate
import Verif.Spec.Containers
import Verif.Model.CurveIO
import Verif.Model.PairingIO
import Verif.Lemmas.MillerDouble
import Verif.Props.Untrusted

/-!
# Readers look only at what they consume

`LocalIf true read`: if a stream is read successfully, then so is every extension of it, with the same result and the extension left
over. `LocalIf false read`: the same, if something was left over (a decimal number at the very end of the input could go on).
-/
namespace Libff

def LocalIf {α : Type} (b : Bool) (read : Reader α) : Prop :=
  ∀ s y r, read s = .ok (y, r) → (b = true ∨ r ≠ []) → ∀ u, read (s ++ u) = .ok (y, r ++ u)

/-- The reader needs input. -/
def Needs {α : Type} (read : Reader α) : Prop := ∀ q, read [] ≠ .ok q

/-- What the composition lemmas need: in text builds the reader must need input. -/
structure Prompt {α : Type} (binary : Bool) (read : Reader α) : Prop where
  loc : LocalIf binary read
  needs : binary = false → Needs read

theorem LocalIf.cutDetected {α : Type} {read : Reader α} (h : LocalIf true read) {out : List Byte} {x : α}
    (hx : read out = .ok (x, [])) : CutDetected out read := by
  intro t u ho hu y r hr
  have h1 := h t y r hr (Or.inl rfl) u
  rw [← ho, hx] at h1
  have h2 : [] = r ++ u := congrArg Prod.snd (Outcome.ok.inj h1)
  exact hu (List.append_eq_nil_iff.1 h2.symm).2

theorem LocalIf.weaken {α : Type} {read : Reader α} (h : LocalIf true read) (b : Bool) : LocalIf b read :=
  fun s y r hs _ u => h s y r hs (Or.inl rfl) u

section
variable {α β : Type} {b b' : Bool}

theorem LocalIf.bind {R : Reader α} {Q : α → Reader β} (hR : LocalIf b R) (hQ : ∀ x, LocalIf b' (Q x))
    (hn : b = true ∨ ∀ x, Needs (Q x)) : LocalIf b' fun s => (R s).bind fun p => Q p.1 p.2 := by
  intro s y r h hb u
  obtain ⟨⟨x, r1⟩, h1, h2⟩ := Outcome.bind_eq_ok.1 h
  have hr1 : b = true ∨ r1 ≠ [] := by
    rcases hn with hn | hn
    · exact Or.inl hn
    · refine Or.inr fun h0 => ?_
      subst h0
      exact hn x _ h2
  show (R (s ++ u)).bind _ = _
  rw [hR s x r1 h1 hr1 u, Outcome.bind_ok]
  exact hQ x r1 y r h2 hb u

theorem LocalIf.map {R : Reader α} {f : α → β} (hR : LocalIf b R) : LocalIf b fun s => (R s).map fun p => (f p.1, p.2) := by
  intro s y r h hb u
  obtain ⟨⟨x, r1⟩, h1, h2⟩ := Outcome.map_eq_ok.1 h
  have e1 : f x = y := congrArg Prod.fst h2
  have e2 : r1 = r := congrArg Prod.snd h2
  subst e1 e2
  show (R (s ++ u)).map _ = _
  rw [hR s x r1 h1 hb u, Outcome.map_ok]

/-- A computation that does not touch the stream. -/
theorem LocalIf.pure {R : Reader α} {f : α → Outcome β} (hR : LocalIf b R) :
    LocalIf b fun s => (R s).bind fun p => (f p.1).map fun y => (y, p.2) := by
  intro s y r h hb u
  obtain ⟨⟨x, r1⟩, h1, h2⟩ := Outcome.bind_eq_ok.1 h
  obtain ⟨z, h3, h4⟩ := Outcome.map_eq_ok.1 h2
  have e1 : z = y := congrArg Prod.fst h4
  have e2 : r1 = r := congrArg Prod.snd h4
  subst e1 e2
  show (R (s ++ u)).bind _ = _
  rw [hR s x r1 h1 hb u, Outcome.bind_ok, h3, Outcome.map_ok]

theorem needs_bind {R : Reader α} {Q : α × List Byte → Outcome β} (h : Needs R) :
    ∀ q, (R []).bind Q ≠ .ok q := by
  intro q hq
  obtain ⟨p, h1, -⟩ := Outcome.bind_eq_ok.1 hq
  exact h p h1

theorem LocalIf.newline {Q : Reader β} (hQ : LocalIf b Q) : LocalIf b fun s => (consumeNewline s).bind Q := by
  intro s y r h hb u
  obtain ⟨s', h1, h2⟩ := Outcome.bind_eq_ok.1 h
  cases s with
  | nil => cases h1
  | cons c s =>
    have : s = s' := Outcome.ok.inj h1
    subst this
    exact hQ s y r h2 hb u

theorem needs_newline (Q : Reader β) : Needs fun s => (consumeNewline s).bind Q := by
  intro q hq
  cases hq

theorem LocalIf.sep {Q : Reader β} (binary : Bool) (hQ : LocalIf b Q) :
    LocalIf b fun s => (consumeOutputSeparator binary s).bind Q := by
  cases binary with
  | true => exact hQ
  | false => exact hQ.newline

theorem needs_sep {Q : Reader β} : Needs fun s => (consumeOutputSeparator false s).bind Q := needs_newline Q

end

/-! ## The readers -/

theorem readRaw_local : LocalIf true readRaw := by
  intro s y r h _ u
  cases s with
  | nil => cases h
  | cons c s =>
    have h := Outcome.ok.inj h
    have e1 : c = y := congrArg Prod.fst h
    have e2 : s = r := congrArg Prod.snd h
    subst e1 e2
    rfl

theorem readRaw_needs : Needs readRaw := fun q h => by cases h

theorem readCharSkip_local : LocalIf true readCharSkip := by
  intro s y r h hb u
  rw [readCharSkip] at h ⊢
  rw [List.dropWhile_append]
  split
  · rename_i h0
    rw [List.isEmpty_iff] at h0
    rw [h0] at h
    cases h
  · exact readRaw_local _ y r h hb u

theorem readCharSkip_needs : Needs readCharSkip := fun q h => by cases h

theorem readLimbs_local : ∀ n, LocalIf true (readLimbs n)
  | 0 => fun s y r h _ u => by
    have h := Outcome.ok.inj h
    have e1 : [] = y := congrArg Prod.fst h
    have e2 : s = r := congrArg Prod.snd h
    subst e1 e2
    rfl
  | n + 1 => fun s y r h hb u => by
    rw [readLimbs] at h ⊢
    split at h
    · cases h
    · rename_i hl
      rw [if_neg (by rw [List.length_append]; omega)]
      obtain ⟨⟨l, r1⟩, h1, h2⟩ := Outcome.map_eq_ok.1 h
      rw [List.drop_append_of_le_length (by omega), List.take_append_of_le_length (by omega),
        readLimbs_local n _ l r1 h1 (Or.inl rfl) u, Outcome.map_ok]
      have e1 := congrArg Prod.fst h2
      have e2 : r1 = r := congrArg Prod.snd h2
      subst e2
      exact congrArg (fun v => Outcome.ok (v, _)) e1

theorem dropWhile_append_ne {p : Byte → Bool} {s : List Byte} (u : List Byte) (h : s.dropWhile p ≠ []) :
    (s ++ u).dropWhile p = s.dropWhile p ++ u ∧ (s ++ u).takeWhile p = s.takeWhile p := by
  constructor
  · rw [List.dropWhile_append, if_neg]
    rw [List.isEmpty_iff]; exact h
  · rw [List.takeWhile_append, if_neg]
    intro hl
    have h1 := List.takeWhile_append_dropWhile (p := p) (l := s)
    have h2 := congrArg List.length h1
    rw [List.length_append, hl] at h2
    exact h (List.eq_nil_of_length_eq_zero (by omega))

theorem readToken_local {s : List Byte} (u : List Byte) (h : (readToken s).2 ≠ []) :
    readToken (s ++ u) = ((readToken s).1, (readToken s).2 ++ u) := by
  have h0 : s.dropWhile isSpace ≠ [] := fun h0 => h (by rw [readToken]; simp only [h0, List.dropWhile_nil])
  rw [readToken, (dropWhile_append_ne u h0).1]
  show ((s.dropWhile isSpace ++ u).takeWhile _, (s.dropWhile isSpace ++ u).dropWhile _) = _
  rw [(dropWhile_append_ne u h).1, (dropWhile_append_ne u h).2]
  rfl

theorem bigintRead_local (binary : Bool) (n : Nat) : LocalIf binary (bigintRead binary n) := by
  cases binary with
  | true => exact readLimbs_local n
  | false =>
    intro s y r h hb u
    have hf : ∀ s, bigintRead false n s = (bigintOfString n (readToken s).1).map fun l => (l, (readToken s).2) := fun s => rfl
    rw [hf] at h ⊢
    obtain ⟨l, h1, h2⟩ := Outcome.map_eq_ok.1 h
    have e1 : l = y := congrArg Prod.fst h2
    have e2 : (readToken s).2 = r := congrArg Prod.snd h2
    rw [readToken_local u (by rw [e2]; rcases hb with hb | hb; · cases hb
                              · exact hb), h1, Outcome.map_ok, e1, e2]

theorem bigintRead_needs (n : Nat) : Needs (bigintRead false n) := by
  intro q h
  have h : (Outcome.ub : Outcome (List Limb × List Byte)) = .ok q := h
  cases h

theorem readSize_local : LocalIf false readSize := by
  intro s y r h hb u
  rcases hb with hb | hb
  · cases hb
  rw [readSize] at h ⊢
  simp only at h ⊢
  split at h
  · cases h
  · rename_i h0
    split at h
    · cases h
    · rename_i h1
      have h := Outcome.ok.inj h
      have e1 := congrArg Prod.fst h
      have e2 : (s.dropWhile isSpace).dropWhile isDigit = r := congrArg Prod.snd h
      have hs : s.dropWhile isSpace ≠ [] := fun hx => h0 (by rw [hx]; rfl)
      rw [(dropWhile_append_ne u hs).1, (dropWhile_append_ne u (by rw [e2]; exact hb)).1,
        (dropWhile_append_ne u (by rw [e2]; exact hb)).2, if_neg h0, if_neg h1, ← e2]
      exact congrArg (fun v => Outcome.ok (v, _)) e1

theorem readSize_needs : Needs readSize := fun q h => by simp [readSize] at h

theorem fpRead_prompt (mont binary : Bool) (P : FpParams) : Prompt binary (fpRead mont binary P) := by
  constructor
  · intro s y r h hb u
    rw [fpRead] at h ⊢
    obtain ⟨⟨l, r1⟩, h1, h2⟩ := Outcome.bind_eq_ok.1 h
    have hr : r1 = r := by
      simp only at h2
      split at h2
      · exact congrArg Prod.snd (Outcome.ok.inj h2)
      · obtain ⟨l', -, h3⟩ := Outcome.map_eq_ok.1 h2
        exact congrArg Prod.snd h3
    subst hr
    rw [bigintRead_local binary P.n s l r1 h1 hb u, Outcome.bind_ok]
    simp only at h2 ⊢
    split at h2
    · rename_i hm
      rw [if_pos hm]
      have e1 : l = y := congrArg Prod.fst (Outcome.ok.inj h2)
      rw [e1]
    · rename_i hm
      rw [if_neg hm]
      obtain ⟨l', h3, h4⟩ := Outcome.map_eq_ok.1 h2
      have e1 : l' = y := congrArg Prod.fst h4
      rw [h3, Outcome.map_ok, e1]
  · rintro rfl q h
    rw [fpRead] at h
    exact needs_bind (bigintRead_needs P.n) q h

theorem fpObjCodec_prompt (mont binary : Bool) (P : FpParams) (bits : Nat) :
    Prompt binary (fpObjCodec mont binary P bits).read := by
  constructor
  · intro s y r h hb u
    simp only [fpObjCodec] at h ⊢
    obtain ⟨⟨l, r1⟩, h1, h2⟩ := Outcome.bind_eq_ok.1 h
    simp only at h2
    split at h2
    · rename_i hv
      have h2 := Outcome.ok.inj h2
      have e1 := congrArg Prod.fst h2
      have e2 : r1 = r := congrArg Prod.snd h2
      subst e2
      rw [(fpRead_prompt mont binary P).loc s l r1 h1 hb u, Outcome.bind_ok]
      simp only
      rw [dif_pos hv]
      exact congrArg (fun v => Outcome.ok (v, _)) e1
    · cases h2
  · rintro rfl q h
    simp only [fpObjCodec] at h
    obtain ⟨p, h1, -⟩ := Outcome.bind_eq_ok.1 h
    exact (fpRead_prompt mont false P).needs rfl p h1

section
variable {α : Type} {nr : α → α} {binary : Bool} {c : FieldCodec α}

theorem Prompt.hn (h : Prompt binary c.read) : binary = true ∨ Needs c.read := by
  cases binary with
  | true => exact Or.inl rfl
  | false => exact Or.inr (h.needs rfl)

theorem quad_prompt (h : Prompt binary c.read) : Prompt binary (quadCodec (nr := nr) binary c).read := by
  refine ⟨?_, fun hb q hq => needs_bind (h.needs hb) q hq⟩
  exact LocalIf.bind (Q := fun x s => (c.read s).map fun r1 => ((⟨x, r1.1⟩ : Quad α nr), r1.2)) h.loc (fun x => h.loc.map)
    (h.hn.imp id fun hn x => needs_bind hn)

theorem cubic_prompt (h : Prompt binary c.read) : Prompt binary (cubicCodec (nr := nr) binary c).read := by
  refine ⟨?_, fun hb q hq => needs_bind (h.needs hb) q hq⟩
  exact LocalIf.bind (Q := fun x s => (c.read s).bind fun r1 => (c.read r1.2).map fun r2 =>
      ((⟨x, r1.1, r2.1⟩ : Cubic α nr), r2.2)) h.loc
    (fun x => LocalIf.bind (Q := fun y s => (c.read s).map fun r2 => ((⟨x, y, r2.1⟩ : Cubic α nr), r2.2)) h.loc
      (fun y => h.loc.map) (h.hn.imp id fun hn x => needs_bind hn))
    (h.hn.imp id fun hn x => needs_bind hn)

end

/-! ## Containers -/

section
variable {α : Type} {binary : Bool} {read : Reader α}

theorem readList_local {after : List Byte → Outcome (List Byte)}
    (h : ∀ {β : Type} (Q : α → Reader β), (∀ x, LocalIf true (Q x)) →
      LocalIf true fun s => (read s).bind fun p => (after p.2).bind (Q p.1)) : ∀ k, LocalIf true (readList read after k)
  | 0 => fun s y r hs _ u => by
    have hs := Outcome.ok.inj hs
    have e1 : [] = y := congrArg Prod.fst hs
    have e2 : s = r := congrArg Prod.snd hs
    subst e1 e2
    rfl
  | k + 1 => h (fun x s => (readList read after k s).map fun q : List α × List Byte => (x :: q.1, q.2))
      fun x => (readList_local h k).map (f := fun l => x :: l)

theorem element_local (h : LocalIf binary read) {β : Type} (Q : α → Reader β) (hQ : ∀ x, LocalIf true (Q x)) :
    LocalIf true fun s => (read s).bind fun p => (consumeOutputNewline binary p.2).bind (Q p.1) := by
  cases binary with
  | true => exact LocalIf.bind (Q := Q) h hQ (Or.inl rfl)
  | false =>
    exact LocalIf.bind (Q := fun x s => (consumeNewline s).bind (Q x)) h (fun x => (hQ x).newline)
      (Or.inr fun _ => needs_newline _)

theorem line_local {b : Bool} (h : LocalIf b read) {β : Type} (Q : α → Reader β) (hQ : ∀ x, LocalIf true (Q x)) :
    LocalIf true fun s => (read s).bind fun p => (consumeNewline p.2).bind (Q p.1) :=
  LocalIf.bind (Q := fun x s => (consumeNewline s).bind (Q x)) h (fun x => (hQ x).newline)
    (Or.inr fun x => needs_newline _)

theorem vecRead_local (h : LocalIf binary read) : LocalIf true (vecRead binary read) :=
  line_local readSize_local (fun k => readList read (consumeOutputNewline binary) k)
    fun k => readList_local (fun Q hQ => element_local h Q hQ) k

theorem vecRead_needs : Needs (vecRead binary read) := needs_bind readSize_needs

theorem extVecRead_local (h : LocalIf true read) : LocalIf true (extVecRead read) :=
  line_local readSize_local (fun k => readList read .ok k)
    fun k => readList_local (fun Q hQ => LocalIf.bind (Q := Q) h hQ (Or.inl rfl)) k

theorem inputBool_local (debug : Bool) : LocalIf true (inputBool debug) := by
  have := line_local readSize_local (fun k s => if debug ∧ ¬ (k = 0 ∨ k = 1) then Outcome.abort else .ok (k == 1, s))
    (fun k s y r h _ u => by
      split at h
      · cases h
      · rename_i hc
        have h := Outcome.ok.inj h
        have e1 : (k == 1) = y := congrArg Prod.fst h
        have e2 : s = r := congrArg Prod.snd h
        subst e1 e2
        simp only
        rw [if_neg hc])
  exact this

theorem inputBoolVector_local (debug : Bool) : LocalIf true (inputBoolVector debug) :=
  line_local readSize_local (fun k => readList (inputBool debug) .ok k)
    fun k => readList_local (fun Q hQ => LocalIf.bind (Q := Q) (inputBool_local debug) hQ (Or.inl rfl)) k

end

section
variable {κ β : Type} {lt : κ → κ → Bool} {b b' : Bool} {rk : Reader κ} {rv : Reader β}

theorem mapReadLoop_local (hk : LocalIf b rk) (hv : LocalIf b' rv) : ∀ i m, LocalIf true (mapReadLoop lt rk rv i m)
  | 0, m => fun s y r hs _ u => by
    have hs := Outcome.ok.inj hs
    have e1 : m = y := congrArg Prod.fst hs
    have e2 : s = r := congrArg Prod.snd hs
    subst e1 e2
    rfl
  | i + 1, m => line_local hk (fun k s => (rv s).bind fun v => (consumeNewline v.2).bind fun s =>
      mapReadLoop lt rk rv i (mapAssign lt k v.1 m) s)
    fun k => line_local hv (fun v => mapReadLoop lt rk rv i (mapAssign lt k v m)) fun v => mapReadLoop_local hk hv i _

theorem mapRead_local (hk : LocalIf b rk) (hv : LocalIf b' rv) : LocalIf true (mapRead lt rk rv) :=
  line_local readSize_local (fun k => mapReadLoop lt rk rv k []) fun k => mapReadLoop_local hk hv k []

theorem setReadLoop_local (hk : LocalIf b rk) : ∀ i m, LocalIf true (setReadLoop lt rk i m)
  | 0, m => fun s y r hs _ u => by
    have hs := Outcome.ok.inj hs
    have e1 : m = y := congrArg Prod.fst hs
    have e2 : s = r := congrArg Prod.snd hs
    subst e1 e2
    rfl
  | i + 1, m => line_local hk (fun k => setReadLoop lt rk i (setInsert lt k m)) fun k => setReadLoop_local hk i _

theorem setRead_local (hk : LocalIf b rk) : LocalIf true (setRead lt rk) :=
  line_local readSize_local (fun k => setReadLoop lt rk k []) fun k => setReadLoop_local hk k []

end

/-! ## Points -/

section
variable {K : Type} [Zero K] [One K] [Add K] [Sub K] [Neg K] [Mul K] [DecidableEq K] [Squared K] [InverseO K]
variable {binary compress : Bool} {c : FieldCodec K} {lsb : K → Outcome Bool} {sqrt : K → Outcome K}

/-- A result computed without touching the stream. -/
theorem LocalIf.result {α β : Type} {b : Bool} {R : Reader α} {f : α → Outcome β} (hR : LocalIf b R) {Q : α × List Byte → Outcome (β × List Byte)}
    (hQ : ∀ p, Q p = (f p.1).map fun y => (y, p.2)) : LocalIf b fun s => (R s).bind Q := by
  have : Q = fun p => (f p.1).map fun y => (y, p.2) := funext hQ
  rw [this]
  exact hR.pure

theorem separated_local {α β : Type} {R : Reader α} (hR : LocalIf binary R) {b : Bool} {Q : α → Reader β} (hQ : ∀ x, LocalIf b (Q x)) :
    LocalIf b fun s => (R s).bind fun p => (consumeOutputSeparator binary p.2).bind (Q p.1) := by
  cases binary with
  | true => exact LocalIf.bind (Q := Q) hR hQ (Or.inl rfl)
  | false =>
    exact LocalIf.bind (Q := fun x s => (consumeNewline s).bind (Q x)) hR (fun x => (hQ x).newline)
      (Or.inr fun _ => needs_newline _)

theorem swRead_local (h : Prompt binary c.read) (zero : Coord3 K) (rhs : K → K) :
    LocalIf (binary || compress) (swRead binary compress c lsb sqrt zero rhs) := by
  cases compress with
  | true =>
    rw [Bool.or_true]
    refine separated_local (binary := binary) (R := readRaw) (readRaw_local.weaken _) (Q := fun z s => (c.read s).bind fun x =>
      (consumeOutputSeparator binary x.2).bind fun s => (readRaw s).bind fun l =>
      if z - 48 = 0 then
        (sqrt (rhs x.1)).bind fun tY => (pickRoot lsb l.1 tY).map fun tY => (⟨x.1, tY, 1⟩, l.2)
      else .ok (zero, l.2)) fun z => ?_
    refine separated_local h.loc (Q := fun x s => (readRaw s).bind fun l =>
      if z - 48 = 0 then
        (sqrt (rhs x)).bind fun tY => (pickRoot lsb l.1 tY).map fun tY => (⟨x, tY, 1⟩, l.2)
      else .ok (zero, l.2)) fun x => ?_
    refine readRaw_local.result (f := fun l => if z - 48 = 0 then
        (sqrt (rhs x)).bind fun tY => (pickRoot lsb l tY).map fun tY => ⟨x, tY, 1⟩ else .ok zero) fun l => ?_
    split
    · cases sqrt (rhs x) with
      | ok tY => simp only [Outcome.bind_ok]; cases pickRoot lsb l.1 tY <;> rfl
      | abort => rfl
      | ub => rfl
    · rfl
  | false =>
    rw [Bool.or_false]
    refine LocalIf.bind (b := true) (Q := fun z s => (c.read s).bind fun x => (c.read x.2).map fun y =>
      if z - 48 = 0 then (⟨x.1, y.1, 1⟩, y.2) else (zero, y.2)) readCharSkip_local (fun z => ?_) (Or.inl rfl)
    refine LocalIf.bind (Q := fun x s => (c.read s).map fun y =>
      if z - 48 = 0 then (⟨x, y.1, 1⟩, y.2) else (zero, y.2)) h.loc (fun x => ?_) (h.hn.imp id fun hn x q hq => ?_)
    · have : (fun y : K × List Byte => if z - 48 = 0 then ((⟨x, y.1, 1⟩, y.2) : Coord3 K × List Byte) else (zero, y.2)) =
          fun y => ((if z - 48 = 0 then ⟨x, y.1, 1⟩ else zero), y.2) := funext fun y => by split <;> rfl
      rw [this]
      exact h.loc.map (f := fun y => if z - 48 = 0 then (⟨x, y, 1⟩ : Coord3 K) else zero)
    · obtain ⟨p, h1, -⟩ := Outcome.map_eq_ok.1 hq
      exact hn p h1

theorem Edw.readAffine_local (h : Prompt binary c.read) (mulA mulD : K → K) :
    LocalIf (binary || compress) (Edw.readAffine binary compress c lsb sqrt mulA mulD) := by
  refine separated_local h.loc (Q := fun x s => if compress then
      (readRaw s).bind fun l =>
        let tX2 := squared x
        (inverseO (1 - mulD tX2)).bind fun i => (sqrt ((1 - mulA tX2) * i)).bind fun tY =>
        (pickRoot lsb l.1 tY).map fun tY => ((x, tY), l.2)
    else (c.read s).map fun y => ((x, y.1), y.2)) fun x => ?_
  cases compress with
  | true =>
    rw [Bool.or_true]
    refine readRaw_local.result (f := fun l => (inverseO (1 - mulD (squared x))).bind fun i =>
        (sqrt ((1 - mulA (squared x)) * i)).bind fun tY => (pickRoot lsb l tY).map fun tY => (x, tY)) fun l => ?_
    show (inverseO (1 - mulD (squared x))).bind _ = _
    cases inverseO (1 - mulD (squared x)) with
    | ok i =>
      simp only [Outcome.bind_ok]
      cases sqrt ((1 - mulA (squared x)) * i) with
      | ok tY => simp only [Outcome.bind_ok]; cases pickRoot lsb l.1 tY <;> rfl
      | abort => rfl
      | ub => rfl
    | abort => rfl
    | ub => rfl
  | false =>
    rw [Bool.or_false]
    exact h.loc.map

theorem Edw.read_local (h : Prompt binary c.read) (debug mixed : Bool) (mulA mulD : K → K) :
    LocalIf (binary || compress) (Edw.read binary compress c lsb sqrt debug mixed mulA mulD) := by
  refine (Edw.readAffine_local h mulA mulD).result (f := fun r => if mixed then Edw.toSpecial debug ⟨r.2, r.1, r.1 * r.2⟩
    else .ok ⟨r.2, r.1, r.1 * r.2⟩) fun r => ?_
  cases mixed <;> rfl

end

/-! ## Precomputed pairing arguments -/

section
variable {K T : Type} {binary : Bool} {c : FieldCodec K} {cT : FieldCodec T}

theorem readSep_prompt (h : Prompt binary c.read) : Prompt binary (readSep binary c.read) := by
  refine ⟨h.loc.sep binary, ?_⟩
  rintro rfl
  exact needs_sep

theorem readSep_hn (h : Prompt binary c.read) : binary = true ∨ Needs (readSep binary c.read) := by
  cases binary with
  | true => exact Or.inl rfl
  | false => exact Or.inr needs_sep

theorem needs_map {α β : Type} {R : Reader α} {f : α × List Byte → β × List Byte} (h : Needs R) : ∀ q, (R []).map f ≠ .ok q := by
  intro q hq
  obtain ⟨p, h1, -⟩ := Outcome.map_eq_ok.1 hq
  exact h p h1

theorem AteG1Precomp.read_local (h : Prompt binary c.read) : LocalIf binary (AteG1Precomp.read binary c) :=
  LocalIf.bind (Q := fun x s => (readSep binary c.read s).map fun y => ((⟨x, y.1⟩ : AteG1Precomp K), y.2)) h.loc
    (fun _ => (readSep_prompt h).loc.map) ((readSep_hn h).imp id fun hn _ => needs_map hn)

theorem EllCoeffs.read_local (h : Prompt binary c.read) : LocalIf binary (EllCoeffs.read binary c) :=
  LocalIf.bind (Q := fun a s => (readSep binary c.read s).bind fun b => (readSep binary c.read b.2).map fun d =>
      ((⟨a, b.1, d.1⟩ : EllCoeffs K), d.2)) h.loc
    (fun a => LocalIf.bind (Q := fun b s => (readSep binary c.read s).map fun d => ((⟨a, b, d.1⟩ : EllCoeffs K), d.2))
      (readSep_prompt h).loc (fun _ => (readSep_prompt h).loc.map) ((readSep_hn h).imp id fun hn _ => needs_map hn))
    ((readSep_hn h).imp id fun hn _ => needs_bind hn)

theorem AteG2Precomp.read_local (h : Prompt binary c.read) : LocalIf true (AteG2Precomp.read binary c) :=
  LocalIf.bind (Q := fun x s => (readSep binary c.read s).bind fun y =>
      (readLn (vecRead binary (EllCoeffs.read binary c)) y.2).map fun v => ((⟨x, y.1, v.1⟩ : AteG2Precomp K), v.2)) h.loc
    (fun x => LocalIf.bind (Q := fun y s => (readLn (vecRead binary (EllCoeffs.read binary c)) s).map fun v =>
        ((⟨x, y, v.1⟩ : AteG2Precomp K), v.2)) (readSep_prompt h).loc
      (fun _ => (vecRead_local (EllCoeffs.read_local h)).newline.map) (Or.inr fun _ => needs_map (needs_newline _)))
    ((readSep_hn h).imp id fun hn _ => needs_bind hn)

theorem MntG1Precomp.read_local (h : Prompt binary c.read) (hT : Prompt binary cT.read) :
    LocalIf binary (MntG1Precomp.read binary c cT) :=
  LocalIf.bind (Q := fun a s => (readSep binary c.read s).bind fun b => (readSep binary cT.read b.2).bind fun d =>
      (readSep binary cT.read d.2).map fun e => ((⟨a, b.1, d.1, e.1⟩ : MntG1Precomp K T), e.2)) h.loc
    (fun a => LocalIf.bind (Q := fun b s => (readSep binary cT.read s).bind fun d =>
        (readSep binary cT.read d.2).map fun e => ((⟨a, b, d.1, e.1⟩ : MntG1Precomp K T), e.2)) (readSep_prompt h).loc
      (fun b => LocalIf.bind (Q := fun d s => (readSep binary cT.read s).map fun e => ((⟨a, b, d, e.1⟩ : MntG1Precomp K T), e.2))
        (readSep_prompt hT).loc (fun _ => (readSep_prompt hT).loc.map) ((readSep_hn hT).imp id fun hn _ => needs_map hn))
      ((readSep_hn hT).imp id fun hn _ => needs_bind hn))
    ((readSep_hn h).imp id fun hn _ => needs_bind hn)

theorem MntDblCoeffs.read_local (hT : Prompt binary cT.read) : LocalIf binary (MntDblCoeffs.read binary cT) :=
  LocalIf.bind (Q := fun a s => (readSep binary cT.read s).bind fun b => (readSep binary cT.read b.2).bind fun d =>
      (readSep binary cT.read d.2).map fun e => ((⟨a, b.1, d.1, e.1⟩ : MntDblCoeffs T), e.2)) hT.loc
    (fun a => LocalIf.bind (Q := fun b s => (readSep binary cT.read s).bind fun d =>
        (readSep binary cT.read d.2).map fun e => ((⟨a, b, d.1, e.1⟩ : MntDblCoeffs T), e.2)) (readSep_prompt hT).loc
      (fun b => LocalIf.bind (Q := fun d s => (readSep binary cT.read s).map fun e => ((⟨a, b, d, e.1⟩ : MntDblCoeffs T), e.2))
        (readSep_prompt hT).loc (fun _ => (readSep_prompt hT).loc.map) ((readSep_hn hT).imp id fun hn _ => needs_map hn))
      ((readSep_hn hT).imp id fun hn _ => needs_bind hn))
    ((readSep_hn hT).imp id fun hn _ => needs_bind hn)

theorem MntAddCoeffs.read_local (hT : Prompt binary cT.read) : LocalIf binary (MntAddCoeffs.read binary cT) :=
  LocalIf.bind (Q := fun x s => (readSep binary cT.read s).map fun y => ((⟨x, y.1⟩ : MntAddCoeffs T), y.2)) hT.loc
    (fun _ => (readSep_prompt hT).loc.map) ((readSep_hn hT).imp id fun hn _ => needs_map hn)

theorem MntG2Precomp.read_local (hT : Prompt binary cT.read) : LocalIf true (MntG2Precomp.read binary cT) := by
  have hs := (readSep_prompt hT).loc
  have hn {α β : Type} {Q : α → T × List Byte → Outcome (β × List Byte)} :
      binary = true ∨ ∀ x, Needs fun s => (readSep binary cT.read s).bind (Q x) :=
    (readSep_hn hT).imp id fun hn _ => needs_bind hn
  refine LocalIf.bind (Q := fun a s => (readSep binary cT.read s).bind fun b => (readSep binary cT.read b.2).bind fun d =>
    (readSep binary cT.read d.2).bind fun e => (readSep binary cT.read e.2).bind fun f =>
    (readLn (vecRead binary (MntDblCoeffs.read binary cT)) f.2).bind fun v =>
    (vecRead binary (MntAddCoeffs.read binary cT) v.2).map fun w => ((⟨a, b.1, d.1, e.1, f.1, v.1, w.1⟩ : MntG2Precomp T), w.2))
    hT.loc (fun a => ?_) hn
  refine LocalIf.bind (Q := fun b s => (readSep binary cT.read s).bind fun d =>
    (readSep binary cT.read d.2).bind fun e => (readSep binary cT.read e.2).bind fun f =>
    (readLn (vecRead binary (MntDblCoeffs.read binary cT)) f.2).bind fun v =>
    (vecRead binary (MntAddCoeffs.read binary cT) v.2).map fun w => ((⟨a, b, d.1, e.1, f.1, v.1, w.1⟩ : MntG2Precomp T), w.2))
    hs (fun b => ?_) hn
  refine LocalIf.bind (Q := fun d s => (readSep binary cT.read s).bind fun e => (readSep binary cT.read e.2).bind fun f =>
    (readLn (vecRead binary (MntDblCoeffs.read binary cT)) f.2).bind fun v =>
    (vecRead binary (MntAddCoeffs.read binary cT) v.2).map fun w => ((⟨a, b, d, e.1, f.1, v.1, w.1⟩ : MntG2Precomp T), w.2))
    hs (fun d => ?_) hn
  refine LocalIf.bind (Q := fun e s => (readSep binary cT.read s).bind fun f =>
    (readLn (vecRead binary (MntDblCoeffs.read binary cT)) f.2).bind fun v =>
    (vecRead binary (MntAddCoeffs.read binary cT) v.2).map fun w => ((⟨a, b, d, e, f.1, v.1, w.1⟩ : MntG2Precomp T), w.2))
    hs (fun e => ?_) hn
  refine LocalIf.bind (Q := fun f s => (readLn (vecRead binary (MntDblCoeffs.read binary cT)) s).bind fun v =>
    (vecRead binary (MntAddCoeffs.read binary cT) v.2).map fun w => ((⟨a, b, d, e, f, v.1, w.1⟩ : MntG2Precomp T), w.2))
    hs (fun f => ?_) (Or.inr fun _ => needs_bind (needs_newline _))
  exact LocalIf.bind (Q := fun v s => (vecRead binary (MntAddCoeffs.read binary cT) s).map fun w =>
      ((⟨a, b, d, e, f, v, w.1⟩ : MntG2Precomp T), w.2)) (vecRead_local (MntDblCoeffs.read_local hT)).newline
    (fun _ => (vecRead_local (MntAddCoeffs.read_local hT)).map) (Or.inl rfl)

theorem ConicCoeffs.read_local (h : Prompt binary c.read) : LocalIf binary (ConicCoeffs.read binary c) :=
  LocalIf.bind (Q := fun a s => (readSep binary c.read s).bind fun b => (readSep binary c.read b.2).map fun d =>
      ((⟨a, b.1, d.1⟩ : ConicCoeffs K), d.2)) h.loc
    (fun a => LocalIf.bind (Q := fun b s => (readSep binary c.read s).map fun d => ((⟨a, b, d.1⟩ : ConicCoeffs K), d.2))
      (readSep_prompt h).loc (fun _ => (readSep_prompt h).loc.map) ((readSep_hn h).imp id fun hn _ => needs_map hn))
    ((readSep_hn h).imp id fun hn _ => needs_bind hn)

theorem conicsRead_local (h : Prompt binary c.read) : LocalIf true (conicsRead binary c) :=
  vecRead_local (ConicCoeffs.read_local h)

theorem EdwTateG2Precomp.read_local (hT : Prompt binary cT.read) : LocalIf binary (EdwTateG2Precomp.read binary cT) :=
  LocalIf.bind (Q := fun x s => (readSep binary cT.read s).map fun y => ((⟨x, y.1⟩ : EdwTateG2Precomp T), y.2)) hT.loc
    (fun _ => (readSep_prompt hT).loc.map) ((readSep_hn hT).imp id fun hn _ => needs_map hn)

theorem EdwG1Precomp.read_local (h : Prompt binary c.read) : LocalIf binary (EdwG1Precomp.read c) :=
  LocalIf.bind (Q := fun a s => (c.read s).bind fun b => (c.read b.2).map fun d => ((⟨a, b.1, d.1⟩ : EdwG1Precomp K), d.2)) h.loc
    (fun a => LocalIf.bind (Q := fun b s => (c.read s).map fun d => ((⟨a, b, d.1⟩ : EdwG1Precomp K), d.2))
      h.loc (fun _ => h.loc.map) (h.hn.imp id fun hn _ => needs_map hn))
    (h.hn.imp id fun hn _ => needs_bind hn)

end

/-! ## Readers that are defined on every input -/

section
variable {α β : Type}

theorem bind_ne_ub {x : Outcome α} {f : α → Outcome β} (hx : x ≠ .ub) (hf : ∀ a, x = .ok a → f a ≠ .ub) : x.bind f ≠ .ub := by
  cases x with
  | ok a => exact hf a rfl
  | abort => exact fun h => by cases h
  | ub => exact absurd rfl hx

theorem map_ne_ub {x : Outcome α} {f : α → β} (hx : x ≠ .ub) : x.map f ≠ .ub := by
  cases x with
  | ok a => exact fun h => by cases h
  | abort => exact fun h => by cases h
  | ub => exact absurd rfl hx

theorem readRaw_defined : ReaderDefined readRaw := fun s h => by cases s <;> cases h

theorem readCharSkip_defined : ReaderDefined readCharSkip := fun _ => readRaw_defined _

theorem consumeNewline_ne_ub (s : List Byte) : consumeNewline s ≠ .ub := fun h => by cases s <;> cases h

theorem consumeOutputSeparator_ne_ub (binary : Bool) (s : List Byte) : consumeOutputSeparator binary s ≠ .ub := by
  cases binary
  · exact consumeNewline_ne_ub s
  · exact fun h => by cases h

theorem consumeOutputNewline_ne_ub (binary : Bool) (s : List Byte) : consumeOutputNewline binary s ≠ .ub := by
  cases binary
  · exact consumeNewline_ne_ub s
  · exact fun h => by cases h

theorem readLimbs_defined : ∀ n, ReaderDefined (readLimbs n)
  | 0 => fun s h => by cases h
  | n + 1 => fun s => by
    rw [readLimbs]
    split
    · exact fun h => by cases h
    · exact map_ne_ub (readLimbs_defined n _)

theorem readLimbs_length : ∀ n s a r, readLimbs n s = .ok (a, r) → a.length = n
  | 0, s, a, r, h => by
    have e : [] = a := congrArg Prod.fst (Outcome.ok.inj h)
    rw [← e]; rfl
  | n + 1, s, a, r, h => by
    rw [readLimbs] at h
    split at h
    · cases h
    · obtain ⟨⟨l, r'⟩, h1, h2⟩ := Outcome.map_eq_ok.1 h
      have e : _ :: l = a := congrArg Prod.fst h2
      rw [← e, List.length_cons, readLimbs_length n _ l r' h1]

theorem readSize_defined : ReaderDefined readSize := fun s h => by
  rw [readSize] at h
  simp only at h
  split at h
  · cases h
  · split at h <;> cases h

theorem fpRead_binary_defined (mont : Bool) {P : FpParams} (hP : P.Valid) : ReaderDefined (fpRead mont true P) := by
  intro s
  refine bind_ne_ub (readLimbs_defined P.n s) fun l hl => ?_
  cases mont with
  | true => exact fun h => by cases h
  | false =>
    have h2 := readLimbs_length _ _ _ _ hl
    obtain ⟨r, h5, -⟩ := Represents.mulReduce_raw hP (a := l.1) (b := P.Rsquared) (z := ((val l.1 : ℕ) : ZMod P.p)) h2 hP.r2len
      (lt_pR hP h2 hP.r2_lt) (by rw [hP.r2_cast]; ring)
    simp only [Bool.false_eq_true, if_false, h5]
    exact fun h => by cases h

theorem quad_defined {nr : α → α} {binary : Bool} {c : FieldCodec α} (h : ReaderDefined c.read) :
    ReaderDefined (quadCodec (nr := nr) binary c).read :=
  fun s => bind_ne_ub (h s) fun _ _ => map_ne_ub (h _)

theorem cubic_defined {nr : α → α} {binary : Bool} {c : FieldCodec α} (h : ReaderDefined c.read) :
    ReaderDefined (cubicCodec (nr := nr) binary c).read :=
  fun s => bind_ne_ub (h s) fun _ _ => bind_ne_ub (h _) fun _ _ => map_ne_ub (h _)

theorem readList_defined {read : Reader α} {after : List Byte → Outcome (List Byte)} (h : ReaderDefined read)
    (ha : ∀ s, after s ≠ .ub) : ∀ k, ReaderDefined (readList read after k)
  | 0 => fun s h => by cases h
  | k + 1 => fun s => bind_ne_ub (h s) fun _ _ => bind_ne_ub (ha _) fun _ _ => map_ne_ub (readList_defined h ha k _)

theorem vecRead_defined {read : Reader α} {binary : Bool} (h : ReaderDefined read) : ReaderDefined (vecRead binary read) :=
  fun s => bind_ne_ub (readSize_defined s) fun _ _ => bind_ne_ub (consumeNewline_ne_ub _) fun _ _ =>
    readList_defined h (consumeOutputNewline_ne_ub binary) _ _

theorem extVecRead_defined {read : Reader α} (h : ReaderDefined read) : ReaderDefined (extVecRead read) :=
  fun s => bind_ne_ub (readSize_defined s) fun _ _ => bind_ne_ub (consumeNewline_ne_ub _) fun _ _ =>
    readList_defined h (fun _ h => by cases h) _ _

end

section
variable {K : Type} [Zero K] [One K] [Add K] [Sub K] [Neg K] [Mul K] [DecidableEq K] [Squared K] [InverseO K]
variable {binary compress : Bool} {c : FieldCodec K} {lsb : K → Outcome Bool} {sqrt : K → Outcome K}

omit [Add K] [Sub K] [Neg K] [InverseO K] in
theorem fieldSqrt_ne_ub (debug : Bool) (C : SqrtConsts K) (fuel : Nat) (a : K) : fieldSqrt debug C fuel a ≠ .ub := by
  refine bind_ne_ub ?_ fun o _ => ?_
  · unfold tonelliShanks
    simp only
    split_ifs <;> exact fun h => by cases h
  · cases o <;> exact fun h => by cases h

theorem swRead_defined (h : ReaderDefined c.read) (hl : ∀ y, lsb y ≠ .ub) (hs : ∀ a, sqrt a ≠ .ub) (zero : Coord3 K) (rhs : K → K) :
    ReaderDefined (swRead binary compress c lsb sqrt zero rhs) := by
  intro s
  rw [swRead]
  split
  · refine bind_ne_ub (readRaw_defined s) fun _ _ => bind_ne_ub (consumeOutputSeparator_ne_ub _ _) fun _ _ => bind_ne_ub (h _) fun _ _ =>
      bind_ne_ub (consumeOutputSeparator_ne_ub _ _) fun _ _ => bind_ne_ub (readRaw_defined _) fun _ _ => ?_
    split
    · exact bind_ne_ub (hs _) fun _ _ => map_ne_ub (map_ne_ub (hl _))
    · exact fun h => by cases h
  · exact bind_ne_ub (readCharSkip_defined s) fun _ _ => bind_ne_ub (h _) fun _ _ => map_ne_ub (h _)

end

theorem fpLsb_ne_ub (P : FpParams) (hP : P.Valid) (y : Fp P) : fpLsb P y ≠ .ub := by
  obtain ⟨b, h1, -⟩ := C05_as_bigint P hP y.repr _ (Represents.exists_val hP y.len y.lt)
  rw [fpLsb, h1]
  exact fun h => by cases h

theorem fpObjCodec_binary_defined {P : FpParams} (hP : P.Valid) (bits : Nat) : ReaderDefined (fpObjCodec false true P bits).read := by
  intro s
  refine bind_ne_ub (fpRead_binary_defined false hP s) fun r hr => ?_
  rw [dif_pos (C63_fp_read_valid P hP true s r.1 r.2 hr)]
  exact fun h => by cases h

end Libff
