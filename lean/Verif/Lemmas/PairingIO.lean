import Verif.Model.PairingIO
import Verif.Lemmas.CurveIO

/-! # Reading back written precomputations -/
namespace Libff

/-- A written value read directly, after a separator and after a newline. -/
theorem StreamLaw.get {α : Type} {binary : Bool} {valid : α → Prop} {write : α → Outcome (List Byte)} {read : Reader α}
    (h : StreamLaw binary valid write read) {x : α} (hx : valid x) :
    ∃ out, write x = .ok out ∧
      (∀ pre rest, (∀ c ∈ pre, isSpace c = true) → (binary = true → pre = []) → ContOk binary rest →
        read (pre ++ (out ++ rest)) = .ok (x, rest)) ∧
      (∀ rest, ContOk binary rest → read (out ++ rest) = .ok (x, rest)) ∧
      (∀ rest, ContOk binary rest → readSep binary read (outputSeparator binary ++ (out ++ rest)) = .ok (x, rest)) ∧
      (∀ rest, ContOk binary rest → read (outputSeparator binary ++ (out ++ rest)) = .ok (x, rest)) ∧
      ∀ rest, ContOk binary rest → readLn read (newline ++ (out ++ rest)) = .ok (x, rest) := by
  obtain ⟨out, h1, h2⟩ := h x hx
  have h3 : ∀ rest, ContOk binary rest → read (out ++ rest) = .ok (x, rest) := fun rest hr => h2 [] rest (by simp) (by simp) hr
  refine ⟨out, h1, h2, h3, fun rest hr => ?_, fun rest hr => h2 _ _ (sep_space binary) (by rintro rfl; rfl) hr, fun rest hr => ?_⟩
  · rw [readSep, consumeOutputSeparator_sep, Outcome.bind_ok, h3 _ hr]
  · rw [readLn, consumeNewline_newline, Outcome.bind_ok, h3 _ hr]

theorem newline_cont (binary : Bool) (rest : List Byte) : ContOk binary (newline ++ rest) := Or.inr (newline_tokenEnd rest)

/-- The operators for vectors need no particular continuation: what they write ends with a newline (text builds). -/
theorem vecRead_vecWrite_any {α : Type} {binary : Bool} {valid : α → Prop} {write : α → Outcome (List Byte)} {read : Reader α}
    (h : StreamLaw binary valid write read) (v : List α) (hl : v.length < 2 ^ 64) (hv : ∀ x ∈ v, valid x) :
    ∃ out, vecWrite binary write v = .ok out ∧ ∀ rest, vecRead binary read (out ++ rest) = .ok (v, rest) := by
  obtain ⟨out, h1, h2⟩ := readList_write (nl := outputNewline binary) (after := consumeOutputNewline binary) (read := read) v
    (fun x hx => by
      obtain ⟨o, h3, _, h4, _⟩ := h.get (hv x hx)
      refine ⟨o, h3, fun rest => ⟨outputNewline binary ++ rest, h4 _ ?_, ?_⟩⟩
      · cases binary with
        | true => exact Or.inl rfl
        | false => exact Or.inr (newline_tokenEnd rest)
      · cases binary <;> rfl)
  refine ⟨_, by rw [vecWrite, h1, Outcome.map_ok], fun rest => ?_⟩
  have := readSize_line v.length hl [] (out ++ rest) (by simp)
  rw [List.nil_append] at this
  rw [vecRead]
  simp only [List.append_assoc]
  rw [this, Outcome.bind_ok, consumeNewline_newline, Outcome.bind_ok, h2]

end Libff
