import Verif.Model.Containers
import Verif.Spec.Containers
import Verif.Lemmas.Stream
import Mathlib.Data.List.Pairwise

namespace Libff

theorem isDigit_digitCode (d : Nat) (h : d < 10) : isDigit (digitCode d) = true ∧ (digitCode d).toNat - 48 = d := by
  have : (digitCode d).toNat = 48 + d := by
    rw [digitCode, BitVec.toNat_ofNat, Nat.mod_eq_of_lt (by omega)]
  rw [isDigit, this]
  simp; omega

theorem dropWhile_pre {pre : List Byte} (hp : ∀ c ∈ pre, isSpace c = true) (t : List Byte)
    (ht : ∀ c ∈ t.head?, isSpace c = false) : (pre ++ t).dropWhile isSpace = t := by
  rw [List.dropWhile_append_of_pos hp]
  cases t with
  | nil => rfl
  | cons c t => simp [ht c (by simp)]

theorem writeNat_head (v : Nat) (rest : List Byte) : ∀ c ∈ (writeNat v ++ rest).head?, isSpace c = false := by
  intro c hc
  have hne := writeNat_ne_nil v
  cases h : writeNat v with
  | nil => exact absurd h hne
  | cons x t =>
    rw [h] at hc
    simp only [List.cons_append, List.head?_cons, Option.mem_def, Option.some.injEq] at hc
    subst hc
    exact writeNat_not_space v x (by rw [h]; simp)

theorem readSize_write (v : Nat) (hv : v < 2 ^ 64) (pre rest : List Byte) (hp : ∀ c ∈ pre, isSpace c = true)
    (hr : ∀ c ∈ rest.head?, isDigit c = false) : readSize (pre ++ (writeNat v ++ rest)) = .ok (v, rest) := by
  unfold readSize
  simp only [dropWhile_pre hp _ (writeNat_head v rest)]
  have hd : ∀ c ∈ writeNat v, isDigit c = true := by
    intro c hc
    obtain ⟨d, hd, rfl⟩ := List.mem_map.1 hc
    exact (isDigit_digitCode d (decDigits_lt v d hd)).1
  have h1 : rest.takeWhile isDigit = [] := by
    cases rest with
    | nil => rfl
    | cons c r => simp [hr c (by simp)]
  have h2 : rest.dropWhile isDigit = rest := by
    cases rest with
    | nil => rfl
    | cons c r => simp [hr c (by simp)]
  rw [List.takeWhile_append_of_pos hd, List.dropWhile_append_of_pos hd, h1, h2, List.append_nil,
    if_neg (writeNat_ne_nil v)]
  have h3 : (writeNat v).map (fun c => c.toNat - 48) = decDigits v := by
    rw [writeNat, List.map_map]
    conv_rhs => rw [← List.map_id (decDigits v)]
    apply List.map_congr_left
    intro d hd
    exact (isDigit_digitCode d (decDigits_lt v d hd)).2
  rw [h3, setStrVal_decDigits, if_neg (by omega)]

theorem newline_not_digit (rest : List Byte) : ∀ c ∈ (newline ++ rest).head?, isDigit c = false := by
  intro c hc
  simp only [newline, List.cons_append, List.head?_cons, Option.mem_def, Option.some.injEq] at hc
  subst hc
  decide

theorem newline_tokenEnd (rest : List Byte) : TokenEnd (newline ++ rest) := by
  intro c hc
  simp only [newline, List.cons_append, List.head?_cons, Option.mem_def, Option.some.injEq] at hc
  subst hc
  decide

theorem consumeNewline_newline (rest : List Byte) : consumeNewline (newline ++ rest) = .ok rest := rfl

theorem newline_space : ∀ c ∈ newline, isSpace c = true := by decide

theorem bool_nat_lt (b : Bool) : (if b then 1 else 0 : Nat) < 2 ^ 64 := by split <;> norm_num

/-- Reading back a bool. -/
theorem inputBool_output (debug b : Bool) (pre rest : List Byte) (hp : ∀ c ∈ pre, isSpace c = true) :
    inputBool debug (pre ++ (outputBool b ++ rest)) = .ok (b, rest) := by
  rw [inputBool, outputBool, List.append_assoc, readSize_write _ (bool_nat_lt b) pre _ hp (newline_not_digit rest),
    Outcome.bind_ok, consumeNewline_newline, Outcome.bind_ok]
  cases b <;> simp

/-- Reading back a list whose elements are all read back. -/
theorem readList_write {α : Type} {write : α → Outcome (List Byte)} {read : Reader α} {nl : List Byte}
    {after : List Byte → Outcome (List Byte)} (v : List α)
    (hel : ∀ x ∈ v, ∃ out, write x = .ok out ∧ ∀ rest, ∃ s, read (out ++ (nl ++ rest)) = .ok (x, s) ∧ after s = .ok rest) :
    ∃ out, writeList write nl v = .ok out ∧ ∀ rest, readList read after v.length (out ++ rest) = .ok (v, rest) := by
  induction v with
  | nil => exact ⟨[], rfl, fun rest => rfl⟩
  | cons x v ih =>
    obtain ⟨a, h1, h2⟩ := hel x (by simp)
    obtain ⟨b, h3, h4⟩ := ih (fun y hy => hel y (by simp [hy]))
    refine ⟨a ++ (nl ++ b), by rw [writeList, h1, Outcome.bind_ok, h3, Outcome.map_ok], fun rest => ?_⟩
    obtain ⟨s, h5, h6⟩ := h2 (b ++ rest)
    rw [List.length_cons, readList, List.append_assoc, List.append_assoc, h5, Outcome.bind_ok, h6, Outcome.bind_ok, h4,
      Outcome.map_ok]

/-- Reading back a list when the separators are only skipped as white space by the next element. -/
theorem readList_skip {α : Type} {binary : Bool} {valid : α → Prop} {write : α → Outcome (List Byte)}
    {read : Reader α} (h : StreamLaw binary valid write read) (v : List α) (hv : ∀ x ∈ v, valid x) :
    ∃ out, writeList write (outputNewline binary) v = .ok out ∧ ∀ pre rest, (∀ c ∈ pre, isSpace c = true) →
      (binary = true → pre = []) →
      readList read .ok v.length (pre ++ (out ++ rest)) =
        .ok (v, (if v = [] then pre else outputNewline binary) ++ rest) := by
  induction v with
  | nil => exact ⟨[], rfl, fun pre rest _ _ => by simp [readList]⟩
  | cons x v ih =>
    obtain ⟨a, h1, h2⟩ := h x (hv x (by simp))
    obtain ⟨b, h3, h4⟩ := ih (fun y hy => hv y (by simp [hy]))
    refine ⟨a ++ (outputNewline binary ++ b), by rw [writeList, h1, Outcome.bind_ok, h3, Outcome.map_ok],
      fun pre rest hp hb => ?_⟩
    have hcont : ContOk binary (outputNewline binary ++ (b ++ rest)) := by
      cases binary with
      | true => exact Or.inl rfl
      | false => exact Or.inr (newline_tokenEnd _)
    rw [List.length_cons, readList, List.append_assoc, List.append_assoc, h2 pre _ hp hb hcont, Outcome.bind_ok,
      Outcome.bind_ok, h4 (outputNewline binary) rest (by cases binary <;> simp [outputNewline, isSpace])
        (by rintro rfl; rfl), Outcome.map_ok]
    congr 2
    cases v with
    | nil => simp
    | cons y v => simp

theorem mapAssign_append {κ β : Type} (lt : κ → κ → Bool) (k : κ) (v : β) (m : List (κ × β))
    (hm : ∀ e ∈ m, lt e.1 k = true ∧ lt k e.1 = false) : mapAssign lt k v m = m ++ [(k, v)] := by
  induction m with
  | nil => rfl
  | cons e m ih =>
    obtain ⟨h1, h2⟩ := hm e (by simp)
    rw [mapAssign, h2, h1, ih (fun e he => hm e (by simp [he]))]
    simp

theorem setInsert_append {κ : Type} (lt : κ → κ → Bool) (k : κ) (m : List κ)
    (hm : ∀ e ∈ m, lt e k = true ∧ lt k e = false) : setInsert lt k m = m ++ [k] := by
  induction m with
  | nil => rfl
  | cons e m ih =>
    obtain ⟨h1, h2⟩ := hm e (by simp)
    rw [setInsert, h2, h1, ih (fun e he => hm e (by simp [he]))]
    simp

theorem mapReadLoop_write {κ β : Type} {lt : κ → κ → Bool} {wk : κ → Outcome (List Byte)} {wv : β → Outcome (List Byte)}
    {rk : Reader κ} {rv : Reader β} (hlt : ∀ a b, lt a b = true → lt b a = false) (m : List (κ × β))
    (hk : ∀ e ∈ m, ∃ out, wk e.1 = .ok out ∧ ∀ rest, rk (out ++ (newline ++ rest)) = .ok (e.1, newline ++ rest))
    (hv : ∀ e ∈ m, ∃ out, wv e.2 = .ok out ∧ ∀ rest, rv (out ++ (newline ++ rest)) = .ok (e.2, newline ++ rest))
    (acc : List (κ × β)) (hs : (acc ++ m).Pairwise fun a b => lt a.1 b.1 = true) :
    ∃ out, writeList (fun e => (wk e.1).bind fun a => (wv e.2).map fun b => a ++ (newline ++ b)) newline m = .ok out ∧
      ∀ rest, mapReadLoop lt rk rv m.length acc (out ++ rest) = .ok (acc ++ m, rest) := by
  induction m generalizing acc with
  | nil => exact ⟨[], rfl, fun rest => by simp [mapReadLoop]⟩
  | cons e m ih =>
    obtain ⟨a, h1, h2⟩ := hk e (by simp)
    obtain ⟨b, h3, h4⟩ := hv e (by simp)
    obtain ⟨o, h5, h6⟩ := ih (fun e he => hk e (by simp [he])) (fun e he => hv e (by simp [he])) (acc ++ [e])
      (by rw [List.append_assoc]; exact hs)
    refine ⟨_, by rw [writeList, h1, Outcome.bind_ok, h3, Outcome.map_ok, Outcome.bind_ok, h5, Outcome.map_ok], fun rest => ?_⟩
    have hins : mapAssign lt e.1 e.2 acc = acc ++ [e] := mapAssign_append lt _ _ _ fun x hx =>
      have h := (List.pairwise_append.1 hs).2.2 x hx e (by simp)
      ⟨h, hlt _ _ h⟩
    simp only [List.append_assoc]
    rw [List.length_cons, mapReadLoop, h2, Outcome.bind_ok, consumeNewline_newline, Outcome.bind_ok, h4,
      Outcome.bind_ok, consumeNewline_newline, Outcome.bind_ok, hins, h6]
    simp

theorem setReadLoop_write {κ : Type} {lt : κ → κ → Bool} {w : κ → Outcome (List Byte)}
    {r : Reader κ} (hlt : ∀ a b, lt a b = true → lt b a = false) (m : List κ)
    (hk : ∀ e ∈ m, ∃ out, w e = .ok out ∧ ∀ rest, r (out ++ (newline ++ rest)) = .ok (e, newline ++ rest))
    (acc : List κ) (hs : (acc ++ m).Pairwise fun a b => lt a b = true) :
    ∃ out, writeList w newline m = .ok out ∧
      ∀ rest, setReadLoop lt r m.length acc (out ++ rest) = .ok (acc ++ m, rest) := by
  induction m generalizing acc with
  | nil => exact ⟨[], rfl, fun rest => by simp [setReadLoop]⟩
  | cons e m ih =>
    obtain ⟨a, h1, h2⟩ := hk e (by simp)
    obtain ⟨o, h5, h6⟩ := ih (fun e he => hk e (by simp [he])) (acc ++ [e]) (by rw [List.append_assoc]; exact hs)
    refine ⟨_, by rw [writeList, h1, Outcome.bind_ok, h5, Outcome.map_ok], fun rest => ?_⟩
    have hins : setInsert lt e acc = acc ++ [e] := setInsert_append lt _ _ fun x hx =>
      have h := (List.pairwise_append.1 hs).2.2 x hx e (by simp)
      ⟨h, hlt _ _ h⟩
    simp only [List.append_assoc]
    rw [List.length_cons, setReadLoop, h2, Outcome.bind_ok, consumeNewline_newline, Outcome.bind_ok, hins, h6]
    simp

/-- A size line. -/
theorem readSize_line (k : Nat) (hk : k < 2 ^ 64) (pre rest : List Byte) (hp : ∀ c ∈ pre, isSpace c = true) :
    readSize (pre ++ (writeNat k ++ (newline ++ rest))) = .ok (k, newline ++ rest) :=
  readSize_write k hk pre _ hp (newline_not_digit rest)

theorem StreamLaw.before_newline {α : Type} {binary : Bool} {valid : α → Prop} {write : α → Outcome (List Byte)}
    {read : Reader α} (h : StreamLaw binary valid write read) (x : α) (hx : valid x) :
    ∃ out, write x = .ok out ∧ ∀ rest, read (out ++ (newline ++ rest)) = .ok (x, newline ++ rest) := by
  obtain ⟨out, h1, h2⟩ := h x hx
  exact ⟨out, h1, fun rest => h2 [] _ (by simp) (by simp) (Or.inr (newline_tokenEnd rest))⟩

/-! ## Maps and sets stay sorted -/

theorem mapAssign_keys {κ β : Type} (lt : κ → κ → Bool) (k : κ) (v : β) (m : List (κ × β)) :
    ∀ e ∈ mapAssign lt k v m, e.1 = k ∨ ∃ e' ∈ m, e'.1 = e.1 := by
  induction m with
  | nil => simp [mapAssign]
  | cons a m ih =>
    rw [mapAssign]
    split
    · intro e he
      rcases List.mem_cons.1 he with rfl | he
      · exact Or.inl rfl
      · exact Or.inr ⟨e, he, rfl⟩
    · split
      · intro e he
        rcases List.mem_cons.1 he with rfl | he
        · exact Or.inr ⟨e, by simp, rfl⟩
        · rcases ih e he with h | ⟨e', h, h'⟩
          · exact Or.inl h
          · exact Or.inr ⟨e', by simp [h], h'⟩
      · intro e he
        rcases List.mem_cons.1 he with rfl | he
        · exact Or.inr ⟨a, by simp, rfl⟩
        · exact Or.inr ⟨e, by simp [he], rfl⟩

theorem mapAssign_sorted {κ β : Type} (lt : κ → κ → Bool) (htr : ∀ a b c, lt a b = true → lt b c = true → lt a c = true)
    (k : κ) (v : β) (m : List (κ × β)) (hm : m.Pairwise fun a b => lt a.1 b.1 = true) :
    (mapAssign lt k v m).Pairwise fun a b => lt a.1 b.1 = true := by
  induction m with
  | nil => simp [mapAssign]
  | cons a m ih =>
    obtain ⟨h1, h2⟩ := List.pairwise_cons.1 hm
    rw [mapAssign]
    split
    · rename_i hlt
      exact List.pairwise_cons.2 ⟨fun e he => by
        rcases List.mem_cons.1 he with rfl | he
        · exact hlt
        · exact htr _ _ _ hlt (h1 e he), hm⟩
    · split
      · rename_i hlt
        refine List.pairwise_cons.2 ⟨fun e he => ?_, ih h2⟩
        rcases mapAssign_keys lt k v m e he with h | ⟨e', h, h'⟩
        · rw [h]; exact hlt
        · rw [← h']; exact h1 e' h
      · exact List.pairwise_cons.2 ⟨fun e he => h1 e he, h2⟩

theorem setInsert_mem {κ : Type} (lt : κ → κ → Bool) (k : κ) (m : List κ) :
    ∀ e ∈ setInsert lt k m, e = k ∨ e ∈ m := by
  induction m with
  | nil => simp [setInsert]
  | cons a m ih =>
    rw [setInsert]
    split
    · intro e he; simpa using he
    · split
      · intro e he
        rcases List.mem_cons.1 he with rfl | he
        · exact Or.inr (by simp)
        · rcases ih e he with h | h
          · exact Or.inl h
          · exact Or.inr (by simp [h])
      · intro e he; exact Or.inr he

theorem setInsert_sorted {κ : Type} (lt : κ → κ → Bool) (htr : ∀ a b c, lt a b = true → lt b c = true → lt a c = true)
    (k : κ) (m : List κ) (hm : m.Pairwise fun a b => lt a b = true) :
    (setInsert lt k m).Pairwise fun a b => lt a b = true := by
  induction m with
  | nil => simp [setInsert]
  | cons a m ih =>
    obtain ⟨h1, h2⟩ := List.pairwise_cons.1 hm
    rw [setInsert]
    split
    · rename_i hlt
      exact List.pairwise_cons.2 ⟨fun e he => by
        rcases List.mem_cons.1 he with rfl | he
        · exact hlt
        · exact htr _ _ _ hlt (h1 e he), hm⟩
    · split
      · rename_i hlt
        refine List.pairwise_cons.2 ⟨fun e he => ?_, ih h2⟩
        rcases setInsert_mem lt k m e he with h | h
        · rw [h]; exact hlt
        · exact h1 e h
      · exact hm

/-! ## Towers -/

theorem sep_space (binary : Bool) : ∀ c ∈ outputSeparator binary, isSpace c = true := by
  cases binary <;> decide

theorem sep_cont (binary : Bool) (rest : List Byte) : ContOk binary (outputSeparator binary ++ rest) := by
  cases binary with
  | true => exact Or.inl rfl
  | false =>
    refine Or.inr fun c hc => ?_
    simp only [outputSeparator, Bool.false_eq_true, if_false, List.cons_append, List.head?_cons, Option.mem_def,
      Option.some.injEq] at hc
    subst hc
    decide

variable {α : Type} {c : FieldCodec α} {binary : Bool} {valid : α → Prop} {k : Nat}

theorem FieldCodec.Lawful.quad (h : c.Lawful binary valid k) (nr : α → α) :
    (quadCodec (nr := nr) binary c).Lawful binary (fun x => valid x.c0 ∧ valid x.c1) (2 * k) := by
  constructor
  · rintro ⟨x0, x1⟩ ⟨h0, h1⟩
    obtain ⟨a, ha, ha'⟩ := h.stream x0 h0
    obtain ⟨b, hb, hb'⟩ := h.stream x1 h1
    refine ⟨_, by simp only [quadCodec, ha, hb, Outcome.bind_ok, Outcome.map_ok]; rfl, fun pre rest hp hbin hr => ?_⟩
    simp only [quadCodec, List.append_assoc]
    rw [ha' pre _ hp hbin (sep_cont binary _), Outcome.bind_ok,
      hb' _ _ (sep_space binary) (by rintro rfl; rfl) hr, Outcome.map_ok]
  · rintro ⟨x0, x1⟩ ⟨o0, o1⟩ ⟨h0, h1⟩
    obtain ⟨a, ha, hla, ha'⟩ := h.words x0 o0 h0
    obtain ⟨b, hb, hlb, hb'⟩ := h.words x1 o1 h1
    refine ⟨_, by simp only [quadCodec, ha, hb, Outcome.bind_ok, Outcome.map_ok]; rfl,
      by rw [List.length_append]; omega, ?_⟩
    have hm : (a ++ b).length / 2 = a.length := by rw [List.length_append]; omega
    simp only [quadCodec, quadFromWords, hm, List.take_left, List.drop_left, ha', hb', Outcome.bind_ok,
      Outcome.map_ok, if_true]

theorem FieldCodec.Lawful.cubic (h : c.Lawful binary valid k) (nr : α → α) :
    (cubicCodec (nr := nr) binary c).Lawful binary (fun x => valid x.c0 ∧ valid x.c1 ∧ valid x.c2) (3 * k) := by
  constructor
  · rintro ⟨x0, x1, x2⟩ ⟨h0, h1, h2⟩
    obtain ⟨a, ha, ha'⟩ := h.stream x0 h0
    obtain ⟨b, hb, hb'⟩ := h.stream x1 h1
    obtain ⟨d, hd, hd'⟩ := h.stream x2 h2
    refine ⟨_, by simp only [cubicCodec, ha, hb, hd, Outcome.bind_ok, Outcome.map_ok]; rfl, fun pre rest hp hbin hr => ?_⟩
    simp only [cubicCodec, List.append_assoc]
    rw [ha' pre _ hp hbin (sep_cont binary _), Outcome.bind_ok,
      hb' _ _ (sep_space binary) (by rintro rfl; rfl) (sep_cont binary _), Outcome.bind_ok,
      hd' _ _ (sep_space binary) (by rintro rfl; rfl) hr, Outcome.map_ok]
  · rintro ⟨x0, x1, x2⟩ ⟨o0, o1, o2⟩ ⟨h0, h1, h2⟩
    obtain ⟨a, ha, hla, ha'⟩ := h.words x0 o0 h0
    obtain ⟨b, hb, hlb, hb'⟩ := h.words x1 o1 h1
    obtain ⟨d, hd, hld, hd'⟩ := h.words x2 o2 h2
    refine ⟨_, by simp only [cubicCodec, ha, hb, hd, Outcome.bind_ok, Outcome.map_ok]; rfl,
      by simp only [List.length_append]; omega, ?_⟩
    have hl : (a ++ (b ++ d)).length = 3 * k := by simp only [List.length_append]; omega
    have e1 : (a ++ (b ++ d)).length / 3 = a.length := by omega
    have e2 : 2 * (a ++ (b ++ d)).length / 3 = a.length + b.length := by omega
    have t1 : ((a ++ (b ++ d)).take (a.length + b.length)).drop a.length = b := by
      rw [← List.append_assoc, List.take_left' (by simp), List.drop_left]
    have t2 : (a ++ (b ++ d)).drop (a.length + b.length) = d := by
      rw [← List.append_assoc, List.drop_left' (by simp)]
    simp only [cubicCodec, cubicFromWords, e1, e2, t1, t2, List.take_left, ha', hb', hd', Outcome.bind_ok,
      Outcome.map_ok, if_true]

end Libff
