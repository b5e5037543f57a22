import Verif.Model.Stream

/-!
# `reserialize`

(libff/common/serialization.tcc)
-/
namespace Libff

/-- `reserialize`, serialization.tcc:89-97: `write` is `ss << obj`, `read` is `ss >> tmp` on all that was written. What is left in the stream
goes away with it. A read that puts the stream in its fail state is `abort` here as in `Verif/Model/Stream.lean` (the code then
returns whatever is in `tmp`). -/
def reserialize {α : Type} (write : α → Outcome (List Byte)) (read : Reader α) (obj : α) : Outcome α :=
  (write obj).bind fun ss => (read ss).map fun r => r.1

end Libff
