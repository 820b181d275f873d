import Verif.Spec
import Verif.Model.Rest

/-! # Specification of editing through references (C111) -/

namespace D10.Spec
variable {T : Type}

/-- The picture after some pixels were written, one after the other: each shows what was last written
to it. -/
def written (px : Nat → Nat → T) (writes : List (Nat × Nat × T)) (x y : Nat) : T :=
  match writes.reverse.find? fun w => w.1 = x ∧ w.2.1 = y with
  | some w => w.2.2
  | none => px x y

end D10.Spec
