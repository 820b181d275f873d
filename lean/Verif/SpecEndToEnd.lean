import Verif.SpecCli
import Verif.SpecFiles

/-!
# Specification of a whole run of the command line (C94)

Options that change colours, in the grammar of `SpecCli`, and what they do together.
-/

namespace D10.Spec

variable {F : Type} [Scalar F]

/-- `words` are options that change colours; together they stand for the commands and do `f` to every
colour: what the first option does comes first. -/
inductive ColourOptions (number : String → Option F) :
    (words : List String) → (cmds : List (Cmd F String)) → (f : Col F → Col F) → Prop
  | nil : ColourOptions number [] [] fun c => c
  | cons (words cmd f rest cmds g) : OptionMeans id number words cmd → Recolours cmd f →
      ColourOptions number rest cmds g →
      ColourOptions number (words ++ rest) (cmd :: cmds) fun c => g (f c)

end D10.Spec
