import Verif.Model.Python

/-!
# Colour objects in Python

d10-python/src/color.rs, the rest of the macro `color_type!`. An object is its class (the colour type)
and its value. The getters, setters, `with_` methods and conversions call the methods of the same name
of the library (color.rs L43-124); they are the definitions of `Model/Channels.lean` and
`Model/Color.lean`.
-/

namespace D10.Python

variable {F : Type} [Scalar F]

/-- The operators of Python's rich comparison. -/
inductive CompareOp | Lt | Le | Eq | Ne | Gt | Ge
deriving DecidableEq

/-- color.rs L185-190 `__richcmp__`. `none` is `NotImplemented`. An argument of another class is not
extracted as `PyRef<Self>`; then the generated wrapper returns `NotImplemented`. -/
def richcmp (a b : Space × Col F) (op : CompareOp) : Option Bool :=
  if a.1 = b.1 then
    match op with
    | .Eq => some (a.2.eq b.2)
    | _ => none
  else none

/-- The operator with the operands exchanged. -/
def CompareOp.swap : CompareOp → CompareOp
  | .Lt => .Gt
  | .Le => .Ge
  | .Eq => .Eq
  | .Ne => .Ne
  | .Gt => .Lt
  | .Ge => .Le

/-- What Python makes of it (the data model, "rich comparison"): the method of the left operand, then
that of the right one, then object identity for `==` and `!=`; `none` is a `TypeError`. `same` tells
whether both operands are the same object. -/
def compare (same : Bool) (a b : Space × Col F) (op : CompareOp) : Option Bool :=
  match richcmp a b op with
  | some r => some r
  | none =>
    match richcmp b a op.swap with
    | some r => some r
    | none =>
      match op with
      | .Eq => some same
      | .Ne => some (!same)
      | _ => none

/-- color.rs L164-170 `map_color_channels`; `E` are the exceptions the Python function raises (also
for a result that is no number). -/
def color_map_channels {E : Type} (s : Space) (c : Col F) (func : F → Except E F) : Except E (Col F) :=
  try_map_color_channels s c func

/-- color.rs L177-179 `__str__`. -/
def color_str (toStr : F → String) (s : Space) (c : Col F) : String := format_color toStr s c

/-- color.rs L181-183 `__repr__`. -/
def color_repr (toStr : F → String) (s : Space) (c : Col F) : String := format_color toStr s c

end D10.Python
