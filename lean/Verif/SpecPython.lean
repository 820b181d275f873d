import Verif.Spec
import Verif.Model.Python

/-!
# Specification of the Python binding

A colour image as an array: `a[y, x, k]` is value `k` of the pixel in column `x` and row `y`.
-/

namespace D10.Spec
open Python

variable {F D : Type} [Scalar F] [Scalar D] [Widen F D]

/-- The elements `e y x k` of an array of shape `(h, w, n)`, in row-major order. -/
def cube {α : Type} (h w n : Nat) (e : Nat → Nat → Nat → α) : List α :=
  (List.range h).flatMap fun y => (List.range w).flatMap fun x => (List.range n).map fun k => e y x k

/-- The values of a colour in order: three channels, then alpha. -/
def value (c : Col F) : Nat → F
  | 0 => c.c0
  | 1 => c.c1
  | 2 => c.c2
  | _ => c.alpha

/-- An image exported with element type `t`: floats as they are, integers scaled so that 1 is the
largest, booleans for "at least one half". -/
def exported (h w n : Nat) (e : Nat → Nat → Nat → F) : DataType → NpArray F D
  | .Float32 => ⟨[h, w, n], .Float32 (cube h w n e)⟩
  | .Float64 => ⟨[h, w, n], .Float64 (cube h w n fun y x k => Widen.up (e y x k))⟩
  | .Uint8 => ⟨[h, w, n], .Uint8 (cube h w n fun y x k => Scalar.asU8 (e y x k *. lit 255))⟩
  | .Uint16 => ⟨[h, w, n], .Uint16 (cube h w n fun y x k => Scalar.asU16 (e y x k *. lit 65535))⟩
  | .Uint32 => ⟨[h, w, n], .Uint32 (cube h w n fun y x k => Scalar.asU32 (e y x k *. lit 4294967295))⟩
  | .Bool => ⟨[h, w, n], .Bool (cube h w n fun y x k => lit (1 / 2) <=. e y x k)⟩

/-- The numbers that elements stand for when an array is imported: integers are divided by the
largest one. `true` stands for 0 and `false` for 1. -/
inductive ElementValues : NpData F D → List F → Prop
  | float32 (l) : ElementValues (.Float32 l) l
  | float64 (l : List D) : ElementValues (.Float64 l) (l.map Widen.down)
  | uint8 (l : List Nat) : ElementValues (.Uint8 l) (l.map fun n : Nat => lit (n : ℚ) /. lit 255)
  | uint16 (l : List Nat) : ElementValues (.Uint16 l) (l.map fun n : Nat => lit (n : ℚ) /. lit 65535)
  | uint32 (l : List Nat) : ElementValues (.Uint32 l) (l.map fun n : Nat => lit (n : ℚ) /. lit 4294967295)
  | bool (l : List Bool) : ElementValues (.Bool l) (l.map fun b => if b then lit 0 else lit 1)

/-- The eight colour models by name; Lab and LCh are for the illuminant D65 and the 2° observer. -/
def colourModels : List (String × Space) :=
  [("rgb", .rgb), ("srgb", .srgb), ("hsl", .hsl), ("hsv", .hsv), ("yuv", .yuv), ("xyz", .xyz),
   ("lab", .lab .D65 .O2), ("lch", .lch .D65 .O2)]

/-- The names of element types, as strings. -/
def typeNames : List (String × DataType) :=
  [("float32", .Float32), ("float64", .Float64), ("uint8", .Uint8), ("uint16", .Uint16),
   ("uint32", .Uint32), ("bool", .Bool)]

/-- The texts of the type objects that are understood. -/
def typeObjects : List (String × DataType) :=
  [("<class 'numpy.float32'>", .Float32), ("<class 'numpy.float64'>", .Float64),
   ("<class 'numpy.uint8'>", .Uint8), ("<class 'numpy.uint16'>", .Uint16),
   ("<class 'numpy.uint32'>", .Uint32), ("<class 'numpy.bool'>", .Bool),
   ("<class 'numpy.bool_'>", .Bool), ("<class 'bool'>", .Bool)]

/-- A call that raises `PyOSError(message)`. -/
def raises {α : Type} (x : Py α) (message : String) : Prop := x = .ok (.error message)

/-- A call that returns `a`. -/
def returns {α : Type} (x : Py α) (a : α) : Prop := x = .ok (.ok a)

/-- A call that does what a method of the library does: the same result, or the same panic. -/
def Forwards {α : Type} (call : Py α) (method : R α) : Prop :=
  (∀ a, method = .ok a → returns call a) ∧ (∀ p, method = .error p → call = .error p)

/-- A call with an optional name of an option: left out, it means the default; a name of the table
means its variant; any other name raises an exception that holds the type of the option and the
name. -/
structure Selects {α β : Type} (call : Option String → Py β) (table : List (String × α)) (type : String)
    (default : α) (method : α → R β) : Prop where
  omitted : Forwards (call none) (method default)
  named : ∀ p ∈ table, Forwards (call (some p.1)) (method p.2)
  unknown : ∀ name, name ∉ table.map (·.1) →
    raises (call (some name)) ("Unknown value for " ++ type ++ ": " ++ name)

/-- The white points by name. -/
def references : List (String × String × Illuminant × Observer) :=
  [("D65", "2", .D65, .O2), ("D65", "10", .D65, .O10), ("D50", "2", .D50, .O2),
   ("D50", "10", .D50, .O10), ("E", "2", .E, .O2), ("E", "10", .E, .O10)]

/-- A call that makes an object of the Lab or LCh class for a white point, given by two optional
names (`D65` and `2` if left out): it returns `make` of the white point, or raises if there is no
such white point. -/
structure ByReference {β : Type} (call : Option String → Option String → Py β) (kind : String)
    (make : Illuminant → Observer → β) : Prop where
  known : ∀ i o ill obs, (i.getD "D65", o.getD "2", ill, obs) ∈ references →
    returns (call i o) (make ill obs)
  unknown : ∀ i o, (∀ r ∈ references, ¬ (r.1 = i.getD "D65" ∧ r.2.1 = o.getD "2")) →
    raises (call i o) ("Unsupported " ++ kind ++ " type: " ++ i.getD "D65" ++ " " ++ o.getD "2")

end D10.Spec
