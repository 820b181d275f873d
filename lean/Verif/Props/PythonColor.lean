import Verif.Model.PythonColor
import Verif.Props.ColorEq

/-!
# C82: colour objects in Python, continued
-/

namespace D10
open Spec Python
open Scalar (lit)

variable {F : Type} [Scalar F]

/-- C82: `==` of two objects of one class compares the colours as the library does; objects of different
classes are never equal. -/
theorem C82_equal (same : Bool) (s : Space) (a b : Col F) :
    Python.compare same (s, a) (s, b) .Eq = some (a.eq b) ∧
    ∀ t, t ≠ s → Python.compare false (s, a) (t, b) .Eq = some false := by
  refine ⟨by simp [Python.compare, richcmp], fun t h => ?_⟩
  simp [Python.compare, richcmp, h, Ne.symm h]

/-- C82: `!=` does not compare the colours: it tells whether the operands are different objects. So two
objects that hold the same colour are both equal and unequal, whatever the colour. -/
theorem C82_not_equal (same : Bool) (s : Space) (a b : Col F) :
    Python.compare same (s, a) (s, b) .Ne = some (!same) := by
  simp [Python.compare, richcmp, CompareOp.swap]

/-- C82: colours have no order: `<`, `<=`, `>` and `>=` raise a `TypeError`. -/
theorem C82_no_order (same : Bool) (a b : Space × Col F) (op : CompareOp) (h : op ≠ .Eq) (h' : op ≠ .Ne) :
    Python.compare same a b op = none := by
  cases op <;> simp_all [Python.compare, richcmp, CompareOp.swap]

/-- C82: `map_color_channels` calls a Python function for the three colour channels in order, keeps the
alpha value and makes a colour of the same class; the first exception is raised. -/
theorem C82_map_channels {E : Type} (s : Space) (c : Col F) (f : F → Except E F) :
    (∀ x y z, f c.c0 = .ok x → f c.c1 = .ok y → f c.c2 = .ok z →
      color_map_channels s c f = .ok (new_with_alpha s x y z c.alpha)) ∧
    (∀ e, f c.c0 = .error e → color_map_channels s c f = .error e) ∧
    (∀ x e, f c.c0 = .ok x → f c.c1 = .error e → color_map_channels s c f = .error e) ∧
    (∀ x y e, f c.c0 = .ok x → f c.c1 = .ok y → f c.c2 = .error e →
      color_map_channels s c f = .error e) := by
  refine ⟨fun x y z h1 h2 h3 => ?_, fun e h1 => ?_, fun x e h1 h2 => ?_, fun x y e h1 h2 h3 => ?_⟩ <;>
    simp only [color_map_channels, try_map_color_channels, bind, Except.bind, pure, Except.pure, *]

/-- C82: the text of a colour object is that of the library's colour (C33). -/
theorem C82_text (toStr : F → String) (s : Space) (c : Col F) :
    color_str toStr s c = format_color toStr s c ∧ color_repr toStr s c = color_str toStr s c := ⟨rfl, rfl⟩

/-- C82: in binary32, two objects with the same colour are both `==` and `!=`. -/
theorem C82_equal_and_not_equal [Libm b32] (s : Space) (c : Col F32) :
    Python.compare false (s, c) (s, c) .Eq = some true ∧ Python.compare false (s, c) (s, c) .Ne = some true :=
  ⟨by rw [(C82_equal false s c c).1, (C32_refl_symm c c).1], C82_not_equal false s c c⟩

example (c : Col F) := (C82_map_channels .hsl c (fun v => if v <. lit 0 then .error "negative" else .ok v)).1

end D10
