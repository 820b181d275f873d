import Verif.SpecObjects
import Verif.SpecRange

/-!
# Specification of the images of Python programs

`CarefulAct` says which steps a careful Python program takes (C120): its own colours are in range, it
imports arrays as RGB, sRGB or grey values, and it does not blur, use a Lanczos filter, detect edges with the
Laplace method or balance in RGB or HSV.
-/

namespace D10.Spec
open D10.Python
variable {F D G E K : Type} [Scalar F] [Scalar D] [Widen F D]

/-- The names under which an array holds red, green and blue (linear or not), or grey values. -/
def PlainColours (name : Option String) : Prop :=
  name = none ∨ name = some "auto" ∨ name = some "rgb" ∨ name = some "rgba" ∨ name = some "gray" ∨
    name = some "srgb" ∨ name = some "srgba"

/-- The steps of a careful program. -/
def CarefulAct : Act F D G E K → Prop
  | .ret (.ok (.colour c)) => PixelInRange c
  | .create (.new _ _ (some c)) _ => PixelInRange c
  | .create (.from_list _ _ l) _ => ∀ c ∈ l, PixelInRange c
  | .create (.from_np_array _ name) _ => PlainColours name
  | .read _ (.rotate _ filter) _ => filter ≠ some "lanczos3" ∧ filter ≠ some "Lanczos"
  | .read _ (.resize _ _ filter) _ | .read _ (.resize_pct _ filter) _ =>
    filter = none ∨ filter = some "nearest" ∨ filter = some "bilinear" ∨ filter = some "bicubic"
  | .read _ (.edge_detection mode) _ => mode = none ∨ mode = some "sobel"
  | .read _ (.gaussian_blur _ _) _ => False
  | .read _ (.white_balance _) _ => False
  | .read _ (.balance mode _) _ => mode ≠ none ∧ mode ≠ some "rgb" ∧ mode ≠ some "hsv"
  | .write _ (.put_pixel _ _ c) _ | .write _ (.setitem _ c) _ => PixelInRange c
  | _ => True

/-- The method returns the image that `x` computes as a new object, and panics if `x` does. -/
def MakesImage (m : Py (Out F D)) (x : R (Image F)) : Prop :=
  (∀ img, x = .ok img → m.run = .ok (.ok (.image img))) ∧ ∀ p, x = .error p → m.run = .error p

/-- The same for an `x` that may also raise. -/
def MakesImageOrRaises (m : Py (Out F D)) (x : Py (Image F)) : Prop :=
  (∀ img, x.run = .ok (.ok img) → m.run = .ok (.ok (.image img))) ∧
  (∀ e, x.run = .ok (.error e) → m.run = .ok (.error e)) ∧ ∀ p, x.run = .error p → m.run = .error p

/-- The method returns `v`. -/
def Tells (m : Py (Out F D)) (v : Value F D) : Prop := m.run = .ok (.ok (.value v))

/-- The image of the object is the one `x` computes afterwards; it stays as it was if `x` panics. -/
def Becomes (m : Py (Image F)) (x : R (Image F)) : Prop :=
  (∀ img, x = .ok img → m.run = .ok (.ok img)) ∧ ∀ p, x = .error p → m.run = .error p

/-- The result of a method that uses a generator of random numbers, without the generator. -/
def withoutRng {σ α : Type} : R (α × σ) → R α
  | .ok p => .ok p.1
  | .error p => .error p

end D10.Spec
