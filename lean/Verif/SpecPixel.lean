import Verif.Spec
import Verif.Model.Ops

/-!
# Independent specification of palette, despeckle, smoothing and noise

What the operations of `Model/Ops.lean` should compute for one pixel, written without reference to
their code. `F` is the number type.
-/

namespace D10.Spec

variable {F : Type} [Scalar F]

/-! ## Palette -/

/-- Euclidean distance of two colours, without alpha. -/
def distance (c d : Col F) : F :=
  Scalar.sqrt ((c.c0 -. d.c0) *. (c.c0 -. d.c0) +. (c.c1 -. d.c1) *. (c.c1 -. d.c1) +.
    (c.c2 -. d.c2) *. (c.c2 -. d.c2))

/-- The greatest finite `f32`: (2 - 2^-23) · 2^127. -/
def greatest : ℚ := (2 - 1 / 2 ^ 23) * 2 ^ 127

/-- `k` is the first position at which the list holds its least number, that number being below the
greatest finite float; entries that are not numbers are skipped. -/
def FirstLeast (d : List F) (k : Nat) : Prop :=
  ∃ v, d[k]? = some v ∧ (v <. lit greatest) = true ∧
    (∀ (j : Nat) u, d[j]? = some u → (u <. v) = false) ∧
    (∀ (j : Nat) u, j < k → d[j]? = some u → Scalar.isNan u = true ∨ (v <. u) = true)

/-! ## Despeckle -/

/-- The mean of the three colour channels. -/
def gray (c : Col F) : F := (c.c0 +. c.c1 +. c.c2) /. lit 3

/-- A pixel is dark if its gray value is below the threshold, bright if it is not below (NaN is
neither). -/
def dark (t : F) (c : Col F) : Bool := gray c <. t
def bright (t : F) (c : Col F) : Bool := t <=. gray c

/-- The numbers added up in order, starting with 0. -/
def addUp (l : List F) : F := l.foldl (· +. ·) (lit 0)

/-- The despeckled pixel in column `x`, row `y`. -/
def despeckled (w h : Nat) (px : Nat → Nat → Col F) (t : F) (amount x y : Nat) : Col F :=
  let around := (window w h px 3 x y).flatten
  let darks := around.countP (dark t)
  let brights := around.filter (bright t)
  if dark t (px x y) ∧ darks ≤ amount then
    let mean := fun ch => addUp (brights.map ch) /. lit ((9 - darks : Nat) : ℚ)
    Rgb.new_with_alpha (mean Col.c0) (mean Col.c1) (mean Col.c2) (px x y).alpha
  else px x y

/-! ## Symmetric nearest neighbour -/

/-- Of two pixels the one nearer to `center`, the second if there is no difference. -/
def nearer (center a b : Col F) : Col F :=
  if distance a center <. distance b center then a else b

/-- The pixels that are averaged: for the distances 1, 2, ..., radius and the four axes (two
diagonals, vertical, horizontal), the nearer of the two pixels that lie opposite to each other. -/
def picked (w h : Nat) (px : Nat → Nat → Col F) (radius x y : Nat) : List (Col F) :=
  (List.range radius).flatMap fun i =>
    ([(-1, -1), (0, -1), (1, -1), (-1, 0)] : List (Int × Int)).map fun (dx, dy) =>
      nearer (px x y)
        (px (nearest w (x + dx * (i + 1))) (nearest h (y + dy * (i + 1))))
        (px (nearest w (x - dx * (i + 1))) (nearest h (y - dy * (i + 1))))

/-- The mean of the pixels picked and, if asked for, the pixel itself. -/
def smoothed (w h : Nat) (px : Nat → Nat → Col F) (radius : Nat) (with_center : Bool) (x y : Nat) :
    Col F :=
  let l := if with_center then px x y :: picked w h px radius x y else picked w h px radius x y
  let n : F := if with_center then lit ((4 * radius : Nat) : ℚ) +. lit 1
    else lit ((4 * radius : Nat) : ℚ)
  let mean := fun ch => addUp (l.map ch) /. n
  Rgb.new_with_alpha (mean Col.c0) (mean Col.c1) (mean Col.c2) (mean Col.alpha)

/-! ## Noise -/

/-- Salt and pepper: one draw `v` from [0, 1]; black below the threshold, white above one minus the
threshold, otherwise unchanged. -/
def saltPepper {σ : Type} (g : Rng σ F) (t : F) (s : σ) (c : Col F) : Col F × σ :=
  let v := (g.unit s).1
  (if v <. t then ⟨lit 0, lit 0, lit 0, lit 1⟩
   else if lit 1 -. t <. v then ⟨lit 1, lit 1, lit 1, lit 1⟩ else c, (g.unit s).2)

/-- RGB noise: one draw `v` from [0, 1]; below the threshold a second draw selects the channel that
is set to 1. -/
def rgbSpeck {σ : Type} (g : Rng σ F) (t : F) (s : σ) (c : Col F) : Col F × σ :=
  let v := (g.unit s).1
  let s := (g.unit s).2
  if v <. t then
    (if (g.three s).1 = 0 then { c with c0 := lit 1 }
     else if (g.three s).1 = 1 then { c with c1 := lit 1 } else { c with c2 := lit 1 },
     (g.three s).2)
  else (c, s)

/-- Additive noise: every channel `v` becomes `noise·alpha + (1 - alpha)·v` with its own draw. -/
def noisy {σ : Type} (draw : σ → F × σ) (space : Space) (alpha : F) (s : σ) (c : Col F) :
    Col F × σ :=
  let d0 := draw s
  let d1 := draw d0.2
  let d2 := draw d1.2
  let mixed := fun noise v => noise *. alpha +. (lit 1 -. alpha) *. v
  (new_with_alpha space (mixed d0.1 c.c0) (mixed d1.1 c.c1) (mixed d2.1 c.c2) c.alpha, d2.2)

end D10.Spec
