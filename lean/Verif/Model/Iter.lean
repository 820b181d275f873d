import Verif.Model.Color

/-!
# Colour iterators (d10-core/src/color/iter.rs)

An iterator is a state together with `next`, which also gives the following state, and `size_hint`
(a lower and an optional upper bound on the number of items left). An adapter has the state of the
iterator it wraps. The blanket implementations (iter.rs L257 and L349-352) make the adapters
available on every iterator over colours and over references to colours.
-/

namespace D10

variable {F : Type} [Scalar F]

/-- `Iterator<Item = α>` with states `σ`. -/
structure Iter (σ α : Type) where
  next : σ → Option α × σ
  size_hint : σ → Nat × Option Nat

/-- `Iterator::cloned` (core library): the items themselves instead of references to them. A reference
to a colour is represented by the colour, so nothing changes. -/
def Iter.cloned {σ α : Type} (it : Iter σ α) : Iter σ α := it

/-- iter.rs L9-27 `ToRgbIter`; `s` is the colour type of the items. -/
def ToRgbIter {σ : Type} (s : Space) (iter : Iter σ (Col F)) : Iter σ (Col F) where
  next st := let (o, st) := iter.next st; (o.map (to_rgb s), st)
  size_hint st := iter.size_hint st

/-- iter.rs L29-47 `ToSrgbIter` -/
def ToSrgbIter {σ : Type} (s : Space) (iter : Iter σ (Col F)) : Iter σ (Col F) where
  next st := let (o, st) := iter.next st; (o.map (to_srgb s), st)
  size_hint st := iter.size_hint st

/-- iter.rs L49-67 `ToHslIter` -/
def ToHslIter {σ : Type} (s : Space) (iter : Iter σ (Col F)) : Iter σ (Col F) where
  next st := let (o, st) := iter.next st; (o.map (to_hsl s), st)
  size_hint st := iter.size_hint st

/-- iter.rs L69-87 `ToHsvIter` -/
def ToHsvIter {σ : Type} (s : Space) (iter : Iter σ (Col F)) : Iter σ (Col F) where
  next st := let (o, st) := iter.next st; (o.map (to_hsv s), st)
  size_hint st := iter.size_hint st

/-- iter.rs L89-107 `ToYuvIter` -/
def ToYuvIter {σ : Type} (s : Space) (iter : Iter σ (Col F)) : Iter σ (Col F) where
  next st := let (o, st) := iter.next st; (o.map (to_yuv s), st)
  size_hint st := iter.size_hint st

/-- iter.rs L109-127 `ToXyzIter` -/
def ToXyzIter {σ : Type} (s : Space) (iter : Iter σ (Col F)) : Iter σ (Col F) where
  next st := let (o, st) := iter.next st; (o.map (to_xyz s), st)
  size_hint st := iter.size_hint st

/-- iter.rs L129-149 `ToLabIter` -/
def ToLabIter {σ : Type} (i : Illuminant) (o : Observer) (s : Space) (iter : Iter σ (Col F)) :
    Iter σ (Col F) where
  next st := let (c, st) := iter.next st; (c.map (to_lab i o s), st)
  size_hint st := iter.size_hint st

/-- iter.rs L151-171 `ToLchIter` -/
def ToLchIter {σ : Type} (i : Illuminant) (o : Observer) (s : Space) (iter : Iter σ (Col F)) :
    Iter σ (Col F) where
  next st := let (c, st) := iter.next st; (c.map (to_lch i o s), st)
  size_hint st := iter.size_hint st

/-! ## `ColorIter`: the adapters of iterators over colours -/

/-- iter.rs L174-182 -/
def ColorIter.into_rgb {σ : Type} (s : Space) (iter : Iter σ (Col F)) : Iter σ (Col F) :=
  ToRgbIter s iter

/-- iter.rs L184-192 -/
def ColorIter.into_srgb {σ : Type} (s : Space) (iter : Iter σ (Col F)) : Iter σ (Col F) :=
  ToSrgbIter s iter

/-- iter.rs L194-202 -/
def ColorIter.into_hsl {σ : Type} (s : Space) (iter : Iter σ (Col F)) : Iter σ (Col F) :=
  ToHslIter s iter

/-- iter.rs L204-212 -/
def ColorIter.into_hsv {σ : Type} (s : Space) (iter : Iter σ (Col F)) : Iter σ (Col F) :=
  ToHsvIter s iter

/-- iter.rs L214-222 -/
def ColorIter.into_yuv {σ : Type} (s : Space) (iter : Iter σ (Col F)) : Iter σ (Col F) :=
  ToYuvIter s iter

/-- iter.rs L224-232 -/
def ColorIter.into_xyz {σ : Type} (s : Space) (iter : Iter σ (Col F)) : Iter σ (Col F) :=
  ToXyzIter s iter

/-- iter.rs L234-244 -/
def ColorIter.into_lab {σ : Type} (i : Illuminant) (o : Observer) (s : Space) (iter : Iter σ (Col F)) :
    Iter σ (Col F) := ToLabIter i o s iter

/-- iter.rs L246-256 -/
def ColorIter.into_lch {σ : Type} (i : Illuminant) (o : Observer) (s : Space) (iter : Iter σ (Col F)) :
    Iter σ (Col F) := ToLchIter i o s iter

/-! ## `ColorIterRef`: the adapters of iterators over references -/

/-- iter.rs L262-270 -/
def ColorIterRef.into_rgb {σ : Type} (s : Space) (iter : Iter σ (Col F)) : Iter σ (Col F) :=
  ToRgbIter s iter.cloned

/-- iter.rs L272-280 -/
def ColorIterRef.into_srgb {σ : Type} (s : Space) (iter : Iter σ (Col F)) : Iter σ (Col F) :=
  ToSrgbIter s iter.cloned

/-- iter.rs L282-290 -/
def ColorIterRef.into_hsl {σ : Type} (s : Space) (iter : Iter σ (Col F)) : Iter σ (Col F) :=
  ToHslIter s iter.cloned

/-- iter.rs L292-300 -/
def ColorIterRef.into_hsv {σ : Type} (s : Space) (iter : Iter σ (Col F)) : Iter σ (Col F) :=
  ToHsvIter s iter.cloned

/-- iter.rs L302-310 -/
def ColorIterRef.into_yuv {σ : Type} (s : Space) (iter : Iter σ (Col F)) : Iter σ (Col F) :=
  ToYuvIter s iter.cloned

/-- iter.rs L312-320 -/
def ColorIterRef.into_xyz {σ : Type} (s : Space) (iter : Iter σ (Col F)) : Iter σ (Col F) :=
  ToXyzIter s iter.cloned

/-- iter.rs L322-332 -/
def ColorIterRef.into_lab {σ : Type} (i : Illuminant) (o : Observer) (s : Space) (iter : Iter σ (Col F)) :
    Iter σ (Col F) := ToLabIter i o s iter.cloned

/-- iter.rs L334-344 -/
def ColorIterRef.into_lch {σ : Type} (i : Illuminant) (o : Observer) (s : Space) (iter : Iter σ (Col F)) :
    Iter σ (Col F) := ToLchIter i o s iter.cloned

end D10
