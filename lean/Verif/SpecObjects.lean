import Verif.Model.Objects
import Verif.Spec

/-!
# Specification of objects, callbacks and threads

The words property C119 uses for Python programs: what a program can reach, which object holds which
image, and how long a call is in progress.
-/

namespace D10.Spec
open D10.Python

section
variable {F D G E K : Type} [Scalar F] [Scalar D] [Widen F D] [FloatBytes F]
variable (libs : Libs F) (g : Rng G F) (act : K → Act F D G E K)

/-- Any number of steps, each by any thread. -/
inductive Reaches (s : Python.State F D E K) : Python.State F D E K → Prop
  | here : Reaches s s
  | step {s' : Python.State F D E K} (h : Reaches s s') (t : Nat) : Reaches s (s'.step libs g act t)

/-- The states of the program that begins at `main`, with no objects and one thread. -/
def Arises (main : K) (s : Python.State F D E K) : Prop := Reaches libs g act ⟨[], [⟨main, []⟩]⟩ s

/-- The object `r` holds the image `img`. -/
def Holds (s : Python.State F D E K) (r : Ref) (img : Image F) : Prop :=
  ∃ c, s.heap[r]? = some c ∧ c.image = img

/-- In thread `t` more than `d` calls wait for Python functions. -/
def Deeper (s : Python.State F D E K) (t d : Nat) : Prop :=
  ∃ th, s.threads[t]? = some th ∧ d < th.stack.length

/-- Any number of steps by any threads, during which more than `d` calls of thread `t` wait all the
time: a call that began when there were `d` of them has not ended. -/
inductive During (t d : Nat) (s : Python.State F D E K) : Python.State F D E K → Prop
  | here (h : Deeper s t d) : During t d s s
  | step {s' : Python.State F D E K} (h : During t d s s') (u : Nat) (hd : Deeper (s'.step libs g act u) t d) :
    During t d s (s'.step libs g act u)

end

section
variable {F D G E K : Type}

/-- The call `a` goes over the image in `r` with a Python function and makes a new image. -/
def ReadsWithFunction (a : Act F D G E K) (r : Ref) : Prop :=
  (∃ f k, a = .map_colors r f k) ∨ (∃ f k, a = .map_colors_enumerated r f k) ∨
    ∃ rs f d k, a = .compose rs f d k ∧ r ∈ rs

/-- The call `a` goes over the image in `r` with a Python function and rewrites it. -/
def ChangesWithFunction (a : Act F D G E K) (r : Ref) : Prop :=
  (∃ f k, a = .mod_colors r f k) ∨ ∃ f k, a = .mod_colors_enumerated r f k

/-- The objects a call is about, and where the program goes on after the call. -/
def About : Act F D G E K → List Ref × Option (Except (Exc E) (Value F D) → K)
  | .ret _ | .create .. | .spawn .. => ([], none)
  | .read r _ k | .write r _ k | .mod_colors r _ k | .mod_colors_enumerated r _ k
  | .map_colors r _ k | .map_colors_enumerated r _ k => ([r], some k)
  | .read2 r o _ k | .apply_palette_in_place r o k => ([r, o], some k)
  | .compose rs _ _ k => (rs, some k)

/-- The object whose image a call may change. -/
def Changes : Act F D G E K → Option Ref
  | .write r _ _ | .apply_palette_in_place r _ _ | .mod_colors r _ _ | .mod_colors_enumerated r _ _ =>
    some r
  | _ => none

/-- Thread `u` goes on at `code` and nothing else happens: no object changes. -/
def Only (s : Python.State F D E K) (u : Nat) (code : K) (s' : Python.State F D E K) : Prop :=
  ∃ th, s.threads[u]? = some th ∧
    s' = { heap := s.heap, threads := s.threads.set u { code, stack := th.stack } }

/-- Some call in progress rewrites the image in `r`. -/
def BeingChanged (s : Python.State F D E K) (r : Ref) : Prop :=
  ∃ th ∈ s.threads, ∃ fr ∈ th.stack,
    (∃ f, fr.call = .mod_colors r f) ∨ ∃ f, fr.call = .mod_colors_enumerated r f

/-- Some call in progress goes over the image in `r` without changing it. -/
def BeingRead (s : Python.State F D E K) (r : Ref) : Prop :=
  ∃ th ∈ s.threads, ∃ fr ∈ th.stack,
    (∃ f, fr.call = .map_colors r f) ∨ (∃ f, fr.call = .map_colors_enumerated r f) ∨
      ∃ rs d f, fr.call = .compose rs d f ∧ r ∈ rs

/-- Thread `u` goes on at `k` with what a method returned or raised. A new image becomes a new object. -/
def Returns (s : Python.State F D E K) (u : Nat) (k : Except (Exc E) (Value F D) → K)
    (result : Py (Out F D)) (s' : Python.State F D E K) : Prop :=
  match result.run with
  | .ok (.ok (.value v)) => Only s u (k (.ok v)) s'
  | .ok (.ok (.image img)) =>
    Only ⟨s.heap ++ [⟨img, .shared 0⟩], s.threads⟩ u (k (.ok (.image s.heap.length))) s'
  | .ok (.error message) => Only s u (k (.error (.os message))) s'
  | .error p => Only s u (k (.error (.panic p))) s'

/-- Thread `u` goes on at `k` after a method that changes the image in `r`. -/
def Writes (s : Python.State F D E K) (u : Nat) (k : Except (Exc E) (Value F D) → K) (r : Ref)
    (result : Py (Image F)) (s' : Python.State F D E K) : Prop :=
  match result.run with
  | .ok (.ok img) => Only ⟨s.heap.set r ⟨img, .shared 0⟩, s.threads⟩ u (k (.ok .none)) s'
  | .ok (.error message) => Only s u (k (.error (.os message))) s'
  | .error p => Only s u (k (.error (.panic p))) s'

/-- What a call with a Python function makes of the colours the function returned. -/
inductive CallMakes (F : Type)
  /-- it overwrites the image in an object -/
  | changes (r : Ref) (img : List (Col F) → Image F)
  /-- it makes a new image -/
  | makes (img : List (Col F) → Image F)

/-- The colour of an image at a position, or a default outside of it. -/
def colourAt (d : Col F) (img : Image F) (x y : Nat) : Col F :=
  if x < img.buffer.width ∧ y < img.buffer.height then
    (img.buffer.data[x + y * img.buffer.width]?).getD d
  else d

/-- What a call with a Python function does: where the function begins to run for each pixel, in order;
where the program goes on afterwards; and what becomes of the colours. -/
inductive Plan [Scalar F] (s : Python.State F D E K) : Act F D G E K → List K →
    (Except (Exc E) (Value F D) → K) → CallMakes F → Prop
  | map_colors {r : Ref} {img : Image F} {f k} (h : Holds s r img) :
    Plan s (.map_colors r f k) (img.buffer.data.map f) k
      (.makes fun cs => { img with buffer := { img.buffer with data := cs } })
  | map_colors_enumerated {r : Ref} {img : Image F} {f k} (h : Holds s r img) {w h' px}
    (hs : Shows img.buffer w h' px) :
    Plan s (.map_colors_enumerated r f k) (rows w h' fun x y => f x y (px x y)) k
      (.makes fun cs => { img with buffer := { img.buffer with data := cs } })
  | mod_colors {r : Ref} {img : Image F} {f k} (h : Holds s r img) :
    Plan s (.mod_colors r f k) (img.buffer.data.map f) k
      (.changes r fun cs => { img with buffer := { img.buffer with data := cs } })
  | mod_colors_enumerated {r : Ref} {img : Image F} {f k} (h : Holds s r img) {w h' px}
    (hs : Shows img.buffer w h' px) :
    Plan s (.mod_colors_enumerated r f k) (rows w h' fun x y => f x y (px x y)) k
      (.changes r fun cs => { img with buffer := { img.buffer with data := cs } })
  | compose {r : Ref} {rs : List Ref} {img : Image F} {imgs : List (Image F)} {f d k}
    (h : List.Forall₂ (Holds s) (r :: rs) (img :: imgs))
    (hwf : ∀ i ∈ img :: imgs, WellFormed i.buffer) {W H : Nat}
    (hW : (∃ i ∈ img :: imgs, i.buffer.width = W) ∧ ∀ i ∈ img :: imgs, i.buffer.width ≤ W)
    (hH : (∃ i ∈ img :: imgs, i.buffer.height = H) ∧ ∀ i ∈ img :: imgs, i.buffer.height ≤ H)
    (hv : ValidSize W H) :
    Plan s (.compose (r :: rs) f d k)
      (rows W H fun x y => f x y ((img :: imgs).map fun i =>
        colourAt (d.getD ⟨Scalar.lit 0, Scalar.lit 0, Scalar.lit 0, Scalar.lit 0⟩) i x y)) k
      (.makes fun cs => { img with buffer := { width := W, height := H, data := cs } })

/-- A call of thread `t` has ended: the thread goes on with the result, below the call. -/
def Finished (s : Python.State F D E K) (t : Nat) (stack : List (Frame F D E K))
    (k : Except (Exc E) (Value F D) → K) (made : CallMakes F) (cs : List (Col F))
    (s' : Python.State F D E K) : Prop :=
  match made with
  | .changes r img =>
    s'.threads[t]? = some ⟨k (.ok .none), stack⟩ ∧ Holds s' r (img cs) ∧
      ∀ q i, q ≠ r → (Holds s' q i ↔ Holds s q i)
  | .makes img =>
    s'.threads[t]? = some ⟨k (.ok (.image s.heap.length)), stack⟩ ∧
      Holds s' s.heap.length (img cs) ∧ ∀ q i, q ≠ s.heap.length → (Holds s' q i ↔ Holds s q i)

end
end D10.Spec
