import Verif.SpecMethodPanics
import Verif.Props.ObjectsShape
import Verif.Props.PythonMethods
import Verif.Props.NoPanic
import Verif.Props.Tone
import Verif.Props.Histogram
import Verif.Props.Blend
import Verif.Props.Noise
import Verif.Props.Python

/-!
# C121: when the methods of Python images panic
-/

namespace D10
open Spec Python
open Scalar (lit)

namespace Python

theorem panics_ofR {α : Type} {x : R α} : panics (Py.ofR x) ↔ ∃ p, x = .error p := by
  constructor
  · rintro ⟨p, h⟩
    cases x with
    | error q => exact ⟨q, rfl⟩
    | ok a => cases h
  · rintro ⟨p, rfl⟩
    exact ⟨p, rfl⟩

theorem not_panics_pure {α : Type} {a : α} : ¬ panics (pure a : Py α) := by
  rintro ⟨p, h⟩; cases h

theorem not_panics_throw {α : Type} {m : String} : ¬ panics (throw m : Py α) := by
  rintro ⟨p, h⟩; cases h

theorem panics_bind {α β : Type} {x : Py α} {f : α → Py β} (hf : ∀ a, ¬ panics (f a)) :
    panics (x >>= f) ↔ panics x := by
  unfold panics at *
  constructor
  · rintro ⟨p, h⟩
    rw [ExceptT.run_bind] at h
    cases hx : x.run with
    | error q => exact ⟨q, rfl⟩
    | ok y =>
      rw [hx] at h
      cases y with
      | error m => cases h
      | ok a => exact absurd ⟨p, h⟩ (hf a)
  · rintro ⟨p, h⟩
    exact ⟨p, by rw [ExceptT.run_bind, h]; rfl⟩

theorem panics_wrap {α β : Type} {x : Py α} {f : α → β} :
    panics (do return f (← x) : Py β) ↔ panics x :=
  panics_bind fun _ => not_panics_pure

theorem panics_made {F D : Type} {x : R (Image F)} :
    panics (made x : Py (Out F D)) ↔ ∃ p, x = .error p := by
  unfold made
  exact panics_wrap.trans panics_ofR

theorem panics_forwards {α : Type} {x : Py α} {y : R α} (h : Forwards x y) :
    panics x ↔ ∃ p, y = .error p := by
  constructor
  · rintro ⟨p, hp⟩
    cases y with
    | error q => exact ⟨q, rfl⟩
    | ok a => have := h.1 a rfl; cases this.symm.trans hp
  · rintro ⟨p, hp⟩
    exact ⟨p, h.2 p hp⟩

theorem panics_selects {α β : Type} {call : Option String → Py β} {table : List (String × α)}
    {type : String} {default : α} {method : α → R β} (h : Selects call table type default method)
    {P : Prop} {name : Option String}
    (hm : ∀ v, (name = none ∧ v = default ∨ ∃ n, name = some n ∧ (n, v) ∈ table) →
      ((∃ p, method v = .error p) ↔ P)) :
    panics (call name) ↔ Known table name ∧ P := by
  cases name with
  | none =>
    rw [panics_forwards h.omitted, hm default (.inl ⟨rfl, rfl⟩)]
    exact ⟨fun h => ⟨by rintro n ⟨⟩, h⟩, fun h => h.2⟩
  | some n =>
    by_cases hn : n ∈ table.map (·.1)
    · obtain ⟨e, he, rfl⟩ := List.mem_map.1 hn
      rw [panics_forwards (h.named e he), hm e.2 (.inr ⟨_, rfl, he⟩)]
      exact ⟨fun h => ⟨by rintro n ⟨⟩; exact hn, h⟩, fun h => h.2⟩
    · constructor
      · rintro ⟨p, hp⟩
        have := h.unknown n hn
        cases this.symm.trans hp
      · rintro ⟨h1, -⟩
        exact absurd (h1 n rfl) hn

theorem no_error {α : Type} {x : R α} (h : ∃ a, x = .ok a) : ¬ ∃ p, x = .error p := by
  rintro ⟨p, hp⟩
  obtain ⟨a, ha⟩ := h
  cases ha.symm.trans hp

section
variable {F : Type}

theorem wp_ok {img : Image F} {x : R (PixelBuffer (Col F))} (h : ∃ b, x = .ok b) :
    ¬ ∃ p, withPixels img x = .error p := by
  obtain ⟨b, rfl⟩ := h
  rintro ⟨p, hp⟩
  cases hp

theorem wp_error {img : Image F} {x : R (PixelBuffer (Col F))} :
    (∃ p, withPixels img x = .error p) ↔ ∃ p, x = .error p := by
  cases x with
  | error p => exact ⟨fun _ => ⟨p, rfl⟩, fun _ => ⟨p, rfl⟩⟩
  | ok b => exact ⟨fun h => absurd h (wp_ok ⟨b, rfl⟩), fun h => absurd h (no_error ⟨b, rfl⟩)⟩

theorem ok_of_and {α : Type} {x : R α} {P : α → Prop} (h : ∃ b, x = .ok b ∧ P b) : ∃ b, x = .ok b :=
  h.imp fun _ => And.left

theorem resize_error [Scalar F] [Coords F] {b : PixelBuffer (Col F)} (hb : WellFormed b) (w h : Nat)
    (filter : FilterMode) (ha : filter = .Auto → b.width ≤ 134217728 ∧ b.height ≤ 134217728) :
    (∃ p, D10.resize b w h filter = .error p) ↔ ¬ ValidSize w h ∨ b.width = 0 ∧ 0 < w := by
  have sh := shows_of_wellFormed hb
  constructor
  · rintro hp
    by_contra hc
    rw [not_or, not_not, not_and] at hc
    obtain ⟨hv, hz⟩ := hc
    refine no_error ?_ hp
    by_cases he : w = b.width ∧ h = b.height
    · rw [he.1, he.2]
      exact ⟨b, C18_resize_same b filter⟩
    · by_cases h0 : b.width = 0
      · have : ¬ 0 < w := hz h0
        have hw : w = 0 := by omega
        have hh : h = 0 := by
          rcases hv with hv | hv
          · exact hv.2
          · omega
        have : b.height = 0 := by
          rcases hb.1 with hv | hv
          · exact hv.2
          · omega
        exact absurd ⟨by omega, by omega⟩ he
      · exact ok_of_and (C18_resize sh (by omega) w h hv he filter ha)
  · rintro (hv | ⟨h0, hw⟩)
    · exact ⟨_, C18_resize_invalid hb w h hv filter⟩
    · by_cases hv : ValidSize w h
      · have h1 : b.height = 0 := by
          rcases hb.1 with hv | hv
          · exact hv.2
          · omega
        rw [h0, h1] at sh
        exact C18_resize_empty sh w h hv hw filter
      · exact ⟨_, C18_resize_invalid hb w h hv filter⟩

theorem resize_pct_error [Scalar F] [Coords F] {img : Image F} (hb : WellFormed img.buffer) (p : F)
    (filter : FilterMode)
    (ha : filter = .Auto → img.width ≤ 134217728 ∧ img.height ≤ 134217728) :
    (∃ e, img.resize_pct p filter = .error e) ↔
      img.width = 0 ∨ ¬ ValidSize (percentOf p img.width) (percentOf p img.height) := by
  have sh := shows_of_wellFormed hb
  have hzero : img.width = 0 → img.height = 0 := by
    intro h
    rcases hb.1 with hv | hv
    · exact hv.2
    · exact absurd h (by have := hv.1; show ¬ img.buffer.width = 0; omega)
  constructor
  · intro hp
    by_contra hc
    rw [not_or, not_not] at hc
    obtain ⟨h0, hv⟩ := hc
    refine no_error ?_ hp
    by_cases he : percentOf p img.width = img.width ∧ percentOf p img.height = img.height
    · exact ⟨_, C66_same img p filter he.1 he.2⟩
    · exact ok_of_and (C66_resize_pct sh (Nat.pos_of_ne_zero h0) p filter hv he ha)
  · rintro (h0 | hv)
    · have h1 : img.buffer.width = 0 := h0
      have h2 : img.buffer.height = 0 := hzero h0
      rw [h1, h2] at sh
      exact C66_empty sh p filter
    · exact ⟨_, C66_too_large hb p filter hv⟩

theorem unsharp_error [Scalar F] [LawfulScalar F] {b : PixelBuffer (Col F)} (hb : WellFormed b)
    (r : Nat) (factor : F) (sigma : Option F) :
    (∃ p, D10.unsharp b r factor sigma = .error p) ↔ 32767 < r := by
  have sh := shows_of_wellFormed hb
  constructor
  · intro hp
    by_contra hc
    obtain ⟨b', bl, -, h, -⟩ := C46_unsharp sh r (by omega) factor sigma
    exact no_error ⟨_, h⟩ hp
  · intro hr
    refine ⟨.overflow, ?_⟩
    unfold D10.unsharp
    by_cases h1 : r * 2 < 4294967296
    · rw [u32_ok h1, ok_bind, u32_ok (by omega), ok_bind]
      have : ¬ (r * 2 + 1) * (r * 2 + 1) < 4294967296 := by
        have := Nat.mul_le_mul (show 65537 ≤ r * 2 + 1 by omega) (show 65537 ≤ r * 2 + 1 by omega)
        omega
      unfold KernelDyn.new_gaussian
      simp only [u32, if_neg this]
      rfl
    · simp only [u32, if_neg h1]
      rfl

theorem jpeg_error [Scalar F] [FloatBytes F] (libs : Libs F) (img : Image F) (q : Nat) (a : Bool) :
    (∃ p, jpeg_quality (jpegCodec libs) img.buffer q a = .error p) ↔ ¬ JpegWorks libs img q := by
  have h : jpegCodec libs img.buffer q = none ↔ ¬ JpegWorks libs img q := by
    unfold JpegWorks jpegCodec
    constructor
    · rintro h ⟨bytes, out, h1, h2⟩
      rw [h1] at h
      simp only [h2] at h
      cases h
    · intro h
      split
      · rename_i bytes h1
        split
        · rename_i out h2
          exact absurd ⟨bytes, out, h1, h2⟩ h
        · rfl
      · rfl
  rw [← h]
  unfold jpeg_quality
  cases jpegCodec libs img.buffer q with
  | none => exact ⟨fun _ => rfl, fun _ => ⟨_, rfl⟩⟩
  | some out =>
    refine ⟨fun hp => absurd hp (no_error ?_), by rintro ⟨⟩⟩
    cases a <;> exact ⟨_, rfl⟩

theorem fst_error {α σ : Type} {x : R (α × σ)} (h : ∃ y, x = .ok y) :
    ¬ ∃ p, (do return (← x).1 : R α) = .error p := by
  obtain ⟨y, rfl⟩ := h
  rintro ⟨p, hp⟩
  cases hp

end

section
set_option linter.unusedSectionVars false
variable {F D G E K : Type} [Scalar F] [Scalar D] [Widen F D] [FloatBytes F]
variable {libs : Libs F} {g : Rng G F}

theorem filter_auto {filter : Option String} {v : FilterMode}
    (h : filter = none ∧ v = .Bilinear ∨ ∃ n, filter = some n ∧ (n, v) ∈ filterModes)
    (hv : v = .Auto) : filter = some "auto" ∨ filter = some "default" := by
  subst hv
  rcases h with ⟨-, h⟩ | ⟨n, rfl, h⟩
  · cases h
  · simp only [filterModes, List.mem_cons, Prod.mk.injEq, List.not_mem_nil, or_false,
      reduceCtorEq, and_false, false_or, and_true] at h
    rcases h with rfl | rfl
    · exact .inr rfl
    · exact .inl rfl

theorem not_panics_type (dt : Option PyDtype) : ¬ panics (extract_data_type dt) := by
  unfold extract_data_type
  split
  · exact not_panics_pure
  · split <;> first | exact not_panics_pure | exact not_panics_throw
  · split <;> first | exact not_panics_pure | exact not_panics_throw

theorem wrap_error {α β : Type} {x : R α} {f : α → β} {P : Prop} (h1 : P → ∃ a, x = .ok a)
    (h2 : ¬ P → ∃ p, x = .error p) : (∃ p, (do return f (← x) : R β) = .error p) ↔ ¬ P := by
  constructor
  · rintro ⟨p, hp⟩ h
    obtain ⟨a, rfl⟩ := h1 h
    cases hp
  · intro h
    obtain ⟨p, rfl⟩ := h2 h
    exact ⟨p, rfl⟩

theorem raw_error (w h : Nat) (l : List (Col F)) :
    (∃ p, Image.new_from_raw w h l = .error p) ↔ ¬ (ValidSize w h ∧ l.length = w * h) :=
  wrap_error (fun hv => ⟨_, ((C02_new_from_raw w h l).1 hv).1⟩) (C02_new_from_raw w h l).2

theorem chunked4_length {l : List F} : ∀ {n : Nat}, l.length = n * 4 → (chunked4 l).length = n := by
  intro n
  induction n generalizing l with
  | zero => intro h; cases l with
    | nil => rfl
    | cons a l => simp at h
  | succ n ih =>
    intro h
    match l, h with
    | a :: b :: c :: d :: l, h =>
      simp only [chunked4, List.length_cons] at *
      rw [ih (by omega)]
    | [], h => simp at h; try omega
    | [a], h => simp at h; try omega
    | [a, b], h => simp at h; try omega
    | [a, b, c], h => simp at h; try omega

theorem chunked3_length {l : List F} : ∀ {n : Nat}, l.length = n * 3 → (chunked3 l).length = n := by
  intro n
  induction n generalizing l with
  | zero => intro h; cases l with
    | nil => rfl
    | cons a l => simp at h
  | succ n ih =>
    intro h
    match l, h with
    | a :: b :: c :: l, h =>
      simp only [chunked3, List.length_cons] at *
      rw [ih (by omega)]
    | [], h => simp at h; try omega
    | [a], h => simp at h; try omega
    | [a, b], h => simp at h; try omega

theorem finish_panics {w h : Nat} {data : List (Col F)} (hw : w < 2 ^ 32) (hh : h < 2 ^ 32)
    (hd : data.length = w * h) :
    panics (do
      Py.ofR (assert (w * h == data.length))
      Py.ofR (Image.new_from_raw (w % 2 ^ 32) (h % 2 ^ 32) data) : Py (Image F)) ↔ ¬ ValidSize w h := by
  rw [Nat.mod_eq_of_lt hw, Nat.mod_eq_of_lt hh, hd]
  have : assert (w * h == w * h) = .ok () := by simp [assert]
  rw [this]
  refine (panics_ofR (x := Image.new_from_raw w h data)).trans ((raw_error w h data).trans ?_)
  simp [hd]

theorem import3 (name : String) : (∃ s, import_space3 name = some s) ↔
    (name = "auto" ∨ name ∈ colourModels.map (·.1)) := by
  simp only [colourModels, List.map_cons, List.map_nil, List.mem_cons, List.not_mem_nil, or_false]
  constructor
  · rintro ⟨s, h⟩
    unfold import_space3 at h
    split at h <;> first | simp | cases h
  · rintro (h | h | h | h | h | h | h | h | h) <;> subst h <;> exact ⟨_, rfl⟩

theorem import4 (name : String) : (∃ s, import_space4 name = some s) ↔
    (name = "auto" ∨ ∃ p ∈ colourModels, name = p.1 ∨ name = p.1 ++ "a") := by
  constructor
  · rintro ⟨s, h⟩
    unfold import_space4 at h
    split at h
    all_goals first | (cases h; done) | simp [colourModels]
  · rintro (h | ⟨p, hp, h⟩)
    · subst h; exact ⟨_, rfl⟩
    · simp only [colourModels, List.mem_cons, List.not_mem_nil, or_false] at hp
      rcases hp with rfl | rfl | rfl | rfl | rfl | rfl | rfl | rfl <;> rcases h with h | h <;>
        subst h <;> exact ⟨_, rfl⟩

theorem iter_panics {dims : List Nat} {l : List F} {cs : Option String} (hl : l.length = dims.prod)
    (hd : ∀ d ∈ dims, d < 2 ^ 32) : panics (from_np_array_iter dims l cs) ↔
      (dims.length < 2 ∨ ∃ h w, AsColours dims (cs.getD "auto") h w ∧ ¬ ValidSize w h) := by
  generalize hn : cs.getD "auto" = name
  have gray : ∀ h w, h < 2 ^ 32 → w < 2 ^ 32 → l.length = w * h →
      (panics (do
        let data ← (if name ≠ "gray" ∧ name ≠ "auto" then
            throw ("Bad colorspace " ++ name ++ " for dimensions: " ++ toString dims.length)
          else return l.map fun v => Rgb.new_with_alpha v v v (lit 1) : Py (List (Col F)))
        Py.ofR (assert (w * h == data.length))
        Py.ofR (Image.new_from_raw (w % 2 ^ 32) (h % 2 ^ 32) data) : Py (Image F)) ↔
      (name = "gray" ∨ name = "auto") ∧ ¬ ValidSize w h) := by
    intro h w hh hw hlen
    by_cases hg : name ≠ "gray" ∧ name ≠ "auto"
    · rw [if_pos hg]
      refine ⟨fun hp => absurd hp not_panics_throw, ?_⟩
      rintro ⟨h1 | h1, -⟩
      · exact absurd h1 hg.1
      · exact absurd h1 hg.2
    · rw [if_neg hg]
      have hg' : name = "gray" ∨ name = "auto" := by
        by_cases h1 : name = "gray"
        · exact .inl h1
        · exact .inr (by by_contra h2; exact hg ⟨h1, h2⟩)
      refine (finish_panics hw hh (data := l.map fun v => Rgb.new_with_alpha v v v (lit 1)) (by simpa)).trans ?_
      exact ⟨fun h => ⟨hg', h⟩, fun h => h.2⟩
  unfold from_np_array_iter
  simp only [hn]
  match dims, hl, hd with
  | [], _, _ => exact ⟨fun _ => .inl (by simp), fun _ => ⟨_, rfl⟩⟩
  | [_], _, _ => exact ⟨fun _ => .inl (by simp), fun _ => ⟨_, rfl⟩⟩
  | [h, w], hl, hd =>
    refine (gray h w (hd h (by simp)) (hd w (by simp)) (by rw [hl]; simp [Nat.mul_comm])).trans ?_
    constructor
    · rintro ⟨h1, h2⟩
      exact .inr ⟨h, w, .gray2 h w name h1, h2⟩
    · rintro (h1 | ⟨h', w', h1, h2⟩)
      · simp at h1
      · cases h1 with
        | gray2 _ _ _ hn => exact ⟨hn, h2⟩
  | [h, w, d], hl, hd =>
    have hh := hd h (by simp)
    have hw := hd w (by simp)
    have hlen : l.length = w * h * d := by
      rw [hl]; simp only [List.prod_cons, List.prod_nil]; ring
    by_cases h4 : d = 4
    · subst h4
      have hi := import4 name
      cases hs : import_space4 name with
      | some s =>
        refine (finish_panics hw hh (data := (chunked4 l).map fun v =>
          to_rgb s (new_with_alpha s v.1 v.2.1 v.2.2.1 v.2.2.2))
          (by rw [List.length_map, chunked4_length hlen])).trans ?_
        constructor
        · exact fun h2 => .inr ⟨h, w, .four h w name (hi.1 ⟨s, hs⟩), h2⟩
        · rintro (h1 | ⟨h', w', h1, h2⟩)
          · simp at h1
          · cases h1 with
            | four _ _ _ hn => exact h2
      | none =>
        refine ⟨fun hp => absurd hp not_panics_throw, ?_⟩
        rintro (h1 | ⟨h', w', h1, h2⟩)
        · simp at h1
        · cases h1 with
          | four _ _ _ hn =>
            obtain ⟨s, h3⟩ := hi.2 hn
            rw [hs] at h3
            cases h3
    by_cases h3 : d = 3
    · subst h3
      have hi := import3 name
      cases hs : import_space3 name with
      | some s =>
        refine (finish_panics hw hh (data := (chunked3 l).map fun v =>
          to_rgb s (new_opaque s v.1 v.2.1 v.2.2))
          (by rw [List.length_map, chunked3_length hlen])).trans ?_
        constructor
        · exact fun h2 => .inr ⟨h, w, .three h w name (hi.1 ⟨s, hs⟩), h2⟩
        · rintro (h1 | ⟨h', w', h1, h2⟩)
          · simp at h1
          · cases h1 with
            | three _ _ _ hn => exact h2
      | none =>
        refine ⟨fun hp => absurd hp not_panics_throw, ?_⟩
        rintro (h1 | ⟨h', w', h1, h2⟩)
        · simp at h1
        · cases h1 with
          | three _ _ _ hn =>
            obtain ⟨s, h3⟩ := hi.2 hn
            rw [hs] at h3
            cases h3
    by_cases h1 : d = 1
    · subst h1
      refine (gray h w hh hw (by rw [hlen, Nat.mul_one])).trans ?_
      constructor
      · rintro ⟨h1, h2⟩
        exact .inr ⟨h, w, .gray3 h w name h1, h2⟩
      · rintro (h1 | ⟨h', w', h1, h2⟩)
        · simp at h1
        · cases h1 with
          | gray3 _ _ _ hn => exact ⟨hn, h2⟩
    · refine ⟨fun hp => absurd hp ?_, ?_⟩
      · rintro ⟨p, hp⟩
        rw [show (Py.ofR (index [h, w, d] 2)) = pure d from rfl] at hp
        simp only [List.length_cons, List.length_nil, if_true, pure_bind, if_neg h4, if_neg h3, if_neg h1]
          at hp
        cases hp
      · rintro (h1 | ⟨h', w', h1, h2⟩)
        · simp at h1
        · cases h1 <;> simp at *
  | a :: b :: c :: d :: rest, hl, hd =>
    have h3 : ¬ (a :: b :: c :: d :: rest).length = 3 := by simp
    have h2 : ¬ (a :: b :: c :: d :: rest).length = 2 := by simp
    simp only [if_neg h3, if_neg h2]
    refine ⟨fun hp => absurd hp not_panics_throw, ?_⟩
    rintro (h1 | ⟨h', w', h1, -⟩)
    · simp at h1
    · cases h1

theorem export_panics (img : Image F) (cs : Option String) (dt : Option PyDtype) :
    ¬ panics (to_np_array D img cs dt) := by
  unfold to_np_array
  have h1 := not_panics_type dt
  refine (panics_bind fun t => ?_).not.2 h1
  split
  · exact not_panics_throw
  · simp only []
    split
    · exact not_panics_pure
    · exact not_panics_throw

end
end Python

section
variable {F D G E K : Type} [Scalar F] [Scalar D] [Widen F D] [FloatBytes F]
variable [LawfulScalar F] [LawfulCast F] [Coords F] [SmallNat D]

/-- C121: a method that reads an image panics exactly for the calls in `Panics`. -/
theorem C121_methods (libs : Libs F) (g : Rng G F) {img : Image F} (hb : WellFormed img.buffer)
    (m : Reader F G) (hm : Moderate img m) :
    panics (m.run (D := D) libs g img) ↔ Panics libs img m := by
  have sh := shows_of_wellFormed hb
  obtain ⟨o1, o2, o3, o4, o5, o6, o7, o8, o9, o10, o11, o12, o13, o14, o15, o16, o17, o18, -⟩ :=
    C65_operations img
  obtain ⟨t1, t2, -, -, -, -, -, t8⟩ := C65_operations_tone D libs img img
  obtain ⟨p1, p2, p3, p4, p5, p6, p7, p8, p9⟩ := C80_options img img
  have hmade : ∀ {x : R (Image F)} {y : R (PixelBuffer (Col F))}, x = withPixels img y →
      (∃ b, y = .ok b) → (panics (made x : Py (Out F D)) ↔ False) := by
    rintro x y rfl h
    exact iff_false_intro fun hp => wp_ok h (panics_made.1 hp)
  have hnoise : ∀ {α : Type} {x : R (α × G)}, (∃ y, x = .ok y) →
      ¬ ∃ p, (do return (← x).1 : R α) = .error p := fun h => fst_error h
  have hand : ∀ {x : R (Image F × G)} {y : R (PixelBuffer (Col F) × G)}, x = withPixelsAnd img y →
      (∃ b, y = .ok b) → ∃ z, x = .ok z := by
    rintro x y rfl ⟨⟨b, s⟩, rfl⟩
    exact ⟨_, rfl⟩
  have hof : ∀ {x : R (Image F)} {y : R (PixelBuffer (Col F))}, x = withPixels img y →
      (∃ b, y = .ok b) → ¬ panics (Py.ofR x) := by
    rintro x y rfl h hp
    exact wp_ok h (panics_ofR.1 hp)
  cases m with
  | to_list => exact iff_false_intro not_panics_pure
  | get_width => exact iff_false_intro not_panics_pure
  | get_height => exact iff_false_intro not_panics_pure
  | has_transparency => exact iff_false_intro not_panics_pure
  | is_grayscale => exact iff_false_intro not_panics_pure
  | len => exact iff_false_intro not_panics_pure
  | get_pixel x y =>
    refine (panics_bind fun c => ?_).trans (panics_ofR.trans (iff_false_intro
      (no_error ⟨_, C05_get_pixel_optional sh x y⟩)))
    cases c <;> exact not_panics_pure
  | get_pixel_clamped x y =>
    refine panics_wrap.trans (panics_ofR.trans ?_)
    show (∃ p, img.buffer.get_pixel_clamped x y = .error p) ↔ img.buffer.width = 0
    constructor
    · intro hp
      by_contra hc
      exact no_error ⟨_, C04_get_pixel_clamped sh (Nat.pos_of_ne_zero hc) x y⟩ hp
    · intro h0
      have h1 : img.buffer.height = 0 := by
        rcases hb.1 with hv | hv
        · exact hv.2
        · omega
      rw [h0, h1] at sh
      exact ⟨_, C04_get_pixel_clamped_empty sh x y⟩
  | is_in_image x y => exact iff_false_intro not_panics_pure
  | getitem key =>
    refine panics_wrap.trans ((panics_bind fun c => ?_).trans (panics_ofR.trans (iff_false_intro
      (no_error ⟨_, C05_get_pixel_optional sh key.1 key.2⟩))))
    cases c
    · exact not_panics_throw
    · exact not_panics_pure
  | crop x y w h => exact hmade (o1 _ _ _ _) (ok_of_and (C16_crop _ sh _ _ _ _))
  | flip_horizontal => exact hmade o2 (ok_of_and (C13_flip_horizontal _ sh))
  | flip_vertical => exact hmade o3 (ok_of_and (C13_flip_vertical _ sh))
  | rotate90 => exact hmade o4 (ok_of_and (C14_rotate90 _ sh))
  | rotate180 => exact hmade o5 (ok_of_and (C14_rotate180 _ sh))
  | rotate270 => exact hmade o6 (ok_of_and (C14_rotate270 _ sh))
  | rotate r f =>
    refine panics_wrap.trans ((panics_selects ((C80_filters img).1 r) (P := False) fun v _ => ?_).trans
      (by simp [Panics]))
    obtain ⟨b', h1, -⟩ := rotate_sound hb r (img.bg_color.getD Rgb.NONE) v
    refine iff_false_intro (no_error ?_)
    unfold Image.rotate
    rw [h1]
    exact ⟨_, rfl⟩
  | resize w h f =>
    refine panics_wrap.trans (panics_selects ((C80_filters img).2.1 w h) fun v hv => ?_)
    rw [o8, wp_error]
    exact resize_error hb w h v fun ha => hm (filter_auto hv ha)
  | resize_pct p f =>
    exact panics_wrap.trans (panics_selects ((C80_filters img).2.2 p) fun v hv =>
      resize_pct_error hb p v fun ha => hm (filter_auto hv ha))
  | edge_detection mode =>
    refine panics_wrap.trans ((panics_selects p1 (P := False) fun v _ => ?_).trans (by simp [Panics]))
    rw [o7]
    refine iff_false_intro (wp_ok ?_)
    cases v
    · exact ok_of_and (C47_sobel sh)
    · exact ok_of_and (C47_laplace sh)
  | with_jpeg_quality q a =>
    refine panics_made.trans ?_
    rw [show Python.with_jpeg_quality libs img q a = _ from t8 _ _, wp_error]
    exact jpeg_error _ _ _ _
  | random_noise a rng =>
    obtain ⟨b', s', h, -⟩ := noise_sound g (.random a) hb rng
    exact panics_made.trans (iff_false_intro (hnoise (hand (C65_operations_noise g img a rng).1 ⟨_, h⟩)))
  | salt_n_pepper_noise t rng =>
    obtain ⟨b', s', h, -⟩ := noise_sound g (.salt_n_pepper t) hb rng
    exact panics_made.trans (iff_false_intro
      (hnoise (hand (C65_operations_noise g img t rng).2.2.2.2.1 ⟨_, h⟩)))
  | rgb_noise t rng =>
    obtain ⟨b', s', h, -⟩ := noise_sound g (.rgb t) hb rng
    exact panics_made.trans (iff_false_intro
      (hnoise (hand (C65_operations_noise g img t rng).2.2.2.2.2.2.1 ⟨_, h⟩)))
  | gaussian_noise a rng =>
    exact panics_made.trans (iff_false_intro
      (hnoise (hand (C65_operations_noise g img a rng).2.2.1 ⟨_, C42_gaussian_noise g .rgb sh a rng⟩)))
  | gaussian_blur r sigma =>
    refine panics_made.trans ?_
    rw [o9, wp_error]
    constructor
    · intro hp
      by_contra hc
      exact no_error (ok_of_and ((C12_gaussian_blur sh r sigma).1 (by simpa [Panics] using hc))) hp
    · exact fun hr => ⟨_, (C12_gaussian_blur sh r sigma).2 hr⟩
  | unsharp r factor sigma =>
    refine panics_made.trans ?_
    rw [show Python.unsharp img r factor sigma = _ from o10 _ _ _, wp_error]
    exact unsharp_error hb _ _ _
  | drawing r mode =>
    refine panics_wrap.trans (panics_selects (p2 r) fun v hv => ?_)
    rw [o13, wp_error]
    constructor
    · intro hp
      by_contra hc
      exact no_error (ok_of_and ((C74_drawing sh r v).1 (by omega))) hp
    · exact fun hr => ⟨_, (C74_drawing sh r v).2 hr⟩
  | interlace off =>
    refine hmade (o14 _) (ok_of_and (C22_interlace sh off ?_ ?_))
    · have : off < 1073741824 := hm
      omega
    · have : off < 1073741824 := hm
      have := sh.size.width_le
      omega
  | despeckle t n => exact hmade (o15 _ _) (ok_of_and (C40_despeckle sh _ _))
  | symmetric_nearest_neighbor r c =>
    refine hmade (o18 _ _) (ok_of_and (C43_symmetric_nearest_neighbor sh _ ?_ _))
    cases r with
    | none => show 4 < 1073741824; omega
    | some r => exact hm r rfl
  | stretch_contrast t =>
    obtain ⟨_, _, b', -, -, h, -⟩ := C45_stretch_contrast sh (t.getD (lit (1 / 2)))
    exact panics_wrap.trans (iff_false_intro (hof (o16 _) ⟨_, h⟩))
  | optimize_saturation o mode =>
    refine panics_wrap.trans ((panics_wrap).trans (iff_false_intro ?_))
    rintro ⟨p, hp⟩
    cases hb : SaturationMode.from_str (mode.getD "hsl") with
    | error e => rw [hb] at hp; cases hp
    | ok v => rw [hb] at hp; cases hp
  | change_color_temperature o n t =>
    exact panics_wrap.trans (iff_false_intro (hof (t1 _ _ _) (ok_of_and (C68_change sh _ _ _))))
  | optimize_color_temperature k t =>
    exact panics_wrap.trans (iff_false_intro (hof (t2 _ _) (ok_of_and (C68_optimize sh _ _))))
  | optimize_lightness k => exact iff_false_intro not_panics_pure
  | white_balance t =>
    obtain ⟨_, _, b', -, h, -⟩ := C69_balance sh .Rgb (t.getD (lit (1 / 2)))
    exact panics_wrap.trans (iff_false_intro (hof (o11 _) ⟨_, h⟩))
  | balance mode t =>
    have key : ∀ t, panics (Python.balance img mode (some t)) ↔ Known balanceModes mode ∧ False := by
      intro t
      refine panics_selects (p4 t) fun v _ => ?_
      obtain ⟨_, _, b', -, h, -⟩ := C69_balance sh v t
      rw [o12]
      exact iff_false_intro (wp_ok ⟨_, h⟩)
    refine panics_wrap.trans (Iff.trans ?_ (by simp [Panics] : Known balanceModes mode ∧ False ↔ _))
    cases t with
    | none => exact key _
    | some t => exact key t
  | equalize mode =>
    refine panics_wrap.trans ((panics_selects p3 (P := False) fun v _ => ?_).trans (by simp [Panics]))
    rw [o17]
    exact iff_false_intro (wp_ok (ok_of_and (C44_equalize sh v)))
  | to_np_array cs dt =>
    exact panics_wrap.trans (iff_false_intro (export_panics img cs dt))

omit [Scalar D] [Widen F D] [FloatBytes F] [LawfulScalar F] [LawfulCast F] [Coords F] [SmallNat D] in
/-- C121: the methods with another image. -/
theorem C121_two_images {img other : Image F} (hb : WellFormed img.buffer) (ho : WellFormed other.buffer)
    (m : Reader2 F) : panics (m.run (D := D) img other) ↔ Panics2 img other m := by
  cases m with
  | apply_palette => exact iff_false_intro not_panics_pure
  | blend op k =>
    have key : ∀ k, panics (Python.blend img other op (some k)) ↔ Known blendOps op ∧
        ¬ ValidSize (max img.width other.width) (max img.height other.height) := by
      intro k
      refine panics_selects ((C80_options img other).2.2.2.2.2.1 k) fun v _ => ?_
      have h := C36_blend_image (shows_of_wellFormed hb) (shows_of_wellFormed ho) v k
      have he : img.blend other v k = withPixels img (blend_image img.buffer other.buffer v k) :=
        with_meta_eq _ _
      rw [he, wp_error]
      constructor
      · exact fun hp hv => no_error (ok_of_and (h.1 hv)) hp
      · exact fun hv => ⟨_, h.2 hv⟩
    refine panics_wrap.trans ?_
    cases k with
    | none => exact key _
    | some k => exact key k

omit [LawfulScalar F] [LawfulCast F] [Coords F] in
/-- C121: the methods that change an image. -/
theorem C121_changes (libs : Libs F) (g : Rng G F) {img : Image F} (hb : WellFormed img.buffer)
    (m : Writer F G) : panics (m.run libs g img) ↔ PanicsW img m := by
  have sh := shows_of_wellFormed hb
  have hput : ∀ x y c, panics (Py.ofR (img.put_pixel x y c)) ↔ ¬ (x < img.width ∧ y < img.height) := by
    intro x y c
    rw [panics_ofR, show img.put_pixel x y c = withPixels img (img.buffer.put_pixel x y c) from
      with_meta_eq _ _, wp_error]
    have h := C03_put_pixel sh x y c
    constructor
    · exact fun hp hv => no_error (ok_of_and (h.1 hv)) hp
    · exact fun hv => ⟨_, h.2 hv⟩
  have hand : ∀ {x : R (Image F × G)} {y : R (PixelBuffer (Col F) × G)}, x = withPixelsAnd img y →
      (∃ b, y = .ok b) → (panics (Py.ofR (do return (← x).1 : R (Image F))) ↔ False) := by
    rintro x y rfl ⟨⟨b, s⟩, rfl⟩
    exact iff_false_intro fun h => fst_error ⟨_, rfl⟩ (panics_ofR.1 h)
  cases m with
  | save fs path format =>
    refine (panics_bind fun r => ?_).trans (panics_ofR.trans (iff_false_intro (no_error ?_)))
    · cases r
      · exact not_panics_throw
      · exact not_panics_pure
    · have h : ∀ f, ∃ r, (encode_to_file libs fs path img.buffer f).2 = .ok r := by
        intro f
        obtain ⟨fs', r, h⟩ := C106_save libs fs path hb f
        exact ⟨r, by rw [h]⟩
      cases format with
      | none => exact h none
      | some f => exact h (some f)
  | put_pixel x y c => exact hput x y c
  | setitem key c => exact hput key.1 key.2 c
  | add_random_noise a rng =>
    obtain ⟨b', s', h, -⟩ := noise_sound g (.random a) hb rng
    obtain ⟨i1, i2, i3, i4⟩ := C41_in_place g img.buffer .rgb a
    exact hand (C65_operations_noise g img a rng).2.1 ⟨_, (congrFun i3 rng).trans h⟩
  | add_salt_n_pepper_noise t rng =>
    obtain ⟨b', s', h, -⟩ := noise_sound g (.salt_n_pepper t) hb rng
    obtain ⟨i1, i2, i3, i4⟩ := C41_in_place g img.buffer .rgb t
    exact hand (C65_operations_noise g img t rng).2.2.2.2.2.1 ⟨_, (congrFun i1 rng).trans h⟩
  | add_rgb_noise t rng =>
    obtain ⟨b', s', h, -⟩ := noise_sound g (.rgb t) hb rng
    obtain ⟨i1, i2, i3, i4⟩ := C41_in_place g img.buffer .rgb t
    exact hand (C65_operations_noise g img t rng).2.2.2.2.2.2.2.1 ⟨_, (congrFun i2 rng).trans h⟩
  | add_gaussian_noise a rng =>
    obtain ⟨i1, i2, i3, i4⟩ := C41_in_place g img.buffer .rgb a
    exact hand (C65_operations_noise g img a rng).2.2.2.1
      ⟨_, (congrFun i4 rng).trans (C42_gaussian_noise g .rgb sh a rng)⟩

omit [LawfulScalar F] [LawfulCast F] [Coords F] [SmallNat D] in
/-- C121: making images. -/
theorem C121_making (libs : Libs F) (hl : Honest libs) (c : Creator F D) (hc : Proper c) :
    panics (c.run libs) ↔ PanicsC libs c := by
  cases c with
  | new w h color =>
    refine panics_ofR.trans ?_
    cases color with
    | none =>
      exact wrap_error (fun hv => ok_of_and ((C02_new (Rgb.NONE : Col F) w h).1 hv))
        (fun hv => ⟨_, (C02_new (Rgb.NONE : Col F) w h).2 hv⟩)
    | some c =>
      exact wrap_error (fun hv => ok_of_and ((C02_new_with_color w h c).1 hv))
        (fun hv => ⟨_, (C02_new_with_color w h c).2 hv⟩)
  | from_list w h l =>
    exact panics_ofR.trans (raw_error w h l)
  | «open» fs path =>
    refine (panics_bind fun r => ?_).trans (panics_ofR.trans ?_)
    · cases r
      · exact not_panics_throw
      · exact not_panics_pure
    · have h := C106_open libs hl fs path
      show (∃ p, (do return Image.new_from_buffer (← decode_file libs fs path) : Dec (Image F)).run = _) ↔ _
      rw [ExceptT.run_bind]
      constructor
      · rintro ⟨p, hp⟩
        by_contra hc
        rcases h.2 hc with ⟨e, he⟩ | ⟨b, he, -⟩ <;> rw [he] at hp <;> cases hp
      · intro hh
        rw [h.1 hh]
        exact ⟨_, rfl⟩
  | from_np_array a cs =>
    show panics (from_np_array a cs) ↔ _
    by_cases hl : ∃ l, ElementValues a.data l
    · obtain ⟨l, he⟩ := hl
      rw [from_np_array_numbers a cs l he, iter_panics (hc.1 l he) hc.2]
      exact ⟨fun h => ⟨⟨l, he⟩, h⟩, fun h => h.2⟩
    · refine ⟨fun hp => ?_, fun hp => absurd hp.1 hl⟩
      obtain ⟨dims, data⟩ := a
      cases data with
      | Other t =>
        exfalso
        revert hp
        have h1 : ¬ panics (extract_data_type (some (.obj t))) := not_panics_type _
        refine (panics_bind fun t' => ?_).not.2 h1
        cases t' <;> exact not_panics_throw
      | Float32 l => exact absurd ⟨_, .float32 l⟩ hl
      | Float64 l => exact absurd ⟨_, .float64 l⟩ hl
      | Uint8 l => exact absurd ⟨_, .uint8 l⟩ hl
      | Uint16 l => exact absurd ⟨_, .uint16 l⟩ hl
      | Uint32 l => exact absurd ⟨_, .uint32 l⟩ hl
      | Bool l => exact absurd ⟨_, .bool l⟩ hl

omit [Scalar F] [Scalar D] [Widen F D] [FloatBytes F] [LawfulScalar F] [LawfulCast F] [Coords F] [SmallNat D] in
theorem only_goes {s s' : Python.State F D E K} {t : Nat} {k : Except (Exc E) (Value F D) → K}
    {r : Except (Exc E) (Value F D)} (h : Only s t (k r) s') {P : Prop}
    (hp : (∃ p, r = .error (.panic p)) ↔ P) : GoesOn s' t k P := by
  obtain ⟨th, h1, rfl⟩ := h
  refine ⟨r, { code := k r, stack := th.stack }, ?_, rfl, hp⟩
  have hlt : t < s.threads.length := (List.getElem?_eq_some_iff.1 h1).1
  simp [hlt]

omit [Scalar F] [Scalar D] [Widen F D] [FloatBytes F] [LawfulScalar F] [LawfulCast F] [Coords F] [SmallNat D] in
theorem returns_goes {s s' : Python.State F D E K} {t : Nat} {k : Except (Exc E) (Value F D) → K}
    {x : Py (Out F D)} (h : Returns s t k x s') {P : Prop} (hp : panics x ↔ P) : GoesOn s' t k P := by
  unfold Returns at h
  unfold panics at hp
  cases hx : x.run with
  | error p =>
    rw [hx] at h hp
    exact only_goes h (by simpa using hp)
  | ok y =>
    rw [hx] at h hp
    have hP : ¬ P := fun h => by obtain ⟨p, h⟩ := hp.2 h; cases h
    cases y with
    | error m => exact only_goes h ⟨fun ⟨p, hp⟩ => (by cases hp), fun h => absurd h hP⟩
    | ok o =>
      cases o with
      | value v => exact only_goes h ⟨fun ⟨p, hp⟩ => (by cases hp), fun h => absurd h hP⟩
      | image i => exact only_goes h ⟨fun ⟨p, hp⟩ => (by cases hp), fun h => absurd h hP⟩

omit [Scalar F] [Scalar D] [Widen F D] [FloatBytes F] [LawfulScalar F] [LawfulCast F] [Coords F] [SmallNat D] in
theorem writes_goes {s s' : Python.State F D E K} {t : Nat} {k : Except (Exc E) (Value F D) → K} {r : Ref}
    {x : Py (Image F)} (h : Writes s t k r x s') {P : Prop} (hp : panics x ↔ P) : GoesOn s' t k P := by
  unfold Writes at h
  unfold panics at hp
  cases hx : x.run with
  | error p =>
    rw [hx] at h hp
    exact only_goes h (by simpa using hp)
  | ok y =>
    rw [hx] at h hp
    have hP : ¬ P := fun h => by obtain ⟨p, h⟩ := hp.2 h; cases h
    cases y with
    | error m => exact only_goes h ⟨fun ⟨p, hp⟩ => (by cases hp), fun h => absurd h hP⟩
    | ok o => exact only_goes h ⟨fun ⟨p, hp⟩ => (by cases hp), fun h => absurd h hP⟩

section
variable {libs : Libs F} {g : Rng G F} {act : K → Act F D G E K} {main : K}
variable {s : Python.State F D E K} {t : Nat} {th : Thread F D E K} {r o : Ref}
  {k : Except (Exc E) (Value F D) → K} {img other : Image F}

/-- C121: in every run of a Python program with any number of threads, a call of a method that reads
an image ends in a panic exactly for the calls in `Panics`, as long as nobody is changing the image. -/
theorem C121_program_reads (hl : Honest libs) (hs : Arises libs g act main s)
    (ht : s.threads[t]? = some th) {m : Reader F G} (ha : act th.code = .read r m k)
    (hr : Holds s r img) (hn : ¬ BeingChanged s r) (hm : Moderate img m) :
    GoesOn (s.step libs g act t) t k (Panics libs img m) :=
  returns_goes (C119_read hs ht ha hr hn) (C121_methods libs g (C120_shape hl hs hr).1 m hm)

omit [LawfulScalar F] [LawfulCast F] [Coords F] [SmallNat D] in
/-- C121: calls with two images. -/
theorem C121_program_two_images (hl : Honest libs) (hs : Arises libs g act main s)
    (ht : s.threads[t]? = some th) {m : Reader2 F} (ha : act th.code = .read2 r o m k)
    (hr : Holds s r img) (ho : Holds s o other) (hn : ¬ BeingChanged s r) (hno : ¬ BeingChanged s o) :
    GoesOn (s.step libs g act t) t k (Panics2 img other m) :=
  returns_goes (C119_read2 hs ht ha hr ho hn hno)
    (C121_two_images (C120_shape hl hs hr).1 (C120_shape hl hs ho).1 m)

omit [LawfulScalar F] [LawfulCast F] [Coords F] [SmallNat D] in
/-- C121: calls that change an image nobody else is using. -/
theorem C121_program_changes (hl : Honest libs) (hs : Arises libs g act main s)
    (ht : s.threads[t]? = some th) {m : Writer F G} (ha : act th.code = .write r m k)
    (hr : Holds s r img) (hn : ¬ BeingChanged s r) (hnr : ¬ BeingRead s r) :
    GoesOn (s.step libs g act t) t k (PanicsW img m) :=
  writes_goes (C119_write hs ht ha hr hn hnr) (C121_changes libs g (C120_shape hl hs hr).1 m)

omit [LawfulScalar F] [LawfulCast F] [Coords F] [SmallNat D] in
/-- C121: making an image. -/
theorem C121_program_making (hl : Honest libs) (ht : s.threads[t]? = some th) {c : Creator F D}
    (ha : act th.code = .create c k) (hc : Proper c) :
    GoesOn (s.step libs g act t) t k (PanicsC libs c) :=
  returns_goes (C119_create ht ha) (panics_wrap.trans (C121_making libs hl c hc))

end

/-! ## Examples -/

/-- An image with two pixels. -/
private def two : Image F := ⟨⟨2, 1, [Rgb.WHITE, Rgb.BLACK]⟩, none⟩

omit [FloatBytes F] [LawfulScalar F] [LawfulCast F] [Coords F] in
private theorem two_wellFormed : WellFormed (two (F := F)).buffer := 
  ⟨.inr ⟨show 0 < 2 by decide, show 0 < 1 by decide, show 2 * 1 ≤ 1073741823 by decide⟩, rfl⟩

/-- Non-vacuity: on this image some calls panic and others do not. -/
example (libs : Libs F) (g : Rng G F) :
    panics ((.gaussian_blur 40000 none : Reader F G).run (D := D) libs g two) ∧
    ¬ panics ((.gaussian_blur 3 none : Reader F G).run (D := D) libs g two) ∧
    panics ((.resize 0 5 (some "lanczos3") : Reader F G).run (D := D) libs g two) ∧
    ¬ panics ((.resize 0 5 (some "nonsense") : Reader F G).run (D := D) libs g two) ∧
    ¬ panics ((.resize 4 5 (some "auto") : Reader F G).run (D := D) libs g two) ∧
    panics ((.put_pixel 2 0 Rgb.WHITE : Writer F G).run libs g two) ∧
    ¬ panics ((.put_pixel 1 0 Rgb.WHITE : Writer F G).run libs g two) := by
  have hw := two_wellFormed (F := F)
  refine ⟨?_, ?_, ?_, ?_, ?_, ?_, ?_⟩
  · exact (C121_methods libs g hw (.gaussian_blur 40000 none) trivial).2 (by show 32767 < 40000; decide)
  · exact (C121_methods libs g hw (.gaussian_blur 3 none) trivial).not.2 (by show ¬ 32767 < 3; decide)
  · refine (C121_methods libs g hw _ ?_).2 ⟨?_, .inl ?_⟩
    · exact fun h => absurd h (by decide)
    · rintro n ⟨⟩; decide
    · rintro (⟨-, h⟩ | ⟨h, -⟩) <;> cases h
  · refine (C121_methods libs g hw _ ?_).not.2 ?_
    · exact fun h => absurd h (by decide)
    · rintro ⟨h, -⟩
      exact absurd (h _ rfl) (by decide)
  · refine (C121_methods libs g hw _ ?_).not.2 ?_
    · exact fun _ => ⟨show 2 ≤ 134217728 by decide, show 1 ≤ 134217728 by decide⟩
    · rintro ⟨-, h | ⟨h, -⟩⟩
      · exact h (.inr ⟨by decide, by decide, by decide⟩)
      · cases h
  · exact (C121_changes libs g hw _).2 (by show ¬ (2 < 2 ∧ 0 < 1); decide)
  · exact (C121_changes libs g hw _).not.2 (by show ¬ ¬ (1 < 2 ∧ 0 < 1); decide)

omit [LawfulScalar F] [LawfulCast F] [Coords F] [SmallNat D] in
/-- Non-vacuity: an array with one dimension makes the import panic, one with two dimensions does not,
and one that has rows without columns does. -/
example (libs : Libs F) (hl : Honest libs) :
    panics ((.from_np_array ⟨[3], .Uint8 [1, 2, 3]⟩ none : Creator F D).run libs) ∧
    ¬ panics ((.from_np_array ⟨[1, 3], .Uint8 [1, 2, 3]⟩ none : Creator F D).run libs) ∧
    panics ((.from_np_array ⟨[3, 0, 4], .Bool []⟩ (some "lcha") : Creator F D).run libs) := by
  have h1 : ProperArray (⟨[3], .Uint8 [1, 2, 3]⟩ : NpArray F D) :=
    ⟨by rintro l ⟨⟩; rfl, by show ∀ d ∈ [3], d < 2 ^ 32; decide⟩
  have h2 : ProperArray (⟨[1, 3], .Uint8 [1, 2, 3]⟩ : NpArray F D) :=
    ⟨by rintro l ⟨⟩; rfl, by show ∀ d ∈ [1, 3], d < 2 ^ 32; decide⟩
  have h3 : ProperArray (⟨[3, 0, 4], .Bool []⟩ : NpArray F D) :=
    ⟨by rintro l ⟨⟩; rfl, by show ∀ d ∈ [3, 0, 4], d < 2 ^ 32; decide⟩
  refine ⟨?_, ?_, ?_⟩
  · exact (C121_making libs hl (.from_np_array _ _) h1).2
      ⟨⟨_, .uint8 _⟩, .inl (by show [3].length < 2; decide)⟩
  · refine (C121_making libs hl (.from_np_array _ _) h2).not.2 ?_
    rintro ⟨-, h | ⟨h, w, h1, h2⟩⟩
    · exact absurd h (by show ¬ [1, 3].length < 2; decide)
    · cases h1
      exact h2 (.inr ⟨by decide, by decide, by decide⟩)
  · refine (C121_making libs hl (.from_np_array _ _) h3).2
      ⟨⟨_, .bool _⟩, .inr ⟨3, 0, .four _ _ _ (.inr ?_), ?_⟩⟩
    · exact ⟨("lch", .lch .D65 .O2), by simp [colourModels], .inr rfl⟩
    · rintro (⟨-, h⟩ | ⟨h, -⟩) <;> cases h

end
end D10
