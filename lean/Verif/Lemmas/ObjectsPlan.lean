import Verif.Lemmas.ObjectsHistory
import Verif.Lemmas.Geometry
import Verif.Props.Buffer

/-!
# Objects, callbacks and threads: what a call asks and makes

Lemmas for property C119.
-/

namespace D10.Python
open D10.Spec

section
set_option linter.unusedSectionVars false
variable {F D G E K : Type} [Scalar F] [Scalar D] [Widen F D] [FloatBytes F]

/-- What a call returns. -/
def outOf (made : CallMakes F) (cs : List (Col F)) : Out F D :=
  match made with
  | .changes _ _ => .value .none
  | .makes img => .image (img cs)

/-- What has to be known about a call. -/
structure Fits (h : Heap F) (call : Call F K) (codes : List K) (made : CallMakes F) : Prop where
  next : ∀ n, ∃ q, call.next (h.images call.refs) n = .ok (codes[n]?.map fun code => (q, code))
  check : call.check (h.images call.refs) = .ok ()
  result : ∀ cs imgs, (call.mode = .shared → imgs = h.images call.refs) →
    call.result (D := D) imgs cs = .ok (outOf made cs)
  valid : ∀ r ∈ call.refs, r < h.length
  made : match made with
    | .changes r img => call.mode = .exclusive ∧ call.refs = [r] ∧ ∃ b, h.images [r] = [b] ∧
        (∀ cs, img cs = { b with buffer := { b.buffer with data := cs } }) ∧
        codes.length = b.buffer.data.length
    | .makes _ => call.mode = .shared

theorem index_singleton {α : Type} (a : α) : index [a] 0 = .ok a := rfl

theorem rows_length' {α : Type} (w h : Nat) (px : Nat → Nat → α) : (rows w h px).length = w * h := by
  rw [rows_eq_range, List.length_map, List.length_range]

theorem rows_code {α β : Type} (w h : Nat) (px : Nat → Nat → α) (n : Nat) (f : Nat → Nat → α → β)
    (hv : ValidSize w h) :
    ((rows w h px)[n]?.map fun c => f (n % 2 ^ 32 % w) (n % 2 ^ 32 / w) c) =
      (rows w h fun x y => f x y (px x y))[n]? := by
  have hm := hv.mul_le
  rw [rows_eq_range, rows_eq_range, List.getElem?_map, List.getElem?_map, Option.map_map]
  rcases Nat.lt_or_ge n (w * h) with hn | hn
  · rw [List.getElem?_range hn]
    have : n % 2 ^ 32 = n := Nat.mod_eq_of_lt (by omega)
    rw [this]
    rfl
  · rw [List.getElem?_eq_none_iff.2 (by rw [List.length_range]; exact hn)]
    rfl

theorem heap_of_holds {s : Python.State F D E K} {r : Ref} {img : Image F} (h : Holds s r img) :
    s.heap.images [r] = [img] ∧ r < s.heap.length := by
  obtain ⟨c, hc, rfl⟩ := h
  exact ⟨images_singleton hc, lt_of_getElem? hc⟩

theorem images_of_holds {s : Python.State F D E K} {rs : List Ref} {imgs : List (Image F)}
    (h : List.Forall₂ (Holds s) rs imgs) :
    s.heap.images rs = imgs ∧ ∀ r ∈ rs, r < s.heap.length := by
  induction h with
  | nil => exact ⟨rfl, fun r hr => by cases hr⟩
  | cons h1 _ ih =>
    obtain ⟨c, hc, rfl⟩ := h1
    refine ⟨?_, fun r hr => ?_⟩
    · unfold Heap.images
      rw [List.filterMap_cons_some (by rw [hc]; rfl)]
      exact congrArg _ ih.1
    · rcases List.mem_cons.1 hr with rfl | hr
      · exact lt_of_getElem? hc
      · exact ih.2 r hr

theorem next_plain (func : Col F → K) (img : Image F) (n : Nat) : ∃ q : Question F, (do
    let img ← index [img] 0
    match img.data[n]? with
    | some c => return some (⟨n % img.width, n / img.width, [c]⟩, func c)
    | none => return none : R (Option (Question F × K))) =
      .ok ((img.buffer.data.map func)[n]?.map fun code => (q, code)) := by
  rw [index_singleton]
  cases hc : img.buffer.data[n]? with
  | none =>
    have hc' : img.data[n]? = none := hc
    refine ⟨⟨0, 0, []⟩, ?_⟩
    simp only [bind, Except.bind, hc', List.getElem?_map, hc]
    rfl
  | some c =>
    have hc' : img.data[n]? = some c := hc
    refine ⟨⟨n % img.width, n / img.width, [c]⟩, ?_⟩
    simp only [bind, Except.bind, hc', List.getElem?_map, hc]
    rfl

theorem next_enumerated (func : Int → Int → Col F → K) (img : Image F) (n : Nat) {w h px}
    (hs : Shows img.buffer w h px) : ∃ q : Question F, (do
    let img ← index [img] 0
    match img.buffer.enumerate[n]? with
    | some (x, y, c) => return some (⟨x, y, [c]⟩, func (asI32 x) (asI32 y) c)
    | none => return none : R (Option (Question F × K))) =
      .ok ((rows w h fun x y => func x y (px x y))[n]?.map fun code => (q, code)) := by
  have hm := hs.size.mul_le
  rw [index_singleton, ← rows_code w h px n (fun x y c => func x y c) hs.size, ← hs.pixels]
  have he := getElem?_enumerate img.buffer n
  rw [hs.width] at he
  cases hc : img.buffer.data[n]? with
  | none =>
    rw [hc] at he
    refine ⟨⟨0, 0, []⟩, ?_⟩
    simp only [bind, Except.bind, he, Option.map_none]
    rfl
  | some c =>
    rw [hc] at he
    have hn : n < w * h := by
      have := lt_of_getElem? hc
      rw [hs.pixels, rows_length'] at this
      exact this
    have hw := hs.size.width_le
    have hh := hs.size.height_le
    have h1 := mod_lt hn
    have h2 := div_lt hn
    have h3 : n % 2 ^ 32 = n := Nat.mod_eq_of_lt (by omega)
    refine ⟨⟨n % w, n / w, [c]⟩, ?_⟩
    simp only [bind, Except.bind, he, Option.map_some, h3]
    rw [asI32_of_lt (by omega), asI32_of_lt (by omega)]
    rfl

theorem colourAt_get (d : Col F) {img : Image F} (hwf : WellFormed img.buffer) {x y : Nat}
    (hx : x < 2147483648) (hy : y < 2147483648) :
    (do match ← img.get_pixel_optional (asI32 x) (asI32 y) with
        | some v => pure v
        | none => pure d : R (Col F)) = .ok (colourAt d img x y) := by
  let _ : Inhabited (Col F) := ⟨d⟩
  have sh := shows_of_wellFormed hwf
  have e : img.get_pixel_optional (asI32 x) (asI32 y) =
      img.buffer.get_pixel_optional (asI32 x) (asI32 y) := rfl
  rw [e, asI32_of_lt hx, asI32_of_lt hy, C05_get_pixel_optional sh]
  unfold colourAt
  by_cases h : x < img.buffer.width ∧ y < img.buffer.height
  · rw [if_pos h, if_pos (by omega)]
    rfl
  · rw [if_neg h, if_neg (by omega)]
    rfl

theorem plan_fits {s : Python.State F D E K} {a : Act F D G E K} {codes : List K}
    {k : Except (Exc E) (Value F D) → K} {made : CallMakes F} (p : Plan s a codes k made) :
    ∃ call, begins a = some (call, k) ∧ Fits (D := D) s.heap call codes made := by
  cases p with
  | map_colors h =>
    rename_i r img f
    obtain ⟨hi, hlt⟩ := heap_of_holds h
    refine ⟨.map_colors r f, rfl, ⟨fun n => ?_, rfl, fun cs imgs he => ?_, ?_, rfl⟩⟩
    · show ∃ q, Call.next (s.heap.images [r]) n _ = _
      rw [hi]
      exact next_plain f img n
    · rw [he rfl]
      show Call.result (s.heap.images [r]) cs _ = _
      rw [hi]
      rfl
    · intro q hq
      rw [List.mem_singleton.1 hq]
      exact hlt
  | mod_colors h =>
    rename_i r img f
    obtain ⟨hi, hlt⟩ := heap_of_holds h
    refine ⟨.mod_colors r f, rfl, ⟨fun n => ?_, rfl, fun cs imgs he => rfl, ?_, rfl, rfl, img, hi,
      fun _ => rfl, List.length_map ..⟩⟩
    · show ∃ q, Call.next (s.heap.images [r]) n _ = _
      rw [hi]
      exact next_plain f img n
    · intro q hq
      rw [List.mem_singleton.1 hq]
      exact hlt
  | map_colors_enumerated h hs =>
    rename_i r img f w h' px
    obtain ⟨hi, hlt⟩ := heap_of_holds h
    refine ⟨.map_colors_enumerated r f, rfl, ⟨fun n => ?_, rfl, fun cs imgs he => ?_, ?_, rfl⟩⟩
    · show ∃ q, Call.next (s.heap.images [r]) n _ = _
      rw [hi]
      exact next_enumerated f img n hs
    · rw [he rfl]
      show Call.result (s.heap.images [r]) cs _ = _
      rw [hi]
      rfl
    · intro q hq
      rw [List.mem_singleton.1 hq]
      exact hlt
  | mod_colors_enumerated h hs =>
    rename_i r img f w h' px
    obtain ⟨hi, hlt⟩ := heap_of_holds h
    refine ⟨.mod_colors_enumerated r f, rfl, ⟨fun n => ?_, rfl, fun cs imgs he => rfl, ?_, rfl, rfl,
      img, hi, fun _ => rfl, ?_⟩⟩
    · show ∃ q, Call.next (s.heap.images [r]) n _ = _
      rw [hi]
      exact next_enumerated f img n hs
    · intro q hq
      rw [List.mem_singleton.1 hq]
      exact hlt
    · rw [rows_length', hs.pixels, rows_length']
  | compose h hwf hW hH hv =>
    rename_i r rs img imgs f d W H
    obtain ⟨hi, hlt⟩ := images_of_holds h
    have hmw : maxUnwrap ((img :: imgs).map fun i => i.width) = .ok W := by
      apply maxUnwrap_spec
      · obtain ⟨⟨b, h, e⟩, _⟩ := hW; exact List.mem_map.2 ⟨b, h, e⟩
      · intro n hn
        obtain ⟨b, h, rfl⟩ := List.mem_map.1 hn
        exact hW.2 b h
    have hmh : maxUnwrap ((img :: imgs).map fun i => i.height) = .ok H := by
      apply maxUnwrap_spec
      · obtain ⟨⟨b, h, e⟩, _⟩ := hH; exact List.mem_map.2 ⟨b, h, e⟩
      · intro n hn
        obtain ⟨b, h, rfl⟩ := List.mem_map.1 hn
        exact hH.2 b h
    have hm := hv.mul_le
    refine ⟨.compose (r :: rs) (d.getD Rgb.NONE) f, rfl, ⟨fun n => ?_, ?_, fun cs imgs he => ?_, ?_, rfl⟩⟩
    · show ∃ q, Call.next (s.heap.images (r :: rs)) n _ = _
      rw [hi]
      unfold Call.next
      simp only
      rw [hmw, ok_bind, hmh, ok_bind]
      rw [rows_eq_range, List.getElem?_map]
      by_cases hn : n < W * H
      · rw [if_pos hn, List.getElem?_range hn]
        have hc : coloursAt (img :: imgs) (d.getD Rgb.NONE) (n % W) (n / W) =
            .ok ((img :: imgs).map fun i => colourAt (d.getD Rgb.NONE) i (n % W) (n / W)) := by
          unfold coloursAt
          apply mapM_ok
          intro i hii
          have h1 := mod_lt hn
          have h2 := div_lt hn
          have hw := hv.width_le
          have hh := hv.height_le
          exact colourAt_get _ (hwf i hii) (by omega) (by omega)
        rw [hc, ok_bind]
        exact ⟨_, rfl⟩
      · rw [if_neg hn, List.getElem?_eq_none_iff.2 (by rw [List.length_range]; omega)]
        exact ⟨⟨0, 0, []⟩, rfl⟩
    · show Call.check (s.heap.images (r :: rs)) _ = _
      rw [hi]
      unfold Call.check
      simp only
      rw [hmw, hmh, assert_ok (by rfl)]
      simp only [ok_bind]
      rw [validate_ok hv, u32_ok (by omega)]
      rfl
    · rw [he rfl]
      show Call.result (s.heap.images (r :: rs)) cs _ = _
      rw [hi]
      unfold Call.result
      simp only
      rw [hmw, hmh]
      rfl
    · exact hlt

end
end D10.Python
