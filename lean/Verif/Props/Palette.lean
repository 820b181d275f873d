import Verif.SpecPalette
import Verif.Props.Smooth

/-!
# C143: what matters of a palette
-/

namespace D10
open Spec
open Scalar (isNan)
open LawfulScalar

section
variable {F : Type} [Scalar F] [LawfulScalar F]

omit [LawfulScalar F] in
/-- Two palettes that choose the same entry for every pixel. -/
theorem palettes_same {b : PixelBuffer (Col F)} {w h px} (sh : Shows b w h px) (space : Space) {pal pal' : PixelBuffer (Col F)}
    (e : ∀ x y, x < w → y < h →
      ((pal.data.map (to_lab .D65 .O2 space)).foldl (paletteStep (to_lab .D65 .O2 .rgb (px x y))) (none, f32_MAX)).1 =
      ((pal'.data.map (to_lab .D65 .O2 space)).foldl (paletteStep (to_lab .D65 .O2 .rgb (px x y))) (none, f32_MAX)).1) :
    apply_palette b space pal = apply_palette b space pal' := by
  refine (C07_map_colors sh _).eq ((C07_map_colors sh _).congr fun x y hx hy => ?_)
  show to_rgb (.lab .D65 .O2) (((pal'.data.map (to_lab .D65 .O2 space)).foldl _ (none, f32_MAX)).1.getD Rgb.NONE) =
    to_rgb (.lab .D65 .O2) (((pal.data.map (to_lab .D65 .O2 space)).foldl _ (none, f32_MAX)).1.getD Rgb.NONE)
  rw [e x y hx hy]

/-- An entry that is not nearer than the best so far stays so. -/
theorem not_nearer (c : Col F) (l : List (Col F)) {u : F} : ∀ s : Option (Col F) × F, (u <. s.2) = false →
    (u <. (l.foldl (paletteStep c) s).2) = false := by
  induction l with
  | nil => exact fun s h => h
  | cons p l ih =>
    intro s h
    refine ih _ ?_
    unfold paletteStep
    simp only
    split
    · rename_i k
      by_contra hu
      rw [Bool.not_eq_false] at hu
      rw [lt_trans' hu k] at h
      cases h
    · exact h

/-- After an entry has been looked at, it is not nearer than the best so far. -/
theorem seen_not_nearer (c : Col F) {p : Col F} : ∀ (l : List (Col F)) (s : Option (Col F) × F), p ∈ l →
    (labDeltaE c p <. (l.foldl (paletteStep c) s).2) = false
  | [], _, h => absurd h List.not_mem_nil
  | q :: l, s, h => by
    rcases List.mem_cons.1 h with rfl | h
    · refine not_nearer c l _ ?_
      unfold paletteStep
      simp only
      split
      · exact lt_irrefl _
      · rename_i k
        simpa using k
    · exact seen_not_nearer c l _ h

/-- **Repeated entries.** A palette entry that occurs a second time can be left out, wherever it stands. The size of the palette
picture does not matter, only its list of colours. Any lawful number type: also 32-bit numbers, and entries without a distance. -/
theorem C143_repeated {b : PixelBuffer (Col F)} (hb : WellFormed b) (space : Space) {pal pal' : PixelBuffer (Col F)}
    {l m : List (Col F)} {p : Col F} (hp : p ∈ l) (h1 : pal.data = l ++ p :: m) (h2 : pal'.data = l ++ m) :
    apply_palette b space pal = apply_palette b space pal' := by
  obtain ⟨px, s⟩ := wf_shows (Rgb.NONE : Col F) hb
  refine palettes_same s space fun x y _ _ => ?_
  rw [h1, h2, List.map_append, List.map_append, List.map_cons, List.foldl_append, List.foldl_append, List.foldl_cons]
  have k := seen_not_nearer (to_lab .D65 .O2 .rgb (px x y)) (p := to_lab .D65 .O2 space p) (l.map (to_lab .D65 .O2 space))
    (none, f32_MAX) (List.mem_map_of_mem hp)
  congr 2
  unfold paletteStep at k ⊢
  simp only at k ⊢
  rw [k]
  rfl

/-- **The order of the palette** matters only for pixels that are equally far from two different entries. -/
theorem C143_order {b : PixelBuffer (Col F)} {w h px} (sh : Shows b w h px) (space : Space) {pal pal' : PixelBuffer (Col F)}
    (hperm : pal.data.Perm pal'.data) (hties : ∀ x y, x < w → y < h → NoTies space pal.data (px x y)) :
    apply_palette b space pal = apply_palette b space pal' := by
  refine palettes_same sh space fun x y hx hy => ?_
  have t := hties x y hx hy
  have s1 := palette_search (to_lab .D65 .O2 .rgb (px x y)) (pal.data.map (to_lab .D65 .O2 space))
  have s2 := palette_search (to_lab .D65 .O2 .rgb (px x y)) (pal'.data.map (to_lab .D65 .O2 space))
  simp only [List.map_map] at s1 s2
  rcases s1 with ⟨k, p, hk, e, v, hv, lv, least, -⟩ | ⟨e, none1⟩ <;>
    rcases s2 with ⟨k', p', hk', e', v', hv', lv', least', -⟩ | ⟨e', none2⟩
  · rw [e, e']
    rw [List.getElem?_map, Option.map_eq_some_iff] at hk hk'
    obtain ⟨q, hq, rfl⟩ := hk
    obtain ⟨q', hq', rfl⟩ := hk'
    rw [List.getElem?_map, hq, Option.map_some, Option.some.injEq] at hv
    rw [List.getElem?_map, hq', Option.map_some, Option.some.injEq] at hv'
    have mq : q ∈ pal.data := List.mem_of_getElem? hq
    have mq' : q' ∈ pal'.data := List.mem_of_getElem? hq'
    have a : (v' <. v) = false := by
      obtain ⟨j, hj⟩ := List.mem_iff_getElem?.1 (hperm.mem_iff.2 mq')
      exact least j v' (by rw [List.getElem?_map, hj, Option.map_some, hv'])
    have a' : (v <. v') = false := by
      obtain ⟨j, hj⟩ := List.mem_iff_getElem?.1 (hperm.mem_iff.1 mq)
      exact least' j v (by rw [List.getElem?_map, hj, Option.map_some, hv])
    have n : isNan v = false := not_nan_of_lt_left lv
    have n' : isNan v' = false := not_nan_of_lt_left lv'
    have d : away space (px x y) q = v := hv
    have d' : away space (px x y) q' = v' := hv'
    rcases t q mq q' (hperm.mem_iff.2 mq') with rfl | k | k | k | k
    · rfl
    · rw [d, n] at k; cases k
    · rw [d', n'] at k; cases k
    · rw [d, d', a'] at k; cases k
    · rw [d, d', a] at k; cases k
  · have m := (hperm.map (distance (to_lab .D65 .O2 .rgb (px x y)) ∘ to_lab .D65 .O2 space)).mem_iff.1 (List.mem_of_getElem? hv)
    rw [none2 v m] at lv; cases lv
  · have m := (hperm.map (distance (to_lab .D65 .O2 .rgb (px x y)) ∘ to_lab .D65 .O2 space)).mem_iff.2 (List.mem_of_getElem? hv')
    rw [none1 v' m] at lv'; cases lv'
  · rw [e, e']

/-- **More entries.** A pixel is never mapped to an entry further away because the palette has more entries: for both palettes the
result is that of some entry, and the entry of the larger palette is not further away. -/
theorem C143_more {b : PixelBuffer (Col F)} {w h px} (sh : Shows b w h px) (space : Space) {pal pal' : PixelBuffer (Col F)}
    (hsub : ∀ p ∈ pal.data, p ∈ pal'.data)
    (hnear : ∀ x y, x < w → y < h → ∃ p ∈ pal.data, (away space (px x y) p <. lit greatest) = true) :
    ∃ q q', Shows (apply_palette b space pal) w h q ∧ Shows (apply_palette b space pal') w h q' ∧
      ∀ x y, x < w → y < h → ∃ p ∈ pal.data, ∃ p' ∈ pal'.data,
        q x y = to_rgb (.lab .D65 .O2) (to_lab .D65 .O2 space p) ∧ q' x y = to_rgb (.lab .D65 .O2) (to_lab .D65 .O2 space p') ∧
        (away space (px x y) p <. away space (px x y) p') = false := by
  obtain ⟨q, s, hs⟩ := C39_apply_palette sh space pal
  obtain ⟨q', s', hs'⟩ := C39_apply_palette sh space pal'
  refine ⟨q, q', s, s', fun x y hx hy => ?_⟩
  obtain ⟨p0, m0, l0⟩ := hnear x y hx hy
  rcases hs x y hx hy with ⟨k, p, hk, -, e⟩ | ⟨no, -⟩
  · rcases hs' x y hx hy with ⟨k', p', hk', ⟨v, hv, -, least, -⟩, e'⟩ | ⟨no, -⟩
    · refine ⟨p, List.mem_of_getElem? hk, p', List.mem_of_getElem? hk', e, e', ?_⟩
      rw [List.getElem?_map, hk', Option.map_some, Option.some.injEq] at hv
      obtain ⟨j, hj⟩ := List.mem_iff_getElem?.1 (hsub p (List.mem_of_getElem? hk))
      show (_ <. distance _ _) = false
      rw [hv]
      exact least j _ (by rw [List.getElem?_map, hj, Option.map_some]; rfl)
    · have := no _ (List.mem_map_of_mem (hsub p0 m0))
      have l1 : (distance (to_lab .D65 .O2 .rgb (px x y)) (to_lab .D65 .O2 space p0) <. lit greatest) = true := l0
      rw [this] at l1; cases l1
  · have := no _ (List.mem_map_of_mem m0)
    have l1 : (distance (to_lab .D65 .O2 .rgb (px x y)) (to_lab .D65 .O2 space p0) <. lit greatest) = true := l0
    rw [this] at l1; cases l1

end

section
variable [Junk]

/-- **Ties and transparency.** Opacity does not count as distance: of two entries with the colour of the pixel the first one is taken, whatever
the opacity of the pixel is. Exchanging the entries changes the result. -/
theorem C143_opacity {b pal : PixelBuffer (Col ℝ)} {w h : Nat} {c : Col ℝ} (sh : Shows b w h fun _ _ => c) (hc : Spec.Unit c) {s t : ℝ}
    (hs : 0 ≤ s ∧ s ≤ 1) (ht : 0 ≤ t ∧ t ≤ 1) (hp : pal.data = [{ c with alpha := s }, { c with alpha := t }]) :
    ∃ q, Shows (apply_palette b .rgb pal) w h q ∧ ∀ x y, x < w → y < h → (q x y).alpha = s := by
  have unit : ∀ {s : ℝ}, 0 ≤ s ∧ s ≤ 1 → Spec.Unit { c with alpha := s } := fun k =>
    ⟨hc.r0, hc.r1, hc.g0, hc.g1, hc.b0, hc.b1, k.1, k.2⟩
  obtain ⟨q, e, k⟩ := C39_nearest sh (fun _ _ _ _ => hc) pal (by
    intro p m
    rw [hp] at m
    simp only [List.mem_cons, List.not_mem_nil, or_false] at m
    rcases m with rfl | rfl
    exacts [unit hs, unit ht]) (by rw [hp]; simp)
  refine ⟨q, e, fun x y hx hy => ?_⟩
  obtain ⟨i, p, hi, -, first, -, ea⟩ := k x y hx hy
  rw [ea]
  rw [hp] at hi first
  match i, hi with
  | 0, hi => rw [← Option.some.inj hi]
  | 1, hi =>
    exfalso
    have := first 0 { c with alpha := s } (by norm_num) rfl
    rw [← Option.some.inj hi] at this
    exact absurd this (lt_irrefl _)

/-! ## The hypotheses can be met -/

/-- A black pixel is not equally far from white and black, both given in XYZ. -/
example : NoTies .xyz [⟨(whitePoint .D65 .O2).1, (whitePoint .D65 .O2).2.1, (whitePoint .D65 .O2).2.2, 1⟩, ⟨0, 0, 0, 1⟩] (⟨0, 0, 0, 1⟩ : Col ℝ) := by
  have z : to_xyz .rgb (⟨0, 0, 0, 1⟩ : Col ℝ) = ⟨0, 0, 0, 1⟩ := by
    unfold to_xyz Rgb.to_xyz
    show apply_matrix (⟨0, 0, 0, 1⟩ : Col ℝ) _ _ _ = _
    unfold apply_matrix
    ex_simp
    norm_num
  have b : to_lab .D65 .O2 .rgb (⟨0, 0, 0, 1⟩ : Col ℝ) = ⟨0, 0, 0, 1⟩ := by
    have e : to_lab .D65 .O2 .rgb (⟨0, 0, 0, 1⟩ : Col ℝ) = to_lab .D65 .O2 .xyz (to_xyz .rgb (⟨0, 0, 0, 1⟩ : Col ℝ)) := rfl
    rw [e, z, (C72_white .D65 .O2 1).2]
  have a0 : away .xyz (⟨0, 0, 0, 1⟩ : Col ℝ) ⟨(whitePoint .D65 .O2).1, (whitePoint .D65 .O2).2.1, (whitePoint .D65 .O2).2.2, 1⟩ = 1 := by
    unfold away
    rw [b, (C72_white .D65 .O2 1).1, distance_eq]
    simp
  have a1 : away .xyz (⟨0, 0, 0, 1⟩ : Col ℝ) ⟨0, 0, 0, 1⟩ = 0 := by
    unfold away
    rw [b, (C72_white .D65 .O2 1).2, distance_eq]
    simp
  intro p hp q hq
  simp only [List.mem_cons, List.not_mem_nil, or_false] at hp hq
  rcases hp with rfl | rfl <;> rcases hq with rfl | rfl
  · exact .inl rfl
  · refine .inr (.inr (.inr (.inr ?_)))
    rw [a0, a1]; simp [Exact.lt]
  · refine .inr (.inr (.inr (.inl ?_)))
    rw [a0, a1]; simp [Exact.lt]
  · exact .inl rfl

end

end D10
