import Verif.Props.Buffer

/-! # C01: every reachable buffer is well formed -/

namespace D10

open Spec PixelBuffer

/-- The buffers a program can hold: results of the public constructors of
d10-core/src/pixelbuffer.rs, closed under its public operations (with arbitrary, stateful and
panicking closures), under writing through `data_mut` (a mutable slice: same length, any contents),
and under changing the pixel type with the mapping operations. -/
inductive Reachable : (T : Type) → PixelBuffer T → Prop
  | new (T : Type) (d : T) (w h : Nat) (b) : new d w h = .ok b → Reachable T b
  | new_with_color (T : Type) (w h : Nat) (c : T) (b) :
      new_with_color w h c = .ok b → Reachable T b
  | new_from_raw (T : Type) (w h : Nat) (d : List T) (b) : new_from_raw w h d = .ok b → Reachable T b
  | new_from_func (T σ : Type) (w h : Nat) (f : Nat → Nat → StateT σ R T) (s s') (b) :
      new_from_funcM (m := StateT σ R) w h f s = .ok (b, s') → Reachable T b
  | try_new_from_func (T E : Type) (w h : Nat) (f : Nat → Nat → R (Except E T)) (b) :
      try_new_from_func (m := R) w h f = .ok (.ok b) → Reachable T b
  | put_pixel (T : Type) (b b' : PixelBuffer T) (x y : Nat) (c : T) :
      Reachable T b → b.put_pixel x y c = .ok b' → Reachable T b'
  | data_mut (T : Type) (b : PixelBuffer T) (d : List T) :
      Reachable T b → d.length = b.data.length → Reachable T { b with data := d }
  | map_colors (T U σ : Type) (b : PixelBuffer T) (f : T → StateT σ R U) (s s') (b') :
      Reachable T b → b.map_colorsM (m := StateT σ R) f s = .ok (b', s') → Reachable U b'
  | mod_colors (T σ : Type) (b : PixelBuffer T) (f : T → StateT σ R T) (s s') (b') :
      Reachable T b → b.mod_colorsM (m := StateT σ R) f s = .ok (b', s') → Reachable T b'
  | try_mod_colors (T E : Type) (b : PixelBuffer T) (f : T → R (Except E T)) (b') (r) :
      Reachable T b → b.try_mod_colors (m := R) f = .ok (b', r) → Reachable T b'
  | try_map_colors (T U E : Type) (b : PixelBuffer T) (f : T → R (Except E U)) (b') :
      Reachable T b → b.try_map_colors (m := R) f = .ok (.ok b') → Reachable U b'
  | mod_colors_enumerated (T : Type) (b : PixelBuffer T) (f : Nat → Nat → T → R T) (b') :
      Reachable T b → b.mod_colors_enumerated f = .ok b' → Reachable T b'
  | map_colors_enumerated (T : Type) (b : PixelBuffer T) (f : Nat → Nat → T → R T) (b') :
      Reachable T b → b.map_colors_enumerated f = .ok b' → Reachable T b'
  | try_mod_colors_enumerated (T E : Type) (b : PixelBuffer T) (f : Nat → Nat → T → Except E T) :
      Reachable T b → Reachable T (b.try_mod_colors_enumerated f).1
  | try_map_colors_enumerated (T E : Type) (b : PixelBuffer T) (f : Nat → Nat → T → Except E T)
      (b') : Reachable T b → b.try_map_colors_enumerated f = .ok b' → Reachable T b'

/-- **C01** Every buffer a program can hold is empty (0 x 0) or has between 1 and 1073741823 pixels,
and stores exactly width * height pixels. -/
theorem C01_reachable_wellFormed {T : Type} {b : PixelBuffer T} (hr : Reachable T b) :
    WellFormed b := by
  induction hr with
  | new T d w h b hb =>
    by_cases hv : ValidSize w h
    · obtain ⟨b', h1, s⟩ := (C02_new d w h).1 hv
      rw [hb] at h1; cases h1; exact s.wellFormed
    · rw [(C02_new d w h).2 hv] at hb; cases hb
  | new_with_color T w h c b hb =>
    by_cases hv : ValidSize w h
    · obtain ⟨b', h1, s⟩ := (C02_new_with_color w h c).1 hv
      rw [hb] at h1; cases h1; exact s.wellFormed
    · rw [(C02_new_with_color w h c).2 hv] at hb; cases hb
  | new_from_raw T w h d b hb =>
    by_cases hv : ValidSize w h ∧ d.length = w * h
    · have := ((C02_new_from_raw w h d).1 hv).1
      rw [hb] at this; cases this; exact hv
    · obtain ⟨e, he⟩ := (C02_new_from_raw w h d).2 hv
      rw [hb] at he; cases he
  | new_from_func T σ w h f s s' b hb => exact new_from_funcM_wf hb
  | try_new_from_func T E w h f b hb =>
    by_cases hv : ValidSize w h
    · have hm := hv.mul_le
      simp only [try_new_from_func, validate_ok hv, u32_ok (show w * h < 4294967296 by omega), bind,
        Except.bind, liftM, monadLift, pure, Except.pure] at hb
      split at hb
      · cases hb
      · split at hb
        · cases hb
        · rename_i v
          cases hb
          exact ⟨hv, by have := collectResult_R_length _ _ _ v; simpa using this⟩
    · simp [try_new_from_func, validate_err hv, liftM, monadLift] at hb
  | put_pixel T b b' x y c _ hb ih =>
    simp only [put_pixel, assert, u32, setIndex, bind, Except.bind, pure, Except.pure] at hb
    repeat' split at hb
    all_goals first | cases hb | skip
    rename_i h1 _ _ _ _ h2
    split at h2
    · cases h2; exact ⟨ih.1, by simpa using ih.2⟩
    · cases h2
  | data_mut T b d _ hd ih => exact ⟨ih.1, by simpa [hd] using ih.2⟩
  | map_colors T U σ b f s s' b' _ hb ih =>
    simp only [map_colorsM, bind, StateT.bind, Except.bind, pure, StateT.pure, Except.pure] at hb
    split at hb
    · cases hb
    · rename_i v hv
      cases hb
      exact ⟨ih.1, by have := mapM_stateT_length _ _ _ _ _ hv; simpa [this] using ih.2⟩
  | mod_colors T σ b f s s' b' _ hb ih =>
    rw [C07_mod_eq_map] at hb
    simp only [map_colorsM, bind, StateT.bind, Except.bind, pure, StateT.pure, Except.pure] at hb
    split at hb
    · cases hb
    · rename_i v hv
      cases hb
      exact ⟨ih.1, by have := mapM_stateT_length _ _ _ _ _ hv; simpa [this] using ih.2⟩
  | try_mod_colors T E b f b' r _ hb ih =>
    simp only [try_mod_colors, bind, Except.bind, pure, Except.pure] at hb
    split at hb
    · cases hb
    · rename_i v hv
      cases hb
      exact ⟨ih.1, by have := tryModLoop_length _ _ _ _ _ hv; simpa [this] using ih.2⟩
  | try_map_colors T U E b f b' _ hb ih =>
    simp only [try_map_colors, bind, Except.bind, pure, Except.pure] at hb
    split at hb
    · cases hb
    · split at hb
      · cases hb
      · rename_i v
        cases hb
        exact ⟨ih.1, by have := collectResult_R_length _ _ _ v; simpa [this] using ih.2⟩
  | mod_colors_enumerated T b f b' _ hb ih =>
    rw [C07_mod_colors_enumerated] at hb
    simp only [map_colors_enumerated, bind, Except.bind, pure, Except.pure] at hb
    split at hb
    · cases hb
    · rename_i v
      cases hb
      exact ⟨ih.1, by have := mapM_R_length _ _ _ v; simpa [this, enumerate_length] using ih.2⟩
  | map_colors_enumerated T b f b' _ hb ih =>
    simp only [map_colors_enumerated, bind, Except.bind, pure, Except.pure] at hb
    split at hb
    · cases hb
    · rename_i v
      cases hb
      exact ⟨ih.1, by have := mapM_R_length _ _ _ v; simpa [this, enumerate_length] using ih.2⟩
  | try_mod_colors_enumerated T E b f _ ih =>
    obtain ⟨h1, h2, h3⟩ := tryModEnum_length b f b.enumerate []
    unfold try_mod_colors_enumerated
    refine ⟨by rw [h2, h3]; exact ih.1, ?_⟩
    rw [h1, h2, h3, enumerate_length, ← ih.2]; simp
  | try_map_colors_enumerated T E b f b' _ hb ih =>
    simp only [try_map_colors_enumerated, Id.run, bind, Except.bind, pure, Except.pure] at hb
    split at hb
    · cases hb
    · rename_i v
      cases hb
      exact ⟨ih.1, by
        have := collectResult_Id_length _ _ _ v
        simpa [this, enumerate_length] using ih.2⟩

/-- Conversely every valid size and every contents are reachable, so C01 is exact. -/
theorem C01_wellFormed_reachable {T : Type} {b : PixelBuffer T} (hb : WellFormed b) :
    Reachable T b := .new_from_raw T _ _ _ _ (new_from_raw_ok hb.1 hb.2)

example : ∃ b : PixelBuffer Nat, Reachable Nat b ∧ b.data = [7, 8, 9, 9, 9, 9] :=
  ⟨⟨3, 2, [7, 8, 9, 9, 9, 9]⟩, .put_pixel _ ⟨3, 2, [9, 8, 9, 9, 9, 9]⟩ _ 0 0 7
    (.put_pixel _ ⟨3, 2, [9, 9, 9, 9, 9, 9]⟩ _ 1 0 8 (.new_with_color _ 3 2 9 _ rfl) rfl) rfl, rfl⟩

end D10
