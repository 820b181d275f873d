import Verif.Lemmas.Buffer

/-! # Helper lemmas about the traversal loops -/

namespace D10

open Spec PixelBuffer

variable {T U : Type}

theorem modLoop_eq {m : Type → Type} [Monad m] [LawfulMonad m] (f : T → m T) (done l : List T) :
    modLoop f done l = (fun r => done ++ r) <$> l.mapM f := by
  induction l generalizing done with
  | nil => simp [modLoop]
  | cons a as ih => simp [modLoop, List.mapM_cons, ih]

theorem collectResult_all_ok {E : Type} (f : T → Except E U) (g : T → U) (l : List T)
    (h : ∀ a ∈ l, f a = .ok (g a)) :
    collectResult (m := Id) (fun a => f a) l = .ok (l.map g) := by
  induction l with
  | nil => rfl
  | cons a as ih =>
    have := ih (fun b hb => h b (by simp [hb]))
    simp [collectResult, h a (by simp), this, bind, pure]

theorem collectResult_traced_ok {E : Type} (f : T → Except E U) (g : T → U) (l : List T)
    (h : ∀ a ∈ l, f a = .ok (g a)) (st : List T) :
    collectResult (m := StateM (List T)) (traced f) l st = (.ok (l.map g), st ++ l) := by
  induction l generalizing st with
  | nil => simp [collectResult, pure, StateT.pure]
  | cons a as ih =>
    have := ih (fun b hb => h b (by simp [hb])) (st ++ [a])
    simp [collectResult, traced, h a (by simp), bind, StateT.bind, pure] at this ⊢
    simp [this, StateT.pure, pure]

theorem collectResult_traced_err {E : Type} (f : T → Except E U) (g : T → U) (pre post : List T)
    (c : T) (e : E) (h : ∀ a ∈ pre, f a = .ok (g a)) (hc : f c = .error e) (st : List T) :
    collectResult (m := StateM (List T)) (traced f) (pre ++ c :: post) st =
      (.error e, st ++ pre ++ [c]) := by
  induction pre generalizing st with
  | nil => simp [collectResult, traced, hc, bind, StateT.bind, pure, StateT.pure]
  | cons a as ih =>
    have := ih (fun b hb => h b (by simp [hb])) (st ++ [a])
    simp [collectResult, traced, h a (by simp), bind, StateT.bind, pure] at this ⊢
    simp [this, StateT.pure, pure]

theorem tryModLoop_traced_ok {E : Type} (f : T → Except E T) (g : T → T) (l done : List T)
    (h : ∀ a ∈ l, f a = .ok (g a)) (st : List T) :
    tryModLoop (m := StateM (List T)) (traced f) done l st = ((done ++ l.map g, .ok ()), st ++ l) := by
  induction l generalizing st done with
  | nil => simp [tryModLoop, pure, StateT.pure]
  | cons a as ih =>
    have := ih (done ++ [g a]) (fun b hb => h b (by simp [hb])) (st ++ [a])
    simp [tryModLoop, traced, h a (by simp), bind, StateT.bind] at this ⊢
    simp [this]

theorem tryModLoop_traced_err {E : Type} (f : T → Except E T) (g : T → T) (pre post done : List T)
    (c : T) (e : E) (h : ∀ a ∈ pre, f a = .ok (g a)) (hc : f c = .error e) (st : List T) :
    tryModLoop (m := StateM (List T)) (traced f) done (pre ++ c :: post) st =
      ((done ++ pre.map g ++ c :: post, .error e), st ++ pre ++ [c]) := by
  induction pre generalizing st done with
  | nil => simp [tryModLoop, traced, hc, bind, StateT.bind, pure, StateT.pure]
  | cons a as ih =>
    have := ih (done ++ [g a]) (fun b hb => h b (by simp [hb])) (st ++ [a])
    simp [tryModLoop, traced, h a (by simp), bind, StateT.bind] at this ⊢
    simp [this]

theorem collectResult_run {E α : Type} (l : List α) (q : α → Except E T) :
    collectResult (m := R) (fun i => .ok (q i)) l =
      .ok (collectResult (m := Id) (fun i => q i) l) := by
  induction l with
  | nil => rfl
  | cons a as ih =>
    simp only [collectResult, ok_bind, ih]
    cases hq : q a with
    | error e => rfl
    | ok v =>
      cases hc : collectResult (m := Id) (fun i => q i) as with
      | error e => simp [pure, bind]; rfl
      | ok vs => simp [pure, bind]; rfl

theorem collectResult_err {E α : Type} {e : E} (pre post : List α) (c : α) (q : α → Except E T)
    (hq : ∀ a ∈ pre, ∃ u, q a = .ok u) (hc : q c = .error e) :
    collectResult (m := Id) (fun i => q i) (pre ++ c :: post) = .error e := by
  induction pre with
  | nil => simp [collectResult, hc, bind, pure]
  | cons a as ih =>
    obtain ⟨u, hu⟩ := hq a (by simp)
    simp [collectResult, hu, ih (fun b hb => hq b (by simp [hb])), bind, pure]

theorem collectResult_congr {E α : Type} (l : List α) (q q' : α → R (Except E T))
    (h : ∀ a ∈ l, q a = q' a) : collectResult (m := R) q l = collectResult (m := R) q' l := by
  induction l with
  | nil => rfl
  | cons a as ih =>
    simp only [collectResult, h a (by simp), ih (fun b hb => h b (by simp [hb]))]

theorem range_split {k n : Nat} (hk : k < n) :
    List.range n = List.range k ++ k :: (List.range (n - k - 1)).map (fun i => k + 1 + i) := by
  have h1 : n = k + (1 + (n - k - 1)) := by omega
  have h2 := congrArg List.range h1
  rw [List.range_add, List.range_add] at h2
  rw [h2]
  simp [Nat.add_assoc]

theorem before_of_lt {w x y i : Nat} (hx : x < w) (hi : i < x + y * w) :
    Before (i % w) (i / w) x y := by
  have hyi : i / w ≤ y := by
    have : i / w < y + 1 := by
      apply Nat.div_lt_of_lt_mul
      rw [Nat.mul_comm, Nat.succ_mul]; omega
    omega
  rcases Nat.lt_or_eq_of_le hyi with h' | h'
  · exact .inl h'
  · refine .inr ⟨h', ?_⟩
    have := Nat.mod_add_div i w
    rw [h', Nat.mul_comm] at this
    omega

theorem not_before_of_le {w x y i : Nat} (hx : x < w) (hi : x + y * w ≤ i) :
    ¬ Before (i % w) (i / w) x y := by
  have hw : 0 < w := by omega
  have hyi : y ≤ i / w := (Nat.le_div_iff_mul_le hw).2 (by omega)
  rintro (h' | ⟨h', h''⟩)
  · omega
  · have := Nat.mod_add_div i w
    rw [h', Nat.mul_comm] at this
    omega

theorem rows_split' {w h x y : Nat} (hx : x < w) (hy : y < h) (px : Nat → Nat → T) :
    ∃ pre post, rows w h px = pre ++ px x y :: post ∧
      (∀ a ∈ pre, ∃ x' y', x' < w ∧ y' < h ∧ Before x' y' x y ∧ a = px x' y') ∧
      (∀ a ∈ post, ∃ x' y', x' < w ∧ y' < h ∧ ¬ Before x' y' x y ∧ a = px x' y') := by
  have hlt := idx_lt hx hy
  refine ⟨(List.range (x + y * w)).map (fun i => px (i % w) (i / w)),
    ((List.range (w * h - (x + y * w) - 1)).map (fun i => x + y * w + 1 + i)).map
      (fun i => px (i % w) (i / w)), ?_, ?_, ?_⟩
  · rw [rows_eq_range, range_split hlt, List.map_append, List.map_cons, idx_mod hx, idx_div hx]
  · intro a ha
    obtain ⟨i, hi, rfl⟩ := List.mem_map.1 ha
    have hi : i < x + y * w := by simpa using hi
    exact ⟨_, _, mod_lt (h := h) (by omega), div_lt (by omega), before_of_lt hx hi, rfl⟩
  · intro a ha
    obtain ⟨i, hi, rfl⟩ := List.mem_map.1 ha
    obtain ⟨j, hj, rfl⟩ := List.mem_map.1 hi
    have hj : j < w * h - (x + y * w) - 1 := by simpa using hj
    exact ⟨_, _, mod_lt (h := h) (by omega), div_lt (by omega),
      not_before_of_le hx (by omega), rfl⟩

theorem rows_split {w h x y : Nat} (hx : x < w) (hy : y < h) (px : Nat → Nat → T) :
    ∃ pre post, rows w h px = pre ++ px x y :: post ∧
      (∀ a ∈ pre, ∃ x' y', x' < w ∧ y' < h ∧ Before x' y' x y ∧ a = px x' y') := by
  obtain ⟨pre, post, h1, h2, _⟩ := rows_split' hx hy px
  exact ⟨pre, post, h1, h2⟩

theorem tryModEnum_ok {E : Type} (b : PixelBuffer T) (f : Nat → Nat → T → Except E T)
    (g : Nat × Nat × T → T) (l : List (Nat × Nat × T))
    (h : ∀ a ∈ l, f a.1 a.2.1 a.2.2 = .ok (g a)) (done : List T) :
    try_mod_colors_enumerated.go b f done l = ({ b with data := done ++ l.map g }, .ok ()) := by
  induction l generalizing done with
  | nil => simp [try_mod_colors_enumerated.go]
  | cons a as ih =>
    obtain ⟨x, y, c⟩ := a
    have := h (x, y, c) (by simp)
    simp only at this
    simp only [try_mod_colors_enumerated.go, this]
    rw [ih (fun b hb => h b (by simp [hb]))]
    simp

theorem tryModEnum_err {E : Type} {e : E} (b : PixelBuffer T) (f : Nat → Nat → T → Except E T)
    (g : Nat × Nat × T → T) (pre post : List (Nat × Nat × T)) (x y : Nat) (c : T)
    (h : ∀ a ∈ pre, f a.1 a.2.1 a.2.2 = .ok (g a)) (hc : f x y c = .error e) (done : List T) :
    try_mod_colors_enumerated.go b f done (pre ++ (x, y, c) :: post) =
      ({ b with data := done ++ pre.map g ++ c :: post.map (fun p => p.2.2) }, .error e) := by
  induction pre generalizing done with
  | nil => simp [try_mod_colors_enumerated.go, hc]
  | cons a as ih =>
    obtain ⟨x', y', c'⟩ := a
    have := h (x', y', c') (by simp)
    simp only at this
    simp only [List.cons_append, try_mod_colors_enumerated.go, this]
    rw [ih (fun b hb => h b (by simp [hb]))]
    simp

theorem mapM_stateT_length {T U σ : Type} (f : T → StateT σ R U) (l : List T) (s s' : σ)
    (r : List U) (h : l.mapM f s = .ok (r, s')) : r.length = l.length := by
  induction l generalizing s r s' with
  | nil => cases h; rfl
  | cons a as ih =>
    rw [List.mapM_cons] at h
    simp only [bind, StateT.bind, Except.bind, pure, StateT.pure, Except.pure] at h
    split at h
    · cases h
    · rename_i v hv
      split at h
      · cases h
      · rename_i v2 hv2
        cases h
        simp [ih _ _ _ hv2]

theorem mapM_R_length {α U : Type} (f : α → R U) (l : List α)
    (r : List U) (h : l.mapM f = .ok r) : r.length = l.length := by
  induction l generalizing r with
  | nil => cases h; rfl
  | cons a as ih =>
    rw [List.mapM_cons] at h
    simp only [bind, Except.bind, pure, Except.pure] at h
    split at h
    · cases h
    · split at h
      · cases h
      · rename_i v2 hv2
        cases h
        simp [ih _ hv2]

theorem collectResult_R_length {α U E : Type} (f : α → R (Except E U)) (l : List α)
    (r : List U) (h : collectResult (m := R) f l = .ok (.ok r)) : r.length = l.length := by
  induction l generalizing r with
  | nil => cases h; rfl
  | cons a as ih =>
    simp only [collectResult, bind, Except.bind, pure, Except.pure] at h
    split at h
    · cases h
    · split at h
      · cases h
      · split at h
        · cases h
        · split at h
          · cases h
          · rename_i v2
            cases h
            simp [ih _ v2]

theorem collectResult_Id_length {α U E : Type} (f : α → Except E U) (l : List α)
    (r : List U) (h : collectResult (m := Id) (fun a => f a) l = .ok r) :
    r.length = l.length := by
  apply collectResult_R_length (E := E) (fun a => .ok (f a)) l r
  rw [collectResult_run, h]

theorem tryModLoop_length {T E : Type} (f : T → R (Except E T)) (l done : List T) (r) (q)
    (h : tryModLoop (m := R) f done l = .ok (r, q)) : r.length = done.length + l.length := by
  induction l generalizing done with
  | nil => cases h; rfl
  | cons a as ih =>
    simp only [tryModLoop, bind, Except.bind, pure, Except.pure] at h
    split at h
    · cases h
    · split at h
      · cases h; simp
      · have := ih _ h
        simp at this ⊢; omega

theorem tryModEnum_length {T E : Type} (b : PixelBuffer T) (f : Nat → Nat → T → Except E T)
    (l : List (Nat × Nat × T)) (done : List T) :
    (try_mod_colors_enumerated.go b f done l).1.data.length = done.length + l.length ∧
    (try_mod_colors_enumerated.go b f done l).1.width = b.width ∧
    (try_mod_colors_enumerated.go b f done l).1.height = b.height := by
  induction l generalizing done with
  | nil => exact ⟨rfl, rfl, rfl⟩
  | cons a as ih =>
    obtain ⟨x, y, c⟩ := a
    simp only [try_mod_colors_enumerated.go]
    split
    · simp
    · rename_i v hv
      have := ih (done ++ [v])
      simp at this ⊢
      refine ⟨?_, this.2⟩
      rw [this.1]; omega

theorem enumerate_length {T : Type} (b : PixelBuffer T) : b.enumerate.length = b.data.length := by
  simp [enumerate]

theorem new_from_funcM_wf {T σ : Type} {w h : Nat} {f : Nat → Nat → StateT σ R T} {s s'} {b}
    (hb : new_from_funcM (m := StateT σ R) w h f s = .ok (b, s')) : WellFormed b := by
  by_cases hv : ValidSize w h
  · have hm := hv.mul_le
    simp only [new_from_funcM, validate_ok hv, u32_ok (show w * h < 4294967296 by omega), bind,
      StateT.bind, Except.bind, liftM, monadLift, MonadLift.monadLift, StateT.lift, pure,
      Except.pure, StateT.pure] at hb
    split at hb
    · cases hb
    · rename_i v hv2
      cases hb
      exact ⟨hv, by have := mapM_stateT_length _ _ _ _ _ hv2; simpa using this⟩
  · simp [new_from_funcM, validate_err hv, bind,
      StateT.bind, Except.bind, liftM, monadLift, MonadLift.monadLift, StateT.lift] at hb

end D10
