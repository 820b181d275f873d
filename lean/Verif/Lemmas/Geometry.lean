import Mathlib.Data.List.Perm.Subperm
import Verif.Lemmas.Traverse
import Verif.Model.Geometry

/-! # Helper lemmas for the geometric operations -/

namespace D10

open Spec

variable {T : Type}

theorem applyWrites_consistent (l : List T) (ws : List (Nat × T)) (i : Nat) (v : T)
    (hex : l[i]? = some v ∨ (i < l.length ∧ ∃ w ∈ ws, w.1 = i))
    (hall : ∀ w ∈ ws, w.1 = i → w.2 = v) : (applyWrites l ws)[i]? = some v := by
  induction ws generalizing l with
  | nil =>
    rcases hex with h | ⟨_, w, hw, _⟩
    · exact h
    · cases hw
  | cons w ws ih =>
    simp only [applyWrites, List.foldl_cons]
    apply ih
    · by_cases hw : w.1 = i
      · left
        have hi : i < l.length := by
          rcases hex with h | ⟨h, _⟩
          · exact (List.getElem?_eq_some_iff.1 h).1
          · exact h
        have := hall w (by simp) hw
        rw [hw, this, List.getElem?_set_self hi]
      · rcases hex with h | ⟨h, w', hw', hi⟩
        · left; rw [List.getElem?_set_ne hw]; exact h
        · right
          refine ⟨by simpa using h, ?_⟩
          rcases List.mem_cons.1 hw' with rfl | h'
          · exact absurd hi hw
          · exact ⟨w', h', hi⟩
    · intro w' hw' hi; exact hall w' (by simp [hw']) hi

/-- The loops of the flips and quarter turns: every source pixel is written to the position `dst`,
which is a bijection with inverse `src`. -/
theorem moved {w h w' h' : Nat} {px : Nat → Nat → T} {dst src : Nat → Nat → Nat × Nat}
    (hsz : w' * h' = w * h)
    (hd : ∀ x y, x < w → y < h → (dst x y).1 < w' ∧ (dst x y).2 < h' ∧
      src (dst x y).1 (dst x y).2 = (x, y))
    (hs : ∀ x y, x < w' → y < h' → (src x y).1 < w ∧ (src x y).2 < h ∧
      dst (src x y).1 (src x y).2 = (x, y))
    (body : Nat → Nat → List T → R (List T))
    (hb : ∀ x < w, ∀ y < h, ∀ l : List T, l.length = w * h →
      body x y l = .ok (l.set ((dst x y).1 + (dst x y).2 * w') (px x y)))
    (l : List T) (hl : l.length = w * h) :
    forRange w l (fun x s => forRange h s (fun y s => body x y s)) =
      .ok (rows w' h' (fun x y => px (src x y).1 (src x y).2)) := by
  rw [forRange2_writes w h (w * h) body
    (fun x y => ((dst x y).1 + (dst x y).2 * w', px x y)) _ hb l hl]
  · congr 1
    apply eq_rows
    · rw [applyWrites_length, hl, hsz]
    · intro x y hx hy
      obtain ⟨h1, h2, h3⟩ := hs x y hx hy
      apply applyWrites_consistent
      · right
        refine ⟨by rw [hl, ← hsz]; exact idx_lt hx hy, ?_⟩
        refine ⟨((dst (src x y).1 (src x y).2).1 + (dst (src x y).1 (src x y).2).2 * w',
          px (src x y).1 (src x y).2), ?_, ?_⟩
        · simp only [List.mem_flatMap, List.mem_range, List.mem_map]
          exact ⟨_, h1, _, h2, rfl⟩
        · simp only [h3]
      · intro q hq hqi
        simp only [List.mem_flatMap, List.mem_range, List.mem_map] at hq
        obtain ⟨x0, hx0, y0, hy0, rfl⟩ := hq
        obtain ⟨h4, h5, h6⟩ := hd x0 y0 hx0 hy0
        obtain ⟨e1, e2⟩ := idx_inj h4 hx hqi
        rw [e1, e2] at h6
        simp only [h6]
  · intro x hx y hy
    obtain ⟨h4, h5, h6⟩ := hd x y hx hy
    rw [← hsz]; exact idx_lt h4 h5

/-- A bijective rearrangement of the coordinates only permutes the pixels. -/
theorem rows_perm {w h w' h' : Nat} {px : Nat → Nat → T} {dst src : Nat → Nat → Nat × Nat}
    (hsz : w' * h' = w * h)
    (hs : ∀ x y, x < w' → y < h' → (src x y).1 < w ∧ (src x y).2 < h ∧
      dst (src x y).1 (src x y).2 = (x, y)) :
    (rows w' h' (fun x y => px (src x y).1 (src x y).2)).Perm (rows w h px) := by
  have hinj : ∀ i j, i < w' * h' → j < w' * h' →
      (src (i % w') (i / w')) = (src (j % w') (j / w')) → i = j := by
    intro i j hi hj he
    have h1 := (hs _ _ (mod_lt hi) (div_lt hi)).2.2
    have h2 := (hs _ _ (mod_lt hj) (div_lt hj)).2.2
    rw [he] at h1
    have := h1.symm.trans h2
    rw [← Nat.mod_add_div i w', ← Nat.mod_add_div j w']
    simp only [Prod.mk.injEq] at this
    rw [this.1, this.2]
  let σ : Nat → Nat := fun i => (src (i % w') (i / w')).1 + (src (i % w') (i / w')).2 * w
  have hσlt : ∀ i, i < w' * h' → σ i < w * h := by
    intro i hi
    obtain ⟨h1, h2, _⟩ := hs _ _ (mod_lt hi) (div_lt hi)
    exact idx_lt h1 h2
  have hσinj : ∀ i j, i < w' * h' → j < w' * h' → σ i = σ j → i = j := by
    intro i j hi hj he
    obtain ⟨h1, h2, _⟩ := hs _ _ (mod_lt hi) (div_lt hi)
    obtain ⟨h3, h4, _⟩ := hs _ _ (mod_lt hj) (div_lt hj)
    obtain ⟨e1, e2⟩ := idx_inj h1 h3 he
    exact hinj i j hi hj (Prod.ext e1 e2)
  have hnd : ((List.range (w' * h')).map σ).Nodup := by
    rw [List.Nodup, List.pairwise_map]
    refine List.Pairwise.imp_of_mem ?_ List.nodup_range
    intro i j hi hj hne he
    exact hne (hσinj i j (by simpa using hi) (by simpa using hj) he)
  have hperm : ((List.range (w' * h')).map σ).Perm (List.range (w * h)) := by
    have hsub : List.Subset ((List.range (w' * h')).map σ) (List.range (w * h)) := by
      intro a ha
      obtain ⟨i, hi, rfl⟩ := List.mem_map.1 ha
      simpa using hσlt i (by simpa using hi)
    have := List.subperm_of_subset hnd hsub
    exact this.perm_of_length_le (by simp [hsz])
  have h1 : rows w' h' (fun x y => px (src x y).1 (src x y).2) =
      ((List.range (w' * h')).map σ).map (fun i => px (i % w) (i / w)) := by
    rw [rows_eq_range, List.map_map]
    apply List.map_congr_left
    intro i hi
    obtain ⟨h1, h2, _⟩ := hs (i % w') (i / w') (mod_lt (h := h') (by simpa using hi))
      (div_lt (by simpa using hi))
    simp only [Function.comp, σ, idx_mod h1, idx_div h1]
  rw [h1, rows_eq_range]
  exact hperm.map _

theorem maxUnwrap_spec (l : List Nat) (W : Nat) (hmem : W ∈ l) (hmax : ∀ n ∈ l, n ≤ W) :
    maxUnwrap l = .ok W := by
  have key : ∀ (l : List Nat) (a W : Nat), W ∈ a :: l → (∀ n ∈ a :: l, n ≤ W) →
      l.foldl max a = W := by
    intro l
    induction l with
    | nil => intro a W h _; simp only [List.mem_singleton] at h; simp [h]
    | cons b bs ih =>
      intro a W hm hx
      simp only [List.foldl_cons]
      apply ih
      · simp only [List.mem_cons] at hm ⊢
        rcases hm with rfl | rfl | h
        · left; have := hx b (by simp); omega
        · left; have := hx a (by simp); omega
        · right; exact h
      · intro n hn
        rcases List.mem_cons.1 hn with rfl | h
        · have h1 := hx a (by simp); have h2 := hx b (by simp); omega
        · exact hx n (by simp [h])
  cases l with
  | nil => cases hmem
  | cons a as => simp only [maxUnwrap]; rw [key as a W hmem hmax]

end D10
