import Verif.Spec

/-! # Helper lemmas about buffers, row-major lists and loops -/

namespace D10

open Spec

variable {T U : Type}

/-! ## Except monad -/

@[simp] theorem ok_bind {α β : Type} (a : α) (f : α → R β) : (Except.ok a >>= f) = f a := rfl
@[simp] theorem err_bind {α β : Type} (e : Panic) (f : α → R β) :
    ((Except.error e : R α) >>= f) = Except.error e := rfl
@[simp] theorem pure_eq_ok {α : Type} (a : α) : (pure a : R α) = Except.ok a := rfl

theorem u32_ok {n : Nat} (h : n < 4294967296) : u32 n = .ok n := by simp [u32, h]
theorem usub_ok {a b : Nat} (h : b ≤ a) : usub a b = .ok (a - b) := by simp [usub, h]
theorem i32_ok {z : Int} (h : -2147483648 ≤ z) (h' : z < 2147483648) : i32 z = .ok z := by
  simp [i32, h, h']
theorem index_ok {l : List T} {i : Nat} {a : T} (h : l[i]? = some a) : index l i = .ok a := by
  simp [index, h]
theorem asI32_of_lt {n : Nat} (h : n < 2147483648) : asI32 n = n := by
  unfold asI32; have : n % 2 ^ 32 = n := Nat.mod_eq_of_lt (by omega)
  rw [this]; simp; omega
theorem asU32_of_nonneg {z : Int} (h : 0 ≤ z) (h' : z < 4294967296) : asU32 z = z.toNat := by
  unfold asU32; rw [Int.emod_eq_of_lt h (by simpa using h')]
theorem setIndex_ok {l : List T} {i : Nat} {a : T} (h : i < l.length) :
    setIndex l i a = .ok (l.set i a) := by simp [setIndex, h]
theorem assert_ok {b : Bool} (h : b = true) : assert b = .ok () := by simp [assert, h]

theorem mapM_ok {α β : Type} (l : List α) (f : α → R β) (g : α → β)
    (h : ∀ a ∈ l, f a = .ok (g a)) : l.mapM f = .ok (l.map g) := by
  induction l with
  | nil => rfl
  | cons a as ih =>
    rw [List.mapM_cons, h a (by simp), ok_bind, ih (fun b hb => h b (by simp [hb]))]
    rfl

theorem mapM_error {α β : Type} (l : List α) (f : α → R β) (a : α) (ha : a ∈ l)
    (h : ∀ b, f a ≠ .ok b) : ∃ e, l.mapM f = .error e := by
  induction l with
  | nil => cases ha
  | cons b bs ih =>
    rw [List.mapM_cons]
    cases hb : f b with
    | error e => exact ⟨e, rfl⟩
    | ok v =>
      have : a ∈ bs := by
        rcases List.mem_cons.1 ha with rfl | h'
        · exact absurd hb (h v)
        · exact h'
      obtain ⟨e, he⟩ := ih this
      exact ⟨e, by rw [ok_bind, he]; rfl⟩

/-! ## Sizes -/

theorem is_valid_iff (w h : Nat) : is_valid_buffer_size w h = true ↔ ValidSize w h := by
  unfold is_valid_buffer_size ValidSize MAX_BUFFER_SIZE
  by_cases hw : w = 0
  · subst hw; simp
  · by_cases hh : h = 0
    · subst hh; simp [hw]
    · simp [hw, hh]; omega

theorem Spec.ValidSize.mul_le {w h : Nat} (hv : ValidSize w h) : w * h ≤ 1073741823 := by
  rcases hv with ⟨rfl, rfl⟩ | ⟨_, _, h⟩ <;> omega

theorem Spec.ValidSize.width_le {w h : Nat} (hv : ValidSize w h) : w ≤ 1073741823 := by
  rcases hv with ⟨rfl, rfl⟩ | ⟨_, hh, h⟩
  · omega
  · exact Nat.le_trans (Nat.le_mul_of_pos_right _ hh) h

theorem Spec.ValidSize.height_le {w h : Nat} (hv : ValidSize w h) : h ≤ 1073741823 := by
  rcases hv with ⟨rfl, rfl⟩ | ⟨hw, _, h⟩
  · omega
  · exact Nat.le_trans (Nat.le_mul_of_pos_left _ hw) h

theorem Spec.ValidSize.swap {w h : Nat} (hv : ValidSize w h) : ValidSize h w := by
  rcases hv with ⟨rfl, rfl⟩ | ⟨a, b, c⟩
  · exact .inl ⟨rfl, rfl⟩
  · exact .inr ⟨b, a, by rw [Nat.mul_comm]; exact c⟩

theorem validate_ok {w h : Nat} (hv : ValidSize w h) : validate_size w h = .ok () := by
  simp [validate_size, (is_valid_iff w h).2 hv]

theorem validate_err {w h : Nat} (hv : ¬ ValidSize w h) :
    validate_size w h = .error .invalidSize := by
  simp [validate_size, mt (is_valid_iff w h).1 hv]

/-! ## Row-major lists -/

theorem rows_zero_height (w : Nat) (px : Nat → Nat → T) : rows w 0 px = [] := rfl

theorem rows_succ (w h : Nat) (px : Nat → Nat → T) :
    rows w (h + 1) px = rows w h px ++ (List.range w).map (fun x => px x h) := by
  simp [rows, List.range_succ]

@[simp] theorem rows_length (w h : Nat) (px : Nat → Nat → T) : (rows w h px).length = w * h := by
  induction h with
  | zero => simp [rows]
  | succ n ih => rw [rows_succ]; simp [ih, Nat.mul_succ]

theorem rows_eq_range (w h : Nat) (px : Nat → Nat → T) :
    rows w h px = (List.range (w * h)).map (fun i => px (i % w) (i / w)) := by
  induction h with
  | zero => simp [rows]
  | succ n ih =>
    rw [rows_succ, Nat.mul_succ, List.range_add, List.map_append, ih, List.map_map]
    congr 1
    apply List.map_congr_left
    intro x hx
    have hx : x < w := by simpa using hx
    have hw : 0 < w := by omega
    simp only [Function.comp]
    rw [Nat.mul_add_mod, Nat.mod_eq_of_lt hx, Nat.mul_add_div hw, Nat.div_eq_of_lt hx, Nat.add_zero]

theorem idx_lt {w h x y : Nat} (hx : x < w) (hy : y < h) : x + y * w < w * h := by
  calc x + y * w < w + y * w := by omega
    _ = (y + 1) * w := by rw [Nat.succ_mul, Nat.add_comm]
    _ ≤ h * w := Nat.mul_le_mul_right _ hy
    _ = w * h := Nat.mul_comm _ _

theorem idx_mod {w x y : Nat} (hx : x < w) : (x + y * w) % w = x := by
  rw [Nat.add_mul_mod_self_right, Nat.mod_eq_of_lt hx]

theorem idx_div {w x y : Nat} (hx : x < w) : (x + y * w) / w = y := by
  rw [Nat.add_mul_div_right _ _ (by omega), Nat.div_eq_of_lt hx, Nat.zero_add]

theorem idx_inj {w x y x' y' : Nat} (hx : x < w) (hx' : x' < w)
    (h : x + y * w = x' + y' * w) : x = x' ∧ y = y' := by
  constructor
  · rw [← idx_mod (y := y) hx, h, idx_mod hx']
  · rw [← idx_div (y := y) hx, h, idx_div hx']

theorem rows_getElem? {w h : Nat} (px : Nat → Nat → T) {x y : Nat} (hx : x < w) (hy : y < h) :
    (rows w h px)[x + y * w]? = some (px x y) := by
  rw [rows_eq_range, List.getElem?_map, List.getElem?_range (idx_lt hx hy)]
  simp only [Option.map_some, idx_mod hx, idx_div hx]

theorem div_lt {w h i : Nat} (hi : i < w * h) : i / w < h := Nat.div_lt_of_lt_mul hi

theorem mod_lt {w h i : Nat} (hi : i < w * h) : i % w < w :=
  Nat.mod_lt _ (Nat.pos_of_ne_zero (by rintro rfl; simp at hi))

theorem rows_congr {w h : Nat} {px px' : Nat → Nat → T}
    (hp : ∀ x y, x < w → y < h → px x y = px' x y) : rows w h px = rows w h px' := by
  rw [rows_eq_range, rows_eq_range]
  apply List.map_congr_left
  intro i hi
  have hi : i < w * h := by simpa using hi
  exact hp _ _ (mod_lt hi) (div_lt hi)

theorem rows_inj {w h : Nat} {px px' : Nat → Nat → T} (he : rows w h px = rows w h px')
    {x y : Nat} (hx : x < w) (hy : y < h) : px x y = px' x y := by
  have := rows_getElem? px hx hy
  rw [he, rows_getElem? px' hx hy] at this
  exact (Option.some.inj this).symm

theorem rows_map (w h : Nat) (px : Nat → Nat → T) (f : T → U) :
    (rows w h px).map f = rows w h (fun x y => f (px x y)) := by
  simp [rows_eq_range, List.map_map, Function.comp_def]

/-- A list of the right length whose entries are known is the row-major listing. -/
theorem eq_rows {l : List T} {w h : Nat} {px : Nat → Nat → T} (hl : l.length = w * h)
    (hp : ∀ x y, x < w → y < h → l[x + y * w]? = some (px x y)) : l = rows w h px := by
  apply List.ext_getElem?
  intro i
  by_cases hi : i < w * h
  · have h1 := hp _ _ (mod_lt hi) (div_lt hi)
    have h2 := rows_getElem? px (mod_lt hi) (div_lt hi)
    have : i % w + i / w * w = i := by rw [Nat.mul_comm]; exact Nat.mod_add_div i w
    rw [this] at h1 h2
    rw [h1, h2]
  · rw [List.getElem?_eq_none (by omega), List.getElem?_eq_none (by simp; omega)]

theorem rows_slice {w h : Nat} {px : Nat → Nat → T} {x y n : Nat} (hx : x + n ≤ w) (hy : y < h) :
    slice (rows w h px) (w * y + x) (w * y + x + n) =
      .ok ((List.range n).map (fun t => px (x + t) y)) := by
  have hle : w * y + x + n ≤ w * h := by
    calc w * y + x + n ≤ w * y + w := by omega
      _ = w * (y + 1) := by rw [Nat.mul_succ]
      _ ≤ w * h := Nat.mul_le_mul_left _ hy
  simp only [slice, rows_length]
  rw [if_pos ⟨by omega, hle⟩]
  congr 1
  apply List.ext_getElem?
  intro i
  by_cases hi : i < n
  · rw [List.getElem?_take_of_lt (by omega), List.getElem?_drop]
    have h2 := rows_getElem? (w := w) (h := h) px (show x + i < w by omega) hy
    rw [show w * y + x + i = x + i + y * w by rw [Nat.mul_comm]; omega, h2]
    simp [hi]
  · rw [List.getElem?_eq_none (by simp; omega), List.getElem?_eq_none (by simp; omega)]

/-! ## Shows -/

theorem Spec.Shows.wellFormed {b : PixelBuffer T} {w h px} (s : Shows b w h px) : WellFormed b := by
  obtain ⟨rfl, rfl, hs, hp⟩ := s
  exact ⟨hs, by rw [hp, rows_length]⟩

theorem Spec.Shows.length {b : PixelBuffer T} {w h px} (s : Shows b w h px) : b.data.length = w * h := by
  rw [s.pixels, rows_length]

theorem Spec.Shows.congr {b : PixelBuffer T} {w h : Nat} {px px' : Nat → Nat → T}
    (s : Shows b w h px) (hp : ∀ x y, x < w → y < h → px x y = px' x y) : Shows b w h px' :=
  ⟨s.width, s.height, s.size, by rw [s.pixels]; exact rows_congr hp⟩

theorem Spec.Shows.eq {b b' : PixelBuffer T} {w h : Nat} {px : Nat → Nat → T}
    (s : Shows b w h px) (s' : Shows b' w h px) : b = b' := by
  obtain ⟨h1, h2, _, h3⟩ := s
  obtain ⟨h1', h2', _, h3'⟩ := s'
  cases b; cases b'
  simp only at h1 h2 h3 h1' h2' h3'
  rw [h1, h2, h3, h1', h2', h3']

theorem Spec.Shows.getElem? {b : PixelBuffer T} {w h : Nat} {px : Nat → Nat → T}
    (s : Shows b w h px) {x y : Nat} (hx : x < w) (hy : y < h) :
    b.data[x + y * w]? = some (px x y) := by
  rw [s.pixels]; exact rows_getElem? px hx hy

theorem shows_of_wellFormed [Inhabited T] {b : PixelBuffer T} (hb : WellFormed b) :
    Shows b b.width b.height (fun x y => (b.data[x + y * b.width]?).getD default) := by
  refine ⟨rfl, rfl, hb.1, eq_rows hb.2 ?_⟩
  intro x y hx hy
  have : x + y * b.width < b.data.length := by rw [hb.2]; exact idx_lt hx hy
  rw [List.getElem?_eq_getElem this]; rfl

theorem new_from_raw_ok {w h : Nat} {d : List T} (hv : ValidSize w h) (hl : d.length = w * h) :
    PixelBuffer.new_from_raw w h d = .ok ⟨w, h, d⟩ := by
  simp [PixelBuffer.new_from_raw, hl, validate_ok hv]

theorem new_from_raw_rows {w h : Nat} {px : Nat → Nat → T} (hv : ValidSize w h) :
    ∃ b, PixelBuffer.new_from_raw w h (rows w h px) = .ok b ∧ Shows b w h px :=
  ⟨_, new_from_raw_ok hv (rows_length w h px), rfl, rfl, hv, rfl⟩

/-! ## Loops that write distinct indices -/

/-- Writes performed one after the other. -/
def applyWrites (l : List T) (ws : List (Nat × T)) : List T :=
  ws.foldl (fun l w => l.set w.1 w.2) l

@[simp] theorem applyWrites_length (l : List T) (ws : List (Nat × T)) :
    (applyWrites l ws).length = l.length := by
  induction ws generalizing l with
  | nil => rfl
  | cons w ws ih => simp only [applyWrites, List.foldl_cons] at *; rw [ih]; simp

theorem applyWrites_not_mem (l : List T) (ws : List (Nat × T)) (i : Nat)
    (h : i ∉ ws.map Prod.fst) : (applyWrites l ws)[i]? = l[i]? := by
  induction ws generalizing l with
  | nil => rfl
  | cons w ws ih =>
    simp only [List.map_cons, List.mem_cons, not_or] at h
    simp only [applyWrites, List.foldl_cons]
    have := ih (l.set w.1 w.2) h.2
    simp only [applyWrites] at this
    rw [this, List.getElem?_set_ne (Ne.symm h.1)]

theorem applyWrites_mem (l : List T) (ws : List (Nat × T)) (i : Nat) (v : T)
    (hn : (ws.map Prod.fst).Nodup) (hm : (i, v) ∈ ws) (hi : i < l.length) :
    (applyWrites l ws)[i]? = some v := by
  induction ws generalizing l with
  | nil => cases hm
  | cons w ws ih =>
    simp only [List.map_cons, List.nodup_cons] at hn
    simp only [applyWrites, List.foldl_cons]
    rcases List.mem_cons.1 hm with h | h
    · subst h
      have := applyWrites_not_mem (l.set i v) ws i hn.1
      simp only [applyWrites] at this
      rw [this, List.getElem?_set_self hi]
    · exact ih _ hn.2 h (by simpa using hi)

/-- A loop whose body performs one in-range write. -/
theorem foldlM_writes {ι : Type} (is : List ι) (body : List T → ι → R (List T))
    (n : Nat) (wr : ι → Nat × T) (hlt : ∀ i ∈ is, (wr i).1 < n)
    (hb : ∀ i ∈ is, ∀ l : List T, l.length = n → body l i = .ok (l.set (wr i).1 (wr i).2))
    (l : List T) (hl : l.length = n) :
    is.foldlM body l = .ok (applyWrites l (is.map wr)) := by
  induction is generalizing l with
  | nil => rfl
  | cons i is ih =>
    rw [List.foldlM_cons, hb i (by simp) l hl, ok_bind,
      ih (fun j hj => hlt j (by simp [hj])) (fun j hj => hb j (by simp [hj])) _ (by simpa using hl)]
    rfl

/-- Two nested loops whose body performs one in-range write. -/
theorem forRange2_writes (m k n : Nat) (body : Nat → Nat → List T → R (List T))
    (wr : Nat → Nat → Nat × T) (hlt : ∀ i < m, ∀ j < k, (wr i j).1 < n)
    (hb : ∀ i < m, ∀ j < k, ∀ l : List T, l.length = n →
      body i j l = .ok (l.set (wr i j).1 (wr i j).2))
    (l : List T) (hl : l.length = n) :
    forRange m l (fun i s => forRange k s (fun j s => body i j s)) =
      .ok (applyWrites l ((List.range m).flatMap (fun i => (List.range k).map (wr i)))) := by
  unfold forRange
  induction m with
  | zero => rfl
  | succ m ih =>
    rw [List.range_succ, List.foldlM_append,
      ih (fun i hi => hlt i (by omega)) (fun i hi => hb i (by omega)), ok_bind]
    simp only [List.foldlM_cons, List.foldlM_nil]
    rw [foldlM_writes _ _ n (wr m) (fun j hj => hlt m (by omega) j (by simpa using hj))
      (fun j hj l hl => hb m (by omega) j (by simpa using hj) l hl) _ (by simpa using hl)]
    simp [applyWrites, List.flatMap_append, List.foldl_append]

end D10
