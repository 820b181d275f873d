import Verif.SpecHist
import Verif.Lemmas.PixelOps
import Verif.Lemmas.Gaussian
import Verif.Lemmas.F32

/-! # Lemmas about histograms -/

namespace D10
open Spec
open Scalar (isNan clamp toInt)
open LawfulScalar

/-! ## Casts to integers -/

/-- The laws of casts to integers that hold for floats and for exact numbers. -/
class LawfulCast (F : Type) [Scalar F] : Prop where
  toInt_range : ∀ (lo hi : Int) (a : F), lo ≤ 0 → 0 ≤ hi → lo ≤ toInt lo hi a ∧ toInt lo hi a ≤ hi
  toInt_clamp : ∀ (hi : Int) (n : Nat) (a : F), n ≤ 65536 → (n : Int) ≤ hi →
    toInt 0 hi (clamp (lit 0) (lit (n : ℚ)) a) = toInt 0 n a

noncomputable instance [Junk] : LawfulCast ℝ where
  toInt_range lo hi a h0 h1 := by
    show lo ≤ max lo (min hi _) ∧ max lo (min hi _) ≤ hi
    omega
  toInt_clamp hi n a hn hhi := by
    have e0 : ((a <. lit 0) = true) ↔ a < 0 := by rw [Exact.lt]; ex_simp
    have e1 : ((lit (n : ℚ) <. a) = true) ↔ (n : ℝ) < a := by rw [Exact.lt]; ex_simp
    unfold clamp
    show max 0 (min hi (if (if (a <. lit 0) = true then _ else _ : ℝ) < 0 then _ else _)) =
      max 0 (min (n : Int) (if a < 0 then ⌈a⌉ else ⌊a⌋))
    by_cases h0 : a < 0
    · have hc : ⌈a⌉ ≤ 0 := by rw [Int.ceil_le]; simpa using h0.le
      simp only [if_pos (e0.2 h0), if_pos h0]
      rw [show (lit (0 : ℚ) : ℝ) = 0 by ex_simp, if_neg (lt_irrefl _), Int.floor_zero]
      omega
    · have hp : 0 ≤ a := _root_.not_lt.1 h0
      have hf : 0 ≤ ⌊a⌋ := Int.floor_nonneg.2 hp
      simp only [if_neg (mt e0.1 h0), if_neg h0]
      by_cases h1 : (n : ℝ) < a
      · simp only [if_pos (e1.2 h1)]
        rw [show (lit (n : ℚ) : ℝ) = n by ex_simp, if_neg (by simp), Int.floor_natCast]
        have : (n : Int) ≤ ⌊a⌋ := by rw [Int.le_floor]; exact_mod_cast h1.le
        omega
      · simp only [if_neg (mt e1.1 h1)]
        rw [if_neg h0]
        have : ⌊a⌋ ≤ (n : Int) := by
          have := Int.floor_mono (_root_.not_lt.1 h1)
          rwa [Int.floor_natCast] at this
        omega

theorem trunc_int (z : Int) : FP.trunc (z : ℚ) = z := by
  unfold FP.trunc; split <;> simp

theorem lawfulCast_FP (f : Fmt) [Libm f] (hf : 65536 ≤ 2 ^ f.prec) : LawfulCast (FP f) where
  toInt_range lo hi a h0 h1 := by
    show lo ≤ FP.toInt lo hi a ∧ FP.toInt lo hi a ≤ hi
    rcases FP.kinds a with rfl | ⟨s, rfl⟩ | h
    · exact ⟨h0, h1⟩
    · cases s
      · exact ⟨le_trans h0 h1, le_rfl⟩
      · exact ⟨le_rfl, le_trans h0 h1⟩
    · rw [FP.toInt_fin lo hi h]; omega
  toInt_clamp hi n a hn hhi := by
    have l0 : (FP.ofRat f false 0).fin = true ∧ (FP.ofRat f false 0).val = 0 := by
      rw [FP.ofRat_zero]; exact ⟨rfl, rfl⟩
    have ln : (FP.ofRat f false (n : ℚ)).fin = true ∧ (FP.ofRat f false (n : ℚ)).val = n := by
      have h := FP.int_finite (f := f) (n : Int) (by
        have : (|(n : Int)|) ≤ 65536 := by rw [abs_of_nonneg (by omega)]; omega
        refine le_trans this ?_
        exact_mod_cast hf)
      have := FP.ofRat_rep (s := false) h.1 h.2
      simpa using this
    have t0 : FP.toInt 0 hi (FP.ofRat f false 0) = 0 := by
      rw [FP.toInt_fin _ _ l0.1, l0.2]
      have := trunc_int 0
      rw [Int.cast_zero] at this
      rw [this]; omega
    have tn : FP.toInt 0 hi (FP.ofRat f false (n : ℚ)) = n := by
      rw [FP.toInt_fin _ _ ln.1, ln.2]
      have := trunc_int (n : Int)
      rw [Int.cast_natCast] at this
      rw [this]; omega
    show FP.toInt 0 hi (if FP.lt a (FP.ofRat f false 0) = true then FP.ofRat f false 0
      else if FP.lt (FP.ofRat f false (n : ℚ)) a = true then FP.ofRat f false (n : ℚ) else a) =
      FP.toInt 0 (n : Int) a
    rcases FP.kinds a with rfl | ⟨s, rfl⟩ | h
    · rw [if_neg, if_neg]
      · rfl
      · cases hx : FP.ofRat f false (n : ℚ) <;> simp [FP.lt]
      · simp [FP.lt]
    · rw [FP.lt_inf_fin l0.1, FP.lt_fin_inf ln.1]
      cases s
      · simp only [Bool.false_eq_true, if_false, Bool.not_false, if_true]
        rw [tn]; rfl
      · simp only [if_true]; rw [t0]; rfl
    · rw [FP.lt_fin h l0.1, FP.lt_fin ln.1 h, l0.2, ln.2]
      rw [FP.toInt_fin 0 (n : Int) h]
      by_cases h0 : a.val < 0
      · simp only [h0, decide_true, if_true]
        rw [t0]
        have : FP.trunc a.val ≤ 0 := by
          unfold FP.trunc; rw [if_pos h0, Int.ceil_le]; simpa using h0.le
        omega
      · simp only [h0, decide_false, Bool.false_eq_true, if_false]
        have hp : 0 ≤ FP.trunc a.val := by
          unfold FP.trunc; rw [if_neg h0]; exact Int.floor_nonneg.2 (_root_.not_lt.1 h0)
        by_cases h1 : (n : ℚ) < a.val
        · simp only [h1, decide_true, if_true]
          rw [tn]
          have : (n : Int) ≤ FP.trunc a.val := by
            unfold FP.trunc; rw [if_neg h0, Int.le_floor]; exact_mod_cast h1.le
          omega
        · simp only [h1, decide_false, Bool.false_eq_true, if_false]
          rw [FP.toInt_fin 0 hi h]
          have : FP.trunc a.val ≤ (n : Int) := by
            unfold FP.trunc; rw [if_neg h0]
            have := Int.floor_mono (_root_.not_lt.1 h1)
            rwa [Int.floor_natCast] at this
          omega

instance [Libm b32] : LawfulCast F32 := lawfulCast_FP b32 (by norm_num [b32])
instance [Libm b64] : LawfulCast F64 := lawfulCast_FP b64 (by norm_num [b64])

/-! ## Tables -/

section
variable {F : Type} [Scalar F]

/-- Adding `x` to the entry of every element of the list. -/
theorem tally {α : Type} (n : Nat) (f : α → Nat) (x : F) (l : List α) (hf : ∀ a ∈ l, f a < n)
    (body : List F → α → R (List F))
    (hb : ∀ a ∈ l, ∀ t, body t a = (do setIndex t (f a) ((← index t (f a)) +. x)))
    (g : Nat → F) :
    l.foldlM body ((List.range n).map g) =
      .ok ((List.range n).map fun k => (fun s => s +. x)^[l.countP (f · = k)] (g k)) := by
  induction l generalizing g with
  | nil => rfl
  | cons a as ih =>
    rw [List.foldlM_cons, hb a (by simp), index_map_range n _ (hf a (by simp)), ok_bind,
      setIndex_map_range n _ (hf a (by simp)), ok_bind,
      ih (fun b h => hf b (by simp [h])) (fun b h => hb b (by simp [h]))]
    congr 1
    apply List.map_congr_left
    intro k _
    rw [List.countP_cons]
    by_cases hk : k = f a
    · subst hk; simp
    · rw [if_neg hk, if_neg (by simpa using fun h : f a = k => hk h.symm)]; rfl

theorem tally_zero {α : Type} (n : Nat) (f : α → Nat) (x : F) (l : List α)
    (hf : ∀ a ∈ l, f a < n) (body : List F → α → R (List F))
    (hb : ∀ a ∈ l, ∀ t, body t a = (do setIndex t (f a) ((← index t (f a)) +. x))) :
    l.foldlM body (List.replicate n (lit 0)) =
      .ok ((List.range n).map fun k => times (l.countP (f · = k)) x) := by
  rw [show List.replicate n (lit 0 : F) = (List.range n).map fun _ => lit 0 by simp [List.map_const']]
  exact tally n f x l hf body hb _

theorem cumulate_eq (p : F) (l : List F) (s : F) :
    cumulate p s l =
      (List.range l.length).map fun k => (l.take (k + 1)).foldl (· +. ·) s /. p := by
  induction l generalizing s with
  | nil => rfl
  | cons a as ih =>
    rw [cumulate, ih, List.length_cons, List.range_succ_eq_map, List.map_cons, List.map_map]
    rfl

theorem take_map_range {α : Type} (g : Nat → α) (n k : Nat) (h : k ≤ n) :
    ((List.range n).map g).take k = (List.range k).map g := by
  rw [← List.map_take, List.take_range, min_eq_left h]

/-- What the scan finds. -/
theorem scan_eq (t : F) (l : List (F × Nat)) (agg : F) :
    (∃ (k : Nat) (v : F) (i : Nat), l[k]? = some (v, i) ∧
      (t <. ((l.take (k + 1)).map Prod.fst).foldl (· +. ·) agg) = true ∧
      (∀ j < k, (t <. ((l.take (j + 1)).map Prod.fst).foldl (· +. ·) agg) = false) ∧
      scanLevels t agg l = lit (i : ℚ) /. lit 255) ∨
    ((∀ j < l.length, (t <. ((l.take (j + 1)).map Prod.fst).foldl (· +. ·) agg) = false) ∧
      scanLevels t agg l = lit 1) := by
  induction l generalizing agg with
  | nil => exact .inr ⟨by simp, rfl⟩
  | cons p rest ih =>
    obtain ⟨v, i⟩ := p
    by_cases h : (t <. (agg +. v)) = true
    · refine .inl ⟨0, v, i, rfl, h, by simp, ?_⟩
      rw [scanLevels, if_pos h]; rfl
    · have hs : scanLevels t agg ((v, i) :: rest) = scanLevels t (agg +. v) rest := by
        rw [scanLevels, if_neg h]
      rw [hs]
      rcases ih (agg +. v) with ⟨k, u, m, hk, hlt, hall, he⟩ | ⟨hall, he⟩
      · refine .inl ⟨k + 1, u, m, hk, hlt, ?_, he⟩
        intro j hj
        cases j with
        | zero => simpa using h
        | succ j => exact hall j (by omega)
      · refine .inr ⟨?_, he⟩
        intro j hj
        cases j with
        | zero => simpa using h
        | succ j => exact hall j (by simpa using hj)

theorem min_scan (bins : Nat → F) (t : F) :
    let p := get_min_value ((List.range 256).map bins) t
    (∃ k : Nat, k < 256 ∧ (t <. upTo bins k) = true ∧
      (∀ j < k, (t <. upTo bins j) = false) ∧ p = lit (k : ℚ) /. lit 255) ∨
    ((∀ j < 256, (t <. upTo bins j) = false) ∧ p = lit 1) := by
  intro p
  have hz : ∀ k, k ≤ 256 → ((((List.range 256).map bins).zipIdx.take k).map Prod.fst) =
      (List.range k).map bins := by
    intro k hk
    rw [List.map_take, List.zipIdx_map_fst, take_map_range _ _ _ hk]
  rcases scan_eq t ((List.range 256).map bins).zipIdx (lit 0) with
    ⟨k, v, i, hk, hlt, hall, he⟩ | ⟨hall, he⟩
  · have hk' : k < 256 ∧ i = k := by
      rw [List.getElem?_zipIdx] at hk
      by_cases h : k < 256
      · refine ⟨h, ?_⟩
        simp [h] at hk
        exact hk.2.symm
      · rw [List.getElem?_eq_none (by simpa using h)] at hk; cases hk
    obtain ⟨hk256, rfl⟩ := hk'
    refine .inl ⟨i, hk256, ?_, ?_, he⟩
    · rw [hz _ (by omega)] at hlt; exact hlt
    · intro j hj
      have := hall j hj
      rw [hz _ (by omega)] at this; exact this
  · refine .inr ⟨?_, he⟩
    intro j hj
    have := hall j (by simpa using hj)
    rw [hz _ (by omega)] at this; exact this

theorem max_scan (bins : Nat → F) (t : F) :
    let p := get_max_value ((List.range 256).map bins) t
    (∃ k : Nat, k < 256 ∧ (t <. downTo bins k) = true ∧
      (∀ j, k < j → j < 256 → (t <. downTo bins j) = false) ∧ p = lit (k : ℚ) /. lit 255) ∨
    ((∀ j < 256, (t <. downTo bins j) = false) ∧ p = lit 1) := by
  intro p
  have hrev : ((List.range 256).map bins).zipIdx.reverse =
      (List.range 256).map fun j => (bins (255 - j), 255 - j) := by
    apply List.ext_getElem
    · simp
    · intro j h1 h2
      simp [List.getElem_reverse]
  have hz : ∀ k, k ≤ 256 → ((((List.range 256).map bins).zipIdx.reverse.take k).map Prod.fst) =
      (List.range k).map fun j => bins (255 - j) := by
    intro k hk
    rw [hrev, take_map_range _ _ _ hk, List.map_map]; rfl
  have hd : ∀ j < 256, downTo bins (255 - j) = ((List.range (j + 1)).map fun j => bins (255 - j)).foldl
      (· +. ·) (lit 0) := by
    intro j hj
    unfold downTo addUp
    rw [show 256 - (255 - j) = j + 1 by omega]
  rcases scan_eq t ((List.range 256).map bins).zipIdx.reverse (lit 0) with
    ⟨k, v, i, hk, hlt, hall, he⟩ | ⟨hall, he⟩
  · have hk' : k < 256 ∧ i = 255 - k := by
      rw [hrev] at hk
      by_cases h : k < 256
      · refine ⟨h, ?_⟩
        simp [h] at hk
        exact hk.2.symm
      · rw [List.getElem?_eq_none (by simpa using h)] at hk; cases hk
    obtain ⟨hk256, rfl⟩ := hk'
    refine .inl ⟨255 - k, by omega, ?_, ?_, he⟩
    · rw [hz _ (by omega)] at hlt; rw [hd k hk256]; exact hlt
    · intro j hj hj'
      have := hall (255 - j) (by omega)
      rw [hz _ (by omega)] at this
      have e := hd (255 - j) (by omega)
      rw [show 255 - (255 - j) = j by omega] at e
      rw [e]; exact this
  · refine .inr ⟨?_, he⟩
    intro j hj
    have := hall (255 - j) (by simp; omega)
    rw [hz _ (by omega)] at this
    have e := hd (255 - j) (by omega)
    rw [show 255 - (255 - j) = j by omega] at e
    rw [e]; exact this

omit [Scalar F] in
theorem map_colors_R_ok {b : PixelBuffer (Col F)} {w h px} (s : Shows b w h px)
    (f : Col F → R (Col F)) (g : Col F → Col F)
    (hf : ∀ x y, x < w → y < h → f (px x y) = .ok (g (px x y))) :
    ∃ b', b.map_colors_R f = .ok b' ∧ Shows b' w h (fun x y => g (px x y)) := by
  refine ⟨b.map_colors g, ?_, C07_map_colors s g⟩
  unfold PixelBuffer.map_colors_R PixelBuffer.map_colorsM
  rw [mapM_ok _ _ g]
  · rfl
  · intro a ha
    rw [s.pixels, rows_eq_range] at ha
    obtain ⟨i, hi, rfl⟩ := List.mem_map.1 ha
    have hi : i < w * h := by simpa using hi
    exact hf _ _ (mod_lt hi) (div_lt hi)

end
end D10
