import Verif.Lemmas.Kernel

/-! # The Gaussian kernel constructors -/

namespace D10
open Spec

variable {F : Type} [Scalar F]

theorem setIndex_map_range {α : Type} (n i : Nat) (hi : i < n) (f : Nat → α) (v : α) :
    setIndex ((List.range n).map f) i v = .ok ((List.range n).map fun x => if x = i then v else f x) := by
  rw [setIndex_ok (by simpa using hi)]
  congr 1
  apply List.ext_getElem
  · simp
  · intro j h1 h2
    simp [List.getElem_set, eq_comm]

theorem setIndex_rows {α : Type} (W H x y : Nat) (hx : x < W) (hy : y < H) (f : Nat → Nat → α) (v : α) :
    setIndex (rows W H f) (x + y * W) v =
      .ok (rows W H fun i j => if j = y then (if i = x then v else f i j) else f i j) := by
  rw [setIndex_ok (by simpa using idx_lt hx hy)]
  congr 1
  apply eq_rows
  · simp
  · intro i j hi hj
    by_cases h : x + y * W = i + j * W
    · obtain ⟨rfl, rfl⟩ := idx_inj hx hi h
      rw [List.getElem?_set_self (by simpa using idx_lt hx hy)]
      simp
    · rw [List.getElem?_set_ne h, rows_getElem? f hi hj]
      by_cases h1 : j = y
      · subst h1
        have : i ≠ x := by rintro rfl; exact h rfl
        simp [this]
      · simp [h1]

/-- One assignment of the kernel loops: write the entry and add it to the sum. -/
def kstep (v : Nat → Nat → F) (x y : Nat) (st : (Nat → Nat → F) × F) : (Nat → Nat → F) × F :=
  (fun i j => if j = y then (if i = x then v x y else st.1 i j) else st.1 i j, st.2 +. v x y)

theorem kfold_fst (v : Nat → Nat → F) (m k : Nat) (st : (Nat → Nat → F) × F) (x y : Nat) :
    ((List.range m).foldl (fun st i => (List.range k).foldl (fun st j => kstep v i j st) st) st).1 x y
      = if x < m ∧ y < k then v x y else st.1 x y := by
  have inner : ∀ (i k : Nat) (st : (Nat → Nat → F) × F) (x y : Nat),
      ((List.range k).foldl (fun st j => kstep v i j st) st).1 x y =
        if x = i ∧ y < k then v x y else st.1 x y := by
    intro i k st x y
    induction k with
    | zero => simp
    | succ n ih =>
      rw [List.range_succ, List.foldl_append]
      simp only [List.foldl_cons, List.foldl_nil]
      rw [show ∀ st, (kstep v i n st).1 x y =
        if y = n then (if x = i then v i n else st.1 x y) else st.1 x y from fun _ => rfl]
      by_cases h1 : y = n
      · by_cases h2 : x = i
        · subst h1 h2; simp
        · rw [if_pos h1, if_neg h2, ih]; simp [h2]
      · rw [if_neg h1, ih]
        have : y < n + 1 ↔ y < n := by omega
        simp only [this]
  induction m with
  | zero => simp
  | succ n ih =>
    rw [List.range_succ, List.foldl_append]
    simp only [List.foldl_cons, List.foldl_nil]
    rw [inner, ih]
    by_cases h1 : x = n
    · subst h1
      have : ¬ x < x := by omega
      by_cases h2 : y < k <;> simp [h2]
    · have : x < n + 1 ↔ x < n := by omega
      simp only [this, h1, false_and, if_false]

theorem kfold_snd (v : Nat → Nat → F) (m k : Nat) (st : (Nat → Nat → F) × F) :
    ((List.range m).foldl (fun st i => (List.range k).foldl (fun st j => kstep v i j st) st) st).2
      = (rows k m fun j i => v i j).foldl (· +. ·) st.2 := by
  rw [← foldl_range_rows k m (fun j i => v i j) (· +. ·)]
  have inner : ∀ (i k : Nat) (st : (Nat → Nat → F) × F),
      ((List.range k).foldl (fun st j => kstep v i j st) st).2 =
        (List.range k).foldl (fun s j => s +. v i j) st.2 := by
    intro i k st
    induction k with
    | zero => rfl
    | succ n ih =>
      rw [List.range_succ, List.foldl_append, List.foldl_append, ← ih]; rfl
  induction m with
  | zero => rfl
  | succ n ih =>
    rw [List.range_succ, List.foldl_append, List.foldl_append, ← ih]
    simp only [List.foldl_cons, List.foldl_nil, inner]

theorem gaussianValue_eq (sigma : F) (x y : Int) :
    gaussianValue (lit 2 *. sigma *. sigma) x y = bell sigma x y := rfl

theorem toNat_off (i o : Nat) : (-(o : Int) + i + o).toNat = i := by omega

theorem Kernel.new_gaussian_ok (N : Nat) (sigma : F) :
    ∃ k, Kernel.new_gaussian N sigma = .ok k ∧ k.Holds N (gaussWeight N sigma) := by
  unfold Kernel.new_gaussian
  have ho : (N : Int).tdiv 2 = ((N / 2 : Nat) : Int) := by
    rw [Int.tdiv_eq_ediv_of_nonneg (by omega)]; omega
  simp only [ho, forInts]
  have hn : ((N : Int) - ((N / 2 : Nat) : Int) - -((N / 2 : Nat) : Int)).toNat = N := by omega
  simp only [hn]
  let φ : (Nat → Nat → F) × F → List (List F) × F := fun st =>
    ((List.range N).map fun y => (List.range N).map fun x => st.1 x y, st.2)
  let v : Nat → Nat → F := fun i j => bell sigma ((i : Int) - (N / 2 : Nat)) ((j : Int) - (N / 2 : Nat))
  have init : (List.replicate N (List.replicate N (lit 0 : F)), (lit 0 : F)) =
      φ (fun _ _ => lit 0, lit 0) := by simp [φ]
  rw [init]
  rw [forRange_ok φ N _ (fun i st => (List.range N).foldl (fun st j => kstep v i j st) st)]
  · rw [ok_bind]
    refine ⟨_, rfl, ?_⟩
    show List.map _ _ = _
    simp only [φ, List.map_map, kfold_snd]
    apply List.map_congr_left
    intro y hy
    simp only [Function.comp, List.map_map]
    apply List.map_congr_left
    intro x hx
    simp only [Function.comp, kfold_fst]
    rw [if_pos ⟨by simpa using hx, by simpa using hy⟩]
    rfl
  · intro i hi st
    apply forRange_ok φ
    intro j hj st
    simp only [φ, toNat_off, gaussianValue_eq]
    rw [index_map_range N j hj, ok_bind, setIndex_map_range N i hi, ok_bind,
      setIndex_map_range N j hj, ok_bind]
    have e1 : (-((N / 2 : Nat) : Int) + (i : Int)) = (i : Int) - (N / 2 : Nat) := by omega
    have e2 : (-((N / 2 : Nat) : Int) + (j : Int)) = (j : Int) - (N / 2 : Nat) := by omega
    rw [e1, e2]
    show (.ok _ : R _) = .ok _
    congr 2
    apply List.map_congr_left
    intro y hy
    simp only [kstep]
    by_cases h : y = j
    · subst h; simp only [if_true]; rfl
    · simp only [if_neg h]

theorem KernelDyn.new_gaussian_ok (N : Nat) (sigma : F) (hN : N * N < 4294967296) :
    ∃ k, KernelDyn.new_gaussian N sigma = .ok k ∧ k.Holds N N (gaussWeight N sigma) := by
  unfold KernelDyn.new_gaussian
  have ho : (N : Int).tdiv 2 = ((N / 2 : Nat) : Int) := by
    rw [Int.tdiv_eq_ediv_of_nonneg (by omega)]; omega
  rw [u32_ok hN, ok_bind]
  simp only [ho, forInts]
  have hn : ((N : Int) - ((N / 2 : Nat) : Int) - -((N / 2 : Nat) : Int)).toNat = N := by omega
  simp only [hn]
  let φ : (Nat → Nat → F) × F → List F × F := fun st => (rows N N st.1, st.2)
  let v : Nat → Nat → F := fun i j => bell sigma ((i : Int) - (N / 2 : Nat)) ((j : Int) - (N / 2 : Nat))
  have init : (List.replicate (N * N) (lit 0 : F), (lit 0 : F)) =
      φ (fun _ _ => lit 0, lit 0) := by simp [φ, rows_eq_range]
  rw [init]
  rw [forRange_ok φ N _ (fun i st => (List.range N).foldl (fun st j => kstep v i j st) st)]
  · rw [ok_bind]
    simp only [φ, kfold_snd, rows_map, KernelDyn.new, rows_length, u32_ok hN, ok_bind, beq_self_eq_true,
      assert_ok]
    refine ⟨_, rfl, rfl, rfl, ?_⟩
    apply rows_congr
    intro x y hx hy
    rw [kfold_fst, if_pos ⟨hx, hy⟩]
    rfl
  · intro i hi st
    apply forRange_ok φ
    intro j hj st
    have e1 : (-((N / 2 : Nat) : Int) + (i : Int)) = (i : Int) - (N / 2 : Nat) := by omega
    have e2 : (-((N / 2 : Nat) : Int) + (j : Int)) = (j : Int) - (N / 2 : Nat) := by omega
    have e3 : ((-((N / 2 : Nat) : Int) + (i : Int) + ((N / 2 : Nat) : Int)) +
        ((-((N / 2 : Nat) : Int) + (j : Int) + ((N / 2 : Nat) : Int)) * (N : Int))).toNat = i + j * N := by
      rw [show -((N / 2 : Nat) : Int) + (i : Int) + ((N / 2 : Nat) : Int) = i by omega,
        show -((N / 2 : Nat) : Int) + (j : Int) + ((N / 2 : Nat) : Int) = j by omega]
      exact_mod_cast Int.toNat_natCast (i + j * N)
    simp only [φ, gaussianValue_eq]
    rw [e3, setIndex_rows N N i j hi hj, ok_bind, e1, e2]
    rfl

end D10
