import Verif.Props.NumbersRun
import Verif.Lemmas.Traverse

/-!
# Numbers in the operations of the library

For each operation, that it makes colours of finite numbers between 0 and 1 of such colours.
-/

namespace D10
open Scalar (lit)
open Spec

/-- Adding something small to a bounded number: the sum is rounded to the bound at most. -/
theorem Bd.absorb {k j : ℕ} (hk : k ≤ 127) (hr : rn b32 (2 ^ k + 2 ^ j) = 2 ^ k) {x y : F32} (hx : Bd k x) (hy : Bd j y) :
    Bd k (FP.add x y) := by
  rw [FP.add_fin hx.fin hy.fin]
  have l := abs_le.1 hx.le
  have s := abs_le.1 hy.le
  have u := rn_mono (f := b32) (a := x.val + y.val) (b := 2 ^ k + 2 ^ j) (by linarith)
  have d := rn_mono (f := b32) (a := -(2 ^ k + 2 ^ j)) (b := x.val + y.val) (by linarith)
  rw [rn_neg] at d
  rw [hr] at u d
  have hb : |rn b32 (x.val + y.val)| ≤ 2 ^ k := abs_le.2 ⟨d, u⟩
  have hl : (2 : ℚ) ^ k < pow2 b32.emax := by
    rw [show (2 : ℚ) ^ k = pow2 (k : Int) from (pow2_nat k).symm]
    exact pow2_lt_iff.2 (by show (k : Int) < 128; omega)
  have v := FP.ofRat_val (s := x.isNeg && y.isNeg) (lt_of_le_of_lt hb hl)
  exact ⟨v.1, by rw [v.2]; exact hb⟩

/-- A quotient of at least `2 ^ -j` is rounded to at least that. -/
theorem ofRat_ge {s : Bool} {q : ℚ} {j : ℕ} (hj : j ≤ 100) (h : 1 / 2 ^ j ≤ q) (hq : q ≤ 2 ^ 127) :
    (FP.ofRat b32 s q).fin = true ∧ 1 / 2 ^ j ≤ (FP.ofRat b32 s q).val := by
  have p : (0 : ℚ) < 1 / 2 ^ j := by positivity
  have e : (1 : ℚ) / 2 ^ j = pow2 (-(j : Int)) := by
    rw [pow2_eq, zpow_neg, zpow_natCast, one_div]
  have hr : IsRep b32 ((1 : ℚ) / 2 ^ j) := by
    rw [e]; exact IsRep.pow2 (by show (-149 : Int) ≤ _; omega)
  have b := Bd.ofRat (k := 127) (s := s) (q := q) (by norm_num) (by rw [abs_of_nonneg (p.le.trans h)]; exact hq)
  refine ⟨b.fin, ?_⟩
  have v := FP.ofRat_of_le (s := s) (q := q) (r := 2 ^ 127) (f := b32)
    (by rw [show (2 : ℚ) ^ 127 = pow2 127 by decide +kernel]; exact IsRep.pow2 (by decide)) (by decide +kernel)
    (by rw [abs_of_nonneg (p.le.trans h)]; exact hq)
  rw [v.2, ← rn_rep hr]
  exact rn_mono h

section
variable [Libm b32]

omit [Libm b32] in
theorem ens_kernel {T : Type} {P : T → Prop} {b : PixelBuffer T} (hb : All P b) (N : Nat) (x y : Int) :
    Ens (b.get_kernel N x y) fun k => ∀ row ∈ k, ∀ c ∈ row, P c := by
  unfold PixelBuffer.get_kernel
  simp only
  refine ens_any fun sx => ens_any fun sy => ?_
  have tail : ∀ fast : Bool, Ens (if fast = true then (List.range N).mapM (fun ty =>
        slice b.data (b.width * (ty + sy.toNat) + sx.toNat) (b.width * (ty + sy.toNat) + sx.toNat + N))
      else (List.range N).mapM (fun ty => (List.range N).mapM (fun tx => do
        let px ← i32 (asI32 tx + x)
        let px ← i32 (px - (asI32 N).tdiv 2)
        let py ← i32 (asI32 ty + y)
        let py ← i32 (py - (asI32 N).tdiv 2)
        b.get_pixel_clamped px py))) fun k => ∀ row ∈ k, ∀ c ∈ row, P c := by
    intro fast
    split
    · exact ens_mapM _ fun ty _ => ens_slice hb _ _
    · exact ens_mapM _ fun ty _ => ens_mapM _ fun tx _ => ens_any fun _ => ens_any fun _ => ens_any fun _ =>
        ens_any fun _ => all_get_clamped hb _ _
  split
  · exact ens_any fun _ => ens_any fun _ => ens_any fun fast => tail fast
  · exact ens_any fun fast => tail fast

/-! ## Convolution with bounded weights, edge detection -/

theorem apply_kernel_bd {b : PixelBuffer (Col F32)} (hb : All UnitCol b) (N : Nat) {k : Kernel F32}
    (hk : ∀ row ∈ k.data, ∀ v ∈ row, Bd 3 v) :
    Ens (b.apply_kernel N k) (All fun c => Bd 60 c.c0 ∧ Bd 60 c.c1 ∧ Bd 60 c.c2 ∧ Bd 60 c.alpha) := by
  refine all_enumerated fun x y c _ => ?_
  refine ens_bind (ens_kernel hb N _ _) fun bk hbk => ?_
  refine ens_bind (P := fun l : List F32 => ∀ v ∈ l, Bd 60 v) ?_ fun l hl => ?_
  · unfold Kernel.apply_kernel
    refine ens_forRange (fun v hv => ?_) fun j _ s hs => ens_forRange hs fun i _ s hs => ?_
    · rw [(List.mem_replicate.1 hv).2]
      exact Bd.ofRat (by norm_num) (by norm_num)
    · refine ens_mapM _ fun p hp => ?_
      have h60 := hs p.1 (List.fst_mem_of_mem_zipIdx hp)
      refine ens_bind (ens_index hk j) fun row hrow => ens_bind (ens_index hrow i) fun w hw => ?_
      refine ens_bind (ens_index hbk j) fun brow hbrow => ens_bind (ens_index hbrow i) fun d hd => ?_
      have hd4 : ∀ v ∈ d.data, Bd 0 v := by
        intro v hv
        simp only [Col.data, List.mem_cons, List.not_mem_nil, or_false] at hv
        rcases hv with rfl | rfl | rfl | rfl
        · exact .unit hd.c0
        · exact .unit hd.c1
        · exact .unit hd.c2
        · exact .unit hd.alpha
      refine ens_bind (ens_index hd4 p.2) fun v hv => ens_pure ?_
      exact Bd.absorb (j := 3) (by norm_num) (by decide +kernel) h60 (hw.mul hv (by norm_num) (by norm_num))
  · intro c hc
    unfold Col.ofData at hc
    split at hc
    · cases hc
      simp only [List.forall_mem_cons] at hl
      exact ⟨hl.1, hl.2.1, hl.2.2.1, hl.2.2.2.1⟩
    · cases hc

theorem number_sobel (hq : SqrtGivesNumbers) {b : PixelBuffer (Col F32)} (hb : All UnitCol b) :
    Ens (edge_detection_sobel b) (All UnitCol) := by
  have lits : ∀ q : ℚ, |q| ≤ 2 ^ 3 → Bd 3 (lit q : F32) := fun q h => Bd.ofRat (by norm_num) h
  have len : ∀ {x y : F32}, Bd 60 x → Bd 60 y → Scalar.sqrt (x *. x +. y *. y) ≠ .nan := by
    intro x y hx hy
    have sq : ∀ {x : F32}, Bd 60 x → Bd 120 (FP.mul x x) ∧ 0 ≤ (FP.mul x x).val := by
      intro x hx
      have m := hx.mul hx (m := 120) (by norm_num) (by norm_num)
      refine ⟨m, ?_⟩
      rw [FP.mul_fin hx.fin hx.fin] at m ⊢
      rcases NonNeg.round (mul_self_nonneg x.val) with e | e
      · have f := m.fin; rw [e] at f; cases f
      · exact e.2
    have nn : NonNeg (FP.add (FP.mul x x) (FP.mul y y)) :=
      NonNeg.add (.inr ⟨(sq hx).1.fin, (sq hx).2⟩) ⟨(sq hy).1.fin, (sq hy).2⟩
    exact hq _ nn.number nn.not_lt
  have black : UnitCol (Rgb.BLACK : Col F32) := ⟨lit0_unit, lit0_unit, lit0_unit, lit1_unit⟩
  have blackBd : Bd 60 (Rgb.BLACK : Col F32).c0 ∧ Bd 60 (Rgb.BLACK : Col F32).c1 ∧ Bd 60 (Rgb.BLACK : Col F32).c2 ∧
      Bd 60 (Rgb.BLACK : Col F32).alpha :=
    ⟨(Bd.unit lit0_unit).mono (by norm_num), (Bd.unit lit0_unit).mono (by norm_num),
      (Bd.unit lit0_unit).mono (by norm_num), (Bd.unit lit1_unit).mono (by norm_num)⟩
  unfold edge_detection_sobel
  refine ens_bind (apply_kernel_bd hb 3 ?_) fun bx hx => ens_bind (apply_kernel_bd hb 3 ?_) fun by' hy => ?_
  · simp only [List.forall_mem_cons, List.not_mem_nil, false_imp_iff, implies_true, and_true]
    refine ⟨⟨?_, ?_, ?_⟩, ⟨?_, ?_, ?_⟩, ?_, ?_, ?_⟩ <;> exact lits _ (by norm_num [abs_le])
  · simp only [List.forall_mem_cons, List.not_mem_nil, false_imp_iff, implies_true, and_true]
    refine ⟨⟨?_, ?_, ?_⟩, ⟨?_, ?_, ?_⟩, ?_, ?_, ?_⟩ <;> exact lits _ (by norm_num [abs_le])
  · refine all_compose (P := fun c => Bd 60 c.c0 ∧ Bd 60 c.c1 ∧ Bd 60 c.c2 ∧ Bd 60 c.alpha) (fun b hb => ?_) blackBd
      fun x y l hl => ?_
    · rcases List.mem_cons.1 hb with rfl | hb
      · exact hx
      · rw [List.mem_singleton.1 hb]; exact hy
    match l, hl with
    | [c, d], hl =>
      have hc := hl c (.head _)
      have hd := hl d (.tail _ (.head _))
      exact ens_ok (⟨clamp_number (len hc.1 hd.1), clamp_number (len hc.2.1 hd.2.1), clamp_number (len hc.2.2.1 hd.2.2.1), lit1_unit⟩)
    | [], _ | [_], _ | _ :: _ :: _ :: _, _ => exact ens_error

/-! ## Resizing -/

omit [Libm b32] in
theorem nat_bd' {n k : Nat} (hk : k ≤ 127) (hn : n ≤ 2 ^ k) : Bd k (FP.ofRat b32 false (n : ℚ)) := by
  refine Bd.ofRat hk ?_
  rw [abs_of_nonneg (by positivity)]
  exact_mod_cast hn

omit [Libm b32] in
theorem nat_ge' {n k : Nat} (hk : k ≤ 127) (h0 : 0 < n) (hn : n ≤ 2 ^ k) : 1 ≤ (FP.ofRat b32 false (n : ℚ)).val := by
  have h : (1 : ℚ) / 2 ^ 0 ≤ (n : ℚ) := by
    have : (1 : ℚ) ≤ (n : ℚ) := by exact_mod_cast h0
    simpa using this
  have u : (n : ℚ) ≤ 2 ^ 127 := by
    have a : (n : ℚ) ≤ 2 ^ k := by exact_mod_cast hn
    exact a.trans (pow_le_pow_right₀ (by norm_num) hk)
  simpa using (ofRat_ge (s := false) (by norm_num) h u).2

omit [Libm b32] in
theorem nat_bd {n : Nat} (hn : n < 2 ^ 32) : Bd 32 (FP.ofRat b32 false (n : ℚ)) := nat_bd' (by norm_num) hn.le

omit [Libm b32] in
theorem nat_ge {n : Nat} (h0 : 0 < n) (hn : n < 2 ^ 32) : 1 ≤ (FP.ofRat b32 false (n : ℚ)).val :=
  nat_ge' (k := 32) (by norm_num) h0 hn.le

/-- The position in the source that belongs to the middle of a pixel of the result. -/
theorem source_fin {n w i : Nat} (hn : n < 2 ^ 32) (hw : w < 2 ^ 32) (hi : i < n) :
    (((lit (i : ℚ) : F32) +. lit 0.5) /. ((lit (n : ℚ) : F32) /. lit (w : ℚ)) -. lit 0.5 : F32).fin = true := by
  have half : Bd 0 (FP.ofRat b32 false 0.5) := Bd.ofRat (by norm_num) (by norm_num [abs_le])
  have mid : Bd 33 (FP.add (FP.ofRat b32 false (i : ℚ)) (FP.ofRat b32 false 0.5)) :=
    (nat_bd (by omega)).add half (by norm_num) (by norm_num) (by norm_num)
  have bn := nat_bd hn
  have gn := nat_ge (by omega) hn
  show (FP.sub (FP.div (FP.add (FP.ofRat b32 false (i : ℚ)) (FP.ofRat b32 false 0.5))
    (FP.div (FP.ofRat b32 false (n : ℚ)) (FP.ofRat b32 false (w : ℚ)))) (FP.ofRat b32 false 0.5)).fin = true
  rcases Nat.eq_zero_or_pos w with rfl | hw0
  · have e : FP.div (FP.ofRat b32 false (n : ℚ)) (FP.ofRat b32 false ((0 : Nat) : ℚ)) = .inf false := by
      rw [Nat.cast_zero, FP.ofRat_zero]
      generalize FP.ofRat b32 false (n : ℚ) = x at bn gn
      cases x with
      | nan => cases bn.fin
      | inf _ => cases bn.fin
      | zero _ => exact absurd gn (by norm_num [FP.val])
      | num q h =>
        have : ¬ q < 0 := not_lt.2 (le_trans (by norm_num) gn)
        simp [FP.div, FP.isNeg, this]
    rw [e]
    generalize FP.add (FP.ofRat b32 false (i : ℚ)) (FP.ofRat b32 false 0.5) = x at mid
    have : (FP.div x (.inf false)).fin = true ∧ |(FP.div x (.inf false)).val| ≤ 1 := by
      cases x with
      | nan => cases mid.fin
      | inf _ => cases mid.fin
      | zero _ => simp [FP.div, FP.fin, FP.val]
      | num _ _ => simp [FP.div, FP.fin, FP.val]
    exact small_sub this.1 half.fin this.2
  · have bw := nat_bd hw
    have gw := nat_ge hw0 hw
    have sc : (FP.div (FP.ofRat b32 false (n : ℚ)) (FP.ofRat b32 false (w : ℚ))).fin = true ∧
        1 / 2 ^ 32 ≤ (FP.div (FP.ofRat b32 false (n : ℚ)) (FP.ofRat b32 false (w : ℚ))).val := by
      rw [FP.div_fin bn.fin bw.fin (by linarith)]
      have pw : 0 < (FP.ofRat b32 false (w : ℚ)).val := by linarith
      refine ofRat_ge (by norm_num) ?_ ?_
      · rw [div_le_div_iff₀ (by norm_num) pw, one_mul]
        have := (le_abs_self _).trans bw.le
        nlinarith
      · rw [div_le_iff₀ pw]
        have := (le_abs_self _).trans bn.le
        nlinarith
    have q : Bd 65 (FP.div (FP.add (FP.ofRat b32 false (i : ℚ)) (FP.ofRat b32 false 0.5))
        (FP.div (FP.ofRat b32 false (n : ℚ)) (FP.ofRat b32 false (w : ℚ)))) :=
      mid.div (j := 32) sc.1 (sc.2.trans (le_abs_self _)) (by norm_num) (by norm_num)
    exact (q.sub half (m := 66) (by norm_num) (by norm_num) (by norm_num)).fin

theorem number_resize {b : PixelBuffer (Col F32)} (hb : All UnitCol b) (hbw : b.width < 2 ^ 32) (hbh : b.height < 2 ^ 32)
    {w h : Nat} (hw : w < 2 ^ 32) (hh : h < 2 ^ 32) (filter : FilterMode)
    (hf : clampingFilter filter = true ∨ filter = .Auto ∧ (b.width ≤ w ∨ b.height ≤ h)) :
    Ens (resize b w h filter) (All UnitCol) := by
  have cub : Ens (resize_with_fn b w h resize_pixel_bicubic) (All UnitCol) :=
    all_func_in fun i j hi hj => bicubic_unit hb (source_fin hw hbw hi) (source_fin hh hbh hj)
  unfold resize
  split
  · exact ens_ok hb
  · cases filter with
    | Nearest => exact all_func fun i j => all_get_clamped hb _ _
    | Bilinear => exact all_func_in fun i j hi hj => bilinear_unit hb (source_fin hw hbw hi) (source_fin hh hbh hj)
    | Bicubic => exact cub
    | Lanczos3 => rcases hf with h | h <;> cases h; cases ‹_ = _›
    | Auto =>
      simp only
      rw [if_pos]
      · exact cub
      · rcases hf with h | h
        · cases h
        · simpa using h.2

/-! ## Despeckle and symmetric nearest neighbour -/

omit [Libm b32] in
theorem nonneg_fold {α : Type} (f : F32 → α → F32) (l : List α) (hf : ∀ a ∈ l, ∀ s, NonNeg s → NonNeg (f s a)) {s : F32}
    (hs : NonNeg s) : NonNeg (l.foldl f s) := by
  induction l generalizing s with
  | nil => exact hs
  | cons a as ih => exact ih (fun b hb => hf b (.tail _ hb)) (hf a (.head _) s hs)

theorem number_despeckle {b : PixelBuffer (Col F32)} (hb : All UnitCol b) (t : F32) {n : Nat} (hn : n < 9) :
    Ens (despeckle b t n) (All UnitCol) := by
  have z : NonNeg (lit 0 : F32) := unit_nonneg lit0_unit
  refine all_enumerated fun x y c hc => ?_
  have h := hb c hc
  simp only
  split
  · refine ens_bind (ens_kernel hb 3 _ _) fun k hk => ?_
    have hk' : ∀ c ∈ k.flatten, UnitCol c := by
      intro c hc
      obtain ⟨r, hr, hc⟩ := List.mem_flatten.1 hc
      exact hk r hr c hc
    split
    · rename_i hcount
      refine ens_bind (P := fun m => 1 ≤ m ∧ m ≤ 9) ?_ fun m hm => ens_pure ?_
      · intro m hm
        unfold usub at hm
        split at hm
        · cases hm; omega
        · cases hm
      · have hs : (FP.ofRat b32 false (m : ℚ)).fin = true ∧ 0 < (FP.ofRat b32 false (m : ℚ)).val :=
          ⟨(nat_bd (n := m) (by omega)).fin, lt_of_lt_of_le one_pos (nat_ge (by omega) (by omega))⟩
        have three : ∀ l : List (Col F32), (∀ c ∈ l, UnitCol c) → ∀ d : F32 × F32 × F32,
            (NonNeg d.1 ∧ NonNeg d.2.1 ∧ NonNeg d.2.2) →
            (fun d : F32 × F32 × F32 => NonNeg d.1 ∧ NonNeg d.2.1 ∧ NonNeg d.2.2)
              (l.foldl (fun (d : F32 × F32 × F32) c =>
                if t <=. grayAverage c then (d.1 +. c.c0, d.2.1 +. c.c1, d.2.2 +. c.c2) else d) d) := by
          intro l
          induction l with
          | nil => intro _ d hd; exact hd
          | cons c cs ih =>
            intro hl d hd
            refine ih (fun c h => hl c (.tail _ h)) _ ?_
            have u := hl c (.head _)
            show NonNeg (if _ then _ else _ : F32 × F32 × F32).1 ∧ _
            beta_reduce
            split
            · exact ⟨hd.1.add ⟨u.c0.1, u.c0.2.1⟩, hd.2.1.add ⟨u.c1.1, u.c1.2.1⟩, hd.2.2.add ⟨u.c2.1, u.c2.2.1⟩⟩
            · exact hd
        have d := three k.flatten hk' (lit 0, lit 0, lit 0) ⟨z, z, z⟩
        exact new_unit (d.1.div hs).number (d.2.1.div hs).number (d.2.2.div hs).number (fin_number h.alpha.1)
    · exact ens_pure h
  · exact ens_pure h

theorem number_snn {b : PixelBuffer (Col F32)} (hb : All UnitCol b) {r : Nat} {with_center : Bool}
    (h : with_center = true ∨ (0 < r ∧ r < 2 ^ 31)) (hr : r < 2 ^ 32) :
    Ens (symmetric_nearest_neighbor b r with_center) (All UnitCol) := by
  have z : NonNeg (lit 0 : F32) := unit_nonneg lit0_unit
  refine all_func fun x y => ?_
  refine ens_bind (all_get hb _ _) fun c hc => ?_
  simp only
  refine ens_bind (P := fun l : List (List (Col F32)) => (∀ r ∈ l, (∀ c ∈ r, UnitCol c) ∧ r.length = 4) ∧
      l.length = (asI32 r).toNat) ?_ fun l hl => ens_pure ?_
  · intro l hl
    refine ⟨ens_mapM _ (fun i _ => ?_) l hl, by have := mapM_R_length _ _ _ hl; simpa using this⟩
    intro row hrow
    refine ⟨ens_mapM _ (fun p _ => ?_) row hrow, by have := mapM_R_length _ _ _ hrow; simpa [PAIRS] using this⟩
    refine ens_any fun _ => ens_any fun _ => ens_any fun _ => ens_any fun _ => ?_
    refine ens_bind (all_get_clamped hb _ _) fun c1 h1 => ?_
    refine ens_any fun _ => ens_any fun _ => ens_any fun _ => ens_any fun _ => ?_
    refine ens_bind (all_get_clamped hb _ _) fun c2 h2 => ens_pure ?_
    split
    · exact h1
    · exact h2
  · have len : ∀ l : List (List (Col F32)), (∀ r ∈ l, r.length = 4) → l.flatten.length = 4 * l.length := by
      intro l
      induction l with
      | nil => intro _; rfl
      | cons r rs ih =>
        intro h
        rw [List.flatten_cons, List.length_append, h r (.head _), ih fun r hr => h r (.tail _ hr), List.length_cons]
        omega
    have hlen := len l fun r hr => (hl.1 r hr).2
    rw [hl.2] at hlen
    have hmem : ∀ c ∈ l.flatten, UnitCol c := by
      intro c hc
      obtain ⟨r, hr, hc⟩ := List.mem_flatten.1 hc
      exact (hl.1 r hr).1 c hc
    generalize l.flatten = cs at hlen hmem
    have ub : (asI32 r).toNat < 2 ^ 31 := by
      unfold asI32
      split <;> omega
    have lb : with_center = true ∨ 0 < (asI32 r).toNat := by
      rcases h with h | h
      · exact .inl h
      · right
        unfold asI32
        rw [Nat.mod_eq_of_lt (by omega), if_pos h.2]
        exact h.1
    have bn : Bd 33 (FP.ofRat b32 false (cs.length : ℚ)) := nat_bd' (by norm_num) (by omega)
    have hd : (if with_center = true then (lit (cs.length : ℚ) : F32) +. lit 1 else lit (cs.length : ℚ)).fin = true ∧
        0 < (if with_center = true then (lit (cs.length : ℚ) : F32) +. lit 1 else lit (cs.length : ℚ)).val := by
      split
      · have one : (FP.ofRat b32 false 1).fin = true ∧ (FP.ofRat b32 false 1).val = 1 := by decide +kernel
        have n0 : 0 ≤ (FP.ofRat b32 false (cs.length : ℚ)).val := by
          rcases Nat.eq_zero_or_pos cs.length with e | e
          · rw [e, Nat.cast_zero, FP.ofRat_zero]; exact le_rfl
          · exact le_trans zero_le_one (nat_ge' (k := 33) (by norm_num) e (by omega))
        show (FP.add (FP.ofRat b32 false (cs.length : ℚ)) (FP.ofRat b32 false 1)).fin = true ∧
          0 < (FP.add (FP.ofRat b32 false (cs.length : ℚ)) (FP.ofRat b32 false 1)).val
        rw [FP.add_fin bn.fin one.1, one.2]
        have := ofRat_ge (s := (FP.ofRat b32 false (cs.length : ℚ)).isNeg && (FP.ofRat b32 false 1).isNeg)
          (q := (FP.ofRat b32 false (cs.length : ℚ)).val + 1) (j := 0) (by norm_num) (by norm_num; exact n0)
          (by have := (le_abs_self _).trans bn.le; linarith)
        exact ⟨this.1, lt_of_lt_of_le (by norm_num) this.2⟩
      · rename_i hc
        have hpos : 0 < cs.length := by
          rcases lb with h | h
          · exact absurd h hc
          · omega
        exact ⟨bn.fin, lt_of_lt_of_le one_pos (nat_ge' (k := 33) (by norm_num) hpos (by omega))⟩
    have acc : ∀ {a c : Col F32}, (NonNeg a.c0 ∧ NonNeg a.c1 ∧ NonNeg a.c2 ∧ NonNeg a.alpha) → UnitCol c →
        NonNeg (a.accumulate c).c0 ∧ NonNeg (a.accumulate c).c1 ∧ NonNeg (a.accumulate c).c2 ∧
          NonNeg (a.accumulate c).alpha :=
      fun ha u => ⟨ha.1.add ⟨u.c0.1, u.c0.2.1⟩, ha.2.1.add ⟨u.c1.1, u.c1.2.1⟩, ha.2.2.1.add ⟨u.c2.1, u.c2.2.1⟩,
        ha.2.2.2.add ⟨u.alpha.1, u.alpha.2.1⟩⟩
    have sum : ∀ (l : List (Col F32)), (∀ c ∈ l, UnitCol c) → ∀ a : Col F32,
        (NonNeg a.c0 ∧ NonNeg a.c1 ∧ NonNeg a.c2 ∧ NonNeg a.alpha) →
        NonNeg (l.foldl Col.accumulate a).c0 ∧ NonNeg (l.foldl Col.accumulate a).c1 ∧
          NonNeg (l.foldl Col.accumulate a).c2 ∧ NonNeg (l.foldl Col.accumulate a).alpha := by
      intro l
      induction l with
      | nil => intro _ a h; exact h
      | cons c cs ih => intro hl a ha; exact ih (fun c h => hl c (.tail _ h)) _ (acc ha (hl c (.head _)))
    have start : ∀ a : Col F32, a = (if with_center = true then (⟨lit 0, lit 0, lit 0, lit 0⟩ : Col F32).accumulate c
        else ⟨lit 0, lit 0, lit 0, lit 0⟩) → NonNeg a.c0 ∧ NonNeg a.c1 ∧ NonNeg a.c2 ∧ NonNeg a.alpha := by
      intro a ha
      subst ha
      split
      · exact acc ⟨z, z, z, z⟩ hc
      · exact ⟨z, z, z, z⟩
    have t := sum cs hmem _ (start _ rfl)
    exact new_unit (t.1.div hd).number (t.2.1.div hd).number (t.2.2.1.div hd).number (t.2.2.2.div hd).number

/-! ## Stretching the contrast -/

theorem level_fin {l : List (F32 × Nat)} (hl : ∀ p ∈ l, p.2 < 256) (t agg : F32) : (scanLevels t agg l).fin = true := by
  induction l generalizing agg with
  | nil => exact lit1_unit.1
  | cons p rest ih =>
    obtain ⟨v, i⟩ := p
    unfold scanLevels
    simp only
    split
    · exact ((nat_bd' (k := 8) (n := i) (by norm_num) (by have := hl _ (.head _); simp only at this; omega)).div
        (j := 0) (m := 8) (y := FP.ofRat b32 false 255) (by decide +kernel) (by decide +kernel) (by norm_num)
        (by norm_num)).fin
    · exact ih (fun p h => hl p (.tail _ h)) _

theorem number_stretch (hp : PowGivesNumbers) {b : PixelBuffer (Col F32)} (hb : All UnitCol b) (t : F32) :
    Ens (stretch_contrast b t) (All UnitCol) := by
  unfold stretch_contrast
  refine ens_bind (P := fun l : List F32 => l.length = 256) ?_ fun l hl => ?_
  · refine ens_foldlM _ _ List.length_replicate fun l c _ hl => ?_
    refine ens_any fun v => ?_
    intro l' h'
    unfold setIndex at h'
    split at h'
    · cases h'; rw [List.length_set]; exact hl
    · cases h'
  · have idx : ∀ p ∈ l.zipIdx, p.2 < 256 := by
      intro p hp
      have := List.snd_lt_of_mem_zipIdx hp
      omega
    simp only
    split
    · refine ens_pure (all_map fun c hc => ?_)
      exact C122_colours hp (hb c hc) (hb c hc) (p := get_min_value l (t /. lit 1000))
        (q := get_max_value l (t /. lit 1000)) (r := lit 1) (level_fin idx _ _)
        (level_fin (fun p h => idx p (List.mem_reverse.1 h)) _ _) lit1_unit.1 .Average _
        (by simp only [List.mem_cons, true_or, or_true])
    · exact ens_pure hb

/-! ## Equalizing -/

theorem ens_count (b : PixelBuffer (Col F32)) (channel : Nat) :
    Ens (countChannel b channel) fun h => ∀ v ∈ h, Bd 60 v := by
  have one : Bd 0 (FP.ofRat b32 false 1) := Bd.ofRat (by norm_num) (by norm_num)
  have zero : Bd 60 (FP.ofRat b32 false 0) := Bd.ofRat (by norm_num) (by norm_num)
  refine ens_foldlM _ _ (fun v hv => by rw [List.eq_of_mem_replicate hv]; exact zero) fun h c _ hh => ?_
  refine ens_any fun v => ?_
  refine ens_bind (ens_index hh _) fun x hx => ?_
  exact ens_setIndex hh (Bd.absorb (by norm_num) (by decide +kernel) hx one) _

theorem cumulate_bd {n : F32} (hn : n.fin = true ∧ 1 ≤ n.val) (l : List F32) (hl : ∀ v ∈ l, Bd 60 v) {s : F32}
    (hs : Bd 100 s) : ∀ v ∈ cumulate n s l, Bd 100 v := by
  induction l generalizing s with
  | nil => intro v hv; cases hv
  | cons x xs ih =>
    have s' : Bd 100 (FP.add s x) := Bd.absorb (by norm_num) (by decide +kernel) hs (hl x (.head _))
    intro v hv
    rcases List.mem_cons.1 hv with rfl | hv
    · exact s'.div (j := 0) hn.1 (by rw [abs_of_nonneg (by linarith [hn.2])]; simpa using hn.2) (by norm_num) (by norm_num)
    · exact ih (fun v h => hl v (.tail _ h)) s' v hv

theorem max_fold {l : List F32} (hl : ∀ v ∈ l, Bd 100 v) {s : F32} (hs : Bd 100 s) :
    Bd 100 (l.foldl Scalar.max s) ∧ s.val ≤ (l.foldl Scalar.max s).val ∧ ∀ v ∈ l, v.val ≤ (l.foldl Scalar.max s).val := by
  induction l generalizing s with
  | nil => exact ⟨hs, le_rfl, fun v hv => by cases hv⟩
  | cons x xs ih =>
    have hx := hl x (.head _)
    obtain ⟨f, e⟩ := NearF.max_fin hs.fin hx.fin
    have s' : Bd 100 (Scalar.max s x) := ⟨f, by
      rw [e]; rcases max_choice s.val x.val with h | h <;> rw [h]
      · exact hs.le
      · exact hx.le⟩
    obtain ⟨a, b, c⟩ := ih (fun v h => hl v (.tail _ h)) s'
    rw [e] at b
    refine ⟨a, (le_max_left _ _).trans b, fun v hv => ?_⟩
    rcases List.mem_cons.1 hv with rfl | hv
    · exact (le_max_right _ _).trans b
    · exact c v hv

theorem min_fold {l : List F32} (hl : ∀ v ∈ l, Bd 100 v) {s : F32} (hs : s.fin = true ∧ -2 ^ 100 ≤ s.val) :
    (l.foldl Scalar.min s).fin = true ∧ -2 ^ 100 ≤ (l.foldl Scalar.min s).val ∧ (l.foldl Scalar.min s).val ≤ s.val ∧
      ∀ v ∈ l, (l.foldl Scalar.min s).val ≤ v.val := by
  induction l generalizing s with
  | nil => exact ⟨hs.1, hs.2, le_rfl, fun v hv => by cases hv⟩
  | cons x xs ih =>
    have hx := hl x (.head _)
    obtain ⟨f, e⟩ := NearF.min_fin hs.1 hx.fin
    obtain ⟨a, b, c, d⟩ := ih (fun v h => hl v (.tail _ h)) (s := Scalar.min s x)
      ⟨f, by rw [e]; exact le_min hs.2 (abs_le.1 hx.le).1⟩
    rw [e] at c
    refine ⟨a, b, c.trans (min_le_left _ _), fun v hv => ?_⟩
    rcases List.mem_cons.1 hv with rfl | hv
    · exact c.trans (min_le_right _ _)
    · exact d v hv

/-- A table of finite entries is stretched to the unit interval. -/
theorem normalize_unit {l : List F32} (hl : ∀ v ∈ l, Bd 100 v) :
    ∀ v ∈ normalizeTable l, v.fin = true ∧ 0 ≤ v.val ∧ v.val ≤ 1 := by
  intro v hv
  unfold normalizeTable at hv
  simp only at hv
  obtain ⟨mf, m0, mx⟩ := max_fold hl (s := (lit 0 : F32)) (Bd.ofRat (by norm_num) (by norm_num))
  obtain ⟨nf, nb, -, nx⟩ := min_fold hl (s := (f32_MAX : F32)) (by
    show (FP.ofRat b32 false 340282346638528859811704183484516925440).fin = true ∧ _ ≤ (FP.ofRat b32 false 340282346638528859811704183484516925440).val
    decide +kernel)
  generalize l.foldl Scalar.max (lit 0) = mx' at hv mf m0 mx
  generalize l.foldl Scalar.min f32_MAX = mn at hv nf nb nx
  split at hv
  · obtain ⟨_, -, rfl⟩ := List.mem_map.1 hv
    exact lit0_unit
  · rename_i hd
    obtain ⟨u, hu, rfl⟩ := List.mem_map.1 hv
    have bu := hl u hu
    have h1 := mx u hu
    have h2 := nx u hu
    have bn : Bd 100 mn := ⟨nf, abs_le.2 ⟨nb, h2.trans ((le_abs_self _).trans bu.le)⟩⟩
    have bd : Bd 101 (FP.sub mx' mn) := mf.sub bn (by norm_num) (by norm_num) (by norm_num)
    have bv : Bd 101 (FP.sub u mn) := bu.sub bn (by norm_num) (by norm_num) (by norm_num)
    have eps : (f32_EPSILON : F32).fin = true ∧ 0 < (f32_EPSILON : F32).val := by
      show (FP.ofRat b32 false (1 / 8388608)).fin = true ∧ 0 < (FP.ofRat b32 false (1 / 8388608)).val
      decide +kernel
    have pos : 0 < (FP.sub mx' mn).val := by
      have hd' : ¬ FP.lt (FP.sub mx' mn) f32_EPSILON = true := hd
      rw [FP.lt_fin bd.fin eps.1, decide_eq_true_iff, not_lt] at hd'
      exact lt_of_lt_of_le eps.2 hd'
    have sv : ∀ {x : F32}, Bd 100 x → (FP.sub x mn).val = rn b32 (x.val - mn.val) := by
      intro x hx
      rw [FP.sub_fin hx.fin nf]
      refine (FP.ofRat_of_le (r := 2 ^ 127) (f := b32)
        (by rw [show (2 : ℚ) ^ 127 = pow2 127 by decide +kernel]; exact IsRep.pow2 (by decide)) (by decide +kernel) ?_).2
      have a := abs_le.1 hx.le
      have b := abs_le.1 bn.le
      rw [abs_le]
      constructor <;> linarith
    have key : 0 ≤ (FP.sub u mn).val ∧ (FP.sub u mn).val ≤ (FP.sub mx' mn).val := by
      rw [sv bu, sv mf]
      refine ⟨?_, rn_mono (by linarith)⟩
      have := rn_mono (f := b32) (a := 0) (b := u.val - mn.val) (by linarith)
      rwa [rn_zero] at this
    show (FP.div (FP.sub u mn) (FP.sub mx' mn)).fin = true ∧ 0 ≤ (FP.div (FP.sub u mn) (FP.sub mx' mn)).val ∧ (FP.div (FP.sub u mn) (FP.sub mx' mn)).val ≤ 1
    rw [FP.div_fin bv.fin bd.fin pos.ne']
    have q0 := div_nonneg key.1 pos.le
    have q1 := div_le_one_of_le₀ key.2 pos.le
    have bq := Bd.ofRat (k := 0) (s := (FP.sub u mn).isNeg != (FP.sub mx' mn).isNeg) (by norm_num)
      (show |(FP.sub u mn).val / (FP.sub mx' mn).val| ≤ 2 ^ 0 by rw [abs_of_nonneg q0]; simpa using q1)
    refine ⟨bq.fin, ?_, (le_abs_self _).trans (by simpa using bq.le)⟩
    rcases NonNeg.round (s := (FP.sub u mn).isNeg != (FP.sub mx' mn).isNeg) q0 with h | h
    · have f := bq.fin
      rw [h] at f
      cases f
    · exact h.2

/-- The table of a channel, if the image has pixels. -/
theorem ens_histogram {b : PixelBuffer (Col F32)} (h0 : 0 < b.width * b.height) (channel : Nat) :
    Ens (channel_histogram b channel) fun l => ∀ v ∈ l, v.fin = true ∧ 0 ≤ v.val ∧ v.val ≤ 1 := by
  refine ens_bind (ens_count b channel) fun h hh => ?_
  refine ens_bind (ens_u32 _) fun n hn => ens_pure ?_
  obtain ⟨rfl, hn⟩ := hn
  exact normalize_unit (cumulate_bd ⟨(nat_bd hn).fin, nat_ge h0 hn⟩ h hh (Bd.ofRat (by norm_num) (by norm_num)))

theorem number_equalize (hp : PowGivesNumbers) {b : PixelBuffer (Col F32)} (hb : All UnitCol b) (hw : WellFormed b)
    (mode : EqualizeMode) : Ens (equalize b mode) (All UnitCol) := by
  by_cases h0 : 0 < b.width * b.height
  · have pick : ∀ {l : List F32} (v : F32), (∀ v ∈ l, v.fin = true ∧ 0 ≤ v.val ∧ v.val ≤ 1) →
        Ens (pick_value l v) fun v => v.fin = true ∧ 0 ≤ v.val ∧ v.val ≤ 1 := fun v h => ens_index h _
    have hsl : ∀ c ∈ (b.convert .rgb .hsl).data, Bd 123 c.c0 ∧ (c.c1.fin = true ∧ 0 ≤ c.c1.val ∧ c.c1.val ≤ 1) ∧
        (c.c2.fin = true ∧ 0 ≤ c.c2.val ∧ c.c2.val ≤ 1) ∧ c.alpha ≠ .nan := by
      intro c hc
      obtain ⟨d, hd, rfl⟩ := List.mem_map.1 hc
      obtain ⟨x, y, z⟩ := hsl_number (hb d hd)
      exact ⟨x.mono (by norm_num), y, z, by
        show (Rgb.to_hsl d).alpha ≠ .nan
        rw [to_hsl_alpha]; exact fin_number (hb d hd).alpha.1⟩
    cases mode with
    | Rgb =>
      refine ens_bind (ens_histogram h0 0) fun l0 h0' => ens_bind (ens_histogram h0 1) fun l1 h1 =>
        ens_bind (ens_histogram h0 2) fun l2 h2 => all_mapM fun c hc => ?_
      exact ens_bind (pick _ h0') fun _ p0 => ens_bind (pick _ h1) fun _ p1 => ens_bind (pick _ h2) fun _ p2 =>
        ens_pure (new_unit (fin_number p0.1) (fin_number p1.1) (fin_number p2.1) (fin_number (hb c hc).alpha.1))
    | Srgb =>
      refine ens_bind (ens_histogram (b := b.convert .rgb .srgb) h0 0) fun l0 h0' =>
        ens_bind (ens_histogram (b := b.convert .rgb .srgb) h0 1) fun l1 h1 =>
        ens_bind (ens_histogram (b := b.convert .rgb .srgb) h0 2) fun l2 h2 => all_mapM fun c hc => ?_
      have ha : c.alpha ≠ .nan := by
        obtain ⟨d, hd, rfl⟩ := List.mem_map.1 hc
        exact fin_number (clamp_number (fin_number (hb d hd).alpha.1)).1
      exact ens_bind (pick _ h0') fun _ p0 => ens_bind (pick _ h1) fun _ p1 => ens_bind (pick _ h2) fun _ p2 =>
        ens_pure (srgb_unit hp (fin_number (clamp_number (fin_number p0.1)).1) (fin_number (clamp_number (fin_number p1.1)).1)
          (fin_number (clamp_number (fin_number p2.1)).1) (fin_number (clamp_number ha).1))
    | Saturation =>
      refine ens_bind (ens_histogram (b := b.convert .rgb .hsl) h0 1) fun l h => all_mapM fun c hc => ?_
      obtain ⟨x, y, z, a⟩ := hsl c hc
      exact ens_bind (pick _ h) fun _ p => ens_pure (hsl_unit x p z a)
    | Lightness =>
      refine ens_bind (ens_histogram (b := b.convert .rgb .hsl) h0 2) fun l h => all_mapM fun c hc => ?_
      obtain ⟨x, y, z, a⟩ := hsl c hc
      exact ens_bind (pick _ h) fun _ p => ens_pure (hsl_unit x y p a)
    | SaturationLightness =>
      refine ens_bind (ens_histogram (b := b.convert .rgb .hsl) h0 1) fun l h =>
        ens_bind (ens_histogram (b := b.convert .rgb .hsl) h0 2) fun l' h' => all_mapM fun c hc => ?_
      obtain ⟨x, y, z, a⟩ := hsl c hc
      exact ens_bind (pick _ h) fun _ p => ens_bind (pick _ h') fun _ p' => ens_pure (hsl_unit x p p' a)
  · have e : b.data = [] := by
      have := hw.2
      exact List.eq_nil_of_length_eq_zero (by omega)
    have none : ∀ {P : Col F32 → Prop}, ∀ c ∈ b.data, P c := by
      intro P c hc
      rw [e] at hc
      cases hc
    have none' : ∀ {s : Space} {P : Col F32 → Prop}, ∀ c ∈ (b.convert .rgb s).data, P c := by
      intro s P c hc
      obtain ⟨d, hd, rfl⟩ := List.mem_map.1 hc
      exact none (P := fun d => P (convert .rgb s d)) d hd
    cases mode with
    | Rgb => exact ens_any fun _ => ens_any fun _ => ens_any fun _ => all_mapM none
    | Srgb => exact ens_any fun _ => ens_any fun _ => ens_any fun _ => all_mapM none'
    | Saturation => exact ens_any fun _ => all_mapM none'
    | Lightness => exact ens_any fun _ => all_mapM none'
    | SaturationLightness => exact ens_any fun _ => ens_any fun _ => all_mapM none'

/-! ## Blending -/

theorem hsl_unit' {h s l a : F32} (hh : Bd 123 h) (hs : s.fin = true ∧ 0 ≤ s.val ∧ s.val ≤ 1) (hl : Bd 1 l) (ha : a ≠ .nan) :
    UnitCol (Hsl.to_rgb ⟨h, s, l, a⟩) := by
  have one : Bd 0 (FP.ofRat b32 false 1) := Bd.ofRat (by norm_num) (by norm_num)
  have third : Bd 0 (FP.div (FP.ofRat b32 false 1) (FP.ofRat b32 false 3)) :=
    ⟨by decide +kernel, by decide +kernel⟩
  unfold Hsl.to_rgb
  simp only
  split
  · exact new_unit hl.number hl.number hl.number ha
  · have hq : Bd 3 (if l <. lit 0.5 then l *. (lit 1 +. s) else l +. s -. l *. s) := by
      split
      · exact (Bd.mul (k := 1) (l := 1) (m := 2) hl (one.add (Bd.unit hs) (by norm_num) (by norm_num)
          (by norm_num)) (by norm_num) (by norm_num)).mono (by norm_num)
      · exact Bd.sub (k := 2) (l := 1) (hl.add (Bd.unit hs) (by norm_num) (by norm_num) (by norm_num))
          (hl.mul (Bd.unit hs) (by norm_num) (by norm_num)) (by norm_num) (by norm_num) (by norm_num)
    generalize (if l <. lit 0.5 then l *. (lit 1 +. s) else l +. s -. l *. s) = q at hq ⊢
    have hp' : Bd 4 (lit 2 *. l -. q) :=
      Bd.sub (k := 2) (l := 3) (Bd.mul (k := 1) (l := 1) (Bd.ofRat (by norm_num) (by norm_num)) hl (by norm_num)
        (by norm_num)) hq (by norm_num) (by norm_num) (by norm_num)
    have hq' := hq.mono (m := 4) (by norm_num)
    exact new_unit
      (hue2rgb_number hp' hq' (hh.add third (by norm_num) (by norm_num) (by norm_num)))
      (hue2rgb_number hp' hq' (hh.mono (by norm_num)))
      (hue2rgb_number hp' hq' (hh.sub third (by norm_num) (by norm_num) (by norm_num))) ha

omit [Libm b32] in
/-- A factor between -1 and 1 keeps a number finite. -/
theorem scaled_fin {x y : F32} (hx : x.fin = true) (h : |x.val| ≤ 1) (hy : y.fin = true) : (FP.mul x y).fin = true := by
  rw [FP.mul_fin hx hy]
  refine (FP.ofRat_of_le largest.1 largest.2.2 ?_).1
  rw [abs_mul]
  exact (mul_le_of_le_one_left (abs_nonneg _) h).trans (fin_le_largest hy)

omit [Libm b32] in
theorem scaled_fin' {x y : F32} (hx : x.fin = true) (hy : y.fin = true) (h : |y.val| ≤ 1) : (FP.mul x y).fin = true := by
  rw [FP.mul_fin hx hy]
  refine (FP.ofRat_of_le largest.1 largest.2.2 ?_).1
  rw [abs_mul]
  exact (mul_le_of_le_one_right (abs_nonneg _) h).trans (fin_le_largest hx)

theorem number_blend {a b : PixelBuffer (Col F32)} (ha : All UnitCol a) (hb : All UnitCol b) (op : BlendOp) {i : F32}
    (h : TameBlend op i) : Ens (blend_image a b op i) (All UnitCol) := by
  have run : ∀ f : Col F32 → Col F32 → F32 → Col F32,
      (∀ c d, UnitCol c → UnitCol d → UnitCol (f c d i)) → Ens (blend_image_with_func a b i f) (All UnitCol) := by
    intro f h
    refine all_func fun x y => ?_
    refine ens_bind (all_get_optional ha _ _) fun o1 h1 => ?_
    refine ens_bind (all_get_optional hb _ _) fun o2 h2 => ?_
    cases o1 with
    | none => cases o2 with
      | none => exact ens_pure ⟨lit0_unit, lit0_unit, lit0_unit, lit0_unit⟩
      | some d => exact ens_pure (h2 d rfl)
    | some c => cases o2 with
      | none => exact ens_pure (h1 c rfl)
      | some d => exact ens_pure (h c d (h1 c rfl) (h2 d rfl))
  have one : Bd 0 (FP.ofRat b32 false 1) := Bd.ofRat (by norm_num) (by norm_num)
  have small : ∀ {x : F32}, (x.fin = true ∧ 0 ≤ x.val ∧ x.val ≤ 1) → |x.val| ≤ 1 :=
    fun h => by rw [abs_of_nonneg h.2.1]; exact h.2.2
  have rest : ∀ {x : F32}, x.fin = true → (FP.sub (FP.ofRat b32 false 1) x).fin = true :=
    fun h => small_sub one.fin h (by simpa using one.le)
  have plain : i.fin = true → ∀ f : F32 → F32 → F32,
      (∀ u v : F32, (u.fin = true ∧ 0 ≤ u.val ∧ u.val ≤ 1) → (v.fin = true ∧ 0 ≤ v.val ∧ v.val ≤ 1) → (f u v).fin = true) →
      Ens (blend_image_with_func a b i fun c d i => blend_color c d i f) (All UnitCol) := by
    intro fi f hf
    refine run _ fun c d hc hd => ?_
    have fi' : (FP.mul i d.alpha).fin = true := scaled_fin' fi hd.alpha.1 (small hd.alpha)
    have mix : ∀ {u v : F32}, (u.fin = true ∧ 0 ≤ u.val ∧ u.val ≤ 1) → (v.fin = true ∧ 0 ≤ v.val ∧ v.val ≤ 1) →
        apply_intensity u (f u v) (i *. d.alpha) ≠ .nan := fun hu hv =>
      add_number (scaled_fin hu.1 (small hu) (rest fi')) (mul_number (hf _ _ hu hv) fi')
    exact new_unit (mix hc.c0 hd.c0) (mix hc.c1 hd.c1) (mix hc.c2 hd.c2) (fin_number hd.alpha.1)
  have light : (i.fin = true ∧ 0 ≤ i.val ∧ i.val ≤ 1) → ∀ f : F32 → F32 → F32,
      (∀ u v : F32, (u.fin = true ∧ 0 ≤ u.val ∧ u.val ≤ 1) → (v.fin = true ∧ 0 ≤ v.val ∧ v.val ≤ 1) →
        ((f u v).fin = true ∧ 0 ≤ (f u v).val ∧ (f u v).val ≤ 1)) →
      ∀ c d : Col F32, UnitCol c → UnitCol d →
        UnitCol (Hsl.to_rgb { Rgb.to_hsl c with c2 := apply_intensity (Rgb.to_hsl c).c2 (f (Rgb.to_hsl c).c2 (Rgb.to_hsl d).c2) i }) := by
    intro hi f hf c d hc hd
    obtain ⟨x, y, z⟩ := hsl_number hc
    obtain ⟨-, -, z'⟩ := hsl_number hd
    have r : Bd 0 (FP.sub (FP.ofRat b32 false 1) i) := by
      have o : (FP.ofRat b32 false 1).val = 1 := by decide +kernel
      rw [FP.sub_fin one.fin hi.1, o]
      exact Bd.ofRat (by norm_num) (by rw [abs_le]; constructor <;> linarith [hi.2.1, hi.2.2])
    exact hsl_unit' (x.mono (by norm_num)) y
      (Bd.add (k := 0) (l := 0) ((Bd.unit z).mul r (by norm_num) (by norm_num))
        ((Bd.unit (hf _ _ z z')).mul (Bd.unit hi) (by norm_num) (by norm_num)) (by norm_num) (by norm_num) (by norm_num))
      (by rw [to_hsl_alpha]; exact fin_number hc.alpha.1)
  have lo : ∀ u v : F32, (u.fin = true ∧ 0 ≤ u.val ∧ u.val ≤ 1) → (v.fin = true ∧ 0 ≤ v.val ∧ v.val ≤ 1) →
      ((Scalar.min u v).fin = true ∧ 0 ≤ (Scalar.min u v).val ∧ (Scalar.min u v).val ≤ 1) := by
    intro u v hu hv
    obtain ⟨f, e⟩ := NearF.min_fin hu.1 hv.1
    exact ⟨f, by rw [e]; exact le_min hu.2.1 hv.2.1, by rw [e]; exact (min_le_left _ _).trans hu.2.2⟩
  have hi' : ∀ u v : F32, (u.fin = true ∧ 0 ≤ u.val ∧ u.val ≤ 1) → (v.fin = true ∧ 0 ≤ v.val ∧ v.val ≤ 1) →
      ((Scalar.max u v).fin = true ∧ 0 ≤ (Scalar.max u v).val ∧ (Scalar.max u v).val ≤ 1) := by
    intro u v hu hv
    obtain ⟨f, e⟩ := NearF.max_fin hu.1 hv.1
    exact ⟨f, by rw [e]; exact hu.2.1.trans (le_max_left _ _), by rw [e]; exact max_le hu.2.2 hv.2.2⟩
  cases op with
  | Normal =>
    refine run _ fun c d hc hd => ?_
    have fa : (FP.mul d.alpha i).fin = true := scaled_fin hd.alpha.1 (small hd.alpha) h
    have mix : ∀ {u v : F32}, (u.fin = true ∧ 0 ≤ u.val ∧ u.val ≤ 1) → (v.fin = true ∧ 0 ≤ v.val ∧ v.val ≤ 1) →
        v *. (d.alpha *. i) +. (lit 1 -. d.alpha *. i) *. u ≠ .nan := fun hu hv =>
      add_number (scaled_fin hv.1 (small hv) fa) (mul_number (rest fa) hu.1)
    refine new_unit (mix hc.c0 hd.c0) (mix hc.c1 hd.c1) (mix hc.c2 hd.c2) ?_
    exact fin_number (NearF.min_fin (x := FP.add c.alpha (FP.mul d.alpha i))
      (add_small' hc.alpha.1 fa (small hc.alpha)) lit1_unit.1).1
  | Addition => exact plain h _ fun u v hu hv => ((Bd.unit hu).add (Bd.unit hv) (m := 1) (by norm_num) (by norm_num) (by norm_num)).fin
  | Subtract => exact plain h _ fun u v hu hv => ((Bd.unit hu).sub (Bd.unit hv) (m := 1) (by norm_num) (by norm_num) (by norm_num)).fin
  | Darken => exact plain h _ fun u v hu hv => (lo u v hu hv).1
  | Lighten => exact plain h _ fun u v hu hv => (hi' u v hu hv).1
  | HslDarken => exact run _ (light h _ lo)
  | HslLighten => exact run _ (light h _ hi')
  | LchDarken => exact h.elim
  | LchLighten => exact h.elim
  | LchHue => exact h.elim
  | LchSaturation => exact h.elim
  | LchColor => exact h.elim

/-! ## Noise with normal draws, the JPEG round trip -/

theorem number_gaussian {σ : Type} {g : Rng σ F32} (hg : ∀ s, (g.normal s).1.fin = true) {b : PixelBuffer (Col F32)}
    (hb : All UnitCol b) {a : F32} (fa : a.fin = true) :
    EnsS (gaussian_noise g .rgb b a) (All UnitCol) ∧ EnsS (add_gaussian_noise g .rgb b a) (All UnitCol) := by
  have one : Bd 0 (FP.ofRat b32 false 1) := Bd.ofRat (by norm_num) (by norm_num)
  have chan : ∀ {v : F32}, (v.fin = true ∧ 0 ≤ v.val ∧ v.val ≤ 1) → EnsS (noiseChannel g.normal a v) (· ≠ .nan) := by
    intro v hv
    refine ensS_bind (P := fun n : F32 => n.fin = true) ?_ fun n hn => ensS_pure ?_
    · intro s p hp; cases hp; exact hg s
    · have rest : (FP.sub (FP.ofRat b32 false 1) a).fin = true := small_sub one.fin fa (by simpa using one.le)
      exact add_number' (mul_number hn fa)
        (scaled_fin' rest hv.1 (by rw [abs_of_nonneg hv.2.1]; exact hv.2.2))
  have col : ∀ c : Col F32, UnitCol c → EnsS (try_map_color_channels .rgb c (noiseChannel g.normal a)) UnitCol :=
    fun c hc => ensS_bind (chan hc.c0) fun _ h0 => ensS_bind (chan hc.c1) fun _ h1 => ensS_bind (chan hc.c2) fun _ h2 =>
      ensS_pure (new_unit h0 h1 h2 (fin_number hc.alpha.1))
  exact ⟨all_mapS fun c h => col c (hb c h), all_modS fun c h => col c (hb c h)⟩

theorem number_decode_buffer (hp : PowGivesNumbers) {libs : Libs F32} (hl : LibsGiveNumbers libs) (bytes : List Nat) :
    EnsD (decode_buffer libs bytes) (All UnitCol) :=
  ensD_any fun _ => number_decode hp hl _ _

theorem number_jpeg [FloatBytes F32] (hp : PowGivesNumbers) {libs : Libs F32} (hl : LibsGiveNumbers libs)
    {b : PixelBuffer (Col F32)} (hb : All UnitCol b) (q : Nat) (preserve : Bool) :
    Ens (jpeg_quality (jpegCodec libs) b q preserve) (All UnitCol) := by
  have copy : ∀ ins outs : List (Col F32), (∀ c ∈ ins, UnitCol c) → (∀ c ∈ outs, UnitCol c) →
      ∀ c ∈ copyAlpha ins outs, UnitCol c := by
    intro ins
    induction ins with
    | nil => intro outs _ h; exact h
    | cons i ins ih =>
      intro outs hi ho
      cases outs with
      | nil => exact ho
      | cons o outs =>
        intro c hc
        rcases List.mem_cons.1 hc with rfl | hc
        · have u := ho o (.head _)
          exact ⟨u.c0, u.c1, u.c2, (hi i (.head _)).alpha⟩
        · exact ih outs (fun c h => hi c (.tail _ h)) (fun c h => ho c (.tail _ h)) c hc
  have codec : ∀ out, jpegCodec libs b q = some out → All UnitCol out := by
    intro out h
    unfold jpegCodec at h
    split at h
    · split at h
      · cases h
        exact number_decode_buffer hp hl _ _ ‹_›
      · cases h
    · cases h
  unfold jpeg_quality
  split
  · exact ens_error
  · rename_i out h
    split
    · exact ens_ok (copy _ _ hb (codec out h))
    · exact ens_ok (codec out h)

end

end D10
