import Verif.Props.Reach
import Verif.Props.Codecs
import Verif.Model.Image

/-! # The sizes of results: whatever an operation returns, if it returns, is well formed -/

namespace D10

open Spec

variable {T U : Type}

/-- If there is a result, it is a well formed buffer of the size `w` x `h`. -/
def Gives (x : R (PixelBuffer T)) (w h : Nat) : Prop :=
  ∀ b, x = .ok b → WellFormed b ∧ b.width = w ∧ b.height = h

theorem gives_bind {α : Type} {x : R α} {f : α → R (PixelBuffer T)} {w h : Nat}
    (hf : ∀ a, Gives (f a) w h) : Gives (x >>= f) w h := by
  intro b hb
  cases x with
  | error e => cases hb
  | ok a => exact hf a b hb

theorem gives_bind_buffer {x : R (PixelBuffer U)} {f : PixelBuffer U → R (PixelBuffer T)}
    {w h w' h' : Nat} (hx : Gives x w' h')
    (hf : ∀ a, WellFormed a → a.width = w' → a.height = h' → Gives (f a) w h) :
    Gives (x >>= f) w h := by
  intro b hb
  cases x with
  | error e => cases hb
  | ok a =>
    obtain ⟨h1, h2, h3⟩ := hx a rfl
    exact hf a h1 h2 h3 b hb

theorem gives_error {e : Panic} {w h : Nat} : Gives (.error e : R (PixelBuffer T)) w h := by
  intro b hb; cases hb

theorem gives_self {b : PixelBuffer T} (hb : WellFormed b) : Gives (.ok b) b.width b.height := by
  intro b' h; cases h; exact ⟨hb, rfl, rfl⟩

theorem map_wf {b : PixelBuffer T} (hb : WellFormed b) (f : T → U) : WellFormed (b.map_colors f) :=
  ⟨hb.1, by simpa [PixelBuffer.map_colors] using hb.2⟩

theorem gives_map {b : PixelBuffer T} (hb : WellFormed b) (f : T → U) :
    Gives (.ok (b.map_colors f)) b.width b.height := by
  intro b' h; cases h; exact ⟨map_wf hb f, rfl, rfl⟩

theorem gives_mapM {b : PixelBuffer T} (hb : WellFormed b) (f : T → R U) :
    Gives (b.map_colorsM f) b.width b.height := by
  intro b' h
  simp only [PixelBuffer.map_colorsM, bind, Except.bind, pure, Except.pure] at h
  split at h
  · cases h
  · rename_i v
    cases h
    exact ⟨⟨hb.1, by have := mapM_R_length _ _ _ v; simpa [this] using hb.2⟩, rfl, rfl⟩

theorem gives_enumerated {b : PixelBuffer T} (hb : WellFormed b) (f : Nat → Nat → T → R T) :
    Gives (b.map_colors_enumerated f) b.width b.height := by
  intro b' h
  simp only [PixelBuffer.map_colors_enumerated, bind, Except.bind, pure, Except.pure] at h
  split at h
  · cases h
  · rename_i v
    cases h
    exact ⟨⟨hb.1, by have := mapM_R_length _ _ _ v; simpa [this, enumerate_length] using hb.2⟩,
      rfl, rfl⟩

theorem gives_func (w h : Nat) (f : Nat → Nat → R T) : Gives (PixelBuffer.new_from_func w h f) w h := by
  intro b hb
  have hw : WellFormed b := by
    by_cases hv : ValidSize w h
    · have hm := hv.mul_le
      simp only [PixelBuffer.new_from_func, PixelBuffer.new_from_funcM, validate_ok hv,
        u32_ok (show w * h < 4294967296 by omega), bind,
        Except.bind, liftM, monadLift, pure, Except.pure] at hb
      split at hb
      · cases hb
      · rename_i v
        cases hb
        exact ⟨hv, by have := mapM_R_length _ _ _ v; simpa using this⟩
    · simp [PixelBuffer.new_from_func, PixelBuffer.new_from_funcM, validate_err hv, liftM, monadLift,
        bind, Except.bind] at hb
  refine ⟨hw, ?_⟩
  simp only [PixelBuffer.new_from_func, PixelBuffer.new_from_funcM, bind,
        Except.bind, liftM, monadLift, pure, Except.pure] at hb
  repeat' split at hb
  all_goals first
    | (cases hb; done)
    | (cases hb; exact ⟨rfl, rfl⟩)

theorem gives_raw (w h : Nat) (d : List T) : Gives (PixelBuffer.new_from_raw w h d) w h := by
  intro b hb
  by_cases hv : ValidSize w h ∧ d.length = w * h
  · have := ((C02_new_from_raw w h d).1 hv).1
    rw [hb] at this; cases this; exact ⟨hv, rfl, rfl⟩
  · obtain ⟨e, he⟩ := (C02_new_from_raw w h d).2 hv
    rw [hb] at he; cases he

/-! ## Operations on two or more buffers -/

theorem try_func_wf {w h : Nat} {E : Type} {f : Nat → Nat → R (Except E T)} {b : PixelBuffer T}
    (hb : PixelBuffer.try_new_from_func (m := R) w h f = .ok (.ok b)) :
    WellFormed b ∧ b.width = w ∧ b.height = h := by
  refine ⟨C01_reachable_wellFormed (.try_new_from_func T E w h f b hb), ?_⟩
  simp only [PixelBuffer.try_new_from_func, bind, Except.bind, liftM, monadLift, pure, Except.pure] at hb
  repeat' split at hb
  all_goals first
    | (cases hb; done)
    | (cases hb; exact ⟨rfl, rfl⟩)

theorem gives_compose (a b : PixelBuffer T) (d : T) (f : Nat → Nat → List T → R T) :
    Gives (compose_slice (m := R) [a, b] d f) (max a.width b.width) (max a.height b.height) := by
  intro b' h
  unfold compose_slice try_compose_slice at h
  simp only [maxUnwrap, assert, List.map, List.foldl, List.isEmpty, Bool.not_false, if_true, bind, Except.bind,
    liftM, monadLift, pure, Except.pure] at h
  split at h
  · cases h
  · split at h
    · rename_i hv
      cases h
      exact try_func_wf hv
    · cases h

/-! ## The operations -/

variable {F : Type} [Scalar F]

theorem gives_moves (d : T) {b : PixelBuffer T} (hb : WellFormed b) :
    Gives (flip_horizontal d b) b.width b.height ∧ Gives (flip_vertical d b) b.width b.height ∧
    Gives (rotate180 d b) b.width b.height ∧ Gives (rotate90 d b) b.height b.width ∧
    Gives (rotate270 d b) b.height b.width :=
  ⟨gives_bind fun _ => gives_raw _ _ _, gives_bind fun _ => gives_raw _ _ _,
    gives_bind fun _ => gives_raw _ _ _, gives_bind fun _ => gives_raw _ _ _,
    gives_bind fun _ => gives_raw _ _ _⟩

theorem gives_interlace (b : PixelBuffer T) (offset : Nat) :
    Gives (interlace b offset) b.width b.height := gives_func _ _ _

theorem gives_apply_kernel {b : PixelBuffer (Col F)} (hb : WellFormed b) (N : Nat) (k : Kernel F) :
    Gives (b.apply_kernel N k) b.width b.height := gives_enumerated hb _

theorem gives_gaussian_blur {b : PixelBuffer (Col F)} (hb : WellFormed b) (r : Nat) (sigma : Option F) :
    Gives (gaussian_blur b r sigma) b.width b.height := by
  unfold gaussian_blur
  refine gives_bind fun _ => gives_bind fun k => ?_
  dsimp only
  split <;> exact gives_bind fun _ => gives_enumerated hb _

theorem gives_unsharp {b : PixelBuffer (Col F)} (hb : WellFormed b) (r : Nat) (factor : F)
    (sigma : Option F) : Gives (unsharp b r factor sigma) b.width b.height :=
  gives_bind fun _ => gives_bind fun _ => gives_bind fun _ => gives_enumerated hb _

theorem gives_edge_detection {b : PixelBuffer (Col F)} (hb : WellFormed b) (mode : EdgeDetection) :
    Gives (edge_detection b mode) b.width b.height := by
  cases mode with
  | Sobel =>
    refine gives_bind_buffer (gives_apply_kernel hb 3 _) fun x _ h1 h2 =>
      gives_bind_buffer (gives_apply_kernel hb 3 _) fun y _ h3 h4 => ?_
    have := gives_compose x y Rgb.BLACK fun _ _ colors => sobelMerge colors
    rwa [h1, h2, h3, h4, Nat.max_self, Nat.max_self] at this
  | Laplace =>
    refine gives_bind_buffer (gives_apply_kernel hb 3 _) fun x h0 h1 h2 => ?_
    rw [← h1, ← h2]
    exact gives_map h0 _

theorem gives_resize {b : PixelBuffer (Col F)} (hb : WellFormed b) (w h : Nat) (filter : FilterMode) :
    Gives (resize b w h filter) w h := by
  unfold resize
  split
  · rename_i he
    simp only [Bool.and_eq_true, beq_iff_eq] at he
    rw [← he.1, ← he.2]
    exact gives_self hb
  · cases filter with
    | Auto =>
      dsimp only
      split
      · exact gives_func _ _ _
      · unfold resize_auto
        dsimp only
        split <;> exact gives_func _ _ _
    | _ => exact gives_func _ _ _

theorem gives_rotate {b : PixelBuffer (Col F)} (hb : WellFormed b) (a : F) (bg : Col F)
    (filter : FilterMode) : Gives (rotate b a bg filter) b.width b.height := by
  unfold rotate
  split
  · exact gives_self hb
  · cases filter <;> exact gives_bind fun _ => gives_bind fun _ => gives_func _ _ _

theorem gives_blend (a b : PixelBuffer (Col F)) (op : BlendOp) (i : F) :
    Gives (blend_image a b op i) (max a.width b.width) (max a.height b.height) := by
  have h : ∀ f, Gives (blend_image_with_func a b i f) (max a.width b.width) (max a.height b.height) :=
    fun f => gives_func _ _ _
  cases op <;> exact h _

theorem gives_despeckle {b : PixelBuffer (Col F)} (hb : WellFormed b) (t : F) (n : Nat) :
    Gives (despeckle b t n) b.width b.height := gives_enumerated hb _

theorem gives_snn (b : PixelBuffer (Col F)) (r : Nat) (c : Bool) :
    Gives (symmetric_nearest_neighbor b r c) b.width b.height := gives_func _ _ _

theorem gives_stretch_contrast {b : PixelBuffer (Col F)} (hb : WellFormed b) (t : F) :
    Gives (stretch_contrast b t) b.width b.height := by
  refine gives_bind fun v => ?_
  dsimp only
  split
  · exact gives_map hb _
  · exact gives_self hb

theorem convert_wf {b : PixelBuffer (Col F)} (hb : WellFormed b) (s d : Space) :
    WellFormed (b.convert s d) := ⟨hb.1, by simpa [PixelBuffer.convert] using hb.2⟩

theorem gives_equalize {b : PixelBuffer (Col F)} (hb : WellFormed b) (mode : EqualizeMode) :
    Gives (equalize b mode) b.width b.height := by
  cases mode
  · exact gives_bind fun _ => gives_bind fun _ => gives_bind fun _ => gives_mapM hb _
  · exact gives_bind fun _ => gives_bind fun _ => gives_bind fun _ =>
      gives_mapM (convert_wf hb .rgb .srgb) _
  · exact gives_bind fun _ => gives_mapM (convert_wf hb .rgb .hsl) _
  · exact gives_bind fun _ => gives_mapM (convert_wf hb .rgb .hsl) _
  · exact gives_bind fun _ => gives_bind fun _ => gives_mapM (convert_wf hb .rgb .hsl) _

theorem gives_balance {b : PixelBuffer (Col F)} (hb : WellFormed b) (mode : BalanceMode) (t : F) :
    Gives (balance b mode t) b.width b.height := by
  cases mode <;> exact gives_bind fun _ => gives_mapM hb _

theorem mod_colors_wf {b : PixelBuffer (Col F)} (hb : WellFormed b) (f : Col F → Col F) :
    WellFormed (b.mod_colors f) ∧ (b.mod_colors f).width = b.width ∧
      (b.mod_colors f).height = b.height := by
  rw [C07_mod_colors]
  exact ⟨map_wf hb f, rfl, rfl⟩

theorem gives_temperature {D : Type} [Scalar D] [Widen F D] {b : PixelBuffer (Col F)} (hb : WellFormed b)
    (o n t : F) : Gives (change_color_temperature D b o n t) b.width b.height := by
  refine gives_bind fun factors => ?_
  intro b' h
  cases h
  have keep : ∀ (p : Bool) {c : PixelBuffer (Col F)} (f : Col F → Col F),
      (WellFormed c ∧ c.width = b.width ∧ c.height = b.height) →
      WellFormed (if p then c.mod_colors f else c) ∧ (if p then c.mod_colors f else c).width = b.width ∧
        (if p then c.mod_colors f else c).height = b.height := by
    intro p c f ⟨h1, h2, h3⟩
    cases p
    · exact ⟨h1, h2, h3⟩
    · obtain ⟨e1, e2, e3⟩ := mod_colors_wf h1 f
      exact ⟨e1, e2.trans h2, e3.trans h3⟩
  refine keep _ _ (keep _ _ ?_)
  repeat' split
  all_goals exact ⟨map_wf hb _, rfl, rfl⟩

theorem gives_compose2 {a b : PixelBuffer (Col F)} (f : Col F → Col F → Col F) {w h : Nat}
    (h1 : a.width = w) (h2 : a.height = h) (h3 : b.width = w) (h4 : b.height = h) :
    Gives (compose2 a b f) w h := by
  have := gives_compose a b (Rgb.NONE : Col F) fun _ _ l => match l with
    | [c1, c2] => .ok (f c1 c2)
    | _ => .error .index
  rwa [h1, h2, h3, h4, Nat.max_self, Nat.max_self] at this

theorem gives_drawing {b : PixelBuffer (Col F)} (hb : WellFormed b) (r : Nat) (mode : DrawingMode) :
    Gives (drawing b r mode) b.width b.height := by
  refine gives_bind_buffer (gives_gaussian_blur (map_wf hb _) 1 none) fun a1 k1 e1 e2 => ?_
  refine gives_bind_buffer (gives_unsharp k1 4 _ _) fun a2 k2 e3 e4 => ?_
  refine gives_bind_buffer (gives_gaussian_blur (map_wf hb _) r none) fun a3 k3 e5 e6 => ?_
  refine gives_bind_buffer (gives_compose2 (w := b.width) (h := b.height) drawingPixel
    (e3.trans e1) (e4.trans e2) e5 e6) fun a4 k4 e7 e8 => ?_
  refine gives_bind_buffer (gives_unsharp k4 2 _ none) fun a5 k5 e9 e10 => ?_
  refine gives_bind_buffer (gives_despeckle k5 _ 1) fun a6 k6 e11 e12 => ?_
  have w6 : a6.width = b.width := e11.trans (e9.trans e7)
  have h6 : a6.height = b.height := e12.trans (e10.trans e8)
  cases mode with
  | Gray => intro b' h; cases h; exact ⟨k6, w6, h6⟩
  | Colored => exact gives_compose2 _ w6 h6 rfl rfl
  | ReducedColors =>
    refine gives_bind_buffer (gives_gaussian_blur (map_wf hb _) 2 none) fun a7 k7 e13 e14 => ?_
    refine gives_bind_buffer (gives_compose2 (w := b.width) (h := b.height) _ w6 h6 e13 e14)
      fun a8 k8 e15 e16 => ?_
    refine gives_bind_buffer (gives_gaussian_blur hb 3 none) fun a9 k9 e17 e18 => ?_
    refine gives_bind_buffer (gives_compose2 (w := b.width) (h := b.height) _ e15 e16 e17 e18)
      fun a10 k10 e19 e20 => ?_
    refine gives_bind_buffer (gives_gaussian_blur hb 4 none) fun a11 k11 e21 e22 => ?_
    refine gives_bind_buffer (gives_compose2 (w := b.width) (h := b.height) _ e19 e20 e21 e22)
      fun a12 k12 e23 e24 => ?_
    refine gives_bind_buffer (gives_unsharp k12 3 _ none) fun a13 k13 e25 e26 => ?_
    have := gives_map k13 fun x =>
      Rgb.with_vibrance (Rgb.with_gamma (Rgb.with_saturation x (Scalar.lit 1.3)) (Scalar.lit 1.1)) (Scalar.lit 0.3)
    rwa [e25, e26, e23, e24] at this

theorem crop_wf (d : T) {b b' : PixelBuffer T} (hb : WellFormed b) (x y w h : Nat)
    (hc : crop d b x y w h = .ok b') : WellFormed b' := by
  unfold crop at hc
  split at hc
  · cases hc; exact hb
  · simp only [bind, Except.bind, pure, Except.pure] at hc
    repeat' split at hc
    all_goals first
      | (cases hc; done)
      | (exact (gives_raw _ _ _ _ hc).1)
      | (cases hc; exact C01_reachable_wellFormed (.new T d 0 0 _ ‹_›))
      | (exact C01_reachable_wellFormed (.new T d 0 0 _ hc))

theorem decode_wf (libs : Libs F) (hl : Honest libs) (input : List Nat) (f : Format)
    {b : PixelBuffer (Col F)} (hb : (decode libs input f).run = .ok (.ok b)) : WellFormed b := by
  have hno : ¬ ∃ p, (decode libs input f).run = .error p := by
    rintro ⟨p, hp⟩
    rw [hb] at hp; cases hp
  rw [C77_panic_iff libs hl] at hno
  rcases C77_no_panic libs hl input f (fun hf data info h1 h2 => by
    by_contra hv; exact hno ⟨hf, data, info, h1, h2, hv⟩) with ⟨e, he⟩ | ⟨b', h1, h2⟩
  · rw [hb] at he; cases he
  · rw [hb] at h1; cases h1; exact h2

theorem copyAlpha_length (a b : List (Col F)) : (copyAlpha a b).length = b.length := by
  induction a generalizing b with
  | nil => cases b <;> rfl
  | cons x xs ih => cases b with
    | nil => rfl
    | cons y ys => simp [copyAlpha, ih]

/-! ## Closures with a state -/

/-- `Gives` for a computation with a state. -/
def GivesS {σ : Type} (x : StateT σ R (PixelBuffer T)) (w h : Nat) : Prop :=
  ∀ s b s', x s = .ok (b, s') → WellFormed b ∧ b.width = w ∧ b.height = h

theorem givesS_map {σ : Type} {b : PixelBuffer T} (hb : WellFormed b) (f : T → StateT σ R U) :
    GivesS (b.map_colorsM f) b.width b.height := by
  intro s b' s' h
  simp only [PixelBuffer.map_colorsM, bind, StateT.bind, Except.bind, pure, StateT.pure, Except.pure] at h
  split at h
  · cases h
  · rename_i v hv
    cases h
    exact ⟨⟨hb.1, by have := mapM_stateT_length _ _ _ _ _ hv; simpa [this] using hb.2⟩, rfl, rfl⟩

theorem givesS_mod {σ : Type} {b : PixelBuffer T} (hb : WellFormed b) (f : T → StateT σ R T) :
    GivesS (b.mod_colorsM f) b.width b.height := by
  rw [C07_mod_eq_map]
  exact givesS_map hb f

theorem collectResult_stateT_length {σ E α : Type} (f : α → StateT σ R (Except E T)) (l : List α)
    (s s' : σ) (r : List T) (h : PixelBuffer.collectResult f l s = .ok (.ok r, s')) : r.length = l.length := by
  induction l generalizing s r with
  | nil => cases h; rfl
  | cons a as ih =>
    simp only [PixelBuffer.collectResult, bind, StateT.bind, Except.bind] at h
    split at h
    · cases h
    · rename_i v hv
      obtain ⟨v1, v2⟩ := v
      cases v1 with
      | error e => cases h
      | ok t =>
        simp only [StateT.bind, bind, Except.bind] at h
        split at h
        · cases h
        · rename_i u hu
          obtain ⟨u1, u2⟩ := u
          cases u1 with
          | error e => cases h
          | ok ts => cases h; simpa using ih _ _ hu

theorem try_func_stateT_wf {σ E : Type} {w h : Nat} {f : Nat → Nat → StateT σ R (Except E T)}
    {s s' : σ} {b : PixelBuffer T}
    (hb : PixelBuffer.try_new_from_func (m := StateT σ R) w h f s = .ok (.ok b, s')) :
    WellFormed b ∧ b.width = w ∧ b.height = h := by
  by_cases hv : ValidSize w h
  · have hm := hv.mul_le
    simp only [PixelBuffer.try_new_from_func, validate_ok hv, u32_ok (show w * h < 4294967296 by omega),
      bind, StateT.bind, Except.bind, liftM, monadLift, MonadLift.monadLift, StateT.lift, pure,
      Except.pure] at hb
    split at hb
    · cases hb
    · rename_i v hv'
      obtain ⟨v1, v2⟩ := v
      cases v1 with
      | error e => cases hb
      | ok t =>
        cases hb
        have := collectResult_stateT_length _ _ _ _ _ hv'
        exact ⟨⟨hv, by simpa using this⟩, rfl, rfl⟩
  · simp [PixelBuffer.try_new_from_func, validate_err hv, liftM, monadLift, MonadLift.monadLift,
      StateT.lift, bind, StateT.bind, Except.bind] at hb

/-! ## Traversals that may fail -/

theorem try_mod_size {E : Type} {b b' : PixelBuffer T} (hb : WellFormed b) {f : T → R (Except E T)} {r}
    (h : b.try_mod_colors (m := R) f = .ok (b', r)) :
    WellFormed b' ∧ b'.width = b.width ∧ b'.height = b.height := by
  refine ⟨C01_reachable_wellFormed (.try_mod_colors _ _ _ _ _ _ (C01_wellFormed_reachable hb) h), ?_⟩
  simp only [PixelBuffer.try_mod_colors, bind, Except.bind, pure, Except.pure] at h
  split at h
  · cases h
  · cases h; exact ⟨rfl, rfl⟩

theorem try_map_size {E : Type} {b : PixelBuffer T} {b' : PixelBuffer U} (hb : WellFormed b)
    {f : T → R (Except E U)} (h : b.try_map_colors (m := R) f = .ok (.ok b')) :
    WellFormed b' ∧ b'.width = b.width ∧ b'.height = b.height := by
  refine ⟨C01_reachable_wellFormed (.try_map_colors _ _ _ _ _ _ (C01_wellFormed_reachable hb) h), ?_⟩
  simp only [PixelBuffer.try_map_colors, bind, Except.bind, pure, Except.pure] at h
  repeat' split at h
  all_goals first
    | (cases h; done)
    | (cases h; exact ⟨rfl, rfl⟩)

theorem gives_mod_enumerated {b : PixelBuffer T} (hb : WellFormed b) (f : Nat → Nat → T → R T) :
    Gives (b.mod_colors_enumerated f) b.width b.height := by
  rw [C07_mod_colors_enumerated]
  exact gives_enumerated hb f

theorem try_mod_enumerated_size {E : Type} {b : PixelBuffer T} (hb : WellFormed b)
    (f : Nat → Nat → T → Except E T) :
    WellFormed (b.try_mod_colors_enumerated f).1 ∧
      (b.try_mod_colors_enumerated f).1.width = b.width ∧
      (b.try_mod_colors_enumerated f).1.height = b.height :=
  ⟨C01_reachable_wellFormed (.try_mod_colors_enumerated _ _ _ _ (C01_wellFormed_reachable hb)),
    (tryModEnum_length b f b.enumerate []).2.1, (tryModEnum_length b f b.enumerate []).2.2⟩

theorem try_map_enumerated_size {E : Type} {b b' : PixelBuffer T} (hb : WellFormed b)
    {f : Nat → Nat → T → Except E T} (h : b.try_map_colors_enumerated f = .ok b') :
    WellFormed b' ∧ b'.width = b.width ∧ b'.height = b.height := by
  refine ⟨C01_reachable_wellFormed
    (.try_map_colors_enumerated _ _ _ _ _ (C01_wellFormed_reachable hb) h), ?_⟩
  simp only [PixelBuffer.try_map_colors_enumerated, Id.run, bind, Except.bind, pure, Except.pure] at h
  split at h
  · cases h
  · cases h; exact ⟨rfl, rfl⟩

theorem gives_put_pixel {b : PixelBuffer T} (hb : WellFormed b) (x y : Nat) (c : T) :
    Gives (b.put_pixel x y c) b.width b.height := by
  intro b' h
  refine ⟨C01_reachable_wellFormed (.put_pixel _ _ _ _ _ _ (C01_wellFormed_reachable hb) h), ?_⟩
  simp only [PixelBuffer.put_pixel, assert, u32, setIndex, bind, Except.bind, pure, Except.pure] at h
  repeat' split at h
  all_goals first
    | (cases h; done)
    | (cases h; exact ⟨rfl, rfl⟩)

end D10
