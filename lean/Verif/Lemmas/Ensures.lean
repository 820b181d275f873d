import Verif.Model.Geometry
import Verif.Model.Codecs

/-!
# What a computation ensures if it does not panic

`Ens x Q`: if `x` returns a value, the value satisfies `Q`. The same for closures with a state
(`EnsS`) and for decoders (`EnsD`), and the traversals of a buffer.
-/

namespace D10

/-- If `x` returns, its value satisfies `Q`. -/
def Ens {α : Type} (x : R α) (Q : α → Prop) : Prop := ∀ a, x = .ok a → Q a

/-- The same for a computation with a state, whatever the state is. -/
def EnsS {σ α : Type} (x : StateT σ R α) (Q : α → Prop) : Prop := ∀ s, Ens (x s) fun p => Q p.1

/-- The same for a decoder: if it neither panics nor reports an error. -/
def EnsD {α : Type} (x : Dec α) (Q : α → Prop) : Prop := ∀ a, x.run = .ok (.ok a) → Q a

section R
variable {α β : Type}

theorem ens_ok {a : α} {Q : α → Prop} (h : Q a) : Ens (.ok a) Q := by
  intro b hb; cases hb; exact h

theorem ens_pure {a : α} {Q : α → Prop} (h : Q a) : Ens (pure a) Q := ens_ok h

theorem ens_error {e : Panic} {Q : α → Prop} : Ens (.error e : R α) Q := by
  intro b hb; cases hb

theorem ens_bind {x : R α} {f : α → R β} {P : α → Prop} {Q : β → Prop} (hx : Ens x P)
    (hf : ∀ a, P a → Ens (f a) Q) : Ens (x >>= f) Q := by
  cases x with
  | error e => exact ens_error
  | ok a => exact hf a (hx a rfl)

theorem ens_any {x : R α} {f : α → R β} {Q : β → Prop} (hf : ∀ a, Ens (f a) Q) : Ens (x >>= f) Q :=
  ens_bind (P := fun _ => True) (fun _ _ => trivial) fun a _ => hf a

theorem ens_mono {x : R α} {P Q : α → Prop} (h : Ens x P) (hm : ∀ a, P a → Q a) : Ens x Q :=
  fun a ha => hm a (h a ha)

theorem ens_mapM {f : α → R β} {Q : β → Prop} (l : List α) (hf : ∀ a ∈ l, Ens (f a) Q) :
    Ens (l.mapM f) fun r => ∀ b ∈ r, Q b := by
  induction l with
  | nil => exact ens_pure (fun b hb => by cases hb)
  | cons a as ih =>
    rw [List.mapM_cons]
    refine ens_bind (hf a (.head _)) fun b hb => ?_
    refine ens_bind (ih fun a' ha' => hf a' (.tail _ ha')) fun bs hbs => ?_
    refine ens_pure fun c hc => ?_
    rcases List.mem_cons.1 hc with rfl | hc
    · exact hb
    · exact hbs c hc

theorem ens_foldlM {f : β → α → R β} {Q : β → Prop} (l : List α) (s : β) (hs : Q s)
    (hf : ∀ a ∈ l, ∀ s, Q s → Ens (f s a) Q) : Ens (l.foldlM f s) Q := by
  induction l generalizing s with
  | nil => exact ens_pure hs
  | cons a as ih =>
    rw [List.foldlM_cons]
    exact ens_bind (hf a (.head _) s hs) fun s' hs' =>
      ih s' hs' fun a' ha' => hf a' (.tail _ ha')

theorem ens_forRange {n : Nat} {s : β} {body : Nat → β → R β} {Q : β → Prop} (hs : Q s)
    (hb : ∀ i, i < n → ∀ s, Q s → Ens (body i s) Q) : Ens (forRange n s body) Q :=
  ens_foldlM _ _ hs fun i hi s hs => hb i (List.mem_range.1 hi) s hs

theorem ens_index {l : List α} {Q : α → Prop} (h : ∀ a ∈ l, Q a) (i : Nat) : Ens (index l i) Q := by
  intro a ha
  unfold index at ha
  split at ha
  · cases ha; exact h _ (List.mem_of_getElem? ‹_›)
  · cases ha

theorem ens_setIndex {l : List α} {a : α} {Q : α → Prop} (h : ∀ a ∈ l, Q a) (ha : Q a) (i : Nat) :
    Ens (setIndex l i a) fun r => ∀ b ∈ r, Q b := by
  intro r hr
  unfold setIndex at hr
  split at hr
  · cases hr
    intro b hb
    rcases List.mem_or_eq_of_mem_set hb with hb | rfl
    · exact h b hb
    · exact ha
  · cases hr

theorem ens_slice {l : List α} {Q : α → Prop} (h : ∀ a ∈ l, Q a) (i j : Nat) :
    Ens (slice l i j) fun r => ∀ b ∈ r, Q b := by
  intro r hr
  unfold slice at hr
  split at hr
  · cases hr
    intro b hb
    exact h b (List.mem_of_mem_drop (List.mem_of_mem_take hb))
  · cases hr

theorem ens_collectResult {E : Type} {f : α → R (Except E β)} {Q : β → Prop} (l : List α)
    (hf : ∀ a ∈ l, Ens (f a) fun e => ∀ b, e = .ok b → Q b) :
    Ens (PixelBuffer.collectResult f l) fun e => ∀ r, e = .ok r → ∀ b ∈ r, Q b := by
  induction l with
  | nil => exact ens_pure (fun r hr => by cases hr; intro b hb; cases hb)
  | cons a as ih =>
    unfold PixelBuffer.collectResult
    refine ens_bind (hf a (.head _)) fun e he => ?_
    cases e with
    | error e => exact ens_pure (fun r hr => by cases hr)
    | ok b =>
      refine ens_bind (ih fun a' ha' => hf a' (.tail _ ha')) fun e' he' => ?_
      cases e' with
      | error e => exact ens_pure (fun r hr => by cases hr)
      | ok bs =>
        refine ens_pure (fun r hr => ?_)
        cases hr
        intro c hc
        rcases List.mem_cons.1 hc with rfl | hc
        · exact he _ rfl
        · exact he' _ rfl c hc

end R

section S
variable {σ α β : Type}

theorem ensS_pure {a : α} {Q : α → Prop} (h : Q a) : EnsS (pure a : StateT σ R α) Q := by
  intro s b hb; cases hb; exact h

theorem ensS_lift {x : R α} {Q : α → Prop} (h : Ens x Q) : EnsS (liftM x : StateT σ R α) Q := by
  intro s p hp
  cases x with
  | error e => cases hp
  | ok a => cases hp; exact h a rfl

theorem ensS_bind {x : StateT σ R α} {f : α → StateT σ R β} {P : α → Prop} {Q : β → Prop}
    (hx : EnsS x P) (hf : ∀ a, P a → EnsS (f a) Q) : EnsS (x >>= f) Q := by
  intro s
  show Ens ((x s) >>= fun p => f p.1 p.2) _
  exact ens_bind (hx s) fun p hp => hf p.1 hp p.2

theorem ensS_any {x : StateT σ R α} {f : α → StateT σ R β} {Q : β → Prop} (hf : ∀ a, EnsS (f a) Q) :
    EnsS (x >>= f) Q :=
  ensS_bind (P := fun _ => True) (fun _ _ _ => trivial) fun a _ => hf a

theorem ensS_mapM {f : α → StateT σ R β} {Q : β → Prop} (l : List α) (hf : ∀ a ∈ l, EnsS (f a) Q) :
    EnsS (l.mapM f) fun r => ∀ b ∈ r, Q b := by
  induction l with
  | nil => exact ensS_pure (fun b hb => by cases hb)
  | cons a as ih =>
    rw [List.mapM_cons]
    refine ensS_bind (hf a (.head _)) fun b hb => ?_
    refine ensS_bind (ih fun a' ha' => hf a' (.tail _ ha')) fun bs hbs => ?_
    refine ensS_pure fun c hc => ?_
    rcases List.mem_cons.1 hc with rfl | hc
    · exact hb
    · exact hbs c hc

theorem ensS_modLoop {f : α → StateT σ R α} {Q : α → Prop} (l done : List α)
    (hd : ∀ a ∈ done, Q a) (hf : ∀ a ∈ l, EnsS (f a) Q) :
    EnsS (PixelBuffer.modLoop f done l) fun r => ∀ b ∈ r, Q b := by
  induction l generalizing done with
  | nil => exact ensS_pure hd
  | cons a as ih =>
    unfold PixelBuffer.modLoop
    refine ensS_bind (hf a (.head _)) fun b hb => ?_
    refine ih _ (fun c hc => ?_) fun a' ha' => hf a' (.tail _ ha')
    rcases List.mem_append.1 hc with hc | hc
    · exact hd c hc
    · rcases List.mem_cons.1 hc with rfl | hc
      · exact hb
      · cases hc

theorem ensS_collectResult {E : Type} {f : α → StateT σ R (Except E β)} {Q : β → Prop} (l : List α)
    (hf : ∀ a ∈ l, EnsS (f a) fun e => ∀ b, e = .ok b → Q b) :
    EnsS (PixelBuffer.collectResult f l) fun e => ∀ r, e = .ok r → ∀ b ∈ r, Q b := by
  induction l with
  | nil => exact ensS_pure (fun r hr => by cases hr; intro b hb; cases hb)
  | cons a as ih =>
    unfold PixelBuffer.collectResult
    refine ensS_bind (hf a (.head _)) fun e he => ?_
    cases e with
    | error e => exact ensS_pure (fun r hr => by cases hr)
    | ok b =>
      refine ensS_bind (ih fun a' ha' => hf a' (.tail _ ha')) fun e' he' => ?_
      cases e' with
      | error e => exact ensS_pure (fun r hr => by cases hr)
      | ok bs =>
        refine ensS_pure (fun r hr => ?_)
        cases hr
        intro c hc
        rcases List.mem_cons.1 hc with rfl | hc
        · exact he _ rfl
        · exact he' _ rfl c hc

end S

section D
variable {α β : Type}

theorem ensD_pure {a : α} {Q : α → Prop} (h : Q a) : EnsD (pure a : Dec α) Q := by
  intro b hb; cases hb; exact h

theorem ensD_throw {e : DecodingError} {Q : α → Prop} : EnsD (throw e : Dec α) Q := by
  intro b hb; cases hb

theorem ensD_lift {x : R α} {Q : α → Prop} (h : Ens x Q) : EnsD (liftM x : Dec α) Q := by
  intro p hp
  rcases x with e | b
  · cases hp
  · cases hp; exact h _ rfl

theorem ensD_bind {x : Dec α} {f : α → Dec β} {P : α → Prop} {Q : β → Prop}
    (hx : EnsD x P) (hf : ∀ a, P a → EnsD (f a) Q) : EnsD (x >>= f) Q := by
  intro b hb
  match x, hx, hb with
  | .error e, _, hb => cases hb
  | .ok (.error e), _, hb => cases hb
  | .ok (.ok a), hx, hb => exact hf a (hx a rfl) b hb

theorem ensD_any {x : Dec α} {f : α → Dec β} {Q : β → Prop} (hf : ∀ a, EnsD (f a) Q) :
    EnsD (x >>= f) Q :=
  ensD_bind (P := fun _ => True) (fun _ _ => trivial) fun a _ => hf a

end D

/-! ## Buffers -/

section Buffers
variable {T U σ : Type} {P : T → Prop} {Q : U → Prop}

/-- Every pixel satisfies `P`. -/
def All (P : T → Prop) (b : PixelBuffer T) : Prop := ∀ c ∈ b.data, P c

theorem all_new {w h : Nat} {c : T} (hc : P c) : Ens (PixelBuffer.new_with_color w h c) (All P) :=
  ens_any fun _ => ens_any fun _ => ens_pure fun a ha => by
    rw [(List.mem_replicate.1 ha).2]; exact hc

theorem all_raw {w h : Nat} {d : List T} (hd : ∀ c ∈ d, P c) :
    Ens (PixelBuffer.new_from_raw w h d) (All P) := by
  unfold PixelBuffer.new_from_raw
  simp only
  split
  · exact ens_error
  · exact ens_any fun _ => ens_pure hd

theorem all_func {w h : Nat} {f : Nat → Nat → R T} (hf : ∀ x y, Ens (f x y) P) :
    Ens (PixelBuffer.new_from_func w h f) (All P) := by
  unfold PixelBuffer.new_from_func PixelBuffer.new_from_funcM
  exact ens_any fun _ => ens_any fun _ => ens_bind (ens_mapM _ fun i _ => hf _ _) fun d hd => ens_pure hd

theorem all_map {b : PixelBuffer T} {f : T → U} (hf : ∀ c ∈ b.data, Q (f c)) : All Q (b.map_colors f) := by
  intro c hc
  obtain ⟨a, ha, rfl⟩ := List.mem_map.1 hc
  exact hf a ha

theorem modLoop_all {f : T → T} (l done : List T) (hd : ∀ a ∈ done, P a) (hf : ∀ a ∈ l, P (f a)) :
    ∀ b ∈ Id.run (PixelBuffer.modLoop (m := Id) f done l), P b := by
  induction l generalizing done with
  | nil => exact hd
  | cons a as ih =>
    refine ih _ (fun c hc => ?_) fun a' ha' => hf a' (.tail _ ha')
    rcases List.mem_append.1 hc with hc | hc
    · exact hd c hc
    · rcases List.mem_cons.1 hc with rfl | hc
      · exact hf a (.head _)
      · cases hc

theorem all_mod {b : PixelBuffer T} {f : T → T} (hf : ∀ c ∈ b.data, P (f c)) : All P (b.mod_colors f) :=
  modLoop_all b.data [] (fun _ h => by cases h) hf

theorem all_mapM {b : PixelBuffer T} {f : T → R U} (hf : ∀ c ∈ b.data, Ens (f c) Q) :
    Ens (b.map_colorsM f) (All Q) :=
  ens_bind (ens_mapM _ hf) fun _ hd => ens_pure hd

theorem all_mapS {b : PixelBuffer T} {f : T → StateT σ R U} (hf : ∀ c ∈ b.data, EnsS (f c) Q) :
    EnsS (b.map_colorsM f) (All Q) :=
  ensS_bind (ensS_mapM _ hf) fun _ hd => ensS_pure hd

theorem all_modS {b : PixelBuffer T} {f : T → StateT σ R T} (hf : ∀ c ∈ b.data, EnsS (f c) P) :
    EnsS (b.mod_colorsM f) (All P) :=
  ensS_bind (ensS_modLoop _ _ (fun _ h => by cases h) hf) fun _ hd => ensS_pure hd

theorem mem_enumerate {b : PixelBuffer T} {p : Nat × Nat × T} (hp : p ∈ b.enumerate) : p.2.2 ∈ b.data := by
  unfold PixelBuffer.enumerate at hp
  obtain ⟨q, hq, rfl⟩ := List.mem_map.1 hp
  exact List.fst_mem_of_mem_zipIdx hq

theorem all_enumerated {b : PixelBuffer T} {f : Nat → Nat → T → R T}
    (hf : ∀ x y, ∀ c ∈ b.data, Ens (f x y c) P) : Ens (b.map_colors_enumerated f) (All P) :=
  ens_bind (ens_mapM _ fun p hp => hf p.1 p.2.1 p.2.2 (mem_enumerate hp)) fun _ hd => ens_pure hd

theorem all_mod_enumerated {b : PixelBuffer T} {f : Nat → Nat → T → R T}
    (hf : ∀ x y, ∀ c ∈ b.data, Ens (f x y c) P) : Ens (b.mod_colors_enumerated f) (All P) := by
  unfold PixelBuffer.mod_colors_enumerated
  refine ens_bind (P := fun d => ∀ c ∈ d, P c)
    (ens_foldlM _ _ (fun _ h => by cases h) fun p hp d hd => ?_) fun _ hd => ens_pure hd
  refine ens_bind (hf p.1 p.2.1 p.2.2 (mem_enumerate hp)) fun c hc => ens_pure fun a ha => ?_
  rcases List.mem_append.1 ha with ha | ha
  · exact hd a ha
  · rcases List.mem_cons.1 ha with rfl | ha
    · exact hc
    · cases ha

theorem all_get {b : PixelBuffer T} (hb : All P b) (x y : Nat) : Ens (b.get_pixel x y) P :=
  ens_any fun _ => ens_any fun _ => ens_any fun _ => ens_any fun _ => ens_index hb _

theorem all_get_clamped {b : PixelBuffer T} (hb : All P b) (x y : Int) :
    Ens (b.get_pixel_clamped x y) P :=
  ens_any fun _ => ens_any fun _ => ens_any fun _ => ens_any fun _ => all_get hb _ _

theorem all_get_optional {b : PixelBuffer T} (hb : All P b) (x y : Int) :
    Ens (b.get_pixel_optional x y) fun o => ∀ c, o = some c → P c := by
  unfold PixelBuffer.get_pixel_optional
  split
  · exact ens_any fun _ => ens_any fun _ => ens_bind (ens_index hb _) fun a ha =>
      ens_pure fun c hc => by cases hc; exact ha
  · exact ens_pure fun c hc => by cases hc

theorem all_put {b : PixelBuffer T} (hb : All P b) (x y : Nat) {c : T} (hc : P c) :
    Ens (b.put_pixel x y c) (All P) :=
  ens_any fun _ => ens_any fun _ => ens_any fun _ => ens_any fun _ =>
    ens_bind (ens_setIndex hb hc _) fun _ hd => ens_pure hd

theorem all_pixels {bs : List (PixelBuffer T)} (hb : ∀ b ∈ bs, All P b) {d : T} (hd : P d) (x y : Nat) :
    Ens (bs.mapM (m := R) fun b => do
      match ← b.get_pixel_optional (asI32 x) (asI32 y) with
      | some v => pure v
      | none => pure d) fun l => ∀ c ∈ l, P c :=
  ens_mapM _ fun b h => ens_bind (all_get_optional (hb b h) _ _) fun o ho => by
    cases o with
    | none => exact ens_pure hd
    | some v => exact ens_pure (ho v rfl)

theorem all_try_compose {E : Type} {Q : T → Prop} {bs : List (PixelBuffer T)} (hb : ∀ b ∈ bs, All P b) {d : T}
    (hd : P d) {f : Nat → Nat → List T → R (Except E T)}
    (hf : ∀ x y l, (∀ c ∈ l, P c) → Ens (f x y l) fun e => ∀ c, e = .ok c → Q c) :
    Ens (try_compose_slice bs d f) fun e => ∀ b, e = .ok b → All Q b := by
  unfold try_compose_slice PixelBuffer.try_new_from_func
  refine ens_any fun _ => ens_any fun _ => ens_any fun _ => ens_any fun _ => ens_any fun _ => ?_
  refine ens_bind (ens_collectResult _ fun i _ =>
    ens_bind (all_pixels hb hd _ _) fun l hl => hf _ _ l hl) fun e he => ?_
  cases e with
  | error e => exact ens_pure (fun b h => by cases h)
  | ok l => exact ens_pure (fun b h => by cases h; exact he _ rfl)

theorem all_compose {Q : T → Prop} {bs : List (PixelBuffer T)} (hb : ∀ b ∈ bs, All P b) {d : T} (hd : P d)
    {f : Nat → Nat → List T → R T} (hf : ∀ x y l, (∀ c ∈ l, P c) → Ens (f x y l) Q) :
    Ens (compose_slice bs d f) (All Q) := by
  unfold compose_slice
  refine ens_bind (all_try_compose hb hd fun x y l hl => ens_bind (hf x y l hl) fun c hc =>
    ens_pure (Q := fun e : Except Unit T => ∀ c, e = .ok c → Q c) fun a ha => by cases ha; exact hc) fun e he => ?_
  cases e with
  | error e => exact ens_error
  | ok l => exact ens_pure (he _ rfl)

theorem all_try_composeS {E : Type} {bs : List (PixelBuffer T)} (hb : ∀ b ∈ bs, All P b) {d : T} (hd : P d)
    {f : Nat → Nat → List T → StateT σ R (Except E T)}
    (hf : ∀ x y l, (∀ c ∈ l, P c) → EnsS (f x y l) fun e => ∀ c, e = .ok c → P c) :
    EnsS (try_compose_slice bs d f) fun e => ∀ b, e = .ok b → All P b := by
  unfold try_compose_slice PixelBuffer.try_new_from_func
  refine ensS_any fun _ => ensS_any fun _ => ensS_any fun _ => ensS_any fun _ => ensS_any fun _ => ?_
  refine ensS_bind (ensS_collectResult _ fun i _ =>
    ensS_bind (ensS_lift (all_pixels hb hd _ _)) fun l hl => hf _ _ l hl) fun e he => ?_
  cases e with
  | error e => exact ensS_pure (fun b h => by cases h)
  | ok l => exact ensS_pure (fun b h => by cases h; exact he _ rfl)

theorem all_composeS {bs : List (PixelBuffer T)} (hb : ∀ b ∈ bs, All P b) {d : T} (hd : P d)
    {f : Nat → Nat → List T → StateT σ R T} (hf : ∀ x y l, (∀ c ∈ l, P c) → EnsS (f x y l) P) :
    EnsS (compose_slice bs d f) (All P) := by
  unfold compose_slice
  refine ensS_bind (all_try_composeS hb hd fun x y l hl => ensS_bind (hf x y l hl) fun c hc =>
    ensS_pure (Q := fun e : Except Unit T => ∀ c, e = .ok c → P c) fun a ha => by cases ha; exact hc) fun e he => ?_
  cases e with
  | error e => exact ensS_lift ens_error
  | ok l => exact ensS_pure (he _ rfl)

/-! ## Operations that only move pixels -/

theorem all_moves {b : PixelBuffer T} (hb : All P b) {d : T} (hd : P d) :
    Ens (flip_horizontal d b) (All P) ∧ Ens (flip_vertical d b) (All P) ∧ Ens (rotate90 d b) (All P) ∧
    Ens (rotate180 d b) (All P) ∧ Ens (rotate270 d b) (All P) := by
  have h0 : ∀ c ∈ List.replicate b.data.length d, P c := fun c hc => by
    rw [(List.mem_replicate.1 hc).2]; exact hd
  refine ⟨?_, ?_, ?_, ?_, ?_⟩
  · refine ens_bind (P := fun l => ∀ c ∈ l, P c) (ens_forRange h0 fun x _ r hr => ens_forRange hr fun y _ r hr => ?_) fun l hl => all_raw hl
    refine ens_any fun _ => ens_any fun _ => ens_bind (ens_index hb _) fun v hv => ens_any fun _ => ens_any fun _ => ens_any fun _ => ens_any fun _ => ens_setIndex hr hv _
  · refine ens_bind (P := fun l => ∀ c ∈ l, P c) (ens_forRange h0 fun x _ r hr => ens_forRange hr fun y _ r hr => ?_) fun l hl => all_raw hl
    refine ens_any fun _ => ens_any fun _ => ens_bind (ens_index hb _) fun v hv => ens_any fun _ => ens_any fun _ => ens_any fun _ => ens_any fun _ => ens_setIndex hr hv _
  · refine ens_bind (P := fun l => ∀ c ∈ l, P c) (ens_forRange h0 fun x _ r hr => ens_forRange hr fun y _ r hr => ?_) fun l hl => all_raw hl
    refine ens_any fun _ => ens_any fun _ => ens_any fun _ => ens_any fun _ => ens_bind (ens_index hb _) fun v hv => ens_any fun _ => ens_any fun _ => ens_setIndex hr hv _
  · refine ens_bind (P := fun l => ∀ c ∈ l, P c) (ens_forRange h0 fun x _ r hr => ens_forRange hr fun y _ r hr => ?_) fun l hl => all_raw hl
    refine ens_any fun _ => ens_any fun _ => ens_any fun _ => ens_any fun _ => ens_any fun _ => ens_any fun _ => ens_bind (ens_index hb _) fun v hv => ens_any fun _ => ens_any fun _ => ens_setIndex hr hv _
  · refine ens_bind (P := fun l => ∀ c ∈ l, P c) (ens_forRange h0 fun x _ r hr => ens_forRange hr fun y _ r hr => ?_) fun l hl => all_raw hl
    refine ens_any fun _ => ens_any fun _ => ens_any fun _ => ens_any fun _ => ens_bind (ens_index hb _) fun v hv => ens_any fun _ => ens_any fun _ => ens_setIndex hr hv _

theorem all_crop {b : PixelBuffer T} (hb : All P b) {d : T} (hd : P d) (x y w h : Nat) :
    Ens (crop d b x y w h) (All P) := by
  unfold crop
  split
  · exact ens_pure hb
  · refine ens_any fun _ => ens_any fun _ => ?_
    simp only
    split
    · exact ens_mono (all_new hd) fun b hb => hb
    · refine ens_any fun _ => ?_
      refine ens_bind (P := fun l => ∀ c ∈ l, P c) (ens_forRange (List.forall_mem_nil _) fun i _ l hl => ?_)
        fun l hl => all_raw hl
      refine ens_any fun _ => ens_any fun _ => ens_any fun _ => ens_bind (ens_slice hb _ _) fun r hr => ens_pure ?_
      intro c hc
      rcases List.mem_append.1 hc with hc | hc
      · exact hl c hc
      · exact hr c hc

theorem all_interlace {b : PixelBuffer T} (hb : All P b) (o : Nat) : Ens (interlace b o) (All P) := by
  refine all_func fun x y => ?_
  split
  · exact ens_any fun _ => all_get_clamped hb _ _
  · exact ens_any fun _ => all_get_clamped hb _ _

end Buffers

end D10
