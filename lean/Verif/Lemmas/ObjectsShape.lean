import Verif.Lemmas.ObjectsHistory
import Verif.SpecImage
import Verif.Props.Image

/-!
# Objects, callbacks and threads: what holds of every image

Lemmas for property C120. `Good Q` is kept by every step of a program whose own steps obey `Q`.
-/

namespace D10.Python
open Spec

section
set_option linter.unusedSectionVars false
variable {F D G E K : Type} [Scalar F] [Scalar D] [Widen F D] [FloatBytes F]
variable {libs : Libs F} {g : Rng G F} {act : K → Act F D G E K} {Q : Col F → Prop}

/-- As many pixels as the size says, no background colour, all colours as they should be. -/
structure Good (Q : Col F → Prop) (img : Image F) : Prop where
  shape : WellFormed img.buffer
  background : img.bg_color = none
  colours : ∀ c ∈ img.buffer.data, Q c

def AllGood (Q : Col F → Prop) (h : Heap F) : Prop := ∀ (r : Ref) (c : Cell F), h[r]? = some c → Good Q c.image

/-- No object has changed its size or gone away. -/
def SameSizes (h h1 : Heap F) : Prop := ∀ (r : Ref) (c : Cell F), h[r]? = some c → ∃ c1 : Cell F,
  h1[r]? = some c1 ∧ c1.image.buffer.width = c.image.buffer.width ∧
    c1.image.buffer.height = c.image.buffer.height

theorem SameSizes.refl (h : Heap F) : SameSizes h h := fun _ c hc => ⟨c, hc, rfl, rfl⟩

theorem SameSizes.trans {h h1 h2 : Heap F} (a : SameSizes h h1) (b : SameSizes h1 h2) :
    SameSizes h h2 := by
  intro r c hc
  obtain ⟨c1, hc1, e1, e2⟩ := a r c hc
  obtain ⟨c2, hc2, e3, e4⟩ := b r c1 hc1
  exact ⟨c2, hc2, e3.trans e1, e4.trans e2⟩

theorem Same.sizes {h h1 : Heap F} (a : Same h h1) : SameSizes h h1 := by
  intro r c hc
  have := a r
  rw [hc] at this
  cases hc1 : h1[r]? with
  | none => rw [hc1] at this; cases this
  | some c1 =>
    rw [hc1] at this
    have e : c1.image = c.image := Option.some.inj this
    exact ⟨c1, rfl, by rw [e], by rw [e]⟩

theorem Same.good {h h1 : Heap F} (a : Same h h1) (hg : AllGood Q h) : AllGood Q h1 := by
  intro r c hc
  have := a r
  rw [hc] at this
  cases hc1 : h[r]? with
  | none => rw [hc1] at this; cases this
  | some c1 =>
    rw [hc1] at this
    have e : c.image = c1.image := Option.some.inj this
    rw [e]
    exact hg r c1 hc1

/-- What a program must do for its images to stay good. -/
def Obeys (libs : Libs F) (g : Rng G F) (Q : Col F → Prop) : Act F D G E K → Prop
  | .ret r => ∀ c, r = .ok (.colour c) → Q c
  | .create c _ => ∀ img, (c.run libs).run = .ok (.ok img) → Good Q img
  | .read _ m _ => ∀ img img', Good Q img → (m.run (D := D) libs g img).run = .ok (.ok (.image img')) →
      Good Q img'
  | .read2 _ _ m _ => ∀ img other img', Good Q img → Good Q other →
      (m.run (D := D) img other).run = .ok (.ok (.image img')) → Good Q img'
  | .write _ m _ => ∀ img img', Good Q img → (m.run libs g img).run = .ok (.ok img') →
      Good Q img' ∧ img'.buffer.width = img.buffer.width ∧ img'.buffer.height = img.buffer.height
  | .apply_palette_in_place _ _ _ => ∀ img palette, Good Q img → Good Q palette →
      Good Q (img.apply_palette_in_place palette) ∧
        (img.apply_palette_in_place palette).buffer.width = img.buffer.width ∧
        (img.apply_palette_in_place palette).buffer.height = img.buffer.height
  | _ => True

theorem deliver_good {h : Heap F} (hg : AllGood Q h) {r : Except (Exc E) (Out F D)}
    (hr : ∀ img, r = .ok (.image img) → Good Q img) :
    AllGood Q (deliver h r).1 ∧ SameSizes h (deliver h r).1 := by
  cases r with
  | error e => exact ⟨hg, .refl _⟩
  | ok o =>
    cases o with
    | value v => exact ⟨hg, .refl _⟩
    | image img =>
      refine ⟨fun q c hc => ?_, fun q c hc => ⟨c, ?_, rfl, rfl⟩⟩
      · have hc' : (h ++ [⟨img, .shared 0⟩])[q]? = some c := hc
        rcases Nat.lt_or_ge q h.length with hq | hq
        · rw [List.getElem?_append_left hq] at hc'
          exact hg q c hc'
        · rw [List.getElem?_append_right hq] at hc'
          have : c = ⟨img, .shared 0⟩ := List.mem_singleton.1 (List.mem_of_getElem? hc')
          rw [this]
          exact hr img rfl
      · show (h ++ [⟨img, .shared 0⟩])[q]? = some c
        rw [List.getElem?_append_left (lt_of_getElem? hc)]
        exact hc

theorem set_good {h : Heap F} (hg : AllGood Q h) {r : Ref} {c : Cell F} (hc : h[r]? = some c)
    {img : Image F} {f : Flag} (hi : Good Q img ∧ img.buffer.width = c.image.buffer.width ∧
      img.buffer.height = c.image.buffer.height) :
    AllGood Q (h.set r ⟨img, f⟩) ∧ SameSizes h (h.set r ⟨img, f⟩) := by
  have hlt := lt_of_getElem? hc
  refine ⟨fun q d hd => ?_, fun q d hd => ?_⟩
  · by_cases e : q = r
    · rw [e, List.getElem?_set_self hlt] at hd
      cases hd
      exact hi.1
    · rw [List.getElem?_set_ne (Ne.symm e)] at hd
      exact hg q d hd
  · by_cases e : q = r
    · rw [e] at hd ⊢
      rw [hc] at hd
      cases hd
      exact ⟨_, List.getElem?_set_self hlt, hi.2.1, hi.2.2⟩
    · exact ⟨d, by rw [List.getElem?_set_ne (Ne.symm e)]; exact hd, rfl, rfl⟩

theorem write_good {h : Heap F} (hg : AllGood Q h) {r : Ref} {c : Cell F} (hc : h[r]? = some c)
    {img : Image F} (hi : Good Q img ∧ img.buffer.width = c.image.buffer.width ∧
      img.buffer.height = c.image.buffer.height) :
    AllGood Q (h.write r img) ∧ SameSizes h (h.write r img) := by
  unfold Heap.write
  rw [hc]
  exact set_good hg hc hi

theorem outcome_ok {α : Type} {x : Py α} {a : α} (h : outcome (E := E) x = .ok a) :
    x.run = .ok (.ok a) := by
  unfold outcome at h
  cases hx : x.run with
  | error p => rw [hx] at h; cases h
  | ok y =>
    cases y with
    | error m => rw [hx] at h; cases h
    | ok b => rw [hx] at h; cases h; rfl

/-- What is known about a call in progress: its images were checked, and its function returned good
colours. -/
def Checked (Q : Col F → Prop) (fr : Frame F D E K) : Prop :=
  fr.call.check fr.began = .ok () ∧ ∀ c ∈ fr.answers, Q c

theorem validSize_of_ok {w h : Nat} (e : validate_size w h = .ok ()) : ValidSize w h := by
  by_contra hn
  rw [validate_err hn] at e
  cases e

theorem index_zero {α : Type} {l : List α} {a : α} (e : index l 0 = .ok a) : l[0]? = some a := by
  unfold index at e
  split at e
  · rename_i b hb; cases e; exact hb
  · cases e

/-- The number of questions of a call. -/
theorem questions (call : Call F K) (images : List (Image F)) (n : Nat) :
    (∀ q, call.next images n = .ok (some q) → match call with
      | .compose _ _ _ => ∃ W H, maxUnwrap (images.map (·.width)) = .ok W ∧
          maxUnwrap (images.map (·.height)) = .ok H ∧ n < W * H
      | _ => ∃ img, images[0]? = some img ∧ n < img.buffer.data.length) ∧
    (call.next images n = .ok none → match call with
      | .compose _ _ _ => ∃ W H, maxUnwrap (images.map (·.width)) = .ok W ∧
          maxUnwrap (images.map (·.height)) = .ok H ∧ W * H ≤ n
      | _ => ∃ img, images[0]? = some img ∧ img.buffer.data.length ≤ n) := by
  cases call with
  | compose rs d f =>
    unfold Call.next
    simp only [bind, Except.bind, pure, Except.pure]
    cases hW : maxUnwrap (images.map (·.width)) with
    | error p => exact ⟨fun q h => (by cases h), fun h => (by cases h)⟩
    | ok W =>
      cases hH : maxUnwrap (images.map (·.height)) with
      | error p => exact ⟨fun q h => (by cases h), fun h => (by cases h)⟩
      | ok H =>
        dsimp only
        by_cases hn : n < W * H
        · simp only [hn, if_true]
          refine ⟨fun q h => ⟨W, H, rfl, rfl, hn⟩, fun h => ?_⟩
          split at h <;> cases h
        · simp only [hn, if_false]
          exact ⟨fun q h => (by cases h), fun h => ⟨W, H, rfl, rfl, Nat.le_of_not_lt hn⟩⟩
  | _ =>
    unfold Call.next
    simp only [bind, Except.bind, pure, Except.pure]
    cases hi : index images 0 with
    | error p => exact ⟨fun q h => (by cases h), fun h => (by cases h)⟩
    | ok img =>
      dsimp only
      have h0 := index_zero hi
      refine ⟨fun q h => ⟨img, h0, ?_⟩, fun h => ⟨img, h0, ?_⟩⟩
      · by_contra hn
        have hd : img.buffer.data[n]? = none := List.getElem?_eq_none_iff.2 (Nat.le_of_not_lt hn)
        have hd' : img.data[n]? = none := hd
        have he : img.buffer.enumerate[n]? = none := by rw [getElem?_enumerate, hd]; rfl
        simp only [hd', he] at h
        cases h
      · by_contra hn
        have hd : img.buffer.data[n]? = some img.buffer.data[n] :=
          List.getElem?_eq_getElem (Nat.lt_of_not_le hn)
        have hd' : img.data[n]? = some img.buffer.data[n] := hd
        have he := getElem?_enumerate img.buffer n
        rw [hd] at he
        simp only [Option.map_some] at he
        simp only [hd', he] at h
        cases h

theorem images_good {h : Heap F} (hg : AllGood Q h) {rs : List Ref} : ∀ i ∈ h.images rs, Good Q i := by
  intro i hi
  obtain ⟨r, _, hr⟩ := List.mem_filterMap.1 hi
  cases hc : h[r]? with
  | none => rw [hc] at hr; cases hr
  | some c =>
    rw [hc] at hr
    cases hr
    exact hg r c hc

/-- The result of a call is good. -/
theorem result_good {h : Heap F} {fr : Frame F D E K} (hg : AllGood Q h) (ok : FrameOK h fr)
    (hch : Checked Q fr) (hl : fr.asked.length = fr.answers.length)
    (hn : fr.call.next (h.images fr.call.refs) fr.answers.length = .ok none) {img : Image F}
    (hr : fr.call.result (D := D) (h.images fr.call.refs) fr.answers = .ok (.image img)) :
    Good Q img := by
  have last : fr.answers.length ≠ 0 → ∃ q, fr.call.next fr.began (fr.answers.length - 1) = .ok (some q) := by
    intro h0
    have : fr.answers.length - 1 < fr.asked.length := by omega
    exact ⟨_, ok.asked _ _ (List.getElem?_eq_getElem this)⟩
  have gi := images_good hg (rs := fr.call.refs)
  have single : ∀ self, fr.call.mode = .shared → (∀ (q : Question F × K), fr.call.next fr.began (fr.answers.length - 1) = .ok (some q) →
      ∃ img, fr.began[0]? = some img ∧ fr.answers.length - 1 < img.buffer.data.length) →
      (∃ img, (h.images fr.call.refs)[0]? = some img ∧ img.buffer.data.length ≤ fr.answers.length) →
      fr.call.refs = [self] → (do
        let img ← index (h.images fr.call.refs) 0
        return (.image (Image.new_from_buffer_with_meta img
          { width := img.width, height := img.height, data := fr.answers }) : Out F D) : R (Out F D))
        = .ok (.image img) → Good Q img := by
    rintro self hm h1 ⟨i, hi0, hle⟩ hrefs hr
    have hi0' : index (h.images fr.call.refs) 0 = .ok i := by
      unfold index; rw [hi0]
    rw [hi0'] at hr
    cases hr
    have hb := gi i (List.mem_of_getElem? hi0)
    have hlen : fr.answers.length = i.buffer.data.length := by
      by_cases h0 : fr.answers.length = 0
      · omega
      · obtain ⟨q, hq⟩ := last h0
        obtain ⟨i', hi', hlt⟩ := h1 q hq
        rw [← ok.reading hm, hi0] at hi'
        cases hi'
        omega
    exact ⟨⟨hb.shape.1, hlen.trans hb.shape.2⟩, hb.background, hch.2⟩
  cases hcall : fr.call with
  | mod_colors self f => rw [hcall] at hr; cases hr
  | mod_colors_enumerated self f => rw [hcall] at hr; cases hr
  | map_colors self f =>
    have e1 := (questions fr.call fr.began (fr.answers.length - 1)).1
    have e2 := (questions fr.call _ _).2 hn
    rw [hcall] at e1 e2 hr
    refine single self (by rw [hcall]; rfl) (by rw [hcall]; exact e1) (by rw [hcall]; exact e2)
      (by rw [hcall]; rfl) (by rw [hcall]; exact hr)
  | map_colors_enumerated self f =>
    have e1 := (questions fr.call fr.began (fr.answers.length - 1)).1
    have e2 := (questions fr.call _ _).2 hn
    rw [hcall] at e1 e2 hr
    refine single self (by rw [hcall]; rfl) (by rw [hcall]; exact e1) (by rw [hcall]; exact e2)
      (by rw [hcall]; rfl) (by rw [hcall]; exact hr)
  | compose rs d f =>
    have e1 := (questions fr.call fr.began (fr.answers.length - 1)).1
    have e2 := (questions fr.call _ _).2 hn
    have hm : fr.call.mode = .shared := by rw [hcall]; rfl
    have hread := ok.reading hm
    have hck := hch.1
    rw [hread] at e2 hr gi
    rw [hcall] at e1 e2 hr hck
    obtain ⟨W, H, hW, hH, hle⟩ := e2
    unfold Call.check at hck
    unfold Call.result at hr
    simp only [bind, Except.bind, pure, Except.pure, hW, hH] at hck hr
    split at hck
    · cases hck
    · split at hck
      · cases hck
      · rename_i u hv
        have hsize := validSize_of_ok (w := W) (h := H) hv
        split at hr
        · cases hr
        · rename_i i hi
          cases hr
          have hb := gi i (List.mem_of_getElem? (index_zero hi))
          have hlen : fr.answers.length = W * H := by
            by_cases h0 : fr.answers.length = 0
            · omega
            · obtain ⟨q, hq⟩ := last h0
              rw [hcall] at hq
              obtain ⟨W', H', hW', hH', hlt⟩ := e1 q hq
              rw [hW] at hW'
              rw [hH] at hH'
              cases hW'
              cases hH'
              omega
          exact ⟨⟨hsize, hlen⟩, hb.background, hch.2⟩

theorem finish_good {h : Heap F} {fr : Frame F D E K} {rest o : List (Frame F D E K)}
    (i : Inv h (fr :: o)) (hg : AllGood Q h) {r : Except (Exc E) (Out F D)}
    (hr : ∀ img, r = .ok (.image img) → Good Q img) :
    AllGood Q (finish h fr rest r).1 ∧ SameSizes h (finish h fr rest r).1 := by
  have s := i.releaseAll.1
  obtain ⟨a, b⟩ := deliver_good (s.good hg) hr
  exact ⟨a, s.sizes.trans b⟩

theorem proceed_good {h : Heap F} {fr : Frame F D E K} {rest o : List (Frame F D E K)}
    (i : Inv h (fr :: (rest ++ o))) (hg : AllGood Q h) (hch : Checked Q fr)
    (hl : fr.asked.length = fr.answers.length) :
    AllGood Q (proceed h fr rest).1 ∧ SameSizes h (proceed h fr rest).1 := by
  have ok := i.frames fr (by simp)
  unfold proceed
  split
  · exact finish_good i hg fun img e => (by cases e)
  · exact ⟨hg, .refl _⟩
  · rename_i hn
    split
    · rename_i out hout
      refine finish_good i hg fun img e => ?_
      cases e
      exact result_good hg ok hch hl hn hout
    · exact finish_good i hg fun img e => (by cases e)

theorem proceed_checked {h : Heap F} {fr : Frame F D E K} {rest : List (Frame F D E K)}
    (hch : Checked Q fr) (hrest : ∀ f ∈ rest, Checked Q f) :
    ∀ f ∈ (proceed h fr rest).2.stack, Checked Q f := by
  unfold proceed
  split
  · exact hrest
  · intro f hf
    rcases List.mem_cons.1 hf with rfl | hf
    · exact hch
    · exact hrest f hf
  · split <;> exact hrest

theorem start_good {h : Heap F} {call : Call F K} {rest o : List (Frame F D E K)}
    (i : WInv h (rest ++ o)) (hg : AllGood Q h) (hrest : ∀ f ∈ rest, Checked Q f)
    (k : Except (Exc E) (Value F D) → K) :
    AllGood Q (start h call rest k).1 ∧ SameSizes h (start h call rest k).1 ∧
      ∀ f ∈ (start h call rest k).2.stack, Checked Q f := by
  rw [start_eq]
  split
  · exact ⟨hg, .refl _, hrest⟩
  · rename_i h1 e
    obtain ⟨s, i1⟩ := borrow_inv e i.toInv k
    have hg1 := s.good hg
    split
    · obtain ⟨a, b⟩ := finish_good (rest := rest) i1 hg1 (r := .error (.panic _)) fun img e => (by cases e)
      exact ⟨a, s.sizes.trans b, hrest⟩
    · rename_i hck
      have hch : Checked Q (⟨call, [], [], h1.images call.refs, k⟩ : Frame F D E K) :=
        ⟨hck, fun c hc => (by cases hc)⟩
      obtain ⟨a, b⟩ := proceed_good i1 hg1 hch rfl
      exact ⟨a, s.sizes.trans b, proceed_checked hch hrest⟩

theorem good_set {img : Image F} (hg : Good Q img) {c : Col F} (hc : Q c) (n : Nat) :
    Good Q { img with buffer := { img.buffer with data := img.data.set n c } } :=
  ⟨⟨hg.shape.1, (List.length_set ..).trans hg.shape.2⟩, hg.background, fun d hd => by
    rcases List.mem_or_eq_of_mem_set hd with h | rfl
    · exact hg.colours d h
    · exact hc⟩

theorem answer_good {h : Heap F} {fr : Frame F D E K} {rest o : List (Frame F D E K)}
    (i : WInv h (fr :: (rest ++ o))) (hg : AllGood Q h) (hch : Checked Q fr)
    (hrest : ∀ f ∈ rest, Checked Q f) {r : Except (Exc E) (Value F D)}
    (hr : ∀ c, r = .ok (.colour c) → Q c) :
    AllGood Q (answer h fr rest r).1 ∧ SameSizes h (answer h fr rest r).1 ∧
      ∀ f ∈ (answer h fr rest r).2.stack, Checked Q f := by
  have fin : ∀ e, AllGood Q (finish h fr rest (.error e)).1 ∧ SameSizes h (finish h fr rest (.error e)).1 ∧
      ∀ f ∈ (finish h fr rest (.error e)).2.stack, Checked Q f := fun e => by
    obtain ⟨a, b⟩ := finish_good (rest := rest) i.toInv hg (r := .error e) fun img e => (by cases e)
    exact ⟨a, b, hrest⟩
  cases r with
  | error e => exact fin e
  | ok v =>
    cases v with
    | colour c =>
      have hc := hr c rfl
      obtain ⟨h1, e, i1, -, -, hh⟩ := answer_colour i c
      have hch' : Checked Q { fr with answers := fr.answers ++ [c] } := by
        refine ⟨hch.1, fun d hd => ?_⟩
        rcases List.mem_append.1 hd with hd | hd
        · exact hch.2 d hd
        · rw [List.mem_singleton.1 hd]; exact hc
      have hfr : Waiting fr := i.waiting fr (by simp)
      have hl : ({ fr with answers := fr.answers ++ [c] } : Frame F D E K).asked.length =
          (fr.answers ++ [c]).length := by
        simp only [List.length_append, List.length_singleton]
        exact hfr
      have key : AllGood Q h1 ∧ SameSizes h h1 := by
        rcases hh with rfl | ⟨self, cell, hcell, rfl⟩
        · exact ⟨hg, .refl _⟩
        · exact write_good hg hcell ⟨good_set (hg _ _ hcell) hc _, rfl, rfl⟩
      rw [e]
      obtain ⟨a, b⟩ := proceed_good i1 key.1 hch' hl
      exact ⟨a, key.2.trans b, proceed_checked hch' hrest⟩
    | _ => exact fin _

theorem doRead_good {h : Heap F} (hg : AllGood Q h) {self : Ref} {m : Reader F G}
    (ho : ∀ img img', Good Q img → (m.run (D := D) libs g img).run = .ok (.ok (.image img')) →
      Good Q img') :
    AllGood Q (doRead (D := D) (E := E) libs g h self m).1 ∧
      SameSizes h (doRead (D := D) (E := E) libs g h self m).1 := by
  rw [doRead_eq]
  split
  · exact ⟨hg, .refl _⟩
  · rename_i c hc
    split
    · exact ⟨hg, .refl _⟩
    · exact deliver_good hg fun img e => ho _ img (hg _ _ hc) (outcome_ok e)

theorem doRead2_good {h : Heap F} (hg : AllGood Q h) {self other : Ref} {m : Reader2 F}
    (ho : ∀ img other img', Good Q img → Good Q other →
      (m.run (D := D) img other).run = .ok (.ok (.image img')) → Good Q img') :
    AllGood Q (doRead2 (D := D) (E := E) h self other m).1 ∧
      SameSizes h (doRead2 (D := D) (E := E) h self other m).1 := by
  rw [doRead2_eq]
  split
  · exact ⟨hg, .refl _⟩
  · rename_i c hc
    split
    · exact ⟨hg, .refl _⟩
    · split
      · exact ⟨hg, .refl _⟩
      · rename_i o hother
        split
        · exact ⟨hg, .refl _⟩
        · exact deliver_good hg fun img e => ho _ _ img (hg _ _ hc) (hg _ _ hother) (outcome_ok e)

theorem doWrite_good {h : Heap F} (hg : AllGood Q h) {self : Ref} {m : Writer F G}
    (ho : ∀ img img', Good Q img → (m.run libs g img).run = .ok (.ok img') →
      Good Q img' ∧ img'.buffer.width = img.buffer.width ∧ img'.buffer.height = img.buffer.height) :
    AllGood Q (doWrite (D := D) (E := E) libs g h self m).1 ∧
      SameSizes h (doWrite (D := D) (E := E) libs g h self m).1 := by
  rw [doWrite_eq]
  split
  · exact ⟨hg, .refl _⟩
  · rename_i c hc
    split
    · split
      · rename_i img e
        exact write_good hg hc (ho _ _ (hg _ _ hc) (outcome_ok e))
      · exact ⟨hg, .refl _⟩
    · exact ⟨hg, .refl _⟩

theorem doApplyPaletteInPlace_good {h : Heap F} (hg : AllGood Q h) {self palette : Ref}
    (ho : ∀ img palette, Good Q img → Good Q palette →
      Good Q (img.apply_palette_in_place palette) ∧
        (img.apply_palette_in_place palette).buffer.width = img.buffer.width ∧
        (img.apply_palette_in_place palette).buffer.height = img.buffer.height) :
    AllGood Q (doApplyPaletteInPlace (D := D) (E := E) h self palette).1 ∧
      SameSizes h (doApplyPaletteInPlace (D := D) (E := E) h self palette).1 := by
  rw [doApplyPaletteInPlace_eq]
  split
  · exact ⟨hg, .refl _⟩
  · rename_i c hc
    split
    · split
      · exact ⟨hg, .refl _⟩
      · split
        · exact ⟨hg, .refl _⟩
        · rename_i o hother
          split
          · exact ⟨hg, .refl _⟩
          · exact write_good hg hc (ho _ _ (hg _ _ hc) (hg _ _ hother))
    · exact ⟨hg, .refl _⟩

theorem Thread.step_good {h : Heap F} {t : Thread F D E K} {o : List (Frame F D E K)}
    (i : WInv h (t.stack ++ o)) (hg : AllGood Q h) (hch : ∀ f ∈ t.stack, Checked Q f)
    (ho : Obeys libs g Q (act t.code)) :
    AllGood Q (t.step libs g act h).1 ∧ SameSizes h (t.step libs g act h).1 ∧
      ∀ f ∈ (t.step libs g act h).2.1.stack, Checked Q f := by
  unfold Thread.step
  split
  · rename_i r hact
    rw [hact] at ho
    split
    · exact ⟨hg, .refl _, hch⟩
    · rename_i fr rest hst
      rw [hst] at i hch
      exact answer_good i hg (hch fr (by simp)) (fun f hf => hch f (by simp [hf])) ho
  · rename_i c k hact
    rw [hact] at ho
    obtain ⟨a, b⟩ := deliver_good (E := E) (D := D) hg
      (r := outcome (do return .image (← c.run libs))) fun img e => ho img (by
        have := outcome_ok e
        have e2 : (do return (.image (← c.run libs) : Out F D) : Py (Out F D)).run =
            (match (c.run libs).run with
              | .error p => .error p
              | .ok (.error m) => .ok (.error m)
              | .ok (.ok img) => .ok (.ok (.image img))) := by
          cases hx : (c.run libs).run with
          | error p =>
            simp only [ExceptT.run_bind, hx]; rfl
          | ok y => cases y <;> (simp only [ExceptT.run_bind, hx]; rfl)
        rw [e2] at this
        split at this <;> cases this
        assumption)
    exact ⟨a, b, hch⟩
  · rename_i hact
    rw [hact] at ho
    obtain ⟨a, b⟩ := doRead_good (E := E) hg ho
    exact ⟨a, b, hch⟩
  · rename_i hact
    rw [hact] at ho
    obtain ⟨a, b⟩ := doRead2_good (E := E) hg ho
    exact ⟨a, b, hch⟩
  · rename_i hact
    rw [hact] at ho
    obtain ⟨a, b⟩ := doWrite_good (D := D) (E := E) hg ho
    exact ⟨a, b, hch⟩
  · rename_i hact
    rw [hact] at ho
    obtain ⟨a, b⟩ := doApplyPaletteInPlace_good (D := D) (E := E) hg ho
    exact ⟨a, b, hch⟩
  · exact start_good i hg hch _
  · exact start_good i hg hch _
  · exact start_good i hg hch _
  · exact start_good i hg hch _
  · exact start_good i hg hch _
  · exact ⟨hg, .refl _, hch⟩

/-- What every state of a program that obeys has. -/
structure GoodState (Q : Col F → Prop) (s : Python.State F D E K) : Prop where
  inv : WInv s.heap s.frames
  good : AllGood Q s.heap
  checked : ∀ t ∈ s.threads, ∀ f ∈ t.stack, Checked Q f

theorem State.step_good {s : Python.State F D E K} (hs : GoodState Q s)
    (ho : ∀ code, Obeys libs g Q (act code)) (t : Nat) :
    GoodState Q (s.step libs g act t) ∧ SameSizes s.heap (s.step libs g act t).heap := by
  have i1 := State.step_winv (libs := libs) (g := g) (act := act) hs.inv t
  cases ht : s.threads[t]? with
  | none =>
    have : s.step libs g act t = s := by unfold State.step; rw [ht]
    rw [this]
    exact ⟨hs, .refl _⟩
  | some th =>
    have hth : th ∈ s.threads := List.mem_of_getElem? ht
    have ip := hs.inv.perm (State.frames_perm ht)
    obtain ⟨a, b, c⟩ := Thread.step_good (act := act) ip hs.good (hs.checked th hth) (ho th.code)
    have hnew := (Thread.step_winv (libs := libs) (g := g) (act := act) ip).2
    have hstep : s.step libs g act t = ⟨(th.step libs g act s.heap).1,
        s.threads.set t (th.step libs g act s.heap).2.1 ++ (th.step libs g act s.heap).2.2⟩ := by
      unfold State.step
      rw [ht]
    refine ⟨⟨i1, by rw [hstep]; exact a, ?_⟩, by rw [hstep]; exact b⟩
    rw [hstep]
    intro u hu f hf
    rcases List.mem_append.1 hu with hu | hu
    · rcases List.mem_or_eq_of_mem_set hu with hu | rfl
      · exact hs.checked u hu f hf
      · exact c f hf
    · rw [hnew u hu] at hf
      cases hf

theorem reaches_good {s s' : Python.State F D E K} (hs : GoodState Q s)
    (ho : ∀ code, Obeys libs g Q (act code)) (r : Reaches libs g act s s') :
    GoodState Q s' ∧ SameSizes s.heap s'.heap := by
  induction r with
  | here => exact ⟨hs, .refl _⟩
  | step _ t ih =>
    obtain ⟨a, b⟩ := State.step_good ih.1 ho t
    exact ⟨a, ih.2.trans b⟩

theorem arises_good {main : K} {s : Python.State F D E K} (ho : ∀ code, Obeys libs g Q (act code))
    (r : Arises libs g act main s) : GoodState Q s :=
  (reaches_good ⟨State.initial_winv main, fun r c hc => (by cases hc), fun t ht f hf => by
    rw [List.mem_singleton.1 ht] at hf
    cases hf⟩ ho r).1

end
end D10.Python
