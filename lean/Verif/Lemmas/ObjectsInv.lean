import Verif.Lemmas.Objects

/-!
# The invariant of Python programs that share images

The counter of every object says which calls in progress use it, and so no object that a call in
progress uses is changed by anyone else.
-/

namespace D10.Python

variable {F D G E K : Type}

/-! ## Counters -/

/-- The counter of an object that is borrowed `S` times shared and `X` times exclusively. -/
def FlagOK (f : Flag) (S X : Nat) : Prop :=
  (X = 0 ∧ f = .shared S) ∨ (X = 1 ∧ S = 0 ∧ f = .exclusive)

def Flags (h : Heap F) (S X : Ref → Nat) : Prop :=
  ∀ r c, h[r]? = some c → FlagOK c.flag (S r) (X r)

/-- The same objects with the same images. -/
def Same (h h1 : Heap F) : Prop := ∀ r : Ref, h1[r]?.map Cell.image = h[r]?.map Cell.image

theorem Same.refl (h : Heap F) : Same h h := fun _ => rfl

theorem Same.trans {h h1 h2 : Heap F} (a : Same h h1) (b : Same h1 h2) : Same h h2 :=
  fun r => (b r).trans (a r)

theorem Same.symm {h h1 : Heap F} (a : Same h h1) : Same h1 h := fun r => (a r).symm

theorem filterMap_congr' {α β : Type} {f g : α → Option β} : ∀ {l : List α}, (∀ a ∈ l, f a = g a) →
    l.filterMap f = l.filterMap g
  | [], _ => rfl
  | a :: l, h => by
    rw [List.filterMap_cons, List.filterMap_cons, h a (by simp),
      filterMap_congr' fun b hb => h b (by simp [hb])]

theorem Same.images {h h1 : Heap F} (a : Same h h1) (rs : List Ref) : h1.images rs = h.images rs :=
  filterMap_congr' fun r _ => a r

theorem Same.lt {h h1 : Heap F} (a : Same h h1) (r : Ref) : r < h1.length ↔ r < h.length := by
  have := congrArg Option.isSome (a r)
  rw [Option.isSome_map, Option.isSome_map] at this
  constructor
  · intro hr
    by_contra hn
    rw [(List.getElem?_eq_none_iff (l := h)).2 (Nat.le_of_not_lt hn),
      List.getElem?_eq_getElem (l := h1) hr] at this
    cases this
  · intro hr
    by_contra hn
    rw [(List.getElem?_eq_none_iff (l := h1)).2 (Nat.le_of_not_lt hn),
      List.getElem?_eq_getElem (l := h) hr] at this
    cases this

theorem Same.length {h h1 : Heap F} (a : Same h h1) : h1.length = h.length := by
  have h1' := a.lt h1.length
  have h2' := a.lt h.length
  exact Nat.le_antisymm (Nat.le_of_not_lt fun hn => absurd (h2'.1 hn) (Nat.lt_irrefl _))
    (Nat.le_of_not_lt fun hn => absurd (h1'.2 hn) (Nat.lt_irrefl _))

theorem same_set_flag {h : Heap F} {r : Ref} {c : Cell F} (hc : h[r]? = some c) (f : Flag) :
    Same h (h.set r { c with flag := f }) := by
  intro q
  by_cases e : q = r
  · subst e
    rw [List.getElem?_set_self (lt_of_getElem? hc), hc]
    rfl
  · rw [List.getElem?_set_ne (Ne.symm e)]

theorem flags_set {h : Heap F} {r : Ref} {c : Cell F} (hc : h[r]? = some c) {f : Flag}
    {S X S' X' : Ref → Nat} (hf : Flags h S X) (h1 : FlagOK f (S' r) (X' r))
    (h2 : ∀ q, q ≠ r → S' q = S q ∧ X' q = X q) : Flags (h.set r { c with flag := f }) S' X' := by
  intro q d hd
  by_cases e : q = r
  · subst e
    rw [List.getElem?_set_self (lt_of_getElem? hc)] at hd
    cases hd
    exact h1
  · rw [List.getElem?_set_ne (Ne.symm e)] at hd
    rw [(h2 q e).1, (h2 q e).2]
    exact hf q d hd

theorem acquire_shared_flags {h h1 : Heap F} {r : Ref} {S X : Ref → Nat}
    (e : h.acquire (E := E) r .shared = .ok h1) (hf : Flags h S X) :
    Same h h1 ∧ r < h.length ∧ Flags h1 (fun q => S q + [r].count q) X := by
  obtain ⟨c, f, hc, hfa, rfl⟩ := heap_acquire_some e
  obtain ⟨n, hn, rfl⟩ := flag_acquire_shared hfa
  refine ⟨same_set_flag hc _, lt_of_getElem? hc, flags_set hc hf ?_ fun q hq => ?_⟩
  · rcases hf r c hc with ⟨hx, hs⟩ | ⟨_, _, hs⟩
    · rw [hn] at hs
      cases hs
      refine .inl ⟨hx, ?_⟩
      simp
    · rw [hn] at hs; cases hs
  · rw [List.count_cons_of_ne (Ne.symm hq)]
    exact ⟨rfl, rfl⟩

theorem acquire_exclusive_flags {h h1 : Heap F} {r : Ref} {S X : Ref → Nat}
    (e : h.acquire (E := E) r .exclusive = .ok h1) (hf : Flags h S X) :
    Same h h1 ∧ r < h.length ∧ Flags h1 S (fun q => X q + [r].count q) := by
  obtain ⟨c, f, hc, hfa, rfl⟩ := heap_acquire_some e
  obtain ⟨hn, rfl⟩ := flag_acquire_exclusive hfa
  refine ⟨same_set_flag hc _, lt_of_getElem? hc, flags_set hc hf ?_ fun q hq => ?_⟩
  · rcases hf r c hc with ⟨hx, hs⟩ | ⟨_, _, hs⟩
    · rw [hn] at hs
      injection hs with hs
      exact .inr ⟨by simp [hx], hs.symm, rfl⟩
    · rw [hn] at hs; cases hs
  · rw [List.count_cons_of_ne (Ne.symm hq)]
    exact ⟨rfl, rfl⟩

theorem borrowAll_flags {S X : Ref → Nat} : ∀ {rs : List Ref} {h h1 : Heap F},
    borrowAll (E := E) h rs = .ok h1 → Flags h S X →
    Same h h1 ∧ (∀ r ∈ rs, r < h.length) ∧ Flags h1 (fun q => S q + rs.count q) X := by
  intro rs
  induction rs generalizing S with
  | nil =>
    intro h h1 e hf
    cases e
    exact ⟨.refl _, fun r hr => (by cases hr), by simpa using hf⟩
  | cons r rs ih =>
    intro h h1 e hf
    unfold borrowAll at e
    split at e
    · cases e
    · rename_i h2 e2
      obtain ⟨a1, a2, a3⟩ := acquire_shared_flags e2 hf
      obtain ⟨b1, b2, b3⟩ := ih e a3
      refine ⟨a1.trans b1, ?_, ?_⟩
      · intro q hq
        rcases List.mem_cons.1 hq with rfl | hq
        · exact a2
        · exact (a1.lt q).1 (b2 q hq)
      · intro q c hc
        have := b3 q c hc
        have e3 : S q + (r :: rs).count q = S q + [r].count q + rs.count q := by
          simp only [List.count_cons, List.count_nil]
          omega
        show FlagOK c.flag (S q + (r :: rs).count q) (X q)
        rw [e3]
        exact this

theorem release_shared_flags {h : Heap F} {r : Ref} {S X : Ref → Nat}
    (hf : Flags h (fun q => S q + [r].count q) X) :
    Same h (h.release r .shared) ∧ Flags (h.release r .shared) S X := by
  unfold Heap.release
  cases hc : h[r]? with
  | none =>
    refine ⟨.refl _, fun q c hq => ?_⟩
    have hne : q ≠ r := fun e => by subst e; rw [hc] at hq; cases hq
    have := hf q c hq
    dsimp only at this
    rw [List.count_cons_of_ne (Ne.symm hne)] at this
    exact this
  | some c =>
    refine ⟨same_set_flag hc _, flags_set hc hf ?_ fun q hq => ?_⟩
    · have := hf r c hc
      simp only [List.count_cons_self, List.count_nil] at this
      rcases this with ⟨hx, hs⟩ | ⟨_, hs, _⟩
      · rw [hs]
        exact .inl ⟨hx, rfl⟩
      · omega
    · rw [List.count_cons_of_ne (Ne.symm hq)]
      exact ⟨rfl, rfl⟩

theorem release_exclusive_flags {h : Heap F} {r : Ref} {S X : Ref → Nat}
    (hf : Flags h S (fun q => X q + [r].count q)) :
    Same h (h.release r .exclusive) ∧ Flags (h.release r .exclusive) S X := by
  unfold Heap.release
  cases hc : h[r]? with
  | none =>
    refine ⟨.refl _, fun q c hq => ?_⟩
    have hne : q ≠ r := fun e => by subst e; rw [hc] at hq; cases hq
    have := hf q c hq
    dsimp only at this
    rw [List.count_cons_of_ne (Ne.symm hne)] at this
    exact this
  | some c =>
    refine ⟨same_set_flag hc _, flags_set hc hf ?_ fun q hq => ?_⟩
    · have := hf r c hc
      simp only [List.count_cons_self, List.count_nil] at this
      rcases this with ⟨hx, _⟩ | ⟨hx, hs, hfl⟩
      · omega
      · rw [hfl]
        exact .inl ⟨by omega, by rw [hs]; rfl⟩
    · rw [List.count_cons_of_ne (Ne.symm hq)]
      exact ⟨rfl, rfl⟩

theorem releaseAll_shared_flags {X : Ref → Nat} : ∀ {rs : List Ref} {h : Heap F} {S : Ref → Nat},
    Flags h (fun q => S q + rs.count q) X →
    Same h (releaseAll h .shared rs) ∧ Flags (releaseAll h .shared rs) S X := by
  intro rs
  induction rs with
  | nil => intro h S hf; exact ⟨.refl _, by simpa [releaseAll] using hf⟩
  | cons r rs ih =>
    intro h S hf
    have h1 : Flags h (fun q => (S q + rs.count q) + [r].count q) X := by
      intro q c hc
      have := hf q c hc
      have e3 : S q + rs.count q + [r].count q = S q + (r :: rs).count q := by
        simp only [List.count_cons, List.count_nil]
        omega
      show FlagOK c.flag (S q + rs.count q + [r].count q) (X q)
      rw [e3]
      exact this
    obtain ⟨a1, a2⟩ := release_shared_flags h1
    obtain ⟨b1, b2⟩ := ih a2
    exact ⟨a1.trans b1, b2⟩

/-! ## Calls in progress -/

/-- How often a call has borrowed an object in a way. -/
def holds (m : Mode) (r : Ref) (fr : Frame F D E K) : Nat :=
  if fr.call.mode = m then fr.call.refs.count r else 0

/-- How often an object is borrowed in a way. -/
def total (m : Mode) : List (Frame F D E K) → Ref → Nat
  | [], _ => 0
  | fr :: frs, r => holds m r fr + total m frs r

theorem total_cons (m : Mode) (fr : Frame F D E K) (frs : List (Frame F D E K)) (r : Ref) :
    total m (fr :: frs) r = holds m r fr + total m frs r := rfl

theorem total_perm (m : Mode) {a b : List (Frame F D E K)} (p : a.Perm b) (r : Ref) :
    total m a r = total m b r := by
  induction p with
  | nil => rfl
  | cons x _ ih => rw [total_cons, total_cons, ih]
  | swap x y l => simp only [total_cons]; omega
  | trans _ _ h1 h2 => exact h1.trans h2

theorem holds_le_total {m : Mode} {fr : Frame F D E K} {r : Ref} :
    ∀ {frs : List (Frame F D E K)}, fr ∈ frs → holds m r fr ≤ total m frs r := by
  intro frs
  induction frs with
  | nil => intro h; cases h
  | cons a l ih =>
    intro h
    rw [total_cons]
    rcases List.mem_cons.1 h with rfl | h
    · omega
    · have := ih h; omega

theorem total_eq_zero {m : Mode} {r : Ref} :
    ∀ {frs : List (Frame F D E K)}, (∀ fr ∈ frs, holds m r fr = 0) → total m frs r = 0
  | [], _ => rfl
  | a :: l, h => by
    rw [total_cons, h a (by simp), total_eq_zero fun b hb => h b (by simp [hb])]

theorem total_pos {m : Mode} {frs : List (Frame F D E K)} {fr : Frame F D E K} {r : Ref}
    (hfr : fr ∈ frs) (hm : fr.call.mode = m) (hr : r ∈ fr.call.refs) : 0 < total m frs r := by
  have h1 : 0 < holds m r fr := by
    rw [holds, if_pos hm]
    exact List.count_pos_iff.2 hr
  have h2 : holds m r fr ≤ total m frs r := holds_le_total hfr
  omega

theorem flagOK_unused {S X : Nat} (h : FlagOK (.shared 0) S X) : S = 0 ∧ X = 0 := by
  rcases h with ⟨hx, hs⟩ | ⟨_, _, hs⟩
  · injection hs with hs; exact ⟨hs.symm, hx⟩
  · cases hs

/-- The image of an object that is being changed: the answers so far, then the pixels not yet
visited. -/
def partly (b : Image F) (answers : List (Col F)) : Image F :=
  { b with buffer := { b.buffer with data := answers ++ b.data.drop answers.length } }

section
set_option linter.unusedSectionVars false
variable [Scalar F]

structure FrameOK (h : Heap F) (fr : Frame F D E K) : Prop where
  valid : ∀ r ∈ fr.call.refs, r < h.length
  reading : fr.call.mode = .shared → h.images fr.call.refs = fr.began
  changing : fr.call.mode = .exclusive →
    ∃ b, fr.began = [b] ∧ h.images fr.call.refs = [partly b fr.answers]
  asked : ∀ (j : Nat) q, fr.asked[j]? = some q → fr.call.next fr.began j = .ok (some q)

structure Inv (h : Heap F) (frs : List (Frame F D E K)) : Prop where
  flags : Flags h (total .shared frs) (total .exclusive frs)
  frames : ∀ fr ∈ frs, FrameOK h fr

theorem Inv.perm {h : Heap F} {a b : List (Frame F D E K)} (i : Inv h a) (p : a.Perm b) : Inv h b := by
  refine ⟨fun r c hc => ?_, fun fr hfr => i.frames fr (p.mem_iff.2 hfr)⟩
  rw [← total_perm _ p, ← total_perm _ p]
  exact i.flags r c hc

theorem images_congr {h h1 : Heap F} {rs : List Ref}
    (e : ∀ r ∈ rs, h1[r]?.map Cell.image = h[r]?.map Cell.image) : h1.images rs = h.images rs :=
  filterMap_congr' e

theorem FrameOK.congr {h h1 : Heap F} {fr : Frame F D E K} (ok : FrameOK h fr)
    (hlen : h.length ≤ h1.length)
    (e : ∀ r ∈ fr.call.refs, h1[r]?.map Cell.image = h[r]?.map Cell.image) : FrameOK h1 fr := by
  have hi := images_congr e
  refine ⟨fun r hr => (ok.valid r hr).trans_le hlen, fun hm => ?_, fun hm => ?_, ok.asked⟩
  · rw [hi]; exact ok.reading hm
  · rw [hi]; exact ok.changing hm

/-- Steps that keep all borrows: the image of an object changes only if nobody uses the object. -/
theorem Inv.change {h h1 : Heap F} {frs : List (Frame F D E K)} (i : Inv h frs)
    (hold : ∀ (r : Ref) (c : Cell F), h[r]? = some c → ∃ c1 : Cell F, h1[r]? = some c1 ∧ c1.flag = c.flag ∧
      (c1.image = c.image ∨ c.flag = .shared 0))
    (hnew : ∀ (r : Ref) (c : Cell F), h[r]? = none → h1[r]? = some c → c.flag = .shared 0) : Inv h1 frs := by
  have hlen : h.length ≤ h1.length := by
    by_contra hn
    obtain ⟨c1, hc1, _⟩ := hold h1.length _ (List.getElem?_eq_getElem (by omega))
    have := lt_of_getElem? hc1
    omega
  refine ⟨fun r c1 hc1 => ?_, fun fr hfr => ?_⟩
  · cases hc : h[r]? with
    | some c =>
      obtain ⟨c2, hc2, hf, _⟩ := hold r c hc
      rw [hc1] at hc2
      cases hc2
      rw [hf]
      exact i.flags r c hc
    | none =>
      rw [hnew r c1 hc hc1]
      have hz : ∀ m, total m frs r = 0 := by
        intro m
        refine total_eq_zero fun fr hfr => ?_
        rw [holds]
        split
        · refine List.count_eq_zero.2 fun hr => ?_
          have := (i.frames fr hfr).valid r hr
          rw [List.getElem?_eq_none_iff] at hc
          exact absurd this (Nat.not_lt.2 hc)
        · rfl
      exact .inl ⟨hz _, by rw [hz]⟩
  · have ok := i.frames fr hfr
    refine ok.congr hlen fun r hr => ?_
    have hr' := ok.valid r hr
    obtain ⟨c1, hc1, hf, himg⟩ := hold r h[r] (List.getElem?_eq_getElem hr')
    rw [hc1, List.getElem?_eq_getElem hr']
    rcases himg with himg | hfree
    · simp [himg]
    · exfalso
      have hfl := i.flags r h[r] (List.getElem?_eq_getElem hr')
      rw [hfree] at hfl
      obtain ⟨hS, hX⟩ := flagOK_unused hfl
      cases hm : fr.call.mode with
      | shared => have := total_pos hfr hm hr; omega
      | exclusive => have := total_pos hfr hm hr; omega

theorem Inv.append {h : Heap F} {frs : List (Frame F D E K)} (i : Inv h frs) (img : Image F) :
    Inv (h ++ [⟨img, .shared 0⟩]) frs := by
  refine i.change (fun r c hc => ⟨c, ?_, rfl, .inl rfl⟩) fun r c hc hc1 => ?_
  · rw [List.getElem?_append_left (lt_of_getElem? hc)]; exact hc
  · rw [List.getElem?_eq_none_iff] at hc
    rw [List.getElem?_append_right hc] at hc1
    have := List.mem_of_getElem? hc1
    simp only [List.mem_singleton] at this
    rw [this]

theorem Inv.write {h : Heap F} {frs : List (Frame F D E K)} (i : Inv h frs) {r : Ref} {c : Cell F}
    (hc : h[r]? = some c) (hfree : c.flag = .shared 0) (img : Image F) : Inv (h.write r img) frs := by
  unfold Heap.write
  rw [hc]
  refine i.change (fun q d hd => ?_) fun q d hd hd1 => ?_
  · by_cases e : q = r
    · subst e
      rw [hc] at hd
      cases hd
      exact ⟨_, List.getElem?_set_self (lt_of_getElem? hc), rfl, .inr hfree⟩
    · exact ⟨d, by rw [List.getElem?_set_ne (Ne.symm e)]; exact hd, rfl, .inl rfl⟩
  · rw [List.getElem?_eq_none_iff] at hd
    have := lt_of_getElem? hd1
    rw [List.length_set] at this
    omega

theorem Inv.deliver {h : Heap F} {frs : List (Frame F D E K)} (i : Inv h frs)
    (r : Except (Exc E) (Out F D)) : Inv (Python.deliver h r).1 frs := by
  cases r with
  | error e => exact i
  | ok o =>
    cases o with
    | value v => exact i
    | image img => exact i.append img

/-! ## Steps of calls -/

theorem holds_of_mode {m : Mode} {fr : Frame F D E K} (hm : fr.call.mode = m) (r : Ref) :
    holds m r fr = fr.call.refs.count r := if_pos hm

theorem holds_of_ne {m : Mode} {fr : Frame F D E K} (hm : fr.call.mode ≠ m) (r : Ref) :
    holds m r fr = 0 := if_neg hm

/-- A call that changes an image uses one object. -/
theorem refs_of_exclusive {call : Call F K} (hm : call.mode = .exclusive) : ∃ r, call.refs = [r] := by
  cases call <;> first | exact ⟨_, rfl⟩ | cases hm

theorem Inv.releaseAll {h : Heap F} {fr : Frame F D E K} {o : List (Frame F D E K)}
    (i : Inv h (fr :: o)) : Same h (releaseAll h fr.call.mode fr.call.refs) ∧
      Inv (Python.releaseAll h fr.call.mode fr.call.refs) o := by
  have key : Same h (Python.releaseAll h fr.call.mode fr.call.refs) ∧
      Flags (Python.releaseAll h fr.call.mode fr.call.refs) (total .shared o) (total .exclusive o) := by
    cases hm : fr.call.mode with
    | shared =>
      refine releaseAll_shared_flags fun q c hc => ?_
      have := i.flags q c hc
      rw [total_cons, total_cons, holds_of_mode hm, holds_of_ne (by rw [hm]; decide), Nat.zero_add,
        Nat.add_comm] at this
      exact this
    | exclusive =>
      obtain ⟨r, hr⟩ := refs_of_exclusive hm
      rw [hr]
      refine release_exclusive_flags fun q c hc => ?_
      have := i.flags q c hc
      rw [total_cons, total_cons, holds_of_mode hm, holds_of_ne (by rw [hm]; decide), Nat.zero_add,
        Nat.add_comm, hr] at this
      exact this
  refine ⟨key.1, key.2, fun f hf => ?_⟩
  exact (i.frames f (by simp [hf])).congr (Nat.le_of_eq key.1.length.symm) fun r _ => key.1 r

theorem finish_inv {h : Heap F} {fr : Frame F D E K} {rest o : List (Frame F D E K)}
    (i : Inv h (fr :: o)) (r : Except (Exc E) (Out F D)) :
    Inv (finish h fr rest r).1 o ∧ (finish h fr rest r).2.stack = rest :=
  ⟨i.releaseAll.2.deliver r, rfl⟩

theorem getElem?_partly (a d : List (Col F)) : (a ++ d.drop a.length)[a.length]? = d[a.length]? := by
  rw [List.getElem?_append_right (Nat.le_refl _), Nat.sub_self, List.getElem?_drop, Nat.add_zero]

theorem getElem?_enumerate (b : PixelBuffer (Col F)) (n : Nat) :
    b.enumerate[n]? = b.data[n]?.map fun c => (n % 2 ^ 32 % b.width, n % 2 ^ 32 / b.width, c) := by
  unfold PixelBuffer.enumerate
  rw [List.getElem?_map, List.getElem?_zipIdx]
  cases b.data[n]? <;> simp

theorem next_partly {call : Call F K} (hm : call.mode = .exclusive) (b : Image F)
    (a : List (Col F)) : call.next [partly b a] a.length = call.next [b] a.length := by
  have hw : (partly b a).width = b.width := rfl
  have hd : (partly b a).data[a.length]? = b.data[a.length]? := getElem?_partly a b.data
  cases call with
  | mod_colors self func =>
    show (do
        let img ← (Except.ok (partly b a) : R (Image F))
        match img.data[a.length]? with
        | some c => return some (⟨a.length % img.width, a.length / img.width, [c]⟩, func c)
        | none => return none : R (Option (Question F × K))) = (do
        let img ← (Except.ok b : R (Image F))
        match img.data[a.length]? with
        | some c => return some (⟨a.length % img.width, a.length / img.width, [c]⟩, func c)
        | none => return none)
    simp only [bind, Except.bind, hd, hw]
  | mod_colors_enumerated self func =>
    have he : (partly b a).buffer.enumerate[a.length]? = b.buffer.enumerate[a.length]? := by
      rw [getElem?_enumerate, getElem?_enumerate]
      show ((partly b a).data[a.length]?).map _ = _
      rw [hd]
      rfl
    show (do
        let img ← (Except.ok (partly b a) : R (Image F))
        match img.buffer.enumerate[a.length]? with
        | some (x, y, c) => return some (⟨x, y, [c]⟩, func (asI32 x) (asI32 y) c)
        | none => return none : R (Option (Question F × K))) = (do
        let img ← (Except.ok b : R (Image F))
        match img.buffer.enumerate[a.length]? with
        | some (x, y, c) => return some (⟨x, y, [c]⟩, func (asI32 x) (asI32 y) c)
        | none => return none)
    simp only [bind, Except.bind, he]
  | map_colors => cases hm
  | map_colors_enumerated => cases hm
  | compose => cases hm

theorem FrameOK.next {h : Heap F} {fr : Frame F D E K} (ok : FrameOK h fr) :
    fr.call.next (h.images fr.call.refs) fr.answers.length =
      fr.call.next fr.began fr.answers.length := by
  cases hm : fr.call.mode with
  | shared => rw [ok.reading hm]
  | exclusive =>
    obtain ⟨b, hb, hi⟩ := ok.changing hm
    rw [hb, hi, next_partly hm]

/-- A call in progress waits for the answer to its last question. -/
def Waiting (fr : Frame F D E K) : Prop := fr.asked.length = fr.answers.length + 1

structure WInv (h : Heap F) (frs : List (Frame F D E K)) : Prop extends Inv h frs where
  waiting : ∀ fr ∈ frs, Waiting fr

theorem WInv.perm {h : Heap F} {a b : List (Frame F D E K)} (i : WInv h a) (p : a.Perm b) :
    WInv h b := ⟨i.toInv.perm p, fun fr hfr => i.waiting fr (p.mem_iff.2 hfr)⟩

theorem finish_winv {h : Heap F} {fr : Frame F D E K} {rest o : List (Frame F D E K)}
    (i : Inv h (fr :: (rest ++ o))) (hw : ∀ f ∈ rest ++ o, Waiting f)
    (r : Except (Exc E) (Out F D)) :
    WInv (finish h fr rest r).1 ((finish h fr rest r).2.stack ++ o) :=
  ⟨(finish_inv i r).1, hw⟩

theorem proceed_winv {h : Heap F} {fr : Frame F D E K} {rest o : List (Frame F D E K)}
    (i : Inv h (fr :: (rest ++ o))) (hw : ∀ f ∈ rest ++ o, Waiting f)
    (hl : fr.asked.length = fr.answers.length) :
    WInv (proceed h fr rest).1 ((proceed h fr rest).2.stack ++ o) := by
  have ok := i.frames fr (by simp)
  unfold proceed
  split
  · exact finish_winv i hw _
  · rename_i q code hq
    rw [ok.next] at hq
    refine ⟨⟨fun r c hc => ?_, fun f hf => ?_⟩, fun f hf => ?_⟩
    · exact i.flags r c hc
    · rcases List.mem_cons.1 hf with rfl | hf
      · refine ⟨ok.valid, ok.reading, ok.changing, fun j x hx => ?_⟩
        rcases Nat.lt_or_ge j fr.asked.length with hj | hj
        · rw [List.getElem?_append_left hj] at hx
          exact ok.asked j x hx
        · rw [List.getElem?_append_right hj] at hx
          have hj' : j - fr.asked.length = 0 := by
            have := lt_of_getElem? hx
            simp at this
            omega
          rw [hj'] at hx
          cases hx
          have : j = fr.answers.length := by omega
          rw [this]
          exact hq
      · exact i.frames f (List.mem_cons_of_mem _ hf)
    · rcases List.mem_cons.1 hf with rfl | hf
      · simp [Waiting, hl]
      · exact hw f hf
  · split
    · exact finish_winv i hw _
    · exact finish_winv i hw _

/-- The object a call changes is used by nobody else. -/
theorem Inv.alone {h : Heap F} {fr : Frame F D E K} {o : List (Frame F D E K)} (i : Inv h (fr :: o))
    {self : Ref} (hm : fr.call.mode = .exclusive) (hr : fr.call.refs = [self]) :
    ∀ f ∈ o, self ∉ f.call.refs := by
  intro f hf hmem
  have hlt := (i.frames fr (by simp)).valid self (by rw [hr]; simp)
  have := i.flags self h[self] (List.getElem?_eq_getElem hlt)
  rw [total_cons, total_cons, holds_of_mode hm, hr, holds_of_ne (by rw [hm]; decide)] at this
  simp only [List.count_cons_self, List.count_nil] at this
  cases hfm : f.call.mode with
  | shared =>
    have hp := total_pos hf hfm hmem
    rcases this with ⟨h1, _⟩ | ⟨h1, h2, _⟩ <;> omega
  | exclusive =>
    have hp := total_pos hf hfm hmem
    rcases this with ⟨h1, _⟩ | ⟨h1, h2, _⟩ <;> omega

theorem Inv.overwrite {h : Heap F} {fr : Frame F D E K} {o : List (Frame F D E K)}
    (i : Inv h (fr :: o)) {self : Ref} (hm : fr.call.mode = .exclusive) (hr : fr.call.refs = [self])
    (img : Image F) {fr' : Frame F D E K} (hcall : fr'.call = fr.call)
    (ok : FrameOK (h.write self img) fr') : Inv (h.write self img) (fr' :: o) := by
  have hlt := (i.frames fr (by simp)).valid self (by rw [hr]; simp)
  have hc : h[self]? = some h[self] := List.getElem?_eq_getElem hlt
  have hother : ∀ q, q ≠ self → (h.write self img)[q]? = h[q]? := by
    intro q hq
    unfold Heap.write
    rw [hc]
    exact List.getElem?_set_ne (Ne.symm hq)
  refine ⟨fun r c hrc => ?_, fun f hf => ?_⟩
  · have hh : ∀ m, holds m r fr' = holds m r fr := fun m => by rw [holds, holds, hcall]
    rw [total_cons, total_cons, hh, hh, ← total_cons, ← total_cons]
    by_cases e : r = self
    · subst e
      have e2 : c.flag = h[r].flag := by
        unfold Heap.write at hrc
        rw [hc, List.getElem?_set_self hlt] at hrc
        cases hrc
        rfl
      rw [e2]
      exact i.flags _ _ hc
    · rw [hother r e] at hrc
      exact i.flags r c hrc
  · rcases List.mem_cons.1 hf with rfl | hf
    · exact ok
    · refine (i.frames f (by simp [hf])).congr ?_ fun r hrf => ?_
      · unfold Heap.write
        rw [hc]
        simp
      · rw [hother r fun e => i.alone hm hr f hf (e ▸ hrf)]

theorem set_partly (a d : List (Col F)) (c : Col F) (hl : a.length < d.length) :
    (a ++ d.drop a.length).set a.length c = (a ++ [c]) ++ d.drop (a ++ [c]).length := by
  rw [List.set_append_right _ _ (Nat.le_refl _), Nat.sub_self, List.length_append]
  have : d.drop a.length = d[a.length] :: d.drop (a.length + 1) := List.drop_eq_getElem_cons hl
  rw [this, List.set_cons_zero, List.append_assoc]
  rfl

/-- There is a question only for a pixel of the image. -/
theorem next_lt {call : Call F K} (hm : call.mode = .exclusive) {b : Image F} {n : Nat}
    {q : Question F × K} (e : call.next [b] n = .ok (some q)) : n < b.data.length := by
  by_contra hn
  have hd : b.data[n]? = none := List.getElem?_eq_none_iff.2 (Nat.le_of_not_lt hn)
  cases call with
  | mod_colors self func =>
    have : (do
        let img ← (Except.ok b : R (Image F))
        match img.data[n]? with
        | some c => return some (⟨n % img.width, n / img.width, [c]⟩, func c)
        | none => return none : R (Option (Question F × K))) = .ok (some q) := e
    simp only [bind, Except.bind, hd] at this
    cases this
  | mod_colors_enumerated self func =>
    have he : b.buffer.enumerate[n]? = none := by
      rw [getElem?_enumerate]
      have : b.buffer.data[n]? = none := hd
      rw [this]
      rfl
    have : (do
        let img ← (Except.ok b : R (Image F))
        match img.buffer.enumerate[n]? with
        | some (x, y, c) => return some (⟨x, y, [c]⟩, func (asI32 x) (asI32 y) c)
        | none => return none : R (Option (Question F × K))) = .ok (some q) := e
    simp only [bind, Except.bind, he] at this
    cases this
  | map_colors => cases hm
  | map_colors_enumerated => cases hm
  | compose => cases hm

end
end D10.Python
