import Verif.Lemmas.ObjectsInv

/-!
# Objects, callbacks and threads: every step keeps the invariant

Lemmas for property C119.
-/

namespace D10.Python

section
set_option linter.unusedSectionVars false
variable {F D G E K : Type} [Scalar F] [Scalar D] [Widen F D] [FloatBytes F]

/-- Borrowing the objects of a call. -/
def borrow (h : Heap F) (call : Call F K) : Except (Exc E) (Heap F) :=
  match call with
  | .compose images _ _ => acquireAll h images
  | .mod_colors self _ | .mod_colors_enumerated self _ => h.acquire self .exclusive
  | .map_colors self _ | .map_colors_enumerated self _ => h.acquire self .shared

theorem start_eq (h : Heap F) (call : Call F K) (rest : List (Frame F D E K))
    (k : Except (Exc E) (Value F D) → K) : start h call rest k =
      match borrow (E := E) h call with
      | .error e => (h, ⟨k (.error e), rest⟩)
      | .ok h =>
        match call.check (h.images call.refs) with
        | .error p => finish h ⟨call, [], [], h.images call.refs, k⟩ rest (.error (.panic p))
        | .ok () => proceed h ⟨call, [], [], h.images call.refs, k⟩ rest := rfl

theorem borrow_flags {h h1 : Heap F} {call : Call F K} {S X : Ref → Nat}
    (e : borrow (E := E) h call = .ok h1) (hf : Flags h S X) :
    Same h h1 ∧ (∀ r ∈ call.refs, r < h.length) ∧
      Flags h1 (fun q => S q + if call.mode = .shared then call.refs.count q else 0)
        (fun q => X q + if call.mode = .exclusive then call.refs.count q else 0) := by
  have excl : ∀ {r : Ref}, h.acquire (E := E) r .exclusive = .ok h1 →
      Same h h1 ∧ (∀ q ∈ [r], q < h.length) ∧
        Flags h1 (fun q => S q + 0) (fun q => X q + [r].count q) := by
    intro r e
    obtain ⟨h1, h2, h3⟩ := acquire_exclusive_flags e hf
    exact ⟨h1, fun q hq => by rw [List.mem_singleton.1 hq]; exact h2, h3⟩
  have shar : ∀ {r : Ref}, h.acquire (E := E) r .shared = .ok h1 →
      Same h h1 ∧ (∀ q ∈ [r], q < h.length) ∧
        Flags h1 (fun q => S q + [r].count q) (fun q => X q + 0) := by
    intro r e
    obtain ⟨h1, h2, h3⟩ := acquire_shared_flags e hf
    exact ⟨h1, fun q hq => by rw [List.mem_singleton.1 hq]; exact h2, h3⟩
  cases call with
  | mod_colors self func => exact excl e
  | mod_colors_enumerated self func => exact excl e
  | map_colors self func => exact shar e
  | map_colors_enumerated self func => exact shar e
  | compose images default func =>
    have e' : acquireAll (E := E) h images = .ok h1 := e
    unfold acquireAll at e'
    split at e'
    · obtain ⟨h1, h2, h3⟩ := borrowAll_flags e' hf
      exact ⟨h1, h2, h3⟩
    · cases e'

theorem images_singleton {h : Heap F} {r : Ref} {c : Cell F} (hc : h[r]? = some c) :
    h.images [r] = [c.image] := by simp [Heap.images, hc]

theorem partly_nil (b : Image F) : partly b [] = b := rfl

theorem borrow_inv {h h1 : Heap F} {call : Call F K} {frs : List (Frame F D E K)}
    (e : borrow (E := E) h call = .ok h1) (i : Inv h frs) (k : Except (Exc E) (Value F D) → K) :
    Same h h1 ∧ Inv h1 (⟨call, [], [], h1.images call.refs, k⟩ :: frs) := by
  obtain ⟨hs, hv, hf⟩ := borrow_flags e i.flags
  refine ⟨hs, fun r c hc => ?_, fun f hf => ?_⟩
  · have := hf r c hc
    rw [total_cons, total_cons, Nat.add_comm (holds _ _ _), Nat.add_comm (holds _ _ _)]
    exact this
  · rcases List.mem_cons.1 hf with rfl | hf
    · refine ⟨fun r hr => ?_, fun _ => rfl, fun hm => ?_, fun j q hq => ?_⟩
      · rw [hs.length]
        exact hv r hr
      · obtain ⟨r, hr⟩ := refs_of_exclusive (call := call) hm
        have hlt : r < h1.length := by
          rw [hs.length]
          exact hv r (by rw [hr]; simp)
        refine ⟨h1[r].image, ?_, ?_⟩
        · show h1.images call.refs = _
          rw [hr, images_singleton (List.getElem?_eq_getElem hlt)]
        · show h1.images call.refs = _
          rw [hr, images_singleton (List.getElem?_eq_getElem hlt)]
          rfl
      · cases hq
    · exact (i.frames f hf).congr (Nat.le_of_eq hs.length.symm) fun r _ => hs r

theorem start_winv {h : Heap F} {call : Call F K} {rest o : List (Frame F D E K)}
    (i : WInv h (rest ++ o)) (k : Except (Exc E) (Value F D) → K) :
    WInv (start h call rest k).1 ((start h call rest k).2.stack ++ o) := by
  rw [start_eq]
  split
  · exact i
  · rename_i h1 e
    have i1 := (borrow_inv e i.toInv k).2
    split
    · exact finish_winv i1 i.waiting _
    · exact proceed_winv i1 i.waiting rfl

/-- A colour is answered: what is written, and how the call goes on. -/
theorem answer_colour {h : Heap F} {fr : Frame F D E K} {rest o : List (Frame F D E K)}
    (i : WInv h (fr :: (rest ++ o))) (c : Col F) :
    ∃ h1, answer h fr rest (.ok (.colour c)) =
        proceed h1 { fr with answers := fr.answers ++ [c] } rest ∧
      Inv h1 ({ fr with answers := fr.answers ++ [c] } :: (rest ++ o)) ∧ h1.length = h.length ∧
      (∀ q, (fr.call.mode = .exclusive → q ∉ fr.call.refs) → h1[q]? = h[q]?) ∧
      (h1 = h ∨ ∃ (self : Ref) (cell : Cell F), h[self]? = some cell ∧
        h1 = h.write self { cell.image with buffer := { cell.image.buffer with
          data := cell.image.data.set fr.answers.length c } }) := by
  have hfr : Waiting fr := i.waiting fr (by simp)
  have ok := i.frames fr (by simp)
  have hread : fr.call.mode = .shared →
      Inv h ({ fr with answers := fr.answers ++ [c] } :: (rest ++ o)) := by
    intro hm
    refine ⟨i.flags, fun f hf => ?_⟩
    rcases List.mem_cons.1 hf with rfl | hf
    · refine ⟨ok.valid, ok.reading, fun hx => ?_, ok.asked⟩
      have : fr.call.mode = .exclusive := hx
      rw [hm] at this
      cases this
    · exact i.frames f (List.mem_cons_of_mem _ hf)
  have hwrite : ∀ self cell, fr.call.mode = .exclusive → fr.call.refs = [self] →
      h[self]? = some cell →
      Inv (h.write self { cell.image with buffer := { cell.image.buffer with
          data := cell.image.data.set fr.answers.length c } })
        ({ fr with answers := fr.answers ++ [c] } :: (rest ++ o)) ∧
      (h.write self { cell.image with buffer := { cell.image.buffer with
          data := cell.image.data.set fr.answers.length c } }).length = h.length ∧
      ∀ q, (fr.call.mode = .exclusive → q ∉ fr.call.refs) → (h.write self { cell.image with
        buffer := { cell.image.buffer with
          data := cell.image.data.set fr.answers.length c } })[q]? = h[q]? := by
    intro self cell hm hr hc
    obtain ⟨b, hb, hi⟩ := ok.changing hm
    rw [hr, images_singleton hc] at hi
    have hcell : cell.image = partly b fr.answers := List.singleton_inj.1 hi
    obtain ⟨q, hq⟩ : ∃ q, fr.asked[fr.answers.length]? = some q :=
      ⟨_, List.getElem?_eq_getElem (by rw [show _ = _ from hfr]; omega)⟩
    have hlt : fr.answers.length < b.data.length := by
      have := ok.asked _ q hq
      rw [hb] at this
      exact next_lt hm this
    have hnew : ({ cell.image with buffer := { cell.image.buffer with
        data := cell.image.data.set fr.answers.length c } } : Image F) =
        partly b (fr.answers ++ [c]) := by
      rw [hcell]
      have := set_partly fr.answers b.data c hlt
      exact congrArg (fun d => ({ b with buffer := { b.buffer with data := d } } : Image F)) this
    rw [hnew]
    have hlen : (h.write self (partly b (fr.answers ++ [c]))).length = h.length := by
      unfold Heap.write
      rw [hc, List.length_set]
    refine ⟨i.toInv.overwrite hm hr _ rfl ⟨fun r hr' => ?_, fun hx => ?_, fun _ => ?_, ok.asked⟩,
      hlen, fun q hq => ?_⟩
    · rw [hlen]
      exact ok.valid r hr'
    · have : fr.call.mode = .shared := hx
      rw [hm] at this
      cases this
    · refine ⟨b, hb, ?_⟩
      show Heap.images _ fr.call.refs = _
      rw [hr]
      refine images_singleton (c := ⟨partly b (fr.answers ++ [c]), cell.flag⟩) ?_
      unfold Heap.write
      rw [hc]
      exact List.getElem?_set_self (lt_of_getElem? hc)
    · have hne := hq hm
      rw [hr] at hne
      unfold Heap.write
      rw [hc]
      exact List.getElem?_set_ne fun e => hne (by rw [e]; simp)
  cases hcall : fr.call with
  | mod_colors self func =>
    have hm : fr.call.mode = .exclusive := by rw [hcall]; rfl
    have hr : fr.call.refs = [self] := by rw [hcall]; rfl
    have hlt := ok.valid self (by rw [hr]; simp)
    have hc : h[self]? = some h[self] := List.getElem?_eq_getElem hlt
    obtain ⟨h1, h2, h3⟩ := hwrite self _ hm hr hc
    refine ⟨_, ?_, by rw [hcall] at h1; exact h1, h2, by rw [hcall] at h3; exact h3,
      .inr ⟨_, _, hc, rfl⟩⟩
    unfold answer
    simp only [hcall, hc]
  | mod_colors_enumerated self func =>
    have hm : fr.call.mode = .exclusive := by rw [hcall]; rfl
    have hr : fr.call.refs = [self] := by rw [hcall]; rfl
    have hlt := ok.valid self (by rw [hr]; simp)
    have hc : h[self]? = some h[self] := List.getElem?_eq_getElem hlt
    obtain ⟨h1, h2, h3⟩ := hwrite self _ hm hr hc
    refine ⟨_, ?_, by rw [hcall] at h1; exact h1, h2, by rw [hcall] at h3; exact h3,
      .inr ⟨_, _, hc, rfl⟩⟩
    unfold answer
    simp only [hcall, hc]
  | map_colors self func =>
    have h1 := hread (by rw [hcall]; rfl)
    refine ⟨h, ?_, by rw [hcall] at h1; exact h1, rfl, fun _ _ => rfl, .inl rfl⟩
    unfold answer
    simp only [hcall]
  | map_colors_enumerated self func =>
    have h1 := hread (by rw [hcall]; rfl)
    refine ⟨h, ?_, by rw [hcall] at h1; exact h1, rfl, fun _ _ => rfl, .inl rfl⟩
    unfold answer
    simp only [hcall]
  | compose images default func =>
    have h1 := hread (by rw [hcall]; rfl)
    refine ⟨h, ?_, by rw [hcall] at h1; exact h1, rfl, fun _ _ => rfl, .inl rfl⟩
    unfold answer
    simp only [hcall]

theorem answer_winv {h : Heap F} {fr : Frame F D E K} {rest o : List (Frame F D E K)}
    (i : WInv h (fr :: (rest ++ o))) (r : Except (Exc E) (Value F D)) :
    WInv (answer h fr rest r).1 ((answer h fr rest r).2.stack ++ o) := by
  have hw : ∀ f ∈ rest ++ o, Waiting f := fun f hf => i.waiting f (List.mem_cons_of_mem _ hf)
  have hfr : Waiting fr := i.waiting fr (by simp)
  have fin : ∀ e, WInv (finish h fr rest e).1 ((finish h fr rest e).2.stack ++ o) := fun e =>
    finish_winv i.toInv hw e
  cases r with
  | error e => exact fin _
  | ok v =>
    cases v with
    | colour c =>
      obtain ⟨h1, e, i1, _⟩ := answer_colour i c
      rw [e]
      refine proceed_winv i1 hw ?_
      simp only [List.length_append, List.length_singleton]
      exact hfr
    | none => exact fin _
    | bool => exact fin _
    | number => exact fin _
    | colours => exact fin _
    | array => exact fin _
    | image => exact fin _

theorem doRead_inv {libs : Libs F} {g : Rng G F} {h : Heap F} {frs : List (Frame F D E K)}
    (i : Inv h frs) (self : Ref) (m : Reader F G) :
    Inv (doRead (D := D) (E := E) libs g h self m).1 frs := by
  rw [doRead_eq]
  split
  · exact i
  · split
    · exact i
    · exact i.deliver _

theorem doRead2_inv {h : Heap F} {frs : List (Frame F D E K)} (i : Inv h frs) (self other : Ref)
    (m : Reader2 F) : Inv (doRead2 (D := D) (E := E) h self other m).1 frs := by
  rw [doRead2_eq]
  split
  · exact i
  · split
    · exact i
    · split
      · exact i
      · split
        · exact i
        · exact i.deliver _

theorem doWrite_inv {libs : Libs F} {g : Rng G F} {h : Heap F} {frs : List (Frame F D E K)}
    (i : Inv h frs) (self : Ref) (m : Writer F G) :
    Inv (doWrite (D := D) (E := E) libs g h self m).1 frs := by
  rw [doWrite_eq]
  split
  · exact i
  · rename_i c hc
    split
    · rename_i hfree
      split
      · exact i.write hc hfree _
      · exact i
    · exact i

theorem doApplyPaletteInPlace_inv {h : Heap F} {frs : List (Frame F D E K)} (i : Inv h frs)
    (self palette : Ref) : Inv (doApplyPaletteInPlace (D := D) (E := E) h self palette).1 frs := by
  rw [doApplyPaletteInPlace_eq]
  split
  · exact i
  · rename_i c hc
    split
    · rename_i hfree
      split
      · exact i
      · split
        · exact i
        · split
          · exact i
          · exact i.write hc hfree _
    · exact i

theorem Thread.step_winv {libs : Libs F} {g : Rng G F} {act : K → Act F D G E K} {h : Heap F}
    {t : Thread F D E K} {o : List (Frame F D E K)} (i : WInv h (t.stack ++ o)) :
    WInv (t.step libs g act h).1 ((t.step libs g act h).2.1.stack ++ o) ∧
      ∀ n ∈ (t.step libs g act h).2.2, n.stack = [] := by
  have no : ∀ n ∈ ([] : List (Thread F D E K)), n.stack = [] := fun n hn => by cases hn
  unfold Thread.step
  split
  · split
    · exact ⟨i, no⟩
    · rename_i fr rest hst
      rw [hst] at i
      exact ⟨answer_winv i _, no⟩
  · exact ⟨⟨i.toInv.deliver _, i.waiting⟩, no⟩
  · exact ⟨⟨doRead_inv i.toInv _ _, i.waiting⟩, no⟩
  · exact ⟨⟨doRead2_inv i.toInv _ _ _, i.waiting⟩, no⟩
  · exact ⟨⟨doWrite_inv i.toInv _ _, i.waiting⟩, no⟩
  · exact ⟨⟨doApplyPaletteInPlace_inv i.toInv _ _, i.waiting⟩, no⟩
  · exact ⟨start_winv i _, no⟩
  · exact ⟨start_winv i _, no⟩
  · exact ⟨start_winv i _, no⟩
  · exact ⟨start_winv i _, no⟩
  · exact ⟨start_winv i _, no⟩
  · refine ⟨i, fun n hn => ?_⟩
    rw [List.mem_singleton.1 hn]

/-- The calls in progress in all threads. -/
def State.frames (s : State F D E K) : List (Frame F D E K) := s.threads.flatMap (·.stack)

/-- The calls of one thread, and those of the others. -/
theorem State.frames_perm {s : State F D E K} {t : Nat} {th : Thread F D E K}
    (ht : s.threads[t]? = some th) :
    s.frames.Perm (th.stack ++ ((s.threads.take t).flatMap (·.stack) ++
      (s.threads.drop (t + 1)).flatMap (·.stack))) := by
  have hlt := lt_of_getElem? ht
  have hth : s.threads[t] = th := by
    rw [List.getElem?_eq_getElem hlt] at ht
    exact Option.some.inj ht
  have hsplit : s.threads = s.threads.take t ++ th :: s.threads.drop (t + 1) := by
    rw [← hth, ← List.drop_eq_getElem_cons hlt, List.take_append_drop]
  unfold State.frames
  rw [hsplit, List.flatMap_append, List.flatMap_cons, ← hsplit]
  exact List.perm_append_comm_assoc _ _ _

theorem State.step_winv {libs : Libs F} {g : Rng G F} {act : K → Act F D G E K} {s : State F D E K}
    (i : WInv s.heap s.frames) (t : Nat) :
    WInv (s.step libs g act t).heap (s.step libs g act t).frames := by
  unfold State.step
  cases ht : s.threads[t]? with
  | none => exact i
  | some th =>
    have hlt := lt_of_getElem? ht
    have hset : ∀ x, s.threads.set t x = s.threads.take t ++ x :: s.threads.drop (t + 1) := by
      intro x
      exact List.set_eq_take_append_cons_drop.trans (if_pos hlt)
    obtain ⟨i1, hnew⟩ := Thread.step_winv (libs := libs) (g := g) (act := act)
      (i.perm (State.frames_perm ht))
    refine i1.perm ?_
    show List.Perm _ (List.flatMap (·.stack) (s.threads.set t (th.step libs g act s.heap).2.1 ++
      (th.step libs g act s.heap).2.2))
    have hz : (th.step libs g act s.heap).2.2.flatMap (·.stack) = [] :=
      List.flatMap_eq_nil_iff.2 hnew
    rw [List.flatMap_append, hz, List.append_nil, hset, List.flatMap_append, List.flatMap_cons]
    exact List.perm_append_comm_assoc _ _ _

theorem State.run_winv {libs : Libs F} {g : Rng G F} {act : K → Act F D G E K} :
    ∀ (schedule : List Nat) {s : State F D E K}, WInv s.heap s.frames →
      WInv (s.run libs g act schedule).heap (s.run libs g act schedule).frames
  | [], _, i => i
  | t :: ts, s, i => State.run_winv ts (s := s.step libs g act t) (State.step_winv i t)

theorem State.initial_winv (main : K) :
    WInv (State.initial (F := F) (D := D) (E := E) main).heap
      (State.initial (F := F) (D := D) (E := E) main).frames :=
  ⟨⟨fun _ _ hc => (by cases hc), fun _ hfr => (by cases hfr)⟩, fun _ hfr => (by cases hfr)⟩

end
end D10.Python
