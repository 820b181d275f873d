import Verif.Model.Objects

/-!
# Lemmas about Python objects and their counters
-/

namespace D10.Python

variable {F D G E K : Type}

/-! ## One object -/

theorem heap_acquire_some {h h1 : Heap F} {r : Ref} {m : Mode}
    (e : h.acquire (E := E) r m = .ok h1) :
    ∃ c f, h[r]? = some c ∧ c.flag.acquire (E := E) m = .ok f ∧ h1 = h.set r { c with flag := f } := by
  unfold Heap.acquire at e
  split at e
  · rename_i c hc
    split at e
    · rename_i f hf
      cases e
      exact ⟨c, f, hc, hf, rfl⟩
    · cases e
  · cases e

theorem flag_acquire_shared {f f' : Flag} (e : f.acquire (E := E) .shared = .ok f') :
    ∃ n, f = .shared n ∧ f' = .shared (n + 1) := by
  cases f with
  | shared n => cases n <;> (cases e; exact ⟨_, rfl, rfl⟩)
  | exclusive => cases e

theorem flag_acquire_exclusive {f f' : Flag} (e : f.acquire (E := E) .exclusive = .ok f') :
    f = .shared 0 ∧ f' = .exclusive := by
  cases f with
  | shared n => cases n <;> cases e; exact ⟨rfl, rfl⟩
  | exclusive => cases e

theorem flag_acquire_release {f f' : Flag} {m : Mode} (e : f.acquire (E := E) m = .ok f') :
    f'.release m = f := by
  cases m with
  | shared => obtain ⟨n, rfl, rfl⟩ := flag_acquire_shared e; rfl
  | exclusive => obtain ⟨rfl, rfl⟩ := flag_acquire_exclusive e; rfl

theorem lt_of_getElem? {α : Type} {l : List α} {i : Nat} {a : α} (h : l[i]? = some a) : i < l.length := by
  obtain ⟨hi, _⟩ := List.getElem?_eq_some_iff.1 h
  exact hi

theorem set_self {α : Type} {l : List α} {i : Nat} {a : α} (h : l[i]? = some a) : l.set i a = l := by
  obtain ⟨hi, rfl⟩ := List.getElem?_eq_some_iff.1 h
  exact List.set_getElem_self hi

theorem acquire_release {h h1 : Heap F} {r : Ref} {m : Mode} (e : h.acquire (E := E) r m = .ok h1) :
    h1.release r m = h := by
  obtain ⟨c, f, hc, hf, rfl⟩ := heap_acquire_some e
  have hr : r < h.length := lt_of_getElem? hc
  simp only [Heap.release, List.getElem?_set_self hr, List.set_set, flag_acquire_release hf]
  exact set_self hc

/-- Overwriting an object and then giving it back. -/
theorem acquire_write_release {h h1 : Heap F} {r : Ref} {m : Mode} (img : Image F)
    (e : h.acquire (E := E) r m = .ok h1) : (h1.write r img).release r m = h.write r img := by
  obtain ⟨c, f, hc, hf, rfl⟩ := heap_acquire_some e
  have hr : r < h.length := lt_of_getElem? hc
  have hr' : r < (h.set r { c with flag := f }).length := by simpa using hr
  simp only [Heap.write, Heap.release, List.getElem?_set_self hr, List.set_set, hc,
    flag_acquire_release hf]

theorem release_comm {h : Heap F} {r q : Ref} {m n : Mode} (hne : r ≠ q) :
    (h.release r m).release q n = (h.release q n).release r m := by
  unfold Heap.release
  cases hr : h[r]? with
  | none =>
    cases hq : h[q]? with
    | none => simp only [hr]
    | some d => simp only [List.getElem?_set_ne hne.symm, hr]
  | some c =>
    cases hq : h[q]? with
    | none => simp only [List.getElem?_set_ne hne, hq, hr]
    | some d =>
      simp only [List.getElem?_set_ne hne, List.getElem?_set_ne hne.symm, hq, hr]
      exact List.set_comm _ _ hne

theorem write_release_comm {h : Heap F} {r q : Ref} {m : Mode} (img : Image F) (hne : r ≠ q) :
    (h.write r img).release q m = (h.release q m).write r img := by
  unfold Heap.release Heap.write
  cases hr : h[r]? with
  | none =>
    cases hq : h[q]? with
    | none => simp only [hr]
    | some d => simp only [List.getElem?_set_ne hne.symm, hr]
  | some c =>
    cases hq : h[q]? with
    | none => simp only [List.getElem?_set_ne hne, hq, hr]
    | some d =>
      simp only [List.getElem?_set_ne hne, List.getElem?_set_ne hne.symm, hq, hr]
      exact List.set_comm _ _ hne

/-! ## Methods without callbacks -/

section
set_option linter.unusedSectionVars false
variable [Scalar F] [Scalar D] [Widen F D] [FloatBytes F]

/-- A method with `&self` raises exactly if the object is being changed, and leaves the objects alone
otherwise. -/
theorem doRead_eq (libs : Libs F) (g : Rng G F) (h : Heap F) (self : Ref) (m : Reader F G) :
    doRead (D := D) (E := E) libs g h self m =
      match h[self]? with
      | none => (h, .error .type)
      | some c =>
        match c.flag with
        | .exclusive => (h, .error .alreadyMutablyBorrowed)
        | .shared _ => deliver h (outcome (m.run libs g c.image)) := by
  unfold doRead
  cases e : h.acquire (E := E) self .shared with
  | error x =>
    cases hc : h[self]? with
    | none => simp only [Heap.acquire, hc] at e; cases e; rfl
    | some c =>
      simp only [Heap.acquire, hc] at e
      cases hf : c.flag with
      | shared n => rw [hf] at e; cases e
      | exclusive => rw [hf] at e; cases e; simp only [hf]
  | ok h1 =>
    have hrel := acquire_release e
    obtain ⟨c, f, hc, hf, rfl⟩ := heap_acquire_some e
    obtain ⟨n, hn, rfl⟩ := flag_acquire_shared hf
    simp only [hc, hn, List.getElem?_set_self (lt_of_getElem? hc), hrel]

/-- A method with `&mut self` raises exactly if the object is in use. -/
theorem doWrite_eq (libs : Libs F) (g : Rng G F) (h : Heap F) (self : Ref) (m : Writer F G) :
    doWrite (D := D) (E := E) libs g h self m =
      match h[self]? with
      | none => (h, .error .type)
      | some c =>
        match c.flag with
        | .shared 0 =>
          match outcome (m.run libs g c.image) with
          | .ok img => (h.write self img, .ok .none)
          | .error e => (h, .error e)
        | _ => (h, .error .alreadyBorrowed) := by
  unfold doWrite
  cases e : h.acquire (E := E) self .exclusive with
  | error x =>
    cases hc : h[self]? with
    | none => simp only [Heap.acquire, hc] at e; cases e; rfl
    | some c =>
      simp only [Heap.acquire, hc] at e
      cases hf : c.flag with
      | shared n =>
        rw [hf] at e
        cases n with
        | zero => cases e
        | succ n => cases e; simp only [hf]
      | exclusive => rw [hf] at e; cases e; simp only [hf]
  | ok h1 =>
    have hrel := acquire_release e
    have hw := fun img => acquire_write_release img e
    obtain ⟨c, f, hc, hf, rfl⟩ := heap_acquire_some e
    obtain ⟨hn, rfl⟩ := flag_acquire_exclusive hf
    simp only [hc, hn, List.getElem?_set_self (lt_of_getElem? hc), hrel, hw]
    cases outcome (E := E) (m.run libs g c.image) <;> rfl

/-- A method with `&self` and another image. -/
theorem doRead2_eq (h : Heap F) (self other : Ref) (m : Reader2 F) :
    doRead2 (D := D) (E := E) h self other m =
      match h[self]? with
      | none => (h, .error .type)
      | some c =>
        match c.flag with
        | .exclusive => (h, .error .alreadyMutablyBorrowed)
        | .shared _ =>
          match h[other]? with
          | none => (h, .error .type)
          | some o =>
            match o.flag with
            | .exclusive => (h, .error .alreadyMutablyBorrowed)
            | .shared _ => deliver h (outcome (m.run c.image o.image)) := by
  unfold doRead2
  cases e : h.acquire (E := E) self .shared with
  | error x =>
    cases hc : h[self]? with
    | none => simp only [Heap.acquire, hc] at e; cases e; rfl
    | some c =>
      simp only [Heap.acquire, hc] at e
      cases hf : c.flag with
      | shared n => rw [hf] at e; cases e
      | exclusive => rw [hf] at e; cases e; simp only [hf]
  | ok h1 =>
    have hrel := acquire_release e
    obtain ⟨c, f, hc, hf, rfl⟩ := heap_acquire_some e
    obtain ⟨n, hn, rfl⟩ := flag_acquire_shared hf
    have hself := List.getElem?_set_self (l := h) (a := ({ c with flag := .shared (n + 1) } : Cell F))
      (lt_of_getElem? hc)
    simp only [hc, hn]
    cases e2 : Heap.acquire (E := E) (h.set self { c with flag := .shared (n + 1) }) other .shared with
    | error x =>
      simp only [hrel]
      by_cases hso : other = self
      · subst hso
        simp only [Heap.acquire, hself] at e2
        cases e2
      · simp only [Heap.acquire, List.getElem?_set_ne (Ne.symm hso)] at e2
        cases ho : h[other]? with
        | none => rw [ho] at e2; cases e2; rfl
        | some o =>
          rw [ho] at e2
          simp only at e2
          cases hof : o.flag with
          | shared k => rw [hof] at e2; cases e2
          | exclusive => rw [hof] at e2; cases e2; simp only [hof]
    | ok h2 =>
      have hrel2 := acquire_release e2
      obtain ⟨o, fo, ho, hfo, rfl⟩ := heap_acquire_some e2
      obtain ⟨k, hk, rfl⟩ := flag_acquire_shared hfo
      by_cases hso : other = self
      · subst hso
        rw [hself] at ho
        cases ho
        simp only [hc, hn, List.getElem?_set_self (i := other) (l := h.set other _)
          (by simpa using lt_of_getElem? hc), hrel2, hrel]
      · have ho' := ho
        rw [List.getElem?_set_ne (Ne.symm hso)] at ho'
        have hlt : other < (h.set self { c with flag := Flag.shared (n + 1) }).length :=
          lt_of_getElem? ho
        simp only [ho', hk, List.getElem?_set_ne hso, List.getElem?_set_self hlt, hself, hrel2, hrel]

/-- `apply_palette_in_place`. -/
theorem doApplyPaletteInPlace_eq (h : Heap F) (self palette : Ref) :
    doApplyPaletteInPlace (D := D) (E := E) h self palette =
      match h[self]? with
      | none => (h, .error .type)
      | some c =>
        match c.flag with
        | .shared 0 =>
          if palette = self then (h, .error .alreadyMutablyBorrowed)
          else
            match h[palette]? with
            | none => (h, .error .type)
            | some p =>
              match p.flag with
              | .exclusive => (h, .error .alreadyMutablyBorrowed)
              | .shared _ => (h.write self (c.image.apply_palette_in_place p.image), .ok .none)
        | _ => (h, .error .alreadyBorrowed) := by
  unfold doApplyPaletteInPlace
  cases e : h.acquire (E := E) self .exclusive with
  | error x =>
    cases hc : h[self]? with
    | none => simp only [Heap.acquire, hc] at e; cases e; rfl
    | some c =>
      simp only [Heap.acquire, hc] at e
      cases hf : c.flag with
      | shared n =>
        rw [hf] at e
        cases n with
        | zero => cases e
        | succ n => cases e; simp only [hf]
      | exclusive => rw [hf] at e; cases e; simp only [hf]
  | ok h1 =>
    have hrel := acquire_release e
    have hw := fun img => acquire_write_release img e
    obtain ⟨c, f, hc, hf, rfl⟩ := heap_acquire_some e
    obtain ⟨hn, rfl⟩ := flag_acquire_exclusive hf
    have hself := List.getElem?_set_self (l := h) (a := ({ c with flag := .exclusive } : Cell F))
      (lt_of_getElem? hc)
    simp only [hc, hn]
    cases e2 : Heap.acquire (E := E) (h.set self { c with flag := .exclusive }) palette .shared with
    | error x =>
      simp only [hrel]
      by_cases hso : palette = self
      · subst hso
        simp only [Heap.acquire, hself] at e2
        cases e2
        simp only [if_pos]
      · simp only [Heap.acquire, List.getElem?_set_ne (Ne.symm hso)] at e2
        rw [if_neg hso]
        cases ho : h[palette]? with
        | none => rw [ho] at e2; cases e2; rfl
        | some o =>
          rw [ho] at e2
          simp only at e2
          cases hof : o.flag with
          | shared k => rw [hof] at e2; cases e2
          | exclusive => rw [hof] at e2; cases e2; simp only [hof]
    | ok h2 =>
      have hrel2 := acquire_release e2
      obtain ⟨o, fo, ho, hfo, rfl⟩ := heap_acquire_some e2
      obtain ⟨k, hk, rfl⟩ := flag_acquire_shared hfo
      by_cases hso : palette = self
      · subst hso
        rw [hself] at ho
        cases ho
        cases hk
      · have ho' := ho
        rw [List.getElem?_set_ne (Ne.symm hso)] at ho'
        have hlt : palette < (h.set self { c with flag := Flag.exclusive }).length :=
          lt_of_getElem? ho
        rw [if_neg hso]
        simp only [ho', hk, List.getElem?_set_ne hso, List.getElem?_set_self hlt, hself]
        rw [write_release_comm _ (Ne.symm hso), hrel2, hw]

end
end D10.Python
