import Verif.Lemmas.ObjectsStep
import Verif.SpecObjects

/-!
# Objects, callbacks and threads: a call from its beginning to its end

Lemmas for property C119.
-/

namespace D10.Python
open D10.Spec

section
set_option linter.unusedSectionVars false
variable {F D G E K : Type} [Scalar F] [Scalar D] [Widen F D] [FloatBytes F]
variable {libs : Libs F} {g : Rng G F} {act : K → Act F D G E K}

/-- The same call, further on. -/
def Later (fr fr' : Frame F D E K) : Prop :=
  fr'.call = fr.call ∧ fr'.began = fr.began ∧ fr'.kont = fr.kont

theorem reaches_winv {s s' : Python.State F D E K} (i : WInv s.heap s.frames) (r : Reaches libs g act s s') :
    WInv s'.heap s'.frames := by
  induction r with
  | here => exact i
  | step _ t ih => exact State.step_winv ih t

theorem reachable_winv {main : K} {s : Python.State F D E K} (r : Arises libs g act main s) :
    WInv s.heap s.frames := reaches_winv (State.initial_winv main) r

theorem Reaches.trans {s s' s'' : Python.State F D E K} (a : Reaches libs g act s s')
    (b : Reaches libs g act s' s'') : Reaches libs g act s s'' := by
  induction b with
  | here => exact a
  | step _ t ih => exact .step ih t

theorem During.reaches {t d : Nat} {s s' : Python.State F D E K} (a : During libs g act t d s s') :
    Reaches libs g act s s' := by
  induction a with
  | here => exact .here
  | step _ t _ ih => exact .step ih t

theorem during_winv {main : K} {s s' : Python.State F D E K} (r : Arises libs g act main s) {t u d : Nat}
    (a : During libs g act t d (s.step libs g act u) s') : WInv s'.heap s'.frames :=
  reaches_winv (State.step_winv (reachable_winv r) u) (During.reaches a)

theorem proceed_stack (h : Heap F) (fr : Frame F D E K) (rest : List (Frame F D E K)) :
    (proceed h fr rest).2.stack = rest ∨
      ∃ fr', (proceed h fr rest).2.stack = fr' :: rest ∧ Later fr fr' := by
  unfold proceed
  split
  · exact .inl rfl
  · exact .inr ⟨_, rfl, rfl, rfl, rfl⟩
  · split
    · exact .inl rfl
    · exact .inl rfl

theorem answer_stack (h : Heap F) (fr : Frame F D E K) (rest : List (Frame F D E K))
    (r : Except (Exc E) (Value F D)) : (answer h fr rest r).2.stack = rest ∨
      ∃ fr', (answer h fr rest r).2.stack = fr' :: rest ∧ Later fr fr' := by
  unfold answer
  split
  · exact .inl rfl
  · exact proceed_stack _ _ _
  · exact .inl rfl

/-- The call an action begins. -/
def begins : Act F D G E K → Option (Call F K × (Except (Exc E) (Value F D) → K))
  | .mod_colors self f k => some (.mod_colors self f, k)
  | .mod_colors_enumerated self f k => some (.mod_colors_enumerated self f, k)
  | .map_colors self f k => some (.map_colors self f, k)
  | .map_colors_enumerated self f k => some (.map_colors_enumerated self f, k)
  | .compose rs f d k => some (.compose rs (d.getD Rgb.NONE) f, k)
  | _ => none

theorem start_stack (h : Heap F) (call : Call F K) (rest : List (Frame F D E K))
    (k : Except (Exc E) (Value F D) → K) : (start h call rest k).2.stack = rest ∨
      ∃ fr', (start h call rest k).2.stack = fr' :: rest ∧ fr'.call = call ∧
        fr'.began = h.images call.refs ∧ fr'.kont = k ∧ ∀ r ∈ call.refs, r < h.length := by
  rw [start_eq]
  split
  · exact .inl rfl
  · rename_i h1 e
    have hval : Same h h1 ∧ ∀ r ∈ call.refs, r < h.length := by
      clear * - e
      have excl : ∀ {r : Ref} {m : Mode}, h.acquire (E := E) r m = .ok h1 →
          Same h h1 ∧ (∀ q ∈ [r], q < h.length) := by
        intro r m e
        obtain ⟨c, f, hc, _, rfl⟩ := heap_acquire_some e
        exact ⟨same_set_flag hc _, fun q hq => by rw [List.mem_singleton.1 hq]; exact lt_of_getElem? hc⟩
      cases call with
      | mod_colors self func => exact excl e
      | mod_colors_enumerated self func => exact excl e
      | map_colors self func => exact excl e
      | map_colors_enumerated self func => exact excl e
      | compose images default func =>
        have e' : acquireAll (E := E) h images = .ok h1 := e
        unfold acquireAll at e'
        split at e'
        · rename_i hall
          refine ⟨?_, fun r hr => by simpa using List.all_eq_true.1 hall r hr⟩
          clear * - e'
          induction images generalizing h with
          | nil => cases e'; exact .refl _
          | cons a l ih =>
            unfold borrowAll at e'
            split at e'
            · cases e'
            · rename_i h2 e2
              obtain ⟨c, f, hc, _, rfl⟩ := heap_acquire_some e2
              exact (same_set_flag hc _).trans (ih _ e')
        · cases e'
    split
    · exact .inl rfl
    · rcases proceed_stack h1 (⟨call, [], [], h1.images call.refs, k⟩ : Frame F D E K) rest with
        h2 | ⟨fr', h2, h3, h4, h5⟩
      · exact .inl h2
      · exact .inr ⟨fr', h2, h3, h4.trans (hval.1.images _), h5, hval.2⟩

theorem Thread.step_begins {h : Heap F} {t : Thread F D E K} {call : Call F K}
    {k : Except (Exc E) (Value F D) → K} (e : begins (act t.code) = some (call, k)) :
    t.step libs g act h = ((start h call t.stack k).1, (start h call t.stack k).2, []) := by
  unfold Thread.step
  split <;> rename_i ha <;> rw [ha] at e <;> simp only [begins] at e
  all_goals first
    | (cases e; done)
    | (injection e with e; injection e with e1 e2; subst e1 e2; rfl)

/-- What a step does to the calls of its thread. -/
theorem Thread.step_stack (h : Heap F) (t : Thread F D E K) :
    (t.step libs g act h).2.1.stack = t.stack ∨
      (∃ fr, (t.step libs g act h).2.1.stack = fr :: t.stack) ∨
      ∃ fr rest, t.stack = fr :: rest ∧ ((t.step libs g act h).2.1.stack = rest ∨
        ∃ fr', (t.step libs g act h).2.1.stack = fr' :: rest ∧ Later fr fr') := by
  cases hb : begins (act t.code) with
  | some ck =>
    obtain ⟨call, k⟩ := ck
    rw [Thread.step_begins hb]
    rcases start_stack h call t.stack k with h1 | ⟨fr', h1, _⟩
    · exact .inl h1
    · exact .inr (.inl ⟨fr', h1⟩)
  | none =>
    unfold Thread.step
    split
    · split
      · exact .inl rfl
      · rename_i fr rest hst
        rw [hst]
        exact .inr (.inr ⟨fr, rest, rfl, answer_stack _ _ _ _⟩)
    all_goals first
      | exact .inl rfl
      | (rename_i ha; rw [ha] at hb; cases hb)

theorem State.step_other {s : Python.State F D E K} {t u : Nat} (hne : u ≠ t) {th : Thread F D E K}
    (ht : s.threads[t]? = some th) : (s.step libs g act u).threads[t]? = some th := by
  unfold State.step
  split
  · exact ht
  · show (s.threads.set u _ ++ _)[t]? = _
    rw [List.getElem?_append_left (by rw [List.length_set]; exact lt_of_getElem? ht),
      List.getElem?_set_ne hne]
    exact ht

theorem State.step_self {s : Python.State F D E K} {t : Nat} {th : Thread F D E K}
    (ht : s.threads[t]? = some th) :
    (s.step libs g act t).threads[t]? = some (th.step libs g act s.heap).2.1 := by
  unfold State.step
  simp only [ht]
  rw [List.getElem?_append_left (by rw [List.length_set]; exact lt_of_getElem? ht),
    List.getElem?_set_self (lt_of_getElem? ht)]

theorem State.step_heap {s : Python.State F D E K} {t : Nat} {th : Thread F D E K}
    (ht : s.threads[t]? = some th) : (s.step libs g act t).heap = (th.step libs g act s.heap).1 := by
  unfold State.step
  simp only [ht]

/-- While a call is in progress, it is in the stack of its thread above the calls that were there. -/
theorem during_frame {s s' : Python.State F D E K} {t : Nat} {th : Thread F D E K} {call : Call F K}
    {k : Except (Exc E) (Value F D) → K} (ht : s.threads[t]? = some th)
    (hb : begins (act th.code) = some (call, k))
    (hd : During libs g act t th.stack.length (s.step libs g act t) s') :
    ∃ th' top fr, s'.threads[t]? = some th' ∧ th'.stack = top ++ fr :: th.stack ∧ fr.call = call ∧
      fr.began = s.heap.images call.refs ∧ fr.kont = k ∧ ∀ r ∈ call.refs, r < s.heap.length := by
  induction hd with
  | here hdeep =>
    obtain ⟨th', ht', hlt⟩ := hdeep
    have e := State.step_self (libs := libs) (g := g) (act := act) ht
    rw [ht'] at e
    injection e with e
    rw [Thread.step_begins hb] at e
    dsimp only at e
    rcases start_stack s.heap call th.stack k with h1 | ⟨fr, h1, h2⟩
    · rw [e, h1] at hlt
      exact absurd hlt (Nat.lt_irrefl _)
    · exact ⟨th', [], fr, ht', by rw [e, h1]; rfl, h2⟩
  | step hdur u hdeep ih =>
    rename_i s1
    obtain ⟨th1, top, fr, ht1, hst, h2⟩ := ih
    by_cases hut : u = t
    · subst hut
      have e := State.step_self (libs := libs) (g := g) (act := act) ht1
      obtain ⟨th', ht', hlt⟩ := hdeep
      rw [ht'] at e
      injection e with e
      rcases Thread.step_stack (libs := libs) (g := g) (act := act) s1.heap th1 with
        h | ⟨fr0, h⟩ | ⟨fr0, rest, h0, h⟩
      · exact ⟨th', top, fr, ht', by rw [e, h, hst], h2⟩
      · exact ⟨th', fr0 :: top, fr, ht', by rw [e, h, hst]; rfl, h2⟩
      · rw [hst] at h0
        cases top with
        | nil =>
          injection h0 with ha hb'
          subst ha
          rcases h with h | ⟨fr', h, hl⟩
          · rw [e, h, ← hb'] at hlt
            exact absurd hlt (Nat.lt_irrefl _)
          · exact ⟨th', [], fr', ht', by rw [e, h, ← hb']; rfl, hl.1.trans h2.1, hl.2.1.trans h2.2.1,
              hl.2.2.trans h2.2.2.1, h2.2.2.2⟩
        | cons a top =>
          injection h0 with ha hb'
          rcases h with h | ⟨fr', h, hl⟩
          · exact ⟨th', top, fr, ht', by rw [e, h, ← hb']; rfl, h2⟩
          · exact ⟨th', fr' :: top, fr, ht', by rw [e, h, ← hb']; rfl, h2⟩
    · exact ⟨th1, top, fr, State.step_other hut ht1, hst, h2⟩

theorem mem_frames {s : Python.State F D E K} {t : Nat} {th : Thread F D E K} {fr : Frame F D E K}
    (ht : s.threads[t]? = some th) (h : fr ∈ th.stack) : fr ∈ s.frames :=
  List.mem_flatMap.2 ⟨th, List.mem_of_getElem? ht, h⟩

theorem images_inj {h h1 : Heap F} : ∀ {rs : List Ref}, (∀ r ∈ rs, r < h.length) →
    (∀ r ∈ rs, r < h1.length) → h1.images rs = h.images rs →
    ∀ r ∈ rs, h1[r]?.map Cell.image = h[r]?.map Cell.image
  | [], _, _, _, _, hr => by cases hr
  | a :: l, hv, hv1, e, r, hr => by
    have ha := List.getElem?_eq_getElem (hv a (by simp))
    have ha1 := List.getElem?_eq_getElem (hv1 a (by simp))
    unfold Heap.images at e
    rw [List.filterMap_cons_some (by rw [ha1]; rfl), List.filterMap_cons_some (by rw [ha]; rfl)] at e
    injection e with e1 e2
    rcases List.mem_cons.1 hr with rfl | hr
    · rw [ha, ha1]
      exact congrArg some e1
    · exact images_inj (fun r hr => hv r (by simp [hr])) (fun r hr => hv1 r (by simp [hr])) e2 r hr

/-- The flag of an object that is being changed. -/
theorem WInv.exclusive {h : Heap F} {frs : List (Frame F D E K)} (i : WInv h frs)
    {fr : Frame F D E K} (hf : fr ∈ frs) (hm : fr.call.mode = .exclusive) {r : Ref}
    (hr : r ∈ fr.call.refs) {c : Cell F} (hc : h[r]? = some c) : c.flag = .exclusive := by
  have hp := total_pos hf hm hr
  rcases i.flags r c hc with ⟨h1, _⟩ | ⟨_, _, h1⟩
  · omega
  · exact h1

/-- The flag of an object that is being read. -/
theorem WInv.shared {h : Heap F} {frs : List (Frame F D E K)} (i : WInv h frs)
    {fr : Frame F D E K} (hf : fr ∈ frs) (hm : fr.call.mode = .shared) {r : Ref}
    (hr : r ∈ fr.call.refs) {c : Cell F} (hc : h[r]? = some c) : ∃ n, c.flag = .shared (n + 1) := by
  have hp := total_pos hf hm hr
  rcases i.flags r c hc with ⟨_, h1⟩ | ⟨_, h0, _⟩
  · exact ⟨total .shared frs r - 1, by rw [h1]; congr 1; omega⟩
  · omega

/-- The flag of an object nobody uses. -/
theorem WInv.unused {h : Heap F} {frs : List (Frame F D E K)} (i : WInv h frs) {r : Ref}
    (hr : ∀ fr ∈ frs, r ∉ fr.call.refs) {c : Cell F} (hc : h[r]? = some c) : c.flag = .shared 0 := by
  have hz : ∀ m, total m frs r = 0 := fun m => total_eq_zero fun fr hfr => by
    rw [holds]
    split
    · exact List.count_eq_zero.2 (hr fr hfr)
    · rfl
  rcases i.flags r c hc with ⟨_, h1⟩ | ⟨h0, _, _⟩
  · rw [h1, hz]
  · rw [hz] at h0; omega

theorem step_only {s : Python.State F D E K} {u : Nat} {th : Thread F D E K} {code : K}
    (ht : s.threads[u]? = some th)
    (hs : th.step libs g act s.heap = (s.heap, { th with code := code }, [])) :
    Only s u code (s.step libs g act u) := by
  refine ⟨th, ht, ?_⟩
  unfold State.step
  simp only [ht, hs, List.append_nil]

theorem acquire_shared_exclusive {h : Heap F} {r : Ref} {c : Cell F} (hc : h[r]? = some c)
    (hf : c.flag = .exclusive) : h.acquire (E := E) r .shared = .error .alreadyMutablyBorrowed := by
  unfold Heap.acquire
  simp only [hc, hf]
  rfl

theorem acquire_exclusive_used {h : Heap F} {r : Ref} {c : Cell F} (hc : h[r]? = some c)
    (hf : c.flag ≠ .shared 0) : h.acquire (E := E) r .exclusive = .error .alreadyBorrowed := by
  unfold Heap.acquire
  simp only [hc]
  cases hfl : c.flag with
  | exclusive => rfl
  | shared n =>
    cases n with
    | zero => exact absurd hfl hf
    | succ n => rfl

theorem borrowAll_exclusive {r : Ref} : ∀ {rs : List Ref} {h : Heap F} {c : Cell F}, h[r]? = some c →
    c.flag = .exclusive → r ∈ rs → borrowAll (E := E) h rs = .error .panicBorrow
  | [], _, _, _, _, hr => by cases hr
  | a :: l, h, c, hc, hf, hr => by
    unfold borrowAll
    split
    · rfl
    · rename_i h1 e
      obtain ⟨d, f, hd, hfd, rfl⟩ := heap_acquire_some e
      obtain ⟨n, hn, rfl⟩ := flag_acquire_shared hfd
      by_cases hra : a = r
      · subst hra
        rw [hc] at hd
        cases hd
        rw [hf] at hn
        cases hn
      · have hr' : r ∈ l := by
          rcases List.mem_cons.1 hr with rfl | hr
          · exact absurd rfl hra
          · exact hr
        exact borrowAll_exclusive (by rw [List.getElem?_set_ne hra]; exact hc) hf hr'

end
end D10.Python
