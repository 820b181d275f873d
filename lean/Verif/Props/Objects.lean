import Verif.Lemmas.ObjectsPlan

/-!
# Python callbacks and threads (C119)

For every Python program, every schedule of its threads and every state it can reach.
-/

namespace D10
open Spec Python

section
set_option linter.unusedSectionVars false
variable {F D G E K : Type} [Scalar F] [Scalar D] [Widen F D] [FloatBytes F]
variable {libs : Libs F} {g : Rng G F} {act : K → Act F D G E K} {main : K}
variable {s s' : Python.State F D E K} {t : Nat} {th : Thread F D E K} {r : Ref}

theorem begins_of_reads {a : Act F D G E K} (h : ReadsWithFunction a r) :
    ∃ call k, begins a = some (call, k) ∧ call.mode = .shared ∧ r ∈ call.refs := by
  rcases h with ⟨f, k, rfl⟩ | ⟨f, k, rfl⟩ | ⟨rs, f, d, k, rfl, hr⟩
  · exact ⟨_, _, rfl, rfl, List.mem_singleton.2 rfl⟩
  · exact ⟨_, _, rfl, rfl, List.mem_singleton.2 rfl⟩
  · exact ⟨_, _, rfl, rfl, hr⟩

theorem begins_of_changes {a : Act F D G E K} (h : ChangesWithFunction a r) :
    ∃ call k, begins a = some (call, k) ∧ call.mode = .exclusive ∧ call.refs = [r] := by
  rcases h with ⟨f, k, rfl⟩ | ⟨f, k, rfl⟩
  · exact ⟨_, _, rfl, rfl, rfl⟩
  · exact ⟨_, _, rfl, rfl, rfl⟩

/-- While `map_colors`, `map_colors_enumerated` or `compose` goes over an image, the image stays as it
was when the call began, whatever the Python function and other threads do. -/
theorem C119_reading {img : Image F} (hs : Arises libs g act main s)
    (ht : s.threads[t]? = some th) (ha : ReadsWithFunction (act th.code) r) (hr : Holds s r img)
    (hd : During libs g act t th.stack.length (s.step libs g act t) s') : Holds s' r img := by
  obtain ⟨call, k, hb, hm, hmem⟩ := begins_of_reads ha
  obtain ⟨th', top, fr, ht', hst, hcall, hbeg, _, hval⟩ := during_frame ht hb hd
  have i := during_winv hs hd
  have ok := i.frames fr (mem_frames ht' (by rw [hst]; simp))
  have e := ok.reading (by rw [hcall]; exact hm)
  rw [hcall, hbeg] at e
  have := images_inj hval (fun q hq => ok.valid q (by rw [hcall]; exact hq)) e r hmem
  obtain ⟨c, hc, rfl⟩ := hr
  have hlt := ok.valid r (by rw [hcall]; exact hmem)
  refine ⟨s'.heap[r], List.getElem?_eq_getElem hlt, ?_⟩
  rw [hc, List.getElem?_eq_getElem hlt] at this
  exact Option.some.inj this

/-- While `mod_colors` or `mod_colors_enumerated` goes over an image, the pixels it has visited hold
what the Python function returned for them, one after the other, and all others are as they were when
the call began; so are the size and everything else. Nothing the Python function or other threads do
changes this. -/
theorem C119_changing {img : Image F} (hs : Arises libs g act main s)
    (ht : s.threads[t]? = some th) (ha : ChangesWithFunction (act th.code) r) (hr : Holds s r img)
    (hd : During libs g act t th.stack.length (s.step libs g act t) s') :
    ∃ th' top fr, s'.threads[t]? = some th' ∧ th'.stack = top ++ fr :: th.stack ∧
      fr.answers.length < img.data.length ∧
      Holds s' r { img with buffer := { img.buffer with
        data := fr.answers ++ img.data.drop fr.answers.length } } := by
  obtain ⟨call, k, hb, hm, hrefs⟩ := begins_of_changes ha
  obtain ⟨th', top, fr, ht', hst, hcall, hbeg, _, hval⟩ := during_frame ht hb hd
  have i := during_winv hs hd
  have hmem := mem_frames ht' (fr := fr) (by rw [hst]; simp)
  have ok := i.frames fr hmem
  obtain ⟨b, hb1, hb2⟩ := ok.changing (by rw [hcall]; exact hm)
  obtain ⟨c, hc, rfl⟩ := hr
  rw [hbeg, hrefs, images_singleton hc] at hb1
  cases hb1
  have hlt := ok.valid r (by rw [hcall, hrefs]; simp)
  rw [hcall, hrefs, images_singleton (List.getElem?_eq_getElem hlt)] at hb2
  have hw : Waiting fr := i.waiting fr hmem
  have hq := ok.asked fr.answers.length _
    (List.getElem?_eq_getElem (by rw [show fr.asked.length = _ from hw]; omega))
  rw [hbeg, hcall, hrefs, images_singleton hc] at hq
  exact ⟨th', top, fr, ht', hst, next_lt hm hq, _, List.getElem?_eq_getElem hlt,
    List.singleton_inj.1 hb2⟩

/-- No other call gets to an image that is being changed: whoever tries, the Python function itself or
another thread, gets an exception, and no object changes. -/
theorem C119_refused {u : Nat} {thu : Thread F D E K} {k : Except (Exc E) (Value F D) → K}
    (hs : Arises libs g act main s) (ht : s.threads[t]? = some th)
    (ha : ChangesWithFunction (act th.code) r)
    (hd : During libs g act t th.stack.length (s.step libs g act t) s')
    (hu : s'.threads[u]? = some thu) (hr : r ∈ (About (act thu.code)).1)
    (hk : (About (act thu.code)).2 = some k) :
    ∃ e, Only s' u (k (.error e)) (s'.step libs g act u) := by
  obtain ⟨call, _, hb, hm, hrefs⟩ := begins_of_changes ha
  obtain ⟨th', top, fr, ht', hst, hcall, hbeg, _, hval⟩ := during_frame ht hb hd
  have i := during_winv hs hd
  have hmem := mem_frames ht' (fr := fr) (by rw [hst]; simp)
  have hlt := (i.frames fr hmem).valid r (by rw [hcall, hrefs]; simp)
  obtain ⟨c, hc⟩ : ∃ c, s'.heap[r]? = some c := ⟨_, List.getElem?_eq_getElem hlt⟩
  have hf : c.flag = .exclusive := i.exclusive hmem (by rw [hcall]; exact hm)
    (by rw [hcall, hrefs]; simp) hc
  have hne : c.flag ≠ .shared 0 := by rw [hf]; exact fun h => by cases h
  have hsh := acquire_shared_exclusive (E := E) hc hf
  have hex := acquire_exclusive_used (E := E) hc hne
  cases hact : act thu.code with
  | ret x => rw [hact] at hk; cases hk
  | create x y => rw [hact] at hk; cases hk
  | spawn x y => rw [hact] at hk; cases hk
  | read q m k' =>
    rw [hact] at hr hk
    cases hk
    cases List.mem_singleton.1 hr
    refine ⟨.alreadyMutablyBorrowed, step_only hu ?_⟩
    unfold Thread.step doRead
    simp only [hact, hsh]
  | write q m k' =>
    rw [hact] at hr hk
    cases hk
    cases List.mem_singleton.1 hr
    refine ⟨.alreadyBorrowed, step_only hu ?_⟩
    unfold Thread.step doWrite
    simp only [hact, hex]
  | mod_colors q m k' =>
    rw [hact] at hr hk
    cases hk
    cases List.mem_singleton.1 hr
    refine ⟨.alreadyBorrowed, step_only hu ?_⟩
    unfold Thread.step start
    simp only [hact, hex]
  | mod_colors_enumerated q m k' =>
    rw [hact] at hr hk
    cases hk
    cases List.mem_singleton.1 hr
    refine ⟨.alreadyBorrowed, step_only hu ?_⟩
    unfold Thread.step start
    simp only [hact, hex]
  | map_colors q m k' =>
    rw [hact] at hr hk
    cases hk
    cases List.mem_singleton.1 hr
    refine ⟨.alreadyMutablyBorrowed, step_only hu ?_⟩
    unfold Thread.step start
    simp only [hact, hsh]
  | map_colors_enumerated q m k' =>
    rw [hact] at hr hk
    cases hk
    cases List.mem_singleton.1 hr
    refine ⟨.alreadyMutablyBorrowed, step_only hu ?_⟩
    unfold Thread.step start
    simp only [hact, hsh]
  | compose rs f d k' =>
    rw [hact] at hr hk
    cases hk
    by_cases hall : rs.all (· < s'.heap.length)
    · refine ⟨.panicBorrow, step_only hu ?_⟩
      unfold Thread.step start acquireAll
      simp only [hact]
      rw [if_pos hall, borrowAll_exclusive (rs := rs) hc hf hr]
    · refine ⟨.type, step_only hu ?_⟩
      unfold Thread.step start acquireAll
      simp only [hact]
      rw [if_neg hall]
  | read2 q o m k' =>
    rw [hact] at hr hk
    cases hk
    suffices h : ∃ e, doRead2 (D := D) (E := E) s'.heap q o m = (s'.heap, .error e) by
      obtain ⟨e, he⟩ := h
      refine ⟨e, step_only hu ?_⟩
      unfold Thread.step
      simp only [hact, he]
    rw [doRead2_eq]
    split
    · exact ⟨_, rfl⟩
    · rename_i cq hcq
      split
      · exact ⟨_, rfl⟩
      · rename_i n hn
        split
        · exact ⟨_, rfl⟩
        · rename_i co hco
          split
          · exact ⟨_, rfl⟩
          · rename_i n2 hn2
            exfalso
            rcases List.mem_cons.1 hr with rfl | hr
            · rw [hc] at hcq; cases hcq; rw [hf] at hn; cases hn
            · cases List.mem_singleton.1 hr
              rw [hc] at hco; cases hco; rw [hf] at hn2; cases hn2
  | apply_palette_in_place q o k' =>
    rw [hact] at hr hk
    cases hk
    suffices h : ∃ e, doApplyPaletteInPlace (D := D) (E := E) s'.heap q o = (s'.heap, .error e) by
      obtain ⟨e, he⟩ := h
      refine ⟨e, step_only hu ?_⟩
      unfold Thread.step
      simp only [hact, he]
    rw [doApplyPaletteInPlace_eq]
    split
    · exact ⟨_, rfl⟩
    · rename_i cq hcq
      split
      · rename_i hn
        split
        · exact ⟨_, rfl⟩
        · split
          · exact ⟨_, rfl⟩
          · rename_i co hco
            split
            · exact ⟨_, rfl⟩
            · rename_i n2 hn2
              exfalso
              rcases List.mem_cons.1 hr with rfl | hr
              · rw [hc] at hcq; cases hcq; exact hne hn
              · cases List.mem_singleton.1 hr
                rw [hc] at hco; cases hco; rw [hf] at hn2; cases hn2
      · exact ⟨_, rfl⟩

/-- A call with a Python function that is in progress, from the state in which it began. -/
theorem inProgress_frame {call : Call F K} {k : Except (Exc E) (Value F D) → K}
    (hs : Arises libs g act main s) (ht : s.threads[t]? = some th)
    (hb : begins (act th.code) = some (call, k))
    (hd : During libs g act t th.stack.length (s.step libs g act t) s') :
    ∃ fr ∈ s'.frames, fr.call = call ∧ WInv s'.heap s'.frames := by
  obtain ⟨th', top, fr, ht', hst, hcall, _⟩ := during_frame ht hb hd
  exact ⟨fr, mem_frames ht' (by rw [hst]; simp), hcall, during_winv hs hd⟩

theorem Only.of_step {u : Nat} {thu : Thread F D E K} {code : K} (hu : s'.threads[u]? = some thu)
    (h : thu.step libs g act s'.heap = (s'.heap, { thu with code := code }, [])) :
    Only s' u code (s'.step libs g act u) := step_only hu h

/-- A call that would change an image in use fails: `RuntimeError: Already borrowed`. -/
theorem refused_change {u : Nat} {thu : Thread F D E K} {k : Except (Exc E) (Value F D) → K}
    {c : Cell F} (hu : s'.threads[u]? = some thu) (hr : Changes (act thu.code) = some r)
    (hk : (About (act thu.code)).2 = some k) (hc : s'.heap[r]? = some c) (hne : c.flag ≠ .shared 0) :
    Only s' u (k (.error .alreadyBorrowed)) (s'.step libs g act u) := by
  have hex := acquire_exclusive_used (E := E) hc hne
  cases hact : act thu.code with
  | write q m k' =>
    rw [hact] at hr hk
    cases hk
    cases hr
    refine step_only hu ?_
    unfold Thread.step doWrite
    simp only [hact, hex]
  | apply_palette_in_place q o k' =>
    rw [hact] at hr hk
    cases hk
    cases hr
    refine step_only hu ?_
    unfold Thread.step doApplyPaletteInPlace
    simp only [hact, hex]
  | mod_colors q f k' =>
    rw [hact] at hr hk
    cases hk
    cases hr
    refine step_only hu ?_
    unfold Thread.step start
    simp only [hact, hex]
  | mod_colors_enumerated q f k' =>
    rw [hact] at hr hk
    cases hk
    cases hr
    refine step_only hu ?_
    unfold Thread.step start
    simp only [hact, hex]
  | _ => rw [hact] at hr; cases hr

/-- While `map_colors`, `map_colors_enumerated` or `compose` goes over an image, every call that would
change the image raises "Already borrowed", saving it included. -/
theorem C119_busy {u : Nat} {thu : Thread F D E K} {k : Except (Exc E) (Value F D) → K}
    (hs : Arises libs g act main s) (ht : s.threads[t]? = some th)
    (ha : ReadsWithFunction (act th.code) r)
    (hd : During libs g act t th.stack.length (s.step libs g act t) s')
    (hu : s'.threads[u]? = some thu) (hr : Changes (act thu.code) = some r)
    (hk : (About (act thu.code)).2 = some k) :
    Only s' u (k (.error .alreadyBorrowed)) (s'.step libs g act u) := by
  obtain ⟨call, _, hb, hm, hrefs⟩ := begins_of_reads ha
  obtain ⟨fr, hmem, hcall, i⟩ := inProgress_frame hs ht hb hd
  have hlt := (i.frames fr hmem).valid r (by rw [hcall]; exact hrefs)
  obtain ⟨n, hn⟩ := i.shared hmem (by rw [hcall]; exact hm) (by rw [hcall]; exact hrefs)
    (List.getElem?_eq_getElem hlt)
  exact refused_change hu hr hk (List.getElem?_eq_getElem hlt) (by rw [hn]; exact fun h => by cases h)

/-- Which exception it is while the image is being changed: "Already borrowed" for calls that would
change it as well, "Already mutably borrowed" for the others, and a panic in `compose`. -/
theorem C119_message {u : Nat} {thu : Thread F D E K} {k : Except (Exc E) (Value F D) → K}
    (hs : Arises libs g act main s) (ht : s.threads[t]? = some th)
    (ha : ChangesWithFunction (act th.code) r)
    (hd : During libs g act t th.stack.length (s.step libs g act t) s')
    (hu : s'.threads[u]? = some thu) (hk : (About (act thu.code)).2 = some k) :
    (Changes (act thu.code) = some r →
      Only s' u (k (.error .alreadyBorrowed)) (s'.step libs g act u)) ∧
    ((∃ rest, (About (act thu.code)).1 = r :: rest) → Changes (act thu.code) = none →
      (∀ rs f d k', act thu.code ≠ .compose rs f d k') →
      Only s' u (k (.error .alreadyMutablyBorrowed)) (s'.step libs g act u)) ∧
    (∀ rs f d k', act thu.code = .compose rs f d k' → r ∈ rs → (∀ q ∈ rs, ∃ i, Holds s' q i) →
      Only s' u (k (.error .panicBorrow)) (s'.step libs g act u)) := by
  obtain ⟨call, _, hb, hm, hrefs⟩ := begins_of_changes ha
  obtain ⟨fr, hmem, hcall, i⟩ := inProgress_frame hs ht hb hd
  have hlt := (i.frames fr hmem).valid r (by rw [hcall, hrefs]; simp)
  have hc : s'.heap[r]? = some s'.heap[r] := List.getElem?_eq_getElem hlt
  have hf := i.exclusive hmem (by rw [hcall]; exact hm) (by rw [hcall, hrefs]; simp) hc
  have hsh := acquire_shared_exclusive (E := E) hc hf
  refine ⟨fun hr => refused_change hu hr hk hc (by rw [hf]; exact fun h => by cases h), ?_, ?_⟩
  · rintro ⟨rest, hr⟩ hn hnc
    cases hact : act thu.code with
    | read q m k' =>
      rw [hact] at hr hk
      cases hk
      injection hr with hr _
      subst hr
      refine step_only hu ?_
      unfold Thread.step doRead
      simp only [hact, hsh]
    | read2 q o m k' =>
      rw [hact] at hr hk
      cases hk
      injection hr with hr _
      subst hr
      refine step_only hu ?_
      unfold Thread.step doRead2
      simp only [hact, hsh]
    | map_colors q m k' =>
      rw [hact] at hr hk
      cases hk
      injection hr with hr _
      subst hr
      refine step_only hu ?_
      unfold Thread.step start
      simp only [hact, hsh]
    | map_colors_enumerated q m k' =>
      rw [hact] at hr hk
      cases hk
      injection hr with hr _
      subst hr
      refine step_only hu ?_
      unfold Thread.step start
      simp only [hact, hsh]
    | compose rs f d k' => exact absurd hact (hnc rs f d k')
    | write => rw [hact] at hn; cases hn
    | apply_palette_in_place => rw [hact] at hn; cases hn
    | mod_colors => rw [hact] at hn; cases hn
    | mod_colors_enumerated => rw [hact] at hn; cases hn
    | ret => rw [hact] at hk; cases hk
    | create => rw [hact] at hk; cases hk
    | spawn => rw [hact] at hk; cases hk
  · intro rs f d k' hact hr hall
    rw [hact] at hk
    cases hk
    have hall' : rs.all (· < s'.heap.length) = true := by
      refine List.all_eq_true.2 fun q hq => ?_
      obtain ⟨_, c, hc, _⟩ := hall q hq
      exact decide_eq_true (lt_of_getElem? hc)
    refine step_only hu ?_
    unfold Thread.step start acquireAll
    simp only [hact]
    rw [if_pos hall', borrowAll_exclusive hc hf hr]

/-! ## Objects that are not in use -/

theorem flag_not_changed (i : WInv s.heap s.frames) (hn : ¬ BeingChanged s r) {c : Cell F}
    (hc : s.heap[r]? = some c) : ∃ n, c.flag = .shared n := by
  rcases i.flags r c hc with ⟨_, h⟩ | ⟨h, _, _⟩
  · exact ⟨_, h⟩
  · exfalso
    have : ¬ ∀ fr ∈ s.frames, holds .exclusive r fr = 0 := fun hz => by
      rw [total_eq_zero hz] at h; omega
    apply this
    intro fr hfr
    rw [Python.holds]
    split
    · rename_i hm
      refine List.count_eq_zero.2 fun hr => hn ?_
      obtain ⟨th, hth, hfr⟩ := List.mem_flatMap.1 hfr
      refine ⟨th, hth, fr, hfr, ?_⟩
      cases hcall : fr.call with
      | mod_colors self f =>
        rw [hcall] at hr
        cases List.mem_singleton.1 hr
        exact .inl ⟨f, rfl⟩
      | mod_colors_enumerated self f =>
        rw [hcall] at hr
        cases List.mem_singleton.1 hr
        exact .inr ⟨f, rfl⟩
      | map_colors => rw [hcall] at hm; cases hm
      | map_colors_enumerated => rw [hcall] at hm; cases hm
      | compose => rw [hcall] at hm; cases hm
    · rfl

theorem flag_unused (i : WInv s.heap s.frames) (hn : ¬ BeingChanged s r) (hr : ¬ BeingRead s r)
    {c : Cell F} (hc : s.heap[r]? = some c) : c.flag = .shared 0 := by
  refine i.unused (fun fr hfr hmem => ?_) hc
  obtain ⟨th, hth, hfr⟩ := List.mem_flatMap.1 hfr
  cases hcall : fr.call with
  | mod_colors self f =>
    rw [hcall] at hmem
    cases List.mem_singleton.1 hmem
    exact hn ⟨th, hth, fr, hfr, .inl ⟨f, hcall⟩⟩
  | mod_colors_enumerated self f =>
    rw [hcall] at hmem
    cases List.mem_singleton.1 hmem
    exact hn ⟨th, hth, fr, hfr, .inr ⟨f, hcall⟩⟩
  | map_colors self f =>
    rw [hcall] at hmem
    cases List.mem_singleton.1 hmem
    exact hr ⟨th, hth, fr, hfr, .inl ⟨f, hcall⟩⟩
  | map_colors_enumerated self f =>
    rw [hcall] at hmem
    cases List.mem_singleton.1 hmem
    exact hr ⟨th, hth, fr, hfr, .inr (.inl ⟨f, hcall⟩)⟩
  | compose rs d f =>
    rw [hcall] at hmem
    exact hr ⟨th, hth, fr, hfr, .inr (.inr ⟨rs, d, f, hcall, hmem⟩)⟩

theorem gives_of_deliver {k : Except (Exc E) (Value F D) → K} {result : Py (Out F D)}
    (ht : s.threads[t]? = some th)
    (h : th.step libs g act s.heap = ((deliver s.heap (outcome (E := E) result)).1,
      { th with code := k (deliver s.heap (outcome (E := E) result)).2 }, [])) :
    Returns s t k result (s.step libs g act t) := by
  have hstep : s.step libs g act t = ⟨(deliver s.heap (outcome (E := E) result)).1,
      s.threads.set t { th with code := k (deliver s.heap (outcome (E := E) result)).2 }⟩ := by
    unfold State.step
    simp only [ht, h, List.append_nil]
  rw [hstep]
  unfold Returns
  have e : ∀ x, result.run = x → outcome (E := E) result = (match x with
    | .ok (.ok a) => .ok a
    | .ok (.error message) => .error (.os message)
    | .error p => .error (.panic p)) := by
    intro x hx
    unfold outcome
    rw [hx]
    rcases x with _ | ⟨_ | _⟩ <;> rfl
  cases hx : result.run with
  | error p =>
    rw [e _ hx]
    exact ⟨th, ht, rfl⟩
  | ok y =>
    cases y with
    | error m =>
      rw [e _ hx]
      exact ⟨th, ht, rfl⟩
    | ok o =>
      rw [e _ hx]
      cases o with
      | value v => exact ⟨th, ht, rfl⟩
      | image img => exact ⟨th, ht, rfl⟩

/-- Creating an image never disturbs the other objects: it works at any time. -/
theorem C119_create {c : Creator F D} {k : Except (Exc E) (Value F D) → K}
    (ht : s.threads[t]? = some th) (ha : act th.code = .create c k) :
    Returns s t k (do return .image (← c.run libs)) (s.step libs g act t) := by
  refine gives_of_deliver ht ?_
  unfold Thread.step
  simp only [ha]

/-- A method that only reads an image works at any time the image is not being changed, also while
other calls go over it: it gives what the method makes of the image the object holds. -/
theorem C119_read {img : Image F} {m : Reader F G} {k : Except (Exc E) (Value F D) → K}
    (hs : Arises libs g act main s) (ht : s.threads[t]? = some th)
    (ha : act th.code = .read r m k) (hr : Holds s r img) (hn : ¬ BeingChanged s r) :
    Returns s t k (m.run libs g img) (s.step libs g act t) := by
  obtain ⟨c, hc, rfl⟩ := hr
  obtain ⟨n, hf⟩ := flag_not_changed (reachable_winv hs) hn hc
  refine gives_of_deliver ht ?_
  unfold Thread.step
  simp only [ha]
  rw [doRead_eq]
  simp only [hc, hf]

/-- The same for the methods with two images. -/
theorem C119_read2 {img img2 : Image F} {o : Ref} {m : Reader2 F}
    {k : Except (Exc E) (Value F D) → K}
    (hs : Arises libs g act main s) (ht : s.threads[t]? = some th)
    (ha : act th.code = .read2 r o m k) (hr : Holds s r img) (ho : Holds s o img2)
    (hn : ¬ BeingChanged s r) (hno : ¬ BeingChanged s o) :
    Returns s t k (m.run img img2) (s.step libs g act t) := by
  obtain ⟨c, hc, rfl⟩ := hr
  obtain ⟨c2, hc2, rfl⟩ := ho
  obtain ⟨n, hf⟩ := flag_not_changed (reachable_winv hs) hn hc
  obtain ⟨n2, hf2⟩ := flag_not_changed (reachable_winv hs) hno hc2
  refine gives_of_deliver ht ?_
  unfold Thread.step
  simp only [ha]
  rw [doRead2_eq]
  simp only [hc, hf, hc2, hf2]

/-- A method that changes an image works whenever no call in progress uses the image. -/
theorem C119_write {img : Image F} {m : Writer F G} {k : Except (Exc E) (Value F D) → K}
    (hs : Arises libs g act main s) (ht : s.threads[t]? = some th)
    (ha : act th.code = .write r m k) (hr : Holds s r img) (hn : ¬ BeingChanged s r)
    (hnr : ¬ BeingRead s r) : Writes s t k r (m.run libs g img) (s.step libs g act t) := by
  obtain ⟨c, hc, rfl⟩ := hr
  have hf := flag_unused (reachable_winv hs) hn hnr hc
  have hstep : ∀ (x : Except (Exc E) (Image F)), outcome (m.run libs g c.image) = x →
      th.step libs g act s.heap = (match x with
        | .ok img => (s.heap.set r ⟨img, .shared 0⟩, { th with code := k (.ok .none) }, [])
        | .error e => (s.heap, { th with code := k (.error e) }, [])) := by
    intro x hx
    unfold Thread.step
    simp only [ha]
    rw [doWrite_eq]
    simp only [hc, hf, hx]
    cases x with
    | error e => rfl
    | ok i =>
      simp only [Heap.write, hc, hf]
  unfold Writes
  cases hx : (m.run libs g c.image).run with
  | error p =>
    refine step_only ht (hstep (.error (.panic p)) ?_)
    unfold outcome; rw [hx]
  | ok y =>
    cases y with
    | error msg =>
      refine step_only ht (hstep (.error (.os msg)) ?_)
      unfold outcome; rw [hx]
    | ok i =>
      have h1 := hstep (.ok i) (by unfold outcome; rw [hx])
      refine ⟨th, ht, ?_⟩
      unfold State.step
      simp only [ht, h1, List.append_nil]

/-- `apply_palette_in_place` with an image nobody uses and a palette that is not being changed. -/
theorem C119_palette {img img2 : Image F} {o : Ref} {k : Except (Exc E) (Value F D) → K}
    (hs : Arises libs g act main s) (ht : s.threads[t]? = some th)
    (ha : act th.code = .apply_palette_in_place r o k) (hr : Holds s r img) (ho : Holds s o img2)
    (hne : o ≠ r) (hn : ¬ BeingChanged s r) (hnr : ¬ BeingRead s r) (hno : ¬ BeingChanged s o) :
    Writes s t k r (pure (img.apply_palette_in_place img2)) (s.step libs g act t) := by
  obtain ⟨c, hc, rfl⟩ := hr
  obtain ⟨c2, hc2, rfl⟩ := ho
  have hf := flag_unused (reachable_winv hs) hn hnr hc
  obtain ⟨n2, hf2⟩ := flag_not_changed (reachable_winv hs) hno hc2
  refine ⟨th, ht, ?_⟩
  unfold State.step Thread.step
  simp only [ht, ha]
  rw [doApplyPaletteInPlace_eq]
  simp only [hc, hf, if_neg hne, hc2, hf2, Heap.write, List.append_nil]

/-- An image cannot be its own palette in `apply_palette_in_place`: the call always raises, and no
object changes. -/
theorem C119_self {img : Image F} {k : Except (Exc E) (Value F D) → K}
    (ht : s.threads[t]? = some th) (ha : act th.code = .apply_palette_in_place r r k)
    (hr : Holds s r img) : ∃ e, Only s t (k (.error e)) (s.step libs g act t) := by
  obtain ⟨c, hc, rfl⟩ := hr
  suffices h : ∃ e, doApplyPaletteInPlace (D := D) (E := E) s.heap r r = (s.heap, .error e) by
    obtain ⟨e, he⟩ := h
    refine ⟨e, step_only ht ?_⟩
    unfold Thread.step
    simp only [ha, he]
  rw [doApplyPaletteInPlace_eq]
  simp only [hc, if_true]
  split
  · exact ⟨_, rfl⟩
  · exact ⟨_, rfl⟩

/-! ## The course of a call -/

theorem holds_same {h h1 : Heap F} {ts ts1 : List (Thread F D E K)} (e : Same h h1) (q : Ref)
    (i : Image F) : Holds (⟨h1, ts1⟩ : Python.State F D E K) q i ↔ Holds (⟨h, ts⟩ : Python.State F D E K) q i := by
  have := e q
  unfold Holds
  constructor
  · rintro ⟨c, hc, rfl⟩
    have hc : h1[q]? = some c := hc
    rw [hc] at this
    cases hq : h[q]? with
    | none => rw [hq] at this; cases this
    | some c' => rw [hq] at this; exact ⟨c', rfl, (Option.some.inj this).symm⟩
  · rintro ⟨c, hc, rfl⟩
    have hc : h[q]? = some c := hc
    rw [hc] at this
    cases hq : h1[q]? with
    | none => rw [hq] at this; cases this
    | some c' => rw [hq] at this; exact ⟨c', rfl, Option.some.inj this⟩

/-- A call returns the image it has made, or nothing. -/
theorem finish_finished {h1 : Heap F} {fr : Frame F D E K} {rest o : List (Frame F D E K)}
    {codes : List K} {made : CallMakes F} {h0 : Heap F} {thu : Thread F D E K}
    (i : Inv h1 (fr :: o)) (ht : s.threads[t]? = some thu)
    (hfit : Fits (D := D) h0 fr.call codes made) (hbeg : fr.began = h0.images fr.call.refs)
    (hlen : h1.length = s.heap.length) (hfull : fr.answers.length = codes.length)
    (hother : ∀ q, (fr.call.mode = .exclusive → q ∉ fr.call.refs) →
      h1[q]?.map Cell.image = s.heap[q]?.map Cell.image)
    (hstep : thu.step libs g act s.heap =
      ((finish h1 fr rest (.ok (outOf made fr.answers))).1,
        (finish h1 fr rest (.ok (outOf made fr.answers))).2, [])) :
    Finished s t rest fr.kont made fr.answers (s.step libs g act t) := by
  have hst : s.step libs g act t = ⟨(finish h1 fr rest (.ok (outOf made fr.answers))).1,
      s.threads.set t (finish h1 fr rest (.ok (outOf made fr.answers))).2⟩ := by
    unfold State.step
    simp only [ht, hstep, List.append_nil]
  obtain ⟨hsame, _⟩ := i.releaseAll
  have hset : ∀ x, (s.threads.set t x)[t]? = some x := fun x =>
    List.getElem?_set_self (lt_of_getElem? ht)
  have hmade := hfit.made
  cases made with
  | changes r img =>
    obtain ⟨hm, hrefs, b, hb, himg, hcodes⟩ := hmade
    rw [hst]
    refine ⟨hset _, ?_, fun q im hq => ?_⟩
    · show Holds (⟨releaseAll h1 fr.call.mode fr.call.refs, _⟩ : Python.State F D E K) r _
      rw [holds_same (ts := []) hsame]
      have ok := i.frames fr (by simp)
      obtain ⟨b', hb', hi⟩ := ok.changing hm
      rw [hbeg, hrefs, hb] at hb'
      cases hb'
      have hlt := ok.valid r (by rw [hrefs]; simp)
      rw [hrefs, images_singleton (List.getElem?_eq_getElem hlt)] at hi
      refine ⟨_, List.getElem?_eq_getElem hlt, ?_⟩
      rw [List.singleton_inj.1 hi, himg]
      have : b.data.drop fr.answers.length = [] := by
        rw [List.drop_eq_nil_iff, hfull, hcodes]
        exact Nat.le_refl _
      unfold partly
      rw [this, List.append_nil]
    · show Holds (⟨releaseAll h1 fr.call.mode fr.call.refs, _⟩ : Python.State F D E K) q _ ↔ _
      rw [holds_same (ts := []) hsame]
      have := hother q fun _ hmem => by
        rw [hrefs] at hmem
        exact hq (List.mem_singleton.1 hmem)
      unfold Holds
      simp only
      cases h1q : h1[q]? with
      | none => rw [h1q] at this; cases hsq : s.heap[q]? with
        | none => rfl
        | some c => rw [hsq] at this; cases this
      | some c1 => rw [h1q] at this; cases hsq : s.heap[q]? with
        | none => rw [hsq] at this; cases this
        | some c =>
          rw [hsq] at this
          have := Option.some.inj this
          constructor
          · rintro ⟨d, hd, rfl⟩; cases hd; exact ⟨c, rfl, this.symm⟩
          · rintro ⟨d, hd, rfl⟩; cases hd; exact ⟨c1, rfl, this⟩
  | makes img =>
    rw [hst]
    have hl : (releaseAll h1 fr.call.mode fr.call.refs).length = s.heap.length := by
      rw [hsame.length, hlen]
    refine ⟨?_, ?_, fun q im hq => ?_⟩
    · rw [← hl]
      exact hset _
    · refine ⟨⟨img fr.answers, .shared 0⟩, ?_, rfl⟩
      show (releaseAll h1 fr.call.mode fr.call.refs ++ [_])[_]? = _
      rw [← hl, List.getElem?_append_right (Nat.le_refl _), Nat.sub_self]
      rfl
    · have hm : fr.call.mode = .shared := hmade
      have h1q := hother q fun h => by rw [hm] at h; cases h
      have h2 := hsame q
      have h3 : (releaseAll h1 fr.call.mode fr.call.refs ++
          [(⟨img fr.answers, .shared 0⟩ : Cell F)])[q]?.map Cell.image = s.heap[q]?.map Cell.image := by
        rcases Nat.lt_or_ge q s.heap.length with hlt | hge
        · rw [List.getElem?_append_left (by rw [hl]; exact hlt), h2, h1q]
        · rw [List.getElem?_eq_none_iff.2 (by
            rw [List.length_append, hl]
            have : q ≠ s.heap.length := hq
            simp only [List.length_singleton]
            omega), List.getElem?_eq_none_iff.2 hge]
      unfold Holds
      show (∃ c, (releaseAll h1 fr.call.mode fr.call.refs ++
          [(⟨img fr.answers, .shared 0⟩ : Cell F)])[q]? = some c ∧ c.image = im) ↔ _
      constructor
      · rintro ⟨c, hc, rfl⟩
        rw [hc] at h3
        cases hsq : s.heap[q]? with
        | none => rw [hsq] at h3; cases h3
        | some c' => rw [hsq] at h3; exact ⟨c', rfl, (Option.some.inj h3).symm⟩
      · rintro ⟨c, hc, rfl⟩
        rw [hc] at h3
        cases hsq : (releaseAll h1 fr.call.mode fr.call.refs ++
          [(⟨img fr.answers, .shared 0⟩ : Cell F)])[q]? with
        | none => rw [hsq] at h3; cases h3
        | some c' => rw [hsq] at h3; exact ⟨c', rfl, Option.some.inj h3⟩

/-- A call with a Python function begins, if no call in progress stands in the way: the function starts
to run for the first pixel, and no object has changed. With no pixels the call ends at once. -/
theorem C119_begin {codes : List K} {k : Except (Exc E) (Value F D) → K} {made : CallMakes F}
    (hs : Arises libs g act main s) (ht : s.threads[t]? = some th)
    (hp : Plan s (act th.code) codes k made)
    (hread : ∀ q, ReadsWithFunction (act th.code) q → ¬ BeingChanged s q)
    (hchange : ∀ q, ChangesWithFunction (act th.code) q → ¬ BeingChanged s q ∧ ¬ BeingRead s q) :
    (∀ code rest, codes = code :: rest →
      ∃ fr, (s.step libs g act t).threads[t]? = some ⟨code, fr :: th.stack⟩ ∧ fr.answers = [] ∧
        ∀ q i, Holds (s.step libs g act t) q i ↔ Holds s q i) ∧
    (codes = [] → Finished s t th.stack k made [] (s.step libs g act t)) := by
  have i := reachable_winv hs
  obtain ⟨call, hb, hfit⟩ := plan_fits hp
  have hstep := Thread.step_begins (libs := libs) (g := g) (h := s.heap) hb
  obtain ⟨h1, hbor⟩ : ∃ h1, borrow (E := E) s.heap call = .ok h1 := by
    have one : ∀ q, q < s.heap.length → ¬ BeingChanged s q →
        ∃ h1, s.heap.acquire (E := E) q .shared = .ok h1 := by
      intro q hq hn
      obtain ⟨n, hf⟩ := flag_not_changed i hn (List.getElem?_eq_getElem hq)
      unfold Heap.acquire
      simp only [List.getElem?_eq_getElem hq, hf]
      exact ⟨_, rfl⟩
    have two : ∀ q, q < s.heap.length → ¬ BeingChanged s q ∧ ¬ BeingRead s q →
        ∃ h1, s.heap.acquire (E := E) q .exclusive = .ok h1 := by
      intro q hq hn
      have hf := flag_unused i hn.1 hn.2 (List.getElem?_eq_getElem hq)
      unfold Heap.acquire
      simp only [List.getElem?_eq_getElem hq, hf]
      exact ⟨_, rfl⟩
    have hval := hfit.valid
    obtain ⟨a, ha⟩ : ∃ a, act th.code = a := ⟨_, rfl⟩
    rw [ha] at hp hread hchange hb
    clear hstep ha
    cases hp with
    | map_colors =>
      cases hb
      exact one _ (hval _ (List.mem_singleton.2 rfl)) (hread _ (.inl ⟨_, _, rfl⟩))
    | map_colors_enumerated =>
      cases hb
      exact one _ (hval _ (List.mem_singleton.2 rfl)) (hread _ (.inr (.inl ⟨_, _, rfl⟩)))
    | mod_colors =>
      cases hb
      exact two _ (hval _ (List.mem_singleton.2 rfl)) (hchange _ (.inl ⟨_, _, rfl⟩))
    | mod_colors_enumerated =>
      cases hb
      exact two _ (hval _ (List.mem_singleton.2 rfl)) (hchange _ (.inr ⟨_, _, rfl⟩))
    | compose hh hwf hW hH hv =>
      cases hb
      rename_i r rs img imgs f d W H
      have hall : (r :: rs).all (· < s.heap.length) = true :=
        List.all_eq_true.2 fun q hq => decide_eq_true (hval q hq)
      have key : ∀ (l : List Ref) (h : Heap F), (∀ q ∈ l, ∃ (c : Cell F) (n : Nat), h[q]? = some c ∧ c.flag = .shared n) →
          ∃ h1, borrowAll (E := E) h l = .ok h1 := by
        intro l
        induction l with
        | nil => intro h _; exact ⟨h, rfl⟩
        | cons a l ih =>
          intro h hl
          obtain ⟨c, n, hc, hf⟩ := hl a (by simp)
          have ha : h.acquire (E := E) a .shared = .ok (h.set a { c with flag := .shared (n + 1) }) := by
            unfold Heap.acquire
            simp only [hc, hf]
            rfl
          unfold borrowAll
          rw [ha]
          refine ih _ fun q hq => ?_
          obtain ⟨c', n', hc', hf'⟩ := hl q (by simp [hq])
          by_cases e : q = a
          · subst e
            exact ⟨_, _, List.getElem?_set_self (lt_of_getElem? hc), rfl⟩
          · exact ⟨c', n', by rw [List.getElem?_set_ne (Ne.symm e)]; exact hc', hf'⟩
      obtain ⟨h1, e1⟩ := key (r :: rs) s.heap fun q hq => by
        obtain ⟨n, hf⟩ := flag_not_changed i (hread q (.inr (.inr ⟨_, _, _, _, rfl, hq⟩)))
          (List.getElem?_eq_getElem (hval q hq))
        exact ⟨_, n, List.getElem?_eq_getElem (hval q hq), hf⟩
      refine ⟨h1, ?_⟩
      show acquireAll (E := E) s.heap (r :: rs) = _
      unfold acquireAll
      rw [if_pos hall, e1]
  obtain ⟨hsame, i1⟩ := borrow_inv hbor i.toInv k
  have himg := hsame.images call.refs
  have hproc : start s.heap call th.stack k =
      proceed h1 ⟨call, [], [], h1.images call.refs, k⟩ th.stack := by
    rw [start_eq, hbor]
    simp only
    rw [himg, hfit.check]
  rw [hproc] at hstep
  obtain ⟨q0, hq0⟩ := hfit.next 0
  constructor
  · rintro code rest rfl
    have hpr : proceed h1 (⟨call, [], [], h1.images call.refs, k⟩ : Frame F D E K) th.stack =
        (h1, ⟨code, ⟨call, [], [(q0, code)], h1.images call.refs, k⟩ :: th.stack⟩) := by
      unfold proceed
      simp only [himg, List.length_nil, hq0]
      rfl
    rw [hpr] at hstep
    refine ⟨⟨call, [], [(q0, code)], h1.images call.refs, k⟩, ?_, rfl, fun q im => ?_⟩
    · rw [State.step_self ht, hstep]
    · have : s.step libs g act t = ⟨h1, (s.step libs g act t).threads⟩ := by
        have := State.step_heap (libs := libs) (g := g) (act := act) ht
        rw [hstep] at this
        dsimp only at this
        rw [← this]
      rw [this]
      exact holds_same hsame q im
  · rintro rfl
    have hpr : proceed h1 (⟨call, [], [], h1.images call.refs, k⟩ : Frame F D E K) th.stack =
        finish h1 ⟨call, [], [], h1.images call.refs, k⟩ th.stack (.ok (outOf made [])) := by
      unfold proceed
      simp only [himg, List.length_nil, hq0]
      rw [hfit.result [] _ fun _ => rfl]
      rfl
    rw [hpr] at hstep
    exact finish_finished (fr := ⟨call, [], [], h1.images call.refs, k⟩) i1 ht hfit himg hsame.length
      rfl (fun q _ => hsame q) hstep

/-- The call in progress that waits for thread `t`. -/
theorem top_frame {codes : List K} {k : Except (Exc E) (Value F D) → K} {made : CallMakes F} {code : K}
    {fr : Frame F D E K} (hs : Arises libs g act main s) (ht : s.threads[t]? = some th)
    (hp : Plan s (act th.code) codes k made)
    (hd : During libs g act t th.stack.length (s.step libs g act t) s')
    (ht' : s'.threads[t]? = some ⟨code, fr :: th.stack⟩) :
    Fits (D := D) s.heap fr.call codes made ∧ fr.began = s.heap.images fr.call.refs ∧ fr.kont = k ∧
      WInv s'.heap (fr :: (th.stack ++ ((s'.threads.take t).flatMap (·.stack) ++
        (s'.threads.drop (t + 1)).flatMap (·.stack)))) := by
  obtain ⟨call, hb, hfit⟩ := plan_fits hp
  obtain ⟨th', top, fr', ht1, hst, hcall, hbeg, hk, _⟩ := during_frame ht hb hd
  rw [ht'] at ht1
  cases ht1
  have htop : top = [] := by
    have := congrArg List.length hst
    simp only [List.length_cons, List.length_append] at this
    exact List.eq_nil_of_length_eq_zero (by omega)
  subst htop
  cases hst
  subst hcall
  exact ⟨hfit, hbeg, hk, (during_winv hs hd).perm (State.frames_perm ht')⟩

/-- When the function has returned a colour for a pixel and it was not the last one, it starts to run
for the next pixel, always with the colour that pixel had when the call began. -/
theorem C119_next {codes : List K} {k : Except (Exc E) (Value F D) → K} {made : CallMakes F} {code : K}
    {fr : Frame F D E K} {c : Col F} (hs : Arises libs g act main s)
    (ht : s.threads[t]? = some th) (hp : Plan s (act th.code) codes k made)
    (hd : During libs g act t th.stack.length (s.step libs g act t) s')
    (ht' : s'.threads[t]? = some ⟨code, fr :: th.stack⟩) (ha : act code = .ret (.ok (.colour c))) :
    fr.answers.length < codes.length ∧
    ∀ code', codes[fr.answers.length + 1]? = some code' →
      ∃ fr', (s'.step libs g act t).threads[t]? = some ⟨code', fr' :: th.stack⟩ ∧
        fr'.answers = fr.answers ++ [c] := by
  obtain ⟨hfit, hbeg, hk, i⟩ := top_frame hs ht hp hd ht'
  have hw : Waiting fr := i.waiting fr (by simp)
  constructor
  · have ok := i.frames fr (by simp)
    have := ok.asked fr.answers.length _
      (List.getElem?_eq_getElem (by rw [show fr.asked.length = _ from hw]; omega))
    rw [hbeg] at this
    obtain ⟨q, hq⟩ := hfit.next fr.answers.length
    rw [hq] at this
    by_contra hn
    rw [List.getElem?_eq_none_iff.2 (by omega)] at this
    cases this
  · intro code' hc'
    obtain ⟨h1, e, i1, _⟩ := answer_colour i c
    have hnext := (i1.frames _ (List.mem_cons_self ..)).next
    simp only [List.length_append, List.length_singleton] at hnext
    rw [hbeg] at hnext
    obtain ⟨q, hq⟩ := hfit.next (fr.answers.length + 1)
    rw [hq, hc'] at hnext
    have hstep : (⟨code, fr :: th.stack⟩ : Thread F D E K).step libs g act s'.heap =
        (h1, ⟨code', { fr with answers := fr.answers ++ [c], asked := fr.asked ++ [(q, code')] }
          :: th.stack⟩, []) := by
      unfold Thread.step
      simp only [ha, e]
      unfold proceed
      simp only [List.length_append, List.length_singleton, hnext, Option.map_some]
    refine ⟨{ fr with answers := fr.answers ++ [c], asked := fr.asked ++ [(q, code')] }, ?_, rfl⟩
    rw [State.step_self ht', hstep]

/-- When the function has returned a colour for the last pixel, the call ends: a new image holds the
colours the function returned, or the image itself does. -/
theorem C119_end {codes : List K} {k : Except (Exc E) (Value F D) → K} {made : CallMakes F} {code : K}
    {fr : Frame F D E K} {c : Col F} (hs : Arises libs g act main s)
    (ht : s.threads[t]? = some th) (hp : Plan s (act th.code) codes k made)
    (hd : During libs g act t th.stack.length (s.step libs g act t) s')
    (ht' : s'.threads[t]? = some ⟨code, fr :: th.stack⟩) (ha : act code = .ret (.ok (.colour c)))
    (hlast : fr.answers.length + 1 = codes.length) :
    Finished s' t th.stack k made (fr.answers ++ [c]) (s'.step libs g act t) := by
  obtain ⟨hfit, hbeg, hk, i⟩ := top_frame hs ht hp hd ht'
  obtain ⟨h1, e, i1, hlen, hother, -⟩ := answer_colour i c
  have ok1 := i1.frames _ (List.mem_cons_self ..)
  have hnext := ok1.next
  simp only [List.length_append, List.length_singleton] at hnext
  rw [hbeg] at hnext
  obtain ⟨q, hq⟩ := hfit.next (fr.answers.length + 1)
  rw [hq, List.getElem?_eq_none_iff.2 (by omega)] at hnext
  subst hk
  refine finish_finished (fr := { fr with answers := fr.answers ++ [c] }) i1 ht' hfit hbeg hlen
    (by simp only [List.length_append, List.length_singleton]; exact hlast)
    (fun q hq => by rw [hother q hq]) ?_
  unfold Thread.step
  simp only [ha, e]
  unfold proceed
  simp only [List.length_append, List.length_singleton, hnext, Option.map_none]
  rw [hfit.result (fr.answers ++ [c]) _ fun hm => by rw [ok1.reading hm]; exact hbeg]

/-- When the function raises, the call raises the same exception, and no object changes any more: an
image that was being changed keeps the pixels changed so far. A result that is not a colour raises. -/
theorem C119_raise {codes : List K} {k : Except (Exc E) (Value F D) → K} {made : CallMakes F} {code : K}
    {fr : Frame F D E K} {r : Except (Exc E) (Value F D)} {e : Exc E}
    (hs : Arises libs g act main s)
    (ht : s.threads[t]? = some th) (hp : Plan s (act th.code) codes k made)
    (hd : During libs g act t th.stack.length (s.step libs g act t) s')
    (ht' : s'.threads[t]? = some ⟨code, fr :: th.stack⟩) (ha : act code = .ret r)
    (hr : r = .error e ∨ (e = .type ∧ ∃ v, r = .ok v ∧ ∀ c, v ≠ .colour c)) :
    (s'.step libs g act t).threads[t]? = some ⟨k (.error e), th.stack⟩ ∧
      ∀ q i, Holds (s'.step libs g act t) q i ↔ Holds s' q i := by
  obtain ⟨hfit, hbeg, hk, i⟩ := top_frame hs ht hp hd ht'
  subst hk
  have hans : answer s'.heap fr th.stack r = finish s'.heap fr th.stack (.error e) := by
    rcases hr with rfl | ⟨rfl, v, rfl, hv⟩
    · rfl
    · cases v with
      | colour c => exact absurd rfl (hv c)
      | _ => rfl
  have hstep : (⟨code, fr :: th.stack⟩ : Thread F D E K).step libs g act s'.heap =
      (releaseAll s'.heap fr.call.mode fr.call.refs, ⟨fr.kont (.error e), th.stack⟩, []) := by
    unfold Thread.step
    simp only [ha, hans]
    rfl
  refine ⟨by rw [State.step_self ht', hstep], fun q im => ?_⟩
  have : s'.step libs g act t = ⟨releaseAll s'.heap fr.call.mode fr.call.refs,
      (s'.step libs g act t).threads⟩ := by
    have := State.step_heap (libs := libs) (g := g) (act := act) ht'
    rw [hstep] at this
    dsimp only at this
    rw [← this]
  rw [this]
  exact holds_same i.toInv.releaseAll.1 q im

/-! ## A program

The main thread makes an image of two pixels `a b`, starts a second thread and calls `mod_colors`. The
function of `mod_colors` asks for the length of the image, is refused, and returns `c`. The second
thread calls `map_colors`. -/

section
variable (a b c : Col F)

/-- The program points: the main thread, the function of `mod_colors`, the second thread and its
function. `wrong` is never reached. -/
inductive Point | create | spawn | modify | done | failed | look | give | map | mapped | unmapped | put
  | answer | wrong

def sample : Point → Act F D G E Point
  | .create => .create (.from_list 2 1 [a, b]) fun _ => .spawn
  | .spawn => .spawn .map fun _ => .modify
  | .modify => .mod_colors 0 (fun _ => .look) fun r => match r with | .ok _ => .done | .error _ => .failed
  | .look => .read 0 .len fun r => match r with | .error .alreadyMutablyBorrowed => .give | _ => .wrong
  | .give => .ret (.ok (.colour c))
  | .map => .map_colors 0 (fun _ => .put) fun r => match r with | .ok _ => .mapped | .error _ => .unmapped
  | .put => .write 0 (.put_pixel 0 0 c) fun r =>
      match r with | .error .alreadyBorrowed => .answer | _ => .wrong
  | .answer => .ret (.ok (.colour b))
  | _ => .ret (.ok .none)

variable (libs : Libs F) (g : Rng G F)

/-- The image is half rewritten while the function runs for the second pixel; it cannot look at it. -/
example : ((State.initial .create).run libs g (sample (D := D) (E := E) a b c) [0, 0, 0, 0, 0]).heap.map
    (fun o => o.image.data) = [[c, b]] := by cbv
example : ((State.initial .create).run libs g (sample (D := D) (E := E) a b c) [0, 0, 0, 0, 0]).threads.map
    (fun o => (o.code, o.stack.length)) = [(.look, 1), (.map, 0)] := by cbv
example : ((State.initial .create).run libs g (sample (D := D) (E := E) a b c) [0, 0, 0, 0, 0, 0]).threads.map
    (fun o => (o.code, o.stack.length)) = [(.give, 1), (.map, 0)] := by cbv
/-- Another thread is refused too. -/
example : ((State.initial .create).run libs g (sample (D := D) (E := E) a b c) [0, 0, 0, 0, 0, 1]).threads.map
    (fun o => (o.code, o.stack.length)) = [(.look, 1), (.unmapped, 0)] := by cbv
/-- In the end all pixels are rewritten. -/
example : ((State.initial .create).run libs g (sample (D := D) (E := E) a b c)
    [0, 0, 0, 0, 0, 0, 0]).heap.map (fun o => (o.image.data, o.flag)) = [([c, c], .shared 0)] := by cbv
/-- The other way round: the second thread is first, its function cannot change the image, and the main
thread is refused. -/
example : ((State.initial .create).run libs g (sample (D := D) (E := E) a b c) [0, 0, 1, 1, 0]).threads.map
    (fun o => (o.code, o.stack.length)) = [(.failed, 0), (.answer, 1)] := by cbv
example : ((State.initial .create).run libs g (sample (D := D) (E := E) a b c)
    [0, 0, 1, 1, 0, 1, 1, 1]).heap.map (fun o => o.image.data) = [[a, b], [b, b]] := by cbv

/-- The hypotheses of the theorems are met: `mod_colors` of this program begins, is in progress while its
function runs, and has a plan. -/
example : ∃ s s' : Python.State F D E Point, ∃ th : Thread F D E Point,
    Arises libs g (sample (D := D) (E := E) a b c) .create s ∧ s.threads[0]? = some th ∧
      ChangesWithFunction (sample (D := D) (G := G) (E := E) a b c th.code) 0 ∧
      (∃ codes k made, Plan s (sample (D := D) (G := G) (E := E) a b c th.code) codes k made) ∧
      During libs g (sample (D := D) (E := E) a b c) 0 th.stack.length
        (s.step libs g (sample (D := D) (E := E) a b c) 0) s' ∧
      ∃ fr, s'.threads[0]? = some ⟨.give, fr :: th.stack⟩ := by
  refine ⟨_, _, _, .step (.step .here 0) 0, rfl, .inl ⟨_, _, rfl⟩, ⟨_, _, _, .mod_colors ⟨_, rfl, rfl⟩⟩,
    .step (.here ⟨_, rfl, Nat.zero_lt_one⟩) 0 ⟨_, rfl, Nat.zero_lt_one⟩, _, rfl⟩

end

end
end D10
