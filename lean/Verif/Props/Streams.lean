import Verif.SpecStreams
import Verif.Props.Files

/-!
# Saving to a file that may fail, and reading in pieces (C109, C110)
-/

namespace D10
open Spec

/-! ## One loop -/

/-- All that matters about the loop of `write_all`. -/
theorem pump_spec (z : String) : ∀ (plan : List Answer) (c b : List Nat) {d rest r},
    pump z c b plan = (d, rest, r) →
    d.content ++ rest = c ++ b ∧ (∃ t, d.content = c ++ t) ∧ d.plan <:+ plan ∧ (r = some (.ok ()) → rest = []) ∧
    (∀ e, r = some (.error e) → .failed e ∈ plan ∨ (.took 0 ∈ plan ∧ e = z)) ∧
    (r = none → d.plan = [] ∧ rest ≠ [])
  | [], c, b, d, rest, r, h => by
    unfold pump at h
    split at h <;> cases h
    · rename_i hb
      have : b = [] := List.isEmpty_iff.1 hb
      subst this
      exact ⟨rfl, ⟨[], by simp⟩, List.suffix_rfl, fun _ => rfl, fun _ h => (by cases h), fun h => by cases h⟩
    · rename_i hb
      exact ⟨rfl, ⟨[], by simp⟩, List.suffix_rfl, fun h => (by cases h), fun _ h => (by cases h),
        fun _ => ⟨rfl, fun h => hb (List.isEmpty_iff.2 h)⟩⟩
  | a :: plan, c, b, d, rest, r, h => by
    unfold pump at h
    split at h
    · cases h
      rename_i hb
      have : b = [] := List.isEmpty_iff.1 hb
      subst this
      exact ⟨rfl, ⟨[], by simp⟩, List.suffix_rfl, fun _ => rfl, fun _ h => (by cases h), fun h => by cases h⟩
    · split at h
      · cases h
        exact ⟨rfl, ⟨[], by simp⟩, List.suffix_cons _ _, fun h => (by cases h),
          fun e h => .inr ⟨List.mem_cons_self, by cases h; rfl⟩, fun h => by cases h⟩
      · rename_i n
        obtain ⟨h1, ⟨t, h2⟩, h3, h4, h5, h6⟩ := pump_spec z plan _ _ h
        refine ⟨?_, ⟨b.take (n + 1) ++ t, by rw [h2, List.append_assoc]⟩, h3.trans (List.suffix_cons _ _), h4,
          fun e he => ?_, h6⟩
        · rw [h1, List.append_assoc, List.take_append_drop]
        · exact (h5 e he).imp (List.mem_cons_of_mem _) fun ⟨h, h'⟩ => ⟨List.mem_cons_of_mem _ h, h'⟩
      · obtain ⟨h1, h2, h3, h4, h5, h6⟩ := pump_spec z plan _ _ h
        refine ⟨h1, h2, h3.trans (List.suffix_cons _ _), h4, fun e he => ?_, h6⟩
        exact (h5 e he).imp (List.mem_cons_of_mem _) fun ⟨h, h'⟩ => ⟨List.mem_cons_of_mem _ h, h'⟩
      · cases h
        exact ⟨rfl, ⟨[], by simp⟩, List.suffix_cons _ _, fun h => (by cases h),
          fun e h => .inl (by cases h; exact List.mem_cons_self), fun h => by cases h⟩

/-- Everything handed to the `BufWriter` so far. -/
def BufW.all (w : BufW) : List Nat := w.dev.content ++ w.buf

theorem errorOf_mono {p q : List Answer} {e : String} (h : ErrorOf p e) (s : p <:+ q) : ErrorOf q e :=
  h.imp (fun h => s.subset h) fun ⟨h, h'⟩ => ⟨s.subset h, h'⟩

theorem flush_spec (w : BufW) {w' r} (h : w.flush_buf = (w', r)) :
    w'.all = w.all ∧ w'.buf.length ≤ w.buf.length ∧ w'.dev.plan <:+ w.dev.plan ∧ (r = some (.ok ()) → w'.buf = []) ∧
    (∀ e, r = some (.error e) → ErrorOf w.dev.plan e) ∧ (r = none → w'.dev.plan = []) := by
  unfold BufW.flush_buf at h
  rcases hp : pump "failed to write the buffered data" w.dev.content w.buf w.dev.plan with ⟨d, rest, r'⟩
  rw [hp] at h
  cases h
  obtain ⟨h1, ⟨t, h2⟩, h3, h4, h5, h6⟩ := pump_spec _ _ _ _ hp
  refine ⟨h1, ?_, h3, h4, fun e he => (h5 e he).imp id fun ⟨h, h'⟩ => ⟨h, .inr h'⟩, fun h => (h6 h).1⟩
  have := congrArg List.length h1
  rw [h2] at this
  simp only [List.length_append] at this
  show rest.length ≤ w.buf.length
  omega

theorem dev_spec (d : Dev) (piece : List Nat) {d' r} (h : d.write_all piece = (d', r)) :
    (∃ p, p <+: piece ∧ d'.content = d.content ++ p ∧ (r = some (.ok ()) → p = piece)) ∧
    d'.plan <:+ d.plan ∧ (∀ e, r = some (.error e) → ErrorOf d.plan e) ∧ (r = none → d'.plan = []) := by
  unfold Dev.write_all at h
  rcases hp : pump "failed to write whole buffer" d.content piece d.plan with ⟨d1, rest, r'⟩
  rw [hp] at h
  cases h
  obtain ⟨h1, ⟨t, h2⟩, h3, h4, h5, h6⟩ := pump_spec _ _ _ _ hp
  have e : t ++ rest = piece := by
    rw [h2, List.append_assoc] at h1
    exact List.append_cancel_left h1
  refine ⟨⟨t, ⟨rest, e⟩, h2, fun h => ?_⟩, h3, fun e he => (h5 e he).imp id fun ⟨h, h'⟩ => ⟨h, .inl h'⟩,
    fun h => (h6 h).1⟩
  rw [← e, h4 h, List.append_nil]

theorem write_spec (w : BufW) (piece : List Nat) (hw : w.buf.length ≤ 8192) {w' r}
    (h : w.write_all piece = (w', r)) :
    (∃ p, p <+: piece ∧ w'.all = w.all ++ p ∧ (r = some (.ok ()) → p = piece)) ∧ w'.buf.length ≤ 8192 ∧
    w'.dev.plan <:+ w.dev.plan ∧ (∀ e, r = some (.error e) → ErrorOf w.dev.plan e) ∧
    (r = none → w'.dev.plan = []) := by
  unfold BufW.write_all at h
  have push : ∀ {v : BufW}, v.all = w.all → v.buf.length + piece.length ≤ 8192 → v.dev.plan <:+ w.dev.plan →
      (⟨v.buf ++ piece, v.dev⟩, some (.ok ())) = (w', r) →
      (∃ p, p <+: piece ∧ w'.all = w.all ++ p ∧ (r = some (.ok ()) → p = piece)) ∧ w'.buf.length ≤ 8192 ∧
      w'.dev.plan <:+ w.dev.plan ∧ (∀ e, r = some (.error e) → ErrorOf w.dev.plan e) ∧
      (r = none → w'.dev.plan = []) := by
    intro v hv hl hs h
    cases h
    refine ⟨⟨piece, List.prefix_rfl, ?_, fun _ => rfl⟩, by simpa using hl, hs, fun _ h => (by cases h),
      fun h => by cases h⟩
    rw [← hv]
    simp [BufW.all]
  by_cases small : w.buf.length + piece.length < BufW.capacity
  · rw [if_pos small] at h
    exact push rfl (le_of_lt small) List.suffix_rfl h
  rw [if_neg small] at h
  have direct : ∀ {v : BufW}, v.all = w.all → v.buf = [] → v.dev.plan <:+ w.dev.plan →
      (⟨v.buf, (v.dev.write_all piece).1⟩, (v.dev.write_all piece).2) = (w', r) →
      (∃ p, p <+: piece ∧ w'.all = w.all ++ p ∧ (r = some (.ok ()) → p = piece)) ∧ w'.buf.length ≤ 8192 ∧
      w'.dev.plan <:+ w.dev.plan ∧ (∀ e, r = some (.error e) → ErrorOf w.dev.plan e) ∧
      (r = none → w'.dev.plan = []) := by
    intro v hv hb hs h
    rcases hd : v.dev.write_all piece with ⟨d, r'⟩
    rw [hd] at h
    cases h
    obtain ⟨⟨p, hp, h1, h2⟩, h3, h4, h5⟩ := dev_spec _ _ hd
    refine ⟨⟨p, hp, ?_, h2⟩, by simp [hb], h3.trans hs, fun e he => errorOf_mono (h4 e he) hs, h5⟩
    rw [← hv]
    simp [BufW.all, hb, h1]
  by_cases big : w.buf.length + piece.length > BufW.capacity
  · simp only [if_pos big] at h
    rcases hf : w.flush_buf with ⟨v, rf⟩
    obtain ⟨f1, f2, f3, f4, f5, f6⟩ := flush_spec _ hf
    rw [hf] at h
    rcases rf with _ | e | _
    · cases h
      exact ⟨⟨[], List.nil_prefix, by simp [f1], fun h => by cases h⟩, f2.trans hw, f3, fun _ h => (by cases h), f6⟩
    · cases h
      exact ⟨⟨[], List.nil_prefix, by simp [f1], fun h => by cases h⟩, f2.trans hw, f3, f5, fun h => by cases h⟩
    · have hb := f4 rfl
      simp only at h
      split at h
      · exact direct f1 hb f3 h
      · rename_i hl
        refine push f1 ?_ f3 h
        rw [hb]
        have : ¬ 8192 ≤ piece.length := hl
        simp only [List.length_nil]
        omega
  · simp only [if_neg big] at h
    split at h
    · rename_i hl
      have hl : 8192 ≤ piece.length := hl
      have big : ¬ 8192 < w.buf.length + piece.length := big
      refine direct rfl ?_ List.suffix_rfl h
      exact List.eq_nil_of_length_eq_zero (by omega)
    · exact push rfl (not_lt.1 big) List.suffix_rfl h

theorem tail_spec : ∀ (tail : List (List Nat)) (w : BufW), w.buf.length ≤ 8192 → ∀ {w' r},
    w.write_tail tail = (w', r) →
    (∃ p, p <+: tail.flatten ∧ w'.all = w.all ++ p) ∧ w'.buf.length ≤ 8192 ∧ w'.dev.plan <:+ w.dev.plan ∧
    (w'.all = w.all ++ tail.flatten ∨ r = false ∨ ∃ e, ErrorOf w.dev.plan e) ∧ (r = false → w'.dev.plan = [])
  | [], w, hw, w', r, h => by
    cases h
    exact ⟨⟨[], List.nil_prefix, by simp⟩, hw, List.suffix_rfl, .inl (by simp), fun h => by cases h⟩
  | piece :: rest, w, hw, w', r, h => by
    unfold BufW.write_tail at h
    rcases hp : w.write_all piece with ⟨v, rv⟩
    obtain ⟨⟨p, p1, p2, p3⟩, q, s, e, k⟩ := write_spec w piece hw hp
    rw [hp] at h
    rcases rv with _ | er | _
    · cases h
      exact ⟨⟨p, p1.trans (by simp), p2⟩, q, s, .inr (.inl rfl), fun _ => k rfl⟩
    · cases h
      exact ⟨⟨p, p1.trans (by simp), p2⟩, q, s, .inr (.inr ⟨er, e er rfl⟩), fun h => by cases h⟩
    · obtain ⟨⟨p', a1, a2⟩, b, c, d, f⟩ := tail_spec rest v q h
      cases p3 rfl
      refine ⟨⟨piece ++ p', ?_, ?_⟩, b, c.trans s, ?_, f⟩
      · simpa using a1
      · rw [a2, p2, List.append_assoc]
      · rcases d with d | d | ⟨e', d⟩
        · left; rw [d, p2]; simp
        · exact .inr (.inl d)
        · exact .inr (.inr ⟨e', errorOf_mono d s⟩)

theorem drop_spec (w : BufW) {d ok} (h : w.drop = (d, ok)) :
    (∃ lost, d.content ++ lost = w.all ∧ lost.length ≤ w.buf.length) ∧
    (d.content = w.all ∨ ok = false ∨ ∃ e, ErrorOf w.dev.plan e) ∧ (ok = false → d.plan = []) := by
  unfold BufW.drop at h
  rcases hf : w.flush_buf with ⟨v, r⟩
  obtain ⟨f1, f2, f3, f4, f5, f6⟩ := flush_spec _ hf
  rw [hf] at h
  cases h
  refine ⟨⟨v.buf, f1, f2⟩, ?_, fun h => f6 (by simpa using h)⟩
  rcases r with _ | e | _
  · exact .inr (.inl rfl)
  · exact .inr (.inr ⟨e, f5 e rfl⟩)
  · left
    rw [← f1, BufW.all, f4 rfl, List.append_nil]

theorem done_spec (res : Except EncodingError Unit) (tail : List (List Nat)) (w : BufW)
    (hw : w.buf.length ≤ 8192) {d r} (h : (Run.done res tail).exec w = (d, r)) :
    (∃ lost, d.content ++ lost = w.all ++ tail.flatten ∧ lost.length ≤ 8192 + tail.flatten.length) ∧
    (r = none ∨ r = some res) ∧
    (d.content = w.all ++ tail.flatten ∨ r = none ∨ ∃ e, ErrorOf w.dev.plan e) ∧ (r = none → d.plan = []) := by
  unfold Run.exec at h
  rcases ht : w.write_tail tail with ⟨v, b⟩
  obtain ⟨⟨p, ⟨q, hq⟩, a2⟩, a3, a4, a5, a6⟩ := tail_spec tail w hw ht
  have ql : q.length ≤ tail.flatten.length := by rw [← hq]; simp
  rw [ht] at h
  rcases b with _ | _
  · cases h
    refine ⟨⟨v.buf ++ q, ?_, ?_⟩, .inl rfl, .inr (.inl rfl), fun _ => a6 rfl⟩
    · rw [← List.append_assoc]
      show v.all ++ q = _
      rw [a2, List.append_assoc, hq]
    · rw [List.length_append]; omega
  · simp only at h
    rcases hd : v.drop with ⟨d', b'⟩
    obtain ⟨⟨lost, l1, l2⟩, l3, l4⟩ := drop_spec v hd
    rw [hd] at h
    have loss : ∃ lost, d'.content ++ lost = w.all ++ tail.flatten ∧ lost.length ≤ 8192 + tail.flatten.length := by
      refine ⟨lost ++ q, ?_, ?_⟩
      · rw [← List.append_assoc, l1, a2, List.append_assoc, hq]
      · rw [List.length_append]; omega
    rcases b' with _ | _
    · cases h
      exact ⟨loss, .inl rfl, .inr (.inl rfl), fun _ => l4 rfl⟩
    · cases h
      refine ⟨loss, .inr rfl, ?_, fun h => by cases h⟩
      rcases l3 with l3 | l3 | ⟨e, l3⟩
      · rcases a5 with a5 | a5 | ⟨e, a5⟩
        · left; rw [l3, a5]
        · cases a5
        · exact .inr (.inr ⟨e, a5⟩)
      · cases l3
      · exact .inr (.inr ⟨e, errorOf_mono l3 a4⟩)

/-! ## Saving -/

/-- Saving from any state of the `BufWriter`. -/
theorem exec_spec (T : List (List Nat)) : ∀ (run : Run), PassesOn T run → ∀ (w : BufW), w.buf.length ≤ 8192 →
    ∀ {d r}, run.exec w = (d, r) →
    (∃ p t, d.content = p ++ t ∧ p <+: w.all ++ fileBytes run ∧ t <+: T.flatten ∧ (r = some (.ok ()) → t = [])) ∧
    (r = some (.ok ()) → ∃ lost, d.content ++ lost = w.all ++ fileBytes run ∧
      lost.length ≤ 8192 + (tailBytes run).length) ∧
    (r = none ∨ r = some (ownResult run) ∨
      ∃ e, r = some (.error (.IoError e)) ∧ ErrorOf w.dev.plan e) ∧
    (d.content = w.all ++ fileBytes run ∧ r = some (ownResult run) ∨ r = none ∨ ∃ e, ErrorOf w.dev.plan e) := by
  intro run
  -- what follows one write or flush that handed over `b`, or failed after a part of it
  have step : ∀ (b : List Nat) (next : Except String Unit → Run),
      (∀ e, next (.error e) = .done (.error (.IoError e)) T) → ∀ (w v : BufW) (p : List Nat) (rv),
      p <+: b → v.all = w.all ++ p → (rv = some (.ok ()) → p = b) → v.buf.length ≤ 8192 →
      v.dev.plan <:+ w.dev.plan → (∀ e, rv = some (.error e) → ErrorOf w.dev.plan e) →
      (∀ {d r}, rv = some (.ok ()) → (next (.ok ())).exec v = (d, r) →
        (∃ p t, d.content = p ++ t ∧ p <+: v.all ++ fileBytes (next (.ok ())) ∧ t <+: T.flatten ∧
          (r = some (.ok ()) → t = [])) ∧
        (r = some (.ok ()) → ∃ lost, d.content ++ lost = v.all ++ fileBytes (next (.ok ())) ∧
          lost.length ≤ 8192 + (tailBytes (next (.ok ()))).length) ∧
        (r = none ∨ r = some (ownResult (next (.ok ()))) ∨
          ∃ e, r = some (.error (.IoError e)) ∧ ErrorOf v.dev.plan e) ∧
        (d.content = v.all ++ fileBytes (next (.ok ())) ∧ r = some (ownResult (next (.ok ()))) ∨ r = none ∨
          ∃ e, ErrorOf v.dev.plan e)) →
      ∀ {d r}, (match (v, rv) with
        | (v, some r) => (next r).exec v
        | (v, none) => (v.dev, none)) = (d, r) →
      (∃ p t, d.content = p ++ t ∧ p <+: w.all ++ (b ++ fileBytes (next (.ok ()))) ∧ t <+: T.flatten ∧
        (r = some (.ok ()) → t = [])) ∧
      (r = some (.ok ()) → ∃ lost, d.content ++ lost = w.all ++ (b ++ fileBytes (next (.ok ()))) ∧
        lost.length ≤ 8192 + (tailBytes (next (.ok ()))).length) ∧
      (r = none ∨ r = some (ownResult (next (.ok ()))) ∨
        ∃ e, r = some (.error (.IoError e)) ∧ ErrorOf w.dev.plan e) ∧
      (d.content = w.all ++ (b ++ fileBytes (next (.ok ()))) ∧ r = some (ownResult (next (.ok ()))) ∨ r = none ∨
        ∃ e, ErrorOf w.dev.plan e) := by
    intro b next he w v p rv hp hall hok hv hs herr ih d r h
    have pre : v.all <+: w.all ++ (b ++ fileBytes (next (.ok ()))) := by
      rw [hall]
      exact (List.prefix_append_right_inj _).2 (hp.trans (List.prefix_append _ _))
    rcases rv with _ | e | _
    · cases h
      refine ⟨⟨v.dev.content, [], by simp, ?_, List.nil_prefix, fun _ => rfl⟩, fun h => (by cases h), .inl rfl,
        .inr (.inl rfl)⟩
      exact (List.prefix_append _ _).trans pre
    · simp only [he] at h
      obtain ⟨⟨lost, l1, _⟩, l2, _, _⟩ := done_spec _ _ v hv h
      have notok : r ≠ some (.ok ()) := by rcases l2 with l2 | l2 <;> rw [l2] <;> simp
      refine ⟨?_, fun h => absurd h notok, ?_, .inr (.inr ⟨e, herr e rfl⟩)⟩
      · rcases List.append_eq_append_iff.1 l1 with ⟨a, a1, _⟩ | ⟨a, a1, a2⟩
        · exact ⟨d.content, [], by simp, List.IsPrefix.trans ⟨a, a1.symm⟩ pre, List.nil_prefix,
            fun _ => rfl⟩
        · exact ⟨v.all, a, a1, pre, ⟨lost, a2.symm⟩, fun h => absurd h notok⟩
      · rcases l2 with l2 | l2
        · exact .inl l2
        · exact .inr (.inr ⟨e, l2, herr e rfl⟩)
    · have hb := hok rfl
      subst hb
      have assoc : v.all ++ fileBytes (next (.ok ())) = w.all ++ (p ++ fileBytes (next (.ok ()))) := by
        rw [hall, List.append_assoc]
      have := ih rfl h
      rw [assoc] at this
      obtain ⟨i1, i2, i3, i4⟩ := this
      refine ⟨i1, i2, ?_, ?_⟩
      · rcases i3 with i3 | i3 | ⟨e, i3, i3'⟩
        · exact .inl i3
        · exact .inr (.inl i3)
        · exact .inr (.inr ⟨e, i3, errorOf_mono i3' hs⟩)
      · rcases i4 with i4 | i4 | ⟨e, i4⟩
        · exact .inl i4
        · exact .inr (.inl i4)
        · exact .inr (.inr ⟨e, errorOf_mono i4 hs⟩)
  induction run with
  | write piece next ih =>
    intro hT w hw d r h
    unfold Run.exec at h
    rcases hp : w.write_all piece with ⟨v, rv⟩
    obtain ⟨⟨p, p1, p2, p3⟩, q, s, e, k⟩ := write_spec w piece hw hp
    rw [hp] at h
    have := step piece next hT.1 w v p rv p1 p2 p3 q s e (fun _ hx => ih _ hT.2 v q hx) h
    simpa only [fileBytes, mainBytes, tailBytes, ownResult, List.append_assoc] using this
  | flush next ih =>
    intro hT w hw d r h
    unfold Run.exec at h
    rcases hp : w.flush_buf with ⟨v, rv⟩
    obtain ⟨f1, f2, f3, f4, f5, f6⟩ := flush_spec w hp
    rw [hp] at h
    have := step [] next hT.1 w v [] rv List.prefix_rfl (by simp [f1]) (fun _ => rfl) (f2.trans hw) f3 f5
      (fun _ hx => ih _ hT.2 v (f2.trans hw) hx) h
    simpa only [fileBytes, mainBytes, tailBytes, ownResult, List.nil_append] using this
  | done res tail =>
    intro _ w hw d r h
    obtain ⟨⟨lost, l1, l2⟩, l3, l4, _⟩ := done_spec res tail w hw h
    refine ⟨⟨d.content, [], by simp, ⟨lost, by simpa [fileBytes, mainBytes, tailBytes] using l1⟩, List.nil_prefix,
      fun _ => rfl⟩, fun _ => ⟨lost, by simpa [fileBytes, mainBytes, tailBytes] using l1, l2⟩, ?_, ?_⟩
    · exact l3.imp id fun h => .inl h
    · rcases l3 with l3 | l3
      · exact .inr (.inl l3)
      · rcases l4 with l4 | l4 | l4
        · exact .inl ⟨by simpa [fileBytes, mainBytes, tailBytes] using l4, l3⟩
        · exact .inr (.inl l4)
        · exact .inr (.inr l4)

/-! ## A file that takes everything -/

theorem good_no_error {plan : List Answer} (hg : ∀ a ∈ plan, Good a) (e : String) : ¬ ErrorOf plan e := by
  rintro (h | ⟨h, _⟩)
  · rcases hg _ h with ⟨n, h⟩ | h <;> cases h
  · rcases hg _ h with ⟨n, h⟩ | h <;> cases h

/-- Taking answers still to come, and bytes taken. -/
def Dev.worth (d : Dev) : Nat := tooks d.plan + d.content.length

theorem pump_worth (z : String) : ∀ (plan : List Answer) (c b : List Nat) {d rest r},
    pump z c b plan = (d, rest, r) → tooks plan + c.length ≤ d.worth
  | [], c, b, d, rest, r, h => by
    unfold pump at h
    split at h <;> cases h <;> exact le_rfl
  | a :: plan, c, b, d, rest, r, h => by
    unfold pump at h
    split at h
    · cases h; exact le_rfl
    · rename_i hb
      split at h
      · cases h; simp [Dev.worth, tooks]
      · rename_i n
        have ih := pump_worth z plan _ _ h
        have : 0 < b.length := List.length_pos_iff.2 fun h => hb (List.isEmpty_iff.2 h)
        simp [tooks] at ih ⊢
        omega
      · have ih := pump_worth z plan _ _ h
        simpa [tooks] using ih
      · cases h; simp [Dev.worth, tooks]

theorem flush_worth (w : BufW) {w' r} (h : w.flush_buf = (w', r)) :
    w.dev.worth ≤ w'.dev.worth ∧ (r = none → w'.dev.content.length < w.all.length) := by
  unfold BufW.flush_buf at h
  rcases hp : pump "failed to write the buffered data" w.dev.content w.buf w.dev.plan with ⟨d, rest, r'⟩
  rw [hp] at h
  cases h
  obtain ⟨h1, -, -, -, -, h6⟩ := pump_spec _ _ _ _ hp
  refine ⟨pump_worth _ _ _ _ hp, fun h => ?_⟩
  have := congrArg List.length h1
  have := List.length_pos_iff.2 (h6 h).2
  simp only [BufW.all, List.length_append] at *
  omega

theorem dev_worth (d : Dev) (piece : List Nat) {d' r} (h : d.write_all piece = (d', r)) :
    d.worth ≤ d'.worth ∧ (r = none → d'.content.length < d.content.length + piece.length) := by
  unfold Dev.write_all at h
  rcases hp : pump "failed to write whole buffer" d.content piece d.plan with ⟨d1, rest, r'⟩
  rw [hp] at h
  cases h
  obtain ⟨h1, -, -, -, -, h6⟩ := pump_spec _ _ _ _ hp
  refine ⟨pump_worth _ _ _ _ hp, fun h => ?_⟩
  have := congrArg List.length h1
  have := List.length_pos_iff.2 (h6 h).2
  simp only [List.length_append] at *
  omega

theorem write_worth (w : BufW) (piece : List Nat) {w' r} (h : w.write_all piece = (w', r)) :
    w.dev.worth ≤ w'.dev.worth ∧ (r = none → w'.dev.content.length < w.all.length + piece.length) := by
  unfold BufW.write_all at h
  by_cases small : w.buf.length + piece.length < BufW.capacity
  · rw [if_pos small] at h
    cases h
    exact ⟨le_rfl, fun h => by cases h⟩
  rw [if_neg small] at h
  have direct : ∀ {v : BufW}, v.all = w.all → w.dev.worth ≤ v.dev.worth →
      (⟨v.buf, (v.dev.write_all piece).1⟩, (v.dev.write_all piece).2) = (w', r) →
      w.dev.worth ≤ w'.dev.worth ∧ (r = none → w'.dev.content.length < w.all.length + piece.length) := by
    intro v hv hw h
    rcases hd : v.dev.write_all piece with ⟨d, r'⟩
    rw [hd] at h
    cases h
    obtain ⟨h1, h2⟩ := dev_worth _ _ hd
    refine ⟨hw.trans h1, fun h => ?_⟩
    have := h2 h
    rw [← hv]
    simp only [BufW.all, List.length_append]
    omega
  by_cases big : w.buf.length + piece.length > BufW.capacity
  · simp only [if_pos big] at h
    rcases hf : w.flush_buf with ⟨v, rf⟩
    obtain ⟨f1, f2⟩ := flush_worth _ hf
    rw [hf] at h
    rcases rf with _ | e | _
    · cases h
      exact ⟨f1, fun h => Nat.lt_add_right _ (f2 h)⟩
    · cases h
      exact ⟨f1, fun h => by cases h⟩
    · simp only at h
      split at h
      · exact direct (flush_spec _ hf).1 f1 h
      · cases h
        exact ⟨f1, fun h => by cases h⟩
  · simp only [if_neg big] at h
    split at h
    · exact direct rfl le_rfl h
    · cases h
      exact ⟨le_rfl, fun h => by cases h⟩

theorem tail_worth : ∀ (tail : List (List Nat)) (w : BufW), w.buf.length ≤ 8192 → ∀ {w' r},
    w.write_tail tail = (w', r) → w.dev.worth ≤ w'.dev.worth ∧
      (r = false → w'.dev.content.length < w.all.length + tail.flatten.length)
  | [], w, hw, w', r, h => by
    cases h
    exact ⟨le_rfl, fun h => by cases h⟩
  | piece :: rest, w, hw, w', r, h => by
    unfold BufW.write_tail at h
    rcases hp : w.write_all piece with ⟨v, rv⟩
    obtain ⟨a, b⟩ := write_worth w piece hp
    obtain ⟨⟨p, p1, p2, p3⟩, q, _⟩ := write_spec w piece hw hp
    rw [hp] at h
    rcases rv with _ | er | _
    · cases h
      refine ⟨a, fun _ => ?_⟩
      have := b rfl
      simp only [List.flatten_cons, List.length_append]
      omega
    · cases h
      exact ⟨a, fun h => by cases h⟩
    · obtain ⟨c, d⟩ := tail_worth rest v q h
      cases p3 rfl
      refine ⟨a.trans c, fun h => ?_⟩
      have := d h
      rw [p2] at this
      simp only [List.flatten_cons, List.length_append] at this ⊢
      omega

/-- No run is stopped by a system that answers often enough. -/
theorem exec_good : ∀ (run : Run) (w : BufW), w.buf.length ≤ 8192 → (∀ a ∈ w.dev.plan, Good a) →
    ∀ {d r}, run.exec w = (d, r) →
    (d.content = w.all ++ fileBytes run ∧ r = some (ownResult run)) ∨
    (r = none ∧ d.plan = [] ∧ d.content <+: w.all ++ fileBytes run ∧
      d.content.length < (w.all ++ fileBytes run).length ∧ w.dev.worth ≤ d.worth) := by
  intro run
  induction run with
  | write piece next ih =>
    intro w hw hg d r h
    unfold Run.exec at h
    rcases hp : w.write_all piece with ⟨v, rv⟩
    obtain ⟨⟨p, p1, p2, p3⟩, q, s, e, k⟩ := write_spec w piece hw hp
    obtain ⟨a, b⟩ := write_worth w piece hp
    rw [hp] at h
    rcases rv with _ | er | _
    · cases h
      have := b rfl
      refine .inr ⟨rfl, k rfl, ?_, ?_, a⟩
      · have : v.all <+: w.all ++ fileBytes (.write piece next) := by
          rw [p2]
          refine (List.prefix_append_right_inj _).2 (p1.trans ?_)
          simp only [fileBytes, mainBytes, List.append_assoc]
          exact List.prefix_append _ _
        exact (List.prefix_append _ _).trans this
      · simp only [fileBytes, mainBytes, List.length_append]
        omega
    · exact absurd (e er rfl) (good_no_error hg er)
    · cases p3 rfl
      have := ih (.ok ()) v q (fun a ha => hg a (s.subset ha)) h
      rw [p2] at this
      simp only [fileBytes, mainBytes, tailBytes, ownResult, List.append_assoc] at this ⊢
      rcases this with this | ⟨h1, h2, h3, h4, h5⟩
      · exact .inl this
      · exact .inr ⟨h1, h2, h3, h4, a.trans h5⟩
  | flush next ih =>
    intro w hw hg d r h
    unfold Run.exec at h
    rcases hp : w.flush_buf with ⟨v, rv⟩
    obtain ⟨f1, f2, f3, f4, f5, f6⟩ := flush_spec w hp
    obtain ⟨a, b⟩ := flush_worth w hp
    rw [hp] at h
    rcases rv with _ | er | _
    · cases h
      have := b rfl
      refine .inr ⟨rfl, f6 rfl, ?_, ?_, a⟩
      · rw [← f1]
        exact (List.prefix_append _ _).trans (List.prefix_append _ _)
      · simp only [List.length_append]
        omega
    · exact absurd (f5 er rfl) (good_no_error hg er)
    · have := ih (.ok ()) v (f2.trans hw) (fun a ha => hg a (f3.subset ha)) h
      rw [f1] at this
      rcases this with this | ⟨h1, h2, h3, h4, h5⟩
      · exact .inl this
      · exact .inr ⟨h1, h2, h3, h4, a.trans h5⟩
  | done res tail =>
    intro w hw hg d r h
    obtain ⟨⟨lost, l1, l2⟩, l3, l4, l5⟩ := done_spec res tail w hw h
    have fb : fileBytes (.done res tail) = tail.flatten := by simp [fileBytes, mainBytes, tailBytes]
    rw [fb]
    rcases l3 with l3 | l3
    · refine .inr ⟨l3, l5 l3, ⟨lost, l1⟩, ?_⟩
      subst l3
      unfold Run.exec at h
      rcases ht : w.write_tail tail with ⟨v, b⟩
      obtain ⟨t1, t2⟩ := tail_worth tail w hw ht
      obtain ⟨⟨p, ⟨q, hq⟩, a2⟩, _⟩ := tail_spec tail w hw ht
      rw [ht] at h
      rcases b with _ | _
      · cases h
        exact ⟨by simpa using t2 rfl, t1⟩
      · simp only at h
        rcases hd : v.drop with ⟨d', b'⟩
        rw [hd] at h
        rcases b' with _ | _
        · cases h
          unfold BufW.drop at hd
          rcases hf : v.flush_buf with ⟨u, ru⟩
          obtain ⟨u1, u2⟩ := flush_worth v hf
          rw [hf] at hd
          simp only [Prod.mk.injEq] at hd
          obtain ⟨rfl, hd⟩ := hd
          have := u2 (by simpa using hd)
          refine ⟨?_, t1.trans u1⟩
          have hq := congrArg List.length hq
          rw [a2] at this
          simp only [List.length_append] at this hq ⊢
          omega
        · cases h
    · rcases l4 with l4 | l4 | ⟨e, l4⟩
      · exact .inl ⟨l4, l3⟩
      · rw [l3] at l4; cases l4
      · exact absurd l4 (good_no_error hg e)

/-! ## The theorems -/

/-- C109: whenever and however saving ends, also if the process is stopped in the middle, the file holds
the beginning of what the encoder wrote; after a failure possibly followed by what the destructor of
the encoder adds. Nothing of an older file under that name is left. -/
theorem C109_prefix (T : List (List Nat)) (run : Run) (hT : PassesOn T run) (plan : List Answer) {d r}
    (h : save_run run plan = (d, r)) :
    ∃ p t, d.content = p ++ t ∧ p <+: fileBytes run ∧ t <+: T.flatten ∧ (r = some (.ok ()) → t = []) := by
  simpa [BufW.all] using (exec_spec T run hT _ (by simp) h).1

/-- C109: if saving succeeds, at most the last 8192 bytes are missing, besides those written by the
destructor of the encoder. -/
theorem C109_ok (T : List (List Nat)) (run : Run) (hT : PassesOn T run) (plan : List Answer) {d}
    (h : save_run run plan = (d, some (.ok ()))) :
    ∃ lost, d.content ++ lost = fileBytes run ∧ lost.length ≤ 8192 + (tailBytes run).length := by
  simpa [BufW.all] using (exec_spec T run hT _ (by simp) h).2.1 rfl

/-- C109: the result is the encoder's own, or an error of the file. -/
theorem C109_result (T : List (List Nat)) (run : Run) (hT : PassesOn T run) (plan : List Answer) {d r}
    (h : save_run run plan = (d, some r)) :
    r = ownResult run ∨ ∃ e, r = .error (.IoError e) ∧ ErrorOf plan e := by
  rcases (exec_spec T run hT _ (by simp) h).2.2.1 with h | h | ⟨e, h, h'⟩
  · cases h
  · cases h; exact .inl rfl
  · cases h; exact .inr ⟨e, rfl, h'⟩

/-- C109: with a file that takes everything, in pieces of any size, all bytes are in it and the result
is the encoder's own; unless the process is stopped, which answers to every byte exclude. -/
theorem C109_reliable (run : Run) (plan : List Answer) (hg : ∀ a ∈ plan, Good a) {d r}
    (h : save_run run plan = (d, r)) :
    (d.content = fileBytes run ∧ r = some (ownResult run)) ∨
      (r = none ∧ d.content <+: fileBytes run ∧ tooks plan < (fileBytes run).length) := by
  rcases exec_good run _ (by simp) hg h with h | ⟨h1, h2, h3, h4, h5⟩
  · exact .inl (by simpa [BufW.all] using h)
  · refine .inr ⟨h1, by simpa [BufW.all] using h3, ?_⟩
    simp [BufW.all, Dev.worth, h2, tooks] at h4 h5
    simp only [tooks]
    omega

/-- C109: if the encoder flushes at the end, a file that was saved successfully is complete. -/
theorem C109_flushed (T : List (List Nat)) (run : Run) (hT : PassesOn T run) (hf : FlushesLast run)
    (plan : List Answer) {d} (h : save_run run plan = (d, some (.ok ()))) : d.content = fileBytes run := by
  have key : ∀ (run : Run), PassesOn T run → FlushesLast run → ∀ (w : BufW), w.buf.length ≤ 8192 →
      ∀ {d}, run.exec w = (d, some (.ok ())) → d.content = w.all ++ fileBytes run := by
    have err : ∀ {e : String} {w : BufW} {d}, w.buf.length ≤ 8192 →
        (Run.done (.error (.IoError e)) T).exec w ≠ (d, some (.ok ())) := by
      intro e w d hw h
      rcases (done_spec _ _ w hw h).2.1 with h | h <;> cases h
    intro run
    induction run with
    | write piece next ih =>
      intro hT hf w hw d h
      unfold Run.exec at h
      rcases hp : w.write_all piece with ⟨v, rv⟩
      obtain ⟨⟨p, p1, p2, p3⟩, q, s, e, k⟩ := write_spec w piece hw hp
      rw [hp] at h
      rcases rv with _ | er | _
      · cases h
      · simp only [hT.1] at h
        exact absurd h (err q)
      · cases p3 rfl
        have := ih _ hT.2 hf v q h
        rw [this, p2]
        simp [fileBytes, mainBytes, tailBytes]
    | flush next ih =>
      intro hT hf w hw d h
      unfold Run.exec at h
      rcases hp : w.flush_buf with ⟨v, rv⟩
      obtain ⟨f1, f2, f3, f4, f5, f6⟩ := flush_spec w hp
      rw [hp] at h
      rcases rv with _ | er | _
      · cases h
      · simp only [hT.1] at h
        exact absurd h (err (f2.trans hw))
      · rcases hf with ⟨r, hr⟩ | hf
        · simp only [hr] at h
          obtain ⟨⟨lost, l1, l2⟩, _⟩ := drop_spec v (d := v.drop.1) (ok := v.drop.2) rfl
          have l0 : lost = [] := List.eq_nil_of_length_eq_zero (by rw [f4 rfl] at l2; simpa using l2)
          simp only [Run.exec, BufW.write_tail] at h
          have hd : d = v.drop.1 := by
            rcases hd : v.drop with ⟨d', b⟩
            rw [hd] at h
            rcases b with _ | _ <;> cases h
            rfl
          rw [hd]
          rw [l0, List.append_nil] at l1
          rw [l1, f1]
          simp [fileBytes, mainBytes, tailBytes, hr]
        · have := ih _ hT.2 hf v (f2.trans hw) h
          rw [this, f1]
          simp [fileBytes, mainBytes, tailBytes]
    | done res tail => intro _ hf; exact absurd hf id
  simpa [BufW.all] using key run hT hf _ (by simp) h

/-- C109: otherwise a failure can go unnoticed. If an encoder writes two pieces that fit in the buffer
together, and the first `write` call fails, saving succeeds and the file is empty. -/
theorem C109_silent (a b : List Nat) (hab : a.length + b.length ≤ 8192) (ha : a.length < 8192)
    (hb : b.length < 8192) (h0 : a ++ b ≠ []) (e : String) (plan : List Answer) :
    let run := Run.write a fun r => match r with
      | .error e => .done (.error (.IoError e)) []
      | .ok () => .write b fun r => match r with
        | .error e => .done (.error (.IoError e)) []
        | .ok () => .done (.ok ()) []
    PassesOn [] run ∧ fileBytes run = a ++ b ∧
      save_run run (.failed e :: plan) = (⟨[], plan⟩, some (.ok ())) := by
  refine ⟨⟨fun _ => rfl, fun _ => rfl, trivial⟩, by simp [fileBytes, mainBytes, tailBytes], ?_⟩
  have w1 : BufW.write_all ⟨[], ⟨[], .failed e :: plan⟩⟩ a = (⟨a, ⟨[], .failed e :: plan⟩⟩, some (.ok ())) := by
    unfold BufW.write_all
    rw [if_pos (by simpa [BufW.capacity] using ha)]
    rfl
  have w2 : BufW.write_all ⟨a, ⟨[], .failed e :: plan⟩⟩ b =
      (⟨a ++ b, ⟨[], .failed e :: plan⟩⟩, some (.ok ())) := by
    unfold BufW.write_all
    by_cases h : a.length + b.length < BufW.capacity
    · rw [if_pos h]
    · rw [if_neg h]
      have h1 : ¬ (a.length + b.length > BufW.capacity) := by simp [BufW.capacity]; omega
      have h2 : ¬ (b.length ≥ BufW.capacity) := by simp [BufW.capacity]; omega
      simp only [if_neg h1, if_neg h2]
  have f : BufW.flush_buf ⟨a ++ b, ⟨[], .failed e :: plan⟩⟩ = (⟨a ++ b, ⟨[], plan⟩⟩, some (.error e)) := by
    unfold BufW.flush_buf pump
    have : (a ++ b).isEmpty = false := by
      rw [Bool.eq_false_iff]
      exact fun h => h0 (List.isEmpty_iff.1 h)
    simp [this]
  simp only [save_run, Run.exec, w1, w2, BufW.write_tail, BufW.drop, f, Option.isSome_some]

/-- C109: saving to memory. -/
theorem C109_to_buffer (run : Run) : run.execVec [] = (fileBytes run, ownResult run) := by
  have key : ∀ (run : Run) (out : List Nat), run.execVec out = (out ++ fileBytes run, ownResult run) := by
    intro run
    induction run with
    | write piece next ih => intro out; simp [Run.execVec, ih, fileBytes, mainBytes, tailBytes, ownResult]
    | flush next ih => intro out; simp [Run.execVec, ih, fileBytes, mainBytes, tailBytes, ownResult]
    | done res tail => intro out; simp [Run.execVec, fileBytes, mainBytes, tailBytes, ownResult]
  simpa using key run []

/-- C109: saving to an open file given as a writer, which keeps nothing back: if it succeeds, only bytes
written by the destructor of the encoder can be missing. -/
theorem C109_to_writer (T : List (List Nat)) (run : Run) (hT : PassesOn T run) (start : Dev) {d}
    (h : run.execDev start = (d, some (.ok ()))) :
    ∃ lost, d.content ++ lost = start.content ++ fileBytes run ∧ lost <:+ tailBytes run := by
  have tl : ∀ (tail : List (List Nat)) (s d : Dev) (b : Bool), Run.execDev.tailDev tail s = (d, b) →
      ∃ lost, d.content ++ lost = s.content ++ tail.flatten ∧ lost <:+ tail.flatten := by
    intro tail
    induction tail with
    | nil => intro s d b h; cases h; exact ⟨[], by simp, by simp⟩
    | cons piece rest ih =>
      intro s d b h
      unfold Run.execDev.tailDev at h
      rcases hp : s.write_all piece with ⟨v, rv⟩
      obtain ⟨⟨p, ⟨q, hq⟩, p2, p3⟩, _⟩ := dev_spec s piece hp
      rw [hp] at h
      have stop : ∃ lost, v.content ++ lost = s.content ++ (piece :: rest).flatten ∧
          lost <:+ (piece :: rest).flatten :=
        ⟨q ++ rest.flatten, by rw [p2, ← hq]; simp, ⟨p, by rw [← hq]; simp⟩⟩
      rcases rv with _ | er | _
      · cases h; exact stop
      · cases h; exact stop
      · obtain ⟨lost, l1, l2⟩ := ih v d b h
        cases p3 rfl
        exact ⟨lost, by rw [l1, p2]; simp, l2.trans (by simp)⟩
  have key : ∀ (run : Run), PassesOn T run → ∀ (s : Dev) {d}, run.execDev s = (d, some (.ok ())) →
      ∃ lost, d.content ++ lost = s.content ++ fileBytes run ∧ lost <:+ tailBytes run := by
    intro run
    induction run with
    | write piece next ih =>
      intro hT s d h
      unfold Run.execDev at h
      rcases hp : s.write_all piece with ⟨v, rv⟩
      obtain ⟨⟨p, hq, p2, p3⟩, _⟩ := dev_spec s piece hp
      rw [hp] at h
      rcases rv with _ | er | _
      · cases h
      · simp only [hT.1, Run.execDev] at h
        rcases ht : Run.execDev.tailDev T v with ⟨u, b⟩
        rw [ht] at h
        rcases b with _ | _ <;> cases h
      · cases p3 rfl
        obtain ⟨lost, l1, l2⟩ := ih _ hT.2 v h
        refine ⟨lost, ?_, l2⟩
        rw [l1, p2]
        simp [fileBytes, mainBytes, tailBytes]
    | flush next ih => intro hT s d h; exact ih _ hT.2 s h
    | done res tail =>
      intro _ s d h
      unfold Run.execDev at h
      rcases ht : Run.execDev.tailDev tail s with ⟨u, b⟩
      obtain ⟨lost, l1, l2⟩ := tl tail s u b ht
      rw [ht] at h
      rcases b with _ | _
      · cases h
      · cases h
        exact ⟨lost, by simpa [fileBytes, mainBytes, tailBytes] using l1, l2⟩
  exact key run hT start h

/-! ## WebP -/

/-- C109: the WebP encoder passes on the errors of the writer, if the library stops when told of one;
its file and result are those Model/Codecs describes. -/
theorem C109_webp (calls : WebPCalls) (hs : WebPStops calls) :
    PassesOn [] (webpRun calls none) ∧ FlushesLast (webpRun calls none) = False ∧
    fileBytes (webpRun calls none) = (webpBytes calls).1 ∧ tailBytes (webpRun calls none) = [] ∧
    ownResult (webpRun calls none) =
      if (webpBytes calls).2 then .ok () else .error (.Encoding "Error encoding webp file") := by
  induction calls with
  | call piece next ih =>
    obtain ⟨⟨res, h1⟩, h2⟩ := hs
    obtain ⟨a, b, c, d, e⟩ := ih true h2
    refine ⟨⟨fun e => ?_, a⟩, b, ?_, d, e⟩
    · simp only [h1, webpRun]
    · rw [fileBytes, d, List.append_nil] at c
      simp only [fileBytes, webpRun, mainBytes, tailBytes, c, d, webpBytes, List.append_nil]
  | done res => exact ⟨trivial, rfl, rfl, rfl, rfl⟩

theorem C109_webp_encode {F : Type} [Scalar F] (libs : Libs F) (buffer : PixelBuffer (Col F)) (quality : Nat)
    (preset : WebPPreset) (calls : WebPCalls) (hs : WebPStops calls)
    (hl : libs.webp_write ⟨match preset with | .Lossless => none | p => some (p, min 100 quality),
      asI32 buffer.width, asI32 buffer.height, to_argb8_vec32 buffer⟩ =
        .ok ((webpBytes calls).1, none, (webpBytes calls).2)) :
    encode_webp libs buffer quality preset =
      ⟨fileBytes (webpRun calls none), ownResult (webpRun calls none)⟩ := by
  obtain ⟨-, -, c, -, e⟩ := C109_webp calls hs
  rw [c, e]
  unfold encode_webp
  cases preset <;> simp only at hl ⊢ <;> rw [hl]

/-- C109: even if the library goes on after a failed write, and whatever it returns, success is reported
only if no write failed and the library succeeded. -/
theorem C109_webp_ok (calls : WebPCalls) (plan : List Answer) {d}
    (h : save_run (webpRun calls none) plan = (d, some (.ok ()))) :
    (webpBytes calls).2 = true ∧ ∃ lost, d.content ++ lost = (webpBytes calls).1 ∧ lost.length ≤ 8192 := by
  have bad : ∀ (calls : WebPCalls) (e : String) (w : BufW) {d}, w.buf.length ≤ 8192 →
      (webpRun calls (some e)).exec w ≠ (d, some (.ok ())) := by
    intro calls
    induction calls with
    | call piece next ih =>
      intro e w d hw h
      unfold webpRun Run.exec at h
      rcases hp : w.write_all piece with ⟨v, rv⟩
      obtain ⟨_, q, _⟩ := write_spec w piece hw hp
      rw [hp] at h
      rcases rv with _ | er | _
      · cases h
      · exact ih _ er v q h
      · exact ih _ e v q h
    | done res =>
      intro e w d hw h
      rcases (done_spec _ _ w hw h).2.1 with h | h <;> cases h
  have key : ∀ (calls : WebPCalls) (w : BufW), w.buf.length ≤ 8192 → ∀ {d},
      (webpRun calls none).exec w = (d, some (.ok ())) →
      (webpBytes calls).2 = true ∧ ∃ lost, d.content ++ lost = w.all ++ (webpBytes calls).1 ∧ lost.length ≤ 8192 := by
    intro calls
    induction calls with
    | call piece next ih =>
      intro w hw d h
      unfold webpRun Run.exec at h
      rcases hp : w.write_all piece with ⟨v, rv⟩
      obtain ⟨⟨p, p1, p2, p3⟩, q, _⟩ := write_spec w piece hw hp
      rw [hp] at h
      rcases rv with _ | er | _
      · cases h
      · exact absurd h (bad _ er v q)
      · cases p3 rfl
        obtain ⟨i1, lost, i2, i3⟩ := ih true v q h
        exact ⟨i1, lost, by rw [i2, p2]; simp [webpBytes], i3⟩
    | done res =>
      intro w hw d h
      obtain ⟨⟨lost, l1, l2⟩, l3, _⟩ := done_spec _ _ w hw h
      refine ⟨?_, lost, by simpa [webpBytes] using l1, by simpa using l2⟩
      rcases res with _ | _
      · rcases l3 with l3 | l3 <;> cases l3
      · rfl
  simpa [BufW.all] using key calls _ (by simp) h

/-! ## Reading -/

/-- C110: the WebP decoder gets the whole input, however it is cut into pieces. -/
theorem C110_whole (pieces : List (List Nat)) (hp : ∀ p ∈ pieces, p ≠ []) (rest : Reads) :
    read_loop [] (pieces.map .ok ++ .ok [] :: rest) = some (.ok pieces.flatten) := by
  have key : ∀ (pieces : List (List Nat)) (data : List Nat), (∀ p ∈ pieces, p ≠ []) →
      read_loop data (pieces.map .ok ++ .ok [] :: rest) = some (.ok (data ++ pieces.flatten)) := by
    intro pieces
    induction pieces with
    | nil => intro data _; simp [read_loop]
    | cons p ps ih =>
      intro data h
      have := List.length_pos_iff.2 (h p List.mem_cons_self)
      simp only [List.map_cons, List.cons_append, read_loop, gt_iff_lt, this, if_true]
      rw [ih _ fun q hq => h q (List.mem_cons_of_mem _ hq)]
      simp
  simpa using key pieces [] hp

/-- C110: an error of the reader, even one that only asks to try again, ends it and is reported. -/
theorem C110_error (pieces : List (List Nat)) (hp : ∀ p ∈ pieces, p ≠ []) (e : String) (rest : Reads) :
    read_loop [] (pieces.map .ok ++ .error e :: rest) = some (.error (.IoError e)) := by
  have key : ∀ (pieces : List (List Nat)) (data : List Nat), (∀ p ∈ pieces, p ≠ []) →
      read_loop data (pieces.map .ok ++ .error e :: rest) = some (.error (.IoError e)) := by
    intro pieces
    induction pieces with
    | nil => intro data _; simp [read_loop]
    | cons p ps ih =>
      intro data h
      have := List.length_pos_iff.2 (h p List.mem_cons_self)
      simp only [List.map_cons, List.cons_append, read_loop, gt_iff_lt, this, if_true]
      exact ih _ fun q hq => h q (List.mem_cons_of_mem _ hq)
  exact key pieces [] hp

theorem magic_take (f : Format) (d : List Nat) (k : Nat) : Magic f (d.take k) ↔ Magic f d ∧ needed f ≤ k := by
  cases f <;> simp only [Magic, needed, List.prefix_take_iff]
  case Gif => simp; tauto
  case WebP =>
    constructor
    · rintro ⟨size, hs, h, hk⟩
      exact ⟨⟨size, hs, h⟩, by simpa [hs] using hk⟩
    · rintro ⟨⟨size, hs, h⟩, hk⟩
      exact ⟨size, hs, h, by simpa [hs] using hk⟩
  all_goals simp

/-- C110: a format is recognised from the first `read` call alone: if that delivers enough bytes, the
format of the data, otherwise none; never another one. -/
theorem C110_from_reader (data : List Nat) (k : Nat) (hk : k ≤ 12) :
    Format.from_any_reader (.ok (data.take k)) (.ok ()) =
      match Format.from_reader data with
      | .ok f => if needed f ≤ k then .ok f else .error .UnknownFormat
      | .error e => .error e := by
  have e1 : Format.from_any_reader (.ok (data.take k)) (.ok ()) = Format.from_reader (data.take k) := by
    show Format.sniff (data.take k) = Format.sniff ((data.take k).take 12)
    rw [List.take_take, min_eq_right hk]
  rw [e1]
  cases h : Format.from_reader data with
  | ok f =>
    have m := (C54_sniff data f).1 h
    simp only
    split
    · rename_i hn
      exact (C54_sniff _ f).2 ((magic_take f data k).2 ⟨m, hn⟩)
    · rename_i hn
      refine (C54_unknown _).2 fun g hg => hn ?_
      obtain ⟨g1, g2⟩ := (magic_take g data k).1 hg
      rwa [C54_unique data g f g1 m] at g2
  | error e =>
    simp only
    have he : e = .UnknownFormat := by
      unfold Format.from_reader Format.sniff at h
      split at h <;> cases h
      rfl
    subst he
    exact (C54_unknown _).2 fun g hg => (C54_unknown _).1 h g ((magic_take g data k).1 hg).1

/-- C110: errors of the reader are reported. -/
theorem C110_from_reader_error (e : String) (seek : Except String Unit) (buf : List Nat) :
    Format.from_any_reader (.error e) seek = .error (.IoError e) ∧
    Format.from_any_reader (.ok buf) (.error e) = .error (.IoError e) := ⟨rfl, rfl⟩

/-! ## Examples -/

/-- An encoder that writes a header, 10000 bytes and a final mark, as `png` does. -/
example (data : List Nat) (hl : data.length = 10000) :
    let run := Run.write [137, 80] fun r => match r with
      | .error e => .done (.error (.IoError e)) [[0, 1]]
      | .ok () => .write data fun r => match r with
        | .error e => .done (.error (.IoError e)) [[0, 1]]
        | .ok () => .done (.ok ()) [[0, 1]]
    PassesOn [[0, 1]] run ∧ fileBytes run = [137, 80] ++ data ++ [0, 1] ∧
      -- all is well
      save_run run [.took 2, .interrupted, .took 10000, .took 1, .took 1] =
        (⟨[137, 80] ++ data ++ [0, 1], []⟩, some (.ok ())) ∧
      -- the disk is full when the data comes: the error is reported, and the end follows the header
      save_run run [.took 2, .failed "full", .took 2] = (⟨[137, 80, 0, 1], []⟩, some (.error (.IoError "full"))) ∧
      -- it is full when the end comes: nobody is told, and the end is missing
      save_run run [.took 2, .took 10000, .failed "full"] = (⟨[137, 80] ++ data, []⟩, some (.ok ())) := by
  have ne : data.isEmpty = false := by
    cases data with
    | nil => simp at hl
    | cons => rfl
  refine ⟨⟨fun _ => rfl, fun _ => rfl, trivial⟩, by simp [fileBytes, mainBytes, tailBytes], ?_, ?_, ?_⟩ <;>
    simp [save_run, Run.exec, BufW.write_all, BufW.write_tail, BufW.capacity, BufW.drop, BufW.flush_buf, Dev.write_all,
      pump, hl, ne, List.take_of_length_le]

/-- A WebP encoder whose second write fails reports the error, whatever the library says. -/
example (data : List Nat) (hl : data.length = 9000) :
    (save_run (webpRun (.call data fun _ => .call data fun _ => .done true) none)
      [.took 9000, .failed "gone"]).2 = some (.error (.IoError "gone")) := by
  have ne : data.isEmpty = false := by
    cases data with
    | nil => simp at hl
    | cons => rfl
  simp [save_run, webpRun, Run.exec, BufW.write_all, BufW.write_tail, BufW.capacity, BufW.drop, BufW.flush_buf,
    Dev.write_all, pump, hl, ne, List.take_of_length_le]

example : WebPStops (.call [1] fun ok => if ok then .call [2] (fun _ => .done true) else .done false) :=
  ⟨⟨false, rfl⟩, ⟨true, rfl⟩, trivial⟩

/-- A WebP file is not recognised if the first `read` call delivers 11 bytes. -/
example : Format.from_any_reader (.ok (([82, 73, 70, 70, 1, 0, 0, 0, 87, 69, 66, 80, 3] : List Nat).take 11)) (.ok ()) =
    .error .UnknownFormat ∧
    Format.from_reader [82, 73, 70, 70, 1, 0, 0, 0, 87, 69, 66, 80, 3] = .ok .WebP := ⟨rfl, rfl⟩

end D10
