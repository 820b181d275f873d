import Mathlib.Tactic.FinCases
import Verif.SpecCli
import Verif.Props.Options
import Verif.Props.Commands

/-! # The command line (C63, C64, C79) -/

namespace D10

open Spec

variable {F P : Type} {lossy : P → String} {number : String → Option F}

/-! ## Lists of numbers -/

theorem splitComma_join (s : String) : ",".intercalate (splitComma s) = s := by
  rw [← String.toList_inj, String.toList_intercalate, splitComma, List.map_map]
  have e : (String.toList ∘ String.ofList) = (id : List Char → List Char) := by
    funext l; simp
  rw [e, List.map_id]
  exact List.intercalate_splitOn ','

theorem splitOn_clean (c : Char) (xs : List Char) : ∀ l ∈ xs.splitOn c, c ∉ l := by
  induction xs with
  | nil => simp
  | cons hd tl ih =>
    rw [List.splitOn_cons_eq_if_modifyHead]
    split
    · simpa using ih
    · rename_i hne
      obtain ⟨a, as, ha⟩ := List.exists_cons_of_ne_nil (List.splitOn_ne_nil c tl)
      rw [ha] at ih ⊢
      simp only [List.modifyHead_cons, List.mem_cons, forall_eq_or_imp] at ih ⊢
      refine ⟨?_, ih.2⟩
      rintro (h | h)
      · exact hne (by simp [h])
      · exact ih.1 h

theorem splitComma_clean (s : String) : ∀ t ∈ splitComma s, ',' ∉ t.toList := by
  intro t ht
  obtain ⟨l, hl, rfl⟩ := List.mem_map.1 ht
  simpa using splitOn_clean ',' _ l hl

theorem splitComma_of_join {texts : List String} (h : ∀ t ∈ texts, ',' ∉ t.toList) (hne : texts ≠ []) :
    splitComma (",".intercalate texts) = texts := by
  rw [splitComma, String.toList_intercalate]
  have h1 := List.splitOn_intercalate (ls := texts.map String.toList) ','
    (by intro l hl; obtain ⟨t, ht, rfl⟩ := List.mem_map.1 hl; exact h t ht) (by simpa using hne)
  have h2 : (",".toList : List Char) = [','] := by decide
  rw [h2, h1, List.map_map]
  have e : (String.ofList ∘ String.toList) = (id : String → String) := by
    funext l; simp
  rw [e, List.map_id]

/-- The numbers are those of the pieces between the commas. -/
theorem numbers_iff (text : String) (vs : List F) (hne : vs ≠ []) : Numbers number text vs ↔
    List.Forall₂ (fun t v => number t = some v) (splitComma text) vs := by
  constructor
  · rintro ⟨texts, rfl, h⟩
    rw [splitComma_of_join]
    · exact h.imp fun _ _ h => h.2
    · intro t ht
      obtain ⟨i, hi, rfl⟩ := List.getElem_of_mem ht
      exact (h.get hi (h.length_eq ▸ hi)).1
    · rintro rfl
      cases h
      exact hne rfl
  · intro h
    refine ⟨_, splitComma_join text, ?_⟩
    have hc := splitComma_clean text
    clear hne
    revert hc
    generalize splitComma text = ts at h
    induction h with
    | nil => intro _; exact .nil
    | cons h1 _ ih =>
      intro hc
      exact .cons ⟨hc _ (.head _), h1⟩ (ih fun t ht => hc t (.tail _ ht))

/-! ## One step of the loop -/

theorem dash_head (name : String) : ("-" ++ name).toList.head? = some '-' := by simp

theorem dash_drop (name : String) : String.ofList (("-" ++ name).toList.drop 1) = name := by simp

theorem dashed_iff (p : P) : Dashed lossy p ↔ (lossy p).toList.head? = some '-' := by
  constructor
  · rintro ⟨name, h⟩; rw [h]; exact dash_head name
  · intro h
    refine ⟨String.ofList ((lossy p).toList.drop 1), ?_⟩
    rw [← String.toList_inj]
    cases e : (lossy p).toList with
    | nil => simp [e] at h
    | cons a as => simp_all

theorem loop_option {args : List (Arg F P)} {q : Queue F P} {o : P} {iter rest : List P} {name : String}
    {info : Arg F P} {cmd : Cmd F P} (ho : lossy o = "-" ++ name)
    (hf : args.find? (fun a => a.name == name) = some info)
    (hp : parse_arg lossy number info iter = .ok (cmd, rest)) :
    parseLoop lossy number args q (o :: iter) = parseLoop lossy number args (q.push cmd) rest := by
  rw [parseLoop]
  simp only [ho, dash_head, dash_drop, hf, if_true]
  split
  · rename_i h; rw [hp] at h; cases h; rfl
  · rename_i h; rw [hp] at h; cases h

theorem loop_option_error {args : List (Arg F P)} {q : Queue F P} {o : P} {iter : List P} {name : String}
    {info : Arg F P} {e : String} (ho : lossy o = "-" ++ name)
    (hf : args.find? (fun a => a.name == name) = some info)
    (hp : parse_arg lossy number info iter = .error e) :
    parseLoop lossy number args q (o :: iter) = .error e := by
  rw [parseLoop]
  simp only [ho, dash_head, dash_drop, hf, if_true]
  split
  · rename_i h; rw [hp] at h; cases h
  · rename_i h; rw [hp] at h; cases h; rfl

theorem loop_unknown {args : List (Arg F P)} {q : Queue F P} {o : P} {iter : List P} {name : String}
    (ho : lossy o = "-" ++ name) (hf : args.find? (fun a => a.name == name) = none) :
    parseLoop lossy number args q (o :: iter) = .error ("Unknown argument: " ++ lossy o) := by
  rw [parseLoop]
  simp only [ho, dash_head, dash_drop, hf, if_true]

theorem loop_positional {args : List (Arg F P)} {q : Queue F P} {p : P} {iter : List P}
    (hd : ¬ Dashed lossy p) : parseLoop lossy number args q (p :: iter) =
      parseLoop lossy number args (q.push (if q.is_empty then .Open p else .Save p)) iter := by
  rw [parseLoop]
  rw [dashed_iff] at hd
  simp only [hd, if_false]
  split <;> rfl

theorem intensity_ok {s : String} {i : Intensity} (h : (s, i) ∈ intensities) :
    parse_intensity s = .ok i := by
  rw [parse_intensity, (C34_intensity.accepts s i).2 h]

theorem intensity_error {s : String} (h : ∀ i, (s, i) ∉ intensities) :
    parse_intensity s = .error ("Unknown value for Intensity: " ++ s) := by
  have h1 : Intensity.from_str s = .error ⟨s, "Intensity"⟩ := by
    refine (C34_intensity.rejects s _).2 ⟨?_, rfl⟩
    simp only [List.mem_map, not_exists, not_and]
    rintro ⟨_, i⟩ hx rfl
    exact h i hx
  rw [parse_intensity, h1]
  rfl

/-! ## The loop and the grammar -/

theorem loop_item (q : Queue F P) {words rest : List P} {cmd : Cmd F P}
    (h : OptionMeans lossy number words cmd) :
    parseLoop lossy number create_args q (words ++ rest) =
      parseLoop lossy number create_args (q.push cmd) rest := by
  cases h <;> simp only [List.cons_append, List.nil_append]
  case silent o ho => exact loop_option ho rfl rfl
  case invert o ho => exact loop_option ho rfl rfl
  case «open» o p ho => exact loop_option ho rfl rfl
  case save o p ho => exact loop_option ho rfl rfl
  case grayscale o p i ho hi =>
    refine loop_option ho rfl ?_
    simp only [parse_arg, intensity_ok hi]
    rfl
  case number o p name c v hc ho hv =>
    cases hc <;> exact loop_option ho rfl (by simp only [parse_arg, hv]; rfl)
  case brightness_contrast o p b c ho hv =>
    rw [numbers_iff _ _ (by simp)] at hv
    refine loop_option ho rfl ?_
    generalize e : splitComma (lossy p) = ts at hv
    rcases hv with _ | ⟨h1, _ | ⟨h2, _ | _⟩⟩
    simp only [parse_arg, e, h1, h2]
    rfl
  case level o p b w g ho hv =>
    rw [numbers_iff _ _ (by simp)] at hv
    refine loop_option ho rfl ?_
    generalize e : splitComma (lossy p) = ts at hv
    rcases hv with _ | ⟨h1, _ | ⟨h2, _ | ⟨h3, _ | _⟩⟩⟩
    simp only [parse_arg, e, h1, h2, h3]
    rfl

theorem loop_wrong (q : Queue F P) {words : List P} {msg : String} (h : Wrong lossy number words msg) :
    parseLoop lossy number create_args q words = .error msg := by
  cases h with
  | unknown o rest hd hn =>
    obtain ⟨name, ho⟩ := hd
    refine loop_unknown ho ?_
    have hn' : name ∉ "silent" :: "invert" :: withParameter := fun h => hn name h ho
    simp only [withParameter, List.mem_cons, List.not_mem_nil, or_false, not_or] at hn'
    simp only [create_args, List.find?_eq_none, List.mem_cons, List.not_mem_nil, or_false]
    rintro a (rfl | rfl | rfl | rfl | rfl | rfl | rfl | rfl | rfl | rfl | rfl | rfl | rfl | rfl | rfl |
      rfl | rfl | rfl) <;> simp only [beq_iff_eq] <;> intro h <;> simp [← h] at hn'
  | missing o name hn ho =>
    simp only [withParameter, List.mem_cons, List.not_mem_nil, or_false] at hn
    rcases hn with rfl | rfl | rfl | rfl | rfl | rfl | rfl | rfl | rfl | rfl | rfl | rfl | rfl | rfl | rfl |
      rfl <;> exact loop_option_error ho rfl rfl
  | not_intensity o p rest ho hi =>
    refine loop_option_error ho rfl ?_
    simp only [parse_arg, intensity_error hi]
    rfl
  | not_number o p rest name c hc ho hv =>
    cases hc <;> exact loop_option_error ho rfl (by simp only [parse_arg, hv]; rfl)
  | not_two o p rest ho hv =>
    refine loop_option_error ho rfl ?_
    simp only [numbers_iff _ _ (List.cons_ne_nil _ _)] at hv
    have hj := splitComma_join (lossy p)
    simp only [parse_arg]
    split
    · rename_i a b e
      rw [e] at hv hj
      split
      · rename_i h1 h2
        exact absurd (.cons h1 (.cons h2 .nil)) (hv _ _)
      · rw [e, hj]; rfl
    · rw [hj]; rfl
  | not_three o p rest ho hv =>
    refine loop_option_error ho rfl ?_
    simp only [numbers_iff _ _ (List.cons_ne_nil _ _)] at hv
    have hj := splitComma_join (lossy p)
    simp only [parse_arg]
    split
    · rename_i a b c e
      rw [e] at hv hj
      split
      · rename_i h1 h2 h3
        exact absurd (.cons h1 (.cons h2 (.cons h3 .nil))) (hv _ _ _)
      · rw [e, hj]; rfl
    · rw [hj]; rfl

/-- The arguments begin with a command or with something wrong. -/
theorem item_or_wrong (lossy : P → String) (number : String → Option F) (first : Bool) (o : P)
    (iter : List P) :
    (∃ words cmd rest, o :: iter = words ++ rest ∧ words ≠ [] ∧ ItemMeans lossy number first words cmd) ∨
      ∃ msg, Wrong lossy number (o :: iter) msg := by
  by_cases hd : Dashed lossy o
  · obtain ⟨name, ho⟩ := hd
    by_cases hn : name ∈ "silent" :: "invert" :: withParameter
    · simp only [List.mem_cons] at hn
      rcases hn with rfl | rfl | hn
      · exact .inl ⟨[o], _, iter, rfl, by simp, .option _ _ _ (.silent o ho)⟩
      · exact .inl ⟨[o], _, iter, rfl, by simp, .option _ _ _ (.invert o ho)⟩
      · cases iter with
        | nil => exact .inr ⟨_, .missing o name hn ho⟩
        | cons p rest =>
          have num : ∀ cmd : F → Cmd F P, NumberOption name cmd →
              (∃ words cmd rest', o :: p :: rest = words ++ rest' ∧ words ≠ [] ∧
                ItemMeans lossy number first words cmd) ∨
              ∃ msg, Wrong lossy number (o :: p :: rest) msg := by
            intro cmd hc
            cases e : number (lossy p) with
            | none => exact .inr ⟨_, .not_number o p rest name cmd hc ho e⟩
            | some v => exact .inl ⟨[o, p], cmd v, rest, rfl, by simp, .option first _ _
                (.number o p name cmd v hc ho e)⟩
          simp only [withParameter, List.mem_cons, List.not_mem_nil, or_false] at hn
          rcases hn with rfl | rfl | rfl | rfl | rfl | rfl | rfl | rfl | rfl | rfl | rfl | rfl | rfl |
            rfl | rfl | rfl
          · exact .inl ⟨[o, p], _, rest, rfl, by simp, .option _ _ _ (.open o p ho)⟩
          · exact .inl ⟨[o, p], _, rest, rfl, by simp, .option _ _ _ (.save o p ho)⟩
          · by_cases h : ∃ i, (lossy p, i) ∈ intensities
            · obtain ⟨i, hi⟩ := h
              exact .inl ⟨[o, p], _, rest, rfl, by simp, .option _ _ _ (.grayscale o p i ho hi)⟩
            · exact .inr ⟨_, .not_intensity o p rest ho fun i hi => h ⟨i, hi⟩⟩
          · exact num _ .gamma
          · exact num _ .brightness
          · exact num _ .contrast
          · exact num _ .saturation
          · exact num _ .stretch_saturation
          · exact num _ .lightness
          · exact num _ .hue_rotate
          · exact num _ .rotate
          · exact num _ .random_noise
          · exact num _ .salt_n_pepper_noise
          · exact num _ .rgb_noise
          · by_cases h : ∃ b c, Numbers number (lossy p) [b, c]
            · obtain ⟨b, c, h⟩ := h
              exact .inl ⟨[o, p], _, rest, rfl, by simp, .option _ _ _ (.brightness_contrast o p b c ho h)⟩
            · exact .inr ⟨_, .not_two o p rest ho fun b c hn => h ⟨b, c, hn⟩⟩
          · by_cases h : ∃ b w g, Numbers number (lossy p) [b, w, g]
            · obtain ⟨b, w, g, h⟩ := h
              exact .inl ⟨[o, p], _, rest, rfl, by simp, .option _ _ _ (.level o p b w g ho h)⟩
            · exact .inr ⟨_, .not_three o p rest ho fun b w g hn => h ⟨b, w, g, hn⟩⟩
    · exact .inr ⟨_, .unknown o iter ⟨name, ho⟩ fun n h1 h2 => hn (by
        rw [ho] at h2
        have : name = n := by rw [← dash_drop name, h2, dash_drop]
        rw [this]; exact h1)⟩
  · cases first
    · exact .inl ⟨[o], _, iter, rfl, by simp, .output o hd⟩
    · exact .inl ⟨[o], _, iter, rfl, by simp, .input o hd⟩

theorem loop_means (q : Queue F P) {words rest : List P} {cmd : Cmd F P}
    (h : ItemMeans lossy number q.is_empty words cmd) :
    parseLoop lossy number create_args q (words ++ rest) =
      parseLoop lossy number create_args (q.push cmd) rest := by
  generalize e : q.is_empty = first at h
  cases h with
  | option _ _ _ h => exact loop_item q h
  | input p h => rw [List.singleton_append, loop_positional h, e]; rfl
  | output p h => rw [List.singleton_append, loop_positional h, e]; rfl

theorem push_not_empty (q : Queue F P) (cmd : Cmd F P) : (q.push cmd).is_empty = false := by
  simp [Queue.push, Queue.is_empty]

theorem loop_complete {first : Bool} {words : List P} {cmds : List (Cmd F P)}
    (h : LineMeans lossy number first words cmds) : ∀ (q : Queue F P) (rest : List P), q.is_empty = first →
      ∃ q', q'.commands = q.commands ++ cmds ∧
        (parseLoop lossy number create_args q (words ++ rest) =
          parseLoop lossy number create_args q' rest) := by
  induction h with
  | nil first => intro q rest _; exact ⟨q, by simp, rfl⟩
  | cons first words cmd line cmds h1 h2 ih =>
    intro q rest hq
    subst hq
    obtain ⟨q', e1, e2⟩ := ih (q.push cmd) rest (push_not_empty q cmd)
    refine ⟨q', by rw [e1]; simp [Queue.push], ?_⟩
    rw [List.append_assoc, loop_means q h1, e2]

theorem loop_sound (words : List P) (q : Queue F P) :
    match parseLoop lossy number create_args q words with
    | .ok q' => ∃ cmds, q'.commands = q.commands ++ cmds ∧ LineMeans lossy number q.is_empty words cmds
    | .error msg => ∃ good bad cmds, words = good ++ bad ∧ LineMeans lossy number q.is_empty good cmds ∧
        Wrong lossy number bad msg := by
  induction hn : words.length using Nat.strongRecOn generalizing words q with
  | _ n ih =>
  cases words with
  | nil => rw [parseLoop]; exact ⟨[], by simp, .nil _⟩
  | cons o iter =>
    rcases item_or_wrong lossy number q.is_empty o iter with ⟨words, cmd, rest, e, hne, h⟩ | ⟨msg, h⟩
    · rw [e, loop_means q h]
      have hlt : rest.length < n := by
        rw [← hn, e, List.length_append]
        have := List.length_pos_iff.2 hne
        omega
      have h2 := ih _ hlt rest (q.push cmd) rfl
      rw [push_not_empty] at h2
      split at h2
      · obtain ⟨cmds, e1, e2⟩ := h2
        exact ⟨cmd :: cmds, by rw [e1]; simp [Queue.push], .cons _ _ _ _ _ h e2⟩
      · obtain ⟨good, bad, cmds, e1, e2, e3⟩ := h2
        exact ⟨words ++ good, bad, cmd :: cmds, by rw [e1, List.append_assoc], .cons _ _ _ _ _ h e2, e3⟩
    · rw [loop_wrong q h]
      exact ⟨[], _, [], rfl, .nil _, h⟩

/-! ## The theorems -/

/-- Parsing gives exactly the commands that the grammar gives to the arguments after the first one,
which is the program's name. -/
theorem C63_ok (lossy : P → String) (number : String → Option F) (argv : List P)
    (cmds : List (Cmd F P)) : parse lossy number create_args argv = .ok ⟨cmds⟩ ↔
      LineMeans lossy number true argv.tail cmds := by
  unfold parse
  constructor
  · intro h
    have h1 := loop_sound (lossy := lossy) (number := number) argv.tail Queue.new
    rw [h] at h1
    obtain ⟨cmds', e1, e2⟩ := h1
    simp only [Queue.new, List.nil_append] at e1
    subst e1
    exact e2
  · intro h
    obtain ⟨q', e1, e2⟩ := loop_complete h Queue.new [] rfl
    rw [List.append_nil] at e2
    rw [e2, parseLoop]
    cases q'
    simp only [Queue.new, List.nil_append] at e1
    rw [e1]

/-- Otherwise it reports the first thing that is wrong, after arguments that are right. -/
theorem C63_error (lossy : P → String) (number : String → Option F) (argv : List P) (msg : String) :
    parse lossy number create_args argv = .error msg ↔
      ∃ good bad cmds, argv.tail = good ++ bad ∧ LineMeans lossy number true good cmds ∧
        Wrong lossy number bad msg := by
  unfold parse
  constructor
  · intro h
    have h1 := loop_sound (lossy := lossy) (number := number) argv.tail Queue.new
    rw [h] at h1
    exact h1
  · rintro ⟨good, bad, cmds, e, h1, h2⟩
    obtain ⟨q', -, e2⟩ := loop_complete h1 Queue.new bad rfl
    rw [e, e2, loop_wrong q' h2]

/-- The grammar is unambiguous: nothing means two lists of commands, is wrong for two reasons, or is
both right and wrong. -/
theorem C63_unambiguous (lossy : P → String) (number : String → Option F) (words : List P) :
    (∀ c1 c2, LineMeans lossy number true words c1 → LineMeans lossy number true words c2 → c1 = c2) ∧
    ∀ good bad cmds msg, words = good ++ bad → LineMeans lossy number true good cmds →
      Wrong lossy number bad msg → (∀ c, ¬ LineMeans lossy number true words c) ∧
        ∀ good' bad' cmds' msg', words = good' ++ bad' → LineMeans lossy number true good' cmds' →
          Wrong lossy number bad' msg' → msg' = msg := by
  cases words with
  | nil =>
    have key : ∀ c, LineMeans lossy number true ([] : List P) c → c = [] := by
      intro c h
      generalize e : ([] : List P) = l at h
      cases h with
      | nil => rfl
      | cons _ words _ rest _ h1 _ =>
        exfalso
        have hw : words = [] := (List.append_eq_nil_iff.1 e.symm).1
        subst hw
        cases h1 with | option _ _ _ h => cases h
    refine ⟨fun c1 c2 h1 h2 => (key _ h1).trans (key _ h2).symm, ?_⟩
    intro good bad cmds msg e _ hw
    have : bad = [] := (List.append_eq_nil_iff.1 e.symm).2
    subst this
    cases hw
  | cons a rest =>
    have ok : ∀ c, LineMeans lossy number true (a :: rest) c → _ := fun c h =>
      (C63_ok lossy number (a :: a :: rest) c).2 h
    have bad : ∀ good bad cmds msg, a :: rest = good ++ bad → LineMeans lossy number true good cmds →
        Wrong lossy number bad msg → _ := fun good bad cmds msg h1 h2 h3 =>
      (C63_error lossy number (a :: a :: rest) msg).2 ⟨good, bad, cmds, h1, h2, h3⟩
    refine ⟨fun c1 c2 h1 h2 => ?_, fun good b cmds msg h1 h2 h3 => ⟨fun c h => ?_, ?_⟩⟩
    · have := (ok _ h1).symm.trans (ok _ h2)
      simpa using this
    · have := (ok _ h).symm.trans (bad _ _ _ _ h1 h2 h3)
      simp at this
    · intro g' b' c' m' h4 h5 h6
      have := (bad _ _ _ _ h4 h5 h6).symm.trans (bad _ _ _ _ h1 h2 h3)
      simpa using this

/-! ## Positional arguments -/

/-- A positional argument right after the program's name is opened. -/
theorem C64_first (lossy : P → String) (number : String → Option F) (program p : P) (rest : List P)
    (hp : ¬ Dashed lossy p) (cmds : List (Cmd F P)) :
    parse lossy number create_args (program :: p :: rest) = .ok ⟨cmds⟩ ↔
      ∃ more, cmds = .Open p :: more ∧ LineMeans lossy number false rest more := by
  rw [C63_ok]
  constructor
  · intro h
    generalize e : (program :: p :: rest).tail = l at h
    cases h with
    | nil => cases e
    | cons _ words cmd line more h1 h2 =>
      generalize e' : true = first at h1
      cases h1 with
      | option _ _ _ h =>
        exfalso
        cases h <;> (cases e; rename_i h; exact hp ⟨_, ‹_ = "-" ++ _›⟩)
      | input q hq => cases e; exact ⟨more, rfl, h2⟩
      | output => cases e'
  · rintro ⟨more, rfl, h⟩
    exact .cons true [p] _ rest more (.input p hp) h

/-- A positional argument after other commands is saved. -/
theorem C64_later (lossy : P → String) (number : String → Option F) (program p : P)
    (before rest : List P) (hp : ¬ Dashed lossy p) (cmds : List (Cmd F P))
    (hb : LineMeans lossy number true before cmds) (hne : before ≠ []) (all : List (Cmd F P)) :
    parse lossy number create_args (program :: before ++ p :: rest) = .ok ⟨all⟩ ↔
      ∃ more, all = cmds ++ .Save p :: more ∧ LineMeans lossy number false rest more := by
  have hc : cmds ≠ [] := by
    rintro rfl
    cases hb
    exact hne rfl
  obtain ⟨q, e1, e2⟩ := loop_complete hb Queue.new (p :: rest) rfl
  simp only [Queue.new, List.nil_append] at e1
  have he : q.is_empty = false := by
    rw [Queue.is_empty, e1]
    cases cmds with
    | nil => exact absurd rfl hc
    | cons => rfl
  have e3 : parse lossy number create_args (program :: before ++ p :: rest) =
      parseLoop lossy number create_args (q.push (.Save p)) rest := by
    rw [parse, List.cons_append, List.tail_cons, e2, loop_positional hp, he]
    rfl
  rw [e3]
  constructor
  · intro h
    have h1 := loop_sound (lossy := lossy) (number := number) rest (q.push (.Save p))
    rw [h, push_not_empty] at h1
    obtain ⟨more, e4, e5⟩ := h1
    refine ⟨more, ?_, e5⟩
    simpa [Queue.push, e1] using e4
  · rintro ⟨more, rfl, h⟩
    obtain ⟨q', e4, e5⟩ := loop_complete h (q.push (.Save p)) [] (push_not_empty _ _)
    rw [List.append_nil] at e5
    rw [e5, parseLoop]
    cases q'
    simp only [Queue.push, e1, List.append_assoc, List.singleton_append] at e4
    rw [e4]

/-- Nothing is opened but the very first argument and the parameters of `-open`. -/
theorem C64_opened (lossy : P → String) (number : String → Option F) (program : P) (args : List P)
    (cmds : List (Cmd F P)) (h : parse lossy number create_args (program :: args) = .ok ⟨cmds⟩) (p : P)
    (hp : .Open p ∈ cmds) : (∃ rest, args = p :: rest ∧ ¬ Dashed lossy p) ∨
      ∃ before o after, args = before ++ o :: p :: after ∧ lossy o = "-open" := by
  rw [C63_ok, List.tail_cons] at h
  have key : ∀ first, LineMeans lossy number first args cmds →
      (first = true ∧ ∃ rest, args = p :: rest ∧ ¬ Dashed lossy p) ∨
      ∃ before o after, args = before ++ o :: p :: after ∧ lossy o = "-open" := by
    intro first h
    clear ‹LineMeans lossy number true args cmds›
    induction h with
    | nil => cases hp
    | cons first words cmd rest cmds h1 h2 ih =>
      rcases List.mem_cons.1 hp with hp | hp
      · subst hp
        generalize hc : Cmd.Open p = c at h1
        cases h1 with
        | option _ _ _ h =>
          right
          cases h with
          | «open» o q ho => cases hc; exact ⟨[], o, rest, rfl, ho⟩
          | number _ _ _ _ _ hn => cases hn <;> cases hc
          | _ => cases hc
        | input q hq => cases hc; exact .inl ⟨rfl, rest, rfl, hq⟩
        | output => cases hc
      · rcases ih hp with ⟨h, -⟩ | ⟨before, o, after, h3, h4⟩
        · cases h
        · exact .inr ⟨words ++ before, o, after, by rw [h3, List.append_assoc], h4⟩
  rcases key true h with ⟨-, h⟩ | h
  · exact .inl h
  · exact .inr h

/-- A file that is named after an option is written to, not read: `-silent in.png` and so on fails for
want of an image, and the file that was meant as the input is left alone. -/
theorem C64_option_first [Scalar F] [FloatBytes F] {σ : Type} (number : String → Option F)
    (env : Env σ F) (fs : FS) (g : σ) (program p : String) (rest : List String)
    (hp : ¬ Dashed id p) (more : List (Cmd F String))
    (h : LineMeans id number false rest more) :
    main number env fs g (program :: "-silent" :: p :: rest) =
      (fs, g, [], .ok ⟨["Missing image"], 1⟩) := by
  have h1 : LineMeans id number true ["-silent"] [Cmd.Silent] :=
    .cons true ["-silent"] _ [] [] (.option _ _ _ (.silent _ (by decide))) (.nil _)
  have h2 := (C64_later id number program p ["-silent"] rest hp _ h1 (by simp) _).2 ⟨more, rfl, h⟩
  have h3 : Runs env ([Cmd.Silent] ++ Cmd.Save p :: more) ⟨fs, g, none⟩ ⟨fs, g, none⟩
      (failure .MissingImage) :=
    (C61_iff env _ fs g _).2 ⟨rfl, [.Silent], _, _, rfl, by simp, by simp, by simp⟩
  obtain ⟨s, e1, e2, e3, -⟩ := (C60_run env fs g [] ⟨_⟩ _ _).1 h3
  have e4 := C62_silent env fs g [] ⟨_⟩ _ rfl _ _ e1
  have hl : (program :: "-silent" :: p :: rest).length ≠ 1 := by simp
  unfold main
  rw [if_neg hl]
  simp only [List.cons_append, List.nil_append] at h2 e1
  rw [h2]
  simp only [e1, e2, e3, e4]
  rfl

/-! ## The end of the program -/

/-- How the program ends, for every list of arguments. -/
theorem C79_main [Scalar F] [FloatBytes F] {σ : Type} (number : String → Option F) (env : Env σ F)
    (fs fs' : FS) (g g' : σ) (argv out : List String) (r : R Exit)
    (h : main number env fs g argv = (fs', g', out, r)) : Ends number env fs g argv fs' g' out r := by
  unfold main at h
  split at h
  · rename_i hl
    obtain ⟨p, rfl⟩ := List.length_eq_one_iff.1 hl
    cases h
    exact .no_arguments p
  · rename_i hl
    cases hp : parse id number create_args argv with
    | error msg =>
      rw [hp] at h
      cases h
      obtain ⟨good, bad, cmds, h1, h2, h3⟩ := (C63_error id number argv msg).1 hp
      exact .wrong argv good bad cmds msg hl h1 h2 h3
    | ok q =>
      rw [hp] at h
      have h1 := (C63_ok id number argv q.commands).1 hp
      cases hq : q.run env fs g [] with
      | mk s r' =>
      have h2 := (C60_run env fs g [] q ⟨s.fs, s.rng, s.image⟩ r').2 ⟨s, hq, rfl, rfl, rfl⟩
      obtain ⟨k, h3, h4⟩ := C62_log env fs g [] q s r' hq
      have h5 := Ends.run (number := number) argv q.commands k _ r' hl h1 h2 h3
      rw [List.nil_append] at h4
      rw [← h4] at h5
      simp only [hq] at h
      rcases r' with p | (e | ⟨⟩) <;> cases h <;> exact h5

/-- So the exit code is 0 or 1, and there is a message exactly if it is 1. -/
theorem C79_code [Scalar F] [FloatBytes F] {σ : Type} (number : String → Option F) (env : Env σ F)
    (fs : FS) (g : σ) (argv : List String) (e : Exit)
    (h : (main number env fs g argv).2.2.2 = .ok e) :
    (e.code = 0 ∧ e.stderr = []) ∨ (e.code = 1 ∧ ∃ msg, e.stderr = [msg]) := by
  generalize hm : main number env fs g argv = x at h
  obtain ⟨fs', g', out, r'⟩ := x
  have h1 := C79_main number env fs _ g _ argv _ _ hm
  simp only at h
  rw [h] at h1
  clear hm h
  generalize hr : (Except.ok e : R Exit) = r at h1
  cases h1 with
  | no_arguments => cases hr; exact .inr ⟨rfl, _, rfl⟩
  | wrong => cases hr; exact .inr ⟨rfl, _, rfl⟩
  | run _ _ _ _ r' =>
    rcases r' with p | (e' | ⟨⟩) <;> cases hr
    · exact .inr ⟨rfl, _, rfl⟩
    · exact .inl ⟨rfl, rfl⟩

/-- The exit code is 0 exactly if there are arguments that mean commands, and they all succeeded. -/
theorem C79_success [Scalar F] [FloatBytes F] {σ : Type} (number : String → Option F) (env : Env σ F)
    (fs : FS) (g : σ) (argv : List String) :
    (∃ e, (main number env fs g argv).2.2.2 = .ok e ∧ e.code = 0) ↔
      argv.length ≠ 1 ∧ ∃ cmds w, LineMeans id number true argv.tail cmds ∧
        Runs env cmds ⟨fs, g, none⟩ w success := by
  constructor
  · rintro ⟨e, h, he⟩
    generalize hm : main number env fs g argv = x at h
    obtain ⟨fs', g', out, r'⟩ := x
    have h1 := C79_main number env fs _ g _ argv _ _ hm
    simp only at h
    rw [h] at h1
    clear hm h
    generalize hr : (Except.ok e : R Exit) = r at h1
    cases h1 with
    | no_arguments => cases hr; cases he
    | wrong => cases hr; cases he
    | run _ cmds _ w r' hl h2 h3 =>
      rcases r' with p | (e' | ⟨⟩) <;> cases hr
      · cases he
      · exact ⟨hl, cmds, w, h2, h3⟩
  · rintro ⟨hl, cmds, w, h1, h2⟩
    obtain ⟨s, hs, -⟩ := (C60_run env fs g [] ⟨cmds⟩ _ _).1 h2
    refine ⟨⟨[], 0⟩, ?_, rfl⟩
    unfold main
    rw [if_neg hl, (C63_ok id number argv cmds).2 h1]
    simp only [hs]

/-- Arguments that are wrong anywhere leave every file alone: nothing is run before everything is
understood. -/
theorem C79_wrong_changes_nothing [Scalar F] [FloatBytes F] {σ : Type} (number : String → Option F)
    (env : Env σ F) (fs : FS) (g : σ) (argv : List String)
    (h : ∀ cmds, ¬ LineMeans id number true argv.tail cmds) :
    ∃ msg, main number env fs g argv = (fs, g, [], .ok ⟨[msg], 1⟩) := by
  have hl : argv.length ≠ 1 := by
    intro hl
    obtain ⟨p, rfl⟩ := List.length_eq_one_iff.1 hl
    exact h [] (.nil _)
  unfold main
  rw [if_neg hl]
  cases hp : parse id number create_args argv with
  | error msg => exact ⟨msg, rfl⟩
  | ok q => exact absurd ((C63_ok id number argv q.commands).1 hp) (h _)

/-! ## Examples -/

section
variable [Scalar F] [FloatBytes F]

theorem not_dashed {s : String} (h : s.toList.head? ≠ some '-') : ¬ Dashed id s := by
  rw [dashed_iff]; exact h

/-- A grammar of numbers with a single number. -/
def onlyOne (s : String) : Option F := if s = "1" then some (Scalar.lit 1) else none

omit [FloatBytes F] in
/-- `in.png -level 1,1,1 -grayscale red -rotate 1 out.png` -/
theorem demo_line : LineMeans id onlyOne true
    ["in.png", "-level", "1,1,1", "-grayscale", "red", "-rotate", "1", "out.png"]
    [Cmd.Open "in.png", .Level (Scalar.lit 1 : F) (Scalar.lit 1) (Scalar.lit 1), .ToGray .Red,
      .Rotate (Scalar.lit 1) .Bilinear, .Save "out.png"] :=
  .cons _ ["in.png"] _ _ _ (.input _ (not_dashed (by decide)))
    (.cons _ ["-level", "1,1,1"] _ _ _ (.option _ _ _ (.level _ _ _ _ _ (by decide)
        ⟨["1", "1", "1"], by decide, .cons ⟨by decide, rfl⟩ (.cons ⟨by decide, rfl⟩ (.cons ⟨by decide, rfl⟩ .nil))⟩))
      (.cons _ ["-grayscale", "red"] _ _ _ (.option _ _ _ (.grayscale _ _ _ (by decide) (by simp [intensities])))
        (.cons _ ["-rotate", "1"] _ _ _ (.option _ _ _ (.number _ _ _ _ _ .rotate (by decide) rfl))
          (.cons _ ["out.png"] _ [] [] (.output _ (not_dashed (by decide))) (.nil _)))))

example := (C63_ok id (onlyOne (F := F)) ("d10" :: _) _).2 demo_line
example : parse id (onlyOne (F := F)) create_args ["d10", "in.png", "-gamma", "1", "-gama", "2"] =
    .error "Unknown argument: -gama" :=
  (C63_error _ _ _ _).2 ⟨["in.png", "-gamma", "1"], ["-gama", "2"], _, rfl,
    .cons _ ["in.png"] _ _ _ (.input _ (not_dashed (by decide)))
      (.cons _ ["-gamma", "1"] _ [] [] (.option _ _ _ (.number _ _ _ _ _ .gamma (by decide) rfl)) (.nil _)),
    .unknown _ _ ⟨"gama", by decide⟩ (by decide)⟩
example : Wrong id (onlyOne (F := F)) ["-level", "1,1", "x"] "Bad argument for parameter level: 1,1" :=
  .not_three "-level" "1,1" ["x"] (by decide) fun b w g h => by
    rw [numbers_iff _ _ (by simp)] at h
    have e : splitComma (id "1,1") = ["1", "1"] := by decide
    rw [e] at h
    simpa using h.length_eq
example := C64_first id (onlyOne (F := F)) "d10" "in.png" ["-invert"] (not_dashed (by decide))
example := C64_later id (onlyOne (F := F)) "d10" "again.jpg" _ [] (not_dashed (by decide)) _ demo_line (by simp)
example := C64_opened id (onlyOne (F := F)) "d10" _ _ ((C63_ok id (onlyOne (F := F)) ("d10" :: _) _).2 demo_line)
  "in.png" (by simp)
example := C64_option_first (onlyOne (F := F)) demoEnv demoFS () "d10" "in.png" ["out.png"]
  (not_dashed (by decide)) [.Save "out.png"] (.cons _ ["out.png"] _ [] [] (.output _ (not_dashed (by decide))) (.nil _))
example : ∃ cmds, LineMeans id (onlyOne (F := F)) true ["-silent"] cmds ∧ ∃ w,
    Runs demoEnv cmds ⟨demoFS, (), none⟩ w success :=
  ⟨_, .cons _ ["-silent"] _ [] [] (.option _ _ _ (.silent _ (by decide))) (.nil _), _,
    .next _ _ _ _ _ _ (.silent _) (.nil _)⟩
example := C79_wrong_changes_nothing (onlyOne (F := F)) demoEnv demoFS () ["d10", "in.png", "-gama"]
  (fun c h => ((C63_unambiguous id onlyOne _).2 ["in.png"] ["-gama"] _ _ rfl
    (.cons _ ["in.png"] _ [] [] (.input _ (not_dashed (by decide))) (.nil _))
    (.unknown _ _ ⟨"gama", by decide⟩ (by decide))).1 c h)
end

end D10
