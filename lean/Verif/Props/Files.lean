import Verif.SpecFiles
import Verif.Props.Codecs

/-! # Properties of formats and files: C54 - C57 -/

namespace D10
open Spec
open Scalar (isNan lit)

/-! ## C54: format sniffing -/

theorem sniff_ok {d : List Nat} {f : Format} (h : Format.sniff d = .ok f) : Magic f d := by
  unfold Format.sniff at h
  split at h <;> cases h <;> simp [Magic]
  exact ⟨[_, _, _, _], rfl, List.prefix_rfl⟩

theorem magic_sniff {d : List Nat} {f : Format} (h : Magic f d) : Format.sniff (d.take 12) = .ok f := by
  cases f <;> simp only [Magic] at h
  case Gif => rcases h with ⟨r, rfl⟩ | ⟨r, rfl⟩ <;> rfl
  case WebP =>
    obtain ⟨size, hs, r, rfl⟩ := h
    match size, hs with
    | [a, b, c, e], _ => rfl
  all_goals obtain ⟨r, rfl⟩ := h; rfl

theorem magic_mono {d e : List Nat} {f : Format} (h : d <+: e) (hm : Magic f d) : Magic f e := by
  cases f <;> simp only [Magic] at hm ⊢
  case Gif => exact hm.imp (·.trans h) (·.trans h)
  case WebP =>
    obtain ⟨size, hs, hm⟩ := hm
    exact ⟨size, hs, hm.trans h⟩
  all_goals exact hm.trans h

/-- The format found in the content is the one whose magic number the content begins with. -/
theorem C54_sniff (d : List Nat) (f : Format) : Format.from_reader d = .ok f ↔ Magic f d :=
  ⟨fun h => magic_mono (List.take_prefix 12 d) (sniff_ok h), magic_sniff⟩

/-- No content begins with the magic numbers of two formats. -/
theorem C54_unique (d : List Nat) (f g : Format) (hf : Magic f d) (hg : Magic g d) : f = g := by
  have h1 := (C54_sniff d f).2 hf
  rw [(C54_sniff d g).2 hg] at h1
  exact (Except.ok.inj h1).symm

/-- Without a known magic number the format is unknown. -/
theorem C54_unknown (d : List Nat) :
    Format.from_reader d = .error .UnknownFormat ↔ ∀ f, ¬ Magic f d := by
  constructor
  · intro h f hm
    rw [(C54_sniff d f).2 hm] at h
    cases h
  · intro h
    cases hs : Format.from_reader d with
    | ok f => exact absurd ((C54_sniff d f).1 hs) (h f)
    | error e =>
      unfold Format.from_reader Format.sniff at hs
      split at hs <;> cases hs
      rfl

/-- Only the first 12 bytes matter. -/
theorem C54_first_twelve (d e : List Nat) (h : d.take 12 = e.take 12) :
    Format.from_reader d = Format.from_reader e := by
  unfold Format.from_reader
  rw [h]

/-- Appending never changes a format that was found, nor what is found in 12 bytes or more. -/
theorem C54_append (d e : List Nat) :
    (∀ f, Format.from_reader d = .ok f → Format.from_reader (d ++ e) = .ok f) ∧
    (12 ≤ d.length → Format.from_reader (d ++ e) = Format.from_reader d) := by
  constructor
  · intro f h
    rw [C54_sniff] at h ⊢
    exact magic_mono (List.prefix_append d e) h
  · intro h
    exact C54_first_twelve _ _ (List.take_append_of_le_length h)

/-- A reader that delivers fewer bytes at first never makes it find another format, though it may
not find any. -/
theorem C54_short_read (d : List Nat) (n : Nat) (f : Format) (h : Format.sniff (d.take n) = .ok f) :
    Format.from_reader d = .ok f :=
  (C54_sniff d f).2 (magic_mono (List.take_prefix n d) (sniff_ok h))

/-! ## C55: extensions -/

theorem mem_splitOn {l c : List Char} {a : Char} (h : c ∈ l.splitOn a) : a ∉ c := by
  induction l generalizing c with
  | nil => simp at h; simp [h]
  | cons x xs ih =>
    rw [List.splitOn_cons_eq_if_modifyHead] at h
    split at h
    · rcases List.mem_cons.1 h with rfl | h
      · simp
      · exact ih h
    · rename_i hx
      cases hs : xs.splitOn a with
      | nil => exact absurd hs (by simp)
      | cons y ys =>
        rw [hs, List.modifyHead_cons] at h
        rcases List.mem_cons.1 h with rfl | h
        · have := ih (c := y) (by rw [hs]; simp)
          simp only [List.mem_cons, not_or]
          exact ⟨fun e => hx (by simp [e]), this⟩
        · exact ih (by rw [hs]; exact List.mem_cons_of_mem _ h)

theorem splitOn_tail {t : List Char} (ht : Tail t) : ∀ {name : List Char}, '/' ∉ name →
    ∃ post, (name ++ t).splitOn '/' = name :: post ∧ ∀ c ∈ post, c = [] ∨ c = ['.'] := by
  induction ht with
  | nil =>
    intro name hn
    exact ⟨[], by rw [List.append_nil]; exact List.splitOn_eq_singleton hn, by simp⟩
  | @slash t _ ih =>
    intro name hn
    obtain ⟨post, h1, h2⟩ := ih (name := []) (by simp)
    refine ⟨[] :: post, ?_, ?_⟩
    · rw [List.splitOn_append_cons_self_of_not_mem hn, ← h1]; rfl
    · intro c hc
      rcases List.mem_cons.1 hc with rfl | hc
      · exact .inl rfl
      · exact h2 c hc
  | @dot t _ ih =>
    intro name hn
    obtain ⟨post, h1, h2⟩ := ih (name := ['.']) (by decide)
    refine ⟨['.'] :: post, ?_, ?_⟩
    · rw [List.splitOn_append_cons_self_of_not_mem hn, ← h1]; rfl
    · intro c hc
      rcases List.mem_cons.1 hc with rfl | hc
      · exact .inr rfl
      · exact h2 c hc

theorem tail_of_post : ∀ post : List (List Char), (∀ c ∈ post, c = [] ∨ c = ['.']) →
    Tail (post.flatMap ('/' :: ·))
  | [], _ => .nil
  | c :: post, h => by
    have ih := tail_of_post post fun c hc => h c (List.mem_cons_of_mem _ hc)
    rw [List.flatMap_cons]
    rcases h c (by simp) with rfl | rfl
    · exact .slash ih
    · exact .dot ih

theorem intercalate_split (pre : List (List Char)) (n : List Char) (post : List (List Char)) :
    ['/'].intercalate (pre ++ n :: post) =
      pre.flatMap (· ++ ['/']) ++ n ++ post.flatMap ('/' :: ·) := by
  induction pre with
  | nil =>
    induction post generalizing n with
    | nil => simp
    | cons c post ih =>
      have := ih c
      simp only [List.nil_append, List.flatMap_nil] at this ⊢
      rw [List.intercalate_cons_cons, this]
      simp
  | cons c pre ih =>
    rw [List.cons_append, List.intercalate_cons_of_ne_nil (by simp), ih]
    simp

theorem fileName_iff (p : String) (n : List Char) :
    fileName p = some n ↔ LastName p.toList n ∧ n ≠ ['.', '.'] := by
  have key : ((p.toList.splitOn '/').filter fun c => decide (c ≠ [] ∧ c ≠ ['.'])).getLast? = some n ↔
      LastName p.toList n := by
    constructor
    · intro h
      rw [List.getLast?_eq_some_iff] at h
      obtain ⟨ys, h⟩ := h
      obtain ⟨pre, post, hs, -, hp⟩ := List.filter_eq_append_iff.1 h
      obtain ⟨mid, post', hs', hm, hn, hp'⟩ := List.filter_eq_cons_iff.1 hp
      have hall : p.toList.splitOn '/' = (pre ++ mid) ++ n :: post' := by
        rw [hs, hs']; simp
      have hpost : ∀ c ∈ post', c = [] ∨ c = ['.'] := by
        intro c hc
        have := List.filter_eq_nil_iff.1 hp' c hc
        simp only [decide_eq_true_eq, not_and, not_not] at this
        by_cases h0 : c = []
        · exact .inl h0
        · exact .inr (this h0)
      have hn' : n ≠ [] ∧ n ≠ ['.'] := by simpa using hn
      refine ⟨(pre ++ mid).flatMap (· ++ ['/']), post'.flatMap ('/' :: ·), ?_, ?_, ?_, hn'.1, hn'.2,
        tail_of_post _ hpost⟩
      · rw [← intercalate_split, ← hall, List.intercalate_splitOn]
      · rcases List.eq_nil_or_concat (pre ++ mid) with h0 | ⟨l, a, h0⟩
        · left; rw [h0]; rfl
        · right; rw [h0]; simp
      · exact mem_splitOn (l := p.toList) (by rw [hall]; simp)
    · rintro ⟨dir, tail, hp, hd, h1, h2, h3, ht⟩
      obtain ⟨post, hs, hpost⟩ := splitOn_tail ht h1
      have hall : ∃ pre, p.toList.splitOn '/' = pre ++ n :: post := by
        rcases hd with rfl | hd
        · exact ⟨[], by rw [hp, List.nil_append, hs]; rfl⟩
        · rw [List.getLast?_eq_some_iff] at hd
          obtain ⟨d, rfl⟩ := hd
          refine ⟨d.splitOn '/', ?_⟩
          rw [hp, List.append_assoc, List.append_assoc, List.singleton_append,
            List.splitOn_append_cons_self, hs]
      obtain ⟨pre, hall⟩ := hall
      have hf : post.filter (fun c => decide (c ≠ [] ∧ c ≠ ['.'])) = [] := by
        rw [List.filter_eq_nil_iff]
        intro c hc
        rcases hpost c hc with rfl | rfl <;> simp
      rw [hall, List.filter_append, List.filter_cons_of_pos (by simp [h2, h3]), hf]
      simp
  unfold fileName
  constructor
  · intro h
    split at h
    · cases h
    · rename_i name hname
      split at h
      · cases h
      · rename_i hne
        cases h
        exact ⟨key.1 hname, hne⟩
  · rintro ⟨h1, h2⟩
    rw [key.2 h1]
    simp [h2]

/-- A list with a dot, split at its last dot. -/
theorem last_dot {name : List Char} (h : '.' ∈ name) :
    ∃ stem ext, name = stem ++ '.' :: ext ∧ '.' ∉ ext := by
  induction name with
  | nil => cases h
  | cons c name ih =>
    by_cases hn : '.' ∈ name
    · obtain ⟨stem, ext, rfl, he⟩ := ih hn
      exact ⟨c :: stem, ext, rfl, he⟩
    · rcases List.mem_cons.1 h with rfl | h
      · exact ⟨[], name, rfl, hn⟩
      · exact absurd h hn

theorem after_dot (stem ext : List Char) (h : '.' ∉ ext) :
    (((stem ++ '.' :: ext).reverse.takeWhile (· ≠ '.')).reverse = ext) ∧
    (stem ++ '.' :: ext).take ((stem ++ '.' :: ext).length - ext.length - 1) = stem := by
  constructor
  · rw [List.reverse_append, List.reverse_cons, List.append_assoc, List.singleton_append,
      List.takeWhile_append_of_pos]
    · simp
    · intro a ha
      simp only [List.mem_reverse] at ha
      simp only [decide_eq_true_eq]
      rintro rfl
      exact h ha
  · have : (stem ++ '.' :: ext).length - ext.length - 1 = stem.length := by simp; omega
    rw [this]
    simp

theorem pathExtension_iff (p : String) (e : String) :
    pathExtension p = some e ↔ ∃ stem, LastName p.toList (stem ++ '.' :: e.toList) ∧ stem ≠ [] ∧
      '.' ∉ e.toList ∧ stem ++ '.' :: e.toList ≠ ['.', '.'] := by
  unfold pathExtension
  constructor
  · intro h
    split at h
    · cases h
    · rename_i name hname
      simp only at h
      split at h
      · rename_i hc
        obtain ⟨hdot, hstem⟩ := hc
        obtain ⟨stem, ext, rfl, hx⟩ := last_dot hdot
        obtain ⟨a1, a2⟩ := after_dot stem ext hx
        rw [a1] at h hstem
        rw [a2] at hstem
        cases h
        obtain ⟨h1, h2⟩ := (fileName_iff _ _).1 hname
        exact ⟨stem, by simpa using h1, hstem, by simpa using hx, by simpa using h2⟩
      · cases h
  · rintro ⟨stem, h1, h2, h3, h4⟩
    rw [(fileName_iff _ _).2 ⟨h1, h4⟩]
    obtain ⟨a1, a2⟩ := after_dot stem e.toList h3
    simp only
    rw [a1, a2, if_pos ⟨by simp, h2⟩]
    simp

/-- The format of a path is that of the extension after the last dot of its last name. A name that
begins with its only dot has no extension. -/
theorem C55_from_path (p : String) (f : Format) : Format.from_path p = some f ↔ Named p f := by
  have table : ∀ s : String, (match s with
      | "jpg" | "jpeg" => some Format.Jpeg
      | "png" => some .Png
      | "gif" => some .Gif
      | "bmp" => some .Bmp
      | "ico" => some .Ico
      | "webp" => some .WebP
      | _ => none) = some f ↔ s ∈ extensions f := by
    intro s
    split <;> cases f <;> simp_all [extensions]
  unfold Format.from_path
  constructor
  · intro h
    split at h
    · cases h
    · rename_i ext hext
      obtain ⟨stem, h1, h2, h3, -⟩ := (pathExtension_iff _ _).1 hext
      exact ⟨stem, ext.toList, h1, h2, h3, (table _).1 h⟩
  · rintro ⟨stem, ext, h1, h2, h3, h4⟩
    have hext : pathExtension p = some (String.ofList ext) := by
      rw [pathExtension_iff]
      refine ⟨stem, by simpa using h1, h2, by simpa using h3, ?_⟩
      intro h
      have hl := congrArg List.length h
      simp only [List.length_append, List.length_cons, String.toList_ofList, List.length_nil] at hl
      have : 0 < stem.length := List.length_pos_iff.2 h2
      have : ext = [] := List.length_eq_zero_iff.1 (by omega)
      subst this
      cases f <;> simp [extensions] at h4
    rw [hext]
    exact (table _).2 (by simpa [asciiLower] using h4)

/-- A path has at most one format. -/
theorem C55_unique (p : String) (f g : Format) (hf : Named p f) (hg : Named p g) : f = g := by
  rw [← C55_from_path] at hf hg
  rw [hf] at hg
  exact Option.some.inj hg

/-- Saving by name takes the usual options of the format, and refuses other names. -/
theorem C55_encoding (p : String) :
    (∀ f, Named p f → EncodingFormat.from_path p = .ok (usual f)) ∧
    ((∀ f, ¬ Named p f) → EncodingFormat.from_path p = .error (.BadFileExtension p)) := by
  constructor
  · intro f hf
    unfold EncodingFormat.from_path
    rw [(C55_from_path p f).2 hf]
    cases f <;> rfl
  · intro h
    unfold EncodingFormat.from_path
    cases hp : Format.from_path p with
    | none => rfl
    | some f => exact absurd ((C55_from_path p f).1 hp) (h f)

/-- The options with which a format is saved by name are of that format. -/
theorem C55_usual (f : Format) : (usual f).format = f := by cases f <;> rfl

theorem lower_sep (c : Char) : (c.toLower = '/' ↔ c = '/') ∧ (c.toLower = '.' ↔ c = '.') := by
  have key : ∀ a : Char, a.val < 65 → (c.toLower = a ↔ c = a) := by
    intro a ha
    unfold Char.toLower
    split
    · rename_i hc
      constructor
      · intro h
        exfalso
        have hv := congrArg (fun x : Char => x.val.toNat) h
        simp only [UInt32.le_iff_toNat_le, ge_iff_le, UInt32.lt_iff_toNat_lt, UInt32.toNat_add] at hc ha hv
        simp at hc ha hv
        omega
      · rintro rfl
        exfalso
        simp only [UInt32.le_iff_toNat_le, ge_iff_le, UInt32.lt_iff_toNat_lt] at hc ha
        simp at hc ha
        omega
    · rfl
  exact ⟨key '/' (by decide), key '.' (by decide)⟩

theorem lower_tail {t : List Char} (ht : Tail t) : ∀ {t' : List Char},
    t'.map Char.toLower = t.map Char.toLower → Tail t' := by
  induction ht with
  | nil =>
    intro t' h
    obtain rfl : t' = [] := by simpa using h
    exact .nil
  | slash _ ih =>
    intro t' h
    obtain ⟨c, t', rfl, hc, h'⟩ := List.map_eq_cons_iff.1 h
    obtain rfl : c = '/' := (lower_sep c).1.1 (by rw [hc]; decide)
    exact .slash (ih h')
  | dot _ ih =>
    intro t' h
    obtain ⟨c, t', rfl, hc, h'⟩ := List.map_eq_cons_iff.1 h
    obtain rfl : c = '/' := (lower_sep c).1.1 (by rw [hc]; decide)
    obtain ⟨c, t', rfl, hc, h''⟩ := List.map_eq_cons_iff.1 h'
    obtain rfl : c = '.' := (lower_sep c).2.1 (by rw [hc]; decide)
    exact .dot (ih h'')

/-- Capital letters do not matter. -/
theorem C55_case (p q : String) (h : p.toList.map Char.toLower = q.toList.map Char.toLower) (f : Format)
    (hf : Named p f) : Named q f := by
  obtain ⟨stem, ext, ⟨dir, tail, hp, hd, h1, -, -, ht⟩, h2, h3, h4⟩ := hf
  have hl : q.toList.map Char.toLower = (dir.map Char.toLower ++ (stem ++ '.' :: ext).map Char.toLower) ++
      tail.map Char.toLower := by rw [← h, hp]; simp
  obtain ⟨l1, tail', hq, hl1, htail⟩ := List.map_eq_append_iff.1 hl
  obtain ⟨dir', name', rfl, hdir, hname⟩ := List.map_eq_append_iff.1 hl1
  rw [List.map_append] at hname
  obtain ⟨stem', l2, rfl, hstem, hl2⟩ := List.map_eq_append_iff.1 hname
  rw [List.map_cons] at hl2
  obtain ⟨c, ext', rfl, hc, hext⟩ := List.map_eq_cons_iff.1 hl2
  obtain rfl : c = '.' := (lower_sep c).2.1 (by rw [hc]; decide)
  have mem : ∀ (a : Char) (l l' : List Char), (∀ x : Char, x.toLower = a ↔ x = a) →
      l'.map Char.toLower = l.map Char.toLower → a ∈ l' → a ∈ l := by
    intro a l l' ha hm hin
    have : a ∈ l'.map Char.toLower := List.mem_map.2 ⟨a, hin, (ha a).2 rfl⟩
    rw [hm] at this
    obtain ⟨x, hx, hxa⟩ := List.mem_map.1 this
    rwa [← (ha x).1 hxa]
  refine ⟨stem', ext', ⟨dir', tail', hq, ?_, ?_, by simp, ?_, lower_tail ht htail⟩, ?_, ?_, ?_⟩
  · rcases hd with rfl | hd
    · left; simpa using hdir
    · right
      have := congrArg List.getLast? hdir
      rw [List.getLast?_map, List.getLast?_map, hd] at this
      cases hg : dir'.getLast? with
      | none => rw [hg] at this; cases this
      | some c =>
        rw [hg] at this
        have hc : c.toLower = '/' := Option.some.inj this
        rw [(lower_sep c).1.1 hc]
  · intro hin
    exact h1 (mem '/' _ _ (fun x => (lower_sep x).1) (by rw [hname, List.map_append]) hin)
  · intro he
    have : stem' = [] := by
      cases stem' with
      | nil => rfl
      | cons x xs => have := congrArg List.length he; simp at this
    subst this
    exact h2 (by simpa using hstem.symm)
  · rintro rfl
    exact h2 (by simpa using hstem.symm)
  · intro hin
    exact h3 (mem '.' _ _ (fun x => (lower_sep x).2) hext hin)
  · rw [hext]; exact h4

/-! ## C56: opening -/

section
variable {F : Type} [Scalar F]

/-- A file whose content begins with a magic number is read as that format, whatever its name. -/
theorem C56_content (libs : Libs F) (fs : FS) (path : String) (data : List Nat) (f : Format)
    (hr : fs.readErr (fs.node path) = none) (hc : fs.content (fs.node path) = some data)
    (hm : Magic f data) : decode_file libs fs path = decode libs data f := by
  unfold decode_file FS.read
  rw [hr, hc]
  simp only [(C54_sniff data f).2 hm]

/-- Without one, the name decides. -/
theorem C56_name (libs : Libs F) (fs : FS) (path : String) (data : List Nat) (f : Format)
    (hr : fs.readErr (fs.node path) = none) (hc : fs.content (fs.node path) = some data)
    (hm : ∀ g, ¬ Magic g data) (hn : Named path f) :
    decode_file libs fs path = decode libs data f := by
  unfold decode_file FS.read
  rw [hr, hc]
  simp only [(C54_unknown data).2 hm, (C55_from_path path f).2 hn]

/-- If neither says anything, the format is unknown. -/
theorem C56_unknown (libs : Libs F) (fs : FS) (path : String) (data : List Nat)
    (hr : fs.readErr (fs.node path) = none) (hc : fs.content (fs.node path) = some data)
    (hm : ∀ g, ¬ Magic g data) (hn : ∀ f, ¬ Named path f) :
    (decode_file libs fs path).run = .ok (.error .UnknownFormat) := by
  unfold decode_file FS.read
  rw [hr, hc]
  simp only [(C54_unknown data).2 hm]
  cases hp : Format.from_path path with
  | none => rfl
  | some f => exact absurd ((C55_from_path path f).1 hp) (hn f)

/-- A file that cannot be read gives the error of the file system. -/
theorem C56_unreadable (libs : Libs F) (fs : FS) (path : String) :
    (∀ e, fs.readErr (fs.node path) = some e →
      (decode_file libs fs path).run = .ok (.error (.IoError e))) ∧
    (fs.readErr (fs.node path) = none → fs.content (fs.node path) = none →
      ∃ e, (decode_file libs fs path).run = .ok (.error (.IoError e))) := by
  constructor
  · intro e h
    unfold decode_file FS.read
    rw [h]
    rfl
  · intro h1 h2
    unfold decode_file FS.read
    rw [h1, h2]
    exact ⟨_, rfl⟩

/-- Reading from memory goes by content alone. -/
theorem C56_memory (libs : Libs F) (data : List Nat) :
    (∀ f, Magic f data → decode_buffer libs data = decode libs data f) ∧
    ((∀ f, ¬ Magic f data) → (decode_buffer libs data).run = .ok (.error .UnknownFormat)) := by
  constructor
  · intro f h
    unfold decode_buffer
    rw [(C54_sniff data f).2 h]
    exact of_ok_bind ..
  · intro h
    unfold decode_buffer
    rw [(C54_unknown data).2 h]
    rfl

/-! ## C57: saving -/

variable [FloatBytes F]

/-- Saving by name under a name without a known extension fails and leaves the file system as it
was. -/
theorem C57_bad_extension (libs : Libs F) (fs : FS) (path : String) (b : PixelBuffer (Col F))
    (hn : ∀ f, ¬ Named path f) :
    encode_to_file libs fs path b none = (fs, .ok (.error (.BadFileExtension path))) := by
  unfold encode_to_file
  rw [(C55_encoding path).2 hn]

/-- Saving by name is saving with the usual options of the format that the extension names. -/
theorem C57_by_name (libs : Libs F) (fs : FS) (path : String) (b : PixelBuffer (Col F)) (f : Format)
    (hn : Named path f) :
    encode_to_file libs fs path b none = encode_to_file libs fs path b (some (usual f)) := by
  unfold encode_to_file
  rw [(C55_encoding path).1 f hn]

/-- The named settings: quality `q`, everything else as when saving by name. -/
theorem C58_settings [LawfulCast F] (libs : Libs F) {b : PixelBuffer (Col F)} {w h : Nat}
    {px : Nat → Nat → Col F} (sh : Shows b w h px) (hw : w ≤ 65535) (hh : h ≤ 65535) (q : Nat)
    (p : WebPPreset) :
    (∃ data, encode libs b (EncodingFormat.jpeg_with_quality q) =
        .ok (libs.jpeg_write ⟨max 1 (min q 100), none, false, true, data, w, h, false⟩) ∧
      Layout w h 3 data fun x y => sampleBytes (px x y) .Rgb8) ∧
    usual .Jpeg = EncodingFormat.jpeg_with_quality 85 ∧
    usual .WebP = EncodingFormat.webp_with_quality 90 ∧
    EncodingFormat.webp_with_quality q = EncodingFormat.webp_with_preset q .Default ∧
    (∃ argb, ∀ out, libs.webp_write ⟨if p = .Lossless then none else some (p, min q 100), w, h, argb⟩ =
        .ok (out, none, true) →
      encode libs b (EncodingFormat.webp_with_preset q p) = .ok ⟨out, .ok ()⟩) ∧
    (EncodingFormat.jpeg_with_quality q).format = .Jpeg ∧
    (EncodingFormat.webp_with_preset q p).format = .WebP ∧
    ∀ f, (usual f).format = f := by
  refine ⟨C50_jpeg libs sh hw hh q false none false true, rfl, rfl, rfl, ?_, rfl, rfl, ?_⟩
  · obtain ⟨argb, h1, -⟩ := C50_webp libs sh q p
    refine ⟨argb, fun out ho => ?_⟩
    show encode libs b (.WebP q p) = _
    rw [h1, ho]
  · intro f; cases f <;> rfl

/-- If the file cannot be created, nothing happens. -/
theorem C57_not_created (libs : Libs F) (fs : FS) (path : String) (b : PixelBuffer (Col F))
    (ef : EncodingFormat) (e : String) (he : fs.writeErr (fs.node path) = some e) :
    encode_to_file libs fs path b (some ef) = (fs, .ok (.error (.IoError e))) := by
  unfold encode_to_file
  rw [he]

/-- Otherwise the file holds what the encoder wrote, as far as it arrived, and the encoder's result is
reported; if the encoder panics, the file is empty. -/
theorem C57_created (libs : Libs F) (fs : FS) (path : String) (b : PixelBuffer (Col F))
    (ef : EncodingFormat) (he : fs.writeErr (fs.node path) = none) :
    (∀ out, encode libs b ef = .ok out → ∃ fs',
      encode_to_file libs fs path b (some ef) = (fs', .ok out.result) ∧
      fs'.content (fs.node path) = some (fs.settle (fs.node path) out.bytes)) ∧
    (∀ p, encode libs b ef = .error p → ∃ fs',
      encode_to_file libs fs path b (some ef) = (fs', .error p) ∧
      fs'.content (fs.node path) = some []) := by
  constructor
  · intro out ho
    unfold encode_to_file
    rw [he]
    simp only [ho]
    exact ⟨_, rfl, by simp [FS.store]⟩
  · intro p ho
    unfold encode_to_file
    rw [he]
    simp only [ho]
    exact ⟨_, rfl, by simp [FS.store]⟩

/-- Whatever happens, no other file changes, and paths lead where they led. -/
theorem C57_other_files (libs : Libs F) (fs : FS) (path : String) (b : PixelBuffer (Col F))
    (format : Option EncodingFormat) (fs' : FS) (r : R (Except EncodingError Unit))
    (h : encode_to_file libs fs path b format = (fs', r)) :
    (∀ n, n ≠ fs.node path → fs'.content n = fs.content n) ∧ fs'.node = fs.node ∧
      fs'.readErr = fs.readErr ∧ fs'.writeErr = fs.writeErr ∧ fs'.settle = fs.settle := by
  have store : ∀ data, (∀ n, n ≠ fs.node path → (fs.store path data).content n = fs.content n) :=
    fun data n hn => by simp [FS.store, hn]
  unfold encode_to_file at h
  split at h
  · cases h; exact ⟨fun _ _ => rfl, rfl, rfl, rfl, rfl⟩
  · split at h
    · cases h; exact ⟨fun _ _ => rfl, rfl, rfl, rfl, rfl⟩
    · split at h <;> cases h <;> exact ⟨store _, rfl, rfl, rfl, rfl⟩

/-- Too large a picture for JPEG or GIF: the error comes when the file is already empty, so its
previous content is lost. -/
theorem C57_content_lost (libs : Libs F) (fs : FS) (hfs : Plausible fs) (path : String)
    {b : PixelBuffer (Col F)} {w h : Nat} {px : Nat → Nat → Col F} (sh : Shows b w h px)
    (hb : 65535 < w ∨ 65535 < h) (ef : EncodingFormat) (hf : ef.format = .Jpeg ∨ ef.format = .Gif)
    (he : fs.writeErr (fs.node path) = none) :
    ∃ fs' s, encode_to_file libs fs path b (some ef) = (fs', .ok (.error (.BadDimensions s w h))) ∧
      fs'.content (fs.node path) = some [] := by
  have hs : fs.settle (fs.node path) [] = [] := List.prefix_nil.1 (hfs _ _)
  have hout : ∃ s, encode libs b ef = .ok ⟨[], .error (.BadDimensions s w h)⟩ := by
    cases ef <;> simp only [EncodingFormat.format, reduceCtorEq, or_self, or_false, false_or] at hf
    · exact ⟨_, (C58_jpeg libs sh _ _ _ _ _).1 hb⟩
    · exact ⟨_, (C58_gif libs sh).1 hb⟩
  obtain ⟨s, hout⟩ := hout
  obtain ⟨fs', h1, h2⟩ := (C57_created libs fs path b ef he).1 _ hout
  exact ⟨fs', s, h1, by rw [h2, hs]⟩

/-- Saving can succeed although not everything arrived in the file: errors of the last flush are
ignored. -/
theorem C57_ok_but_cut (libs : Libs F) (b : PixelBuffer (Col F)) (ef : EncodingFormat) (out : Written)
    (ho : encode libs b ef = .ok out) (hr : out.result = .ok ()) (hne : out.bytes ≠ []) :
    ∃ fs : FS, Plausible fs ∧ ∃ fs', encode_to_file libs fs "out" b (some ef) = (fs', .ok (.ok ())) ∧
      fs'.content (fs'.node "out") ≠ some out.bytes := by
  refine ⟨⟨fun _ => 0, fun _ => none, fun _ => none, fun _ => none, fun _ _ => []⟩,
    fun _ _ => List.nil_prefix, ?_⟩
  obtain ⟨fs', h1, h2⟩ := (C57_created libs
    ⟨fun _ => 0, fun _ => none, fun _ => none, fun _ => none, fun _ _ => []⟩ "out" b ef rfl).1 _ ho
  rw [hr] at h1
  refine ⟨fs', h1, ?_⟩
  rw [(C57_other_files libs _ "out" b _ fs' _ h1).2.1, h2]
  intro h
  exact hne (Option.some.inj h).symm

/-! ## The hypotheses can be met -/

theorem named_example : Named "dir.d/my.photo.JpEg/./" .Jpeg :=
  ⟨"my.photo".toList, "JpEg".toList, ⟨"dir.d/".toList, ['/', '.', '/'], by decide, .inr (by decide),
    by decide, by decide, by decide, .dot (.slash .nil)⟩, by decide, by decide, by decide⟩

theorem unnamed_example (f : Format) : ¬ Named "dir.png/.png" f := by
  rw [← C55_from_path]
  cases f <;> decide

example := C55_case "dir.d/my.photo.JpEg/./" "DIR.D/My.Photo.jpeg/./" (by decide) .Jpeg named_example
example := (C55_encoding _).1 _ named_example
example := (C55_encoding _).2 unnamed_example
example : Magic .WebP ([0x52, 0x49, 0x46, 0x46, 1, 2, 3, 4, 0x57, 0x45, 0x42, 0x50, 9] : List Nat) :=
  ⟨[1, 2, 3, 4], rfl, ⟨[9], by decide⟩⟩

/-- A file system with a JPEG file called `.png` and an empty one called `my.photo.JpEg`. -/
def demoFS : FS where
  node p := if p = "dir.png/.png" then 0 else 1
  content n := some (if n = 0 then [0xFF, 0xD8, 0xFF] else [])
  readErr _ := none
  writeErr _ := none
  settle _ bytes := bytes

theorem no_magic (g : Format) : ¬ Magic g [] := by
  rw [← C54_sniff]
  cases g <;> simp [Format.from_reader, Format.sniff]

example := C56_content (demo : Libs F) demoFS "dir.png/.png" _ .Jpeg rfl rfl ⟨[], rfl⟩
example := C56_name (demo : Libs F) demoFS "dir.d/my.photo.JpEg/./" _ .Jpeg rfl rfl no_magic named_example
example := C56_unknown (demo : Libs F) { demoFS with node := fun _ => 1 } "dir.png/.png" _ rfl rfl no_magic
  unnamed_example
example := (C56_unreadable (demo : Libs F) { demoFS with content := fun _ => none } "x").2 rfl rfl
example := C57_bad_extension (demo : Libs F) demoFS "dir.png/.png" demoImage unnamed_example
example := C57_by_name (demo : Libs F) demoFS _ demoImage .Jpeg named_example
example := C57_not_created (demo : Libs F) { demoFS with writeErr := fun _ => some "denied" } "x" demoImage
  .Gif "denied" rfl
example := C57_ok_but_cut (demo : Libs F) demoImage (.Bmp .Rgba8) ⟨_, .ok ()⟩ rfl rfl (List.cons_ne_nil _ _)
example (c : Col F) := C57_content_lost (demo : Libs F) demoFS (fun _ _ => List.prefix_rfl)
  "dir.png/.png" (wide_shows c) (.inl (by decide)) .Gif (.inr rfl) rfl

end

end D10
