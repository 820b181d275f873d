import Verif.Model.Text
import Verif.SpecText

/-! # Lemmas for C101: the reader and the grammar of numbers -/

namespace D10
open Spec

theorem digitsValue_eq (ds : List Char) : digitsValue ds = Nat.ofDigitChars 10 ds 0 := rfl

theorem take_sign_cases (cs : List Char) :
    (∃ r, cs = '-' :: r ∧ take_sign cs = (true, r)) ∨ (∃ r, cs = '+' :: r ∧ take_sign cs = (false, r)) ∨
    (cs.head? ≠ some '-' ∧ cs.head? ≠ some '+' ∧ take_sign cs = (false, cs)) := by
  unfold take_sign
  split
  · exact .inl ⟨_, rfl, rfl⟩
  · exact .inr (.inl ⟨_, rfl, rfl⟩)
  · rename_i h1 h2
    refine .inr (.inr ⟨?_, ?_, rfl⟩)
    · intro h
      cases cs with
      | nil => cases h
      | cons c r => cases h; exact h1 r rfl
    · intro h
      cases cs with
      | nil => cases h
      | cons c r => cases h; exact h2 r rfl

theorem take_sign_other {cs : List Char} (h1 : cs.head? ≠ some '-') (h2 : cs.head? ≠ some '+') :
    take_sign cs = (false, cs) := by
  rcases take_sign_cases cs with ⟨r, rfl, -⟩ | ⟨r, rfl, -⟩ | ⟨-, -, h⟩
  · exact absurd rfl h1
  · exact absurd rfl h2
  · exact h

theorem head_of_digits {ds : List Char} (hd : ∀ d ∈ ds, d.isDigit = true) {c : Char}
    (hc : c.isDigit = false) : ds.head? ≠ some c := by
  cases ds with
  | nil => exact fun h => by cases h
  | cons d ds =>
    intro h
    cases h
    rw [hd c (by simp)] at hc
    cases hc

theorem take_sign_digits {ds : List Char} (hd : ∀ d ∈ ds, d.isDigit = true) :
    take_sign ds = (false, ds) :=
  take_sign_other (head_of_digits hd (by decide)) (head_of_digits hd (by decide))

theorem parse_exponent_cons (c : Char) (rest : List Char) : parse_exponent (c :: rest) =
    if c = 'e' ∨ c = 'E' then
      if (take_sign rest).2 ≠ [] ∧ (take_sign rest).2.all Char.isDigit then
        some (if (take_sign rest).1 then -(Nat.ofDigitChars 10 (take_sign rest).2 0 : Int)
          else Nat.ofDigitChars 10 (take_sign rest).2 0)
      else none
    else none := rfl

theorem parse_exponent_iff (cs : List Char) (e : Int) : parse_exponent cs = some e ↔ Exponent cs e := by
  constructor
  · intro h
    cases cs with
    | nil => cases h; exact .without
    | cons c rest =>
      rw [parse_exponent_cons] at h
      split at h
      · rename_i hc
        rcases take_sign_cases rest with ⟨r, rfl, hr⟩ | ⟨r, rfl, hr⟩ | ⟨-, -, hr⟩ <;>
          rw [hr] at h <;> simp only [Bool.false_eq_true, ↓reduceIte] at h <;>
          split at h
        · rename_i hd
          cases h
          exact .minus c r hc hd.1 (by simpa using hd.2)
        · cases h
        · rename_i hd
          cases h
          exact .plus c r hc hd.1 (by simpa using hd.2)
        · cases h
        · rename_i hd
          cases h
          exact .plain c _ hc hd.1 (by simpa using hd.2)
        · cases h
      · cases h
  · intro h
    cases h with
    | without => rfl
    | plain c ds hc hne hd =>
      rw [parse_exponent_cons]
      rw [if_pos hc, take_sign_digits hd]
      simp only [Bool.false_eq_true, if_false]
      rw [if_pos ⟨hne, by simpa using hd⟩]
      rfl
    | plus c ds hc hne hd =>
      rw [parse_exponent_cons]
      rw [if_pos hc]
      simp only [take_sign, Bool.false_eq_true, if_false]
      rw [if_pos ⟨hne, by simpa using hd⟩]
      rfl
    | minus c ds hc hne hd =>
      rw [parse_exponent_cons]
      rw [if_pos hc]
      simp only [take_sign, if_true]
      rw [if_pos ⟨hne, by simpa using hd⟩]
      rfl

/-- An exponent never begins with a digit or a point. -/
theorem Spec.Exponent.head {cs : List Char} {e : Int} (h : Exponent cs e) :
    ∀ c, cs.head? = some c → c = 'e' ∨ c = 'E' := by
  intro c hc
  cases h with
  | without => cases hc
  | plain _ _ h | plus _ _ h | minus _ _ h => cases hc; exact h

theorem mem_takeWhile {p : Char → Bool} {l : List Char} {d : Char} (h : d ∈ l.takeWhile p) :
    p d = true := by
  have := List.all_takeWhile (p := p) (l := l)
  exact List.all_eq_true.1 this d h

theorem takeWhile_digits {ds rest : List Char} (hd : ∀ d ∈ ds, d.isDigit = true)
    (hr : ∀ c, rest.head? = some c → c.isDigit = false) :
    (ds ++ rest).takeWhile Char.isDigit = ds ∧ (ds ++ rest).dropWhile Char.isDigit = rest := by
  rw [List.takeWhile_append_of_pos hd, List.dropWhile_append_of_pos hd]
  cases rest with
  | nil => simp
  | cons c rest =>
    have := hr c rfl
    simp [this]

theorem isDigit_e {c : Char} (h : c = 'e' ∨ c = 'E') : c.isDigit = false ∧ c ≠ '.' := by
  rcases h with rfl | rfl <;> decide

theorem parse_number_iff (cs : List Char) (q : ℚ) : parse_number cs = some q ↔ Numeral cs q := by
  constructor
  · intro h
    have e1 : cs = cs.takeWhile Char.isDigit ++ cs.dropWhile Char.isDigit :=
      (List.takeWhile_append_dropWhile ..).symm
    have d1 : ∀ d ∈ cs.takeWhile Char.isDigit, d.isDigit = true := fun d hd => mem_takeWhile hd
    unfold parse_number at h
    generalize cs.takeWhile Char.isDigit = int at h e1 d1
    generalize cs.dropWhile Char.isDigit = rest at h e1
    subst e1
    cases rest with
    | nil =>
      simp only [parse_exponent, take_fraction] at h
      split at h
      · cases h
      · rename_i hne
        cases h
        have := Numeral.whole int [] 0 d1 (by simpa using hne) .without
        simpa [digitsValue_eq] using this
    | cons c rest =>
      by_cases hc : c = '.'
      · subst hc
        simp only [take_fraction] at h
        have e2 : rest = rest.takeWhile Char.isDigit ++ rest.dropWhile Char.isDigit :=
          (List.takeWhile_append_dropWhile ..).symm
        have d2 : ∀ d ∈ rest.takeWhile Char.isDigit, d.isDigit = true :=
          fun d hd => mem_takeWhile hd
        generalize rest.takeWhile Char.isDigit = frac at h e2 d2
        generalize rest.dropWhile Char.isDigit = ex at h e2
        subst e2
        split at h
        · cases h
        · rename_i hne
          split at h
          · rename_i e he
            cases h
            have := Numeral.point int frac ex e d1 d2 (by tauto) ((parse_exponent_iff _ _).1 he)
            simpa [digitsValue_eq] using this
          · cases h
      · have hm : take_fraction (c :: rest) = ([], c :: rest) := by
          unfold take_fraction
          split
          · rename_i heq
            cases heq
            exact absurd rfl hc
          · rfl
        simp only [hm] at h
        split at h
        · cases h
        · rename_i hne
          split at h
          · rename_i e he
            cases h
            have := Numeral.whole int (c :: rest) e d1 (by simpa using hne) ((parse_exponent_iff _ _).1 he)
            simpa [digitsValue_eq] using this
          · cases h
  · intro h
    cases h with
    | whole int ex e hi hne he =>
      obtain ⟨t1, t2⟩ := takeWhile_digits hi (rest := ex) (fun c hc => (isDigit_e (he.head c hc)).1)
      unfold parse_number
      simp only [t1, t2]
      have hm : take_fraction ex = ([], ex) := by
        unfold take_fraction
        split
        · exact absurd rfl (isDigit_e (he.head '.' rfl)).2
        · rfl
      simp only [hm]
      rw [if_neg (by simp [hne]), (parse_exponent_iff _ _).2 he]
      simp [digitsValue_eq]
    | point int frac ex e hi hf hne he =>
      obtain ⟨t1, t2⟩ := takeWhile_digits hi (rest := '.' :: frac ++ ex)
        (fun c hc => by cases hc; decide)
      obtain ⟨t3, t4⟩ := takeWhile_digits hf (rest := ex) (fun c hc => (isDigit_e (he.head c hc)).1)
      unfold parse_number
      rw [List.append_assoc] 
      simp only [t1, t2]
      simp only [List.cons_append, take_fraction, t3, t4]
      rw [if_neg (by tauto), (parse_exponent_iff _ _).2 he]
      simp [digitsValue_eq]

theorem toLower_digit {c : Char} (h : c.isDigit = true) : c.toLower = c := by
  simp only [Char.isDigit, Bool.and_eq_true, decide_eq_true_eq] at h
  have h2 := h.2
  unfold Char.toLower
  split
  · rename_i h3
    exfalso
    have h1 : c.val ≤ 57 := h2
    have h4 : (65 : UInt32) ≤ c.val := h3.1
    exact absurd (UInt32.le_trans h4 h1) (by decide)
  · rfl

/-- A number without a sign begins with a digit or a point. -/
theorem Spec.Numeral.head {cs : List Char} {q : ℚ} (h : Numeral cs q) :
    ∃ c, cs.head? = some c ∧ (c.isDigit = true ∨ c = '.') := by
  cases h with
  | whole int ex e hi hne he =>
    cases int with
    | nil => exact absurd rfl hne
    | cons c int => exact ⟨c, rfl, .inl (hi c (by simp))⟩
  | point int frac ex e hi hf hne he =>
    cases int with
    | nil => exact ⟨'.', rfl, .inr rfl⟩
    | cons c int => exact ⟨c, rfl, .inl (hi c (by simp))⟩

theorem not_numeral {cs : List Char} {n : String} (h : cs.map Char.toLower = n.toList)
    (hn : ∀ c, n.toList.head? = some c → c.isDigit = false ∧ c ≠ '.') : parse_number cs = none := by
  rw [Option.eq_none_iff_forall_ne_some]
  intro q hq
  obtain ⟨c, hc, hd⟩ := ((parse_number_iff _ _).1 hq).head
  have : n.toList.head? = some c.toLower := by
    rw [← h, List.head?_map, hc]; rfl
  have h2 := hn _ this
  rcases hd with hd | rfl
  · rw [toLower_digit hd, hd] at h2
    exact absurd h2.1 (by decide)
  · exact absurd h2.2 (by decide)

/-- The part of `parse_f32` after the sign. -/
def readBody (neg : Bool) (cs : List Char) : Option F32 :=
  match parse_number cs with
  | some q => some (FP.ofRat b32 neg (if neg then -q else q))
  | none =>
    match String.ofList (cs.map Char.toLower) with
    | "nan" => some .nan
    | "inf" => some (.inf neg)
    | "infinity" => some (.inf neg)
    | _ => none

theorem parse_f32_eq (s : String) :
    parse_f32 s = readBody (take_sign s.toList).1 (take_sign s.toList).2 := rfl

theorem ofList_eq {cs : List Char} {n : String} : String.ofList cs = n ↔ cs = n.toList := by
  constructor
  · rintro rfl; simp
  · rintro rfl; simp

theorem readBody_iff (neg : Bool) (cs : List Char) (v : F32) :
    readBody neg cs = some v ↔ Means neg cs v := by
  constructor
  · intro h
    unfold readBody at h
    split at h
    · rename_i q hq
      cases h
      exact .number q ((parse_number_iff _ _).1 hq)
    · split at h
      · rename_i hs
        cases h
        exact .nan (ofList_eq.1 hs)
      · rename_i hs
        cases h
        exact .inf (.inl (ofList_eq.1 hs))
      · rename_i hs
        cases h
        exact .inf (.inr (ofList_eq.1 hs))
      · cases h
  · intro h
    unfold readBody
    cases h with
    | number q h => rw [(parse_number_iff _ _).2 h]
    | nan h =>
      rw [not_numeral h (fun c hc => by cases hc; decide)]
      simp only [ofList_eq.2 h]
    | inf h =>
      rcases h with h | h <;> rw [not_numeral h (fun c hc => by cases hc; decide)] <;>
        simp only [ofList_eq.2 h]

theorem Spec.Means.head {neg : Bool} {cs : List Char} {v : F32} (h : Means neg cs v) :
    cs.head? ≠ some '-' ∧ cs.head? ≠ some '+' := by
  have key : ∀ n : String, cs.map Char.toLower = n.toList → n.toList.head? ≠ some '-' →
      n.toList.head? ≠ some '+' → cs.head? ≠ some '-' ∧ cs.head? ≠ some '+' := by
    intro n h h1 h2
    rw [← h, List.head?_map] at h1 h2
    exact ⟨fun e => h1 (by rw [e]; rfl), fun e => h2 (by rw [e]; rfl)⟩
  cases h with
  | number q h =>
    obtain ⟨c, hc, hd⟩ := h.head
    rw [hc]
    constructor <;> rintro ⟨⟩ <;> revert hd <;> decide
  | nan h => exact key _ h (by decide) (by decide)
  | inf h =>
    rcases h with h | h
    · exact key _ h (by decide) (by decide)
    · exact key _ h (by decide) (by decide)

theorem parse_f32_iff (s : String) (v : F32) : parse_f32 s = some v ↔ Reads s v := by
  rw [parse_f32_eq]
  constructor
  · intro h
    rcases take_sign_cases s.toList with ⟨r, hr, e⟩ | ⟨r, hr, e⟩ | ⟨-, -, e⟩ <;> rw [e] at h
    · exact .minus v r hr ((readBody_iff _ _ _).1 h)
    · exact .plus v r hr ((readBody_iff _ _ _).1 h)
    · exact .unsigned v ((readBody_iff _ _ _).1 h)
  · intro h
    cases h with
    | unsigned h =>
      rw [take_sign_other h.head.1 h.head.2]
      exact (readBody_iff _ _ _).2 h
    | plus r hr h => rw [hr]; exact (readBody_iff _ _ _).2 h
    | minus r hr h => rw [hr]; exact (readBody_iff _ _ _).2 h

end D10
