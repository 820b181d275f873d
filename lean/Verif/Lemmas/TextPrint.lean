import Mathlib.Tactic.Linarith
import Mathlib.Tactic.NormNum
import Mathlib.Tactic.Ring
import Mathlib.Tactic.FieldSimp
import Mathlib.Tactic.IntervalCases
import Verif.Lemmas.TextRead
import Verif.Lemmas.SumFloat

/-! # Lemmas for C100: the digits of a number that is printed -/

namespace D10
open Spec

theorem digitsValue_append (a b : List Char) :
    digitsValue (a ++ b) = digitsValue a * 10 ^ b.length + digitsValue b := by
  rw [digitsValue_eq, digitsValue_eq, digitsValue_eq, Nat.ofDigitChars_append,
    Nat.ofDigitChars_eq_ofDigitChars_zero, Nat.mul_comm]

theorem digitsValue_zeros (n : Nat) : digitsValue (List.replicate n '0') = 0 := by
  rw [digitsValue_eq, Nat.ofDigitChars_replicate_zero, Nat.mul_zero]

theorem digitsValue_toDigits (n : Nat) : digitsValue (Nat.toDigits 10 n) = n :=
  Nat.ofDigitChars_ten_toDigits

/-- A decimal digit is the character of a number below ten. -/
theorem isDigit_cases {c : Char} (h : c.isDigit = true) :
    ∃ d, d < 10 ∧ c = Nat.digitChar d ∧ c.toNat - 48 = d := by
  simp only [Char.isDigit, Bool.and_eq_true, decide_eq_true_eq] at h
  have h1 : 48 ≤ c.toNat := UInt32.le_iff_toNat_le.1 h.1
  have h2 : c.toNat ≤ 57 := UInt32.le_iff_toNat_le.1 h.2
  refine ⟨c.toNat - 48, by omega, ?_, rfl⟩
  have hc : c = Char.ofNat c.toNat := (Char.ofNat_toNat c).symm
  generalize c.toNat = n at h1 h2 hc
  subst hc
  interval_cases n <;> rfl

theorem digitsValue_lt {ds : List Char} (h : ∀ c ∈ ds, c.isDigit = true) :
    digitsValue ds < 10 ^ ds.length := by
  induction ds using List.reverseRecOn with
  | nil => decide
  | append_singleton ds c ih =>
    obtain ⟨d, hd, -, hv⟩ := isDigit_cases (h c (by simp))
    have := ih fun c hc => h c (by simp [hc])
    rw [digitsValue_append]
    have e : digitsValue [c] = d := by simpa [digitsValue] using hv
    rw [e, List.length_append, List.length_singleton, Nat.pow_succ]
    omega

theorem Spec.Digits.pos {ds : List Char} (h : Digits ds) : 10 ^ (ds.length - 1) ≤ digitsValue ds := by
  cases ds with
  | nil => exact absurd rfl h.some
  | cons c ds =>
    obtain ⟨d, hd, hc, hv⟩ := isDigit_cases (h.digit c (by simp))
    have h0 : d ≠ 0 := by
      rintro rfl
      exact h.first (by rw [hc]; rfl)
    have : c :: ds = [c] ++ ds := rfl
    rw [this, digitsValue_append]
    have e : digitsValue [c] = d := by simpa [digitsValue] using hv
    rw [e]
    simp only [List.singleton_append, List.length_cons, Nat.add_sub_cancel]
    calc 10 ^ ds.length = 1 * 10 ^ ds.length := by omega
      _ ≤ d * 10 ^ ds.length := Nat.mul_le_mul_right _ (by omega)
      _ ≤ _ := Nat.le_add_right _ _

/-- The digits of a positive number. -/
theorem digits_toDigits {n : Nat} (hn : 0 < n) : Digits (Nat.toDigits 10 n) where
  some := Nat.toDigits_ne_nil
  digit c hc := Nat.isDigit_of_mem_toDigits (by decide) (by decide) hc
  first := by
    induction n using Nat.strongRecOn with
    | ind n ih =>
      by_cases h : n < 10
      · rw [Nat.toDigits_of_lt_base h]
        interval_cases n <;> decide
      · rw [Nat.toDigits_of_base_le (by decide) (by omega)]
        rw [List.head?_append_of_ne_nil _ Nat.toDigits_ne_nil]
        exact ih (n / 10) (by omega) (by omega)

/-- Digits are those of the number they write. -/
theorem toDigits_digitsValue {ds : List Char} (h : Digits ds) : Nat.toDigits 10 (digitsValue ds) = ds := by
  induction ds using List.reverseRecOn with
  | nil => exact absurd rfl h.some
  | append_singleton ds c ih =>
    obtain ⟨d, hd, hc, hv⟩ := isDigit_cases (h.digit c (by simp))
    have e : digitsValue [c] = d := by simpa [digitsValue] using hv
    rw [digitsValue_append, e]
    by_cases hn : ds = []
    · subst hn
      rw [show digitsValue [] * 10 ^ [c].length + d = d by simp [digitsValue],
        Nat.toDigits_of_lt_base hd, ← hc]
      rfl
    · have hd' : Digits ds := ⟨hn, fun c hc => h.digit c (by simp [hc]), by
        have := h.first
        rwa [List.head?_append_of_ne_nil _ hn] at this⟩
      have hp : 0 < digitsValue ds := lt_of_lt_of_le (by positivity) hd'.pos
      have := Nat.toDigits_append_toDigits (b := 10) (by decide) hp hd
      rw [ih hd', Nat.toDigits_of_lt_base hd, ← hc] at this
      rw [this]
      simp [Nat.mul_comm]

/-- The last `p` digits of `m`. -/
def pad : Nat → Nat → List Char
  | 0, _ => []
  | p + 1, m => pad p (m / 10) ++ [Nat.digitChar (m % 10)]

theorem length_pad (p m : Nat) : (pad p m).length = p := by
  induction p generalizing m with
  | zero => rfl
  | succ p ih => simp [pad, ih]

theorem pad_zero (p : Nat) : pad p 0 = List.replicate p '0' := by
  induction p with
  | zero => rfl
  | succ p ih =>
    rw [pad, Nat.zero_div, ih, List.replicate_succ']
    rfl

theorem pad_small (p m : Nat) (h0 : 0 < m) (h : m < 10 ^ p) :
    (Nat.toDigits 10 m).length ≤ p ∧
    List.replicate (p - (Nat.toDigits 10 m).length) '0' ++ Nat.toDigits 10 m = pad p m := by
  induction p generalizing m with
  | zero => exact absurd h (by simp; omega)
  | succ p ih =>
    by_cases hm : m < 10
    · rw [Nat.toDigits_of_lt_base hm, pad, show m / 10 = 0 by omega, show m % 10 = m by omega, pad_zero]
      simp
    · obtain ⟨h1, h2⟩ := ih (m / 10) (by omega) (by rw [Nat.pow_succ] at h; omega)
      rw [Nat.toDigits_of_base_le (by decide) (by omega), pad, ← h2]
      simp only [List.length_append, List.length_singleton]
      refine ⟨by omega, ?_⟩
      rw [show p + 1 - ((Nat.toDigits 10 (m / 10)).length + 1) = p - (Nat.toDigits 10 (m / 10)).length by
        omega, List.append_assoc]

theorem pad_large (p m : Nat) (h : 10 ^ p ≤ m) :
    Nat.toDigits 10 m = Nat.toDigits 10 (m / 10 ^ p) ++ pad p m := by
  induction p generalizing m with
  | zero => simp [pad]
  | succ p ih =>
    have hp : 0 < 10 ^ p := by positivity
    have h10 : 10 ≤ m := by rw [Nat.pow_succ] at h; omega
    have h' : 10 ^ p ≤ m / 10 := by rw [Nat.pow_succ] at h; omega
    rw [Nat.toDigits_of_base_le (by decide) h10, ih _ h', pad, Nat.div_div_eq_div_mul, List.append_assoc,
      Nat.pow_succ, Nat.mul_comm (10 ^ p)]

theorem toDigits_mul_pow (m j : Nat) (h0 : 0 < m) :
    Nat.toDigits 10 (m * 10 ^ j) = Nat.toDigits 10 m ++ List.replicate j '0' := by
  have hp : 0 < 10 ^ j := by positivity
  rw [pad_large j (m * 10 ^ j) (Nat.le_mul_of_pos_left _ h0), Nat.mul_div_cancel _ hp]
  congr 1
  clear h0 hp
  induction j generalizing m with
  | zero => rfl
  | succ j ih =>
    have e : m * 10 ^ (j + 1) = m * 10 ^ j * 10 := by rw [Nat.pow_succ, Nat.mul_assoc]
    rw [pad, show m * 10 ^ (j + 1) / 10 = m * 10 ^ j by omega, ih,
      show m * 10 ^ (j + 1) % 10 = 0 by omega, List.replicate_succ']
    rfl

/-- What `format_f32` does with the text of the number. -/
def withPoint (s : String) : String := if s.toList.contains '.' then s else s ++ ".0"

theorem withPoint_of {a b : String} : withPoint (a ++ "." ++ b) = a ++ "." ++ b := by
  unfold withPoint
  rw [if_pos (by simp)]

theorem no_point {ds : List Char} (h : ∀ c ∈ ds, c.isDigit = true) : ds.contains '.' = false := by
  rw [Bool.eq_false_iff]
  intro hc
  have := h '.' (by simpa using hc)
  revert this
  decide

theorem places_pad (m p : Nat) (hp : 1 ≤ p) (hp4 : p ≤ 4) (hm : m % 10 ≠ 0) :
    (places (m * 10 ^ (4 - p))).map Nat.digitChar = pad p m := by
  unfold places
  have cg : ∀ {a b : Nat} {l l' : List Char}, a = b → l = l' →
      Nat.digitChar a :: l = Nat.digitChar b :: l' := by
    rintro a b l l' rfl rfl; rfl
  interval_cases p
  · rw [if_neg (by omega), if_neg (by omega), if_neg (by omega)]
    simp only [pad, List.map, List.nil_append]
    exact cg (by omega) rfl
  · rw [if_neg (by omega), if_neg (by omega), if_pos (by omega)]
    simp only [pad, List.map, List.nil_append, List.cons_append]
    exact cg (by omega) (cg (by omega) rfl)
  · rw [if_neg (by omega), if_pos (by omega)]
    simp only [pad, List.map, List.nil_append, List.cons_append]
    exact cg (by omega) (cg (by omega) (cg (by omega) rfl))
  · rw [if_pos (by omega)]
    simp only [pad, List.map, List.nil_append, List.cons_append]
    exact cg (by omega) (cg (by omega) (cg (by omega) (cg (by omega) rfl)))

/-- The digits of `k / 10000`, without zeros at the end, are printed as `fourPlaces k`. -/
theorem plain_fourPlaces {ds : List Char} {e : Int} {k g : Nat} (hd : Digits ds)
    (hm : digitsValue ds % 10 ≠ 0) (hk : k = digitsValue ds * 10 ^ g)
    (he : e = ds.length + g - 4) : withPoint (plain ds e) = fourPlaces k := by
  have hs := toDigits_digitsValue hd
  have hpos : 0 < digitsValue ds := by omega
  have hlen : 0 < ds.length := List.length_pos_of_ne_nil hd.some
  generalize digitsValue ds = m at hm hk hs hpos
  unfold fourPlaces
  rw [Nat.toString_eq_ofList_toDigits]
  by_cases hg : 4 ≤ g
  · obtain ⟨j, rfl⟩ := Nat.exists_eq_add_of_le hg
    have e0 : k = m * 10 ^ j * 10000 := by rw [hk, Nat.pow_add]; ring
    have e1 : k / 10000 = m * 10 ^ j := by omega
    have e2 : k % 1000 = 0 ∧ k / 1000 % 10 = 0 := by omega
    rw [e1, toDigits_mul_pow _ _ hpos, hs]
    unfold places
    rw [if_neg (by omega), if_neg (by omega), if_neg (by omega), e2.2]
    unfold plain
    rw [if_neg (by omega), if_neg (by omega), show e.toNat - ds.length = j by omega]
    unfold withPoint
    rw [if_neg]
    · rw [String.append_assoc]
      rfl
    · rw [String.toList_ofList, no_point]
      · simp
      · intro c hc
        rcases List.mem_append.1 hc with hc | hc
        · exact hd.digit c hc
        · rw [(List.mem_replicate.1 hc).2]; decide
  · have hp : ∃ p, 1 ≤ p ∧ p ≤ 4 ∧ g = 4 - p := ⟨4 - g, by omega, by omega, by omega⟩
    obtain ⟨p, hp1, hp4, rfl⟩ := hp
    rw [hk, places_pad m p hp1 hp4 hm]
    have e1 : m * 10 ^ (4 - p) / 10000 = m / 10 ^ p := by
      have : 10000 = 10 ^ p * 10 ^ (4 - p) := by rw [← Nat.pow_add, show p + (4 - p) = 4 by omega]
      rw [this, Nat.mul_div_mul_right _ _ (by positivity)]
    rw [e1]
    by_cases hs' : m < 10 ^ p
    · obtain ⟨l1, l2⟩ := pad_small p m hpos hs'
      rw [hs] at l1 l2
      rw [Nat.div_eq_of_lt hs', ← l2]
      unfold plain
      rw [if_pos (by omega), show (-e).toNat = p - ds.length by omega]
      exact withPoint_of (a := "0")
    · have l := pad_large p m (by omega)
      rw [hs] at l
      have hl : ds.length = (Nat.toDigits 10 (m / 10 ^ p)).length + p := by
        rw [l, List.length_append, length_pad]
      have hl2 : 0 < (Nat.toDigits 10 (m / 10 ^ p)).length := Nat.length_toDigits_pos
      unfold plain
      rw [if_neg (by omega), if_pos (by omega),
        show e.toNat = (Nat.toDigits 10 (m / 10 ^ p)).length by omega, l]
      rw [List.take_left, List.drop_left]
      exact withPoint_of

theorem decimal_pos {ds : List Char} {e : Int} (h : Digits ds) : 0 < decimal ds e := by
  have : 0 < digitsValue ds := lt_of_lt_of_le (by positivity) h.pos
  unfold decimal
  positivity

theorem length_toDigits_of {m : Nat} {n : Nat} (h1 : 10 ^ n ≤ m) (h2 : m < 10 ^ (n + 1)) :
    (Nat.toDigits 10 m).length = n + 1 := by
  have a := (Nat.length_toDigits_le_iff (b := 10) (n := m) (k := n + 1) (by decide) (by omega)).2 h2
  have b : ¬ (Nat.toDigits 10 m).length ≤ n := by
    intro h
    rcases Nat.eq_zero_or_pos n with rfl | hn
    · have := Nat.length_toDigits_pos (b := 10) (n := m); omega
    · have := (Nat.length_toDigits_le_iff (b := 10) (n := m) (by decide) hn).1 h
      omega
  omega

/-- Two positive numbers that are rounded to the same normal number are close. -/
theorem same_float {a b : ℚ} (ha : 1 / 10000 ≤ a) (hb : 0 < b) (h : rn b32 b = rn b32 a) :
    |a - b| ≤ (a + b) / 16777216 := by
  have p14 : pow2 (-14) = 1 / 16384 := by rw [pow2_eq]; norm_num
  have p15 : pow2 (-15) = 1 / 32768 := by rw [pow2_eq]; norm_num
  have h126 : pow2 (-126) ≤ pow2 (-15) := pow2_le (by norm_num)
  have h1 : pow2 (-14) ≤ rn b32 a :=
    rep_le_rn (IsRep.pow2 (by decide)) (by rw [p14]; linarith)
  have hb' : pow2 (-15) ≤ b := by
    by_contra hc
    have := rn_le_rep (f := b32) (IsRep.pow2 (k := -15) (by decide)) (not_le.1 hc).le
    rw [h] at this
    linarith
  have ea := rn_rel_normal (q := a) (by rw [abs_of_pos (by linarith)]; linarith)
  have eb := rn_rel_normal (q := b) (by rw [abs_of_pos hb]; linarith)
  rw [abs_of_pos (show 0 < a by linarith)] at ea
  rw [abs_of_pos hb, h] at eb
  rw [abs_le] at *
  constructor <;> linarith [ea.1, ea.2, eb.1, eb.2]

/-- The shortest digits that are read as the float nearest to `k / 10000` are those of `k / 10000`. -/
theorem shortest_digits {k : Nat} (hk : 0 < k) (hk2 : k ≤ 8000000) {ds : List Char} {e : Int}
    (hd : Digits ds) (hr : rn b32 (decimal ds e) = rn b32 ((k : ℚ) / 10000))
    (hmin : ∀ ds' e', Digits ds' → rn b32 (decimal ds' e') = rn b32 ((k : ℚ) / 10000) →
      ds.length ≤ ds'.length) :
    ∃ g : Nat, digitsValue ds % 10 ≠ 0 ∧ k = digitsValue ds * 10 ^ g ∧ e = ds.length + g - 4 := by
  have kq : (1 : ℚ) ≤ k := by exact_mod_cast hk
  have kq2 : (k : ℚ) ≤ 8000000 := by exact_mod_cast hk2
  have hclose := same_float (a := (k : ℚ) / 10000) (b := decimal ds e)
    (by linarith) (decimal_pos hd) hr
  have hDpos := decimal_pos (e := e) hd
  have hlen : 0 < ds.length := List.length_pos_of_ne_nil hd.some
  have m1 := hd.pos
  have m2 := digitsValue_lt hd.digit
  have hs := toDigits_digitsValue hd
  have mpos : 0 < digitsValue ds := lt_of_lt_of_le (by positivity) m1
  by_cases hf : -4 ≤ e - ds.length
  · obtain ⟨g, hg⟩ : ∃ g : Nat, e - ds.length = (g : Int) - 4 :=
      ⟨(e - ds.length + 4).toNat, by omega⟩
    have hD : decimal ds e = (digitsValue ds * 10 ^ g : Nat) / 10000 := by
      unfold decimal
      rw [hg, zpow_sub₀ (by norm_num)]
      push_cast
      norm_num
      ring
    refine ⟨g, ?_, ?_, by omega⟩
    · intro h0
      have h10 : 10 ≤ digitsValue ds := by omega
      have hd' := digits_toDigits (n := digitsValue ds / 10) (by omega)
      have hl : ds.length = (Nat.toDigits 10 (digitsValue ds / 10)).length + 1 := by
        conv_lhs => rw [← hs, Nat.toDigits_of_base_le (by decide) h10]
        simp
      have := hmin _ e hd' (by
        rw [← hr]
        congr 1
        unfold decimal
        rw [digitsValue_toDigits]
        have e1 : (digitsValue ds : ℚ) = (digitsValue ds / 10 : Nat) * 10 := by
          have : digitsValue ds = digitsValue ds / 10 * 10 := by omega
          exact_mod_cast this
        rw [e1, show e - ((Nat.toDigits 10 (digitsValue ds / 10)).length : Int) =
          (e - ds.length) + 1 by omega, zpow_add₀ (by norm_num)]
        ring)
      omega
    · rw [hD] at hclose
      generalize digitsValue ds * 10 ^ g = K at hclose
      rw [abs_le] at hclose
      have hK : (K : ℚ) ≤ 8000001 := by linarith [hclose.1]
      have a1 : (K : ℚ) < k + 1 := by linarith [hclose.1]
      have a2 : (k : ℚ) < K + 1 := by linarith [hclose.2]
      have b1 : K < k + 1 := by exact_mod_cast a1
      have b2 : k < K + 1 := by exact_mod_cast a2
      omega
  · exfalso
    obtain ⟨j, k', hk', hkk⟩ := Nat.exists_eq_pow_mul_and_not_dvd (n := k) (by omega) 10 (by decide)
    have k'pos : 0 < k' := by
      rcases Nat.eq_zero_or_pos k' with rfl | h
      · exact absurd (dvd_zero _) hk'
      · exact h
    have kk : k' ≤ k := by rw [hkk]; exact Nat.le_mul_of_pos_left _ (by positivity)
    have hd' := digits_toDigits k'pos
    have hn := hmin _ ((Nat.toDigits 10 k').length + j - 4) hd' (by
      congr 1
      unfold decimal
      rw [digitsValue_toDigits, show ((Nat.toDigits 10 k').length : Int) + j - 4 -
        (Nat.toDigits 10 k').length = (j : Int) - 4 by omega, zpow_sub₀ (by norm_num), hkk]
      push_cast
      norm_num
      ring)
    have n7 : (Nat.toDigits 10 k').length ≤ 7 :=
      (Nat.length_toDigits_le_iff (b := 10) (by decide) (by decide)).2 (by norm_num; omega)
    have k1 := hd'.pos
    rw [digitsValue_toDigits] at k1
    have hD : decimal ds e ≤ (digitsValue ds : ℚ) / 100000 := by
      unfold decimal
      have : (10 : ℚ) ^ (e - ds.length) ≤ 10 ^ (-5 : Int) :=
        zpow_le_zpow_right₀ (by norm_num) (by omega)
      have h2 : (10 : ℚ) ^ (-5 : Int) = 1 / 100000 := by norm_num
      rw [h2] at this
      calc (digitsValue ds : ℚ) * 10 ^ (e - ds.length) ≤ digitsValue ds * (1 / 100000) :=
            mul_le_mul_of_nonneg_left this (by positivity)
        _ = _ := by ring
    have hk10 : k' % 10 ≠ 0 := fun h => hk' (Nat.dvd_of_mod_eq_zero h)
    rw [abs_le] at hclose
    have k3 : 10 ^ (ds.length - 1) ≤ k :=
      le_trans (Nat.pow_le_pow_right (by decide) (by omega)) (le_trans k1 kk)
    by_cases hn7 : ds.length = 7
    · rw [hn7] at m2 k3 hn
      have : (Nat.toDigits 10 k').length = 7 := by omega
      rw [this] at k1
      have c1 : 1000001 ≤ k := by norm_num at k1; omega
      have c2 : digitsValue ds ≤ 9999999 := by norm_num at m2; omega
      have c1' : (1000001 : ℚ) ≤ k := by exact_mod_cast c1
      have c2' : (digitsValue ds : ℚ) ≤ 9999999 := by exact_mod_cast c2
      linarith [hclose.2]
    · have hn6 : ds.length ≤ 6 := by omega
      have c1 : digitsValue ds + 1 ≤ 10 * k := by
        have : 10 ^ ds.length = 10 * 10 ^ (ds.length - 1) := by
          conv_lhs => rw [show ds.length = ds.length - 1 + 1 by omega, Nat.pow_succ]
          ring
        omega
      have c2 : digitsValue ds ≤ 1000000 :=
        le_trans m2.le (le_trans (Nat.pow_le_pow_right (by decide) hn6) (by norm_num))
      have c1' : (digitsValue ds : ℚ) + 1 ≤ 10 * k := by exact_mod_cast c1
      have c2' : (digitsValue ds : ℚ) ≤ 1000000 := by exact_mod_cast c2
      linarith [hclose.2]

end D10
