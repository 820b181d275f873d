import Verif.Float.FP

/-!
# Specification of numbers as text (C100, C101)

How the standard library of Rust writes and reads binary32 numbers, and numbers with four decimal
places.
-/

namespace D10.Spec

/-- The number written with these decimal digits. -/
def digitsValue (ds : List Char) : Nat := ds.foldl (fun n c => 10 * n + (c.toNat - 48)) 0

/-- Decimal digits, at least one, not beginning with a zero. -/
structure Digits (ds : List Char) : Prop where
  some : ds ≠ []
  digit : ∀ c ∈ ds, c.isDigit = true
  first : ds.head? ≠ Option.some '0'

/-- `0.d₁d₂d₃… × 10^e` -/
def decimal (ds : List Char) (e : Int) : ℚ := digitsValue ds * (10 : ℚ) ^ (e - ds.length)

/-- `0.d₁d₂d₃… × 10^e` written without an exponent. -/
def plain (ds : List Char) (e : Int) : String :=
  if e ≤ 0 then "0." ++ String.ofList (List.replicate (-e).toNat '0' ++ ds)
  else if e < ds.length then
    String.ofList (ds.take e.toNat) ++ "." ++ String.ofList (ds.drop e.toNat)
  else String.ofList (ds ++ List.replicate (e.toNat - ds.length) '0')

/-- `f32::to_string` (`Display`): the shortest digits that are read as this number again (to nearest,
ties to even), and among those of that length the nearest to it; never with an exponent. -/
def Prints : F32 → String → Prop
  | .nan, s => s = "NaN"
  | .inf neg, s => s = if neg then "-inf" else "inf"
  | .zero neg, s => s = if neg then "-0" else "0"
  | .num q _, s => ∃ ds e, Digits ds ∧ rn b32 (decimal ds e) = |q| ∧
      (∀ ds' e', Digits ds' → rn b32 (decimal ds' e') = |q| → ds.length < ds'.length ∨
        ds.length = ds'.length ∧ abs (decimal ds e - |q|) ≤ abs (decimal ds' e' - |q|)) ∧
      s = (if q < 0 then "-" else "") ++ plain ds e

/-- The decimal places of `n / 10000`, without zeros at the end, but at least one. -/
def places (n : Nat) : List Nat :=
  if n % 10 ≠ 0 then [n / 1000 % 10, n / 100 % 10, n / 10 % 10, n % 10]
  else if n % 100 ≠ 0 then [n / 1000 % 10, n / 100 % 10, n / 10 % 10]
  else if n % 1000 ≠ 0 then [n / 1000 % 10, n / 100 % 10]
  else [n / 1000 % 10]

/-- `n / 10000` as text, such as `0.25`, `12.0` and `0.0001`. -/
def fourPlaces (n : Nat) : String :=
  toString (n / 10000) ++ "." ++ String.ofList ((places n).map Nat.digitChar)

/-- The float nearest to `n / 10000`, or to `-n / 10000`. -/
def fourPlacesFloat (neg : Bool) (n : Nat) : F32 :=
  .ofRat b32 neg (if neg then -((n : ℚ) / 10000) else (n : ℚ) / 10000)

/-- `n / 10000`, or `-n / 10000`, as text. -/
def signed (neg : Bool) (n : Nat) : String := (if neg then "-" else "") ++ fourPlaces n

/-- An exponent such as `e5`, `E-12` and `e+07`. -/
inductive Exponent : List Char → Int → Prop
  | without : Exponent [] 0
  | plain (c : Char) (ds : List Char) (hc : c = 'e' ∨ c = 'E') (hne : ds ≠ [])
      (hd : ∀ d ∈ ds, d.isDigit = true) : Exponent (c :: ds) (digitsValue ds)
  | plus (c : Char) (ds : List Char) (hc : c = 'e' ∨ c = 'E') (hne : ds ≠ [])
      (hd : ∀ d ∈ ds, d.isDigit = true) : Exponent (c :: '+' :: ds) (digitsValue ds)
  | minus (c : Char) (ds : List Char) (hc : c = 'e' ∨ c = 'E') (hne : ds ≠ [])
      (hd : ∀ d ∈ ds, d.isDigit = true) : Exponent (c :: '-' :: ds) (-(digitsValue ds : Int))

/-- A number without a sign, such as `12`, `12.`, `.5`, `0.25` and `1.5e-3`. -/
inductive Numeral : List Char → ℚ → Prop
  | whole (int ex : List Char) (e : Int) (hi : ∀ d ∈ int, d.isDigit = true) (hne : int ≠ [])
      (he : Exponent ex e) : Numeral (int ++ ex) (digitsValue int * (10 : ℚ) ^ e)
  | point (int frac ex : List Char) (e : Int) (hi : ∀ d ∈ int, d.isDigit = true)
      (hf : ∀ d ∈ frac, d.isDigit = true) (hne : int ≠ [] ∨ frac ≠ []) (he : Exponent ex e) :
      Numeral (int ++ '.' :: frac ++ ex)
        (digitsValue (int ++ frac) * (10 : ℚ) ^ (e - frac.length))

/-- What a text without a sign means, for a given sign. -/
inductive Means (neg : Bool) (body : List Char) : F32 → Prop
  | number (q : ℚ) (h : Numeral body q) : Means neg body (.ofRat b32 neg (if neg then -q else q))
  | nan (h : body.map Char.toLower = "nan".toList) : Means neg body .nan
  | inf (h : body.map Char.toLower = "inf".toList ∨ body.map Char.toLower = "infinity".toList) :
      Means neg body (.inf neg)

/-- `str::parse::<f32>` reads `s` as `v`. -/
inductive Reads (s : String) : F32 → Prop
  | unsigned (v : F32) (h : Means false s.toList v) : Reads s v
  | plus (v : F32) (body : List Char) (hs : s.toList = '+' :: body) (h : Means false body v) : Reads s v
  | minus (v : F32) (body : List Char) (hs : s.toList = '-' :: body) (h : Means true body v) : Reads s v

end D10.Spec
