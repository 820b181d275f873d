import Verif.Float.FP

/-!
# Reading numbers

`str::parse::<f32>` of the standard library, which d10-cli/src/main.rs:208, 229 and 255 use for the
parameters of the options. It is modelled after the grammar in the documentation of `f32::from_str`;
the value is the number that is written, correctly rounded.
-/

namespace D10

/-- The optional sign at the front: is it a minus, and the rest. -/
def take_sign : List Char → Bool × List Char
  | '-' :: rest => (true, rest)
  | '+' :: rest => (false, rest)
  | rest => (false, rest)

/-- The optional exponent, which must be all that is left. Simplification: the standard library stops
counting at exponents above 65535, which changes the value only of texts with more digits than that. -/
def parse_exponent : List Char → Option Int
  | [] => some 0
  | c :: rest =>
    if c = 'e' ∨ c = 'E' then
      let (neg, ds) := take_sign rest
      if ds ≠ [] ∧ ds.all Char.isDigit then
        some (if neg then -(Nat.ofDigitChars 10 ds 0 : Int) else Nat.ofDigitChars 10 ds 0)
      else none
    else none

/-- The optional point and the digits after it, which may be none, and the rest. -/
def take_fraction : List Char → List Char × List Char
  | '.' :: r => (r.takeWhile Char.isDigit, r.dropWhile Char.isDigit)
  | r => ([], r)

/-- Digits with an optional point and an optional exponent. -/
def parse_number (cs : List Char) : Option ℚ :=
  let int := cs.takeWhile Char.isDigit
  let rest := cs.dropWhile Char.isDigit
  let (frac, rest) := take_fraction rest
  if int = [] ∧ frac = [] then none
  else match parse_exponent rest with
    | some e => some (Nat.ofDigitChars 10 (int ++ frac) 0 * (10 : ℚ) ^ (e - frac.length))
    | none => none

/-- `str::parse::<f32>`; `none` is an error. -/
def parse_f32 (s : String) : Option F32 :=
  let (neg, cs) := take_sign s.toList
  match parse_number cs with
  | some q => some (FP.ofRat b32 neg (if neg then -q else q))
  | none =>
    match String.ofList (cs.map Char.toLower) with
    | "nan" => some .nan
    | "inf" => some (.inf neg)
    | "infinity" => some (.inf neg)
    | _ => none

end D10
