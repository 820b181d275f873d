import Verif.Model.Streams

/-! # Specification of saving to a file that may fail (C109) -/

namespace D10.Spec

/-- The bytes the encoder hands over before it has its result, if every write succeeds. -/
def mainBytes : Run → List Nat
  | .write piece next => piece ++ mainBytes (next (.ok ()))
  | .flush next => mainBytes (next (.ok ()))
  | .done _ _ => []

/-- The bytes its destructor hands over, if every write succeeds. -/
def tailBytes : Run → List Nat
  | .write _ next => tailBytes (next (.ok ()))
  | .flush next => tailBytes (next (.ok ()))
  | .done _ tail => tail.flatten

/-- The whole file. -/
def fileBytes (run : Run) : List Nat := mainBytes run ++ tailBytes run

/-- The encoder's result, if every write succeeds. -/
def ownResult : Run → Except EncodingError Unit
  | .write _ next => ownResult (next (.ok ()))
  | .flush next => ownResult (next (.ok ()))
  | .done result _ => result

/-- The encoder stops at the first write that fails and returns its error. `T` is what its destructor
writes in that case. -/
def PassesOn (T : List (List Nat)) : Run → Prop
  | .write _ next => (∀ e, next (.error e) = .done (.error (.IoError e)) T) ∧ PassesOn T (next (.ok ()))
  | .flush next => (∀ e, next (.error e) = .done (.error (.IoError e)) T) ∧ PassesOn T (next (.ok ()))
  | .done _ _ => True

/-- The last thing the encoder does, if every write succeeds, is to flush. -/
def FlushesLast : Run → Prop
  | .write _ next => FlushesLast (next (.ok ()))
  | .flush next => (∃ r, next (.ok ()) = .done r []) ∨ FlushesLast (next (.ok ()))
  | .done _ _ => False

/-- The system took something, or asked to try again: no failure. -/
def Good (a : Answer) : Prop := (∃ n, a = .took (n + 1)) ∨ a = .interrupted

/-- The number of answers that take something. -/
def tooks (plan : List Answer) : Nat :=
  (plan.filter fun a => match a with | .took (_ + 1) => true | _ => false).length

/-- `e` is the error of one of these answers. -/
def ErrorOf (plan : List Answer) (e : String) : Prop :=
  .failed e ∈ plan ∨ (.took 0 ∈ plan ∧
    (e = "failed to write whole buffer" ∨ e = "failed to write the buffered data"))

/-- Every byte `WebPEncode` hands over, if all goes well, and what it returns then. -/
def webpBytes : WebPCalls → List Nat × Bool
  | .call piece next => (piece ++ (webpBytes (next true)).1, (webpBytes (next true)).2)
  | .done res => ([], res)

/-- `WebPEncode` returns when a write fails. -/
def WebPStops : WebPCalls → Prop
  | .call _ next => (∃ res, next false = .done res) ∧ WebPStops (next true)
  | .done _ => True

/-- The number of leading bytes needed to recognise a format. -/
def needed : Format → Nat
  | .Jpeg => 3
  | .Png => 8
  | .Gif => 6
  | .Bmp => 2
  | .Ico => 4
  | .WebP => 12

end D10.Spec
