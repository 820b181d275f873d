/-!
# Rust run-time basics

Panics as explicit values, and the integer and slice operations of Rust the code uses.
Arithmetic overflow is modelled as a panic (Rust's debug profile); a theorem that concludes
`= .ok _` therefore also shows that nothing wraps in the release profile.
-/

namespace D10

/-- The ways in which modelled code can panic. -/
inductive Panic
  | assertion   -- `assert!` failed
  | index       -- slice or Vec index out of bounds, bad slice range, length mismatch in copy
  | overflow    -- integer overflow (debug profile)
  | invalidSize -- `validate_size`, d10-core/src/pixelbuffer.rs:19-23
  | wrongLength -- `new_from_raw`, d10-core/src/pixelbuffer.rs:59-66
  | unwrap      -- `Option::unwrap` / `Result::unwrap` on the wrong variant
  | clampBounds -- `clamp` called with min > max
  deriving DecidableEq, Repr

/-- The result of a computation that may panic. -/
abbrev R := Except Panic

/-- Overflow check of a `u32` arithmetic result (Rust: `+`, `*` on `u32`). -/
def u32 (n : Nat) : R Nat := if n < 2 ^ 32 then .ok n else .error .overflow

/-- Rust `a - b` on unsigned integers. -/
def usub (a b : Nat) : R Nat := if b ≤ a then .ok (a - b) else .error .overflow

/-- Overflow check of an `i32` arithmetic result. -/
def i32 (z : Int) : R Int :=
  if -2147483648 ≤ z ∧ z < 2147483648 then .ok z else .error .overflow

/-- Rust `n as i32` for `n : u32` (two's complement reinterpretation). -/
def asI32 (n : Nat) : Int := if n % 2 ^ 32 < 2 ^ 31 then (n % 2 ^ 32 : Nat) else (n % 2 ^ 32 : Nat) - 2 ^ 32

/-- Rust `z as u32` for `z : i32` (two's complement reinterpretation). -/
def asU32 (z : Int) : Nat := (z % 2 ^ 32).toNat

/-- Rust `v[i]` (read). -/
def index (l : List α) (i : Nat) : R α :=
  match l[i]? with
  | some a => .ok a
  | none => .error .index

/-- Rust `v[i] = a` (write). -/
def setIndex (l : List α) (i : Nat) (a : α) : R (List α) :=
  if i < l.length then .ok (l.set i a) else .error .index

/-- Rust `&v[a..b]`. -/
def slice (l : List α) (a b : Nat) : R (List α) :=
  if a ≤ b ∧ b ≤ l.length then .ok ((l.drop a).take (b - a)) else .error .index

/-- Rust `i32::clamp`: panics if `lo > hi`. -/
def clampI32 (x lo hi : Int) : R Int :=
  if lo ≤ hi then .ok (if x < lo then lo else if hi < x then hi else x) else .error .clampBounds

/-- Rust `assert!(b)`. -/
def assert (b : Bool) : R Unit := if b then .ok () else .error .assertion

/-- Rust `for i in 0..n { body }` with the loop-carried variables as state `σ`. -/
def forRange (n : Nat) (s : σ) (body : Nat → σ → R σ) : R σ :=
  (List.range n).foldlM (fun s i => body i s) s

end D10
