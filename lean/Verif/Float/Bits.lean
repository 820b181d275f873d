import Verif.Float.FP
import Verif.Model.Bytes

/-! # The bit pattern of `f32`, for `f32::to_be_bytes` -/

namespace D10

/-- IEEE 754 binary32 encoding. NaN has many; this is the usual quiet one. -/
def FP.bits32 : F32 → Nat
  | .nan => 0x7fc00000
  | .inf s => (if s then 2 ^ 31 else 0) + 0x7f800000
  | .zero s => if s then 2 ^ 31 else 0
  | .num q _ => (if q < 0 then 2 ^ 31 else 0) +
      if -126 ≤ ilog2 q then
        -- biased exponent, then the fraction without its leading 1
        (ilog2 q + 127).toNat * 2 ^ 23 + (⌊|q| * pow2 (23 - ilog2 q)⌋.toNat - 2 ^ 23)
      else ⌊|q| * pow2 149⌋.toNat

/-- `f32::to_be_bytes` -/
instance : FloatBytes F32 where
  be x := [x.bits32 / 2 ^ 24, x.bits32 / 2 ^ 16 % 256, x.bits32 / 2 ^ 8 % 256, x.bits32 % 256]
  be_length _ := rfl

example : FloatBytes.be (FP.ofRat b32 false 1) = [0x3f, 0x80, 0, 0] := by decide +kernel
example : FloatBytes.be (FP.ofRat b32 false (-118.625)) = [0xc2, 0xed, 0x40, 0] := by decide +kernel
example : FloatBytes.be (FP.ofRat b32 false (3 / 2 ^ 149)) = [0, 0, 0, 3] := by decide +kernel

end D10
