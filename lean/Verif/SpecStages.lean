import Verif.SpecSameLine
import Verif.SpecFiles

/-!
# Specification of a command line that saves several times (C140)
-/

namespace D10.Spec

variable [Libm b32] [Junk]

/-- The words after the input: options, a file to save to, more options, another file, and so on. Differences between the two
programs have been enlarged by the factor `L` and `η` has been added when the words begin. `saves` lists the files in order, each
with the factor and the addition up to the moment in which it is saved. -/
inductive StagedLine {σ : Type} (number : String → Option F32) (δ : ℝ) (g : Rng σ F32) :
    (L η : ℝ) → (words : List String) → (saves : List (String × ℝ × ℝ)) → Prop
  | nil (L η) : StagedLine number δ g L η [] []
  | save (L η words M θ output rest saves) : TrackedOptions number δ g words M θ → ¬ Dashed id output → Named output .Png →
      StagedLine number δ g (M * L) (M * η + θ) rest saves →
      StagedLine number δ g L η (words ++ output :: rest) ((output, M * L, M * η + θ) :: saves)

/-- Both programs have written PNG files to the same place, of 8-bit RGBA pictures of the given size whose samples differ by
less than `e`. -/
def SavedAlike (libs : Libs F32) (libs' : Libs ℝ) (fs1 fs2 : FS) (n w h : Nat) (e : ℝ) : Prop :=
  ∃ file1 file2 rd1 rd2 data1 data2,
    fs1.content n = some file1 ∧ fs2.content n = some file2 ∧ libs.png_read file1 = .ok rd1 ∧ libs'.png_read file2 = .ok rd2 ∧
    (rd1.width = w ∧ rd1.height = h ∧ rd1.color_type = .Rgba ∧ rd1.bits = .Eight) ∧
    (rd2.width = w ∧ rd2.height = h ∧ rd2.color_type = .Rgba ∧ rd2.bits = .Eight) ∧
    rd1.next_frame data1.length = .ok ⟨data1, rfl⟩ ∧ rd2.next_frame data2.length = .ok ⟨data2, rfl⟩ ∧ OffBy e data1 data2

end D10.Spec
