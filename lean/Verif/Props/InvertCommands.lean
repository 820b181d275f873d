import Verif.Props.InvertAgain
import Verif.Props.Buffer
import Verif.Model.Commands

/-!
# C147: inverting again and again on the command line
-/

namespace D10
open Spec

section
variable {σ : Type} [Libm b32] [FloatBytes F32]

/-- One `invert` with an image. -/
theorem invert_step (env : Env σ F32) (s : State σ F32) (img : Image F32) (h : s.image = some img) :
    ∃ s', execute_command env s .Invert = (s', .ok (.ok ())) ∧
      s'.image = some { img with buffer := img.buffer.map_colors Rgb.invert } ∧ s'.fs = s.fs ∧ s'.rng = s.rng := by
  have hl : ∃ t : State σ F32, (if (Cmd.Invert : Cmd F32 String).ignore_in_log then s else s.log_command_step env .Invert) = t ∧
      t.image = some img ∧ t.fs = s.fs ∧ t.rng = s.rng := by
    refine ⟨_, rfl, ?_⟩
    unfold State.log_command_step
    split
    · exact ⟨h, rfl, rfl⟩
    · dsimp only
      split <;> exact ⟨h, rfl, rfl⟩
  obtain ⟨t, e, h1, h2, h3⟩ := hl
  refine ⟨{ t with image := some { img with buffer := img.buffer.map_colors Rgb.invert } }, ?_, rfl, h2, h3⟩
  unfold execute_command
  rw [e]
  show execute_invert t = _
  unfold execute_invert execute_mod_colors State.with_image
  rw [h1]
  show State.done _ = _
  unfold State.done Image.mod_colors
  rw [C07_mod_colors]

/-- Any number of them. -/
theorem invert_steps (env : Env σ F32) (n : ℕ) : ∀ (s : State σ F32) (img : Image F32), s.image = some img →
    ∃ s', execute env s (List.replicate n .Invert) = (s', .ok (.ok ())) ∧
      s'.image = some { img with buffer := (fun b => b.map_colors Rgb.invert)^[n] img.buffer } ∧ s'.fs = s.fs ∧ s'.rng = s.rng := by
  induction n with
  | zero => exact fun s img h => ⟨s, rfl, h, rfl, rfl⟩
  | succ n ih =>
    intro s img h
    obtain ⟨t, e, h1, h2, h3⟩ := invert_step env s img h
    obtain ⟨u, e', k1, k2, k3⟩ := ih t _ h1
    refine ⟨u, ?_, ?_, k2.trans h2, k3.trans h3⟩
    · rw [List.replicate_succ]
      rw [execute, e]
      exact e'
    · rw [k1, Function.iterate_succ_apply]

/-- **On the command line**: from the first `invert` on, two more of them change neither the image nor anything outside the log, to
the last bit, however many there are. -/
theorem C147_commands (env : Env σ F32) (s : State σ F32) (img : Image F32) (h : s.image = some img)
    (u : ∀ c ∈ img.buffer.data, UnitCol c) (n : ℕ) :
    ∃ s1 s3, execute env s (List.replicate (n + 1) .Invert) = (s1, .ok (.ok ())) ∧
      execute env s (List.replicate (n + 3) .Invert) = (s3, .ok (.ok ())) ∧
      s3.image = s1.image ∧ s3.fs = s1.fs ∧ s3.rng = s1.rng ∧ s1.fs = s.fs := by
  obtain ⟨s1, e1, a1, b1, d1⟩ := invert_steps env (n + 1) s img h
  obtain ⟨s3, e3, a3, b3, d3⟩ := invert_steps env (n + 3) s img h
  refine ⟨s1, s3, e1, e3, ?_, b3.trans b1.symm, d3.trans d1.symm, b1⟩
  rw [a1, a3]
  have k : ((img.buffer.map_colors Rgb.invert).map_colors Rgb.invert).map_colors Rgb.invert = img.buffer.map_colors Rgb.invert := by
    unfold PixelBuffer.map_colors
    simp only [List.map_map]
    congr 1
    refine List.map_congr_left fun c hc => ?_
    exact C147_thrice c (u c hc).c0 (u c hc).c1 (u c hc).c2
  rw [Function.iterate_add_apply _ n 3, Function.iterate_add_apply _ n 1]
  have k3 : (fun b : PixelBuffer (Col F32) => b.map_colors Rgb.invert)^[3] img.buffer =
      (fun b : PixelBuffer (Col F32) => b.map_colors Rgb.invert)^[1] img.buffer := k
  rw [k3]

end

/-- Non-vacuity: an image of one dark pixel. -/
example : ∃ img : Image F32, img.buffer.data ≠ [] ∧ ∀ c ∈ img.buffer.data, UnitCol c :=
  ⟨⟨⟨1, 1, [⟨darkest, darkest, darkest, darkest⟩]⟩, none⟩, by simp, by
    intro c hc
    rw [List.mem_singleton.1 hc]
    exact ⟨darkest_chan, darkest_chan, darkest_chan, darkest_chan⟩⟩

end D10
