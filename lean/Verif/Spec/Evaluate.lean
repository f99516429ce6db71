import Verif.Model.Evaluate
import Verif.Spec.Text
import Verif.Spec.Csv
import Verif.Model.Instances

/-! # What the evaluation scripts should compute, in terms of particles

`rt v` is the value that is read from the printed text of `v`. -/

namespace OpenMps

/-- The files of the directory `result` after the outputs `outs` (their names without `result/`). -/
def resultDir {F : Type} (outs : List (OutRec F)) : List DirFile := outs.map (fun r => ⟨(fileName r.number).drop "result/".toList.length, r.text⟩)

/-- The `x` coordinates of the fluid particles. -/
def fluidX {F : Type} (rt : F → F) (ps : List (Particle F 2)) : Set F := {v | ∃ q ∈ ps, q.ty = .incompressibleNewton ∧ v = rt (q.x 0)}

/-- The heights of the particles in the column of width `l0` around `X` whose density is greater than `minN`, and the height 0 of the floor. -/
def columnHeights (rt : ℝ → ℝ) (l0 minN X : ℝ) (ps : List (Particle ℝ 2)) : Set ℝ :=
  {v | v = 0 ∨ ∃ q ∈ ps, |rt (q.x 0) - X| < l0 / 2 ∧ minN < rt q.n ∧ v = rt (q.x 1)}

open Classical in
/-- The wall particles of the left wall at the pressure sensor: left of `x = 0`, less than 45 mm above or below the height 160 mm. -/
noncomputable def sensorParticles (rt : ℝ → ℝ) (ps : List (Particle ℝ 2)) : List (Particle ℝ 2) :=
  ps.filter (fun q => decide (rt (q.x 0) < 0 ∧ q.ty = .wall ∧ |rt (q.x 1) - 0.16| < 0.045))

/-- Distance from the centre. -/
noncomputable def centreDist (rt : ℝ → ℝ) (q : Particle ℝ 2) : ℝ := Real.sqrt (rt (q.x 0) ^ 2 + rt (q.x 1) ^ 2)

/-- The distances from the centre of the particles whose density is less than `nS`. -/
def surfaceDists (rt : ℝ → ℝ) (nS : ℝ) (ps : List (Particle ℝ 2)) : Set ℝ := {v | ∃ q ∈ ps, rt q.n < nS ∧ v = centreDist rt q}

/-- All types of the particles are types that the program knows from files. -/
def TypesFromFiles {F : Type} (ps : List (Particle F 2)) : Prop := ∀ q ∈ ps, ∃ k, q.ty = typeOfNumber k

end OpenMps
