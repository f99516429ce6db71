import Verif.Model.Benchmark
import Verif.Model.Instances
import Verif.Spec.Reference
import Verif.Spec.Rigid
import Verif.Props.Csv

/-! # What the benchmark files say -/

namespace OpenMps

section
variable {F : Type} [Scalar F]

/-- The numbers in the sections `condition` and `environment` of the file. -/
def BenchParams.numbers (b : BenchParams F) : List F :=
  [b.startTime, b.endTime, b.outputInterval, b.eps, b.l0, b.courant, b.g, b.rho, b.nu, b.reByL0, b.surfaceRatio, b.lo 0, b.lo 1, b.hi 0, b.hi 1]

/-- The readers of the program understand the numbers that the generator writes. -/
structure ReadsBack (pr : Printer F) (xc : XConv F) (cv : Conv F) (b : BenchParams F) (sites : List Site) : Prop where
  clean : pr.Clean
  num : ∀ v ∈ b.numbers, xc.num (pr.num v) = some v
  size : xc.size (pr.int b.steps) = some b.steps
  int : ∀ k : Int, 0 ≤ k → k ≤ 2 → cv.int (pr.int k) = some k
  pos : ∀ s ∈ sites, ∀ a, cv.num (pr.num (s.pos b.l0 a)) = some (s.pos b.l0 a)
  zero : cv.num ['0'] = some 0

/-- The conditions of the file. -/
def BenchParams.condition (b : BenchParams F) : Condition F :=
  { eps := b.eps, startTime := b.startTime, endTime := b.endTime, outputInterval := b.outputInterval }

/-- The constants of the file (the members that a program without `PRESSURE_EXPLICIT`, or with SPP, does not have are 0). -/
def BenchParams.args (cfg : Config) (b : BenchParams F) : EnvArgs F 2 :=
  { maxDt := b.outputInterval / Scalar.ofInt (b.steps : Int), courant := b.courant, g := b.g, rho := b.rho, nu := b.nu,
    surfaceRatio := if cfg.spp then 0 else b.surfaceRatio, reByL0 := b.reByL0, c := 0, l0 := b.l0, minX := b.lo, maxX := b.hi }

end

/-- No two particles at the same place, and every particle in the range of the file or above it by less than two blocks of the grid (`block`: edge length). -/
structure GoodStart (l0 block : ℝ) (lo hi : Vec ℝ 2) (sites : List Site) : Prop where
  types : ∀ s ∈ sites, 0 ≤ s.number ∧ s.number ≤ 2
  apart : sites.Pairwise (fun s t => s.i ≠ t.i ∨ s.k ≠ t.k)
  inside : ∀ s ∈ sites, ∀ a, lo a ≤ s.pos l0 a ∧ s.pos l0 a < hi a + 2 * block

/-- Edge length of the blocks of the grid that the program will make. -/
def BenchParams.block (b : BenchParams ℝ) : ℝ := b.reByL0 * b.l0 * (1 + 2 * b.courant)

/-- `s` is the state of the program at the beginning: `s0` is the new computer, and the particles have been added. -/
def BenchStart (cfg : Config) (b : BenchParams ℝ) (sites : List Site) (env : Env ℝ 2) (s0 s : State ℝ 2 Unit) : Prop :=
  Env.mk? cfg (b.args cfg) = some env ∧ State.new? env () = some s0 ∧ s = s0.addParticles (sites.map (Site.particle b.l0))

/-- There is a particle at every place of the lattice closer than `(R + 1) l_0` to the site in both directions. -/
def Surrounded (sites : List Site) (R : Int) (s : Site) : Prop :=
  ∀ i k : Int, |i - s.i| ≤ R → |k - s.k| ≤ R → ∃ t ∈ sites, t.i = i ∧ t.k = k

/-! ## Symmetry -/

open Ref

/-- The parameters of the program that has read the file. -/
noncomputable def benchParams (cfg : Config) (b : BenchParams ℝ) (sites : List Site) : Params ℝ 2 Unit :=
  { cfg := cfg, eps := b.eps, walls := mainWalls (sites.map (Site.particle b.l0)) }

/-- The scene is its own picture under `M`: every particle has a partner of the same type at the moved place, with the moved velocity and the same pressure and density. -/
def SelfSimilar (M : Rigid 2) (s : State ℝ 2 Unit) : Prop :=
  ∀ i, i < s.n → ∃ j, j < s.n ∧ (s.ps j).ty = (s.ps i).ty ∧ (s.ps j).x = M.place (s.ps i).x ∧ (s.ps j).u = M.turn (s.ps i).u ∧ (s.ps j).p = (s.ps i).p ∧ (s.ps j).n = (s.ps i).n

/-- The mirror at the vertical line `x = c / 2`. -/
def IsMirror (c : ℝ) (M : Rigid 2) : Prop := ∀ v, M.place v = ![c - v 0, v 1] ∧ M.turn v = ![-v 0, v 1]

/-- The mirror at the horizontal line through the origin. -/
def IsUpDown (M : Rigid 2) : Prop := ∀ v, M.place v = ![v 0, -v 1] ∧ M.turn v = ![v 0, -v 1]

/-- The mirror that exchanges the axes. -/
def IsExchange (M : Rigid 2) : Prop := ∀ v, M.place v = ![v 1, v 0] ∧ M.turn v = ![v 1, v 0]

end OpenMps
