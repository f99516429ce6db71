import Verif.Model.Computer
import Verif.Model.Csv

/-! # The main program (`/repo/src/OpenMps/Main.cpp:289-400`)

The XML file is read in `Model/Xml.lean`; here its results are arguments.  Not modelled: the clock, the decoration of the console lines. -/

namespace OpenMps

variable {F : Type} [Scalar F] {D : Nat}

/-- `ComputingCondition`, `/repo/src/OpenMps/ComputingCondition.hpp`. -/
structure Condition (F : Type) where
  eps : F
  startTime : F
  endTime : F
  outputInterval : F

/-- `LoadEnvironment`, `/repo/src/OpenMps/Main.cpp:208-258`: the largest time step is the output interval divided by
`minStepCountPerOutput` (line 241); the other arguments come from the XML file. -/
def loadEnvironment (cfg : Config) (a : EnvArgs F D) (minStepCountPerOutput : Nat) (outputInterval : F) : Option (Env F D) :=
  Env.mk? cfg { a with maxDt := outputInterval / Scalar.ofInt (minStepCountPerOutput : Int) }

/-- One output: number of the file, the time and step count shown on the console (`Main.cpp:357-358, 383-388`), the returned
count and the text of the file. -/
structure OutRec (F : Type) where
  number : Nat
  time : F
  iteration : Nat
  count : Nat
  text : List Char

/-- How the program ends.  `solverError` carries what is printed (`Main.cpp:393-395`): time, step count and number of the output that was
not written.  `running`: the program has not ended yet. -/
inductive MainEnd (F : Type) where
  | finished
  | solverError (time : F) (iteration : Nat) (number : Nat)
  | terminated
  | undefined
  | running

/-- Exit status: `return 0` (`Main.cpp:399`) or none (abnormal or no end). -/
def MainEnd.exitCode : MainEnd F → Option Int
  | .finished => some 0
  | .solverError _ _ _ => some 0
  | _ => none

/-- Files written and the end. -/
structure MainRes (F : Type) where
  outs : List (OutRec F)
  ending : MainEnd F

/-- `static_cast<std::size_t>(std::ceil(v))`, `/repo/src/OpenMps/Main.cpp:335, 364`; a negative or not representable value is undefined. -/
def toSize (v : F) : Option Nat :=
  match Scalar.ceilIdx v with
  | some k => if 0 ≤ k then some k.toNat else none
  | none => none

/-- The callbacks of the main program: walls do not move, `/repo/src/OpenMps/Main.cpp:305-321`. -/
def mainWalls (ps : List (Particle F D)) : Walls F D Unit :=
  { pre := fun w _ _ => w, pos := fun _ i _ _ => (ps.getD i (Particle.new .disabled)).x }

/-- Result of the inner loop. -/
inductive Inner (F : Type) (D : Nat) where
  | reached (s : State F D Unit) (iteration : Nat)
  | solverError (time : F) (iteration : Nat)
  | terminated
  | undefined
  | running

/-- `while(tComputer < nextOutputT)`, `/repo/src/OpenMps/Main.cpp:373-379`.  `sch k` schedules the parallel loops of step `k`.  The program may run forever;
`fuel` is the number of steps after which we stop watching. -/
def innerLoop (P : Params F D Unit) (sch : Nat → Schedule) (nextT : F) : Nat → State F D Unit → Nat → Inner F D
  | 0, s, it => if Scalar.lt s.env.t nextT then .running else .reached s it
  | fuel + 1, s, it =>
    if Scalar.lt s.env.t nextT then
      match s.forwardTimeAuto P (sch it) with
      | .ok s' => innerLoop P sch nextT fuel s' (it + 1)
      | .exn .solver _ => .solverError s.env.t it
      | .exn .gridFull _ => .terminated
      | .ub => .undefined
    else .reached s it

/-- `OutputToCsv` and `printTime`. -/
def mkOut (pr : Printer F) (number : Nat) (time : F) (it : Nat) (s : State F D Unit) : OutRec F :=
  { number := number, time := time, iteration := it, count := enabledCount s.particles, text := outputToCsv pr s.particles }

/-- `for(outputCount = 1; outputCount <= endCount; outputCount++)`, `/repo/src/OpenMps/Main.cpp:365-398`: the remaining number of
outputs, the number `k` of the next one, `nextOutputT`, the state, the step count, the files written. -/
def outerLoop (P : Params F D Unit) (sch : Nat → Schedule) (pr : Printer F) (cond : Condition F) (offset fuel : Nat) :
    Nat → Nat → F → State F D Unit → Nat → List (OutRec F) → MainRes F
  | 0, _, _, _, _, outs => { outs := outs, ending := .finished }
  | m + 1, k, nextT, s, it, outs =>
    let nextT := nextT + cond.outputInterval
    match innerLoop P sch nextT fuel s it with
    | .reached s' it' =>
      outerLoop P sch pr cond offset fuel m (k + 1) nextT s' it'
        (outs ++ [mkOut pr (k + offset) (s'.env.t + cond.startTime) it' s'])
    | .solverError t it' => { outs := outs, ending := .solverError t it' (k + offset) }
    | .terminated => { outs := outs, ending := .terminated }
    | .undefined => { outs := outs, ending := .undefined }
    | .running => { outs := outs, ending := .running }

/-- The part of `main` after the creation of the computer, `/repo/src/OpenMps/Main.cpp:330-400`; `s` holds the particles. -/
def runLoop (P : Params F D Unit) (sch : Nat → Schedule) (pr : Printer F) (cond : Condition F) (fuel : Nat) (s : State F D Unit) :
    MainRes F :=
  match toSize (cond.startTime / cond.outputInterval) with
  | none => { outs := [], ending := .undefined }
  | some offset =>
    let outs := [mkOut pr offset cond.startTime 0 s]
    match toSize ((cond.endTime - cond.startTime) / cond.outputInterval) with
    | none => { outs := outs, ending := .undefined }
    | some endCount => outerLoop P sch pr cond offset fuel endCount 1 0 s 0 outs

/-- `main`, `/repo/src/OpenMps/Main.cpp:289-400`, after the XML file was parsed.  An exception of `InputFromCsv` is not caught. -/
def mainProgram (cfg : Config) (cv : Conv F) (pr : Printer F) (sch : Nat → Schedule) (cond : Condition F) (a : EnvArgs F D)
    (minStepCountPerOutput : Nat) (csv : List Char) (fuel : Nat) : MainRes F :=
  match loadEnvironment cfg a minStepCountPerOutput cond.outputInterval with
  | none => { outs := [], ending := .undefined }
  | some env =>
    match inputFromCsv (D := D) cv csv with
    | .error .ub => { outs := [], ending := .undefined }
    | .error _ => { outs := [], ending := .terminated }
    | .ok ps =>
      match State.new? env () with
      | none => { outs := [], ending := .undefined }
      | some s0 => runLoop { cfg := cfg, eps := cond.eps, walls := mainWalls ps } sch pr cond fuel (s0.addParticles ps)

end OpenMps
