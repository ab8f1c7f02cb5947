import Verif.Lemmas.Avl
import Verif.Lemmas.ConsSuite
import Verif.Lemmas.Front
import Verif.Lemmas.LoggerBbob
import Verif.Lemmas.LoggerBiobj
import Verif.Lemmas.Problem
import Verif.Lemmas.Schwefel
import Verif.Lemmas.Str
import Verif.Lemmas.Suite
import Verif.Lemmas.Warp
import Verif.Props.Archive
import Verif.Props.Avl
import Verif.Lemmas.AvlSearch
import Verif.Props.AvlPtr
import Verif.Props.Bbob
import Verif.Props.Biobj
import Verif.Props.BiobjSuite
import Verif.Props.Blocks
import Verif.Props.Box
import Verif.Props.ConsSuite
import Verif.Props.Brent
import Verif.Props.Constrained
import Verif.Props.Construct
import Verif.Props.Coordinates
import Verif.Props.Discretize
import Verif.Props.FileSystem
import Verif.Props.Filters
import Verif.Props.LargeScale
import Verif.Props.Legacy
import Verif.Props.Lifecycle
import Verif.Props.LoggerBbob
import Verif.Props.LoggerBiobj
import Verif.Props.LoggerRw
import Verif.Props.MO
import Verif.Props.Mixint
import Verif.Props.Noise
import Verif.Props.Noisy
import Verif.Props.Observer
import Verif.Props.Options
import Verif.Props.Permutation
import Verif.Props.Problem
import Verif.Props.Random
import Verif.Props.Recommend
import Verif.Props.Rotation
import Verif.Props.Schwefel
import Verif.Props.Str
import Verif.Props.Suite
import Verif.Props.Targets
import Verif.Props.Transform
import Verif.Props.Triggers
import Verif.Props.Utils
import Verif.Props.Watched
import Verif.Lemmas.InfoFile
import Verif.Lemmas.BiobjFiles
import Verif.Props.InfoFile
import Verif.Props.BiobjFiles
import Verif.Props.OptionKeys
import Verif.Lemmas.Memory
import Verif.Lemmas.MemorySuites
import Verif.Props.Memory
import Verif.Lemmas.Identity
import Verif.Lemmas.OldFiles
import Verif.Props.OldFiles
import Verif.Lemmas.LoggerOld
import Verif.Props.LoggerOld
import Verif.Props.Identity
import Verif.Props.Restart
import Verif.Props.RandomNormal
import Verif.Props.NoiseShared
import Verif.Props.Tainted
import Verif.Props.Crash
import Verif.Props.PyMedian
import Verif.Props.PyClock
import Verif.Props.MexGateway
import Verif.Props.PyRepeatProposal
import Verif.Props.PySettings
import Verif.Props.JavaTiming
import Verif.Props.MiniPrint
import Verif.Props.ExampleLoops
import Verif.Props.PySearch
import Verif.Props.ShortInfo
import Verif.Props.SameFunction
import Verif.Props.Messages
import Verif.Props.Interfaces
import Verif.Props.PyProposal
import Verif.Props.JavaObjects
import Verif.Props.PyArgs
import Verif.Props.PyOptions
import Verif.Props.PySuite
import Verif.Props.PyObjects
import Verif.Props.RustWrapper
import Verif.Props.PyNonAnytime
import Verif.Props.PyRepeat
import Verif.Props.PyBatch
import Verif.Props.Timing
import Verif.Props.Search
import Verif.Props.Experiment
import Verif.Props.ObserverMake
import Verif.Lemmas.ArchiveItems
import Verif.Props.ArchiveItems
import Verif.Props.LoggerToy
import Verif.Lemmas.Gradient
import Verif.Props.Gradient
import Verif.Lemmas.RemoveDir
import Verif.Props.RemoveDir
import Verif.Lemmas.BiobjItems
import Verif.Props.BiobjItems
import Lean.Elab.Command
import Lean.Util.CollectAxioms

/-!
Audit of the axioms.  The command below runs while the project is built.  It goes through every constant that is declared
in a module of this project (definitions and theorems, the generated ones included), asks Lean for the axioms it depends
on, and fails unless they are among `propext`, `Classical.choice` and `Quot.sound`.  This excludes own axioms, `sorry`
(`sorryAx`) and `native_decide` (`Lean.ofReduceBool`, `Lean.trustCompiler`).

This file models no code of /repo.
-/

open Lean in
run_cmd do
  let env ← getEnv
  for (m, d) in env.header.moduleNames.zip env.header.moduleData do
    if (`Verif).isPrefixOf m then
      for n in d.constNames do
        for a in ← collectAxioms n do
          unless [``propext, ``Classical.choice, ``Quot.sound].contains a do
            throwError "{n} depends on {a}"
