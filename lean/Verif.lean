import Verif.Props.Suite
import Verif.Props.Str
import Verif.Props.Options
import Verif.Props.Construct
import Verif.Props.Filters
import Verif.Props.Problem
import Verif.Props.Utils
import Verif.Props.Triggers
import Verif.Props.Observer
import Verif.Props.MO
import Verif.Props.Avl
import Verif.Lemmas.AvlSearch
import Verif.Props.AvlPtr
import Verif.Props.Archive
import Verif.Props.LoggerBiobj
import Verif.Props.Recommend
import Verif.Props.Targets
import Verif.Props.LoggerRw
import Verif.Props.LoggerBbob
import Verif.Props.Random
import Verif.Props.Legacy
import Verif.Props.Noise
import Verif.Model.FileSystem
import Verif.Model.Permutation
import Verif.Model.Rotation
import Verif.Props.FileSystem
import Verif.Props.Permutation
import Verif.Props.Rotation
import Verif.Props.Blocks
import Verif.Model.Transform
import Verif.Model.Box
import Verif.Props.Coordinates
import Verif.Props.Transform
import Verif.Props.Box
import Verif.Model.Discretize
import Verif.Props.Discretize
import Verif.Model.Biobj
import Verif.Props.Biobj
import Verif.Model.Constrained
import Verif.Props.Constrained
import Verif.Model.Bbob
import Verif.Props.Bbob
import Verif.Lemmas.Schwefel
import Verif.Props.Schwefel
import Verif.Model.LargeScale
import Verif.Props.LargeScale
import Verif.Model.Mixint
import Verif.Props.Mixint
import Verif.Model.BiobjSuite
import Verif.Props.BiobjSuite
import Verif.Model.Watched
import Verif.Props.Watched
import Verif.Model.Lifecycle
import Verif.Props.Lifecycle
import Verif.Model.Noisy
import Verif.Props.Noisy
import Verif.Model.ConsSuite
import Verif.Lemmas.ConsSuite
import Verif.Lemmas.Warp
import Verif.Props.ConsSuite
import Verif.Model.Brent
import Verif.Props.Brent
import Verif.Model.InfoFile
import Verif.Model.BiobjFiles
import Verif.Model.OptionKeys
import Verif.Lemmas.InfoFile
import Verif.Lemmas.BiobjFiles
import Verif.Props.InfoFile
import Verif.Props.BiobjFiles
import Verif.Props.OptionKeys
import Verif.Model.Memory
import Verif.Model.MemoryScripts
import Verif.Model.MemorySuites
import Verif.Lemmas.Memory
import Verif.Lemmas.MemorySuites
import Verif.Props.Memory
import Verif.Model.Identity
import Verif.Lemmas.Identity
import Verif.Props.Identity
import Verif.Props.Restart
import Verif.Props.RandomNormal
import Verif.Props.NoiseShared
import Verif.Props.Tainted
import Verif.Props.Crash
import Verif.Props.PyMedian
import Verif.Props.PyClock
import Verif.Props.MexGateway
import Verif.Props.PyRepeatProposal
import Verif.Props.PySettings
import Verif.Props.JavaTiming
import Verif.Props.MiniPrint
import Verif.Props.ExampleLoops
import Verif.Props.PySearch
import Verif.Props.ShortInfo
import Verif.Props.SameFunction
import Verif.Props.Messages
import Verif.Props.Interfaces
import Verif.Props.PyProposal
import Verif.Props.JavaObjects
import Verif.Props.PyArgs
import Verif.Props.PyOptions
import Verif.Props.PySuite
import Verif.Props.PyObjects
import Verif.Props.RustWrapper
import Verif.Props.PyNonAnytime
import Verif.Props.PyRepeat
import Verif.Props.PyBatch
import Verif.Props.Timing
import Verif.Props.Search
import Verif.Props.Experiment
import Verif.Props.ObserverMake
import Verif.Model.ArchiveItems
import Verif.Lemmas.ArchiveItems
import Verif.Props.ArchiveItems
import Verif.Model.LoggerToy
import Verif.Props.LoggerToy
import Verif.Lemmas.Gradient
import Verif.Props.Gradient
import Verif.Model.OldFiles
import Verif.Lemmas.OldFiles
import Verif.Props.OldFiles
import Verif.Model.LoggerOld
import Verif.Lemmas.LoggerOld
import Verif.Props.LoggerOld
import Verif.Model.BiobjItems
import Verif.Lemmas.BiobjItems
import Verif.Props.BiobjItems
import Verif.Model.RemoveDir
import Verif.Lemmas.RemoveDir
import Verif.Props.RemoveDir
import Verif.Axioms
