import Verif.Spec
import Verif.Model.Prelude
import Verif.Model.Portable
import Verif.Model.X86
import Verif.Model.Params
import Verif.Model.Sse41
import Verif.Model.Avx2
import Verif.Model.State
import Verif.Model.Many
import Verif.Model.Blake2sp
import Verif.Vocab
import Verif.Props.Cases
import Verif.Props.Simd
import Verif.Props.Params
import Verif.Props.SpParams
import Verif.Props.Hash
import Verif.Props.Single
import Verif.Props.Many
import Verif.Props.Sp
import Verif.Machine
import Verif.Props.Program
import Verif.SpecTrace
import Verif.KeyedTrace
import Verif.Props.Collision
import Verif.Abstract
import Verif.Props.Refinement
import Verif.Lives
import Verif.Props.Independence
import Verif.Exact
import Verif.Props.Exact
import Verif.Props.SpSame
import Verif.Model.Reference
import Verif.Props.Reference
import Verif.Vectors.Data
import Verif.Props.Vectors
import Verif.Model.Unwind
import Verif.ExactUnwind
import Verif.Props.Unwind
import Verif.Model.Tests
import Verif.Props.Tests
import Verif.Model.VectorTests
import Verif.Props.VectorTests
import Verif.Model.Bench
import Verif.Props.Bench
import Verif.Model.Leak
import Verif.Props.Leak
import Verif.Model.Mem
import Verif.Props.Mem
import Verif.Work
import Verif.WorkExact
import Verif.Props.Work
import Verif.Messages
import Verif.Props.Messages
import Verif.Usize
import Verif.Props.Usize
import Verif.PublicSp
import Verif.Props.PublicSp
import Verif.Used
import Verif.Props.Used
import Verif.Kept
import Verif.Props.Kept
import Verif.Rearrange
import Verif.Props.Rearrange
import Verif.Hidden
import Verif.Props.Hidden
import Verif.Extension
import Verif.Props.Extension
import Verif.StdIo
import Verif.Props.StdIo
import Verif.Tree
import Verif.Props.Tree
import Verif.Props.Steps
import Verif.Props.SelfTest
import Verif.Props.Prefix
import Verif.Props.BenchCode
import Verif.Props.BenchReport
import Verif.Undo
import Verif.Proofs.Undo
import Verif.Props.Undo
