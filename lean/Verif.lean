import Verif.Model.CmdServer
import Verif.Props.Encoding
import Verif.Props.Encryptor
import Verif.Props.Config
import Verif.Props.Protocol
import Verif.Props.Finalize
import Verif.Props.Mutator
import Verif.Props.Insert
import Verif.Props.History
import Verif.Props.Shadow
import Verif.Props.KV
import Verif.Props.KVHeap
import Verif.Props.Conc
import Verif.Props.ConcInsert
import Verif.Props.Rules
import Verif.Props.Json
import Verif.Props.Http
import Verif.Props.Query
import Verif.Props.Main
import Verif.Props.Programs
import Verif.Go.SuiteOfGroup
import Verif.Props.FinalizeApi
import Verif.Props.Witness
import Verif.Props.Witness2
import Verif.Props.Witness3
import Verif.Props.KVMem
import Verif.Props.JsonDecode
import Verif.Props.ClientConfig
import Verif.Go.Heap
import Verif.Model.MutatorHeap
import Verif.Model.LibraryHeap
import Verif.Model.ImportHeap
import Verif.Spec.Memory
import Verif.Lemmas.Heap
import Verif.Lemmas.MutatorHeap
import Verif.Lemmas.LibraryHeap
import Verif.Lemmas.ImportHeap
import Verif.Props.Memory
import Verif.Lemmas.UnmarshalHeap
import Verif.Model.Parallel
import Verif.Spec.Parallel
import Verif.Lemmas.Parallel
import Verif.Props.Parallel
import Verif.Spec.Utf8
import Verif.Lemmas.Utf8
import Verif.Lemmas.JsonString
import Verif.Props.JsonText
import Verif.Model.Traffic
import Verif.Props.Traffic
import Verif.Model.ServerConc
import Verif.Spec.ServerConc
import Verif.Lemmas.ServerView
import Verif.Lemmas.ServerCode
import Verif.Lemmas.ServerConc
import Verif.Props.ServerConc
import Verif.Props.Finalize32
import Verif.Props.Names
import Verif.Props.Sharper
import Verif.Spec.HttpConc
import Verif.Props.HttpConc
import Verif.Go.Flag
import Verif.Model.CommandLine
import Verif.Spec.CommandLine
import Verif.Lemmas.Flag
import Verif.Props.CommandLine
import Verif.Model.ServerLock
import Verif.Spec.ServerLock
import Verif.Lemmas.ServerLock
import Verif.Props.ServerLock
import Verif.Props.Trust
import Verif.Props.Size
import Verif.Props.Missing
import Verif.Props.RepoTests
import Verif.Props.QuickStart
import Verif.Model.Web
import Verif.Lemmas.Web
import Verif.Props.Web
import Verif.Props.HostileConfig
import Verif.Model.Cost
import Verif.Spec.Cost
import Verif.Lemmas.Cost
import Verif.Lemmas.CostOps
import Verif.Props.Cost
import Verif.Model.Log
import Verif.Spec.Log
import Verif.Props.Log
import Verif.Props.Mismatch
import Verif.Lemmas.HkdfVectors
import Verif.Props.FileOrder
import Verif.Props.BucketView
import Verif.Spec.Wire
import Verif.Props.Wire
import Verif.Model.Restart
import Verif.Props.Restart
import Verif.Go.Reader
import Verif.Spec.Input
import Verif.Lemmas.Reader
import Verif.Model.Stream
import Verif.Props.Stream
import Verif.Spec.ByteField
import Verif.Props.ServerJson
import Verif.Props.Witness4
import Verif.Props.Witness5
import Verif.Props.Witness6
import Verif.Props.Witness7
import Verif.Props.Pieces
import Verif.Props.Replay
import Verif.Props.Reconfigure
import Verif.P256.Primes
import Verif.P256.Steps
import Verif.P256.Curve
import Verif.P256.Order
import Verif.P256.Element
import Verif.P256.Hash
import Verif.P256.Suite
import Verif.P256.Wire
import Verif.Spec.P256
import Verif.Go.Scrypt
import Verif.Props.P256
import Verif.Spec.Rotation
import Verif.Props.Rotation
import Verif.Model.JsonNil
import Verif.Props.JsonNil
import Verif.Props.P256Programs
import Verif.Props.P256Hiding
import Verif.Props.P256Query
import Verif.Props.P256Client
