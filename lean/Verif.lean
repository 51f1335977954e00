import Verif.Props.Field
import Verif.Props.Vectors
import Verif.Props.Sharing
import Verif.Props.Combine
import Verif.Props.Random
import Verif.Props.CtrMode
import Verif.Props.Secrecy
import Verif.Props.Regenerate
import Verif.Props.RegenerateSecrecy
import Verif.Props.Concurrency
import Verif.Props.Krawczyk
import Verif.Props.KrawczykSecrecy
import Verif.Props.KrawczykTamper
import Verif.Props.Pool
import Verif.Props.SplitP
import Verif.Props.Asm
import Verif.Props.Aliasing
import Verif.Props.Capacity
import Verif.Props.Stores
import Verif.Props.History
import Verif.Props.Main
import Verif.Props.Draws
import Verif.Props.Async
import Verif.Props.RegenerateOdds
import Verif.Props.KrawczykMeta
import Verif.Props.MixUp
import Verif.Props.Overlap
import Verif.Props.PoolBalance
import Verif.Props.Alone
import Verif.Props.VectorOverlap
import Verif.Props.Seeds
import Verif.Props.Predict
import Verif.Props.Builds
import Verif.Props.Aes
import Verif.Props.Libraries
import Verif.Props.Leak
import Verif.Props.LeakCalls
import Verif.Props.LeakRest
import Verif.Props.Refresh
import Verif.Props.LeakKrawczyk
import Verif.Props.Worker
import Verif.Props.Game
import Verif.Props.KGame
import Verif.Props.Bias
import Verif.Props.OldRandomizer
import Verif.Props.Mixed
import Verif.Props.Vault
import Verif.Props.Errors
import Verif.Props.Word
import Verif.Props.SecrecyBytes
import Verif.Props.Nested
import Verif.Props.LeakCsprng
import Verif.Props.Work
import Verif.Props.WorkCsprng
