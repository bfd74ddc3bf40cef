import Verif.Bytes
import Verif.VLength
import Verif.Fields
import Verif.Enums
import Verif.Messages
import Verif.Certs
import Verif.Spec.Wire
import Verif.Props.Codec
import Verif.Crc
import Verif.Spec.Crc
import Verif.Props.Crc
import Verif.LinkParser
import Verif.Spec.Frame
import Verif.LinkRefine
import Verif.Props.Link
import Verif.LinkLayer
import Verif.Props.LinkLayer
import Verif.Primitives
import Verif.Session
import Verif.Toy
import Verif.Props.Session
import Verif.TxState
import Verif.Props.Transfer
import Verif.Props.Channel
import Verif.Algorithms
import Verif.Chain
import Verif.Handshake
import Verif.Props.Chain
import Verif.Props.Handshake
import Verif.CryptoLayer
import Verif.Machine
import Verif.Atoms
import Verif.AtomFields
import Verif.Exec
import Verif.LayerExample
import Verif.Props.LowerTx
import Verif.Props.Secrets
import Verif.Props.Open
import Verif.Monitor
import Verif.Props.Hold
import Verif.Props.Delivery
import Verif.Stack
import Verif.Spec.Discipline
import Verif.Props.Discipline
import Verif.Quietly
import Verif.Props.Robust
import Verif.Props.Refusal
import Verif.Qix
import Verif.Props.Qix
import Verif.Props.KeyStore
import Verif.Props.OneUse
import Verif.Grows
import Verif.Props.Close
import Verif.Props.Liveness
import Verif.Facade
import Verif.Props.Facade
import Verif.Tool
import Verif.Props.Tool
import Verif.Proxy
import Verif.Props.Proxy
import Verif.Props.Stale
import Verif.Spec.History
import Verif.Props.Refine
import Verif.Props.LayerSessions
import Verif.Props.Reading
import Verif.Props.Streams
import Verif.Asio
import Verif.Props.Asio
import Verif.Spec.Request
import Verif.Fine
import Verif.Props.Request
import Verif.Segments
import Verif.Bridge
import Verif.BridgeExec
import Verif.Props.Bridge
import Verif.Config
import Verif.Spec.Config
import Verif.Props.Config
import Verif.Props.ConfigFile
import Verif.Props.ConfigTotal
import Verif.Props.ConfigExample
import Verif.Props.ConfigAccept
import Verif.Lifetime
import Verif.LifetimeProof
import Verif.Props.Lifetime
import Verif.Props.Agreement
import Verif.Props.KeyFiles
import Verif.Props.Frames
import Verif.Props.Renegotiation
import Verif.Props.Stations
import Verif.Props.Qkd
import Verif.Spec.Reception
import Verif.Calm
import Verif.Props.Reception
import Verif.Spec.Inevitable
import Verif.Ends
import Verif.Spec.Success
import Verif.Props.Success
import Verif.Spec.Carry
import Verif.Plays
import Verif.Props.Carry
import Verif.Spec.Start
import Verif.Props.Start
import Verif.Metrics
import Verif.Spec.Metrics
import Verif.Props.Metrics
import Verif.Program
import Verif.Props.Program
import Verif.Props.Supply
import Verif.Memory
import Verif.Props.Memory
import Verif.Props.MemoryValues
import Verif.Props.MemoryStore
import Verif.Props.MemoryExample
import Verif.Props.Secrecy
import Verif.Props.SecrecyCases
import Verif.Threads
import Verif.Props.Threads
import Verif.Emulator
import Verif.Props.Emulator
import Verif.Console
import Verif.Props.Console
import Verif.Props.Wire
