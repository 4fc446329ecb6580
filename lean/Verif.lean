import Verif.Go.Basic
import Verif.Model.Answer
import Verif.Model.Assets
import Verif.Model.Binding
import Verif.Model.Breaks
import Verif.Model.BytePair
import Verif.Model.Bytes
import Verif.Model.CacheLock
import Verif.Model.Client
import Verif.Model.Codec
import Verif.Model.Commands
import Verif.Model.Conc
import Verif.Model.Config
import Verif.Model.ConsoleLog
import Verif.Model.Datagen
import Verif.Model.DebugLog
import Verif.Model.Float
import Verif.Model.Frame
import Verif.Model.Full
import Verif.Model.Gbk
import Verif.Model.Geo
import Verif.Model.Header
import Verif.Model.Hex
import Verif.Model.Hub
import Verif.Model.Inflate
import Verif.Model.JsonGeo
import Verif.Model.JsonRead
import Verif.Model.JsonText
import Verif.Model.Lifetime
import Verif.Model.Lines
import Verif.Model.Lives
import Verif.Model.Locks
import Verif.Model.Mixed
import Verif.Model.Monitor
import Verif.Model.Msgs
import Verif.Model.Once
import Verif.Model.Outside
import Verif.Model.Pace
import Verif.Model.Pair
import Verif.Model.Params
import Verif.Model.Pattern
import Verif.Model.Processor
import Verif.Model.Region
import Verif.Model.Ring
import Verif.Model.RingConc
import Verif.Model.Route
import Verif.Model.Senders
import Verif.Model.Serve
import Verif.Model.Server
import Verif.Model.SimFile
import Verif.Model.SimProcess
import Verif.Model.SimStart
import Verif.Model.SimTalk
import Verif.Model.Startup
import Verif.Model.Store
import Verif.Model.Time
import Verif.Model.Workers
import Verif.Model.Yaml
import Verif.Proof.Assets
import Verif.Proof.Awake
import Verif.Proof.Bcd
import Verif.Proof.Bounds
import Verif.Proof.Breaks
import Verif.Proof.BytePair
import Verif.Proof.ByteProgress
import Verif.Proof.Bytes
import Verif.Proof.Calm
import Verif.Proof.Codec
import Verif.Proof.Commands
import Verif.Proof.Conc
import Verif.Proof.Conns
import Verif.Proof.ConsoleText
import Verif.Proof.Datagen
import Verif.Proof.DebugLog
import Verif.Proof.Decimal
import Verif.Proof.Demo
import Verif.Proof.Devices
import Verif.Proof.Effects
import Verif.Proof.Errors
import Verif.Proof.Extra
import Verif.Proof.Fleet
import Verif.Proof.Float
import Verif.Proof.Frame
import Verif.Proof.Framing
import Verif.Proof.Full
import Verif.Proof.Gbk
import Verif.Proof.Groups
import Verif.Proof.Handle
import Verif.Proof.Header
import Verif.Proof.History
import Verif.Proof.Interleave
import Verif.Proof.Issue
import Verif.Proof.Json
import Verif.Proof.JsonRead
import Verif.Proof.JsonUnique
import Verif.Proof.JsonValue
import Verif.Proof.KeepConc
import Verif.Proof.Lines
import Verif.Proof.LogText
import Verif.Proof.Mixed
import Verif.Proof.MixedAwake
import Verif.Proof.MixedCalm
import Verif.Proof.Msgs
import Verif.Proof.Order
import Verif.Proof.Pair
import Verif.Proof.Panics
import Verif.Proof.Params
import Verif.Proof.Progress
import Verif.Proof.Reader
import Verif.Proof.Reference
import Verif.Proof.Regex
import Verif.Proof.Register
import Verif.Proof.Ring
import Verif.Proof.Route
import Verif.Proof.Segments
import Verif.Proof.Serial
import Verif.Proof.Sessions
import Verif.Proof.Silence
import Verif.Proof.SimAlone
import Verif.Proof.SimProcess
import Verif.Proof.SimTalk
import Verif.Proof.Status
import Verif.Proof.Store
import Verif.Proof.Time
import Verif.Proof.Timeless
import Verif.Proof.Times
import Verif.Proof.Tracks
import Verif.Proof.Typed
import Verif.Proof.Types
import Verif.Proof.Welcome
import Verif.Proof.Workers
import Verif.Proof.Yaml
import Verif.Props.Again
import Verif.Props.Amplify
import Verif.Props.Answer
import Verif.Props.Answers
import Verif.Props.Assets
import Verif.Props.Auth
import Verif.Props.Awake
import Verif.Props.Binding
import Verif.Props.Bodies
import Verif.Props.Breaks
import Verif.Props.Buffers
import Verif.Props.BytePair
import Verif.Props.ByteProgress
import Verif.Props.Bytes
import Verif.Props.CacheApi
import Verif.Props.CacheLock
import Verif.Props.Calm
import Verif.Props.Canonical
import Verif.Props.Codes
import Verif.Props.Commands
import Verif.Props.Concurrency
import Verif.Props.Config
import Verif.Props.Conformance
import Verif.Props.Connections
import Verif.Props.ConsoleLog
import Verif.Props.Conversation
import Verif.Props.Datagen
import Verif.Props.DebugLog
import Verif.Props.Defaults
import Verif.Props.Driving
import Verif.Props.Encryption
import Verif.Props.EndToEnd
import Verif.Props.Endings
import Verif.Props.Extra
import Verif.Props.FileShown
import Verif.Props.Fleet
import Verif.Props.Floats
import Verif.Props.Fragments
import Verif.Props.Framing
import Verif.Props.Full
import Verif.Props.FullCalm
import Verif.Props.Gateway
import Verif.Props.GatewayTotal
import Verif.Props.Gbk
import Verif.Props.Groups
import Verif.Props.Handlers
import Verif.Props.Header
import Verif.Props.HexText
import Verif.Props.Hub
import Verif.Props.Initiated
import Verif.Props.JsonGeo
import Verif.Props.JsonRead
import Verif.Props.JsonText
import Verif.Props.KeepConc
import Verif.Props.Keepalive
import Verif.Props.Lifecycle
import Verif.Props.Lifetime
import Verif.Props.Lines
import Verif.Props.Lives
import Verif.Props.Locks
import Verif.Props.LogFile
import Verif.Props.Messages
import Verif.Props.Minute
import Verif.Props.Mixed
import Verif.Props.MixedCalm
import Verif.Props.MixedGateway
import Verif.Props.Monitor
import Verif.Props.Newcomer
import Verif.Props.Numbering
import Verif.Props.Once
import Verif.Props.OneByOne
import Verif.Props.Order
import Verif.Props.Outside
import Verif.Props.Pace
import Verif.Props.Panics
import Verif.Props.ParamBodies
import Verif.Props.ParamStore
import Verif.Props.Params
import Verif.Props.Phones
import Verif.Props.Primitives
import Verif.Props.Progress
import Verif.Props.Provenance
import Verif.Props.Query
import Verif.Props.Reconnect
import Verif.Props.Reference
import Verif.Props.Refinement
import Verif.Props.Refused
import Verif.Props.Region
import Verif.Props.Register
import Verif.Props.Registry
import Verif.Props.Replies
import Verif.Props.Ring
import Verif.Props.RingConc
import Verif.Props.Route
import Verif.Props.Senders
import Verif.Props.Serial
import Verif.Props.Serials
import Verif.Props.Serving
import Verif.Props.Shipped
import Verif.Props.Shown
import Verif.Props.Silence
import Verif.Props.SimAlone
import Verif.Props.SimFile
import Verif.Props.SimProcess
import Verif.Props.SimStart
import Verif.Props.SimTalk
import Verif.Props.Simulator
import Verif.Props.Speaking
import Verif.Props.Startup
import Verif.Props.Status
import Verif.Props.Storage
import Verif.Props.Supported
import Verif.Props.Timeless
import Verif.Props.Times
import Verif.Props.Total
import Verif.Props.Versions
import Verif.Props.Welcome
import Verif.Props.Workers
import Verif.Props.Yaml
import Verif.Spec.Answer
import Verif.Spec.Assets
import Verif.Spec.Body
import Verif.Spec.Calendar
import Verif.Spec.Canonical
import Verif.Spec.Code
import Verif.Spec.ConsoleLog
import Verif.Spec.Cut
import Verif.Spec.DebugLog
import Verif.Spec.Framing
import Verif.Spec.Gbk
import Verif.Spec.Groups
import Verif.Spec.Header
import Verif.Spec.Json
import Verif.Spec.JsonRfc
import Verif.Spec.Observe
import Verif.Spec.Order
import Verif.Spec.Outside
import Verif.Spec.Params
import Verif.Spec.Reference
import Verif.Spec.Regex
import Verif.Spec.Registry
import Verif.Spec.Ring
import Verif.Spec.Route
import Verif.Spec.Status
import Verif.Spec.Yaml
