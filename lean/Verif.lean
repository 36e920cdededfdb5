import Verif.Props.Placement
import Verif.Props.Filename
import Verif.Props.Definitions
import Verif.Props.Offset
import Verif.Props.Acquisition
import Verif.Props.Persist
import Verif.Props.Sizes
import Verif.Props.Extent
import Verif.Props.Events
import Verif.Props.Counters
import Verif.Props.Chunks
import Verif.Props.FileWriter
import Verif.Props.Restart
import Verif.Props.Commands
import Verif.Props.CloseTimeout
import Verif.Props.GapFill
import Verif.Props.Sum
import Verif.Props.Kafka
import Verif.Props.DummyProcess
import Verif.Props.Blosc
import Verif.Props.ParamAdjust
import Verif.Props.LiveView
import Verif.Props.Pool
import Verif.Props.WorkQueue
import Verif.Props.SharedBuffer
import Verif.Props.Decoder
import Verif.Props.DecoderData
import Verif.Props.DecoderCount
import Verif.Props.DecoderTime
import Verif.Props.IpcMessage
import Verif.Props.Ports
import Verif.Props.Receiver
import Verif.Props.Requests
import Verif.Props.Reactor
import Verif.Props.ReactorLoop
import Verif.Props.Watchdog
import Verif.Props.Plugin
import Verif.Props.Graph
import Verif.Props.Chain
import Verif.Props.ProcessorRun
import Verif.Props.SharedFrame
import Verif.Props.Shutdown
import Verif.Props.ParamContainer
import Verif.Props.DecoderDelivery
import Verif.Props.Simulator
import Verif.Props.SimulatorBytes
import Verif.Props.ReceiverStore
import Verif.Props.Circulation
import Verif.Props.Tcp
import Verif.Props.RxThread
import Verif.Props.StringParse
import Verif.Props.Times
import Verif.Props.Channel
import Verif.Props.Meta
import Verif.Props.Startup
import Verif.Props.PoolRace
import Verif.Props.FrameImage
import Verif.Props.Reply
import Verif.Props.PluginConfig
import Verif.Props.PluginReport
import Verif.Props.WriterReport
import Verif.Props.Indexes
import Verif.Props.JsonText
import Verif.Props.IpcText
import Verif.Props.JsonGrammar
import Verif.Props.JsonDoubles
import Verif.Props.Headers
import Verif.Props.Handles
import Verif.Props.Dataset
import Verif.Props.Parameters
import Verif.Props.MetaText
import Verif.Props.Layout
import Verif.Props.Uncaught
import Verif.Props.Sharing
import Verif.Props.Pipeline
import Verif.Props.BloscShared
import Verif.Props.Throws
import Verif.Props.EndToEnd
import Verif.Props.EndToEndGaps
import Verif.Props.EndToEndSim
import Verif.Props.ManyFiles
import Verif.Props.Remap
import Verif.Props.Loader
import Verif.Props.Locking
import Verif.Props.Flush
import Verif.Props.Capture
import Verif.Props.Signals
import Verif.Props.EndOfAcq
import Verif.Props.Stops
import Verif.Conformance.FrameProcessor
import Verif.Conformance.FrameReceiver
import Verif.Props.Itoa
import Verif.Props.JsonBuffer
import Verif.Props.Dtoa
import Verif.Props.Grisu
import Verif.Props.ReadDouble
import Verif.Props.ReadRange
import Verif.Props.PoolAllocator
import Verif.Props.JsonPointer
import Verif.Props.PointerParams
import Verif.Props.Programs
import Verif.Props.RxSockets
import Verif.Props.SimPorts
import Verif.Props.JsonValue
import Verif.Props.JsonCopy
import Verif.Props.JsonGrow
import Verif.Props.ReleasePath
import Verif.Props.NameMaps
import Verif.Props.Notices
import Verif.Props.JsonUtf8
import Verif.Props.FrameMeta
import Verif.Props.OutOfMemory
import Verif.Props.Placement64
import Verif.Props.GapFillInt
import Verif.Props.Datagram
import Verif.Props.KafkaDelivery
import Verif.Props.BlockIndex
import Verif.Props.SimReplay
import Verif.Props.WriterPush
import Verif.Props.WriterEnd
import Verif.Props.RxEndpoints
import Verif.Props.RxStats
import Verif.Props.StatsReset
import Verif.Props.ElementType
import Verif.Props.ReceiverReport
import Verif.Props.MessageEq
import Verif.Props.WriterLife
import Verif.Props.ParamDefault
import Verif.Props.ParamDoc
import Verif.Props.PortText
import Verif.Props.ShutdownTwice
import Verif.Model.SimInterval
import Verif.Props.SimInterval
import Verif.Model.HalfConfig
import Verif.Props.HalfConfig
import Verif.Props.HalfReport
import Verif.Model.HalfWriter
import Verif.Props.HalfWriter
import Verif.Props.HalfReceiver
import Verif.Model.Dispatch
import Verif.Props.Dispatch
import Verif.Model.ProcessorReport
import Verif.Props.ProcessorReport
import Verif.Model.Processes
import Verif.Props.Processes
import Verif.Model.Library
import Verif.Props.Library
import Verif.Model.H5Errors
import Verif.Props.H5Errors
import Verif.Model.DecoderLibrary
import Verif.Props.DecoderLibrary
import Verif.Model.TcpConfig
import Verif.Props.DecoderConfig
import Verif.Model.Timestamp
import Verif.Props.Timestamp
import Verif.Model.PoolEnd
import Verif.Props.PoolEnd
import Verif.Model.Fault
import Verif.Props.Fault
import Verif.Model.Ownership
import Verif.Props.Ownership
import Verif.Model.Pipes
import Verif.Props.Pipes
import Verif.Model.LogContext
import Verif.Props.LogContext
import Verif.Model.SimOptions
import Verif.Props.SimOptions
import Verif.Model.SimDrop
import Verif.Props.SimDrop
