# Formal model of odin-data (C++) in Lean 4

Properties are listed in `properties.jsonl` (C01, C02, ...). Claims and theorem names are in
`MANIFEST.json`. The model lives in `lean/Verif/Model/*.lean`, helper lemmas in
`lean/Verif/Lemmas/*.lean`, and the property theorems, each with a small independent
specification and a concrete non-vacuity `example`, in `lean/Verif/Props/*.lean`.

## Trusted base

* Lean 4.33.0's kernel.
* Axioms: at most `propext`, `Classical.choice`, `Quot.sound` (checked with `#print axioms`).
  No axioms of our own, no `sorry`, no `native_decide`, no `bv_decide`.
* The reading of the C++ code: every definition of the model cites file and lines in `/repo`. The
  code is not executed here, so fidelity of the model is by reading only.
* External components are modelled by their documented behaviour, stated where they are used:
  HDF5 (a file is a map from dataset slot to value, created truncated), ZeroMQ (ordered delivery),
  pthread mutexes and condition variables (signal wakes one waiter), rapidjson (a JSON tree; its reader, writer, numbers, values, pointers and allocators are modelled in JsonText, ReadDouble, Grisu, Itoa, JsonValue, JsonPointer and PoolAllocator),
  `std::map` (sorted association), boost `shared_ptr` (reference count).
* Integers are unbounded unless the property is about overflow or truncation, in which case the
  C++ width is modelled explicitly (`% 2^32`, `% 2^64`, `BitVec`).

## Method

* A stateful class is a structure and a `step`/operation function per method. Sequences of
  operations are `List` folds, and statements about all histories are inductions over that list.
* Undefined behaviour (division by zero, out-of-bounds access, null dereference) is a distinct
  outcome (`ub`, `none`, ...), never a totalised default.
* When the code violates a property we prove the negation with a concrete witness (theorem name ends
  in `_violated`) and a `_partial` theorem with the exact extra hypothesis.
* Concurrency is modelled as an interleaving transition system over the atomic sections delimited by
  the mutexes in the code.

## Plan per property

| id | model | proof |
|----|-------|-------|
| C01 | `Placement`, `Placement64`: `calc_num_frames`, the rank test of `process_frame` | closed form = count over a range, induction on F |
| C02 | `Placement`, `Placement64`: `get_file_index`, `get_frame_offset_in_file` | div/mod algebra, explicit inverse |
| C03 | `Filename`: `generate_filename` with the 7 byte `snprintf` buffer | negation witness, injectivity of zero-padded decimals below 10^6 |
| C04 C05 C10 C11 C54 | `Acquisition` state machine over an abstract file system with create failures as inputs | invariant over the frame list; witness for the failure case |
| C06 | `Acquisition`: `adjust_frame_offset` with the 32-bit cast | case analysis, witness |
| C07 | `Acquisition`: `check_frame_valid` | decision logic |
| C08 C09 | `Acquisition`: counters of `process_frame` | invariant relating high-water mark to the set of frames written |
| C12 C13 C14 C15 C53 C55 C56 | `FileWriter`: configure, frames, start, stop, restart | decision logic and invariants, witnesses |
| C16 C57 | `CloseTimeout`: three threads, four mutexes and condition variables | witness schedules to stuck states, partial theorems |
| C17 C18 C19 | `Acquisition`: dataset size arithmetic of `create_file`, bound check, `extend_dataset` | arithmetic, invariant, witnesses |
| C20 | `GapFill`, `GapFillInt`: `insert_gaps` as explicit loops writing a flat pixel array | loop invariant, pointwise characterisation |
| C21 C22 C23 C24 C25 C47 C58 C59 | `Sum`, `ParamAdjust`, `LiveView`, `Blosc`, `Kafka`, `DummyProcess` | fold lemmas, history invariants, round trips |
| C26 C27 C60 | `Pool`: `DataBlockPool`, `DataBlockFrame` | invariant by induction over operations, witness of double release |
| C28 C29 | `WorkQueue` as condition variable transition system, any number of threads, spurious wake-ups | invariant; witness with 16 producers (twice the limit) |
| C30 | `SharedBuffer`: geometry and naming of the region | arithmetic, histories of processes |
| C31-C35 C61 C83 | `Decoder`: `DummyUDPFrameDecoder` and `FrameDecoder` | invariants with ghost ownership and payload, witnesses |
| C36 C37 C38 C43 C64-C67 C84 C85 | `Receiver`, `ProcessorCtrl`: configure, control channel, port lists | state machine, one lemma per setting, witnesses |
| C39 C40 C62 C63 | `IpcMessage` over a JSON tree | induction on paths; whole-table lemmas |
| C41 C42 C68 C69 C72 | `Reactor` | induction over rounds and over histories of commands |
| C70 C71 | `Watchdog` on top of `Reactor` | interleavings of the constructor, witnesses |
| C44 C82 | `Simulator` composed with `Decoder`, for bytes with `Datagram` | closed form of the packets, permutation, C83, simulation of C166 |
| C45 C51 C73 C78 C79 | `Plugin`, `Graph`, `ProcessorRun` | association map invariants, histories |
| C46 | `SharedFrame` | invariant over histories of holders |
| C48 | `Definitions` | whole-table lemmas |
| C49 | `ProcessorRun`: recursive `configure` | fuel: for self-reference no fuel suffices; acyclic terminates |
| C50 C76 C77 | `Shutdown` | interleavings, progress measure, witnesses |
| C52 C81 | `ParamContainer` | association lists, pointers into JSON trees |
| C74 C75 C102 | `Chain`: networks of plugins with bounded queues | multiset and order invariants over all schedules, progress |
| C86 C87 | `Circulation`: messages between receiver thread, controller and processor | conservation of buffers in every interleaving, weight that decreases, witnesses |
| C88 | `Tcp`: the read loop and the dummy TCP decoder | induction over the reads |
| C89 C90 | `RxThread`: waiting for the thread, sockets | closed forms, witnesses |
| C91 | `StringParse`: the snippet shown for a syntax error | induction over the text |
| C92 C93 | `Times`: measured durations and their statistics | bounds on the rounding, induction over the calls |
| C94-C98 | `Channel`: receiving, identities, binding, multi-part messages | induction over messages and operations, bounds on the rounding |
| C80 | `Startup`: two threads during construction | closed set of reachable states |
| C99 | `Meta`: pipes of meta data messages | invariant: every message is split, in order, into published and lost |
| C100 | `PoolRace`: threads looking up a pool | invariant over all schedules |
| C101 | `FrameImage`: offset and size of the image | invariant over all calls, modular arithmetic |
| C103-C107 | `Reply`: calls of `set_param` for status, versions and commands; the loop over plugins for commands and resets | no two paths collide, so each can be read back; induction over the plugins |
| C108-C113 | `PluginConfig`: `configure` and `requestConfiguration` of the plugins, the reply as calls of `set_param` | each reported path can be read back (lemmas of `Reply`); one field after the other |
| C114 | `WriterConfig`: the same for the file writer | objects above the reported paths; induction over the datasets of the message |
| C115 | `Indexes`: first and last frame of a file against the two attributes | decomposition of an offset into round, process and position |
| C116 | `JsonText`: `parse` of `write` is the document; `text`, the compact form, is the specification of the writer | induction on the document with a statement about any continuation; induction on depth for the reader |
| C117 | `JsonText`: outcome `deep` of `parse` | a measure of the brackets left; nested brackets as the witness |
| C118 | `IpcText`: encode to text, decode from text | C62 and C116; the attributes set by encode keep the document within range and depth |
| C119 | `JsonGrammar`: inductive grammar `JText` against `parse`, both directions | soundness and completeness of each reader function; induction on depth with induction on the lists inside |
| C120 | `Headers`: `Shows`, fields of the document the header denotes by the grammar of C119 | C116, C119; the header as a document |
| C121 | `Headers`: `Tells`, fields of the document the header denotes | the calls of the writer are those for a document; a reader that fails on a member fails on the object |
| C122 | `Handles`: `left`, a table of handles lost per failed call | invariant between calls: local handles plus lost ones; datasets in the map are open |
| C123 | `Dataset`: outcome of a write by a working library | invariant: extent at most the size recorded |
| C124 | `Parameters`: `holds`, rows of a file; `number`, types that fit; `lastPar` | induction over parameters and frames |
| C125 | `MetaText`: `Means`, the JSON grammar of C119 | grammar and reader agree (C119); depth is at most the number of brackets |
| C126 | `MetaText`: `first`, `second`, the documents to be read | C116, C119 |
| C127 | `Layout`: `part`, an image as a sequence of smaller images; `ReadsBack` | row-major positions by induction over the dimensions; chunks of slots are disjoint |
| C128 | `Layout`: size of a chunk | remainders of products |
| C129 | `FileWriter`: operations without a handler, creatable datasets | invariant: the next acquisition can be started |
| C130 | `Sharing`: who changes and passes on frames; `BesideOthers` | ownership invariant (a frame is at one place or nobody changes it); simulation by `Chain` |
| C131 | `Pipeline`: `meaning`, `Truthful`, `BloscLast` | induction over the way; sizes of the gap fill loops |
| C132 | `Pipeline`: `ReadsBack` of `Layout`, `plain` | C131 and the chunk lookup of C127 |
| C133 | `BloscShared`: `reported`, `With` | invariant: the library has the settings of the plugin |
| C134 | `Throws`: `Safe`, `Bounded`, `Fits` | induction over the way; C20 for gap filling, bound of the compressed size |
| C135 | `EndToEnd`: `ByteOf`, `FileByte`, `Fitting`, `Mine`, `place`; `EndToEndGaps`: `FittingGaps`, `PixelByte`, `Filled` | composition of C20, C33, C47, C83, C131, C02 and C127 |
| C136 | `Remap`: `init`, `Older`, `Right`, `Fine`, `received` | independent: objects written to and read from are compared |
| C137 | `Loader`: `Provides`, `First` | independent |
| C138 | `Locking`: `Conflict`, `RaceOf`, `races` | independent of the steps; the table is literal |
| C139 | `Flush`: `Sees`, `Clocked` | independent |
| C140 | `Capture`: `Wire`, `bytes`, `Whole` | independent |
| C141 | `Capture`: `asked`, `Simulator.Spec.expected` | independent |
| C142 | `Signals`: `Quiet`, `steps` | independent |
| C143 | `FW`: `Spec.Ended`, `Over` | independent |
| C144 | `Stops`: `play`, `Orderly` | independent |
| C145 | `Itoa`: `Numeral`, `value`, `Denotes` | independent |
| C146 | `JsonBuffer`: `Holds`, text by C116 | independent |
| C147 | `Dtoa`: `Digits`, `Fraction`, `Exponent`, `Denotes` (rational value) | independent |
| C148 | `Grisu`: `Finite`, `number` (IEEE 754), `dist`; `Denotes` of C147 | independent |
| C149 | `ReadDouble`: `Number` (RFC 8259), `denoted`; `Finite`, `number`, `dist` of C148 | independent |
| C150 | `ReadRange`: `C150_statement` over `Number` of C149 | independent |
| C151 | `PoolAllocator`: `Library`, `Legal`, `own`, `Sound`, `Contents`, `Progress` | over ranges of addresses, independent |
| C152 | `JsonPointer`: `escape`, `text`, `IsIndex`, `value`, `resolve` (RFC 6901) | independent |
| C153 | `PointerParams`: `Apart`, `Mixed`, `Plain`, `location`; `resolve` of C152 | independent |
| C154 | `Programs`: `Understood`, `Applicable`, `Possible`, `Reports`, `SimPossible`, `SimReports` | independent (over the inputs) |
| C155 | `RxSockets`: `wanted`, `Possible`, `AsConfigured` | independent |
| C156 | `SimPorts`: `expected` | independent |
| C157 | `JsonValue`: `IsInteger`, `IsReal`, `IsText`, `Bytes` | independent |
| C158 | `JsonCopy`: `content`, `owners`, `uncopied`, `SelfContained`, `atPath` | independent |
| C159 | `JsonGrow`: `after`, `Allowed`, `Holds`, `AllHold` | `Kind`, `Seq` and `Act` of the model |
| C160 | `ReleasePath`: the statement itself | `way`, the composition of the handlers |
| C161 | `NameMaps`: `Right`, `AllRight`, `Mostly` | `Query`, `Found`, `Pc` and the tables |
| C162 | `Notices`: `Notice`, `SaneBuffer`, `SaneName`, `AllSane` | `Json`, `findM` and the events of the model |
| C163 | `JsonUtf8`: `enc`, `encAll`, `Body`, `LoneLow` | `String.utf8EncodeChar` of Lean; `Hex4`, `escapes` of JsonGrammar |
| C164 | `FrameMeta`: `new`, `changed`, `truth`, `Fits`, `Right` | operations, fields and values of the model |
| C165 | `OutOfMemory`: `Given`, `Tidy` | heap, keys and operations of the model |
| C166 | `Datagram`: `IsFor`, the log of buffers handed on | simulation by the packet decoder (C33), the payload of a packet being the number of its datagram |
| C167 | `KafkaDelivery`: `step`, `run`, `none` is a call with a null pointer | invariant: no topic without a producer |
| C168 | `KafkaDelivery`: `Spec.failed`, `Spec.vanished` | ledger kept by every step |
| C169 | `BlockIndex`: `Unique`, `Mapped`, `Sound` | invariants of all interleavings; the serial case by an invariant on the counter |
| C170 | `SimReplay`: `sentPackets`, `droppedPackets`, `sentBytes` of the fates of packets | sums over lists; bytes of simulated frames from `create` |
| C171 | `SimReplay`: `value` of decimal texts, `list` | digits of C43, splitting at commas |
| C172 | `FileWriter`: `pushed` | cases of process_frame |
| C173 | `WriterEnd`: destructor and timeout thread | evaluation over all states, decreasing measure, induction over schedules |
| C174 | `WriterEnd` | counting requests and stops over schedules |
| C175 | `RxEndpoints`: configuring the channels, deferred unbinding | invariant over histories |
| C176 | `RxStats`: counters of the receiver, their messages, resets | invariant over interleavings |
| C177 | `Decoder.resetStats`, `Tcp.resetStats` | simulation up to the counters |
| C178 | `ElementType`: data type to HDF5 type, filter, fill value | case analysis, with C07 |
| C179 | `ReceiverReport`: request_configuration of controller and decoder, init of the UDP decoder | with C85 (stored settings), C43 (ports) and the invariants of the receiver |
| C180 | `MessageEq`: `Same` (the same values at the ends of all paths), `Denotes` | no further assumption; rounding as in `Times` |
| C181 | `WriterLife`: order of the members and their uses | a second closing of a file works |
| C182 | `ParamDefault`: `At` (members on the way, first of a name) | none |
| C183 | `SimInterval`: float as a multiple of 2^-149 s with 24 bits | `nanosleep` exact |
| C184 | `HalfConfig`: state before and after | none |
| C185 | `HalfWriter`: state before and after | none |
| C186 | `HalfReceiver`: `Untouched`, before and after | none |
| C187 | `Dispatch.Spec`: member, parts, up to the first refusal | none |
| C188 | `Fine`, `Usual`, `Reach` in Props/ProcessorReport.lean | none |
| C189 | `Common`, `only`, `Undisturbed`, `Below` in Props/Processes.lean | none |
| C190 | `Inside`, `locked` in Props/Library.lean | none |
| C191 | `wanted`, `quiet`, `followed` in Props/H5Errors.lean | none |
| C192 | `base`, `inside` in Props/DecoderLibrary.lean | none |
| C193 | `Taken` in Props/DecoderConfig.lean | none |
| C194 | `C194_statement` in Props/Timestamp.lean | boost date_time behaves as in its sources |
| C195 | `inUse`, `survivors` in Props/PoolEnd.lean | none |
| C196 | `C196_statement`, `Harmless` in Props/Fault.lean | ZeroMQ waits for open sockets when a context is destroyed |
| C197 | `C197_statement`, `Acyclic`, `Writer` in Props/Ownership.lean | shared pointers count references |
| C198 | `C198_statement`, `Few`, `places`, `lost` in Props/Pipes.lean | PUB and ROUTER drop at the limit, DEALER waits |
| C199 | `C199_statement` in Props/LogContext.lean | contexts of log4cxx belong to threads |
| C200 | `C200_statement` in Props/SimOptions.lean | boost::program_options as described in the model; `setup` succeeds with addresses, sockets and file |
| C201 | `C201_statement` in Props/SimDrop.lean | the quotient of the draw is exact; RAND_MAX of glibc |

## What is modelled, and the simplifications

| model | source | simplifications |
|-------|--------|-----------------|
| Placement, Placement64, Filename, Acquisition | Acquisition.cpp, HDF5File.cpp | Placement64 has the arithmetic of the machine; Acquisition uses exact numbers and treats a geometry whose products do not fit 64 bits as undefined; HDF5 is a map from slot to value; H5Fcreate failures are inputs; paths are compared as text |
| FileWriter | FileWriterPlugin.cpp | `process_end_of_acquisition` and `execute` take no lock in the code and are modelled as atomic calls |
| CloseTimeout | FileWriterPlugin.cpp (timeout thread) | only locks, condition variables and the flags |
| GapFill, GapFillInt, Sum, ParamAdjust, Blosc, DummyProcess | the plugins of these names | unbounded `int` in GapFill; the arithmetic of C++ in GapFillInt, which the model of the pipeline uses; the blosc library and its threads are not modelled |
| Kafka, LiveView | the producer plugins | contents of the JSON header not modelled |
| Pool | DataBlockPool.cpp, DataBlockFrame.cpp | operations atomic, allocation succeeds, the race on the map of instances is not modelled |
| WorkQueue | WorkQueue.h | none in the locking; `notify_one` wakes any one waiter, spurious wake-ups included |
| SharedBuffer | SharedBufferManager.cpp | the mapping succeeds; alignment beyond the header not modelled |
| Decoder | DummyUDPFrameDecoder.cpp, FrameDecoder.cpp | full-length packets, times as integers rounded to 53 bits, order of releases within a tick not modelled |
| IpcMessage | IpcMessage.h/.cpp | JSON text, NUL in names, boost time parsing; references into nested documents (dangling after change) not modelled |
| Receiver | FrameReceiverController.cpp, FrameReceiverConfig.h | unbinding succeeds; `tokenize_port_list` reads a dangling `c_str`, assumed intact; counters do not wrap; plugins, sockets, threads are environment |
| ProcessorCtrl | FrameProcessorController.cpp `handleCtrlChannel` | the commands are inputs |
| Reactor | IpcReactor.cpp, IpcReactorTimer.cpp | poll never fails, identifiers do not overflow, callbacks do not throw; channel maps changed by other threads not modelled |
| Watchdog | WatchdogTimer.cpp | durations and log; the dangling `timeout_callback_` and uninitialised `ticks_` not modelled |
| Plugin, Graph | FrameProcessorPlugin.cpp, FrameProcessorController.cpp, MetaMessagePublisher | callback maps changed while another thread iterates is a data race and not modelled; endpoints are never refused |
| Chain | callbacks, WorkQueue and plugin loop composed | ideal bounded queue; no direct calls, changes of connections, exceptions, stopping |
| ProcessorRun | FrameProcessorController.cpp, FrameProcessorApp.cpp | errors inside a stored configuration end it |
| SharedFrame | SharedBufferFrame.cpp, SharedMemoryController.cpp | frame objects are not copied |
| Shutdown | FrameProcessorController.cpp, FrameProcessorPlugin.cpp | non-atomic flags behave as atomic, ideal queue wake-ups, the `shutdown_` guard not modelled |
| ParamContainer | ParamContainer.h | JSON text, `~` escapes, array index tokens, range of doubles, duplicate paths not modelled; `*begin()` of an empty path read as NUL |
| Simulator | FrameSimulatorPluginUDP.cpp, DummyUDPFrameSimulatorPlugin.cpp | capture files, times, lost datagrams not modelled; datagrams as bytes in SimulatorBytes |
| Circulation | FrameReceiverRxThread.cpp, FrameReceiverController.cpp, FrameDecoder.cpp, SharedMemoryController.cpp | channels keep order, messages to a stopped thread are dropped, a frame is announced to all subscribers; contents of frames not modelled |
| Tcp | FrameReceiverTCPRxThread.cpp, DummyTCPFrameDecoder.cpp | blocking sockets; accept and connection set-up not modelled |
| RxThread | FrameReceiverRxThread.cpp, FrameReceiverUDPRxThread.cpp | the flags are seen in any order; only UDP sockets |
| StringParse | stringparse.h | positions as natural numbers |
| Times | gettime.h, CallDuration.cpp, FrameProcessorPlugin.cpp | doubles as integers rounded to 53 bits; exponent range not modelled |
| Channel | IpcChannel.cpp, FrameProcessorController.cpp, FrameReceiverZMQRxThread.cpp | ZeroMQ is the environment; contents of messages not modelled |
| Startup | FrameProcessorController.cpp/.h | sequential consistency; logging not modelled |
| Meta | MetaMessagePublisher.cpp, FrameProcessorController.cpp | contents of messages not modelled; subscribers not modelled |
| PoolRace | DataBlockPool.cpp | one block size; sequential consistency, the map's own undefined behaviour not modelled |
| FrameImage | Frame.cpp/.h | conversions to int modulo 2^32 (implementation defined before C++20) |
| Reply | FrameProcessorController.cpp (status, version, commands, execute, reset) | what plugins report is given as a list of calls of `set_param` |
| PluginConfig | configuration of the OffsetAdjustment, DummyUDP, Blosc, GapFill, ParameterAdjustment, Kafka and LiveView plugins | an exception ends in no state; librdkafka and binding of sockets are given as the set of accepted names |
| WriterConfig | `configure` and `requestConfiguration` of the FileWriterPlugin at the level of messages | not writing; existence of directories is given; frames to write not calculated |
| Indexes | index attributes of a dataset | `size_t` and `int` with their conversions; frames of one image |
| JsonText | rapidjson's writer, reader and UTF-8 encoder; messages as text | numbers that are not 64-bit integers opaque; a stack is a number of nested calls |
| Headers | JSON headers of live view and Kafka messages | floats opaque; image given as its bytes |
| Handles | HDF5 handles opened and closed by `HDF5File`, every library call may fail | handles named by use; data and sizes left out |
| Dataset | one HDF5 dataset with 64 bit rows, failing extension, store and flush; the parameter loop | a row holds one number; a frame is stored in the first of its rows |
| MetaText | contents of meta data messages: the messages of an acquisition, JsonDict, and what the controller publishes | as JsonText |
| Layout | dimensions, chunks and bytes of a dataset, and a reader of it; the Blosc parameters | documented rules of HDF5 for unfiltered chunks; no failing calls, no wrap-around of rows |
| Sharing | frames as shared objects in the queues of connected plugins, and which plugins change them | a call of process_frame accesses the frame at one moment; settings of the plugins are fixed; images and the plugin functions are parameters |
| Pipeline | the image of a frame and its type, dimensions and compression along a sequence of plugins, to a file and its reader | frames are values; the compressor is any pair of functions; metadata other than the sum left out |
| BloscShared | several compression plugins and the settings of the library they share | operations are atomic |
| EndToEnd | the join of decoder, shared buffer, dummy process plugin, plugins, acquisition and dataset: header and payload of a buffer as memory, all frames handed on to the dataset in turn | one file, one dataset; what plugins add to the frame offset is one number, and overflow of int64_t is not modelled; one frame to a chunk; a buffer does not change while it is out (C31) |
| ManyFiles | `Acquisition.cpp` 84-130 (`process_frame`), 213-279 (`create_file`), 343-395 (`start_acquisition`), 545-581 (`get_file`), with the files of the acquisition by number, current and previous | one dataset, one frame to a chunk; creating and closing a file do not fail (C04, C129), creating the dataset may |
| Remap | the holders of the buffer manager (controller, decoder, receiver thread), names and objects of shared memory, the flags of the controller, deferred notification, the processor's mapping | one processor, subscribed from the start; no sizes or contents; the receiver thread always starts |
| Loader | the factory map of the class loader, libraries opened, plugins by index | names and paths are numbers; one base class; a library registers the same names every time |
| Locking | per plugin and method: mutexes held, members read and written; threads, blocking calls | members grouped; all branches of a method are passed; mutexes of a section are taken at once |
| Flush | values written into a dataset, flushes and the time of the last one | one dataset; a write that fails before storing is no step |
| Capture | capture files: lengths, headers, datagrams; storing of frames | no IP fragments; bytes not captured are undefined |
| Signals | phases of the receiver's main thread, RX thread, signals, time spent waiting | configuration succeeds; logging in the handler not modelled |
| Stops | threads that start and stop acquisitions, step by step, with `mutex_` | accesses are atomic; settings reduced to having a name; acquisitions of no frames left out |
| Itoa | printing of integers, internal/itoa.h | texts instead of pointers |
| JsonBuffer | memory of a string buffer, the writer into it, `IpcMessage::encode` | memory does not run out; the stack of levels is a list; `dtoa` is a parameter |
| Dtoa | text of a floating point number from its digits, internal/dtoa.h | digits and power of ten are parameters |
| Grisu | digits of a double, internal/dtoa.h and internal/diyfp.h | buffer is a list of digits; variants for other compilers left out |
| ReadDouble | numbers read as doubles, reader.h, internal/strtod.h, internal/pow10.h | doubles that are not negative are their bits; arithmetic is IEEE 754 with rounding to nearest, on rational numbers; counters overflow only where a text of less than 2^31 digits can make them |
| PoolAllocator | the memory of JSON documents, allocators.h 102-270 | no user buffer; chunk headers are kept beside the memory; the C library is an argument |
| JsonPointer | JSON pointers, pointer.h 401-506 and 802-932; encode and update of ParamContainer.cpp with them | not the URI fragment form; memory does not run out |
| Programs | the three programs from the command line to the exit status: FrameProcessorApp.cpp 72-299, FrameReceiverApp.cpp 79-336, FrameSimulatorApp.cpp 47-240 | each step succeeds or throws; no signals |
| RxSockets | the set up of the sockets of the UDP, TCP and ZeroMQ threads | the operating system is an argument |
| SimPorts | ports of the simulator and of a receiver on the same machine, FrameSimulatorPluginUDP.cpp 243-251 | semantics of bind and sendto on Linux |
| JsonValue | the memory of a value of the JSON library: constructors, flags, getters, strings in the value, in the pool and by reference, RawAssign | x86-64 layout; objects and arrays only as types |
| JsonCopy | deep copy of values by SAX events, the owners of the memory of values that are encoded from containers or taken from messages | numbers by value; short strings as in the pool; copies of names as of strings |
| JsonGrow | PushBack, Reserve, AddMember and the making of arrays, objects and strings in the pool | headers beside the memory; a null pointer is an outcome |
| ReleasePath | the frame ready and frame release notifications through the controller, with what the log evaluates | messages as two numbers; the channels deliver |
| NameMaps | the two static maps of names, filled at the first use, with any number of threads | an access is one step; one lookup for each thread |
| Notices | release and ready channels with messages of any contents, the queue of empty buffers and its use | one decoder; a reconfiguration makes decoder and memory anew; messages as parsed documents |
| FrameMeta | FrameMetaData, Frame and EndOfAcquisitionFrame as objects: construction, copies, setters and getters | the types of parameters by name; image and data elsewhere; logger left out |
| OutOfMemory | memory taken with malloc and posix_memalign in the frame processor, with allocations that fail | addresses are not used again; `new` not modelled; contents elsewhere |
| Datagram | FrameReceiverUDPRxThread.cpp handle_receive_socket with datagrams of any length, the header buffer and the bytes of frame buffers | both system calls see the same datagram; a failed call is a datagram of no bytes |
| KafkaDelivery | handles and counters of KafkaProducerPlugin.cpp, with two threads | librdkafka is the environment: it takes or refuses, and reports any of its messages when polled or flushed |
| BlockIndex | the counter of indices of DataBlock.cpp and the pools of DataBlockPool.cpp with any number of threads | an increment is a load and a store; blocks of one size in a pool |
| SimReplay | counters of replay_frames in FrameSimulatorPluginUDP.cpp 133-236, the list of packets to drop, FrameSimulatorOption.cpp | the outcome of each sendto is given; percentages not modelled |
| SimDrop | FrameSimulatorPluginUDP.cpp 165-200 | the quotient of the draw is exact; sending is one event |
| SimOptions | FrameSimulatorOption.h 47-71, FrameSimulatorOptions*.h, FrameSimulatorApp.cpp 157-161 and 203-206, setup of the three classes of plugins | values are texts; names in full |
| LogContext | logging.cpp 37-65 and its callers; FrameReceiverRxThread.cpp 110-116, FrameProcessorController.cpp 1020-1025 | threads are what they do with the log |
| Pipes | FrameReceiverRxThread.cpp 224-345, 410-421; FrameReceiverController.cpp 887-1072; SharedMemoryController.cpp 126-239; SharedBufferFrame.cpp 31-41; IpcChannel.cpp 59-93, 228-271 | pipes of ZeroMQ with one limit; both sides run and are configured |
| Ownership | FrameProcessorController.cpp loadPlugin, connectPlugin, disconnectPlugin, disconnectAllPlugins 700-803, shutdown 817-853; callbacks of FrameProcessorPlugin.cpp 268-347 and SharedMemoryController.cpp 249-278; FrameProcessorApp.cpp 60-63, 180-257 | objects are numbers, reference counts are sweeps |
| Fault | SegFaultHandler.h 29-120; IpcChannel.cpp IpcContext::Instance 20-25; static controller_ of both programs | threads are what they do on ETERM, static objects what their destructors do; numbers of Linux |
| PoolEnd | DataBlockPool.cpp tearDownClass 267-274, get_used_blocks 78-81, internal_get_used_blocks 239-242 | frames are the blocks they hold |
| Timestamp | IpcMessage.cpp valid_msg_timestamp 677-690, 700-704, get_msg_timestamp 311-314, uses 87-91, 387 | boost date_time modelled from its sources; names of months and locales left out; integers unbounded |
| TcpConfig | DummyTCPFrameDecoder.cpp constructor 18-33, init 44-45, request_configuration 66-71, get_frame_buffer_size 100-102 | settings only |
| DecoderLibrary | FrameReceiverController.cpp 14-17, 454-458, 503-504, 516-517 | names as on Linux |
| H5Errors | HDF5File.cpp ensure_h5_result 16-18, hdf5_error_cb 20-25, constructor 27-46, handle_h5_error 76-97, hdf_error_handler 99-105, clear_hdf_errors 107-116 | the stack of errors of the library as documented; one thread; calls given by whether they are checked and fail |
| Library | FileWriterPlugin.cpp process_frame 139-171, process_end_of_acquisition 178-184, start_writing 192-224, stop_writing 231-237, frame_in_acquisition 810-845, stop_acquisition 851-890, run_close_file_timeout 916-941, execute 975-998; HDF5File.cpp mutex of a file | one file to an acquisition; exceptions, destructors and frames handed on left out |
| Processes | Acquisition.cpp process_frame 84-130, create_file 213-279, start_acquisition 343-395, get_file 545-581, generate_filename 654-677 | as ManyFiles, with files found by name; a created file is empty for everyone; no locks |
| ProcessorReport | FrameProcessorController.cpp configure 371-498, requestConfiguration 508-525, setup of the interfaces 875-902, 930-946, 990-1002 | a plugin is one value; no settings that a report does not have; ZeroMQ is the environment |
| Dispatch | FrameProcessorController.cpp configure 371-498 | the settings of the controller are the environment, apart from the types of their values |
| HalfWriter | FileWriterPlugin.cpp configure 254-351, configure_process 426-519, configure_file 534-608, configure_dataset 627-707 with the state at an exception | as WriterConfig; `calc_num_frames` not modelled |
| HalfConfig | `configure` of seven plugins (DummyUDPProcess, Blosc, GapFill, Kafka, LiveView, ParameterAdjustment, OffsetAdjustment) with the state at an exception | reply warnings not modelled; log messages only where they read memory |
| SimInterval | FrameSimulatorPluginUDP.cpp replay 150-217 (times) | floats exact with rounding to nearest; `nanosleep` exact and uninterrupted; only the sending takes time |
| ShutdownTwice | `FrameProcessorController.cpp` 95-99, 817-853, 906-920, 952-964 | an exception may come between any two steps of `shutdown`; both callers are in the main thread |
| WriterLife | `FileWriterPlugin.h` 153-209, `FileWriterPlugin.cpp` 109-126, 192-237, `Acquisition.cpp` 213-302, `HDF5File.cpp` 193-215 | members grouped; which HDF5 calls fail is free |
| MessageEq | `IpcMessage.cpp` 462-500, rapidjson `document.h` 852-891 | doubles by their bits; integers are converted with rounding to nearest |
| ReceiverReport | request_configuration of the controller and the UDP decoder, DummyUDPFrameDecoder::init | report as the sequence of set_param calls; only what is configured in the decoder |
| ElementType | datatype_to_hdf_type and the choice of filter and fill value in HDF5File.cpp | sizes of the native HDF5 types; filters only named |
| RxStats | reset_statistics, get_status, handle_rx_channel, handle_frame_release_channel of FrameReceiverController.cpp; fill_status_params of FrameReceiverRxThread.cpp | one counter stands for all; an increment is a load and a store |
| RxEndpoints | configure_ipc_channels 194-268, the setup functions and unbind_channel of FrameReceiverController.cpp | no wildcards; what the system lets be bound is the environment |
| WriterEnd | the timeout thread of FileWriterPlugin.cpp from its start to the destructor 109-126 | interleavings with spurious wake-ups; other threads only through flags and notifications |
| StdMap | `std::map` with string keys | order by code points, which is the byte order for UTF-8 |

## Disagreements between code and properties

Each is proved as a theorem ending in `_violated` (or `_ub`), the notes in `MANIFEST.json` say what is
true instead. In short:

* C01: False with the 64 bit numbers of the code for very large products: rank times frames per block wraps, so that a process counts frames it never accepts (C01_violated). In exact arithmetic all of it holds for every rank, number of processes, block size and frame count (the four theorems of Placement). C01_accepts: which frames a process accepts is exact in 64 bits without any condition. C01_share_partial: its own count is exact if the frames of one round of blocks fit 64 bits.
* C02: False with the 64 bit numbers of the code: blocks per file times frames per block is not checked and may wrap, so that two frames of one process are sent to the same file and slot (C02_violated, C02_collision). In exact arithmetic the placement is a bijection (theorems of Placement). C02_partial, C02_single_file_partial: the same for the machine if these products fit 64 bits.
* C03: False as stated: the six character number makes files 100000 and 1000000 collide (C03_violated), and numbering off gives one name. Proved below one million.
* C04: False as stated: after a failed file creation the next frame recreates (truncates) files already written (C04_violated). Proved for every run in which no H5Fcreate fails, with file numbers below one million; that the start was successful is the only condition on the datasets. Rows of a dataset are modelled without wrap-around at 64 bits; C19_violated shows what that does for chunks of several frames.
* C05: Holds for every geometry whose products (frames of a round of blocks, of a file, rank times frames per block) fit 64 bits; in the model a frame for any other geometry, or for 0 processes, has an undefined outcome instead of a status. Missing for those: two frames can be written to one slot without an error (C02_collision), so that one of them is lost silently.
* C06: False as stated: the frame number is cut to 32 bits in the sign test, so in-range frames are rejected. Never wraps is proved; acceptance is proved for frame numbers below 2^31.
* C08: Monotonicity is unconditional. The high-water claim is false with a master dataset when frames of other datasets open the next file (C08_violated); proved when every frame counts. C08_machine, C08_machine_monotone: with 64 bit numbers the counter is the same while it fits, and never goes back even if the products wrap.
* C09: False for several images per frame (C09_violated: never completes). Proved for one image per frame, any geometry, any arrival order in the two-file window. C09_chunks_partial: with several images to a frame it holds for one process with one file, if the images make whole frames; with several files it does not (C09_files_violated). C09_images: frames must say how many images they hold, which no plugin here does; otherwise, with chunks of several images, no frame ever completes the acquisition. Any geometry here means one whose products fit 64 bits.
* C10: False when H5Fcreate fails (a file never announced as created is announced as closed). Proved when no H5Fcreate fails.
* C100: False of the code: the map of pools has no lock, so threads that ask for the first block of a size at the same time may get a pool each (C100_many, any number of threads). Proved for every schedule after one thread has been given its pool. That concurrent use of the map itself is undefined is not modelled.
* C101: False of the code: the image size is an int, so for data of 2 GiB or more it is negative or 0, and no setter keeps the image inside the data. Proved for smaller images and calls that make sense, any number of them.
* C103: False of the code: a plugin whose name has one character makes set_param throw, so there is no status at all, and a plugin named error, warning, plugins or shared_memory collides with those members. Proved for all other names, any number of plugins, values, errors and warnings.
* C104: False of the code: the version of a plugin named odin-data replaces that of the application. Proved for all other names.
* C105: False of the code: a plugin whose name has one character makes set_param throw. Proved for all other names not ending in [].
* C106: False of the code: commands for plugins not loaded are ignored if there is one for a plugin that is, and a plugin that does not support its command ends the loop by its exception. Proved: the commands executed are those for loaded plugins, in order, up to the first exception; the full claim for well-formed requests to loaded plugins that support them.
* C109: False of the code: a parameter whose name has a slash can be configured if its parts are nested in the message as well, and is missing from a plugin restored by its report. Proved for any number of parameters whose names have no slash. C109_half says the same of every state that any messages leave, also those refused half-way: the restored plugin treats frames alike, though its members may differ (C109_half_members).
* C11: False when H5Fcreate fails. Proved when no H5Fcreate fails.
* C110: False of the code: the partition is reported as a signed and read as an unsigned number, so the report of a plugin with the default partition -1 is refused (C110_refused, every negative partition). Proved for configured partitions and servers the library accepts.
* C111: False of the code: a topic given before the servers is forgotten, and servers that are refused leave the old ones in the report without a producer. Proved when the first message gives servers and all servers given are accepted, any number of messages; that the topic in use is the one reported always (C111_used).
* C112: False of the code: the filters for datasets and tags are not reported, so a restored live view shows all frames. Proved for rates and address, over any earlier configuration.
* C114: False of the code: whether the lowest and highest index are written is not reported. Further, the empty path of a new writer is refused (C114_path), a negative first number is reported as a number that is refused, dimensions from 2^31 on are reported wrapped, chunks given as an empty list become the default ones, and a dataset called dims[] becomes two (examples). Proved for all other states and any number of datasets whose names have no slash.
* C115: False of the code: the attributes are computed as if every file held one block. Proved exact for one block of more than one frame to a file and for one process writing one file; the first index is right exactly for the first file of a process or one block to a file (C115_low_partial, an equivalence), with one file per process the last index is right in exactly one of them (C115_single); with an unknown number of frames it is 0 (C115_continuous).
* C117: False of the code: the reader recurses for each nested value without a limit, so every stack is exhausted by one more opening brackets than it holds (C117_nest); the crash cannot be caught, although the constructor of messages catches exceptions. Proved: texts with fewer opening brackets than the stack holds are read or refused (C117_partial), and reading always ends (C117_ends).
* C120: False of the code: frame number and image size are cut to 32 bits (the overload of add_json_member for numbers takes uint32_t, although the caller casts to uint64_t), names are cut at a NUL. C120_partial is an equivalence: these are the only causes. C120_reads: the header is always a JSON text.
* C121: False of the code: a negative frame number or offset wraps, parameters that are neither unsigned long nor float are null, and a float that is NaN or infinite makes the whole header unreadable (C121_nan, for every such frame): the writer refuses it after the colon, and the result of the call is ignored. C121_partial is an equivalence. C121_message adds the framing of C25. Assumes that finite floats are written as texts that denote them.
* C122: Violated: ensure_h5_result throws, so the clean-up code written for a negative result (HDF5File.cpp:168-175, 505-513) is never reached, and the local property lists and dataspaces stay open; a failed H5Fcreate loses two handles (C122_violated), and as each attempt uses a new object, n attempts lose 2 n (C122_retries). Proved: as long as no H5Dclose failed, the destructor does not throw and the number of handles left open is exactly the sum, over the failed calls, of a fixed table (C122_partial), so all are closed iff every failed call has entry 0 (C122_closed); without failures from the library, a use with distinct dataset names and none created after closing fails nowhere and leaves nothing open (C122_fine). If H5Dclose fails at a dataset that is not the first of the map, no later call and not the destructor closes the file: each attempt throws at the first dataset, closed already (C122_stuck); the destructor throwing ends the process. Modelled: a failed call changes nothing, and H5Fclose closes the objects in the file (H5F_CLOSE_STRONG). C122_either: for all failures, the destructor throws exactly if closing once failed at a dataset that is not the first of the map, and otherwise the table gives the number of handles left open, a failed H5Dclose losing none.
* C123: False of the code: extend_dataset records the new size before it calls H5Dset_extent, so after a failure the dataset is not extended again (C123_violated). C123_partial is an equivalence: accepted are exactly the frames that start inside the real extent or end behind the recorded size. C123_lost: after a failed extension every frame up to that slot that starts behind the extent is refused, however often it is sent, until one of a later slot comes. C123_no_failed_extension: failures of other calls do no harm. Rows as 64 bit numbers without wrap-around (see C19 for that); a library that refuses chunks outside the extent.
* C124: False of the code: a frame with a parameter of the wrong type is refused after its image and the parameters before it were stored, without being announced (C124_violated); a parameter with the name of a dataset with image dimensions makes H5Sselect_hyperslab read past the array elementSize[1] (C124_violated_ub). Proved: an accepted frame has everything at its place; whatever the outcome, nothing else in the file changes (C124_partial); the array is overrun only for datasets of more than one dimension (C124_memory); after any accepted frames a dataset of parameters holds in each row the value of the last frame of that slot (C124_runs).
* C125: False of the code: the header is parsed as a const char *, so one with a NUL character behind a JSON text is published as that text's document (C125_violated). C125_partial: holds for every header, given that it has no NUL character or is no JSON text up to it, and that the numbers of the header that are no 64 bit integers are written as a text that denotes them (Okay, as in C116_doubles). C125_same: a word and the same word as a JSON string are published alike, so subscribers cannot tell which was given.
* C127: False of the code: chunk dimensions smaller than the image can be configured, and the image is then stored as one chunk that cannot be read (C127_violated). C127_partial: holds for chunks of whole frames (the default) and not more frames to a chunk than the dataset has; C127_needed: both conditions are needed, as otherwise not even the first frame reads back. C127_size: the size of the image is not checked, and any other size makes the chunk unreadable. C127_unlimited and C127_fixed: when all rows of a frame are inside the dataset. Of HDF5 the documented rules for creating, writing and reading unfiltered chunks are modelled; rows outside a fixed dataset whose length is no multiple of the chunk do not read. C127_fill: under the same conditions the elements of a slot nothing was written to read as the fill value.
* C128: False of the code for chunks of several frames: it is the size of one frame (C128_violated, C128_value). C128_partial: for chunks of whole frames it is right exactly if the chunk is one frame; then the 32 bit arithmetic does not wrap, as HDF5 refuses chunks of 4 GiB.
* C129: False of the code: the next acquisition is started in the worker or timeout thread, and if its file or datasets cannot be created the exception ends the process, whereas the same failure after a command is reported to the client. C129_violated: HDF5 cannot create the file. With an HDF5 that never fails: C129_violated_rank, no frame of the next acquisition is for this process; C129_violated_timeout, a dataset has a zero dimension. C129_cause: nothing else throws. C129_partial: holds for every history in which HDF5 creates what it is asked for, rank, number of processes and frames per block stay as they are with the rank below the number, all described datasets can be created and all acquisitions are endless or have a frame for this process. Exceptions are those of the file writer model; pushing a frame on can throw only for types that earlier pushes refused. The products of the geometry are taken to fit 64 bits.
* C13: False as stated: number = 0 is accepted and the next frame count divides by zero (C13_violated). Proved for all histories whose messages do not contain number = 0 or a dataset without chunks. Nor does anything check the products: frames per block times the number of processes wraps to 0 for accepted settings, and is then divided by (C13_product_ub, C13_product_violated); C13_partial is therefore for settings below 2^32.
* C130: False of the code: all connected plugins get the same object, and the sum, offset, parameter and dummy plugins change it. A file writer connected beside an offset plugin writes the frame with or without the offset, depending on the threads (C130_violated, C130_schedule); both can be in process_frame with it at the same time (C130_race). C130_partial: holds if no plugin changes frames that others can have; C130_values_partial: then every run is one of the model with frames as values (Chain), so that C74, C75 and C102 apply; C130_exclusive_partial: then a plugin that changes a frame has it alone. C130_kinds_partial: for the plugins of the repository this means that sum, offset, parameter and dummy plugins are connected alone or behind a plugin that copies. process_frame reads and changes the frame at one moment; plugins called directly are not modelled. C130_dummy: the dummy process plugin changes what a plugin beside it gets, even when it copies frames.
* C131: False of the code: no plugin looks at the compression of the frame it is given. A compressed frame is compressed again and says that it is compressed once (C131_violated; C131_times: it has to be decompressed as often as it was compressed), gaps are inserted into the compressed bytes (C131_violated_gaps), and into whatever lies behind them in memory (C131_violated_behind), and the sum is that of the compressed bytes (C131_sum). Negative gaps, which the configuration takes, give dimensions near 2^64 (C131_violated_negative). C131_partial: holds for every frame that is not compressed on every way on which only plugins that leave the image alone follow the compression, with configurations of gaps without negative numbers; the image is then that of the same way without compression. C131_dummy: the frames of the dummy process plugin are truthful. The compressor is any function that can be undone on images up to the size blosc takes.
* C132: False of the code for frames that are compressed twice (C132_violated). C132_partial: holds on every way on which only plugins that leave the image alone follow the compression, with configurations of gaps without negative numbers. One frame to a chunk, as configured by default. The Blosc filter of HDF5 is modelled as the decompressor, applied by the reader to each stored chunk.
* C133: False of the code: compressor and number of threads are settings of the library, of which there is one in the process. Loading a second plugin resets them for the first (C133_violated), and the start of an acquisition in one plugin changes the compressor in the middle of an acquisition of another (C133_mixed). C133_partial: holds for a plugin from when it is loaded as long as no other is used; C133_acquisition: from the first frame of an acquisition as long as no other is used; C133_default: for any number of plugins none of which is ever given another compressor or number of threads than the default. Operations are atomic; that two threads are in the library at the same time is not modelled. Unavailable compressors: C24.
* C134: False of the code: a gap fill plugin that is not configured reads its empty vectors with every frame (C134_violated, C134_unconfigured), a frame with one dimension makes a configured one read beyond the dimensions (C134_violated_dims), and an image of the largest size can be too large to be compressed a second time, which throws (C134_violated_twice, C134_twice_witness). C134_partial: holds for every truthful frame with two dimensions that is not compressed, on every way on which the gap fill plugins are configured (two numbers for grid and chip, gaps that are not negative, lengths that are ints, an enlarged image of at most the limit; a configuration for another image size is allowed, and drops the frame) and nothing is done to the image after its compression. Not covered: compressors that the library does not have, which throw at configuration (BloscPlugin.cpp 160-183), the file writer (C129), exceptions of memory allocation, and the metadata channel.
* C135: False of the code: a packet that comes after its frame has timed out (and after a packet of another frame) opens the frame a second time; when that times out too, it is written over the first, with zeros for every packet that had been in the file (C135_violated, C135_overwritten). A frame with a number of 2^31 or more is not written at all: its number is converted to int before the offset is checked (C135_large). C135_partial: every byte of the frame handed on last with its number, which is below 2^31, is in the file, at the place of its number plus what plugins add to its offset, as it was sent, and zeros are for the packets of it that did not arrive; nothing fails on the way (C135_packet says the same for a packet; C135_frame for the image before the plugins). C135_whole: without time-outs and with as many buffers as frames nothing is lost at all, in whatever order packets come. C135_simulated: after frames of the simulator (C44) pixel i of every frame of this process in the file is i modulo 2^16. C135_dropped: a frame a plugin keeps to itself leaves the file as it is and does not disturb the next. C135_gaps: with a gap fill plugin on the way, after plugins that keep the image, every byte of every pixel of the detector is in the file at the place its layout gives the pixel, and the gaps are zero. C135_files_partial: the same with several files (blocks_per_file not zero) and adjusted offsets, for a frame none of whose predecessors goes more than one file further; C135_too_late: a frame that comes after one at least two files further is not written at all, although its file is there (C135_files_late is such a run). Not covered: datasets with several frames to a chunk (C132).
* C136: False of the code. C136_stale, in every reachable state: the flags that ask for a reconfiguration are never cleared, so any configuration message that is obeyed makes decoder, memory and thread anew; the processor is told a second later, and reads every frame announced before from the old memory, in which it is not. C136_unlinked, in every reachable state: a message that takes the type of the decoder back to "unknown" keeps the decoder, which lets go of the old manager only after the new one has been made under the same name; its destructor removes that name, so that no processor can open the memory, and the one that is told of it ends by an exception. C136_violated_early: a processor that asks before there is memory is told the default name and ends; C136_violated_renamed: so does one that is told a name that is replaced before it gets round to it. C136_partial, C136_all: if messages are obeyed only when the processor has caught up, frames come only after it has been told and requests only when there is memory, then no processor fails, every frame is read from where it is, none is lost, and the processor has the memory of the receiver. Not modelled: sizes of the memory (C30), what happens to frames of the old memory that are still held (C46, C86).
* C137: False of the code: once a name is registered the path is not looked at, so the class comes from the library of the first load (C137_violated), even if the one asked for does not exist (C137_violated_missing); so a receiver told of another decoder_path makes its new decoder from the old library. An index in use gets a positive reply and nothing is loaded (C137_violated_index). A library can take over names of another (C137_violated_taken). C137_origin says from which library an object always comes: the one opened last of those that register the name. C137_partial: if no two libraries register the same name, the library registers the name and the index is free, the reply is positive exactly if the constructor does not throw, and then the plugin is the one asked for. C137_refused: a library that does not have the class gives a negative reply and leaves the plugins as they are, if no library opened before has it.
* C138: False of the code: an end of acquisition and the commands of a file writer take no mutex, so they change the acquisition while a frame is written (C138_violated) or while the timeout closes the file (C138_timer_violated); connecting plugins changes the list of callbacks of a plugin that is handing on a frame (C138_connect_violated); six of the nine plugins can be configured while they process a frame (C138_configured_violated), which for the Kafka plugin means that the topic it has just looked at is destroyed. C138_exact gives the complete list: a race of two methods on a member occurs if and only if it is in the table `races`. C138_errors: the messages never race. C138_intact: in the summing, offset, dummy and Blosc plugins only single words and the list of callbacks do. C138_configured: the file writer, the Blosc and the summing plugin are not configured while they process a frame. C138_partial: if control messages come when nothing is processed and no plugin is connected as blocking to this one, the only races left are those of the timeout of a file writer with an end of acquisition, and on the flag of the timeout. What the races lead to (torn values, use after free) is not modelled: C++ gives them no meaning.
* C139: False of the code: parameters are flushed only when another value is written, so the last values of a pause are not seen until the file is closed (C139_violated); the local time is used, so for an hour after the clocks are set back nothing is flushed (C139_clock_violated); a flush that failed counts as done (C139_failed_violated); with the earliest file version nothing is flushed, as is documented by HDF5 (C139_earliest_violated). C139_partial: if the clock is not set back and flushes succeed, then after each write all that was written a second (and the millisecond that is cut off) before it is seen. C139_frames: a frame is seen at once. C139_closed: after closing all is seen.
* C140: False of the code: the length of the Ethernet frame is used instead of the one in the UDP header, so padding becomes data (C140_violated, C140_padded); the length on the wire is used instead of the captured one, so bytes are read that are not there (C140_truncated_violated); the protocol is not looked at, so ARP and TCP packets are replayed as packets of the detector (C140_arp_violated, C140_other_violated); a file that begins inside a frame indexes an empty vector (C140_start_violated). C140_partial: if the file holds only the datagrams, in full and without padding, then the frames are stored as they were sent. C140_again: so are the frames the simulator itself made up. C140_whole: whatever the file, stored frames begin with a start of frame and have no second one. IP fragments are not modelled (each is taken for a datagram).
* C141: False of the code: for -1 nothing is sent, whatever the file (C141_violated, C141_all_violated): the option has a default, so the branch that takes all frames is never reached, and the loop compares with -1. C141_partial: numbers that are not negative are obeyed (a packet gap of 0 divides by zero, see C82). C141_once: a file captured in full without padding, replayed once, gives the captured datagrams in their order.
* C142: False of the code: the handlers are installed before the controller is made, and its pointer is not tested, so an early signal dereferences a null pointer (C142_violated), as does a second one after the destructor of the application (C142_twice_violated); a signal between the test of the flag and the wait is not noticed until a message comes or an hour is over (C142_lost_violated); a signal handled by the RX thread ends that thread and sets the flag, but the main thread goes on waiting (C142_thread_violated; Linux prefers the main thread, POSIX does not promise it). C142_partial: a signal handled by the main thread at any other time ends the receiver within five steps of the main thread, without a wait. C142_goes_on: and no thread waits in vain. C142_hour, C142_timeout: in all cases with a controller the receiver waits for input once more at most, for an hour at most. C142_crash: the two times named are the only ones at which a signal crashes it. The processor has no handler for these signals and is ended by the system.
* C143: False of the code: an end of acquisition says nothing about which acquisition has ended. If the last frame of the first acquisition arrives and the second is configured, then the second is started at once, and the end of the first, coming next, stops it (C143_violated); all frames of the second are then dropped (C143_lost). C143_partial, C143_closed: if the acquisition still runs, its end ends it, closes its files and starts the next one. C143_idle: without a running acquisition it does nothing.
* C144: False of the code, as ends of acquisition and commands take no mutex: an acquisition is stopped twice by its end and by a command (C144_violated); the timeout and the end of one acquisition end also the next (C144_next_violated); a command to start during the end of an acquisition makes the configured acquisition disappear and starts one without a name twice (C144_lost_violated). C144_held: frames, timeouts and configurations alone, of any number of threads, keep the order. C144_partial: so do all methods if none begins during another. C144_idle: while nothing is written, the end of an acquisition and the timeout start and stop nothing. C144_end: an end of acquisition that nothing interrupts stops the acquisition and starts the next one exactly if that is configured and has another name; C144_stop: a command to stop starts nothing. C144_mutex: at no time are two threads in methods that take the mutex.
* C146: False of the code: the room for a string, 2 + length * 6, is computed in 32 bits, so a string of 715827883 bytes reserves room for four characters and runs out of the buffer (C146_violated, C146_long); whether an assertion stops it depends on RAPIDJSON_ASSERT. C146_partial: it holds of all documents whose strings are at most 715827882 bytes long (short_iff). That what dtoa writes has at most 25 characters, none of them NUL, is a hypothesis; C148_reserved proves it.
* C149: The code violates the full statement: odin-data parses without kParseFullPrecisionFlag, and 970166.4882681987 is read as the next larger double (C149_violated); about one in five random doubles is affected, so a value that is sent in a configuration and read back from the status may differ. Partial: if the digits of the text, without the point, are below 2^53 and the last one counts 10^-22 to 10^22, reading gives the nearest double (C149_read, for all JSON numbers, also those not written by this code), hence the double that was written, and a document of such doubles and integers survives (Okay, the hypothesis of C116_doubles). The model was compared with an independent emulation on 360 numbers.
* C153: The code violates the full statement: with parameters at `a/0` and `a/x` the first makes an array, the second replaces the array by an object, and the first parameter is lost (C153_violated). Partial: paths that do not differ first in an index and a name, without a part `-` and with indices below 2^28; a second container of the class is then equal after the update (C153_update). Parameters that the document does not have keep their values without an error (C153_missing); a value of the wrong type ends the update in the middle (C153_stops). This replaces the simplification of C52, where all parts of a path are names.
* C154: The code violates the full statement. The processor swallows a std::runtime_error of a configuration and runs on; both applications ignore a reply that refuses a configuration. The simulator ignores what parse_arguments returns: it ends with status 0 if the library or the plugin is missing, with status 1 after --help and --version, and after a detector option that is given twice it simulates with the options up to there (see C200). Partial: the controller is constructed, exceptions are std::exceptions, no configuration is refused in a reply or swallowed, and for the processor the file is an array (see C78); for the simulator, a possible simulation is made and ends with 0.
* C155: The code violates the full statement. The TCP thread sets SO_REUSEADDR to the size of the buffer instead of SO_RCVBUF. The UDP thread only logs that the operating system gave it less than the 30000000 bytes of the default. A ZeroMQ endpoint that is refused throws in the thread, where nothing catches it. A decoder of another kind than the thread is cast to null, which is dereferenced when data arrives (C155_decoder_violated, for all configurations). Partial: a decoder of the kind of the thread; for UDP a buffer within the limit, for TCP and ZeroMQ the default buffer, and for ZeroMQ endpoints that are accepted.
* C156: The code violates the full statement: send_packet binds the socket of the simulator to the address it sends to. On the same machine, if no receiver runs yet, this succeeds: the simulator is sent its own packets and no receiver that uses the port comes up while it runs (C156_taken, for all ports). Partial: the receiver is on another machine, or listens when the first packet is sent. The port that the operating system gives the simulator is assumed to be none of those used.
* C158: Violated. (a) get_value of a string (ParamContainer.cpp:273-276) refers to the characters of the parameter, so a document that was encoded changes, or is left dangling, when the parameter is assigned or the container is destroyed. (b) The elements of a vector are allocated with the document of the container (ParamContainer.h:237-252), and a document parameter with its own allocator. (c) copy_params (IpcMessage.cpp:439-450) copies with the allocator of the message, so the copy dies with it, and dereferences null if the path leads nowhere. (d) get_param of a reference with a slash in the name (IpcMessage.h:154-155) returns a reference into a message that is local to the function; it is reached, for example, by a configuration with a dataset "a/b" beside a dataset "a" with a member "b" (FileWriterPlugin.cpp:294). Proved: deep copies by the events of Accept and the stack of GenericDocument are right for all values; the content is right while the container or message lives; numbers and booleans need nothing; what is put into a message needs only the message if no string of it is by reference.
* C16: False of the code: lock order inversion between process_frame (close_file_mutex_, mutex_, then start_timeout_mutex_) and the timeout thread (start_timeout_mutex_, then the others); two witness schedules, and one with configure. Proved when the timer is only requested while its thread waits to be started and no message starts it.
* C160: Violated: the frame number is an int on the way to the processor, negative from 2^31 on, and the release notification carries it as an unsigned number of 64 bits. The log statement of level 2 in handle_frame_release_channel asks for it as an int, which throws; the handler reports an error in the decoding of the message and the release is neither forwarded nor counted, so every buffer of such a frame is lost (C160_lost), and the receiver runs dry. Below that level, and for the first 2^31 frames, the buffer comes back (C160_partial).
* C161: Violated: the map is taken as complete when it is not empty, so a thread that comes while another one inserts the names finds some of them missing, and a valid message is refused as illegal or sent with the type "illegal". In the frame receiver the receiver thread encodes its first message after it has let the main thread go on (FrameReceiverRxThread.cpp:159-162), and the main thread may then decode its first control message. What holds: an answer is the right one or "illegal" and never another entry, `at` never throws, and a thread that begins before the first or after the last insertion is right. Each access is one step; that concurrent access is undefined behaviour in C++ makes it worse and is not modelled.
* C162: Violated: numbers of buffers are not checked when they arrive, and what get_buffer_address and the constructor of SharedBufferManager throw is not caught. A processor that still holds a frame of a larger memory when the receiver is configured with a smaller one ends the receiver when it releases that frame (C162_late); in general any release with a number that is not that of a buffer does (C162_release). The processor ends by a frame in memory it has not mapped yet, and by a name that does not exist (C162_processor). What holds: if numbers and names fit to what the one that gets the message has, no text ends a program, whatever else is in it. That another exception than IpcMessageException ends the program follows from the handlers and the event loop, which catch nothing else.
* C163: Violated: an escape for the second half of a surrogate pair that does not follow a first half is accepted and becomes three bytes that are not UTF-8 (C163_low; a first half without a second one is an error). Everything else holds: C163_read and C163_write for all strings, C163_partial for all texts in UTF-8. The encoding of the specification is that of the Lean library (String.utf8EncodeChar), the grammar is that of RFC 8259 over characters. Texts that are not UTF-8 are passed through without a check (the default flags do not validate), which the model does too.
* C164: Violated: the constructor of EndOfAcquisitionFrame hands its own member meta_data_, which does not exist yet, to the base class to be copied from, so frame number, data type, compression and offset of every such frame are read before they are set (C164_eoa; the plugins of the code do not use these values); the copy of a frame has no data size (C164_copy) and an assigned frame keeps its old one (C164_assign). What holds: without those frames every answer but the size is right through all copies, and the size is right without copies of whole frames; parameters are given as the type they were set with and as no other; validity is that of data type and compression. An adjusted offset must stay in 64 bits.
* C165: Violated: of the places that take memory by hand only get_buffer of the Blosc plugin (which nothing calls) looks at the answer and acts on it. A data block without memory keeps a pointer that was never set (C165_block, C165_drop), one that could not be resized keeps the pointer to the memory it has returned (C165_resize); both write an error to the log and go on. The others write to a null pointer (C165_null). What holds: as long as there is memory, nothing is undefined, and the memory taken is exactly that of the objects. That posix_memalign leaves the pointer alone when it fails is what glibc does; the standard says less. An exception between malloc and free in insert_gaps (std::bad_alloc of the new frame) would leave its image behind and is not modelled.
* C166: Violated: the number of bytes received is passed to the decoder by both calls and used by neither. A datagram one byte short leaves a byte of the frame that was in the buffer before (C166_violated); one shorter than the header, or a call that fails, is taken for the last packet once more and completes a frame of which packets are missing (C166_empty); as the first of all it makes the decoder read memory that was never written (C166_first). C166_headed: if every datagram has a header, the bytes of each packet are those of one datagram for it as far as that goes. C166_partial: true if every datagram has a header and a payload of the size of packets, or more (what is more is cut off, C166_long); for frames that time out it is true of the packets marked as received. That the condition on duplicates cannot be dropped is C33_violated.
* C167: Violated: enqueue_frame looks at the topic before it takes the mutex (lines 375 and 380), so a configuration in between that the library does not take leaves it with a null pointer, which is passed to rd_kafka_produce (C167_violated; C167_when says that this is the only way). C167_partial: true if configurations that the library refuses come when no frame is between the look and the mutex.
* C168: Violated: a delivery that fails is written to the log and counted nowhere (C168_violated), as are messages that the flush of one second does not deliver when the servers are set again (C168_dropped); an acknowledgement after a reset counts a message that is not among those sent (C168_reset). C168_ledger: without resets, sent = acknowledged + in the library + failed or dropped, modulo 2^32. C168_partial: the statement, if none failed or was dropped.
* C169: Violated: the counter of indices belongs to all pools, and each pool has a mutex of its own; of two threads with frames of two sizes one can set the counter back, and then two blocks of one pool have the same index (C169_violated, C169_same_pool), and the map of used blocks forgets one that is in use (C169_forgotten). True if only one thread at a time constructs blocks (C169_partial), in particular if frames of one size only are made (C169_one_pool, C169_mapped_partial). Harmless: whatever the indices, no block is handed to two users or lost, and the numbers of free and used blocks are right (C169_sound), because frames and the free list hold pointers and the map is never read.
* C17: False as stated: with more than one process and chunks of several frames the dataset of a file can be too small (C17_violated). Proved for one frame per chunk, and for one process with any chunk. The arithmetic above is exact; the code computes this size with int and 64 bit numbers. C17_frames: the two agree if the frame counts are below 2^31; beyond, the product of ints is undefined behaviour (C17_int_ub, C17_machine_violated).
* C170: Violated: a packet that sendto refuses counts as sent, and its result -1 is added to the bytes (C170_violated; in general C170_reported). The sums are of type int, so that from 2^31 bytes on the behaviour is undefined (C170_overflow); with the default options, 1000 frames of 1400 times 1024 pixels, every complete run is of this kind (C170_default, from C170_simulated). True if no call fails and the sums fit (C170_partial).
* C171: Violated: the numbers are compared as texts, so that 01 drops nothing, and neither does a number with a space before it (C171_violated, examples). True for numbers as they are usually written (C171_partial, with the replay of C82 C171_replay). Nothing is dropped that is not listed, whatever the text (C171_only).
* C172: Violated: while nothing is written, frames end at the file writer (C172_violated, C172_idle), and so do frames of other acquisitions (C172_foreign); a live view behind it shows nothing then. C172_exact: passed on are exactly the frames handed to an acquisition, if nothing throws; so while one is written all its frames are, the invalid ones and those of other processes too (C172_partial).
* C173: Violated: if the thread has just found timeout_thread_running_ set (line 922) when the destructor clears both flags, it sets timeout_active_ again, misses the notification and waits for the whole timeout period, holding the mutex the destructor needs (C173_violated). C173_partial: at every other moment the timeout need not expire. C173_ends: in all cases the destructor ends (number of steps bounded but for spurious wake-ups, and never stuck), and C173_joined: the thread has ended before the members go.
* C174: Violated: start_condition_ is waited for without a predicate. A spurious wake-up arms the timer and, after the timeout period (0 unless configured), stops the acquisition that is being written (C174_spurious, C174_violated). A request made before the thread has reached its first wait is lost for good (C174_lost). Proved without spurious wake-ups (C174_partial) and once the thread has been waiting (C174_arms_partial).
* C175: Violated: the old endpoint is given up before it is known whether the new one can be bound. If a new control endpoint cannot be bound the command is refused, and a second later the timer unbinds the old one: the receiver cannot be reached any more (C175_unreachable). This happens without any fault of the system if the endpoint is changed back within the second, as the old one is then still bound (C175_back). The other channels lose their endpoint at once, it is still reported, and sending it again does not bind it (C175_dead). Proved as long as no command has been refused (C175_partial).
* C176: Violated: the status shows the last message of the receiver thread, so the old values are still there after the reset has been acknowledged (C176_stale), and a message on its way brings them back (C176_on_the_way); the counters belong to another thread and are reset without a lock, so that a reset in the middle of an increment is lost (C176_lost); frames received before and released after the reset are counted as released only (C176_released). Proved: once a status sent after the reset has arrived, and unless the reset came in the middle of an increment, the value is exact modulo 2^32 (C176_partial), and without a reset frames received are those released and those still out (C176_frames); after a reset the frames received are counted from there, and the released ones are these and those that were out then (C176_since).
* C177: Violated: reset_statistics of the TCP decoder also resets the number of its buffer, so that the next frame goes to buffer 1 again, or to buffer 0 if the reset comes in the middle of choosing the buffer, whatever is in it (C177_tcp). Proved in full for the UDP decoder (C177_udp: same frames, same buffers, same queues); for the TCP decoder the same frames are stored in the same order, in other buffers (C177_partial). Both with resets between packets and in the middle of them, before the payload is stored or afterwards; a reset in the middle of a tick of the buffer monitor is one after it. For the counters themselves see C176.
* C178: Violated: any name is acknowledged, and every name but five makes a dataset of unsigned 16 bit numbers (C178_violated, C178_unknown); its frames are then refused, while parameters of 16 bits are stored. Proved: for the five names the type, its size and the fill value are right (C178_partial); the filter is the one named, and there is none for a name that is not known (C178_filter_partial); whatever was configured, an accepted frame has the type, the element size and the filter of its dataset (C178_frames_partial), and a stored parameter the type of its dataset (C178_params_partial). Filters are only named.
* C179: Violated: the frame count is reported as "frame_count" and read as "frames", so it is not restored (C179_violated). Proved: everything else is, and for the decoder exactly what the first one reported is stored (C179_partial); a decoder in whatever state initialised with it is configured like the first (C179_decoder_partial), for values that were accepted: a packet size over the limit is refused but kept, and then reported (C179_refused_value). The report is accepted if the calls of the surroundings succeed, the kind of reception is known and there is a path (C179_accepted). Only the UDP decoder; the TCP decoder reports a frame size that it does not read.
* C18: False as stated: the bound check is skipped when the maximal offset is 0 (and it compares frames with chunks). Proved when the extent is at least two, and when the HDF5 library itself rejects out-of-extent writes. C18_refused is for geometries whose products fit 64 bits. The code puts the last offset into an int: C18_machine: this makes no difference up to 2^31 frames; beyond, frames outside are let through, and from 2^32 + 2 frames on frames inside are refused (C18_machine_wrong, C18_machine_violated).
* C180: Violated: id and time stamp are not compared, although the comment in the code says all fields are (C180_violated); -1 equals 18446744073709551615, because the bits are compared (C180_sign); integers above 2^53 equal the doubles next to them (C180_rounded); with two members of one name the comparison is not symmetric and a message may differ from itself (C180_twice), as it does with the character zero in a name (C180_zero). C180_partial: type, value and parameters are compared rightly for messages without such names whose numbers are all signed, all unsigned, or below 2^53 and doubles; C180_refl, C180_symm. Consequence for the frame receiver: a changed configuration of the decoder is noticed (C180_noticed) but for these exceptions (C180_overlooked).
* C181: Violated: hdf5_error_definition_ is declared after current_acquisition_ and so destroyed before it; a file still open is closed by the destructor of the acquisition, which reads the definition through a reference. A file is open without the writer writing if HDF5 refuses a dataset of the first file (C181_violated) or a closing failed (C181_not_closed), and this is the only way (C181_exactly). C181_partial: true if neither has happened; C181_last: true if the last start was good and was not followed by a stop; C181_order: with the definition declared first it would always be true; C181_thread: the timeout thread uses only members declared before it. C181_both: if the previous file cannot be closed, the current one is left open as well. That closing a file a second time fails again, and so ends the program, is left out.
* C182: Violated: the overload with a default does not split the name, so every nested parameter reads as the default (C182_violated, C182_nested), and a member with a separator in its name is found only here (C182_separator). C182_partial: true of names without separator, as all names in the processes are; C182_absent: without parameters it is the default; C182_no_object: parameters that are no object raise an exception, and only those; C182_int: the integers read in the processes, with an exception for another type and for more than 32 bits.
* C183: Violated: the time of the sending is measured with time(), in whole seconds, so it counts as 0 unless a second begins meanwhile (C183_longer: it is then added to the interval) and as a second or more otherwise (C183_shorter: intervals up to that are dropped). C183_partial: the interval is wrong by at most a second plus rounding. C183_valid: the float arithmetic gives nanosleep a valid time within 61 ns; C183_long: waits of 2^31 s and more overflow int. C183_run: the same for each frame of a run. nanosleep is taken as exact and uninterrupted.
* C184: Violated by every plugin with more than one parameter: they are set one after the other, and those before the wrong one stay set (C184_violated for the dummy plugin, C184_others). Single parameters can do harm too: servers that are no text destroy the Kafka producer (C184_kafka), a grid size that is no list empties the grid, after which every frame is undefined behaviour (C184_gap), and a list with a wrong element becomes one with zeros (C184_list); at debug level 1 the log message about a grid of fewer than two numbers reads outside of the vector (C184_ub). C184_partial: true of the offset plugin, and of the dummy, Blosc and live view plugins if the message has only one of their parameters. C184_exactly: in general, what the parameters before the wrong one set, and what this one does. C184_accepted: accepted configurations are those of C108 to C112. C184_defined: nothing is undefined without debug messages.
* C185: Violated: parameters are set one after the other, so those before the wrong one stay set (C185_violated). A path that is no directory gives an error but the rest of the message is taken over, so that the next files go to the old path under the new name (C185_path). The definition of a new dataset that is refused leaves a dataset without dimensions, and creating the next file indexes its empty list of chunks (C185_dataset). C185_partial: after an exception nothing has changed if the message has one parameter (alone, or in the part process or file), or configures one dataset that exists. C185_writing: while writing, no message changes number of processes, rank, frames per block or blocks per file, even if it fails half-way. C185_accepted: accepted messages do what C114 says. The number of frames of the process is not modelled.
* C186: Violated. Settings before the wrong one are kept (C186_violated), also a decoder that cannot be loaded, so that commands which were accepted before are refused from then on (C186_kept). Worse, as the decoder is always loaded again (C36), a receiver at work that gets ports of the wrong type and nothing else has given up its decoder, memory and thread before it refuses: it receives nothing any more, although its settings are the same and it is still reported complete (C186_down). In general, no thread is left after a refusal that comes when something has been set up anew (C186_stopped), and the reported completeness never changes (C186_complete). What holds: a refusal before that leaves decoder, memory and thread (C186_partial); one parameter of the wrong type, other than the decoder configuration, leaves the settings (C186_sole); if the stored settings can be set up, the next command brings the receiver up, even one without parameters (C186_again). Exceptions that end the program are the subject of C38 and C162.
* C187: Violated: names are not checked when a plugin is loaded. Under the name of a setting of the controller no configuration is accepted (C187_violated, C187_setting; C187_types: each setting of the controller is refused with a value of another type, and no plugin sees the message, nor if a setting is refused for what it says, C187_unapplied). A name with a slash is taken for a path: what is sent under the name is acknowledged and reaches nobody (C187_slash), and a part of the configuration of another plugin reaches it (C187_nested). If one of several plugins refuses, those before it in the alphabet have their new configuration and the others have not (C187_half). Proved for names without slash and messages without settings of the controller: each plugin gets its part once, up to the first that refuses, and the message is accepted exactly if all accept (C187_partial, C187_one; C187_loop for the loop alone). What the settings do is the environment; what a refusing plugin keeps is the subject of C184 and C185.
* C188: Violated: where an endpoint can be bound once, every processor refuses its own report, whatever was sent to it before, and its plugins do not see it (C188_violated, C188_own, C188_refused): the control endpoint is bound again although it has not changed. Another processor accepts the report although the plugins are not loaded there, and their settings are lost: the report does not say which plugins are loaded, nor how they are connected (C188_unloaded). The report of a processor without a frame receiver has empty endpoints; a processor that is sent it drops its own connection before it finds that, refuses, and goes on reporting the endpoints of the connection that is gone (C188_lost). Proved for another processor with plugins of the same names, where the endpoints can be bound and connected to: it accepts the report, has the same endpoints and settings of the plugins, and reports the same (C188_partial). If a plugin refuses its part, the report is refused with the endpoints and the plugins before it changed already (C188_half); a setting with only one of the two endpoints of the frame receiver is passed over without an error (C188_single). Each plugin is one value; what the single plugins do with what they report is in C108-C114. ZeroMQ is the environment; an ipc endpoint can be bound a second time, which takes it away from the first socket.
* C189: Violated: the number in a name has six characters, so that from one million on (the starting index counts) ten files have the same name; a process that starts empties the file of another (C189_violated, C189_lost). Without file numbers all processes have one file (C189_unnumbered). C189_partial: below one million every file of every process is as if it were alone, also if other processes end with an exception. C189_frames: so every byte of a frame that comes to the process it is for is in the directory, under the conditions of C135_files_partial for this process and none for the others; C189_one: there is exactly one process that a frame is for. Locks of HDF5 on files are left out, as is a file that is deleted or moved while it is open.
* C19: False of the code for one dataset: rows are 64 bit numbers, so with chunks of eight frames frame 2^61 is stored over frame 0 (C19_violated); and after a failed H5Dset_extent a chunk is accepted that reaches over the extent (C19_violated_extent). C19_dataset_partial: for frames whose rows fit 64 bits the extent never shrinks, everything stored is inside it, and every slot holds what was stored last, whichever library calls fail; if no extension fails all rows of accepted frames are inside. For whole acquisitions (model Acquisition, rows of any size, extensions that do not fail): room for each accepted frame is unconditional; extents growing and all stored values staying inside and readable is proved for runs in which no H5Fcreate fails (after such a failure files are truncated, C04_violated).
* C190: Violated: commands and ends of acquisitions are handled without the mutex of the writer, and the mutex of HDF5File is one per file. The command that starts the next acquisition creates its file while the worker thread still closes the last (C190_violated); so does the end of an acquisition while the timeout closes the file (C190_end). Two file writers in one process have nothing in common that would keep them apart (C190_two). C190_file: two threads are never in the library with the same file object. C190_cause: two threads in the library are of different writers, or one of them handles a command or the end of an acquisition. C190_partial: with one writer, while neither is handled, there is one at a time. C190_returned: no thread keeps a mutex when it is done; C190_live: of these mutexes no deadlock comes (start_timeout_mutex_, left out here, is another matter). A library built to be thread safe is not affected.
* C191: Violated: the results of H5Acreate2 (lines 524, 531) are not checked, so the report is of the H5Awrite after it, and why the attribute was not made is lost (C191_violated, C191_attribute). Also, the constructor of the first file object copies the entries of the stack as it finds it; if something else in the process had met an error before, and H5Eset_auto2 does not empty the stack, the texts of those entries are freed with the next call and read with the next error (C191_stale). C191_partial: with neither of these every report is as it should be, whatever errors were before. C191_next: so it is after a report, even of the first object. C191_close, C191_attributes: if nothing can be written to an attribute that was not made, no failure goes unreported: the first failed call is reported, or the one after it. One thread; H5Eset_auto2 and H5Ewalk2 do not fail.
* C192: Violated: the type is put into the name as it is, so a type with a slash in it, which a client may send, is looked for in another directory (C192_violated, C192_elsewhere). C192_partial: with no slash in the type the library is in the directory and has the name of the type. C192_slash: the slash at the end of the path makes no difference (to the library; the decoder is loaded anew all the same, since the paths are compared before). C192_distinct: different types never share a library or a class. C192_empty: an empty path is undefined behaviour, the character before its first is read. What the class loader makes of the name is C137.
* C193: Violated: init of the TCP decoder is empty and does not call that of the base class, so every message is accepted, whatever the types of its values, and nothing of it is taken over, while the receiver keeps the message as the configuration of the decoder (C193_violated, C193_tcp). C193_partial: the UDP decoder has the settings of every message it accepts; C193_limits: and these are within its limits. C193_memory: the TCP decoder asks for buffers with room for five frames each and puts one in each, so the shared memory holds a fifth of the frames there is room for.
* C194: Violated in its second half: the parser of boost does not compare hours, minutes and seconds with 24 and 60 and takes a minus sign, so 2026-01-01T99:99:99 is a valid time stamp four days later (C194_violated) and 2026-01-01T-10:00:00 one of the day before (C194_before). C194_partial: what is written is read back exactly, with the calendar proved for all days (calendar), C194_distinct: no two times have the same text. C194_messages: the round trip of a message through its text (C62, C118) with these texts, without the assumption on time stamps that C62 and C118 have. C194_no_clock, C194_day: a text without T, or one with a day that is not in the calendar, is refused. The functions of boost are not in the repository and are modelled from its published sources; names of months and locales are left out, and the 64-bit overflow of very large hours is not modelled.
* C195: Violated in its first half: the controller deletes the pools in its shutdown, and a frame that is destroyed later is given back to a new pool, which has counted no block: it then reports 2^64 - 1 blocks in use, with one free block and none in all (C195_violated, C195_wraps). C195_counter: the counter is too low by the blocks that were in use when the pools were deleted; C195_partial, C195_exactly: it is right if and only if there were none. C195_exclusive: no block is handed to two users all the same. Histories are sequences of whole operations; the schedules within them are in C100 and C169.
* C196: Violated: the handler calls exit, which destroys the static objects, the last one made first. That is the context of ZeroMQ, made with the first channel, and not the controller with the channels, which would be destroyed by the application in main, but main is not left. Destroying a context waits until its sockets are closed: as long as there is a controller a program with a fault hangs after its trace, or, if another thread polls, that one gets an exception and calls exit a second time, which is undefined (C196_violated, C196_running). C196_order: with the objects made in the other order it would end. C196_exactly: it ends properly exactly if no channel is open and no destructor faults or needs a lock that is held; C196_partial: so before the controller is made. C196_line: the line is always written, with its own name and number. C196_again: faults in destructors. C196_terminate: exceptions that nobody catches take the same way. What ZeroMQ does is taken from its documentation, what exit does from the standard.
* C197: Violated twice. A plugin may be connected to itself, or plugins in a cycle; their callbacks are shared pointers, shutdown clears the map of plugins but not the callbacks, so they keep each other alive, with the channels of their meta data, and the context of ZeroMQ waits for them at exit (C197_violated, C197_cycle). And a file writer holds the controller: after an exception in the configuration run is left without shutdown, the application releases its pointer, and controller and writer keep each other; the destructor that would call shutdown, as its comment says, is never called (C197_exception). C197_partial: after shutdown all is destroyed if the plugins are connected without a cycle. C197_without: without a file writer an exception is as good as shutdown. left_exactly: what is left are exactly the sets of objects held from within. Not modelled: threads of plugins that still hold a frame, plugins called controller, the null pointer of disconnectPlugin without a shared memory controller.
* C198: Violated: the limits of the channels are those of ZeroMQ, a thousand messages, and PUB and ROUTER sockets drop what does not fit. With more buffers than that, a processor that does not read for a while (its reactor waits in the work queue of a plugin, C28, C102) loses frames, and the buffers of these frames are never used again (C198_violated; C198_lost for every limit and every number of buffers above it; C198_for_ever). C198_partial: as the messages on the way are about different buffers, nothing is lost, whatever happens, if the buffers and the other messages in a pipe fit into it; C198_no_wait: nor does the thread wait then. C198_conserved: every buffer is always in exactly one place, or lost. C198_counted: a frame that is lost is counted as received. What the sockets do is taken from the documentation of ZeroMQ. Threads that are stopped and started are in C86 and C87; messages lost before a subscriber is connected are not modelled here.
* C199: Violated: no thread is ever given a name, so all threads of a process have that of the first one, and the field "thread" is the same in all lines (C199_violated, C199_thread). The thread of the receiver writes its first line before its context is set, from level 1 on (C199_before); the simulator never sets one (C199_never). A name of a host with 64 characters, which Linux allows, loses the last one (C199_host). The controller of the processor asks for the user while the thread that it has made does so as well, with a function that returns a static buffer (C199_race). C199_partial: whatever a thread writes after it has set its context has host (of less than 64 characters), process, program and user, whatever happens in other threads; C199_app: the program is the last component of its path, for every path. That contexts belong to threads and are empty at first is taken from log4cxx, that names are inherited from Linux. Not modelled: the layout of the lines.
* C20: C20_partial: with the arithmetic of C++ a configured plugin with non-negative gaps is exact whenever the new image has fewer than 2^31 bytes (and pixels). Without the bound it is false: the lengths and offsets of insert_gaps are ints, although the frame can be larger; with 2^31 pixels the product of the lengths overflows (C20_pixels, C20_violated), and with 30000 x 30000 pixels of 4 bytes the offset of row 20000 becomes negative and the copy leaves the image (C20_bytes). C20_exact is the same for every size with unbounded numbers. Before configuration and with negative gaps the code is undefined (the two _ub theorems).
* C200: Violated: parse_arguments catches all exceptions and main does not use its result, so what was stored before an exception is simulated. An option given a second time is refused by boost with an exception: all that follows is ignored, and the frames are sent with the settings up to there (C200_twice, for all lines; C200_violated: 1000 frames instead of 10), or the program is terminated by a second exception if the ports are not among them (C200_twice_ports). C200_partial: with known options, each once with a value that can be converted, and the address, the settings are those of the line. C200_wrong: with a value that cannot be converted, and no option twice, nothing is sent; C200_unknown: nor with an unknown option, though the exit code is 0. boost::program_options is taken from its sources as described in the model. Not modelled: abbreviated names, and the generic options of the first parser.
* C201: Violated: with fraction 1 a packet is sent all the same when rand gives RAND_MAX, and only then (C201_all), so the share is not the fraction (C201_violated); a gap of 0 divides by zero as soon as a packet is sent (C201_zero). C201_partial: for every fraction from 0 to 1 the number of draws that leave a packet out is that of the fraction within one of 2^31; C201_ends: nothing is left out for fractions up to 0, everything above 1. C201_frame: for every other gap, also negative ones, packets and pauses are as stated; C201_order: a pause comes directly behind the packet it counts. The quotient is taken to be exact, while the code rounds it to a double. That rand gives all numbers equally often is not part of the claim.
* C21: False as stated for images of 2^31 bytes and more, because the image size is an int (C21_violated, C21_large_ub). Proved below 2^31 bytes.
* C22: Proved, with the exact dependence on the order of names, unless the sum of the (signed) frame number and the adjustment overflows, which is undefined (C22_violated).
* C23: False as stated: the count is a static variable shared by all live view plugins (C23_violated), wraps after 2^31 frames (C23_single_violated, C23_overflow_ub, and C23_remainder_ub for frequency -1), and the period is cut to milliseconds (C23_rate_violated). Proved for filtered datasets, for a single plugin, below 2^31 frames, and for rates dividing 1000. C23_negative: a negative frequency acts as its absolute value.
* C24: False as stated for the empty acquisition id and for compressors missing from the library; 0 threads are accepted. Proved for non-empty ids and available compressors; ranges of level, shuffle and compressor are unconditional; C24_values says what is stored for each value sent.
* C25: False as stated: a header of exactly 65535 bytes gets length 0 (C25_violated), and the whole data block is sent rather than the image (C25_violated_image). Proved for shorter headers and frames whose image is the block.
* C27: False of the code: the copy constructor shares the block and both destructors release it. Proved for histories of construction, writing, assignment between frames of one size, and destruction.
* C29: False of the code: with 16 producers one consumer can sleep on a full queue for good, because producers and consumer share one condition variable (C29_violated). Proved for one consumer and fewer than 16 producers.
* C30: Proved for a region as created and processes attached to it since. False when a second manager is created under the same name while a process is attached (C30_violated), even if that creation is refused (C30_violated_refused), and for memory sizes whose sum with that of the header wraps at 64 bits: they are accepted, and every buffer is outside of the mapping (C30_size_violated).
* C31: False of the code: a late packet of a frame that has just timed out is written to the buffer already handed on, and completes it a second time (C31_violated); also for frame number 0xFFFFFFFF and after reconfiguration. Proved for all other histories.
* C32: False of the code: the packet number is never compared with the size of the array or buffer, and frame number 0xFFFFFFFF as first packet uses a null pointer. Proved for packet numbers of the frame and other frame numbers, after every history.
* C33: False of the code: duplicates are counted (C33_violated). Proved, with payloads, without duplicates and packets of frames that have just timed out.
* C34: Packets and timed-out frames are counted exactly in every history. Dropped frames and lost packets are not (C34_violated, C34_violated_lost, C34_violated_wrap); proved exact without duplicates, and if no two frames are dropped in succession.
* C35: The age is cut to milliseconds (C35_violated), computed from doubles that hold the time since 1970 to 256 ns (C35_late, C35_soon), and a clock set back is undefined (C35_clock_ub). C35_partial: a frame is handed on from one millisecond after the timeout on and not before, within 512 ns, for clocks between 1970 and 2038 and frames younger than 49 days.
* C36: False of the code: the need_decoder_reconfig flag is never cleared, so every later configure command reloads everything (C36_violated, C36_always). Proved for states in which no decoder has been asked for.
* C37: False of the code: the release channel is not taken into account. Proved for the three others. C37_flags: the flag of each channel is set exactly if an endpoint is stored for it, after accepted and refused commands.
* C38: False of both programs. Receiver: exceptions of the shared memory, an empty port list and one-character decoder parameters leave the handler without reply. Processor: undecodable messages and message exceptions get no reply, runtime errors one without address. Proved whenever the handler returns (receiver) or the command does not throw (processor), with a sufficient condition for configure commands.
* C39: False of the code: one-character names throw std::out_of_range (C39_violated), possibly after creating the parents (C39_changed), and names ending in [] cannot be read back (C39_brackets). Proved for all paths whose first and last component have at least two characters and do not end in [], with the appending notation treated separately. C39_doc: the same for whole messages, whose params block is made if missing and whose other attributes stay.
* C41: False as stated only for delays near 2^64 ms, where the sum wraps (C41_violated). Proved for clock values and delays below 2^62 ms, over all histories: never early, never too often, silent after removal, and fired exactly as often as requested.
* C42: False for a timer registered by another thread while the loop polls (C42_violated) and undefined for delays of 2^63 ms (C42_ub). Proved for the timers registered when the timeout is computed.
* C43: A text without a valid port gives an empty list, and reporting it throws (C43_violated). Proved for all non-empty lists; every configured port is between 1 and 65535. C43_reading: what strtol with base 0 reads from any text with digits (blanks, sign, prefix, base, end, range).
* C44: False of the code for images that fit into one packet (undefined behaviour) and for packet length 0 (never ends). Proved otherwise, through the decoder: any number of frames, any interleaving of all packets, no timeouts, as many buffers as frames. C44_bytes_partial is the same for the datagrams as bytes, with the receiver of C166 and any old contents of the buffers: the last datagram of a frame is shorter than the others if the packet size does not divide the image, and still all bytes of the image are right; the bytes behind the image keep what the buffer held. With the sizes as int, as the options give them: undefined from 2^31 pixels on (C44_product) and for packet lengths from -8 to -1 (C44_negative); an exception for a negative number of pixels or a smaller packet length (C44_throws); no frames without pixels (C44_no_pixels).
* C46: False of the code: held frames refer to a destroyed channel or unmapped memory after a change of endpoints or buffer configuration, frames announced before the configuration are never released, a timer outlives its controller. Proved when the interface changes only while no frame is held, for any number of holders and any order of dropping.
* C47: False of the code: a duplicate packet makes the counts agree and hides a missing one. Proved for headers whose received count is below the expected one and whose packets fit the frame. A duplicate packet makes the counts agree and hides a missing one (C47_duplicate_hides_missing); more packets than the state array holds is undefined (C47_too_many_ub), as is the 2^31st lost packet, whose counter is an int (C47_counter_ub).
* C49: False of the code: a stored configuration can execute itself. Proved when executions form no cycle.
* C50: False of the code: the wait has no condition, so a request before it is lost and a spurious return shuts down. Proved from the moment the main thread waits. The other half holds: after a whole shutdown further ones change nothing (C50_again), and however many attempts exceptions have cut short, state and effects are those of one that got as far as the furthest (C50_attempts, C50_once).
* C52: False of the code: paths with a leading slash are encoded elsewhere than the update looks, nested paths overwrite each other, strings end at a NUL. Proved otherwise, for any number of bindings of all types. Escapes and array indices in paths are the subject of C152 and C153, JSON text that of C116 and C119.
* C53: False of the code for datasets without chunks and for 0 processes, which the plugin accepts. Proved for at least one process and one frame per block, for every reachable state and frame; false without (C53_zero_processes_ub), and for datasets without chunks, which the plugin accepts (C53_no_chunks_ub). The proof also asks that the products of the geometry fit 64 bits; see C13_product_ub for what happens otherwise.
* C55: False as stated: with an empty path, or a file name equal to the next acquisition id, the restart truncates the file just written. Proved for a set path, unchanged postfix, extension and numbering, and both acquisitions named the same way.
* C57: False of the code: timeout_active_ is never initialised. Proved if it starts as false (locks are the subject of C16).
* C58: False of the code without a topic, when frames are neither sent nor counted, and for headers of exactly 65535 bytes. Proved otherwise, for every sequence of frames and failures.
* C59: False as stated: the configured image size is never compared with the frame. Proved if the image fits the payload, has less than 2^31 bytes, and the counter of lost packets does not overflow. An image of 2 GiB or more that is not copied gets a negative size (C59_large).
* C60: False of the code: assignment does not copy the data size. Proved without copy constructor and for assignments between frames of one size.
* C61: False of the code: the dropping flag set by another frame stays set, and the complete frame times out (C61_violated, C61_timedout). Proved if no frame was refused a buffer.
* C63: False of the code: a one-character name throws. Proved for names of at least two characters without slash not ending in [].
* C64: False of the code after a refused configure command. Proved after every acknowledged one.
* C65: False of the code: the comparison comes after the new path and type have been stored, so the configurations are always merged.
* C66: frame_count_ is not initialised. Proved when a number has been configured.
* C67: False of the code: total_buffers_ and frame_count_ are not initialised. Proved once both are set.
* C68: False in the round in which a channel is removed (C68_violated). Proved relative to the channels registered when the round begins.
* C69: False of the code: a timer callback that registers or removes a timer waits for a mutex held by its own thread. Proved for all other callbacks; ending on request is unconditional.
* C70: False of the code: the worker thread is started before the flag and the reactor are initialised. Proved for schedules in which the worker runs after that.
* C71: False of the code: with the default timeout 0 an uninitialised identifier is removed (C71_violated), which can end the watchdog (C71_dead). Proved once a call with a timeout has been made.
* C72: False of the code: the counter is shared by all reactors without synchronisation. Proved for one reactor.
* C73: False of the code: connecting to a plugin not loaded yet is acknowledged without effect, disconnecting from a frame receiver not configured dereferences null, a change of endpoints drops all connections. Proved for all other histories.
* C75: False of the code for a plugin reached in two ways. Proved for trees.
* C76: False of the code: isWorking is false as soon as a plugin is told to stop. Proved instead: in every history a stopped plugin's thread ends by itself within four steps, so waiting for the thread would be sufficient.
* C77: False of the code: stop lowers the flag before adding to a queue that may be full, and the thread then ends without making room. Proved for queues with fewer than eight frames and no new frames, in every schedule and within 3n+4 steps of the main thread.
* C78: False of the code: a file with a single object is ignored. Proved for arrays.
* C79: False of the code: the count is not initialised, ends of acquisition count as frames, and a count set below the frames already processed is never reached. Proved otherwise.
* C80: False of the code: the thread is started before the pointer it assigns has been constructed; if it is fast the pointer is then set to null and dereferenced (C80_null). Proved for every schedule in which the thread gets its turn after the initialisation of the members. Unsynchronised access to plain variables is not modelled.
* C81: False of the code: 16 bit parameters are cut, and a refused update has changed the parameters before the wrong one and emptied a vector. Proved for successful updates without such values.
* C82: False of the code: packet gap 0 divides by zero, a single stored frame always goes to the first port, a frame all of whose packets are dropped does not count. The order of the packets is proved for all other configurations, the ports without those cases.
* C85: False of the code: a frame count of 0 does not replace an earlier one, so the receiver still stops. Proved for every other configuration; the decoder configuration is the subject of C65.
* C86: False of the code: a receiver thread started while no buffer is empty asks for all buffers, also those in use, and so does one started after the shared memory was recreated; with two processors each buffer comes back twice. Proved for every interleaving when restarts wait for the messages and for an empty buffer or no buffer in use, and the memory is recreated only while no processor uses a buffer.
* C87: False of the code: releases on their way to a thread that is stopped, or arriving before the new thread's identity, are lost, and without a processor all buffers are. Proved for the careful histories of C86.
* C88: False of the code: no frame is ever handed on (C88_never), a closed connection makes the handler loop for ever, an interrupted read loses a byte or throws. Proved: without errors every frame is stored whole, in order, frame k in buffer k+1 mod n (the first buffer used is 1), for every division into reads. C88_few: with fewer buffers in the shared memory than the decoder uses (5), the message for a buffer that is not there is not read, and the handler throws. C88_inside: nothing is ever stored outside.
* C89: False of the code: the comparison with the maximum is written as a shift by 1000, which is undefined whenever the thread is not up at the first look; with the shift taken modulo 32 it gives up after 256 attempts. Proved when the thread is up or has failed at the first look.
* C90: False of the code: after an error the sockets opened before stay open, and no later thread with such a port comes up. Proved for threads that come up. UDP threads only.
* C91: False of the code: an error within the first 14 characters of the file makes the message itself fail with an exception (C91_throws, for every text). The line number is proved right for every text and position; the text shown for errors further on.
* C92: False of the code: durations of 2^32 microseconds (71 minutes) or more are undefined behaviour, and so is a wall clock set back during process_frame. Proved for every pair of readings less than that apart, with the rounding of doubles.
* C93: False of the code: the members are not initialised and are only set by a reset of the statistics. Proved for every sequence with at least one reset. The value called mean is an exponential average that depends on the order (C93_order).
* C94: False of the code: a message of more than one part shifts the attribution of all that follow and makes a handler wait inside recv, with the event loop. Proved for clients that send messages of one part, any number of clients and messages.
* C95: False of the code: float rounding makes within(0x10000) give 0x10000 for the 64 largest values of random(), and sprintf then writes 11 or 12 characters into 10. C95_partial is an equivalence. rnd24_nearest: the rounding used is to nearest, ties to even.
* C96: False of the code: an endpoint bound twice (possible with wildcards) leaves an address that nothing unbinds, and so does an address longer than 255 characters. Proved for every other sequence of bind and unbind.
* C97: False of the code: the frame processor never unbinds its control and meta data endpoints, so it listens on every endpoint ever configured (C97_all). Proved for the first endpoint, after any number of failed attempts.
* C98: False of the code: the size of a part is never compared with the size of the buffer it is copied to. Proved for parts that fit, any number of messages and parts.
* C99: False of the code: messages are sent without waiting and the result is not looked at, so a message sent while the pipe is full is lost and its memory leaked. Proved for every history and any number of plugins: nothing is published twice, out of order, or made up (C99_split); everything is published if no pipe is full when a plugin sends.

## Agreement with the project's own tests

`Verif/Conformance` transcribes assertions of the unit tests in `/repo/cpp/frameProcessor/test` and
`/repo/cpp/frameReceiver/test` as `example`s about the model: block pool, datasets, file index and offset tables,
frame validation, parameter and offset adjustment, sum, gap fill, live view, Kafka, Blosc; shared buffers, IPC
messages, port lists, the hello of the receiver thread, reactor, channel. They are tests of the model, not proofs of a
property, and no claim rests on them. All agree. Left out: tests of the HDF5 library itself, of real sockets, of
logging and of measured time.

## Not modelled

* Logging text, the insides of HDF5, ZeroMQ, Kafka, blosc, boost and log4cxx, the Python control layer, performance. Of the
  command line only what the programs do with the options is modelled, not the parsing by boost.
* Parts of rapidjson that odin-data does not use: schema, regular expressions, other encodings than UTF-8, streams of files,
  the iterative parser, pretty printing (used only to print the configuration), reading with full precision (biginteger.h, strtod.h).
* What an assertion of rapidjson throws: IpcMessage.h:58-61 makes it an `IpcMessageException`, ParamContainer.h:58-61 a
  `ParamContainerException`, and Json.h leaves it an `assert`. All three are compiled into one library, so a function of rapidjson that is not
  inlined has three definitions of which the linker keeps one. The model takes the definition of the header in which the call stands.
* Hardware and kernel: caches, swapping, delivery of signals within a system call other than those modelled in Signals.
