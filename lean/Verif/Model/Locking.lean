/-
Which members of a plugin its methods use, under which mutexes, and which threads call the methods.
Sources: the plugins in /repo/cpp/frameProcessor/src, FrameProcessorPlugin.cpp, IFrameCallback.cpp:108-128,
FrameProcessorController.cpp:287-330, 371-640.

A method is a list of sections. A section says which mutexes of the plugin are held, which members are read
and which are written. The methods run in steps, one step enters the next section; a section that needs a
mutex held by another thread cannot be entered.

Simplifications:
 * Members that are always used together are one field (`geom` for the four process settings, `layout` for
   the four vectors of the gap filling plugin, ...). An object reached through a pointer counts as its pointer.
 * A section holds its mutexes from its first to its last access. The mutexes of a section are taken in one
   step: who waits with some of them taken uses no member in the meantime, and deadlocks are the subject of
   Verif/Model/CloseTimeout.lean.
 * Every section of a method is passed, those of other branches too: the sections list what may be used.
 * Members of the base class that are set once (`name_`, `logger_`), the work queue (own mutex, see
   Verif/Model/WorkQueue.lean) and destructors (Verif/Model/ProcessorRun.lean) are left out, and so is the
   frame counter that all live view plugins share (a static variable, LiveViewPlugin.cpp:63).
-/
namespace Verif.Locking

/-- The plugins of the repository. -/
inductive Kind
  | fileWriter | liveView | gapFill | offset | param | sum | dummy | blosc | kafka
deriving DecidableEq, Repr

/-- All of them. -/
def kinds : List Kind := [.fileWriter, .liveView, .gapFill, .offset, .param, .sum, .dummy, .blosc, .kafka]

/-- What is called: `callback` with a frame and with an end of acquisition (FrameProcessorPlugin.cpp:355-376),
the methods called for control messages, the timeout of the file writer and the warning of its watchdog. -/
inductive Meth
  | frame | eoa
  | configure | request | status | execute | reset | clear | connect
  | timer | warn
deriving DecidableEq, Repr

/-- All of them. -/
def meths : List Meth :=
  [.frame, .eoa, .configure, .request, .status, .execute, .reset, .clear, .connect, .timer, .warn]

/-- The mutexes: `FrameProcessorPlugin::mutex_` (FrameProcessorPlugin.h:89), `mutex_` of the file writer, the
Blosc and the Kafka plugin, `start_timeout_mutex_` and `close_file_mutex_` (FileWriterPlugin.h:182-184). -/
inductive Lock
  | base | own | start | close
deriving DecidableEq, Repr

/-- The members. -/
inductive Field
  | callbacks | duration | errors                                              -- FrameProcessorPlugin.h:75-95
  | writing | current | next | defs | geom | naming | options | master         -- FileWriterPlugin.h:158-206
  | period | active | calls | errorDef
  | bound | datasets | tags | rate | freq | last | socket | addr               -- LiveViewPlugin.h
  | layout                                                                     -- GapFillPlugin.h
  | offset                                                                     -- OffsetAdjustmentPlugin.h
  | adjust | inputs                                                            -- ParameterAdjustmentPlugin.h
  | image | lost                                                               -- DummyUDPProcessPlugin.h
  | commanded | settings | acq                                                 -- BloscPlugin.h
  | servers | topicName | topic | producer | partition | dataset | include     -- KafkaProducerPlugin.h
  | sent | dropped | ack
deriving DecidableEq, Repr

/-- A section of a method. In a `push` section `callback` of the plugins connected as blocking is called. -/
structure Sec where
  locks : List Lock := []
  reads : List Field := []
  writes : List Field := []
  push : Bool := false
deriving DecidableEq, Repr

/-- `push`, FrameProcessorPlugin.cpp:393-408, with the mutexes the caller holds. -/
def pushing (l : List Lock) : Sec := { locks := l, reads := [.callbacks], push := true }
/-- `set_error`, `set_warning` (FrameProcessorPlugin.cpp:62-104), with the mutexes the caller holds. -/
def error (l : List Lock) : Sec := { locks := .base :: l, writes := [.errors] }
/-- `process_duration_.update(ts)`, FrameProcessorPlugin.cpp:374. -/
def timed : Sec := { writes := [.duration] }

/-- The members `stop_writing`, `start_writing` and `stop_acquisition` of the file writer read
(FileWriterPlugin.cpp:192-237, 851-890). -/
def starts : List Field := [.defs, .geom, .naming, .options, .master, .errorDef]
/-- The members they write. -/
def stops : List Field := [.writing, .current, .next, .active, .calls]

/-- `process_frame` and what `callback` does after it. -/
def frame : Kind → List Sec
  -- FileWriterPlugin.cpp:139-171
  | .fileWriter => [{ locks := [.close, .own], reads := starts, writes := stops }, error [.close, .own],
      pushing [.close, .own], timed]
  -- LiveViewPlugin.cpp:60-145, 227-310
  | .liveView => [{ reads := [.bound, .tags, .rate, .freq, .addr], writes := [.datasets, .last, .socket] },
      pushing [], timed]
  -- GapFillPlugin.cpp:41-198
  | .gapFill => [{ reads := [.layout] }, error [], pushing [], timed]
  -- OffsetAdjustmentPlugin.cpp:40-44
  | .offset => [{ reads := [.offset] }, pushing [], timed]
  -- ParameterAdjustmentPlugin.cpp:38-80
  | .param => [{ reads := [.adjust, .inputs] }, error [], pushing [], timed]
  -- SumPlugin.cpp:47-68
  | .sum => [pushing [], timed]
  -- DummyUDPProcessPlugin.cpp:205-330
  | .dummy => [{ reads := [.image], writes := [.lost] }, pushing [], timed]
  -- BloscPlugin.cpp:217-236
  | .blosc => [{ locks := [.own], reads := [.commanded], writes := [.acq, .settings] }, pushing [.own], timed]
  -- KafkaProducerPlugin.cpp:434-441, 372-416: the topic is looked at before the mutex is taken
  | .kafka => [{ reads := [.dataset, .topic] },
      { locks := [.own], reads := [.topic, .producer, .partition, .include], writes := [.sent, .dropped, .ack] },
      pushing [], timed]

/-- `process_end_of_acquisition` and the push after it (FrameProcessorPlugin.cpp:362-366, 437-440;
FileWriterPlugin.cpp:178-184). -/
def eoa : Kind → List Sec
  | .fileWriter => [{ reads := starts, writes := stops }, pushing []]
  | _ => [pushing []]

/-- `configure`. -/
def configure : Kind → List Sec
  -- FileWriterPlugin.cpp:254-351, 426-743
  | .fileWriter => [{ locks := [.own], reads := [.writing, .active],
                      writes := [.geom, .next, .naming, .options, .defs, .master, .period, .errorDef] },
      error [.own]]
  -- LiveViewPlugin.cpp:155-200, 343-460
  | .liveView => [{ writes := [.freq, .rate, .datasets, .tags, .bound, .socket, .addr] }, error []]
  -- GapFillPlugin.cpp:208-278
  | .gapFill => [{ writes := [.layout] }, error []]
  -- OffsetAdjustmentPlugin.cpp:55-71
  | .offset => [{ writes := [.offset] }, error []]
  -- ParameterAdjustmentPlugin.cpp:91-136
  | .param => [{ writes := [.adjust, .inputs] }, error []]
  -- FrameProcessorPlugin.cpp:154-157
  | .sum => []
  -- DummyUDPProcessPlugin.cpp:100-121
  | .dummy => [{ writes := [.image] }]
  -- BloscPlugin.cpp:241-309
  | .blosc => [{ locks := [.own], reads := [.acq], writes := [.commanded, .settings] }]
  -- KafkaProducerPlugin.cpp:81-106, 158-170, 189-296
  | .kafka => [{ locks := [.own],
                 writes := [.servers, .topicName, .topic, .producer, .partition, .dataset, .include, .ack] }]

/-- `requestConfiguration`. -/
def request : Kind → List Sec
  -- FileWriterPlugin.cpp:353-411
  | .fileWriter => [{ reads := [.geom, .options, .next, .naming, .errorDef, .master, .period, .defs] }]
  -- LiveViewPlugin.cpp:207-212
  | .liveView => [{ reads := [.freq, .addr, .rate] }]
  -- GapFillPlugin.cpp:313-327
  | .gapFill => [{ reads := [.layout] }]
  -- OffsetAdjustmentPlugin.cpp:78-81
  | .offset => [{ reads := [.offset] }]
  -- ParameterAdjustmentPlugin.cpp:143-156
  | .param => [{ reads := [.adjust, .inputs] }]
  | .sum => []
  -- DummyUDPProcessPlugin.cpp:131-138
  | .dummy => [{ reads := [.image] }]
  -- BloscPlugin.cpp:315-325
  | .blosc => [{ reads := [.commanded] }]
  -- KafkaProducerPlugin.cpp:113-125
  | .kafka => [{ reads := [.servers, .topicName, .partition, .dataset, .include] }]

/-- `status` itself. -/
def ownStatus : Kind → List Sec
  -- FileWriterPlugin.cpp:750-790
  | .fileWriter => [{ reads := [.writing, .current, .geom, .active, .calls] }]
  -- DummyUDPProcessPlugin.cpp:182-186
  | .dummy => [{ reads := [.lost] }]
  -- BloscPlugin.cpp:331-337
  | .blosc => [{ reads := [.settings] }]
  -- KafkaProducerPlugin.cpp:132-142, 175-181: the producer is looked at before the mutex is taken
  | .kafka => [{ reads := [.producer] }, { locks := [.own], reads := [.producer], writes := [.ack] },
      { reads := [.sent, .dropped, .ack] }]
  | _ => []

/-- What `provideStatus` does with a plugin: `status`, `add_performance_stats`, `get_errors`, `get_warnings`
(FrameProcessorController.cpp:299-312, FrameProcessorPlugin.cpp:129-145, 224-229). -/
def status (k : Kind) : List Sec :=
  ownStatus k ++ [{ reads := [.duration] }, { locks := [.base], reads := [.errors] }]

/-- `execute`. -/
def execute : Kind → List Sec
  -- FileWriterPlugin.cpp:975-998
  | .fileWriter => [{ reads := starts, writes := [.writing, .current, .next, .calls] }]
  -- DummyUDPProcessPlugin.cpp:148-160
  | .dummy => [{ reads := [.image] }]
  | _ => []

/-- `reset_statistics` of the plugin. -/
def ownReset : Kind → List Sec
  -- FileWriterPlugin.cpp:792-799
  | .fileWriter => [{ writes := [.calls] }]
  -- DummyUDPProcessPlugin.cpp:191-196
  | .dummy => [{ writes := [.lost] }]
  -- KafkaProducerPlugin.cpp:147-153
  | .kafka => [{ writes := [.sent, .dropped, .ack] }]
  | _ => []

/-- What `resetStatistics` does with a plugin (FrameProcessorController.cpp:606-608). -/
def reset (k : Kind) : List Sec := timed :: ownReset k

/-- `run_close_file_timeout` (FileWriterPlugin.cpp:916-941): `start_timeout_mutex_` is held throughout,
`close_file_mutex_` from line 924, `mutex_` from line 929. -/
def timer : Kind → List Sec
  | .fileWriter => [{ locks := [.start], writes := [.active] },
      { locks := [.start, .close], reads := [.active, .period] },
      error [.start, .close, .own],
      { locks := [.start, .close, .own], reads := starts, writes := stops }]
  | _ => []

/-- The sections of a method. `clear`: `clear_errors` (FrameProcessorPlugin.cpp:108-114). `connect`:
`register_callback`, `remove_callback`, `remove_all_callbacks` (FrameProcessorPlugin.cpp:266-347), which take no
mutex. `warn`: `set_warning`, called by the watchdog thread of a file (FileWriterPlugin.cpp:103). -/
def body (k : Kind) : Meth → List Sec
  | .frame => frame k
  | .eoa => eoa k
  | .configure => configure k
  | .request => request k
  | .status => status k
  | .execute => execute k
  | .reset => reset k
  | .clear => [{ locks := [.base], writes := [.errors] }]
  | .connect => [{ writes := [.callbacks] }]
  | .timer => timer k
  | .warn => if k = .fileWriter then [error []] else []

/-- Whether a method is called for a control message. -/
def Meth.control : Meth → Bool
  | .configure | .request | .status | .execute | .reset | .clear | .connect => true
  | _ => false

/-- Whether a method handles what comes from another plugin. -/
def Meth.data : Meth → Bool
  | .frame | .eoa => true
  | _ => false

/-- The threads of the processor: the one that handles control messages (FrameProcessorController.cpp:107-203,
1000-1010), one per plugin for its queue (IFrameCallback.cpp:108-128), one per file writer for its timeout
(FileWriterPlugin.cpp:93), and those of the watchdogs (WatchdogTimer.cpp:17). -/
inductive Thread
  | control | worker (p : Nat) | timer (p : Nat) | watchdog (p i : Nat)
deriving DecidableEq, Repr

/-- The plugins that are loaded and which are connected as blocking (`blocking q p`: `q` calls `p`). -/
structure Sys where
  kind : Nat → Kind
  blocking : Nat → Nat → Prop

/-- A call under way: its current section is the first one. -/
structure Call where
  plugin : Nat
  meth : Meth
  cur : Sec
  rest : List Sec
deriving DecidableEq, Repr

/-- The calls of every thread, the innermost one first. -/
abbrev State := Thread → List Call

/-- Nothing is under way. -/
def init : State := fun _ => []

/-- Thread `t` gets other calls. -/
def State.set (s : State) (t : Thread) (l : List Call) : State := fun t' => if t' = t then l else s t'

/-- The mutexes `l` of plugin `p` are not held by threads other than `t`. -/
def Free (s : State) (t : Thread) (p : Nat) (l : List Lock) : Prop :=
  ∀ t', t' ≠ t → ∀ c ∈ s t', c.plugin = p → ∀ k ∈ l, k ∉ c.cur.locks

/-- Which thread calls which method. A plugin connected as blocking is called out of a push section. -/
def Allowed (y : Sys) (s : State) (t : Thread) (p : Nat) (m : Meth) : Prop :=
  (m.control = true ∧ t = .control ∧ s t = [])
  ∨ (m.data = true ∧ t = .worker p ∧ s t = [])
  ∨ (m.data = true ∧ ∃ c l, s t = c :: l ∧ c.cur.push = true ∧ y.blocking c.plugin p)
  ∨ (m = .timer ∧ t = .timer p ∧ s t = [])
  ∨ (m = .warn ∧ (∃ i, t = .watchdog p i) ∧ s t = [])

/-- One step of one thread: it calls a method, enters the next section, or returns. -/
inductive Step (y : Sys) : State → State → Prop
  | call {s : State} {t p m g gs} : Allowed y s t p m → body (y.kind p) m = g :: gs → Free s t p g.locks →
      Step y s (s.set t (⟨p, m, g, gs⟩ :: s t))
  | next {s : State} {t p m g g' gs l} : s t = ⟨p, m, g, g' :: gs⟩ :: l → Free s t p g'.locks →
      Step y s (s.set t (⟨p, m, g', gs⟩ :: l))
  | ret {s : State} {t p m g l} : s t = ⟨p, m, g, []⟩ :: l → Step y s (s.set t l)

/-- The states that can occur. -/
inductive Reach (y : Sys) : State → Prop
  | init : Reach y init
  | step {s s'} : Reach y s → Step y s s' → Reach y s'

end Verif.Locking
