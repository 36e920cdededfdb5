/-
Model of the handles and counters of the Kafka plugin, with the thread that processes frames and the thread that configures.
Source: /repo/cpp/frameProcessor/src/KafkaProducerPlugin.cpp: kafka_message_callback 29-40, ~KafkaProducerPlugin 66-70,
configure 81-106, status 132-142, reset_statistics 147-153, destroy_kafka 158-169, poll_delivery_message_report_queue 175-181,
configure_kafka_servers 188-235, configure_kafka_topic 242-265, enqueue_frame 372-413, on_message_ack 418-421, on_message_error
426-429.

A plugin has one thread that processes frames; configuration, status and reset of statistics are done by the thread of the
controller, one after the other. `mutex_` is held while a frame is handed to the library and while the plugin is configured, so
that these are steps; between the look at the topic, line 375, and the mutex, line 380, anything may happen. librdkafka is the
environment: it takes or refuses messages and servers, and reports any of the messages it has, as delivered or as failed, whenever
it is polled or flushed; a producer that is destroyed drops the messages it still has (documentation of rd_kafka_destroy).
Contents of messages are in Model/Kafka and Model/Headers; a frame whose header is too long is not enqueued, line 384, and no event here.
-/
namespace Verif.KafkaDelivery

structure State where
  producer : Bool := false      -- kafka_producer_ is not NULL
  topic : Bool := false         -- kafka_topic_ is not NULL
  seen : Bool := false          -- the worker has passed line 375 and not yet taken the mutex
  flight : Nat := 0             -- messages in the library
  sent : Nat := 0               -- uint32_t
  lost : Nat := 0
  ack : Nat := 0
deriving DecidableEq, Repr

/-- What a poll or a flush reports: messages delivered, and messages that failed. -/
structure Report where
  good : Nat := 0
  bad : Nat := 0
deriving DecidableEq, Repr

/-- `kafka_message_callback` for the messages of a report, of which there are not more than the library has. A failure is written
to the log. -/
def report (s : State) (r : Report) : State :=
  let good := min r.good s.flight
  let bad := min r.bad (s.flight - good)
  { s with flight := s.flight - good - bad, ack := (s.ack + good) % 4294967296 }

/-- `destroy_kafka`. `r` is what the flush reports in the time it has. -/
def destroy (s : State) (r : Report) : State :=
  let s := if s.topic then { report s r with topic := false } else s
  if s.producer then { s with producer := false, flight := 0 } else s

/-- `configure_kafka_servers`: `ok` if the library takes the servers and makes a producer. -/
def setServers (s : State) (ok : Bool) : State := if ok then { s with producer := true } else s

/-- `configure_kafka_topic`: `ok` if the library makes the topic. -/
def setTopic (s : State) (ok : Bool) : State := if s.producer then { s with topic := ok } else { s with topic := false }

inductive Event
  | look                                        -- a frame of the dataset: line 375
  | enqueue (ok : Bool) (r : Report)            -- lines 380-412, the message is taken or refused, and the poll
  | servers (r : Report) (ok tok : Bool)        -- configuration with servers, 85-89
  | topic (ok : Bool)                           -- configuration with a topic, 91-93
  | status (r : Report)
  | reset
deriving DecidableEq, Repr

/-- `none`: the library is called with a null pointer. -/
def step (s : State) : Event → Option State
  | .look => some { s with seen := s.topic }
  | .enqueue ok r =>
    if s.seen then
      if s.topic then
        if s.producer then
          let s := { s with seen := false }
          some (report (if ok then { s with sent := (s.sent + 1) % 4294967296, flight := s.flight + 1 } else { s with lost := (s.lost + 1) % 4294967296 }) r)
        else none
      else none
    else some s
  | .servers r ok tok => some (setTopic (setServers (destroy s r) ok) tok)
  | .topic ok => some (setTopic s ok)
  | .status r => if s.producer then some (report s r) else some s
  | .reset => some { s with sent := 0, lost := 0, ack := 0 }

def run (s : State) : List Event → Option State
  | [] => some s
  | e :: es => (step s e).bind (fun s => run s es)

end Verif.KafkaDelivery
