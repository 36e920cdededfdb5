/-
Model of the message framing and counting of the Kafka plugin.
Source: /repo/cpp/frameProcessor/src/KafkaProducerPlugin.cpp 298-443.

The header is the text written by the JSON writer (for its contents see Model/Headers.lean). A byte of the allocated
message that is never written is `none`. The byte order is little-endian.
-/
namespace Verif.Kafka

/-- The parts of a frame that matter: the frame data, and where the image lies in it. -/
structure Frame where
  data : List Nat
  imageOffset : Nat := 0
  imageSize : Nat := 0
  dataset : String := ""
deriving DecidableEq, Repr

/-- Write `src` at `pos` of a message; `none` if it does not fit. -/
def put (msg : List (Option Nat)) (pos : Nat) (src : List Nat) : Option (List (Option Nat)) :=
  if pos + src.length ≤ msg.length then
    some (msg.take pos ++ src.map some ++ msg.drop (pos + src.length))
  else none

/-- Result of `create_message`. -/
inductive Created
  | tooBig                                -- NULL
  | ok (msg : List (Option Nat))
  | ub
deriving DecidableEq, Repr

/-- Lines 346-364: allocate, write the length, the header and the data. `text ++ [0]` is the terminated
string of the writer's buffer. -/
def assemble (text : List Nat) (f : Frame) : Option (List (Option Nat)) :=
  let headerSize := (text.length + 1) % 2 ^ 16
  (put (List.replicate (2 + text.length + 1 + f.data.length) none) 0 [headerSize % 256, headerSize / 256]).bind
    (fun m => (put m 2 ((text ++ [0]).take headerSize)).bind
      (fun m => put m (2 + headerSize) f.data))

/-- `create_message`, lines 298-365. -/
def createMessage (text : List Nat) (f : Frame) : Created :=
  if text.length > 65535 then .tooBig
  else match assemble text f with
    | some m => .ok m
    | none => .ub

/-- Plugin state. -/
structure State where
  topic : Bool := false         -- kafka_topic_ is set
  dataset : String := "data"
  sent : Nat := 0
  lost : Nat := 0
deriving DecidableEq, Repr

/-- What happens with a frame: passed on, and the message handed to the library, if any. -/
structure Out where
  pushed : Bool
  produced : Option (List (Option Nat)) := none
  ub : Bool := false
deriving DecidableEq, Repr

/-- `process_frame` with `enqueue_frame`, lines 372-411 and 434-443. `accepted`: `rd_kafka_produce` returns 0;
`text`: the header text for this frame. -/
def processFrame (s : State) (text : List Nat) (accepted : Bool) (f : Frame) : State × Out :=
  if f.dataset = s.dataset then
    if s.topic then
      match createMessage text f with
      | .tooBig => (s, { pushed := true })
      | .ub => (s, { pushed := false, ub := true })
      | .ok m =>
        if accepted then ({ s with sent := s.sent + 1 }, { pushed := true, produced := some m })
        else ({ s with lost := s.lost + 1 }, { pushed := true })
    else (s, { pushed := true })
  else (s, { pushed := true })

end Verif.Kafka
