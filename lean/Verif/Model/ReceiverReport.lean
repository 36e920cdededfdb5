import Verif.Model.Receiver
/-!
The configuration that the frame receiver reports, and the configuration of the UDP decoder.

* cpp/frameReceiver/src/FrameReceiverController.cpp: `request_configuration` 1171-1206
* cpp/frameReceiver/include/FrameReceiverConfig.h: the names of the parameters 30-48, `map_rx_type_to_name` 117-143, `rx_port_list` 145-154
* cpp/frameReceiver/src/FrameDecoder.cpp: constructor 19-26, `init` 42-51, `request_configuration` 62-67
* cpp/frameReceiver/src/DummyUDPFrameDecoder.cpp: constructor 26-27, `init` 87-130, `request_configuration` 140-151
* cpp/common/include/DummyUDPDefinitions.h: 18, 21, 28 (limits)

The message is the list of the calls of `set_param`, in their order, applied to an empty message. Of the decoder only what is
configured. The frame count of a receiver that has not been given one is not initialised; reporting it is undefined.
-/
namespace Verif.Receiver
open Verif.Ipc

/-- What is configured in a `DummyUDPFrameDecoder`, with the values of its constructor. -/
structure UdpDec where
  logging : Bool := false          -- `enable_packet_logging_`
  timeout : Nat := 1000            -- `frame_timeout_ms_`
  packets : Nat := 1               -- `udp_packets_per_frame_`
  size : Nat := 8000               -- `udp_packet_size_`
deriving DecidableEq, Repr

/-- Run the second part of `init` if the first one returns. -/
def decThen (r : UdpDec × Out) (f : UdpDec → UdpDec × Out) : UdpDec × Out :=
  match r with
  | (d, .ok) => f d
  | r => r

/-- FrameDecoder.cpp:44-45. -/
def initLogging (ps : Json) (d : UdpDec) : UdpDec × Out :=
  match paramOr ps "enable_packet_logging" Json.asBool d.logging with
  | none => (d, .message)
  | some b => ({ d with logging := b }, .ok)

/-- FrameDecoder.cpp:46-47. -/
def initTimeout (ps : Json) (d : UdpDec) : UdpDec × Out :=
  match paramOr ps "frame_timeout_ms" Json.asUint d.timeout with
  | none => (d, .message)
  | some n => ({ d with timeout := n }, .ok)

/-- DummyUDPFrameDecoder.cpp:97-107: the value is stored before it is compared with the limit. -/
def initPackets (ps : Json) (d : UdpDec) : UdpDec × Out :=
  match paramOr ps "udp_packets_per_frame" Json.asUint d.packets with
  | none => (d, .message)
  | some n => ({ d with packets := n }, if n > 4195 then .other else .ok)

/-- DummyUDPFrameDecoder.cpp:111-121. -/
def initSize (ps : Json) (d : UdpDec) : UdpDec × Out :=
  match paramOr ps "udp_packet_size" Json.asUint d.size with
  | none => (d, .message)
  | some n => ({ d with size := n }, if n > 8964 then .other else .ok)

/-- `DummyUDPFrameDecoder::init`. -/
def initDec (ps : Json) (d : UdpDec) : UdpDec × Out :=
  decThen (initLogging ps d) fun d =>
  decThen (initTimeout ps d) fun d =>
  decThen (initPackets ps d) fun d => initSize ps d

/-- The calls of `set_param` in `request_configuration` of the decoder. -/
def decCalls (pre : Str) (d : UdpDec) : List (Str × Json) :=
  [(pre ++ "enable_packet_logging".toList, .bool d.logging), (pre ++ "frame_timeout_ms".toList, .num d.timeout),
   (pre ++ "udp_packets_per_frame".toList, .num d.packets), (pre ++ "udp_packet_size".toList, .num d.size)]

/-- Those of the decoder if there is one. -/
def decPart (dec : Option UdpDec) : List (Str × Json) :=
  match dec with
  | some d => decCalls ("decoder_config".toList ++ ['/']) d
  | none => []

/-- `request_configuration`: the calls of `set_param`, with the text of the ports and the frame count. -/
def calls (c : Config) (dec : Option UdpDec) (ports : Str) (frames : Nat) : List (Str × Json) :=
  [("ctrl_endpoint".toList, .str c.ctrl), ("rx_endpoint".toList, .str c.rx),
   ("frame_ready_endpoint".toList, .str c.ready), ("frame_release_endpoint".toList, .str c.release),
   ("decoder_path".toList, .str c.path), ("decoder_type".toList, .str c.type)] ++ decPart dec ++
  [("shared_buffer_name".toList, .str c.name), ("max_buffer_mem".toList, .num c.mem),
   ("rx_type".toList, .str (rxTypeName c.rxType)), ("rx_address".toList, .str c.address), ("rx_ports".toList, .str ports),
   ("rx_recv_buffer_size".toList, .num c.recvSize), ("frame_count".toList, .num frames)]

/-- The calls one after the other, until one throws. -/
def setAll (params : Json) : List (Str × Json) → Json × Res
  | [] => (params, .ok)
  | (n, v) :: l =>
    match setParam params n v with
    | (p, .ok) => setAll p l
    | r => r

/-- The exceptions of `set_param`. -/
def resOut : Json × Res → Json × Out
  | (j, .ok) => (j, .ok)
  | (j, .assertion) => (j, .message)
  | (j, .range) => (j, .other)
  | (j, .ub) => (j, .ub)

/-- `request_configuration`: the params of the reply. -/
def reported (c : Config) (dec : Option UdpDec) : Json × Out :=
  match portText c.ports with
  | none => (.obj [], .other)
  | some ports =>
    match c.frameCount with
    | none => (.obj [], .ub)
    | some n => resOut (setAll (.obj []) (calls c dec ports n))

end Verif.Receiver
