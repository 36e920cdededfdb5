import Verif.Model.ReceiverReport

/-
Model of the configuration of the TCP decoder.
Source: /repo/cpp/frameReceiver/src/DummyTCPFrameDecoder.cpp: constructor 18-33, init 44-45 (empty; the function of the
base class is not called), request_configuration 66-71, get_frame_buffer_size 100-102;
/repo/cpp/frameReceiver/src/FrameDecoder.cpp: constructor 18-26, request_configuration 62-67;
/repo/cpp/frameReceiver/include/DummyTCPFrameDecoder.h:12-18 (sizes); the size of buffers is used in
/repo/cpp/frameReceiver/src/FrameReceiverController.cpp:594-667 and /repo/cpp/common/src/SharedBufferManager.cpp:26-68.
-/
namespace Verif.Receiver
open Verif.Ipc

/-- What could be configured in a `DummyTCPFrameDecoder`, with the values of its constructor. -/
structure TcpDec where
  logging : Bool := false          -- `enable_packet_logging_`
  timeout : Nat := 1000            -- `frame_timeout_ms_`
deriving DecidableEq, Repr

/-- `DummyTCPFrameDecoder::init`, lines 44-45. -/
def initTcp (_ : Json) (d : TcpDec) : TcpDec × Out := (d, .ok)

/-- The calls of `set_param` in `request_configuration`, lines 66-71. -/
def tcpCalls (pre : Str) (d : TcpDec) : List (Str × Json) :=
  [(pre ++ "enable_packet_logging".toList, .bool d.logging), (pre ++ "frame_timeout_ms".toList, .num d.timeout),
   (pre ++ "frame_size".toList, .num 1000)]

/-- The size of a buffer, line 31: that of all its frames. -/
def tcpBuffer (buffers frame : Nat) : Nat := buffers * frame

end Verif.Receiver
