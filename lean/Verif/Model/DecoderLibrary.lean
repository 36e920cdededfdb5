import Verif.Model.Receiver

/-
Model of the names of the library and the class of a frame decoder.
Source: /repo/cpp/frameReceiver/src/FrameReceiverController.cpp:14-17 (suffix, on Linux), 454-458 (slash), 503-504 (names),
516-517 (what is given to the class loader). A path that is empty is undefined behaviour (Receiver.setPath).
-/
namespace Verif.DecoderLibrary
open Verif.Receiver
open Verif.Ipc (Str)

/-- `lib_name`, line 503. -/
def libName (type : Str) : Str := "lib".toList ++ type ++ "FrameDecoder".toList ++ ".so".toList

/-- `cls_name`, line 504. -/
def clsName (type : Str) : Str := type ++ "FrameDecoder".toList

/-- `decoder_path + lib_name`, lines 454-458 and 517. -/
def library (path type : Str) : Str := slashed path ++ libName type

end Verif.DecoderLibrary
