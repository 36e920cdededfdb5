import Verif.Model.JsonText
/-
Model of the contents of meta data messages.
Source: /repo/cpp/frameProcessor/src/FrameProcessorController.cpp: handleMetaRxChannel 203-252;
/repo/cpp/common/src/Json.cpp: JsonDict 16-50; /repo/cpp/common/include/Json.h: add 30-34;
/repo/cpp/frameProcessor/src/Acquisition.cpp: the messages at 139-146, 228-231, 296-299, 390 and 403, the headers 618-637;
/repo/cpp/frameProcessor/src/MetaMessagePublisher.cpp: publish_meta 64-72 (the one for strings).

Which messages arrive, and when, is in Model/Meta.lean. Texts and documents are those of Model/JsonText.lean, with the
same opaque numbers `D` and `V` and the same stack. Numbers in the messages of an acquisition are unsigned, of 64 bits or,
for two of the durations, of 32 bits.
-/
namespace Verif.MetaText
open Verif.Ipc (Str Json)
open Verif.JsonText (write parse)

/-- A string handed over as `const char *`. -/
def cstr (s : Str) : Str := s.takeWhile (fun c => c ≠ '\x00')

/-- `JsonDict::str` after `JsonDict::add` of these members in order, Json.cpp:16-50. The names are constants without NUL. -/
def dict (D : Nat → Option Str) (l : List (Str × Json)) : Str := cstr (write D (.obj l))

/-- `MetaMessage`, MetaMessage.h: the bytes `data` are those at `dPtr_`. -/
structure Msg where
  name : Str
  item : Str
  type : Str
  header : Str
  data : Str
  deriving DecidableEq

/-- The document of the first part, FrameProcessorController.cpp:215-243, with the value made of the header. -/
def firstDoc (m : Msg) (header : Json) : Json :=
  .obj [("plugin".toList, .str m.name), ("parameter".toList, .str m.item), ("type".toList, .str m.type),
        ("header".toList, header)]

/-- The two parts sent, FrameProcessorController.cpp:246-252. -/
def parts (D : Nat → Option Str) (m : Msg) (header : Json) : Str × Str := (cstr (write D (firstDoc m header)), m.data)

/-- `handleMetaRxChannel`, FrameProcessorController.cpp:203-252; `none`: the stack is exhausted while reading the header. -/
def forward (D : Nat → Option Str) (V : Str → Option Nat) (room : Nat) (m : Msg) : Option (Str × Str) :=
  match parse V room (cstr m.header) with
  | .ok j _ => some (parts D m j)
  | .err => some (parts D m (.str m.header))
  | .deep => none
  | .stuck => none

/-! ## The messages of an acquisition -/

/-- The members of an acquisition used, Acquisition.h:70, 101 and 103. -/
structure Acq where
  id : Str
  rank : Nat
  processes : Nat
  total : Nat

/-- What an acquisition tells. -/
inductive Event
  | start
  | create (path : Str) (duration : Nat)
  | write (frame offset writeDuration flushDuration : Nat)
  | close (path : Str) (duration : Nat)
  | stop

/-- `get_meta_header`, Acquisition.cpp:631-637. -/
def header (D : Nat → Option Str) (a : Acq) : Str :=
  dict D [("acqID".toList, .str a.id), ("rank".toList, .num a.rank)]

/-- `get_create_meta_header`, Acquisition.cpp:617-624. -/
def createHeader (D : Nat → Option Str) (a : Acq) : Str :=
  dict D [("acqID".toList, .str a.id), ("rank".toList, .num a.rank), ("totalFrames".toList, .num a.total)]

/-- `publish_meta` for strings with the name of Acquisition.cpp:19, MetaMessagePublisher.cpp:64-72. -/
def message (item header data : Str) : Msg :=
  { name := "Acquisition".toList, item := item, type := "string".toList, header := header, data := data }

/-- The message of an event, Acquisition.cpp:139-146, 228-231, 296-299, 390 and 403. -/
def toMsg (D : Nat → Option Str) (a : Acq) : Event → Msg
  | .start => message "startacquisition".toList (createHeader D a) []
  | .create p d => message "createfile".toList (createHeader D a)
      (dict D [("filePath".toList, .str p), ("create_duration".toList, .num d)])
  | .write f o w fl => message "writeframe".toList (header D a)
      (dict D [("frame".toList, .num f), ("offset".toList, .num o), ("proc".toList, .num a.processes),
               ("write_duration".toList, .num w), ("flush_duration".toList, .num fl)])
  | .close p d => message "closefile".toList (header D a)
      (dict D [("filePath".toList, .str p), ("close_duration".toList, .num d)])
  | .stop => message "stopacquisition".toList (header D a) []

end Verif.MetaText
