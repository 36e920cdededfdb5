import Verif.Model.JsonText
import Verif.Model.Definitions
import Verif.Model.Kafka
/-
Model of the JSON headers of frames sent to live viewers and to Kafka.
Source: /repo/cpp/frameProcessor/src/LiveViewPlugin.cpp: pass_live_frame 228-298, add_json_member 300-312;
KafkaProducerPlugin.cpp: create_message 298-341; KafkaProducerPlugin.h 29-36; FrameMetaData.h 43-63, 81-83.
Text is written as in Model/JsonText.lean; a `float` parameter is opaque, as there. The image is given as its bytes.
-/
namespace Verif.Headers
open Verif.Ipc (Str Json)
open Verif.JsonText (Ev run write)

/-- A frame parameter, a `boost::any`: the two types the Kafka plugin knows, and two that it does not. -/
inductive Param
  | ulong (n : Nat)
  | float (d : Nat)
  | int (i : Int)
  | text (s : Str)

/-- What the headers are made from. `params` is a `std::map`, in order of the names. -/
structure Info where
  number : Int                          -- `long long`
  acqId : Str
  dataset : Str
  dtype : DataType
  compression : Compression
  dims : List Nat                       -- `unsigned long long`
  dataLen : Nat                         -- `size_t`
  image : List Nat
  offset : Int                          -- `int64_t`
  params : List (Str × Param)

/-- What `c_str()` shows of a string. -/
def cstr (s : Str) : Str := s.takeWhile (fun c => c ≠ '\x00')

/-- The enumerators as integers, FrameProcessorDefinitions.h:20, 24. -/
def typeCode : DataType → Nat
  | .rawUnknown => 0 | .raw8 => 1 | .raw16 => 2 | .raw32 => 3 | .raw64 => 4 | .rawFloat => 5

def compressionCode : Compression → Nat
  | .unknown => 0 | .none => 1 | .lz4 => 2 | .bslz4 => 3 | .blosc => 4

/-! ## Live view -/

/-- The array of tags, LiveViewPlugin.cpp:257-271: only if tags are configured. -/
def tagMember (tags : List Str) (f : Info) : List (Str × Json) :=
  if tags.isEmpty then []
  else [("tags".toList, .arr ((tags.filter (fun t => f.params.any (fun p => p.1 == t))).map (fun t => .str (cstr t))))]

/-- The header as a document, LiveViewPlugin.cpp:232-285. The frame number is converted to `uint32_t` (line 234), the
size by the only overload that takes a number (lines 253, 307). -/
def liveDoc (tags : List Str) (f : Info) : Json :=
  .obj ([("frame_num".toList, .num (f.number % 4294967296)),
         ("acquisition_id".toList, .str (cstr f.acqId)),
         ("dtype".toList, .str (typeName f.dtype).toList),
         ("dsize".toList, .num ((f.image.length % 4294967296 : Nat) : Int)),
         ("dataset".toList, .str (cstr f.dataset)),
         ("compression".toList, .str (compressionName f.compression).toList)] ++
        (tagMember tags f ++
        [("shape".toList, .arr (f.dims.map (fun d => .str (Receiver.dec d))))]))

/-- The two parts of the message, LiveViewPlugin.cpp:288-295: the header up to its end as a C string
(IpcChannel.cpp:256-270), and the image. -/
def liveMessage (D : Nat → Option Str) (tags : List Str) (f : Info) : Str × List Nat :=
  (cstr (write D (liveDoc tags f)), f.image)

/-! ## Kafka -/

/-- The call for a parameter, KafkaProducerPlugin.cpp:332-339. -/
def paramEv : Param → Ev
  | .ulong n => .num n
  | .float d => .dbl d
  | .int _ => .null
  | .text _ => .null

/-- Conversion to `uint64_t`. -/
def u64 (i : Int) : Int := i % 18446744073709551616

/-- KafkaProducerPlugin.cpp:325-340. -/
def paramEvents (withParams : Bool) (f : Info) : List Ev :=
  if withParams then
    .str "parameters".toList :: .startObj :: (f.params.flatMap (fun p => [.str (cstr p.1), paramEv p.2]) ++ [.endObj])
  else []

/-- The calls of the writer, KafkaProducerPlugin.cpp:304-341. All are made, whatever they return. -/
def kafkaEvents (withParams : Bool) (f : Info) : List Ev :=
  [.startObj,
   .str "data_size".toList, .num f.dataLen,
   .str "data_type".toList, .num (typeCode f.dtype),
   .str "frame_number".toList, .num (u64 f.number),
   .str "acquisition_id".toList, .str (cstr f.acqId),
   .str "compression".toList, .num (compressionCode f.compression),
   .str "frame_offset".toList, .num (u64 f.offset),
   .str "dims".toList, .startArr] ++ (f.dims.map (fun (d : Nat) => .num (d : Int)) ++
  (.endArr :: (paramEvents withParams f ++ [.endObj])))

/-- The header text. -/
def kafkaHeader (D : Nat → Option Str) (withParams : Bool) (f : Info) : Str := (run D {} (kafkaEvents withParams f)).out

/-- `create_message`, KafkaProducerPlugin.cpp:298-365, with the header. -/
def kafkaMessage (D : Nat → Option Str) (withParams : Bool) (f : Info) (k : Kafka.Frame) : Kafka.Created :=
  Kafka.createMessage ((kafkaHeader D withParams f).map Char.toNat) k

end Verif.Headers
