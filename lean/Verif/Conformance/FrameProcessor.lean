import Verif.Model.Pool
import Verif.Model.Dataset
import Verif.Model.Acquisition
import Verif.Model.ParamAdjust
import Verif.Model.Sum
import Verif.Model.GapFill
import Verif.Model.LiveView
import Verif.Model.Headers
import Verif.Model.Blosc
/-
The assertions of the project's own unit tests of the frame processor, made about the model. They say nothing about
all inputs; they show that the model gives the values which the authors of the code expect of it.
Source: /repo/cpp/frameProcessor/test. Tests of the HDF5 library, of sockets and of the logging are left out.
-/
namespace Verif.Conformance

/-! ## FrameProcessorTest.cpp:89-139, DataBlockPoolTest -/
section
open Verif.Pool

/-- The four statistics of a pool: free, used, total, memory. -/
def stats (k : Nat) (y : Sys) : Int × Int × Nat × Int := ((y.pool k).freeN, (y.pool k).usedN, (y.pool k).total, (y.pool k).mem)

/-- The blocks are taken, released and allocated as in the test; the statistics at every check. -/
def poolTest : Option (List (Int × Int × Nat × Int) × Bool) :=
  let y0 := allocate 1024 100 {}
  (take 1024 y0).bind fun r1 =>
  (take 1024 r1.1).bind fun r2 =>
  let y3 := release r1.2 r2.1
  let y4 := allocate 1024 100 y3
  (take 1025 y4).map fun r5 =>
  ([stats 1024 y0, stats 1024 r2.1, stats 1024 y3, stats 1024 y4, stats 1024 r5.1, stats 1025 r5.1],
   decide (r1.2 ≠ r2.2 ∧ r1.2 ≠ r5.2 ∧ r5.1.size r1.2 ≠ r5.1.size r5.2))

example : poolTest = some ([(100, 0, 100, 102400), (98, 2, 100, 102400), (99, 1, 100, 102400), (199, 1, 200, 204800),
    (199, 1, 200, 204800), (1, 1, 2, 2050)], true) := by decide +kernel

/-- FrameProcessorTest.cpp:145-163: a frame of 24 bytes. -/
example : (create {} 0 24 7).map (fun w => ((w.frames 0).map (fun o => (o.dataSize, w.content o.block)))) = some (some (24, 7)) := by
  decide +kernel
end

/-! ## FrameProcessorTest.cpp:224-456, HDF5FileUnitTest -/
section
open Verif.Dataset

/-- The dataset of the fixture (lines 178-186): ten frames, one to a chunk. -/
def data : Ds := create false 10 1 3

def okLib : Lib := {}

def writes (l : List Nat) : List W := l.map (fun i => ⟨i, 1, i + 100, okLib⟩)

/-- What became of the writes, and the rows. -/
def after (d : Ds) (l : List W) (rows : List Nat) : List Out × List (Option Nat) :=
  ((run false l d).2.map (·.2), rows.map (run false l d).1.cells)

/-- 224-242: frame 7. -/
example : after data (writes [7]) [6, 7] = ([.ok], [none, some 107]) := by decide
/-- 318-331: all frames in order. -/
example : after data (writes (List.range 10)) (List.range 10) =
    (List.replicate 10 .ok, (List.range 10).map (fun i => some (i + 100))) := by decide +kernel
/-- 333-354: frame 7, then all frames in reverse order. -/
example : after data (writes (7 :: (List.range 10).reverse)) (List.range 10) =
    (List.replicate 11 .ok, (List.range 10).map (fun i => some (i + 100))) := by decide +kernel
/-- 356-378: an unlimited dataset and a huge offset. -/
example : after (create true 0 1 3) (writes ((List.range 10).map (· + 100000))) [100000, 100009] =
    (List.replicate 10 .ok, [some 100100, some 100109]) := by decide +kernel

/-- A file with the datasets of the tests. -/
def file (l : List (String × Ds)) : File := fun n => (l.find? (fun e => e.1 = n)).map (·.2)

def fr (ds : String) (slot : Nat) (pars : List (String × Any × Lib) := []) : Fr := ⟨ds, slot, 1, slot + 100, okLib, pars⟩

/-- 244-274: two datasets in one file. -/
example : (frames false (fun _ => none) [fr "data" 7, fr "stuff" 7, fr "data" 2, fr "stuff" 2]
    (file [("data", data), ("stuff", data)])).2 = [.ok, .ok, .ok, .ok] := by decide
/-- 292-316: a dataset that does not exist. -/
example : (frames false (fun _ => none) [fr "data" 7] (file [])).2 = [.refused] ∧
    (frames false (fun _ => none) [fr "non_existing_dataset_name" 7] (file [("data", data)])).2 = [.refused] := by decide

/-- 380-405: a parameter of the right type. -/
example : (List.range 10).map (fun i => (writeParam (create false 10 1 1) .raw64 (.u64 i) okLib i).2) = List.replicate 10 .ok := by decide
/-- 407-431: of a wrong type. -/
example : (List.range 10).map (fun i => (writeParam (create false 10 1 1) .raw16 (.u64 123) okLib i).2) = List.replicate 10 .refused := by
  decide
end

/-! ## FrameProcessorTest.cpp:464-728, AcquisitionUnitTest -/
section
open Verif.Placement Verif.Acq

/-- 464-577: `get_file_index`. -/
example : [0, 1, 999, 4000, 4523, 4999, 8231].map (fileIndex ⟨0, 4, 1000, 1⟩) = [0, 0, 0, 4, 4, 4, 8] ∧
    [1000, 1111, 1999, 5000].map (fileIndex ⟨1, 4, 1000, 1⟩) = [1, 1, 1, 5] ∧
    [2000, 2311, 2999, 6999].map (fileIndex ⟨2, 4, 1000, 1⟩) = [2, 2, 2, 6] ∧
    [3000, 3311, 3999, 7452].map (fileIndex ⟨3, 4, 1000, 1⟩) = [3, 3, 3, 7] ∧
    [0, 2, 10, 14, 15, 20, 29, 30].map (fileIndex ⟨0, 1, 3, 5⟩) = [0, 0, 0, 0, 1, 1, 1, 2] ∧
    [0, 401].map (fileIndex ⟨0, 4, 100, 1⟩) = [0, 4] := by decide

/-- 579-663: `get_frame_offset_in_file`. -/
example : [0, 1, 999, 4000, 4523, 4999, 8231].map (offsetInFile ⟨0, 4, 1000, 1⟩) = [0, 1, 999, 0, 523, 999, 231] ∧
    [1000, 1430, 5999].map (offsetInFile ⟨1, 4, 1000, 1⟩) = [0, 430, 999] ∧
    [2000, 2999].map (offsetInFile ⟨2, 4, 1000, 1⟩) = [0, 999] ∧
    [7000, 7549].map (offsetInFile ⟨3, 4, 1000, 1⟩) = [0, 549] ∧
    [23, 464, 801].map (offsetInFile ⟨0, 4, 100, 2⟩) = [23, 164, 1] ∧
    [151, 599].map (offsetInFile ⟨1, 4, 100, 2⟩) = [51, 199] ∧
    [1141].map (offsetInFile ⟨3, 4, 100, 2⟩) = [41] := by decide

/-- 665-696: `adjust_frame_offset`. -/
example : [(0, 0), (1, 0), (0, 1), (1, 1), (1, -1), (0, -1)].map (fun p : Int × Int => adjustOffset p.1 p.2) =
    [some 0, some 1, some 1, some 2, some 0, none] := by decide

/-- 698-728: `check_frame_valid`. `get_dummy_frame`, TestHelperFunctions.h:6-18. -/
def dummy : Frame := ⟨0, 0, "raw", .raw16, .none, [0, 0], 1, 0, [], .ok⟩
def rawDef : DatasetDef := ⟨"raw", .raw16, [0, 0], [0, 0], .none⟩

example : checkFrameValid [rawDef] { dummy with compression := .unknown } = false ∧
    checkFrameValid [rawDef] { dummy with dataType := .rawUnknown } = false ∧ checkFrameValid [rawDef] dummy = true := by decide

/-- 893-1012: `calc_num_frames`. -/
example : (List.range 4).map (fun r => calcNumFrames ⟨r, 4, 1, 0⟩ 1141) = [286, 285, 285, 285] ∧
    (List.range 4).map (fun r => calcNumFrames ⟨r, 4, 1, 0⟩ 3) = [1, 1, 1, 0] ∧
    (List.range 4).map (fun r => calcNumFrames ⟨r, 4, 1000, 0⟩ 1141) = [1000, 141, 0, 0] ∧
    (List.range 4).map (fun r => calcNumFrames ⟨r, 4, 1000, 0⟩ 3) = [3, 0, 0, 0] ∧
    (List.range 4).map (fun r => calcNumFrames ⟨r, 4, 1000, 0⟩ 33999) = [9000, 8999, 8000, 8000] := by decide
end

/-! ## FrameProcessorTest.cpp:734-887, the adjustment plugins -/
section
open Verif.ParamAdjust

/-- The parameter UID of the frame that comes out; the outer `none`: undefined. -/
def uid (s : State) (number : Int) (params : StdMap.Map Value := []) : Option (Option Value) :=
  (processFrame s { number, params }).map (fun r => StdMap.find r.1.params "UID")

def withUid (a : Int) (s : State := {}) : State := (configure s [⟨"UID", some a, none⟩]).1

/-- 734-788. -/
example : uid {} 0 = some none ∧ uid {} 27 = some none ∧ uid (withUid 4) 0 = some (some (.u64 4)) ∧
    uid (withUid 4) 10 = some (some (.u64 14)) ∧ uid (withUid 33 (withUid 4)) 1 = some (some (.u64 34)) ∧
    uid (withUid 33 (withUid 4)) 2 = some (some (.u64 35)) ∧ uid (withUid (-2) (withUid 33 (withUid 4))) 3 = some (some (.u64 1)) := by
  decide

/-- 790-829. -/
example : uid {} 0 [("UID", .u64 0)] = some (some (.u64 0)) ∧ uid {} 27 [("UID", .u64 27)] = some (some (.u64 27)) ∧
    uid (withUid 4) 0 [("UID", .u64 0)] = some (some (.u64 4)) ∧ uid (withUid 4) 10 [("UID", .u64 123)] = some (some (.u64 14)) := by
  decide

/-- 835-887. -/
example : [(0, 0, 0), (0, 27, 27), (4, 0, 0), (4, 10, 10), (4, 27, 100)].map
    (fun p : Int × Int × Int => (offsetFrame p.1 { number := p.2.1, offset := p.2.2 }).map (·.offset)) =
    [some 0, some 27, some 4, some 14, some 104] := by decide
end

/-! ## FrameProcessorTest.cpp:1043-1097, the sum plugin -/
section
open Verif.Sum

/-- Bytes of 16-bit pixels. -/
def bytes16 (l : List Nat) : List Nat := l.flatMap (fun p => [p % 256, p / 256])

def imageOf (l : List Nat) : Image := ⟨l.length, fun b => l.getD b 0⟩

/-- The image of the fixtures: 1 to 12. -/
def img12 : List Nat := bytes16 ((List.range 12).map (· + 1))

example : processFrame .raw16 (imageOf img12) = .pushed (some 78) ∧ processFrame .raw16 (imageOf [0, 0]) = .pushed (some 0) ∧
    processFrame .rawFloat (imageOf [0, 0]) = .pushed none := by decide +kernel
end

/-! ## GapFillPluginTest.cpp -/
section
open Verif.GapFill

def bufOf (l : List Nat) : Buf := ⟨l.length, fun b => l.getD b 0⟩

/-- Dimensions and 16-bit pixels of what `insert_gaps` returns. -/
def gapped (c : Cfg) (dims : List Nat) (l : List Nat) : Option (List Int × List Nat) :=
  match insertGaps c dims 2 (bufOf l) with
  | .pushed d im => some (d, (List.range (im.size / 2)).map (Sum.pixel im.data 2))
  | _ => none

/-- 66-103: two configurations that do not fit. -/
example : configurationValid ⟨[5, 4], [2, 2], [1, 2, 3, 2, 1], [1, 2, 2, 1]⟩ [3, 4] = some false ∧
    configurationValid ⟨[3, 4], [1, 1], [1, 2, 1], [1]⟩ [3, 4] = some false := by decide

/-- 105-152: gaps between single pixels. -/
example : gapped ⟨[3, 4], [1, 1], [1, 2, 3, 2, 1], [1, 2, 2, 1]⟩ [3, 4] img12 = some ([9, 13],
    [0, 0, 0, 0, 0, 0, 0, 0, 0, 0, 0, 0, 0,
     0, 1, 0, 0, 2, 0, 0, 0, 3, 0, 0, 4, 0,
     0, 0, 0, 0, 0, 0, 0, 0, 0, 0, 0, 0, 0,
     0, 0, 0, 0, 0, 0, 0, 0, 0, 0, 0, 0, 0,
     0, 5, 0, 0, 6, 0, 0, 0, 7, 0, 0, 8, 0,
     0, 0, 0, 0, 0, 0, 0, 0, 0, 0, 0, 0, 0,
     0, 0, 0, 0, 0, 0, 0, 0, 0, 0, 0, 0, 0,
     0, 9, 0, 0, 10, 0, 0, 0, 11, 0, 0, 12, 0,
     0, 0, 0, 0, 0, 0, 0, 0, 0, 0, 0, 0, 0]) := by decide +kernel

/-- 154-199: gaps between chips of two by two pixels. -/
example : gapped ⟨[2, 2], [2, 2], [1, 1, 1], [1, 1, 1]⟩ [4, 4]
      (bytes16 [1, 1, 2, 2, 1, 1, 2, 2, 3, 3, 4, 4, 3, 3, 4, 4]) = some ([7, 7],
    [0, 0, 0, 0, 0, 0, 0,
     0, 1, 1, 0, 2, 2, 0,
     0, 1, 1, 0, 2, 2, 0,
     0, 0, 0, 0, 0, 0, 0,
     0, 3, 3, 0, 4, 4, 0,
     0, 3, 3, 0, 4, 4, 0,
     0, 0, 0, 0, 0, 0, 0]) := by decide +kernel
end

/-! ## LiveViewUnitTest.cpp -/
section
open Verif.LiveView

/-- The frames of the fixture, lines 75-86. -/
def lvFrames : List Frame :=
  (List.range 10).map (fun i => if i % 4 = 0 then ⟨"not_data", []⟩ else ⟨"data", ["test_tag"]⟩)

/-- How many of the frames a plugin displays; the static counter has some value at the start. -/
def displayed (s : State) (static : Nat) : Nat :=
  (lvFrames.foldl (fun (a : State × Nat × Nat) f =>
    let r := processFrame a.1 a.2.1 f 0 0
    (r.1, r.2.1, if r.2.2 = .passed true then a.2.2 + 1 else a.2.2)) (s, static, 0)).2.2

/-- 219-241: every second frame. -/
example : displayed (setFreq { bound := true } 2) 0 = 5 ∧ displayed (setFreq { bound := true } 2) 7 = 5 := by decide +kernel
/-- 246-278: frames of one dataset. -/
example : displayed (setDatasets (setFreq { bound := true } 1) ["data"]) 0 = 7 := by decide +kernel
/-- 310-345: frames with a tag. -/
example : displayed { setFreq { bound := true } 1 with tags := ["test_tag"] } 0 = 7 := by decide +kernel

open Verif.Headers

/-- The frame of 8-bit pixels of the fixture, lines 56-63. -/
def lvInfo : Info := ⟨2, "test".toList, "data".toList, .raw8, .none, [3, 4], 12, (List.range 12).map (· + 1), 0, []⟩

/-- 177-214: the header of a frame, and the image. -/
example : liveMessage (fun _ => none) [] lvInfo =
    ("{\"frame_num\":2,\"acquisition_id\":\"test\",\"dtype\":\"uint8\",\"dsize\":12,\"dataset\":\"data\",\"compression\":\"none\",\"shape\":[\"3\",\"4\"]}".toList,
     [1, 2, 3, 4, 5, 6, 7, 8, 9, 10, 11, 12]) := by decide +kernel
end

/-! ## KafkaProducerPluginTest.cpp -/
section
open Verif.Headers

/-- The frame of the fixture, lines 17-33; the number 3.14159265 is opaque. -/
def kInfo : Info := ⟨7, "test".toList, "data".toList, .raw16, .none, [3, 4], 24, img12, 0,
  [("PARAM1".toList, .ulong 0xabcde12345678912), ("PARAM2".toList, .float 0), ("PARAM3".toList, .text ['c'])]⟩

def kText : Ipc.Str := kafkaHeader (fun _ => some "3.14159".toList) true kInfo

/-- 78-108: the header. -/
example : kText = ("{\"data_size\":24,\"data_type\":2,\"frame_number\":7,\"acquisition_id\":\"test\",\"compression\":1,\"frame_offset\":0,\"dims\":[3,4],\"parameters\":{\"PARAM1\":12379798492315879698,\"PARAM2\":3.14159,\"PARAM3\":null}}").toList := by
  decide +kernel

/-- 46-76: size of the header, terminating zero, data and size of the message. -/
example : (match kafkaMessage (fun _ => some "3.14159".toList) true kInfo { data := img12 } with
    | .ok m =>
      let h := kText.length + 1
      decide (m.take 2 = [some (h % 256), some (h / 256)] ∧ m[2 + h - 1]? = some (some 0) ∧ m.drop (2 + h) = img12.map some ∧
        m.length = 2 + h + 24)
    | _ => false) = true := by decide +kernel
end

/-! ## BloscPluginTest.cpp:56-64: frames of two acquisitions are compressed. -/
example : (Blosc.run (fun _ => true) Blosc.init [.frame "scan1", .frame "scan1", .frame "scan2"]).2.map Option.isSome =
    [true, true, true] := by decide

end Verif.Conformance
