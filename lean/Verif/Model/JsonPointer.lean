import Verif.Model.ParamContainer
/-
Model of JSON pointers.
Source: /repo/cpp/common/include/rapidjson/pointer.h: GenericPointer, Parse 802-932 (without the URI fragment form, which begins with '#': all
pointers of odin-data begin with a slash, ParamContainer.h:291-302, ParamContainer.cpp:67-86, IpcMessage.cpp:415 and 441), Create 401-445, Get 479-506,
Set 643-645; /repo/cpp/common/src/ParamContainer.cpp: encode 64-89, update 171-189.

JSON trees as in `Verif.Model.IpcMessage`. Memory for the elements of an array does not run out. An invalid pointer fails the assertion
`IsValid`, which throws: `none`.
-/
namespace Verif.JsonPointer
open Verif.Ipc Verif.Params

/-- `kPointerInvalidIndex`, pointer.h:33. -/
def invalid : Nat := 2 ^ 32 - 1

/-- `Token`, pointer.h:98-103. -/
structure Token where
  name : Str
  index : Nat
  deriving DecidableEq, Repr

/-- The inner loop of `Parse`, pointer.h:840-894, behind a slash: the name and what follows it, or an invalid escape. -/
def scan : Str → Option (Str × Str)
  | [] => some ([], [])
  | c :: s =>
    if c = '/' then some ([], c :: s)
    else if c = '~' then
      match s with
      | [] => none
      | d :: s' =>
        if d = '0' then (scan s').map fun r => ('~' :: r.1, r.2)
        else if d = '1' then (scan s').map fun r => ('/' :: r.1, r.2)
        else none
    else (scan s).map fun r => (c :: r.1, r.2)

/-- `isNumber`, pointer.h:890-891, 896-897 and 901-902. -/
def isNumber (name : Str) : Bool :=
  name.all (fun c => '0' ≤ c && c ≤ '9') && name.length != 0 && !(decide (name.length > 1) && name.head? == some '0')

/-- The conversion, pointer.h:905-915: the `SizeType`, or false for an overflow that was noticed. -/
def convert (n : Nat) : Str → Nat × Bool
  | [] => (n, true)
  | c :: s => if (n * 10 + (c.toNat - 48)) % 2 ^ 32 < n then (n, false) else convert ((n * 10 + (c.toNat - 48)) % 2 ^ 32) s

/-- pointer.h:896-917. -/
def toIndex (name : Str) : Nat := if isNumber name then (if (convert 0 name).2 then (convert 0 name).1 else invalid) else invalid

/-- The outer loop of `Parse`, pointer.h:833-919. The first argument bounds the number of rounds. -/
def parseLoop : Nat → Str → Option (List Token)
  | _, [] => some []
  | 0, _ :: _ => none
  | fuel + 1, _ :: s =>
    match scan s with
    | none => none
    | some r => (parseLoop fuel r.2).map fun ts => ⟨r.1, toIndex r.1⟩ :: ts

/-- `Parse`, pointer.h:802-932, of a text that does not begin with '#'. -/
def parse (s : Str) : Option (List Token) :=
  match s with
  | [] => some []
  | c :: _ => if c = '/' then parseLoop s.length s else none

/-- `Get`, pointer.h:479-506. -/
def find : List Token → Json → Option Json
  | [], j => some j
  | t :: ts, .obj l => (findM l t.name).bind (find ts)
  | t :: ts, .arr l => if t.index = invalid ∨ t.index ≥ l.length then none else l[t.index]?.bind (find ts)
  | _ :: _, _ => none

/-- `Reserve` and `PushBack`, pointer.h:424-428. -/
def grow (l : List Json) (i : Nat) : List Json := l ++ List.replicate (i + 1 - l.length) .null

/-- The element of an array, which is null if it was just made. -/
def elem (l : List Json) (i : Nat) : Json := (l[i]?).getD .null

/-- `Create` and the assignment, pointer.h:401-445 and 643-645. -/
def put (v : Json) : List Token → Json → Json
  | [], _ => v
  | t :: ts, .arr l =>
    if t.name = ['-'] then .arr (l ++ [put v ts .null])
    else if t.index = invalid then .obj [(t.name, put v ts .null)]
    else .arr ((grow l t.index).set t.index (put v ts (elem l t.index)))
  | t :: ts, .obj l =>
    match findM l t.name with
    | some x => .obj (setM l t.name (put v ts x))
    | none => .obj (l ++ [(t.name, put v ts .null)])
  | t :: ts, _ =>
    if t.index = invalid then .obj [(t.name, put v ts .null)]
    else .arr ((grow [] t.index).set t.index (put v ts .null))

/-- The pointer of a binding when it is encoded, ParamContainer.cpp:86-87. -/
def encodePath (pre : Str) (b : Binding) : Str := cstr (pointerPrefix pre ++ b.path)

/-- `encode`, ParamContainer.cpp:64-89; `none`: an exception. -/
def encode (pre : Str) : List Binding → Json → Option Json
  | [], d => some d
  | b :: bs, d =>
    match parse (encodePath pre b) with
    | none => none
    | some ts => encode pre bs (put (getVal b.val) ts d)

/-- One round of the loop of `update`, ParamContainer.cpp:178-187; false: an exception. -/
def updateOne (conv : Int → Nat) (doc : Json) (b : Binding) : Binding × Bool :=
  match parse (cstr (pointerPath b.path)) with
  | none => (b, false)
  | some ts =>
    match find ts doc with
    | some j => ({ b with val := (setVal conv b.ty b.val j).1 }, (setVal conv b.ty b.val j).2)
    | none => (b, true)

/-- `update`, ParamContainer.cpp:171-189. -/
def update (conv : Int → Nat) (doc : Json) : List Binding → List Binding × Bool
  | [] => ([], true)
  | b :: bs =>
    if (updateOne conv doc b).2 then ((updateOne conv doc b).1 :: (update conv doc bs).1, (update conv doc bs).2)
    else ((updateOne conv doc b).1 :: bs, false)

end Verif.JsonPointer
