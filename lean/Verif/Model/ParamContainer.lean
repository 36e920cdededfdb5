import Verif.Model.IpcMessage
/-
Model of parameter containers.
Source: /repo/cpp/common/include/ParamContainer.h: bind_param 128-165, vector_param_set 210-225, vector_param_get 237-252, pointer_path 291-302;
/repo/cpp/common/src/ParamContainer.cpp: encode 64-89, update 99-189, set_value and get_value.

JSON trees as in `Verif.Model.IpcMessage`; the text form is not modelled. JSON pointers: tokens are the parts between
slashes; escapes (`~`) and tokens that are array indices are not modelled. A container is the list of its bindings in
the order of the maps; two bindings to one path (the second replaces the first) are not modelled. The range of a
double is not modelled; `conv` converts an integer to a double. `*path.begin()` of an empty path is taken to read the
terminating NUL.
-/
namespace Verif.Params
open Verif.Ipc

inductive Ty
  | int | uint | u16 | i64 | u64 | dbl | str | bool | doc
deriving DecidableEq, Repr

/-- The value of a parameter of one of these types. -/
inductive Sc
  | num (i : Int) | dbl (d : Nat) | str (s : Str) | bool (b : Bool) | doc (j : Json)

inductive Val
  | one (v : Sc)
  | vec (l : List Sc)

structure Binding where
  path : Str
  ty : Ty
  val : Val

/-- What a C string holds: everything before the first NUL. -/
def cstr (s : Str) : Str := s.takeWhile (· ≠ '\x00')

def inRange (lo hi i : Int) : Option Sc := if lo ≤ i ∧ i < hi then some (.num i) else none

/-- `set_value`, ParamContainer.cpp 194-296: `none` is a failed rapidjson assertion, which throws. -/
def setValue (conv : Int → Nat) : Ty → Json → Option Sc
  | .int, .num i => inRange (-2 ^ 31) (2 ^ 31) i
  | .uint, .num i => inRange 0 (2 ^ 32) i
  | .u16, .num i => if 0 ≤ i ∧ i < 2 ^ 32 then some (.num (i % 2 ^ 16)) else none
  | .i64, .num i => inRange (-2 ^ 63) (2 ^ 63) i
  | .u64, .num i => inRange 0 (2 ^ 64) i
  | .dbl, .num i => some (.dbl (conv i))
  | .dbl, .dbl d => some (.dbl d)
  | .str, .str s => some (.str (cstr s))
  | .bool, .bool b => some (.bool b)
  | .doc, j => some (.doc j)
  | _, _ => none

/-- `get_value`, ParamContainer.cpp 194-296. -/
def getValue : Sc → Json
  | .num i => .num i
  | .dbl d => .dbl d
  | .str s => .str (cstr s)
  | .bool b => .bool b
  | .doc j => j

/-- `param_get` and `vector_param_get`. -/
def getVal : Val → Json
  | .one v => getValue v
  | .vec l => .arr (l.map getValue)

/-- The loop of `vector_param_set`: what has been pushed, and whether the end was reached. -/
def pushAll (conv : Int → Nat) (t : Ty) : List Json → List Sc × Bool
  | [] => ([], true)
  | j :: js =>
    match setValue conv t j with
    | some v => (v :: (pushAll conv t js).1, (pushAll conv t js).2)
    | none => ([], false)

/-- `param_set` and `vector_param_set`: the parameter afterwards, and false if an exception is thrown. -/
def setVal (conv : Int → Nat) (t : Ty) : Val → Json → Val × Bool
  | .one v, j =>
    match setValue conv t j with
    | some w => (.one w, true)
    | none => (.one v, false)
  | .vec _, .arr js => (.vec (pushAll conv t js).1, (pushAll conv t js).2)
  | .vec _, _ => (.vec [], false)

/-- ParamContainer.h, `pointer_path`. -/
def pointerPath (s : Str) : Str := if s.head? = some '/' then s else '/' :: s

/-- The tokens of a JSON pointer that begins with a slash. -/
def tokens (s : Str) : List Str := splitAll (s.drop 1)

/-- `rapidjson::Pointer::Set`: what is in the way is replaced by an object. -/
def putP (v : Json) : List Str → Json → Json
  | [], _ => v
  | k :: ks, .obj l =>
    match findM l k with
    | some x => .obj (setM l k (putP v ks x))
    | none => .obj (l ++ [(k, putP v ks .null)])
  | k :: ks, _ => .obj [(k, putP v ks .null)]

/-- ParamContainer.cpp 64-76: the prefix. -/
def pointerPrefix (pre : Str) : Str :=
  if pre = [] then ['/']
  else if pre.getLast? = some '/' then '/' :: pre else '/' :: pre ++ ['/']

/-- ParamContainer.cpp 64-89. -/
def encode (bs : List Binding) (pre : Str) (doc : Json) : Json :=
  bs.foldl (fun d b => putP (getVal b.val) (tokens (pointerPrefix pre ++ b.path)) d) doc

/-- One binding of the loop 176-188. -/
def updateOne (conv : Int → Nat) (doc : Json) (b : Binding) : Binding × Bool :=
  match get (tokens (pointerPath b.path)) doc with
  | some j => ({ b with val := (setVal conv b.ty b.val j).1 }, (setVal conv b.ty b.val j).2)
  | none => (b, true)

/-- ParamContainer.cpp 171-189: the bindings afterwards, and false if an exception left the loop. -/
def update (conv : Int → Nat) (doc : Json) : List Binding → List Binding × Bool
  | [] => ([], true)
  | b :: bs =>
    if (updateOne conv doc b).2 then ((updateOne conv doc b).1 :: (update conv doc bs).1, (update conv doc bs).2)
    else ((updateOne conv doc b).1 :: bs, false)

end Verif.Params
