/-
Model of who owns the memory of JSON values: deep copies, and what is taken from parameter containers and messages.
Source: /repo/cpp/common/include/rapidjson/document.h: Accept 1768-1803, CopyFrom 805-810 and 2405-2434, the handlers of GenericDocument 2333-2373,
SetArrayRaw and SetObjectRaw 1934-1957, RawAssign 1986-1990; pointer.h: Create and Set 463-506 and 610-612;
/repo/cpp/common/src/ParamContainer.cpp: encode 68-89, get_value 194-296; ParamContainer.h: vector_param_get 237-252;
/repo/cpp/common/src/IpcMessage.cpp: copy_params 439-450, set_param of a value 890-898; IpcMessage.h: get_param 141-167.

A value says for each part where its memory is. Strings of up to 13 characters that are copied are inside the value (`Verif.Model.JsonValue`); they are
modelled like longer ones, as if they were in the memory of the allocator, which only makes more depend on it. Names of members are copied with the object.
-/
namespace Verif.JsonCopy

abbrev Str := List Char

/-- Where memory is: in the pool of an allocator, in a std::string of a container, or in the program text. -/
inductive Owner where
  | pool (p : Nat)
  | param (container index : Nat)
  | static
  deriving DecidableEq, Repr

/-- A value. A string that is not copied (`kConstStringFlag`) has an owner that is no pool. -/
inductive Val where
  | null
  | bool (b : Bool)
  | num (i : Int)
  | dbl (d : Nat)
  | str (copy : Bool) (o : Owner) (s : Str)
  | arr (o : Owner) (l : List Val)
  | obj (o : Owner) (l : List (Val × Val))

/-- What `Accept` tells a handler. -/
inductive Ev where
  | null
  | bool (b : Bool)
  | num (i : Int)
  | dbl (d : Nat)
  | str (copy : Bool) (o : Owner) (s : Str)
  | startObj
  | endObj (n : Nat)
  | startArr
  | endArr (n : Nat)

mutual
/-- Accept, document.h:1768-1803. -/
def accept : Val → List Ev
  | .null => [.null]
  | .bool b => [.bool b]
  | .num i => [.num i]
  | .dbl d => [.dbl d]
  | .str c o s => [.str c o s]
  | .arr _ l => .startArr :: (acceptL l ++ [.endArr l.length])
  | .obj _ l => .startObj :: (acceptM l ++ [.endObj l.length])

def acceptL : List Val → List Ev
  | [] => []
  | v :: l => accept v ++ acceptL l

def acceptM : List (Val × Val) → List Ev
  | [] => []
  | (k, v) :: l => accept k ++ (accept v ++ acceptM l)
end

/-- Values that follow each other on the stack, taken as members. -/
def pairs : List Val → List (Val × Val)
  | a :: b :: l => (a, b) :: pairs l
  | _ => []

/-- A string for the stack: GenericValue with or without an allocator, document.h:2349-2355. -/
def string (p : Nat) (copy : Bool) (o : Owner) (s : Str) : Val := if copy then .str true (.pool p) s else .str false o s

/-- EndArray, document.h:2369-2373, with SetArrayRaw 1934-1944; the stack has its top in front. -/
def endArr (p n : Nat) (st : List Val) : Option (List Val) :=
  match st.drop n with
  | .arr _ _ :: rest => some (.arr (.pool p) (st.take n).reverse :: rest)
  | _ => none

/-- EndObject, document.h:2361-2365, with SetObjectRaw 1947-1957. -/
def endObj (p n : Nat) (st : List Val) : Option (List Val) :=
  match st.drop (2 * n) with
  | .obj _ _ :: rest => some (.obj (.pool p) (pairs (st.take (2 * n)).reverse) :: rest)
  | _ => none

/-- The handlers of GenericDocument, document.h:2333-2373; `none`: what is on the stack does not fit. -/
def handle (p : Nat) (st : List Val) : Ev → Option (List Val)
  | .null => some (.null :: st)
  | .bool b => some (.bool b :: st)
  | .num i => some (.num i :: st)
  | .dbl d => some (.dbl d :: st)
  | .str c o s => some (string p c o s :: st)
  | .startObj => some (.obj (.pool p) [] :: st)
  | .startArr => some (.arr (.pool p) [] :: st)
  | .endArr n => endArr p n st
  | .endObj n => endObj p n st

def handleAll (p : Nat) : List Val → List Ev → Option (List Val)
  | st, [] => some st
  | st, e :: l => (handle p st e).bind (fun st => handleAll p st l)

/-- The value that is popped at the end, document.h:2415. -/
def popped : Option (List Val) → Option Val
  | some [v] => some v
  | _ => none

/-- CopyFrom with the allocator `p`, document.h:805-810 and 2408-2434. -/
def copyFrom (p : Nat) (v : Val) : Option Val :=
  match v with
  | .arr o l => popped (handleAll p [] (accept (.arr o l)))
  | .obj o l => popped (handleAll p [] (accept (.obj o l)))
  | .str c o s => some (string p c o s)
  | v => some v

/-! What is taken from a container -/

/-- Parameters of a container. -/
inductive Param where
  | num (i : Int)
  | dbl (d : Nat)
  | bool (b : Bool)
  | str (s : Str)
  | doc (v : Val)
  | strs (l : List Str)
  | nums (l : List Int)

/-- Strings of a vector from the index `k` on. -/
def refs (container k : Nat) : List Str → List Val
  | [] => []
  | s :: l => .str false (.param container k) s :: refs container (k + 1) l

/-- get_value, ParamContainer.cpp:194-296, and vector_param_get, ParamContainer.h:237-252. `docPool` is the allocator of `doc_` of the container, and
`own` that of a parameter that is a document. A string is not copied (275). -/
def getValue (container docPool own : Nat) : Param → Option Val
  | .num i => some (.num i)
  | .dbl d => some (.dbl d)
  | .bool b => some (.bool b)
  | .str s => some (.str false (.param container 0) s)
  | .doc v => copyFrom own v
  | .strs l => some (.arr (.pool docPool) (refs container 0 l))
  | .nums l => some (.arr (.pool docPool) (l.map .num))

/-- The value as it is in the document after encode, ParamContainer.cpp:80-88: Set of a value that is not const moves it (pointer.h:610-612). -/
def encoded (container docPool own : Nat) (q : Param) : Option Val := getValue container docPool own q

/-! What is taken from and put into a message -/

/-- copy_params, IpcMessage.cpp:439-450, with `found` what the pointer leads to: null is dereferenced if there is nothing. The copy is made with the
allocator of the message. -/
def copyParams (messagePool : Nat) (found : Option Val) : Option Val :=
  match found with
  | none => none
  | some v => copyFrom messagePool v

/-- set_param of a value, IpcMessage.cpp:890-898, and the constructor from a value, 125-142. -/
def setParam (messagePool : Nat) (v : Val) : Option Val := copyFrom messagePool v

/-- FindMember, document.h: the first member with the name. -/
def find (n : Str) : List (Val × Val) → Option Val
  | [] => none
  | (.str _ _ s, v) :: l => if s = n then some v else find n l
  | _ :: l => find n l

def findIn (n : Str) : Val → Option Val
  | .obj _ l => find n l
  | _ => none

/-- get_param of a reference to a value, IpcMessage.h:141-167 with 772-776 of IpcMessage.cpp, in the message `k` with the parameters `v`, for the parts of
a name between slashes: the pool that the reference leads into, and the value there. For a name with a slash a message with a copy is made (154), here
with the number `k + 1`, which is gone when the function returns. `none`: an exception, or an assertion for what is no object. -/
def getRef (k : Nat) (v : Val) : List Str → Option (Nat × Val)
  | [] => none
  | [n] => (findIn n v).map (fun w => (k, w))
  | n :: m :: l => (findIn n v).bind (fun w => (copyFrom (k + 1) w).bind (fun w => getRef (k + 1) w (m :: l)))

end Verif.JsonCopy
