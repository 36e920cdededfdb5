import Verif.Model.IpcMessage
import Verif.Model.Times
/-
Model of the comparison of two messages.
Source: /repo/cpp/common/src/IpcMessage.cpp: operator== 462-500, has_params 713-722;
/repo/cpp/common/include/rapidjson/document.h: operator== of values 852-891, FindMember with a C string 1132-1135.

A double is given by its 64 bits. Conversion of an integer to a double rounds to the nearest one (Model/Times).
-/
namespace Verif.MessageEq
open Verif.Ipc

/-- The 64 bits in which an integer of either sign is kept, `data_.n.u64`, document.h:886. -/
def stored (i : Int) : Int := i % 2 ^ 64

/-- Not a number: all bits of the exponent, and some of the fraction. -/
def isNaN (b : Nat) : Bool := b / 2 ^ 52 % 2048 == 2047 && b % 2 ^ 52 != 0

/-- Zero of either sign. -/
def isZero (b : Nat) : Bool := b % 2 ^ 63 == 0

/-- `a >= b && a <= b` of two doubles, document.h:883. -/
def dblEq (a b : Nat) : Bool := !isNaN a && !isNaN b && (a == b || (isZero a && isZero b))

/-- The fraction with its leading bit. -/
def mantissa (b : Nat) : Nat := if b / 2 ^ 52 % 2048 = 0 then b % 2 ^ 52 else 2 ^ 52 + b % 2 ^ 52

/-- The exponent; the value is `mantissa * 2 ^ (scale - 1075)`. -/
def scale (b : Nat) : Nat := max (b / 2 ^ 52 % 2048) 1

/-- The magnitude of a double that is an integer. -/
def magnitude (b : Nat) : Option Nat :=
  if b / 2 ^ 52 % 2048 = 2047 then none
  else if 1075 ≤ scale b then some (mantissa b * 2 ^ (scale b - 1075))
  else if mantissa b % 2 ^ (1075 - scale b) = 0 then some (mantissa b / 2 ^ (1075 - scale b))
  else none

/-- The value of a double that is an integer. -/
def intOf (b : Nat) : Option Int := (magnitude b).map (fun (m : Nat) => if b / 2 ^ 63 = 0 then (m : Int) else -(m : Int))

/-- An integer, converted, and a double: document.h:880-884. -/
def mixedEq (i : Int) (b : Nat) : Bool := intOf b == some (Times.rndInt i)

mutual
/-- `operator==` of values, document.h:852-891: objects have equally many members, and each member is found with an equal
value. -/
def valEq : Json → Json → Bool
  | .null, .null => true
  | .bool a, .bool b => a == b
  | .num a, .num b => stored a == stored b
  | .dbl a, .dbl b => dblEq a b
  | .num a, .dbl b => mixedEq a b
  | .dbl a, .num b => mixedEq b a
  | .str a, .str b => a == b
  | .arr a, .arr b => listEq a b
  | .obj a, .obj b => a.length == b.length && membersEq a b
  | _, _ => false

/-- document.h:868-874. -/
def listEq : List Json → List Json → Bool
  | [], [] => true
  | a :: l, b :: k => valEq a b && listEq l k
  | _, _ => false

/-- Every member of the first object is found in the second one, with an equal value, document.h:861-866. -/
def membersEq : List (Str × Json) → List (Str × Json) → Bool
  | [], _ => true
  | (n, v) :: l, b =>
    (match findM b n with
     | some w => valEq v w
     | none => false) && membersEq l b
end

/-- A name as a C string. -/
def cut (n : Str) : Str := n.takeWhile (· != '\x00')

/-- Every parameter is found by its name as a C string, IpcMessage.cpp:484-496. -/
def paramsEq : List (Str × Json) → List (Str × Json) → Bool
  | [], _ => true
  | (n, v) :: l, b =>
    (match findM b (cut n) with
     | some w => valEq v w
     | none => false) && paramsEq l b

/-- The parameters, if there are any, IpcMessage.cpp:713-722. -/
def block : Option Json → Option (List (Str × Json))
  | some (.obj l) => some l
  | _ => none

/-- IpcMessage.cpp:471-497. -/
def blockEq : Option (List (Str × Json)) → Option (List (Str × Json)) → Bool
  | some l, some k => l.length == k.length && paramsEq l k
  | none, none => true
  | _, _ => false

/-- `operator==` of messages, IpcMessage.cpp:462-500. -/
def equal (a b : Msg) : Bool :=
  decide (a.type = b.type) && decide (a.val = b.val) && blockEq (block a.params) (block b.params)

end Verif.MessageEq
