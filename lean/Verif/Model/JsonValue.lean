/-
Model of the memory of a rapidjson value.
Source: /repo/cpp/common/include/rapidjson/document.h: constructors 561-685, type queries 936-949, numbers 1645-1660, strings 1681-1686, flags 1811-1840,
layout 1845-1924, pointers 1926-1931, SetStringRaw 1960-1983, RawAssign 1986-1990; rapidjson.h 303-320.

A value is 16 bytes, a union of a string, a short string, a number and the flags in the last two bytes (48 bit pointers, little endian, x86-64). Memory
is a function from addresses to bytes, so that a short string, whose pointer is the address of the value itself, is read like any other.
-/
namespace Verif.JsonValue

/-- Memory: the byte at each address. -/
abbrev Mem := Nat → Nat

def store (m : Mem) (a : Nat) (bs : List Nat) : Mem := fun i => if a ≤ i ∧ i < a + bs.length then bs.getD (i - a) 0 else m i

def load (m : Mem) (a : Nat) : Nat → List Nat
  | 0 => []
  | n + 1 => m a :: load m (a + 1) n

/-- The bytes of an integer, the lowest first. -/
def le : Nat → Nat → List Nat
  | 0, _ => []
  | n + 1, v => v % 256 :: le n (v / 256)

def unle : List Nat → Nat
  | [] => 0
  | b :: l => b + 256 * unle l

def loadNat (m : Mem) (a n : Nat) : Nat := unle (load m a n)
def storeNat (m : Mem) (a n v : Nat) : Mem := store m a (le n v)

/-! Flags, document.h:1811-1840; `kNullType` to `kNumberType` are 0 to 6 (rapidjson.h:603-611). -/

def kBool : Nat := 0x0008
def kNumber : Nat := 0x0010
def kInt : Nat := 0x0020
def kUint : Nat := 0x0040
def kInt64 : Nat := 0x0080
def kUint64 : Nat := 0x0100
def kDouble : Nat := 0x0200
def kString : Nat := 0x0400
def kCopy : Nat := 0x0800
def kInlineStr : Nat := 0x1000

def nullFlag : Nat := 0
def trueFlag : Nat := 2 ||| kBool
def falseFlag : Nat := 1 ||| kBool
def numberIntFlag : Nat := 6 ||| kNumber ||| kInt ||| kInt64
def numberUintFlag : Nat := 6 ||| kNumber ||| kUint ||| kUint64 ||| kInt64
def numberInt64Flag : Nat := 6 ||| kNumber ||| kInt64
def numberUint64Flag : Nat := 6 ||| kNumber ||| kUint64
def numberDoubleFlag : Nat := 6 ||| kNumber ||| kDouble
def constStringFlag : Nat := 5 ||| kString
def copyStringFlag : Nat := 5 ||| kString ||| kCopy
def shortStringFlag : Nat := 5 ||| kString ||| kCopy ||| kInlineStr
def objectFlag : Nat := 3
def arrayFlag : Nat := 4

/-- `data_.f.flags`, document.h:1845-1854: behind the 14 bytes of the payload. -/
def flags (m : Mem) (v : Nat) : Nat := loadNat m (v + 14) 2
def setFlags (m : Mem) (v f : Nat) : Mem := storeNat m (v + 14) 2 f

/-! Constructors -/

/-- The value of `i` in a 64 bit register. -/
def toU64 (i : Int) : Nat := (i % (2^64 : Int)).toNat

/-- document.h:561. -/
def mkNull (m : Mem) (v : Nat) : Mem := setFlags m v nullFlag

/-- document.h:619-631. -/
def mkBool (m : Mem) (v : Nat) (b : Bool) : Mem := setFlags m v (if b then trueFlag else falseFlag)

/-- document.h:634-637. -/
def mkInt (m : Mem) (v : Nat) (i : Int) : Mem :=
  setFlags (storeNat m v 8 (toU64 i)) v (if 0 ≤ i then numberIntFlag ||| kUint ||| kUint64 else numberIntFlag)

/-- document.h:640-643. -/
def mkUint (m : Mem) (v u : Nat) : Mem :=
  setFlags (storeNat m v 8 u) v (if u &&& 0x80000000 ≠ 0 then numberUintFlag else numberUintFlag ||| kInt ||| kInt64)

/-- The flags of document.h:648-657. -/
def int64Flags (i : Int) : Nat :=
  if 0 ≤ i then
    numberInt64Flag ||| numberUint64Flag ||| (if toU64 i &&& 0xFFFFFFFF00000000 = 0 then kUint else 0)
      ||| (if toU64 i &&& 0xFFFFFFFF80000000 = 0 then kInt else 0)
  else if -2^31 ≤ i then numberInt64Flag ||| kInt
  else numberInt64Flag

/-- document.h:646-658. -/
def mkInt64 (m : Mem) (v : Nat) (i : Int) : Mem := setFlags (storeNat m v 8 (toU64 i)) v (int64Flags i)

/-- The flags of document.h:663-669. -/
def uint64Flags (u : Nat) : Nat :=
  numberUint64Flag ||| (if u &&& 0x8000000000000000 = 0 then kInt64 else 0) ||| (if u &&& 0xFFFFFFFF00000000 = 0 then kUint else 0)
    ||| (if u &&& 0xFFFFFFFF80000000 = 0 then kInt else 0)

/-- document.h:661-670. -/
def mkUint64 (m : Mem) (v u : Nat) : Mem := setFlags (storeNat m v 8 u) v (uint64Flags u)

/-- document.h:673; `d` are the bits of the double. -/
def mkDouble (m : Mem) (v d : Nat) : Mem := setFlags (storeNat m v 8 d) v numberDoubleFlag

/-- RAPIDJSON_SETPOINTER, rapidjson.h:315: the upper 16 bits, the flags, stay. -/
def setPointer (m : Mem) (v p : Nat) : Mem := storeNat m (v + 8) 8 ((loadNat m (v + 8) 8 &&& 0xFFFF000000000000) ||| p)

/-- RAPIDJSON_GETPOINTER, rapidjson.h:316. -/
def getPointer (m : Mem) (v : Nat) : Nat := loadNat m (v + 8) 8 &&& 0x0000FFFFFFFFFFFF

/-- SetStringRaw without a copy, document.h:1960-1964. -/
def mkConstString (m : Mem) (v p len : Nat) : Mem := storeNat (setPointer (setFlags m v constStringFlag) v p) v 4 len

/-- ShortString::MaxSize, document.h:1871. -/
def maxSize : Nat := 13

/-- SetStringRaw with a copy, document.h:1967-1983; `p` is what the allocator returns. -/
def mkString (m : Mem) (v p : Nat) (s : List Nat) : Mem :=
  if s.length ≤ maxSize then
    store (store (store (setFlags m v shortStringFlag) (v + maxSize) [maxSize - s.length]) v s) (v + s.length) [0]
  else
    store (store (setPointer (storeNat (setFlags m v copyStringFlag) v 4 s.length) v p) p s) (p + s.length) [0]

/-! Queries -/

def has (m : Mem) (v f : Nat) : Bool := flags m v &&& f != 0

/-- GetType, document.h:936. -/
def getType (m : Mem) (v : Nat) : Nat := flags m v &&& 7

def isNull (m : Mem) (v : Nat) : Bool := flags m v == nullFlag
def isTrue (m : Mem) (v : Nat) : Bool := flags m v == trueFlag
def isFalse (m : Mem) (v : Nat) : Bool := flags m v == falseFlag
def isObject (m : Mem) (v : Nat) : Bool := flags m v == objectFlag
def isArray (m : Mem) (v : Nat) : Bool := flags m v == arrayFlag
def isBool (m : Mem) (v : Nat) : Bool := has m v kBool
def isNumber (m : Mem) (v : Nat) : Bool := has m v kNumber
def isInt (m : Mem) (v : Nat) : Bool := has m v kInt
def isUint (m : Mem) (v : Nat) : Bool := has m v kUint
def isInt64 (m : Mem) (v : Nat) : Bool := has m v kInt64
def isUint64 (m : Mem) (v : Nat) : Bool := has m v kUint64
def isDouble (m : Mem) (v : Nat) : Bool := has m v kDouble
def isString (m : Mem) (v : Nat) : Bool := has m v kString

/-- The value of the bits of an `int` and of an `int64_t`. -/
def signed (n bits : Nat) : Int := if bits < 2^(8 * n - 1) then bits else (bits : Int) - 2^(8 * n)

/-- document.h:1645-1648; assertions are `none`. -/
def getInt (m : Mem) (v : Nat) : Option Int := if isInt m v then some (signed 4 (loadNat m v 4)) else none
def getUint (m : Mem) (v : Nat) : Option Nat := if isUint m v then some (loadNat m v 4) else none
def getInt64 (m : Mem) (v : Nat) : Option Int := if isInt64 m v then some (signed 8 (loadNat m v 8)) else none
def getUint64 (m : Mem) (v : Nat) : Option Nat := if isUint64 m v then some (loadNat m v 8) else none

/-- What GetDouble, document.h:1653-1660, returns: the bits of a double, or an integer that is converted. -/
inductive Real where
  | bits (d : Nat)
  | int (i : Int)
  deriving DecidableEq, Repr

def getDouble (m : Mem) (v : Nat) : Option Real :=
  if !isNumber m v then none
  else if isDouble m v then some (.bits (loadNat m v 8))
  else if isInt m v then some (.int (signed 4 (loadNat m v 4)))
  else if isUint m v then some (.int (loadNat m v 4))
  else if isInt64 m v then some (.int (signed 8 (loadNat m v 8)))
  else if isUint64 m v then some (.int (loadNat m v 8))
  else none

/-- GetString and GetStringLength, document.h:1681 and 1686. -/
def stringPointer (m : Mem) (v : Nat) : Nat := if has m v kInlineStr then v else getPointer m v
def stringLength (m : Mem) (v : Nat) : Nat := if has m v kInlineStr then maxSize - m (v + maxSize) else loadNat m v 4

/-- The characters that a user of the value reads. -/
def getString (m : Mem) (v : Nat) : Option (List Nat) := if isString m v then some (load m (stringPointer m v) (stringLength m v)) else none

/-- RawAssign, document.h:1986-1990: the 16 bytes are copied and the source becomes null. -/
def rawAssign (m : Mem) (dst src : Nat) : Mem := setFlags (store m dst (load m src 16)) src nullFlag

end Verif.JsonValue
