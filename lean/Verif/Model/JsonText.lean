import Verif.Model.IpcMessage
import Verif.Model.Receiver
/-
Model of writing and reading JSON text.
Source: /repo/cpp/common/include/rapidjson/writer.h: the events 172-232, WriteString 345-417, Prefix 437-455;
document.h: Accept 1768-1805; reader.h: SkipWhitespace 264-271, Parse 485-516, ParseObject 589-653, ParseArray 657-702,
ParseNull, ParseTrue and ParseFalse 705-741, ParseHex4 755-774, ParseStringToStream 840-905, ParseNumber 1133-1388,
ParseValue 1392-1405; encodings.h: Encode 102-121. All documents of /repo/cpp are read with the default flags and
written by a `Writer` with the default flags, UTF-8 on both sides.

A text is a list of characters, one for each byte. The reader stops at the first NUL character, as its stream is a
`const char *`. Numbers that are not integers of 64 bits are opaque: the parameter `D` gives the text written for one
(`none`: the writer refuses it, NaN or infinity, writer.h:318-320), and the parameter `V` the number read from a text of
the number grammar (`none`: `kParseErrorNumberTooBig`). The stack holds a given number of nested calls of `ParseValue`;
one more is a crash.
-/
namespace Verif.JsonText
open Verif.Ipc (Str Json)

/-! ## Writing -/

/-- The calls made to a writer, writer.h:172-232; `Key` is `String`. -/
inductive Ev
  | null
  | bool (b : Bool)
  | num (i : Int)                       -- `Int`, `Uint`, `Int64`, `Uint64`
  | dbl (d : Nat)
  | str (s : Str)
  | startObj
  | endObj
  | startArr
  | endArr
  deriving DecidableEq

/-- A writer: the text so far, the levels (number of values, is an array) from the inside out, whether there is a root,
and whether an assertion has failed. -/
structure Wr where
  out : Str := []
  levels : List (Nat × Bool) := []
  root : Bool := false
  bad : Bool := false

/-- What `Prefix` writes in front of a value, writer.h:441-446. -/
def sep (n : Nat) (inArray : Bool) : Str :=
  if n = 0 then [] else if inArray then [','] else if n % 2 = 0 then [','] else [':']

def Wr.put (w : Wr) (s : Str) : Wr := { w with out := w.out ++ s }

/-- `Prefix`, writer.h:437-455. -/
def Wr.pre (w : Wr) (isStr : Bool) : Wr :=
  match w.levels with
  | [] => if w.root then { w with bad := true } else { w with root := true }
  | (n, inArray) :: l =>
    if !inArray && n % 2 == 0 && !isStr then { w with bad := true }
    else { w with out := w.out ++ sep n inArray, levels := (n + 1, inArray) :: l }

def Wr.push (w : Wr) (inArray : Bool) : Wr := { w with levels := (0, inArray) :: w.levels }

/-- The end of an object or array: assertions at writer.h:214-215 and 228-229. -/
def Wr.pop (w : Wr) (inArray : Bool) : Wr :=
  match w.levels with
  | [] => { w with bad := true }
  | (_, a) :: l => if a = inArray then { w with levels := l } else { w with bad := true }

/-- `hexDigits`, writer.h:346. -/
def hexDigit (n : Nat) : Char := if n < 10 then Char.ofNat (48 + n) else Char.ofNat (55 + n)

/-- One character of a string, writer.h:347-357 and 399-413. -/
def escChar (c : Char) : Str :=
  match c with
  | '"' => ['\\', '"']
  | '\\' => ['\\', '\\']
  | '\x08' => ['\\', 'b']
  | '\t' => ['\\', 't']
  | '\n' => ['\\', 'n']
  | '\x0c' => ['\\', 'f']
  | '\r' => ['\\', 'r']
  | c => if c.toNat < 32 then ['\\', 'u', '0', '0', hexDigit (c.toNat / 16), hexDigit (c.toNat % 16)] else [c]

/-- `WriteString`, writer.h:345-417. -/
def quoted (s : Str) : Str := '"' :: s.flatMap escChar ++ ['"']

/-- `WriteInt`, `WriteUint`, `WriteInt64`, `WriteUint64`: decimal digits after a minus for negative numbers
(/repo/cpp/common/include/rapidjson/internal/itoa.h). -/
def decimal (i : Int) : Str := if i < 0 then '-' :: Receiver.dec i.natAbs else Receiver.dec i.natAbs

/-- A call of the writer. Nothing happens after a failed assertion (an exception or an abort). -/
def step (D : Nat → Option Str) (w : Wr) (e : Ev) : Wr :=
  if w.bad then w else
  match e with
  | .null => (w.pre false).put "null".toList
  | .bool true => (w.pre false).put "true".toList
  | .bool false => (w.pre false).put "false".toList
  | .num i => (w.pre false).put (decimal i)
  | .dbl d => (w.pre false).put ((D d).getD [])
  | .str s => (w.pre true).put (quoted s)
  | .startObj => ((w.pre false).push false).put ['{']
  | .endObj => (w.pop false).put ['}']
  | .startArr => ((w.pre false).push true).put ['[']
  | .endArr => (w.pop true).put [']']

def run (D : Nat → Option Str) (w : Wr) (l : List Ev) : Wr := l.foldl (step D) w

mutual
/-- `Accept`, document.h:1768-1805: the calls made for a document if none is refused (see `upTo`). -/
def events : Json → List Ev
  | .null => [.null]
  | .bool b => [.bool b]
  | .num i => [.num i]
  | .dbl d => [.dbl d]
  | .str s => [.str s]
  | .arr l => .startArr :: (eventsL l ++ [.endArr])
  | .obj l => .startObj :: (eventsM l ++ [.endObj])
/-- document.h:1789-1791. -/
def eventsL : List Json → List Ev
  | [] => []
  | j :: l => events j ++ eventsL l
/-- document.h:1777-1783. -/
def eventsM : List (Str × Json) → List Ev
  | [] => []
  | (k, j) :: l => .str k :: (events j ++ eventsM l)
end

/-- The calls up to and including the first refused one: `Accept` returns false at once (document.h:1775-1791). -/
def upTo (D : Nat → Option Str) : List Ev → List Ev
  | [] => []
  | .dbl d :: l => .dbl d :: (if (D d).isNone then [] else upTo D l)
  | e :: l => e :: upTo D l

/-- The text written for a document, which the callers take whatever `Accept` returned (IpcMessage.cpp:392-398). -/
def write (D : Nat → Option Str) (j : Json) : Str := (run D {} (upTo D (events j))).out

/-! ## Reading -/

/-- What a function of the reader does: a value and the text that is left, a parse error, or a crash for lack of stack.
`stuck`: the model's own loop counter ran out, which is shown to be impossible. -/
inductive R (α : Type)
  | ok (v : α) (rest : Str)
  | err
  | deep
  | stuck

def R.bind {α β : Type} (r : R α) (f : α → Str → R β) : R β :=
  match r with
  | .ok v s => f v s
  | .err => .err
  | .deep => .deep
  | .stuck => .stuck

/-- Put characters in front of a string that was read. -/
def R.front (l : Str) (r : R Str) : R Str := r.bind (fun s rest => .ok (l ++ s) rest)

/-- reader.h:269. -/
def isWs (c : Char) : Bool := c == ' ' || c == '\n' || c == '\r' || c == '\t'

/-- `SkipWhitespace`, reader.h:264-271 (comments are not allowed by the default flags). -/
def skipWs (s : Str) : Str := s.dropWhile isWs

/-- `is.Peek() == '\0'`. -/
def atEnd : Str → Bool
  | [] => true
  | c :: _ => c == '\x00'

/-- `Consume` of the rest of a word, reader.h:709, 722 and 735. -/
def word (w : Str) (v : Json) (s : Str) : R Json :=
  if w.isPrefixOf s then .ok v (s.drop w.length) else .err

/-- The table of escapes, reader.h:843-849. -/
def escOf (c : Char) : Option Char :=
  match c with
  | '"' => some '"'
  | '/' => some '/'
  | '\\' => some '\\'
  | 'b' => some '\x08'
  | 'f' => some '\x0c'
  | 'n' => some '\n'
  | 'r' => some '\r'
  | 't' => some '\t'
  | _ => none

/-- A digit of `ParseHex4`, reader.h:758-770. -/
def hexVal (c : Char) : Option Nat :=
  let n := c.toNat
  if 48 ≤ n ∧ n ≤ 57 then some (n - 48)
  else if 65 ≤ n ∧ n ≤ 70 then some (n - 55)
  else if 97 ≤ n ∧ n ≤ 102 then some (n - 87)
  else none

/-- `UTF8<>::Encode`, encodings.h:102-121. -/
def utf8 (cp : Nat) : Str :=
  if cp ≤ 0x7F then [Char.ofNat cp]
  else if cp ≤ 0x7FF then [Char.ofNat (0xC0 + cp / 64), Char.ofNat (0x80 + cp % 64)]
  else if cp ≤ 0xFFFF then
    [Char.ofNat (0xE0 + cp / 4096), Char.ofNat (0x80 + cp / 64 % 64), Char.ofNat (0x80 + cp % 64)]
  else
    [Char.ofNat (0xF0 + cp / 262144), Char.ofNat (0x80 + cp / 4096 % 64), Char.ofNat (0x80 + cp / 64 % 64),
     Char.ofNat (0x80 + cp % 64)]

/-- The code point of a surrogate pair, reader.h:879. -/
def surrogates (lead trail : Nat) : Nat := (lead - 0xD800) * 1024 + (trail - 0xDC00) + 0x10000

/-- Where the loop of `ParseStringToStream` is: at a character; after a backslash; in `ParseHex4` with so many digits to
go after the next one, the value so far and the first half of a surrogate pair; before the backslash and before the `u`
of the second half. -/
inductive At
  | plain
  | esc
  | hex (more : Nat) (cp : Nat) (lead : Option Nat)
  | low1 (lead : Nat)
  | low2 (lead : Nat)

/-- `ParseStringToStream`, reader.h:840-905, after the opening quote. -/
def readStr : At → Str → R Str
  | _, [] => .err
  | .plain, c :: s =>
    if c = '\\' then readStr .esc s
    else if c = '"' then .ok [] s
    else if c.toNat < 32 then .err
    else (readStr .plain s).front [c]
  | .esc, c :: s =>
    match escOf c with
    | some e => (readStr .plain s).front [e]
    | none => if c = 'u' then readStr (.hex 3 0 none) s else .err
  | .hex more cp lead, c :: s =>
    match hexVal c with
    | none => .err
    | some h =>
      match more with
      | more + 1 => readStr (.hex more (cp * 16 + h) lead) s
      | 0 =>
        match lead with
        | none =>
          if 0xD800 ≤ cp * 16 + h ∧ cp * 16 + h ≤ 0xDBFF then readStr (.low1 (cp * 16 + h)) s
          else (readStr .plain s).front (utf8 (cp * 16 + h))
        | some l =>
          if cp * 16 + h < 0xDC00 ∨ cp * 16 + h > 0xDFFF then .err
          else (readStr .plain s).front (utf8 (surrogates l (cp * 16 + h)))
  | .low1 l, c :: s => if c = '\\' then readStr (.low2 l) s else .err
  | .low2 l, c :: s => if c = 'u' then readStr (.hex 3 0 (some l)) s else .err

def isDigit (c : Char) : Bool := 48 ≤ c.toNat && c.toNat ≤ 57

/-- The four loops over the digits of an integer, reader.h:1162-1184 and 1208-1228: before a digit that would take the
value `i` above `lim * 10 + last` the loop stops and says so. -/
def intLoop (lim last : Nat) (i : Nat) : Str → Nat × Bool × Str
  | [] => (i, false, [])
  | c :: s =>
    if isDigit c then
      if i ≥ lim ∧ (i ≠ lim ∨ c.toNat - 48 > last) then (i, true, c :: s)
      else intLoop lim last (i * 10 + (c.toNat - 48)) s
    else (i, false, c :: s)

/-- The loop in 64 bits, if the one in 32 bits stopped, reader.h:1206-1229. The flag says that a double is needed. -/
def wide (minus : Bool) (r : Nat × Bool × Str) : Nat × Bool × Str :=
  if r.2.1 then
    if minus then intLoop 922337203685477580 8 r.1 r.2.2 else intLoop 1844674407370955161 5 r.1 r.2.2
  else r

/-- The integer part, reader.h:1149-1229; `none`: not a number. -/
def intPart (minus : Bool) : Str → Option (Nat × Bool × Str)
  | [] => none
  | c :: s =>
    if c = '0' then some (0, false, s)
    else if isDigit c then
      some (wide minus (if minus then intLoop 214748364 8 (c.toNat - 48) s else intLoop 429496729 5 (c.toNat - 48) s))
    else none

def startsDigit : Str → Bool
  | [] => false
  | c :: _ => isDigit c

/-- reader.h:1243-1284: whether there is a fraction, and what is left; `none`: `kParseErrorNumberMissFraction`. -/
def fraction : Str → Option (Bool × Str)
  | '.' :: s => if startsDigit s then some (true, s.dropWhile isDigit) else none
  | s => some (false, s)

/-- reader.h:1297-1300. -/
def expSign : Str → Str
  | '+' :: s => s
  | '-' :: s => s
  | s => s

/-- reader.h:1290-1327: whether there is an exponent, and what is left; `none`: `kParseErrorNumberMissExponent`. -/
def exponent : Str → Option (Bool × Str)
  | [] => some (false, [])
  | c :: s =>
    if c = 'e' ∨ c = 'E' then
      if startsDigit (expSign s) then some (true, (expSign s).dropWhile isDigit) else none
    else some (false, c :: s)

/-- The value of an integer, reader.h:1372-1383: the conversions are exact, because the loops stop in time. -/
def signed (minus : Bool) (i : Nat) : Json := .num (if minus then -(i : Int) else i)

/-- `ParseNumber`, reader.h:1133-1388. -/
def readNum (V : Str → Option Nat) (s : Str) : R Json :=
  let minus := s.head? == some '-'
  match intPart minus (if minus then s.tail else s) with
  | none => .err
  | some (i, big, s1) =>
    match fraction (if big then s1.dropWhile isDigit else s1) with
    | none => .err
    | some (frac, s2) =>
      match exponent s2 with
      | none => .err
      | some (exp, s3) =>
        if big || frac || exp then
          match V (s.take (s.length - s3.length)) with
          | none => .err
          | some d => .ok (.dbl d) s3
        else .ok (signed minus i) s3

/-- The loop of `ParseArray`, reader.h:673-701, with `ParseValue` given. -/
def elems (pv : Str → R Json) : Nat → Str → R (List Json)
  | 0, _ => .stuck
  | n + 1, s =>
    (pv s).bind fun v s1 =>
      match skipWs s1 with
      | ',' :: s2 => (elems pv n (skipWs s2)).bind fun l r => .ok (v :: l) r
      | ']' :: s2 => .ok [v] s2
      | _ => .err

/-- `ParseArray` after the bracket, reader.h:664-702. -/
def readArr (pv : Str → R Json) (s : Str) : R Json :=
  match skipWs s with
  | ']' :: r => .ok (.arr []) r
  | s1 => (elems pv (s1.length + 1) s1).bind fun l r => .ok (.arr l) r

/-- The name of a member and the colon, reader.h:606-619. -/
def readKey (s : Str) : R Str :=
  match s with
  | '"' :: s1 =>
    (readStr .plain s1).bind fun k s2 =>
      match skipWs s2 with
      | ':' :: s3 => .ok k (skipWs s3)
      | _ => .err
  | _ => .err

/-- The loop of `ParseObject`, reader.h:605-652. -/
def members (pv : Str → R Json) : Nat → Str → R (List (Str × Json))
  | 0, _ => .stuck
  | n + 1, s =>
    (readKey s).bind fun k s1 => (pv s1).bind fun v s2 =>
      match skipWs s2 with
      | ',' :: s3 => (members pv n (skipWs s3)).bind fun l r => .ok ((k, v) :: l) r
      | '}' :: s3 => .ok [(k, v)] s3
      | _ => .err

/-- `ParseObject` after the bracket, reader.h:596-653. -/
def readObj (pv : Str → R Json) (s : Str) : R Json :=
  match skipWs s with
  | '}' :: r => .ok (.obj []) r
  | s1 => (members pv (s1.length + 1) s1).bind fun l r => .ok (.obj l) r

/-- `ParseValue`, reader.h:1392-1405, with room for so many calls of it on the stack. -/
def readVal (V : Str → Option Nat) : Nat → Str → R Json
  | 0, _ => .deep
  | d + 1, s =>
    match s with
    | 'n' :: r => word "ull".toList .null r
    | 't' :: r => word "rue".toList (.bool true) r
    | 'f' :: r => word "alse".toList (.bool false) r
    | '"' :: r => (readStr .plain r).bind fun t r => .ok (.str t) r
    | '{' :: r => readObj (readVal V d) r
    | '[' :: r => readArr (readVal V d) r
    | s => readNum V s

/-- `Parse`, reader.h:485-516. -/
def parse (V : Str → Option Nat) (room : Nat) (s : Str) : R Json :=
  if atEnd (skipWs s) then .err
  else (readVal V room (skipWs s)).bind fun v r => if atEnd (skipWs r) then .ok v [] else .err

/-! ## Messages as text -/

/-- `IpcMessage::encode`, /repo/cpp/common/src/IpcMessage.cpp:380-399; `none`: the id is not initialised. -/
def encodeText (D : Nat → Option Str) (T : Ipc.Times) (m : Ipc.Msg) : Option Str :=
  (Ipc.encode T m).map (fun l => write D (.obj l))

/-- What the constructor from a text does. -/
inductive Made
  | msg (m : Ipc.Msg)
  | refused                             -- an `IpcMessageException`
  | crash                               -- the stack is exhausted

/-- The constructor from a text, /repo/cpp/common/src/IpcMessage.cpp:51-142. -/
def decodeText (V : Str → Option Nat) (room : Nat) (T : Ipc.Times) (strict : Bool) (s : Str) : Made :=
  match parse V room s with
  | .ok j _ => match Ipc.decode T strict j with
    | some m => .msg m
    | none => .refused
  | .err => .refused
  | .deep => .crash
  | .stuck => .crash

end Verif.JsonText
