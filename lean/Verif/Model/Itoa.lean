/-
Model of the printing of integers.
Source: /repo/cpp/common/include/rapidjson/internal/itoa.h.

Unsigned numbers are natural numbers; arithmetic that may leave the type is taken modulo its range. The result is the
text between `buffer` and the returned pointer. `none`: an access outside the table of digits. How much room there is
at `buffer` is the business of the callers (Verif.JsonBuffer).
-/
namespace Verif.Itoa

abbrev Str := List Char

/-- `GetDigitsLut`, itoa.h:23-37. -/
def lut : Str :=
  ("0001020304050607080910111213141516171819" ++
   "2021222324252627282930313233343536373839" ++
   "4041424344454647484950515253545556575859" ++
   "6061626364656667686970717273747576777879" ++
   "8081828384858687888990919293949596979899").toList

/-- `static_cast<uint32_t>`. -/
def u32 (n : Nat) : Nat := n % 2 ^ 32

/-- `<< 1` of a `uint32_t`. -/
def shl (n : Nat) : Nat := n * 2 % 2 ^ 32

/-- A sequence of `if (c) *buffer++ = cDigitsLut[i];`. -/
def emit : List (Bool × Nat) → Option Str
  | [] => some []
  | (c, i) :: l => if c then (lut[i]?).bind fun ch => (emit l).map fun r => ch :: r else emit l

/-- Writes without a condition. -/
def always (l : List Nat) : List (Bool × Nat) := l.map fun i => (true, i)

/-- The positions in the table for the four digits of a number below 10000: `d1`, `d1 + 1`, `d2`, `d2 + 1` with
`d1 = (v / 100) << 1`, `d2 = (v % 100) << 1`, for example itoa.h:43-44. -/
def four (v : Nat) : List Nat := [shl (v / 100), shl (v / 100) + 1, shl (v % 100), shl (v % 100) + 1]

/-- `'0' + static_cast<char>(a)`. -/
def char0 (a : Nat) : Char := Char.ofNat (48 + a)

/-- One text after the other. -/
def andThen (a b : Option Str) : Option Str := a.bind fun x => b.map fun y => x ++ y

/-- itoa.h:84-90: one or two digits. -/
def lead32 (a : Nat) : Option Str := if a ≥ 10 then emit (always [shl a, shl a + 1]) else some [char0 a]

/-- `u32toa`, itoa.h:39-111. -/
def u32toa (v : Nat) : Option Str :=
  if v < 10000 then
    emit ([decide (v ≥ 1000), decide (v ≥ 100), decide (v ≥ 10), true].zip (four v))
  else if v < 100000000 then
    emit ([decide (v ≥ 10000000), decide (v ≥ 1000000), decide (v ≥ 100000), true].zip (four (v / 10000)) ++
      always (four (v % 10000)))
  else
    andThen (lead32 (v / 100000000))
      (emit (always (four (v % 100000000 / 10000) ++ four (v % 100000000 % 10000))))

/-- `~u + 1` of a `uint32_t` or a `uint64_t`, itoa.h:117 and 295. -/
def negate (bits u : Nat) : Nat := (2 ^ bits - 1 - u + 1) % 2 ^ bits

/-- `i32toa`, itoa.h:113-121. -/
def i32toa (v : Int) : Option Str :=
  if v < 0 then andThen (some ['-']) (u32toa (negate 32 (v % 2 ^ 32).toNat)) else u32toa (v % 2 ^ 32).toNat

/-- itoa.h:226-247: one to four digits. -/
def lead64 (a : Nat) : Option Str :=
  if a < 10 then some [char0 a]
  else if a < 100 then emit (always [shl a, shl a + 1])
  else if a < 1000 then andThen (some [char0 (a / 100)]) (emit (always [shl (a % 100), shl (a % 100) + 1]))
  else emit (always [shl (a / 100), shl (a / 100) + 1, shl (a % 100), shl (a % 100) + 1])

/-- `u64toa`, itoa.h:123-289. -/
def u64toa (v : Nat) : Option Str :=
  if v < 100000000 then
    if u32 v < 10000 then
      emit ([decide (u32 v ≥ 1000), decide (u32 v ≥ 100), decide (u32 v ≥ 10), true].zip (four (u32 v)))
    else
      emit ([decide (v ≥ 10000000), decide (v ≥ 1000000), decide (v ≥ 100000), true].zip (four (u32 v / 10000)) ++
        always (four (u32 v % 10000)))
  else if v < 10000000000000000 then
    emit (
      [decide (v ≥ 1000000000000000), decide (v ≥ 100000000000000), decide (v ≥ 10000000000000), decide (v ≥ 1000000000000)].zip
        (four (u32 (v / 100000000) / 10000)) ++
      [decide (v ≥ 100000000000), decide (v ≥ 10000000000), decide (v ≥ 1000000000), decide (v ≥ 100000000)].zip
        (four (u32 (v / 100000000) % 10000)) ++
      always (four (u32 (v % 100000000) / 10000) ++ four (u32 (v % 100000000) % 10000)))
  else
    andThen (lead64 (u32 (v / 10000000000000000)))
      (emit (always (four (u32 (v % 10000000000000000 / 100000000) / 10000) ++
        four (u32 (v % 10000000000000000 / 100000000) % 10000) ++
        four (u32 (v % 10000000000000000 % 100000000) / 10000) ++
        four (u32 (v % 10000000000000000 % 100000000) % 10000))))

/-- `i64toa`, itoa.h:291-299. -/
def i64toa (v : Int) : Option Str :=
  if v < 0 then andThen (some ['-']) (u64toa (negate 64 (v % 2 ^ 64).toNat)) else u64toa (v % 2 ^ 64).toNat

end Verif.Itoa
