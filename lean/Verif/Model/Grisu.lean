import Verif.Model.Dtoa
import Verif.Model.Times
import Verif.Model.Receiver
/-
Model of how the digits of a floating point number are found (Grisu2).
Source: /repo/cpp/common/include/rapidjson/internal/diyfp.h: DiyFp(double) 48-64, operator- 66-68, operator* 70-99,
Normalize 101-117, NormalizeBoundary 119-128, NormalizedBoundaries 130-137, GetCachedPowerByIndex 164-224, GetCachedPower
226-238; /repo/cpp/common/include/rapidjson/internal/dtoa.h: GrisuRound 35-42, CountDecimalDigit32 44-58, DigitGen 60-110,
Grisu2 112-124, dtoa 216-237.

`uint64_t` and `uint32_t` wrap around. A loop that does not end, a shift by 64 bits or more, an access outside a table and a
digit before the start of the buffer are `none`. The buffer is a list of digits, the last one first; a digit is the
difference of its character and '0', and may be out of the range from 0 to 9. `int` does not overflow: exponents are small.
-/
namespace Verif.Grisu
open Verif.Itoa (Str)

/-- `uint64_t`. -/
def w64 (n : Nat) : Nat := n % 2 ^ 64

/-- `a - b` of `uint64_t`. -/
def sub64 (a b : Nat) : Nat := w64 (a + 2 ^ 64 - b)

structure DiyFp where
  f : Nat
  e : Int
  deriving DecidableEq, Repr

/-- `kDpHiddenBit`, diyfp.h:158. -/
def hidden : Nat := 2 ^ 52

/-- `DiyFp(double)`, diyfp.h:48-64, of the bits. -/
def ofBits (u : Nat) : DiyFp :=
  let biased : Nat := u / 2 ^ 52 % 2 ^ 11
  let sig : Nat := u % 2 ^ 52
  if biased ≠ 0 then ⟨sig + hidden, (biased : Int) - 1075⟩ else ⟨sig, -1075 + 1⟩

/-- `operator*`, diyfp.h:77-84: the upper half of the product, rounded. -/
def mul (a b : DiyFp) : DiyFp :=
  let p := a.f * b.f
  ⟨w64 (p / 2 ^ 64 + (if p % 2 ^ 64 / 2 ^ 63 = 1 then 1 else 0)), a.e + b.e + 64⟩

/-- `Normalize`, diyfp.h:106-108; `__builtin_clzll(0)` is undefined. -/
def normalize (a : DiyFp) : Option DiyFp :=
  if a.f = 0 then none else some ⟨w64 (a.f * 2 ^ (63 - Nat.log2 a.f)), a.e - (63 - Nat.log2 a.f : Nat)⟩

/-- The loop of `NormalizeBoundary`, diyfp.h:121-124. -/
def shiftUp : Nat → DiyFp → Option DiyFp
  | 0, _ => none
  | n + 1, a => if a.f / 2 ^ 53 % 2 = 1 then some a else shiftUp n ⟨w64 (a.f * 2), a.e - 1⟩

/-- `NormalizeBoundary`, diyfp.h:119-128. -/
def normalizeBoundary (a : DiyFp) : Option DiyFp := (shiftUp 64 a).map fun r => ⟨w64 (r.f * 2 ^ 10), r.e - 10⟩

/-- `mi` before it is shifted, diyfp.h:132. -/
def lower (a : DiyFp) : DiyFp := if a.f = hidden then ⟨sub64 (w64 (a.f * 4)) 1, a.e - 2⟩ else ⟨sub64 (w64 (a.f * 2)) 1, a.e - 1⟩

/-- `NormalizedBoundaries`, diyfp.h:130-137: minus and plus. -/
def boundaries (a : DiyFp) : Option (DiyFp × DiyFp) :=
  (normalizeBoundary ⟨w64 (w64 (a.f * 2) + 1), a.e - 1⟩).bind fun pl =>
    let by' := (lower a).e - pl.e
    if 0 ≤ by' ∧ by' < 64 then some (⟨w64 ((lower a).f * 2 ^ by'.toNat), pl.e⟩, pl) else none

/-- `kCachedPowers_F`, diyfp.h:166-211. -/
def powersF : List Nat :=
  [0xfa8fd5a0081c0288, 0xbaaee17fa23ebf76, 0x8b16fb203055ac76, 0xcf42894a5dce35ea, 0x9a6bb0aa55653b2d,
   0xe61acf033d1a45df, 0xab70fe17c79ac6ca, 0xff77b1fcbebcdc4f, 0xbe5691ef416bd60c, 0x8dd01fad907ffc3c,
   0xd3515c2831559a83, 0x9d71ac8fada6c9b5, 0xea9c227723ee8bcb, 0xaecc49914078536d, 0x823c12795db6ce57,
   0xc21094364dfb5637, 0x9096ea6f3848984f, 0xd77485cb25823ac7, 0xa086cfcd97bf97f4, 0xef340a98172aace5,
   0xb23867fb2a35b28e, 0x84c8d4dfd2c63f3b, 0xc5dd44271ad3cdba, 0x936b9fcebb25c996, 0xdbac6c247d62a584,
   0xa3ab66580d5fdaf6, 0xf3e2f893dec3f126, 0xb5b5ada8aaff80b8, 0x87625f056c7c4a8b, 0xc9bcff6034c13053,
   0x964e858c91ba2655, 0xdff9772470297ebd, 0xa6dfbd9fb8e5b88f, 0xf8a95fcf88747d94, 0xb94470938fa89bcf,
   0x8a08f0f8bf0f156b, 0xcdb02555653131b6, 0x993fe2c6d07b7fac, 0xe45c10c42a2b3b06, 0xaa242499697392d3,
   0xfd87b5f28300ca0e, 0xbce5086492111aeb, 0x8cbccc096f5088cc, 0xd1b71758e219652c, 0x9c40000000000000,
   0xe8d4a51000000000, 0xad78ebc5ac620000, 0x813f3978f8940984, 0xc097ce7bc90715b3, 0x8f7e32ce7bea5c70,
   0xd5d238a4abe98068, 0x9f4f2726179a2245, 0xed63a231d4c4fb27, 0xb0de65388cc8ada8, 0x83c7088e1aab65db,
   0xc45d1df942711d9a, 0x924d692ca61be758, 0xda01ee641a708dea, 0xa26da3999aef774a, 0xf209787bb47d6b85,
   0xb454e4a179dd1877, 0x865b86925b9bc5c2, 0xc83553c5c8965d3d, 0x952ab45cfa97a0b3, 0xde469fbd99a05fe3,
   0xa59bc234db398c25, 0xf6c69a72a3989f5c, 0xb7dcbf5354e9bece, 0x88fcf317f22241e2, 0xcc20ce9bd35c78a5,
   0x98165af37b2153df, 0xe2a0b5dc971f303a, 0xa8d9d1535ce3b396, 0xfb9b7cd9a4a7443c, 0xbb764c4ca7a44410,
   0x8bab8eefb6409c1a, 0xd01fef10a657842c, 0x9b10a4e5e9913129, 0xe7109bfba19c0c9d, 0xac2820d9623bf429,
   0x80444b5e7aa7cf85, 0xbf21e44003acdd2d, 0x8e679c2f5e44ff8f, 0xd433179d9c8cb841, 0x9e19db92b4e31ba9,
   0xeb96bf6ebadf77d9, 0xaf87023b9bf0ee6b]

/-- `kCachedPowers_E`, diyfp.h:212-222. -/
def powersE : List Int :=
  [-1220, -1193, -1166, -1140, -1113, -1087, -1060, -1034, -1007, -980, -954, -927, -901, -874, -847, -821,
   -794, -768, -741, -715, -688, -661, -635, -608, -582, -555, -529, -502, -475, -449, -422, -396,
   -369, -343, -316, -289, -263, -236, -210, -183, -157, -130, -103, -77, -50, -24, 3, 30,
   56, 83, 109, 136, 162, 189, 216, 242, 269, 295, 322, 348, 375, 402, 428, 455,
   481, 508, 534, 561, 588, 614, 641, 667, 694, 720, 747, 774, 800, 827, 853, 880,
   907, 933, 960, 986, 1013, 1039, 1066]

/-- `GetCachedPowerByIndex`, diyfp.h:164-224. -/
def powerAt (i : Nat) : Option DiyFp := (powersF[i]?).bind fun f => (powersE[i]?).map fun e => ⟨f, e⟩

/-- `dk`, diyfp.h:229, in units of 2^-53: 0.30102999566398114 is 2711437152599295 of them. The product and the sum are
rounded to 53 bits each (no fused multiply and add). -/
def dk (e : Int) : Int := Times.rndInt (Times.rndInt ((-61 - e) * 2711437152599295) + 347 * 2 ^ 53)

/-- `k`, diyfp.h:230-232. -/
def kOf (e : Int) : Int := if dk e - (dk e).tdiv (2 ^ 53) * 2 ^ 53 > 0 then (dk e).tdiv (2 ^ 53) + 1 else (dk e).tdiv (2 ^ 53)

/-- `index`, diyfp.h:234. A negative one is outside the table. -/
def index (e : Int) : Nat := (kOf e / 8 + 1).toNat

/-- `GetCachedPower`, diyfp.h:226-238: the power and `K`. -/
def cachedPower (e : Int) : Option (DiyFp × Int) := (powerAt (index e)).map fun c => (c, -(-348 + (index e : Int) * 8))

/-- `GrisuRound`, dtoa.h:35-42: the last digit. -/
def grisuRound (delta ten wpw : Nat) : Nat → Nat → Int → Option Int
  | 0, _, _ => none
  | n + 1, rest, d =>
    if rest < wpw ∧ sub64 delta rest ≥ ten ∧ (w64 (rest + ten) < wpw ∨ sub64 wpw rest > sub64 (w64 (rest + ten)) wpw) then
      grisuRound delta ten wpw n (w64 (rest + ten)) (d - 1)
    else some d

/-- `GrisuRound` on the buffer. -/
def roundLast (rev : List Int) (delta rest ten wpw : Nat) : Option (List Int) :=
  match rev with
  | [] => none
  | d :: r => (grisuRound delta ten wpw 32 rest d).map (· :: r)

/-- `CountDecimalDigit32`, dtoa.h:44-58. -/
def count (n : Nat) : Nat :=
  if n < 10 then 1 else if n < 100 then 2 else if n < 1000 then 3 else if n < 10000 then 4 else if n < 100000 then 5
  else if n < 1000000 then 6 else if n < 10000000 then 7 else if n < 100000000 then 8 else 9

/-- `if (d || *len) buffer[(*len)++] = '0' + d`, dtoa.h:83-84 and 99-100. -/
def push (d : Nat) (rev : List Int) : List Int := if d ≠ 0 ∨ rev ≠ [] then (d : Int) :: rev else rev

/-- The factor of `wp_w`, dtoa.h:106. -/
def factor (n : Nat) : Nat := if n < 9 then 10 ^ n else 0

/-- The second loop of `DigitGen`, dtoa.h:94-109, after `n` digits of the fraction; `one` is 2^s. The digits and `kappa`. -/
def frac (s wpw : Nat) : Nat → Nat → Nat → Nat → List Int → Option (List Int × Int)
  | 0, _, _, _, _ => none
  | m + 1, n, p2, delta, rev =>
    let p := w64 (p2 * 10)
    let dl := w64 (delta * 10)
    let rev := push (p / 2 ^ s) rev
    if p % 2 ^ s < dl then (roundLast rev dl (p % 2 ^ s) (2 ^ s) (w64 (wpw * factor (n + 1)))).map fun r => (r, -((n : Int) + 1))
    else frac s wpw m (n + 1) (p % 2 ^ s) dl rev

/-- The loops of `DigitGen`, dtoa.h:69-109, with `kappa` digits of `p1` left. The cases of the switch divide by
`kPow10[kappa - 1]`. -/
def gen (s wpw p2 delta : Nat) : Nat → Nat → List Int → Option (List Int × Int)
  | 0, _, rev => frac s wpw 32 0 p2 delta rev
  | k + 1, p1, rev =>
    let rev := push (p1 / 10 ^ k) rev
    let tmp := w64 (w64 (p1 % 10 ^ k * 2 ^ s) + p2)
    if tmp ≤ delta then (roundLast rev delta tmp (w64 (10 ^ k * 2 ^ s)) wpw).map fun r => (r, (k : Int))
    else gen s wpw p2 delta k (p1 % 10 ^ k) rev

/-- `DigitGen`, dtoa.h:60-110: the digits and what is added to `K`. -/
def digitGen (w mp : DiyFp) (delta : Nat) : Option (List Int × Int) :=
  if 0 ≤ -mp.e ∧ -mp.e < 64 then
    let s := (-mp.e).toNat
    let p1 := mp.f / 2 ^ s % 2 ^ 32
    gen s (sub64 mp.f w.f) (mp.f % 2 ^ s) delta (count p1) p1 []
  else none

/-- `Grisu2`, dtoa.h:112-124, of a positive number: the digits, the first one first, and `K`. -/
def grisu2 (v : DiyFp) : Option (List Int × Int) :=
  (boundaries v).bind fun b => (cachedPower b.2.e).bind fun c => (normalize v).bind fun n =>
    let wp : DiyFp := ⟨sub64 (mul b.2 c.1).f 1, (mul b.2 c.1).e⟩
    let wm := w64 ((mul b.1 c.1).f + 1)
    (digitGen (mul n c.1) wp (sub64 wp.f wm)).map fun r => (r.1.reverse, c.2 + r.2)

/-- `static_cast<char>('0' + d)`; 256 characters. -/
def digit (d : Int) : Char := Char.ofNat ((48 + d) % 256).toNat

/-- `dtoa`, dtoa.h:216-237, of the bits of a double that is neither infinite nor NaN. -/
def print (u : Nat) (old : Nat → Char) : Option (Str × Nat) :=
  let neg := u / 2 ^ 63 % 2 = 1
  if u % 2 ^ 63 = 0 then some (Dtoa.dtoa neg none old)
  else (grisu2 (ofBits (u % 2 ^ 63))).map fun r => Dtoa.dtoa neg (some (r.1.map digit, r.2)) old

end Verif.Grisu
