/-
Model of the gap fill plugin.
Source: /repo/cpp/frameProcessor/src/GapFillPlugin.cpp.

Simplifications: `int` values are unbounded integers (no overflow); the comparison of the unsigned frame
dimension with the signed product is the comparison of the integers (they differ only for dimensions of
2^63 and above). A buffer is its size and a function from byte position to value.
-/
namespace Verif.GapFill

/-- A block of memory. -/
structure Buf where
  size : Nat
  data : Nat → Nat

/-- Plugin configuration, GapFillPlugin.h:59-62. All four are empty until configured. -/
structure Cfg where
  grid : List Int := []
  chip : List Int := []
  gapsX : List Int := []
  gapsY : List Int := []
deriving Repr, DecidableEq

/-- `memcpy(out + d, inp + s, n)`; `none` is undefined behaviour (access outside one of the blocks). -/
def copy (out : Buf) (d : Int) (inp : Buf) (s : Int) (n : Int) : Option Buf :=
  if 0 ≤ n ∧ 0 ≤ d ∧ d + n ≤ out.size ∧ 0 ≤ s ∧ s + n ≤ inp.size then
    some { out with data := fun (b : Nat) =>
      if d ≤ (b : Int) ∧ (b : Int) < d + n then inp.data ((b : Int) - d + s).toNat else out.data b }
  else none

/-- `configuration_valid`, GapFillPlugin.cpp:63-114; `none`: one of the vectors is indexed beyond its end. -/
def configurationValid (c : Cfg) (dims : List Nat) : Option Bool :=
  match c.grid[0]?, c.chip[0]?, (dims[0]? : Option Nat) with
  | some g0, some c0, some d0 =>
    if (d0 : Int) ≠ g0 * c0 then some false
    else match c.grid[1]?, c.chip[1]?, (dims[1]? : Option Nat) with
      | some g1, some c1, some d1 =>
        if (d1 : Int) ≠ g1 * c1 then some false
        else some (decide (g1 + 1 = c.gapsX.length) && decide (g0 + 1 = c.gapsY.length))
      | _, _, _ => none
  | _, _, _ => none

/-- Sum of the first `n` gaps (the loops at 132-138); `none`: indexed beyond the end. -/
def gapSum (gaps : List Int) : Nat → Option Int
  | 0 => some 0
  | n + 1 =>
    match gapSum gaps n, gaps[n]? with
    | some t, some g => some (t + g)
    | _, _ => none

/-- Fixed values inside the loops. -/
structure Loop where
  src : Buf
  width : Int       -- frame_dimensions[1]
  imgX : Int
  chipX : Int
  size : Int        -- frame_data_type_size

/-- The x loop (159-182) after `n` iterations: image and `current_offset_x`. -/
def xLoop (l : Loop) (gapsX : List Int) (srcRow destRow : Int) (out : Buf) : Nat → Option (Buf × Int)
  | 0 => some (out, 0)
  | n + 1 =>
    match xLoop l gapsX srcRow destRow out n, gapsX[n]? with
    | some (out, offX), some g =>
      let offX := offX + g
      let srcOffset := (srcRow * l.width + n * l.chipX) * l.size
      let destOffset := (destRow * l.imgX + offX + n * l.chipX) * l.size
      (copy out destOffset l.src srcOffset (l.chipX * l.size)).map (fun out => (out, offX))
    | _, _ => none

/-- The row loop (154-183) after `n` iterations. -/
def rowLoop (l : Loop) (gapsX : List Int) (gridX : Nat) (chipY yIndex offY : Int) (out : Buf) :
    Nat → Option Buf
  | 0 => some out
  | n + 1 =>
    match rowLoop l gapsX gridX chipY yIndex offY out n with
    | some out =>
      let srcRow := yIndex * chipY + n
      (xLoop l gapsX srcRow (srcRow + offY) out gridX).map Prod.fst
    | none => none

/-- The y loop (150-184) after `n` iterations: image and `current_offset_y`. -/
def yLoop (l : Loop) (gapsX gapsY : List Int) (gridX : Nat) (chipY : Int) (out : Buf) :
    Nat → Option (Buf × Int)
  | 0 => some (out, 0)
  | n + 1 =>
    match yLoop l gapsX gapsY gridX chipY out n, gapsY[n]? with
    | some (out, offY), some g =>
      (rowLoop l gapsX gridX chipY n (offY + g) out chipY.toNat).map (fun out => (out, offY + g))
    | _, _ => none

/-- What `process_frame` does. -/
inductive Result
  | dropped                               -- error set, nothing pushed
  | pushed (dims : List Int) (image : Buf)
  | ub

/-- `insert_gaps`, GapFillPlugin.cpp:125-197. `src` is the image of the frame; a negative image size makes
`malloc` fail, and the `memset` is undefined. -/
def insertGaps (c : Cfg) (dims : List Nat) (size : Nat) (src : Buf) : Result :=
  match c.grid, c.chip, dims with
  | g0 :: g1 :: _, c0 :: c1 :: _, _ :: d1 :: _ =>
    match gapSum c.gapsX (g1 + 1).toNat, gapSum c.gapsY (g0 + 1).toNat with
    | some gx, some gy =>
      let imgX := g1 * c1 + gx
      let imgY := g0 * c0 + gy
      if imgX * imgY < 0 then .ub
      else
        let zero : Buf := { size := (imgX * imgY).toNat * size, data := fun _ => 0 }
        let l : Loop := { src := src, width := d1, imgX := imgX, chipX := c1, size := size }
        match yLoop l c.gapsX c.gapsY g1.toNat c0 zero g0.toNat with
        | some r => .pushed [imgY, imgX] r.1
        | none => .ub
    | _, _ => .ub
  | _, _, _ => .ub

/-- `process_frame`, GapFillPlugin.cpp:41-52. -/
def processFrame (c : Cfg) (dims : List Nat) (size : Nat) (src : Buf) : Result :=
  match configurationValid c dims with
  | none => .ub
  | some false => .dropped
  | some true => insertGaps c dims size src

end Verif.GapFill
