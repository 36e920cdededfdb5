/-!
The part of a frame that is the image.

* cpp/frameProcessor/src/Frame.cpp: constructor 11-18, `get_image_ptr` 58-60, `set_data_size` 82-87, `get_image_size` 135-137,
  `set_image_size` 143-145, `set_image_offset` 150-153
* cpp/frameProcessor/include/Frame.h 86-93 (types of the members)
* cpp/frameProcessor/src/HDF5File.cpp `write_frame`: the image size becomes a `size_t` again

`data_size_` is a `size_t`, `image_size_` and `image_offset_` are `int`.
-/
namespace Verif.FrameImage

/-- Conversion to `int`: modulo 2^32. -/
def toInt (n : Int) : Int := (n + 2 ^ 31) % 2 ^ 32 - 2 ^ 31

/-- Conversion to `size_t`. -/
def toSize (n : Int) : Int := n % 2 ^ 64

structure Fr where
  data : Int                     -- data_size_
  off : Int                      -- image_offset_
  img : Int                      -- image_size_
deriving DecidableEq, Repr

/-- The constructor; the difference is one of `size_t`. -/
def mk (size off : Int) : Fr := { data := size, off := off, img := toInt (toSize (size - toSize off)) }

/-- `set_data_size`; `none` is the exception. -/
def setData (f : Fr) (n : Int) : Option Fr := if f.data < n then none else some { f with data := n }

def setImage (f : Fr) (n : Int) : Fr := { f with img := n }

def setOffset (f : Fr) (n : Int) : Fr := { f with off := n, img := toInt (toSize (f.data - toSize n)) }

inductive Op
  | data (n : Int)
  | image (n : Int)
  | offset (n : Int)
deriving DecidableEq, Repr

def step (f : Fr) : Op → Fr
  | .data n => (setData f n).getD f
  | .image n => setImage f n
  | .offset n => setOffset f n

def run (f : Fr) (l : List Op) : Fr := l.foldl step f

end Verif.FrameImage
