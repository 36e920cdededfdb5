import Verif.Model.Pool

/-
Model of the end of the pools of data blocks.
Source: /repo/cpp/frameProcessor/src/DataBlockPool.cpp: tearDownClass 267-274, instance 110-116, get_used_blocks 78-81,
internal_get_used_blocks 239-242; FrameProcessorController.cpp: shutdown 846-848.

The blocks of frames that still exist live on with the frames (they are held by shared pointers), and the next request or
release makes a new pool. The counter of the indices of blocks is not reset.
-/
namespace Verif.Pool

/-- `tearDownClass`, lines 267-274: all pools are deleted, with the blocks in their lists. -/
def tearDown (y : Sys) : Sys := ⟨fun _ => {}, y.size, y.next⟩

/-- `get_used_blocks`, lines 78-81 and 239-242: the counter is a `size_t`. -/
def usedBlocks (y : Sys) (k : Nat) : Nat := ((y.pool k).usedN % 2 ^ 64).toNat

end Verif.Pool
