import Verif.Model.PoolEnd
import Verif.Props.Pool

/-
C195: The pools of data blocks when they are deleted while frames exist.
-/
namespace Verif.Pool
open Spec

/-- What happens to the pools: an operation of a user, or their end. -/
inductive Life
  | op (o : Op)
  | down
deriving DecidableEq, Repr

/-- One of these. -/
def lived (u : Use) : Life → Use
  | .op o => (step u o).1
  | .down => ⟨tearDown u.sys, u.held⟩

def life (u : Use) (l : List Life) : Use := l.foldl lived u

/-- The blocks of a size in use. -/
def inUse (u : Use) (k : Nat) : Nat := (u.held.filter (fun x => x.2 = k)).length

/-- The blocks of a size in use when the pools were last deleted. -/
def survivors (u : Use) : List Life → Nat → Nat → Nat
  | [], n, _ => n
  | .op o :: l, n, k => survivors (step u o).1 l n k
  | .down :: l, _, k => survivors ⟨tearDown u.sys, u.held⟩ l (inUse u k) k

theorem tearDown_good (u : Use) (h : Good u) : Good ⟨tearDown u.sys, u.held⟩ :=
  ⟨⟨fun _ => List.nodup_nil, fun _ _ hb => (by cases hb), h.inv.held⟩, ⟨fun _ => rfl, fun _ => rfl⟩, h.nodup, h.size⟩

theorem lived_good (u : Use) (e : Life) (h : Good u) : Good (lived u e) := by
  cases e with
  | op o => exact step_good u o h
  | down => exact tearDown_good u h

theorem life_good (l : List Life) : ∀ u, Good u → Good (life u l) := by
  induction l with
  | nil => intro u h; exact h
  | cons e l ih => intro u h; exact ih _ (lived_good u e h)

/-- The memory counter, and the difference between the counter of blocks in use and the blocks in use, after an operation. -/
theorem step_used (u : Use) (o : Op) (hg : Good u) (hm : Mem u.sys) : Mem (step u o).1.sys ∧
    ∀ i, ((step u o).1.sys.pool i).usedN - (inUse (step u o).1 i : Nat) = (u.sys.pool i).usedN - (inUse u i : Nat) := by
  cases o with
  | allocate k n =>
    refine ⟨(allocate_mem k n u.sys hm).1, fun i => ?_⟩
    show ((allocate k n u.sys).pool i).usedN - _ = _
    rw [(allocate_mem k n u.sys hm).2 i]
    rfl
  | take k =>
    obtain ⟨y', b, ht, -⟩ := take_spec k u.sys hg.cnt
    obtain ⟨t1, t2⟩ := take_mem k u.sys y' b _ hg.inv hm ht
    simp only [step, ht]
    refine ⟨t1, fun i => ?_⟩
    rw [t2 i]
    unfold inUse
    by_cases hi : i = k
    · subst hi
      rw [if_pos rfl, List.filter_cons_of_pos (by simp), List.length_cons]; omega
    · rw [if_neg hi, List.filter_cons_of_neg (by simp; omega)]; omega
  | release b =>
    simp only [step]
    split
    · rename_i hb
      refine ⟨(release_mem b u.sys hm).1, fun i => ?_⟩
      obtain ⟨x, hx, rfl⟩ := List.mem_map.1 hb
      have hr := held_remove u.held x.1 x.2 i hg.nodup hx
      have hs := hg.size x hx
      unfold inUse
      show ((release x.1 u.sys).pool i).usedN - _ = _
      rw [(release_mem x.1 u.sys hm).2 i, hs, hr]
      simp only
      omega
    · exact ⟨hm, fun _ => rfl⟩

/-- Whatever is done, and however often the pools are deleted in between: a request is given a block of its size that nobody
holds, and no block is held twice. -/
theorem C195_exclusive (l : List Life) (k : Nat) :
    (∃ b, (step (life {} l) (.take k)).2 = some b ∧ b ∉ (life {} l).held.map (·.1) ∧
      (step (life {} l) (.take k)).1.sys.size b = k) ∧
    ((life {} l).held.map (·.1)).Nodup ∧ ∀ x ∈ (life {} l).held, (life {} l).sys.size x.1 = x.2 := by
  have h := life_good l {} (after_good [])
  refine ⟨?_, h.nodup, h.size⟩
  obtain ⟨y', b, ht, -, -, hs, hH⟩ := take_spec k (life {} l).sys h.cnt
  refine ⟨b, ?_, (hH _ h.inv).1, ?_⟩
  · simp only [step, ht]
  · simp only [step, ht]; exact hs

/-- The counter of blocks in use is too low by the blocks that were in use when the pools were deleted. -/
theorem C195_counter (l : List Life) (k : Nat) :
    ((life {} l).sys.pool k).usedN = (inUse (life {} l) k : Nat) - (survivors {} l 0 k : Nat) := by
  suffices ∀ (l : List Life) (u : Use) (n : Nat), Good u → Mem u.sys → (u.sys.pool k).usedN = (inUse u k : Nat) - (n : Nat) →
      ((life u l).sys.pool k).usedN = (inUse (life u l) k : Nat) - (survivors u l n k : Nat) from
    this l {} 0 (after_good []) (fun _ => by simp) rfl
  intro l
  induction l with
  | nil => intro u n _ _ h; exact h
  | cons e l ih =>
    intro u n hg hm hu
    cases e with
    | op o =>
      obtain ⟨h1, h2⟩ := step_used u o hg hm
      refine ih (step u o).1 n (step_good u o hg) h1 ?_
      have := h2 k
      omega
    | down =>
      refine ih ⟨tearDown u.sys, u.held⟩ (inUse u k) (tearDown_good u hg) (fun i => ?_) ?_
      · show (0 : Int) = ((i * 0 : Nat) : Int)
        rw [Nat.mul_zero]; rfl
      · show (0 : Int) = (inUse u k : Nat) - (inUse u k : Nat)
        omega

/-- The full statement: the number of blocks in use that is reported is that of the blocks in use. -/
def C195_statement : Prop := ∀ (l : List Life) (k : Nat), inUse (life {} l) k < 2 ^ 64 → usedBlocks (life {} l).sys k = inUse (life {} l) k

/-- A frame that is destroyed after the pools: 2^64 - 1 blocks in use. -/
theorem C195_violated : ¬ C195_statement := by
  intro h
  have := h [.op (.take 8), .down, .op (.release 1)] 8 (by decide +kernel)
  revert this
  decide +kernel

/-- The number that is reported then. -/
theorem C195_wraps : usedBlocks (life {} [.op (.take 8), .down, .op (.release 1)]).sys 8 = 18446744073709551615 ∧
    ((life {} [.op (.take 8), .down, .op (.release 1)]).sys.pool 8).free.length = 1 ∧
    ((life {} [.op (.take 8), .down, .op (.release 1)]).sys.pool 8).total = 0 := by decide +kernel

/-- Proved part: if no block of the size was in use whenever the pools were deleted, the numbers agree. -/
theorem C195_partial (l : List Life) (k : Nat) (h : survivors {} l 0 k = 0) (hb : inUse (life {} l) k < 2 ^ 64) :
    usedBlocks (life {} l).sys k = inUse (life {} l) k := by
  unfold usedBlocks
  rw [C195_counter l k, h]
  have : ((2 : Int) ^ 64) = ((2 ^ 64 : Nat) : Int) := by decide
  rw [this, show ((inUse (life {} l) k : Nat) : Int) - ((0 : Nat) : Int) = ((inUse (life {} l) k : Nat) : Int) by omega,
    ← Int.natCast_emod, Int.toNat_natCast, Nat.mod_eq_of_lt hb]

/-- And only then. -/
theorem C195_exactly (l : List Life) (k : Nat) (hb : inUse (life {} l) k < 2 ^ 64) (hs : survivors {} l 0 k < 2 ^ 64) :
    usedBlocks (life {} l).sys k = inUse (life {} l) k ↔ survivors {} l 0 k = 0 := by
  refine ⟨fun h => ?_, fun h => C195_partial l k h hb⟩
  unfold usedBlocks at h
  rw [C195_counter l k] at h
  generalize inUse (life {} l) k = a at *
  generalize survivors {} l 0 k = b at *
  have e : ((2 : Int) ^ 64) = 18446744073709551616 := by decide
  have e' : (2 : Nat) ^ 64 = 18446744073709551616 := by decide
  rw [e] at h
  rw [e'] at hb hs
  omega

/-- Two blocks in use at the end of the pools, one of them given back, one taken after that: it is the one given back. -/
example : (life {} [.op (.take 8), .op (.take 8), .down, .op (.release 0), .op (.take 8)]).held = [(0, 8), (1, 8)] ∧
    usedBlocks (life {} [.op (.take 8), .op (.take 8), .down, .op (.release 0), .op (.take 8)]).sys 8 = 0 ∧
    survivors {} [.op (.take 8), .op (.take 8), .down, .op (.release 0), .op (.take 8)] 0 8 = 2 := by decide +kernel

/-- All frames destroyed in time. -/
example : survivors {} [.op (.take 8), .op (.release 1), .down, .op (.take 8)] 0 8 = 0 ∧
    usedBlocks (life {} [.op (.take 8), .op (.release 1), .down, .op (.take 8)]).sys 8 = 1 := by decide +kernel

end Verif.Pool
