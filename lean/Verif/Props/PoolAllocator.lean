import Verif.Model.PoolAllocator

/-
C151: the memory of a JSON document. Whatever sequence of allocations, reallocations, writes and clears is made, and wherever the C
library puts the chunks, live blocks lie inside memory that the library gave, do not overlap each other or the headers of the chunks, are aligned, and keep their contents.
-/
namespace Verif.PoolAllocator

namespace Spec

/-- Two ranges of addresses, each given by start and length, have nothing in common. -/
def Disjoint (a n b m : Nat) : Prop := a + n ≤ b ∨ b + m ≤ a

/-- What the C library promises about an answer: aligned, not null, in the address space, and apart from what it gave before. -/
def Library (given : List (Nat × Nat)) (lib : Nat → Option Nat) : Prop :=
  ∀ n b, lib n = some b → b % 16 = 0 ∧ 0 < b ∧ b + n ≤ 2 ^ 63 ∧ ∀ g ∈ given, Disjoint b n g.1 g.2

/-- What a document asks of its pool. -/
inductive Op where
  | malloc (n : Nat)
  | realloc (ptr : Option Nat) (old new : Nat)
  | write (x v : Nat)
  | clear

/-- What a caller may do who owns the blocks `live` (start and size): sizes are below 2^62, only own blocks are reallocated, with the size last asked for, and only own blocks are written. -/
def Legal (live : List (Nat × Nat)) : Op → Prop
  | .malloc n => n ≤ 2 ^ 62
  | .realloc none _ n => n ≤ 2 ^ 62
  | .realloc (some a) o n => (a, o) ∈ live ∧ n ≤ 2 ^ 62
  | .write x _ => ∃ b ∈ live, b.1 ≤ x ∧ x < b.1 + b.2
  | .clear => True

/-- The blocks that the caller owns afterwards; `r` is the answer of the pool. -/
def own (live : List (Nat × Nat)) (r : Option Nat) : Op → List (Nat × Nat)
  | .malloc n => match r with
    | some q => (q, n) :: live
    | none => live
  | .realloc none _ n => match r with
    | some q => (q, n) :: live
    | none => live
  | .realloc (some a) o n => match r with
    | some q => (q, n) :: live.erase (a, o)
    | none => live
  | .write _ _ => live
  | .clear => []

/-- The blocks are as they have to be. `given` is what the library gave, `heads` are the addresses of the headers, 24 bytes each. -/
structure Sound (given : List (Nat × Nat)) (heads : List Nat) (live : List (Nat × Nat)) : Prop where
  inside : ∀ b ∈ live, ∃ g ∈ given, g.1 ≤ b.1 ∧ b.1 + b.2 ≤ g.1 + g.2
  apart : live.Pairwise fun x y => Disjoint x.1 x.2 y.1 y.2
  heads : ∀ b ∈ live, ∀ h ∈ heads, Disjoint b.1 b.2 h 24
  aligned : ∀ b ∈ live, b.1 % 8 = 0

/-- A block has the same bytes in both memories. -/
def Same (m m' : Nat → Nat) (b : Nat × Nat) : Prop := ∀ x, b.1 ≤ x → x < b.1 + b.2 → m' x = m x

/-- What happens to the contents. -/
def Contents (live : List (Nat × Nat)) (m m' : Nat → Nat) (r : Option Nat) : Op → Prop
  | .malloc _ => ∀ b ∈ live, Same m m' b
  | .realloc none _ _ => ∀ b ∈ live, Same m m' b
  | .realloc (some a) o n => match r with
    | some q => (∀ b ∈ live.erase (a, o), Same m m' b) ∧ ∀ i, i < o → i < n → m' (q + i) = m (a + i)
    | none => ∀ b ∈ live, Same m m' b
  | .write x v => m' x = v ∧ ∀ y, y ≠ x → m' y = m y
  | .clear => True

/-- An allocation of at least one byte fails only if the library does. -/
def Progress (lib : Nat → Option Nat) (r : Option Nat) : Op → Prop
  | .malloc n => (∀ k, k ≤ n + 70000 → lib k ≠ none) → n ≠ 0 → r ≠ none
  | .realloc _ _ n => (∀ k, k ≤ n + 70000 → lib k ≠ none) → n ≠ 0 → r ≠ none
  | _ => True

end Spec

open Spec

/-- The pool, the memory, and the blocks that the document owns. -/
structure World where
  pool : Pool
  mem : Mem
  live : List (Nat × Nat)

/-- What the C library gave to a pool. -/
def givenOf (p : Pool) : List (Nat × Nat) := p.chunks.map fun c => (c.base, c.given)

/-- Where the headers of the chunks are. -/
def headsOf (p : Pool) : List Nat := p.chunks.map fun c => c.base

/-- A byte is written. -/
def poke (m : Mem) (x v : Nat) : Mem := fun y => if y = x then v else m y

/-- One operation, with its answer. -/
def run (p : Pool) (m : Mem) (lib : Nat → Option Nat) : Op → Pool × Mem × Option Nat
  | .malloc n => ((malloc p n lib).1, m, (malloc p n lib).2)
  | .realloc a o n => realloc p m a o n lib
  | .write x v => (p, poke m x v, none)
  | .clear => (clear p, m, none)

def World.next (w : World) (lib : Nat → Option Nat) (op : Op) : World :=
  ⟨(run w.pool w.mem lib op).1, (run w.pool w.mem lib op).2.1, own w.live (run w.pool w.mem lib op).2.2 op⟩

/-- What can be reached from a new pool. -/
inductive Reach : World → Prop
  | new (m : Mem) : Reach ⟨Pool.new, m, []⟩
  | step (w : World) (lib : Nat → Option Nat) (op : Op) : Reach w → Library (givenOf w.pool) lib → Legal w.live op → Reach (w.next lib op)

/-! ### Arithmetic -/

theorem align_le (n : Nat) (h : n ≤ 2 ^ 62 + 8) : n ≤ align n ∧ align n < n + 8 ∧ align n % 8 = 0 := by
  simp only [align]; omega

theorem align_align (n : Nat) (h : n ≤ 2 ^ 62) : align (align n) = align n := by
  simp only [align]; omega

theorem align_pos (n : Nat) (h : n ≤ 2 ^ 62) (h0 : n ≠ 0) : 8 ≤ align n := by
  simp only [align]; omega

theorem disjoint_symm {a n b m : Nat} (h : Disjoint a n b m) : Disjoint b m a n := by
  simp only [Disjoint] at *; omega

/-! ### The invariant -/

structure Good (c : Chunk) : Prop where
  given : c.given = 24 + c.capacity
  fits : c.size ≤ c.capacity
  size8 : c.size % 8 = 0
  base8 : c.base % 8 = 0
  pos : 0 < c.base
  top : c.base + c.given ≤ 2 ^ 63

/-- Where a block is, with the bytes that its size was rounded up to. -/
def In (c : Chunk) (b : Nat × Nat) : Prop := c.base + 24 ≤ b.1 ∧ b.1 + align b.2 ≤ c.base + 24 + c.size

structure Inv (cs : List Chunk) (live : List (Nat × Nat)) : Prop where
  good : ∀ c ∈ cs, Good c
  chunks : cs.Pairwise fun c d => Disjoint c.base c.given d.base d.given
  size : ∀ b ∈ live, b.2 ≠ 0 ∧ b.2 ≤ 2 ^ 62
  within : ∀ b ∈ live, ∃ c ∈ cs, In c b
  al : ∀ b ∈ live, b.1 % 8 = 0
  apart : live.Pairwise fun x y => Disjoint x.1 (align x.2) y.1 (align y.2)

theorem Inv.perm {cs live live'} (h : Inv cs live) (hp : live.Perm live') : Inv cs live' :=
  ⟨h.good, h.chunks, fun b hb => h.size b (hp.mem_iff.mpr hb), fun b hb => h.within b (hp.mem_iff.mpr hb), fun b hb => h.al b (hp.mem_iff.mpr hb),
    (hp.pairwise_iff (fun h => disjoint_symm h)).mp h.apart⟩

theorem Inv.tail {cs b live} (h : Inv cs (b :: live)) : Inv cs live :=
  ⟨h.good, h.chunks, fun x hx => h.size x (List.mem_cons_of_mem _ hx), fun x hx => h.within x (List.mem_cons_of_mem _ hx),
    fun x hx => h.al x (List.mem_cons_of_mem _ hx), (List.pairwise_cons.mp h.apart).2⟩

theorem Inv.front {cs live b} (h : Inv cs live) (hb : b ∈ live) : Inv cs (b :: live.erase b) := h.perm (List.perm_cons_erase hb)

/-- The first chunk grows: what is there stays, and the new bytes belong to no block. -/
theorem Inv.grow {c cs live k} (h : Inv (c :: cs) live) (h8 : k % 8 = 0) (hf : c.size + k ≤ c.capacity) :
    Inv (⟨c.base, c.capacity, c.size + k, c.given⟩ :: cs) live ∧ ∀ b ∈ live, Disjoint (c.base + 24 + c.size) k b.1 (align b.2) := by
  have hg := h.good c (by simp)
  refine ⟨⟨?_, ?_, h.size, ?_, h.al, h.apart⟩, ?_⟩
  · intro d hd
    rcases List.mem_cons.mp hd with rfl | hd
    · have := hg.size8
      exact ⟨hg.given, hf, by dsimp only; omega, hg.base8, hg.pos, hg.top⟩
    · exact h.good d (List.mem_cons_of_mem _ hd)
  · have := List.pairwise_cons.mp h.chunks
    exact List.pairwise_cons.mpr ⟨fun d hd => this.1 d hd, this.2⟩
  · intro b hb
    obtain ⟨d, hd, hi⟩ := h.within b hb
    rcases List.mem_cons.mp hd with rfl | hd
    · exact ⟨_, List.mem_cons_self .., hi.1, by have := hi.2; dsimp only; omega⟩
    · exact ⟨d, List.mem_cons_of_mem _ hd, hi⟩
  · intro b hb
    obtain ⟨d, hd, hi⟩ := h.within b hb
    rcases List.mem_cons.mp hd with rfl | hd'
    · exact Or.inr hi.2
    · have hdis := (List.pairwise_cons.mp h.chunks).1 d hd'
      have gd := h.good d hd
      have h1 := hi.1; have h2 := hi.2
      have := hg.given; have := gd.given; have := gd.fits
      simp only [Disjoint] at hdis ⊢
      omega

theorem Inv.cons {cs live q n} (h : Inv cs live) (h0 : n ≠ 0) (hn : n ≤ 2 ^ 62) (h8 : q % 8 = 0) (hi : ∃ c ∈ cs, In c (q, n))
    (hd : ∀ b ∈ live, Disjoint q (align n) b.1 (align b.2)) : Inv cs ((q, n) :: live) := by
  refine ⟨h.good, h.chunks, ?_, ?_, ?_, List.pairwise_cons.mpr ⟨hd, h.apart⟩⟩
  · intro b hb; rcases List.mem_cons.mp hb with rfl | hb
    · exact ⟨h0, hn⟩
    · exact h.size b hb
  · intro b hb; rcases List.mem_cons.mp hb with rfl | hb
    · exact hi
    · exact h.within b hb
  · intro b hb; rcases List.mem_cons.mp hb with rfl | hb
    · exact h8
    · exact h.al b hb

/-- A block is taken from the first chunk. -/
theorem take_ok {p : Pool} {c cs live n} (hc : p.chunks = c :: cs) (h : Inv p.chunks live) (h0 : n ≠ 0) (hn : n ≤ 2 ^ 62)
    (hf : c.size + align n ≤ c.capacity) :
    ∃ q, (take p (align n)).2 = some q ∧ Inv (take p (align n)).1.chunks ((q, n) :: live) ∧ (take p (align n)).1.chunkCapacity = p.chunkCapacity := by
  rw [hc] at h
  have hg := h.good c (by simp)
  have ha := align_le n (by omega)
  obtain ⟨hi, hd⟩ := h.grow ha.2.2 hf
  have hgiven := hg.given; have htop := hg.top; have hb8 := hg.base8; have hs8 := hg.size8
  refine ⟨c.base + 24 + c.size, ?_, ?_, ?_⟩
  · simp only [take, hc, header]
    rw [Nat.mod_eq_of_lt (by omega)]
  · simp only [take, hc]
    rw [Nat.mod_eq_of_lt (by omega)]
    refine hi.cons h0 hn (by omega) ⟨_, List.mem_cons_self .., ?_⟩ hd
    simp only [In]; omega
  · simp only [take, hc]

theorem add_ok {p : Pool} {live cap b} {lib : Nat → Option Nat} (h : Inv p.chunks live) (hl : Library (givenOf p) lib) (hc : cap ≤ 2 ^ 62 + 8)
    (hb : lib (request cap) = some b) : Inv (⟨b, cap, 0, request cap⟩ :: p.chunks) live := by
  obtain ⟨h16, hpos, htop, hdis⟩ := hl _ _ hb
  have hr : request cap = 24 + cap := by simp only [request, header]; omega
  refine ⟨?_, ?_, h.size, ?_, h.al, h.apart⟩
  · intro d hd
    rcases List.mem_cons.mp hd with rfl | hd
    · exact ⟨hr, Nat.zero_le _, rfl, by dsimp only; omega, hpos, htop⟩
    · exact h.good d hd
  · refine List.pairwise_cons.mpr ⟨fun d hd => ?_, h.chunks⟩
    exact hdis (d.base, d.given) (List.mem_map.mpr ⟨d, hd, rfl⟩)
  · intro x hx
    obtain ⟨d, hd, hi⟩ := h.within x hx
    exact ⟨d, List.mem_cons_of_mem _ hd, hi⟩

theorem newCapacity_ok {p : Pool} (hp : p.chunkCapacity = 64 * 1024) {n} (hn : n ≤ 2 ^ 62) :
    align n ≤ newCapacity p (align n) ∧ newCapacity p (align n) ≤ 2 ^ 62 + 8 ∧ newCapacity p (align n) ≤ n + 65536 := by
  have := align_le n (by omega)
  simp only [newCapacity, hp]
  split <;> omega

/-- `Malloc`: no block, or one more. -/
theorem malloc_ok {p : Pool} {live n} {lib : Nat → Option Nat} (hp : p.chunkCapacity = 64 * 1024) (h : Inv p.chunks live)
    (hl : Library (givenOf p) lib) (hn : n ≤ 2 ^ 62) :
    (malloc p n lib).1.chunkCapacity = 64 * 1024 ∧
      ((malloc p n lib).2 = none ∧ Inv (malloc p n lib).1.chunks live ∧ ((∀ k, k ≤ n + 65600 → lib k ≠ none) → n = 0) ∨
        n ≠ 0 ∧ ∃ q, (malloc p n lib).2 = some q ∧ Inv (malloc p n lib).1.chunks ((q, n) :: live)) := by
  by_cases h0 : n = 0
  · simp only [malloc, if_pos h0]
    exact ⟨hp, Or.inl ⟨trivial, h, fun _ => h0⟩⟩
  have hcap := newCapacity_ok hp hn
  have ha := align_le n (by omega)
  simp only [malloc, if_neg h0]
  by_cases hf : full p (align n) = true
  · rw [if_pos hf]
    cases hb : lib (request (newCapacity p (align n))) with
    | none =>
      simp only [addChunk, hb]
      refine ⟨hp, Or.inl ⟨trivial, h, fun hk => absurd hb (hk _ ?_)⟩⟩
      have := hcap.2
      simp only [request, header]; omega
    | some b =>
      simp only [addChunk, hb]
      obtain ⟨q, hq, hi, hc⟩ := take_ok (p := { p with chunks := ⟨b, newCapacity p (align n), 0, request (newCapacity p (align n))⟩ :: p.chunks })
        rfl (add_ok h hl hcap.2.1 hb) h0 hn (by dsimp only; omega)
      exact ⟨by rw [hc]; exact hp, Or.inr ⟨h0, q, hq, hi⟩⟩
  · rw [if_neg hf]
    cases hc : p.chunks with
    | nil => simp only [full, hc, not_true] at hf
    | cons c cs =>
      have hg := h.good c (by rw [hc]; simp)
      have := hg.fits; have := hg.given; have := hg.top
      simp only [full, hc, decide_eq_true_eq, Nat.not_lt] at hf
      rw [Nat.mod_eq_of_lt (by omega)] at hf
      obtain ⟨q, hq, hi, hcc⟩ := take_ok hc h h0 hn hf
      exact ⟨by rw [hcc]; exact hp, Or.inr ⟨h0, q, hq, hi⟩⟩

/-- A block with another size. -/
theorem Inv.resize {cs live a o n} (h : Inv cs ((a, o) :: live)) (h0 : n ≠ 0) (hn : n ≤ 2 ^ 62) (hle : align n ≤ align o) : Inv cs ((a, n) :: live) := by
  refine h.tail.cons h0 hn (h.al (a, o) (by simp)) ?_ ?_
  · obtain ⟨c, hc, hi⟩ := h.within (a, o) (by simp)
    exact ⟨c, hc, hi.1, by have := hi.2; dsimp only at *; omega⟩
  · intro b hb
    have := (List.pairwise_cons.mp h.apart).1 b hb
    simp only [Disjoint] at *; omega

/-- The last block of the first chunk grows. -/
theorem expand_ok {p p' : Pool} {live a o n} (h : Inv p.chunks ((a, o) :: live)) (h0 : n ≠ 0) (hn : n ≤ 2 ^ 62) (hlt : align o < align n)
    (he : expand p a (align o) (align n) = some p') : p'.chunkCapacity = p.chunkCapacity ∧ Inv p'.chunks ((a, n) :: live) := by
  cases hc : p.chunks with
  | nil => simp [expand, hc] at he
  | cons c cs =>
    rw [hc] at h
    have hg := h.good c (by simp)
    have ho := h.size (a, o) (by simp)
    have hao := align_le o (by have := ho.2; dsimp only at this; omega)
    have han := align_le n (by omega)
    have hpo := align_pos o ho.2 ho.1
    have hgiven := hg.given; have htop := hg.top; have hfits := hg.fits
    simp only [expand, hc] at he
    by_cases hif : a = lastStart c (align o) ∧ (c.size + (align n - align o)) % 2 ^ 64 ≤ c.capacity
    case neg => rw [if_neg hif] at he; simp at he
    rw [if_pos hif] at he
    obtain ⟨hlast, hcap⟩ := hif
    have ho2 := ho.2; dsimp only at ho2
    rw [Nat.mod_eq_of_lt (by omega)] at hcap he
    obtain ⟨hi, hd⟩ := h.grow (k := align n - align o) (by omega) hcap
    have hend : a + align o = c.base + 24 + c.size := by
      obtain ⟨d, hdm, hin⟩ := h.within (a, o) (by simp)
      have gd := h.good d hdm
      have h1 := hin.1; have h2 := hin.2
      have := gd.top; have := gd.given; have := gd.fits
      simp only [lastStart, header] at hlast
      dsimp only at h1 h2
      omega
    simp only [Option.some.injEq] at he
    subst he
    refine ⟨rfl, hi.tail.cons h0 hn (h.al (a, o) (by simp)) ?_ ?_⟩
    · -- the block lies in the first chunk
      obtain ⟨d, hdm, hin⟩ := h.within (a, o) (by simp)
      rcases List.mem_cons.mp hdm with rfl | hdm'
      · exact ⟨_, List.mem_cons_self .., hin.1, by dsimp only; omega⟩
      · exfalso
        have hdis := (List.pairwise_cons.mp h.chunks).1 d hdm'
        have gd := h.good d hdm
        have h1 := hin.1; have h2 := hin.2
        have := gd.given; have := gd.fits
        simp only [Disjoint] at hdis
        dsimp only at h1 h2
        omega
    · intro b hb
      have h1 := (List.pairwise_cons.mp h.apart).1 b hb
      have h2 := hd b (List.mem_cons_of_mem _ hb)
      have hs := h.size b (List.mem_cons_of_mem _ hb)
      have := align_pos b.2 hs.2 hs.1
      simp only [Disjoint] at *
      omega

theorem copy_same {m : Mem} {dst src k b} (h : Disjoint dst k b.1 b.2) : Same m (copy m dst src k) b := by
  intro x h1 h2
  simp only [copy]
  rw [if_neg]
  simp only [Disjoint] at h
  omega

theorem copy_moved {m : Mem} {dst src k i : Nat} (h : i < k) : copy m dst src k (dst + i) = m (src + i) := by
  simp only [copy]
  rw [if_pos (by omega)]
  congr 1; omega

theorem same_refl (m : Mem) (b : Nat × Nat) : Same m m b := fun _ _ _ => rfl

/-- One operation. -/
theorem step_ok {p : Pool} {m : Mem} {live} {lib : Nat → Option Nat} {op : Op} (hp : p.chunkCapacity = 64 * 1024) (h : Inv p.chunks live)
    (hl : Library (givenOf p) lib) (hop : Legal live op) :
    (run p m lib op).1.chunkCapacity = 64 * 1024 ∧ Inv (run p m lib op).1.chunks (own live (run p m lib op).2.2 op) ∧
      Contents live m (run p m lib op).2.1 (run p m lib op).2.2 op ∧ Progress lib (run p m lib op).2.2 op := by
  cases op with
  | malloc n =>
    simp only [Legal] at hop
    obtain ⟨h1, h2⟩ := malloc_ok hp h hl hop
    simp only [run]
    rcases h2 with ⟨hr, hi, hpr⟩ | ⟨hn0, q, hr, hi⟩
    · rw [hr]; exact ⟨h1, hi, fun b _ => same_refl m b, fun a b _ => b (hpr fun k hk => a k (by omega))⟩
    · rw [hr]; exact ⟨h1, hi, fun b _ => same_refl m b, fun _ _ => by simp⟩
  | write x v =>
    simp only [run, own]
    exact ⟨hp, h, ⟨by simp only [poke, if_pos], fun y hy => by simp only [poke, if_neg hy]⟩, trivial⟩
  | clear =>
    simp only [run, own, clear]
    exact ⟨hp, ⟨by simp, by simp, by simp, by simp, by simp, by simp⟩, trivial, trivial⟩
  | realloc ptr o n =>
    cases ptr with
    | none =>
      simp only [Legal] at hop
      obtain ⟨h1, h2⟩ := malloc_ok hp h hl hop
      simp only [run, realloc]
      rcases h2 with ⟨hr, hi, hpr⟩ | ⟨hn0, q, hr, hi⟩
      · rw [hr]; exact ⟨h1, hi, fun b _ => same_refl m b, fun a b _ => b (hpr fun k hk => a k (by omega))⟩
      · rw [hr]; exact ⟨h1, hi, fun b _ => same_refl m b, fun _ _ => by simp⟩
    | some a =>
      obtain ⟨hmem, hn⟩ := hop
      have hfr := h.front hmem
      have ho := h.size _ hmem
      have ho2 := ho.2; dsimp only at ho2
      simp only [run, realloc]
      by_cases h0 : n = 0
      · simp only [if_pos h0]
        exact ⟨hp, h, fun b _ => same_refl m b, fun _ b => absurd h0 b⟩
      simp only [if_neg h0]
      by_cases hle : align o ≥ align n
      · simp only [if_pos hle]
        exact ⟨hp, hfr.resize h0 hn hle, ⟨fun b _ => same_refl m b, fun i _ _ => rfl⟩, fun _ _ => by simp⟩
      simp only [if_neg hle]
      cases he : expand p a (align o) (align n) with
      | some p' =>
        obtain ⟨h1, h2⟩ := expand_ok hfr h0 hn (by omega) he
        exact ⟨by rw [← hp]; exact h1, h2, ⟨fun b _ => same_refl m b, fun i _ _ => rfl⟩, fun _ _ => by simp⟩
      | none =>
        simp only [move]
        have han := align_le n (by omega)
        have hao := align_le o (by omega)
        by_cases hbig : align n ≤ 2 ^ 62
        case neg => omega
        obtain ⟨h1, h2⟩ := malloc_ok hp h hl hbig
        have hpo := align_pos o ho2 ho.1
        rcases h2 with ⟨hr, hi, hpr⟩ | ⟨hn0, q, hr, hi⟩
        · have e : malloc p (align n) lib = ((malloc p (align n) lib).1, none) := by rw [← hr]
          rw [e]
          exact ⟨h1, hi, fun b _ => same_refl m b, fun hk _ => by have := hpr fun k h => hk k (by omega); omega⟩
        · have e : malloc p (align n) lib = ((malloc p (align n) lib).1, some q) := by rw [← hr]
          rw [e]
          have hpw := (List.pairwise_cons.mp hi.apart).1
          have hi2 : Inv (malloc p (align n) lib).1.chunks ((q, align n) :: live.erase (a, o)) := by
            have := hi.perm ((List.perm_cons_erase hmem).cons (q, align n))
            have := this.perm (List.Perm.swap _ _ _)
            exact this.tail
          dsimp only
          rw [if_pos (by omega)]
          refine ⟨h1, hi2.resize h0 hn (by rw [align_align n hn]; exact Nat.le_refl _), ⟨fun b hb => copy_same ?_, fun i hi1 _ => copy_moved (by omega)⟩, fun _ _ => by simp⟩
          have hb' := List.mem_of_mem_erase hb
          have hs := h.size b hb'
          have hab := align_le b.2 (by have := hs.2; omega)
          have := hpw b hb'
          have haa := align_align n hn
          simp only [Disjoint] at *
          omega

theorem reach_inv {w : World} (h : Reach w) : w.pool.chunkCapacity = 64 * 1024 ∧ Inv w.pool.chunks w.live := by
  induction h with
  | new m => exact ⟨rfl, ⟨by simp [Pool.new], by simp [Pool.new], by simp, by simp, by simp, by simp⟩⟩
  | step w lib op _ hl hop ih =>
    obtain ⟨h1, h2, -⟩ := step_ok (m := w.mem) ih.1 ih.2 hl hop
    exact ⟨h1, h2⟩

theorem pairwise_ne {α : Type} {R : α → α → Prop} (hs : ∀ x y, R x y → R y x) {l : List α} (h : l.Pairwise R) {x y : α} (hx : x ∈ l) (hy : y ∈ l) (hne : x ≠ y) : R x y := by
  induction l with
  | nil => simp at hx
  | cons a l ih =>
    obtain ⟨h1, h2⟩ := List.pairwise_cons.mp h
    rcases List.mem_cons.mp hx with rfl | hx'
    · rcases List.mem_cons.mp hy with rfl | hy'
      · exact absurd rfl hne
      · exact h1 y hy'
    · rcases List.mem_cons.mp hy with rfl | hy'
      · exact hs _ _ (h1 x hx')
      · exact ih h2 hx' hy'

theorem Inv.sound {p : Pool} {live} (h : Inv p.chunks live) : Sound (givenOf p) (headsOf p) live := by
  refine ⟨?_, ?_, ?_, h.al⟩
  · intro b hb
    obtain ⟨c, hc, hi⟩ := h.within b hb
    refine ⟨(c.base, c.given), List.mem_map.mpr ⟨c, hc, rfl⟩, ?_⟩
    have hs := h.size b hb
    have := align_le b.2 (by have := hs.2; omega)
    have h1 := hi.1; have h2 := hi.2; have := (h.good c hc).given; have := (h.good c hc).fits
    dsimp only
    omega
  · have hall : ∀ x ∈ live, ∀ y ∈ live, Disjoint x.1 (align x.2) y.1 (align y.2) → Disjoint x.1 x.2 y.1 y.2 := by
      intro x hx y hy hd
      have h1 := align_le x.2 (by have := (h.size x hx).2; omega)
      have h2 := align_le y.2 (by have := (h.size y hy).2; omega)
      simp only [Disjoint] at *; omega
    exact h.apart.imp_of_mem fun {x y} hx hy hd => hall x hx y hy hd
  · intro b hb a ha
    obtain ⟨d, hd, rfl⟩ := List.mem_map.mp ha
    obtain ⟨c, hc, hi⟩ := h.within b hb
    have hs := h.size b hb
    have := align_le b.2 (by have := hs.2; omega)
    have h1 := hi.1; have h2 := hi.2
    have gc := h.good c hc; have gd := h.good d hd
    have := gc.given; have := gc.fits; have := gd.given
    by_cases e : c = d
    · subst e; simp only [Disjoint]; omega
    · have hdis : Disjoint c.base c.given d.base d.given := by
        exact pairwise_ne (R := fun c d : Chunk => Disjoint c.base c.given d.base d.given) (fun _ _ hx => disjoint_symm hx) h.chunks hc hd e
      simp only [Disjoint] at *; omega

/-- C151. In every state that a document's pool can be in, all live blocks lie in memory that the C library gave, apart from each other and from the chunk headers,
aligned to eight bytes; every further legal operation leaves the contents of the live blocks as they are, carries those of a reallocated block along, and gives a block of
at least one byte unless the library refuses. -/
theorem C151 (w : World) (h : Reach w) :
    Sound (givenOf w.pool) (headsOf w.pool) w.live ∧
      ∀ lib op, Library (givenOf w.pool) lib → Legal w.live op →
        Sound (givenOf (w.next lib op).pool) (headsOf (w.next lib op).pool) (w.next lib op).live ∧
        Contents w.live w.mem (w.next lib op).mem (run w.pool w.mem lib op).2.2 op ∧ Progress lib (run w.pool w.mem lib op).2.2 op := by
  obtain ⟨h1, h2⟩ := reach_inv h
  refine ⟨h2.sound, fun lib op hl hop => ?_⟩
  obtain ⟨-, h4, h5, h6⟩ := step_ok (m := w.mem) h1 h2 hl hop
  exact ⟨h4.sound, h5, h6⟩

/-- A library that gives one chunk after the other. -/
def libAt (b : Nat) : Nat → Option Nat := fun n => if n ≤ 2 ^ 40 then some b else none

def w0 : World := ⟨Pool.new, fun _ => 0, []⟩
def w1 : World := w0.next (libAt 4096) (.malloc 5)
def w2 : World := w1.next (libAt 4096) (.write 4121 7)
def w3 : World := w2.next (libAt 4096) (.realloc (some 4120) 5 20)
def w4 : World := w3.next (libAt 4096) (.malloc 9)
def w5 : World := w4.next (libAt 1048576) (.realloc (some 4120) 20 70000)

/-- Non-vacuity: a block is allocated, written, expanded in place as the last one, and moved to a chunk of its own when another block follows it. -/
example : w5.live = [(1048600, 70000), (4144, 9)] ∧ w5.mem 1048601 = 7 ∧ w5.mem 4121 = 7 ∧ w3.live = [(4120, 20)] := by decide +kernel

example : Reach w4 := by
  have hl : ∀ n b, libAt 4096 n = some b → b = 4096 ∧ n ≤ 2 ^ 40 := by
    intro n b h; simp only [libAt] at h; split at h <;> simp_all
  have l0 : Library [] (libAt 4096) := by
    intro n b h; obtain ⟨rfl, hn⟩ := hl n b h
    exact ⟨by decide, by decide, by omega, by simp⟩
  have r1 : Reach w1 := .step w0 _ _ (.new _) l0 (by decide : (5 : Nat) ≤ 2 ^ 62)
  have none_ok : ∀ g, Library g (fun _ => none) := fun g n b h => by simp at h
  have r2 : Reach w2 := by
    have := Reach.step w1 (fun _ => none) (.write 4121 7) r1 (none_ok _) ⟨(4120, 5), by decide +kernel, by decide, by decide⟩
    exact this
  have r3 : Reach w3 := by
    have := Reach.step w2 (fun _ => none) (.realloc (some 4120) 5 20) r2 (none_ok _) ⟨by decide +kernel, by decide⟩
    exact this
  exact Reach.step w3 (fun _ => none) (.malloc 9) r3 (none_ok _) (by decide : (9 : Nat) ≤ 2 ^ 62)

/-- Why the sizes are bounded: a size near 2^64 is rounded up to zero, and the block has no bytes at all. -/
example : (malloc Pool.new (2 ^ 64 - 1) (libAt 4096)).2 = some 4120 ∧
    (malloc (malloc Pool.new (2 ^ 64 - 1) (libAt 4096)).1 8 (libAt 4096)).2 = some 4120 := by decide +kernel

end Verif.PoolAllocator
