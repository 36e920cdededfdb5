import Verif.Model.Indexes
import Verif.Props.Placement
/-!
Property C115: the index attributes of a dataset are the numbers of the first and of the last frame
whose place is in its file.

Frames are numbered from 1 in the attributes (so that the frame with offset 0 has number 1).
-/
namespace Verif.Indexes
open Verif.Placement

/-! ## Specification -/

/-- Specification: blocks of `B` frames are dealt to `P` processes in turn; file `file` is of process
`file % P`; with `K` blocks to a file it holds the blocks of rounds `file / P * K` up to
`file / P * K + K - 1` of that process, with `K = 0` all of them. -/
def Spec.inFile (P B K file off : Nat) : Prop :=
  off / B % P = file % P ∧ (if K = 0 then file / P = 0 else off / B / P / K = file / P)

/-- Specification: `n` is the number of the first frame of the file. -/
def Spec.First (P B K total file : Nat) (n : Int) : Prop :=
  ∃ off : Nat, n = (off : Int) + 1 ∧ (total = 0 ∨ off < total) ∧ Spec.inFile P B K file off ∧
    ∀ o, (total = 0 ∨ o < total) → Spec.inFile P B K file o → off ≤ o

/-- Specification: `n` is the number of the last frame of the file, of an acquisition of `total`
frames. -/
def Spec.Last (P B K total file : Nat) (n : Int) : Prop :=
  ∃ off : Nat, n = (off : Int) + 1 ∧ (total = 0 ∨ off < total) ∧ Spec.inFile P B K file off ∧
    ∀ o, (total = 0 ∨ o < total) → Spec.inFile P B K file o → o ≤ off

/-- The frames of the specification are those the model of the writer puts into the file. -/
theorem inFile_iff (g : Geom) (file off : Nat) (hr : g.rank < g.procs) (hK : g.bpf ≠ 0) :
    (acceptsOffset g off = true ∧ fileIndex g off = file) ↔
      (Spec.inFile g.procs g.fpb g.bpf file off ∧ file % g.procs = g.rank) := by
  have ha := C01_exactly_one_rank g.procs g.fpb g.bpf off (by omega) g.rank hr
  have hg : ({ rank := g.rank, procs := g.procs, fpb := g.fpb, bpf := g.bpf } : Geom) = g := rfl
  rw [hg] at ha
  rw [ha]
  unfold Spec.inFile Spec.owner
  rw [if_neg hK]
  constructor
  · rintro ⟨h1, h2⟩
    have hm := C02_file_of_rank g off hr
    rw [h2] at hm
    refine ⟨⟨by omega, ?_⟩, hm⟩
    rw [← h2]
    unfold fileIndex
    exact (div_of' _ _ _ hr).symm
  · rintro ⟨⟨h1, h2⟩, h3⟩
    refine ⟨by omega, ?_⟩
    unfold fileIndex
    show off / g.fpb / g.procs / g.bpf * g.procs + g.rank = file
    rw [h2, ← h3, Nat.mul_comm]
    exact Nat.div_add_mod file g.procs

/-- With one file per process the frames of the specification are those the model accepts. -/
theorem inFile_iff_single (g : Geom) (off : Nat) (hr : g.rank < g.procs) (hK : g.bpf = 0) :
    acceptsOffset g off = true ↔ Spec.inFile g.procs g.fpb g.bpf g.rank off := by
  have ha := C01_exactly_one_rank g.procs g.fpb g.bpf off (by omega) g.rank hr
  have hg : ({ rank := g.rank, procs := g.procs, fpb := g.fpb, bpf := g.bpf } : Geom) = g := rfl
  rw [hg] at ha
  rw [ha]
  unfold Spec.inFile Spec.owner
  rw [if_pos hK, Nat.mod_eq_of_lt hr, Nat.div_eq_of_lt hr]
  constructor
  · intro h; exact ⟨h.symm, rfl⟩
  · intro h; exact h.1.symm

/-! ## Arithmetic -/

theorem toInt_id (n : Nat) (h : n < 2147483648) : toInt n = n := by
  unfold toInt
  rw [Nat.mod_eq_of_lt (by omega), if_pos h]; omega

theorem toSize_id (n : Nat) (h : n < 2147483648) : toSize (n : Int) = n := by
  unfold toSize
  omega

/-- Without overflow the first index is the exact value. -/
theorem low_eq (g : Geom) (file : Nat) (h : file * g.fpb + g.fpb < 2147483648) (hB : 0 < g.fpb) :
    low g file = ((file * g.fpb + 1 : Nat) : Int) := by
  unfold low
  rw [Nat.mod_eq_of_lt (by omega), toInt_id _ (by omega)]

theorem high0_eq (g : Geom) (file : Nat) (h : file * g.fpb + g.fpb < 2147483648) (hB : 0 < g.fpb) :
    high0 g file = ((file * g.fpb + g.fpb : Nat) : Int) := by
  unfold high0
  rw [low_eq g file h hB, toSize_id _ (by omega)]
  have : (file * g.fpb + 1 + g.fpb + 18446744073709551615) % 18446744073709551616
      = file * g.fpb + g.fpb := by omega
  rw [this, toInt_id _ h]

theorem high_eq (g : Geom) (total file : Nat) (h : file * g.fpb + g.fpb < 2147483648) (hB : 0 < g.fpb)
    (ht : total < 2147483648) :
    high g total file =
      ((if g.bpf = 0 ∨ total < file * g.fpb + g.fpb then total else file * g.fpb + g.fpb : Nat) : Int) := by
  unfold high
  rw [high0_eq g file h hB, toSize_id _ h, toInt_id _ ht]
  split <;> rfl

/-- The offset of the first frame of a file. -/
def start (P B K file : Nat) : Nat := (file / P * K * P + file % P) * B

theorem start_inFile (P B K file : Nat) (hP : 0 < P) (hB : 0 < B) (hf : K = 0 → file < P) :
    Spec.inFile P B K file (start P B K file) := by
  have hr : file % P < P := Nat.mod_lt _ hP
  have hd : start P B K file / B = file / P * K * P + file % P := by
    unfold start; exact Nat.mul_div_cancel _ hB
  unfold Spec.inFile
  rw [hd]
  refine ⟨mod_of' _ _ _ hr, ?_⟩
  split
  · rename_i hK; exact Nat.div_eq_of_lt (hf hK)
  · rename_i hK
    rw [div_of' _ _ _ hr]
    exact Nat.mul_div_cancel _ (by omega)

theorem start_le (P B K file off : Nat) (h : Spec.inFile P B K file off) :
    start P B K file ≤ off := by
  have hd := decomp off P B
  obtain ⟨h1, h2⟩ := h
  have hq : file / P * K ≤ off / B / P := by
    split at h2
    · rename_i hK; subst hK; simp
    · rw [← h2]; exact Nat.div_mul_le_self _ _
  rw [h1] at hd
  have : (file / P * K * P + file % P) * B ≤ (off / B / P * P + file % P) * B :=
    Nat.mul_le_mul_right _ (Nat.add_le_add_right (Nat.mul_le_mul_right _ hq) _)
  unfold start
  omega

/-- The first frame of a file that has a frame is the one at its start. -/
theorem first_iff (P B K total file : Nat) (n : Int) (hP : 0 < P) (hB : 0 < B) (hf : K = 0 → file < P)
    (hne : ∃ o, (total = 0 ∨ o < total) ∧ Spec.inFile P B K file o) :
    Spec.First P B K total file n ↔ n = (start P B K file : Int) + 1 := by
  obtain ⟨w, hw, hwf⟩ := hne
  have hs : total = 0 ∨ start P B K file < total := by
    rcases hw with h | h
    · exact .inl h
    · have := start_le P B K file w hwf; exact .inr (by omega)
  constructor
  · rintro ⟨off, hn, _, hof, hmin⟩
    have h1 := hmin _ hs (start_inFile P B K file hP hB hf)
    have h2 := start_le P B K file off hof
    omega
  · intro hn
    exact ⟨start P B K file, hn, hs, start_inFile P B K file hP hB hf,
      fun o _ ho => start_le P B K file o ho⟩

/-! ## C115 -/

/-- C115, the property as it should hold: in every geometry and for every file in which a frame has
its place (numbers fitting an `int`), the attributes, if asked for, are the numbers of the first and
of the last frame of the file. -/
def C115_statement : Prop :=
  ∀ (g : Geom) (total file : Nat), g.rank < g.procs → 0 < g.fpb → file % g.procs = g.rank →
    (g.bpf = 0 → file = g.rank) → 0 < total → total < 2147483648 →
    file * g.fpb + g.fpb < 2147483648 →
    (∃ o, o < total ∧ Spec.inFile g.procs g.fpb g.bpf file o) →
    ∃ l h, indexes g total file true = some (l, h) ∧
      Spec.First g.procs g.fpb g.bpf total file l ∧ Spec.Last g.procs g.fpb g.bpf total file h

/-- C115 is violated: with two blocks of ten frames to a file, one process and 40 frames, the second
file holds the frames 21 to 40 but says 11 to 20. -/
theorem C115_violated : ¬ C115_statement := by
  intro hst
  have hex : ∃ o, o < 40 ∧ Spec.inFile 1 10 2 1 o := ⟨20, by decide +kernel, by unfold Spec.inFile; decide +kernel⟩
  obtain ⟨l, h, he, hf, _⟩ := hst ⟨0, 1, 10, 2⟩ 40 1 (by decide) (by decide) (by decide) (by decide)
    (by decide) (by decide) (by decide) hex
  have h0 : indexes ⟨0, 1, 10, 2⟩ 40 1 true = some (11, 20) := by decide +kernel
  rw [h0] at he
  have hl : (11 : Int) = l := congrArg Prod.fst (Option.some.inj he)
  have := (first_iff 1 10 2 40 1 l (by decide) (by decide) (by decide)
    (hex.elim fun o ho => ⟨o, .inr ho.1, ho.2⟩)).1 hf
  have hs : start 1 10 2 1 = 20 := by decide +kernel
  rw [hs] at this
  omega

/-- C115: exactly when the first index is right. With more than one frame to a block and without
overflow, the first index of a file that holds frames is the number of its first frame if and only if
the file is the first of its process or holds one block. -/
theorem C115_low_partial (g : Geom) (total file : Nat) (hr : g.rank < g.procs) (hB : 0 < g.fpb)
    (hfile : g.bpf = 0 → file = g.rank) (ho : file * g.fpb + g.fpb < 2147483648)
    (hne : ∃ o, (total = 0 ∨ o < total) ∧ Spec.inFile g.procs g.fpb g.bpf file o) :
    Spec.First g.procs g.fpb g.bpf total file (low g file) ↔ (file < g.procs ∨ g.bpf = 1) := by
  have hlt : g.bpf = 0 → file < g.procs := fun h => by rw [hfile h]; exact hr
  rw [first_iff _ _ _ _ _ _ (by omega) hB hlt hne, low_eq g file ho hB]
  have hd := Nat.div_add_mod file g.procs
  have hco : file / g.procs * g.bpf * g.procs = g.procs * (file / g.procs) * g.bpf := by
    rw [Nat.mul_comm (file / g.procs * g.bpf), Nat.mul_assoc]
  unfold start
  constructor
  · intro h
    have h1 : file * g.fpb = (file / g.procs * g.bpf * g.procs + file % g.procs) * g.fpb := by omega
    have h2 := Nat.eq_of_mul_eq_mul_right hB h1
    rw [hco] at h2
    by_cases hlt2 : file < g.procs
    · exact .inl hlt2
    · right
      have hpos : 0 < g.procs * (file / g.procs) :=
        Nat.mul_pos (by omega) (Nat.div_pos (by omega) (by omega))
      have h3 : g.procs * (file / g.procs) * 1 = g.procs * (file / g.procs) * g.bpf := by omega
      exact (Nat.eq_of_mul_eq_mul_left hpos h3).symm
  · intro h
    have : file = file / g.procs * g.bpf * g.procs + file % g.procs := by
      rw [hco]
      rcases h with h | h
      · rw [Nat.div_eq_of_lt h]; simp; exact (Nat.mod_eq_of_lt h).symm
      · rw [h]; omega
    rw [← this]
    omega

/-- The frames of a file of one block are those of its block. -/
theorem inFile_one (P B file o : Nat) :
    Spec.inFile P B 1 file o ↔ o / B = file := by
  unfold Spec.inFile
  rw [if_neg (by decide), Nat.div_one]
  constructor
  · rintro ⟨h1, h2⟩
    rw [← Nat.div_add_mod (o / B) P, h1, h2, Nat.div_add_mod]
  · intro h; rw [h]; exact ⟨rfl, rfl⟩

/-- C115 where it holds: one block of more than one frame to a file, a known number of frames, no
overflow. Both attributes of every file that holds a frame are exact. Missing from the full property:
blocks of one frame (`C115_small`), several blocks to a file (`C115_low_partial`), one file per process
(`C115_single`, `C115_single_partial`); with an unknown number of frames the last index is 0
(`C115_continuous`). -/
theorem C115_partial (g : Geom) (total file : Nat) (hr : g.rank < g.procs) (hB : 1 < g.fpb)
    (hK : g.bpf = 1) (ht : 0 < total) (ht2 : total < 2147483648)
    (ho : file * g.fpb + g.fpb < 2147483648)
    (hne : ∃ o, o < total ∧ Spec.inFile g.procs g.fpb g.bpf file o) :
    ∃ l h, indexes g total file true = some (l, h) ∧
      Spec.First g.procs g.fpb g.bpf total file l ∧ Spec.Last g.procs g.fpb g.bpf total file h := by
  refine ⟨low g file, high g total file, ?_, ?_, ?_⟩
  · unfold indexes
    rw [if_neg (by decide), if_pos hB]
  · obtain ⟨o, ho1, ho2⟩ := hne
    exact (C115_low_partial g total file hr (by omega) (fun h => by omega) ho ⟨o, .inr ho1, ho2⟩).2
      (.inr hK)
  · rw [high_eq g total file ho (by omega) ht2, hK]
    obtain ⟨w, hw1, hw2⟩ := hne
    rw [hK, inFile_one] at hw2
    have hBp : 0 < g.fpb := by omega
    have key : ∀ o, o / g.fpb = file ↔ (file * g.fpb ≤ o ∧ o < file * g.fpb + g.fpb) := by
      intro o
      rw [Nat.div_eq_iff hBp]
      omega
    have hw3 := (key w).1 hw2
    by_cases hc : total < file * g.fpb + g.fpb
    · rw [if_pos (.inr hc)]
      refine ⟨total - 1, by omega, .inr (by omega), ?_, ?_⟩
      · rw [inFile_one, key]; omega
      · intro o h1 _; omega
    · rw [if_neg (by omega)]
      refine ⟨file * g.fpb + g.fpb - 1, by omega, .inr (by omega), ?_, ?_⟩
      · rw [inFile_one, key]; omega
      · intro o _ h1
        rw [inFile_one, key] at h1
        omega

/-- C115 with a single process writing a single file: both attributes are exact. -/
theorem C115_single_partial (g : Geom) (total : Nat) (hr : g.rank = 0) (hP : g.procs = 1) (hB : 1 < g.fpb)
    (hK : g.bpf = 0) (ht : 0 < total) (ht2 : total < 2147483648) (hb : g.fpb < 2147483648) :
    ∃ l h, indexes g total 0 true = some (l, h) ∧
      Spec.First g.procs g.fpb g.bpf total 0 l ∧ Spec.Last g.procs g.fpb g.bpf total 0 h := by
  have hin : ∀ o, Spec.inFile g.procs g.fpb g.bpf 0 o := by
    intro o; unfold Spec.inFile; rw [hK, hP, if_pos rfl]; simp [Nat.mod_one]
  refine ⟨low g 0, high g total 0, ?_, ?_, ?_⟩
  · unfold indexes
    rw [if_neg (by decide), if_pos hB]
  · exact (C115_low_partial g total 0 (by omega) (by omega) (fun _ => hr.symm) (by omega)
      ⟨0, .inr ht, hin 0⟩).2 (.inl (by omega))
  · rw [high_eq g total 0 (by omega) (by omega) ht2, if_pos (.inl hK)]
    exact ⟨total - 1, by omega, .inr (by omega), hin _, fun o h1 _ => by omega⟩

/-- C115 with one file per process: the last index is the number of frames of the acquisition in every
file, so it is right in exactly one of them, that of the process to which the last frame belongs. -/
theorem C115_single (g : Geom) (total : Nat) (hr : g.rank < g.procs) (hB : 1 < g.fpb)
    (hK : g.bpf = 0) (ht : 0 < total) (ht2 : total < 2147483648)
    (ho : g.rank * g.fpb + g.fpb < 2147483648) :
    Spec.Last g.procs g.fpb g.bpf total g.rank (high g total g.rank) ↔
      Spec.owner g.procs g.fpb (total - 1) = g.rank := by
  rw [high_eq g total g.rank ho (by omega) ht2, if_pos (.inl hK)]
  have hin : ∀ o, Spec.inFile g.procs g.fpb g.bpf g.rank o ↔ Spec.owner g.procs g.fpb o = g.rank := by
    intro o
    unfold Spec.inFile Spec.owner
    rw [if_pos hK, Nat.mod_eq_of_lt hr, Nat.div_eq_of_lt hr]
    exact ⟨fun h => h.1, fun h => ⟨h, rfl⟩⟩
  constructor
  · rintro ⟨off, hn, _, hof, _⟩
    have : off = total - 1 := by omega
    rw [← this]; exact (hin off).1 hof
  · intro h
    exact ⟨total - 1, by omega, .inr (by omega), (hin _).2 h, fun o h1 _ => by omega⟩

/-- C115: with several blocks to a file and without overflow the last index is that of the last frame
only if the file ends within its first block: it never exceeds the first index by a block or more. -/
theorem C115_span (g : Geom) (total file : Nat) (hB : 0 < g.fpb) (hK : g.bpf ≠ 0)
    (ht : total < 2147483648) (ho : file * g.fpb + g.fpb < 2147483648) :
    high g total file < low g file + g.fpb := by
  rw [high_eq g total file ho hB ht, low_eq g file ho hB]
  split <;> omega

/-- C115: with a number of frames not known in advance (0) the last index is 0 in every file. -/
theorem C115_continuous (g : Geom) (file : Nat) (hB : 0 < g.fpb)
    (ho : file * g.fpb + g.fpb < 2147483648) : high g 0 file = 0 := by
  rw [high_eq g 0 file ho hB (by decide), if_pos (.inr (by omega))]
  rfl

/-- C115: with one frame to a block both attributes are -1. -/
theorem C115_small (g : Geom) (total file : Nat) (hB : g.fpb ≤ 1) :
    indexes g total file true = some (-1, -1) := by
  unfold indexes
  rw [if_neg (by decide), if_neg (by omega)]

/-- C115: no attributes unless asked for. -/
theorem C115_off (g : Geom) (total file : Nat) : indexes g total file false = none := rfl

/-- Non-vacuity of `C115_partial`: 2 processes, blocks of 10, 25 frames: file 1 holds frames 11 to 20
and file 2 frames 21 to 25. -/
example : indexes ⟨1, 2, 10, 1⟩ 25 1 true = some (11, 20) ∧ indexes ⟨0, 2, 10, 1⟩ 25 2 true = some (21, 25) ∧
    (24 < 25 ∧ 24 / 10 % 2 = 2 % 2 ∧ 24 / 10 / 2 / 1 = 2 / 2) := by decide +kernel

/-- One file for each of two processes, blocks of 10, 40 frames: the file of process 0 holds frames
up to 30 and says 40. -/
example : indexes ⟨0, 2, 10, 0⟩ 40 0 true = some (1, 40) ∧ Spec.owner 2 10 39 = 1 ∧ Spec.owner 2 10 29 = 0 := by
  decide +kernel

/-- Beyond the range of an `int` the first index is negative and the last is the total. -/
example : indexes ⟨0, 1, 1000000000, 1⟩ 4000000000 3 true = some (-1294967295, -294967296) := by
  decide +kernel

end Verif.Indexes
