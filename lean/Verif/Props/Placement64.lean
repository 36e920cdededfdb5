import Verif.Model.Placement64
import Verif.Props.FileWriter
/-!
Properties C01, C02, C13 and C17 with the integers of C++: the placement of frames is the ideal one as long as the products of
the geometry fit into 64 bits (and the number of frames of a file into 31), and not otherwise.
-/
namespace Verif.Placement64
open Placement

/-- The products of the geometry fit. -/
structure Fits (g : Geom) : Prop where
  fpb : 0 < g.fpb
  rank : g.rank < g.procs
  round : g.fpb * g.procs < 18446744073709551616
  file : g.bpf * g.fpb < 18446744073709551616

theorem u64_small {n : Nat} (h : n < 18446744073709551616) : u64 n = n := Nat.mod_eq_of_lt h

theorem div_pos' {a b : Nat} (h : 0 < b) : div a b = some (a / b) := if_neg (by omega)
theorem rem_pos {a b : Nat} (h : 0 < b) : rem a b = some (a % b) := if_neg (by omega)
theorem div_zero (a : Nat) : div a 0 = none := if_pos rfl
theorem rem_zero (a : Nat) : rem a 0 = none := if_pos rfl

theorem accepts_eq (g : Geom) (off : Nat) (hB : 0 < g.fpb) (hP : 0 < g.procs) : accepts g off = some (acceptsOffset g off) := by
  unfold accepts acceptsOffset
  by_cases h : g.procs > 1
  · rw [if_pos h, if_pos h, div_pos' hB, Option.bind_some, rem_pos hP]; rfl
  · rw [if_neg h, if_neg h]

/-- The index of the block of a frame among those of its process is at most … -/
theorem block_le (off P B : Nat) : off / (B * P) * B + off % B ≤ off := by
  have h1 := Nat.div_add_mod off B
  have h2 : off / (B * P) ≤ off / B := by
    rw [← Nat.div_div_eq_div_mul]; exact Nat.div_le_self _ _
  have h3 := Nat.mul_le_mul_left B h2
  rw [Nat.mul_comm B (off / (B * P))] at h3
  omega

theorem offsetIn_eq (g : Geom) (off : Nat) (h : Fits g) (ho : off < 18446744073709551616) : offsetIn g off = some (offsetInFile g off) := by
  have hP : 0 < g.procs := Nat.lt_of_le_of_lt (Nat.zero_le _) h.rank
  have hle := block_le off g.procs g.fpb
  have hprod : 0 < g.fpb * g.procs := Nat.mul_pos h.fpb hP
  unfold offsetIn offsetInFile
  rw [u64_small h.round, div_pos' hprod, Option.bind_some]
  generalize off / (g.fpb * g.procs) = q at *
  have hq : q * g.fpb < 18446744073709551616 := by omega
  dsimp only
  unfold firstOf
  rw [u64_small hq, u64_small h.file]
  by_cases hk : g.bpf = 0
  · rw [hk]
    simp only [bne_self_eq_false, Bool.false_eq_true, if_false, Option.bind_some, rem_pos h.fpb, Option.map_some]
    rw [u64_small (by omega)]
  · have hk' : (g.bpf != 0) = true := by simp [hk]
    have hkp : 0 < g.bpf * g.fpb := Nat.mul_pos (by omega) h.fpb
    rw [if_pos hk', if_pos hk', rem_pos hkp, Option.bind_some, rem_pos h.fpb, Option.map_some]
    have := Nat.mod_le (q * g.fpb) (g.bpf * g.fpb)
    rw [u64_small (by omega)]

theorem fileOf_eq (g : Geom) (off : Nat) (h : Fits g) (hk : 0 < g.bpf) (ho : off < 18446744073709551616)
    (hown : Spec.owner g.procs g.fpb off = g.rank) : fileOf g off = some (fileIndex g off) := by
  have hP : 0 < g.procs := Nat.lt_of_le_of_lt (Nat.zero_le _) h.rank
  unfold fileOf fileIndex
  rw [div_pos' h.fpb, Option.bind_some, div_pos' hP, Option.bind_some, div_pos' hk, Option.map_some]
  unfold Spec.owner at hown
  have h1 := Nat.div_add_mod (off / g.fpb) g.procs
  have h2 := Nat.div_le_self off g.fpb
  have h3 := Nat.mul_le_mul_right g.procs (Nat.div_le_self (off / g.fpb / g.procs) g.bpf)
  rw [Nat.mul_comm (off / g.fpb / g.procs)] at h3
  dsimp only
  generalize off / g.fpb / g.procs / g.bpf * g.procs = m at *
  rw [u64_small (by omega : m < _), u64_small (by omega)]

theorem numFrames_eq (g : Geom) (total : Nat) (h : Fits g) (ht : total < 18446744073709551616) : numFrames g total = some (calcNumFrames g total) := by
  have hP : 0 < g.procs := Nat.lt_of_le_of_lt (Nat.zero_le _) h.rank
  unfold numFrames calcNumFrames
  rw [div_pos' h.fpb, Option.bind_some, div_pos' hP, Option.map_some]
  have hrank : g.rank * g.fpb < 18446744073709551616 := by
    have := Nat.mul_le_mul_right g.fpb (Nat.le_of_lt h.rank)
    rw [Nat.mul_comm g.procs] at this
    have := h.round
    omega
  have h1 : total / g.fpb / g.procs * g.fpb * g.procs ≤ total := by
    have h2 := Nat.div_mul_le_self total (g.fpb * g.procs)
    rw [Nat.div_div_eq_div_mul, Nat.mul_assoc]; exact h2
  have h3 : total / g.fpb / g.procs * g.fpb ≤ total := Nat.le_trans (Nat.le_mul_of_pos_right _ hP) h1
  dsimp only
  generalize total / g.fpb / g.procs * g.fpb = n at *
  rw [u64_small (by omega : n < _)]
  unfold withRest
  have e : u64 (total + 2 ^ 64 - u64 (n * g.procs)) = total - n * g.procs := by
    rw [u64_small (by omega : n * g.procs < _)]
    unfold u64
    omega
  rw [e, u64_small hrank]
  by_cases hl : total - n * g.procs > g.rank * g.fpb
  · rw [if_pos hl, if_pos hl]
    congr 1
    apply u64_small
    have h4 : n ≤ n * g.procs := Nat.le_mul_of_pos_right _ hP
    have := Nat.min_le_left (total - n * g.procs - g.rank * g.fpb) g.fpb
    omega
  · rw [if_neg hl, if_neg hl]

/-! ## C01 -/

/-- C01, full statement: every frame is accepted by exactly one process, and the number of frames that a process expects is the number it
gets, for every geometry that can be configured. -/
def C01_statement : Prop :=
  ∀ (g : Geom) (total : Nat), 0 < g.fpb → g.rank < g.procs → g.fpb < 18446744073709551616 → g.procs < 18446744073709551616 →
    total < 18446744073709551616 →
    (∀ off, accepts g off = some (decide (Spec.owner g.procs g.fpb off = g.rank))) ∧
    numFrames g total = some (Spec.share g.procs g.fpb g.rank total)

/-- C01: every frame is accepted by exactly one process, without a bound. -/
theorem C01_accepts (g : Geom) (off : Nat) (hB : 0 < g.fpb) (hr : g.rank < g.procs) :
    accepts g off = some (decide (Spec.owner g.procs g.fpb off = g.rank)) := by
  have hP : 0 < g.procs := Nat.lt_of_le_of_lt (Nat.zero_le _) hr
  rw [accepts_eq g off hB hP]
  have := C01_exactly_one_rank g.procs g.fpb g.bpf off hP g.rank hr
  congr 1
  rw [Bool.eq_iff_iff, decide_eq_true_iff]
  exact ⟨fun h => (this.1 h).symm, fun h => this.2 h.symm⟩

/-- C01, what holds: the number of frames is right if a round of blocks fits. Missing: other geometries. -/
theorem C01_share_partial (g : Geom) (total : Nat) (h : Fits g) (ht : total < 18446744073709551616) :
    numFrames g total = some (Spec.share g.procs g.fpb g.rank total) := by
  rw [numFrames_eq g total h ht, C01_share g total h.fpb h.rank]

example : Fits ⟨1, 3, 4, 2⟩ := ⟨by decide, by decide, by decide, by decide⟩
example : numFrames ⟨1, 3, 4, 0⟩ 29 = some 9 := by decide

/-- C01 is false of the code for large blocks and many processes: `rank * frames_per_block` wraps to zero, and a process that gets none of ten
frames expects all of them. -/
theorem C01_violated : ¬ C01_statement := by
  intro h
  have := (h ⟨2 ^ 31, 2 ^ 32, 2 ^ 33, 0⟩ 10 (by decide) (by decide) (by decide) (by decide) (by decide)).2
  exact absurd this (by decide +kernel)

/-! ## C02 -/

/-- C02, full statement: no two frames go to the same place. -/
def C02_statement : Prop :=
  ∀ (P B K o₁ o₂ : Nat), 0 < P → 0 < B → 0 < K → P < 18446744073709551616 → B < 18446744073709551616 → K < 18446744073709551616 →
    o₁ < 18446744073709551616 → o₂ < 18446744073709551616 →
    ∃ f₁ s₁ f₂ s₂, fileOf (ownerGeom P B K o₁) o₁ = some f₁ ∧ offsetIn (ownerGeom P B K o₁) o₁ = some s₁ ∧
      fileOf (ownerGeom P B K o₂) o₂ = some f₂ ∧ offsetIn (ownerGeom P B K o₂) o₂ = some s₂ ∧ (f₁ = f₂ → s₁ = s₂ → o₁ = o₂)

theorem owner_fits (P B K o : Nat) (hP : 0 < P) (hB : 0 < B) (h1 : B * P < 18446744073709551616) (h2 : K * B < 18446744073709551616) :
    Fits (ownerGeom P B K o) := ⟨hB, C01_owner_exists P B o hP, h1, h2⟩

/-- C02, what holds: a round of blocks and the blocks of a file fit. Missing: other geometries. -/
theorem C02_partial (P B K o₁ o₂ : Nat) (hP : 0 < P) (hB : 0 < B) (hK : 0 < K) (h1 : B * P < 18446744073709551616)
    (h2 : K * B < 18446744073709551616) (ho₁ : o₁ < 18446744073709551616) (ho₂ : o₂ < 18446744073709551616) :
    ∃ f₁ s₁ f₂ s₂, fileOf (ownerGeom P B K o₁) o₁ = some f₁ ∧ offsetIn (ownerGeom P B K o₁) o₁ = some s₁ ∧
      fileOf (ownerGeom P B K o₂) o₂ = some f₂ ∧ offsetIn (ownerGeom P B K o₂) o₂ = some s₂ ∧ (f₁ = f₂ → s₁ = s₂ → o₁ = o₂) ∧
      s₁ < K * B := by
  refine ⟨_, _, _, _, fileOf_eq _ o₁ (owner_fits P B K o₁ hP hB h1 h2) hK ho₁ rfl,
    offsetIn_eq _ o₁ (owner_fits P B K o₁ hP hB h1 h2) ho₁, fileOf_eq _ o₂ (owner_fits P B K o₂ hP hB h1 h2) hK ho₂ rfl,
    offsetIn_eq _ o₂ (owner_fits P B K o₂ hP hB h1 h2) ho₂, fun hf hs => C02_injective P B K o₁ o₂ hP hB hK hf hs,
    C02_slot_bound _ o₁ hP hB hK⟩

example : fileOf (ownerGeom 3 4 2 37) 37 = some 3 ∧ offsetIn (ownerGeom 3 4 2 37) 37 = some 5 := by decide

/-- C02, one file per process: what holds. -/
theorem C02_single_file_partial (P B o₁ o₂ : Nat) (hP : 0 < P) (hB : 0 < B) (h1 : B * P < 18446744073709551616)
    (ho₁ : o₁ < 18446744073709551616) (ho₂ : o₂ < 18446744073709551616) (ho : Spec.owner P B o₁ = Spec.owner P B o₂) :
    ∃ s₁ s₂, offsetIn (ownerGeom P B 0 o₁) o₁ = some s₁ ∧ offsetIn (ownerGeom P B 0 o₂) o₂ = some s₂ ∧ (s₁ = s₂ → o₁ = o₂) := by
  have h2 : 0 * B < 18446744073709551616 := by omega
  exact ⟨_, _, offsetIn_eq _ o₁ (owner_fits P B 0 o₁ hP hB h1 h2) ho₁, offsetIn_eq _ o₂ (owner_fits P B 0 o₂ hP hB h1 h2) ho₂,
    fun hs => C02_injective_single_file P B o₁ o₂ hP hB ho hs⟩

/-- Two frames in one place: blocks of 2^32 + 1 frames, 2^32 of them to a file. -/
theorem C02_collision : fileOf (ownerGeom 1 4294967297 4294967296 1) 1 = fileOf (ownerGeom 1 4294967297 4294967296 4294967297) 4294967297 ∧
    offsetIn (ownerGeom 1 4294967297 4294967296 1) 1 = offsetIn (ownerGeom 1 4294967297 4294967296 4294967297) 4294967297 ∧
    fileOf (ownerGeom 1 4294967297 4294967296 1) 1 = some 0 ∧ offsetIn (ownerGeom 1 4294967297 4294967296 1) 1 = some 1 := by
  decide +kernel

theorem C02_violated : ¬ C02_statement := by
  intro h
  obtain ⟨f₁, s₁, f₂, s₂, h1, h2, h3, h4, h5⟩ := h 1 4294967297 4294967296 1 4294967297 (by decide) (by decide) (by decide) (by decide)
    (by decide) (by decide) (by decide) (by decide)
  obtain ⟨e1, e2, _⟩ := C02_collision
  rw [h1, h3] at e1
  rw [h2, h4] at e2
  exact absurd (h5 (Option.some.inj e1) (Option.some.inj e2)) (by decide)

/-! ## C13 -/

/-- Where the blocks of a file or a round of blocks are a multiple of 2^64 frames, every frame divides by zero. -/
theorem C13_product_ub (g : Geom) (h : g.fpb * g.procs % 18446744073709551616 = 0 ∨ g.bpf ≠ 0 ∧ g.bpf * g.fpb % 18446744073709551616 = 0)
    (off : Nat) : offsetIn g off = none := by
  unfold offsetIn
  rcases h with h | ⟨hk, h⟩
  · have : u64 (g.fpb * g.procs) = 0 := h
    rw [this, div_zero]; rfl
  · have e : u64 (g.bpf * g.fpb) = 0 := h
    have hk' : (g.bpf != 0) = true := by simp [hk]
    cases div off (u64 (g.fpb * g.procs)) with
    | none => rfl
    | some q =>
      rw [Option.bind_some]
      unfold firstOf
      rw [if_pos hk', e, rem_zero]; rfl

/-- Such a geometry is accepted: files of 2^63 blocks of two frames. -/
theorem C13_product_violated (e : Acq.Env) (b : Bool) (d : String → Acq.Disk) (off : Nat) :
    (FW.configure (FW.init e b d) [.fpb 2, .bpf 9223372036854775808]).2 = .ok ∧
    offsetIn (FW.configure (FW.init e b d) [.fpb 2, .bpf 9223372036854775808]).1.geom off = none := by
  have hg : (FW.configure (FW.init e b d) [.fpb 2, .bpf 9223372036854775808]).1.geom = ⟨0, 1, 2, 9223372036854775808⟩ := rfl
  refine ⟨rfl, ?_⟩
  rw [hg]
  exact C13_product_ub _ (Or.inr ⟨by decide, by decide⟩) off

/-! ## C17 -/

theorem toInt_small {n : Nat} (h : n < 2147483648) : toInt n = n := by
  unfold toInt
  rw [Nat.mod_eq_of_lt (by omega : n < 2 ^ 32), if_pos (by omega)]

theorem ofInt_nat {n : Nat} (h : n < 18446744073709551616) : ofInt (n : Int) = n := by
  unfold ofInt
  rw [Int.emod_eq_of_lt (by omega) (by omega)]
  omega

theorem mulI_nat {a b : Nat} (h : a * b < 2147483648) : mulI (a : Int) (b : Int) = some ((a * b : Nat) : Int) := by
  unfold mulI
  rw [← Int.natCast_mul, if_pos ⟨by omega, by omega⟩]

/-- The number of frames of a dataset is the ideal one if the frames of all files up to this one are fewer than 2^31. -/
theorem C17_frames (g : Geom) (c toWrite k : Nat) (hP : 0 < g.procs) (h : (k / g.procs + 1) * (g.bpf * g.fpb * c) < 2147483648)
    (hk : k / g.procs + 1 < 2147483648) : datasetFrames g c toWrite k = some (Acq.datasetFrames g c toWrite k) := by
  have hn : g.bpf * g.fpb * c < 2147483648 := by
    refine Nat.lt_of_le_of_lt ?_ h
    exact Nat.le_mul_of_pos_left _ (Nat.succ_pos _)
  have e : u64 (u64 (g.bpf * g.fpb) * c) = g.bpf * g.fpb * c := by
    unfold u64
    rw [Nat.mod_mul_mod]
    exact Nat.mod_eq_of_lt (by omega)
  unfold datasetFrames Acq.datasetFrames
  rw [div_pos' hP, Option.bind_some, e, toInt_small hn]
  dsimp only
  generalize k / g.procs + 1 = w at *
  generalize g.bpf * g.fpb * c = n at *
  rw [u64_small (by omega), toInt_small hk]
  by_cases h1 : n > 1
  · rw [if_pos (by omega), if_pos h1]
    unfold blockFrames
    rw [mulI_nat h, Option.map_some, ofInt_nat (by omega), ofInt_nat (by omega)]
  · rw [if_neg (by omega), if_neg h1]

example : datasetFrames ⟨1, 3, 4, 2⟩ 1 29 4 = some 8 ∧ datasetFrames ⟨1, 3, 4, 2⟩ 1 29 10 = some 5 := by decide

/-- Every other file of several blocks is undefined: the product of its number and the frames of a file is an `int` that overflows. -/
theorem C17_int_ub (g : Geom) (c toWrite k : Nat) (hP : 0 < g.procs) (h1 : 1 < g.bpf * g.fpb * c) (hn : g.bpf * g.fpb * c < 2147483648)
    (h : 2147483648 ≤ (k / g.procs + 1) * (g.bpf * g.fpb * c)) (hk : k / g.procs + 1 < 2147483648) : datasetFrames g c toWrite k = none := by
  have e : u64 (u64 (g.bpf * g.fpb) * c) = g.bpf * g.fpb * c := by
    unfold u64
    rw [Nat.mod_mul_mod]
    exact Nat.mod_eq_of_lt (by omega)
  unfold datasetFrames
  rw [div_pos' hP, Option.bind_some, e, toInt_small hn]
  generalize k / g.procs + 1 = w at *
  generalize g.bpf * g.fpb * c = n at *
  rw [u64_small (by omega), toInt_small hk, if_pos (by omega)]
  unfold blockFrames mulI
  rw [← Int.natCast_mul, if_neg (by omega)]
  rfl

example : datasetFrames ⟨0, 1, 1000, 1⟩ 1 3000000000 2147483 = none := by decide +kernel

/-- C17, full statement with the integers of C++: whatever the geometry, there is room for every frame in its file. -/
def C17_machine_statement : Prop :=
  ∀ (g : Geom) (total off : Nat), 0 < g.fpb → g.rank < g.procs → g.fpb < 18446744073709551616 → g.procs < 18446744073709551616 →
    g.bpf < 18446744073709551616 → total < 18446744073709551616 → off < total → Spec.owner g.procs g.fpb off = g.rank →
    ∃ n, datasetFrames g 1 (Spec.share g.procs g.fpb g.rank total) (Acq.Spec.fileOf g off) = some n ∧ Acq.Spec.slotOf g off < n

/-- C17, what holds: one image to a frame, and fewer than 2^31 frames in all files up to this one. -/
theorem C17_machine_partial (g : Geom) (total off : Nat) (hB : 0 < g.fpb) (hr : g.rank < g.procs) (ho : off < total)
    (hown : Spec.owner g.procs g.fpb off = g.rank) (hk : Acq.Spec.fileOf g off / g.procs + 1 < 2147483648)
    (h : (Acq.Spec.fileOf g off / g.procs + 1) * (g.bpf * g.fpb) < 2147483648) :
    ∃ n, datasetFrames g 1 (Spec.share g.procs g.fpb g.rank total) (Acq.Spec.fileOf g off) = some n ∧ Acq.Spec.slotOf g off < n := by
  have hP : 0 < g.procs := Nat.lt_of_le_of_lt (Nat.zero_le _) hr
  refine ⟨_, C17_frames g 1 _ _ hP (by rw [Nat.mul_one]; exact h) hk, ?_⟩
  have hl := Acq.localIndex_lt g off total hB hr hown ho
  rw [← C01_share g total hB hr]
  have := Acq.datasetFrames_covers g 1 (calcNumFrames g total) off hB hr (by omega)
  omega

/-- Files of one block of 2^32 + 2 frames have room for two. -/
theorem C17_machine_violated : ¬ C17_machine_statement := by
  intro h
  have hc : calcNumFrames ⟨0, 1, 4294967298, 1⟩ 8589934592 = 8589934592 := by decide +kernel
  have hs := C01_share ⟨0, 1, 4294967298, 1⟩ 8589934592 (by decide) (by decide)
  obtain ⟨n, h1, h2⟩ := h ⟨0, 1, 4294967298, 1⟩ 8589934592 2 (by decide) (by decide) (by decide) (by decide) (by decide) (by decide) (by decide)
    (by decide)
  rw [← hs, hc] at h1
  have h3 : datasetFrames ⟨0, 1, 4294967298, 1⟩ 1 8589934592 (Acq.Spec.fileOf ⟨0, 1, 4294967298, 1⟩ 2) = some 2 := by decide +kernel
  rw [h3] at h1
  cases h1
  exact absurd h2 (by decide +kernel)

/-! ## C18 -/

/-- The test of the extent with the integers of C++ is the ideal one for datasets of at most 2^31 frames, and for unlimited ones. -/
theorem C18_machine (unlimited : Bool) (dim0 off : Nat) (h : dim0 ≤ 2147483648) (ho : off < 18446744073709551616) :
    exceeds unlimited dim0 off = Acq.exceedsExtent unlimited dim0 off := by
  unfold exceeds Acq.exceedsExtent
  generalize hm : (if unlimited = true then 0 else dim0) = m
  have hle : m ≤ 2147483648 := by rw [← hm]; split <;> omega
  dsimp only
  by_cases h0 : m = 0
  · subst h0
    rw [if_pos rfl]
    have e : toInt (u64 (0 + (2 ^ 64 - 1))) = -1 := by decide
    have e2 : ofInt (-1) = 18446744073709551615 := by decide
    rw [e, e2, decide_eq_false (by omega), Bool.and_false]
  · rw [if_neg h0]
    have e : u64 (m + (2 ^ 64 - 1)) = m - 1 := by
      unfold u64
      omega
    rw [e, toInt_small (by omega), ofInt_nat (by omega)]
    have b : (((m - 1 : Nat) : Int) != 0) = (m - 1 != 0) := by
      by_cases h1 : m - 1 = 0
      · rw [h1]; rfl
      · rw [bne_iff_ne.2 h1, bne_iff_ne.2 (by omega)]
    rw [b]

example : exceeds false 10 10 = true ∧ exceeds false 10 9 = false := by decide +kernel

/-- C18 and C05 with the integers of C++: exactly the frames outside a dataset of at least two frames are refused. -/
def C18_machine_statement : Prop :=
  ∀ dim0 off, 2 ≤ dim0 → dim0 < 18446744073709551616 → off < 18446744073709551616 → exceeds false dim0 off = decide (dim0 ≤ off)

/-- From 2^32 + 2 frames on, frames inside the dataset are refused, here all but the first two; just above 2^31 those outside are not. -/
theorem C18_machine_wrong : exceeds false 4294967298 2 = true ∧ exceeds false 2147483649 2147483649 = false := by decide +kernel

theorem C18_machine_violated : ¬ C18_machine_statement := by
  intro h
  have h1 := h 4294967298 2 (by decide) (by decide) (by decide)
  rw [C18_machine_wrong.1] at h1
  exact absurd h1 (by decide)

/-- What holds: up to 2^31 frames. -/
theorem C18_machine_partial (dim0 off : Nat) (h2 : 2 ≤ dim0) (h : dim0 ≤ 2147483648) (ho : off < 18446744073709551616) :
    exceeds false dim0 off = decide (dim0 ≤ off) := by
  rw [C18_machine false dim0 off h ho]
  unfold Acq.exceedsExtent
  dsimp only
  rw [if_neg Bool.false_ne_true, if_neg (by omega), bne_iff_ne.2 (by omega), Bool.true_and]
  exact decide_eq_decide.2 (by omega)

/-! ## C08 -/

/-- The counter of written frames never goes back, whatever wraps. -/
theorem C08_machine_monotone (g : Geom) (index actual before after : Nat) (h : written g index actual before = some after) : before ≤ after := by
  unfold written at h
  cases hd : div index g.procs with
  | none => rw [hd] at h; cases h
  | some row =>
    rw [hd] at h
    simp only [Option.map_some, Option.some.injEq] at h
    rw [← h]
    split <;> omega

/-- It is the ideal one as long as the number of frames fits. -/
theorem C08_machine (g : Geom) (index actual before : Nat) (hP : 0 < g.procs)
    (h : index / g.procs * g.fpb * g.bpf + actual < 18446744073709551616) (hK : 0 < g.bpf) :
    written g index actual before = some (max before (index / g.procs * g.fpb * g.bpf + actual)) := by
  unfold written
  rw [div_pos' hP, Option.map_some]
  generalize index / g.procs * g.fpb = x at *
  have h1 : x ≤ x * g.bpf := Nat.le_mul_of_pos_right _ hK
  have e1 : u64 x = x := u64_small (by omega)
  have e2 : u64 (x * g.bpf) = x * g.bpf := u64_small (by omega)
  rw [e1, e2, u64_small h]
  congr 1
  split
  · exact (Nat.max_eq_right (by omega)).symm
  · exact (Nat.max_eq_left (by omega)).symm

example : written ⟨0, 2, 3, 4⟩ 5 7 20 = some 31 := by decide +kernel

end Verif.Placement64
