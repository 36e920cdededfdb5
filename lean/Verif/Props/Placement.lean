import Verif.Lemmas.Placement
/-!
Properties C01 (frames are partitioned across writer processes) and C02 (placement is a bijection).
-/
namespace Verif.Placement

/-! ## C01 -/

/-- Specification: the process that should write a frame in a round-robin distribution of blocks of
`B` frames over `P` processes. -/
def Spec.owner (P B off : Nat) : Nat := (off / B) % P

/-- Specification: how many of the first `total` frames process `rank` owns, by counting. -/
def Spec.share (P B rank total : Nat) : Nat :=
  ((List.range total).filter (fun o => Spec.owner P B o = rank)).length

/-- C01: every frame offset is accepted by exactly one of the `P` processes, namely its owner. -/
theorem C01_exactly_one_rank (P B K off : Nat) (hP : 0 < P) :
    ∀ rank, rank < P →
      (acceptsOffset { rank, procs := P, fpb := B, bpf := K } off = true ↔
        rank = Spec.owner P B off) := by
  intro rank hr
  unfold acceptsOffset Spec.owner
  by_cases h : P > 1
  · simp [h]; exact eq_comm
  · have : P = 1 := by omega
    subst this
    simp [Nat.mod_one]; omega

theorem C01_owner_exists (P B off : Nat) (hP : 0 < P) : Spec.owner P B off < P :=
  Nat.mod_lt _ hP

/-- C01: the number of frames a process computes for itself is exactly the number of offsets below
the total that it owns. -/
theorem C01_share (g : Geom) (total : Nat) (hB : 0 < g.fpb) (hr : g.rank < g.procs) :
    calcNumFrames g total = Spec.share g.procs g.fpb g.rank total := by
  induction total with
  | zero =>
    unfold calcNumFrames Spec.share; simp
  | succ t ih =>
    rw [calcNumFrames_succ g t (by omega) hB hr, ih]
    unfold Spec.share Spec.owner
    rw [List.range_succ, List.filter_append, List.length_append]
    by_cases h : t / g.fpb % g.procs = g.rank <;> simp [h]

/-- C01: the totals of all ranks add up to the number of frames of the acquisition. -/
theorem C01_shares_sum (P B K total : Nat) (hP : 0 < P) (hB : 0 < B) :
    ((List.range P).map (fun rank =>
        calcNumFrames { rank, procs := P, fpb := B, bpf := K } total)).sum = total := by
  show sumTo P _ = total
  induction total with
  | zero =>
    have : ∀ n, sumTo n (fun rank =>
        calcNumFrames { rank, procs := P, fpb := B, bpf := K } 0) = 0 := by
      intro n
      induction n with
      | zero => rfl
      | succ n ih => rw [sumTo_succ, ih]; unfold calcNumFrames; simp
    exact this P
  | succ t ih =>
    rw [sumTo_congr P _ (fun rank => calcNumFrames { rank, procs := P, fpb := B, bpf := K } t
        + (if (t / B) % P = rank then 1 else 0))
      (fun i hi => calcNumFrames_succ _ t (by simpa using hP) (by simpa using hB) (by simpa using hi)),
      sumTo_add, ih, sumTo_ite, if_pos (Nat.mod_lt _ hP)]

/-- Non-vacuity: 3 processes, blocks of 4, 29 frames: shares 12, 9, 8. -/
example : calcNumFrames ⟨0, 3, 4, 0⟩ 29 = 12 ∧ calcNumFrames ⟨1, 3, 4, 0⟩ 29 = 9 ∧
    calcNumFrames ⟨2, 3, 4, 0⟩ 29 = 8 ∧ Spec.share 3 4 1 29 = 9 := by decide

/-! ## C02 -/

/-- The process geometry of the owner of `off`. -/
def ownerGeom (P B K off : Nat) : Geom :=
  { rank := Spec.owner P B off, procs := P, fpb := B, bpf := K }

/-- C02 (no collision), several blocks per file: two frames, each written by its own process, never
go to the same slot of the same file. -/
theorem C02_injective (P B K o₁ o₂ : Nat) (hP : 0 < P) (hB : 0 < B) (hK : 0 < K)
    (hf : fileIndex (ownerGeom P B K o₁) o₁ = fileIndex (ownerGeom P B K o₂) o₂)
    (hs : offsetInFile (ownerGeom P B K o₁) o₁ = offsetInFile (ownerGeom P B K o₂) o₂) :
    o₁ = o₂ := by
  have d1 := decomp o₁ P B
  have d2 := decomp o₂ P B
  have r1 : (o₁ / B) % P < P := Nat.mod_lt _ hP
  have r2 : (o₂ / B) % P < P := Nat.mod_lt _ hP
  have s1 : o₁ % B < B := Nat.mod_lt _ hB
  have s2 : o₂ % B < B := Nat.mod_lt _ hB
  simp only [ownerGeom, fileIndex_at, offsetInFile_at, if_neg (show ¬ K = 0 by omega)] at hf hs
  simp only [Spec.owner] at hf
  -- equal ranks
  have hr : (o₁ / B) % P = (o₂ / B) % P := by
    have := congrArg (· % P) hf
    simpa [mod_of' _ _ _ r1, mod_of' _ _ _ r2] using this
  have hq : (o₁ / B / P) / K = (o₂ / B / P) / K := by
    have := congrArg (· / P) hf
    simpa [div_of' _ _ _ r1, div_of' _ _ _ r2] using this
  have hsm : o₁ % B = o₂ % B := by
    have := congrArg (· % B) hs
    simpa [mod_of' _ _ _ s1, mod_of' _ _ _ s2] using this
  have hqm : (o₁ / B / P) % K = (o₂ / B / P) % K := by
    have := congrArg (· / B) hs
    simpa [div_of' _ _ _ s1, div_of' _ _ _ s2] using this
  have hqq : o₁ / B / P = o₂ / B / P := by
    rw [← Nat.div_add_mod (o₁ / B / P) K, ← Nat.div_add_mod (o₂ / B / P) K, hq, hqm]
  rw [d1, d2, hr, hsm, hqq]

/-- C02 (no collision), one file per process (`blocks_per_file = 0`): two frames of the same process
never go to the same slot. -/
theorem C02_injective_single_file (P B o₁ o₂ : Nat) (hP : 0 < P) (hB : 0 < B)
    (ho : Spec.owner P B o₁ = Spec.owner P B o₂)
    (hs : offsetInFile (ownerGeom P B 0 o₁) o₁ = offsetInFile (ownerGeom P B 0 o₂) o₂) :
    o₁ = o₂ := by
  have d1 := decomp o₁ P B
  have d2 := decomp o₂ P B
  have r1 : (o₁ / B) % P < P := Nat.mod_lt _ hP
  have r2 : (o₂ / B) % P < P := Nat.mod_lt _ hP
  have s1 : o₁ % B < B := Nat.mod_lt _ hB
  have s2 : o₂ % B < B := Nat.mod_lt _ hB
  simp only [ownerGeom, offsetInFile_at, if_true] at hs
  have hsm : o₁ % B = o₂ % B := by
    have := congrArg (· % B) hs
    simpa [mod_of' _ _ _ s1, mod_of' _ _ _ s2] using this
  have hqq : o₁ / B / P = o₂ / B / P := by
    have := congrArg (· / B) hs
    simpa [div_of' _ _ _ s1, div_of' _ _ _ s2] using this
  unfold Spec.owner at ho
  rw [d1, d2, ho, hsm, hqq]

/-- C02: the slot is below the file capacity, for any frame and any process. -/
theorem C02_slot_bound (g : Geom) (off : Nat) (hP : 0 < g.procs) (hB : 0 < g.fpb) (hK : 0 < g.bpf) :
    offsetInFile g off < g.bpf * g.fpb := by
  have d := decomp off g.procs g.fpb
  have s1 : off % g.fpb < g.fpb := Nat.mod_lt _ hB
  rw [d, offsetInFile_eq g _ _ _ (Nat.mod_lt _ hP) s1, if_neg (by omega)]
  have : (off / g.fpb / g.procs) % g.bpf + 1 ≤ g.bpf := Nat.mod_lt _ hK
  have := Nat.mul_le_mul_right g.fpb this
  rw [Nat.succ_mul] at this
  omega

/-- C02: the file belongs to the process: file numbers of different processes are disjoint
(number modulo P is the rank). -/
theorem C02_file_of_rank (g : Geom) (off : Nat) (hr : g.rank < g.procs) :
    fileIndex g off % g.procs = g.rank := by
  unfold fileIndex; exact mod_of' _ _ _ hr

/-- C02: every slot of every file is the target of a frame (unique by `C02_injective`). -/
theorem C02_surjective (P B K file slot : Nat) (hP : 0 < P) (hB : 0 < B) (hslot : slot < K * B) :
    ∃ off, fileIndex (ownerGeom P B K off) off = file ∧
      offsetInFile (ownerGeom P B K off) off = slot := by
  have hK : 0 < K := by
    rcases Nat.eq_zero_or_pos K with h | h
    · subst h; simp at hslot
    · exact h
  have hr : file % P < P := Nat.mod_lt _ hP
  have hs : slot % B < B := Nat.mod_lt _ hB
  have hb : slot / B < K := by
    apply Nat.div_lt_of_lt_mul; rw [Nat.mul_comm]; exact hslot
  refine ⟨((((file / P) * K + slot / B) * P) + file % P) * B + slot % B, ?_, ?_⟩
  · have ho : Spec.owner P B (((((file / P) * K + slot / B) * P) + file % P) * B + slot % B)
        = file % P := by
      unfold Spec.owner; rw [div_of _ _ _ _ _ hs, mod_of' _ _ _ hr]
    unfold ownerGeom
    rw [ho]
    have := fileIndex_eq { rank := file % P, procs := P, fpb := B, bpf := K }
      ((file / P) * K + slot / B) (file % P) (slot % B) hr hs
    simp only at this
    rw [this, div_of' _ _ _ hb, Nat.mul_comm]
    exact Nat.div_add_mod file P
  · have ho : Spec.owner P B (((((file / P) * K + slot / B) * P) + file % P) * B + slot % B)
        = file % P := by
      unfold Spec.owner; rw [div_of _ _ _ _ _ hs, mod_of' _ _ _ hr]
    unfold ownerGeom
    rw [ho]
    have := offsetInFile_eq { rank := file % P, procs := P, fpb := B, bpf := K }
      ((file / P) * K + slot / B) (file % P) (slot % B) hr hs
    simp only at this
    rw [this, if_neg (by omega), mod_of' _ _ _ hb, Nat.mul_comm]
    exact Nat.div_add_mod slot B

/-- C02, one file per process: every slot is the target of a frame of that process. -/
theorem C02_surjective_single_file (P B rank slot : Nat) (hB : 0 < B) (hr : rank < P) :
    ∃ off, Spec.owner P B off = rank ∧ offsetInFile (ownerGeom P B 0 off) off = slot := by
  have hs : slot % B < B := Nat.mod_lt _ hB
  refine ⟨((slot / B) * P + rank) * B + slot % B, ?_, ?_⟩
  · unfold Spec.owner; rw [div_of _ _ _ _ _ hs, mod_of' _ _ _ hr]
  · simp only [ownerGeom, offsetInFile_at, if_true]
    rw [div_of _ _ _ _ _ hs, div_of' _ _ _ hr, mod_of _ _ _ _ _ hs, Nat.mul_comm]
    exact Nat.div_add_mod slot B

/-- Non-vacuity: P = 3, B = 4, K = 2; frame 37 (process 0) goes to file 3, slot 5. -/
example : Spec.owner 3 4 37 = 0 ∧ fileIndex (ownerGeom 3 4 2 37) 37 = 3 ∧
    offsetInFile (ownerGeom 3 4 2 37) 37 = 5 := by decide

end Verif.Placement
