import Verif.Props.Acquisition
/-! Arithmetic of the local frame index (position of a frame among the frames of its process). -/
namespace Verif.Acq
open Verif.Placement

/-- Position of a frame among the frames of its own process, from 0. -/
def Spec.localIndex (g : Geom) (off : Nat) : Nat := off / g.fpb / g.procs * g.fpb + off % g.fpb

theorem count_at (g : Geom) (off : Nat) (hB : 0 < g.fpb) (hP : 0 < g.procs)
    (ho : off / g.fpb % g.procs = g.rank) :
    calcNumFrames g off = Spec.localIndex g off := by
  have d := decomp off g.procs g.fpb
  have := calcNumFrames_decomp g (off / g.fpb / g.procs) (off / g.fpb % g.procs) (off % g.fpb)
    (Nat.mod_lt _ hP) (Nat.mod_lt _ hB)
  rw [← d] at this
  rw [this, if_neg (by omega), if_pos ho.symm]
  rfl

theorem count_mono (g : Geom) (hB : 0 < g.fpb) (hr : g.rank < g.procs) (a b : Nat) (h : a ≤ b) :
    calcNumFrames g a ≤ calcNumFrames g b := by
  induction b with
  | zero => have : a = 0 := by omega
            subst this; exact Nat.le_refl _
  | succ b ih =>
    by_cases hab : a = b + 1
    · rw [hab]; exact Nat.le_refl _
    · rw [calcNumFrames_succ g b (by omega) hB hr]
      exact Nat.le_trans (ih (by omega)) (Nat.le_add_right _ _)

/-- Frames of the process below the total have local indices below its share. -/
theorem localIndex_lt (g : Geom) (off F : Nat) (hB : 0 < g.fpb) (hr : g.rank < g.procs)
    (ho : off / g.fpb % g.procs = g.rank) (h : off < F) :
    Spec.localIndex g off < calcNumFrames g F := by
  have h1 := calcNumFrames_succ g off (by omega) hB hr
  rw [if_pos ho, count_at g off hB (by omega) ho] at h1
  have := count_mono g hB hr (off + 1) F h
  omega

theorem lt_of_localIndex_lt (g : Geom) (off F : Nat) (hB : 0 < g.fpb) (hr : g.rank < g.procs)
    (ho : off / g.fpb % g.procs = g.rank) (h : Spec.localIndex g off < calcNumFrames g F) :
    off < F := by
  apply Nat.lt_of_not_le
  intro hF
  have := count_mono g hB hr F off hF
  rw [count_at g off hB (by omega) ho] at this
  omega

/-- Every local index belongs to a frame of the process. -/
theorem localIndex_surj (g : Geom) (l : Nat) (hB : 0 < g.fpb) (hr : g.rank < g.procs) :
    ∃ off, off / g.fpb % g.procs = g.rank ∧ Spec.localIndex g off = l := by
  have hs : l % g.fpb < g.fpb := Nat.mod_lt _ hB
  refine ⟨((l / g.fpb) * g.procs + g.rank) * g.fpb + l % g.fpb, ?_, ?_⟩
  · rw [div_of _ _ _ _ _ hs, mod_of' _ _ _ hr]
  · unfold Spec.localIndex
    rw [div_of _ _ _ _ _ hs, div_of' _ _ _ hr, mod_of _ _ _ _ _ hs, Nat.mul_comm]
    exact Nat.div_add_mod l g.fpb

theorem localIndex_inj (g : Geom) (o₁ o₂ : Nat) (hB : 0 < g.fpb)
    (h1 : o₁ / g.fpb % g.procs = g.rank) (h2 : o₂ / g.fpb % g.procs = g.rank)
    (h : Spec.localIndex g o₁ = Spec.localIndex g o₂) : o₁ = o₂ := by
  have s1 : o₁ % g.fpb < g.fpb := Nat.mod_lt _ hB
  have s2 : o₂ % g.fpb < g.fpb := Nat.mod_lt _ hB
  unfold Spec.localIndex at h
  have hm : o₁ % g.fpb = o₂ % g.fpb := by
    have := congrArg (· % g.fpb) h
    simpa [mod_of' _ _ _ s1, mod_of' _ _ _ s2] using this
  have hq : o₁ / g.fpb / g.procs = o₂ / g.fpb / g.procs := by
    have := congrArg (· / g.fpb) h
    simpa [div_of' _ _ _ s1, div_of' _ _ _ s2] using this
  rw [decomp o₁ g.procs g.fpb, decomp o₂ g.procs g.fpb, h1, h2, hm, hq]

/-- The number of the file along the files of the process. -/
def Spec.rowOf (g : Geom) (off : Nat) : Nat := Spec.localIndex g off / (g.bpf * g.fpb)

theorem fileOf_local (g : Geom) (off : Nat) (hB : 0 < g.fpb) (hK : g.bpf ≠ 0) :
    Spec.fileOf g off = Spec.rowOf g off * g.procs + g.rank := by
  have s1 : off % g.fpb < g.fpb := Nat.mod_lt _ hB
  unfold Spec.fileOf Spec.rowOf Spec.localIndex
  rw [if_neg hK, Nat.mul_comm g.bpf, ← Nat.div_div_eq_div_mul, div_of' _ _ _ s1]

theorem slotOf_local (g : Geom) (off : Nat) (hB : 0 < g.fpb) :
    Spec.slotOf g off = if g.bpf = 0 then Spec.localIndex g off
      else Spec.localIndex g off % (g.bpf * g.fpb) := by
  have s1 : off % g.fpb < g.fpb := Nat.mod_lt _ hB
  unfold Spec.slotOf Spec.localIndex
  by_cases hK : g.bpf = 0
  · simp [hK]
  · rw [if_neg hK, if_neg hK, Nat.mul_comm g.bpf, Nat.mod_mul, mod_of' _ _ _ s1, div_of' _ _ _ s1,
      Nat.mul_comm, Nat.add_comm]

/-- The extent computed for the file of a frame covers the frame, in units of `c` images per frame, if
the share of the process covers it. -/
theorem datasetFrames_covers (g : Geom) (c ftw off : Nat) (hB : 0 < g.fpb)
    (hr : g.rank < g.procs) (h : (Spec.localIndex g off + 1) * c ≤ ftw) :
    (Spec.slotOf g off + 1) * c ≤ datasetFrames g c ftw (Spec.fileOf g off) := by
  unfold datasetFrames
  dsimp only
  by_cases hK : g.bpf = 0
  · rw [slotOf_local g off hB, if_pos hK]
    simp [hK]; exact h
  · rw [slotOf_local g off hB, if_neg hK, fileOf_local g off hB hK, div_of' _ _ _ hr]
    unfold Spec.rowOf
    generalize hn : g.bpf * g.fpb = n
    generalize Spec.localIndex g off = L at h
    have hn0 : 0 < n := by rw [← hn]; exact Nat.mul_pos (by omega) hB
    have hLm : L % n < n := Nat.mod_lt _ hn0
    have hL := Nat.div_add_mod L n
    have e1 : (L + 1) * c = L / n * (n * c) + (L % n + 1) * c := by
      rw [← Nat.mul_assoc, ← Nat.add_mul, Nat.mul_comm (L / n)]
      congr 1; omega
    have e3 : (L % n + 1) * c ≤ n * c := Nat.mul_le_mul_right _ hLm
    by_cases h1 : n * c > 1
    · rw [if_pos h1]
      by_cases h2 : (L / n + 1) * (n * c) > ftw
      · rw [if_pos h2]
        rw [Nat.succ_mul] at h2
        have hcm := Nat.mul_comm (n * c) (L / n)
        obtain ⟨y, rfl⟩ : ∃ y, ftw = (n * c) * (L / n) + y :=
          ⟨ftw - (n * c) * (L / n), by omega⟩
        rw [Nat.mul_add_mod, Nat.mod_eq_of_lt (show y < n * c by omega)]
        omega
      · rw [if_neg h2]; exact e3
    · rw [if_neg h1]
      omega

end Verif.Acq
