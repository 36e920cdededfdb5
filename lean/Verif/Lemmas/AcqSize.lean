import Verif.Lemmas.AcqInv
/-! Lemmas about the extents and frame counts of the datasets of the file objects. -/
namespace Verif.Acq
open Verif.Placement

theorem lookup_setDset (l : List (String × Dset)) (ds x : String) (s : Dset) :
    (l.map (fun e => if e.1 = ds then (e.1, s) else e)).lookup x =
      if x = ds then (l.lookup x).map (fun _ => s) else l.lookup x := by
  induction l with
  | nil => simp
  | cons e es ih =>
    obtain ⟨k, v⟩ := e
    by_cases hk : k = ds
    · subst hk
      by_cases hx : x = k
      · subst hx; simp
      · have : (x == k) = false := by simpa using hx
        simp [List.lookup_cons, this, hx] at ih ⊢
        exact ih
    · by_cases hx : x = k
      · subst hx
        simp [hk]
      · have : (x == k) = false := by simpa using hx
        simp [List.lookup_cons, this, hk] at ih ⊢
        exact ih

theorem dset_setDset (f : H5File) (ds x : String) (s : Dset) :
    (f.setDset ds s).dset x = if x = ds then (f.dset x).map (fun _ => s) else f.dset x :=
  lookup_setDset f.dsets ds x s

/-- The datasets of `file'` are those of `file`, with extents that did not shrink, and did not change
at all unless the datasets are unlimited. -/
def Grows (file file' : H5File) : Prop :=
  SameId file file' ∧
  ∀ ds s', file'.dset ds = some s' → ∃ s, file.dset ds = some s ∧ s.dim0 ≤ s'.dim0 ∧
    (file.unlimited = false → s'.dim0 = s.dim0)

theorem Grows.refl (f : H5File) : Grows f f :=
  ⟨.refl f, fun _ s' h => ⟨s', h, Nat.le_refl _, fun _ => rfl⟩⟩

theorem Grows.trans {f g h : H5File} (a : Grows f g) (b : Grows g h) : Grows f h := by
  refine ⟨a.1.trans b.1, ?_⟩
  intro ds s' hs
  obtain ⟨s1, h1, h2, h3⟩ := b.2 ds s' hs
  obtain ⟨s0, i1, i2, i3⟩ := a.2 ds s1 h1
  exact ⟨s0, i1, Nat.le_trans i2 h2, fun hu => by rw [h3 (by rw [a.1.2.2.2.1]; exact hu), i3 hu]⟩

theorem setDset_grows (f : H5File) (ds : String) (s s' : Dset) (hs : f.dset ds = some s)
    (h1 : s.dim0 ≤ s'.dim0) (h2 : f.unlimited = false → s'.dim0 = s.dim0) :
    Grows f (f.setDset ds s') := by
  refine ⟨setDset_id _ _ _, ?_⟩
  intro x t ht
  rw [dset_setDset] at ht
  by_cases hx : x = ds
  · subst hx
    rw [if_pos rfl, hs] at ht
    simp at ht
    subst ht
    exact ⟨s, hs, h1, h2⟩
  · rw [if_neg hx] at ht
    exact ⟨t, ht, Nat.le_refl _, fun _ => rfl⟩

theorem grow_facts (u : Bool) (s : Dset) (n : Nat) :
    s.dim0 ≤ (Dset.grow u s n).dim0 ∧ (u = false → (Dset.grow u s n).dim0 = s.dim0) ∧
    (u = true → n ≤ (Dset.grow u s n).dim0) ∧ (Dset.grow u s n).actual = s.actual := by
  unfold Dset.grow Dset.extend
  cases u
  · simp
  · simp; split <;> simp <;> omega

theorem noteWritten_facts (s : Dset) (n : Nat) :
    (s.noteWritten n).dim0 = s.dim0 ∧ (s.noteWritten n).actual = max s.actual n := by
  unfold Dset.noteWritten
  split <;> simp <;> omega

/-- Frame count of a dataset, `get_dataset_frames`. -/
def H5File.actualOf (f : H5File) (ds : String) : Option Nat := (f.dset ds).map Dset.actual

theorem writeFrame_sizes (e : Env) (d : Disk) (file : H5File) (f : Frame) (slot outer : Nat) :
    Grows file (writeFrame e d file f slot outer).1 ∧
    (∀ ds, ds ≠ f.dataset →
      (writeFrame e d file f slot outer).1.actualOf ds = file.actualOf ds) ∧
    ((writeFrame e d file f slot outer).2.2 = true →
      (writeFrame e d file f slot outer).1.actualOf f.dataset = file.actualOf f.dataset) ∧
    ((writeFrame e d file f slot outer).2.2 = false → ∃ s s', file.dset f.dataset = some s ∧
      (writeFrame e d file f slot outer).1.dset f.dataset = some s' ∧
      s'.actual = max s.actual (slot * outer + f.outerChunk) ∧
      s'.dim0 = (Dset.grow file.unlimited s ((slot + 1) * outer)).dim0 ∧
      slot * outer ≤ s'.dim0 ∧ (e.edge = false → slot * outer < s'.dim0)) := by
  unfold writeFrame
  cases hs : file.dset f.dataset with
  | none => simp [Grows.refl]
  | some s =>
    obtain ⟨g1, g2, g3, g4⟩ := grow_facts file.unlimited s ((slot + 1) * outer)
    obtain ⟨n1, n2⟩ := noteWritten_facts (Dset.grow file.unlimited s ((slot + 1) * outer))
      (slot * outer + f.outerChunk)
    have hg := setDset_grows file f.dataset s _ hs g1 g2
    have hgn := setDset_grows file f.dataset s
      ((Dset.grow file.unlimited s ((slot + 1) * outer)).noteWritten (slot * outer + f.outerChunk)) hs
      (by rw [n1]; exact g1) (by rw [n1]; exact g2)
    have hother : ∀ s', ∀ ds, ds ≠ f.dataset →
        (file.setDset f.dataset s').actualOf ds = file.actualOf ds := by
      intro s' ds hne
      simp [H5File.actualOf, dset_setDset, hne]
    have hsame : (file.setDset f.dataset (Dset.grow file.unlimited s ((slot + 1) * outer))).actualOf
        f.dataset = file.actualOf f.dataset := by
      simp [H5File.actualOf, dset_setDset, hs, g4]
    dsimp only
    split
    · exact ⟨hg, hother _, fun _ => hsame, by simp⟩
    · rename_i hcond
      simp only [not_or, not_and] at hcond
      split
      · exact ⟨hg, hother _, fun _ => hsame, by simp⟩
      · refine ⟨hgn, hother _, by simp, fun _ => ⟨s, (Dset.grow file.unlimited s
          ((slot + 1) * outer)).noteWritten (slot * outer + f.outerChunk), rfl, ?_, ?_, ?_, ?_, ?_⟩⟩
        · rw [dset_setDset, if_pos rfl, hs]; rfl
        · rw [n2, g4]
        · rw [n1]
        · rw [n1]; omega
        · intro he; rw [n1]; have := hcond.2.1
          by_cases h : slot * outer = (Dset.grow file.unlimited s ((slot + 1) * outer)).dim0
          · exact absurd he (this h)
          · omega

theorem writeParams_sizes (defs : List DatasetDef) (slot : Nat) (ps : List Param) :
    ∀ (file : H5File) (d : Disk), Grows file (writeParams defs slot file d ps).1 ∧
      ∀ ds, (writeParams defs slot file d ps).1.actualOf ds = file.actualOf ds := by
  induction ps with
  | nil => intro file d; exact ⟨.refl _, fun _ => rfl⟩
  | cons p ps ih =>
    intro file d
    unfold writeParams
    split
    · exact ih file d
    · cases hs : file.dset p.name with
      | none => exact ⟨.refl _, fun _ => rfl⟩
      | some s =>
        dsimp only
        obtain ⟨g1, g2, g3, g4⟩ := grow_facts file.unlimited s (slot + 1)
        have hg := setDset_grows file p.name s _ hs g1 g2
        have ha : ∀ ds, (file.setDset p.name (Dset.grow file.unlimited s (slot + 1))).actualOf ds
            = file.actualOf ds := by
          intro ds
          by_cases hne : ds = p.name
          · subst hne; simp [H5File.actualOf, dset_setDset, hs, g4]
          · simp [H5File.actualOf, dset_setDset, hne]
        split
        · obtain ⟨i1, i2⟩ := ih (file.setDset p.name (Dset.grow file.unlimited s (slot + 1)))
            (d.store (file.setDset p.name (Dset.grow file.unlimited s (slot + 1))).name p.name slot p.value)
          exact ⟨hg.trans i1, fun ds => (i2 ds).trans (ha ds)⟩
        · exact ⟨hg, ha⟩

/-- What `account` does when the frame counts. -/
theorem account_counts (a : Acq) (f : Frame) (c : H5File) (n : Nat)
    (hm : a.master = "" ∨ a.master = f.dataset) (hc : a.current = some c)
    (hn : c.actualOf f.dataset = some n) :
    (account a f).1.framesWritten =
      max a.framesWritten (c.index / a.geom.procs * a.geom.fpb * a.geom.bpf + n) ∧
    (account a f).1.framesProcessed = a.framesProcessed + f.outerChunk ∧
    (account a f).2 = completion a.framesToWrite (account a f).1.framesWritten
      (account a f).1.framesProcessed := by
  unfold H5File.actualOf at hn
  cases hs : c.dset f.dataset with
  | none => rw [hs] at hn; simp at hn
  | some s =>
    rw [hs] at hn
    simp at hn
    subst hn
    unfold account
    simp [hm, hc, hs]

/-- Sizes and counters after `writeTo`. -/
structure WriteSizes (e : Env) (a : Acq) (f : Frame) (off : Nat) (u : Bool) (a' : Acq) (st : Status) :
    Prop where
  other : a'.file (!u) = a.file (!u)
  grows : ∀ file', a'.file u = some file' → ∃ file, a.file u = some file ∧ Grows file file' ∧
    (∀ ds, ds ≠ f.dataset → file'.actualOf ds = file.actualOf ds)
  good : st ≠ .invalid → st ≠ .ub → ∃ file file' outer n s s',
    a.file u = some file ∧ a'.file u = some file' ∧ outerOf a.defs f.dataset = some outer ∧
    file.actualOf f.dataset = some n ∧
    file'.actualOf f.dataset = some (max n (offsetInFile a.geom off * outer + f.outerChunk)) ∧
    file.dset f.dataset = some s ∧ file'.dset f.dataset = some s' ∧ Grows file file' ∧
    exceedsExtent file.unlimited s.dim0 (offsetInFile a.geom off) = false ∧
    (file.unlimited = true → (offsetInFile a.geom off + 1) * outer ≤ s'.dim0) ∧
    offsetInFile a.geom off * outer ≤ s'.dim0 ∧
    (e.edge = false → offsetInFile a.geom off * outer < s'.dim0) ∧
    ((a.master = "" ∨ a.master = f.dataset) → ∀ c m, a'.current = some c →
      c.actualOf f.dataset = some m →
      a'.framesWritten = max a.framesWritten (c.index / a.geom.procs * a.geom.fpb * a.geom.bpf + m) ∧
      a'.framesProcessed = a.framesProcessed + f.outerChunk ∧
      st = completion a.framesToWrite a'.framesWritten a'.framesProcessed)
  bad : st = .invalid → a'.framesWritten = a.framesWritten ∧ a'.framesProcessed = a.framesProcessed

theorem setFile_file (a : Acq) (u : Bool) (g : H5File) :
    (a.setFile u g).file u = some g ∧ (a.setFile u g).file (!u) = a.file (!u) := by
  cases u <;> simp [Acq.setFile, Acq.file]

theorem completion_ne (w a b : Nat) : completion w a b ≠ .invalid ∧ completion w a b ≠ .ub := by
  unfold completion
  repeat' split
  all_goals simp

theorem account_not_invalid (a : Acq) (f : Frame) (h : (account a f).2 = .invalid) :
    (account a f).1 = a := by
  unfold account at *
  by_cases hm : a.master = "" ∨ a.master = f.dataset
  · rw [if_pos hm] at h ⊢
    cases hc : a.current with
    | none => simp
    | some c =>
      rw [hc] at h
      dsimp only at h ⊢
      cases hs : c.dset f.dataset with
      | none => rfl
      | some s =>
        rw [hs] at h
        exact absurd h (completion_ne _ _ _).1
  · rw [if_neg hm] at h ⊢

theorem WriteSizes.same (e : Env) (a : Acq) (f : Frame) (off : Nat) (u : Bool) (st : Status)
    (h : st = .invalid ∨ st = .ub) : WriteSizes e a f off u a st where
  other := rfl
  grows := fun file' h => ⟨file', h, .refl _, fun _ _ => rfl⟩
  good := fun h1 h2 => by rcases h with h | h <;> contradiction
  bad := fun _ => ⟨rfl, rfl⟩

theorem writeTo_sizes (e : Env) (a : Acq) (f : Frame) (off : Nat) (u : Bool) :
    WriteSizes e a f off u (writeTo e a f off u).1 (writeTo e a f off u).2 := by
  unfold writeTo
  cases hfile : a.file u with
  | none => exact .same _ _ _ _ _ _ (Or.inr rfl)
  | some file =>
    dsimp only
    split
    · exact .same _ _ _ _ _ _ (Or.inl rfl)
    · split
      · exact .same _ _ _ _ _ _ (Or.inl rfl)
      · rename_i hex
        cases hd : findDef a.defs f.dataset with
        | none => exact .same _ _ _ _ _ _ (Or.inl rfl)
        | some d =>
          dsimp only
          cases hch : d.chunks with
          | nil => exact .same _ _ _ _ _ _ (Or.inr rfl)
          | cons outer rest =>
            dsimp only
            have hout : outerOf a.defs f.dataset = some outer := by simp [outerOf, hd, hch]
            obtain ⟨w1, w2, w3, w4⟩ := writeFrame_sizes e a.disk file f (offsetInFile a.geom off) outer
            cases hw : writeFrame e a.disk file f (offsetInFile a.geom off) outer with
            | mk file1 rest1 =>
              obtain ⟨disk1, threw1⟩ := rest1
              rw [hw] at w1 w2 w3 w4
              simp only at w1 w2 w3 w4
              cases threw1 with
              | true =>
                dsimp only
                obtain ⟨f1, f2⟩ := setFile_file ({ a with disk := disk1 } : Acq) u file1
                refine ⟨f2, ?_, fun h => absurd rfl h, ?_⟩
                · intro file' hf'
                  rw [f1] at hf'; cases hf'
                  exact ⟨file, hfile, w1, w2⟩
                · intro _; cases u <;> exact ⟨rfl, rfl⟩
              | false =>
                dsimp only
                obtain ⟨s, s', v1, v2, v3, v4, v5, v6⟩ := w4 rfl
                obtain ⟨p1, p2⟩ := writeParams_sizes a.defs (offsetInFile a.geom off) f.params file1 disk1
                cases hp : writeParams a.defs (offsetInFile a.geom off) file1 disk1 f.params with
                | mk file2 rest2 =>
                  obtain ⟨disk2, threw2⟩ := rest2
                  rw [hp] at p1 p2
                  simp only at p1 p2
                  obtain ⟨f1, f2⟩ := setFile_file ({ a with disk := disk2 } : Acq) u file2
                  have hgr : ∀ file', some file2 = some file' → ∃ file_1, some file = some file_1 ∧
                      Grows file_1 file' ∧
                      ∀ ds, ds ≠ f.dataset → file'.actualOf ds = file_1.actualOf ds := by
                    intro file' hf'
                    cases hf'
                    exact ⟨file, rfl, w1.trans p1, fun ds hne => (p2 ds).trans (w2 ds hne)⟩
                  cases threw2 with
                  | true =>
                    dsimp only
                    refine ⟨f2, ?_, fun h => absurd rfl h, ?_⟩
                    · intro file' hf'
                      rw [f1] at hf'
                      rw [hfile]
                      exact hgr file' hf'
                    · intro _; cases u <;> exact ⟨rfl, rfl⟩
                  | false =>
                    dsimp only
                    generalize hg : ({ a with disk := disk2 } : Acq).setFile u file2 = g at *
                    obtain ⟨b1, b2, b3, b4, b5, b6, b7, b8⟩ := account_same
                      (g.publish (.write (toU64 f.number) off)) f
                    have hfl : ∀ x, (account (g.publish (.write (toU64 f.number) off)) f).1.file x
                        = g.file x := by
                      intro x; cases x
                      · exact b2
                      · exact b3
                    refine ⟨?_, ?_, ?_, ?_⟩
                    · rw [hfl]; exact f2
                    · intro file' hf'
                      rw [hfl, f1] at hf'
                      rw [hfile]
                      exact hgr file' hf'
                    · intro _ _
                      have hact : file2.actualOf f.dataset
                          = some (max s.actual (offsetInFile a.geom off * outer + f.outerChunk)) := by
                        rw [p2]; simp [H5File.actualOf, v2, v3]
                      obtain ⟨s2, hs2⟩ : ∃ s2, file2.dset f.dataset = some s2 := by
                        cases h : file2.dset f.dataset with
                        | none => simp [H5File.actualOf, h] at hact
                        | some s2 => exact ⟨s2, rfl⟩
                      obtain ⟨s1, q1, q2, q3⟩ := p1.2 f.dataset s2 hs2
                      rw [v2] at q1; cases q1
                      have hgf := grow_facts file.unlimited s ((offsetInFile a.geom off + 1) * outer)
                      refine ⟨file, file2, outer, s.actual, s, s2, hfile, by rw [hfl]; exact f1, hout,
                        by simp [H5File.actualOf, v1], hact, v1, hs2, w1.trans p1,
                        by rw [v1] at hex; simpa using hex, ?_, by omega, ?_, ?_⟩
                      · intro hu
                        have := hgf.2.2.1 hu
                        omega
                      · intro he; have := v6 he; omega
                      · intro hm c m hc hcm
                        have hgm : g.master = a.master := by rw [← hg]; cases u <;> rfl
                        have hgg : g.geom = a.geom := by rw [← hg]; cases u <;> rfl
                        have hgw : g.framesToWrite = a.framesToWrite := by rw [← hg]; cases u <;> rfl
                        have hgfw : g.framesWritten = a.framesWritten := by rw [← hg]; cases u <;> rfl
                        have hgfp : g.framesProcessed = a.framesProcessed := by rw [← hg]; cases u <;> rfl
                        have := account_counts (g.publish (.write (toU64 f.number) off)) f c m
                          (by simp only [Acq.publish]; rw [hgm]; exact hm)
                          (by rw [b2] at hc; exact hc) hcm
                        have e1 : (g.publish (.write (toU64 f.number) off)).geom = a.geom := hgg
                        have e2 : (g.publish (.write (toU64 f.number) off)).framesToWrite
                            = a.framesToWrite := hgw
                        have e3 : (g.publish (.write (toU64 f.number) off)).framesWritten
                            = a.framesWritten := hgfw
                        have e4 : (g.publish (.write (toU64 f.number) off)).framesProcessed
                            = a.framesProcessed := hgfp
                        rw [e1, e2, e3, e4] at this
                        exact this
                    · intro hinv
                      have := account_not_invalid _ _ hinv
                      rw [this]
                      simp only [Acq.publish]
                      rw [← hg]; cases u <;> exact ⟨rfl, rfl⟩

end Verif.Acq
