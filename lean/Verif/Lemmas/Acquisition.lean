import Verif.Model.Acquisition
/-! Helper lemmas about the acquisition model (not property statements). -/
namespace Verif.Acq
open Verif.Placement

/-- The settings of an acquisition are not touched. -/
structure SameCfg (a b : Acq) : Prop where
  geom : b.geom = a.geom
  naming : b.naming = a.naming
  master : b.master = a.master
  defs : b.defs = a.defs
  total : b.totalFrames = a.totalFrames
  toWrite : b.framesToWrite = a.framesToWrite

theorem SameCfg.refl (a : Acq) : SameCfg a a := ⟨rfl, rfl, rfl, rfl, rfl, rfl⟩

theorem SameCfg.trans {a b c : Acq} (h1 : SameCfg a b) (h2 : SameCfg b c) : SameCfg a c :=
  ⟨h2.geom.trans h1.geom, h2.naming.trans h1.naming, h2.master.trans h1.master,
   h2.defs.trans h1.defs, h2.total.trans h1.total, h2.toWrite.trans h1.toWrite⟩

/-- Name of the file with a given number. -/
abbrev Acq.nameOf (a : Acq) (k : Nat) : Name := Filename.generate a.naming k

/-! ### Disk -/

theorem read_truncate (d : Disk) (n m : Name) (ds : String) (p : Nat) :
    (d.truncate n).read m ds p = if m = n then none else d.read m ds p := by
  unfold Disk.read Disk.truncate
  by_cases h : m = n <;> simp [h]

theorem read_store (d : Disk) (n m : Name) (ds ds' : String) (p p' v : Nat) :
    (d.store n ds p v).read m ds' p' =
      if m = n ∧ ds' = ds ∧ p' = p ∧ (d n).isSome then some v else d.read m ds' p' := by
  unfold Disk.read Disk.store
  by_cases h : m = n
  · subst h
    cases hd : d m with
    | none => simp
    | some c => simp
  · simp [h]

theorem store_isSome (d : Disk) (n m : Name) (ds : String) (p v : Nat) :
    ((d.store n ds p v) m).isSome = (d m).isSome := by
  unfold Disk.store
  by_cases h : m = n <;> simp [h]

theorem truncate_isSome (d : Disk) (n m : Name) :
    ((d.truncate n) m).isSome = (decide (m = n) || (d m).isSome) := by
  unfold Disk.truncate
  by_cases h : m = n <;> simp [h]

/-! ### Files -/

theorem createDataset_same (g : Geom) (w k : Nat) (f : H5File) (d : DatasetDef) :
    (createDataset g w k f d).1.index = f.index ∧ (createDataset g w k f d).1.name = f.name ∧
    (createDataset g w k f d).1.isOpen = f.isOpen ∧
    (createDataset g w k f d).1.unlimited = f.unlimited := by
  unfold createDataset
  cases d.chunks with
  | nil => simp
  | cons c cs => dsimp only; repeat' split
                 all_goals simp

theorem createDatasets_same (g : Geom) (w k : Nat) (ds : List DatasetDef) : ∀ (f : H5File) (b),
    (createDatasets g w k f ds b).1.index = f.index ∧ (createDatasets g w k f ds b).1.name = f.name ∧
    (createDatasets g w k f ds b).1.isOpen = f.isOpen ∧
    (createDatasets g w k f ds b).1.unlimited = f.unlimited := by
  induction ds with
  | nil => intro f b; cases b with
    | none => simp [createDatasets]
    | some n => cases n <;> simp [createDatasets]
  | cons d ds ih =>
    intro f b
    have h := createDataset_same g w k f d
    have key : ∀ b', (match createDataset g w k f d with
        | (file', .ok) => createDatasets g w k file' ds b'
        | (file', o) => (file', o)).1.index = f.index ∧ (match createDataset g w k f d with
        | (file', .ok) => createDatasets g w k file' ds b'
        | (file', o) => (file', o)).1.name = f.name ∧ (match createDataset g w k f d with
        | (file', .ok) => createDatasets g w k file' ds b'
        | (file', o) => (file', o)).1.isOpen = f.isOpen ∧ (match createDataset g w k f d with
        | (file', .ok) => createDatasets g w k file' ds b'
        | (file', o) => (file', o)).1.unlimited = f.unlimited := by
      intro b'
      cases hh : createDataset g w k f d with
      | mk f' o =>
        rw [hh] at h
        cases o with
        | ok => have := ih f' b'; simp_all
        | threw => simpa using h
        | ub => simpa using h
    cases b with
    | none => exact key none
    | some n => cases n with
      | zero => simp [createDatasets]
      | succ n => exact key _

theorem closeFile_cfg (a : Acq) (f) : SameCfg a (closeFile a f) := by
  cases f <;> exact ⟨rfl, rfl, rfl, rfl, rfl, rfl⟩

/-- What `createFile` does, whatever the environment. -/
structure Created (e : Env) (a : Acq) (k : Nat) (a' : Acq) (o : Outcome) : Prop where
  cfg : SameCfg a a'
  prev : a'.previous = a.current
  attempts : a'.attempts = a.attempts + 1
  written : a'.framesWritten = a.framesWritten
  processed : a'.framesProcessed = a.framesProcessed
  cur : ∃ c, a'.current = some c ∧ c.name = a.nameOf k ∧
    ((e.create a.attempts = .noFile ∧ o = .threw ∧ c.index = 0 ∧ c.dsets = [] ∧ c.isOpen = false ∧
        a'.disk = a.disk ∧ a'.events = (closeFile a a.previous).events) ∨
     (e.create a.attempts ≠ .noFile ∧ c.index = k ∧ c.isOpen = true ∧
        c.unlimited = (a.totalFrames == 0) ∧
        a'.disk = a.disk.truncate (a.nameOf k) ∧
        a'.events = (closeFile a a.previous).events ++ [.create (a.nameOf k)]))

theorem closeFile_fields (a : Acq) (f : Option H5File) :
    (closeFile a f).current = a.current ∧ (closeFile a f).previous = a.previous ∧
    (closeFile a f).disk = a.disk ∧ (closeFile a f).attempts = a.attempts ∧
    (closeFile a f).framesWritten = a.framesWritten ∧
    (closeFile a f).framesProcessed = a.framesProcessed ∧
    (closeFile a f).naming = a.naming ∧ (closeFile a f).geom = a.geom ∧
    (closeFile a f).defs = a.defs ∧ (closeFile a f).totalFrames = a.totalFrames := by
  cases f <;> simp [closeFile, Acq.publish]

theorem createFile_created (e : Env) (a : Acq) (k : Nat) :
    Created e a k (createFile e a k).1 (createFile e a k).2 := by
  have hc := closeFile_cfg a a.previous
  obtain ⟨h1, h2, h3, h4, h5, h6, h7, h8, h9, h10⟩ := closeFile_fields a a.previous
  have hcfg : SameCfg a (createFile e a k).1 := by
    unfold createFile
    split
    · exact ⟨hc.geom, hc.naming, hc.master, hc.defs, hc.total, hc.toWrite⟩
    · dsimp only
      split <;> exact ⟨hc.geom, hc.naming, hc.master, hc.defs, hc.total, hc.toWrite⟩
  refine ⟨hcfg, ?_, ?_, ?_, ?_, ?_⟩ <;> unfold createFile
  · split
    · rfl
    · dsimp only; split <;> rfl
  · split
    · rfl
    · dsimp only; split <;> rfl
  · split
    · exact h5
    · dsimp only; split <;> exact h5
  · split
    · exact h6
    · dsimp only; split <;> exact h6
  · split
    · rename_i hr
      exact ⟨_, rfl, rfl, Or.inl ⟨hr, rfl, rfl, rfl, rfl, h3, rfl⟩⟩
    · rename_i hr
      dsimp only
      split
      · exact ⟨_, rfl, rfl, Or.inr ⟨hr, rfl, rfl, rfl, rfl, rfl⟩⟩
      · refine ⟨_, rfl, ?_, Or.inr ⟨hr, ?_, ?_, ?_, rfl, rfl⟩⟩
        · rw [(createDatasets_same _ _ k _ _ _).2.1]
        · rw [(createDatasets_same _ _ k _ _ _).1]
        · rw [(createDatasets_same _ _ k _ _ _).2.2.1]
        · rw [(createDatasets_same _ _ k _ _ _).2.2.2]

/-! ### Selecting a file -/

/-- `b` is reached from `a` by creating files, each with a number above the number of the file that is
current at that point and at most `K`. -/
inductive Creates (e : Env) (K : Nat) : Acq → Acq → Prop
  | refl (a : Acq) : Creates e K a a
  | step (a : Acq) (c : H5File) (k : Nat) (b : Acq) :
      a.current = some c → c.index < k → k ≤ K →
      Creates e K (createFile e a k).1 b → Creates e K a b

theorem Creates.trans {e : Env} {K : Nat} {a b c : Acq} (h1 : Creates e K a b)
    (h2 : Creates e K b c) : Creates e K a c := by
  induction h1 with
  | refl => exact h2
  | step a cf k b hc hk hK _ ih => exact .step a cf k _ hc hk hK (ih h2)

theorem Creates.cfg {e : Env} {K : Nat} {a b : Acq} (h : Creates e K a b) : SameCfg a b := by
  induction h with
  | refl => exact .refl _
  | step a c k b hc hk hK _ ih => exact (createFile_created e a k).cfg.trans ih

theorem createFile_ok_index (e : Env) (a : Acq) (k : Nat) (h : (createFile e a k).2 = .ok) :
    ∃ c, (createFile e a k).1.current = some c ∧ c.index = k ∧ c.name = a.nameOf k := by
  obtain ⟨c, h1, h2, h3⟩ := (createFile_created e a k).cur
  refine ⟨c, h1, ?_, h2⟩
  rcases h3 with h3 | h3
  · rw [h] at h3; simp at h3
  · exact h3.2.1

theorem createMissing_creates (e : Env) (target next : Nat) (a : Acq) (c : H5File)
    (hc : a.current = some c) (hn : next = c.index + a.geom.procs) (hlt : c.index < target) :
    Creates e target a (createMissing e a next target).1 ∧
    ((createMissing e a next target).2 = .ok →
      ∃ c', (createMissing e a next target).1.current = some c' ∧ c'.index < target) := by
  induction hm : target - next using Nat.strongRecOn generalizing next a c with
  | _ m ih =>
    unfold createMissing
    split
    · rename_i h
      obtain ⟨h1, h2⟩ := h
      have hk : c.index < next := by omega
      cases hr : createFile e a next with
      | mk a' o =>
        have hcr := createFile_created e a next
        rw [hr] at hcr
        have hst : ∀ b, Creates e target a' b → Creates e target a b := fun b hb =>
          .step a c next b hc hk (by omega) (by rw [hr]; exact hb)
        cases o with
        | ok =>
          have hok := createFile_ok_index e a next (by rw [hr])
          rw [hr] at hok
          obtain ⟨c', hc', hi, _⟩ := hok
          have hg : a'.geom = a.geom := hcr.cfg.geom
          have := ih (target - (next + a.geom.procs)) (by omega) (next + a.geom.procs) a' c' hc'
            (by rw [hg]; omega) (by omega) rfl
          exact ⟨hst _ this.1, this.2⟩
        | threw => exact ⟨hst _ (.refl _), by simp⟩
        | ub => exact ⟨hst _ (.refl _), by simp⟩
    · exact ⟨.refl _, fun _ => ⟨c, hc, hlt⟩⟩

/-- What `getFile` does, whatever the environment. -/
theorem getFile_spec (e : Env) (a : Acq) (off : Nat) :
    Creates e (fileIndex a.geom off) a (getFile e a off).1 ∧
    (a.geom.bpf = 0 → (getFile e a off).1 = a) ∧
    ((getFile e a off).2 = .cur → ∃ c, (getFile e a off).1.current = some c ∧
        (a.geom.bpf ≠ 0 → c.index = fileIndex a.geom off)) ∧
    ((getFile e a off).2 = .prev → (getFile e a off).1 = a ∧ a.geom.bpf ≠ 0 ∧
        ∃ p, a.previous = some p ∧ p.index = fileIndex a.geom off) ∧
    ((getFile e a off).2 = .null → (getFile e a off).1 = a) := by
  unfold getFile
  split
  · rename_i h
    cases hc : a.current with
    | none => simp [Creates.refl, h]
    | some c => simp [Creates.refl, h, hc]
  · rename_i h
    cases hc : a.current with
    | none => simp [Creates.refl]
    | some c =>
      dsimp only
      split
      · rename_i hi
        simp [Creates.refl, hc, hi]
      · split
        · rename_i hi
          cases hp : a.previous with
          | none => rw [hp] at hi; simp at hi
          | some p => rw [hp] at hi; simp at hi; simp [Creates.refl, hi, h]
        · split
          · rename_i hgt
            obtain ⟨m1, m2⟩ := createMissing_creates e (fileIndex a.geom off)
              (c.index + a.geom.procs) a c hc rfl hgt
            cases hm : createMissing e a (c.index + a.geom.procs) (fileIndex a.geom off) with
            | mk a' o =>
              rw [hm] at m1 m2
              cases o with
              | ok =>
                obtain ⟨c', hc', hlt⟩ := m2 rfl
                have hcr : Creates e (fileIndex a.geom off) a
                    (createFile e a' (fileIndex a.geom off)).1 :=
                  m1.trans (.step a' c' _ _ hc' hlt (Nat.le_refl _) (.refl _))
                cases hf : createFile e a' (fileIndex a.geom off) with
                | mk a'' o' =>
                  rw [hf] at hcr
                  cases o' with
                  | ok =>
                    have hok := createFile_ok_index e a' (fileIndex a.geom off) (by rw [hf])
                    rw [hf] at hok
                    obtain ⟨c'', h1, h2, _⟩ := hok
                    simp [h, hf]; exact ⟨hcr, c'', h1, h2⟩
                  | threw => simp [h, hf]; exact hcr
                  | ub => simp [h, hf]; exact hcr
              | threw => simp [h]; exact m1
              | ub => simp [h]; exact m1
          · simp [Creates.refl]

/-! ### Writing -/

/-- Names of the datasets a file object knows. -/
def H5File.keys (f : H5File) : List String := f.dsets.map Prod.fst

theorem setDset_same (f : H5File) (ds : String) (s : Dset) :
    (f.setDset ds s).index = f.index ∧ (f.setDset ds s).name = f.name ∧
    (f.setDset ds s).isOpen = f.isOpen ∧ (f.setDset ds s).unlimited = f.unlimited ∧
    (f.setDset ds s).keys = f.keys := by
  refine ⟨rfl, rfl, rfl, rfl, ?_⟩
  simp only [H5File.setDset, H5File.keys, List.map_map]
  apply List.map_congr_left
  intro e _
  simp only [Function.comp]
  split <;> rfl

/-- Same identity: number, name, open flag, mode and dataset names of a file object agree. -/
def SameId (f g : H5File) : Prop :=
  g.index = f.index ∧ g.name = f.name ∧ g.isOpen = f.isOpen ∧ g.unlimited = f.unlimited ∧
  g.keys = f.keys

theorem SameId.refl (f : H5File) : SameId f f := ⟨rfl, rfl, rfl, rfl, rfl⟩

theorem SameId.trans {f g h : H5File} (a : SameId f g) (b : SameId g h) : SameId f h :=
  ⟨b.1.trans a.1, b.2.1.trans a.2.1, b.2.2.1.trans a.2.2.1, b.2.2.2.1.trans a.2.2.2.1,
   b.2.2.2.2.trans a.2.2.2.2⟩

theorem setDset_id (f : H5File) (ds : String) (s : Dset) : SameId f (f.setDset ds s) :=
  setDset_same f ds s

theorem writeFrame_id (e : Env) (d : Disk) (file : H5File) (f : Frame) (slot outer : Nat) :
    SameId file (writeFrame e d file f slot outer).1 := by
  unfold writeFrame
  cases file.dset f.dataset with
  | none => exact .refl _
  | some s =>
    dsimp only
    split
    · exact setDset_id _ _ _
    · split <;> exact setDset_id _ _ _

theorem writeFrame_disk (e : Env) (d : Disk) (file : H5File) (f : Frame) (slot outer : Nat) :
    ((writeFrame e d file f slot outer).2.1 = d ∧ (writeFrame e d file f slot outer).2.2 = true) ∨
    (writeFrame e d file f slot outer).2.1 = d.store file.name f.dataset (slot * outer) f.payload ∧
      (file.dset f.dataset).isSome := by
  unfold writeFrame
  cases h : file.dset f.dataset with
  | none => simp
  | some s =>
    dsimp only
    split
    · exact Or.inl ⟨rfl, rfl⟩
    · split <;> exact Or.inr ⟨rfl, by simp⟩

theorem writeParams_id (defs : List DatasetDef) (slot : Nat) (ps : List Param) :
    ∀ (file : H5File) (d : Disk), SameId file (writeParams defs slot file d ps).1 := by
  induction ps with
  | nil => intro file d; exact .refl _
  | cons p ps ih =>
    intro file d
    unfold writeParams
    split
    · exact ih file d
    · split
      · exact .refl _
      · dsimp only
        split
        · exact (setDset_id _ _ _).trans (ih _ _)
        · exact setDset_id _ _ _

/-- Parameters only touch their own datasets, in this file, at this slot. -/
theorem writeParams_read (defs : List DatasetDef) (slot : Nat) (ps : List Param) :
    ∀ (file : H5File) (d : Disk) (n : Name) (ds : String) (p : Nat),
      ((writeParams defs slot file d ps).2.1.read n ds p = d.read n ds p ∨
        (n = file.name ∧ (∃ q ∈ ps, q.name = ds) ∧ p = slot)) ∧
      ∀ m, ((writeParams defs slot file d ps).2.1 m).isSome = (d m).isSome := by
  induction ps with
  | nil => intro file d n ds p; exact ⟨Or.inl rfl, fun _ => rfl⟩
  | cons q ps ih =>
    intro file d n ds p
    unfold writeParams
    split
    · obtain ⟨h1, h2⟩ := ih file d n ds p
      refine ⟨?_, h2⟩
      rcases h1 with h | ⟨h, ⟨r, hr, hr'⟩, h3⟩
      · exact Or.inl h
      · exact Or.inr ⟨h, ⟨r, List.mem_cons_of_mem _ hr, hr'⟩, h3⟩
    · split
      · exact ⟨Or.inl rfl, fun _ => rfl⟩
      · rename_i s hs
        dsimp only
        split
        · have := ih (file.setDset q.name (Dset.grow file.unlimited s (slot + 1)))
            (d.store (file.setDset q.name (Dset.grow file.unlimited s (slot + 1))).name
              q.name slot q.value) n ds p
          obtain ⟨h1, h2⟩ := this
          refine ⟨?_, fun m => (h2 m).trans (store_isSome _ _ _ _ _ _)⟩
          rcases h1 with h | ⟨h, ⟨r, hr, hr'⟩, h3⟩
          · rw [h, read_store]
            split
            · rename_i hh
              exact Or.inr ⟨hh.1, ⟨q, by simp, hh.2.1.symm⟩, hh.2.2.1⟩
            · exact Or.inl rfl
          · exact Or.inr ⟨h, ⟨r, List.mem_cons_of_mem _ hr, hr'⟩, h3⟩
        · exact ⟨Or.inl rfl, fun _ => rfl⟩

theorem dset_isSome_iff (f : H5File) (ds : String) : (f.dset ds).isSome ↔ ds ∈ f.keys := by
  unfold H5File.dset H5File.keys
  induction f.dsets with
  | nil => simp
  | cons e es ih =>
    obtain ⟨k, v⟩ := e
    simp only [List.lookup_cons, List.map_cons, List.mem_cons]
    by_cases h : ds = k
    · simp [h]
    · have : (ds == k) = false := by simpa using h
      simp only [this, h, false_or]; exact ih

end Verif.Acq
