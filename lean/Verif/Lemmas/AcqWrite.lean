import Verif.Lemmas.Acquisition
/-! Lemmas about the writing half of `process_frame`. -/
namespace Verif.Acq
open Verif.Placement

/-- First chunk dimension of the definition of a dataset. -/
def outerOf (defs : List DatasetDef) (ds : String) : Option Nat :=
  match findDef defs ds with
  | none => none
  | some d => d.chunks.head?

/-- Identity of a file object: everything but the sizes of its datasets. -/
def H5File.ident (f : H5File) : Nat × Name × Bool × Bool × List String :=
  (f.index, f.name, f.isOpen, f.unlimited, f.keys)

theorem SameId.ident {f g : H5File} (h : SameId f g) : g.ident = f.ident := by
  obtain ⟨h1, h2, h3, h4, h5⟩ := h
  simp [H5File.ident, h1, h2, h3, h4, h5]

theorem ident_inj {f g : H5File} (h : g.ident = f.ident) : SameId f g := by
  simpa [H5File.ident, SameId] using h

theorem account_same (a : Acq) (f : Frame) :
    SameCfg a (account a f).1 ∧ (account a f).1.current = a.current ∧
    (account a f).1.previous = a.previous ∧ (account a f).1.disk = a.disk ∧
    (account a f).1.events = a.events ∧ (account a f).1.attempts = a.attempts ∧
    a.framesWritten ≤ (account a f).1.framesWritten ∧
    a.framesProcessed ≤ (account a f).1.framesProcessed := by
  have h0 : SameCfg a a := .refl a
  unfold account
  dsimp only
  split
  · cases hc : a.current with
    | none => simp [h0, hc]
    | some c =>
      dsimp only
      cases hs : c.dset f.dataset with
      | none => simp [h0, hc]
      | some s =>
        dsimp only
        rw [← hc]
        exact ⟨⟨rfl, rfl, rfl, rfl, rfl, rfl⟩, rfl, rfl, rfl, rfl, rfl, Nat.le_max_left _ _, Nat.le_add_right _ _⟩
  · simp [h0]

theorem setFile_facts (a : Acq) (u : Bool) (file file' : H5File) (d : Disk)
    (hf : a.file u = some file) (hid : SameId file file') :
    let b := ({ a with disk := d } : Acq).setFile u file'
    SameCfg a b ∧ b.attempts = a.attempts ∧
    b.current.map H5File.ident = a.current.map H5File.ident ∧
    b.previous.map H5File.ident = a.previous.map H5File.ident ∧
    b.disk = d ∧ b.events = a.events ∧ b.framesWritten = a.framesWritten ∧
    b.framesProcessed = a.framesProcessed := by
  cases u with
  | true =>
    simp [Acq.file] at hf
    simp [Acq.setFile, hf, hid.ident]
    exact ⟨rfl, rfl, rfl, rfl, rfl, rfl⟩
  | false =>
    simp [Acq.file] at hf
    simp [Acq.setFile, hf, hid.ident]
    exact ⟨rfl, rfl, rfl, rfl, rfl, rfl⟩

/-- Everything the other proofs need to know about `writeTo`. -/
structure WriteFacts (a : Acq) (f : Frame) (off : Nat) (u : Bool) (a' : Acq) (st : Status) : Prop where
  cfg : SameCfg a a'
  attempts : a'.attempts = a.attempts
  curId : a'.current.map H5File.ident = a.current.map H5File.ident
  prevId : a'.previous.map H5File.ident = a.previous.map H5File.ident
  written : a.framesWritten ≤ a'.framesWritten
  processed : a.framesProcessed ≤ a'.framesProcessed
  isSome : ∀ m, (a'.disk m).isSome = (a.disk m).isSome
  /-- only the slot of this frame in the selected file, and its parameters, change -/
  reads : ∀ n ds p, a'.disk.read n ds p = a.disk.read n ds p ∨
    ∃ file, a.file u = some file ∧ n = file.name ∧ (file.dset f.dataset).isSome ∧
      ((ds = f.dataset ∧ ∃ outer, outerOf a.defs f.dataset = some outer ∧
          p = offsetInFile a.geom off * outer) ∨
       ((∃ q ∈ f.params, q.name = ds) ∧ p = offsetInFile a.geom off))
  events : a'.events = a.events ∨
    (a'.events = a.events ++ [.write (toU64 f.number) off] ∧
      ∃ file, a.file u = some file ∧ (file.dset f.dataset).isSome)
  good : st ≠ .invalid → st ≠ .ub →
    a'.events = a.events ++ [.write (toU64 f.number) off] ∧
    ∃ file outer, a.file u = some file ∧ outerOf a.defs f.dataset = some outer ∧
      (file.dset f.dataset).isSome ∧
      ((a.disk file.name).isSome → (∀ q ∈ f.params, q.name ≠ f.dataset) →
        a'.disk.read file.name f.dataset (offsetInFile a.geom off * outer) = some f.payload)

theorem WriteFacts.same (a : Acq) (f : Frame) (off : Nat) (u : Bool) (st : Status)
    (h : st = .invalid ∨ st = .ub) : WriteFacts a f off u a st where
  cfg := .refl a
  attempts := rfl
  curId := rfl
  prevId := rfl
  written := Nat.le_refl _
  processed := Nat.le_refl _
  isSome := fun _ => rfl
  reads := fun _ _ _ => Or.inl rfl
  events := Or.inl rfl
  good := fun h1 h2 => by rcases h with h | h <;> contradiction

theorem writeTo_facts (e : Env) (a : Acq) (f : Frame) (off : Nat) (u : Bool) :
    WriteFacts a f off u (writeTo e a f off u).1 (writeTo e a f off u).2 := by
  unfold writeTo
  cases hfile : a.file u with
  | none => exact .same _ _ _ _ _ (Or.inr rfl)
  | some file =>
    dsimp only
    split
    · exact .same _ _ _ _ _ (Or.inl rfl)
    · split
      · exact .same _ _ _ _ _ (Or.inl rfl)
      · cases hd : findDef a.defs f.dataset with
        | none => exact .same _ _ _ _ _ (Or.inl rfl)
        | some d =>
          dsimp only
          cases hch : d.chunks with
          | nil => exact .same _ _ _ _ _ (Or.inr rfl)
          | cons outer rest =>
            dsimp only
            have hout : outerOf a.defs f.dataset = some outer := by
              simp [outerOf, hd, hch]
            have hid := writeFrame_id e a.disk file f (offsetInFile a.geom off) outer
            have hdisk := writeFrame_disk e a.disk file f (offsetInFile a.geom off) outer
            -- reads after the frame write
            have hreads : ∀ n ds p, (writeFrame e a.disk file f (offsetInFile a.geom off) outer).2.1.read
                n ds p = a.disk.read n ds p ∨
                (n = file.name ∧ (file.dset f.dataset).isSome ∧ ds = f.dataset ∧
                  p = offsetInFile a.geom off * outer) := by
              intro n ds p
              rcases hdisk with h | h
              · exact Or.inl (by rw [h.1])
              · rw [h.1, read_store]
                split
                · rename_i hh; exact Or.inr ⟨hh.1, h.2, hh.2.1, hh.2.2.1⟩
                · exact Or.inl rfl
            have hsome : ∀ m, ((writeFrame e a.disk file f (offsetInFile a.geom off) outer).2.1 m).isSome
                = (a.disk m).isSome := by
              intro m
              rcases hdisk with h | h
              · rw [h.1]
              · rw [h.1, store_isSome]
            cases hw : writeFrame e a.disk file f (offsetInFile a.geom off) outer with
            | mk file1 rest1 =>
              obtain ⟨disk1, threw1⟩ := rest1
              rw [hw] at hid hdisk hreads hsome
              simp only at hid hdisk hreads hsome
              cases threw1 with
              | true =>
                dsimp only
                obtain ⟨c1, c2, c3, c4, c5, c6, c7, c8⟩ := setFile_facts a u file file1 disk1 hfile hid
                refine ⟨c1, c2, c3, c4, Nat.le_of_eq c7.symm, Nat.le_of_eq c8.symm, ?_, ?_,
                  Or.inl c6, fun h => absurd rfl h⟩
                · intro m; rw [c5]; exact hsome m
                · intro n ds p; rw [c5]
                  rcases hreads n ds p with h | ⟨h1, h2, h3, h4⟩
                  · exact Or.inl h
                  · exact Or.inr ⟨file, hfile, h1, h2, Or.inl ⟨h3, outer, hout, h4⟩⟩
              | false =>
                dsimp only
                have hds : disk1 = a.disk.store file.name f.dataset
                    (offsetInFile a.geom off * outer) f.payload ∧ (file.dset f.dataset).isSome := by
                  rcases hdisk with h | h
                  · exact absurd h.2 (by simp)
                  · exact h
                have hpid := writeParams_id a.defs (offsetInFile a.geom off) f.params file1 disk1
                have hpr := writeParams_read a.defs (offsetInFile a.geom off) f.params file1 disk1
                cases hp : writeParams a.defs (offsetInFile a.geom off) file1 disk1 f.params with
                | mk file2 rest2 =>
                  obtain ⟨disk2, threw2⟩ := rest2
                  rw [hp] at hpid hpr
                  simp only at hpid hpr
                  obtain ⟨c1, c2, c3, c4, c5, c6, c7, c8⟩ :=
                    setFile_facts a u file file2 disk2 hfile (hid.trans hpid)
                  have hreads2 : ∀ n ds p, disk2.read n ds p = a.disk.read n ds p ∨
                      ∃ file, a.file u = some file ∧ n = file.name ∧ (file.dset f.dataset).isSome ∧
                      ((ds = f.dataset ∧ ∃ outer, outerOf a.defs f.dataset = some outer ∧
                          p = offsetInFile a.geom off * outer) ∨
                       ((∃ q ∈ f.params, q.name = ds) ∧ p = offsetInFile a.geom off)) := by
                    intro n ds p
                    rcases (hpr n ds p).1 with h | ⟨h1, h2, h3⟩
                    · rw [h]
                      rcases hreads n ds p with h | ⟨h1, h2, h3, h4⟩
                      · exact Or.inl h
                      · exact Or.inr ⟨file, hfile, h1, h2, Or.inl ⟨h3, outer, hout, h4⟩⟩
                    · exact Or.inr ⟨file, hfile, h1.trans hid.2.1, hds.2, Or.inr ⟨h2, h3⟩⟩
                  have hsome2 : ∀ m, (disk2 m).isSome = (a.disk m).isSome := fun m =>
                    ((hpr [] "" 0).2 m).trans (hsome m)
                  cases threw2 with
                  | true =>
                    dsimp only
                    refine ⟨c1, c2, c3, c4, Nat.le_of_eq c7.symm, Nat.le_of_eq c8.symm, ?_, ?_,
                      Or.inl c6, fun h => absurd rfl h⟩
                    · intro m; rw [c5]; exact hsome2 m
                    · intro n ds p; rw [c5]; exact hreads2 n ds p
                  | false =>
                    dsimp only
                    obtain ⟨b1, b2, b3, b4, b5, b6, b7, b8⟩ := account_same
                      ((({ a with disk := disk2 } : Acq).setFile u file2).publish
                        (.write (toU64 f.number) off)) f
                    generalize hg : ({ a with disk := disk2 } : Acq).setFile u file2 = g at *
                    have hpub : SameCfg g (g.publish (.write (toU64 f.number) off)) :=
                      ⟨rfl, rfl, rfl, rfl, rfl, rfl⟩
                    have hev : (account (g.publish (.write (toU64 f.number) off)) f).1.events
                        = a.events ++ [.write (toU64 f.number) off] := by
                      rw [b5]; simp [Acq.publish, c6]
                    refine ⟨(c1.trans hpub).trans b1, ?_, ?_, ?_, ?_, ?_, ?_, ?_,
                      Or.inr ⟨hev, file, hfile, hds.2⟩, fun _ _ => ⟨hev, file, outer, hfile, hout, hds.2, ?_⟩⟩
                    · rw [b6]; simpa [Acq.publish] using c2
                    · rw [b2]; simpa [Acq.publish] using c3
                    · rw [b3]; simpa [Acq.publish] using c4
                    · exact Nat.le_trans (Nat.le_of_eq c7.symm) b7
                    · exact Nat.le_trans (Nat.le_of_eq c8.symm) b8
                    · intro m; rw [b4]; simp only [Acq.publish]; rw [c5]; exact hsome2 m
                    · intro n ds p; rw [b4]; simp only [Acq.publish]; rw [c5]; exact hreads2 n ds p
                    · intro hex hnp
                      rw [b4]; simp only [Acq.publish]; rw [c5]
                      rcases (hpr file.name f.dataset (offsetInFile a.geom off * outer)).1 with h | ⟨_, ⟨q, hq, hq'⟩, _⟩
                      · rw [h, hds.1, read_store]; simp [hex]
                      · exact absurd hq' (hnp q hq)

end Verif.Acq
