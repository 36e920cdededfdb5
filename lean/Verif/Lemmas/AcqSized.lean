import Verif.Lemmas.AcqSize
/-! The datasets of every open file have the extents `create_file` computes. -/
namespace Verif.Acq
open Verif.Placement

/-- The entry `create_dataset` makes for a definition. -/
def entryFor (g : Geom) (w k : Nat) (unlimited : Bool) (d : DatasetDef) : String × Dset :=
  (d.name, { dim0 := if unlimited then 1 else datasetFrames g (d.chunks.headD 0) w k, actual := 0 })

theorem createDataset_entry (g : Geom) (w k : Nat) (f : H5File) (d : DatasetDef) :
    ((createDataset g w k f d).2 = .ok ∧
      (createDataset g w k f d).1.dsets = f.dsets ++ [entryFor g w k f.unlimited d] ∧
      d.chunks ≠ [] ∧ 1 ≤ (entryFor g w k f.unlimited d).2.dim0) ∨
    ((createDataset g w k f d).2 ≠ .ok ∧ (createDataset g w k f d).1 = f) := by
  unfold createDataset
  cases hch : d.chunks with
  | nil => simp
  | cons c cs =>
    dsimp only
    by_cases h1 : (d.dims.any (· == 0) || (c :: cs).any (· == 0)) = true
    · rw [if_pos h1]; simp
    · rw [if_neg h1]
      by_cases h2 : (c :: cs).length ≠ d.dims.length + 1
      · rw [if_pos h2]; simp
      · rw [if_neg h2]
        cases hu : f.unlimited with
        | true => simp [entryFor]
        | false =>
          simp only [Bool.false_eq_true, if_false]
          by_cases h3 : datasetFrames g c w k = 0
          · rw [if_pos h3]; simp
          · rw [if_neg h3]
            left
            simp [entryFor, hch]; omega

theorem createDatasets_entries (g : Geom) (w k : Nat) (ds : List DatasetDef) : ∀ (f : H5File) (b),
    ∃ j, (createDatasets g w k f ds b).1.dsets
        = f.dsets ++ (ds.take j).map (entryFor g w k f.unlimited) ∧
      ((createDatasets g w k f ds b).2 = .ok → j = ds.length) ∧
      ∀ d ∈ ds.take j, d.chunks ≠ [] ∧ 1 ≤ (entryFor g w k f.unlimited d).2.dim0 := by
  induction ds with
  | nil => intro f b; cases b with
    | none => exact ⟨0, by simp [createDatasets], by simp, by simp⟩
    | some n => cases n with
      | zero => exact ⟨0, by simp [createDatasets], by simp, by simp⟩
      | succ n => exact ⟨0, by simp [createDatasets], by simp, by simp⟩
  | cons d ds ih =>
    have key : ∀ f b', ∃ j, (match createDataset g w k f d with
        | (file', .ok) => createDatasets g w k file' ds b'
        | (file', o) => (file', o)).1.dsets
          = f.dsets ++ ((d :: ds).take j).map (entryFor g w k f.unlimited) ∧
        ((match createDataset g w k f d with
        | (file', .ok) => createDatasets g w k file' ds b'
        | (file', o) => (file', o)).2 = .ok → j = (d :: ds).length) ∧
        ∀ x ∈ (d :: ds).take j, x.chunks ≠ [] ∧ 1 ≤ (entryFor g w k f.unlimited x).2.dim0 := by
      intro f b'
      have h1 := createDataset_entry g w k f d
      have hu := (createDataset_same g w k f d).2.2.2
      cases hh : createDataset g w k f d with
      | mk f' o =>
        rw [hh] at h1 hu
        simp only at h1 hu
        cases o with
        | ok =>
          dsimp only
          rcases h1 with ⟨_, h2, h3, h4⟩ | h1
          · obtain ⟨j, i1, i2, i3⟩ := ih f' b'
            refine ⟨j + 1, ?_, ?_, ?_⟩
            · rw [i1, h2, hu]; simp
            · intro h; simp [i2 h]
            · intro x hx
              rw [List.take_succ_cons, List.mem_cons] at hx
              rcases hx with rfl | hx
              · exact ⟨h3, h4⟩
              · rw [← hu]; exact i3 x hx
          · simp at h1
        | threw =>
          rcases h1 with h1 | ⟨_, h1⟩
          · simp at h1
          · exact ⟨0, by simp [h1], by simp, by simp⟩
        | ub =>
          rcases h1 with h1 | ⟨_, h1⟩
          · simp at h1
          · exact ⟨0, by simp [h1], by simp, by simp⟩
    intro f b
    cases b with
    | none => exact key f none
    | some n => cases n with
      | zero => exact ⟨0, by simp [createDatasets], by simp [createDatasets], by simp⟩
      | succ n => exact key f _

theorem lookup_entries (g : Geom) (w k : Nat) (u : Bool) (l : List DatasetDef) (x : String) :
    (l.map (entryFor g w k u)).lookup x
      = (l.find? (fun d => d.name = x)).map (fun d => (entryFor g w k u d).2) := by
  induction l with
  | nil => rfl
  | cons d l ih =>
    simp only [List.map_cons, entryFor] at ih ⊢
    by_cases h : d.name = x
    · subst h; simp
    · have : (x == d.name) = false := by simpa using fun h' => h h'.symm
      simp only [List.lookup_cons, this, List.find?_cons, decide_eq_false h]
      exact ih

theorem find_take {α : Type} (p : α → Bool) (l : List α) (j : Nat) (d : α)
    (h : (l.take j).find? p = some d) : l.find? p = some d := by
  have : l = l.take j ++ l.drop j := (List.take_append_drop j l).symm
  rw [this, List.find?_append, h]
  rfl

/-- Every dataset of the file object has a definition and the extent computed for it. -/
def Sized (a : Acq) (c : H5File) : Prop :=
  (c.isOpen = true → c.unlimited = (a.totalFrames == 0)) ∧
  ∀ ds s, c.dset ds = some s → ∃ ch, outerOf a.defs ds = some ch ∧ 1 ≤ s.dim0 ∧
    (c.unlimited = false → s.dim0 = datasetFrames a.geom ch a.framesToWrite c.index)

theorem Sized.mono {a b : Acq} {c c' : H5File} (h : Sized a c) (hg : Grows c c') (hc : SameCfg a b) :
    Sized b c' := by
  obtain ⟨i1, i2, i3, i4, i5⟩ := hg.1
  refine ⟨fun ho => by rw [i4, hc.total]; exact h.1 (by rw [← i3]; exact ho), ?_⟩
  intro ds s' hs'
  obtain ⟨s, h1, h2, h3⟩ := hg.2 ds s' hs'
  obtain ⟨ch, k1, k2, k3⟩ := h.2 ds s h1
  refine ⟨ch, by rw [hc.defs]; exact k1, by omega, ?_⟩
  intro hu
  rw [i4] at hu
  rw [h3 hu, k3 hu, hc.geom, hc.toWrite, i1]

/-- What the newly created file looks like. -/
theorem createFile_sized (e : Env) (a : Acq) (k : Nat) :
    ∃ c, (createFile e a k).1.current = some c ∧ Sized (createFile e a k).1 c ∧
      (∀ ds n, c.actualOf ds = some n → n = 0) ∧
      ((createFile e a k).2 = .ok → ∀ ds, (c.dset ds).isSome = (findDef a.defs ds).isSome) := by
  have hcfg := (createFile_created e a k).cfg
  unfold createFile at *
  split
  · exact ⟨_, rfl, ⟨by simp, by simp [H5File.dset]⟩, by simp [H5File.actualOf, H5File.dset], by simp⟩
  · rename_i hr
    split at hcfg
    · contradiction
    · dsimp only at hcfg ⊢
      split at hcfg
      · rename_i hz
        rw [if_pos hz]
        exact ⟨_, rfl, ⟨fun _ => by rw [hcfg.total], by simp [H5File.dset]⟩,
          by simp [H5File.actualOf, H5File.dset], by simp⟩
      · rename_i hz
        rw [if_neg hz]
        refine ⟨_, rfl, ?_⟩
        generalize (e.create a.attempts).budget = budget at *
        generalize hf0 : ({ index := k, name := Filename.generate a.naming k, isOpen := true,
                            unlimited := a.totalFrames == 0, dsets := [] } : H5File) = f0 at *
        obtain ⟨j, h1, h2, h3⟩ := createDatasets_entries a.geom a.framesToWrite k a.defs f0 budget
        obtain ⟨s1, s2, s3, s4⟩ := createDatasets_same a.geom a.framesToWrite k a.defs f0 budget
        have hdsets : f0.dsets = [] := by rw [← hf0]
        have hun : f0.unlimited = (a.totalFrames == 0) := by rw [← hf0]
        have hidx : f0.index = k := by rw [← hf0]
        rw [hdsets, List.nil_append] at h1
        have hlook : ∀ ds, (createDatasets a.geom a.framesToWrite k f0 a.defs budget).1.dset ds
            = ((a.defs.take j).find? (fun d => d.name = ds)).map
                (fun d => (entryFor a.geom a.framesToWrite k f0.unlimited d).2) := by
          intro ds; unfold H5File.dset; rw [h1, lookup_entries]
        refine ⟨⟨fun _ => ?_, ?_⟩, ?_, ?_⟩
        · rw [s4, hcfg.total, hun]
        · intro ds s hs
          rw [hlook] at hs
          cases hfd : (a.defs.take j).find? (fun d => d.name = ds) with
          | none => rw [hfd] at hs; simp at hs
          | some d =>
            rw [hfd] at hs
            simp at hs
            have hmem : d ∈ a.defs.take j := List.mem_of_find?_eq_some hfd
            obtain ⟨c1, c2⟩ := h3 d hmem
            have hfull : findDef a.defs ds = some d := find_take _ _ _ _ hfd
            cases hch : d.chunks with
            | nil => exact absurd hch c1
            | cons ch rest =>
              refine ⟨ch, ?_, by rw [← hs]; exact c2, ?_⟩
              · rw [hcfg.defs]; simp [outerOf, hfull, hch]
              · intro hu
                rw [s4] at hu
                rw [← hs, hcfg.geom, hcfg.toWrite, s1, hidx]
                simp [entryFor, hu, hch]
        · intro ds n hn
          unfold H5File.actualOf at hn
          rw [hlook] at hn
          cases hfd : (a.defs.take j).find? (fun d => d.name = ds) with
          | none => rw [hfd] at hn; simp at hn
          | some d => rw [hfd] at hn; simp [entryFor] at hn; exact hn.symm
        · intro hok ds
          rw [hlook, h2 hok, List.take_length]
          simp [findDef]

/-- All file objects of an acquisition have the computed extents. -/
def AllSized (a : Acq) : Prop :=
  (∀ c, a.current = some c → Sized a c) ∧ (∀ p, a.previous = some p → Sized a p)

theorem createFile_allSized (e : Env) (a : Acq) (k : Nat) (h : AllSized a) :
    AllSized (createFile e a k).1 := by
  have hcr := createFile_created e a k
  obtain ⟨c, h1, h2, _⟩ := createFile_sized e a k
  refine ⟨?_, ?_⟩
  · intro c' hc'; rw [h1] at hc'; cases hc'; exact h2
  · intro p hp; rw [hcr.prev] at hp; exact (h.1 p hp).mono (.refl _) hcr.cfg

theorem Creates.allSized {e : Env} {K : Nat} {a b : Acq} (h : Creates e K a b) (hs : AllSized a) :
    AllSized b := by
  induction h with
  | refl => exact hs
  | step a c k b hc hk hK _ ih => exact ih (createFile_allSized e a k hs)

theorem writeTo_allSized (e : Env) (a : Acq) (f : Frame) (off : Nat) (u : Bool) (h : AllSized a) :
    AllSized (writeTo e a f off u).1 := by
  have hw := writeTo_sizes e a f off u
  have hc := (writeTo_facts e a f off u).cfg
  have key : ∀ x c, (writeTo e a f off u).1.file x = some c → Sized (writeTo e a f off u).1 c := by
    intro x c hx
    have hall : ∀ x c, a.file x = some c → Sized a c := by
      intro x c hx
      cases x
      · exact h.1 c hx
      · exact h.2 c hx
    by_cases hxu : x = u
    · subst hxu
      obtain ⟨file, h1, h2, _⟩ := hw.grows c hx
      exact (hall _ file h1).mono h2 hc
    · have : x = !u := by cases x <;> cases u <;> simp_all
      subst this
      rw [hw.other] at hx
      exact (hall _ c hx).mono (.refl _) hc
  exact ⟨fun c => key false c, fun c => key true c⟩

theorem processFrame_allSized (e : Env) (a : Acq) (f : Frame) (h : AllSized a) :
    AllSized (processFrame e a f).1 := by
  apply processFrame_ind e a f (fun b _ => AllSized b)
  · exact h
  · exact fun _ => h
  · intro off _ _ _ _ _
    have := (getFile_spec e a off).1.allSized h
    refine ⟨fun b hb => ?_, fun b hb => ?_, fun b u hb => ?_⟩
    · rcases hb with hb | hb <;> (rw [hb] at this; exact this)
    · rw [hb] at this; exact this
    · rw [hb] at this; exact writeTo_allSized e b f off u this

theorem Reachable.allSized {e : Env} {a : Acq} (h : Reachable e a) : AllSized a := by
  induction h with
  | start geom naming master defs total disk a hs =>
    unfold startAcquisition at hs
    split at hs
    · simp at hs
    · simp only [Option.some.injEq] at hs
      have := createFile_allSized e ((fresh geom naming master defs total disk).publish .start)
        geom.rank ⟨by simp [fresh, Acq.publish], by simp [fresh, Acq.publish]⟩
      rw [show (fresh geom naming master defs total disk).geom.rank = geom.rank from rfl] at hs
      rw [hs] at this; exact this
  | frame a f _ _ ih => exact processFrame_allSized e a f ih

end Verif.Acq
