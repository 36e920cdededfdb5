import Verif.Lemmas.AcqWrite
/-! Invariants of reachable acquisition states. -/
namespace Verif.Acq
open Verif.Placement

/-- States of an acquisition after a successful start and any number of frames. -/
inductive Reachable (e : Env) : Acq → Prop
  | start (geom : Geom) (naming : Filename.Cfg) (master : String) (defs : List DatasetDef)
      (total : Nat) (disk : Disk) (a : Acq) :
      startAcquisition e (fresh geom naming master defs total disk) = some (a, .ok) → Reachable e a
  | frame (a : Acq) (f : Frame) : Reachable e a → (processFrame e a f).2 ≠ .ub →
      Reachable e (processFrame e a f).1

/-- Case analysis of `process_frame`. -/
theorem processFrame_ind (e : Env) (a : Acq) (f : Frame) (Q : Acq → Status → Prop)
    (hrej : Q a .invalid) (hub : a.geom.bad = true → Q a .ub)
    (hget : ∀ off, checkFrameValid a.defs f = true → adjustOffset f.number f.adj = some off →
      a.geom.procs ≠ 0 → a.geom.fpb ≠ 0 → acceptsOffset a.geom off = true →
      (∀ b, (getFile e a off = (b, .null) ∨ getFile e a off = (b, .threw)) → Q b .invalid) ∧
      (∀ b, getFile e a off = (b, .ub) → Q b .ub) ∧
      (∀ b u, getFile e a off = (b, if u then .prev else .cur) →
        Q (writeTo e b f off u).1 (writeTo e b f off u).2)) :
    Q (processFrame e a f).1 (processFrame e a f).2 := by
  unfold processFrame
  by_cases hv : checkFrameValid a.defs f = true
  · rw [if_pos hv]
    cases ho : adjustOffset f.number f.adj with
    | none => exact hrej
    | some off =>
      dsimp only
      by_cases hz : a.geom.bad = true
      · rw [if_pos hz]; exact hub hz
      · rw [if_neg hz]
        by_cases hacc : acceptsOffset a.geom off = true
        · rw [if_pos hacc]
          obtain ⟨g1, g2, g3⟩ := hget off hv ho (fun h => hz (by simp [Placement.Geom.bad, h])) (fun h => hz (by simp [Placement.Geom.bad, h])) hacc
          cases hg : getFile e a off with
          | mk b sel =>
            rw [hg] at g1 g2 g3
            cases sel with
            | cur => exact g3 b false rfl
            | prev => exact g3 b true rfl
            | null => exact g1 b (Or.inl rfl)
            | threw => exact g1 b (Or.inr rfl)
            | ub => exact g2 b rfl
        · rw [if_neg hacc]; exact hrej
  · rw [if_neg hv]; exact hrej

/-- A file object is consistent with the disk. -/
def FileOK (a : Acq) (c : H5File) : Prop :=
  (c.isOpen = true → c.name = a.nameOf c.index ∧ (a.disk c.name).isSome) ∧
  (c.isOpen = false → c.keys = [])

/-- Invariant that holds whatever the environment does. -/
structure Inv (a : Acq) : Prop where
  cur : ∃ c, a.current = some c ∧ FileOK a c
  prev : ∀ p, a.previous = some p → FileOK a p
  single : a.geom.bpf = 0 → ∀ c, a.current = some c → c.index = a.geom.rank
  chunks : ∀ d ∈ a.defs, d.chunks ≠ []

/-- `FileOK` only depends on the identity of the object and on which files exist. -/
theorem FileOK.mono {a b : Acq} {c c' : H5File} (h : FileOK a c) (hid : SameId c c')
    (hn : b.naming = a.naming) (hd : ∀ m, (a.disk m).isSome → (b.disk m).isSome) : FileOK b c' := by
  obtain ⟨h1, h2⟩ := h
  obtain ⟨i1, i2, i3, i4, i5⟩ := hid
  refine ⟨fun ho => ?_, fun ho => ?_⟩
  · obtain ⟨h3, h4⟩ := h1 (by rw [← i3]; exact ho)
    refine ⟨?_, ?_⟩
    · rw [i2, h3, i1]; simp [Acq.nameOf, hn]
    · rw [i2]; exact hd _ h4
  · rw [i5]; exact h2 (by rw [← i3]; exact ho)

theorem createFile_isSome (e : Env) (a : Acq) (k : Nat) (m : Name) (h : (a.disk m).isSome) :
    ((createFile e a k).1.disk m).isSome := by
  obtain ⟨c, _, _, h3⟩ := (createFile_created e a k).cur
  rcases h3 with h3 | h3
  · rw [h3.2.2.2.2.2.1]; exact h
  · rw [h3.2.2.2.2.1, truncate_isSome]; simp [h]

theorem createFile_fileOK (e : Env) (a : Acq) (k : Nat) :
    ∃ c, (createFile e a k).1.current = some c ∧ FileOK (createFile e a k).1 c := by
  have hcr := createFile_created e a k
  obtain ⟨c, h1, h2, h3⟩ := hcr.cur
  refine ⟨c, h1, ?_⟩
  rcases h3 with ⟨_, _, _, h4, h5, _⟩ | ⟨_, h4, h5, _, h6, _⟩
  · exact ⟨fun h => (by rw [h5] at h; simp at h), fun _ => (by simp [H5File.keys, h4])⟩
  · refine ⟨fun _ => ⟨?_, ?_⟩, fun h => (by rw [h5] at h; simp at h)⟩
    · rw [h2, h4]; simp [Acq.nameOf, hcr.cfg.naming]
    · rw [h6, h2, truncate_isSome]; simp

theorem createFile_inv (e : Env) (a : Acq) (k : Nat) (hi : Inv a) (hb : a.geom.bpf ≠ 0) :
    Inv (createFile e a k).1 := by
  have hcr := createFile_created e a k
  refine ⟨createFile_fileOK e a k, ?_, ?_, ?_⟩
  · intro p hp
    rw [hcr.prev] at hp
    obtain ⟨c, hc, hok⟩ := hi.cur
    rw [hc] at hp; cases hp
    exact hok.mono (.refl _) hcr.cfg.naming (createFile_isSome e a k)
  · intro h; rw [hcr.cfg.geom] at h; exact absurd h hb
  · rw [hcr.cfg.defs]; exact hi.chunks

theorem Creates.inv {e : Env} {K : Nat} {a b : Acq} (h : Creates e K a b) (hi : Inv a)
    (hb : a.geom.bpf ≠ 0) : Inv b := by
  induction h with
  | refl => exact hi
  | step a c k b hc hk hK _ ih =>
    exact ih (createFile_inv e a k hi hb) (by rw [(createFile_created e a k).cfg.geom]; exact hb)

theorem getFile_inv (e : Env) (a : Acq) (off : Nat) (hi : Inv a) : Inv (getFile e a off).1 := by
  obtain ⟨h1, h2, _⟩ := getFile_spec e a off
  by_cases hb : a.geom.bpf = 0
  · rw [h2 hb]; exact hi
  · exact h1.inv hi hb

theorem map_ident_some {o o' : Option H5File} (h : o'.map H5File.ident = o.map H5File.ident) :
    ∀ c, o = some c → ∃ c', o' = some c' ∧ SameId c c' := by
  intro c hc
  subst hc
  cases o' with
  | none => simp at h
  | some c' => exact ⟨c', rfl, ident_inj (by simpa using h)⟩

theorem writeTo_inv (e : Env) (a : Acq) (f : Frame) (off : Nat) (u : Bool) (hi : Inv a) :
    Inv (writeTo e a f off u).1 := by
  have hw := writeTo_facts e a f off u
  have hsome : ∀ m, (a.disk m).isSome → ((writeTo e a f off u).1.disk m).isSome :=
    fun m h => by rw [hw.isSome m]; exact h
  refine ⟨?_, ?_, ?_, ?_⟩
  · obtain ⟨c, hc, hok⟩ := hi.cur
    obtain ⟨c', hc', hid⟩ := map_ident_some hw.curId c hc
    exact ⟨c', hc', hok.mono hid hw.cfg.naming hsome⟩
  · intro p hp
    obtain ⟨p0, hp0, hid⟩ := map_ident_some hw.prevId.symm p hp
    exact (hi.prev p0 hp0).mono (⟨hid.1.symm, hid.2.1.symm, hid.2.2.1.symm, hid.2.2.2.1.symm,
      hid.2.2.2.2.symm⟩) hw.cfg.naming hsome
  · intro hb c hc
    obtain ⟨c0, hc0, hid⟩ := map_ident_some hw.curId.symm c hc
    rw [hw.cfg.geom] at hb ⊢
    rw [← hid.1]
    exact hi.single hb c0 hc0
  · rw [hw.cfg.defs]; exact hi.chunks

theorem processFrame_inv (e : Env) (a : Acq) (f : Frame) (hi : Inv a) :
    Inv (processFrame e a f).1 := by
  apply processFrame_ind e a f (fun b _ => Inv b)
  · exact hi
  · exact fun _ => hi
  · intro off _ _ _ _ _
    have := getFile_inv e a off hi
    refine ⟨fun b hb => ?_, fun b hb => ?_, fun b u hb => ?_⟩
    · rcases hb with hb | hb <;> (rw [hb] at this; exact this)
    · rw [hb] at this; exact this
    · rw [hb] at this; exact writeTo_inv e b f off u this

/-- The dataset loop succeeds only for definitions with chunks; it adds one dataset per definition. -/
theorem createDatasets_ok (g : Geom) (w k : Nat) (ds : List DatasetDef) : ∀ (f : H5File) (b),
    (createDatasets g w k f ds b).2 = .ok →
    (∀ d ∈ ds, d.chunks ≠ []) ∧ (createDatasets g w k f ds b).1.keys = f.keys ++ ds.map (·.name) := by
  induction ds with
  | nil => intro f b; cases b with
    | none => simp [createDatasets]
    | some n => cases n <;> simp [createDatasets]
  | cons d ds ih =>
    have key : ∀ f b', (match createDataset g w k f d with
        | (file', .ok) => createDatasets g w k file' ds b'
        | (file', o) => (file', o)).2 = .ok →
        (∀ d' ∈ d :: ds, d'.chunks ≠ []) ∧ (match createDataset g w k f d with
        | (file', .ok) => createDatasets g w k file' ds b'
        | (file', o) => (file', o)).1.keys = f.keys ++ (d :: ds).map (·.name) := by
      intro f b'
      have h1 : (createDataset g w k f d).2 = .ok → d.chunks ≠ [] ∧
          (createDataset g w k f d).1.keys = f.keys ++ [d.name] := by
        unfold createDataset
        cases hch : d.chunks with
        | nil => simp
        | cons c cs =>
          dsimp only
          repeat' split
          all_goals simp [H5File.keys]
      cases hh : createDataset g w k f d with
      | mk f' o =>
        rw [hh] at h1
        cases o with
        | ok =>
          obtain ⟨h2, h3⟩ := h1 rfl
          dsimp only
          intro hok
          obtain ⟨h4, h5⟩ := ih f' b' hok
          refine ⟨?_, ?_⟩
          · intro d' hd'
            rcases List.mem_cons.mp hd' with h | h
            · subst h; exact h2
            · exact h4 d' h
          · rw [h5]; simp at h3; rw [h3]; simp
        | threw => simp
        | ub => simp
    intro f b
    cases b with
    | none => exact key f none
    | some n => cases n with
      | zero => simp [createDatasets]
      | succ n => exact key f _

theorem createFile_ok_chunks (e : Env) (a : Acq) (k : Nat) (h : (createFile e a k).2 = .ok) :
    (∀ d ∈ a.defs, d.chunks ≠ []) ∧ (a.geom.procs ≠ 0 ∨ a.defs = []) ∧
    ∃ c, (createFile e a k).1.current = some c ∧ c.keys = a.defs.map (·.name) := by
  unfold createFile at *
  split at h
  · simp at h
  · rename_i hr
    dsimp only at h ⊢
    split at h
    · simp at h
    · rename_i hz
      have hk := createDatasets_ok _ _ _ _ _ _ h
      refine ⟨hk.1, ?_, ?_⟩
      · by_cases hp : a.geom.procs = 0
        · right
          by_cases hd : a.defs = []
          · exact hd
          · exact absurd ⟨hp, hd⟩ hz
        · exact Or.inl hp
      · rw [if_neg hz]
        refine ⟨_, rfl, ?_⟩
        rw [hk.2]; simp [H5File.keys]

theorem start_inv (e : Env) (a0 a : Acq) (h0 : a0.current = none)
    (h : startAcquisition e a0 = some (a, .ok)) :
    Inv a ∧ SameCfg a0 a ∧ a.previous = none ∧
    ∃ c, a.current = some c ∧ c.index = a0.geom.rank ∧ c.isOpen = true := by
  unfold startAcquisition at h
  split at h
  · simp at h
  · simp only [Option.some.injEq] at h
    have hcr := createFile_created e (a0.publish .start) a0.geom.rank
    have hok := createFile_fileOK e (a0.publish .start) a0.geom.rank
    have hch := createFile_ok_chunks e (a0.publish .start) a0.geom.rank (by rw [h])
    have hix := createFile_ok_index e (a0.publish .start) a0.geom.rank (by rw [h])
    rw [h] at hcr hok hch hix
    simp only at hcr hok hch hix
    have hc0 : SameCfg a0 a := ⟨hcr.cfg.geom, hcr.cfg.naming, hcr.cfg.master, hcr.cfg.defs,
      hcr.cfg.total, hcr.cfg.toWrite⟩
    have hp0 : a.previous = none := by rw [hcr.prev]; exact h0
    refine ⟨⟨hok, ?_, ?_, ?_⟩, hc0, hp0, ?_⟩
    · intro p hp; rw [hp0] at hp; simp at hp
    · intro _ c hc
      obtain ⟨c', h1, h2, _⟩ := hix
      rw [hc] at h1; cases h1
      rw [h2, hc0.geom]
    · rw [hc0.defs]; exact hch.1
    · obtain ⟨c, h1, _, h3⟩ := hcr.cur
      rcases h3 with h3 | h3
      · exact absurd h3.2.1 (by simp)
      · exact ⟨c, h1, h3.2.1, h3.2.2.1⟩

theorem Reachable.inv {e : Env} {a : Acq} (h : Reachable e a) : Inv a := by
  induction h with
  | start geom naming master defs total disk a hs => exact (start_inv e _ a rfl hs).1
  | frame a f _ _ ih => exact processFrame_inv e a f ih

theorem getFile_cfg (e : Env) (a : Acq) (off : Nat) : SameCfg a (getFile e a off).1 :=
  (getFile_spec e a off).1.cfg

theorem processFrame_cfg (e : Env) (a : Acq) (f : Frame) : SameCfg a (processFrame e a f).1 := by
  apply processFrame_ind e a f (fun b _ => SameCfg a b)
  · exact .refl _
  · exact fun _ => .refl _
  · intro off _ _ _ _ _
    have := getFile_cfg e a off
    refine ⟨fun b hb => ?_, fun b hb => ?_, fun b u hb => ?_⟩
    · rcases hb with hb | hb <;> (rw [hb] at this; exact this)
    · rw [hb] at this; exact this
    · rw [hb] at this; exact this.trans (writeTo_facts e b f off u).cfg

theorem run_cfg (e : Env) (fs : List Frame) : ∀ a, SameCfg a (run e a fs).1 := by
  induction fs with
  | nil => intro a; exact .refl _
  | cons f fs ih => intro a; exact (processFrame_cfg e a f).trans (ih _)

end Verif.Acq
