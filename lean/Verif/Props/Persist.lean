import Verif.Props.Acquisition
/-! Property C04: a frame reported as written stays readable for the rest of the acquisition. -/
namespace Verif.Acq
open Verif.Placement

/-! ## Helper lemmas -/

/-- Within one process file number and slot determine the offset. -/
theorem place_inj (g : Geom) (o₁ o₂ : Nat) (hP : g.procs ≠ 0) (hB : g.fpb ≠ 0)
    (ho : o₁ / g.fpb % g.procs = o₂ / g.fpb % g.procs)
    (hf : Spec.fileOf g o₁ = Spec.fileOf g o₂) (hs : Spec.slotOf g o₁ = Spec.slotOf g o₂) :
    o₁ = o₂ := by
  have d1 := decomp o₁ g.procs g.fpb
  have d2 := decomp o₂ g.procs g.fpb
  have s1 : o₁ % g.fpb < g.fpb := Nat.mod_lt _ (by omega)
  have s2 : o₂ % g.fpb < g.fpb := Nat.mod_lt _ (by omega)
  unfold Spec.slotOf at hs
  have hsm : o₁ % g.fpb = o₂ % g.fpb := by
    have := congrArg (· % g.fpb) hs
    simpa [mod_of' _ _ _ s1, mod_of' _ _ _ s2] using this
  have hq := congrArg (· / g.fpb) hs
  simp only [div_of' _ _ _ s1, div_of' _ _ _ s2] at hq
  have hqq : o₁ / g.fpb / g.procs = o₂ / g.fpb / g.procs := by
    by_cases hK : g.bpf = 0
    · simpa [hK] using hq
    · simp only [if_neg hK] at hq
      simp only [Spec.fileOf, if_neg hK] at hf
      have hd : o₁ / g.fpb / g.procs / g.bpf = o₂ / g.fpb / g.procs / g.bpf := by
        have : o₁ / g.fpb / g.procs / g.bpf * g.procs = o₂ / g.fpb / g.procs / g.bpf * g.procs := by
          omega
        exact Nat.eq_of_mul_eq_mul_right (by omega) this
      rw [← Nat.div_add_mod (o₁ / g.fpb / g.procs) g.bpf,
        ← Nat.div_add_mod (o₂ / g.fpb / g.procs) g.bpf, hd, hq]
  rw [d1, d2, ho, hsm, hqq]

/-- File names are distinct up to file number `M`. -/
def Distinct (naming : Filename.Cfg) (M : Nat) : Prop :=
  ∀ i j, i ≤ M → j ≤ M → Filename.generate naming i = Filename.generate naming j → i = j

/-- The previous file has a lower number than the current one, which is at most `M`. -/
def Ordered (a : Acq) (M : Nat) : Prop :=
  ∃ c, a.current = some c ∧ c.index ≤ M ∧ ∀ p, a.previous = some p → p.index < c.index

theorem Creates.ordered {e : Env} {K : Nat} {a b : Acq} (h : Creates e K a b)
    (he : ∀ n, e.create n ≠ .noFile) (M : Nat) (hK : K ≤ M) (hd : Distinct a.naming M)
    (ho : Ordered a M) (c : H5File) (hc : a.current = some c) :
    Ordered b M ∧ ∃ c', b.current = some c' ∧ c.index ≤ c'.index ∧
      ∀ i, i ≤ c.index → ∀ ds p, b.disk.read (a.nameOf i) ds p = a.disk.read (a.nameOf i) ds p := by
  induction h generalizing c with
  | refl => exact ⟨ho, c, hc, Nat.le_refl _, fun _ _ _ _ => rfl⟩
  | step a c0 k b hc0 hk hkK _ ih =>
    obtain rfl : c = c0 := Option.some.inj (hc.symm.trans hc0)
    have hcr := createFile_created e a k
    obtain ⟨c1, h1, h2, h3⟩ := hcr.cur
    rcases h3 with h3 | ⟨_, h4, _, _, h6, _⟩
    · exact absurd h3.1 (he _)
    · have hcM : c.index ≤ M := by
        obtain ⟨c', hc', hM, _⟩ := ho
        rw [hc] at hc'; cases hc'; exact hM
      have ho1 : Ordered (createFile e a k).1 M := by
        refine ⟨c1, h1, by omega, ?_⟩
        intro p hp
        rw [hcr.prev, hc] at hp; cases hp
        omega
      have hn1 : (createFile e a k).1.naming = a.naming := hcr.cfg.naming
      obtain ⟨i1, c', i2, i3, i4⟩ := ih (by rw [hn1]; exact hd) ho1 c1 h1
      refine ⟨i1, c', i2, by omega, ?_⟩
      intro i hi ds p
      have := i4 i (by omega) ds p
      simp only [Acq.nameOf, hn1] at this
      rw [this, h6, read_truncate, if_neg]
      intro heq
      have := hd i k (by omega) (by omega) heq
      omega

/-- The frame numbers of the theorems below are in range. -/
def InRange (f : Frame) : Prop := 0 ≤ f.number ∧ f.number < 2 ^ 63 ∧ f.adj < 2 ^ 62

/-- One step keeps the order of the files and keeps a stored value, unless the frame has the same
dataset and offset. -/
theorem step_keeps (e : Env) (he : ∀ n, e.create n ≠ .noFile) (a : Acq) (f : Frame) (M : Nat)
    (hinv : Inv a) (hd : Distinct a.naming M) (ho : Ordered a M)
    (hM : ∀ off, adjustOffset f.number f.adj = some off → Spec.fileOf a.geom off ≤ M) :
    Ordered (processFrame e a f).1 M ∧
    ∀ off0 outer ds v, (∃ c, a.current = some c ∧ Spec.fileOf a.geom off0 ≤ c.index) →
      outerOf a.defs ds = some outer → 0 < outer →
      a.geom.procs ≠ 0 → a.geom.fpb ≠ 0 →
      acceptsOffset a.geom off0 = true →
      (∀ q ∈ f.params, q.name ≠ ds) →
      ¬ (f.dataset = ds ∧ adjustOffset f.number f.adj = some off0) →
      a.disk.read (a.nameOf (Spec.fileOf a.geom off0)) ds (Spec.slotOf a.geom off0 * outer) = some v →
      (∃ c, (processFrame e a f).1.current = some c ∧ Spec.fileOf a.geom off0 ≤ c.index) ∧
      (processFrame e a f).1.disk.read (a.nameOf (Spec.fileOf a.geom off0)) ds
        (Spec.slotOf a.geom off0 * outer) = some v := by
  obtain ⟨c, hc, hcM, hcp⟩ := ho
  have ho : Ordered a M := ⟨c, hc, hcM, hcp⟩
  apply processFrame_ind e a f (fun b _ => Ordered b M ∧
    ∀ off0 outer ds v, (∃ c, a.current = some c ∧ Spec.fileOf a.geom off0 ≤ c.index) →
      outerOf a.defs ds = some outer → 0 < outer →
      a.geom.procs ≠ 0 → a.geom.fpb ≠ 0 →
      acceptsOffset a.geom off0 = true →
      (∀ q ∈ f.params, q.name ≠ ds) →
      ¬ (f.dataset = ds ∧ adjustOffset f.number f.adj = some off0) →
      a.disk.read (a.nameOf (Spec.fileOf a.geom off0)) ds (Spec.slotOf a.geom off0 * outer) = some v →
      (∃ c, b.current = some c ∧ Spec.fileOf a.geom off0 ≤ c.index) ∧
      b.disk.read (a.nameOf (Spec.fileOf a.geom off0)) ds
        (Spec.slotOf a.geom off0 * outer) = some v)
  · exact ⟨ho, fun _ _ _ _ h1 _ _ _ _ _ _ _ h2 => ⟨h1, h2⟩⟩
  · exact fun _ => ⟨ho, fun _ _ _ _ h1 _ _ _ _ _ _ _ h2 => ⟨h1, h2⟩⟩
  · intro off hv hoff hP hB hacc
    have hbinv := getFile_inv e a off hinv
    have hcfg := getFile_cfg e a off
    have hspec := getFile_spec e a off
    -- state after selecting the file
    have hget : Ordered (getFile e a off).1 M ∧ ∃ c', (getFile e a off).1.current = some c' ∧
        c.index ≤ c'.index ∧ ∀ i, i ≤ c.index → ∀ ds p,
          (getFile e a off).1.disk.read (a.nameOf i) ds p = a.disk.read (a.nameOf i) ds p := by
      by_cases hbpf : a.geom.bpf = 0
      · rw [hspec.2.1 hbpf]
        exact ⟨ho, c, hc, Nat.le_refl _, fun _ _ _ _ => rfl⟩
      · exact hspec.1.ordered he M (by rw [fileOf_eq _ _ hbpf]; exact hM off hoff) hd ho c hc
    have hkeep : ∀ b, (getFile e a off).1 = b → Ordered b M ∧
        ∀ off0 outer ds v, (∃ c, a.current = some c ∧ Spec.fileOf a.geom off0 ≤ c.index) →
          a.disk.read (a.nameOf (Spec.fileOf a.geom off0)) ds (Spec.slotOf a.geom off0 * outer) = some v →
          (∃ c, b.current = some c ∧ Spec.fileOf a.geom off0 ≤ c.index) ∧
          b.disk.read (a.nameOf (Spec.fileOf a.geom off0)) ds
            (Spec.slotOf a.geom off0 * outer) = some v := by
      intro b hb; subst hb
      obtain ⟨h1, c', h2, h3, h4⟩ := hget
      refine ⟨h1, ?_⟩
      rintro off0 outer ds v ⟨c0, hc0, hle⟩ hr
      rw [hc] at hc0; cases hc0
      exact ⟨⟨c', h2, by omega⟩, by rw [h4 _ hle]; exact hr⟩
    refine ⟨fun b hb => ?_, fun b hb => ?_, ?_⟩
    · have : (getFile e a off).1 = b := by rcases hb with hb | hb <;> rw [hb]
      exact ⟨(hkeep b this).1, fun _ _ _ _ h1 _ _ _ _ _ _ _ h2 => (hkeep b this).2 _ _ _ _ h1 h2⟩
    · have : (getFile e a off).1 = b := by rw [hb]
      exact ⟨(hkeep b this).1, fun _ _ _ _ h1 _ _ _ _ _ _ _ h2 => (hkeep b this).2 _ _ _ _ h1 h2⟩
    intro b u hg
    have hb : (getFile e a off).1 = b := by rw [hg]
    obtain ⟨k1, k2⟩ := hkeep b hb
    rw [hg] at hbinv hcfg hspec
    simp only at hbinv hcfg hspec
    have hw := writeTo_facts e b f off u
    refine ⟨?_, ?_⟩
    · obtain ⟨c', h1, h2, h3⟩ := k1
      obtain ⟨c'', i1, i2⟩ := map_ident_some hw.curId c' h1
      refine ⟨c'', i1, by rw [i2.1]; exact h2, ?_⟩
      intro p hp
      obtain ⟨p0, j1, j2⟩ := map_ident_some hw.prevId.symm p hp
      have := h3 p0 j1
      rw [i2.1, ← j2.1]; exact this
    · intro off0 outer ds v hle hout hpos hP' hB' hacc0 hpar hne hr
      obtain ⟨⟨c', m1, m2⟩, m3⟩ := k2 off0 outer ds v hle hr
      obtain ⟨c'', i1, i2⟩ := map_ident_some hw.curId c' m1
      refine ⟨⟨c'', i1, by rw [i2.1]; exact m2⟩, ?_⟩
      rcases hw.reads (a.nameOf (Spec.fileOf a.geom off0)) ds (Spec.slotOf a.geom off0 * outer) with
        hh | ⟨file, w1, w2, w3, w4⟩
      · rw [hh]; exact m3
      · exfalso
        have hfile : FileOK b file ∧ file.index = Spec.fileOf a.geom off := by
          cases u with
          | true =>
            simp only [if_true] at hspec
            obtain ⟨hba, hbpf, p, hp1, hp2⟩ := hspec.2.2.2.1 trivial
            simp [Acq.file] at w1
            refine ⟨hbinv.prev _ w1, ?_⟩
            rw [hba] at w1; rw [w1] at hp1; cases hp1
            rw [hp2, fileOf_eq _ _ hbpf]
          | false =>
            simp at hspec
            obtain ⟨c, hc1, hc2⟩ := hspec.2.2
            simp [Acq.file] at w1
            rw [w1] at hc1; cases hc1
            obtain ⟨c', hc', hok⟩ := hbinv.cur
            rw [w1] at hc'; cases hc'
            refine ⟨hok, ?_⟩
            by_cases hbpf : a.geom.bpf = 0
            · have := hbinv.single (by rw [hcfg.geom]; exact hbpf) file w1
              rw [this, hcfg.geom]; simp [Spec.fileOf, hbpf]
            · rw [hc2 hbpf, fileOf_eq _ _ hbpf]
        obtain ⟨hok, hidx⟩ := hfile
        have hopen : file.isOpen = true := by
          cases ho : file.isOpen with
          | true => rfl
          | false =>
            have := hok.2 ho
            rw [dset_isSome_iff, this] at w3; simp at w3
        obtain ⟨hname, _⟩ := hok.1 hopen
        have hnm : Filename.generate a.naming (Spec.fileOf a.geom off0)
            = Filename.generate a.naming (Spec.fileOf a.geom off) := by
          have : a.nameOf (Spec.fileOf a.geom off0) = file.name := w2
          rw [hname, hidx] at this
          simpa [Acq.nameOf, hcfg.naming] using this
        have hfeq : Spec.fileOf a.geom off0 = Spec.fileOf a.geom off := by
          obtain ⟨c0, z1, z2⟩ := hle
          rw [hc] at z1; cases z1
          exact hd _ _ (by omega) (hM off hoff) hnm
        rcases w4 with ⟨d1, outer', d2, d3⟩ | ⟨⟨q, hq, hq'⟩, _⟩
        · have : outer' = outer := by
            rw [hcfg.defs, ← d1, hout] at d2; simpa using d2.symm
          subst this
          rw [hcfg.geom, slotOf_eq] at d3
          have hseq : Spec.slotOf a.geom off0 = Spec.slotOf a.geom off :=
            Nat.eq_of_mul_eq_mul_right hpos d3
          have hown : off0 / a.geom.fpb % a.geom.procs = off / a.geom.fpb % a.geom.procs := by
            unfold acceptsOffset at hacc hacc0
            by_cases hp : a.geom.procs > 1
            · rw [if_pos hp] at hacc hacc0
              simp at hacc hacc0
              rw [hacc, hacc0]
            · have : a.geom.procs = 1 := by omega
              rw [this, Nat.mod_one, Nat.mod_one]
          have := place_inj a.geom off0 off hP hB hown hfeq hseq
          exact hne ⟨d1.symm, by rw [this]; exact hoff⟩
        · exact hpar q hq hq'

/-- After a good status the frame's file is not above the current one. -/
theorem good_file_le (e : Env) (a : Acq) (f : Frame) (M : Nat)
    (hinv : Inv a) (hd : Distinct a.naming M) (ho : Ordered a M)
    (hM : ∀ off, adjustOffset f.number f.adj = some off → Spec.fileOf a.geom off ≤ M)
    (hgood : (processFrame e a f).2.good) :
    ∃ off, adjustOffset f.number f.adj = some off ∧ acceptsOffset a.geom off = true ∧
      a.geom.procs ≠ 0 ∧ a.geom.fpb ≠ 0 ∧
      ∃ c, (processFrame e a f).1.current = some c ∧ Spec.fileOf a.geom off ≤ c.index := by
  revert hgood
  apply processFrame_ind e a f (fun b st => st.good → ∃ off, adjustOffset f.number f.adj = some off ∧
      acceptsOffset a.geom off = true ∧ a.geom.procs ≠ 0 ∧ a.geom.fpb ≠ 0 ∧
      ∃ c, b.current = some c ∧ Spec.fileOf a.geom off ≤ c.index)
  · intro h; simp [Status.good] at h
  · intro _ h; simp [Status.good] at h
  · intro off hv hoff hP hB hacc
    refine ⟨fun b _ h => by simp [Status.good] at h, fun b _ h => by simp [Status.good] at h, ?_⟩
    intro b u hg hgood
    refine ⟨off, hoff, hacc, hP, hB, ?_⟩
    have hbinv := getFile_inv e a off hinv
    have hcfg := getFile_cfg e a off
    have hspec := getFile_spec e a off
    rw [hg] at hbinv hcfg hspec
    simp only at hbinv hcfg hspec
    have hw := writeTo_facts e b f off u
    cases u with
    | true =>
      simp only [if_true] at hspec
      obtain ⟨hba, hbpf, p, hp1, hp2⟩ := hspec.2.2.2.1 trivial
      subst hba
      obtain ⟨c, hc, hcM, hcp⟩ := ho
      obtain ⟨c', h1, h2⟩ := map_ident_some hw.curId c hc
      refine ⟨c', h1, ?_⟩
      rw [h2.1, ← fileOf_eq _ _ hbpf, ← hp2]; exact Nat.le_of_lt (hcp p hp1)
    | false =>
      simp at hspec
      obtain ⟨c, hc1, hc2⟩ := hspec.2.2
      obtain ⟨c', h1, h2⟩ := map_ident_some hw.curId c hc1
      refine ⟨c', h1, ?_⟩
      rw [h2.1]
      by_cases hbpf : a.geom.bpf = 0
      · have := hbinv.single (by rw [hcfg.geom]; exact hbpf) c hc1
        rw [this, hcfg.geom]; simp [Spec.fileOf, hbpf]
      · rw [hc2 hbpf, fileOf_eq _ _ hbpf]; exact Nat.le_refl _

/-- Run of frames that do not rewrite a stored value keeps it. -/
theorem run_keeps (e : Env) (he : ∀ n, e.create n ≠ .noFile) (M : Nat) (fs : List Frame) :
    ∀ (a : Acq), Inv a → Distinct a.naming M → Ordered a M →
    (∀ f ∈ fs, ∀ off, adjustOffset f.number f.adj = some off → Spec.fileOf a.geom off ≤ M) →
    Inv (run e a fs).1 ∧ Ordered (run e a fs).1 M ∧
    ∀ off0 outer ds v, (∃ c, a.current = some c ∧ Spec.fileOf a.geom off0 ≤ c.index) →
      outerOf a.defs ds = some outer → 0 < outer →
      a.geom.procs ≠ 0 → a.geom.fpb ≠ 0 → acceptsOffset a.geom off0 = true →
      (∀ f ∈ fs, ∀ q ∈ f.params, q.name ≠ ds) →
      (∀ f ∈ fs, ¬ (f.dataset = ds ∧ adjustOffset f.number f.adj = some off0)) →
      a.disk.read (a.nameOf (Spec.fileOf a.geom off0)) ds (Spec.slotOf a.geom off0 * outer) = some v →
      (run e a fs).1.disk.read (a.nameOf (Spec.fileOf a.geom off0)) ds
        (Spec.slotOf a.geom off0 * outer) = some v := by
  induction fs with
  | nil => intro a hi _ ho _; exact ⟨hi, ho, fun _ _ _ _ _ _ _ _ _ _ _ _ h => h⟩
  | cons f fs ih =>
    intro a hi hd ho hM
    have hc := processFrame_cfg e a f
    obtain ⟨s1, s2⟩ := step_keeps e he a f M hi hd ho (hM f (by simp))
    have := ih (processFrame e a f).1 (processFrame_inv e a f hi) (by rw [hc.naming]; exact hd) s1
      (by rw [hc.geom]; exact fun g hg => hM g (by simp [hg]))
    obtain ⟨t1, t2, t3⟩ := this
    refine ⟨t1, t2, ?_⟩
    intro off0 outer ds v h1 h2 h3 h4 h5 h6 h7 h8 h9
    obtain ⟨u1, u2⟩ := s2 off0 outer ds v h1 h2 h3 h4 h5 h6 (h7 f (by simp)) (h8 f (by simp)) h9
    have := t3 off0 outer ds v (by rw [hc.geom]; exact u1) (by rw [hc.defs]; exact h2) h3
      (by rw [hc.geom]; exact h4) (by rw [hc.geom]; exact h5) (by rw [hc.geom]; exact h6)
      (fun g hg => h7 g (by simp [hg])) (fun g hg => h8 g (by simp [hg]))
      (by simpa [Acq.nameOf, hc.naming, hc.geom] using u2)
    show (run e (processFrame e a f).1 fs).1.disk.read _ _ _ = _
    simpa [Acq.nameOf, hc.naming, hc.geom] using this

/-! ## C04 -/

/-- C04, full statement: for a started acquisition with valid settings and distinct file names, a
frame with a good status stays readable through any later frames that do not carry the same dataset and
offset, whatever the outcomes of file creations are. False, see `C04_violated`. -/
def C04_statement : Prop :=
  ∀ (e : Env) (geom : Geom) (naming : Filename.Cfg) (master : String) (defs : List DatasetDef)
    (total : Nat) (disk : Disk) (a0 : Acq) (pre : List Frame) (f : Frame) (post : List Frame) (M : Nat),
    startAcquisition e (fresh geom naming master defs total disk) = some (a0, .ok) →
    geom.rank ≤ M → Filename.Usable naming → M + naming.start < 1000000 →
    (∀ g ∈ pre ++ f :: post, InRange g ∧ (∀ q ∈ g.params, q.name ≠ f.dataset) ∧
      ∀ off : Nat, (off : Int) = g.number + g.adj → Spec.fileOf geom off ≤ M) →
    (∀ g ∈ post, ¬ (g.dataset = f.dataset ∧ g.number + g.adj = f.number + f.adj)) →
    (processFrame e (run e a0 pre).1 f).2.good →
    ∃ off outer : Nat, (off : Int) = f.number + f.adj ∧ outerOf defs f.dataset = some outer ∧
      (run e a0 (pre ++ f :: post)).1.disk.read
        (Filename.generate naming (Spec.fileOf geom off)) f.dataset (Spec.slotOf geom off * outer)
        = some f.payload

theorem run_append (e : Env) (xs ys : List Frame) : ∀ a,
    (run e a (xs ++ ys)).1 = (run e (run e a xs).1 ys).1 := by
  induction xs with
  | nil => intro a; rfl
  | cons x xs ih => intro a; exact ih _

theorem run_reachable_inv (e : Env) (fs : List Frame) : ∀ a, Inv a → Inv (run e a fs).1 := by
  induction fs with
  | nil => intro a h; exact h
  | cons f fs ih => intro a h; exact ih _ (processFrame_inv e a f h)

/-- A dataset that could be created has no chunks of zero frames. -/
theorem createDataset_positive (g : Geom) (w k : Nat) (f : H5File) (d : DatasetDef)
    (h : (createDataset g w k f d).2 = .ok) : d.chunks.head? ≠ some 0 := by
  unfold createDataset at h
  cases hc : d.chunks with
  | nil => simp
  | cons c cs =>
    rw [hc] at h
    intro h0
    simp only [List.head?_cons, Option.some.injEq] at h0
    subst h0
    simp at h

theorem createDatasets_positive (g : Geom) (w k : Nat) (ds : List DatasetDef) : ∀ (f : H5File) (b),
    (createDatasets g w k f ds b).2 = .ok → ∀ d ∈ ds, d.chunks.head? ≠ some 0 := by
  induction ds with
  | nil => intro f b _ d hd; cases hd
  | cons d ds ih =>
    have key : ∀ f b', (match createDataset g w k f d with
        | (file', .ok) => createDatasets g w k file' ds b'
        | (file', o) => (file', o)).2 = .ok → ∀ d' ∈ d :: ds, d'.chunks.head? ≠ some 0 := by
      intro f b' h d' hd'
      have h1 := createDataset_positive g w k f d
      cases hr : createDataset g w k f d with
      | mk f' o =>
        rw [hr] at h h1
        cases o with
        | ok =>
          rcases List.mem_cons.1 hd' with rfl | hd'
          · exact h1 rfl
          · exact ih f' b' h d' hd'
        | threw => cases h
        | ub => cases h
    intro f b h
    cases b with
    | none => exact key f _ h
    | some n =>
      cases n with
      | zero => cases h
      | succ n => exact key f _ h

/-- So none of an acquisition that could be started has. -/
theorem start_positive (e : Env) (a0 a : Acq) (h : startAcquisition e a0 = some (a, .ok)) :
    ∀ d ∈ a0.defs, d.chunks.head? ≠ some 0 := by
  unfold startAcquisition at h
  split at h
  · simp at h
  · simp only [Option.some.injEq] at h
    have h' : (createFile e (a0.publish .start) a0.geom.rank).2 = .ok := by rw [h]
    unfold createFile at h'
    split at h'
    · simp at h'
    · dsimp only at h'
      split at h'
      · simp at h'
      · exact createDatasets_positive _ _ _ _ _ _ h'

/-- C04 for environments in which no `H5Fcreate` fails (datasets may still fail to be created, writes,
flushes and parameter writes may fail in any pattern). Missing: acquisitions with a failing file
creation, where the claim is false (`C04_violated`). -/
theorem C04_partial (e : Env) (he : ∀ n, e.create n ≠ .noFile)
    (geom : Geom) (naming : Filename.Cfg) (master : String) (defs : List DatasetDef)
    (total : Nat) (disk : Disk) (a0 : Acq) (pre : List Frame) (f : Frame) (post : List Frame) (M : Nat)
    (hstart : startAcquisition e (fresh geom naming master defs total disk) = some (a0, .ok))
    (hrank : geom.rank ≤ M) (hu : Filename.Usable naming) (hstartidx : M + naming.start < 1000000)
    (hfr : ∀ g ∈ pre ++ f :: post, InRange g ∧ (∀ q ∈ g.params, q.name ≠ f.dataset) ∧
      ∀ off : Nat, (off : Int) = g.number + g.adj → Spec.fileOf geom off ≤ M)
    (hpost : ∀ g ∈ post, ¬ (g.dataset = f.dataset ∧ g.number + g.adj = f.number + f.adj))
    (hgood : (processFrame e (run e a0 pre).1 f).2.good) :
    ∃ off outer : Nat, (off : Int) = f.number + f.adj ∧ outerOf defs f.dataset = some outer ∧
      (run e a0 (pre ++ f :: post)).1.disk.read
        (Filename.generate naming (Spec.fileOf geom off)) f.dataset (Spec.slotOf geom off * outer)
        = some f.payload := by
  have hd : Distinct naming M := fun i j hi hj h =>
    Filename.C03_partial naming i j hu (by omega) (by omega) h
  have hchunk := start_positive e _ a0 hstart
  obtain ⟨hinv0, hcfg0, hprev0, c0, hc0, hci0, _⟩ := start_inv e _ a0 rfl hstart
  have hg0 : a0.geom = geom := hcfg0.geom
  have hn0 : a0.naming = naming := hcfg0.naming
  have hd0 : a0.defs = defs := hcfg0.defs
  have hord0 : Ordered a0 M := ⟨c0, hc0, by rw [hci0]; exact hrank, by rw [hprev0]; simp⟩
  have hoffM : ∀ g ∈ pre ++ f :: post, ∀ off, adjustOffset g.number g.adj = some off →
      Spec.fileOf geom off ≤ M := by
    intro g hg off ho
    obtain ⟨⟨r1, r2, r3⟩, _, h2⟩ := hfr g hg
    exact h2 off ((C06_never_wraps _ _ r1 r2 r3).1 off ho)
  -- before the frame
  obtain ⟨i1, o1, _⟩ := run_keeps e he M pre a0 hinv0 (by rw [hn0]; exact hd) hord0
    (by rw [hg0]; exact fun g hg => hoffM g (by simp [hg]))
  have hcfg1 := run_cfg e pre a0
  rw [run_append]
  generalize hb : (run e a0 pre).1 = b at *
  have hgb : b.geom = geom := hcfg1.geom.trans hg0
  have hnb : b.naming = naming := hcfg1.naming.trans hn0
  have hdb : b.defs = defs := hcfg1.defs.trans hd0
  show ∃ off outer : Nat, _ ∧ _ ∧ (run e (processFrame e b f).1 post).1.disk.read _ _ _ = _
  -- the frame itself
  obtain ⟨⟨r1, r2, r3⟩, hpf, _⟩ := hfr f (by simp)
  obtain ⟨off, g1, g2, g3, g4, g5⟩ := good_file_le e b f M i1 (by rw [hnb]; exact hd) o1
    (by rw [hgb]; exact hoffM f (by simp)) hgood
  have hoffeq := (C06_never_wraps _ _ r1 r2 r3).1 off g1
  have hstored : ∃ outer, outerOf b.defs f.dataset = some outer ∧
      (processFrame e b f).1.disk.read (b.nameOf (Spec.fileOf b.geom off)) f.dataset
        (Spec.slotOf b.geom off * outer) = some f.payload := by
    -- C05, without reachability: it only uses the invariant
    have := C05_written_inv e b f i1 r1 r2 r3 hpf hgood
    obtain ⟨off', outer, e1, e2, _, e3⟩ := this
    have : off' = off := by omega
    subst this
    exact ⟨outer, e2, e3⟩
  obtain ⟨outer, e2, e3⟩ := hstored
  have hopos : 0 < outer := by
    rw [hdb] at e2
    unfold outerOf at e2
    cases hf : findDef defs f.dataset with
    | none => rw [hf] at e2; simp at e2
    | some d =>
      rw [hf] at e2
      have hmem : d ∈ defs := List.mem_of_find?_eq_some hf
      have := hchunk d hmem
      simp only at e2
      rw [e2] at this
      rcases Nat.eq_zero_or_pos outer with h | h
      · subst h; simp at this
      · exact h
  have hcfg2 := processFrame_cfg e b f
  obtain ⟨o2, _⟩ := step_keeps e he b f M i1 (by rw [hnb]; exact hd) o1
    (by rw [hgb]; exact hoffM f (by simp))
  have hg2 : (processFrame e b f).1.geom = geom := hcfg2.geom.trans hgb
  have hn2 : (processFrame e b f).1.naming = naming := hcfg2.naming.trans hnb
  have hd2 : (processFrame e b f).1.defs = defs := hcfg2.defs.trans hdb
  obtain ⟨_, _, k⟩ := run_keeps e he M post (processFrame e b f).1 (processFrame_inv e b f i1)
    (by rw [hn2]; exact hd) o2 (by rw [hg2]; exact fun g hg => hoffM g (by simp [hg]))
  have := k off outer f.dataset f.payload (by rw [hg2]; rw [hgb] at g5; exact g5)
    (by rw [hd2, ← hdb]; exact e2) hopos (by rw [hg2, ← hgb]; exact g3) (by rw [hg2, ← hgb]; exact g4)
    (by rw [hg2, ← hgb]; exact g2) (fun g hg => (hfr g (by simp [hg])).2.1)
    (by
      rintro g hg ⟨h1, h2⟩
      obtain ⟨⟨s1, s2, s3⟩, _⟩ := hfr g (by simp [hg])
      have := (C06_never_wraps _ _ s1 s2 s3).1 off h2
      exact hpost g hg ⟨h1, by omega⟩)
    (by simpa [Acq.nameOf, hn2, hg2, hgb, hnb] using e3)
  refine ⟨off, outer, hoffeq, by rw [← hdb]; exact e2, ?_⟩
  simpa [Acq.nameOf, hn2, hg2] using this

/-- Witness environment: the creation of the fourth file fails. -/
def fourthFails : Env := { create := fun n => if n = 3 then .noFile else .ok, edge := false }

def wStart : Acq :=
  ((startAcquisition fourthFails (fresh ⟨0, 1, 1, 1⟩ exNaming "" [exDef] 10 (fun _ => none))).getD
    (fresh ⟨0, 1, 1, 1⟩ exNaming "" [exDef] 10 (fun _ => none), .ub)).1

theorem wStart_eq :
    startAcquisition fourthFails (fresh ⟨0, 1, 1, 1⟩ exNaming "" [exDef] 10 (fun _ => none))
      = some (wStart, .ok) := by
  unfold wStart startAcquisition
  rw [if_neg (by decide)]
  rfl

/-- What the run of the witness leaves behind: frame 1 was accepted, but after the failed creation of
file 3 the frame 4 recreates files 1 and 2, and frame 1 is gone. -/
theorem witness_run :
    (run fourthFails wStart [exFrame 0 70, exFrame 1 71, exFrame 2 72, exFrame 3 73, exFrame 4 74]).2
      = [.ok, .ok, .ok, .invalid, .ok] ∧
    (run fourthFails wStart
      [exFrame 0 70, exFrame 1 71, exFrame 2 72, exFrame 3 73, exFrame 4 74]).1.disk.read
        (Filename.generate exNaming 1) "data" 0 = none := by
  constructor <;> decide +kernel

/-- C04 is false of the code: a failed file creation resets the file number of the current file object
to 0 (HDF5File.cpp:184 is not reached), and the next frame then recreates, i.e. truncates, files that
were already written. -/
theorem C04_violated : ¬ C04_statement := by
  intro h
  have key := h fourthFails ⟨0, 1, 1, 1⟩ exNaming "" [exDef] 10 (fun _ => none) wStart
    [exFrame 0 70] (exFrame 1 71) [exFrame 2 72, exFrame 3 73, exFrame 4 74] 4 wStart_eq
    (by decide) ⟨rfl, by decide⟩ (by decide)
    (by
      intro g hg
      simp at hg
      have hf : ∀ n : Int, 0 ≤ n → n ≤ 4 → ∀ off : Nat, (off : Int) = n + 0 →
          Spec.fileOf ⟨0, 1, 1, 1⟩ off ≤ 4 := by
        intro n _ h4 off ho
        simp [Spec.fileOf]; omega
      rcases hg with rfl | rfl | rfl | rfl | rfl <;>
        exact ⟨⟨by decide, by decide, by decide⟩, by simp [exFrame],
          fun off ho => hf _ (by decide) (by decide) off ho⟩)
    (by
      intro g hg
      simp at hg
      rcases hg with rfl | rfl | rfl <;> simp [exFrame])
    (by unfold Status.good; decide +kernel)
  obtain ⟨off, outer, h1, h2, h3⟩ := key
  have : off = 1 := by simp [exFrame] at h1; omega
  subst this
  have : outer = 1 := by
    have : outerOf [exDef] "data" = some 1 := by decide
    rw [show (exFrame 1 71).dataset = "data" from rfl, this] at h2
    simpa using h2.symm
  subst this
  have hw := witness_run.2
  have : Spec.fileOf ⟨0, 1, 1, 1⟩ 1 = 1 := by decide
  rw [this] at h3
  have h0 : Spec.slotOf ⟨0, 1, 1, 1⟩ 1 * 1 = 0 := by decide
  rw [h0] at h3
  simp only [List.cons_append, List.nil_append] at h3
  rw [show (exFrame 1 71).dataset = "data" from rfl, hw] at h3
  simp at h3

/-- Non-vacuity of `C04_partial`: in an environment without failures the same frames are all accepted
and frame 1 is still there at the end. -/
example : (run okEnv exStart [exFrame 0 70, exFrame 1 71, exFrame 2 72, exFrame 3 73, exFrame 4 74]).2
      = [.ok, .ok, .ok, .ok, .ok] ∧
    (run okEnv exStart
      [exFrame 0 70, exFrame 1 71, exFrame 2 72, exFrame 3 73, exFrame 4 74]).1.disk.read
        (Filename.generate exNaming 1) "data" 0 = some 71 := by
  constructor <;> decide +kernel

end Verif.Acq
