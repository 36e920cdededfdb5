import Verif.Lemmas.AcqSized
import Verif.Lemmas.Local
/-! When creating files and writing succeeds, and what is known after a successful file selection. -/
namespace Verif.Acq
open Verif.Placement

theorem Grows.some {f g : H5File} (h : Grows f g) {x : String} {s : Dset} (hs : f.dset x = some s) :
    ∃ s', g.dset x = some s' ∧ s.dim0 ≤ s'.dim0 := by
  have h1 : (g.dset x).isSome := by
    rw [dset_isSome_iff, h.1.2.2.2.2, ← dset_isSome_iff, hs]; rfl
  obtain ⟨s', hs'⟩ := Option.isSome_iff_exists.1 h1
  obtain ⟨s0, k1, k2, _⟩ := h.2 x s' hs'
  rw [hs] at k1; cases k1
  exact ⟨s', hs', k2⟩

theorem writeParams_ok (defs : List DatasetDef) (slot : Nat) (ps : List Param) :
    ∀ (file : H5File) (d : Disk),
      (∀ p ∈ ps, (findDef defs p.name).isSome → p.ok = true ∧
        ∃ s, file.dset p.name = some s ∧ slot < s.dim0) →
      (writeParams defs slot file d ps).2.2 = false := by
  induction ps with
  | nil => intro file d _; rfl
  | cons p ps ih =>
    intro file d h
    unfold writeParams
    cases hd : findDef defs p.name with
    | none => exact ih file d (fun q hq => h q (by simp [hq]))
    | some dd =>
      obtain ⟨h1, s, h2, h3⟩ := h p (by simp) (by simp [hd])
      dsimp only
      rw [h2]
      dsimp only
      obtain ⟨g1, g2, _⟩ := grow_facts file.unlimited s (slot + 1)
      rw [if_pos ⟨by omega, h1⟩]
      apply ih
      intro q hq hqd
      obtain ⟨k1, t, k2, k3⟩ := h q (by simp [hq]) hqd
      obtain ⟨t', k4, k5⟩ := (setDset_grows file p.name s _ h2 g1 g2).some k2
      exact ⟨k1, t', k4, by omega⟩

/-- Writing a frame succeeds when the file has room and the library does its part. -/
theorem writeTo_ok (e : Env) (a : Acq) (f : Frame) (off : Nat) (u : Bool) (file : H5File) (s : Dset)
    (hf : a.file u = some file) (hs : file.dset f.dataset = some s)
    (hd : outerOf a.defs f.dataset = some 1) (hslot : offsetInFile a.geom off < s.dim0)
    (hw : f.write = .ok)
    (hp : ∀ p ∈ f.params, (findDef a.defs p.name).isSome → p.ok = true ∧
      ∃ s, file.dset p.name = some s ∧ offsetInFile a.geom off < s.dim0)
    (hcur : ∃ c, a.current = some c ∧ (c.dset f.dataset).isSome) :
    (writeTo e a f off u).2 ≠ .invalid ∧ (writeTo e a f off u).2 ≠ .ub := by
  unfold writeTo
  rw [hf]
  dsimp only
  split
  · rename_i h; rw [hs] at h; simp at h
  · have hex : exceedsExtent file.unlimited s.dim0 (offsetInFile a.geom off) = false := by
      unfold exceedsExtent
      cases file.unlimited <;> simp <;> omega
    rw [if_neg (by rw [hs]; simp [hex])]
    unfold outerOf at hd
    cases hfd : findDef a.defs f.dataset with
    | none => rw [hfd] at hd; simp at hd
    | some d =>
      rw [hfd] at hd
      simp only at hd ⊢
      cases hch : d.chunks with
      | nil => rw [hch] at hd; simp at hd
      | cons c cs =>
        rw [hch] at hd
        simp at hd
        subst hd
        dsimp only
        have hwf : (writeFrame e a.disk file f (offsetInFile a.geom off) 1).2.2 = false := by
          unfold writeFrame
          rw [hs]
          dsimp only
          obtain ⟨g1, _⟩ := grow_facts file.unlimited s ((offsetInFile a.geom off + 1) * 1)
          rw [if_neg, if_neg (by simp [hw])]
          simp only [hw, Nat.mul_one]
          simp only [Nat.mul_one] at g1
          intro hh
          rcases hh with hh | hh | hh
          · omega
          · omega
          · simp at hh
        obtain ⟨w1, _⟩ := writeFrame_sizes e a.disk file f (offsetInFile a.geom off) 1
        cases hwr : writeFrame e a.disk file f (offsetInFile a.geom off) 1 with
        | mk file' r =>
          obtain ⟨disk', b⟩ := r
          rw [hwr] at hwf w1
          simp only at hwf w1
          subst hwf
          dsimp only
          have hpo := writeParams_ok a.defs (offsetInFile a.geom off) f.params file' disk' (by
            intro p hpm hpd
            obtain ⟨k1, t, k2, k3⟩ := hp p hpm hpd
            obtain ⟨t', k4, k5⟩ := w1.some k2
            exact ⟨k1, t', k4, by omega⟩)
          obtain ⟨p1, _⟩ := writeParams_sizes a.defs (offsetInFile a.geom off) f.params file' disk'
          cases hpr : writeParams a.defs (offsetInFile a.geom off) file' disk' f.params with
          | mk file'' r2 =>
            obtain ⟨disk'', b2⟩ := r2
            rw [hpr] at hpo p1
            simp only at hpo p1
            subst hpo
            dsimp only
            have hcur' : ∃ c, ((({ a with disk := disk'' } : Acq).setFile u file'').publish
                (.write (toU64 f.number) off)).current = some c ∧ (c.dset f.dataset).isSome := by
              cases u with
              | false =>
                refine ⟨file'', rfl, ?_⟩
                obtain ⟨s1, k1, _⟩ := (w1.trans p1).some hs
                rw [k1]; rfl
              | true => exact hcur
            generalize (({ a with disk := disk'' } : Acq).setFile u file'').publish
                (.write (toU64 f.number) off) = b at *
            obtain ⟨c, hc, hcs⟩ := hcur'
            obtain ⟨s1, hs1⟩ := Option.isSome_iff_exists.1 hcs
            unfold account
            split
            · rw [hc]; dsimp only; rw [hs1]; exact completion_ne _ _ _
            · exact completion_ne _ _ _

/-- All defined datasets exist in the file. -/
def Full (defs : List DatasetDef) (c : H5File) : Prop :=
  ∀ ds, (findDef defs ds).isSome → (c.dset ds).isSome

theorem Full.grows {defs : List DatasetDef} {f g : H5File} (h : Full defs f) (hg : Grows f g) :
    Full defs g := by
  intro ds hd
  obtain ⟨s, hs⟩ := Option.isSome_iff_exists.1 (h ds hd)
  obtain ⟨s', hs', _⟩ := hg.some hs
  rw [hs']; rfl

/-- What the "missing files" loop leaves behind when it succeeds. -/
theorem createMissing_ok (e : Env) (j : Nat) : ∀ (a : Acq) (c : H5File) (next target : Nat),
    a.current = some c → next = c.index + a.geom.procs → target = next + j * a.geom.procs →
    0 < a.geom.procs → Full a.defs c → (createMissing e a next target).2 = .ok →
    ∃ c', (createMissing e a next target).1.current = some c' ∧ c'.index + a.geom.procs = target ∧
      Full a.defs c' ∧ SameCfg a (createMissing e a next target).1 ∧
      (createMissing e a next target).1.framesWritten = a.framesWritten ∧
      (createMissing e a next target).1.framesProcessed = a.framesProcessed := by
  induction j with
  | zero =>
    intro a c next target hc hn ht hP hF hok
    unfold createMissing at *
    rw [dif_neg (by omega)]
    exact ⟨c, hc, by omega, hF, .refl _, rfl, rfl⟩
  | succ j ih =>
    intro a c next target hc hn ht hP hF hok
    have hlt : next < target := by rw [ht, Nat.succ_mul]; omega
    unfold createMissing at hok ⊢
    rw [dif_pos ⟨hlt, hP⟩] at hok ⊢
    have hcr := createFile_created e a next
    have hsz := createFile_sized e a next
    have hix := createFile_ok_index e a next
    cases hr : createFile e a next with
    | mk a' o =>
      rw [hr] at hok hcr hsz hix
      simp only at hok hcr hsz hix
      cases o with
      | threw => simp at hok
      | ub => simp at hok
      | ok =>
        dsimp only at hok ⊢
        obtain ⟨c1, h1, h2, _⟩ := hix rfl
        obtain ⟨c1', h1', _, _, h4⟩ := hsz
        rw [h1] at h1'; cases h1'
        have hg := hcr.cfg.geom
        obtain ⟨c', k1, k2, k3, k4, k5, k6⟩ := ih a' c1 (next + a.geom.procs) target h1
          (by rw [hg]; omega) (by rw [hg, ht, Nat.succ_mul]; omega) (by rw [hg]; exact hP)
          (by rw [hcr.cfg.defs]; intro ds hd; rw [h4 rfl ds]; exact hd) hok
        rw [hg] at k2
        rw [hcr.cfg.defs] at k3
        exact ⟨c', k1, k2, k3, hcr.cfg.trans k4, k5.trans hcr.written, k6.trans hcr.processed⟩

/-- The two file objects are consecutive files of the process, and complete. -/
structure Window (a : Acq) (c : H5File) : Prop where
  cur : a.current = some c
  full : Full a.defs c
  rankMod : a.geom.bpf ≠ 0 → ∃ r, c.index = r * a.geom.procs + a.geom.rank
  prev : (a.previous = none ∧ c.index = a.geom.rank) ∨
    ∃ p, a.previous = some p ∧ Full a.defs p ∧ p.index + a.geom.procs = c.index

theorem getFile_cur_ok (e : Env) (a : Acq) (off : Nat) (c : H5File) (hP : 0 < a.geom.procs)
    (hw : Window a c) (hsel : (getFile e a off).2 = .cur) :
    (getFile e a off).1 = a ∨
    ∃ c', Window (getFile e a off).1 c' ∧ c'.index = fileIndex a.geom off ∧ c.index < c'.index ∧
      (∀ ds n, c'.actualOf ds = some n → n = 0) ∧
      (getFile e a off).1.framesWritten = a.framesWritten ∧
      (getFile e a off).1.framesProcessed = a.framesProcessed := by
  unfold getFile at *
  by_cases hb : a.geom.bpf = 0
  · rw [if_pos hb] at hsel ⊢
    rw [hw.cur]; exact Or.inl rfl
  · rw [if_neg hb] at hsel ⊢
    rw [hw.cur] at hsel ⊢
    dsimp only at hsel ⊢
    by_cases h1 : fileIndex a.geom off = c.index
    · rw [if_pos h1]; exact Or.inl rfl
    · rw [if_neg h1] at hsel ⊢
      by_cases h2 : a.previous.map H5File.index = some (fileIndex a.geom off)
      · rw [if_pos h2] at hsel; simp at hsel
      · rw [if_neg h2] at hsel ⊢
        by_cases h3 : fileIndex a.geom off > c.index
        · rw [if_pos h3] at hsel ⊢
          right
          obtain ⟨r, hr⟩ := hw.rankMod hb
          have hti : ∃ t, fileIndex a.geom off = t * a.geom.procs + a.geom.rank := ⟨_, rfl⟩
          obtain ⟨t, ht⟩ := hti
          have hrt : r < t := by
            apply Nat.lt_of_not_le
            intro hle
            have := Nat.mul_le_mul_right a.geom.procs hle
            omega
          have htj : fileIndex a.geom off = (c.index + a.geom.procs) + (t - r - 1) * a.geom.procs := by
            have : t = r + 1 + (t - r - 1) := by omega
            rw [ht, hr]
            conv => lhs; rw [this]
            rw [Nat.add_mul, Nat.add_mul, Nat.one_mul]; omega
          have hm := createMissing_ok e (t - r - 1) a c (c.index + a.geom.procs) (fileIndex a.geom off)
            hw.cur rfl htj hP hw.full
          cases hcm : createMissing e a (c.index + a.geom.procs) (fileIndex a.geom off) with
          | mk a' o =>
            rw [hcm] at hsel hm
            cases o with
            | threw => simp at hsel
            | ub => simp at hsel
            | ok =>
              dsimp only at hsel hm ⊢
              obtain ⟨c1, m1, m2, m3, m4, m5, m6⟩ := hm rfl
              have hcr := createFile_created e a' (fileIndex a.geom off)
              have hsz := createFile_sized e a' (fileIndex a.geom off)
              have hix := createFile_ok_index e a' (fileIndex a.geom off)
              cases hcf : createFile e a' (fileIndex a.geom off) with
              | mk a'' o =>
                rw [hcf] at hsel hcr hsz hix
                cases o with
                | threw => simp at hsel
                | ub => simp at hsel
                | ok =>
                  simp only at hcr hsz hix ⊢
                  obtain ⟨c2, h4, h5, _⟩ := hix trivial
                  obtain ⟨c2', h4', _, h6, h7⟩ := hsz
                  rw [h4] at h4'; cases h4'
                  have hg : a''.geom = a.geom := hcr.cfg.geom.trans m4.geom
                  have hdd : a''.defs = a.defs := hcr.cfg.defs.trans m4.defs
                  refine ⟨c2, ⟨h4, ?_, ?_, Or.inr ⟨c1, ?_, ?_, ?_⟩⟩, h5, by omega, h6, ?_, ?_⟩
                  · intro ds hds
                    rw [h7 trivial ds, ← hcr.cfg.defs]; exact hds
                  · intro _; rw [hg]; exact ⟨t, by omega⟩
                  · rw [hcr.prev]; exact m1
                  · rw [hdd]; exact m3
                  · rw [hg]; omega
                  · rw [hcr.written]; exact m5
                  · rw [hcr.processed]; exact m6
        · rw [if_neg h3] at hsel; simp at hsel

theorem writeTo_window (e : Env) (a : Acq) (f : Frame) (off : Nat) (u : Bool) (c : H5File)
    (hw : Window a c) : ∃ c', Window (writeTo e a f off u).1 c' ∧ Grows c c' ∧
      (∀ ds, (u = true ∨ ds ≠ f.dataset) → c'.actualOf ds = c.actualOf ds) := by
  have hs := writeTo_sizes e a f off u
  have hf := writeTo_facts e a f off u
  have hcfg := hf.cfg
  have key : ∀ x g, a.file x = some g → ∃ g', (writeTo e a f off u).1.file x = some g' ∧ Grows g g' ∧
      (∀ ds, (x ≠ u ∨ ds ≠ f.dataset) → g'.actualOf ds = g.actualOf ds) := by
    intro x g hx
    by_cases hxu : x = u
    · subst hxu
      have : ∃ g', (writeTo e a f off x).1.file x = some g' := by
        cases x with
        | false =>
          obtain ⟨c', hc', _⟩ := map_ident_some hf.curId g hx
          exact ⟨c', hc'⟩
        | true =>
          obtain ⟨c', hc', _⟩ := map_ident_some hf.prevId g hx
          exact ⟨c', hc'⟩
      obtain ⟨g', hg'⟩ := this
      obtain ⟨file, h1, h2, h3⟩ := hs.grows g' hg'
      rw [hx] at h1; cases h1
      exact ⟨g', hg', h2, fun ds hds => h3 ds (by simpa using hds)⟩
    · have hxe : x = !u := by cases x <;> cases u <;> simp_all
      subst hxe
      exact ⟨g, by rw [hs.other]; exact hx, .refl _, fun _ _ => rfl⟩
  obtain ⟨c', k1, k2, k3⟩ := key false c hw.cur
  refine ⟨c', ⟨k1, ?_, ?_, ?_⟩, k2, ?_⟩
  · rw [hcfg.defs]; exact hw.full.grows k2
  · rw [hcfg.geom, k2.1.1]; exact hw.rankMod
  · rw [hcfg.geom, hcfg.defs, k2.1.1]
    rcases hw.prev with ⟨h1, h2⟩ | ⟨p, h1, h2, h3⟩
    · left
      refine ⟨?_, h2⟩
      have := hf.prevId
      rw [h1] at this
      cases hp : (writeTo e a f off u).1.previous with
      | none => rfl
      | some p => rw [hp] at this; simp at this
    · right
      obtain ⟨p', q1, q2, _⟩ := key true p h1
      exact ⟨p', q1, h2.grows q2, by rw [q2.1.1]; exact h3⟩
  · intro ds hds
    apply k3
    rcases hds with h | h
    · left; simp [h]
    · exact Or.inr h

theorem start_window (e : Env) (a0 a : Acq) (h0 : a0.current = none)
    (h : startAcquisition e a0 = some (a, .ok)) :
    ∃ c, Window a c ∧ (∀ ds n, c.actualOf ds = some n → n = 0) ∧ c.index = a.geom.rank ∧
      a.framesWritten = a0.framesWritten ∧ a.framesProcessed = a0.framesProcessed := by
  have hst : createFile e (a0.publish .start) a0.geom.rank = (a, .ok) := by
    unfold startAcquisition at h
    split at h
    · simp at h
    · exact Option.some.inj h
  have hcr := createFile_created e (a0.publish .start) a0.geom.rank
  have hsz := createFile_sized e (a0.publish .start) a0.geom.rank
  have hix := createFile_ok_index e (a0.publish .start) a0.geom.rank
  rw [hst] at hcr hsz hix
  simp only at hcr hsz hix
  obtain ⟨c2, h4, h5, _⟩ := hix trivial
  obtain ⟨c2', h4', _, h6, h7⟩ := hsz
  rw [h4] at h4'; cases h4'
  have hg : a.geom = a0.geom := hcr.cfg.geom
  refine ⟨c2, ⟨h4, ?_, ?_, Or.inl ⟨?_, ?_⟩⟩, h6, ?_, hcr.written, hcr.processed⟩
  · intro ds hds
    rw [h7 trivial ds, ← hcr.cfg.defs]; exact hds
  · intro _; exact ⟨0, by rw [hg]; omega⟩
  · rw [hcr.prev]; exact h0
  · rw [hg]; exact h5
  · rw [hg]; exact h5

end Verif.Acq
