import Verif.Props.Counters
/-! Property C09 for chunks of several images: one process that writes one file. -/
namespace Verif.Acq
open Verif.Placement

/-- One process, one file, chunks of `c` images, `total` images in all; `w` images are counted as written and `p` as processed. -/
structure One (a : Acq) (ds : String) (c total w p : Nat) : Prop where
  procs : a.geom.procs = 1
  rank : a.geom.rank = 0
  bpf : a.geom.bpf = 0
  bad : a.geom.bad = false
  outer : outerOf a.defs ds = some c
  master : a.master = "" ∨ a.master = ds
  toWrite : a.framesToWrite = total
  written : a.framesWritten = w
  processed : a.framesProcessed = p
  cur : ∃ file s, a.current = some file ∧ file.index = 0 ∧ file.unlimited = false ∧ file.dset ds = some s ∧ s.dim0 = total ∧ s.actual = w

/-- The slot of a frame is its offset. -/
theorem One.slot {a : Acq} {ds : String} {c total w p : Nat} (h : One a ds c total w p) (off : Nat) : offsetInFile a.geom off = off := by
  have hB : 0 < a.geom.fpb := Nat.pos_of_ne_zero ((not_bad _).1 h.bad).2.1
  rw [slotOf_eq, slotOf_local a.geom off hB, if_pos h.bpf]
  unfold Spec.localIndex
  rw [h.procs, Nat.div_one, Nat.mul_comm]; exact Nat.div_add_mod _ _

/-- After a frame that is not counted. -/
theorem One.refused {a : Acq} {ds : String} {c total w p : Nat} (h : One a ds c total w p) (file : H5File) (s : Dset) (disk : Disk)
    (hc : a.current = some file) (hs : file.dset ds = some s) :
    One (({ a with disk := disk } : Acq).setFile false (file.setDset ds s)) ds c total w p := by
  obtain ⟨f', s', k1, k2, k3, k4, k5, k6⟩ := h.cur
  rw [hc] at k1; cases k1
  rw [hs] at k4; cases k4
  exact ⟨h.procs, h.rank, h.bpf, h.bad, h.outer, h.master, h.toWrite, h.written, h.processed,
    _, s, rfl, k2, k3, by rw [dset_setDset, if_pos rfl, hs]; rfl, k5, k6⟩

/-- What becomes of a frame without parameters: refused, or counted. -/
theorem one_step (e : Env) (a : Acq) (f : Frame) (ds : String) (c total w p : Nat) (h : One a ds c total w p)
    (hds : f.dataset = ds) (hp : f.params = []) :
    ((processFrame e a f).2 = .invalid ∧ One (processFrame e a f).1 ds c total w p ∧
      ∀ off, Spec.Matches a.defs f → adjustOffset f.number f.adj = some off → f.write = .ok → 0 < c → total ≤ off * c) ∨
    ∃ off, adjustOffset f.number f.adj = some off ∧
      One (processFrame e a f).1 ds c total (max w (off * c + f.outerChunk)) (p + f.outerChunk) ∧
      (processFrame e a f).2 = completion total (max w (off * c + f.outerChunk)) (p + f.outerChunk) := by
  obtain ⟨file, s, k1, k2, k3, k4, k5, k6⟩ := h.cur
  unfold processFrame
  by_cases hv : checkFrameValid a.defs f = true
  · rw [if_pos hv]
    cases ho : adjustOffset f.number f.adj with
    | none => exact Or.inl ⟨rfl, h, fun off _ h' => by cases h'⟩
    | some off =>
      dsimp only
      have hacc : acceptsOffset a.geom off = true := by
        unfold acceptsOffset; rw [if_neg (by rw [h.procs]; decide)]
      rw [if_neg (by rw [h.bad]; decide), if_pos hacc]
      have hg : getFile e a off = (a, .cur) := by
        unfold getFile
        rw [if_pos h.bpf, k1]
      rw [hg]
      dsimp only
      have hd : ∃ d cs, findDef a.defs ds = some d ∧ d.chunks = c :: cs := by
        have := h.outer
        unfold outerOf at this
        cases hfd : findDef a.defs ds with
        | none => rw [hfd] at this; simp at this
        | some d =>
          rw [hfd] at this
          cases hch : d.chunks with
          | nil => simp [hch] at this
          | cons x xs =>
            simp [hch] at this
            subst this
            exact ⟨d, xs, rfl, hch⟩
      obtain ⟨d, cs, d1, d2⟩ := hd
      unfold writeTo
      rw [show a.file false = some file from k1]
      dsimp only
      rw [hds, k3, k4]
      dsimp only
      rw [h.slot off]
      by_cases hx : exceedsExtent false ((some s).map Dset.dim0 |>.getD 0) off = true
      · rw [if_pos hx]
        refine Or.inl ⟨rfl, h, ?_⟩
        intro off' _ h' _ hc
        cases h'
        unfold exceedsExtent at hx
        simp only [Option.map_some, Option.getD_some, k5, Bool.false_eq_true, if_false] at hx
        split at hx
        · cases hx
        · simp at hx
          have : off * 1 ≤ off * c := Nat.mul_le_mul_left _ hc
          omega
      · rw [if_neg hx, d1]
        dsimp only
        rw [d2]
        dsimp only
        have hgr : ∀ n, Dset.grow file.unlimited s n = s := by intro n; rw [k3]; rfl
        unfold writeFrame
        rw [hds, k4]
        dsimp only
        rw [hgr]
        by_cases hr : off * c > s.dim0 ∨ (off * c = s.dim0 ∧ e.edge = false) ∨ f.write = .fails
        · rw [if_pos hr]
          dsimp only
          refine Or.inl ⟨rfl, h.refused file s a.disk k1 k4, ?_⟩
          intro off' _ h' hw _
          cases h'
          rw [k5, hw] at hr
          rcases hr with hr | ⟨hr, _⟩ | hr
          · omega
          · omega
          · cases hr
        · rw [if_neg hr]
          by_cases hw : f.write = .flushFails
          · rw [if_pos hw]
            dsimp only
            refine Or.inl ⟨rfl, h.refused file s _ k1 k4, ?_⟩
            intro _ _ _ hw' _
            rw [hw'] at hw; cases hw
          · rw [if_neg hw, hp]
            dsimp only [writeParams]
            right
            refine ⟨off, rfl, ?_⟩
            have hset : ∀ t, (file.setDset ds t).dset ds = some t := by
              intro t; rw [dset_setDset, if_pos rfl, k4]; rfl
            have hact : (s.noteWritten (off * c + f.outerChunk)).actual = max w (off * c + f.outerChunk) := by
              unfold Dset.noteWritten
              split <;> simp only [k6] <;> omega
            have hdim : (s.noteWritten (off * c + f.outerChunk)).dim0 = total := by
              unfold Dset.noteWritten
              split <;> exact k5
            unfold account
            rw [if_pos (by rw [hds]; exact h.master)]
            simp only [Acq.publish, Acq.setFile, Bool.false_eq_true, if_false, hds, hset]
            have hz : (file.setDset ds (s.noteWritten (off * c + f.outerChunk))).index = 0 := k2
            rw [hz, hact, h.bpf, Nat.mul_zero, Nat.zero_add, h.written, h.processed, h.toWrite,
              show max w (max w (off * c + f.outerChunk)) = max w (off * c + f.outerChunk) by omega]
            exact ⟨⟨h.procs, h.rank, h.bpf, h.bad, h.outer, h.master, rfl, rfl, rfl,
              _, _, rfl, hz, k3, hset _, hdim, hact⟩, rfl⟩
  · rw [if_neg hv]
    exact Or.inl ⟨rfl, h, fun off hm => absurd ((checkFrameValid_iff _ _).2 hm) hv⟩

/-- A list of different frames with offsets up to `n` has at most `n + 1` frames. -/
theorem nodup_le (l : List Nat) (n : Nat) (hn : l.Nodup) (h : ∀ x ∈ l, x ≤ n) : l.length ≤ n + 1 := by
  have := hn.length_le_of_subset (l₂ := List.range (n + 1)) (fun x hx => List.mem_range.2 (by have := h x hx; omega))
  simpa using this

/-- What is known after some frames: the offsets of those counted. -/
structure Got (a : Acq) (ds : String) (c o total : Nat) (l : List Nat) : Prop where
  one : ∃ w, One a ds c total w (l.length * o) ∧ (∀ x ∈ l, x * c + o ≤ w) ∧ (w = 0 ∨ ∃ x ∈ l, w = x * c + o)
  nodup : l.Nodup

theorem got_step (e : Env) (a : Acq) (f : Frame) (ds : String) (c o total : Nat) (l : List Nat) (h : Got a ds c o total l)
    (hds : f.dataset = ds) (hp : f.params = []) (ho : f.outerChunk = o) (hn : Spec.offsetOf f ∉ l) :
    ((processFrame e a f).2 = .invalid ∧ Got (processFrame e a f).1 ds c o total l ∧
      (Spec.Matches a.defs f → (adjustOffset f.number f.adj).isSome = true → f.write = .ok → 0 < c → total ≤ Spec.offsetOf f * c)) ∨
    Got (processFrame e a f).1 ds c o total (Spec.offsetOf f :: l) ∧
      ∃ w, (∀ x ∈ Spec.offsetOf f :: l, x * c + o ≤ w) ∧ (∃ x ∈ Spec.offsetOf f :: l, w = x * c + o) ∧
        (processFrame e a f).2 = completion total w ((l.length + 1) * o) := by
  obtain ⟨w, h1, h2, h3⟩ := h.one
  rcases one_step e a f ds c total w _ h1 hds hp with ⟨k1, k2, k3⟩ | ⟨off, k1, k2, k3⟩
  · refine Or.inl ⟨k1, ⟨⟨w, k2, h2, h3⟩, h.nodup⟩, ?_⟩
    intro hm hs hw hc
    obtain ⟨off, hoff⟩ := Option.isSome_iff_exists.1 hs
    have := k3 off hm hoff hw hc
    simpa [Spec.offsetOf, hoff] using this
  · right
    have hoff : Spec.offsetOf f = off := by simp [Spec.offsetOf, k1]
    rw [hoff] at hn ⊢
    rw [ho] at k2 k3
    have hl : l.length * o + o = (l.length + 1) * o := (Nat.succ_mul _ _).symm
    rw [hl] at k2 k3
    have hb : ∀ x ∈ off :: l, x * c + o ≤ max w (off * c + o) := by
      intro x hx
      rcases List.mem_cons.1 hx with rfl | hx
      · omega
      · have := h2 x hx; omega
    have hm : ∃ x ∈ off :: l, max w (off * c + o) = x * c + o := by
      by_cases hle : w ≤ off * c + o
      · exact ⟨off, List.mem_cons_self .., by omega⟩
      · rcases h3 with h3 | ⟨x, hx, h3⟩
        · omega
        · exact ⟨x, List.mem_cons_of_mem _ hx, by omega⟩
    exact ⟨⟨⟨_, by simpa using k2, hb, Or.inr hm⟩, List.nodup_cons.2 ⟨hn, h.nodup⟩⟩, _, hb, hm, k3⟩

/-- The settings of a start. -/
theorem one_start (e : Env) (geom : Geom) (naming : Filename.Cfg) (master ds : String) (defs : List DatasetDef)
    (c total : Nat) (disk : Disk) (a0 : Acq) (hP : geom.procs = 1) (hr : geom.rank = 0) (hK : geom.bpf = 0) (hz : geom.bad = false)
    (ht : total ≠ 0) (hstart : startAcquisition e (fresh geom naming master defs total disk) = some (a0, .ok))
    (hout : outerOf defs ds = some c) (hm : master = "" ∨ master = ds) : One a0 ds c total 0 0 ∧ a0.defs = defs := by
  have hB : 0 < geom.fpb := Nat.pos_of_ne_zero ((not_bad _).1 hz).2.1
  obtain ⟨hinv, hcfg, hprev, f, hf1, hf2, hf3⟩ := start_inv e _ a0 rfl hstart
  have hreach : Reachable e a0 := .start geom naming master defs total disk a0 hstart
  obtain ⟨file, hw, hp0⟩ := start_hw e geom naming master defs total disk a0 (by omega) hstart
  have hg : a0.geom = geom := hcfg.geom
  have hd : a0.defs = defs := hcfg.defs
  have hto : a0.totalFrames = total := hcfg.total
  have hfw : a0.framesToWrite = calcNumFrames geom total := hcfg.toWrite
  have hn : calcNumFrames geom total = total := by
    rw [count_at geom total hB (by omega) (by rw [hP, Nat.mod_one, hr])]
    unfold Spec.localIndex
    rw [hP, Nat.div_one, Nat.mul_comm]; exact Nat.div_add_mod _ _
  have hfile : f = file := Option.some.inj (hf1.symm.trans hw.win.cur)
  subst hfile
  have hsome : (findDef a0.defs ds).isSome := by
    rw [hd]
    unfold outerOf at hout
    cases hfd : findDef defs ds with
    | none => rw [hfd] at hout; simp at hout
    | some d => rfl
  obtain ⟨s, hs⟩ := Option.isSome_iff_exists.1 (hw.win.full ds hsome)
  obtain ⟨x1, x2⟩ := extent_eq hreach (by rw [hto]; exact ht) false f ds s c hf1 hs (by rw [hd]; exact hout)
  have hact : s.actual = 0 := by
    have := hw.sizes ds s.actual (by simp [H5File.actualOf, hs])
    omega
  refine ⟨⟨by rw [hg]; exact hP, by rw [hg]; exact hr, by rw [hg]; exact hK, by rw [hg]; exact hz, by rw [hd]; exact hout,
    by rw [show a0.master = master from hcfg.master]; exact hm, by rw [hfw, hn], hw.written, hp0,
    f, s, hf1, by rw [hf2]; exact hr, x1, hs, ?_, hact⟩, hd⟩
  rw [x2, hg, hto, hn]
  unfold datasetFrames
  simp [hK]

/-- C09 for any number of images to a frame, if one process writes everything to one file and the images make whole frames: all frames are
accepted, the last to arrive is reported as "complete", and none before it. -/
theorem C09_chunks_partial (e : Env) (geom : Geom) (naming : Filename.Cfg) (master ds : String) (defs : List DatasetDef)
    (c n : Nat) (disk : Disk) (a0 : Acq) (fs : List Frame)
    (hP : geom.procs = 1) (hr : geom.rank = 0) (hK : geom.bpf = 0) (hz : geom.bad = false) (hc : 0 < c)
    (hstart : startAcquisition e (fresh geom naming master defs (n * c) disk) = some (a0, .ok))
    (hout : outerOf defs ds = some c) (hm : master = "" ∨ master = ds)
    (hf : ∀ f ∈ fs, f.dataset = ds ∧ Spec.Matches defs f ∧ f.outerChunk = c ∧ f.write = .ok ∧ f.params = [] ∧
      (adjustOffset f.number f.adj).isSome = true ∧ Spec.offsetOf f < n)
    (hnodup : (fs.map Spec.offsetOf).Nodup) (hall : ∀ off, off < n → off ∈ fs.map Spec.offsetOf) (hne : fs ≠ []) :
    ∃ ss, (run e a0 fs).2 = ss ++ [.complete] ∧ .complete ∉ ss ∧ ∀ s ∈ ss, s.good := by
  have hlen : fs.length = n := by
    have h1 := hnodup.length_le_of_subset (l₂ := List.range n) (by
      intro x hx
      obtain ⟨f, hfm, rfl⟩ := List.mem_map.1 hx
      exact List.mem_range.2 (hf f hfm).2.2.2.2.2.2)
    have h2 := List.nodup_range.length_le_of_subset (l₁ := List.range n) (l₂ := fs.map Spec.offsetOf)
      (fun x hx => hall x (List.mem_range.1 hx))
    simp at h1 h2
    omega
  have hn0 : 0 < n := by
    cases fs with
    | nil => exact absurd rfl hne
    | cons f l => simp at hlen; omega
  obtain ⟨h0, hd⟩ := one_start e geom naming master ds defs c (n * c) disk a0 hP hr hK hz
    (Nat.pos_iff_ne_zero.1 (Nat.mul_pos hn0 hc)) hstart hout hm
  have key : ∀ (gs : List Frame) (a : Acq) (l : List Nat), Got a ds c c (n * c) l → a.defs = defs →
      (∀ f ∈ gs, f ∈ fs) → (l ++ gs.map Spec.offsetOf).Nodup → (∀ x ∈ l, x < n) → l.length + gs.length = n → gs ≠ [] →
      ∃ ss, (run e a gs).2 = ss ++ [.complete] ∧ .complete ∉ ss ∧ ∀ s ∈ ss, s.good := by
    intro gs
    induction gs with
    | nil => intro _ _ _ _ _ _ _ _ h; exact absurd rfl h
    | cons f gs ih =>
      intro a l hgot had hsub hnd hlt hcount _
      obtain ⟨f1, f2, f3, f4, f5, f6, f7⟩ := hf f (hsub f (List.mem_cons_self ..))
      have hnl : Spec.offsetOf f ∉ l := by
        intro hx
        have := (List.nodup_append.1 hnd).2.2 _ hx _ (List.mem_map.2 ⟨f, List.mem_cons_self .., rfl⟩)
        exact this rfl
      rcases got_step e a f ds c c (n * c) l hgot f1 f5 f3 hnl with ⟨_, _, k3⟩ | ⟨k1, w, k2, ⟨x, hx, k3⟩, k4⟩
      · have := k3 (by rw [had]; exact f2) f6 f4 hc
        have := Nat.le_of_mul_le_mul_right this hc
        omega
      · have hdef : (processFrame e a f).1.defs = defs := by rw [(processFrame_cfg e a f).defs]; exact had
        have hlt' : ∀ y ∈ Spec.offsetOf f :: l, y < n := by
          intro y hy
          rcases List.mem_cons.1 hy with rfl | hy
          · exact f7
          · exact hlt y hy
        cases gs with
        | nil =>
          refine ⟨[], ?_, by simp, by simp⟩
          simp only [run, List.nil_append]
          rw [k4]
          simp only [List.length_cons, List.length_nil, Nat.zero_add] at hcount
          -- the last slot is among those counted
          have hw : w = n * c := by
            apply Nat.le_antisymm
            · rw [k3, ← Nat.succ_mul]
              exact Nat.mul_le_mul_right _ (hlt' x hx)
            · have hmem : n - 1 ∈ Spec.offsetOf f :: l := by
                apply Decidable.byContradiction
                intro hno
                have hnd' : (Spec.offsetOf f :: l).Nodup := List.nodup_cons.2 ⟨hnl, hgot.nodup⟩
                have hle := hnd'.length_le_of_subset (l₂ := List.range (n - 1)) (by
                  intro y hy
                  have h1 := hlt' y hy
                  have h2 : y ≠ n - 1 := fun he => hno (he ▸ hy)
                  exact List.mem_range.2 (by omega))
                simp at hle
                omega
              have := k2 _ hmem
              rw [← Nat.succ_mul, show (n - 1).succ = n by omega] at this
              exact this
          rw [hw, hcount]
          have : 0 < n * c := Nat.mul_pos hn0 hc
          unfold completion
          rw [if_pos ⟨this, rfl⟩, if_pos (Nat.le_refl _)]
        | cons g gs =>
          have hnd2 : (Spec.offsetOf f :: l ++ (g :: gs).map Spec.offsetOf).Nodup := by
            rw [List.map_cons (f := Spec.offsetOf) (a := f)] at hnd
            exact (List.perm_middle.nodup_iff).1 hnd
          obtain ⟨ss, s1, s2, s3⟩ := ih _ _ k1 hdef (fun y hy => hsub y (List.mem_cons_of_mem _ hy)) hnd2 hlt'
            (by simp only [List.length_cons] at hcount ⊢; omega) (by simp)
          have hcp : (processFrame e a f).2 ≠ .complete ∧ (processFrame e a f).2.good := by
            rw [k4]
            unfold completion
            simp only [List.length_cons] at hcount
            have : (l.length + 1) * c < n * c := Nat.mul_lt_mul_of_pos_right (by omega) hc
            split
            · rw [if_neg (by omega)]; exact ⟨by simp, by simp [Status.good]⟩
            · exact ⟨by simp, by simp [Status.good]⟩
          refine ⟨(processFrame e a f).2 :: ss, ?_, ?_, ?_⟩
          · show (processFrame e a f).2 :: (run e (processFrame e a f).1 (g :: gs)).2 = _
            rw [s1]; rfl
          · intro hx
            rcases List.mem_cons.1 hx with hx | hx
            · exact hcp.1 hx.symm
            · exact s2 hx
          · intro s hs
            rcases List.mem_cons.1 hs with rfl | hs
            · exact hcp.2
            · exact s3 s hs
  exact key fs a0 [] ⟨⟨0, by simpa using h0, by simp, Or.inl rfl⟩, List.nodup_nil⟩ hd (fun _ h => h) (by simpa using hnodup) (by simp)
    (by simpa using hlen) hne

/-- Frames that do not say that they hold several images, as all frames made by the plugins of this code: with chunks of several images no
frame is ever reported as the one that completes the acquisition, whichever frames arrive in whatever order. -/
theorem C09_images (e : Env) (geom : Geom) (naming : Filename.Cfg) (master ds : String) (defs : List DatasetDef)
    (c total : Nat) (disk : Disk) (a0 : Acq) (fs : List Frame)
    (hP : geom.procs = 1) (hr : geom.rank = 0) (hK : geom.bpf = 0) (hz : geom.bad = false) (hc : 2 ≤ c) (ht : 2 ≤ total)
    (hstart : startAcquisition e (fresh geom naming master defs total disk) = some (a0, .ok))
    (hout : outerOf defs ds = some c) (hm : master = "" ∨ master = ds)
    (hf : ∀ f ∈ fs, f.dataset = ds ∧ f.outerChunk = 1 ∧ f.params = []) (hnodup : (fs.map Spec.offsetOf).Nodup) :
    .complete ∉ (run e a0 fs).2 := by
  obtain ⟨h0, _⟩ := one_start e geom naming master ds defs c total disk a0 hP hr hK hz (by omega) hstart hout hm
  have key : ∀ (gs : List Frame) (a : Acq) (l : List Nat), Got a ds c 1 total l →
      (∀ f ∈ gs, f ∈ fs) → (l ++ gs.map Spec.offsetOf).Nodup → .complete ∉ (run e a gs).2 := by
    intro gs
    induction gs with
    | nil => intro _ _ _ _ _ h; cases h
    | cons f gs ih =>
      intro a l hgot hsub hnd
      obtain ⟨f1, f2, f3⟩ := hf f (hsub f (List.mem_cons_self ..))
      have hnl : Spec.offsetOf f ∉ l := by
        intro hx
        exact (List.nodup_append.1 hnd).2.2 _ hx _ (List.mem_map.2 ⟨f, List.mem_cons_self .., rfl⟩) rfl
      have hnd2 : (Spec.offsetOf f :: l ++ gs.map Spec.offsetOf).Nodup := by
        rw [List.map_cons] at hnd
        exact (List.perm_middle.nodup_iff).1 hnd
      intro hx
      have hx : .complete ∈ (processFrame e a f).2 :: (run e (processFrame e a f).1 gs).2 := hx
      rcases got_step e a f ds c 1 total l hgot f1 f3 f2 hnl with ⟨k1, k2, _⟩ | ⟨k1, w, k2, ⟨x, hx', k3⟩, k4⟩
      · rcases List.mem_cons.1 hx with hx | hx
        · rw [k1] at hx; cases hx
        · refine ih _ l k2 (fun y hy => hsub y (List.mem_cons_of_mem _ hy)) ?_ hx
          exact (List.nodup_cons.1 hnd2).2
      · rcases List.mem_cons.1 hx with hx | hx
        · rw [k4] at hx
          unfold completion at hx
          split at hx
          · next hw =>
            split at hx
            · next hpr =>
              -- all counted offsets are below (total - 1) / c
              have hle : ∀ y ∈ Spec.offsetOf f :: l, y ≤ (total - 1) / 2 := by
                intro y hy
                have h1 := k2 y hy
                have h2 : y * 2 ≤ y * c := Nat.mul_le_mul_left _ hc
                omega
              have := nodup_le _ _ (List.nodup_cons.2 ⟨hnl, hgot.nodup⟩) hle
              simp only [List.length_cons] at this
              omega
            · cases hx
          · cases hx
        · exact ih _ _ k1 (fun y hy => hsub y (List.mem_cons_of_mem _ hy)) hnd2 hx
  exact key fs a0 [] ⟨⟨0, by simpa using h0, by simp, Or.inl rfl⟩, List.nodup_nil⟩ (fun _ h => h) (by simpa using hnodup)

/-- One process, two images to a frame, six images. -/
def exStart6 : Acq :=
  ((startAcquisition okEnv (fresh ⟨0, 1, 1, 0⟩ exNaming "" [exDef2] 6 (fun _ => none))).getD
    (fresh ⟨0, 1, 1, 0⟩ exNaming "" [exDef2] 6 (fun _ => none), .ub)).1

theorem exStart6_eq : startAcquisition okEnv (fresh ⟨0, 1, 1, 0⟩ exNaming "" [exDef2] 6 (fun _ => none)) = some (exStart6, .ok) := by
  unfold exStart6 startAcquisition
  rw [if_neg (by decide)]
  rfl

/-- Out of order: complete with the last frame. -/
example : (run okEnv exStart6 [exFrame2 2 5, exFrame2 0 6, exFrame2 1 7]).2 = [.completeMissing, .completeMissing, .complete] := by
  decide +kernel

/-- Frames that count as one image: the last ones are written but nothing completes; the fourth has no room. -/
example : (run okEnv exStart6 [exFrame 0 5, exFrame 1 6, exFrame 2 7, exFrame 3 8]).2 = [.ok, .ok, .ok, .invalid] := by
  decide +kernel

/-- One process, one frame to a file, two images to a frame, four images. -/
def exStart4 : Acq :=
  ((startAcquisition okEnv (fresh ⟨0, 1, 1, 1⟩ exNaming "" [exDef2] 4 (fun _ => none))).getD
    (fresh ⟨0, 1, 1, 1⟩ exNaming "" [exDef2] 4 (fun _ => none), .ub)).1

/-- With several files the condition of one file is needed: the images of earlier files are counted as if a frame held one image, and the
acquisition is not completed by its last frame. -/
theorem C09_files_violated :
    startAcquisition okEnv (fresh ⟨0, 1, 1, 1⟩ exNaming "" [exDef2] 4 (fun _ => none)) = some (exStart4, .ok) ∧
    (run okEnv exStart4 [exFrame2 0 5, exFrame2 1 6]).2 = [.ok, .ok] ∧ (run okEnv exStart4 [exFrame2 0 5, exFrame2 1 6]).1.framesWritten = 3 := by
  refine ⟨?_, by decide +kernel, by decide +kernel⟩
  unfold exStart4 startAcquisition
  rw [if_neg (by decide)]
  rfl

end Verif.Acq
