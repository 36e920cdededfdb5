import Verif.Props.Extent
/-! Properties C10 and C11: which files are open, and the meta data event stream. -/
namespace Verif.Acq
open Verif.Placement

/-! ## Specification: an automaton over the published events -/

/-- State of an observer of the event stream. -/
inductive Phase
  | idle
  | active (opened : List Name) (created : List Name)   -- currently open files, all files so far
  | done (created : List Name)
deriving Repr, DecidableEq

/-- One event. `home off` is the name of the file frame offset `off` belongs to. A file may be created
once, while at most one other file is open; only an open file may be closed; a frame may be announced
as written only while its file is open; stop requires that no file is open. -/
def Phase.next (home : Nat → Name) : Phase → Event → Option Phase
  | .idle, .start => some (.active [] [])
  | .active o c, .create n =>
    if n ∉ c ∧ o.length < 2 then some (.active (o ++ [n]) (c ++ [n])) else none
  | .active o c, .write _ off => if home off ∈ o then some (.active o c) else none
  | .active o c, .close n => if n ∈ o then some (.active (o.erase n) c) else none
  | .active o c, .stop => if o = [] then some (.done c) else none
  | _, _ => none

def Phase.run (home : Nat → Name) : Phase → List Event → Option Phase
  | p, [] => some p
  | p, e :: es =>
    match p.next home e with
    | none => none
    | some p' => p'.run home es

theorem Phase.run_append (home : Nat → Name) (xs ys : List Event) : ∀ p,
    Phase.run home p (xs ++ ys) = (Phase.run home p xs).bind (fun q => Phase.run home q ys) := by
  induction xs with
  | nil => intro p; rfl
  | cons x xs ih =>
    intro p
    simp only [List.cons_append, Phase.run]
    cases p.next home x with
    | none => rfl
    | some q => exact ih q

/-- Where an acquisition's frames belong. -/
def Acq.home (a : Acq) (off : Nat) : Name := a.nameOf (Spec.fileOf a.geom off)

/-- Names of the file objects, previous first. -/
def Acq.openNames (a : Acq) : List Name := a.previous.toList.map H5File.name ++ a.current.toList.map H5File.name

/-- The events published so far are accepted, the open files are the file objects, and no file above
the current one was created. -/
def EvInv (a : Acq) : Prop :=
  (∃ cr, Phase.run a.home .idle a.events = some (.active a.openNames cr) ∧
    ∀ n ∈ cr, ∃ i c, a.current = some c ∧ i ≤ c.index ∧ n = a.nameOf i) ∧
  (∀ c, a.current = some c → c.isOpen = true) ∧ (∀ p, a.previous = some p → p.isOpen = true)

theorem closeFile_events (a : Acq) (f : Option H5File) :
    (closeFile a f).events = a.events ++ f.toList.map (fun x => .close x.name) := by
  cases f <;> simp [closeFile, Acq.publish]

theorem createFile_evInv (e : Env) (he : ∀ n, e.create n ≠ .noFile) (a : Acq) (k M : Nat)
    (hd : Distinct a.naming M) (c : H5File) (hc : a.current = some c)
    (hck : c.index < k) (hk : k ≤ M) (h : EvInv a) : EvInv (createFile e a k).1 := by
  obtain ⟨⟨cr, h1, h2⟩, h3, h4⟩ := h
  have hcr := createFile_created e a k
  obtain ⟨c1, k1, k2, k3⟩ := hcr.cur
  rcases k3 with k3 | ⟨_, k4, k5, _, _, k6⟩
  · exact absurd k3.1 (he _)
  · have hhome : (createFile e a k).1.home = a.home := by
      funext off; simp [Acq.home, Acq.nameOf, hcr.cfg.naming, hcr.cfg.geom]
    have hnot : a.nameOf k ∉ cr := by
      intro hm
      obtain ⟨i, c', hc', hi, heq⟩ := h2 _ hm
      rw [hc] at hc'; cases hc'
      have := hd i k (by omega) hk heq.symm
      omega
    refine ⟨⟨cr ++ [a.nameOf k], ?_, ?_⟩, ?_, ?_⟩
    · rw [hhome, k6, closeFile_events, List.append_assoc, Phase.run_append, h1]
      have hon : (createFile e a k).1.openNames = [c.name, a.nameOf k] := by
        simp [Acq.openNames, hcr.prev, k1, k2, hc]
      rw [hon]
      cases hp : a.previous with
      | none =>
        have hoa : a.openNames = [c.name] := by simp [Acq.openNames, hp, hc]
        simp [hoa, Phase.run, Phase.next, hnot]
      | some p =>
        have hoa : a.openNames = [p.name, c.name] := by simp [Acq.openNames, hp, hc]
        simp [hoa, Phase.run, Phase.next, hnot]
    · intro n hn
      simp only [List.mem_append, List.mem_singleton] at hn
      rcases hn with hn | hn
      · obtain ⟨i, c', hc', hi, heq⟩ := h2 _ hn
        rw [hc] at hc'; cases hc'
        exact ⟨i, c1, k1, by omega, by rw [heq]; simp [Acq.nameOf, hcr.cfg.naming]⟩
      · exact ⟨k, c1, k1, by omega, by rw [hn]; simp [Acq.nameOf, hcr.cfg.naming]⟩
    · intro c' hc'; rw [k1] at hc'; cases hc'; exact k5
    · intro p hp; rw [hcr.prev] at hp; exact h3 p hp

theorem Creates.evInv {e : Env} {K : Nat} {a b : Acq} (h : Creates e K a b)
    (he : ∀ n, e.create n ≠ .noFile) (M : Nat) (hK : K ≤ M) (hb : a.geom.bpf ≠ 0) (hinv : Inv a)
    (hd : Distinct a.naming M) (ho : Ordered a M) (hev : EvInv a) : EvInv b := by
  induction h with
  | refl => exact hev
  | step a c k b hc hk hkK _ ih =>
    have hcfg := (createFile_created e a k).cfg
    have ho' := (Creates.ordered (.step a c k _ hc hk hkK (.refl _)) he M hK hd ho c hc).1
    exact ih (by rw [hcfg.geom]; exact hb) (createFile_inv e a k hinv hb)
      (by rw [hcfg.naming]; exact hd) ho'
      (createFile_evInv e he a k M hd c hc hk (by omega) hev)

theorem writeTo_evInv (e : Env) (a : Acq) (f : Frame) (off : Nat) (u : Bool) (hinv : Inv a)
    (hsel : ∀ file, a.file u = some file → file.isOpen = true → file.index = Spec.fileOf a.geom off)
    (h : EvInv a) : EvInv (writeTo e a f off u).1 := by
  obtain ⟨⟨cr, h1, h2⟩, h3, h4⟩ := h
  have hw := writeTo_facts e a f off u
  generalize (writeTo e a f off u).1 = b at *
  generalize (writeTo e a f off u).2 = st at *
  have hhome : b.home = a.home := by
    funext off; simp [Acq.home, Acq.nameOf, hw.cfg.naming, hw.cfg.geom]
  have hcur : ∀ c, b.current = some c → ∃ c0, a.current = some c0 ∧ SameId c0 c := by
    intro c hc
    obtain ⟨c0, hc0, hid⟩ := map_ident_some hw.curId.symm c hc
    exact ⟨c0, hc0, hid.1.symm, hid.2.1.symm, hid.2.2.1.symm, hid.2.2.2.1.symm, hid.2.2.2.2.symm⟩
  have hprev : ∀ c, b.previous = some c → ∃ c0, a.previous = some c0 ∧ SameId c0 c := by
    intro c hc
    obtain ⟨c0, hc0, hid⟩ := map_ident_some hw.prevId.symm c hc
    exact ⟨c0, hc0, hid.1.symm, hid.2.1.symm, hid.2.2.1.symm, hid.2.2.2.1.symm, hid.2.2.2.2.symm⟩
  have hname : ∀ o o' : Option H5File, o'.map H5File.ident = o.map H5File.ident →
      o'.toList.map H5File.name = o.toList.map H5File.name := by
    intro o o' h
    cases o <;> cases o' <;> simp_all [H5File.ident]
  have hon : b.openNames = a.openNames := by
    simp only [Acq.openNames, hname _ _ hw.curId, hname _ _ hw.prevId]
  refine ⟨⟨cr, ?_, ?_⟩, ?_, ?_⟩
  · rw [hhome, hon]
    rcases hw.events with hh | ⟨hh, file, hf, hds⟩
    · rw [hh]; exact h1
    · rw [hh, Phase.run_append, h1]
      have hok : FileOK a file := by
        cases u with
        | false =>
          obtain ⟨c0, hc0, hok⟩ := hinv.cur
          have : some c0 = some file := hc0.symm.trans hf
          cases this; exact hok
        | true => exact hinv.prev file hf
      have hopen : file.isOpen = true := by
        cases ho : file.isOpen with
        | true => rfl
        | false => rw [dset_isSome_iff, hok.2 ho] at hds; simp at hds
      have hin : a.home off ∈ a.openNames := by
        have hn := (hok.1 hopen).1
        rw [hsel file hf hopen] at hn
        have : file.name ∈ a.openNames := by
          cases u with
          | false =>
            have : a.current = some file := hf
            simp [Acq.openNames, this]
          | true =>
            have : a.previous = some file := hf
            simp [Acq.openNames, this]
        rw [hn] at this
        exact this
      simp [Phase.run, Phase.next, hin]
  · intro n hn
    obtain ⟨i, c, hc, hi, heq⟩ := h2 n hn
    obtain ⟨c', hc', hid⟩ := map_ident_some hw.curId c hc
    exact ⟨i, c', hc', by rw [hid.1]; exact hi, by rw [heq]; simp [Acq.nameOf, hw.cfg.naming]⟩
  · intro c hc
    obtain ⟨c0, hc0, hid⟩ := hcur c hc
    rw [hid.2.2.1]; exact h3 c0 hc0
  · intro p hp
    obtain ⟨c0, hc0, hid⟩ := hprev p hp
    rw [hid.2.2.1]; exact h4 c0 hc0

theorem processFrame_evInv (e : Env) (he : ∀ n, e.create n ≠ .noFile) (a : Acq) (f : Frame)
    (M : Nat) (hinv : Inv a) (hd : Distinct a.naming M) (ho : Ordered a M)
    (hM : ∀ off, adjustOffset f.number f.adj = some off → Spec.fileOf a.geom off ≤ M)
    (h : EvInv a) : EvInv (processFrame e a f).1 := by
  apply processFrame_ind e a f (fun b _ => EvInv b)
  · exact h
  · exact fun _ => h
  · intro off _ hoff _ _ _
    have hspec := getFile_spec e a off
    have hb : EvInv (getFile e a off).1 := by
      by_cases hb : a.geom.bpf = 0
      · rw [hspec.2.1 hb]; exact h
      · exact hspec.1.evInv he M (by rw [fileOf_eq _ _ hb]; exact hM off hoff) hb hinv hd ho h
    have hbi := getFile_inv e a off hinv
    have hbc := getFile_cfg e a off
    refine ⟨fun b hb' => ?_, fun b hb' => ?_, fun b u hb' => ?_⟩
    · rcases hb' with hb' | hb' <;> (rw [hb'] at hb; exact hb)
    · rw [hb'] at hb; exact hb
    · rw [hb'] at hb hbi hbc hspec
      simp only at hb hbi hbc hspec
      refine writeTo_evInv e b f off u hbi ?_ hb
      intro file hf _
      rw [hbc.geom]
      cases u with
      | true =>
        obtain ⟨hba, hbpf, p, hp1, hp2⟩ := hspec.2.2.2.1 (by simp)
        have : a.previous = some file := by rw [← hba]; exact hf
        rw [this] at hp1; cases hp1
        rw [hp2, fileOf_eq _ _ hbpf]
      | false =>
        obtain ⟨c, hc1, hc2⟩ := hspec.2.2.1 (by simp)
        have hw : b.current = some file := hf
        rw [hw] at hc1; cases hc1
        by_cases hbpf : a.geom.bpf = 0
        · have := hbi.single (by rw [hbc.geom]; exact hbpf) file hw
          rw [this, hbc.geom]; simp [Spec.fileOf, hbpf]
        · rw [hc2 hbpf, fileOf_eq _ _ hbpf]

theorem run_evInv (e : Env) (he : ∀ n, e.create n ≠ .noFile) (M : Nat) (fs : List Frame) :
    ∀ (a : Acq), Inv a → Distinct a.naming M → Ordered a M →
    (∀ f ∈ fs, ∀ off, adjustOffset f.number f.adj = some off → Spec.fileOf a.geom off ≤ M) →
    EvInv a → EvInv (run e a fs).1 := by
  induction fs with
  | nil => intro a _ _ _ _ h; exact h
  | cons f fs ih =>
    intro a hi hd ho hM h
    have hc := processFrame_cfg e a f
    exact ih (processFrame e a f).1 (processFrame_inv e a f hi) (by rw [hc.naming]; exact hd)
      (step_keeps e he a f M hi hd ho (hM f (by simp))).1
      (by rw [hc.geom]; exact fun g hg => hM g (by simp [hg]))
      (processFrame_evInv e he a f M hi hd ho (hM f (by simp)) h)

theorem start_evInv (e : Env) (he : ∀ n, e.create n ≠ .noFile) (geom : Geom) (naming : Filename.Cfg)
    (master : String) (defs : List DatasetDef) (total : Nat) (disk : Disk) (a0 : Acq)
    (hstart : startAcquisition e (fresh geom naming master defs total disk) = some (a0, .ok)) :
    EvInv a0 := by
  have hst : createFile e ((fresh geom naming master defs total disk).publish .start) geom.rank
      = (a0, .ok) := by
    unfold startAcquisition at hstart
    split at hstart
    · simp at hstart
    · exact Option.some.inj hstart
  have hcr := createFile_created e ((fresh geom naming master defs total disk).publish .start) geom.rank
  rw [hst] at hcr
  simp only at hcr
  obtain ⟨c1, k1, k2, k3⟩ := hcr.cur
  have hp : a0.previous = none := hcr.prev
  have hn : a0.naming = naming := hcr.cfg.naming
  rcases k3 with k3 | ⟨_, k4, k5, _, _, k6⟩
  · exact absurd k3.1 (he _)
  · have hev : a0.events = [.start, .create (Filename.generate naming geom.rank)] := by
      rw [k6]; rfl
    have hnm : c1.name = Filename.generate naming geom.rank := k2
    refine ⟨⟨[Filename.generate naming geom.rank], ?_, ?_⟩, ?_, ?_⟩
    · rw [hev]
      simp [Phase.run, Phase.next, Acq.openNames, hp, k1, hnm]
    · intro n hn'
      simp only [List.mem_singleton] at hn'
      exact ⟨geom.rank, c1, k1, by omega, by rw [hn']; simp [Acq.nameOf, hn]⟩
    · intro c hc; rw [k1] at hc; cases hc; exact k5
    · intro p h; rw [hp] at h; simp at h

theorem stop_events (a : Acq) :
    (stopAcquisition a).events = a.events ++ a.openNames.map Event.close ++ [.stop] := by
  cases hp : a.previous <;> cases hc : a.current <;>
    simp [stopAcquisition, closeFile, Acq.publish, Acq.openNames, hp, hc]

theorem run_closes (home : Nat → Name) (o cr : List Name) :
    Phase.run home (.active o cr) (o.map Event.close ++ [.stop]) = some (.done cr) := by
  induction o with
  | nil => simp [Phase.run, Phase.next]
  | cons n o ih => simp [Phase.run, Phase.next]; simpa [Phase.run] using ih

/-- C11, full statement: the event stream of a started acquisition, any frames and a stop is accepted
by the observer, whatever the environment does. False, see `C11_violated`. -/
def C11_statement : Prop :=
  ∀ (e : Env) (geom : Geom) (naming : Filename.Cfg) (master : String) (defs : List DatasetDef)
    (total : Nat) (disk : Disk) (a0 : Acq) (fs : List Frame) (M : Nat),
    startAcquisition e (fresh geom naming master defs total disk) = some (a0, .ok) →
    geom.rank ≤ M → Filename.Usable naming → M + naming.start < 1000000 →
    (∀ f ∈ fs, ∀ off, adjustOffset f.number f.adj = some off → Spec.fileOf geom off ≤ M) →
    ∃ cr, Phase.run (fun off => Filename.generate naming (Spec.fileOf geom off)) .idle
      (stopAcquisition (run e a0 fs).1).events = some (.done cr)

/-- C11 for acquisitions in which no `H5Fcreate` fails (creation of datasets and writes may fail in any
pattern): the whole stream is accepted after the stop, and before the stop the observer is in the
active state with the file objects open. Missing: failing file creations, for which the claim is
false. -/
theorem C11_partial (e : Env) (he : ∀ n, e.create n ≠ .noFile)
    (geom : Geom) (naming : Filename.Cfg) (master : String) (defs : List DatasetDef)
    (total : Nat) (disk : Disk) (a0 : Acq) (fs : List Frame) (M : Nat)
    (hstart : startAcquisition e (fresh geom naming master defs total disk) = some (a0, .ok))
    (hrank : geom.rank ≤ M) (hu : Filename.Usable naming) (hidx : M + naming.start < 1000000)
    (hM : ∀ f ∈ fs, ∀ off, adjustOffset f.number f.adj = some off → Spec.fileOf geom off ≤ M) :
    ∃ cr, Phase.run (fun off => Filename.generate naming (Spec.fileOf geom off)) .idle
        (run e a0 fs).1.events = some (.active (run e a0 fs).1.openNames cr) ∧
      Phase.run (fun off => Filename.generate naming (Spec.fileOf geom off)) .idle
        (stopAcquisition (run e a0 fs).1).events = some (.done cr) := by
  have hd : Distinct naming M := fun i j hi hj h =>
    Filename.C03_partial naming i j hu (by omega) (by omega) h
  obtain ⟨hinv0, hcfg0, hprev0, c0, hc0, hci0, _⟩ := start_inv e _ a0 rfl hstart
  have hord0 : Ordered a0 M := ⟨c0, hc0, by rw [hci0]; exact hrank, by rw [hprev0]; simp⟩
  have hcfg := run_cfg e fs a0
  obtain ⟨⟨cr, h1, _⟩, _, _⟩ := run_evInv e he M fs a0 hinv0 (by rw [hcfg0.naming]; exact hd) hord0
    (by rw [hcfg0.geom]; exact hM) (start_evInv e he geom naming master defs total disk a0 hstart)
  have hhome : (run e a0 fs).1.home = (fun off => Filename.generate naming (Spec.fileOf geom off)) := by
    funext off
    simp [Acq.home, Acq.nameOf, hcfg.naming, hcfg.geom, hcfg0.naming, hcfg0.geom, fresh]
  rw [hhome] at h1
  refine ⟨cr, h1, ?_⟩
  rw [stop_events, List.append_assoc, Phase.run_append, h1]
  exact run_closes _ _ _

/-- C11 is false of the code: when `H5Fcreate` fails, the file object is kept without a file, no
creation is announced, but its closing is (Acquisition.cpp:220-232, 289-301). -/
theorem C11_violated : ¬ C11_statement := by
  intro h
  have := h fourthFails ⟨0, 1, 1, 1⟩ exNaming "" [exDef] 10 (fun _ => none) wStart
    [exFrame 0 70, exFrame 1 71, exFrame 2 72, exFrame 3 73] 3 wStart_eq (by decide)
    ⟨rfl, by decide⟩ (by decide)
    (by
      intro f hf off ho
      simp only [List.mem_cons, List.not_mem_nil, or_false] at hf
      rcases hf with rfl | rfl | rfl | rfl <;>
        (have : off = _ := (Option.some.inj ho).symm
         subst this; decide))
  obtain ⟨cr, h⟩ := this
  have hz : Phase.run (fun off => Filename.generate exNaming (Spec.fileOf ⟨0, 1, 1, 1⟩ off)) .idle
      (stopAcquisition (run fourthFails wStart
        [exFrame 0 70, exFrame 1 71, exFrame 2 72, exFrame 3 73]).1).events = none := by
    decide +kernel
  rw [hz] at h; simp at h

/-! ## C10 -/

/-- Number of times a file is announced as created / closed. -/
def Spec.creates (n : Name) (es : List Event) : Nat := es.countP (fun e => e == .create n)
def Spec.closes (n : Name) (es : List Event) : Nat := es.countP (fun e => e == .close n)

/-- What acceptance by the observer means in terms of counts. -/
def Phase.Counts (es : List Event) : Phase → Prop
  | .idle => ∀ n, Spec.creates n es = 0 ∧ Spec.closes n es = 0
  | .active o c => o.length ≤ 2 ∧ o.Nodup ∧ (∀ n ∈ o, n ∈ c) ∧
      ∀ n, Spec.creates n es = (if n ∈ c then 1 else 0) ∧
        Spec.closes n es + (if n ∈ o then 1 else 0) = Spec.creates n es
  | .done c => ∀ n, Spec.creates n es = (if n ∈ c then 1 else 0) ∧
      Spec.closes n es = Spec.creates n es

theorem Phase.next_counts (home : Nat → Name) (es : List Event) (p q : Phase) (ev : Event)
    (h : p.Counts es) (hn : p.next home ev = some q) : q.Counts (es ++ [ev]) := by
  have hcr : ∀ n, Spec.creates n (es ++ [ev]) = Spec.creates n es + (if ev = .create n then 1 else 0) := by
    intro n; simp [Spec.creates, List.countP_cons]
  have hcl : ∀ n, Spec.closes n (es ++ [ev]) = Spec.closes n es + (if ev = .close n then 1 else 0) := by
    intro n; simp [Spec.closes, List.countP_cons]
  cases p with
  | idle =>
    cases ev <;> simp [Phase.next] at hn
    subst hn
    simp only [Phase.Counts] at h
    simp only [Phase.Counts, hcr, hcl]
    simp [h]
  | done c => cases ev <;> simp [Phase.next] at hn
  | active o c =>
    obtain ⟨h1, h2, h3, h4⟩ := h
    cases ev with
    | start => simp [Phase.next] at hn
    | create n =>
      simp only [Phase.next] at hn
      split at hn
      · rename_i hc
        cases hn
        refine ⟨?_, ?_, ?_, ?_⟩
        · simp; omega
        · rw [List.nodup_append]
          refine ⟨h2, by simp, ?_⟩
          intro x hx y hy hxy
          simp at hy
          subst hy; subst hxy
          exact hc.1 (h3 _ hx)
        · intro m hm
          simp at hm ⊢
          rcases hm with hm | hm
          · exact Or.inl (h3 _ hm)
          · exact Or.inr hm
        · intro m
          rw [hcr, hcl]
          obtain ⟨h5, h6⟩ := h4 m
          by_cases hm : m = n
          · subst hm
            have hno : m ∉ o := fun hx => hc.1 (h3 _ hx)
            simp only [hc.1, hno, if_false] at h5 h6
            simp
            omega
          · have hne : ¬ n = m := fun h => hm h.symm
            simp [hm, hne]
            exact ⟨h5, h6⟩
      · simp at hn
    | write fr off =>
      simp only [Phase.next] at hn
      split at hn
      · cases hn
        refine ⟨h1, h2, h3, fun m => ?_⟩
        rw [hcr, hcl]; simpa using h4 m
      · simp at hn
    | close n =>
      simp only [Phase.next] at hn
      split at hn
      · rename_i hc
        cases hn
        refine ⟨?_, h2.erase n, ?_, ?_⟩
        · rw [List.length_erase_of_mem hc]; omega
        · intro m hm; exact h3 m (List.mem_of_mem_erase hm)
        · intro m
          rw [hcr, hcl]
          obtain ⟨h5, h6⟩ := h4 m
          by_cases hm : m = n
          · subst hm
            have : m ∉ o.erase m := h2.not_mem_erase
            simp only [hc, if_true] at h6
            simp [this]
            exact ⟨h5, h6⟩
          · have hne : ¬ n = m := fun h => hm h.symm
            have : (m ∈ o.erase n) ↔ m ∈ o := List.mem_erase_of_ne hm
            simp [hne, this]
            exact ⟨h5, h6⟩
      · simp at hn
    | stop =>
      simp only [Phase.next] at hn
      split at hn
      · rename_i hc
        cases hn
        subst hc
        intro m
        rw [hcr, hcl]
        have := h4 m
        simpa using this
      · simp at hn

theorem Phase.run_counts (home : Nat → Name) (ys : List Event) : ∀ (xs : List Event) (p q : Phase),
    p.Counts xs → Phase.run home p ys = some q → q.Counts (xs ++ ys) := by
  induction ys with
  | nil => intro xs p q h hr; simp [Phase.run] at hr; subst hr; simpa using h
  | cons y ys ih =>
    intro xs p q h hr
    simp only [Phase.run] at hr
    cases hn : p.next home y with
    | none => rw [hn] at hr; simp at hr
    | some p' =>
      rw [hn] at hr
      have := ih (xs ++ [y]) p' q (Phase.next_counts home xs p p' y h hn) hr
      simpa using this

theorem Phase.run_idle_counts (home : Nat → Name) (es : List Event) (q : Phase)
    (h : Phase.run home .idle es = some q) : q.Counts es := by
  have := Phase.run_counts home es [] .idle q (fun n => by simp [Spec.creates, Spec.closes]) h
  simpa using this

/-- C10 for acquisitions in which no `H5Fcreate` fails. At every point of the event stream (every
prefix of the stream up to the stop) every file has been created at most once and closed at most as
often as created, and any list of distinct files that are created but not closed has at most two
elements; after the stop every file was closed exactly as often as it was created, i.e. once or
never. -/
theorem C10_partial (e : Env) (he : ∀ n, e.create n ≠ .noFile)
    (geom : Geom) (naming : Filename.Cfg) (master : String) (defs : List DatasetDef)
    (total : Nat) (disk : Disk) (a0 : Acq) (fs : List Frame) (M : Nat)
    (hstart : startAcquisition e (fresh geom naming master defs total disk) = some (a0, .ok))
    (hrank : geom.rank ≤ M) (hu : Filename.Usable naming) (hidx : M + naming.start < 1000000)
    (hM : ∀ f ∈ fs, ∀ off, adjustOffset f.number f.adj = some off → Spec.fileOf geom off ≤ M) :
    (∀ n, Spec.creates n (stopAcquisition (run e a0 fs).1).events ≤ 1 ∧
      Spec.closes n (stopAcquisition (run e a0 fs).1).events =
        Spec.creates n (stopAcquisition (run e a0 fs).1).events) ∧
    (∀ xs ys, (stopAcquisition (run e a0 fs).1).events = xs ++ ys →
      (∀ n, Spec.closes n xs ≤ Spec.creates n xs ∧ Spec.creates n xs ≤ 1) ∧
      ∀ ns : List Name, ns.Nodup → (∀ n ∈ ns, Spec.closes n xs < Spec.creates n xs) →
        ns.length ≤ 2) := by
  obtain ⟨cr, _, h2⟩ := C11_partial e he geom naming master defs total disk a0 fs M hstart hrank hu hidx hM
  have hdone := Phase.run_idle_counts _ _ _ h2
  refine ⟨fun n => ⟨?_, (hdone n).2⟩, ?_⟩
  · rw [(hdone n).1]; split <;> omega
  · intro xs ys hxy
    rw [hxy, Phase.run_append] at h2
    cases hx : Phase.run (fun off => Filename.generate naming (Spec.fileOf geom off)) .idle xs with
    | none => rw [hx] at h2; simp at h2
    | some q =>
      have hq := Phase.run_idle_counts _ _ _ hx
      cases q with
      | idle =>
        refine ⟨fun n => by simp [hq n], fun ns _ hns => ?_⟩
        cases ns with
        | nil => simp
        | cons n ns => have := hns n (by simp); simp [hq n] at this
      | active o c =>
        obtain ⟨q1, q2, q3, q4⟩ := hq
        refine ⟨fun n => ?_, fun ns hnd hns => ?_⟩
        · obtain ⟨q5, q6⟩ := q4 n
          refine ⟨by omega, by rw [q5]; split <;> omega⟩
        · have hsub : ns ⊆ o := by
            intro n hn
            have := hns n hn
            obtain ⟨q5, q6⟩ := q4 n
            by_cases hno : n ∈ o
            · exact hno
            · rw [if_neg hno] at q6; omega
          have := hnd.length_le_of_subset hsub
          omega
      | done c =>
        refine ⟨fun n => ⟨by rw [(hq n).2]; exact Nat.le_refl _, by rw [(hq n).1]; split <;> omega⟩,
          fun ns _ hns => ?_⟩
        cases ns with
        | nil => simp
        | cons n ns => have := hns n (by simp); rw [(hq n).2] at this; omega

/-- C10 is false when a file creation fails: a file that was never created is announced as closed. -/
theorem C10_violated :
    Spec.creates (Filename.generate exNaming 3) (stopAcquisition (run fourthFails wStart
      [exFrame 0 70, exFrame 1 71, exFrame 2 72, exFrame 3 73]).1).events = 0 ∧
    Spec.closes (Filename.generate exNaming 3) (stopAcquisition (run fourthFails wStart
      [exFrame 0 70, exFrame 1 71, exFrame 2 72, exFrame 3 73]).1).events = 1 := by
  constructor <;> decide +kernel

/-- Non-vacuity of C10/C11: an acquisition that jumps over a file. -/
example :
    (stopAcquisition (run okEnv exStart [exFrame 0 70, exFrame 8 71]).1).events.length > 8 ∧
    (Phase.run exStart.home .idle
      (stopAcquisition (run okEnv exStart [exFrame 0 70, exFrame 8 71]).1).events).isSome = true := by
  constructor <;> decide +kernel

/-! ## C54: every written frame is announced, exactly once and in order -/

/-- The frames announced as written: (frame number, offset), in order. -/
def Spec.announced (ev : List Event) : List (Nat × Nat) :=
  ev.filterMap (fun | .write n off => some (n, off) | _ => none)

theorem announced_append (xs ys : List Event) :
    Spec.announced (xs ++ ys) = Spec.announced xs ++ Spec.announced ys := List.filterMap_append ..

theorem Creates.announced {e : Env} {K : Nat} {a b : Acq} (h : Creates e K a b) :
    Spec.announced b.events = Spec.announced a.events := by
  induction h with
  | refl => rfl
  | step a c k b _ _ _ _ ih =>
    rw [ih]
    obtain ⟨c', _, _, h⟩ := (createFile_created e a k).cur
    have hcl : Spec.announced (closeFile a a.previous).events = Spec.announced a.events := by
      rw [closeFile_events, announced_append]
      cases a.previous <;> simp [Spec.announced]
    rcases h with ⟨_, _, _, _, _, _, hev⟩ | ⟨_, _, _, _, _, hev⟩
    · rw [hev, hcl]
    · rw [hev, announced_append, hcl]; simp [Spec.announced]

/-- C54: a frame reported as written adds exactly one announcement, of its number and its offset; a frame
reported as an error adds at most that one. -/
theorem C54_announced (e : Env) (a : Acq) (f : Frame) :
    (∀ off, adjustOffset f.number f.adj = some off → (processFrame e a f).2.good →
      Spec.announced (processFrame e a f).1.events = Spec.announced a.events ++ [(toU64 f.number, off)]) ∧
    (Spec.announced (processFrame e a f).1.events = Spec.announced a.events ∨
      ∃ off, adjustOffset f.number f.adj = some off ∧
      Spec.announced (processFrame e a f).1.events =
        Spec.announced a.events ++ [(toU64 f.number, off)]) := by
  apply processFrame_ind e a f (fun b st =>
    (∀ off, adjustOffset f.number f.adj = some off → st.good →
      Spec.announced b.events = Spec.announced a.events ++ [(toU64 f.number, off)]) ∧
    (Spec.announced b.events = Spec.announced a.events ∨
      ∃ off, adjustOffset f.number f.adj = some off ∧
      Spec.announced b.events = Spec.announced a.events ++ [(toU64 f.number, off)]))
  · exact ⟨fun _ _ h => absurd rfl ((Status.good_iff _).1 h).1, Or.inl rfl⟩
  · exact fun _ => ⟨fun _ _ h => absurd rfl ((Status.good_iff _).1 h).2, Or.inl rfl⟩
  · intro off _ ho _ _ _
    have hcr := (getFile_spec e a off).1.announced
    refine ⟨?_, ?_, ?_⟩
    · rintro b (hb | hb) <;> rw [hb] at hcr <;>
        exact ⟨fun _ _ h => absurd rfl ((Status.good_iff _).1 h).1, Or.inl hcr⟩
    · intro b hb
      rw [hb] at hcr
      exact ⟨fun _ _ h => absurd rfl ((Status.good_iff _).1 h).2, Or.inl hcr⟩
    · intro b u hb
      rw [hb] at hcr
      simp only at hcr
      have hw := writeTo_facts e b f off u
      refine ⟨?_, ?_⟩
      · intro off' ho' hg
        rw [ho] at ho'; cases ho'
        obtain ⟨g1, g2⟩ := (Status.good_iff _).1 hg
        rw [(hw.good g1 g2).1, announced_append, hcr]; rfl
      · rcases hw.events with hev | ⟨hev, _⟩
        · rw [hev]; exact Or.inl hcr
        · exact Or.inr ⟨off, ho, by rw [hev, announced_append, hcr]; rfl⟩

/-- C54 over a whole run without errors: the announcements are exactly the frames, in order. -/
theorem C54_announced_run (e : Env) (fs : List Frame) : ∀ a : Acq,
    (∀ s ∈ (run e a fs).2, s.good) →
    Spec.announced (run e a fs).1.events = Spec.announced a.events ++
      fs.filterMap (fun f => (adjustOffset f.number f.adj).map (fun off => (toU64 f.number, off))) := by
  induction fs with
  | nil => intro a _; simp [run]
  | cons f fs ih =>
    intro a hg
    have hg1 : (processFrame e a f).2.good := hg _ (by simp [run])
    have hoff : ∃ off, adjustOffset f.number f.adj = some off := by
      cases ho : adjustOffset f.number f.adj with
      | some off => exact ⟨off, rfl⟩
      | none =>
        exfalso
        unfold processFrame at hg1
        rw [ho] at hg1
        simp [Status.good_iff] at hg1
    obtain ⟨off, ho⟩ := hoff
    have := ih (processFrame e a f).1 (fun s hs => hg s (by simp [run, hs]))
    simp only [run]
    rw [this, (C54_announced e a f).1 off ho hg1]
    simp [ho]

example : Spec.announced (run okEnv exStart [exFrame 0 70, exFrame 8 71, exFrame 7 72, exFrame 4 73]).1.events
    = [(0, 0), (8, 8), (7, 7)] := by decide +kernel

/-- After the end of an acquisition no file is open, and those there were have no datasets; which files they are stays known. -/
theorem C10_stopped (a : Acq) : (∀ f, (stopAcquisition a).current = some f → f.isOpen = false ∧ f.dsets = []) ∧
    (∀ f, (stopAcquisition a).previous = some f → f.isOpen = false ∧ f.dsets = []) := by
  have hc : ∀ (x : Acq) o, (closeFile x o).current = x.current ∧ (closeFile x o).previous = x.previous := by
    intro x o
    unfold closeFile
    cases o <;> simp [Acq.publish]
  have e1 : (stopAcquisition a).current = a.current.map H5File.closed := by
    simp only [stopAcquisition, Acq.publish, hc]
  have e2 : (stopAcquisition a).previous = a.previous.map H5File.closed := by
    simp only [stopAcquisition, Acq.publish, hc]
  rw [e1, e2]
  constructor
  · intro f h
    obtain ⟨g, _, rfl⟩ := Option.map_eq_some_iff.1 h
    exact ⟨rfl, rfl⟩
  · intro f h
    obtain ⟨g, _, rfl⟩ := Option.map_eq_some_iff.1 h
    exact ⟨rfl, rfl⟩

end Verif.Acq
