import Verif.Model.HalfWriter
import Verif.Props.HalfConfig
import Verif.Props.Reply
/-
C185: a configuration that the file writer refuses leaves it as it was.
-/
namespace Verif.HalfConfig
open Verif.Ipc Verif.PluginConfig

/-- The full claim: after an error nothing has changed but the reply. -/
def C185_statement : Prop := ∀ (w : Bool) (ok : Str → Bool) (s : Writer) (j : Json),
  refuses (writer w ok s j) = true → { (writer w ok s j).1 with nack := s.nack } = s

/-! ## Agreement with the model of accepted configurations -/

theorem enter_m {α σ : Type} (g : Stage σ) (conv : Json → Option α) (f : σ → α → Option σ) (s : σ) (j : Json) (ha : g.absent = id)
    (hg : ∀ v, accepted (g.given s v) = (conv v).bind (f s)) : accepted (g.enter s j) = updM s f (field j g.name conv) := by
  unfold Stage.enter field
  cases hasParam (some j) g.name with
  | none => rfl
  | some b =>
    cases b with
    | false => dsimp only; rw [ha]; rfl
    | true =>
      dsimp only
      cases getParam (some j) g.name with
      | none => rfl
      | some v =>
        have := hg v
        dsimp only [Stage.value, Option.bind_some]
        rw [this]
        cases conv v <;> simp [updM]

/-- What is never bad is only stored. -/
theorem enter_idle {α σ : Type} (n : Str) (conv : Json → Option α) (bad : σ → α → Bool) (f : σ → α → σ) (s : σ) (j : Json) (hb : ∀ a, bad s a = false) :
    accepted ((checked n conv bad f).enter s j) = upd s f (field j n conv) := by
  refine enter_gen (checked n conv bad f) conv f s j rfl fun v => ?_
  show accepted (checkedStore bad f s (conv v)) = _
  cases conv v with
  | none => rfl
  | some a => simp [checkedStore, hb, accepted]

theorem enter_block (s : Writer) (j : Json) :
    accepted ((checked "frames_per_block".toList Json.asUint64 (fun (s : Writer) v => decide (s.block ≠ v) && (decide (v < 1) || false))
      fun s v => { s with block := v }).enter s j) = updM s Writer.setBlock (field j "frames_per_block".toList Json.asUint64) := by
  refine enter_m (checked "frames_per_block".toList Json.asUint64 _ _) Json.asUint64 Writer.setBlock s j rfl fun v => ?_
  show accepted (checkedStore _ _ s v.asUint64) = _
  cases v.asUint64 with
  | none => rfl
  | some a =>
    unfold checkedStore
    dsimp only [Option.bind_some]
    unfold Writer.setBlock
    by_cases h : s.block ≠ a ∧ a < 1
    · rw [if_pos h, if_pos (by simp [h.1]; omega)]; rfl
    · rw [if_neg h, if_neg (by simpa using fun h1 => by omega)]; rfl

theorem agrees_process (s : Writer) (j : Json) : accepted (run (processStages false) s j) = s.process j := by
  simp only [processStages, run_cons, run_nil, bind_self, enter_block, enter_plain]
  simp only [enter_idle _ _ (fun (_ : Writer) _ => _) _ _ _ (fun _ => rfl), Bool.false_and]
  rfl

theorem agrees_file (ok : Str → Bool) (s : Writer) (j : Json) : accepted (run (fileStages ok) s j) = s.file ok j := by
  simp only [fileStages, run_cons, run_nil, bind_self, enter_plain]
  rfl

theorem agrees_halfOne (l : List (Str × Dset)) (k : Str) (sub : Json) : accepted (halfOne l k (some sub)) = oneDset l k sub := by
  unfold halfOne oneDset
  dsimp only
  cases Dset.configure ((lookD (createD l k) k).getD {}) sub <;> rfl

theorem agrees_halfAll (j : Json) (ks : List Str) (l : List (Str × Dset)) : accepted (halfAll j ks l) = allDsets l j ks := by
  induction ks generalizing l with
  | nil => rfl
  | cons k ks ih =>
    unfold halfAll allDsets
    cases getParam (some j) k with
    | none => rfl
    | some sub =>
      dsimp only
      rw [← agrees_halfOne]
      cases h : (halfOne l k (some sub)).2 with
      | ok => simp [accepted, h, ← ih]
      | refused => simp [accepted, h]
      | ub => simp [accepted, h]

theorem enter_datasets (s : Writer) (j : Json) : accepted (Stage.enter { name := "dataset".toList, given := datasets } s j) =
    (dsets s.datasets j).map fun l => { s with datasets := l } := by
  unfold Stage.enter dsets
  dsimp only
  cases hasParam (some j) "dataset".toList with
  | none => rfl
  | some b =>
    cases b with
    | false => rfl
    | true =>
      dsimp only
      cases getParam (some j) "dataset".toList with
      | none => rfl
      | some v =>
        cases v with
        | obj m =>
          show accepted (({ s with datasets := (halfAll (.obj m) (m.map (·.1)) s.datasets).1 } : Writer), (halfAll (.obj m) (m.map (·.1)) s.datasets).2) =
            (allDsets s.datasets (.obj m) (m.map (·.1))).map fun l => { s with datasets := l }
          rw [← agrees_halfAll]
          cases h : (halfAll (.obj m) (m.map (·.1)) s.datasets).2 <;> simp [accepted, h]
        | _ => rfl

theorem enter_delete (s : Writer) (j : Json) :
    accepted (Stage.enter { name := "delete_datasets".toList, given := fun (s : Writer) _ => ({ s with datasets := [] }, .ok) } s j) =
    (delete s.datasets j).map fun l => { s with datasets := l } := by
  unfold Stage.enter delete
  dsimp only
  cases h : hasParam (some j) "delete_datasets".toList with
  | none => rfl
  | some b =>
    cases b with
    | false => rfl
    | true =>
      obtain ⟨v, hv⟩ := (Verif.Reply.hasParam_get (some j) "delete_datasets".toList).1 h
      rw [hv]
      rfl

theorem enter_process (s : Writer) (j : Json) : accepted (Stage.enter { name := "process".toList, given := run (processStages false) } s j) =
    part s j "process".toList Writer.process :=
  enter_m { name := "process".toList, given := run (processStages false) } some Writer.process s j rfl fun v => agrees_process s v

theorem enter_file (ok : Str → Bool) (s : Writer) (j : Json) : accepted (Stage.enter { name := "file".toList, given := run (fileStages ok) } s j) =
    part s j "file".toList (Writer.file ok) :=
  enter_m { name := "file".toList, given := run (fileStages ok) } some (Writer.file ok) s j rfl fun v => agrees_file ok s v

/-- An accepted configuration of a writer that is not writing is that of C114. -/
theorem C185_accepted (ok : Str → Bool) (s : Writer) (j : Json) : accepted (writer false ok s j) = s.configure ok j := by
  simp only [writer, writerStages, run_cons, run_nil, bind_self, enter_plain, enter_process, enter_file, enter_datasets, enter_delete]
  rfl

/-! ## What is left behind -/

/-- A wrong number of frames does not keep the new file name from being set. -/
theorem C185_violated : ¬ C185_statement := by
  intro h
  have := h false (fun _ => true) {} (.obj [("file".toList, .obj [("prefix".toList, .str "run2".toList)]), ("frames".toList, .str [])]) (by decide +kernel)
  revert this
  decide +kernel

/-- A path that is no directory: the reply is an error, but the rest of the message is taken over, and the files go to the path of before. -/
theorem C185_path : ∃ t, writer false (fun _ => false) {} (.obj [("file".toList, .obj [("path".toList, .str "/none".toList), ("prefix".toList, .str "run2".toList)]),
    ("frames".toList, .num 5)]) = (t, .ok) ∧ refuses (t, .ok) = true ∧ t.path = [] ∧ t.pre = "run2".toList ∧ t.frames = 5 := ⟨_, rfl, by decide +kernel⟩

theorem lookD_setKey (l : List (Str × Dset)) (k : Str) (d : Dset) : lookD (setKey l k d) k = some d := by
  induction l with
  | nil => simp [setKey, lookD]
  | cons x l ih =>
    obtain ⟨n, y⟩ := x
    unfold setKey
    by_cases h : n = k
    · rw [if_pos h]; simp [lookD, h]
    · rw [if_neg h]; simp [lookD, h, ih]

/-- The definition of a new dataset that is refused leaves a dataset without dimensions and chunks, and creating the next file is then undefined. -/
theorem C185_dataset (s : Writer) (k : Str) (sub : Json) (hk : '/' ∉ k) (hn : lookD s.datasets k = none) (hs : Dset.configure {} sub = none) :
    (datasets s (.obj [(k, sub)])).2 = .refused ∧ lookD (datasets s (.obj [(k, sub)])).1.datasets k = some {} ∧
    ∀ g w f file, Acq.createDataset g w f file ⟨String.ofList k, .raw8, ({} : Dset).dims, ({} : Dset).chunks, .none⟩ = (file, .ub) := by
  have hg : getParam (some (.obj [(k, sub)])) k = some sub := by
    rw [show k = join [k] from rfl]
    simp only [getParam, Option.bind_some]
    rw [splitAll_join [k] ⟨by simp, by simpa using hk⟩]
    simp [Ipc.get, findM, join]
  have hc : createD s.datasets k = setKey s.datasets k {} := by
    unfold createD; rw [hn]
  have ho : halfOne s.datasets k (getParam (some (.obj [(k, sub)])) k) = (setKey s.datasets k {}, .refused) := by
    rw [hg]
    unfold halfOne
    dsimp only
    rw [hc, lookD_setKey, Option.getD_some, hs]
    rfl
  have ha : halfAll (.obj [(k, sub)]) [k] s.datasets = (setKey s.datasets k {}, .refused) := by
    unfold halfAll
    rw [ho]
  refine ⟨?_, ?_, fun g w f file => rfl⟩
  · show (halfAll (.obj [(k, sub)]) [k] s.datasets).2 = _
    rw [ha]
  · show lookD (halfAll (.obj [(k, sub)]) [k] s.datasets).1 k = _
    rw [ha]
    exact lookD_setKey _ _ _

/-! ## While writing -/

/-- What may not change while frames are written. -/
def geometry (s : Writer) : Nat × Nat × Nat × Nat := (s.number, s.rank, s.block, s.blocks)

/-- Stages that keep something. -/
def Keeps {σ β : Type} (p : σ → β) (g : Stage σ) : Prop := (∀ s v, p (g.given s v).1 = p s) ∧ ∀ s, p (g.absent s) = p s

theorem run_keeps {σ β : Type} (p : σ → β) (gs : List (Stage σ)) (h : ∀ g ∈ gs, Keeps p g) (s : σ) (j : Json) : p (run gs s j).1 = p s := by
  induction gs generalizing s with
  | nil => rfl
  | cons g gs ih =>
    have hg := h g (by simp)
    have he : p (g.enter s j).1 = p s := by
      unfold Stage.enter
      cases hasParam (some j) g.name with
      | none => rfl
      | some b =>
        cases b with
        | false => exact hg.2 s
        | true =>
          dsimp only
          cases getParam (some j) g.name with
          | none => rfl
          | some v => exact hg.1 s v
    unfold run
    cases (g.enter s j).2 with
    | ok => dsimp only; rw [ih (fun g' hg' => h g' (by simp [hg'])), he]
    | refused => exact he
    | ub => exact he

theorem keeps_plain {α σ β : Type} (p : σ → β) (n : Str) (conv : Json → Option α) (f : σ → α → σ) (h : ∀ s a, p (f s a) = p s) : Keeps p (plain n conv f) := by
  refine ⟨fun s v => ?_, fun s => rfl⟩
  show p (store f s (conv v)).1 = p s
  cases conv v with
  | none => rfl
  | some a => exact h s a

theorem keeps_checked {α σ β : Type} (p : σ → β) (n : Str) (conv : Json → Option α) (bad : σ → α → Bool) (f : σ → α → σ)
    (h : ∀ s a, bad s a = false → p (f s a) = p s) : Keeps p (checked n conv bad f) := by
  refine ⟨fun s v => ?_, fun s => rfl⟩
  show p (checkedStore bad f s (conv v)).1 = p s
  cases conv v with
  | none => rfl
  | some a =>
    show p (if bad s a = true then (s, Out.refused) else (f s a, Out.ok)).1 = p s
    cases hb : bad s a with
    | true => rfl
    | false => exact h s a hb

theorem process_keeps (s : Writer) (j : Json) : geometry (run (processStages true) s j).1 = geometry s := by
  refine run_keeps geometry _ ?_ s j
  simp only [processStages, List.forall_mem_cons]
  refine ⟨keeps_checked _ _ _ _ _ ?_, keeps_checked _ _ _ _ _ ?_, keeps_checked _ _ _ _ _ ?_, keeps_checked _ _ _ _ _ ?_,
    keeps_plain _ _ _ _ (fun _ _ => rfl), keeps_plain _ _ _ _ (fun _ _ => rfl), keeps_plain _ _ _ _ (fun _ _ => rfl), by simp⟩ <;>
  · intro s a h
    simp at h
    simp [geometry, h]

theorem file_keeps (ok : Str → Bool) (s : Writer) (j : Json) : geometry (run (fileStages ok) s j).1 = geometry s := by
  refine run_keeps geometry _ ?_ s j
  simp only [fileStages, List.forall_mem_cons]
  refine ⟨keeps_plain _ _ _ _ (fun s a => ?_), keeps_plain _ _ _ _ (fun _ _ => rfl), keeps_plain _ _ _ _ (fun _ _ => rfl), keeps_plain _ _ _ _ (fun _ _ => rfl),
    keeps_plain _ _ _ _ (fun _ _ => rfl), keeps_plain _ _ _ _ (fun _ _ => rfl), keeps_plain _ _ _ _ (fun _ _ => rfl), keeps_plain _ _ _ _ (fun _ _ => rfl),
    keeps_plain _ _ _ _ (fun _ _ => rfl), keeps_plain _ _ _ _ (fun _ _ => rfl), by simp⟩
  unfold Writer.setPath
  split <;> rfl

theorem datasets_keeps (s : Writer) (v : Json) : geometry (datasets s v).1 = geometry s := by
  cases v <;> rfl

/-- While the writer is writing, no message, accepted or refused half-way, changes the number of processes, the rank, or the sizes of blocks and files. -/
theorem C185_writing (ok : Str → Bool) (s : Writer) (j : Json) : geometry (writer true ok s j).1 = geometry s := by
  show geometry (run (writerStages true ok) { s with nack := false } j).1 = geometry { s with nack := false }
  refine run_keeps geometry _ ?_ _ j
  simp only [writerStages, List.forall_mem_cons]
  exact ⟨⟨process_keeps, fun _ => rfl⟩, ⟨file_keeps ok, fun _ => rfl⟩, ⟨datasets_keeps, fun _ => rfl⟩, ⟨fun _ _ => rfl, fun _ => rfl⟩,
    keeps_plain _ _ _ _ (fun _ _ => rfl), keeps_plain _ _ _ _ (fun _ _ => rfl), keeps_plain _ _ _ _ (fun _ _ => rfl), keeps_plain _ _ _ _ (fun _ _ => rfl),
    keeps_plain _ _ _ _ (fun _ _ => rfl), by simp⟩

/-! ## What holds -/

/-- A refused value of this message changes nothing in this state. -/
def CleanAt {σ : Type} (s : σ) (j : Json) (g : Stage σ) : Prop := ∀ v, getParam (some j) g.name = some v → (g.given s v).2 ≠ .ok → (g.given s v).1 = s

theorem enter_cleanAt {σ : Type} (g : Stage σ) (s : σ) (j : Json) (hg : CleanAt s j g) (h : (g.enter s j).2 ≠ .ok) : (g.enter s j).1 = s := by
  unfold Stage.enter at h ⊢
  cases hp : hasParam (some j) g.name with
  | none => rfl
  | some b =>
    rw [hp] at h
    cases b with
    | false => exact absurd rfl h
    | true =>
      dsimp only at h ⊢
      cases hv : getParam (some j) g.name with
      | none => rfl
      | some v => rw [hv] at h; exact hg v hv h

theorem enter_present {σ : Type} (g : Stage σ) (s : σ) (j : Json) (h : (g.enter s j).2 ≠ .ok) : hasParam (some j) g.name ≠ some false := by
  intro hp
  unfold Stage.enter at h
  rw [hp] at h
  exact h rfl

theorem sole_atomicAt {σ : Type} (gs : List (Stage σ)) (hn : (gs.map Stage.name).Nodup) (ha : ∀ g ∈ gs, g.absent = id) (s : σ) (j : Json)
    (hc : ∀ g ∈ gs, CleanAt s j g) (hs : Sole gs j) (h : (run gs s j).2 ≠ .ok) : (run gs s j).1 = s := by
  obtain ⟨pre, g, post, u, e1, e2, e3⟩ := C184_exactly gs s j h
  subst e1
  have hg : g ∈ pre ++ g :: post := by simp
  rw [← e3] at h ⊢
  have c2 := enter_present g u j h
  have hd : ∀ p ∈ pre, p.name ≠ g.name := by
    intro p hp
    rw [List.map_append, List.map_cons] at hn
    exact (List.nodup_append.1 hn).2.2 p.name (List.mem_map_of_mem hp) g.name (by simp)
  have : run pre s j = (s, .ok) := by
    refine run_absent pre s j fun p hp => ⟨?_, ha p (by simp [hp])⟩
    apply Classical.byContradiction
    intro hq
    exact hd p hp (hs p (by simp [hp]) g hg hq c2)
  rw [e2] at this
  cases this
  exact enter_cleanAt g s j (hc g hg) h

theorem clean_at {σ : Type} (g : Stage σ) (h : Clean g) (s : σ) (j : Json) : CleanAt s j g := fun v _ => h s v

theorem clean_checked {α σ : Type} (n : Str) (conv : Json → Option α) (bad : σ → α → Bool) (f : σ → α → σ) : Clean (checked n conv bad f) := by
  intro s v h
  change (checkedStore bad f s (conv v)).2 ≠ .ok at h
  change (checkedStore bad f s (conv v)).1 = s
  cases e : conv v with
  | none => rfl
  | some a =>
    rw [e] at h
    unfold checkedStore at h ⊢
    dsimp only at h ⊢
    cases hb : bad s a with
    | true => rfl
    | false => rw [hb] at h; exact absurd rfl h

theorem process_clean (w : Bool) : ∀ g ∈ processStages w, Clean g := by
  simp only [processStages, List.forall_mem_cons]
  exact ⟨clean_checked _ _ _ _, clean_checked _ _ _ _, clean_checked _ _ _ _, clean_checked _ _ _ _, clean_plain _ _ _, clean_plain _ _ _, clean_plain _ _ _, by simp⟩

theorem file_clean (ok : Str → Bool) : ∀ g ∈ fileStages ok, Clean g := by
  simp only [fileStages, List.forall_mem_cons]
  exact ⟨clean_plain _ _ _, clean_plain _ _ _, clean_plain _ _ _, clean_plain _ _ _, clean_plain _ _ _, clean_plain _ _ _, clean_plain _ _ _, clean_plain _ _ _,
    clean_plain _ _ _, clean_plain _ _ _, by simp⟩

/-- The datasets of the message: one at most, which is already there. -/
def OneDataset (s : Writer) (v : Json) : Prop := ∀ m, v = .obj m → m = [] ∨ ∃ k sub d, m = [(k, sub)] ∧ lookD s.datasets k = some d

theorem datasets_clean (s : Writer) (v : Json) (h : OneDataset s v) (hr : (datasets s v).2 ≠ .ok) : (datasets s v).1 = s := by
  cases v with
  | obj m =>
    rcases h m rfl with rfl | ⟨k, sub, d, rfl, hd⟩
    · exact absurd rfl hr
    · have hc : createD s.datasets k = s.datasets := by unfold createD; rw [hd]
      change (halfAll (.obj [(k, sub)]) [k] s.datasets).2 ≠ .ok at hr
      show { s with datasets := (halfAll (.obj [(k, sub)]) [k] s.datasets).1 } = s
      have : (halfAll (.obj [(k, sub)]) [k] s.datasets).1 = s.datasets := by
        unfold halfAll at hr ⊢
        cases hg : getParam (some (.obj [(k, sub)])) k with
        | none => show createD s.datasets k = _; exact hc
        | some x =>
          rw [hg] at hr
          unfold halfOne at hr ⊢
          dsimp only at hr ⊢
          rw [hc] at hr ⊢
          cases he : Dset.configure ((lookD s.datasets k).getD {}) x with
          | none => rfl
          | some y => rw [he] at hr; exact absurd rfl hr
      rw [this]
  | str k => exact absurd rfl hr
  | _ => rfl

/-- What holds: a message with one parameter, or one part with one parameter, or one dataset that is already there, is taken over, or an
exception leaves the writer as it was. -/
theorem C185_partial (w : Bool) (ok : Str → Bool) (s : Writer) (j : Json) (hs : Sole (writerStages w ok) j)
    (hp : ∀ v, getParam (some j) "process".toList = some v → Sole (processStages w) v) (hf : ∀ v, getParam (some j) "file".toList = some v → Sole (fileStages ok) v)
    (hd : ∀ v, getParam (some j) "dataset".toList = some v → OneDataset s v) (h : (writer w ok s j).2 ≠ .ok) :
    (writer w ok s j).1 = { s with nack := false } := by
  have hname : ((writerStages w ok).map Stage.name).Nodup := by simp only [writerStages, List.map, plain]; decide +kernel
  refine sole_atomicAt (writerStages w ok) hname (by simp [writerStages, plain]) _ j ?_ hs h
  simp only [writerStages, List.forall_mem_cons]
  have hpn : ((processStages w).map Stage.name).Nodup := by simp only [processStages, List.map, plain, checked]; decide +kernel
  have hfn : ((fileStages ok).map Stage.name).Nodup := by simp only [fileStages, List.map, plain]; decide +kernel
  refine ⟨?_, ?_, ?_, ?_, clean_at _ (clean_plain _ _ _) _ _, clean_at _ (clean_plain _ _ _) _ _, clean_at _ (clean_plain _ _ _) _ _,
    clean_at _ (clean_plain _ _ _) _ _, clean_at _ (clean_plain _ _ _) _ _, by simp⟩
  · intro v hv hr
    exact sole_atomicAt (processStages w) hpn (by simp [processStages, plain, checked]) _ v (fun g hg => clean_at g (process_clean w g hg) _ _) (hp v hv) hr
  · intro v hv hr
    exact sole_atomicAt (fileStages ok) hfn (by simp [fileStages, plain]) _ v (fun g hg => clean_at g (file_clean ok g hg) _ _) (hf v hv) hr
  · intro v hv hr
    exact datasets_clean _ v (hd v hv) hr
  · intro v hv hr
    exact absurd rfl hr

/-- Non-vacuity: while writing, another number of processes is refused, and the hypotheses hold of the message. -/
example : Sole (writerStages true fun _ => true) (.obj [("process".toList, .obj [("number".toList, .num 2)])]) ∧
    Sole (processStages true) (.obj [("number".toList, .num 2)]) ∧
    (writer true (fun _ => true) {} (.obj [("process".toList, .obj [("number".toList, .num 2)])])).2 = .refused := by
  refine ⟨?_, ?_, by decide +kernel⟩
  · have : ∀ n ∈ (writerStages true fun _ => true).map Stage.name,
        hasParam (some (.obj [("process".toList, .obj [("number".toList, .num 2)])])) n ≠ some false → n = "process".toList := by decide +kernel
    intro g hg h hh h1 h2
    rw [this _ (List.mem_map_of_mem hg) h1, this _ (List.mem_map_of_mem hh) h2]
  · have : ∀ n ∈ (processStages true).map Stage.name, hasParam (some (.obj [("number".toList, .num 2)])) n ≠ some false → n = "number".toList := by decide +kernel
    intro g hg h hh h1 h2
    rw [this _ (List.mem_map_of_mem hg) h1, this _ (List.mem_map_of_mem hh) h2]

/-- A new dataset whose dimensions are no list. -/
example : Dset.configure {} (.obj [("dims".toList, .num 5)]) = none := by decide +kernel

end Verif.HalfConfig
