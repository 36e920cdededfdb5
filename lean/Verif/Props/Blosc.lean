import Verif.Model.Blosc
/-! Property C24: compression settings change only between acquisitions. -/
namespace Verif.Blosc

namespace Spec

/-- The operation does not start another acquisition than `id`. -/
def Within (id : String) : Op → Prop
  | .config _ => True
  | .frame i => i = id

/-- Operation that yields a frame. -/
def isFrame : Op → Bool
  | .config _ => false
  | .frame _ => true

/-- Compressing with given settings. -/
def asCommanded (c : Settings) : Compressed :=
  { level := c.level, shuffle := c.shuffle, compressor := c.compressor, threads := c.threads }

/-- Settings the compressor accepts. -/
def InRange (c : Settings) : Prop :=
  1 ≤ c.level ∧ c.level ≤ 9 ∧ c.shuffle ≤ 2 ∧ c.threads ≤ 256 ∧ c.compressor ≤ 5

/-- The message commands at least one thread, if any. -/
def SaneOp : Op → Prop
  | .config m => m.threads ≠ some (some 0)
  | .frame _ => True

end Spec
open Spec

/-! ## The latch -/

theorem store_latched (avail : Nat → Bool) (s : State) (c : Settings) (h : s.acq ≠ "") :
    (store avail s c).1.latched = s.latched ∧ (store avail s c).1.library = s.library ∧
    (store avail s c).1.acq = s.acq := by
  unfold store; rw [if_neg h]; exact ⟨rfl, rfl, rfl⟩

theorem item_latched {α} (avail : Nat → Bool) (v : Option (Option α)) (f : α → Settings → Settings) (s : State)
    (x : State × Bool) (h : s.acq ≠ "")
    (hx : x.1.latched = s.latched ∧ x.1.library = s.library ∧ x.1.acq = s.acq) :
    (item avail v f x).1.latched = s.latched ∧ (item avail v f x).1.library = s.library ∧
    (item avail v f x).1.acq = s.acq := by
  obtain ⟨t, b⟩ := x
  cases b with
  | false => exact hx
  | true =>
    unfold item
    match v with
    | none => exact hx
    | some none => exact hx
    | some (some y) =>
      obtain ⟨h1, h2, h3⟩ := store_latched avail t (f y t.commanded) (by rw [hx.2.2]; exact h)
      exact ⟨h1.trans hx.1, h2.trans hx.2.1, h3.trans hx.2.2⟩

theorem configure_latched (avail : Nat → Bool) (s : State) (m : Msg) (h : s.acq ≠ "") :
    (configure avail s m).1.latched = s.latched ∧ (configure avail s m).1.library = s.library ∧
    (configure avail s m).1.acq = s.acq :=
  item_latched avail _ _ s _ h (item_latched avail _ _ s _ h (item_latched avail _ _ s _ h
    (item_latched avail _ _ s _ h ⟨rfl, rfl, rfl⟩)))

theorem run_latched (avail : Nat → Bool) (ops : List Op) : ∀ s : State, s.acq ≠ "" →
    (∀ o ∈ ops, Within s.acq o) →
    ∀ i (hi : i < ops.length), isFrame ops[i] = true →
      (run avail s ops).2[i]? = some (some (compress s)) := by
  induction ops with
  | nil => intro s _ _ i hi; simp at hi
  | cons o os ih =>
    intro s ha hw i hi hf
    have ho := hw o (by simp)
    have hos : ∀ o ∈ os, Within s.acq o := fun x hx => hw x (List.mem_cons_of_mem _ hx)
    -- the first operation keeps everything
    have hstep : (step avail s o).1.latched = s.latched ∧ (step avail s o).1.library = s.library ∧
        (step avail s o).1.acq = s.acq ∧ (isFrame o = true → (step avail s o).2 = some (compress s)) := by
      cases o with
      | config m =>
        obtain ⟨h1, h2, h3⟩ := configure_latched avail s m ha
        exact ⟨h1, h2, h3, fun h => by simp [isFrame] at h⟩
      | frame id =>
        have : id = s.acq := ho
        simp only [step, processFrame]
        rw [if_neg (by simp [this])]
        exact ⟨rfl, rfl, rfl, fun _ => rfl⟩
    obtain ⟨h1, h2, h3, h4⟩ := hstep
    have hc : compress (step avail s o).1 = compress s := by unfold compress; rw [h1, h2]
    cases i with
    | zero =>
      simp only [List.getElem_cons_zero] at hf
      simp only [run, List.getElem?_cons_zero, h4 hf]
    | succ i =>
      simp only [List.getElem_cons_succ] at hf
      simp only [run, List.getElem?_cons_succ]
      rw [ih _ (by rw [h3]; exact ha) (by rw [h3]; exact hos) i (by simpa using hi) hf, hc]

/-- C24, full statement: after any history, let the first frame of acquisition `id` arrive (the frame
before had another id, or there was none). Then this and all later frames, until another acquisition
begins, are compressed with the settings commanded when it arrived, whatever is configured meanwhile. -/
def C24_statement : Prop :=
  ∀ (avail : Nat → Bool) (pre ops : List Op) (id : String) (s : State),
    s = (run avail init pre).1 → (s.acq ≠ id ∨ ∀ o ∈ pre, isFrame o = false) →
    (∀ o ∈ ops, Within id o) →
    ∀ i (hi : i < (Op.frame id :: ops).length), isFrame (Op.frame id :: ops)[i] = true →
      (run avail s (.frame id :: ops)).2[i]? = some (some (asCommanded s.commanded))

/-- C24, proved part: acquisitions with a non-empty id, and the commanded compressor is available.
Missing: the empty id, and unavailable compressors (`C24_violated`, `C24_violated_unavailable`). -/
theorem C24_partial (avail : Nat → Bool) (s : State) (id : String) (ops : List Op) (hid : id ≠ "")
    (hs : s.acq ≠ id) (hav : avail s.commanded.compressor = true) (hw : ∀ o ∈ ops, Within id o)
    (i : Nat) (hi : i < (Op.frame id :: ops).length) (hf : isFrame (Op.frame id :: ops)[i] = true) :
    (run avail s (.frame id :: ops)).2[i]? = some (some (asCommanded s.commanded)) := by
  have hp : step avail s (.frame id)
      = ({ s with acq := id, latched := s.commanded, library := s.commanded.compressor },
         some (asCommanded s.commanded)) := by
    simp only [step, processFrame]
    rw [if_pos (Ne.symm hs)]
    unfold update
    rw [if_pos hav]
    rfl
  simp only [run, hp]
  cases i with
  | zero => rfl
  | succ i =>
    simp only [List.getElem?_cons_succ]
    exact run_latched avail ops _ hid hw i (by simpa using hi) (by simpa using hf)

/-- C24 is false of the code: for frames without acquisition id the settings change at once. -/
theorem C24_violated : ¬ C24_statement := by
  intro h
  have := h (fun _ => true) [] [.config { level := some (some 9) }, .frame ""] "" init rfl
    (Or.inr (by simp)) (by intro o ho; simp at ho; rcases ho with rfl | rfl <;> simp [Within]) 2 (by decide) rfl
  revert this
  decide

/-- C24 is also false if the commanded compressor is not available: the first frame is lost with an
exception, and the following ones are compressed with the compressor of the previous acquisition. -/
theorem C24_violated_unavailable :
    (run (fun n => n != 4) init [.config { compressor := some (some 1) }, .frame "a",
      .config { compressor := some (some 4) }, .frame "b", .frame "b"]).2
    = [none, some ⟨1, 2, 1, 1⟩, none, none, some ⟨1, 2, 1, 1⟩] := by
  decide

/-! ## Ranges -/

def Ranges (P : Settings → Prop) (s : State) : Prop := P s.commanded ∧ P s.latched

theorem update_ranges (P : Settings → Prop) (avail : Nat → Bool) (s : State) (h : P s.commanded) :
    Ranges P (update avail s).1 := by
  unfold update; split <;> exact ⟨h, h⟩

theorem item_ranges {α} (P : Settings → Prop) (avail : Nat → Bool) (v : Option (Option α))
    (f : α → Settings → Settings) (hf : ∀ x c, v = some (some x) → P c → P (f x c)) (x : State × Bool)
    (h : Ranges P x.1) : Ranges P (item avail v f x).1 := by
  obtain ⟨t, b⟩ := x
  cases b with
  | false => exact h
  | true =>
    unfold item
    match v, hf with
    | none, _ => exact h
    | some none, _ => exact h
    | some (some y), hf =>
      have hc : P (f y t.commanded) := hf y _ rfl h.1
      show Ranges P (store avail t (f y t.commanded)).1
      unfold store
      split
      · exact update_ranges P avail _ hc
      · exact ⟨hc, h.2⟩

theorem step_ranges (avail : Nat → Bool) (s : State) (o : Op) (h : Ranges InRange s) :
    Ranges InRange (step avail s o).1 := by
  cases o with
  | config m =>
    refine item_ranges _ avail _ _ ?_ _ (item_ranges _ avail _ _ ?_ _ (item_ranges _ avail _ _ ?_ _
      (item_ranges _ avail _ _ ?_ _ h))) <;> intro x c _ hc
    · refine ⟨hc.1, hc.2.1, hc.2.2.1, hc.2.2.2.1, ?_⟩
      show clampCompressor x ≤ 5
      unfold clampCompressor maxCompressor; split <;> omega
    · refine ⟨hc.1, hc.2.1, hc.2.2.1, ?_, hc.2.2.2.2⟩
      show clampThreads x ≤ 256
      unfold clampThreads maxThreads; split <;> omega
    · refine ⟨hc.1, hc.2.1, ?_, hc.2.2.2⟩
      show clampShuffle x ≤ 2
      unfold clampShuffle maxShuffle; split <;> omega
    · refine ⟨?_, ?_, hc.2.2⟩
      · show 1 ≤ clampLevel x
        unfold clampLevel; repeat' split
        all_goals omega
      · show clampLevel x ≤ 9
        unfold clampLevel; repeat' split
        all_goals omega
  | frame id =>
    simp only [step]
    unfold processFrame
    split
    · have := update_ranges InRange avail { s with acq := id } h.1
      revert this
      cases update avail { s with acq := id } with
      | mk s' b => cases b <;> exact fun this => this
    · exact h

/-- C24: after every history, level, shuffle and compressor are within the ranges of the library, and at
most 256 threads are used. -/
theorem C24_ranges (avail : Nat → Bool) (ops : List Op) : Ranges InRange (run avail init ops).1 := by
  suffices ∀ s, Ranges InRange s → Ranges InRange (run avail s ops).1 from
    this init ⟨by unfold InRange; decide, by unfold InRange; decide⟩
  induction ops with
  | nil => intro s h; exact h
  | cons o os ih => intro s h; exact ih _ (step_ranges avail s o h)

/-- C24, ranges, partial: at least one thread, if no message commands 0. -/
theorem C24_threads_partial (avail : Nat → Bool) (ops : List Op) (hops : ∀ o ∈ ops, SaneOp o) :
    Ranges (fun c => 1 ≤ c.threads) (run avail init ops).1 := by
  suffices ∀ s, Ranges (fun c => 1 ≤ c.threads) s → Ranges (fun c => 1 ≤ c.threads) (run avail s ops).1 from
    this init ⟨by decide, by decide⟩
  induction ops with
  | nil => intro s h; exact h
  | cons o os ih =>
    intro s h
    refine ih (fun o ho => hops o (List.mem_cons_of_mem _ ho)) _ ?_
    have ho := hops o (by simp)
    cases o with
    | config m =>
      refine item_ranges _ avail _ _ ?_ _ (item_ranges _ avail _ _ ?_ _ (item_ranges _ avail _ _ ?_ _
        (item_ranges _ avail _ _ ?_ _ h))) <;> intro x c hx hc
      · exact hc
      · show 1 ≤ clampThreads x
        have : x ≠ 0 := by rintro rfl; exact ho hx
        unfold clampThreads; split <;> omega
      · exact hc
      · exact hc
    | frame id =>
      simp only [step]
      unfold processFrame
      split
      · have := update_ranges (fun c => 1 ≤ c.threads) avail { s with acq := id } h.1
        revert this
        cases update avail { s with acq := id } with
        | mk s' b => cases b <;> exact fun this => this
      · exact h

theorem item_failed {α} (avail : Nat → Bool) (v : Option (Option α)) (f : α → Settings → Settings)
    (x : State × Bool) (h : x.2 = false ∨ v = some none) : (item avail v f x).2 = false := by
  obtain ⟨t, b⟩ := x
  cases b with
  | false => rfl
  | true => rcases h with h | h
            · cases h
            · subst h; rfl

/-- A message in which one of the parameters has a wrong type is refused (the exception reaches the
controller). -/
theorem C24_wrong_type_refused (avail : Nat → Bool) (s : State) (m : Msg)
    (h : m.level = some none ∨ m.shuffle = some none ∨ m.threads = some none ∨ m.compressor = some none) :
    (configure avail s m).2 = false := by
  unfold configure
  rcases h with h | h | h | h
  · exact item_failed _ _ _ _ (Or.inl (item_failed _ _ _ _ (Or.inl (item_failed _ _ _ _ (Or.inl
      (item_failed _ _ _ _ (Or.inr h)))))))
  · exact item_failed _ _ _ _ (Or.inl (item_failed _ _ _ _ (Or.inl (item_failed _ _ _ _ (Or.inr h)))))
  · exact item_failed _ _ _ _ (Or.inl (item_failed _ _ _ _ (Or.inr h)))
  · exact item_failed _ _ _ _ (Or.inr h)

example : configure (fun _ => true) init { level := some (some 3), threads := some none, compressor := some (some 5) }
    = ({ init with commanded := ⟨3, 2, 1, 1⟩, latched := ⟨3, 2, 1, 1⟩ }, false) := by decide

/-- The lower bound of the threads is not checked: 0 threads are accepted. -/
theorem C24_zero_threads : (run (fun _ => true) init [.config { threads := some (some 0) }]).1.latched.threads = 0 := by
  decide

theorem store_commanded (avail : Nat → Bool) (s : State) (c : Settings) : (store avail s c).1.commanded = c := by
  unfold store update
  split
  · split <;> rfl
  · rfl

/-- What is stored for a setting, in or between acquisitions: the value that is sent if it is in the range, otherwise the nearest level, no
shuffling, eight threads, LZ4. The other settings stay as they are. -/
theorem C24_values (avail : Nat → Bool) (s : State) :
    (∀ n, (configure avail s { level := some (some n) }).1.commanded =
      { s.commanded with level := max 1 (min 9 n) }) ∧
    (∀ n, (configure avail s { shuffle := some (some n) }).1.commanded =
      { s.commanded with shuffle := if n ∈ [0, 1, 2] then n else 0 }) ∧
    (∀ n, (configure avail s { threads := some (some n) }).1.commanded =
      { s.commanded with threads := if n ≤ 256 then n else 8 }) ∧
    (∀ n, (configure avail s { compressor := some (some n) }).1.commanded =
      { s.commanded with compressor := if n ∈ [0, 1, 2, 3, 4, 5] then n else 1 }) := by
  have stop : ∀ {α : Type} (f : α → Settings → Settings) (x : State × Bool), (item avail none f x).1 = x.1 := by
    intro α f x
    obtain ⟨t, b⟩ := x
    cases b <;> rfl
  have go : ∀ {α : Type} (f : α → Settings → Settings) (n : α), (item avail (some (some n)) f (s, true)).1.commanded = f n s.commanded :=
    fun f n => store_commanded avail s _
  have skip : ∀ {α : Type} (f : α → Settings → Settings), item avail none f (s, true) = (s, true) := fun f => rfl
  refine ⟨fun n => ?_, fun n => ?_, fun n => ?_, fun n => ?_⟩
  · unfold configure
    rw [stop, stop, stop, go]
    have : clampLevel n = max 1 (min 9 n) := by unfold clampLevel; split <;> (try split) <;> omega
    simp only [this]
  · unfold configure
    rw [stop, stop, skip, go]
    have : clampShuffle n = if n ∈ [0, 1, 2] then n else 0 := by
      unfold clampShuffle maxShuffle
      simp only [List.mem_cons, List.not_mem_nil, or_false]
      split <;> split <;> omega
    simp only [this]
  · unfold configure
    rw [stop, skip, skip, go]
    have : clampThreads n = if n ≤ 256 then n else 8 := by
      unfold clampThreads maxThreads
      split <;> split <;> omega
    simp only [this]
  · unfold configure
    rw [skip, skip, skip, go]
    have : clampCompressor n = if n ∈ [0, 1, 2, 3, 4, 5] then n else 1 := by
      unfold clampCompressor maxCompressor
      simp only [List.mem_cons, List.not_mem_nil, or_false]
      split <;> split <;> omega
    simp only [this]

example : (configure (fun _ => true) init { threads := some (some 300) }).1.commanded.threads = 8 ∧
    (configure (fun _ => true) init { threads := some (some 256) }).1.commanded.threads = 256 := by decide

/-- Non-vacuity of `C24_partial`: settings changed in the middle of an acquisition take effect in the next. -/
example : (run (fun _ => true) init [.config { level := some (some 5) }, .frame "a",
      .config { level := some (some 20), shuffle := some (some 7) }, .frame "a", .frame "b"]).2
    = [none, some ⟨5, 2, 1, 1⟩, none, some ⟨5, 2, 1, 1⟩, some ⟨9, 0, 1, 1⟩] := by
  decide

end Verif.Blosc
