import Verif.Model.Handles

/-!
C122: all HDF5 handles of a file are closed.
-/
namespace Verif.Handles

namespace Spec

/-- How many handles are lost for good if a call fails. -/
def left : Call → Nat
  | .pcreateFapl => 0
  | .setDegree => 1
  | .setAlign => 1
  | .setLibver => 1
  | .pcreateFcpl => 1
  | .fcreate => 2
  | .pcloseFapl => 2
  | .pcloseFcpl => 1
  | .screateMem => 0
  | .screateSpace => 0
  | .pcreateProp => 1
  | .setFilter => 2
  | .setChunk => 2
  | .setFill => 2
  | .pcreateDapl => 2
  | .dcreate => 3
  | .screateLow => 3
  | .acreateLow => 4
  | .awriteLow => 4
  | .acloseLow => 4
  | .scloseLow => 4
  | .screateHigh => 3
  | .acreateHigh => 4
  | .awriteHigh => 4
  | .acloseHigh => 4
  | .scloseHigh => 4
  | .pcloseProp => 3
  | .pcloseDapl => 2
  | .scloseSpace => 1
  | .setExtent => 0
  | .writeChunk => 0
  | .dflush => 0
  | .dgetSpace => 0
  | .selectSlab => 1
  | .dwrite => 1
  | .scloseFspace => 1
  | .startSwmr => 0
  | .dclose _ => 0
  | .fclose => 0
  | .scloseMem => 0

end Spec
open Spec

/-- Handles kept in local variables only. -/
def temp : Kind → Bool
  | .file => false
  | .mem => false
  | .attr => false
  | .dset _ => false
  | _ => true

/-- What holds between the calls of a function that holds the local handles `loc`, when `n` others are lost and the
datasets `ds` are open. -/
structure InvD (s : H) (ds : List String) (loc : List Kind) (n : Nat) : Prop where
  temps : ∃ lost, (s.openH.filter temp).Perm (loc ++ lost) ∧ lost.length = n
  file : s.openH.count .file = if s.file then 1 else 0
  mem : s.openH.count .mem = if s.mem then 1 else 0
  owns : s.file = false → ∀ k ∈ s.openH, owned k = false
  nodup : ds.Nodup
  dsets : ∀ m ∈ ds, .dset m ∈ s.openH
  names : ∀ m, .dset m ∈ s.openH → m ∈ s.names
  once : ∀ m, s.openH.count (.dset m) ≤ 1

abbrev Inv (s : H) (loc : List Kind) (n : Nat) : Prop := InvD s s.dsets loc n

/-- Local handles after an action. -/
def track (loc : List Kind) : Act → List Kind
  | .make k => if temp k then k :: loc else loc
  | .drop k => if temp k then loc.erase k else loc
  | _ => loc

/-- Actions on local handles and attributes, in scope. -/
def plain (loc : List Kind) : Act → Bool
  | .use => true
  | .make k => temp k || k == .attr
  | .drop k => (temp k && loc.contains k) || k == .attr
  | _ => false

/-- A list of such actions, with the number of local handles held as in the table. -/
def okP : List Instr → List Kind → Bool
  | [], _ => true
  | ⟨none, _⟩ :: _, _ => false
  | ⟨some c, a⟩ :: p, loc => plain loc a && left c == loc.length && okP p (track loc a)

def trackAll : List Instr → List Kind → List Kind
  | [], loc => loc
  | i :: p, loc => trackAll p (track loc i.act)

theorem temp_not_owned (k : Kind) (h : temp k = true) : owned k = false := by cases k <;> simp_all [temp, owned]

theorem InvD.failed {s : H} {ds : List String} {loc : List Kind} {n : Nat} (h : InvD s ds loc n) : InvD s ds [] (n + loc.length) := by
  obtain ⟨lost, hp, hl⟩ := h.temps
  exact { h with temps := ⟨loc ++ lost, by simpa using hp, by simp [hl]; omega⟩ }

/-- The parts of the state that such actions leave alone. -/
def Same (s t : H) : Prop := t.file = s.file ∧ t.mem = s.mem ∧ t.dsets = s.dsets ∧ t.names = s.names

theorem Same.trans {a b c : H} (h : Same a b) (g : Same b c) : Same a c :=
  ⟨g.1.trans h.1, g.2.1.trans h.2.1, g.2.2.1.trans h.2.2.1, g.2.2.2.trans h.2.2.2⟩

theorem make_temp (s : H) (k : Kind) (h : temp k = true) : make s k = some { s with openH := k :: s.openH } := by
  cases k <;> simp_all [temp, make]

theorem drop_temp (s : H) (k : Kind) (h : temp k = true) (ho : k ∈ s.openH) : drop s k = some { s with openH := s.openH.erase k } := by
  cases k <;> simp_all [temp, drop]

theorem cons_keeps {s : H} {ds : List String} {loc : List Kind} {n : Nat} (h : InvD s ds loc n) (k : Kind)
    (hk : temp k = true ∨ (k = .attr ∧ s.file = true)) :
    InvD { s with openH := k :: s.openH } ds (if temp k then k :: loc else loc) n := by
  obtain ⟨lost, hp, hl⟩ := h.temps
  have h1 : k ≠ .file := by rintro rfl; rcases hk with hk | hk <;> simp [temp] at hk
  have h2 : k ≠ .mem := by rintro rfl; rcases hk with hk | hk <;> simp [temp] at hk
  have h3 : ∀ m, k ≠ .dset m := by rintro m rfl; rcases hk with hk | hk <;> simp [temp] at hk
  refine ⟨⟨lost, ?_, hl⟩, ?_, ?_, ?_, h.nodup, ?_, ?_, ?_⟩
  · by_cases ht : temp k = true
    · simp only [ht, if_true, List.filter_cons_of_pos, List.cons_append]
      exact hp.cons k
    · rw [if_neg ht]
      simpa [ht] using hp
  · simpa [List.count_cons, h1] using h.file
  · simpa [List.count_cons, h2] using h.mem
  · intro hf x hx
    rcases List.mem_cons.1 hx with rfl | hx
    · rcases hk with hk | hk
      · exact temp_not_owned _ hk
      · rw [hk.2] at hf; cases hf
    · exact h.owns hf x hx
  · intro m hm
    exact List.mem_cons_of_mem _ (h.dsets m hm)
  · intro m hm
    rcases List.mem_cons.1 hm with hm | hm
    · exact absurd hm.symm (h3 m)
    · exact h.names m hm
  · intro m
    simpa [List.count_cons, h3] using h.once m

theorem erase_keeps {s : H} {ds : List String} {loc : List Kind} {n : Nat} (h : InvD s ds loc n) (k : Kind)
    (hk : (temp k = true ∧ k ∈ loc) ∨ k = .attr) :
    InvD { s with openH := s.openH.erase k } ds (if temp k then loc.erase k else loc) n := by
  obtain ⟨lost, hp, hl⟩ := h.temps
  have h1 : Kind.file ≠ k := by rintro rfl; rcases hk with hk | hk <;> simp [temp] at hk
  have h2 : Kind.mem ≠ k := by rintro rfl; rcases hk with hk | hk <;> simp [temp] at hk
  have h3 : ∀ m, Kind.dset m ≠ k := by rintro m rfl; rcases hk with hk | hk <;> simp [temp] at hk
  refine ⟨⟨lost, ?_, hl⟩, ?_, ?_, ?_, h.nodup, ?_, ?_, ?_⟩
  · rw [← List.erase_filter]
    rcases hk with ⟨ht, hm⟩ | rfl
    · rw [if_pos ht, ← List.erase_append_left _ hm]
      exact hp.erase k
    · rw [List.erase_of_not_mem (by simp [temp])]
      exact hp
  · rw [List.count_erase_of_ne h1]; exact h.file
  · rw [List.count_erase_of_ne h2]; exact h.mem
  · intro hf x hx
    exact h.owns hf x (List.mem_of_mem_erase hx)
  · intro m hm
    exact (List.mem_erase_of_ne (h3 m)).2 (h.dsets m hm)
  · intro m hm
    exact h.names m (List.mem_of_mem_erase hm)
  · intro m
    rw [List.count_erase_of_ne (h3 m)]
    exact h.once m

theorem act_plain {s : H} {ds : List String} {loc : List Kind} {n : Nat} (h : InvD s ds loc n) (a : Act) (hp : plain loc a = true)
    (t : H) (ht : act s a = some t) : InvD t ds (track loc a) n ∧ Same s t := by
  cases a with
  | use => cases ht; exact ⟨h, rfl, rfl, rfl, rfl⟩
  | make k =>
    simp only [plain, Bool.or_eq_true, beq_iff_eq] at hp
    rcases hp with hp | rfl
    · have e : act s (.make k) = _ := make_temp s k hp
      rw [e] at ht
      cases ht
      exact ⟨cons_keeps h k (Or.inl hp), rfl, rfl, rfl, rfl⟩
    · by_cases hf : s.file = true
      · simp only [act, make, hf, if_true, Option.some.injEq] at ht
        subst ht
        have := cons_keeps h .attr (Or.inr ⟨rfl, hf⟩)
        exact ⟨by simpa [hf, track, temp] using this, hf.symm, rfl, rfl, rfl⟩
      · simp [act, make, hf] at ht
  | drop k =>
    simp only [plain, Bool.or_eq_true, Bool.and_eq_true, beq_iff_eq, List.contains_iff_mem] at hp
    rcases hp with ⟨hp, hm⟩ | rfl
    · by_cases ho : k ∈ s.openH
      · have e : act s (.drop k) = _ := drop_temp s k hp ho
        rw [e] at ht
        cases ht
        exact ⟨erase_keeps h k (Or.inl ⟨hp, hm⟩), rfl, rfl, rfl, rfl⟩
      · cases k <;> simp_all [act, drop]
    · by_cases ho : Kind.attr ∈ s.openH
      · simp only [act, drop, List.contains_iff_mem, ho, if_true, Option.some.injEq] at ht
        subst ht
        have := erase_keeps h .attr (Or.inr rfl)
        exact ⟨by simpa [track, temp] using this, rfl, rfl, rfl, rfl⟩
      · simp [act, drop, ho] at ht
  | enter m => simp [plain] at hp
  | clear => simp [plain] at hp

/-- A list of calls on local handles: if none fails the local handles are as tracked, else those held are lost. -/
theorem exec_plain (fails : Call → Bool) (p : List Instr) {s : H} {ds : List String} {loc : List Kind} {n : Nat} (h : InvD s ds loc n)
    (hp : okP p loc = true) :
    Same s (exec fails p s).1 ∧
      match (exec fails p s).2 with
      | none => InvD (exec fails p s).1 ds (trackAll p loc) n
      | some c => InvD (exec fails p s).1 ds [] (n + left c) := by
  induction p generalizing s loc with
  | nil => exact ⟨⟨rfl, rfl, rfl, rfl⟩, h⟩
  | cons i p ih =>
    obtain ⟨c, a⟩ := i
    cases c with
    | none => simp [okP] at hp
    | some c =>
      simp only [okP, Bool.and_eq_true, beq_iff_eq] at hp
      obtain ⟨⟨h1, h2⟩, h3⟩ := hp
      unfold exec
      split
      · refine ⟨⟨rfl, rfl, rfl, rfl⟩, ?_⟩
        dsimp only
        rw [h2]
        exact h.failed
      · cases e : act s a with
        | none =>
          refine ⟨⟨rfl, rfl, rfl, rfl⟩, ?_⟩
          dsimp only
          rw [h2]
          exact h.failed
        | some t =>
          obtain ⟨h4, h5⟩ := act_plain h a h1 t e
          obtain ⟨h6, h7⟩ := ih h4 h3
          exact ⟨h5.trans h6, h7⟩

theorem exec_append (fails : Call → Bool) (p q : List Instr) (s : H) :
    exec fails (p ++ q) s = match exec fails p s with
      | (t, none) => exec fails q t
      | (t, some c) => (t, some c) := by
  induction p generalizing s with
  | nil => rfl
  | cons i p ih =>
    obtain ⟨c, a⟩ := i
    cases c with
    | none => exact ih _
    | some c =>
      rw [List.cons_append]
      simp only [exec]
      split
      · rfl
      · cases act s a with
        | none => rfl
        | some t => exact ih t

/-- What a function leaves behind. -/
def Leaves (r : H × Option Call) (n : Nat) : Prop := Inv r.1 [] (n + (r.2.toList.map left).sum)

theorem leaves_none {t : H} {n : Nat} (h : Inv t [] n) : Leaves (t, none) n := by simpa [Leaves] using h

theorem leaves_some {t : H} {n : Nat} {c : Call} (h : Inv t [] (n + left c)) : Leaves (t, some c) n := by simpa [Leaves] using h

/-- A function made of such calls only. -/
theorem leaves_plain (fails : Call → Bool) (p : List Instr) {s : H} {n : Nat} (h : Inv s [] n) (hp : okP p [] = true)
    (ht : trackAll p [] = []) : Leaves (exec fails p s) n := by
  obtain ⟨h1, h2⟩ := exec_plain fails p h hp
  have hd := h1.2.2.1
  cases e : (exec fails p s).2 with
  | none =>
    rw [e] at h2
    dsimp only at h2
    rw [ht, ← hd] at h2
    simpa [Leaves, e] using h2
  | some c =>
    rw [e] at h2
    dsimp only at h2
    rw [← hd] at h2
    simpa [Leaves, e] using h2

/-- The same in front of something else. -/
theorem exec_then (fails : Call → Bool) (p q : List Instr) {s : H} {loc : List Kind} {n : Nat} (h : Inv s loc n)
    (hp : okP p loc = true)
    (hq : ∀ t, Same s t → Inv t (trackAll p loc) n → Leaves (exec fails q t) n) :
    Leaves (exec fails (p ++ q) s) n := by
  obtain ⟨h1, h2⟩ := exec_plain fails p h hp
  rw [exec_append]
  generalize exec fails p s = r at h1 h2
  obtain ⟨t, c⟩ := r
  have hd : t.dsets = s.dsets := h1.2.2.1
  cases c with
  | none =>
    dsimp only at h2 ⊢
    rw [← hd] at h2
    exact hq t h1 h2
  | some c =>
    dsimp only at h2 ⊢
    rw [← hd] at h2
    exact leaves_some h2

theorem exec_one (fails : Call → Bool) (c : Call) (a : Act) (q : List Instr) {s : H} {loc : List Kind} {n : Nat} (h : Inv s loc n)
    (hl : left c = loc.length) (hq : ∀ t, act s a = some t → Leaves (exec fails q t) n) :
    Leaves (exec fails (call c a :: q) s) n := by
  unfold call exec
  split
  · exact leaves_some (by rw [hl]; exact h.failed)
  · cases e : act s a with
    | none => exact leaves_some (by rw [hl]; exact h.failed)
    | some t => exact hq t e

theorem leaves_create (fails : Call → Bool) : Leaves (exec fails createFile {}) 0 := by
  have h0 : Inv {} [] 0 :=
    ⟨⟨[], by simp, rfl⟩, rfl, rfl, (fun _ _ h => by cases h), List.nodup_nil, (fun _ h => by cases h), (fun _ h => by cases h), fun _ => by simp⟩
  have e : createFile = [call .pcreateFapl (.make .fapl), call .setDegree .use, call .setAlign .use, call .setLibver .use,
      call .pcreateFcpl (.make .fcpl)] ++ (call .fcreate (.make .file) ::
      ([call .pcloseFapl (.drop .fapl), call .pcloseFcpl (.drop .fcpl)] ++ [call .screateMem (.make .mem)])) := rfl
  rw [e]
  refine exec_then fails _ _ h0 (by decide) ?_
  intro t hs ht
  replace ht : Inv t [.fcpl, .fapl] 0 := ht
  refine exec_one fails _ _ _ ht (by decide) ?_
  intro u hu
  simp only [act, make, Option.some.injEq] at hu
  subst hu
  have hf : t.file = false := hs.1
  have hm : t.mem = false := hs.2.1
  have hd : t.dsets = [] := hs.2.2.1
  have hown := ht.owns hf
  have h1 : Inv { t with openH := .file :: t.openH, file := true, names := [] } [.fcpl, .fapl] 0 := by
    obtain ⟨lost, hp, hl⟩ := ht.temps
    have hcf := ht.file
    rw [hf] at hcf
    refine ⟨⟨lost, by simpa [temp] using hp, hl⟩, ?_, ?_, by simp, ht.nodup, ?_, ?_, ?_⟩
    · simpa [List.count_cons] using hcf
    · simpa [List.count_cons] using ht.mem
    · intro m hm
      simp only [hd] at hm
      cases hm
    · intro m hm
      have hm : Kind.dset m ∈ t.openH := by simpa using hm
      have := hown _ hm
      simp [owned] at this
    · intro m
      simpa [List.count_cons] using ht.once m
  refine exec_then fails _ _ h1 (by decide) ?_
  intro v hv hi
  replace hi : Inv v [] 0 := hi
  refine exec_one fails _ _ _ hi (by decide) ?_
  intro w hw
  simp only [act, make, Option.some.injEq] at hw
  subst hw
  refine leaves_none ?_
  have hvm : v.mem = false := hv.2.1.trans hm
  obtain ⟨lost, hp, hl⟩ := hi.temps
  have hcm := hi.mem
  rw [hvm] at hcm
  refine ⟨⟨lost, by simpa [temp] using hp, hl⟩, ?_, ?_, ?_, hi.nodup, ?_, ?_, ?_⟩
  · simpa [List.count_cons] using hi.file
  · simpa [List.count_cons] using hcm
  · intro hf x hx
    rcases List.mem_cons.1 hx with rfl | hx
    · rfl
    · exact hi.owns hf x hx
  · intro m hm
    exact List.mem_cons_of_mem _ (hi.dsets m hm)
  · intro m hm
    exact hi.names m (by simpa using hm)
  · intro m
    simpa [List.count_cons] using hi.once m

theorem mem_insert (n m : String) (l : List String) : m ∈ insertName n l ↔ m = n ∨ m ∈ l := by
  induction l with
  | nil => simp [insertName]
  | cons a l ih =>
    unfold insertName
    split
    · simp
    · simp only [List.mem_cons, ih]
      constructor
      · rintro (h | h | h) <;> simp [h]
      · rintro (h | h | h) <;> simp [h]

theorem nodup_insert (n : String) (l : List String) (hn : n ∉ l) (h : l.Nodup) : (insertName n l).Nodup := by
  induction l with
  | nil => simp [insertName]
  | cons a l ih =>
    obtain ⟨h1, h2⟩ := List.nodup_cons.1 h
    unfold insertName
    split
    · exact List.nodup_cons.2 ⟨hn, h⟩
    · refine List.nodup_cons.2 ⟨?_, ih (fun hm => hn (List.mem_cons_of_mem _ hm)) h2⟩
      rw [mem_insert]
      rintro (rfl | hm)
      · exact hn (by simp)
      · exact h1 hm

theorem leaves_tail (fails : Call → Bool) (name : String) {s : H} {n : Nat} (h : Inv s [.dapl, .prop, .dataspace] n)
    (hn : name ∉ s.dsets) (ho : .dset name ∈ s.openH) :
    Leaves (exec fails [⟨none, .enter name⟩, call .pcloseProp (.drop .prop), call .pcloseDapl (.drop .dapl),
      call .scloseSpace (.drop .dataspace)] s) n := by
  have h1 : Inv { s with dsets := insertName name s.dsets } [.dapl, .prop, .dataspace] n := by
    refine { h with nodup := nodup_insert _ _ hn h.nodup, dsets := ?_ }
    intro m hm
    rcases (mem_insert _ _ _).1 hm with rfl | hm
    · exact ho
    · exact h.dsets m hm
  show Leaves (exec fails [call .pcloseProp (.drop .prop), call .pcloseDapl (.drop .dapl),
      call .scloseSpace (.drop .dataspace)] { s with dsets := insertName name s.dsets }) n
  have := exec_then fails [call .pcloseProp (.drop .prop), call .pcloseDapl (.drop .dapl),
      call .scloseSpace (.drop .dataspace)] [] h1 (by decide) (fun t _ ht => leaves_none ht)
  simpa using this

theorem exec_mid (fails : Call → Bool) (p q : List Instr) (name : String) {s : H} {loc : List Kind} {n : Nat}
    (h : Inv s loc n) (hn : name ∉ s.dsets) (ho : .dset name ∈ s.openH) (hp : okP p loc = true)
    (hq : ∀ t, Inv t (trackAll p loc) n → name ∉ t.dsets → .dset name ∈ t.openH → Leaves (exec fails q t) n) :
    Leaves (exec fails (p ++ q) s) n := by
  have h' : InvD s (name :: s.dsets) loc n :=
    { h with
      nodup := List.nodup_cons.2 ⟨hn, h.nodup⟩
      dsets := by
        intro m hm
        rcases List.mem_cons.1 hm with rfl | hm
        · exact ho
        · exact h.dsets m hm }
  obtain ⟨h1, h2⟩ := exec_plain fails p h' hp
  rw [exec_append]
  generalize exec fails p s = r at h1 h2
  obtain ⟨t, c⟩ := r
  have hd : t.dsets = s.dsets := h1.2.2.1
  have back : ∀ loc n, InvD t (name :: s.dsets) loc n → Inv t loc n := by
    intro loc n g
    show InvD t t.dsets loc n
    rw [hd]
    exact { g with nodup := (List.nodup_cons.1 g.nodup).2, dsets := fun m hm => g.dsets m (List.mem_cons_of_mem _ hm) }
  cases c with
  | none =>
    dsimp only at h2 ⊢
    exact hq t (back _ _ h2) (by rw [hd]; exact hn) (h2.dsets name (by simp))
  | some c =>
    dsimp only at h2 ⊢
    exact leaves_some (back _ _ h2)

theorem leaves_dataset (fails : Call → Bool) (name : String) (filter indexes : Bool) {s : H} {n : Nat} (h : Inv s [] n) :
    Leaves (exec fails (createDataset name filter indexes) s) n := by
  have e : createDataset name filter indexes =
      ([call .screateSpace (.make .dataspace), call .pcreateProp (.make .prop)] ++
        ((if filter then [call .setFilter .use] else []) ++
        [call .setChunk .use, call .setFill .use, call .pcreateDapl (.make .dapl)])) ++
      (call .dcreate (.make (.dset name)) :: ((if indexes then attributes else []) ++
      [⟨none, .enter name⟩, call .pcloseProp (.drop .prop), call .pcloseDapl (.drop .dapl), call .scloseSpace (.drop .dataspace)])) := by
    unfold createDataset
    simp
  rw [e]
  refine exec_then fails _ _ h (by cases filter <;> decide) ?_
  intro t hs ht
  have e2 : trackAll ([call .screateSpace (.make .dataspace), call .pcreateProp (.make .prop)] ++
        ((if filter then [call .setFilter .use] else []) ++
        [call .setChunk .use, call .setFill .use, call .pcreateDapl (.make .dapl)])) [] = [.dapl, .prop, .dataspace] := by
    cases filter <;> decide
  rw [e2] at ht
  refine exec_one fails _ _ _ ht (by decide) ?_
  intro u hu
  simp only [act, make] at hu
  split at hu
  · next hc =>
    simp only [Option.some.injEq] at hu
    subst hu
    simp only [Bool.and_eq_true, Bool.not_eq_true', List.contains_eq_mem, decide_eq_false_iff_not] at hc
    obtain ⟨hf, hnm⟩ := hc
    have hno : .dset name ∉ t.openH := fun hm => hnm (ht.names name hm)
    have hnd : name ∉ t.dsets := fun hm => hno (ht.dsets name hm)
    have h1 : Inv { t with openH := .dset name :: t.openH, names := name :: t.names } [.dapl, .prop, .dataspace] n := by
      obtain ⟨lost, hp, hl⟩ := ht.temps
      refine ⟨⟨lost, by simpa [temp] using hp, hl⟩, ?_, ?_, ?_, ht.nodup, ?_, ?_, ?_⟩
      · simpa [List.count_cons] using ht.file
      · simpa [List.count_cons] using ht.mem
      · intro hf2
        have hf2 : t.file = false := hf2
        rw [hf] at hf2
        cases hf2
      · intro m hm
        exact List.mem_cons_of_mem _ (ht.dsets m hm)
      · intro m hm
        rcases List.mem_cons.1 hm with hm | hm
        · cases hm; simp
        · exact List.mem_cons_of_mem _ (ht.names m hm)
      · intro m
        by_cases hmn : m = name
        · subst hmn
          simp [List.count_eq_zero.2 hno]
        · have : Kind.dset name ≠ .dset m := by intro e; cases e; exact hmn rfl
          simpa [List.count_cons, this] using ht.once m
    refine exec_mid fails _ _ name h1 hnd (by simp) (by cases indexes <;> decide) ?_
    intro v hv hvn hvo
    have e3 : trackAll (if indexes then attributes else []) [.dapl, .prop, .dataspace] = [.dapl, .prop, .dataspace] := by
      cases indexes <;> decide
    rw [e3] at hv
    exact leaves_tail fails name hv hvn hvo
  · cases hu

theorem leaves_frame (fails : Call → Bool) (e f : Bool) {s : H} {n : Nat} (h : Inv s [] n) :
    Leaves (exec fails (writeFrame e f) s) n :=
  leaves_plain fails _ h (by cases e <;> cases f <;> decide) (by cases e <;> cases f <;> decide)

theorem leaves_param (fails : Call → Bool) (e f : Bool) {s : H} {n : Nat} (h : Inv s [] n) :
    Leaves (exec fails (writeParameter e f) s) n :=
  leaves_plain fails _ h (by cases e <;> cases f <;> decide) (by cases e <;> cases f <;> decide)

def closes (l : List String) : List Instr := l.map (fun n => call (.dclose n) (.drop (.dset n)))

theorem drop_dset {s : H} {m : String} {ds : List String} {loc : List Kind} {n : Nat} (h : InvD s (m :: ds) loc n) :
    drop s (.dset m) = some { s with openH := s.openH.erase (.dset m) } ∧
      InvD { s with openH := s.openH.erase (.dset m) } ds loc n := by
  have ho : .dset m ∈ s.openH := h.dsets m (by simp)
  obtain ⟨hm, hd⟩ := List.nodup_cons.1 h.nodup
  refine ⟨by simp [drop, ho], ?_⟩
  obtain ⟨lost, hp, hl⟩ := h.temps
  refine ⟨⟨lost, ?_, hl⟩, ?_, ?_, ?_, hd, ?_, ?_, ?_⟩
  · rw [← List.erase_filter, List.erase_of_not_mem (by simp [temp])]
    exact hp
  · rw [List.count_erase_of_ne (by simp)]; exact h.file
  · rw [List.count_erase_of_ne (by simp)]; exact h.mem
  · intro hf x hx
    exact h.owns hf x (List.mem_of_mem_erase hx)
  · intro x hx
    refine (List.mem_erase_of_ne ?_).2 (h.dsets x (List.mem_cons_of_mem _ hx))
    intro e
    cases e
    exact hm hx
  · intro x hx
    exact h.names x (List.mem_of_mem_erase hx)
  · intro x
    exact Nat.le_trans (List.erase_sublist.count_le _) (h.once x)

theorem exec_closes (fails : Call → Bool) (l : List String) {s : H} {n : Nat} (h : InvD s l [] n) :
    Same s (exec fails (closes l) s).1 ∧
      match (exec fails (closes l) s).2 with
      | none => InvD (exec fails (closes l) s).1 [] [] n
      | some c => ∃ m, c = .dclose m ∧ fails c = true := by
  induction l generalizing s with
  | nil => exact ⟨⟨rfl, rfl, rfl, rfl⟩, h⟩
  | cons m l ih =>
    obtain ⟨h1, h2⟩ := drop_dset h
    have e : closes (m :: l) = ⟨some (.dclose m), .drop (.dset m)⟩ :: closes l := rfl
    rw [e]
    simp only [exec]
    split
    · next hc => exact ⟨⟨rfl, rfl, rfl, rfl⟩, m, rfl, hc⟩
    · simp only [act, h1]
      obtain ⟨h3, h4⟩ := ih h2
      exact ⟨Same.trans ⟨rfl, rfl, rfl, rfl⟩ h3, h4⟩

theorem drop_file {s : H} {n : Nat} (h : Inv s [] n) (hf : s.file = true) (hd : s.dsets = []) :
    drop s .file = some { s with openH := s.openH.filter (fun k => !owned k), file := false } ∧
      Inv { s with openH := s.openH.filter (fun k => !owned k), file := false } [] n := by
  have ho : Kind.file ∈ s.openH := by
    have := h.file
    rw [hf] at this
    exact List.count_pos_iff.1 (by rw [this]; simp)
  refine ⟨by simp [drop, ho], ?_⟩
  obtain ⟨lost, hp, hl⟩ := h.temps
  refine ⟨⟨lost, ?_, hl⟩, ?_, ?_, ?_, h.nodup, ?_, ?_, ?_⟩
  · have e : (s.openH.filter (fun k => !owned k)).filter temp = s.openH.filter temp := by
      rw [List.filter_filter]
      refine List.filter_congr ?_
      intro k _
      cases k <;> rfl
    rw [e]
    exact hp
  · simp [List.count_eq_zero, owned]
  · rw [List.count_filter (by rfl)]
    exact h.mem
  · intro _ k hk
    simpa using (List.mem_filter.1 hk).2
  · intro m hm
    simp only [hd] at hm
    cases hm
  · intro m hm
    simp [owned] at hm
  · intro m
    exact Nat.le_trans (List.filter_sublist.count_le _) (h.once m)

/-- Closing a file: it fails only where the library fails a call, and if that is not at a dataset nothing is lost. -/
theorem exec_close (fails : Call → Bool) {s : H} {n : Nat} (h : Inv s [] n) :
    (exec fails (closeFile s) s).1.mem = s.mem ∧
    match (exec fails (closeFile s) s).2 with
    | none => Inv (exec fails (closeFile s) s).1 [] n ∧ (exec fails (closeFile s) s).1.file = false
    | some c => fails c = true ∧ ((∃ m, c = .dclose m) ∨ (Inv (exec fails (closeFile s) s).1 [] n ∧ left c = 0)) := by
  by_cases hf : s.file = true
  · have e : closeFile s = closes s.dsets ++ [⟨none, .clear⟩, ⟨some .fclose, .drop .file⟩] := by simp [closeFile, hf, closes, call]
    rw [e, exec_append]
    obtain ⟨h1, h2⟩ := exec_closes fails s.dsets h
    generalize exec fails (closes s.dsets) s = r at h1 h2
    obtain ⟨t, c⟩ := r
    cases c with
    | some c =>
      dsimp only at h2 ⊢
      obtain ⟨m, hm, hc⟩ := h2
      exact ⟨h1.2.1, hc, Or.inl ⟨m, hm⟩⟩
    | none =>
      dsimp only at h2 ⊢
      have h3 : Inv { t with dsets := [] } [] n := { h2 with }
      obtain ⟨h4, h5⟩ := drop_file h3 (h1.1.trans hf) rfl
      simp only [exec, act, Option.getD_some]
      split
      · next hc => exact ⟨h1.2.1, hc, Or.inr ⟨h3, rfl⟩⟩
      · rw [h4]
        exact ⟨h1.2.1, h5, rfl⟩
  · have e : closeFile s = [] := by simp [closeFile, hf]
    rw [e]
    exact ⟨rfl, h, show s.file = false by simpa using hf⟩

/-- A failure to close a dataset. -/
def isDclose : Call → Bool
  | .dclose _ => true
  | _ => false

theorem leaves_op (fails : Call → Bool) (op : Op) {s : H} {n : Nat} (h : Inv s [] n)
    (hd : ∀ c ∈ (exec fails (op.calls s) s).2, isDclose c = false) : Leaves (exec fails (op.calls s) s) n := by
  cases op with
  | dataset name ok f i =>
    cases ok with
    | true => exact leaves_dataset fails name f i h
    | false => exact leaves_none h
  | frame name e f =>
    simp only [Op.calls]
    split
    · exact leaves_frame fails e f h
    · exact leaves_none h
  | param name ok e f =>
    simp only [Op.calls]
    split
    · exact leaves_param fails e f h
    · exact leaves_none h
  | swmr => exact leaves_plain fails _ h rfl rfl
  | close =>
    simp only [Op.calls] at hd ⊢
    obtain ⟨_, h2⟩ := exec_close fails h
    generalize exec fails (closeFile s) s = r at hd h2
    obtain ⟨t, c⟩ := r
    cases c with
    | none => exact leaves_none h2.1
    | some c =>
      dsimp only at h2 hd
      obtain ⟨_, ⟨m, rfl⟩ | ⟨h3, h4⟩⟩ := h2
      · have := hd _ rfl
        simp [isDclose] at this
      · exact leaves_some (by rw [h4]; exact h3)

theorem leaves_life (ops : List (Op × (Call → Bool))) {s : H} {n : Nat} (h : Inv s [] n)
    (hd : ∀ c ∈ (life ops s).2, isDclose c = false) :
    Inv (life ops s).1 [] (n + ((life ops s).2.map left).sum) := by
  induction ops generalizing s n with
  | nil => simpa [life] using h
  | cons a ops ih =>
    obtain ⟨op, fails⟩ := a
    simp only [life] at hd ⊢
    have h1 := leaves_op fails op h (fun c hc => hd c (List.mem_append_left _ (by simpa using hc)))
    have h2 := ih h1 (fun c hc => hd c (List.mem_append_right _ hc))
    rw [List.map_append, List.sum_append, ← Nat.add_assoc]
    exact h2

theorem exec_destroy {s : H} {n : Nat} (h : Inv s [] n) :
    (exec (fun _ => false) (destroy s) s).2 = none ∧ (exec (fun _ => false) (destroy s) s).1.openH.length = n := by
  unfold destroy
  rw [exec_append]
  obtain ⟨h1, h2⟩ := exec_close (fun _ => false) h
  generalize exec (fun _ => false) (closeFile s) s = r at h1 h2
  obtain ⟨t, c⟩ := r
  cases c with
  | some c => exact absurd h2.1 (by simp)
  | none =>
    dsimp only at h1 h2 ⊢
    obtain ⟨h2, h3⟩ := h2
    obtain ⟨lost, hp, hl⟩ := h2.temps
    have hown := h2.owns h3
    have hmem := h2.mem
    rw [h1] at hmem
    rw [List.nil_append] at hp
    cases hm : s.mem with
    | false =>
      rw [hm] at hmem
      refine ⟨rfl, ?_⟩
      have e : t.openH.filter temp = t.openH := by
        rw [List.filter_eq_self]
        intro k hk
        have h4 := hown k hk
        cases k <;> first | rfl | cases h4 | skip
        exact absurd hk (List.count_eq_zero.1 hmem)
      rw [e] at hp
      show t.openH.length = n
      rw [hp.length_eq, hl]
    | true =>
      rw [hm] at hmem
      have ho : Kind.mem ∈ t.openH := List.count_pos_iff.1 (by rw [hmem]; simp)
      simp only [if_true, call, exec, act, drop, List.contains_eq_mem, ho, decide_true, Bool.false_eq_true, if_false, true_and]
      have e : (t.openH.erase .mem).filter temp = t.openH.erase .mem := by
        rw [List.filter_eq_self]
        intro k hk
        have h4 := hown k (List.mem_of_mem_erase hk)
        cases k <;> first | rfl | cases h4 | skip
        have h5 : (t.openH.erase .mem).count .mem = 0 := by rw [List.count_erase_self, hmem]; rfl
        exact absurd hk (List.count_eq_zero.1 h5)
      rw [← e, ← List.erase_filter, List.erase_of_not_mem (by simp [temp]), hp.length_eq, hl]

/-- C122: when a file object has gone, none of its handles is open, whatever calls failed. -/
def C122_statement : Prop := ∀ fails ops, (whole fails ops).1.openH = []

/-- A failed `H5Fcreate`: two property lists stay open. -/
theorem C122_violated : ¬ C122_statement := by
  intro h
  exact absurd (h (fun c => c == .fcreate) []) (by decide)

/-- How many handles stay open, as long as no `H5Dclose` failed: each failed call loses the number in the table, and
the destructor does not throw. -/
theorem C122_partial (fails : Call → Bool) (ops : List (Op × (Call → Bool)))
    (h : ∀ c ∈ (whole fails ops).2.1, isDclose c = false) :
    (whole fails ops).2.2 = false ∧ (whole fails ops).1.openH.length = ((whole fails ops).2.1.map left).sum := by
  simp only [whole] at h ⊢
  have h1 := leaves_life ops (leaves_create fails) (fun c hc => h c (List.mem_append_right _ hc))
  obtain ⟨h2, h3⟩ := exec_destroy h1
  refine ⟨by rw [h2]; rfl, ?_⟩
  rw [h3, List.map_append, List.sum_append, Nat.zero_add]

theorem sum_zero (l : List Nat) : l.sum = 0 ↔ ∀ x ∈ l, x = 0 := by
  induction l with
  | nil => simp
  | cons a l ih => simp [ih]

/-- So all are closed exactly if every failed call was one that loses none. -/
theorem C122_closed (fails : Call → Bool) (ops : List (Op × (Call → Bool)))
    (h : ∀ c ∈ (whole fails ops).2.1, isDclose c = false) :
    (whole fails ops).1.openH = [] ↔ ∀ c ∈ (whole fails ops).2.1, left c = 0 := by
  rw [← List.length_eq_zero_iff, (C122_partial fails ops h).2, sum_zero]
  simp

/-- The state after a dataset other than the first could not be closed: a name in the map whose handle is closed. -/
structure Stuck (s : H) : Prop where
  file : s.file = true
  has : .file ∈ s.openH
  gone : ∃ a ∈ s.dsets, .dset a ∉ s.openH ∧ a ∈ s.names

/-- Actions that do not help. -/
def harmless : Act → Bool
  | .use => true
  | .make k => k != .file
  | .drop k => k != .file
  | .enter _ => true
  | .clear => false

theorem act_stuck {s t : H} (a : Act) (h : Stuck s) (ha : harmless a = true) (ht : act s a = some t) : Stuck t := by
  obtain ⟨h1, h2, m, h3, h4, h5⟩ := h
  cases a with
  | use => cases ht; exact ⟨h1, h2, m, h3, h4, h5⟩
  | enter n =>
    cases ht
    exact ⟨h1, h2, m, (mem_insert _ _ _).2 (Or.inr h3), h4, h5⟩
  | clear => cases ha
  | drop k =>
    have hk : k ≠ .file := by simpa [harmless] using ha
    have e : act s (.drop k) = if s.openH.contains k then some { s with openH := s.openH.erase k } else none := by
      cases k <;> first | rfl | exact absurd rfl hk
    rw [e] at ht
    split at ht
    · cases ht
      exact ⟨h1, (List.mem_erase_of_ne (Ne.symm hk)).2 h2, m, h3, fun hm => h4 (List.mem_of_mem_erase hm), h5⟩
    · cases ht
  | make k =>
    cases k with
    | file => cases ha
    | dset n =>
      simp only [act, make] at ht
      split at ht
      · next hc =>
        cases ht
        simp only [Bool.and_eq_true, Bool.not_eq_true', List.contains_eq_mem, decide_eq_false_iff_not] at hc
        refine ⟨h1, List.mem_cons_of_mem _ h2, m, h3, ?_, List.mem_cons_of_mem _ h5⟩
        intro hm
        rcases List.mem_cons.1 hm with hm | hm
        · cases hm; exact hc.2 h5
        · exact h4 hm
      · cases ht
    | attr =>
      simp only [act, make, h1, if_true, Option.some.injEq] at ht
      subst ht
      exact ⟨rfl, List.mem_cons_of_mem _ h2, m, h3, by simpa using h4, h5⟩
    | _ =>
      cases ht
      exact ⟨h1, List.mem_cons_of_mem _ h2, m, h3, by simpa using h4, h5⟩

theorem exec_stuck (fails : Call → Bool) (p : List Instr) (hp : p.all (fun i => harmless i.act) = true) {s : H} (h : Stuck s) :
    Stuck (exec fails p s).1 := by
  induction p generalizing s with
  | nil => exact h
  | cons i p ih =>
    obtain ⟨c, a⟩ := i
    simp only [List.all_cons, Bool.and_eq_true] at hp
    have ha : harmless a = true := hp.1
    cases c with
    | none =>
      simp only [exec]
      refine ih hp.2 ?_
      cases e : act s a with
      | none => exact h
      | some t => exact act_stuck a h ha e
    | some c =>
      simp only [exec]
      split
      · exact h
      · cases e : act s a with
        | none => exact h
        | some t => exact ih hp.2 (act_stuck a h ha e)

/-- The datasets are closed in order up to the first that is not open. -/
theorem closes_stuck (fails : Call → Bool) (l : List String) (q : List Instr) {s : H} (a : String) (ha : a ∈ l) (ho : .dset a ∉ s.openH)
    (h : Stuck s) : ∃ c, (exec fails (closes l ++ q) s).2 = some c ∧ Stuck (exec fails (closes l ++ q) s).1 := by
  induction l generalizing s with
  | nil => cases ha
  | cons m l ih =>
    have e : closes (m :: l) ++ q = ⟨some (.dclose m), .drop (.dset m)⟩ :: (closes l ++ q) := rfl
    rw [e]
    simp only [exec]
    split
    · exact ⟨_, rfl, h⟩
    · cases e : act s (.drop (.dset m)) with
      | none => exact ⟨_, rfl, h⟩
      | some t =>
        have ht := act_stuck _ h (by rfl) e
        simp only [act, drop] at e
        split at e
        · next hm =>
          cases e
          refine ih ?_ (fun hx => ho (List.mem_of_mem_erase hx)) ht
          rcases List.mem_cons.1 ha with rfl | ha
          · exact absurd (by simpa using hm) ho
          · exact ha
        · cases e

theorem close_stuck (fails : Call → Bool) (q : List Instr) {s : H} (h : Stuck s) :
    ∃ c, (exec fails (closeFile s ++ q) s).2 = some c ∧ Stuck (exec fails (closeFile s ++ q) s).1 := by
  have e : closeFile s ++ q = closes s.dsets ++ ([⟨none, .clear⟩, ⟨some .fclose, .drop .file⟩] ++ q) := by
    simp [closeFile, h.file, closes, call]
  rw [e]
  obtain ⟨a, h1, h2, _⟩ := h.gone
  exact closes_stuck fails s.dsets _ a h1 h2 h

theorem op_stuck (fails : Call → Bool) (op : Op) {s : H} (h : Stuck s) : Stuck (exec fails (op.calls s) s).1 := by
  cases op with
  | dataset name ok f i =>
    cases ok with
    | false => exact h
    | true => exact exec_stuck fails _ (by cases f <;> cases i <;> rfl) h
  | frame name e f =>
    simp only [Op.calls]
    split
    · exact exec_stuck fails _ (by cases e <;> cases f <;> rfl) h
    · exact h
  | param name ok e f =>
    simp only [Op.calls]
    split
    · exact exec_stuck fails _ (by cases e <;> cases f <;> rfl) h
    · exact h
  | swmr => exact exec_stuck fails _ rfl h
  | close =>
    obtain ⟨_, _, h2⟩ := close_stuck fails [] h
    simpa [Op.calls] using h2

theorem life_stuck (ops : List (Op × (Call → Bool))) {s : H} (h : Stuck s) : Stuck (life ops s).1 := by
  induction ops generalizing s with
  | nil => exact h
  | cons a ops ih => exact ih (op_stuck a.2 a.1 h)

theorem closes_fail (fails : Call → Bool) (l : List String) (a m : String) (q : List Instr) {s : H} {n : Nat} (h : InvD s (a :: l) [] n)
    (hs : s.dsets = a :: l) (hf : s.file = true) (hm : m ≠ a)
    (he : (exec fails (closes (a :: l)) s).2 = some (.dclose m)) :
    Stuck (exec fails (closes (a :: l) ++ q) s).1 := by
  obtain ⟨h1, h2⟩ := drop_dset h
  have hfile : Kind.file ∈ s.openH := by
    have := h.file
    rw [hf] at this
    exact List.count_pos_iff.1 (by rw [this]; simp)
  have hst : Stuck { s with openH := s.openH.erase (.dset a) } := by
    refine ⟨hf, (List.mem_erase_of_ne (by simp)).2 hfile, a, by rw [hs]; simp, ?_, h.names a (h.dsets a (by simp))⟩
    have := h.once a
    rw [← List.count_eq_zero, List.count_erase_self]
    omega
  rw [exec_append]
  have e : closes (a :: l) = ⟨some (.dclose a), .drop (.dset a)⟩ :: closes l := rfl
  rw [e] at he ⊢
  simp only [exec] at he ⊢
  split at he
  · next hc =>
    simp only [Option.some.injEq, Call.dclose.injEq] at he
    exact absurd he.symm hm
  · next hc =>
    rw [if_neg hc]
    simp only [act, h1] at he ⊢
    have hk : (closes l).all (fun i => harmless i.act) = true := by
      rw [List.all_eq_true]
      intro i hi
      obtain ⟨x, _, rfl⟩ := List.mem_map.1 hi
      rfl
    have hst2 := exec_stuck fails (closes l) hk hst
    generalize exec fails (closes l) { s with openH := s.openH.erase (.dset a) } = r at he hst2
    obtain ⟨t, c⟩ := r
    dsimp only at he
    subst he
    exact hst2

theorem life_append (p q : List (Op × (Call → Bool))) (s : H) :
    (life (p ++ q) s).1 = (life q (life p s).1).1 := by
  induction p generalizing s with
  | nil => rfl
  | cons a p ih => exact ih _

/-- If closing a file fails at a dataset that is not the first in the map, the file is never closed: not by any later
call, and the destructor throws. -/
theorem C122_stuck (fails : Call → Bool) (pre post : List (Op × (Call → Bool))) (f : Call → Bool) (a m : String) (l : List String)
    (hpre : ∀ c ∈ (life pre (exec fails createFile {}).1).2, isDclose c = false)
    (hs : (life pre (exec fails createFile {}).1).1.dsets = a :: l) (hm : m ≠ a)
    (hfail : (exec f (closeFile (life pre (exec fails createFile {}).1).1) (life pre (exec fails createFile {}).1).1).2 = some (.dclose m)) :
    .file ∈ (whole fails (pre ++ (.close, f) :: post)).1.openH ∧ (whole fails (pre ++ (.close, f) :: post)).2.2 = true := by
  have hi := leaves_life pre (leaves_create fails) hpre
  have hst : Stuck (life (pre ++ (.close, f) :: post) (exec fails createFile {}).1).1 := by
    rw [life_append]
    generalize (life pre (exec fails createFile {}).1).1 = s at hs hfail hi
    show Stuck (life post (exec f (closeFile s) s).1).1
    refine life_stuck post ?_
    by_cases hf : s.file = true
    · have e : closeFile s = closes (a :: l) ++ [⟨none, .clear⟩, ⟨some .fclose, .drop .file⟩] := by
        simp [closeFile, hf, closes, call, hs]
      rw [e] at hfail ⊢
      refine closes_fail f l a m _ (by rw [← hs]; exact hi) hs hf hm ?_
      rw [exec_append] at hfail
      generalize exec f (closes (a :: l)) s = r at hfail
      obtain ⟨t, c⟩ := r
      cases c with
      | some c => exact hfail
      | none =>
        simp only [exec] at hfail
        split at hfail
        · cases hfail
        · split at hfail <;> cases hfail
    · have e : closeFile s = [] := by simp [closeFile, hf]
      rw [e] at hfail
      cases hfail
  obtain ⟨c, h1, h2⟩ := close_stuck (fun _ => false) (if (life (pre ++ (.close, f) :: post) (exec fails createFile {}).1).1.mem
    then [call .scloseMem (.drop .mem)] else []) hst
  refine ⟨h2.has, ?_⟩
  simp only [whole, destroy]
  rw [h1]
  rfl

theorem leaves_other (fails : Call → Bool) (op : Op) {s : H} {n : Nat} (h : Inv s [] n) (ho : op ≠ .close) :
    Leaves (exec fails (op.calls s) s) n := by
  cases op with
  | dataset name ok f i =>
    cases ok with
    | true => exact leaves_dataset fails name f i h
    | false => exact leaves_none h
  | frame name e f =>
    simp only [Op.calls]
    split
    · exact leaves_frame fails e f h
    · exact leaves_none h
  | param name ok e f =>
    simp only [Op.calls]
    split
    · exact leaves_param fails e f h
    · exact leaves_none h
  | swmr => exact leaves_plain fails _ h rfl rfl
  | close => exact absurd rfl ho

/-- Closing the file fails at a dataset that is not the first in the map. -/
def Mishap (s : H) (fails : Call → Bool) : Prop :=
  ∃ m, (exec fails (closeFile s) s).2 = some (.dclose m) ∧ s.dsets.head? ≠ some m

/-- Nothing changes if closing fails at the first dataset. -/
theorem close_first (fails : Call → Bool) (a : String) (l : List String) (s : H) (hf : s.file = true) (hs : s.dsets = a :: l)
    (ha : fails (.dclose a) = true) : exec fails (closeFile s) s = (s, some (.dclose a)) := by
  simp [closeFile, hf, hs, call, exec, ha]

/-- Closing the file, whatever fails: it is as before or closed, or never closed any more. -/
theorem close_either (fails : Call → Bool) {s : H} {n : Nat} (h : Inv s [] n) :
    (Mishap s fails ∧ Stuck (exec fails (closeFile s) s).1) ∨ (¬ Mishap s fails ∧ Leaves (exec fails (closeFile s) s) n) := by
  by_cases hf : s.file = true
  · obtain ⟨_, h2⟩ := exec_close fails h
    cases hr : (exec fails (closeFile s) s).2 with
    | none =>
      rw [hr] at h2
      refine Or.inr ⟨fun ⟨m, hm, _⟩ => (by rw [hr] at hm; cases hm), ?_⟩
      show Inv _ [] (n + _)
      rw [hr]
      exact h2.1
    | some c =>
      rw [hr] at h2
      dsimp only at h2
      obtain ⟨hc, h2⟩ := h2
      by_cases hd : ∃ m, c = .dclose m
      · obtain ⟨m, rfl⟩ := hd
        cases hs : s.dsets with
        | nil => simp [closeFile, hf, hs, call, exec] at hr; split at hr <;> (try split at hr) <;> cases hr
        | cons a l =>
          by_cases hm : m = a
          · subst hm
            refine Or.inr ⟨fun ⟨m', hm', hh⟩ => ?_, ?_⟩
            · rw [hr] at hm'
              cases hm'
              exact hh (by rw [hs]; rfl)
            · rw [close_first fails m l s hf hs hc]
              exact leaves_some h
          · refine Or.inl ⟨⟨m, hr, by rw [hs]; simpa using Ne.symm hm⟩, ?_⟩
            have e : closeFile s = closes (a :: l) ++ [⟨none, .clear⟩, ⟨some .fclose, .drop .file⟩] := by
              simp [closeFile, hf, closes, call, hs]
            rw [e] at hr ⊢
            refine closes_fail fails l a m _ (by rw [← hs]; exact h) hs hf hm ?_
            rw [exec_append] at hr
            generalize exec fails (closes (a :: l)) s = r at hr
            obtain ⟨t, c⟩ := r
            cases c with
            | some c => exact hr
            | none =>
              simp only [exec] at hr
              split at hr
              · cases hr
              · split at hr <;> cases hr
      · obtain h2 | ⟨h3, h4⟩ := h2
        · exact absurd h2 hd
        · refine Or.inr ⟨fun ⟨m, hm, _⟩ => ?_, ?_⟩
          · rw [hr] at hm
            exact hd ⟨m, Option.some.inj hm⟩
          · show Inv _ [] (n + _)
            rw [hr]
            simpa [h4] using h3
  · have e : closeFile s = [] := by simp [closeFile, hf]
    refine Or.inr ⟨fun ⟨m, hm, _⟩ => (by rw [e] at hm; cases hm), ?_⟩
    rw [e]
    exact leaves_none h

/-- Somewhere in a life a file is closed that way. -/
def MishapIn (s : H) (ops : List (Op × (Call → Bool))) : Prop :=
  ∃ pre f post, ops = pre ++ (.close, f) :: post ∧ Mishap (life pre s).1 f

theorem mishap_cons (s : H) (x : Op × (Call → Bool)) (l : List (Op × (Call → Bool))) :
    MishapIn s (x :: l) ↔ (x.1 = .close ∧ Mishap s x.2) ∨ MishapIn (exec x.2 (x.1.calls s) s).1 l := by
  constructor
  · rintro ⟨pre, f, post, he, hm⟩
    cases pre with
    | nil =>
      obtain ⟨rfl, rfl⟩ := List.cons.inj he
      exact Or.inl ⟨rfl, hm⟩
    | cons y pre =>
      obtain ⟨rfl, rfl⟩ := List.cons.inj he
      exact Or.inr ⟨pre, f, post, rfl, hm⟩
  · rintro (⟨h1, h2⟩ | ⟨pre, f, post, he, hm⟩)
    · obtain ⟨op, f⟩ := x
      cases h1
      exact ⟨[], f, l, rfl, h2⟩
    · exact ⟨x :: pre, f, post, by rw [he]; rfl, hm⟩

theorem life_either (ops : List (Op × (Call → Bool))) {s : H} {n : Nat} (h : Inv s [] n) :
    (MishapIn s ops ∧ Stuck (life ops s).1) ∨
      (¬ MishapIn s ops ∧ Inv (life ops s).1 [] (n + ((life ops s).2.map left).sum)) := by
  induction ops generalizing s n with
  | nil =>
    refine Or.inr ⟨?_, by simpa [life] using h⟩
    rintro ⟨pre, f, post, he, _⟩
    cases pre <;> cases he
  | cons x ops ih =>
    have key : ((x.1 = .close ∧ Mishap s x.2) ∧ Stuck (exec x.2 (x.1.calls s) s).1) ∨
        (¬ (x.1 = .close ∧ Mishap s x.2) ∧ Leaves (exec x.2 (x.1.calls s) s) n) := by
      by_cases hx : x.1 = .close
      · rw [hx]
        rcases close_either x.2 h with ⟨h1, h2⟩ | ⟨h1, h2⟩
        · exact Or.inl ⟨⟨rfl, h1⟩, h2⟩
        · exact Or.inr ⟨fun hh => h1 hh.2, h2⟩
      · refine Or.inr ⟨fun hh => hx hh.1, leaves_other x.2 x.1 h hx⟩
    rw [mishap_cons]
    rcases key with ⟨h1, h2⟩ | ⟨h1, h2⟩
    · exact Or.inl ⟨Or.inl h1, life_stuck ops h2⟩
    · rcases ih h2 with ⟨h3, h4⟩ | ⟨h3, h4⟩
      · exact Or.inl ⟨Or.inr h3, h4⟩
      · refine Or.inr ⟨fun hh => hh.elim h1 h3, ?_⟩
        show Inv (life ops (exec x.2 (x.1.calls s) s).1).1 [] (n +
          (((exec x.2 (x.1.calls s) s).2.toList ++ (life ops (exec x.2 (x.1.calls s) s).1).2).map left).sum)
        rw [List.map_append, List.sum_append, ← Nat.add_assoc]
        exact h4

/-- Whatever fails: the destructor throws, and the file stays open, exactly if closing the file failed once at a dataset that is
not the first in the map; otherwise each failed call loses the number of handles in the table, `H5Dclose` none. -/
theorem C122_either (fails : Call → Bool) (ops : List (Op × (Call → Bool))) :
    (MishapIn (exec fails createFile {}).1 ops ∧ (whole fails ops).2.2 = true ∧ .file ∈ (whole fails ops).1.openH) ∨
      (¬ MishapIn (exec fails createFile {}).1 ops ∧ (whole fails ops).2.2 = false ∧
        (whole fails ops).1.openH.length = ((whole fails ops).2.1.map left).sum) := by
  rcases life_either ops (leaves_create fails) with ⟨h1, h2⟩ | ⟨h1, h2⟩
  · obtain ⟨c, h3, h4⟩ := close_stuck (fun _ => false) (if (life ops (exec fails createFile {}).1).1.mem
      then [call .scloseMem (.drop .mem)] else []) h2
    refine Or.inl ⟨h1, ?_, h4.has⟩
    simp only [whole, destroy]
    rw [h3]
    rfl
  · obtain ⟨h3, h4⟩ := exec_destroy h2
    refine Or.inr ⟨h1, ?_, ?_⟩
    · simp only [whole]
      rw [h3]
      rfl
    · simp only [whole]
      rw [h4, List.map_append, List.sum_append, Nat.zero_add]

/-- No calls fail. -/
def fine : Call → Bool := fun _ => false

/-- What a proper use of the file is: no dataset twice, none after a close. -/
def proper : List Op → List String → Bool → Bool
  | [], _, _ => true
  | .dataset n ok _ _ :: l, ns, closed => if ok then !closed && !ns.contains n && proper l (n :: ns) closed else proper l ns closed
  | .close :: l, ns, _ => proper l ns true
  | _ :: l, ns, closed => proper l ns closed

theorem fine_dataset (n : String) (f i : Bool) (s : H) (hf : s.file = true) (hn : n ∉ s.names) :
    exec fine (createDataset n f i) s =
      ({ s with openH := .dset n :: s.openH, names := n :: s.names, dsets := insertName n s.dsets }, none) := by
  cases f <;> cases i <;>
    simp [createDataset, attributes, exec, call, fine, act, make, drop, hf, hn]

theorem fine_frame (e f : Bool) (s : H) : exec fine (writeFrame e f) s = (s, none) := by
  cases e <;> cases f <;> simp [writeFrame, exec, call, fine, act]

theorem fine_param (e f : Bool) (s : H) : exec fine (writeParameter e f) s = (s, none) := by
  cases e <;> cases f <;> simp [writeParameter, exec, call, fine, act, make, drop]

theorem fine_life (ops : List Op) (ns : List String) (closed : Bool) {s : H} (h : Inv s [] 0)
    (hs : closed = false → s.file = true ∧ s.names = ns) (hp : proper ops ns closed = true) :
    (life (ops.map (·, fine)) s).2 = [] := by
  induction ops generalizing s ns closed with
  | nil => rfl
  | cons op ops ih =>
    simp only [List.map_cons, life]
    have key : ∀ t ns closed, exec fine (op.calls s) s = (t, none) → (closed = false → t.file = true ∧ t.names = ns) →
        proper ops ns closed = true →
        (exec fine (op.calls s) s).2.toList ++ (life (ops.map (·, fine)) (exec fine (op.calls s) s).1).2 = [] := by
      intro t ns closed e ht hp
      have hl := leaves_op fine op h (by rw [e]; intro c hc; cases hc)
      rw [e] at hl ⊢
      refine ih ns closed ?_ ht hp
      simpa [Leaves] using hl
    cases op with
    | dataset n ok f i =>
      cases ok with
      | false => exact key s ns closed rfl hs (by simpa [proper] using hp)
      | true =>
        simp only [proper, if_true, Bool.and_eq_true, Bool.not_eq_true', List.contains_eq_mem, decide_eq_false_iff_not] at hp
        obtain ⟨⟨h1, h2⟩, h3⟩ := hp
        obtain ⟨h4, h5⟩ := hs h1
        exact key _ (n :: ns) closed (fine_dataset n f i s h4 (by rw [h5]; exact h2)) (fun _ => ⟨h4, by rw [h5]⟩) h3
    | frame n e f =>
      refine key s ns closed ?_ hs hp
      simp only [Op.calls]
      split
      · exact fine_frame e f s
      · rfl
    | param n ok e f =>
      refine key s ns closed ?_ hs hp
      simp only [Op.calls]
      split
      · exact fine_param e f s
      · rfl
    | swmr => exact key s ns closed rfl hs hp
    | close =>
      obtain ⟨_, h2⟩ := exec_close fine h
      cases e : exec fine (closeFile s) s with
      | mk t c =>
        rw [e] at h2
        cases c with
        | some c => exact absurd h2.1 (by simp [fine])
        | none => exact key t ns true e (fun h => by cases h) hp

/-- Without failures from the library, a proper use fails nowhere, and all handles are closed. -/
theorem C122_fine (ops : List Op) (h : proper ops [] false = true) :
    (whole fine (ops.map (·, fine))) = ((whole fine (ops.map (·, fine))).1, [], false) ∧
      (whole fine (ops.map (·, fine))).1.openH = [] := by
  have h0 : exec fine createFile {} = ({ openH := [.mem, .file], file := true, mem := true }, none) := by decide
  have hi := leaves_create fine
  have h1 : (whole fine (ops.map (·, fine))).2.1 = [] := by
    simp only [whole]
    rw [h0] at hi ⊢
    refine fine_life ops [] false (by simpa [Leaves] using hi) (fun _ => ⟨rfl, rfl⟩) h
  have h2 := C122_partial fine (ops.map (·, fine)) (by rw [h1]; intro c hc; cases hc)
  rw [h1] at h2
  refine ⟨?_, List.length_eq_zero_iff.1 h2.2⟩
  generalize whole fine (ops.map (·, fine)) = r at h1 h2
  obtain ⟨a, b, c⟩ := r
  obtain ⟨h2, _⟩ := h2
  dsimp only at h1 h2
  rw [h1, h2]

/-- A file that cannot be created, tried again `n` times with a new object each time (Acquisition.cpp): `2 n` handles. -/
theorem C122_retries (n : Nat) :
    (List.replicate n (whole (fun c => c == .fcreate) []).1.openH).flatten.length = 2 * n := by
  have e : (whole (fun c => c == .fcreate) []).1.openH = [.fcpl, .fapl] := by decide
  rw [e]
  induction n with
  | zero => rfl
  | succ n ih =>
    rw [List.replicate_succ, List.flatten_cons, List.length_append, ih, List.length_cons, List.length_cons, List.length_nil]
    omega

/-- Two datasets with a frame and a parameter, and the file closed. -/
def good : List Op :=
  [.dataset "data" true true true, .dataset "id" true false true, .swmr, .frame "data" true true, .param "id" true true false,
   .frame "gone" true true, .close]

example : proper good [] false = true ∧ (whole fine (good.map (·, fine))).1 = { names := ["id", "data"], mem := true } := by decide

/-- A failed write of a parameter and a failed attribute: five handles. -/
example : (whole fine [(.dataset "data" true false true, fun c => c == .awriteHigh), (.dataset "id" true false false, fine),
    (.param "id" true true true, fun c => c == .dwrite)]).2.1 = [.awriteHigh, .dwrite] ∧
    (whole fine [(.dataset "data" true false true, fun c => c == .awriteHigh), (.dataset "id" true false false, fine),
    (.param "id" true true true, fun c => c == .dwrite)]).1.openH = [.fspace, .attrSpace, .dapl, .prop, .dataspace] := by decide

/-- The second dataset is not closed, then the file not, even though nothing else fails. -/
example : (life [(.dataset "id" true false true, fine), (.dataset "data" true false true, fine)] (exec fine createFile {}).1).1.dsets =
      ["data", "id"] ∧
    (whole fine [(.dataset "id" true false true, fine), (.dataset "data" true false true, fine), (.close, fun c => c == .dclose "id"),
      (.close, fine)]) = ({ openH := [.dset "id", .mem, .file], file := true, mem := true, dsets := ["data", "id"], names := ["data", "id"] },
      [.dclose "id", .dclose "data"], true) := by decide

/-- A close that fails at the first dataset loses nothing: the next one closes the file. -/
example : (whole fine [(.dataset "id" true false true, fine), (.dataset "data" true false true, fine), (.close, fun c => c == .dclose "data"),
      (.close, fine)]).1.openH = [] ∧
    (whole fine [(.dataset "id" true false true, fine), (.dataset "data" true false true, fine), (.close, fun c => c == .dclose "data"),
      (.close, fine)]).2 = ([.dclose "data"], false) := by decide

end Verif.Handles
