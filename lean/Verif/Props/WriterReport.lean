import Verif.Model.WriterConfig
import Verif.Props.PluginConfig
import Verif.Props.Definitions
/-!
C114: the reported configuration restores the file writer.
-/
namespace Verif.PluginConfig
open Verif.Ipc Verif.Reply

/-! ## Parts of a reply -/

theorem get_append (p q : List Str) (j : Json) : Ipc.get (p ++ q) j = (Ipc.get p j).bind (Ipc.get q) := by
  induction p generalizing j with
  | nil => simp [Ipc.get]
  | cons k p ih =>
    cases j with
    | obj l =>
      simp only [List.cons_append, Ipc.get]
      cases findM l k with
      | none => rfl
      | some v => simp only [Option.bind_some, ih]
    | _ => rfl

/-- A reported path can be read. -/
theorem leaf (n : Str) (items : List Item) (hn : Name n) (hg : Good items) (i : Item) (hi : i ∈ items) :
    Ipc.get (n :: i.path) (reply n items).1 = told items i.path := by
  have hp := (hg.path i hi).1
  have := (reply_read n items hn hg).2 i.path hp (fun j hj => by
    rcases pair_apart items hg j i hj hi with rfl | h
    · exact Or.inl rfl
    · exact Or.inr h)
  rw [← this]
  have hp2 : Path (n :: i.path) := ⟨by simp, fun a ha => by
    rcases List.mem_cons.1 ha with rfl | ha
    · exact hn.2
    · exact hp.2 a ha⟩
  simp only [getParam, Option.bind_some, splitAll_join _ hp2]

theorem leaf_val (n : Str) (items : List Item) (hn : Name n) (hg : Good items) (p : List Str) (v : Json) (hi : Item.val p v ∈ items) :
    Ipc.get (n :: p) (reply n items).1 = some v := by
  rw [← told_val items hg p v hi]
  exact leaf n items hn hg _ hi

theorem told_elems (items : List Item) (hg : Good items) (p : List Str) (a : List Json) (h : Item.elems p a ∈ items) :
    told items p = if a = [] then none else some (.arr a) := by
  have ha := hg.apart
  clear hg
  induction items with
  | nil => cases h
  | cons i l ih =>
    rw [List.pairwise_cons] at ha
    rcases List.mem_cons.1 h with e | h'
    · subst e; simp [told]
    · have hne : i.path ≠ p := fun e => ha.1 _ h' (by rw [e]; exact Or.inl ⟨[], by simp [Item.path]⟩)
      cases i <;> (simp only [Item.path] at hne; simp [told, hne, ih h' ha.2])

theorem leaf_elems (n : Str) (items : List Item) (hn : Name n) (hg : Good items) (p : List Str) (a : List Json) (hi : Item.elems p a ∈ items) :
    Ipc.get (n :: p) (reply n items).1 = if a = [] then none else some (.arr a) := by
  rw [← told_elems items hg p a hi]
  exact leaf n items hn hg _ hi

/-- A path that is neither above nor below a reported one is not in the reply. -/
theorem leaf_none (n : Str) (items : List Item) (hn : Name n) (hg : Good items) (p : List Str)
    (h : ∀ i ∈ items, ¬ Related i.path p) : Ipc.get (n :: p) (reply n items).1 = none := by
  cases hx : Ipc.get (n :: p) (reply n items).1 with
  | none => rfl
  | some x =>
    rcases reply_origin n items hn hg _ x hx with e | ⟨i, hi, hr⟩
    · cases e
    · exact absurd (related_tail _ _ _ hr) (h i hi)

/-- What is above a reported path is an object. -/
theorem above (n : Str) (items : List Item) (hn : Name n) (hg : Good items) (q r : List Str) (v : Json)
    (h : Ipc.get (n :: (q ++ r)) (reply n items).1 = some v) (hq : ∀ i ∈ items, ¬ i.path <+: q) :
    ∃ m, Ipc.get (n :: q) (reply n items).1 = some (.obj m) ∧ ∀ z, Ipc.get z (.obj m) = Ipc.get (n :: (q ++ z)) (reply n items).1 := by
  have hz : ∀ z, Ipc.get (n :: (q ++ z)) (reply n items).1 = (Ipc.get (n :: q) (reply n items).1).bind (Ipc.get z) :=
    fun z => get_append (n :: q) z _
  rw [hz] at h
  obtain ⟨x, hx, _⟩ := Option.bind_eq_some_iff.1 h
  obtain ⟨m, rfl⟩ := reply_object n items hn hg (n :: q) x hx (fun i hi hp => hq i hi (by simpa [List.cons_prefix_cons] using hp))
  exact ⟨m, hx, fun z => by rw [hz, hx]; rfl⟩

/-! ## The statement -/

/-- The same configuration. -/
structure Writer.Same (s t : Writer) : Prop where
  process : (s.number, s.rank, s.block, s.blocks, s.earliest) = (t.number, t.rank, t.block, t.blocks, t.earliest)
  align : (s.threshold, s.alignment) = (t.threshold, t.alignment)
  file : (s.path, s.pre, s.useNumbers, s.first) = (t.path, t.pre, t.useNumbers, t.first)
  file2 : (s.post, s.extension) = (t.post, t.extension)
  limits : (s.create, s.write, s.flush, s.close) = (t.create, t.write, t.flush, t.close)
  rest : (s.frames, s.master, s.acqId, s.timeout) = (t.frames, t.master, t.acqId, t.timeout)
  datasets : ∀ k, lookD s.datasets k = lookD t.datasets k

/-- States reached by messages. -/
inductive Writer.Reach (ok : Str → Bool) : Writer → Prop
  | new : Reach ok {}
  | msg (s t : Writer) (j : Json) : Reach ok s → s.configure ok j = some t → Reach ok t

/-- C114, full statement: a new writer accepts the report and has the same configuration then. -/
def C114_statement : Prop :=
  ∀ ok s, Writer.Reach ok s → ∀ n, Name n → (reply n s.report).2 = .ok ∧
    ∃ t, restore (Writer.configure ok) {} n (reply n s.report).1 = some t ∧ t.nack = false ∧ t.Same s

/-- Values that can be sent as they are reported. -/
structure Dset.Sendable (d : Dset) : Prop where
  compressor : d.compressor < 2147483648
  level : d.level < 2147483648
  shuffle : d.shuffle < 2147483648
  dims : ∀ x ∈ d.dims, x < 2147483648
  chunks : ∀ x ∈ d.chunks, x < 2147483648
  chunked : d.chunks = [] → d.dims = []
  indexes : d.indexes = false

structure Writer.Sendable (s : Writer) : Prop where
  first : s.first < 2147483648
  names : ∀ x ∈ s.datasets, '/' ∉ x.1 ∧ x.1 ≠ "dims[]".toList ∧ x.1 ≠ "chunks[]".toList
  dsets : ∀ x ∈ s.datasets, x.2.Sendable

/-- Values of the members. -/
structure Writer.Valid (s : Writer) : Prop where
  number : s.number < 18446744073709551616
  rank : s.rank < 18446744073709551616
  block : 1 ≤ s.block ∧ s.block < 18446744073709551616
  blocks : s.blocks < 18446744073709551616
  threshold : s.threshold < 18446744073709551616
  alignment : s.alignment < 18446744073709551616
  create : s.create < 4294967296
  write : s.write < 4294967296
  flush : s.flush < 4294967296
  close : s.close < 4294967296
  frames : s.frames < 18446744073709551616
  timeout : s.timeout < 18446744073709551616
  nodup : (s.datasets.map (·.1)).Nodup

/-! ## The paths -/

instance (p q : List Str) : Decidable (Related p q) := inferInstanceAs (Decidable (_ ∨ _))

def topPaths : List (List Str) :=
  [["process".toList, "number".toList], ["process".toList, "rank".toList], ["process".toList, "frames_per_block".toList],
   ["process".toList, "blocks_per_file".toList], ["process".toList, "earliest_version".toList], ["process".toList, "alignment_threshold".toList],
   ["process".toList, "alignment_value".toList], ["file".toList, "path".toList], ["file".toList, "prefix".toList],
   ["file".toList, "use_numbers".toList], ["file".toList, "first_number".toList], ["file".toList, "postfix".toList],
   ["file".toList, "extension".toList], ["file".toList, "create_error_duration".toList], ["file".toList, "write_error_duration".toList],
   ["file".toList, "flush_error_duration".toList], ["file".toList, "close_error_duration".toList], ["frames".toList], ["master".toList],
   ["acquisition_id".toList], ["timeout_timer_period".toList]]

theorem top_paths (s : Writer) : s.top.map Item.path = topPaths := rfl

def dsetKeys : List Str :=
  ["datatype".toList, "compression".toList, "blosc_compressor".toList, "blosc_level".toList, "blosc_shuffle".toList, "dims".toList,
   "chunks".toList]

theorem dset_paths (k : Str) (d : Dset) : (d.report k).map Item.path = dsetKeys.map (fun z => ["dataset".toList, k, z]) := rfl

theorem report_path (s : Writer) (i : Item) (h : i ∈ s.report) :
    (i ∈ s.top ∧ i.path ∈ topPaths) ∨ ∃ x ∈ s.datasets, i ∈ x.2.report x.1 ∧ ∃ z ∈ dsetKeys, i.path = ["dataset".toList, x.1, z] := by
  rcases List.mem_append.1 h with h | h
  · exact Or.inl ⟨h, by rw [← top_paths s]; exact List.mem_map.2 ⟨i, h, rfl⟩⟩
  · obtain ⟨x, hx, hi⟩ := List.mem_flatMap.1 h
    refine Or.inr ⟨x, hx, hi, ?_⟩
    have : i.path ∈ (x.2.report x.1).map Item.path := List.mem_map.2 ⟨i, hi, rfl⟩
    rw [dset_paths] at this
    obtain ⟨z, hz, e⟩ := List.mem_map.1 this
    exact ⟨z, hz, e.symm⟩

theorem top_head : ∀ p ∈ topPaths, p.head? ≠ some "dataset".toList := by decide +kernel

theorem top_ok : ∀ p ∈ topPaths, p ≠ [] ∧ (∀ k ∈ p, '/' ∉ k) ∧
    ∀ k ∈ p.getLast?, 2 ≤ k.length ∧ k.drop (k.length - 2) ≠ ['[', ']'] := by decide +kernel

theorem keys_plain : ∀ z ∈ dsetKeys, '/' ∉ z ∧ 2 ≤ z.length ∧ z.drop (z.length - 2) ≠ ['[', ']'] := by decide +kernel

theorem top_pairs : topPaths.Pairwise (fun p q => ¬ Related p q) := by decide +kernel

theorem keys_nodup : dsetKeys.Nodup := by decide +kernel

theorem related_dset (p : List Str) (k z : Str) (h : p ∈ topPaths) : ¬ Related p ["dataset".toList, k, z] := by
  intro hr
  have h1 := top_head p h
  have h2 := (top_ok p h).1
  cases p with
  | nil => exact h2 rfl
  | cons a p => exact h1 (by rw [related_head _ _ _ _ hr]; rfl)

theorem top_val (s : Writer) (i : Item) (h : i ∈ s.top) : i.isElems = false := by
  simp only [Writer.top, List.mem_cons, List.not_mem_nil, or_false] at h
  rcases h with rfl | rfl | rfl | rfl | rfl | rfl | rfl | rfl | rfl | rfl | rfl | rfl | rfl | rfl | rfl | rfl | rfl | rfl | rfl | rfl | rfl <;> rfl

theorem dset_elems (k : Str) (d : Dset) (i : Item) (h : i ∈ d.report k) (he : i.isElems = true) :
    i.path = ["dataset".toList, k, "dims".toList] ∨ i.path = ["dataset".toList, k, "chunks".toList] := by
  simp only [Dset.report, List.mem_cons, List.not_mem_nil, or_false] at h
  rcases h with rfl | rfl | rfl | rfl | rfl | rfl | rfl
  · cases he
  · cases he
  · cases he
  · cases he
  · cases he
  · exact Or.inl rfl
  · exact Or.inr rfl

theorem writer_good (s : Writer) (hd : (s.datasets.map (·.1)).Nodup)
    (hs : ∀ x ∈ s.datasets, '/' ∉ x.1 ∧ x.1 ≠ "dims[]".toList ∧ x.1 ≠ "chunks[]".toList) : Good s.report := by
  refine ⟨fun i hi => ?_, ?_⟩
  · rcases report_path s i hi with ⟨ht, hp⟩ | ⟨x, hx, hir, z, hz, e⟩
    · obtain ⟨a, b, c⟩ := top_ok _ hp
      exact ⟨⟨a, b⟩, fun k hk => ⟨plain_of k (c k hk), fun he => by rw [top_val s i ht] at he; cases he⟩⟩
    · obtain ⟨n1, n2, n3⟩ := hs x hx
      have kz := keys_plain z hz
      refine ⟨⟨by rw [e]; simp, fun k hk => ?_⟩, fun k hk => ?_⟩
      · rw [e] at hk
        simp only [List.mem_cons, List.not_mem_nil, or_false] at hk
        rcases hk with rfl | rfl | rfl
        · decide +kernel
        · exact n1
        · exact kz.1
      · rw [e] at hk
        simp only [List.getLast?_cons_cons, List.getLast?_singleton, Option.some.injEq] at hk
        subst hk
        refine ⟨plain_of _ kz.2, fun he hm => ?_⟩
        rcases dset_elems _ _ _ hir he with e2 | e2
        · rw [e] at e2
          simp only [List.cons.injEq, and_true, true_and] at e2
          subst e2
          rw [e] at hm
          simp only [List.mem_cons, List.not_mem_nil, or_false] at hm
          rcases hm with h | h | h
          · revert h; decide +kernel
          · exact n2 h.symm
          · revert h; decide +kernel
        · rw [e] at e2
          simp only [List.cons.injEq, and_true, true_and] at e2
          subst e2
          rw [e] at hm
          simp only [List.mem_cons, List.not_mem_nil, or_false] at hm
          rcases hm with h | h | h
          · revert h; decide +kernel
          · exact n3 h.symm
          · revert h; decide +kernel
  · simp only [Writer.report]
    rw [List.pairwise_append]
    refine ⟨?_, ?_, fun i hi j hj hr => ?_⟩
    · have := top_pairs
      rw [← top_paths s, List.pairwise_map] at this
      exact this
    · have hlen : ∀ k d, ∀ i ∈ Dset.report k d, ∃ z ∈ dsetKeys, i.path = ["dataset".toList, k, z] := by
        intro k d i hi
        have : i.path ∈ (d.report k).map Item.path := List.mem_map.2 ⟨i, hi, rfl⟩
        rw [dset_paths] at this
        obtain ⟨z, hz, e⟩ := List.mem_map.1 this
        exact ⟨z, hz, e.symm⟩
      rw [List.pairwise_flatMap]
      refine ⟨fun x _ => ?_, ?_⟩
      · have h0 : (dsetKeys.map (fun z => ["dataset".toList, x.1, z])).Pairwise (fun p q => ¬ Related p q) := by
          rw [List.pairwise_map]
          refine keys_nodup.imp (fun hne hr => hne ?_)
          have := related_eq _ _ hr rfl
          simpa using this
        rw [← dset_paths x.1 x.2, List.pairwise_map] at h0
        exact h0
      · refine (List.pairwise_map.1 hd).imp (fun {x y} hne i hi j hj hr => hne ?_)
        obtain ⟨z, _, e1⟩ := hlen _ _ i hi
        obtain ⟨w, _, e2⟩ := hlen _ _ j hj
        rw [e1, e2] at hr
        have := related_eq _ _ hr rfl
        simp only [List.cons.injEq] at this
        exact this.2.1
    · have h1 : i.path ∈ topPaths := by rw [← top_paths s]; exact List.mem_map.2 ⟨i, hi, rfl⟩
      obtain ⟨x, _, hx⟩ := List.mem_flatMap.1 hj
      have : j.path ∈ (x.2.report x.1).map Item.path := List.mem_map.2 ⟨j, hx, rfl⟩
      rw [dset_paths] at this
      obtain ⟨z, _, e⟩ := List.mem_map.1 this
      rw [← e] at hr
      exact related_dset _ _ _ h1 hr

/-! ## The parts of the message -/

theorem asUint64_ok (i : Nat) (h : i < 18446744073709551616) : Json.asUint64 (.num i) = some i := by
  simp only [Json.asUint64]
  rw [if_pos (by omega)]
  simp

theorem field_at {α : Type} (m : List (Str × Json)) (k : Str) (hk : '/' ∉ k) (conv : Json → Option α) (v : Json) (x : α)
    (h : Ipc.get [k] (.obj m) = some v) (hc : conv v = some x) : field (.obj m) k conv = some (some x) := by
  rw [field_obj m k hk, h]
  simp only [hc, Option.map_some]

theorem field_no {α : Type} (m : List (Str × Json)) (k : Str) (hk : '/' ∉ k) (conv : Json → Option α)
    (h : Ipc.get [k] (.obj m) = none) : field (.obj m) k conv = some none := by
  rw [field_obj m k hk, h]

def Writer.takeProcess (t s : Writer) : Writer :=
  { t with number := s.number, rank := s.rank, block := s.block, blocks := s.blocks, earliest := s.earliest, threshold := s.threshold,
           alignment := s.alignment }

theorem process_ok (s t : Writer) (hv : s.Valid) (m : List (Str × Json))
    (h : ∀ k v, Item.val ["process".toList, k] v ∈ s.report → Ipc.get [k] (.obj m) = some v) :
    t.process (.obj m) = some (t.takeProcess s) := by
  have top : ∀ k v, Item.val ["process".toList, k] v ∈ s.top → Ipc.get [k] (.obj m) = some v :=
    fun k v hk => h k v (List.mem_append.2 (Or.inl hk))
  have f1 := field_at m "number".toList (by decide +kernel) Json.asUint64 _ _ (top _ _ (by simp only [Writer.top, List.mem_cons, true_or]))
    (asUint64_ok s.number hv.number)
  have f2 := field_at m "rank".toList (by decide +kernel) Json.asUint64 _ _ (top _ (.num s.rank) (by simp [Writer.top]))
    (asUint64_ok s.rank hv.rank)
  have f3 := field_at m "frames_per_block".toList (by decide +kernel) Json.asUint64 _ _ (top _ (.num s.block) (by simp [Writer.top]))
    (asUint64_ok s.block hv.block.2)
  have f4 := field_at m "blocks_per_file".toList (by decide +kernel) Json.asUint64 _ _ (top _ (.num s.blocks) (by simp [Writer.top]))
    (asUint64_ok s.blocks hv.blocks)
  have f5 := field_at m "earliest_version".toList (by decide +kernel) Json.asBool _ s.earliest
    (top _ (.bool s.earliest) (by simp [Writer.top])) rfl
  have f6 := field_at m "alignment_threshold".toList (by decide +kernel) Json.asUint64 _ _
    (top _ (.num s.threshold) (by simp [Writer.top])) (asUint64_ok s.threshold hv.threshold)
  have f7 := field_at m "alignment_value".toList (by decide +kernel) Json.asUint64 _ _
    (top _ (.num s.alignment) (by simp [Writer.top])) (asUint64_ok s.alignment hv.alignment)
  have b : ∀ w : Writer, w.setBlock s.block = some { w with block := s.block } := by
    intro w
    have := hv.block.1
    unfold Writer.setBlock
    rw [if_neg (by omega)]
  simp only [Writer.process, f1, f2, f3, f4, f5, f6, f7, upd, updM, Option.bind_some, b, Writer.takeProcess]

def Writer.takeFile (ok : Str → Bool) (t s : Writer) : Writer :=
  { t with path := if ok s.path then s.path else t.path, nack := if ok s.path then t.nack else true, pre := s.pre, useNumbers := s.useNumbers, first := s.first, post := s.post, extension := s.extension,
           create := s.create, write := s.write, flush := s.flush, close := s.close }

theorem file_ok (ok : Str → Bool) (s t : Writer) (hv : s.Valid) (hf : s.first < 2147483648) (m : List (Str × Json))
    (h : ∀ k v, Item.val ["file".toList, k] v ∈ s.report → Ipc.get [k] (.obj m) = some v) :
    t.file ok (.obj m) = some (t.takeFile ok s) := by
  have top : ∀ k v, Item.val ["file".toList, k] v ∈ s.top → Ipc.get [k] (.obj m) = some v :=
    fun k v hk => h k v (List.mem_append.2 (Or.inl hk))
  have f1 := field_at m "path".toList (by decide +kernel) Json.asStr _ s.path (top _ (.str s.path) (by simp [Writer.top])) rfl
  have f2 := field_at m "prefix".toList (by decide +kernel) Json.asStr _ s.pre (top _ (.str s.pre) (by simp [Writer.top])) rfl
  have f3 := field_at m "use_numbers".toList (by decide +kernel) Json.asBool _ s.useNumbers (top _ (.bool s.useNumbers) (by simp [Writer.top])) rfl
  have f4 := field_at m "first_number".toList (by decide +kernel) Json.asInt _ _ (top _ (.num s.first) (by simp [Writer.top]))
    (asInt_ok s.first ⟨by omega, by omega⟩)
  have f5 := field_at m "postfix".toList (by decide +kernel) Json.asStr _ s.post (top _ (.str s.post) (by simp [Writer.top])) rfl
  have f6 := field_at m "extension".toList (by decide +kernel) Json.asStr _ s.extension (top _ (.str s.extension) (by simp [Writer.top])) rfl
  have f7 := field_at m "create_error_duration".toList (by decide +kernel) Json.asUint _ _ (top _ (.num s.create) (by simp [Writer.top]))
    (asUint_ok s.create hv.create)
  have f8 := field_at m "write_error_duration".toList (by decide +kernel) Json.asUint _ _ (top _ (.num s.write) (by simp [Writer.top]))
    (asUint_ok s.write hv.write)
  have f9 := field_at m "flush_error_duration".toList (by decide +kernel) Json.asUint _ _ (top _ (.num s.flush) (by simp [Writer.top]))
    (asUint_ok s.flush hv.flush)
  have f10 := field_at m "close_error_duration".toList (by decide +kernel) Json.asUint _ _ (top _ (.num s.close) (by simp [Writer.top]))
    (asUint_ok s.close hv.close)
  have b : ∀ w : Writer, w.setPath ok s.path =
      { w with path := if ok s.path then s.path else w.path, nack := if ok s.path then w.nack else true } := by
    intro w
    unfold Writer.setPath
    by_cases h : ok s.path = true
    · rw [if_pos h, if_pos h, if_pos h]
    · rw [if_neg h, if_neg h, if_neg h]
  have c : toUint32 (s.first : Int) = s.first := by
    unfold toUint32
    rw [if_pos (by omega)]
    simp
  simp only [Writer.file, f1, f2, f3, f4, f5, f6, f7, f8, f9, f10, upd, Option.bind_some, b, c, Writer.takeFile]

theorem toInt_small (x : Nat) (h : x < 2147483648) : toInt x = (x : Int) := by
  have e : x % 4294967296 = x := Nat.mod_eq_of_lt (by omega)
  simp only [toInt, e]
  rw [if_pos h]

theorem asUints_ok (l : List Nat) (h : ∀ x ∈ l, x < 2147483648) : asUints (.arr (l.map (fun x => .num (toInt x)))) = some l := by
  simp only [asUints]
  induction l with
  | nil => rfl
  | cons i l ih =>
    have hi := h i (by simp)
    have hi2 := asUint64_ok i (by omega)
    simp only [List.map_cons, List.mapM_cons, toInt_small i hi, hi2, ih (fun k hk => h k (by simp [hk]))]
    rfl

theorem uints_field (m : List (Str × Json)) (k : Str) (hk : '/' ∉ k) (l : List Nat) (hl : ∀ x ∈ l, x < 2147483648)
    (h : Ipc.get [k] (.obj m) = if l.map (fun x => Json.num (toInt x)) = [] then none else some (.arr (l.map (fun x => .num (toInt x))))) :
    field (.obj m) k asUints = if l = [] then some none else some (some l) := by
  rw [field_obj m k hk, h]
  cases l with
  | nil => rfl
  | cons i l =>
    rw [if_neg (by simp), if_neg (by simp)]
    simp only [asUints_ok _ hl, Option.map_some]

theorem dset_eq (c d : Dset) (h1 : c.dtype = d.dtype) (h2 : c.compression = d.compression) (h3 : c.compressor = d.compressor)
    (h4 : c.level = d.level) (h5 : c.shuffle = d.shuffle) (h6 : c.dims = d.dims) (h7 : c.chunks = d.chunks) (h8 : c.indexes = d.indexes) :
    c = d := by
  cases c
  cases d
  simp_all

/-- Sent to a dataset without dimensions where none are reported, what is reported restores it. -/
theorem dset_ok (c d : Dset) (hs : d.Sendable) (k0 : Str) (c1 : c.indexes = false) (c2 : d.dims = [] → c.dims = [])
    (c3 : d.chunks = [] → c.chunks = []) (m : List (Str × Json))
    (hv : ∀ k v, Item.val ["dataset".toList, k0, k] v ∈ d.report k0 → Ipc.get [k] (.obj m) = some v)
    (he : ∀ k a, Item.elems ["dataset".toList, k0, k] a ∈ d.report k0 → Ipc.get [k] (.obj m) = if a = [] then none else some (.arr a))
    (hi : Ipc.get ["indexes".toList] (.obj m) = none) : Dset.configure c (.obj m) = some d := by
  have f1 := field_at m "datatype".toList (by decide +kernel) Json.asStr _ (typeName d.dtype).toList
    (hv _ (.str (typeName d.dtype).toList) (by simp [Dset.report])) rfl
  have f2 := uints_field m "dims".toList (by decide +kernel) d.dims hs.dims (he "dims".toList _ (by simp [Dset.report]))
  have f3 := uints_field m "chunks".toList (by decide +kernel) d.chunks hs.chunks (he "chunks".toList _ (by simp [Dset.report]))
  have f4 := field_at m "compression".toList (by decide +kernel) Json.asStr _ (compressionName d.compression).toList
    (hv _ (.str (compressionName d.compression).toList) (by simp [Dset.report])) rfl
  have g5 : Json.asUint (.num (toInt d.compressor)) = some d.compressor := by
    have := hs.compressor
    have a := asUint_ok d.compressor (by omega)
    rw [toInt_small _ this]
    exact a
  have g6 : Json.asUint (.num (toInt d.level)) = some d.level := by
    have := hs.level
    have a := asUint_ok d.level (by omega)
    rw [toInt_small _ this]
    exact a
  have g7 : Json.asUint (.num (toInt d.shuffle)) = some d.shuffle := by
    have := hs.shuffle
    have a := asUint_ok d.shuffle (by omega)
    rw [toInt_small _ this]
    exact a
  have f5 := field_at m "blosc_compressor".toList (by decide +kernel) Json.asUint _ _ (hv _ _ (by simp [Dset.report])) g5
  have f6 := field_at m "blosc_level".toList (by decide +kernel) Json.asUint _ _ (hv _ _ (by simp [Dset.report])) g6
  have f7 := field_at m "blosc_shuffle".toList (by decide +kernel) Json.asUint _ _ (hv _ _ (by simp [Dset.report])) g7
  have f8 := field_no m "indexes".toList (by decide +kernel) Json.asBool hi
  have t1 : typeFromString (String.ofList (typeName d.dtype).toList) = d.dtype := by
    rw [String.ofList_toList]; exact C48_type_roundtrip _
  have t2 : compressionFromString (String.ofList (compressionName d.compression).toList) = d.compression := by
    rw [String.ofList_toList]; exact C48_compression_roundtrip _
  simp only [Dset.configure, f1, f2, f3, f4, f5, f6, f7, f8, upd, Option.bind_some, t1, t2]
  by_cases h1 : d.chunks = []
  · have h2 := hs.chunked h1
    rw [if_pos h1, if_pos h2]
    simp only [Option.bind_some, Option.some.injEq]
    exact dset_eq _ _ rfl rfl rfl rfl rfl (by rw [h2]; exact c2 h2) (by rw [h1]; exact c3 h1) (by rw [hs.indexes]; exact c1)
  · rw [if_neg h1]
    by_cases h2 : d.dims = []
    · rw [if_pos h2]
      simp only [Option.bind_some, Option.some.injEq]
      exact dset_eq _ _ rfl rfl rfl rfl rfl (by rw [h2]; exact c2 h2) rfl (by rw [hs.indexes]; exact c1)
    · rw [if_neg h2]
      simp only [Option.bind_some, Option.some.injEq]
      exact dset_eq _ _ rfl rfl rfl rfl rfl rfl rfl (by rw [hs.indexes]; exact c1)

theorem lookD_eq (l : List (Str × Dset)) (k : Str) : lookD l k = look l k := by
  induction l with
  | nil => rfl
  | cons x l ih => simp only [lookD, look, ih]

theorem createD_look (l : List (Str × Dset)) (k a : Str) :
    lookD (createD l k) a = if k = a then some ((lookD l k).getD {}) else lookD l a := by
  unfold createD
  cases h : lookD l k with
  | none =>
    simp only [lookD_eq] at h ⊢
    rw [look_set]
    rfl
  | some d =>
    by_cases e : k = a
    · subst e; simp [h]
    · simp [e]

/-- The loop over the datasets of a report. -/
theorem all_dsets (s : List (Str × Dset)) (j : Json) (ks : List Str)
    (h : ∀ k ∈ ks, ∃ d sub, lookD s k = some d ∧ getParam (some j) k = some sub ∧ ∀ c, (c = {} ∨ c = d) → Dset.configure c sub = some d)
    (l : List (Str × Dset)) (hl : ∀ k ∈ ks, lookD l k = none ∨ lookD l k = lookD s k) :
    ∃ u, allDsets l j ks = some u ∧ ∀ k, lookD u k = if k ∈ ks then lookD s k else lookD l k := by
  induction ks generalizing l with
  | nil => exact ⟨l, rfl, fun k => by simp⟩
  | cons k ks ih =>
    obtain ⟨d, sub, h1, h2, h3⟩ := h k (by simp)
    have hc : (lookD (createD l k) k).getD {} = {} ∨ (lookD (createD l k) k).getD {} = d := by
      rw [createD_look, if_pos rfl]
      rcases hl k (by simp) with e | e
      · rw [e]; exact Or.inl rfl
      · rw [e, h1]; exact Or.inr rfl
    have hone : oneDset l k sub = some (setKey (createD l k) k d) := by
      simp only [oneDset, h3 _ hc, Option.map_some]
    have hlook : ∀ a, lookD (setKey (createD l k) k d) a = if k = a then some d else lookD l a := by
      intro a
      rw [lookD_eq, look_set, ← lookD_eq, createD_look]
      by_cases e : k = a <;> simp [e]
    obtain ⟨u, hu, hk⟩ := ih (fun x hx => h x (by simp [hx])) (setKey (createD l k) k d) (fun a ha => by
      rw [hlook]
      by_cases e : k = a
      · subst e; rw [if_pos rfl, h1]; exact Or.inr rfl
      · rw [if_neg e]; exact hl a (by simp [ha]))
    refine ⟨u, ?_, fun x => ?_⟩
    · simp only [allDsets, h2, hone, Option.bind_some, hu]
    · rw [hk, hlook]
      simp only [List.mem_cons]
      by_cases hx : x ∈ ks
      · simp [hx]
      · by_cases e : x = k
        · subst e; simp [hx, h1]
        · simp [hx, e, Ne.symm e]

theorem head_none (s : Writer) (k : Str) (h1 : ∀ p ∈ topPaths, p.head? ≠ some k) (h2 : k ≠ "dataset".toList) :
    ∀ i ∈ s.report, ¬ Related i.path [k] := by
  intro i hi hr
  rcases report_path s i hi with ⟨_, hp⟩ | ⟨x, _, _, z, _, e⟩
  · have hne := (top_ok _ hp).1
    have hh := h1 _ hp
    cases hq : i.path with
    | nil => exact hne hq
    | cons a q =>
      rw [hq] at hr hh
      exact hh (by rw [related_head _ _ _ _ hr]; rfl)
  · rw [e] at hr
    exact h2 (related_head _ _ _ _ hr).symm

theorem notPrefix (s : Writer) (q : List Str) (h1 : ∀ p ∈ topPaths, ¬ p <+: q) (h2 : q.length < 3) : ∀ i ∈ s.report, ¬ i.path <+: q := by
  intro i hi hr
  rcases report_path s i hi with ⟨_, hp⟩ | ⟨x, _, _, z, _, e⟩
  · exact h1 _ hp hr
  · rw [e] at hr
    have := hr.length_le
    simp only [List.length_cons, List.length_nil] at this
    omega

theorem mem_dsets (s : Writer) (k : Str) (d : Dset) (h : (k, d) ∈ s.datasets) (i : Item) (hi : i ∈ d.report k) : i ∈ s.report :=
  List.mem_append.2 (Or.inr (List.mem_flatMap.2 ⟨(k, d), h, hi⟩))

/-- The datasets of the message. -/
theorem dsets_ok (s : Writer) (hv : s.Valid) (hs : s.Sendable) (n : Str) (hn : Name n) (m : List (Str × Json))
    (hm : ∀ z, Ipc.get z (.obj m) = Ipc.get (n :: z) (reply n s.report).1) :
    ∃ u, dsets [] (.obj m) = some u ∧ ∀ k, lookD u k = lookD s.datasets k := by
  have hg := writer_good s hv.nodup hs.names
  have hsplit : splitAll "dataset".toList = ["dataset".toList] := splitAll_plain _ (by decide +kernel)
  cases hd : s.datasets with
  | nil =>
    have hno : Ipc.get ["dataset".toList] (.obj m) = none := by
      rw [hm]
      refine leaf_none n s.report hn hg _ (fun i hi hr => ?_)
      rcases report_path s i hi with ⟨_, hp⟩ | ⟨x, hx, _⟩
      · exact (show ∀ p ∈ topPaths, ¬ Related p ["dataset".toList] by decide +kernel) _ hp hr
      · rw [hd] at hx; cases hx
    have hf : findM m "dataset".toList = none := by
      cases hx : findM m "dataset".toList with
      | none => rfl
      | some v => simp only [Ipc.get, hx, Option.bind_some, reduceCtorEq] at hno
    refine ⟨[], ?_, fun k => rfl⟩
    simp only [dsets, hasParam, hsplit, has, hf]
  | cons x0 rest =>
    have hx0 : (x0.1, x0.2) ∈ s.datasets := by rw [hd]; simp
    have l0 := leaf_val n s.report hn hg ["dataset".toList, x0.1, "datatype".toList] (.str (typeName x0.2.dtype).toList)
      (mem_dsets s _ _ hx0 _ (by simp [Dset.report]))
    obtain ⟨mp, e1, hmp⟩ := above n s.report hn hg ["dataset".toList] [x0.1, "datatype".toList] _ l0
      (notPrefix s _ (by decide +kernel) (by simp))
    have hfm : findM m "dataset".toList = some (.obj mp) := by
      have := hm ["dataset".toList]
      rw [e1] at this
      simp only [Ipc.get] at this
      cases hx : findM m "dataset".toList with
      | none => rw [hx] at this; cases this
      | some v => rw [hx] at this; simpa [Ipc.get] using this
    have hnames : ∀ k ∈ mp.map (·.1), k ∈ s.datasets.map (·.1) := by
      intro k hk
      obtain ⟨v, hv2⟩ := findM_mem mp k hk
      have hg2 : Ipc.get [n, "dataset".toList, k] (reply n s.report).1 = some v := by
        rw [show [n, "dataset".toList, k] = n :: (["dataset".toList] ++ [k]) from rfl, ← hmp]
        simp [Ipc.get, hv2]
      rcases reply_origin n s.report hn hg _ _ hg2 with h | ⟨i, hi, hr⟩
      · cases h
      · have hr2 := related_tail _ _ _ hr
        rcases report_path s i hi with ⟨_, hp⟩ | ⟨x, hx, _, z, _, e⟩
        · exfalso
          have hh := top_head _ hp
          have hne := (top_ok _ hp).1
          cases hq : i.path with
          | nil => exact hne hq
          | cons a q =>
            rw [hq] at hr2 hh
            exact hh (by rw [related_head _ _ _ _ hr2]; rfl)
        · rw [e] at hr2
          have hr3 := related_head _ _ _ _ (related_tail _ _ _ hr2)
          rw [← hr3]
          exact List.mem_map.2 ⟨x, hx, rfl⟩
    have hall : ∀ k ∈ s.datasets.map (·.1), k ∈ mp.map (·.1) ∧ ∃ d sub, lookD s.datasets k = some d ∧
        getParam (some (.obj mp)) k = some sub ∧ ∀ c, (c = {} ∨ c = d) → Dset.configure c sub = some d := by
      intro k hk
      obtain ⟨d, hdl⟩ := (look_mem s.datasets k).2 hk
      have hmem := look_pair _ _ _ hdl
      have hsl := (hs.names _ hmem).1
      have hsd := hs.dsets _ hmem
      have lk := leaf_val n s.report hn hg ["dataset".toList, k, "datatype".toList] (.str (typeName d.dtype).toList)
        (mem_dsets s _ _ hmem _ (by simp [Dset.report]))
      obtain ⟨mk, e2, hmk⟩ := above n s.report hn hg ["dataset".toList, k] ["datatype".toList] _ lk
        (notPrefix s _ (fun p hp hpre => by
          have hh := top_head _ hp
          have hne := (top_ok _ hp).1
          cases p with
          | nil => exact hne rfl
          | cons a q =>
            simp only [List.cons_prefix_cons] at hpre
            exact hh (by rw [hpre.1]; rfl)) (by simp))
      have hfk : findM mp k = some (.obj mk) := by
        have := hmp [k]
        rw [show n :: (["dataset".toList] ++ [k]) = n :: ["dataset".toList, k] from rfl, e2] at this
        simp only [Ipc.get] at this
        cases hx : findM mp k with
        | none => rw [hx] at this; cases this
        | some v => rw [hx] at this; simpa [Ipc.get] using this
      refine ⟨?_, d, .obj mk, by rw [lookD_eq]; exact hdl, ?_, fun c hc => ?_⟩
      · apply Classical.byContradiction
        intro hno
        rw [findM_none mp k hno] at hfk
        cases hfk
      · simp only [getParam, Option.bind_some, splitAll_plain k hsl, Ipc.get, hfk]
      · refine dset_ok c d hsd k ?_ ?_ ?_ mk (fun z v hz => ?_) (fun z a hz => ?_) ?_
        · rcases hc with rfl | rfl
          · rfl
          · exact hsd.indexes
        · rcases hc with rfl | rfl
          · exact fun _ => rfl
          · exact id
        · rcases hc with rfl | rfl
          · exact fun _ => rfl
          · exact id
        · rw [hmk]
          exact leaf_val n s.report hn hg ["dataset".toList, k, z] v (mem_dsets s _ _ hmem _ hz)
        · rw [hmk]
          exact leaf_elems n s.report hn hg ["dataset".toList, k, z] a (mem_dsets s _ _ hmem _ hz)
        · rw [hmk]
          refine leaf_none n s.report hn hg ["dataset".toList, k, "indexes".toList] (fun i hi hr => ?_)
          rcases report_path s i hi with ⟨_, hp⟩ | ⟨x, hx, _, z, hz, e⟩
          · exact related_dset _ _ _ hp hr
          · rw [e] at hr
            have := related_eq _ _ hr rfl
            simp only [List.cons.injEq, and_true, true_and] at this
            exact (show ∀ z ∈ dsetKeys, z ≠ "indexes".toList by decide +kernel) z hz this.2
    obtain ⟨u, hu, hlook⟩ := all_dsets s.datasets (.obj mp) (mp.map (·.1)) (fun k hk => (hall k (hnames k hk)).2) [] (fun _ _ => Or.inl rfl)
    refine ⟨u, ?_, fun k => ?_⟩
    · simp only [dsets, hasParam, getParam, Option.bind_some, hsplit, has, Ipc.get, hfm]
      exact hu
    · rw [← hd, hlook]
      by_cases hk : k ∈ s.datasets.map (·.1)
      · rw [if_pos (hall k hk).1]
      · rw [if_neg (fun h => hk (hnames k h))]
        cases h : lookD s.datasets k with
        | none => rfl
        | some v => rw [lookD_eq] at h; exact absurd ((look_mem _ _).1 ⟨v, h⟩) hk

/-- What a new writer makes of a report, whether its path can be written to or not. -/
theorem C114_sent (ok : Str → Bool) (s : Writer) (hv : s.Valid) (hs : s.Sendable) (n : Str) (hn : Name n) :
    (reply n s.report).2 = .ok ∧ ∃ t, restore (Writer.configure ok) {} n (reply n s.report).1 = some t ∧ t.nack = !ok s.path ∧
      t.path = (if ok s.path then s.path else []) ∧ { t with path := s.path }.Same s := by
  have hg := writer_good s hv.nodup hs.names
  refine ⟨(reply_read n s.report hn hg).1, ?_⟩
  have up : ∀ i, i ∈ s.top → i ∈ s.report := fun i hi => List.mem_append.2 (Or.inl hi)
  have l0 := leaf_val n s.report hn hg ["frames".toList] (.num s.frames) (up _ (by simp [Writer.top]))
  obtain ⟨m, e0, hm⟩ := above n s.report hn hg [] ["frames".toList] _ l0 (notPrefix s _ (by decide +kernel) (by simp))
  have hm' : ∀ z, Ipc.get z (.obj m) = Ipc.get (n :: z) (reply n s.report).1 := fun z => hm z
  obtain ⟨u, hu, hlook⟩ := dsets_ok s hv hs n hn m hm'
  -- process
  obtain ⟨mp, ep, hmp⟩ := above n s.report hn hg ["process".toList] ["number".toList] _
    (leaf_val n s.report hn hg ["process".toList, "number".toList] (.num s.number) (up _ (by simp [Writer.top])))
    (notPrefix s _ (by decide +kernel) (by simp))
  obtain ⟨mf, ef, hmf⟩ := above n s.report hn hg ["file".toList] ["path".toList] _
    (leaf_val n s.report hn hg ["file".toList, "path".toList] (.str s.path) (up _ (by simp [Writer.top])))
    (notPrefix s _ (by decide +kernel) (by simp))
  have fp := field_at m "process".toList (by decide +kernel) some (.obj mp) _ (by rw [hm', ep]) rfl
  have ff := field_at m "file".toList (by decide +kernel) some (.obj mf) _ (by rw [hm', ef]) rfl
  have P := fun t => process_ok s t hv mp (fun k v hk => by rw [hmp]; exact leaf_val n s.report hn hg ["process".toList, k] v hk)
  have F := fun t => file_ok ok s t hv hs.first mf (fun k v hk => by rw [hmf]; exact leaf_val n s.report hn hg ["file".toList, k] v hk)
  have f1 := field_at m "frames".toList (by decide +kernel) Json.asUint64 _ _ (by rw [hm', l0]) (asUint64_ok s.frames hv.frames)
  have f2 := field_at m "master".toList (by decide +kernel) Json.asStr (.str s.master) s.master
    (by rw [hm']; exact leaf_val n s.report hn hg ["master".toList] _ (up _ (by simp [Writer.top]))) rfl
  have f3 := field_at m "acquisition_id".toList (by decide +kernel) Json.asStr (.str s.acqId) s.acqId
    (by rw [hm']; exact leaf_val n s.report hn hg ["acquisition_id".toList] _ (up _ (by simp [Writer.top]))) rfl
  have f4 := field_at m "timeout_timer_period".toList (by decide +kernel) Json.asUint64 (.num s.timeout) s.timeout
    (by rw [hm']; exact leaf_val n s.report hn hg ["timeout_timer_period".toList] _ (up _ (by simp [Writer.top])))
    (asUint64_ok s.timeout hv.timeout)
  have f5 := field_no m "start_timeout_timer".toList (by decide +kernel) Json.asBool
    (by rw [hm']; exact leaf_none n s.report hn hg ["start_timeout_timer".toList] (head_none s _ (by decide +kernel) (by decide +kernel)))
  have f6 : ∀ l, delete l (.obj m) = some l := by
    intro l
    have hno : Ipc.get ["delete_datasets".toList] (.obj m) = none := by
      rw [hm']
      exact leaf_none n s.report hn hg ["delete_datasets".toList] (head_none s _ (by decide +kernel) (by decide +kernel))
    have hf : findM m "delete_datasets".toList = none := by
      cases hx : findM m "delete_datasets".toList with
      | none => rfl
      | some v => simp only [Ipc.get, hx, Option.bind_some, reduceCtorEq] at hno
    simp only [delete, hasParam]
    rw [splitAll_plain _ (by decide +kernel)]
    simp only [has, hf]
    rfl
  have er : getParam (some (reply n s.report).1) n = some (.obj m) := by
    simp only [getParam, Option.bind_some, splitAll_plain n hn.2]
    exact e0
  have hd0 : ∀ t : Writer, ((t.takeProcess s).takeFile ok s).datasets = t.datasets := fun t => rfl
  simp only [restore, er, Writer.configure, part, fp, ff, updM, P, F, Option.bind_some, hd0, hu, f6, Option.map_some, f1, f2, f3, f4, f5, upd]
  refine ⟨_, rfl, ?_, rfl, ⟨rfl, rfl, rfl, rfl, rfl, rfl, hlook⟩⟩
  simp only [Writer.takeProcess, Writer.takeFile]
  cases ok s.path <;> rfl

/-- C114 for a path that can be written to and values and names that are sent as they are reported. -/
theorem C114_partial (ok : Str → Bool) (s : Writer) (hv : s.Valid) (hs : s.Sendable) (hp : ok s.path = true) (n : Str) (hn : Name n) :
    (reply n s.report).2 = .ok ∧ ∃ t, restore (Writer.configure ok) {} n (reply n s.report).1 = some t ∧ t.nack = false ∧ t.Same s := by
  obtain ⟨h1, t, h2, h3, h4, h5⟩ := C114_sent ok s hv hs n hn
  rw [if_pos hp] at h4
  refine ⟨h1, t, h2, by rw [h3, hp]; rfl, h5.process, h5.align, ?_, h5.file2, h5.limits, h5.rest, h5.datasets⟩
  have := h5.file
  simp only [h4] at this ⊢
  exact this

/-- A path that cannot be written to, as the empty one of a new writer: the report is refused. -/
theorem C114_path (ok : Str → Bool) (s : Writer) (hv : s.Valid) (hs : s.Sendable) (hp : ok s.path = false) (n : Str) (hn : Name n) :
    ∃ t, restore (Writer.configure ok) {} n (reply n s.report).1 = some t ∧ t.nack = true := by
  obtain ⟨_, t, h2, h3, _⟩ := C114_sent ok s hv hs n hn
  exact ⟨t, h2, by rw [h3, hp]; rfl⟩

/-! ## Reachable states -/

theorem asUint64_range (j : Json) (v : Nat) (h : Json.asUint64 j = some v) : v < 18446744073709551616 := by
  cases j with
  | num i =>
    simp only [Json.asUint64] at h
    split at h
    · simp only [Option.some.injEq] at h; omega
    · cases h
  | _ => simp [Json.asUint64] at h

theorem asUint_range (j : Json) (v : Nat) (h : Json.asUint j = some v) : v < 4294967296 := by
  cases j with
  | num i =>
    simp only [Json.asUint] at h
    split at h
    · simp only [Option.some.injEq] at h; omega
    · cases h
  | _ => simp [Json.asUint] at h

theorem field_conv {α : Type} (j : Json) (k : Str) (conv : Json → Option α) (v : α) (h : field j k conv = some (some v)) :
    ∃ x, conv x = some v := by
  simp only [field] at h
  split at h
  · cases h
  · simp at h
  · split at h
    · cases h
    · rename_i w hw
      simp only [Option.some.injEq] at h
      subst h
      obtain ⟨x, _, hx⟩ := Option.bind_eq_some_iff.1 hw
      exact ⟨x, hx⟩

/-- What holds before and is kept by the setter holds after it. -/
theorem upd_keeps {α σ : Type} (P : σ → Prop) (s t : σ) (f : σ → α → σ) (j : Json) (k : Str) (conv : Json → Option α)
    (hP : P s) (hf : ∀ v x, conv x = some v → P (f s v)) (h : upd s f (field j k conv) = some t) : P t := by
  cases hx : field j k conv with
  | none => rw [hx] at h; cases h
  | some o =>
    rw [hx] at h
    cases o with
    | none => simp only [upd, Option.some.injEq] at h; subst h; exact hP
    | some v =>
      simp only [upd, Option.some.injEq] at h
      subst h
      obtain ⟨x, hx⟩ := field_conv j k conv v hx
      exact hf v x hx

theorem updM_keeps {α σ : Type} (P : σ → Prop) (s t : σ) (f : σ → α → Option σ) (j : Json) (k : Str) (conv : Json → Option α)
    (hP : P s) (hf : ∀ v x t, conv x = some v → f s v = some t → P t) (h : updM s f (field j k conv) = some t) : P t := by
  cases hx : field j k conv with
  | none => rw [hx] at h; cases h
  | some o =>
    rw [hx] at h
    cases o with
    | none => simp only [updM, Option.some.injEq] at h; subst h; exact hP
    | some v =>
      simp only [updM] at h
      obtain ⟨x, hx⟩ := field_conv j k conv v hx
      exact hf v x t hx h

theorem process_valid (s t : Writer) (j : Json) (hv : s.Valid) (h : s.process j = some t) : t.Valid := by
  simp only [Writer.process, Option.bind_eq_some_iff] at h
  obtain ⟨a, h1, b, h2, c, h3, d, h4, e, h5, f, h6, h7⟩ := h
  have v1 : a.Valid := upd_keeps _ _ _ _ _ _ _ hv (fun v x hx => { hv with number := asUint64_range x v hx }) h1
  have v2 : b.Valid := upd_keeps _ _ _ _ _ _ _ v1 (fun v x hx => { v1 with rank := asUint64_range x v hx }) h2
  have v3 : c.Valid := updM_keeps _ _ _ _ _ _ _ v2 (fun v x t hx ht => by
    unfold Writer.setBlock at ht
    split at ht
    · cases ht
    · rename_i hne
      simp only [Option.some.injEq] at ht
      subst ht
      have := v2.block.1
      have hb : 1 ≤ v := by omega
      exact { v2 with block := ⟨hb, asUint64_range x v hx⟩ }) h3
  have v4 : d.Valid := upd_keeps _ _ _ _ _ _ _ v3 (fun v x hx => { v3 with blocks := asUint64_range x v hx }) h4
  have v5 : e.Valid := upd_keeps _ _ _ _ _ _ _ v4 (fun v x hx => { v4 with }) h5
  have v6 : f.Valid := upd_keeps _ _ _ _ _ _ _ v5 (fun v x hx => { v5 with threshold := asUint64_range x v hx }) h6
  exact upd_keeps _ _ _ _ _ _ _ v6 (fun v x hx => { v6 with alignment := asUint64_range x v hx }) h7

theorem file_valid (ok : Str → Bool) (s t : Writer) (j : Json) (hv : s.Valid) (h : s.file ok j = some t) : t.Valid := by
  simp only [Writer.file, Option.bind_eq_some_iff] at h
  obtain ⟨a, h1, b, h2, c, h3, d, h4, e, h5, f, h6, g, h7, i, h8, k, h9, h10⟩ := h
  have v1 : a.Valid := upd_keeps _ _ _ _ _ _ _ hv (fun v x hx => by
    unfold Writer.setPath
    split
    · exact { hv with }
    · exact { hv with }) h1
  have v2 : b.Valid := upd_keeps _ _ _ _ _ _ _ v1 (fun v x hx => { v1 with }) h2
  have v3 : c.Valid := upd_keeps _ _ _ _ _ _ _ v2 (fun v x hx => { v2 with }) h3
  have v4 : d.Valid := upd_keeps _ _ _ _ _ _ _ v3 (fun v x hx => { v3 with }) h4
  have v5 : e.Valid := upd_keeps _ _ _ _ _ _ _ v4 (fun v x hx => { v4 with }) h5
  have v6 : f.Valid := upd_keeps _ _ _ _ _ _ _ v5 (fun v x hx => { v5 with }) h6
  have v7 : g.Valid := upd_keeps _ _ _ _ _ _ _ v6 (fun v x hx => { v6 with create := asUint_range x v hx }) h7
  have v8 : i.Valid := upd_keeps _ _ _ _ _ _ _ v7 (fun v x hx => { v7 with write := asUint_range x v hx }) h8
  have v9 : k.Valid := upd_keeps _ _ _ _ _ _ _ v8 (fun v x hx => { v8 with flush := asUint_range x v hx }) h9
  exact upd_keeps _ _ _ _ _ _ _ v9 (fun v x hx => { v9 with close := asUint_range x v hx }) h10

theorem setKey_nodup {α : Type} (l : List (Str × α)) (k : Str) (v : α) (h : (l.map (·.1)).Nodup) : ((setKey l k v).map (·.1)).Nodup := by
  rw [setKey_keys]
  split
  · exact h
  · rename_i hk
    rw [List.nodup_append]
    refine ⟨h, by simp, fun x hx y hy e => ?_⟩
    rw [List.mem_singleton] at hy
    subst hy e
    exact hk hx

theorem createD_nodup (l : List (Str × Dset)) (k : Str) (h : (l.map (·.1)).Nodup) : ((createD l k).map (·.1)).Nodup := by
  unfold createD
  split
  · exact h
  · exact setKey_nodup _ _ _ h

theorem allDsets_nodup (j : Json) (ks : List Str) (l u : List (Str × Dset)) (h : (l.map (·.1)).Nodup) (hu : allDsets l j ks = some u) :
    (u.map (·.1)).Nodup := by
  induction ks generalizing l with
  | nil => simp only [allDsets, Option.some.injEq] at hu; subst hu; exact h
  | cons k ks ih =>
    simp only [allDsets] at hu
    cases hg : getParam (some j) k with
    | none => rw [hg] at hu; cases hu
    | some sub =>
      rw [hg] at hu
      obtain ⟨w, hw, h2⟩ := Option.bind_eq_some_iff.1 hu
      refine ih w ?_ h2
      simp only [oneDset, Option.map_eq_some_iff] at hw
      obtain ⟨d, _, rfl⟩ := hw
      exact setKey_nodup _ _ _ (createD_nodup _ _ h)

theorem dsets_nodup (j : Json) (l u : List (Str × Dset)) (h : (l.map (·.1)).Nodup) (hu : dsets l j = some u) : (u.map (·.1)).Nodup := by
  simp only [dsets] at hu
  split at hu
  · cases hu
  · simp only [Option.some.injEq] at hu; subst hu; exact h
  · split at hu
    · simp only [Option.some.injEq] at hu; subst hu; exact createD_nodup _ _ h
    · exact allDsets_nodup _ _ _ _ h hu
    · cases hu

/-- Whatever messages were received, there is at least one frame per block and the values are in the ranges of their types. -/
theorem C114_valid (ok : Str → Bool) (s : Writer) (h : Writer.Reach ok s) : s.Valid := by
  induction h with
  | new => constructor <;> simp
  | msg s t j _ hc hv =>
    simp only [Writer.configure, part, Option.bind_eq_some_iff, Option.map_eq_some_iff] at hc
    obtain ⟨a, h1, b, h2, c, ⟨l, h3, rfl⟩, d, ⟨l', h4, rfl⟩, e, h5, f, h6, g, h7, i, h8, h9⟩ := hc
    have v0 : ({ s with nack := false } : Writer).Valid := { hv with }
    have v1 : a.Valid := updM_keeps _ _ _ _ _ _ _ v0 (fun v x t _ ht => process_valid _ t v v0 ht) h1
    have v2 : b.Valid := updM_keeps _ _ _ _ _ _ _ v1 (fun v x t _ ht => file_valid ok _ t v v1 ht) h2
    have v3 : ({ b with datasets := l } : Writer).Valid := { v2 with nodup := dsets_nodup j _ l v2.nodup h3 }
    have hn4 : (l'.map (·.1)).Nodup := by
      simp only [delete, Option.map_eq_some_iff] at h4
      obtain ⟨x, _, rfl⟩ := h4
      split
      · simp
      · exact v3.nodup
    have v4 : ({ { b with datasets := l } with datasets := l' } : Writer).Valid := { v3 with nodup := hn4 }
    have v5 : e.Valid := upd_keeps _ _ _ _ _ _ _ v4 (fun v x hx => { v4 with frames := asUint64_range x v hx }) h5
    have v6 : f.Valid := upd_keeps _ _ _ _ _ _ _ v5 (fun v x hx => { v5 with }) h6
    have v7 : g.Valid := upd_keeps _ _ _ _ _ _ _ v6 (fun v x hx => { v6 with }) h7
    have v8 : i.Valid := upd_keeps _ _ _ _ _ _ _ v7 (fun v x hx => { v7 with timeout := asUint64_range x v hx }) h8
    exact upd_keeps _ _ _ _ _ _ _ v8 (fun v x hx => v8) h9

/-! ## Counterexamples -/

/-- A dataset with indexes. -/
def indexed : Json :=
  .obj [("file".toList, .obj [("path".toList, .str "/data".toList)]),
    ("dataset".toList, .obj [("data".toList, .obj [("indexes".toList, .bool true)])])]

def indexedState : Writer := { path := "/data".toList, datasets := [("data".toList, { indexes := true })] }

/-- Whether the lowest and highest index are written is not reported. -/
theorem C114_violated : ¬ C114_statement := by
  intro h
  have hr : Writer.Reach (fun _ => true) indexedState := .msg {} indexedState indexed .new (by decide +kernel)
  obtain ⟨_, t, ht, _, hsame⟩ := h _ indexedState hr "hdf".toList ⟨plain_of _ (by decide +kernel), by decide +kernel⟩
  have e : restore (Writer.configure (fun _ => true)) {} "hdf".toList (reply "hdf".toList indexedState.report).1 =
      some { path := "/data".toList, datasets := [("data".toList, {})] } := by decide +kernel
  rw [e] at ht
  simp only [Option.some.injEq] at ht
  subst ht
  have := hsame.datasets "data".toList
  revert this
  decide +kernel

/-- A negative first number wraps, and the number reported then is refused. -/
example : Writer.configure (fun _ => true) {} (.obj [("file".toList, .obj [("first_number".toList, .num (-1))])]) =
      some { first := 4294967295 } ∧
    restore (Writer.configure (fun _ => true)) {} "hdf".toList (reply "hdf".toList (Writer.report { first := 4294967295 })).1 = none := by
  constructor <;> decide +kernel

/-- Dimensions of 2^32 are reported as zero. -/
example : restore (Writer.configure (fun _ => true)) {} "hdf".toList
      (reply "hdf".toList (Writer.report { datasets := [("data".toList, { dims := [4294967296], chunks := [1, 4294967296] })] })).1 =
    some { datasets := [("data".toList, { dims := [0], chunks := [1, 0] })] } := by decide +kernel

/-- The dimensions of a dataset called "dims[]" become another dataset. -/
example : restore (Writer.configure (fun _ => true)) {} "hdf".toList
      (reply "hdf".toList (Writer.report { datasets := [("dims[]".toList, { dims := [3], chunks := [1, 3] })] })).1 =
    some { datasets := [("dims[]".toList, { chunks := [1, 3] }), ("dims".toList, { dims := [3], chunks := [1, 3] })] } := by decide +kernel

def sample : Writer := { path := "/data".toList, number := 4, rank := 2, block := 100, frames := 1000, first := 1,
                         datasets := [("data".toList, { dtype := .raw16, dims := [256, 512], chunks := [1, 128, 512] }), ("x".toList, {})] }

example : ∃ t, restore (Writer.configure (fun p => p == "/data".toList)) {} "hdf".toList (reply "hdf".toList sample.report).1 = some t ∧
    t.nack = false ∧ t.Same sample := by
  refine (C114_partial _ sample ?_ ?_ (by decide +kernel) "hdf".toList ⟨plain_of _ (by decide +kernel), by decide +kernel⟩).2
  · constructor <;> simp [sample]
  · refine ⟨by simp [sample], by decide +kernel, fun x hx => ?_⟩
    simp only [sample, List.mem_cons, List.not_mem_nil, or_false] at hx
    rcases hx with rfl | rfl <;> constructor <;> simp

end Verif.PluginConfig
