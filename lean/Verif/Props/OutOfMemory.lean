import Verif.Model.OutOfMemory

/-!
C165: running out of memory does not lead to accesses to memory that is not there, and what is taken is returned.
-/
namespace Verif.OutOfMemory

/-- C165, full statement: whatever memory the system has, no operation is undefined. -/
def C165_statement : Prop := ∀ ops, ∃ s, run {} ops = some s

/-- The system has memory for the operation, or it is the one that looks at the answer. -/
def Given : Op → Prop
  | .block _ _ has => has = true
  | .resize _ _ has => has = true
  | .metaMsg _ _ has => has = true
  | .gap _ has => has = true
  | .kafka _ _ has _ => has = true
  | _ => True

/-- Every object has memory of its size, no two have the same, and there is no other memory taken. -/
structure Tidy (s : State) : Prop where
  has : ∀ k p n, s.objs k = some (p, n) → ∃ a, p = .addr a ∧ (a, n) ∈ s.heap.live
  own : ∀ k k' a n m, s.objs k = some (.addr a, n) → s.objs k' = some (.addr a, m) → k = k'
  all : ∀ a n, (a, n) ∈ s.heap.live → ∃ k, s.objs k = some (.addr a, n)

/-- … and addresses are old. -/
structure Inv (s : State) : Prop extends Tidy s where
  old : ∀ a n, (a, n) ∈ s.heap.live → a < s.heap.next

theorem inv_init : Inv {} := ⟨⟨fun _ _ _ h => (by cases h), fun _ _ _ _ _ h => (by cases h), fun _ _ h => (by cases h)⟩, fun _ _ h => (by cases h)⟩

theorem put_hit (s : State) (h : Heap) (k : Key) (v : Option (Ptr × Nat)) : (s.put h k v).objs k = v := by simp [State.put]
theorem put_miss (s : State) (h : Heap) (k i : Key) (v : Option (Ptr × Nat)) (e : i ≠ k) : (s.put h k v).objs i = s.objs i := by simp [State.put, e]

theorem put_cases (s : State) (h : Heap) (k i : Key) (v : Option (Ptr × Nat)) : (i = k ∧ (s.put h k v).objs i = v) ∨ (i ≠ k ∧ (s.put h k v).objs i = s.objs i) := by
  by_cases e : i = k
  · exact Or.inl ⟨e, by rw [e]; exact put_hit s h k v⟩
  · exact Or.inr ⟨e, put_miss s h k i v e⟩

/-- A new object with new memory. -/
theorem inv_new (s : State) (hi : Inv s) (k : Key) (n : Nat) (hk : s.objs k = none) : Inv (s.put (take s.heap n) k (some (.addr s.heap.next, n))) := by
  refine ⟨⟨fun i p m e => ?_, fun i j a m l ei ej => ?_, fun a m e => ?_⟩, fun a m e => ?_⟩
  · rcases put_cases s (take s.heap n) k i (some (.addr s.heap.next, n)) with ⟨_, h⟩ | ⟨_, h⟩
    · rw [h] at e; cases e; exact ⟨_, rfl, List.mem_cons_self⟩
    · rw [h] at e
      obtain ⟨a, h1, h2⟩ := hi.has i p m e
      exact ⟨a, h1, List.mem_cons_of_mem _ h2⟩
  · rcases put_cases s (take s.heap n) k i (some (.addr s.heap.next, n)) with ⟨h0, h⟩ | ⟨_, h⟩ <;>
      rcases put_cases s (take s.heap n) k j (some (.addr s.heap.next, n)) with ⟨g0, g⟩ | ⟨_, g⟩ <;> rw [h] at ei <;> rw [g] at ej
    · rw [h0, g0]
    · cases ei
      obtain ⟨a, h1, h2⟩ := hi.has j _ _ ej
      cases h1
      exact absurd (hi.old _ _ h2) (Nat.lt_irrefl _)
    · cases ej
      obtain ⟨a, h1, h2⟩ := hi.has i _ _ ei
      cases h1
      exact absurd (hi.old _ _ h2) (Nat.lt_irrefl _)
    · exact hi.own i j a m l ei ej
  · rcases List.mem_cons.mp e with h | h
    · cases h; exact ⟨k, put_hit ..⟩
    · obtain ⟨i, hh⟩ := hi.all a m h
      refine ⟨i, ?_⟩
      rw [put_miss]
      · exact hh
      · rintro rfl; rw [hk] at hh; cases hh
  · rcases List.mem_cons.mp e with h | h
    · cases h; exact Nat.lt_succ_self _
    · exact Nat.lt_succ_of_lt (hi.old a m h)

theorem any_addr (l : List (Nat × Nat)) (a n : Nat) (h : (a, n) ∈ l) : (l.any fun x => x.1 == a) = true :=
  List.any_eq_true.mpr ⟨_, h, by simp⟩

/-- The memory of an object is returned. -/
theorem destroy_ok (s : State) (hi : Inv s) (k : Key) : ∃ t, destroy s k = some t ∧ Inv t ∧ t.objs k = none := by
  cases e : s.objs k with
  | none => exact ⟨s, by simp only [destroy, e], hi, e⟩
  | some v =>
    obtain ⟨p, n⟩ := v
    obtain ⟨a, rfl, hm⟩ := hi.has k p n e
    refine ⟨s.put ⟨s.heap.live.filter fun x => x.1 != a, s.heap.next⟩ k none, ?_, ⟨⟨fun i p m ei => ?_, fun i j b m l ei ej => ?_, fun b m hb => ?_⟩, fun b m hb => ?_⟩, put_hit ..⟩
    · simp only [destroy, e, free, any_addr _ a n hm, if_true, Option.map_some]
    · rcases put_cases s ⟨s.heap.live.filter fun x => x.1 != a, s.heap.next⟩ k i none with ⟨_, h⟩ | ⟨hne, h⟩
      · rw [h] at ei; cases ei
      · rw [h] at ei
        obtain ⟨b, h1, h2⟩ := hi.has i p m ei
        refine ⟨b, h1, List.mem_filter.mpr ⟨h2, ?_⟩⟩
        simp only [bne_iff_ne, ne_eq]
        rintro rfl
        rw [h1] at ei
        exact hne (hi.own i k b m n ei e)
    · rcases put_cases s ⟨s.heap.live.filter fun x => x.1 != a, s.heap.next⟩ k i none with ⟨_, h⟩ | ⟨_, h⟩
      · rw [h] at ei; cases ei
      · rcases put_cases s ⟨s.heap.live.filter fun x => x.1 != a, s.heap.next⟩ k j none with ⟨_, g⟩ | ⟨_, g⟩
        · rw [g] at ej; cases ej
        · rw [h] at ei; rw [g] at ej; exact hi.own i j b m l ei ej
    · obtain ⟨h1, h2⟩ := List.mem_filter.mp hb
      obtain ⟨i, hh⟩ := hi.all b m h1
      refine ⟨i, ?_⟩
      rw [put_miss]
      · exact hh
      · rintro rfl
        rw [e] at hh
        cases hh
        simp at h2
    · exact hi.old b m (List.mem_filter.mp hb).1

theorem malloc_ok (h : Heap) (n : Nat) (p : Ptr) : malloc h n true p = (take h n, .addr h.next) := rfl

theorem usable_of (h : Heap) (a m n : Nat) (hm : (a, m) ∈ h.live) (hn : n ≤ m) : usable h (.addr a) n = true := by
  simp only [usable, Bool.or_eq_true]
  exact Or.inr (List.any_eq_true.mpr ⟨_, hm, by simp [hn]⟩)

theorem filled_ok (s : State) (hi : Inv s) (k : Key) (n : Nat) (hk : s.objs k = none) : ∃ t, newFilled s k n true = some t ∧ Inv t := by
  refine ⟨_, ?_, inv_new s hi k n hk⟩
  exact if_pos (c := usable (take s.heap n) (.addr s.heap.next) n = true) (usable_of (take s.heap n) s.heap.next n n List.mem_cons_self (Nat.le_refl _))

theorem buffer_ok (s : State) (hi : Inv s) (i n : Nat) (has : Bool) (hk : s.objs (.blosc, i) = none) : Inv (bufferNew s i n has) := by
  cases has
  · exact hi
  · exact inv_new s hi _ n hk

theorem step_ok (s : State) (hi : Inv s) (o : Op) (hg : Given o) : ∃ t, step s o = some t ∧ Inv t := by
  cases o with
  | block i n has =>
    have hg : has = true := hg
    subst hg
    cases e : s.objs (.block, i) with
    | some v => exact ⟨s, by simp only [step, e], hi⟩
    | none => exact ⟨newBlock s i n true, by simp only [step, e], inv_new s hi _ n e⟩
  | resize i n has =>
    have hg : has = true := hg
    subst hg
    cases e : s.objs (.block, i) with
    | none => exact ⟨s, by simp only [step, e], hi⟩
    | some v =>
      obtain ⟨p, m⟩ := v
      by_cases hne : n ≠ m
      · obtain ⟨t, h1, h2, h3⟩ := destroy_ok s hi (.block, i)
        simp only [destroy, e] at h1
        cases hf : free s.heap p with
        | none => rw [hf] at h1; cases h1
        | some h =>
          rw [hf] at h1
          simp only [Option.map_some, Option.some.injEq] at h1
          subst h1
          have h4 := inv_new _ h2 (.block, i) n h3
          refine ⟨_, ?_, h4⟩
          simp only [step, e, resize, if_pos hne, hf, Option.map_some, malloc_ok, Option.some.injEq]
          simp only [State.put, State.mk.injEq, true_and]
          funext j
          by_cases hj : j = (.block, i) <;> simp [hj]
      · exact ⟨s, by simp only [step, e, resize, if_neg hne], hi⟩
  | copy i n =>
    cases e : s.objs (.block, i) with
    | none => exact ⟨s, by simp only [step, e], hi⟩
    | some v =>
      obtain ⟨p, m⟩ := v
      obtain ⟨a, rfl, hm⟩ := hi.has _ _ _ e
      refine ⟨s, ?_, hi⟩
      simp only [step, e, copyData]
      rw [if_pos (usable_of _ _ m _ hm (by split <;> omega))]
  | drop i => obtain ⟨t, h1, h2, _⟩ := destroy_ok s hi (.block, i); exact ⟨t, h1, h2⟩
  | metaMsg i n has =>
    have hg : has = true := hg
    subst hg
    cases e : s.objs (.metaMsg, i) with
    | some v => exact ⟨s, by simp only [step, e], hi⟩
    | none => obtain ⟨t, h1, h2⟩ := filled_ok s hi (.metaMsg, i) n e; exact ⟨t, by simp only [step, e, h1], h2⟩
  | metaDrop i => obtain ⟨t, h1, h2, _⟩ := destroy_ok s hi (.metaMsg, i); exact ⟨t, h1, h2⟩
  | gap n has =>
    have hg : has = true := hg
    subst hg
    refine ⟨⟨⟨s.heap.live.filter fun x => x.1 != s.heap.next, s.heap.next + 1⟩, s.objs⟩, ?_, ?_⟩
    · show (if usable (take s.heap n) (.addr s.heap.next) n = true then (free (take s.heap n) (.addr s.heap.next)).map fun h => (⟨h, s.objs⟩ : State) else none) = _
      rw [if_pos (usable_of (take s.heap n) s.heap.next n n List.mem_cons_self (Nat.le_refl _))]
      simp only [free, take, List.any_cons, beq_self_eq_true, Bool.true_or, if_true, Option.map_some, Option.some.injEq, State.mk.injEq, Heap.mk.injEq, and_true]
      rw [List.filter_cons_of_neg (by simp)]
    · have hsame : (s.heap.live.filter fun x => x.1 != s.heap.next) = s.heap.live := by
        rw [List.filter_eq_self]
        intro x hx
        have := hi.old x.1 x.2 hx
        simp only [bne_iff_ne, ne_eq]
        omega
      rw [hsame]
      exact ⟨⟨hi.has, hi.own, hi.all⟩, fun a m h => Nat.lt_succ_of_lt (hi.old a m h)⟩
  | blosc i n has =>
    cases e : s.objs (.blosc, i) with
    | none => exact ⟨_, by simp only [step, getBuffer, e], buffer_ok s hi i n has e⟩
    | some v =>
      obtain ⟨p, m⟩ := v
      by_cases hn : n ≤ m
      · exact ⟨s, by simp only [step, getBuffer, e, if_pos hn], hi⟩
      · obtain ⟨t, h1, h2, h3⟩ := destroy_ok s hi (.blosc, i)
        exact ⟨_, by simp only [step, getBuffer, e, if_neg hn, h1, Option.map_some], buffer_ok t h2 i n has h3⟩
  | bloscDrop i => obtain ⟨t, h1, h2, _⟩ := destroy_ok s hi (.blosc, i); exact ⟨t, h1, h2⟩
  | kafka i n has taken =>
    have hg : has = true := hg
    subst hg
    cases e : s.objs (.kafka, i) with
    | some v => exact ⟨s, by simp only [step, e], hi⟩
    | none =>
      obtain ⟨t, h1, h2⟩ := filled_ok s hi (.kafka, i) n e
      cases taken
      · obtain ⟨u, h3, h4, _⟩ := destroy_ok t h2 (.kafka, i)
        exact ⟨u, by simp only [step, e, h1, Option.bind_some]; exact h3, h4⟩
      · exact ⟨t, by simp only [step, e, h1, Option.bind_some, if_true], h2⟩
  | delivered i => obtain ⟨t, h1, h2, _⟩ := destroy_ok s hi (.kafka, i); exact ⟨t, h1, h2⟩

theorem run_ok (ops : List Op) (s : State) (hi : Inv s) (hg : ∀ o, o ∈ ops → Given o) : ∃ t, run s ops = some t ∧ Inv t := by
  induction ops generalizing s with
  | nil => exact ⟨s, rfl, hi⟩
  | cons o ops ih =>
    obtain ⟨t, h1, h2⟩ := step_ok s hi o (hg o List.mem_cons_self)
    obtain ⟨u, h3, h4⟩ := ih t h2 fun x hx => hg x (List.mem_cons_of_mem _ hx)
    exact ⟨u, by simp only [run, h1, Option.bind_some, h3], h4⟩

/-- C165, what holds: as long as the system has memory for blocks, messages and images (the buffer of the Blosc plugin may fail), nothing is undefined, every
object has memory of its size for itself alone, and no other memory is taken. -/
theorem C165_partial (ops : List Op) (hg : ∀ o, o ∈ ops → Given o) : ∃ s, run {} ops = some s ∧ Tidy s := by
  obtain ⟨s, h1, h2⟩ := run_ok ops {} inv_init hg
  exact ⟨s, h1, h2.toTidy⟩

/-- C165, nothing is left: when no object is left, all memory has been returned. -/
theorem C165_returned (ops : List Op) (hg : ∀ o, o ∈ ops → Given o) (s : State) (hr : run {} ops = some s) (hn : ∀ k, s.objs k = none) : s.heap.live = [] := by
  obtain ⟨t, h1, h2⟩ := C165_partial ops hg
  rw [hr] at h1; cases h1
  cases e : s.heap.live with
  | nil => rfl
  | cons x l =>
    obtain ⟨k, hk⟩ := h2.all x.1 x.2 (by rw [e]; exact List.mem_cons_self)
    rw [hn k] at hk; cases hk

/-- Non-vacuity: blocks, a message, an image, a refused Kafka message and a Blosc buffer that is not there. -/
example : ∃ s, run {} [.block 0 10 true, .metaMsg 3 5 true, .resize 0 20 true, .copy 0 30, .gap 7 true, .kafka 1 9 true false, .blosc 0 8 false, .blosc 0 8 true,
    .blosc 0 9 false, .kafka 2 9 true true, .drop 0] = some s ∧ s.heap.live = [(6, 9), (1, 5)] ∧ s.objs (.metaMsg, 3) = some (.addr 1, 5) ∧
    s.objs (.blosc, 0) = none := ⟨_, rfl, by decide, by decide, by decide⟩

/-! ## Without memory -/

/-- A block without memory: the first copy goes anywhere … -/
theorem C165_block (n : Nat) (h : 0 < n) : run {} [.block 0 n false, .copy 0 n] = none := by
  have : usable {} .junk n = false := by simp [usable]; omega
  simp [run, step, newBlock, malloc, State.put, copyData, this]

/-- … and so does the return of its memory, whatever its size. -/
theorem C165_drop (n : Nat) : run {} [.block 0 n false, .drop 0] = none := by
  simp [run, step, newBlock, malloc, State.put, destroy, free]

/-- A block that could not be resized uses memory that has been returned, and returns it again. -/
theorem C165_resize (n m : Nat) (h : n ≠ m) : run {} [.block 0 n true, .resize 0 m false, .drop 0] = none ∧ (0 < m → run {} [.block 0 n true, .resize 0 m false, .copy 0 m] = none) := by
  have h' : m ≠ n := fun e => h e.symm
  refine ⟨?_, fun hm => ?_⟩
  · simp [run, step, newBlock, malloc, take, State.put, resize, destroy, free, h']
  · have : usable ⟨[], 1⟩ (.addr 0) m = false := by simp [usable]; omega
    simp [run, step, newBlock, malloc, take, State.put, resize, copyData, free, h', this]

/-- The others write to a null pointer. -/
theorem C165_null (n : Nat) (h : 0 < n) (b : Bool) : run {} [.metaMsg 0 n false] = none ∧ run {} [.gap n false] = none ∧ run {} [.kafka 0 n false b] = none := by
  have : usable {} .null n = false := by simp [usable]; omega
  simp [run, step, newFilled, gap, malloc, this]

/-- Exactly when a copy into a block is undefined: something is copied, and there is no memory of so many bytes where the block points. -/
theorem C165_copy (s : State) (i n m : Nat) (p : Ptr) (e : s.objs (.block, i) = some (p, m)) :
    step s (.copy i n) = none ↔ 0 < min n m ∧ ∀ a k, p = .addr a → (a, k) ∈ s.heap.live → k < min n m := by
  have hmin : (if n > m then m else n) = min n m := by split <;> omega
  simp only [step, e, copyData]
  rw [hmin]
  generalize min n m = l
  have hu : usable s.heap p l = false ↔ 0 < l ∧ ∀ a k, p = .addr a → (a, k) ∈ s.heap.live → k < l := by
    cases p with
    | junk => simp [usable]; omega
    | null => simp [usable]; omega
    | addr b =>
      simp only [usable, Bool.or_eq_false_iff, beq_eq_false_iff_ne, List.any_eq_false, Bool.and_eq_true, beq_iff_eq, decide_eq_true_eq, not_and, Nat.not_le]
      constructor
      · rintro ⟨h1, h2⟩
        exact ⟨by omega, fun a k ha hk => by cases ha; exact h2 (b, k) hk rfl⟩
      · rintro ⟨h1, h2⟩
        exact ⟨by omega, fun x hx hb => h2 b x.2 rfl (by rw [← hb]; exact hx)⟩
  rw [← hu]
  cases usable s.heap p l <;> simp

example : ∃ s, run {} [.block 0 10 true] = some s ∧ s.objs (.block, 0) = some (.addr 0, 10) ∧ (0, 10) ∈ s.heap.live := ⟨_, rfl, by decide, by decide⟩

/-- What needs no memory does not mind that there is none: an empty message or image, and the return of a null pointer. -/
theorem C165_empty (b : Bool) : (run {} [.metaMsg 0 0 false, .metaDrop 0]).isSome ∧ (run {} [.gap 0 false]).isSome ∧
    (run {} [.kafka 0 0 false b, .delivered 0]).isSome := by
  cases b <;> exact ⟨rfl, rfl, rfl⟩

theorem C165_violated : ¬ C165_statement := by
  intro h
  obtain ⟨s, hs⟩ := h [.metaMsg 0 1 false]
  rw [(C165_null 1 (by decide) true).1] at hs
  cases hs

end Verif.OutOfMemory
