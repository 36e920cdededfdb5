import Verif.Model.NameMaps

/-!
C161: the names of message types and values are known to every thread from its first lookup on.
-/
namespace Verif.NameMaps

open Verif.Ipc (Str bimapInsert left right typeMap valMap MsgType MsgVal)

/-- `r` is the right answer to `q`: the entry of the table, or none if there is none. -/
def Right {α : Type} (table : List (String × α)) : Query α → Option (Found α) → Prop
  | .byName k, some (.value v) => ∃ e, e ∈ table ∧ e.1.toList = k ∧ e.2 = v
  | .byValue v, some (.name k) => ∃ e, e ∈ table ∧ e.1.toList = k ∧ e.2 = v
  | .byName k, none => ∀ e, e ∈ table → e.1.toList ≠ k
  | .byValue v, none => ∀ e, e ∈ table → e.2 ≠ v
  | _, some _ => False

/-- Every lookup that ends has the right answer, and none throws. -/
def AllRight {α : Type} [DecidableEq α] (table : List (String × α)) : Prop :=
  ∀ (q : Nat → Query α) (l : List Nat) (t : Nat), (∀ r, (run table q {} l).pc t = .done r → Right table (q t) r) ∧ (run table q {} l).pc t ≠ .thrown

/-- C161, full statement: for both tables and whatever the threads ask for and however their steps interleave. -/
def C161_statement : Prop := AllRight typeMap ∧ AllRight valMap

/-- One thread has inserted the first name when another one looks for the last: the type `notify` is illegal. -/
theorem C161_violated : ¬ C161_statement := by
  intro h
  have h1 := (h.1 (fun _ => .byName "notify".toList) [0, 0, 1, 1] 1).1 none (by decide)
  exact h1 ("notify", .notify) (by decide) rfl

/-! ## The map is always the beginning of the table -/

/-- Names and values occur once. -/
def Distinct {α : Type} (table : List (String × α)) : Prop :=
  ∀ (i j : Nat) (a b : String × α), table[i]? = some a → table[j]? = some b → (a.1.toList = b.1.toList ∨ a.2 = b.2) → i = j

def ents {α : Type} (table : List (String × α)) : List (Str × α) := table.map fun e => (e.1.toList, e.2)

def distinctB {α : Type} [DecidableEq α] : List (String × α) → Bool
  | [] => true
  | e :: l => (l.all fun x => decide (e.1.toList ≠ x.1.toList) && decide (e.2 ≠ x.2)) && distinctB l

theorem distinct_of {α : Type} [DecidableEq α] (table : List (String × α)) (h : distinctB table = true) : Distinct table := by
  induction table with
  | nil => intro i j a b ha; simp at ha
  | cons e l ih =>
    simp only [distinctB, Bool.and_eq_true, List.all_eq_true, decide_eq_true_eq] at h
    intro i j a b ha hb hab
    cases i with
    | zero =>
      cases j with
      | zero => rfl
      | succ j =>
        simp only [List.getElem?_cons_zero, Option.some.injEq] at ha
        simp only [List.getElem?_cons_succ] at hb
        subst ha
        have := h.1 b (List.mem_of_getElem? hb)
        rcases hab with e1 | e1
        · exact absurd e1 this.1
        · exact absurd e1 this.2
    | succ i =>
      cases j with
      | zero =>
        simp only [List.getElem?_cons_zero, Option.some.injEq] at hb
        simp only [List.getElem?_cons_succ] at ha
        subst hb
        have := h.1 a (List.mem_of_getElem? ha)
        rcases hab with e1 | e1
        · exact absurd e1.symm this.1
        · exact absurd e1.symm this.2
      | succ j =>
        simp only [List.getElem?_cons_succ] at ha hb
        rw [ih h.2 i j a b ha hb hab]

theorem insert_known {α : Type} [DecidableEq α] (table : List (String × α)) (n j : Nat) (e : String × α) (hj : table[j]? = some e) (h : j < n) :
    bimapInsert ((ents table).take n) e = (ents table).take n := by
  rw [bimapInsert, if_pos]
  rw [List.any_eq_true]
  refine ⟨(e.1.toList, e.2), ?_, by simp⟩
  rw [List.mem_take_iff_getElem]
  have hl : j < table.length := (List.getElem?_eq_some_iff.mp hj).1
  refine ⟨j, by simp [ents]; omega, ?_⟩
  have := (List.getElem?_eq_some_iff.mp hj).2
  simp only [ents, List.getElem_map, this]

theorem insert_new {α : Type} [DecidableEq α] (table : List (String × α)) (hd : Distinct table) (n : Nat) (e : String × α) (hn : table[n]? = some e) :
    bimapInsert ((ents table).take n) e = (ents table).take (n + 1) := by
  have hl : n < table.length := (List.getElem?_eq_some_iff.mp hn).1
  rw [bimapInsert, if_neg]
  · rw [List.take_add_one]
    simp [ents, hn]
  · rw [List.any_eq_true]
    rintro ⟨x, hx, hx'⟩
    rw [List.mem_take_iff_getElem] at hx
    obtain ⟨i, hi, rfl⟩ := hx
    simp only [ents, List.length_map] at hi
    simp only [ents, List.getElem_map, Bool.or_eq_true, decide_eq_true_eq] at hx'
    have := hd i n table[i] e (List.getElem?_eq_getElem (by omega)) hn hx'
    omega

/-- The right lookup, by the entries. -/
theorem left_mem {α : Type} (m : List (Str × α)) (k : Str) (v : α) (h : left m k = some v) : (k, v) ∈ m := by
  induction m with
  | nil => cases h
  | cons e m ih =>
    obtain ⟨n, x⟩ := e
    rw [left] at h
    by_cases hk : n = k
    · rw [if_pos hk] at h; cases h; subst hk; exact List.mem_cons_self
    · rw [if_neg hk] at h; exact List.mem_cons_of_mem _ (ih h)

theorem left_none {α : Type} (m : List (Str × α)) (k : Str) (h : left m k = none) : ∀ e, e ∈ m → e.1 ≠ k := by
  induction m with
  | nil => intro e he; cases he
  | cons e m ih =>
    obtain ⟨n, x⟩ := e
    rw [left] at h
    by_cases hk : n = k
    · rw [if_pos hk] at h; cases h
    · rw [if_neg hk] at h
      intro e he
      rcases List.mem_cons.mp he with rfl | he
      · exact hk
      · exact ih h e he

theorem right_mem {α : Type} [DecidableEq α] (m : List (Str × α)) (k : Str) (v : α) (h : right m v = some k) : (k, v) ∈ m := by
  induction m with
  | nil => cases h
  | cons e m ih =>
    obtain ⟨n, x⟩ := e
    rw [right] at h
    by_cases hk : x = v
    · rw [if_pos hk] at h; cases h; subst hk; exact List.mem_cons_self
    · rw [if_neg hk] at h; exact List.mem_cons_of_mem _ (ih h)

theorem right_none {α : Type} [DecidableEq α] (m : List (Str × α)) (v : α) (h : right m v = none) : ∀ e, e ∈ m → e.2 ≠ v := by
  induction m with
  | nil => intro e he; cases he
  | cons e m ih =>
    obtain ⟨n, x⟩ := e
    rw [right] at h
    by_cases hk : x = v
    · rw [if_pos hk] at h; cases h
    · rw [if_neg hk] at h
      intro e he
      rcases List.mem_cons.mp he with rfl | he
      · exact hk
      · exact ih h e he

theorem mem_ents {α : Type} (table : List (String × α)) (k : Str) (v : α) (h : (k, v) ∈ ents table) : ∃ e, e ∈ table ∧ e.1.toList = k ∧ e.2 = v := by
  simp only [ents, List.mem_map] at h
  obtain ⟨e, he, heq⟩ := h
  exact ⟨e, he, congrArg Prod.fst heq, congrArg Prod.snd heq⟩

/-- What is found in the beginning of the table is right. -/
theorem found_right {α : Type} [DecidableEq α] (table : List (String × α)) (n : Nat) (q : Query α) (r : Found α)
    (h : lookup ((ents table).take n) q = some r) : Right table q (some r) := by
  cases q with
  | byName k =>
    simp only [lookup, Option.map_eq_some_iff] at h
    obtain ⟨v, hv, rfl⟩ := h
    exact mem_ents table k v (List.mem_of_mem_take (left_mem _ k v hv))
  | byValue v =>
    simp only [lookup, Option.map_eq_some_iff] at h
    obtain ⟨k, hk, rfl⟩ := h
    exact mem_ents table k v (List.mem_of_mem_take (right_mem _ k v hk))

/-- What is not found in the whole table is not in it. -/
theorem none_right {α : Type} [DecidableEq α] (table : List (String × α)) (q : Query α)
    (h : lookup (ents table) q = none) : Right table q none := by
  cases q with
  | byName k =>
    simp only [lookup, Option.map_eq_none_iff] at h
    intro e he
    exact left_none _ k h (e.1.toList, e.2) (List.mem_map.mpr ⟨e, he, rfl⟩)
  | byValue v =>
    simp only [lookup, Option.map_eq_none_iff] at h
    intro e he
    exact right_none _ v h (e.1.toList, e.2) (List.mem_map.mpr ⟨e, he, rfl⟩)

/-! ## The steps -/

/-- A thread with the map filled up to `n`. -/
def PcOk {α : Type} [DecidableEq α] (table : List (String × α)) (n : Nat) (q : Query α) : Pc α → Prop
  | .insert rest => ∃ j, j ≤ n ∧ rest = table.drop j
  | .look => (lookup ((ents table).take n) q).isSome = true
  | .done r => r = none ∨ Right table q r
  | .thrown => False
  | .check => True
  | .count => True

/-- A thread that has begun with an empty or full map. -/
def PcGood {α : Type} (table : List (String × α)) (n : Nat) (q : Query α) : Pc α → Prop
  | .insert _ => True
  | .count => n = table.length
  | .look => n = table.length
  | .done r => Right table q r
  | _ => False

theorem left_append {α : Type} (m l : List (Str × α)) (k : Str) (h : (left m k).isSome = true) : (left (m ++ l) k).isSome = true := by
  induction m with
  | nil => cases h
  | cons e m ih =>
    obtain ⟨n, x⟩ := e
    rw [List.cons_append]
    rw [left] at h ⊢
    by_cases hk : n = k
    · rw [if_pos hk]; rfl
    · rw [if_neg hk] at h ⊢; exact ih h

theorem right_append {α : Type} [DecidableEq α] (m l : List (Str × α)) (v : α) (h : (right m v).isSome = true) : (right (m ++ l) v).isSome = true := by
  induction m with
  | nil => cases h
  | cons e m ih =>
    obtain ⟨n, x⟩ := e
    rw [List.cons_append]
    rw [right] at h ⊢
    by_cases hk : x = v
    · rw [if_pos hk]; rfl
    · rw [if_neg hk] at h ⊢; exact ih h

theorem lookup_more {α : Type} [DecidableEq α] (m : List (Str × α)) (n k : Nat) (hk : n ≤ k) (q : Query α) (h : (lookup (m.take n) q).isSome = true) :
    (lookup (m.take k) q).isSome = true := by
  have hs : m.take k = m.take n ++ (m.drop n).take (k - n) := by
    rw [← List.take_add, Nat.add_sub_cancel' hk]
  rw [hs]
  cases q with
  | byName s => simp only [lookup, Option.isSome_map] at h ⊢; exact left_append _ _ s h
  | byValue v => simp only [lookup, Option.isSome_map] at h ⊢; exact right_append _ _ v h

theorem pcOk_more {α : Type} [DecidableEq α] (table : List (String × α)) (n k : Nat) (hk : n ≤ k) (q : Query α) (p : Pc α) (h : PcOk table n q p) :
    PcOk table k q p := by
  cases p with
  | insert rest => obtain ⟨j, h1, h2⟩ := h; exact ⟨j, Nat.le_trans h1 hk, h2⟩
  | look => exact lookup_more _ n k hk q h
  | _ => exact h

theorem pcGood_more {α : Type} (table : List (String × α)) (n k : Nat) (hk : n ≤ k) (hl : k ≤ table.length) (q : Query α) (p : Pc α) (h : PcGood table n q p) :
    PcGood table k q p := by
  cases p with
  | count => simp only [PcGood] at h ⊢; omega
  | look => simp only [PcGood] at h ⊢; omega
  | _ => exact h

/-- The state with the map filled up to `n`. -/
def Inv {α : Type} [DecidableEq α] (table : List (String × α)) (q : Nat → Query α) (n : Nat) (s : St α) : Prop :=
  n ≤ table.length ∧ s.map = (ents table).take n ∧ ∀ i, PcOk table n (q i) (s.pc i)

theorem take_all {α : Type} (table : List (String × α)) : (ents table).take table.length = ents table := by
  rw [List.take_of_length_le]; simp [ents]

/-- A step keeps what holds and, for a thread that has begun well, that its answer will be right. -/
theorem step_ok {α : Type} [DecidableEq α] (table : List (String × α)) (hd : Distinct table) (q : Nat → Query α) (n : Nat) (s : St α) (t : Nat)
    (h : Inv table q n s) :
    ∃ k, n ≤ k ∧ Inv table q k (step table q s t) ∧ ∀ i, PcGood table n (q i) (s.pc i) → PcGood table k (q i) ((step table q s t).pc i) := by
  obtain ⟨hn, hm, hp⟩ := h
  have keep : ∀ (p : Pc α), PcOk table n (q t) p → (PcGood table n (q t) (s.pc t) → PcGood table n (q t) p) →
      ∃ k, n ≤ k ∧ Inv table q k ⟨s.map, upd s.pc t p⟩ ∧ ∀ i, PcGood table n (q i) (s.pc i) → PcGood table k (q i) (upd s.pc t p i) := by
    intro p h1 h2
    refine ⟨n, Nat.le_refl n, ⟨hn, hm, fun i => ?_⟩, fun i hi => ?_⟩
    · simp only [upd]
      by_cases e : i = t
      · subst e; rw [if_pos rfl]; exact h1
      · rw [if_neg e]; exact hp i
    · simp only [upd]
      by_cases e : i = t
      · subst e; rw [if_pos rfl]; exact h2 hi
      · rw [if_neg e]; exact hi
  have stay : ∃ k, n ≤ k ∧ Inv table q k s ∧ ∀ i, PcGood table n (q i) (s.pc i) → PcGood table k (q i) (s.pc i) :=
    ⟨n, Nat.le_refl n, ⟨hn, hm, hp⟩, fun _ h => h⟩
  have ht := hp t
  rw [step]
  split
  · next e =>
    refine keep _ ?_ (fun hg => ?_)
    · rw [checked]; split
      · exact ⟨0, Nat.zero_le _, rfl⟩
      · trivial
    · rw [e] at hg; exact hg.elim
  · next e =>
    refine keep _ trivial (fun _ => ?_)
    rw [e] at ht
    obtain ⟨j, h1, h2⟩ := ht
    have : table.length - j = 0 := by rw [← List.length_drop, ← h2]; rfl
    simp only [PcGood]; omega
  · next x rest e =>
    rw [e] at ht
    obtain ⟨j, h1, h2⟩ := ht
    have hj : table[j]? = some x := by
      have := congrArg (fun l => l[0]?) h2
      simpa using this.symm
    have hr : rest = table.drop (j + 1) := by
      have := congrArg List.tail h2
      simpa using this
    have hlt : j < table.length := (List.getElem?_eq_some_iff.mp hj).1
    have fin : ∀ k, n ≤ k → k ≤ table.length → j + 1 ≤ k → bimapInsert s.map x = (ents table).take k →
        ∃ k, n ≤ k ∧ Inv table q k ⟨bimapInsert s.map x, upd s.pc t (.insert rest)⟩ ∧
          ∀ i, PcGood table n (q i) (s.pc i) → PcGood table k (q i) (upd s.pc t (.insert rest) i) := by
      intro k h3 h4 h5 h6
      refine ⟨k, h3, ⟨h4, h6, fun i => ?_⟩, fun i hi => ?_⟩
      · simp only [upd]
        by_cases e : i = t
        · subst e; rw [if_pos rfl]; exact ⟨j + 1, h5, hr⟩
        · rw [if_neg e]; exact pcOk_more table n k h3 (q i) _ (hp i)
      · simp only [upd]
        by_cases e : i = t
        · rw [if_pos e]; trivial
        · rw [if_neg e]; exact pcGood_more table n k h3 h4 (q i) _ hi
    by_cases hjn : j = n
    · subst hjn
      exact fin (j + 1) (by omega) (by omega) (by omega) (by rw [hm]; exact insert_new table hd j x hj)
    · exact fin n (by omega) hn (by omega) (by rw [hm]; exact insert_known table n j x hj (by omega))
  · next e =>
    refine keep _ ?_ (fun hg => ?_)
    · rw [counted]; split
      · next h => rw [hm] at h; exact h
      · exact Or.inl rfl
    · rw [e] at hg
      rw [counted]; split
      · exact hg
      · next h =>
        simp only [PcGood] at hg
        rw [hm, hg, take_all] at h
        have hno : lookup (ents table) (q t) = none := by
          cases hx : lookup (ents table) (q t) with
          | none => rfl
          | some r => rw [hx] at h; exact absurd rfl h
        exact none_right table (q t) hno
  · next e =>
    rw [e] at ht
    have ht' : (lookup s.map (q t)).isSome = true := by rw [hm]; exact ht
    obtain ⟨r, hr⟩ := Option.isSome_iff_exists.mp ht'
    have hl : looked s.map (q t) = .done (some r) := by simp only [looked, hr]
    have hR : Right table (q t) (some r) := found_right table n (q t) r (by rw [← hm]; exact hr)
    rw [hl]
    exact keep _ (Or.inr hR) (fun _ => hR)
  · exact stay
  · exact stay

theorem run_ok {α : Type} [DecidableEq α] (table : List (String × α)) (hd : Distinct table) (q : Nat → Query α) (l : List Nat) : ∀ (n : Nat) (s : St α),
    Inv table q n s →
    ∃ k, n ≤ k ∧ Inv table q k (run table q s l) ∧ ∀ i, PcGood table n (q i) (s.pc i) → PcGood table k (q i) ((run table q s l).pc i) := by
  induction l with
  | nil => intro n s h; exact ⟨n, Nat.le_refl n, h, fun _ h => h⟩
  | cons t l ih =>
    intro n s h
    obtain ⟨k, h1, h2, h3⟩ := step_ok table hd q n s t h
    obtain ⟨k', h4, h5, h6⟩ := ih k _ h2
    exact ⟨k', Nat.le_trans h1 h4, h5, fun i hi => h6 i (h3 i hi)⟩

theorem inv_init {α : Type} [DecidableEq α] (table : List (String × α)) (q : Nat → Query α) : Inv table q 0 {} :=
  ⟨Nat.zero_le _, rfl, fun _ => trivial⟩

/-- `at` of a name or value that is not in the map throws; that no thread gets there is in `Mostly`. -/
theorem C161_at {α : Type} [DecidableEq α] (m : List (Str × α)) (q : Query α) : looked m q = .thrown ↔ lookup m q = none := by
  unfold looked
  split
  · next r hr => rw [hr]; exact ⟨fun h => (by cases h), fun h => (by cases h)⟩
  · next hr => exact ⟨fun _ => hr, fun _ => rfl⟩

/-- What holds of a table with distinct names and values. -/
def Mostly {α : Type} [DecidableEq α] (table : List (String × α)) : Prop :=
  (∀ (q : Nat → Query α) (l : List Nat) (t : Nat), (∀ r, (run table q {} l).pc t = .done r → r = none ∨ Right table (q t) r) ∧ (run table q {} l).pc t ≠ .thrown) ∧
  ∀ (q : Nat → Query α) (l m : List Nat) (t : Nat), (run table q {} l).pc t = .check →
    ((run table q {} l).map.length = 0 ∨ (run table q {} l).map.length = table.length) →
    ∀ r, (run table q {} (l ++ t :: m)).pc t = .done r → Right table (q t) r

theorem mostly {α : Type} [DecidableEq α] (table : List (String × α)) (hd : Distinct table) : Mostly table := by
  refine ⟨fun q l t => ?_, fun q l m t hc hs r hr => ?_⟩
  · obtain ⟨k, _, h, _⟩ := run_ok table hd q l 0 {} (inv_init table q)
    have := h.2.2 t
    refine ⟨fun r hr => ?_, fun hr => ?_⟩
    · rw [hr] at this; exact this
    · rw [hr] at this; exact this
  · obtain ⟨k, _, h, _⟩ := run_ok table hd q l 0 {} (inv_init table q)
    have e : run table q {} (l ++ t :: m) = run table q (step table q (run table q {} l) t) m := by
      simp only [run, List.foldl_append, List.foldl_cons]
    rw [e] at hr
    have hst : step table q (run table q {} l) t = ⟨(run table q {} l).map, upd (run table q {} l).pc t (checked table (run table q {} l).map)⟩ := by
      rw [step, hc]
    have hlen : (run table q {} l).map.length = k := by
      have h1 := h.1
      rw [h.2.1, List.length_take]; simp only [ents, List.length_map]; omega
    obtain ⟨k', h1, h2, _⟩ := step_ok table hd q k _ t h
    have hk' : k' = k := by
      have h3 := h2.2.1
      have h4 := h2.1
      rw [hst] at h3
      have h5 := congrArg List.length h3
      simp only [hlen, List.length_take, ents, List.length_map] at h5
      omega
    subst hk'
    have hg : PcGood table k' (q t) ((step table q (run table q {} l) t).pc t) := by
      rw [hst]
      simp only [upd, if_pos]
      rw [checked]
      split
      · trivial
      · next hne =>
        simp only [PcGood]
        rcases hs with hs | hs
        · exact absurd hs hne
        · omega
    obtain ⟨k2, _, _, h7⟩ := run_ok table hd q m k' _ h2
    have := h7 t hg
    rw [hr] at this
    exact this

/-- C161, what holds: an answer is right or "illegal", no lookup throws, and a thread that begins its lookup before the first name is inserted or after
the last one has the right answer. -/
theorem C161_partial : Mostly typeMap ∧ Mostly valMap :=
  ⟨mostly typeMap (distinct_of _ (by decide)), mostly valMap (distinct_of _ (by decide))⟩

/-- A thread alone is always right. -/
theorem C161_alone (q : Nat → Query MsgVal) (n : Nat) (r : Option (Found MsgVal)) (h : (run valMap q {} (0 :: List.replicate n 0)).pc 0 = .done r) :
    Right valMap (q 0) r :=
  C161_partial.2.2 q [] (List.replicate n 0) 0 rfl (Or.inl rfl) r h

/-- Non-vacuity: two threads that begin together and one that comes later, all with the right answer, and one in between without. -/
example :
    (run typeMap (fun _ => .byName "notify".toList) {} [0, 1, 0, 0, 2, 1, 0, 0, 0, 0, 0, 2, 1, 1, 1, 1, 1, 1]).pc 0 = .done (some (.value .notify)) ∧
    (run typeMap (fun _ => .byName "notify".toList) {} [0, 1, 0, 0, 2, 1, 0, 0, 0, 0, 0, 2, 1, 1, 1, 1, 1, 1]).pc 1 = .done (some (.value .notify)) ∧
    (run typeMap (fun _ => .byName "notify".toList) {} [0, 1, 0, 0, 2, 2, 1, 0, 0, 0, 0, 0, 1, 1, 1, 1, 1, 1]).pc 2 = .done none := by decide

end Verif.NameMaps
