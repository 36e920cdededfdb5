import Verif.Model.PluginConfig
import Verif.Props.Reply
/-!
C108: the reported configuration restores a plugin.
-/
namespace Verif.PluginConfig
open Verif.Ipc Verif.Reply

/-! ## Reading the reply below the name of the plugin -/

theorem glue_join (p : List Str) : glue p = join p := by
  induction p with
  | nil => rfl
  | cons k p ih =>
    cases p with
    | nil => rfl
    | cons a p => simp only [glue, join, ih]

def Item.path : Item → List Str
  | .val p _ => p
  | .elems p _ => p

def Item.isElems : Item → Bool
  | .val _ _ => false
  | .elems _ _ => true

/-- The calls with paths. -/
def callsC (n : Str) : Item → List Call
  | .val p v => [.plain (n :: p) v]
  | .elems p l => l.map (Call.app (n :: p))

/-- Paths of a report: components without slash, the last one plain, none above or below another one. -/
structure Good (items : List Item) : Prop where
  path : ∀ i ∈ items, Path i.path ∧ ∀ k, i.path.getLast? = some k → Plain k ∧ (i.isElems = true → k ++ ['[', ']'] ∉ i.path)
  apart : items.Pairwise (fun i j => ¬ Related i.path j.path)

/-- A name a plugin can have: no slash, at least two characters, not ending in "[]". -/
def Name (n : Str) : Prop := Plain n ∧ '/' ∉ n

theorem calls_names (n : Str) (i : Item) (h : i.path ≠ []) : calls n i = (callsC n i).map (fun c => (c.name, c.value)) := by
  cases i with
  | val p v =>
    have h' : p ≠ [] := h
    simp [calls, callsC, Call.name, Call.value, glue_join, join_cons n p h']
  | elems p l =>
    have h' : p ≠ [] := h
    simp [calls, callsC, Call.name, Call.value, glue_join, join_cons n p h', Function.comp_def]

theorem callsC_path (n : Str) (i : Item) (c : Call) (h : c ∈ callsC n i) : c.path = n :: i.path := by
  cases i with
  | val p v => simp only [callsC, List.mem_singleton] at h; subst h; rfl
  | elems p l =>
    simp only [callsC, List.mem_map] at h
    obtain ⟨x, _, rfl⟩ := h
    rfl

theorem pair_apart (items : List Item) (hg : Good items) (i j : Item) (hi : i ∈ items) (hj : j ∈ items) : i = j ∨ ¬ Related i.path j.path := by
  have h := hg.apart
  clear hg
  induction items with
  | nil => cases hi
  | cons a l ih =>
    rw [List.pairwise_cons] at h
    rcases List.mem_cons.1 hi with rfl | hi'
    · rcases List.mem_cons.1 hj with rfl | hj'
      · exact Or.inl rfl
      · exact Or.inr (h.1 _ hj')
    · rcases List.mem_cons.1 hj with rfl | hj'
      · exact Or.inr (fun r => h.1 _ hi' r.symm)
      · exact ih hi' hj' h.2

theorem all_fine (n : Str) (items : List Item) (hn : Name n) (hg : Good items) : ∀ c ∈ items.flatMap (callsC n), Fine c := by
  intro c hc
  obtain ⟨i, hi, hc⟩ := List.mem_flatMap.1 hc
  have e := callsC_path n i c hc
  obtain ⟨h1, h2⟩ := hg.path i hi
  refine ⟨?_, ?_, ?_⟩
  · rw [e]
    refine ⟨by simp, fun k hk => ?_⟩
    rcases List.mem_cons.1 hk with rfl | hk
    · exact hn.2
    · exact h1.2 k hk
  · rw [e]
    refine ⟨fun k hk => ?_, fun k hk => ?_⟩
    · simp only [List.head?_cons, Option.some.injEq] at hk
      subst hk
      exact hn.1
    · rw [List.getLast?_cons_of_ne_nil h1.1] at hk
      exact (h2 k hk).1
  · intro hc2 s hs hm
    have hel : i.isElems = true := by
      cases i with
      | val p v => simp only [callsC, List.mem_singleton] at hc; subst hc; cases hc2
      | elems p l => rfl
    rw [e] at hs hm
    rw [List.getLast?_cons_of_ne_nil h1.1] at hs
    rcases List.mem_cons.1 hm with hm | hm
    · exact hn.1.2 s hm.symm
    · exact (h2 s hs).2 hel hm

theorem all_apart (n : Str) (items : List Item) (hg : Good items) : ApartC (items.flatMap (callsC n)) := by
  intro c hc d hd
  obtain ⟨i, hi, hc⟩ := List.mem_flatMap.1 hc
  obtain ⟨j, hj, hd⟩ := List.mem_flatMap.1 hd
  rw [callsC_path n i c hc, callsC_path n j d hd]
  rcases pair_apart items hg i j hi hj with rfl | h
  · exact Or.inl rfl
  · exact Or.inr (fun r => h (related_tail _ _ _ r))

theorem reply_sets (n : Str) (items : List Item) (hg : Good items) :
    reply n items = sets (.obj []) ((items.flatMap (callsC n)).map (fun c => (c.name, c.value))) := by
  unfold reply
  congr 1
  have h : ∀ i ∈ items, i.path ≠ [] := fun i hi => (hg.path i hi).1.1
  clear hg
  induction items with
  | nil => rfl
  | cons i l ih =>
    simp only [List.flatMap_cons, List.map_append]
    rw [calls_names n i (h i (by simp)), ih (fun j hj => h j (by simp [hj]))]

/-- What a report says about a path. -/
def told (items : List Item) (p : List Str) : Option Json :=
  match items with
  | [] => none
  | .val q v :: l => if q = p then some v else told l p
  | .elems q a :: l => if q = p then (if a = [] then none else some (.arr a)) else told l p

theorem told_none (items : List Item) (p : List Str) (h : ∀ i ∈ items, i.path ≠ p) : told items p = none := by
  induction items with
  | nil => rfl
  | cons i l ih =>
    have hi := h i (by simp)
    cases i <;> (simp only [Item.path] at hi; simp [told, hi, ih (fun j hj => h j (by simp [hj]))])

theorem at_item (n : Str) (i : Item) (p : List Str) (h : i.path ≠ p) : at_ (n :: p) (callsC n i) = [] :=
  at_none _ _ (fun c hc => by rw [callsC_path n i c hc]; simpa using h)

theorem at_val (n : Str) (p : List Str) (v : Json) : at_ (n :: p) (callsC n (.val p v)) = [v] := by
  simp [at_, callsC, Call.path, Call.value]

/-- Every path that is not above or below a reported one can be read. -/
theorem reply_read (n : Str) (items : List Item) (hn : Name n) (hg : Good items) :
    (reply n items).2 = .ok ∧
    ∀ p, Path p → (∀ i ∈ items, i.path = p ∨ ¬ Related i.path p) →
      getParam (some (reply n items).1) (join (n :: p)) = told items p := by
  obtain ⟨h1, h2⟩ := sets_spec _ (all_fine n items hn hg) (all_apart n items hg)
  rw [← reply_sets n items hg] at h1 h2
  refine ⟨h1, fun p hp hr => ?_⟩
  obtain ⟨ha, hb⟩ := h2 (n :: p) ⟨by simp, fun k hk => by
      rcases List.mem_cons.1 hk with rfl | hk
      · exact hn.2
      · exact hp.2 k hk⟩ (fun c hc => by
      obtain ⟨i, hi, hc⟩ := List.mem_flatMap.1 hc
      rw [callsC_path n i c hc]
      rcases hr i hi with h | h
      · exact Or.inl (by rw [h])
      · exact Or.inr (fun r => h (related_tail _ _ _ r)))
  by_cases hex : ∃ i ∈ items, i.path = p
  · obtain ⟨i, hi, hip⟩ := hex
    obtain ⟨l, m, rfl⟩ := List.append_of_mem hi
    have hap := hg.apart
    rw [List.pairwise_append] at hap
    have hl : ∀ j ∈ l, j.path ≠ p := fun j hj e => hap.2.2 j hj i (by simp) (by rw [e, hip]; exact Or.inl ⟨[], by simp⟩)
    have hm : ∀ j ∈ m, j.path ≠ p := fun j hj e => (List.pairwise_cons.1 hap.2.1).1 j hj (by rw [e, hip]; exact Or.inl ⟨[], by simp⟩)
    have hat : at_ (n :: p) ((l ++ i :: m).flatMap (callsC n)) = at_ (n :: p) (callsC n i) := by
      rw [at_flatMap, List.flatMap_append, List.flatMap_cons]
      have e1 : l.flatMap (fun x => at_ (n :: p) (callsC n x)) = [] := by
        rw [List.flatMap_eq_nil_iff]
        exact fun x hx => at_item n x p (hl x hx)
      have e2 : m.flatMap (fun x => at_ (n :: p) (callsC n x)) = [] := by
        rw [List.flatMap_eq_nil_iff]
        exact fun x hx => at_item n x p (hm x hx)
      rw [e1, e2]
      simp
    have htold : told (l ++ i :: m) p = told [i] p := by
      clear hat hap h1 h2 ha hb hr hg hi
      induction l with
      | nil => cases i <;> (simp only [Item.path] at hip; subst hip; simp [told])
      | cons a l ih =>
        have := hl a (by simp)
        cases a <;> (simp only [Item.path] at this; simp [told, this, ih (fun j hj => hl j (by simp [hj]))])
    have honly : ∀ c ∈ (l ++ i :: m).flatMap (callsC n), c.path = n :: p → c ∈ callsC n i := by
      intro c hc e
      obtain ⟨j, hj, hc2⟩ := List.mem_flatMap.1 hc
      have hjp : j.path = p := by
        have := callsC_path n j c hc2
        rw [this] at e
        simpa using e
      rcases List.mem_append.1 hj with hj | hj
      · exact absurd hjp (hl j hj)
      · rcases List.mem_cons.1 hj with rfl | hj
        · exact hc2
        · exact absurd hjp (hm j hj)
    rw [htold]
    cases i with
    | val q v =>
      simp only [Item.path] at hip
      subst hip
      rw [hb (fun c hc e => by
        have := honly c hc e
        simp only [callsC, List.mem_singleton] at this
        subst this
        rfl), hat, at_val]
      simp [told]
    | elems q a =>
      simp only [Item.path] at hip
      subst hip
      rw [ha (fun c hc e => by
        have := honly c hc e
        simp only [callsC, List.mem_map] at this
        obtain ⟨x, _, rfl⟩ := this
        rfl), hat]
      simp only [callsC, at_all, told, if_true]
  · have hno : ∀ i ∈ items, i.path ≠ p := fun i hi e => hex ⟨i, hi, e⟩
    have hnc : ∀ c ∈ items.flatMap (callsC n), c.path ≠ n :: p := by
      intro c hc e
      obtain ⟨i, hi, hc⟩ := List.mem_flatMap.1 hc
      rw [callsC_path n i c hc] at e
      exact hno i hi (by simpa using e)
    rw [hb (fun c hc e => absurd e (hnc c hc)), at_none _ _ hnc, told_none items p hno]
    rfl

theorem puts_origin (l : List Chg) (j : Json) (q : List Str) (x : Json) (h : Ipc.get q (puts j l).1 = some x) :
    Ipc.get q j = some x ∨ ∃ c ∈ l, Related c.path q := by
  induction l generalizing j with
  | nil => exact Or.inl h
  | cons c l ih =>
    by_cases hr : Related c.path q
    · exact Or.inr ⟨c, by simp, hr⟩
    · have ho := put_other c.f c.path q j hr
      simp only [puts] at h
      generalize hp : Ipc.put c.f c.path j = r at *
      obtain ⟨j', res⟩ := r
      cases res
      · rcases ih j' h with h | ⟨d, hd, hd2⟩
        · exact Or.inl (by rw [← ho]; exact h)
        · exact Or.inr ⟨d, by simp [hd], hd2⟩
      all_goals exact Or.inl (by rw [← ho]; exact h)

theorem reply_puts (n : Str) (items : List Item) (hn : Name n) (hg : Good items) :
    reply n items = puts (.obj []) ((items.flatMap (callsC n)).map Call.chg) := by
  rw [reply_sets n items hg, sets_puts _ _ (all_fine n items hn hg)]

theorem chg_item (n : Str) (items : List Item) (c : Chg) (h : c ∈ (items.flatMap (callsC n)).map Call.chg) :
    ∃ i ∈ items, c.path = n :: i.path := by
  obtain ⟨d, hd, rfl⟩ := List.mem_map.1 h
  obtain ⟨i, hi, hd⟩ := List.mem_flatMap.1 hd
  exact ⟨i, hi, by rw [chg_path, callsC_path n i d hd]⟩

/-- Nothing is in the reply that was not reported. -/
theorem reply_origin (n : Str) (items : List Item) (hn : Name n) (hg : Good items) (q : List Str) (x : Json)
    (h : Ipc.get q (reply n items).1 = some x) : q = [] ∨ ∃ i ∈ items, Related (n :: i.path) q := by
  rw [reply_puts n items hn hg] at h
  rcases puts_origin _ _ _ _ h with h | ⟨c, hc, hr⟩
  · cases q with
    | nil => exact Or.inl rfl
    | cons k q => simp [Ipc.get, findM] at h
  · obtain ⟨i, hi, e⟩ := chg_item n items c hc
    exact Or.inr ⟨i, hi, by rw [← e]; exact hr⟩

/-- What is above all reported paths is an object. -/
theorem reply_object (n : Str) (items : List Item) (hn : Name n) (hg : Good items) (q : List Str) (x : Json)
    (h : Ipc.get q (reply n items).1 = some x) (hq : ∀ i ∈ items, ¬ (n :: i.path) <+: q) : ∃ m, x = .obj m := by
  rw [reply_puts n items hn hg] at h
  have hA : Apart ([] ++ (items.flatMap (callsC n)).map Call.chg) := by
    intro c hc d hd
    simp only [List.nil_append, List.mem_map] at hc hd
    obtain ⟨c', hc', rfl⟩ := hc
    obtain ⟨d', hd', rfl⟩ := hd
    simp only [chg_path]
    exact all_apart n items hg c' hc' d' hd'
  obtain ⟨_, h2, _⟩ := puts_spec _ [] (.obj []) hA leaves_empty
  apply Classical.byContradiction
  intro hx
  obtain ⟨c, hc, hp⟩ := h2 q x h (fun m e => hx ⟨m, e⟩)
  rw [List.nil_append] at hc
  obtain ⟨i, hi, e⟩ := chg_item n items c hc
  exact hq i hi (by rw [← e]; exact hp)

/-- The part passed to the plugin. -/
theorem reply_sub (n : Str) (items : List Item) (hn : Name n) (hg : Good items) (x : Json)
    (h : getParam (some (reply n items).1) n = some x) :
    ∃ m, x = .obj m ∧ ∀ q, Path q → Ipc.get q x = getParam (some (reply n items).1) (join (n :: q)) := by
  have hs : splitAll n = [n] := splitAll_plain n hn.2
  simp only [getParam, Option.bind_some, hs] at h
  obtain ⟨m, hm⟩ := reply_object n items hn hg [n] x h (fun i hi hp => by
    have := hp.length_le
    have h0 := List.length_pos_iff.2 (hg.path i hi).1.1
    simp only [List.length_cons, List.length_nil] at this
    omega)
  refine ⟨m, hm, fun q hq => ?_⟩
  have hp : Path (n :: q) := ⟨by simp, fun k hk => by
    rcases List.mem_cons.1 hk with rfl | hk
    · exact hn.2
    · exact hq.2 k hk⟩
  simp only [getParam, Option.bind_some, splitAll_join _ hp]
  cases hr : (reply n items).1 with
  | obj l =>
    rw [hr] at h
    simp only [Ipc.get] at h ⊢
    cases hf : findM l n with
    | none => rw [hf] at h; cases h
    | some y =>
      rw [hf] at h
      simp only [Option.bind_some, Ipc.get, Option.some.injEq] at h
      simp only [Option.bind_some, h]
  | _ => rw [hr] at h; simp [Ipc.get] at h

theorem field_obj {α : Type} (m : List (Str × Json)) (k : Str) (hk : '/' ∉ k) (conv : Json → Option α) :
    field (.obj m) k conv = match Ipc.get [k] (.obj m) with
      | none => some none
      | some v => (conv v).map some := by
  have hs : splitAll k = [k] := splitAll_plain k hk
  simp only [field, hasParam, getParam, Option.bind_some, hs, has, Ipc.get]
  cases findM m k with
  | none => rfl
  | some v =>
    simp only [Option.bind_some]
    cases conv v <;> rfl

/-- Reports with one level of keys. -/
theorem good_flat (items : List Item) (ks : List Str) (h : items.map Item.path = ks.map (fun k => [k])) (hd : ks.Nodup)
    (hk : ∀ k ∈ ks, Plain k ∧ '/' ∉ k) : Good items := by
  refine ⟨fun i hi => ?_, ?_⟩
  · have : i.path ∈ ks.map (fun k => [k]) := by rw [← h]; exact List.mem_map.2 ⟨i, hi, rfl⟩
    obtain ⟨k, hk2, e⟩ := List.mem_map.1 this
    rw [← e]
    refine ⟨⟨by simp, fun a ha => ?_⟩, fun a ha => ?_⟩
    · rw [List.mem_singleton] at ha
      subst ha
      exact (hk _ hk2).2
    · simp only [List.getLast?_singleton, Option.some.injEq] at ha
      subst ha
      refine ⟨(hk _ hk2).1, fun _ hm => ?_⟩
      rw [List.mem_singleton] at hm
      exact (hk _ hk2).1.2 _ hm.symm
  · have h2 : (items.map Item.path).Pairwise (fun p q => ¬ Related p q) := by
      rw [h, List.pairwise_map]
      exact hd.imp (fun hne hr => hne (related_head _ _ _ _ hr))
    exact List.pairwise_map.1 h2

/-- The part of the reply passed to the plugin says what was reported. -/
theorem flat_fields (n : Str) (items : List Item) (ks : List Str) (hn : Name n) (h : items.map Item.path = ks.map (fun k => [k]))
    (hd : ks.Nodup) (hk : ∀ k ∈ ks, Plain k ∧ '/' ∉ k) :
    (reply n items).2 = .ok ∧
    ((getParam (some (reply n items).1) n = none ∧ ∀ k ∈ ks, told items [k] = none) ∨
      ∃ m, getParam (some (reply n items).1) n = some (.obj m) ∧ ∀ k, '/' ∉ k → Ipc.get [k] (.obj m) = told items [k]) := by
  have hg := good_flat items ks h hd hk
  obtain ⟨h1, h2⟩ := reply_read n items hn hg
  have h3 : ∀ k, '/' ∉ k → getParam (some (reply n items).1) (join [n, k]) = told items [k] := by
    intro k hk2
    refine h2 [k] ⟨by simp, fun a ha => by rw [List.mem_singleton] at ha; subst ha; exact hk2⟩ (fun i hi => ?_)
    have : i.path ∈ ks.map (fun k => [k]) := by rw [← h]; exact List.mem_map.2 ⟨i, hi, rfl⟩
    obtain ⟨a, _, e⟩ := List.mem_map.1 this
    rw [← e]
    by_cases hak : a = k
    · exact Or.inl (by rw [hak])
    · exact Or.inr (fun hr => hak (related_head _ _ _ _ hr))
  refine ⟨h1, ?_⟩
  cases hx : getParam (some (reply n items).1) n with
  | none =>
    refine Or.inl ⟨rfl, fun k hk2 => ?_⟩
    rw [← h3 k (hk k hk2).2]
    have hp : Path [n, k] := ⟨by simp, fun a ha => by
      rcases List.mem_cons.1 ha with rfl | ha
      · exact hn.2
      · rw [List.mem_singleton] at ha; subst ha; exact (hk _ hk2).2⟩
    have hs : splitAll n = [n] := splitAll_plain n hn.2
    simp only [getParam, Option.bind_some, hs] at hx
    simp only [getParam, Option.bind_some, splitAll_join _ hp]
    cases hr : (reply n items).1 with
    | obj l =>
      rw [hr] at hx
      simp only [Ipc.get] at hx ⊢
      cases hf : findM l n with
      | none => rfl
      | some y => rw [hf] at hx; simp [Ipc.get] at hx
    | _ => rfl
  | some x =>
    obtain ⟨m, e, hm⟩ := reply_sub n items hn hg x hx
    subst e
    refine Or.inr ⟨m, rfl, fun k hk2 => ?_⟩
    rw [hm [k] ⟨by simp, fun a ha => by rw [List.mem_singleton] at ha; subst ha; exact hk2⟩, h3 k hk2]

theorem keys_ok (ks : List Str) (h : ∀ k ∈ ks, (2 ≤ k.length ∧ k.drop (k.length - 2) ≠ ['[', ']']) ∧ '/' ∉ k) :
    ∀ k ∈ ks, Plain k ∧ '/' ∉ k := fun k hk => ⟨plain_of k (h k hk).1, (h k hk).2⟩

/-! ## C108 -/

/-- A plugin sent its own report ends up in the state reported, whatever its state was. -/
def Restores {σ : Type} (report : σ → List Item) (configure : σ → Json → Option σ) (s : σ) : Prop :=
  ∀ n, Name n → (reply n (report s)).2 = .ok ∧ ∀ t, restore configure t n (reply n (report s)).1 = some s

/-- The same for a new plugin. -/
def RestoresNew {σ : Type} (report : σ → List Item) (configure : σ → Json → Option σ) (new s : σ) : Prop :=
  ∀ n, Name n → (reply n (report s)).2 = .ok ∧ restore configure new n (reply n (report s)).1 = some s

def isInt (i : Int) : Prop := -2147483648 ≤ i ∧ i < 2147483648
def isInt64 (i : Int) : Prop := -9223372036854775808 ≤ i ∧ i < 9223372036854775808

/-- Values a plugin can have. -/
def Dummy.Valid (s : Dummy) : Prop := isInt s.width ∧ isInt s.height
def Blosc.Valid (s : Blosc) : Prop := 1 ≤ s.level ∧ s.level ≤ 9 ∧ s.shuffle ≤ 2 ∧ s.threads ≤ 256 ∧ s.compressor ≤ 5
def GapFill.Valid (s : GapFill) : Prop :=
  (∀ i ∈ s.grid, isInt i) ∧ (∀ i ∈ s.chip, isInt i) ∧ (∀ i ∈ s.gapsX, isInt i) ∧ (∀ i ∈ s.gapsY, isInt i)

theorem asInt64_ok (i : Int) (h : isInt64 i) : asInt64 (.num i) = some i := by simp only [asInt64]; exact if_pos h

theorem C108_offset (s : Offset) (h : isInt64 s.adjustment) : Restores Offset.report Offset.configure s := by
  intro n hn
  obtain ⟨h1, h2⟩ := flat_fields n s.report ["offset_adjustment".toList] hn rfl (by decide +kernel) (keys_ok _ (by decide +kernel))
  refine ⟨h1, fun t => ?_⟩
  have e : told s.report ["offset_adjustment".toList] = some (.num s.adjustment) := by simp [told, Offset.report]
  rcases h2 with ⟨_, h2⟩ | ⟨m, hm, h2⟩
  · have := h2 "offset_adjustment".toList (by simp)
    rw [e] at this
    cases this
  · have a := h2 "offset_adjustment".toList (by decide +kernel)
    rw [e] at a
    simp only [restore, hm, Offset.configure]
    rw [field_obj _ _ (by decide +kernel), a]
    simp only [asInt64_ok _ h]
    rfl

theorem asInt_ok (i : Int) (h : isInt i) : Json.asInt (.num i) = some i := by simp only [Json.asInt]; exact if_pos h

theorem asUint_ok (i : Nat) (h : i < 4294967296) : Json.asUint (.num i) = some i := by
  simp only [Json.asUint]
  rw [if_pos (by omega)]
  simp

theorem C108_dummy (s : Dummy) (h : s.Valid) : Restores Dummy.report Dummy.configure s := by
  intro n hn
  obtain ⟨h1, h2⟩ := flat_fields n s.report ["width".toList, "height".toList, "copy_frame".toList] hn rfl (by decide +kernel)
    (keys_ok _ (by decide +kernel))
  refine ⟨h1, fun t => ?_⟩
  have e1 : told s.report ["width".toList] = some (.num s.width) := by simp [told, Dummy.report]
  have e2 : told s.report ["height".toList] = some (.num s.height) := by simp [told, Dummy.report]
  have e3 : told s.report ["copy_frame".toList] = some (.bool s.copy) := by simp [told, Dummy.report]
  rcases h2 with ⟨_, h2⟩ | ⟨m, hm, h2⟩
  · have := h2 "width".toList (by simp)
    rw [e1] at this
    cases this
  · have a1 := h2 "width".toList (by decide +kernel)
    have a2 := h2 "height".toList (by decide +kernel)
    have a3 := h2 "copy_frame".toList (by decide +kernel)
    rw [e1] at a1
    rw [e2] at a2
    rw [e3] at a3
    simp only [restore, hm, Dummy.configure]
    rw [field_obj _ "width".toList (by decide +kernel), field_obj _ "height".toList (by decide +kernel),
      field_obj _ "copy_frame".toList (by decide +kernel), a1, a2, a3]
    simp only [asInt_ok _ h.1, asInt_ok _ h.2]
    rfl

theorem C108_blosc (s : Blosc) (h : s.Valid) : Restores Blosc.report Blosc.configure s := by
  intro n hn
  obtain ⟨h1, h2⟩ := flat_fields n s.report ["compressor".toList, "threads".toList, "shuffle".toList, "level".toList] hn rfl
    (by decide +kernel) (keys_ok _ (by decide +kernel))
  refine ⟨h1, fun t => ?_⟩
  have e1 : told s.report ["compressor".toList] = some (.num s.compressor) := by simp [told, Blosc.report]
  have e2 : told s.report ["threads".toList] = some (.num s.threads) := by simp [told, Blosc.report]
  have e3 : told s.report ["shuffle".toList] = some (.num s.shuffle) := by simp [told, Blosc.report]
  have e4 : told s.report ["level".toList] = some (.num s.level) := by simp [told, Blosc.report]
  obtain ⟨v1, v2, v3, v4, v5⟩ := h
  rcases h2 with ⟨_, h2⟩ | ⟨m, hm, h2⟩
  · have := h2 "level".toList (by simp)
    rw [e4] at this
    cases this
  · have a1 := h2 "compressor".toList (by decide +kernel)
    have a2 := h2 "threads".toList (by decide +kernel)
    have a3 := h2 "shuffle".toList (by decide +kernel)
    have a4 := h2 "level".toList (by decide +kernel)
    rw [e1] at a1
    rw [e2] at a2
    rw [e3] at a3
    rw [e4] at a4
    simp only [restore, hm, Blosc.configure]
    rw [field_obj _ "compressor".toList (by decide +kernel), field_obj _ "threads".toList (by decide +kernel),
      field_obj _ "shuffle".toList (by decide +kernel), field_obj _ "level".toList (by decide +kernel), a1, a2, a3, a4]
    have c1 : capCompressor s.compressor = s.compressor := by unfold capCompressor; rw [if_neg (by omega)]
    have c2 : capThreads s.threads = s.threads := by unfold capThreads; rw [if_neg (by omega)]
    have c3 : capShuffle s.shuffle = s.shuffle := by unfold capShuffle; rw [if_neg (by omega)]
    have c4 : capLevel s.level = s.level := by unfold capLevel; rw [if_neg (by omega), if_neg (by omega)]
    have d1 := asUint_ok s.compressor (by omega)
    have d2 := asUint_ok s.threads (by omega)
    have d3 := asUint_ok s.shuffle (by omega)
    have d4 := asInt_ok s.level ⟨by omega, by omega⟩
    dsimp only
    rw [d1, d2, d3, d4]
    simp only [Option.map_some, upd, Option.bind_some]
    rw [c1, c2, c3, c4]

/-- Whatever is sent, the settings stay in the ranges that can be sent. -/
theorem C108_blosc_valid (s t : Blosc) (j : Json) (hs : s.Valid) (h : s.configure j = some t) : t.Valid := by
  obtain ⟨v1, v2, v3, v4, v5⟩ := hs
  have cl : ∀ v, 1 ≤ capLevel v ∧ capLevel v ≤ 9 := by intro v; unfold capLevel; split; · omega
                                                       · split <;> omega
  have cs : ∀ v, capShuffle v ≤ 2 := by intro v; unfold capShuffle; split <;> omega
  have ct : ∀ v, capThreads v ≤ 256 := by intro v; unfold capThreads; split <;> omega
  have cc : ∀ v, capCompressor v ≤ 5 := by intro v; unfold capCompressor; split <;> omega
  simp only [Blosc.configure] at h
  generalize field j "level".toList Json.asInt = a at h
  generalize field j "shuffle".toList Json.asUint = b at h
  generalize field j "threads".toList Json.asUint = c at h
  generalize field j "compressor".toList Json.asUint = d at h
  rcases a with _ | _ | a <;> rcases b with _ | _ | b <;> rcases c with _ | _ | c <;> rcases d with _ | _ | d <;>
    simp only [upd, Option.bind_some, Option.bind_none, Option.some.injEq, reduceCtorEq] at h <;> subst h <;>
    simp only [Blosc.Valid, cl, cs, ct, cc, v1, v2, v3, v4, v5, and_self]

theorem asInts_ok (l : List Int) (h : ∀ i ∈ l, isInt i) : asInts (.arr (l.map .num)) = some l := by
  simp only [asInts]
  induction l with
  | nil => rfl
  | cons i l ih =>
    simp only [List.map_cons, List.mapM_cons, asInt_ok i (h i (by simp)), ih (fun k hk => h k (by simp [hk]))]
    rfl

/-- What an array field is after the report is sent back, for a value `old`. -/
theorem array_field (m : List (Str × Json)) (k : Str) (hk : '/' ∉ k) (l : List Int) (hl : ∀ i ∈ l, isInt i)
    (h : Ipc.get [k] (.obj m) = if l.map Json.num = [] then none else some (.arr (l.map .num))) :
    field (.obj m) k asInts = if l = [] then some none else some (some l) := by
  rw [field_obj m k hk, h]
  cases l with
  | nil => rfl
  | cons i l =>
    rw [if_neg (by simp), if_neg (by simp)]
    simp only [asInts_ok _ hl, Option.map_some]

theorem upd_array {σ : Type} (t : σ) (f : σ → List Int → σ) (l : List Int) (h : l = [] → f t [] = t) :
    upd t f (if l = [] then some none else some (some l)) = some (f t l) := by
  by_cases e : l = []
  · rw [if_pos e]; simp only [upd]; rw [e, h e]
  · rw [if_neg e]; rfl

theorem gap_eq (t s : GapFill) (h1 : t.grid = s.grid) (h2 : t.chip = s.chip) (h3 : t.gapsX = s.gapsX) (h4 : t.gapsY = s.gapsY) : t = s := by
  cases s
  cases t
  simp_all

/-- Vectors without elements are not reported: the report restores a plugin whose vectors are empty where those reported are. -/
theorem C108_gap (s : GapFill) (h : s.Valid) (n : Str) (hn : Name n) :
    (reply n s.report).2 = .ok ∧ ∀ t : GapFill, (s.grid = [] → t.grid = []) → (s.chip = [] → t.chip = []) → (s.gapsX = [] → t.gapsX = []) →
      (s.gapsY = [] → t.gapsY = []) → restore GapFill.configure t n (reply n s.report).1 = some s := by
  obtain ⟨h1, h2⟩ := flat_fields n s.report ["grid_size".toList, "chip_size".toList, "x_gaps".toList, "y_gaps".toList] hn rfl
    (by decide +kernel) (keys_ok _ (by decide +kernel))
  refine ⟨h1, fun t t1 t2 t3 t4 => ?_⟩
  have e1 : told s.report ["grid_size".toList] = if s.grid.map Json.num = [] then none else some (.arr (s.grid.map .num)) := by
    simp [told, GapFill.report]
  have e2 : told s.report ["chip_size".toList] = if s.chip.map Json.num = [] then none else some (.arr (s.chip.map .num)) := by
    simp [told, GapFill.report]
  have e3 : told s.report ["x_gaps".toList] = if s.gapsX.map Json.num = [] then none else some (.arr (s.gapsX.map .num)) := by
    simp [told, GapFill.report]
  have e4 : told s.report ["y_gaps".toList] = if s.gapsY.map Json.num = [] then none else some (.arr (s.gapsY.map .num)) := by
    simp [told, GapFill.report]
  obtain ⟨v1, v2, v3, v4⟩ := h
  rcases h2 with ⟨hm, h2⟩ | ⟨m, hm, h2⟩
  · have z : ∀ l : List Int, (if l.map Json.num = [] then none else some (Json.arr (l.map .num))) = none → l = [] := by
      intro l hl
      cases l with
      | nil => rfl
      | cons i l => simp at hl
    have z1 := z _ (e1 ▸ h2 "grid_size".toList (by simp))
    have z2 := z _ (e2 ▸ h2 "chip_size".toList (by simp))
    have z3 := z _ (e3 ▸ h2 "x_gaps".toList (by simp))
    have z4 := z _ (e4 ▸ h2 "y_gaps".toList (by simp))
    simp only [restore, hm, Option.some.injEq]
    exact gap_eq t s (by rw [t1 z1, z1]) (by rw [t2 z2, z2]) (by rw [t3 z3, z3]) (by rw [t4 z4, z4])
  · simp only [restore, hm, GapFill.configure]
    rw [array_field m "grid_size".toList (by decide +kernel) s.grid v1 ((h2 _ (by decide +kernel)).trans e1),
      array_field m "chip_size".toList (by decide +kernel) s.chip v2 ((h2 _ (by decide +kernel)).trans e2),
      array_field m "x_gaps".toList (by decide +kernel) s.gapsX v3 ((h2 _ (by decide +kernel)).trans e3),
      array_field m "y_gaps".toList (by decide +kernel) s.gapsY v4 ((h2 _ (by decide +kernel)).trans e4)]
    rw [upd_array _ _ s.grid (fun e => by rw [← t1 e]), Option.bind_some, upd_array _ _ s.chip (fun e => by rw [← t2 e]), Option.bind_some,
      upd_array _ _ s.gapsX (fun e => by rw [← t3 e]), Option.bind_some, upd_array _ _ s.gapsY (fun e => by rw [← t4 e])]

theorem C108_gap_new (s : GapFill) (h : s.Valid) : RestoresNew GapFill.report GapFill.configure {} s := by
  intro n hn
  obtain ⟨h1, h2⟩ := C108_gap s h n hn
  exact ⟨h1, h2 {} (fun _ => rfl) (fun _ => rfl) (fun _ => rfl) (fun _ => rfl)⟩

/-- Settings other than the defaults; a report refused by no plugin. -/
example : ∃ r, reply "blosc".toList (Blosc.report { level := 4, threads := 8 }) = (r, .ok) ∧
    restore Blosc.configure {} "blosc".toList r = some { level := 4, threads := 8 } := by
  have hn : Name "blosc".toList := ⟨plain_of _ (by decide +kernel), by decide +kernel⟩
  have h := C108_blosc { level := 4, threads := 8 } (by simp [Blosc.Valid]) "blosc".toList hn
  exact ⟨_, Prod.ext rfl h.1, h.2 {}⟩

example : ∃ r, reply "gap".toList (GapFill.report { grid := [2, 2], chip := [256, 256], gapsX := [0, -1, 3] }) = (r, .ok) ∧
    restore GapFill.configure {} "gap".toList r = some { grid := [2, 2], chip := [256, 256], gapsX := [0, -1, 3] } := by
  have hn : Name "gap".toList := ⟨plain_of _ (by decide +kernel), by decide +kernel⟩
  have h := C108_gap_new { grid := [2, 2], chip := [256, 256], gapsX := [0, -1, 3] } (by simp [GapFill.Valid, isInt]) "gap".toList hn
  exact ⟨_, Prod.ext rfl h.1, h.2⟩

/-! ## C109: parameter adjustments -/

def look {α : Type} (l : List (Str × α)) (k : Str) : Option α :=
  match l with
  | [] => none
  | (n, v) :: l => if n = k then some v else look l k

/-- Both maps have the same keys. -/
structure Adjust.Valid (s : Adjust) : Prop where
  keys : s.inputs.map (·.1) = s.adjustments.map (·.1)
  nodup : (s.adjustments.map (·.1)).Nodup
  range : ∀ x ∈ s.adjustments, isInt64 x.2

/-- Some parameters may have no input. -/
structure Adjust.Loose (s : Adjust) : Prop where
  keys : ∀ k ∈ s.inputs.map (·.1), k ∈ s.adjustments.map (·.1)
  nodup : (s.adjustments.map (·.1)).Nodup
  inodup : (s.inputs.map (·.1)).Nodup
  range : ∀ x ∈ s.adjustments, isInt64 x.2

theorem Adjust.Valid.loose {s : Adjust} (h : s.Valid) : s.Loose :=
  ⟨fun k hk => h.keys ▸ hk, h.nodup, h.keys.symm ▸ h.nodup, h.range⟩

/-- The same adjustments of the same inputs; no input and the empty one are the frame number, ParameterAdjustmentPlugin.cpp:48-53. -/
def Adjust.Alike (s t : Adjust) : Prop :=
  ∀ k, look s.adjustments k = look t.adjustments k ∧ (look s.inputs k).getD [] = (look t.inputs k).getD []

/-- The same adjustments and inputs. -/
def Adjust.Same (s t : Adjust) : Prop := ∀ k, look s.adjustments k = look t.adjustments k ∧ look s.inputs k = look t.inputs k

/-- States reached by messages. -/
inductive Adjust.Reach : Adjust → Prop
  | new : Reach {}
  | msg (s t : Adjust) (j : Json) : Reach s → s.configure j = some t → Reach t

/-- C109, full statement. -/
def C109_statement : Prop :=
  ∀ s, Adjust.Reach s → ∀ n, Name n → (reply n s.report).2 = .ok ∧ ∃ t, restore Adjust.configure {} n (reply n s.report).1 = some t ∧ t.Same s

theorem look_mem {α : Type} (l : List (Str × α)) (k : Str) : (∃ v, look l k = some v) ↔ k ∈ l.map (·.1) := by
  induction l with
  | nil => simp [look]
  | cons x l ih =>
    obtain ⟨n, v⟩ := x
    simp only [look, List.map_cons, List.mem_cons]
    by_cases h : n = k
    · simp [h]
    · rw [if_neg h, ih]
      simp [Ne.symm h]

theorem look_pair {α : Type} (l : List (Str × α)) (k : Str) (v : α) (h : look l k = some v) : (k, v) ∈ l := by
  induction l with
  | nil => cases h
  | cons x l ih =>
    obtain ⟨n, w⟩ := x
    simp only [look] at h
    by_cases e : n = k
    · rw [if_pos e] at h
      simp only [Option.some.injEq] at h
      subst h e
      simp
    · rw [if_neg e] at h
      simp [ih h]

theorem look_set {α : Type} (l : List (Str × α)) (k : Str) (v : α) (a : Str) :
    look (setKey l k v) a = if k = a then some v else look l a := by
  induction l with
  | nil => simp [setKey, look]
  | cons x l ih =>
    obtain ⟨n, w⟩ := x
    simp only [setKey]
    by_cases h : n = k
    · rw [if_pos h]
      simp only [look]
      subst h
      by_cases e : n = a <;> simp [e]
    · rw [if_neg h]
      simp only [look, ih]
      by_cases e : n = a
      · subst e; simp [Ne.symm h]
      · simp [e]

theorem told_val (items : List Item) (hg : Good items) (p : List Str) (v : Json) (h : Item.val p v ∈ items) : told items p = some v := by
  have ha := hg.apart
  clear hg
  induction items with
  | nil => cases h
  | cons i l ih =>
    rw [List.pairwise_cons] at ha
    rcases List.mem_cons.1 h with e | h'
    · subst e; simp [told]
    · have hne : i.path ≠ p := fun e => ha.1 _ h' (by rw [e]; exact Or.inl ⟨[], by simp [Item.path]⟩)
      cases i <;> (simp only [Item.path] at hne; simp [told, hne, ih h' ha.2])

theorem related_eq (p q : List Str) (h : Related p q) (hl : p.length = q.length) : p = q := by
  rcases h with h | h
  · exact h.eq_of_length hl
  · exact (h.eq_of_length hl.symm).symm

def adjPath (k : Str) : List Str := ["parameter".toList, k, "adjustment".toList]
def inPath (k : Str) : List Str := ["parameter".toList, k, "input".toList]

theorem adjust_mem (s : Adjust) (i : Item) (h : i ∈ s.report) :
    (∃ x ∈ s.adjustments, i = .val (adjPath x.1) (.num x.2)) ∨ ∃ x ∈ s.inputs, i = .val (inPath x.1) (.str x.2) := by
  simp only [Adjust.report, List.mem_append, List.mem_map] at h
  rcases h with ⟨x, hx, rfl⟩ | ⟨x, hx, rfl⟩
  · exact Or.inl ⟨x, hx, rfl⟩
  · exact Or.inr ⟨x, hx, rfl⟩

theorem adj_in (a b : Str) : adjPath a ≠ inPath b := by
  intro h
  simp [adjPath, inPath] at h

theorem adjust_good (s : Adjust) (hv : s.Loose) (hs : ∀ x ∈ s.adjustments, '/' ∉ x.1) : Good s.report := by
  have hs2 : ∀ x ∈ s.inputs, '/' ∉ x.1 := by
    intro x hx
    have : x.1 ∈ s.adjustments.map (·.1) := hv.keys _ (List.mem_map.2 ⟨x, hx, rfl⟩)
    obtain ⟨y, hy, e⟩ := List.mem_map.1 this
    rw [← e]
    exact hs y hy
  refine ⟨fun i hi => ?_, ?_⟩
  · rcases adjust_mem s i hi with ⟨x, hx, rfl⟩ | ⟨x, hx, rfl⟩
    · refine ⟨⟨by simp [Item.path, adjPath], fun k hk => ?_⟩, fun k hk => ⟨?_, fun h => by cases h⟩⟩
      · simp only [Item.path, adjPath, List.mem_cons, List.not_mem_nil, or_false] at hk
        rcases hk with rfl | rfl | rfl
        · decide +kernel
        · exact hs x hx
        · decide +kernel
      · simp only [Item.path, adjPath, List.getLast?_cons_cons, List.getLast?_singleton, Option.some.injEq] at hk
        subst hk
        exact plain_of _ (by decide +kernel)
    · refine ⟨⟨by simp [Item.path, inPath], fun k hk => ?_⟩, fun k hk => ⟨?_, fun h => by cases h⟩⟩
      · simp only [Item.path, inPath, List.mem_cons, List.not_mem_nil, or_false] at hk
        rcases hk with rfl | rfl | rfl
        · decide +kernel
        · exact hs2 x hx
        · decide +kernel
      · simp only [Item.path, inPath, List.getLast?_cons_cons, List.getLast?_singleton, Option.some.injEq] at hk
        subst hk
        exact plain_of _ (by decide +kernel)
  · simp only [Adjust.report]
    rw [List.pairwise_append, List.pairwise_map, List.pairwise_map]
    have n1 : s.adjustments.Pairwise (fun x y => x.1 ≠ y.1) := List.pairwise_map.1 hv.nodup
    have n2 : s.inputs.Pairwise (fun x y => x.1 ≠ y.1) := List.pairwise_map.1 hv.inodup
    refine ⟨n1.imp (fun hne hr => hne (by simpa [Item.path] using related_eq _ _ hr rfl)),
      n2.imp (fun hne hr => hne (by simpa [Item.path] using related_eq _ _ hr rfl)), fun i hi j hj hr => ?_⟩
    obtain ⟨x, _, rfl⟩ := List.mem_map.1 hi
    obtain ⟨y, _, rfl⟩ := List.mem_map.1 hj
    exact adj_in x.1 y.1 (related_eq _ _ hr rfl)

theorem adjust_told (s : Adjust) (hg : Good s.report) (k : Str) (hk : k ∈ s.adjustments.map (·.1)) (hv : s.Loose) :
    ∃ a, look s.adjustments k = some a ∧ told s.report (adjPath k) = some (.num a) ∧
      told s.report (inPath k) = (look s.inputs k).map .str ∧ isInt64 a := by
  obtain ⟨a, ha⟩ := (look_mem s.adjustments k).2 hk
  refine ⟨a, ha, told_val _ hg _ _ ?_, ?_, hv.range _ (look_pair _ _ _ ha)⟩
  · simp only [Adjust.report, List.mem_append, List.mem_map]
    exact Or.inl ⟨(k, a), look_pair _ _ _ ha, rfl⟩
  · cases hb : look s.inputs k with
    | some b =>
      refine told_val _ hg _ _ ?_
      simp only [Adjust.report, List.mem_append, List.mem_map]
      exact Or.inr ⟨(k, b), look_pair _ _ _ hb, rfl⟩
    | none =>
      refine told_none _ _ (fun i hi he => ?_)
      rcases adjust_mem s i hi with ⟨x, _, rfl⟩ | ⟨x, hx, rfl⟩
      · exact adj_in _ _ he
      · have e : x.1 = k := by simpa [Item.path, inPath] using he
        obtain ⟨v, hv⟩ := (look_mem s.inputs k).2 (List.mem_map.2 ⟨x, hx, e⟩)
        rw [hb] at hv
        cases hv

/-- The loop over the parameters of a report. -/
theorem adjust_all (s : Adjust) (j : Json) (ks : List Str)
    (h : ∀ k ∈ ks, ∃ l a, look s.adjustments k = some a ∧ getParam (some j) k = some (.obj l) ∧
      Ipc.get ["adjustment".toList] (.obj l) = some (.num a) ∧ Ipc.get ["input".toList] (.obj l) = (look s.inputs k).map .str ∧ isInt64 a) (t : Adjust) :
    ∃ u, t.all j ks = some u ∧ ∀ k, look u.adjustments k = (if k ∈ ks then look s.adjustments k else look t.adjustments k) ∧
      look u.inputs k = (if k ∈ ks then some ((look s.inputs k).getD []) else look t.inputs k) := by
  induction ks generalizing t with
  | nil => exact ⟨t, rfl, fun k => by simp⟩
  | cons k ks ih =>
    obtain ⟨l, a, h1, h3, h4, h5, h6⟩ := h k (by simp)
    have hone : t.one k (.obj l) = some { adjustments := setKey t.adjustments k a, inputs := setKey t.inputs k ((look s.inputs k).getD []) } := by
      have hp : getParam (some (.obj l)) "adjustment".toList = some (.num a) := by
        simp only [getParam, Option.bind_some]
        rw [splitAll_plain _ (by decide +kernel)]
        exact h4
      simp only [Adjust.one, hp, Option.bind_some, asInt64_ok a h6]
      rw [field_obj l "input".toList (by decide +kernel), h5]
      cases look s.inputs k <;> rfl
    obtain ⟨u, hu, hk⟩ := ih (fun x hx => h x (by simp [hx])) { adjustments := setKey t.adjustments k a, inputs := setKey t.inputs k ((look s.inputs k).getD []) }
    refine ⟨u, ?_, fun x => ?_⟩
    · simp only [Adjust.all, h3, hone, Option.bind_some, hu]
    · obtain ⟨k1, k2⟩ := hk x
      rw [k1, k2]
      simp only [look_set, List.mem_cons]
      by_cases hx : x ∈ ks
      · simp [hx]
      · by_cases e : x = k
        · subst e; simp [hx, h1]
        · simp [hx, e, Ne.symm e]

/-- Parameters whose names have no slash, with or without an input. -/
theorem adjust_restored (s : Adjust) (hv : s.Loose) (hs : ∀ x ∈ s.adjustments, '/' ∉ x.1) (n : Str) (hn : Name n) :
    (reply n s.report).2 = .ok ∧ ∃ t, restore Adjust.configure {} n (reply n s.report).1 = some t ∧
      ∀ k, look t.adjustments k = look s.adjustments k ∧
        look t.inputs k = (look s.adjustments k).map (fun _ => (look s.inputs k).getD []) := by
  have hg := adjust_good s hv hs
  obtain ⟨h1, h2⟩ := reply_read n s.report hn hg
  refine ⟨h1, ?_⟩
  cases hadj : s.adjustments with
  | nil =>
    have hin : s.inputs = [] := by
      have := hv.keys
      rw [hadj] at this
      cases h : s.inputs with
      | nil => rfl
      | cons y l => exact absurd (this y.1 (by rw [h]; simp)) (by simp)
    have hr : s.report = [] := by simp [Adjust.report, hadj, hin]
    refine ⟨{}, ?_, fun k => ⟨rfl, rfl⟩⟩
    simp only [restore, hr, reply, List.flatMap_nil, sets, getParam, Option.bind_some, splitAll_plain n hn.2, Ipc.get, findM, Option.bind_none]
  | cons x0 rest =>
    have hk0 : x0.1 ∈ s.adjustments.map (·.1) := by rw [hadj]; simp
    have hslash : ∀ k ∈ s.adjustments.map (·.1), '/' ∉ k := fun k hk => by
      obtain ⟨y, hy, e⟩ := List.mem_map.1 hk
      rw [← e]
      exact hs y hy
    have hlen : ∀ i ∈ s.report, i.path.length = 3 := fun i hi => by
      rcases adjust_mem s i hi with ⟨x, _, rfl⟩ | ⟨x, _, rfl⟩ <;> rfl
    -- reading a leaf
    have hread : ∀ k ∈ s.adjustments.map (·.1), ∀ z, z = "adjustment".toList ∨ z = "input".toList →
        Ipc.get [n, "parameter".toList, k, z] (reply n s.report).1 = told s.report ["parameter".toList, k, z] := by
      intro k hk z hz
      have hp : Path ["parameter".toList, k, z] := by
        refine ⟨by simp, fun a ha => ?_⟩
        simp only [List.mem_cons, List.not_mem_nil, or_false] at ha
        rcases ha with rfl | rfl | rfl
        · decide +kernel
        · exact hslash _ hk
        · rcases hz with rfl | rfl <;> decide +kernel
      have := h2 _ hp (fun i hi => by
        by_cases hr : Related i.path ["parameter".toList, k, z]
        · exact Or.inl (related_eq _ _ hr (by rw [hlen i hi]; rfl))
        · exact Or.inr hr)
      rw [← this]
      have hp2 : Path (n :: ["parameter".toList, k, z]) := ⟨by simp, fun a ha => by
        rcases List.mem_cons.1 ha with rfl | ha
        · exact hn.2
        · exact hp.2 a ha⟩
      simp only [getParam, Option.bind_some, splitAll_join _ hp2]
    obtain ⟨a0, _, t0, _, _⟩ := adjust_told s hg x0.1 hk0 hv
    have r0 := hread x0.1 hk0 "adjustment".toList (Or.inl rfl)
    rw [show ["parameter".toList, x0.1, "adjustment".toList] = adjPath x0.1 from rfl, t0] at r0
    generalize hR : (reply n s.report).1 = R at *
    -- the objects on the way
    obtain ⟨lr, hlr⟩ : ∃ lr, R = .obj lr := by
      cases R with
      | obj l => exact ⟨l, rfl⟩
      | _ => simp [Ipc.get] at r0
    subst hlr
    have up : ∀ (q : List Str) (z : Json), Ipc.get q (.obj lr) = some z → (∀ i ∈ s.report, ¬ (n :: i.path) <+: q) → ∃ m, z = .obj m := by
      intro q z hq hi
      exact reply_object n s.report hn hg q z (by rw [hR]; exact hq) hi
    have short : ∀ q : List Str, q.length < 4 → ∀ i ∈ s.report, ¬ (n :: i.path) <+: q := by
      intro q hq i hi hp
      have := hp.length_le
      rw [List.length_cons, hlen i hi] at this
      omega
    cases hsub : findM lr n with
    | none => simp [Ipc.get, hsub] at r0
    | some sub =>
      obtain ⟨ms, rfl⟩ := up [n] sub (by simp [Ipc.get, hsub]) (short _ (by simp))
      cases hpar : findM ms "parameter".toList with
      | none =>
        simp only [adjPath, Ipc.get, hsub, Option.bind_some, hpar, Option.bind_none] at r0
        cases r0
      | some par =>
        obtain ⟨mp, rfl⟩ := up [n, "parameter".toList] par (by simp only [Ipc.get, hsub, Option.bind_some, hpar]) (short _ (by simp))
        have hget : ∀ q, Ipc.get (n :: "parameter".toList :: q) (.obj lr) = Ipc.get q (.obj mp) := by
          intro q
          simp only [Ipc.get, hsub, Option.bind_some, hpar]
        have hnames : ∀ k ∈ mp.map (·.1), k ∈ s.adjustments.map (·.1) := by
          intro k hk
          obtain ⟨v, hv2⟩ := findM_mem mp k hk
          have hg2 : Ipc.get [n, "parameter".toList, k] (.obj lr) = some v := by rw [hget]; simp [Ipc.get, hv2]
          rcases reply_origin n s.report hn hg _ _ (by rw [hR]; exact hg2) with h | ⟨i, hi, hr⟩
          · cases h
          · have hpre : [n, "parameter".toList, k] <+: n :: i.path := by
              rcases hr with h | h
              · exact absurd h (short _ (by simp) i hi)
              · exact h
            rcases adjust_mem s i hi with ⟨x, hx, rfl⟩ | ⟨x, hx, rfl⟩
            · simp only [Item.path, adjPath, List.cons_prefix_cons] at hpre
              rw [hpre.2.2.1]
              exact List.mem_map.2 ⟨x, hx, rfl⟩
            · simp only [Item.path, inPath, List.cons_prefix_cons] at hpre
              rw [hpre.2.2.1]
              exact hv.keys _ (List.mem_map.2 ⟨x, hx, rfl⟩)
        have hall : ∀ k ∈ s.adjustments.map (·.1), k ∈ mp.map (·.1) ∧ ∃ l a, look s.adjustments k = some a ∧
            getParam (some (.obj mp)) k = some (.obj l) ∧
            Ipc.get ["adjustment".toList] (.obj l) = some (.num a) ∧ Ipc.get ["input".toList] (.obj l) = (look s.inputs k).map .str ∧ isInt64 a := by
          intro k hk
          obtain ⟨a, q1, q3, q4, q5⟩ := adjust_told s hg k hk hv
          have g1 := hread k hk "adjustment".toList (Or.inl rfl)
          have g2 := hread k hk "input".toList (Or.inr rfl)
          rw [hget, show ["parameter".toList, k, "adjustment".toList] = adjPath k from rfl, q3] at g1
          rw [hget, show ["parameter".toList, k, "input".toList] = inPath k from rfl, q4] at g2
          cases hfk : findM mp k with
          | none => simp [Ipc.get, hfk] at g1
          | some v =>
            obtain ⟨l, rfl⟩ := up [n, "parameter".toList, k] v (by rw [hget]; simp [Ipc.get, hfk]) (short _ (by simp))
            refine ⟨?_, l, a, q1, ?_, ?_, ?_, q5⟩
            · apply Classical.byContradiction
              intro hno
              rw [findM_none mp k hno] at hfk
              cases hfk
            · simp only [getParam, Option.bind_some, splitAll_plain k (hslash k hk), Ipc.get, hfk]
            · rw [← g1]; simp only [Ipc.get, hfk, Option.bind_some]
            · rw [← g2]; simp only [Ipc.get, hfk, Option.bind_some]
        obtain ⟨u, hu, hlook⟩ := adjust_all s (.obj mp) (mp.map (·.1)) (fun k hk => (hall k (hnames k hk)).2) {}
        refine ⟨u, ?_, fun k => ?_⟩
        · have hmp : mp ≠ [] := by
            have := (hall x0.1 hk0).1
            intro e
            rw [e] at this
            cases this
          have e1 : getParam (some (.obj lr)) n = some (.obj ms) := by
            simp only [getParam, Option.bind_some, splitAll_plain n hn.2, Ipc.get, hsub]
          have e2 : getParam (some (.obj ms)) "parameter".toList = some (.obj mp) := by
            simp only [getParam, Option.bind_some]
            rw [splitAll_plain _ (by decide +kernel)]
            simp only [Ipc.get, hpar, Option.bind_some]
          have e3 : hasParam (some (.obj ms)) "parameter".toList = some true := by
            simp only [hasParam]
            rw [splitAll_plain _ (by decide +kernel)]
            simp only [has, hpar]
          simp only [restore, e1, Adjust.configure, e2, e3]
          cases mp with
          | nil => exact absurd rfl hmp
          | cons z zs => exact hu
        · obtain ⟨k1, k2⟩ := hlook k
          rw [k1, k2, ← hadj]
          by_cases hk : k ∈ s.adjustments.map (·.1)
          · rw [if_pos (hall k hk).1, if_pos (hall k hk).1]
            obtain ⟨_, _, a, e, _⟩ := hall k hk
            exact ⟨rfl, by rw [e]; rfl⟩
          · rw [if_neg (fun h => hk (hnames k h)), if_neg (fun h => hk (hnames k h))]
            have n1 : look s.adjustments k = none := by
              cases h : look s.adjustments k with
              | none => rfl
              | some v => exact absurd ((look_mem _ _).1 ⟨v, h⟩) hk
            rw [n1]
            exact ⟨rfl, rfl⟩

/-- C109 for parameters whose names have no slash. -/
theorem C109_partial (s : Adjust) (hv : s.Valid) (hs : ∀ x ∈ s.adjustments, '/' ∉ x.1) (n : Str) (hn : Name n) :
    (reply n s.report).2 = .ok ∧ ∃ t, restore Adjust.configure {} n (reply n s.report).1 = some t ∧ t.Same s := by
  obtain ⟨h1, t, h2, h3⟩ := adjust_restored s hv.loose hs n hn
  refine ⟨h1, t, h2, fun k => ⟨(h3 k).1, (h3 k).2.trans ?_⟩⟩
  cases ha : look s.adjustments k with
  | none =>
    cases hb : look s.inputs k with
    | none => rfl
    | some b =>
      have hk := (look_mem _ _).1 ⟨b, hb⟩
      rw [hv.keys] at hk
      obtain ⟨v, hv⟩ := (look_mem _ _).2 hk
      rw [ha] at hv
      cases hv
  | some a =>
    have hk := (look_mem _ _).1 ⟨a, ha⟩
    rw [← hv.keys] at hk
    obtain ⟨b, hb⟩ := (look_mem _ _).2 hk
    rw [hb]
    rfl

theorem setKey_keys {α : Type} (l : List (Str × α)) (k : Str) (v : α) :
    (setKey l k v).map (·.1) = if k ∈ l.map (·.1) then l.map (·.1) else l.map (·.1) ++ [k] := by
  induction l with
  | nil => simp [setKey]
  | cons x l ih =>
    obtain ⟨n, w⟩ := x
    simp only [setKey]
    by_cases h : n = k
    · rw [if_pos h]; simp [h]
    · rw [if_neg h]
      simp only [List.map_cons, ih, List.mem_cons]
      by_cases e : k ∈ l.map (·.1)
      · simp [e]
      · rw [if_neg e, if_neg (by simp only [not_or]; exact ⟨Ne.symm h, e⟩)]
        rfl

theorem setKey_mem {α : Type} (l : List (Str × α)) (k : Str) (v : α) (x : Str × α) (h : x ∈ setKey l k v) : x ∈ l ∨ x.2 = v := by
  induction l with
  | nil => simp only [setKey, List.mem_singleton] at h; exact Or.inr (by rw [h])
  | cons y l ih =>
    obtain ⟨n, w⟩ := y
    simp only [setKey] at h
    by_cases e : n = k
    · rw [if_pos e] at h
      rcases List.mem_cons.1 h with h | h
      · exact Or.inr (by rw [h])
      · exact Or.inl (by simp [h])
    · rw [if_neg e] at h
      rcases List.mem_cons.1 h with h | h
      · exact Or.inl (by simp [h])
      · rcases ih h with h | h
        · exact Or.inl (by simp [h])
        · exact Or.inr h

theorem asInt64_range (j : Json) (a : Int) (h : asInt64 j = some a) : isInt64 a := by
  cases j with
  | num i =>
    simp only [asInt64] at h
    split at h
    · simp only [Option.some.injEq] at h; subst h; assumption
    · cases h
  | _ => simp [asInt64] at h

theorem one_valid (s t : Adjust) (k : Str) (sub : Json) (hv : s.Valid) (h : s.one k sub = some t) : t.Valid := by
  simp only [Adjust.one] at h
  cases ha : (getParam (some sub) "adjustment".toList).bind asInt64 with
  | none => rw [ha] at h; cases h
  | some a =>
    rw [ha] at h
    cases hi : field sub "input".toList Json.asStr with
    | none => rw [hi] at h; cases h
    | some i =>
      rw [hi] at h
      simp only [Option.some.injEq] at h
      subst h
      refine ⟨?_, ?_, ?_⟩
      · simp only [setKey_keys, hv.keys]
      · simp only [setKey_keys]
        split
        · exact hv.nodup
        · rename_i hk
          rw [List.nodup_append]
          refine ⟨hv.nodup, by simp, fun x hx y hy e => ?_⟩
          rw [List.mem_singleton] at hy
          subst hy e
          exact hk hx
      · intro x hx
        rcases setKey_mem _ _ _ _ hx with h | h
        · exact hv.range x h
        · rw [h]
          obtain ⟨z, _, hz⟩ := Option.bind_eq_some_iff.1 ha
          exact asInt64_range z a hz

theorem all_valid (j : Json) (ks : List Str) (s t : Adjust) (hv : s.Valid) (h : s.all j ks = some t) : t.Valid := by
  induction ks generalizing s with
  | nil => simp only [Adjust.all, Option.some.injEq] at h; subst h; exact hv
  | cons k ks ih =>
    simp only [Adjust.all] at h
    cases hg : getParam (some j) k with
    | none => rw [hg] at h; cases h
    | some sub =>
      rw [hg] at h
      obtain ⟨u, hu, h2⟩ := Option.bind_eq_some_iff.1 h
      exact ih u (one_valid s u k sub hv hu) h2

/-- Whatever messages were received, every parameter with an adjustment has an input and the other way round. -/
theorem C109_valid (s : Adjust) (h : Adjust.Reach s) : s.Valid := by
  induction h with
  | new => exact ⟨rfl, by simp, fun x hx => by cases hx⟩
  | msg s t j _ hc ih =>
    simp only [Adjust.configure] at hc
    split at hc
    · cases hc
    · simp only [Option.some.injEq] at hc; subst hc; exact ih
    · split at hc
      · split at hc
        · simp only [Option.some.injEq] at hc
          subst hc
          exact ⟨rfl, by simp, fun x hx => by cases hx⟩
        · exact all_valid _ _ _ _ ih hc
      · cases hc

/-- "a/b" is found inside "a"; sent back, it is missing. -/
def nested : Json :=
  .obj [("parameter".toList, .obj [("a/b".toList, .null),
    ("a".toList, .obj [("b".toList, .obj [("adjustment".toList, .num 3)]), ("adjustment".toList, .num 1)])])]

def nestedState : Adjust := { adjustments := [("a/b".toList, 3), ("a".toList, 1)], inputs := [("a/b".toList, []), ("a".toList, [])] }

theorem C109_violated : ¬ C109_statement := by
  intro h
  have hr : Adjust.Reach nestedState := .msg {} nestedState nested .new (by rfl)
  obtain ⟨_, t, ht, hsame⟩ := h nestedState hr "adjust".toList ⟨plain_of _ (by decide +kernel), by decide +kernel⟩
  have e : restore Adjust.configure {} "adjust".toList (reply "adjust".toList nestedState.report).1 =
      some { adjustments := [("a".toList, 1)], inputs := [("a".toList, [])] } := by decide +kernel
  rw [e] at ht
  simp only [Option.some.injEq] at ht
  subst ht
  have := (hsame "a/b".toList).1
  revert this
  decide +kernel

/-- Two parameters, one with an input. -/
example : ∃ t, restore Adjust.configure {} "adjust".toList (reply "adjust".toList (Adjust.report
      { adjustments := [("x".toList, 2), ("temp[]".toList, -1)], inputs := [("x".toList, "y".toList), ("temp[]".toList, [])] })).1 = some t ∧
    look t.adjustments "temp[]".toList = some (-1) := by
  obtain ⟨_, t, h, hs⟩ := C109_partial { adjustments := [("x".toList, 2), ("temp[]".toList, -1)],
                                         inputs := [("x".toList, "y".toList), ("temp[]".toList, [])] }
    ⟨rfl, by decide +kernel, by simp [isInt64]⟩ (by decide +kernel) "adjust".toList ⟨plain_of _ (by decide +kernel), by decide +kernel⟩
  exact ⟨t, h, by rw [(hs _).1]; decide +kernel⟩

end Verif.PluginConfig
