import Verif.Model.Loader
/-
C137: A plugin is made from the library that was asked for. The code violates it. Here: from which library it is made, always;
and when that is the one asked for.
-/
namespace Verif.Loader

/-! ## Specification -/

/-- A command to load a plugin that gets a positive reply leaves a plugin of that class, from that library, at that index. -/
def C137_statement : Prop := ∀ w l index name path,
  (loadPlugin w (runLoads w {} l) index name path).2 = true →
  (loadPlugin w (runLoads w {} l) index name path).1.plugins index = some (name, path)

/-- The library registers the name. -/
def Provides (w : Libs) (path name : Nat) : Prop := ∃ l, w.provides path = some l ∧ name ∈ l

/-- The first library of a list that registers a name. -/
inductive First (w : Libs) (name : Nat) : List Nat → Nat → Prop
  | here {p l} : Provides w p name → First w name (p :: l) p
  | later {p l q} : ¬ Provides w p name → First w name l q → First w name (p :: l) q

/-! ## Proofs -/

theorem registerAll_of (r : Nat → Option Nat) (path : Nat) (l : List Nat) (n : Nat) :
    registerAll r path l n = if n ∈ l then some path else r n := by
  induction l generalizing r with
  | nil => simp [registerAll]
  | cons a l ih =>
    rw [registerAll, ih]
    by_cases h : n ∈ l
    · simp [h]
    · by_cases h2 : n = a <;> simp [h, h2]

/-- The registry is that of the libraries opened, of which the last one counts. -/
structure Inv (w : Libs) (r : Reg) : Prop where
  known : ∀ p ∈ r.opened, w.provides p ≠ none
  factory : ∀ n p, r.factory n = some p ↔ First w n r.opened p

theorem inv_init (w : Libs) : Inv w {} :=
  ⟨fun _ h => absurd h (by simp), fun n p => ⟨fun h => absurd h (by simp), fun h => by cases h⟩⟩

theorem inv_open (w : Libs) (r r' : Reg) (path : Nat) (h : Inv w r) (ho : openLib w r path = some r') : Inv w r' := by
  simp only [openLib] at ho
  split at ho
  · cases ho
  · next l hl =>
    split at ho
    · injection ho with ho
      rw [← ho]; exact h
    · injection ho with ho
      rw [← ho]
      refine ⟨fun p hp => ?_, fun n p => ?_⟩
      · rcases List.mem_cons.mp hp with hp | hp
        · rw [hp, hl]; simp
        · exact h.known p hp
      · simp only [registerAll_of]
        by_cases hn : n ∈ l
        · rw [if_pos hn]
          constructor
          · intro e
            injection e with e
            rw [← e]
            exact .here ⟨l, hl, hn⟩
          · intro e
            cases e with
            | here => rfl
            | later h1 _ => exact absurd ⟨l, hl, hn⟩ h1
        · rw [if_neg hn]
          have hnp : ¬ Provides w path n := by
            rintro ⟨k, hk, hk2⟩
            rw [hl] at hk
            injection hk with hk
            exact hn (hk ▸ hk2)
          rw [h.factory]
          constructor
          · exact fun e => .later hnp e
          · intro e
            cases e with
            | here h1 => exact absurd h1 hnp
            | later _ h2 => exact h2

theorem inv_load (w : Libs) (r : Reg) (name path : Nat) (h : Inv w r) : Inv w (load w r name path).1 := by
  simp only [load]
  split
  · exact h
  · split
    · exact h
    · next r' hr => exact inv_open w r r' path h hr

theorem inv_plugin (w : Libs) (s : St) (i n p : Nat) (h : Inv w s.reg) : Inv w (loadPlugin w s i n p).1.reg := by
  have hl := inv_load w s.reg n p h
  simp only [loadPlugin]
  split
  · exact h
  · split
    · next e => rw [e] at hl; exact hl
    · next _ e => rw [e] at hl; exact hl

theorem inv_run (w : Libs) (s : St) (l : List (Nat × Nat × Nat)) (h : Inv w s.reg) : Inv w (runLoads w s l).reg := by
  induction l generalizing s with
  | nil => exact h
  | cons c l ih => exact ih _ (inv_plugin w s _ _ _ h)

/-- Where an object comes from, always: from the library opened last of those that register the name. -/
theorem C137_origin (w : Libs) (r : Reg) (name path lib : Nat) (h : Inv w r) (he : (load w r name path).2 = .object lib) :
    First w name (load w r name path).1.opened lib ∧ w.throws lib name = false := by
  have hi := inv_load w r name path h
  have hm : ∀ r', makeObj w r' name = .object lib → Inv w r' → First w name r'.opened lib ∧ w.throws lib name = false := by
    intro r' hm hr
    simp only [makeObj] at hm
    split at hm
    · cases hm
    · next k hk =>
      split at hm
      · cases hm
      · next ht =>
        injection hm with hm
        rw [← hm]
        exact ⟨(hr.factory name k).mp hk, by simpa using ht⟩
  simp only [load] at he hi ⊢
  split at he
  · next hs => simp only [if_pos hs] at hi ⊢; exact hm r he h
  · next hs =>
    simp only [if_neg hs] at hi ⊢
    split at he
    · cases he
    · next r' hr => exact hm r' he (inv_open w r r' path h hr)

theorem C137_violated : ¬ C137_statement := by
  intro h
  have h1 := h ⟨fun _ => some [7], fun _ _ => false⟩ [(0, 7, 1)] 1 7 2 (by decide)
  revert h1
  decide

/-- A library that does not exist will do for a class that is loaded. -/
theorem C137_violated_missing : ∃ w : Libs, w.provides 2 = none ∧
    (loadPlugin w (runLoads w {} [(0, 7, 1)]) 1 7 2).2 = true ∧
    (loadPlugin w (runLoads w {} [(0, 7, 1)]) 1 7 2).1.plugins 1 = some (7, 1) :=
  ⟨⟨fun p => if p = 1 then some [7] else none, fun _ _ => false⟩, by decide, by decide, by decide⟩

/-- And so will any class and library for an index that is taken: nothing is loaded. -/
theorem C137_violated_index : ∃ w : Libs, (loadPlugin w (runLoads w {} [(0, 7, 1)]) 0 8 2).2 = true ∧
    (loadPlugin w (runLoads w {} [(0, 7, 1)]) 0 8 2).1.plugins 0 = some (7, 1) :=
  ⟨⟨fun p => if p = 1 then some [7] else none, fun _ _ => false⟩, by decide, by decide⟩

/-- A library can take the name of a class of another one: the same command makes another class before and after. -/
theorem C137_violated_taken : ∃ w : Libs, (loadPlugin w (runLoads w {} [(0, 7, 1)]) 2 7 1).1.plugins 2 = some (7, 1) ∧
    (loadPlugin w (runLoads w {} [(0, 7, 1), (1, 8, 2)]) 2 7 1).1.plugins 2 = some (7, 2) :=
  ⟨⟨fun p => if p = 1 then some [7] else some [7, 8], fun _ _ => false⟩, by decide, by decide⟩

theorem first_mem (w : Libs) (name : Nat) (l : List Nat) (p : Nat) (h : First w name l p) : p ∈ l ∧ Provides w p name := by
  induction h with
  | here h => exact ⟨List.mem_cons_self .., h⟩
  | later _ _ ih => exact ⟨List.mem_cons_of_mem _ ih.1, ih.2⟩

theorem first_exists (w : Libs) (name : Nat) (l : List Nat) (p : Nat) (hp : p ∈ l) (h : Provides w p name) :
    ∃ q, First w name l q := by
  induction l with
  | nil => cases hp
  | cons a l ih =>
    by_cases ha : Provides w a name
    · exact ⟨a, .here ha⟩
    · rcases List.mem_cons.mp hp with e | e
      · exact absurd (e ▸ h) ha
      · obtain ⟨q, hq⟩ := ih e
        exact ⟨q, .later ha hq⟩

/-- An exception is thrown exactly if the name is of no library opened so far and the library asked for cannot be opened. -/
theorem C137_missing (w : Libs) (r : Reg) (name path : Nat) (h : Inv w r) :
    (load w r name path).2 = .error ↔ (∀ q ∈ r.opened, ¬ Provides w q name) ∧ w.provides path = none := by
  have hm : ∀ r', makeObj w r' name ≠ .error := by
    intro r' he
    simp only [makeObj] at he
    split at he
    · cases he
    · split at he <;> cases he
  cases hf : r.factory name with
  | some k =>
    have e : load w r name path = (r, makeObj w r name) := by simp [load, hf]
    rw [e]
    obtain ⟨h1, h2⟩ := first_mem w name _ k ((h.factory name k).mp hf)
    exact ⟨fun he => absurd he (hm r), fun he => absurd h2 (he.1 k h1)⟩
  | none =>
    have hno : ∀ q ∈ r.opened, ¬ Provides w q name := by
      intro q hq hp
      obtain ⟨k, hk⟩ := first_exists w name _ q hq hp
      rw [(h.factory name k).mpr hk] at hf
      cases hf
    cases hp : w.provides path with
    | none =>
      have e : load w r name path = (r, .error) := by simp [load, hf, openLib, hp]
      rw [e]
      exact ⟨fun _ => ⟨hno, rfl⟩, fun _ => rfl⟩
    | some l =>
      have e : ∃ r', load w r name path = (r', makeObj w r' name) := by
        simp only [load, hf, openLib, hp]
        split
        · exact absurd ‹_› (by simp)
        · split
          · next hz => split at hz <;> cases hz
          · exact ⟨_, rfl⟩
      obtain ⟨r', e⟩ := e
      rw [e]
      exact ⟨fun he => absurd he (hm r'), fun he => absurd he.2 (by simp)⟩

example : (load ⟨fun p => if p = 1 then some [7] else none, fun _ _ => false⟩ {} 7 2).2 = .error := by decide

/-- C137 for the class loader, if the library asked for registers the name and is the only one opened that does: an object of
its class, unless its constructor throws. -/
theorem C137_only (w : Libs) (r : Reg) (name path : Nat) (h : Inv w r) (hp : Provides w path name)
    (hu : ∀ q ∈ r.opened, Provides w q name → q = path) :
    (load w r name path).2 = if w.throws path name then .null else .object path := by
  obtain ⟨l, hl, hn⟩ := hp
  have hfin : ∀ r', r'.factory name = some path → makeObj w r' name = if w.throws path name then .null else .object path := by
    intro r' hr
    simp only [makeObj, hr]
  cases hf : r.factory name with
  | some k =>
    obtain ⟨h1, h2⟩ := first_mem w name _ k ((h.factory name k).mp hf)
    have := hu k h1 h2
    subst this
    have e : load w r name k = (r, makeObj w r name) := by simp [load, hf]
    rw [e]
    exact hfin r hf
  | none =>
    have hno : path ∉ r.opened := by
      intro hm
      obtain ⟨q, hq⟩ := first_exists w name _ path hm ⟨l, hl, hn⟩
      rw [(h.factory name q).mpr hq] at hf
      cases hf
    have e : openLib w r path = some ⟨registerAll r.factory path l, path :: r.opened⟩ := by simp [openLib, hl, hno]
    simp only [load, hf, e]
    exact hfin _ (by simp [registerAll_of, hn])

/-- C137, if no two libraries register the same name, for an index that is free and a library that registers the name: the reply
is positive if and only if the plugin has been made, of that class and from that library.
Missing: names registered twice, libraries that do not register the name, and indices in use. -/
theorem C137_partial (w : Libs) (l : List (Nat × Nat × Nat)) (index name path : Nat)
    (hu : ∀ p q n, Provides w p n → Provides w q n → p = q) (hp : Provides w path name)
    (hi : (runLoads w {} l).plugins index = none) :
    ((loadPlugin w (runLoads w {} l) index name path).2 = true ↔ w.throws path name = false) ∧
    ((loadPlugin w (runLoads w {} l) index name path).2 = true →
      (loadPlugin w (runLoads w {} l) index name path).1.plugins index = some (name, path)) ∧
    ((loadPlugin w (runLoads w {} l) index name path).2 = false →
      (loadPlugin w (runLoads w {} l) index name path).1.plugins index = none) ∧
    ∀ j, j ≠ index → (loadPlugin w (runLoads w {} l) index name path).1.plugins j = (runLoads w {} l).plugins j := by
  have h := inv_run w {} l (inv_init w)
  have e := C137_only w _ name path h hp (fun q _ hq => hu q path name hq hp)
  generalize hs : runLoads w {} l = s at *
  rcases hl : load w s.reg name path with ⟨r, res⟩
  rw [hl] at e
  simp only [loadPlugin, hi, hl]
  cases ht : w.throws path name with
  | true =>
    simp [ht] at e
    subst e
    simp [hi]
  | false =>
    simp [ht] at e
    subst e
    simp +contextual

/-- A library that cannot be opened, or that does not register the name: no plugin, and a negative reply, if no library opened
before registers the name and the index is free. -/
theorem C137_refused (w : Libs) (l : List (Nat × Nat × Nat)) (index name path : Nat) (hp : ¬ Provides w path name)
    (hu : ∀ q ∈ (runLoads w {} l).reg.opened, ¬ Provides w q name) (hi : (runLoads w {} l).plugins index = none) :
    (loadPlugin w (runLoads w {} l) index name path).2 = false ∧
      (loadPlugin w (runLoads w {} l) index name path).1.plugins = (runLoads w {} l).plugins := by
  have h := inv_run w {} l (inv_init w)
  generalize hs : runLoads w {} l = s at *
  have hno : ∀ lib, (load w s.reg name path).2 ≠ .object lib := by
    intro lib he
    have h1 := (C137_origin w s.reg name path lib h he).1
    obtain ⟨h2, h3⟩ := first_mem w name _ lib h1
    have h4 : ∀ q ∈ (load w s.reg name path).1.opened, q = path ∨ q ∈ s.reg.opened := by
      intro q hq
      simp only [load] at hq
      split at hq
      · exact Or.inr hq
      · split at hq
        · exact Or.inr hq
        · next r' hr =>
          simp only [openLib] at hr
          split at hr
          · cases hr
          · split at hr
            · injection hr with hr
              rw [← hr] at hq; exact Or.inr hq
            · injection hr with hr
              rw [← hr] at hq
              exact List.mem_cons.mp hq
    rcases h4 lib h2 with e | e
    · exact hp (e ▸ h3)
    · exact hu lib e h3
  simp only [loadPlugin, hi]
  rcases hl : load w s.reg name path with ⟨r, res⟩
  rw [hl] at hno
  cases res with
  | object lib => exact absurd rfl (hno lib)
  | null => simp
  | error => simp

/-- Non-vacuity: two libraries of two classes each, one of which throws. -/
def exLibs : Libs where
  provides := fun p => if p = 1 then some [7, 8] else if p = 2 then some [9] else none
  throws := fun p n => decide (p = 1 ∧ n = 8)

example : (runLoads exLibs {} [(0, 7, 1), (1, 8, 1), (2, 7, 1), (3, 9, 2)]).plugins 0 = some (7, 1) ∧
    (runLoads exLibs {} [(0, 7, 1), (1, 8, 1), (2, 7, 1), (3, 9, 2)]).plugins 1 = none ∧
    (runLoads exLibs {} [(0, 7, 1), (1, 8, 1), (2, 7, 1), (3, 9, 2)]).plugins 2 = some (7, 1) ∧
    (runLoads exLibs {} [(0, 7, 1), (1, 8, 1), (2, 7, 1), (3, 9, 2)]).plugins 3 = some (9, 2) ∧
    (loadPlugin exLibs {} 4 6 2).2 = false ∧ (loadPlugin exLibs {} 4 6 3).2 = false := by decide

example : ∀ p q n, Provides exLibs p n → Provides exLibs q n → p = q := by
  rintro p q n ⟨l, h1, h2⟩ ⟨k, h3, h4⟩
  simp only [exLibs] at h1 h3
  split at h1
  · injection h1 with h1
    subst h1
    split at h3
    · omega
    · split at h3
      · injection h3 with h3
        subst h3
        simp at h2 h4
        omega
      · cases h3
  · split at h1
    · injection h1 with h1
      subst h1
      split at h3
      · injection h3 with h3
        subst h3
        simp at h2 h4
        omega
      · split at h3
        · omega
        · cases h3
    · cases h1

end Verif.Loader
