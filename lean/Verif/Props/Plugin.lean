import Verif.Model.Plugin
import Verif.Lemmas.StdMap
/-
C45: each frame pushed by a plugin reaches every connected plugin once.
C51: the error log is duplicate free and complete.
-/
namespace Verif.Plugin
open Verif.StdMap

theorem find_filter {α} (m : Map α) (k k' : String) :
    find (erase m k) k' = if k = k' then none else find m k' := by
  induction m with
  | nil => simp [erase, find]
  | cons y m ih =>
    obtain ⟨k1, v1⟩ := y
    simp only [erase] at ih
    simp only [erase, List.filter_cons]
    by_cases h1 : k1 = k
    · subst h1
      simp only [ne_eq, not_true, decide_false, Bool.false_eq_true, ↓reduceIte, ih, find]
      by_cases h2 : k1 = k' <;> simp [h2]
    · have h1' : (decide ((k1, v1).1 ≠ k)) = true := by simpa using h1
      rw [if_pos h1']
      simp only [find, ih]
      by_cases h2 : k1 = k'
      · subst h2
        simp [Ne.symm h1]
      · simp [h2]

theorem ordered_erase {α} (m : Map α) (k : String) (h : Ordered m) : Ordered (erase m k) :=
  List.Pairwise.filter _ h

/-! The specification: for each name the callback connected under it, and whether it is called directly.
A name that is connected stays as it is until it is removed. -/

inductive Op (α : Type)
  | reg (name : String) (cb : α) (blk : Bool)
  | rem (name : String)
  | remAll

def spec {α} (f : String → Option (α × Bool)) : Op α → String → Option (α × Bool)
  | .reg n cb blk => fun k => if n = k ∧ f k = none then some (cb, blk) else f k
  | .rem n => fun k => if n = k then none else f k
  | .remAll => fun _ => none

def specs {α} (ops : List (Op α)) : String → Option (α × Bool) := ops.foldl spec (fun _ => none)

def step {α} (c : Cbs α) : Op α → Cbs α
  | .reg n cb blk => (register c n cb blk).1
  | .rem n => (remove c n).1
  | .remAll => (removeAll c).1

def runOps {α} (ops : List (Op α)) : Cbs α := ops.foldl step {}

/-- The name is found in exactly the map that fits. -/
structure Agree {α} (c : Cbs α) (f : String → Option (α × Bool)) : Prop where
  oq : Ordered c.queued
  ob : Ordered c.blocking
  q : ∀ k, find c.queued k = match f k with | some (cb, false) => some cb | _ => none
  b : ∀ k, find c.blocking k = match f k with | some (cb, true) => some cb | _ => none

theorem agree_step {α} (c : Cbs α) (f : String → Option (α × Bool)) (o : Op α) (h : Agree c f) :
    Agree (step c o) (spec f o) := by
  obtain ⟨oq, ob, q, b⟩ := h
  cases o with
  | reg n cb blk =>
    simp only [step, register]
    have hq := q n
    have hb := b n
    cases blk <;> cases hf : f n with
    | none =>
      simp only [hf] at hq hb
      simp only [hq, hb]
      first
      | refine ⟨ordered_set _ _ _ oq, ob, fun k => ?_, fun k => ?_⟩
        · show find (set c.queued n cb) k = _
          rw [find_set _ _ _ _ oq]
          by_cases hk : n = k
          · subst hk; simp [spec, hf]
          · simp [spec, hk, q k]
        · show find c.blocking k = _
          by_cases hk : n = k
          · subst hk; simp [spec, hf, hb]
          · simp [spec, hk, b k]
      | refine ⟨oq, ordered_set _ _ _ ob, fun k => ?_, fun k => ?_⟩
        · show find c.queued k = _
          by_cases hk : n = k
          · subst hk; simp [spec, hf, hq]
          · simp [spec, hk, q k]
        · show find (set c.blocking n cb) k = _
          rw [find_set _ _ _ _ ob]
          by_cases hk : n = k
          · subst hk; simp [spec, hf]
          · simp [spec, hk, b k]
    | some v =>
      have hs : ∀ blk, spec f (.reg n cb blk) = f := by
        intro blk
        funext k
        simp only [spec]
        split
        · rename_i h; rw [h.1] at hf; rw [hf] at h; cases h.2
        · rfl
      first
      | rw [hs]
        obtain ⟨v, w⟩ := v
        cases w <;> simp only [hf] at hq hb <;> simp only [hq, hb] <;> exact ⟨oq, ob, q, b⟩
  | rem n =>
    simp only [step, remove]
    have hq := q n
    have hb := b n
    cases hf : f n with
    | none =>
      simp only [hf] at hq hb
      simp only [hq, hb]
      have hs : spec f (.rem n) = f := by
        funext k
        simp only [spec]
        split
        · rename_i h; rw [← h, hf]
        · rfl
      rw [hs]; exact ⟨oq, ob, q, b⟩
    | some v =>
      obtain ⟨v, w⟩ := v
      cases w
      · simp only [hf] at hq hb
        simp only [hq]
        refine ⟨ordered_erase _ _ oq, ob, fun k => ?_, fun k => ?_⟩
        · show find (erase c.queued n) k = _
          rw [find_filter]
          by_cases hk : n = k <;> simp [spec, hk, q k]
        · show find c.blocking k = _
          by_cases hk : n = k
          · subst hk; simp [spec, hb]
          · simp [spec, hk, b k]
      · simp only [hf] at hq hb
        simp only [hq, hb]
        refine ⟨oq, ordered_erase _ _ ob, fun k => ?_, fun k => ?_⟩
        · show find c.queued k = _
          by_cases hk : n = k
          · subst hk; simp [spec, hq]
          · simp [spec, hk, q k]
        · show find (erase c.blocking n) k = _
          rw [find_filter]
          by_cases hk : n = k <;> simp [spec, hk, b k]
  | remAll =>
    exact ⟨List.Pairwise.nil, List.Pairwise.nil, fun k => rfl, fun k => rfl⟩

theorem agree_run {α} (ops : List (Op α)) : Agree (runOps ops) (specs ops) := by
  unfold runOps specs
  have : ∀ (c : Cbs α) (f : String → Option (α × Bool)), Agree c f →
      Agree (ops.foldl step c) (ops.foldl spec f) := by
    induction ops with
    | nil => exact fun c f h => h
    | cons o os ih => exact fun c f h => ih _ _ (agree_step c f o h)
  exact this _ _ ⟨List.Pairwise.nil, List.Pairwise.nil, fun k => rfl, fun k => rfl⟩

/-- The name under which a delivery is made. -/
def Delivery.name {α} : Delivery α → String
  | .call n _ => n
  | .enqueue n _ => n

theorem names_nodup {α} {m : Map α} (h : Ordered m) : (m.map (·.1)).Nodup := by
  induction m with
  | nil => simp
  | cons y m ih =>
    unfold Ordered at h
    rw [List.pairwise_cons] at h
    simp only [List.map_cons, List.nodup_cons]
    refine ⟨?_, ih h.2⟩
    intro hm
    obtain ⟨x, hx, he⟩ := List.mem_map.1 hm
    have := h.1 x hx
    rw [he] at this
    exact String.lt_irrefl _ this

/-- C45: after any history of registrations and removals a frame that may be pushed is delivered to exactly
the callbacks connected, in the way they were connected, and once under each name; those called directly
come first. -/
theorem C45_push {α} (ops : List (Op α)) (f : Frame) (hf : f.eoa = true ∨ f.valid = true) :
    ∃ ds, push (runOps ops) f = some ds ∧
      (∀ n cb, .call n cb ∈ ds ↔ specs ops n = some (cb, true)) ∧
      (∀ n cb, .enqueue n cb ∈ ds ↔ specs ops n = some (cb, false)) ∧
      (ds.map Delivery.name).Nodup ∧
      (∃ l r, ds = l ++ r ∧ (∀ d ∈ l, ∃ n cb, d = .call n cb) ∧ (∀ d ∈ r, ∃ n cb, d = .enqueue n cb)) := by
  obtain ⟨oq, ob, q, b⟩ := agree_run ops
  have hmem : ∀ (m : Map α), Ordered m → ∀ n cb, (n, cb) ∈ m ↔ find m n = some cb :=
    fun m ho n cb => ⟨mem_find m n cb ho, find_mem m n cb⟩
  refine ⟨_, if_neg ?_, ?_, ?_, ?_, ?_⟩
  · rintro ⟨h1, h2⟩
    rcases hf with hf | hf
    · rw [hf] at h1; cases h1
    · rw [hf] at h2; cases h2
  · intro n cb
    have : Delivery.call n cb ∈ (runOps ops).blocking.map (fun x => Delivery.call x.1 x.2) ++
        (runOps ops).queued.map (fun x => Delivery.enqueue x.1 x.2) ↔ (n, cb) ∈ (runOps ops).blocking := by
      simp
    rw [this, hmem _ ob, b n]
    cases specs ops n with
    | none => simp
    | some v => obtain ⟨v, w⟩ := v; cases w <;> simp
  · intro n cb
    have : Delivery.enqueue n cb ∈ (runOps ops).blocking.map (fun x => Delivery.call x.1 x.2) ++
        (runOps ops).queued.map (fun x => Delivery.enqueue x.1 x.2) ↔ (n, cb) ∈ (runOps ops).queued := by
      simp
    rw [this, hmem _ oq, q n]
    cases specs ops n with
    | none => simp
    | some v => obtain ⟨v, w⟩ := v; cases w <;> simp
  · have : ((runOps ops).blocking.map (fun x => Delivery.call x.1 x.2) ++
        (runOps ops).queued.map (fun x => Delivery.enqueue x.1 x.2)).map Delivery.name =
        (runOps ops).blocking.map (·.1) ++ (runOps ops).queued.map (·.1) := by
      rw [List.map_append, List.map_map, List.map_map]
      rfl
    rw [this, List.nodup_append]
    refine ⟨names_nodup ob, names_nodup oq, ?_⟩
    intro n hn n' hn' e
    subst e
    obtain ⟨⟨n1, v1⟩, h1, rfl⟩ := List.mem_map.1 hn
    obtain ⟨⟨n2, v2⟩, h2, e2⟩ := List.mem_map.1 hn'
    simp only at e2
    subst e2
    have h1 := (hmem _ ob _ _).1 h1
    have h2 := (hmem _ oq _ _).1 h2
    rw [b] at h1
    rw [q] at h2
    cases hs : specs ops n2 with
    | none => simp [hs] at h1
    | some v => obtain ⟨v, w⟩ := v; cases w <;> simp [hs] at h1 h2
  · refine ⟨_, _, rfl, ?_, ?_⟩
    · intro d hd
      obtain ⟨x, _, rfl⟩ := List.mem_map.1 hd
      exact ⟨_, _, rfl⟩
    · intro d hd
      obtain ⟨x, _, rfl⟩ := List.mem_map.1 hd
      exact ⟨_, _, rfl⟩

example : push (runOps [.reg "b" 2 false, .reg "a" 1 false, .reg "b" 3 true, .reg "c" 4 true, .rem "a"]) {} =
    some [.call "c" 4, .enqueue "b" 2] := by decide +kernel

/-- C45: an invalid frame is refused and reaches nobody. -/
theorem C45_invalid {α} (c : Cbs α) (f : Frame) :
    (push c f = none ↔ (f.eoa = false ∧ f.valid = false)) ∧
    (∀ n, pushTo c n f = none ↔ (f.eoa = false ∧ f.valid = false)) := by
  unfold push pushTo
  constructor
  · split <;> simp_all
  · intro n; split <;> simp_all

/-- C45: a frame pushed to a name reaches exactly the callback connected under it, once. -/
theorem C45_push_to {α} (ops : List (Op α)) (n : String) (f : Frame) (hf : f.eoa = true ∨ f.valid = true) :
    pushTo (runOps ops) n f = some (match specs ops n with
      | none => []
      | some (cb, true) => [.call n cb]
      | some (cb, false) => [.enqueue n cb]) := by
  obtain ⟨_, _, q, b⟩ := agree_run ops
  unfold pushTo
  rw [if_neg]
  · rw [q n, b n]
    cases specs ops n with
    | none => rfl
    | some v => obtain ⟨v, w⟩ := v; cases w <;> rfl
  · rintro ⟨h1, h2⟩
    rcases hf with hf | hf
    · rw [hf] at h1; cases h1
    · rw [hf] at h2; cases h2

/-- C45: the base class passes the end of an acquisition on to every callback connected, whatever its meta data say, and
leaves all other frames to the plugin. -/
theorem C45_end {α} (c : Cbs α) (f : Frame) :
    (f.eoa = true → callback f = (.endOfAcquisition, some f) ∧
      push c f = some (c.blocking.map (fun x => .call x.1 x.2) ++ c.queued.map (fun x => .enqueue x.1 x.2))) ∧
    (f.eoa = false → callback f = (.processFrame, none)) := by
  unfold callback push
  cases f.eoa <;> simp

/-- C45: registering again changes nothing, and after a removal nothing is delivered under the name. -/
theorem C45_again {α} (ops : List (Op α)) (n : String) (cb cb' : α) (blk blk' : Bool) :
    specs (ops ++ [.reg n cb blk, .reg n cb' blk']) = specs (ops ++ [.reg n cb blk]) ∧
    specs (ops ++ [.rem n]) n = none := by
  unfold specs
  simp only [List.foldl_append, List.foldl_cons, List.foldl_nil]
  constructor
  · funext k
    simp only [spec]
    by_cases hk : n = k
    · subst hk
      by_cases h : ops.foldl spec (fun _ => none) n = none <;> simp [h]
    · simp [hk]
  · simp [spec]

/-- C45: registrations and removals are confirmed to the callback concerned, and only if they take place. -/
theorem C45_confirm {α} (ops : List (Op α)) (n : String) (cb : α) (blk : Bool) :
    (register (runOps ops) n cb blk).2 = (if specs ops n = none then some cb else none) ∧
    (remove (runOps ops) n).2 = (specs ops n).map (·.1) ∧
    (∀ x, x ∈ (removeAll (runOps ops)).2 ↔ ∃ m w, specs ops m = some (x, w)) := by
  obtain ⟨oq, ob, q, b⟩ := agree_run ops
  refine ⟨?_, ?_, ?_⟩
  · have hq := q n
    have hb := b n
    unfold register
    cases hs : specs ops n with
    | none => simp only [hs] at hq hb; cases blk <;> simp [hq, hb]
    | some v =>
      obtain ⟨v, w⟩ := v
      simp only [hs] at hq hb
      cases w <;> simp only at hq hb <;> cases blk <;> simp [hq, hb]
  · have hq := q n
    have hb := b n
    unfold remove
    cases hs : specs ops n with
    | none => simp only [hs] at hq hb; simp [hq, hb]
    | some v =>
      obtain ⟨v, w⟩ := v
      simp only [hs] at hq hb
      cases w <;> simp only at hq hb <;> simp [hq, hb]
  · intro x
    simp only [removeAll, List.mem_append, List.mem_map]
    constructor
    · rintro (⟨⟨m, y⟩, hm, rfl⟩ | ⟨⟨m, y⟩, hm, rfl⟩)
      · have := mem_find _ _ _ ob hm
        rw [b] at this
        refine ⟨m, true, ?_⟩
        cases hs : specs ops m with
        | none => simp [hs] at this
        | some v => obtain ⟨v, w⟩ := v; cases w <;> simp_all
      · have := mem_find _ _ _ oq hm
        rw [q] at this
        refine ⟨m, false, ?_⟩
        cases hs : specs ops m with
        | none => simp [hs] at this
        | some v => obtain ⟨v, w⟩ := v; cases w <;> simp_all
    · rintro ⟨m, w, hs⟩
      cases w
      · right
        exact ⟨(m, x), find_mem _ _ _ (by rw [q, hs]), rfl⟩
      · left
        exact ⟨(m, x), find_mem _ _ _ (by rw [b, hs]), rfl⟩

/-! C51 -/

/-- The specification: the first occurrences in a list of messages, in order. -/
def firsts : List String → List String
  | [] => []
  | x :: l => x :: (firsts l).filter (fun y => y ≠ x)

/-- The errors (or warnings) reported since the last clear. -/
def since (sel : LogOp → Option String) : List LogOp → List String
  | [] => []
  | o :: os => if os.contains .clear then since sel os
      else if o = .clear then os.filterMap sel else (o :: os).filterMap sel

def isError : LogOp → Option String
  | .error m => some m
  | _ => none

def isWarning : LogOp → Option String
  | .warning m => some m
  | _ => none

theorem firsts_mem (l : List String) (x : String) : x ∈ firsts l ↔ x ∈ l := by
  induction l with
  | nil => simp [firsts]
  | cons y l ih =>
    simp only [firsts, List.mem_cons, List.mem_filter, ih]
    by_cases h : x = y <;> simp [h]

theorem firsts_nodup (l : List String) : (firsts l).Nodup := by
  induction l with
  | nil => simp [firsts]
  | cons y l ih =>
    simp only [firsts, List.nodup_cons]
    exact ⟨by simp, ih.filter _⟩

theorem firsts_snoc (l : List String) (m : String) : firsts (l ++ [m]) = add (firsts l) m := by
  induction l with
  | nil => simp [firsts, add]
  | cons y l ih =>
    simp only [List.cons_append, firsts, ih]
    unfold add
    by_cases h1 : m ∈ firsts l
    · have : (firsts l).any (fun x => m == x) = true := by simpa using h1
      rw [if_pos this]
      by_cases h2 : m = y
      · simp [h2]
      · rw [if_pos]
        simp [h2, h1]
    · have : ¬ (firsts l).any (fun x => m == x) = true := by simpa using h1
      rw [if_neg this, List.filter_append]
      by_cases h2 : m = y
      · subst h2; simp
      · have h3 : [m].filter (fun z => decide (z ≠ y)) = [m] := by simp [h2]
        rw [h3, if_neg]
        · simp
        · simp [h2, h1]

theorem since_snoc (sel : LogOp → Option String) (os : List LogOp) (o : LogOp) :
    since sel (os ++ [o]) = if o = .clear then [] else since sel os ++ (sel o).toList := by
  induction os with
  | nil =>
    by_cases h : o = .clear
    · subst h; simp [since]
    · simp only [List.nil_append, since, List.contains_nil, Bool.false_eq_true, ↓reduceIte, if_neg h]
      cases hm : sel o <;> simp [hm]
  | cons p os ih =>
    simp only [List.cons_append, since]
    by_cases h : o = .clear
    · subst h
      simp only [↓reduceIte] at ih ⊢
      simp [ih]
    · rw [if_neg h] at ih ⊢
      have hc : (os ++ [o]).contains .clear = os.contains .clear := by
        rw [List.contains_eq_mem, List.contains_eq_mem]
        simp [Ne.symm h]
      rw [hc]
      split
      · exact ih
      · split
        · rw [List.filterMap_append]
          cases hm : sel o <;> simp [hm]
        · rw [← List.cons_append, List.filterMap_append]
          cases hm : sel o <;> simp [hm]

/-- C51: the log is exactly the list of the different errors (and warnings) reported since the last clear, in
the order of their first occurrence. -/
theorem C51_log (ops : List LogOp) : (ops.foldl logStep {}) =
    { errors := firsts (since isError ops), warnings := firsts (since isWarning ops) } := by
  have hrev : ∀ (n : Nat) (ops : List LogOp), ops.length = n → (ops.foldl logStep {}) =
      { errors := firsts (since isError ops), warnings := firsts (since isWarning ops) } := by
    intro n
    induction n with
    | zero => intro ops h; have := List.length_eq_zero_iff.1 h; subst this; rfl
    | succ n ih =>
      intro ops h
      obtain ⟨os, o, rfl⟩ : ∃ os o, ops = os ++ [o] := by
        refine ⟨ops.dropLast, ops.getLast (by rintro rfl; cases h), ?_⟩
        exact (List.dropLast_concat_getLast _).symm
      simp only [List.length_append, List.length_cons, List.length_nil] at h
      rw [List.foldl_append, ih os (by omega), since_snoc, since_snoc]
      cases o with
      | error m => simp [logStep, isError, isWarning, firsts_snoc]
      | warning m => simp [logStep, isError, isWarning, firsts_snoc]
      | clear => simp [logStep, firsts]
  exact hrev _ ops rfl

/-- C51: each error reported since the last clear is listed, exactly once, and nothing else. -/
theorem C51_once (ops : List LogOp) (m : String) :
    ((ops.foldl logStep {}).errors.Nodup ∧ (m ∈ (ops.foldl logStep {}).errors ↔ m ∈ since isError ops)) ∧
    ((ops.foldl logStep {}).warnings.Nodup ∧ (m ∈ (ops.foldl logStep {}).warnings ↔ m ∈ since isWarning ops)) := by
  rw [C51_log]
  exact ⟨⟨firsts_nodup _, firsts_mem _ _⟩, ⟨firsts_nodup _, firsts_mem _ _⟩⟩

example : [LogOp.error "x", .clear, .error "a", .error "b", .warning "a", .error "a", .error "c"].foldl logStep {} =
    { errors := ["a", "b", "c"], warnings := ["a"] } := by decide +kernel
example : firsts ["a", "b", "a", "c", "b"] = ["a", "b", "c"] := by decide +kernel

end Verif.Plugin
