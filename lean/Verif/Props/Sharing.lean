import Verif.Model.Sharing
import Verif.Props.Chain
/-! Property C130: a plugin processes a frame as it was pushed to it, whatever other plugins got it as well. -/
namespace Verif.Sharing
open Verif.Chain (deliveries tagged feed)

variable {F σ : Type}

/-- C130, full statement: what `t` has processed of the frames of `p` is what `p` has pushed, as it was then. -/
def C130_statement : Prop := ∀ (succ : Nat → List Nat) (kind : Nat → Kind) (max : Nat) (src : List Fr) (as : List Act)
  (s : St Fr Unit), (∀ p, (succ p).Nodup) → exec (netOf succ kind max) (start (netOf succ kind max) src) as = some s →
  ∀ p t, p ≠ 0 ∨ t ≠ 0 → t ∈ succ p → tagged p (s.node t).done <+: (s.node p).pushed

/-- Plugin 1 adjusts offsets, plugin 2 writes files; both are connected to the receiver. -/
def exSucc (p : Nat) : List Nat := if p = 0 then [1, 2] else []
def exKind (p : Nat) : Kind := if p = 1 then .offset 5 else .observer (fun _ => true)

theorem exSucc_nodup (p : Nat) : (exSucc p).Nodup := by
  unfold exSucc; split <;> simp

/-- The offset is adjusted before the file is written, or after it. -/
def exFirst : List Act := [.grab 0, .finish 0, .deliver 0, .deliver 0, .grab 1, .finish 1, .grab 2, .finish 2]
def exLast : List Act := [.grab 0, .finish 0, .deliver 0, .deliver 0, .grab 2, .finish 2, .grab 1, .finish 1]

/-- What the file writer gets depends on which thread is faster: the frame with the offset of the plugin beside it, or
the frame of the receiver. -/
theorem C130_schedule :
    (exec (netOf exSucc exKind 8) (start (netOf exSucc exKind 8) [{}]) exFirst).map (fun s => (s.node 2).done.map (·.2.md.offset)) = some [5] ∧
    (exec (netOf exSucc exKind 8) (start (netOf exSucc exKind 8) [{}]) exLast).map (fun s => (s.node 2).done.map (·.2.md.offset)) = some [0] := by
  decide +kernel

/-- C130 is false of the code: connected plugins get the same object. -/
theorem C130_violated : ¬ C130_statement := by
  intro h
  have hex : (exec (netOf exSucc exKind 8) (start (netOf exSucc exKind 8) [{}]) exFirst).map
      (fun s => (tagged 0 (s.node 2).done, (s.node 0).pushed)) = some ([{ md := { number := 0, offset := 5 } }], [{}]) := by
    decide +kernel
  cases hs : exec (netOf exSucc exKind 8) (start (netOf exSucc exKind 8) [{}]) exFirst with
  | none => rw [hs] at hex; cases hex
  | some s =>
    have := h exSucc exKind 8 [{}] exFirst s exSucc_nodup hs 0 2 (by simp) (by simp [exSucc])
    rw [hs] at hex
    simp only [Option.map_some, Option.some.injEq, Prod.mk.injEq] at hex
    rw [hex.1, hex.2] at this
    revert this
    decide

/-- The two threads work on the same object at the same time, and one of them changes it: a data race. -/
theorem C130_race :
    (exec (netOf exSucc exKind 8) (start (netOf exSucc exKind 8) [{}]) [.grab 0, .finish 0, .deliver 0, .deliver 0, .grab 1, .grab 2]).map
      (fun s => ((s.node 1).cur, (s.node 2).cur, s.heap 0, ((exKind 1).work (s.heap 0)).1.md.offset)) =
      some (some (0, 0), some (0, 0), {}, 5) := by
  decide +kernel

/-- The dummy process plugin beside another one: it blanks lost packets in the frame it is given, in either mode, and
without copying it also replaces what the frame says about itself. -/
def exDummy (copy : Bool) : Nat → Kind := fun p =>
  if p = 0 then .observer (fun _ => true)
  else if p = 1 then .dummy copy (fun l => l.map (fun _ => 0)) (fun f => { f with dataset := "dummy" })
  else .observer (fun _ => true)

theorem C130_dummy :
    (exec (netOf exSucc (exDummy true) 8) (start (netOf exSucc (exDummy true) 8) [{ image := [1, 2] }]) exFirst).map
      (fun s => (s.node 2).done.map (fun x => (x.2.image, x.2.dataset))) = some [([0, 0], "")] ∧
    (exec (netOf exSucc (exDummy false) 8) (start (netOf exSucc (exDummy false) 8) [{ image := [1, 2] }]) exFirst).map
      (fun s => (s.node 2).done.map (fun x => (x.2.image, x.2.dataset))) = some [([0, 0], "dummy")] := by
  decide +kernel

/-! ## The part that holds: nobody changes a frame that others can have -/

namespace Spec

/-- The plugin changes frames it is given. -/
def Modifies (N : Net F σ) (p : Nat) : Prop := ∃ s f, (N.work p s f).2.1 ≠ f
/-- No plugin changes this frame (the end of an acquisition). -/
def Inert (N : Net F σ) (f : F) : Prop := ∀ p s, (N.work p s f).2.1 = f
/-- It passes frames on that could be changed. -/
def Passes (N : Net F σ) (p : Nat) : Prop := ∃ s f, ¬ Inert N f ∧ none ∈ (N.work p s f).2.2

/-- The plugin can be given a frame that another one can have too: it is connected to a plugin with several
connections, or to one that passes such frames on. -/
inductive Shared (N : Net F σ) : Nat → Prop
  | branch (p t : Nat) : t ∈ N.succ p → 2 ≤ (N.succ p).length → Shared N t
  | pass (p t : Nat) : t ∈ N.succ p → Shared N p → Passes N p → Shared N t

/-- No plugin changes such frames, and none pushes the frame it was given twice. -/
structure Disciplined (N : Net F σ) : Prop where
  shared : ∀ p, Shared N p → ¬ Modifies N p
  once : ∀ p s f, ((N.work p s f).2.2.filter Option.isNone).length ≤ 1

end Spec
open Spec

/-- The plugins as functions on frames as values, as in Model/Chain.lean. -/
def val (N : Net F σ) : Chain.Net F σ where
  succ := N.succ
  work p s f := ((N.work p s f).1, values (N.work p s f).2.1 (N.work p s f).2.2)
  init := N.init
  max := N.max + 1

/-- The frames a node has, with the node that processes them next. -/
def items (p : Nat) (x : Node F σ) : List (Nat × Nat) :=
  (x.cur.toList ++ x.queue).map (fun y => (p, y.2)) ++ x.out

def refs (l : List (Nat × Nat)) : List Nat := l.map (·.2)

structure Own (N : Net F σ) (s : St F σ) : Prop where
  old : ∀ p, ∀ x ∈ items p (s.node p), x.2 < s.next
  one : ∀ p, ∀ x ∈ items p (s.node p), ¬ Shared N x.1 → ¬ Inert N (s.heap x.2) →
    (refs (items p (s.node p))).count x.2 = 1 ∧ ∀ q, q ≠ p → ∀ y ∈ items q (s.node q), y.2 ≠ x.2
  idle : ∀ p, (s.node p).cur ≠ none → (s.node p).out = []

theorem setNode_same (n : Nat → Node F σ) (p : Nat) (x : Node F σ) : setNode n p x p = x := by simp [setNode]
theorem setNode_other (n : Nat → Node F σ) (p q : Nat) (x : Node F σ) (h : q ≠ p) : setNode n p x q = n q := by
  simp [setNode, h]

/-! ### New frames -/

theorem alloc_next (r : Nat) (ps : List (Option F)) : ∀ (h : Nat → F) (n : Nat), n ≤ (alloc r ps h n).2.2 := by
  induction ps with
  | nil => intro h n; exact Nat.le_refl n
  | cons o ps ih =>
    intro h n
    cases o with
    | none => exact ih h n
    | some g => exact Nat.le_trans (Nat.le_succ n) (ih _ (n + 1))

theorem alloc_heap (r : Nat) (ps : List (Option F)) : ∀ (h : Nat → F) (n q : Nat), q < n → (alloc r ps h n).2.1 q = h q := by
  induction ps with
  | nil => intro h n q _; rfl
  | cons o ps ih =>
    intro h n q hq
    cases o with
    | none => exact ih h n q hq
    | some g =>
      rw [show (alloc r (some g :: ps) h n).2.1 = (alloc r ps (put h n g) (n + 1)).2.1 from rfl, ih _ _ q (by omega)]
      simp [put, show q ≠ n by omega]

theorem alloc_refs (r : Nat) (ps : List (Option F)) : ∀ (h : Nat → F) (n : Nat), ∀ q ∈ (alloc r ps h n).1,
    (q = r ∧ none ∈ ps) ∨ (n ≤ q ∧ q < (alloc r ps h n).2.2) := by
  induction ps with
  | nil => intro h n q hq; simp [alloc] at hq
  | cons o ps ih =>
    intro h n q hq
    cases o with
    | none =>
      rcases List.mem_cons.1 hq with rfl | hq
      · exact Or.inl ⟨rfl, by simp⟩
      · rcases ih h n q hq with ⟨a, b⟩ | a
        · exact Or.inl ⟨a, by simp [b]⟩
        · exact Or.inr a
    | some g =>
      have hle := alloc_next r ps (put h n g) (n + 1)
      rcases List.mem_cons.1 hq with rfl | hq
      · exact Or.inr ⟨Nat.le_refl _, hle⟩
      · rcases ih _ _ q hq with ⟨a, b⟩ | a
        · exact Or.inl ⟨a, by simp [b]⟩
        · exact Or.inr ⟨by omega, a.2⟩

theorem alloc_values (r : Nat) (ps : List (Option F)) : ∀ (h : Nat → F) (n : Nat), r < n →
    (alloc r ps h n).1.map (alloc r ps h n).2.1 = values (h r) ps := by
  induction ps with
  | nil => intro h n _; rfl
  | cons o ps ih =>
    intro h n hr
    cases o with
    | none =>
      have := ih h n hr
      simp only [alloc, values, List.map_cons, Option.getD_none] at this ⊢
      rw [this, alloc_heap r ps h n r hr]
    | some g =>
      have := ih (put h n g) (n + 1) (by omega)
      simp only [alloc, values, List.map_cons, Option.getD_some] at this ⊢
      rw [this, alloc_heap r ps _ _ n (by omega)]
      simp [put, show r ≠ n by omega]

theorem alloc_count (r : Nat) (ps : List (Option F)) : ∀ (h : Nat → F) (n q : Nat), r < n →
    (alloc r ps h n).1.count q ≤ if q = r then (ps.filter Option.isNone).length else if n ≤ q then 1 else 0 := by
  induction ps with
  | nil => intro h n q _; simp [alloc]
  | cons o ps ih =>
    intro h n q hr
    cases o with
    | none =>
      have := ih h n q hr
      rw [show (alloc r (none :: ps) h n).1 = r :: (alloc r ps h n).1 from rfl, List.count_cons]
      by_cases e : q = r
      · subst e; simp at this ⊢; exact this
      · rw [if_neg e] at this ⊢; simp [Ne.symm e]; exact this
    | some g =>
      have := ih (put h n g) (n + 1) q (by omega)
      rw [show (alloc r (some g :: ps) h n).1 = n :: (alloc r ps (put h n g) (n + 1)).1 from rfl, List.count_cons]
      by_cases e : q = r
      · subst e
        simp only [if_true] at this ⊢
        simp [show n ≠ q by omega]; exact this
      · rw [if_neg e] at this ⊢
        by_cases hq : n = q
        · subst hq; rw [if_neg (by omega)] at this; simp; simpa using this
        · by_cases hl : n ≤ q
          · rw [if_pos (by omega)] at this; rw [if_pos hl]; simp [hq]; exact this
          · rw [if_neg (by omega)] at this; rw [if_neg hl]; simp [hq]; simpa using this

theorem mem_deliveries {ts : List Nat} {gs : List Nat} {x : Nat × Nat} (h : x ∈ deliveries ts gs) : x.1 ∈ ts ∧ x.2 ∈ gs := by
  simp only [deliveries, List.mem_flatMap, List.mem_map] at h
  obtain ⟨g, hg, t, ht, rfl⟩ := h
  exact ⟨ht, hg⟩

theorem deliveries_single (t : Nat) (gs : List Nat) : refs (deliveries [t] gs) = gs := by
  induction gs with
  | nil => rfl
  | cons g gs ih =>
    have : deliveries [t] (g :: gs) = (t, g) :: deliveries [t] gs := rfl
    rw [this]; simp only [refs, List.map_cons] at ih ⊢; rw [ih]

/-! ### The frames of a node after each step -/

theorem items_grab (p : Nat) (x : Node F σ) (f : Nat × Nat) (rest : List (Nat × Nat)) (hc : x.cur = none) (hq : x.queue = f :: rest) :
    items p (x.grab f rest) = items p x := by
  simp [items, Node.grab, hc, hq]

theorem items_finish (p : Nat) (x : Node F σ) (st ts rs sender f gs) :
    items p (x.finish st ts rs sender f gs) = x.queue.map (fun y => (p, y.2)) ++ deliveries ts rs := by
  simp [items, Node.finish]

theorem items_cur (p : Nat) (x : Node F σ) (sender r : Nat) (hc : x.cur = some (sender, r)) (ho : x.out = []) :
    items p x = (p, r) :: x.queue.map (fun y => (p, y.2)) := by
  simp [items, hc, ho]

/-- The frames of the nodes after a delivery: only moved. -/
theorem items_deliver (s : St F σ) (p t r : Nat) (rest : List (Nat × Nat)) (ho : (s.node p).out = (t, r) :: rest) (q : Nat) :
    ∀ c, (refs (items q ((deliver s p t r rest).node q))).count c + (if q = p ∧ c = r then 1 else 0) =
      (refs (items q (s.node q))).count c + (if q = t ∧ c = r then 1 else 0) := by
  intro c
  have key : ∀ (x : Node F σ), (refs (items q x)).count c =
      (x.cur.toList.map (·.2)).count c + (x.queue.map (·.2)).count c + (x.out.map (·.2)).count c := by
    intro x
    simp [items, refs, List.count_append, Function.comp_def, Nat.add_assoc]
  rw [key, key]
  unfold deliver
  dsimp only
  by_cases hqt : q = t
  · subst hqt
    rw [setNode_same]
    by_cases hqp : q = p
    · subst hqp
      rw [setNode_same]
      simp only [Node.got, Node.sent, ho, List.map_append, List.map_cons, List.map_nil, List.count_append, List.count_cons,
        List.count_nil, true_and, beq_iff_eq, eq_comm (a := r)]
      split <;> omega
    · rw [setNode_other _ _ _ _ hqp]
      simp only [Node.got, List.map_append, List.map_cons, List.map_nil, List.count_append, List.count_cons,
        List.count_nil, true_and, beq_iff_eq, eq_comm (a := r), hqp, false_and, if_false]
      split <;> omega
  · rw [setNode_other _ _ _ _ hqt]
    by_cases hqp : q = p
    · subst hqp
      rw [setNode_same]
      simp only [Node.sent, ho, List.map_cons, List.count_cons, true_and, beq_iff_eq, eq_comm (a := r), hqt, false_and, if_false]
      split <;> omega
    · rw [setNode_other _ _ _ _ hqp]
      simp [hqt, hqp]

/-- Membership after a delivery. -/
theorem mem_deliver (s : St F σ) (p t r : Nat) (rest : List (Nat × Nat)) (ho : (s.node p).out = (t, r) :: rest) (q : Nat)
    (x : Nat × Nat) (hx : x ∈ items q ((deliver s p t r rest).node q)) :
    x ∈ items q (s.node q) ∨ (q = t ∧ x = (t, r)) := by
  revert hx
  unfold deliver
  dsimp only
  by_cases hqt : q = t
  · subst hqt
    rw [setNode_same]
    by_cases hqp : q = p
    · subst hqp
      rw [setNode_same]
      simp only [items, Node.got, Node.sent, ho, List.map_append, List.mem_append, List.mem_cons, List.map_cons, List.map_nil,
        List.not_mem_nil, or_false]
      rintro ((h | h | h) | h)
      · exact Or.inl (Or.inl (Or.inl h))
      · exact Or.inl (Or.inl (Or.inr h))
      · exact Or.inr ⟨trivial, h⟩
      · exact Or.inl (Or.inr (Or.inr h))
    · rw [setNode_other _ _ _ _ hqp]
      simp only [items, Node.got, List.map_append, List.mem_append, List.mem_cons, List.map_cons, List.map_nil,
        List.not_mem_nil, or_false]
      rintro ((h | h | h) | h)
      · exact Or.inl (Or.inl (Or.inl h))
      · exact Or.inl (Or.inl (Or.inr h))
      · exact Or.inr ⟨trivial, h⟩
      · exact Or.inl (Or.inr h)
  · rw [setNode_other _ _ _ _ hqt]
    by_cases hqp : q = p
    · subst hqp
      rw [setNode_same]
      simp only [items, Node.sent, ho, List.mem_append, List.mem_cons]
      rintro (h | h)
      · exact Or.inl (Or.inl h)
      · exact Or.inl (Or.inr (Or.inr h))
    · rw [setNode_other _ _ _ _ hqp]
      exact Or.inl

theorem mem_refs {l : List (Nat × Nat)} {x : Nat × Nat} (h : x ∈ l) : x.2 ∈ refs l := List.mem_map_of_mem h

theorem count_pos_of {l : List (Nat × Nat)} {x : Nat × Nat} (h : x ∈ l) : 0 < (refs l).count x.2 :=
  List.count_pos_iff.2 (mem_refs h)

theorem start_own [Inhabited F] (N : Net F σ) (src : List F) : Own N (start N src) := by
  have hi : ∀ p, items p ((start N src).node p) = if p = 0 then (List.range src.length).map (fun i => (0, i)) else [] := by
    intro p
    simp only [items, start, Option.toList, List.nil_append, List.append_nil]
    split
    · rename_i h; subst h; simp [Function.comp_def]
    · rfl
  refine ⟨?_, ?_, fun p h => absurd rfl h⟩
  · intro p x hx
    rw [hi] at hx
    split at hx
    · obtain ⟨i, hm, rfl⟩ := List.mem_map.1 hx
      exact List.mem_range.1 hm
    · cases hx
  · intro p x hx _ _
    rw [hi] at hx ⊢
    split at hx
    · rename_i h0
      rw [if_pos h0]
      obtain ⟨i, hm, rfl⟩ := List.mem_map.1 hx
      refine ⟨?_, ?_⟩
      · have : refs ((List.range src.length).map (fun i => (0, i))) = List.range src.length := by
          simp [refs, Function.comp_def]
        rw [this]
        exact List.nodup_range.count.trans (by simp [List.mem_range.1 hm])
      · intro q hq y hy
        rw [hi, if_neg (by omega)] at hy
        cases hy
    · cases hx

theorem deliver_own {N : Net F σ} {s : St F σ} (h : Own N s) (p t r : Nat) (rest : List (Nat × Nat))
    (ho : (s.node p).out = (t, r) :: rest) : Own N (deliver s p t r rest) := by
  have hmem : (t, r) ∈ items p (s.node p) := by simp [items, ho]
  have hcnt := items_deliver s p t r rest ho
  refine ⟨?_, ?_, ?_⟩
  · intro q x hx
    rcases mem_deliver s p t r rest ho q x hx with hx | ⟨_, rfl⟩
    · exact h.old q x hx
    · exact h.old p _ hmem
  · intro q x hx hn hin
    -- where the frame was before
    have hsrc : ∃ q0, x ∈ items q0 (s.node q0) ∧ (q0 = q ∨ (q0 = p ∧ q = t ∧ x.2 = r)) := by
      rcases mem_deliver s p t r rest ho q x hx with hx | ⟨e, rfl⟩
      · exact ⟨q, hx, Or.inl rfl⟩
      · exact ⟨p, hmem, Or.inr ⟨rfl, e, rfl⟩⟩
    obtain ⟨q0, h0, hq0⟩ := hsrc
    obtain ⟨c1, c2⟩ := h.one q0 x h0 hn hin
    have hzero : ∀ q', q' ≠ q0 → (refs (items q' (s.node q'))).count x.2 = 0 := by
      intro q' hq'
      rw [List.count_eq_zero]
      intro hm
      obtain ⟨y, hy, e⟩ := List.mem_map.1 hm
      exact c2 q' hq' y hy e
    have hpos := count_pos_of hx
    have hp0 : x.2 = r → q0 = p := by
      intro e
      by_cases hh : q0 = p
      · exact hh
      · exact absurd e.symm (c2 p (Ne.symm hh) _ hmem)
    have e1 := hcnt q x.2
    have h1 : (refs (items q ((deliver s p t r rest).node q))).count x.2 = 1 ∧
        ∀ q', q' ≠ q → (refs (items q' ((deliver s p t r rest).node q'))).count x.2 = 0 := by
      by_cases hr : x.2 = r
      · have hqp := hp0 hr
        subst hqp
        have hqt : q = t := by
          by_cases hqt : q = t
          · exact hqt
          · exfalso
            by_cases hqq : q = q0
            · rw [if_pos ⟨hqq, hr⟩, if_neg (fun hh => hqt hh.1)] at e1
              subst hqq; omega
            · rw [hzero q hqq, if_neg (fun hh => hqq hh.1), if_neg (fun hh => hqt hh.1)] at e1
              omega
        subst hqt
        refine ⟨?_, ?_⟩
        · rw [if_pos (show q = q ∧ x.2 = r from ⟨rfl, hr⟩)] at e1
          by_cases hqq : q = q0
          · rw [if_pos ⟨hqq, hr⟩] at e1; subst hqq; omega
          · rw [hzero q hqq, if_neg (fun hh => hqq hh.1)] at e1; omega
        · intro q' hq'
          have e2 := hcnt q' x.2
          rw [if_neg (c := q' = q ∧ x.2 = r) (fun hh => hq' hh.1)] at e2
          by_cases hqq : q' = q0
          · rw [if_pos ⟨hqq, hr⟩] at e2; subst hqq; omega
          · rw [hzero q' hqq, if_neg (fun hh => hqq hh.1)] at e2; omega
      · have hqq : q0 = q := by
          rcases hq0 with hq0 | hq0
          · exact hq0
          · exact absurd hq0.2.2 hr
        subst hqq
        refine ⟨?_, ?_⟩
        · rw [if_neg (fun hh => hr hh.2), if_neg (fun hh => hr hh.2)] at e1; omega
        · intro q' hq'
          have e2 := hcnt q' x.2
          rw [if_neg (fun hh => hr hh.2), if_neg (fun hh => hr hh.2), hzero q' hq'] at e2; omega
    refine ⟨h1.1, ?_⟩
    intro q' hq' y hy e
    have := h1.2 q' hq'
    rw [← e] at this
    have := count_pos_of hy
    omega
  · intro q hc
    revert hc
    unfold deliver
    dsimp only
    by_cases hqt : q = t
    · subst hqt
      rw [setNode_same]
      by_cases hqp : q = p
      · subst hqp
        rw [setNode_same]
        intro hc
        have := h.idle q hc
        rw [ho] at this; cases this
      · rw [setNode_other _ _ _ _ hqp]
        exact h.idle q
    · rw [setNode_other _ _ _ _ hqt]
      by_cases hqp : q = p
      · subst hqp
        rw [setNode_same]
        intro hc
        have := h.idle q hc
        rw [ho] at this; cases this
      · rw [setNode_other _ _ _ _ hqp]
        exact h.idle q

theorem grab_own {N : Net F σ} {s : St F σ} (h : Own N s) (p : Nat) (f : Nat × Nat) (rest : List (Nat × Nat))
    (hc : (s.node p).cur = none) (ho : (s.node p).out = []) (hq : (s.node p).queue = f :: rest) :
    Own N { s with node := setNode s.node p ((s.node p).grab f rest) } := by
  have hi : ∀ q, items q (setNode s.node p ((s.node p).grab f rest) q) = items q (s.node q) := by
    intro q
    by_cases e : q = p
    · subst e; rw [setNode_same]; exact items_grab q _ f rest hc hq
    · rw [setNode_other _ _ _ _ e]
  refine ⟨?_, ?_, ?_⟩
  · intro q x hx
    dsimp only at hx ⊢
    rw [hi] at hx
    exact h.old q x hx
  · intro q x hx hn hin
    dsimp only at hx ⊢
    rw [hi] at hx ⊢
    obtain ⟨a, b⟩ := h.one q x hx hn hin
    exact ⟨a, fun q' hq' y hy => b q' hq' y (by rw [hi] at hy; exact hy)⟩
  · intro q hne
    dsimp only at hne ⊢
    by_cases e : q = p
    · subst e; rw [setNode_same]; exact ho
    · rw [setNode_other _ _ _ _ e] at hne ⊢; exact h.idle q hne

theorem finish_own {N : Net F σ} (hN : Disciplined N) {s : St F σ} (h : Own N s) (p sender r : Nat)
    (hc : (s.node p).cur = some (sender, r)) : Own N (finish N s p sender r) := by
  have ho := h.idle p (by rw [hc]; simp)
  have hitems := items_cur p (s.node p) sender r hc ho
  have hr : r < s.next := h.old p (p, r) (by rw [hitems]; simp)
  unfold finish
  generalize hw : N.work p (s.node p).st (s.heap r) = w
  dsimp only
  have hone : (w.2.2.filter Option.isNone).length ≤ 1 := by rw [← hw]; exact hN.once p _ _
  have hpass : ¬ Inert N (s.heap r) → none ∈ w.2.2 → Passes N p := fun hi hm => ⟨_, _, hi, by rw [hw]; exact hm⟩
  have hinert : ∀ q, q < s.next → ¬ Inert N ((alloc r w.2.2 (put s.heap r w.2.1) s.next).2.1 q) → ¬ Inert N (s.heap q) := by
    intro q hq hi hh
    rw [alloc_heap r _ _ s.next q hq] at hi
    unfold put at hi
    split at hi
    · rename_i e
      subst e
      have := hh p (s.node p).st
      rw [hw] at this
      rw [this] at hi
      exact hi hh
    · exact hi hh
  have ha := alloc_refs r w.2.2 (put s.heap r w.2.1) s.next
  have hcount := fun q => alloc_count r w.2.2 (put s.heap r w.2.1) s.next q hr
  have hnx := alloc_next r w.2.2 (put s.heap r w.2.1) s.next
  generalize alloc r w.2.2 (put s.heap r w.2.1) s.next = a at ha hcount hnx hinert
  have hp : items p (setNode s.node p ((s.node p).finish w.1 (N.succ p) a.1 sender (s.heap r) (values w.2.1 w.2.2)) p) =
      (s.node p).queue.map (fun y => (p, y.2)) ++ deliveries (N.succ p) a.1 := by
    rw [setNode_same]; exact items_finish p _ _ _ _ _ _ _
  have hq : ∀ q, q ≠ p → items q (setNode s.node p ((s.node p).finish w.1 (N.succ p) a.1 sender (s.heap r) (values w.2.1 w.2.2)) q) =
      items q (s.node q) := by
    intro q e; rw [setNode_other _ _ _ _ e]
  -- frames of `p` afterwards were there before or are new
  have hpm : ∀ x ∈ (s.node p).queue.map (fun y => (p, y.2)) ++ deliveries (N.succ p) a.1,
      (∃ y ∈ items p (s.node p), y.2 = x.2) ∨ (s.next ≤ x.2 ∧ x.2 < a.2.2) := by
    intro x hx
    rcases List.mem_append.1 hx with hx | hx
    · exact Or.inl ⟨x, by rw [hitems]; exact List.mem_cons_of_mem _ hx, rfl⟩
    · rcases ha x.2 (mem_deliveries hx).2 with ⟨e, _⟩ | e
      · exact Or.inl ⟨(p, r), by rw [hitems]; simp, e.symm⟩
      · exact Or.inr e
  refine ⟨?_, ?_, ?_⟩
  · intro q x hx
    by_cases e : q = p
    · subst e
      rw [hp] at hx
      rcases hpm x hx with ⟨y, hy, e⟩ | e
      · have := h.old q y hy; rw [← e]; dsimp only; omega
      · exact e.2
    · rw [hq q e] at hx
      have := h.old q x hx
      dsimp only; omega
  · intro q x hx hn hin
    by_cases e : q = p
    · subst e
      dsimp only at hx hin ⊢
      rw [hp] at hx ⊢
      have hothers : ∀ z : Nat, (∀ q', q' ≠ q → ∀ y ∈ items q' (s.node q'), y.2 ≠ z) →
          ∀ q', q' ≠ q → ∀ y ∈ items q' (setNode s.node q ((s.node q).finish w.1 (N.succ q) a.1 sender (s.heap r) (values w.2.1 w.2.2)) q'), y.2 ≠ z := by
        intro z hz q' hq' y hy
        rw [hq q' hq'] at hy
        exact hz q' hq' y hy
      rcases List.mem_append.1 hx with hx | hx
      · have hold : x ∈ items q (s.node q) := by rw [hitems]; exact List.mem_cons_of_mem _ hx
        obtain ⟨c1, c2⟩ := h.one q x hold hn (hinert _ (h.old q x hold) hin)
        refine ⟨?_, hothers _ c2⟩
        have hlt := h.old q x hold
        rw [hitems] at c1
        have hxpos := count_pos_of hx
        simp only [refs, List.map_cons, List.count_cons] at c1
        change List.count x.2 (refs ((s.node q).queue.map (fun y => (q, y.2)))) + _ = 1 at c1
        have hne : x.2 ≠ r := by
          intro e
          rw [e] at c1 hxpos
          simp at c1
          omega
        have hd : (refs (deliveries (N.succ q) a.1)).count x.2 = 0 := by
          rw [List.count_eq_zero]
          intro hm
          obtain ⟨y, hy, e⟩ := List.mem_map.1 hm
          rcases ha y.2 (mem_deliveries hy).2 with ⟨e', _⟩ | e'
          · exact hne (e.symm.trans e')
          · omega
        simp only [refs, List.map_append, List.count_append] at hd ⊢
        rw [hd]
        simp only [Ne.symm hne, beq_iff_eq, if_false, refs] at c1
        omega
      · obtain ⟨d1, d2⟩ := mem_deliveries hx
        have hsucc : N.succ q = [x.1] := by
          cases hs : N.succ q with
          | nil => rw [hs] at d1; cases d1
          | cons b l =>
            cases l with
            | nil => rw [hs] at d1; rw [List.mem_singleton.1 d1]
            | cons b' l => exact absurd (Shared.branch q x.1 d1 (by rw [hs]; simp)) hn
        have hd : refs (deliveries (N.succ q) a.1) = a.1 := by rw [hsucc]; exact deliveries_single x.1 a.1
        have hcnt := hcount x.2
        have hpos : 0 < a.1.count x.2 := List.count_pos_iff.2 d2
        rcases ha x.2 d2 with ⟨e, hnone⟩ | e
        · have hir : ¬ Inert N (s.heap r) := hinert r hr (by rw [← e]; exact hin)
          have hsh : ¬ Shared N q := fun hh => hn (Shared.pass q x.1 d1 hh (hpass hir hnone))
          obtain ⟨c1, c2⟩ := h.one q (q, r) (by rw [hitems]; simp) hsh hir
          refine ⟨?_, hothers x.2 (by rw [e]; exact c2)⟩
          rw [if_pos e] at hcnt
          rw [hitems] at c1
          simp only [refs, List.map_cons, List.count_cons, beq_self_eq_true, if_true] at c1
          simp only [refs, List.map_append, List.count_append] at hd ⊢
          rw [hd, e]
          rw [e] at hcnt hpos
          omega
        · have hz : ∀ q' y, y ∈ items q' (s.node q') → y.2 ≠ x.2 := by
            intro q' y hy hh
            have := h.old q' y hy
            omega
          refine ⟨?_, hothers _ (fun q' _ y hy => hz q' y hy)⟩
          rw [if_neg (by omega), if_pos e.1] at hcnt
          have hz0 : (refs ((s.node q).queue.map (fun y => (q, y.2)))).count x.2 = 0 := by
            rw [List.count_eq_zero]
            intro hm
            obtain ⟨y, hy, e'⟩ := List.mem_map.1 hm
            exact hz q y (by rw [hitems]; exact List.mem_cons_of_mem _ hy) e'
          simp only [refs, List.map_append, List.count_append] at hd hz0 ⊢
          rw [hd, hz0]
          omega
    · dsimp only at hx ⊢
      rw [hq q e] at hx ⊢
      obtain ⟨c1, c2⟩ := h.one q x hx hn (hinert _ (h.old q x hx) hin)
      refine ⟨c1, ?_⟩
      intro q' hq' y hy
      by_cases e' : q' = p
      · subst e'
        rw [hp] at hy
        rcases hpm y hy with ⟨z, hz, ez⟩ | ez
        · rw [← ez]; exact c2 q' hq' z hz
        · have := h.old q x hx; omega
      · rw [hq q' e'] at hy
        exact c2 q' hq' y hy
  · intro q hne
    dsimp only at hne ⊢
    by_cases e : q = p
    · subst e; rw [setNode_same] at hne; exact absurd rfl hne
    · rw [setNode_other _ _ _ _ e] at hne ⊢; exact h.idle q hne

theorem step_own {N : Net F σ} (hN : Disciplined N) {s s' : St F σ} (h : Own N s) (a : Act) (hs : step N s a = some s') :
    Own N s' := by
  cases a with
  | grab p =>
    simp only [step] at hs
    split at hs
    · rename_i f rest h1 h2 h3
      cases hs
      exact grab_own h p _ _ h1 h2 h3
    · cases hs
  | finish p =>
    simp only [step] at hs
    split at hs
    · rename_i h1
      cases hs
      exact finish_own hN h p _ _ h1
    · cases hs
  | deliver p =>
    simp only [step] at hs
    split at hs
    · rename_i h1
      split at hs
      · cases hs
        exact deliver_own h p _ _ _ h1
      · cases hs
    · cases hs

/-! ### The frames behave as values -/

/-- The state with frames as values. -/
def abs (s : St F σ) : Chain.State F σ := fun p =>
  { st := (s.node p).st, queue := ((s.node p).cur.toList ++ (s.node p).queue).map (fun y => (y.1, s.heap y.2)),
    out := (s.node p).out.map (fun y => (y.1, s.heap y.2)), done := (s.node p).done }

theorem start_abs [Inhabited F] (N : Net F σ) (src : List F) : abs (start N src) = Chain.start (val N) src := by
  funext p
  simp only [abs, start, Chain.start, val, Option.toList, List.nil_append, List.map_nil]
  congr 1
  split
  · rw [List.map_map]
    apply List.ext_getElem
    · simp
    · intro i h1 h2
      simp at h1 h2 ⊢
      simp [List.getElem?_eq_getElem h1]
  · rfl

theorem deliveries_map (h : Nat → F) (ts : List Nat) (gs : List Nat) :
    (deliveries ts gs).map (fun y => (y.1, h y.2)) = deliveries ts (gs.map h) := by
  simp [deliveries, List.map_flatMap, List.flatMap_map, Function.comp_def]

theorem step_abs {N : Net F σ} (hN : Disciplined N) {s s' : St F σ} (h : Own N s) (a : Act) (hs : step N s a = some s') :
    abs s' = abs s ∨ Chain.Step (val N) (abs s) (abs s') := by
  cases a with
  | grab p =>
    simp only [step] at hs
    split at hs
    · rename_i f rest h1 h2 h3
      cases hs
      left
      funext q
      simp only [abs]
      by_cases e : q = p
      · subst e; rw [setNode_same]; simp [Node.grab, h1, h3]
      · rw [setNode_other _ _ _ _ e]
    · cases hs
  | finish p =>
    simp only [step] at hs
    split at hs
    · rename_i sender r hc
      cases hs
      right
      have ho := h.idle p (by rw [hc]; simp)
      have hitems := items_cur p (s.node p) sender r hc ho
      have hr : r < s.next := h.old p (p, r) (by rw [hitems]; simp)
      -- the contents of the frames of others, and of those still in the queue, are not changed
      have hkeep : ∀ q, ∀ x ∈ items q (s.node q), (q ≠ p ∨ x ∈ (s.node p).queue.map (fun y => (p, y.2))) →
          (finish N s p sender r).heap x.2 = s.heap x.2 := by
        intro q x hx hor
        unfold finish
        dsimp only
        rw [alloc_heap r _ _ s.next x.2 (h.old q x hx)]
        unfold put
        split
        · rename_i e
          by_cases hm : (N.work p (s.node p).st (s.heap r)).2.1 = s.heap r
          · rw [hm, e]
          · exfalso
            have hsh : ¬ Shared N p := fun hh => hN.shared p hh ⟨_, _, hm⟩
            obtain ⟨c1, c2⟩ := h.one p (p, r) (by rw [hitems]; simp) hsh (fun hh => hm (hh p _))
            rcases hor with hor | hor
            · exact c2 q hor x hx e
            · rw [hitems] at c1
              simp only [refs, List.map_cons, List.count_cons, beq_self_eq_true, if_true] at c1
              have := count_pos_of hor
              simp only [refs] at this
              rw [e] at this
              omega
        · rfl
      have hcurq : (abs s p).queue = (sender, s.heap r) :: (s.node p).queue.map (fun y => (y.1, s.heap y.2)) := by
        simp [abs, hc]
      have hstep := Chain.Step.take (N := val N) (abs s) p (sender, s.heap r)
        ((s.node p).queue.map (fun y => (y.1, s.heap y.2))) (by simp [abs, ho]) hcurq
      have : abs (finish N s p sender r) = Chain.upd (abs s) p ((abs s p).take (val N) p (sender, s.heap r)
          ((s.node p).queue.map (fun y => (y.1, s.heap y.2)))) := by
        funext q
        by_cases e : q = p
        · subst e
          rw [Chain.upd_same]
          have hqk : ∀ y ∈ (s.node q).queue, (finish N s q sender r).heap y.2 = s.heap y.2 := by
            intro y hy
            have hm : (q, y.2) ∈ (s.node q).queue.map (fun y => (q, y.2)) := List.mem_map.2 ⟨y, hy, rfl⟩
            exact hkeep q (q, y.2) (by rw [hitems]; exact List.mem_cons_of_mem _ hm) (Or.inr hm)
          have hout : (alloc r (N.work q (s.node q).st (s.heap r)).2.2 (put s.heap r (N.work q (s.node q).st (s.heap r)).2.1) s.next).1.map
              (finish N s q sender r).heap = values (N.work q (s.node q).st (s.heap r)).2.1 (N.work q (s.node q).st (s.heap r)).2.2 := by
            have := alloc_values r (N.work q (s.node q).st (s.heap r)).2.2 (put s.heap r (N.work q (s.node q).st (s.heap r)).2.1) s.next hr
            rw [show put s.heap r (N.work q (s.node q).st (s.heap r)).2.1 r = (N.work q (s.node q).st (s.heap r)).2.1 by simp [put]] at this
            exact this
          have hnode : (finish N s q sender r).node q = (s.node q).finish (N.work q (s.node q).st (s.heap r)).1 (N.succ q)
              (alloc r (N.work q (s.node q).st (s.heap r)).2.2 (put s.heap r (N.work q (s.node q).st (s.heap r)).2.1) s.next).1 sender (s.heap r)
              (values (N.work q (s.node q).st (s.heap r)).2.1 (N.work q (s.node q).st (s.heap r)).2.2) := by
            unfold finish; dsimp only; rw [setNode_same]
          simp only [abs, hnode, Node.finish, Chain.Node.take, val]
          congr 1
          · simp only [Option.toList, List.nil_append]
            exact List.map_congr_left (fun y hy => by rw [hqk y hy])
          · rw [deliveries_map, hout]
        · rw [Chain.upd_other _ _ _ _ e]
          have hnode : (finish N s p sender r).node q = s.node q := by
            unfold finish; dsimp only; rw [setNode_other _ _ _ _ e]
          simp only [abs, hnode]
          congr 1
          · apply List.map_congr_left
            intro y hy
            rw [hkeep q (q, y.2) (by simp only [items]; exact List.mem_append_left _ (List.mem_map.2 ⟨y, hy, rfl⟩)) (Or.inl e)]
          · apply List.map_congr_left
            intro y hy
            rw [hkeep q y (by simp only [items]; exact List.mem_append_right _ hy) (Or.inl e)]
      rw [this]
      exact hstep
    · cases hs
  | deliver p =>
    simp only [step] at hs
    split at hs
    · rename_i t r rest ho
      split at hs
      · rename_i hroom
        cases hs
        right
        have hstep := Chain.Step.deliver (N := val N) (abs s) p t (s.heap r) (rest.map (fun y => (y.1, s.heap y.2)))
          (by simp [abs, ho]) (by
            rcases hroom with hroom | hroom
            · exact Or.inl hroom
            · right
              simp only [abs, val, List.length_map, List.length_append]
              have : (s.node t).cur.toList.length ≤ 1 := by cases (s.node t).cur <;> simp
              omega)
        have : abs (deliver s p t r rest) = Chain.upd (Chain.upd (abs s) p ((abs s p).sent (rest.map (fun y => (y.1, s.heap y.2))))) t
            ((Chain.upd (abs s) p ((abs s p).sent (rest.map (fun y => (y.1, s.heap y.2)))) t).got (p, s.heap r)) := by
          funext q
          unfold deliver
          by_cases hqt : q = t
          · subst hqt
            rw [Chain.upd_same]
            by_cases hqp : q = p
            · subst hqp
              rw [Chain.upd_same]
              simp [abs, setNode_same, Node.got, Node.sent, Chain.Node.got, Chain.Node.sent]
            · rw [Chain.upd_other _ _ _ _ hqp]
              simp [abs, setNode_same, setNode_other _ _ _ _ hqp, Node.got, Chain.Node.got]
          · rw [Chain.upd_other _ _ _ _ hqt]
            by_cases hqp : q = p
            · subst hqp
              rw [Chain.upd_same]
              simp [abs, setNode_same, setNode_other _ _ _ _ hqt, Node.sent, Chain.Node.sent]
            · rw [Chain.upd_other _ _ _ _ hqp]
              simp [abs, setNode_other _ _ _ _ hqt, setNode_other _ _ _ _ hqp]
        rw [this]
        exact hstep
      · cases hs
    · cases hs

theorem exec_own {N : Net F σ} (hN : Disciplined N) (as : List Act) : ∀ (s s' : St F σ), Own N s → exec N s as = some s' →
    Own N s' := by
  induction as with
  | nil => intro s s' h hs; cases hs; exact h
  | cons a as ih =>
    intro s s' h hs
    simp only [exec] at hs
    cases h1 : step N s a with
    | none => rw [h1] at hs; cases hs
    | some s1 =>
      rw [h1] at hs
      exact ih s1 s' (step_own hN h a h1) hs

theorem exec_abs {N : Net F σ} (hN : Disciplined N) (as : List Act) : ∀ (s s' : St F σ) (s0 : Chain.State F σ), Own N s →
    exec N s as = some s' → (∃ k, Chain.Run (val N) k s0 (abs s)) → ∃ k, Chain.Run (val N) k s0 (abs s') := by
  induction as with
  | nil => intro s s' s0 _ hs hr; cases hs; exact hr
  | cons a as ih =>
    intro s s' s0 h hs hr
    simp only [exec] at hs
    cases h1 : step N s a with
    | none => rw [h1] at hs; cases hs
    | some s1 =>
      rw [h1] at hs
      refine ih s1 s' s0 (step_own hN h a h1) hs ?_
      obtain ⟨k, hk⟩ := hr
      rcases step_abs hN h a h1 with e | e
      · rw [e]; exact ⟨k, hk⟩
      · exact ⟨k + 1, Chain.Run.cons k _ _ _ hk e⟩

/-- C130: if no plugin changes frames that others can have, every run is one with frames as values: C74, C75 and C102,
which are about these, hold of the shared objects. -/
theorem C130_values_partial [Inhabited F] (N : Net F σ) (hN : Disciplined N) (src : List F) (as : List Act) (s : St F σ)
    (h : exec N (start N src) as = some s) : ∃ k, Chain.Run (val N) k (Chain.start (val N) src) (abs s) :=
  exec_abs hN as _ _ _ (start_own N src) h ⟨0, by rw [start_abs]; exact Chain.Run.nil _⟩

/-- What was pushed is what the plugin makes of what it has processed, in every net. -/
def Log (N : Net F σ) (s : St F σ) : Prop := ∀ p,
  ((s.node p).st, (s.node p).pushed) = feed ((val N).work p) (N.init p) ((s.node p).done.map (·.2))

theorem step_log {N : Net F σ} {s s' : St F σ} (h : Log N s) (a : Act) (hs : step N s a = some s') : Log N s' := by
  have keep : ∀ (s' : St F σ), (∀ q, (s'.node q).st = (s.node q).st ∧ (s'.node q).pushed = (s.node q).pushed ∧
      (s'.node q).done = (s.node q).done) → Log N s' := by
    intro s' hk q
    obtain ⟨a, b, c⟩ := hk q
    rw [a, b, c]; exact h q
  cases a with
  | grab p =>
    simp only [step] at hs
    split at hs
    · cases hs
      apply keep
      intro q
      dsimp only
      by_cases e : q = p
      · subst e; rw [setNode_same]; exact ⟨rfl, rfl, rfl⟩
      · rw [setNode_other _ _ _ _ e]; exact ⟨rfl, rfl, rfl⟩
    · cases hs
  | finish p =>
    simp only [step] at hs
    split at hs
    · cases hs
      intro q
      unfold finish
      dsimp only
      by_cases e : q = p
      · subst e
        rw [setNode_same]
        have hq := h q
        simp only [Node.finish, List.map_append, List.map_cons, List.map_nil]
        rw [Chain.feed_snoc, ← hq]
        rfl
      · rw [setNode_other _ _ _ _ e]; exact h q
    · cases hs
  | deliver p =>
    simp only [step] at hs
    split at hs
    · rename_i t r rest ho
      split at hs
      · cases hs
        apply keep
        intro q
        unfold deliver
        dsimp only
        by_cases hqt : q = t
        · rw [hqt, setNode_same]
          refine ⟨?_, ?_, ?_⟩ <;> simp only [Node.got, setNode] <;> split <;> simp_all [Node.sent]
        · rw [setNode_other _ _ _ _ hqt]
          refine ⟨?_, ?_, ?_⟩ <;> simp only [setNode] <;> split <;> simp_all [Node.sent]
      · cases hs
    · cases hs

theorem exec_log {N : Net F σ} (as : List Act) : ∀ (s s' : St F σ), Log N s → exec N s as = some s' → Log N s' := by
  induction as with
  | nil => intro s s' h hs; cases hs; exact h
  | cons a as ih =>
    intro s s' h hs
    simp only [exec] at hs
    cases h1 : step N s a with
    | none => rw [h1] at hs; cases hs
    | some s1 =>
      rw [h1] at hs
      exact ih s1 s' (step_log h a h1) hs

/-- C130, the part that holds, for any plugins: if no plugin changes frames that others can have, a plugin processes
frames as they were pushed; and all of them, when everything is done. Missing: nets in which a plugin that changes
frames is connected beside another one (`C130_violated`). -/
theorem C130_partial [Inhabited F] (N : Net F σ) (hN : Disciplined N) (hn : ∀ p, (N.succ p).Nodup) (src : List F) (as : List Act)
    (s : St F σ) (h : exec N (start N src) as = some s) (p t : Nat) (hpt : p ≠ 0 ∨ t ≠ 0) (ht : t ∈ N.succ p) :
    tagged p (s.node t).done <+: (s.node p).pushed ∧
    ((s.node t).cur = none → (s.node t).queue = [] → (s.node p).out = [] → tagged p (s.node t).done = (s.node p).pushed) := by
  obtain ⟨k, hk⟩ := C130_values_partial N hN src as s h
  have h1 := Chain.C74 (val N) hn src k (abs s) hk p t hpt
  rw [if_pos (show t ∈ (val N).succ p from ht)] at h1
  have h2 := exec_log (N := N) as _ s (fun q => rfl) h p
  have h3 : (s.node p).pushed = (feed ((val N).work p) (N.init p) ((s.node p).done.map (·.2))).2 := congrArg (·.2) h2
  have e1 : (abs s t).done = (s.node t).done := rfl
  have e2 : (abs s p).done = (s.node p).done := rfl
  rw [e1, e2, Chain.tagged_append, show (val N).init p = N.init p from rfl, ← h3] at h1
  refine ⟨⟨_, by rw [← h1, List.append_assoc]⟩, ?_⟩
  intro hc hq ho
  rw [← h1]
  simp [abs, hc, hq, ho, tagged]

/-- C130: and while such a plugin changes a frame nobody else has it. -/
theorem C130_exclusive_partial [Inhabited F] (N : Net F σ) (hN : Disciplined N) (src : List F) (as : List Act) (s : St F σ)
    (h : exec N (start N src) as = some s) (p sender r : Nat) (hc : (s.node p).cur = some (sender, r))
    (hm : (N.work p (s.node p).st (s.heap r)).2.1 ≠ s.heap r) (q : Nat) (hq : q ≠ p) :
    (∀ x, (s.node q).cur = some x → x.2 ≠ r) ∧ (∀ x ∈ (s.node q).queue, x.2 ≠ r) ∧ (∀ x ∈ (s.node q).out, x.2 ≠ r) := by
  have hO := exec_own hN as _ _ (start_own N src) h
  have hitems := items_cur p (s.node p) sender r hc (hO.idle p (by rw [hc]; simp))
  obtain ⟨_, c2⟩ := hO.one p (p, r) (by rw [hitems]; simp) (fun hh => hN.shared p hh ⟨_, _, hm⟩) (fun hh => hm (hh p _))
  refine ⟨?_, ?_, ?_⟩
  · intro x hx
    exact c2 q hq (q, x.2) (by simp [items, hx])
  · intro x hx
    exact c2 q hq (q, x.2) (by simp only [items]; exact List.mem_append_left _ (List.mem_map.2 ⟨x, by simp [hx], rfl⟩))
  · intro x hx
    exact c2 q hq x (by simp only [items]; exact List.mem_append_right _ hx)

/-! ### The plugins of the repository -/

namespace Spec

/-- The plugin only reads the frames it is given: file writer, live view, Kafka, Blosc, gap fill. -/
def Reader : Kind → Prop
  | .observer _ => True
  | .derived _ => True
  | _ => False

/-- The frames it pushes are new: Blosc, gap fill, the dummy plugin when it copies. -/
def Copier : Kind → Prop
  | .derived _ => True
  | .dummy true _ _ => True
  | _ => False

/-- On the way from some plugin with several connections to `t` no plugin copies frames. -/
inductive BesideOthers (succ : Nat → List Nat) (kind : Nat → Kind) : Nat → Prop
  | branch (p t : Nat) : t ∈ succ p → 2 ≤ (succ p).length → BesideOthers succ kind t
  | pass (p t : Nat) : t ∈ succ p → BesideOthers succ kind p → ¬ Copier (kind p) → BesideOthers succ kind t

end Spec

theorem eoa_inert (succ : Nat → List Nat) (kind : Nat → Kind) (max : Nat) (f : Fr) (h : f.eoa = true) :
    Inert (netOf succ kind max) f := by
  intro p s
  simp [netOf, Kind.work, h]

theorem kinds_disciplined (succ : Nat → List Nat) (kind : Nat → Kind) (max : Nat)
    (h : ∀ t, BesideOthers succ kind t → Reader (kind t)) : Disciplined (netOf succ kind max) := by
  have hpass : ∀ p, Passes (netOf succ kind max) p → ¬ Copier (kind p) := by
    intro p ⟨s, f, hi, hm⟩ hc
    have he : ¬ f.eoa = true := fun he => hi (eoa_inert succ kind max f he)
    simp only [netOf, Kind.work, if_neg he] at hm
    cases hk : kind p with
    | derived g => rw [hk] at hm; cases hg : g f <;> simp [hg] at hm
    | dummy c b o =>
      rw [hk] at hm hc
      cases c with
      | true => simp at hm
      | false => exact hc
    | _ => rw [hk] at hc; exact hc
  have hsh : ∀ t, Shared (netOf succ kind max) t → BesideOthers succ kind t := by
    intro t ht
    induction ht with
    | branch p t h1 h2 => exact .branch p t h1 h2
    | pass p t h1 _ h3 ih => exact .pass p t h1 ih (hpass p h3)
  refine ⟨?_, ?_⟩
  · intro p hp ⟨s, f, hm⟩
    have hr := h p (hsh p hp)
    apply hm
    simp only [netOf, Kind.work]
    split
    · rfl
    · cases hk : kind p with
      | observer k => rfl
      | derived g => rfl
      | _ => rw [hk] at hr; exact hr.elim
  · intro p s f
    simp only [netOf, Kind.work]
    split
    · simp
    · cases kind p with
      | observer k => dsimp only; split <;> simp
      | derived g => dsimp only; cases g f <;> simp
      | dummy c b o => dsimp only; split <;> simp
      | _ => simp

/-- C130 for the plugins of the repository: it holds if every plugin that gets frames which others get as well only reads
them, that is, if sum, offset, parameter and dummy plugins are connected alone, or behind a plugin that copies. -/
theorem C130_kinds_partial (succ : Nat → List Nat) (kind : Nat → Kind) (max : Nat)
    (h : ∀ t, BesideOthers succ kind t → Reader (kind t)) (hn : ∀ p, (succ p).Nodup) (src : List Fr) (as : List Act)
    (s : St Fr Unit) (he : exec (netOf succ kind max) (start (netOf succ kind max) src) as = some s) (p t : Nat)
    (hpt : p ≠ 0 ∨ t ≠ 0) (ht : t ∈ succ p) : tagged p (s.node t).done <+: (s.node p).pushed :=
  (C130_partial _ (kinds_disciplined succ kind max h) hn src as s he p t hpt ht).1

/-- Non-vacuity: receiver → offset → {Blosc → sum → writer, writer}. -/
def okSucc (p : Nat) : List Nat := if p = 0 then [1] else if p = 1 then [2, 3] else if p = 2 then [4] else if p = 4 then [5] else []
def okKind (p : Nat) : Kind :=
  if p = 1 then .offset 5 else if p = 2 then .derived (fun f => some { f with image := f.image.take 1 })
  else if p = 4 then .sum "sum" List.sum else .observer (fun _ => true)

theorem okBeside (t : Nat) (h : BesideOthers okSucc okKind t) : t = 2 ∨ t = 3 := by
  have mem : ∀ p t, t ∈ okSucc p → (p = 0 ∧ t = 1) ∨ (p = 1 ∧ (t = 2 ∨ t = 3)) ∨ (p = 2 ∧ t = 4) ∨ (p = 4 ∧ t = 5) := by
    intro p t
    unfold okSucc
    split
    · simp; omega
    · split
      · simp; omega
      · split
        · simp; omega
        · split
          · simp; omega
          · simp
  induction h with
  | branch p t h1 h2 =>
    rcases mem p t h1 with ⟨rfl, _⟩ | ⟨rfl, h⟩ | ⟨rfl, _⟩ | ⟨rfl, _⟩
    · simp [okSucc] at h2
    · exact h
    · simp [okSucc] at h2
    · simp [okSucc] at h2
  | pass p t h1 _ h3 ih =>
    rcases ih with rfl | rfl
    · exact absurd trivial h3
    · rcases mem 3 t h1 with ⟨h, _⟩ | ⟨h, _⟩ | ⟨h, _⟩ | ⟨h, _⟩ <;> omega

example : (∀ t, BesideOthers okSucc okKind t → Reader (okKind t)) ∧ (∀ p, (okSucc p).Nodup) ∧
    (exec (netOf okSucc okKind 8) (start (netOf okSucc okKind 8) [{ image := [7, 8] }])
      [.grab 0, .finish 0, .deliver 0, .grab 1, .finish 1, .deliver 1, .deliver 1, .grab 2, .finish 2, .deliver 2,
       .grab 4, .finish 4, .deliver 4, .grab 5, .finish 5, .grab 3, .finish 3]).map
      (fun s => ((s.node 5).done.map (fun x => (x.2.image, x.2.md)), (s.node 3).done.map (fun x => (x.2.image, x.2.md)))) =
      some ([([7], { number := 0, offset := 5, params := [("sum", .u64 7)] })], [([7, 8], { number := 0, offset := 5 })]) := by
  refine ⟨?_, ?_, by decide +kernel⟩
  · intro t ht
    rcases okBeside t ht with rfl | rfl <;> trivial
  · intro p
    unfold okSucc
    repeat' split
    all_goals simp

end Verif.Sharing
