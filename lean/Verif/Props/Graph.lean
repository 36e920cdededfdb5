import Verif.Model.Graph
import Verif.Props.Plugin
/-
C73: plugins are connected as requested.
-/
namespace Verif.Graph
open Verif.StdMap Verif.Plugin

/-! The specification: who was asked to get the frames of whom, by requests that were acknowledged. -/

abbrev Edges := String → String → Bool

def ask (E : Edges) : Req → Edges
  | .connect a b => fun x y => if x = a ∧ y = b then true else E x y
  | .disconnect a b => fun x y => if x = a ∧ y = b then false else E x y
  | .disconnectAll => fun x y => if y = "frame_receiver" then E x y else false
  | _ => E

/-- The edges asked for in a history, with the outcome of each request. -/
def asked (s : St) (E : Edges) : List Req → Edges
  | [] => E
  | r :: rs =>
    match step s r with
    | .ok s' => asked s' (ask E r) rs
    | .error => asked s E rs
    | .null => E

/-- C73: no request uses a null pointer, and afterwards plugin `a` gets each frame of `b` exactly once if it was
connected and not disconnected since, and not at all otherwise. -/
def C73_statement : Prop := ∀ (rs : List Req),
  ∃ s, run {} rs = some s ∧ ∀ a b, (receivers s b).count (.plugin a) = if asked {} (fun _ _ => false) rs a b then 1 else 0

/-- C73 fails: connecting to a plugin that is not loaded is acknowledged, but has no effect. -/
theorem C73_violated : ¬ C73_statement := by
  intro h
  obtain ⟨s, h1, h2⟩ := h [.load "a" false true, .connect "a" "b", .load "b" false true]
  have h3 := h2 "a" "b"
  have e1 : run {} [.load "a" false true, .connect "a" "b", .load "b" false true] =
    some { plugins := [("a", {}), ("b", {})] } := by decide +kernel
  rw [e1] at h1
  cases h1
  revert h3
  decide +kernel

/-- Disconnecting from the frame receiver before it is configured uses a null pointer. -/
theorem C73_null : run {} [.load "a" false true, .disconnect "a" "frame_receiver"] = none := by decide +kernel

/-- A change of the endpoints silently disconnects every plugin from the frame receiver. -/
theorem C73_setup_drops :
    let rs := [Req.load "a" false true, .setup "x" "y", .connect "a" "frame_receiver", .setup "x" "z"]
    (run {} rs).map (fun s => receivers s "frame_receiver") = some [] ∧
    asked {} (fun _ _ => false) rs "a" "frame_receiver" = true := by decide +kernel

/-- After `disconnect all` a file writer no longer tells the controller about its frames, so that the controller
does not count them any more. -/
theorem C73_uncounted :
    (run {} [.load "hdf" true true]).map (fun s => receivers s "hdf") = some [.controller] ∧
    (run {} [.load "hdf" true true, .disconnectAll]).map (fun s => receivers s "hdf") = some [] := by decide +kernel

/-- A plugin with index `controller` cannot be connected to a file writer, and disconnecting it stops the counting. -/
theorem C73_controller_index :
    (run {} [.load "hdf" true true, .load "controller" false true, .connect "controller" "hdf"]).map
      (fun s => receivers s "hdf") = some [.controller] ∧
    (run {} [.load "hdf" true true, .load "controller" false true, .connect "controller" "hdf",
      .disconnect "controller" "hdf"]).map (fun s => receivers s "hdf") = some [] := by decide +kernel

/-! The invariant -/

structure Node (E : Edges) (b : String) (c : Cbs Target) : Prop where
  oq : Ordered c.queued
  ob : Ordered c.blocking
  bl : c.blocking = [] ∨ c.blocking = [("controller", .controller)]
  q : ∀ a, find c.queued a = if E a b then some (.plugin a) else none

def NodeM (E : Edges) (m : Smc) : Prop :=
  Ordered m.cbs ∧ ∀ a, find m.cbs a = if E a "frame_receiver" then some a else none

structure Inv (s : St) (E : Edges) : Prop where
  o : Ordered s.plugins
  nodes : ∀ b c, find s.plugins b = some c → Node E b c
  smc : ∀ m, s.smc = some m → NodeM E m
  nosmc : s.smc = none → ∀ a, E a "frame_receiver" = false
  src : ∀ a b, E a b = true → b ≠ "frame_receiver" → (find s.plugins b).isSome
  names : ∀ a, (find s.plugins a).isSome → a ≠ "controller" ∧ a ≠ "frame_receiver"
  dst : ∀ a b, E a b = true → (find s.plugins a).isSome

/-- The requests for which the property holds. -/
def Fine (s : St) : Req → Prop
  | .load i _ _ => i ≠ "controller" ∧ i ≠ "frame_receiver"
  | .connect a b => (find s.plugins a).isSome → b = "frame_receiver" ∨ (find s.plugins b).isSome
  | .disconnect _ b => b = "frame_receiver" → s.smc ≠ none
  | .disconnectAll => True
  | .setup x y => s.smc.all (fun m => decide (x = m.release ∧ y = m.ready)) = true

instance (s : St) (r : Req) : Decidable (Fine s r) := by
  cases r <;> simp only [Fine] <;> infer_instance

theorem fresh_node (E : Edges) (b : String) (w : Bool) (h : ∀ a, E a b = false) : Node E b (fresh w) := by
  cases w
  · exact ⟨List.Pairwise.nil, List.Pairwise.nil, Or.inl rfl, fun a => by rw [h a]; rfl⟩
  · exact ⟨List.Pairwise.nil, List.pairwise_singleton _ _, Or.inr rfl, fun a => by rw [h a]; rfl⟩

theorem register_node (E E' : Edges) (b i : String) (c : Cbs Target) (h : Node E b c) (hi : i ≠ "controller")
    (he : ∀ a, E' a b = if a = i then true else E a b) :
    Node E' b (register c i (.plugin i) false).1 := by
  obtain ⟨oq, ob, bl, q⟩ := h
  have hb : find c.blocking i = none := by
    rcases bl with bl | bl <;> rw [bl]
    · rfl
    · simp [find, Ne.symm hi]
  unfold register
  simp only [hb, Bool.false_eq_true, ↓reduceIte, Option.isSome_none]
  by_cases hq : (find c.queued i).isNone
  · rw [if_pos hq]
    refine ⟨ordered_set _ _ _ oq, ob, bl, fun a => ?_⟩
    show find (set c.queued i _) a = _
    rw [find_set _ _ _ _ oq, he]
    by_cases ha : i = a
    · subst ha; simp
    · simp [ha, Ne.symm ha, q a]
  · rw [if_neg hq]
    refine ⟨oq, ob, bl, fun a => ?_⟩
    rw [q, he]
    by_cases ha : a = i
    · subst ha
      rw [q] at hq
      cases hE : E a b
      · simp [hE] at hq
      · simp
    · simp [ha]

theorem remove_node (E E' : Edges) (b i : String) (c : Cbs Target) (h : Node E b c) (hi : i ≠ "controller")
    (he : ∀ a, E' a b = if a = i then false else E a b) : Node E' b (remove c i).1 := by
  obtain ⟨oq, ob, bl, q⟩ := h
  have hb : find c.blocking i = none := by
    rcases bl with bl | bl <;> rw [bl]
    · rfl
    · simp [find, Ne.symm hi]
  unfold remove
  cases hq : find c.queued i with
  | none =>
    simp only [hb]
    refine ⟨oq, ob, bl, fun a => ?_⟩
    rw [q, he]
    by_cases ha : a = i
    · subst ha
      rw [q] at hq
      cases hE : E a b
      · simp
      · simp [hE] at hq
    · simp [ha]
  | some v =>
    refine ⟨ordered_erase _ _ oq, ob, bl, fun a => ?_⟩
    show find (erase c.queued i) a = _
    rw [find_filter, he]
    by_cases ha : i = a
    · subst ha; simp
    · simp [ha, Ne.symm ha, q a]

theorem node_congr {E E' : Edges} {b : String} {c : Cbs Target} (h : Node E b c) (he : ∀ a, E' a b = E a b) :
    Node E' b c :=
  ⟨h.oq, h.ob, h.bl, fun a => by rw [h.q, he]⟩

theorem smc_congr {E E' : Edges} {m : Smc} (h : NodeM E m) (he : ∀ a, E' a "frame_receiver" = E a "frame_receiver") :
    NodeM E' m := ⟨h.1, fun a => by rw [h.2, he]⟩

theorem find_map {α β} (m : Map α) (g : α → β) (k : String) :
    find (m.map (fun x => (x.1, g x.2))) k = (find m k).map g := by
  induction m with
  | nil => rfl
  | cons x m ih =>
    obtain ⟨k1, v⟩ := x
    simp only [List.map_cons, find, ih]
    by_cases h : k1 = k <;> simp [h]

theorem ordered_map {α β} (m : Map α) (g : α → β) (h : Ordered m) : Ordered (m.map (fun x => (x.1, g x.2))) := by
  unfold Ordered
  rw [List.pairwise_map]
  exact h

theorem step_inv (s : St) (E : Edges) (r : Req) (h : Inv s E) (hf : Fine s r) :
    (∃ s', step s r = .ok s' ∧ Inv s' (ask E r)) ∨ step s r = .error := by
  have hI := h
  obtain ⟨o, nodes, smc, nosmc, src, names, dst⟩ := h
  cases r with
  | load i w found =>
    simp only [step, load]
    obtain ⟨hi1, hi2⟩ := hf
    by_cases hn : (find s.plugins i).isNone
    · rw [if_pos hn]
      have hn' : find s.plugins i = none := by simpa using hn
      cases found
      · exact Or.inr rfl
      · refine Or.inl ⟨_, rfl, ?_⟩
        refine ⟨ordered_set _ _ _ o, ?_, smc, nosmc, ?_, ?_, ?_⟩
        · intro b c hb
          replace hb : find (set s.plugins i (fresh w)) b = some c := hb
          rw [find_set _ _ _ _ o] at hb
          split at hb
          · rename_i e
            subst e
            cases hb
            apply fresh_node
            intro a
            show E a i = false
            cases hE : E a i
            · rfl
            · have := src a i hE hi2
              rw [hn'] at this
              cases this
          · exact nodes b c hb
        · intro a b hE hb
          show (find (set s.plugins i (fresh w)) b).isSome
          rw [find_set _ _ _ _ o]
          split
          · rfl
          · exact src a b hE hb
        · intro a ha
          replace ha : (find (set s.plugins i (fresh w)) a).isSome := ha
          rw [find_set _ _ _ _ o] at ha
          split at ha
          · rename_i e; subst e; exact ⟨hi1, hi2⟩
          · exact names a ha
        · intro a b hE
          show (find (set s.plugins i (fresh w)) a).isSome
          rw [find_set _ _ _ _ o]
          split
          · rfl
          · exact dst a b hE
    · rw [if_neg hn]
      exact Or.inl ⟨_, rfl, hI⟩
  | connect i t =>
    simp only [step, connect]
    by_cases hi : (find s.plugins i).isSome
    · rw [if_pos hi]
      replace hf := hf hi
      have hin := names i hi
      by_cases ht : t = "frame_receiver"
      · rw [if_pos ht]
        subst ht
        cases hm : s.smc with
        | none => exact Or.inr rfl
        | some m =>
          refine Or.inl ⟨_, rfl, ⟨o, ?_, ?_, ?_, ?_, names, ?_⟩⟩
          · intro b c hb
            refine node_congr (nodes b c hb) (fun a => ?_)
            have := (names b (by show (find s.plugins b).isSome; rw [hb]; rfl)).2
            simp [ask, this]
          · intro m' hm'
            simp only [Option.some.injEq] at hm'
            subst hm'
            obtain ⟨om, qm⟩ := smc m hm
            unfold Smc.register
            by_cases hq : (find m.cbs i).isNone
            · rw [if_pos hq]
              refine ⟨ordered_set _ _ _ om, fun a => ?_⟩
              show find (set m.cbs i i) a = _
              rw [find_set _ _ _ _ om]
              by_cases ha : i = a
              · subst ha; simp [ask]
              · simp [ask, ha, Ne.symm ha, qm a]
            · rw [if_neg hq]
              refine ⟨om, fun a => ?_⟩
              rw [qm]
              by_cases ha : a = i
              · subst ha
                rw [qm] at hq
                cases hE : E a "frame_receiver"
                · simp [hE] at hq
                · simp [ask]
              · simp [ask, ha]
          · intro hno; cases hno
          · intro a b hE hb
            refine src a b ?_ hb
            simpa [ask, hb] using hE
          · intro a b hE
            by_cases ha : a = i
            · subst ha; exact hi
            · refine dst a b ?_
              simpa [ask, ha] using hE
      · rw [if_neg ht]
        rcases hf with hf | hf
        · exact absurd hf ht
        · cases hc : find s.plugins t with
          | none => rw [hc] at hf; cases hf
          | some c =>
            refine Or.inl ⟨_, rfl, ⟨ordered_set _ _ _ o, ?_, ?_, ?_, ?_, ?_, ?_⟩⟩
            · intro b c' hb
              replace hb : find (set s.plugins t _) b = some c' := hb
              rw [find_set _ _ _ _ o] at hb
              split at hb
              · rename_i e
                subst e
                simp only [Option.some.injEq] at hb
                subst hb
                refine register_node E _ t i c (nodes t c hc) hin.1 (fun a => ?_)
                simp [ask]
              · rename_i e
                refine node_congr (nodes b c' hb) (fun a => ?_)
                simp [ask, Ne.symm e]
            · intro m hm
              refine smc_congr (smc m hm) (fun a => ?_)
              simp [ask, Ne.symm ht]
            · intro hno a
              rw [← nosmc hno a]
              simp [ask, Ne.symm ht]
            · intro a b hE hb
              show (find (set s.plugins t _) b).isSome
              rw [find_set _ _ _ _ o]
              split
              · rfl
              · rename_i e
                refine src a b ?_ hb
                simpa [ask, Ne.symm e] using hE
            · intro a ha
              replace ha : (find (set s.plugins t _) a).isSome := ha
              rw [find_set _ _ _ _ o] at ha
              split at ha
              · rename_i e; subst e; exact names t hf
              · exact names a ha
            · intro a b hE
              show (find (set s.plugins t _) a).isSome
              rw [find_set _ _ _ _ o]
              split
              · rfl
              · by_cases ha : a = i
                · subst ha; exact hi
                · refine dst a b ?_
                  simpa [ask, ha] using hE
    · rw [if_neg hi]
      exact Or.inr rfl
  | disconnect i t =>
    simp only [step, disconnect]
    by_cases hi : (find s.plugins i).isSome
    · rw [if_pos hi]
      have hin := names i hi
      have hsub : ∀ a b, ask E (.disconnect i t) a b = true → E a b = true := by
        intro a b hE
        simp only [ask] at hE
        split at hE
        · cases hE
        · exact hE
      by_cases ht : t = "frame_receiver"
      · rw [if_pos ht]
        subst ht
        cases hm : s.smc with
        | none => exact absurd hm (hf rfl)
        | some m =>
          refine Or.inl ⟨_, rfl, ⟨o, ?_, ?_, ?_, ?_, names, ?_⟩⟩
          · intro b c hb
            refine node_congr (nodes b c hb) (fun a => ?_)
            have := (names b (by show (find s.plugins b).isSome; rw [hb]; rfl)).2
            simp [ask, this]
          · intro m' hm'
            simp only [Option.some.injEq] at hm'
            subst hm'
            obtain ⟨om, qm⟩ := smc m hm
            refine ⟨ordered_erase _ _ om, fun a => ?_⟩
            show find (erase m.cbs i) a = _
            rw [find_filter]
            by_cases ha : i = a
            · subst ha; simp [ask]
            · simp [ask, ha, Ne.symm ha, qm a]
          · intro hno; cases hno
          · exact fun a b hE hb => src a b (hsub a b hE) hb
          · exact fun a b hE => dst a b (hsub a b hE)
      · rw [if_neg ht]
        cases hc : find s.plugins t with
        | none =>
          refine Or.inl ⟨_, rfl, ⟨o, ?_, ?_, ?_, ?_, names, ?_⟩⟩
          · intro b c hb
            refine node_congr (nodes b c hb) (fun a => ?_)
            have : b ≠ t := by rintro rfl; rw [hc] at hb; cases hb
            simp [ask, this]
          · intro m hm
            refine smc_congr (smc m hm) (fun a => ?_)
            simp [ask, Ne.symm ht]
          · intro hno a
            rw [← nosmc hno a]
            simp [ask, Ne.symm ht]
          · exact fun a b hE hb => src a b (hsub a b hE) hb
          · exact fun a b hE => dst a b (hsub a b hE)
        | some c =>
          refine Or.inl ⟨_, rfl, ⟨ordered_set _ _ _ o, ?_, ?_, ?_, ?_, ?_, ?_⟩⟩
          · intro b c' hb
            replace hb : find (set s.plugins t _) b = some c' := hb
            rw [find_set _ _ _ _ o] at hb
            split at hb
            · rename_i e
              subst e
              simp only [Option.some.injEq] at hb
              subst hb
              refine remove_node E _ t i c (nodes t c hc) hin.1 (fun a => ?_)
              simp [ask]
            · rename_i e
              refine node_congr (nodes b c' hb) (fun a => ?_)
              simp [ask, Ne.symm e]
          · intro m hm
            refine smc_congr (smc m hm) (fun a => ?_)
            simp [ask, Ne.symm ht]
          · intro hno a
            rw [← nosmc hno a]
            simp [ask, Ne.symm ht]
          · intro a b hE hb
            show (find (set s.plugins t _) b).isSome
            rw [find_set _ _ _ _ o]
            split
            · rfl
            · exact src a b (hsub a b hE) hb
          · intro a ha
            replace ha : (find (set s.plugins t _) a).isSome := ha
            rw [find_set _ _ _ _ o] at ha
            split at ha
            · rename_i e; subst e; exact names t (by rw [hc]; rfl)
            · exact names a ha
          · intro a b hE
            show (find (set s.plugins t _) a).isSome
            rw [find_set _ _ _ _ o]
            split
            · rfl
            · exact dst a b (hsub a b hE)
    · rw [if_neg hi]
      exact Or.inr rfl
  | disconnectAll =>
    refine Or.inl ⟨_, rfl, ⟨ordered_map _ (fun c => (removeAll c).1) o, ?_, ?_, ?_, ?_, ?_, ?_⟩⟩
    · intro b c hb
      replace hb : find (s.plugins.map (fun x => (x.1, (removeAll x.2).1))) b = some c := hb
      rw [find_map s.plugins (fun c => (removeAll c).1)] at hb
      cases hc : find s.plugins b with
      | none => rw [hc] at hb; cases hb
      | some c' =>
        rw [hc] at hb
        simp only [Option.map_some, Option.some.injEq] at hb
        subst hb
        have := (names b (by rw [hc]; rfl)).2
        exact ⟨List.Pairwise.nil, List.Pairwise.nil, Or.inl rfl, fun a => by simp [ask, this, removeAll, find]⟩
    · intro m hm
      exact smc_congr (smc m hm) (fun a => by simp [ask])
    · intro hno a
      rw [← nosmc hno a]
      simp [ask]
    · intro a b hE hb
      simp [ask, hb] at hE
    · intro a ha
      replace ha : (find (s.plugins.map (fun x => (x.1, (removeAll x.2).1))) a).isSome := ha
      rw [find_map s.plugins (fun c => (removeAll c).1), Option.isSome_map] at ha
      exact names a ha
    · intro a b hE
      show (find (s.plugins.map (fun x => (x.1, (removeAll x.2).1))) a).isSome
      rw [find_map s.plugins (fun c => (removeAll c).1), Option.isSome_map]
      refine dst a b ?_
      simp only [ask] at hE
      split at hE
      · exact hE
      · cases hE
  | setup x y =>
    simp only [step, setup]
    cases hm : s.smc with
    | none =>
      refine Or.inl ⟨_, rfl, ⟨o, nodes, ?_, ?_, src, names, dst⟩⟩
      · intro m hm'
        simp only [Option.some.injEq] at hm'
        subst hm'
        refine ⟨List.Pairwise.nil, fun a => ?_⟩
        have := nosmc hm a
        simp [ask, this, find]
      · intro hno; cases hno
    | some m =>
      obtain ⟨h1, h2⟩ : x = m.release ∧ y = m.ready := by
        simp only [Fine, hm] at hf
        simpa using hf
      have hneg : ¬ (x ≠ m.release ∨ y ≠ m.ready) := by
        rintro (h | h)
        · exact h h1
        · exact h h2
      simp only
      rw [if_neg hneg]
      exact Or.inl ⟨_, rfl, hI⟩

/-- All requests of a history are as above. -/
def AllFine (s : St) : List Req → Prop
  | [] => True
  | r :: rs => Fine s r ∧
    match step s r with
    | .ok s' => AllFine s' rs
    | _ => AllFine s rs

instance decAllFine (s : St) (rs : List Req) : Decidable (AllFine s rs) :=
  match rs with
  | [] => isTrue trivial
  | r :: rs => by
    simp only [AllFine]
    have := fun s' => decAllFine s' rs
    cases step s r <;> infer_instance

theorem count_of_find {β} [DecidableEq β] (m : Map β) (hm : Ordered m) (g : String → β) (hg : ∀ a b, g a = g b → a = b)
    (hv : ∀ k v, find m k = some v → v = g k) (a : String) :
    (m.map (·.2)).count (g a) = if (find m a).isSome then 1 else 0 := by
  induction m with
  | nil => simp [find]
  | cons y m ih =>
    obtain ⟨k, v⟩ := y
    have hv0 := hv k v (by simp [find])
    subst hv0
    have ho := hm
    unfold Ordered at hm
    rw [List.pairwise_cons] at hm
    have hv' : ∀ k v, find m k = some v → v = g k := by
      intro k' v' hk
      refine hv k' v' ?_
      have hmem := find_mem _ _ _ hk
      have hne : k ≠ k' := by
        rintro rfl
        exact String.lt_irrefl k (hm.1 (k, v') hmem)
      simp [find, hne, hk]
    have ih := ih hm.2 hv'
    simp only [List.map_cons, List.count_cons, find]
    by_cases hk : k = a
    · subst hk
      have : find m k = none := by
        apply find_none
        intro x hx e
        have := hm.1 x hx
        simp only [e] at this
        exact String.lt_irrefl _ this
      simp only [this, Option.isSome_none, Bool.false_eq_true, ↓reduceIte] at ih
      simp [ih]
    · have : ¬ g k = g a := fun e => hk (hg _ _ e)
      simp [hk, this, ih]

theorem inv_receivers (s : St) (E : Edges) (h : Inv s E) (a b : String) :
    (receivers s b).count (.plugin a) = if E a b then 1 else 0 := by
  unfold receivers
  by_cases hb : b = "frame_receiver"
  · rw [if_pos hb]
    subst hb
    cases hm : s.smc with
    | none => rw [h.nosmc hm a]; rfl
    | some m =>
      obtain ⟨om, qm⟩ := h.smc m hm
      have hc := count_of_find m.cbs om id (fun _ _ e => e) (fun k v hk => by
        rw [qm] at hk
        split at hk
        · cases hk; rfl
        · cases hk) a
      rw [qm] at hc
      have : (m.cbs.map (fun x => Target.plugin x.2)).count (.plugin a) = (m.cbs.map (·.2)).count a := by
        rw [List.count_eq_countP, List.count_eq_countP, List.countP_map, List.countP_map]
        congr 1
        funext x
        show (Target.plugin x.2 == Target.plugin a) = (x.2 == a)
        by_cases e : x.2 = a
        · rw [e]; simp
        · rw [beq_eq_false_iff_ne.2 e, beq_eq_false_iff_ne.2 (fun h => e (by cases h; rfl))]
      simp only [this]
      rw [show (m.cbs.map (·.2)).count a = _ from hc]
      cases E a "frame_receiver" <;> rfl
  · rw [if_neg hb]
    cases hc : find s.plugins b with
    | none =>
      cases hE : E a b
      · rfl
      · have := h.src a b hE hb
        rw [hc] at this; cases this
    | some c =>
      obtain ⟨oq, ob, bl, q⟩ := h.nodes b c hc
      have hcount := count_of_find c.queued oq Target.plugin (fun _ _ e => by cases e; rfl) (fun k v hk => by
        rw [q] at hk
        split at hk
        · cases hk; rfl
        · cases hk) a
      have e1 : ((push c {}).getD []).map Delivery.cb =
          c.blocking.map (·.2) ++ c.queued.map (·.2) := by
        simp only [push]
        rw [if_neg (by simp)]
        simp only [Option.getD_some, List.map_append, List.map_map]
        rfl
      simp only
      rw [e1, List.count_append, hcount, q]
      have e2 : (c.blocking.map (·.2)).count (.plugin a) = 0 := by
        rcases bl with bl | bl <;> rw [bl]
        · rfl
        · rfl
      rw [e2]
      cases E a b <;> simp

/-- C73, for histories in which plugins are connected to loaded plugins or to the frame receiver, no plugin is
called `controller` or `frame_receiver`, the endpoints of the frame receiver are not changed, and nothing is
disconnected from a frame receiver that is not configured. -/
theorem C73_partial (rs : List Req) (hf : AllFine {} rs) :
    ∃ s, run {} rs = some s ∧
      ∀ a b, (receivers s b).count (.plugin a) = if asked {} (fun _ _ => false) rs a b then 1 else 0 := by
  have key : ∀ (rs : List Req) (s : St) (E : Edges), Inv s E → AllFine s rs →
      ∃ s', run s rs = some s' ∧ Inv s' (asked s E rs) := by
    intro rs
    induction rs with
    | nil => exact fun s E h _ => ⟨s, rfl, h⟩
    | cons r rs ih =>
      intro s E h hf
      rcases step_inv s E r h hf.1 with ⟨s', h1, h2⟩ | h1
      · have hf2 := hf.2
        simp only [h1] at hf2
        obtain ⟨s'', h3, h4⟩ := ih s' _ h2 hf2
        refine ⟨s'', ?_, ?_⟩
        · simp only [run, h1]; exact h3
        · simp only [asked, h1]; exact h4
      · have hf2 := hf.2
        simp only [h1] at hf2
        obtain ⟨s'', h3, h4⟩ := ih s _ h hf2
        refine ⟨s'', ?_, ?_⟩
        · simp only [run, h1]; exact h3
        · simp only [asked, h1]; exact h4
  obtain ⟨s, h1, h2⟩ := key rs {} (fun _ _ => false)
    ⟨List.Pairwise.nil, fun b c h => (by cases h), fun m h => (by cases h), fun _ _ => rfl, fun a b h => (by cases h),
      fun a h => (by cases h), fun a b h => (by cases h)⟩ hf
  exact ⟨s, h1, fun a b => inv_receivers s _ h2 a b⟩

/-- Non-vacuity of the hypothesis, with a diamond of plugins. -/
def diamond : List Req :=
  [.setup "x" "y", .load "a" false true, .load "b" false true, .load "c" false true, .load "hdf" true true,
   .connect "a" "frame_receiver", .connect "b" "a", .connect "c" "a", .connect "hdf" "b", .connect "hdf" "c",
   .connect "hdf" "c", .disconnect "hdf" "b", .setup "x" "y", .connect "nobody" "a"]

example : AllFine {} diamond := by decide +kernel
example : (run {} diamond).map (fun s => (receivers s "a", receivers s "b", receivers s "c", receivers s "hdf")) =
    some ([.plugin "b", .plugin "c"], [], [.plugin "hdf"], [.controller]) := by decide +kernel

/-- C73: a file writer keeps telling the controller about its frames, whatever is requested, unless everything is
disconnected or a plugin with index `controller` is disconnected from it. -/
theorem C73_counted (s s' : St) (r : Req) (b : String) (hs : Ordered s.plugins)
    (h : ∃ c, find s.plugins b = some c ∧ find c.blocking "controller" = some .controller ∧
      find c.queued "controller" = none)
    (hr : step s r = .ok s') (h1 : r ≠ .disconnectAll) (h2 : ∀ t, r ≠ .disconnect "controller" t) :
    ∃ c, find s'.plugins b = some c ∧ find c.blocking "controller" = some .controller ∧
      find c.queued "controller" = none := by
  obtain ⟨c, hc, hb, hq⟩ := h
  cases r with
  | load i w f =>
    simp only [step, load] at hr
    split at hr
    · rename_i hn
      split at hr
      · cases hr
        refine ⟨c, ?_, hb, hq⟩
        show find (set s.plugins i _) b = _
        rw [find_set _ _ _ _ hs, if_neg]
        · exact hc
        · rintro rfl; rw [hc] at hn; cases hn
      · cases hr
    · cases hr; exact ⟨c, hc, hb, hq⟩
  | connect i t =>
    simp only [step, connect] at hr
    split at hr
    · split at hr
      · cases hm : s.smc with
        | none => rw [hm] at hr; cases hr
        | some m => rw [hm] at hr; cases hr; exact ⟨c, hc, hb, hq⟩
      · cases ht : find s.plugins t with
        | none => rw [ht] at hr; cases hr; exact ⟨c, hc, hb, hq⟩
        | some c' =>
          rw [ht] at hr
          simp only [Res.ok.injEq] at hr
          subst hr
          by_cases e : t = b
          · subst e
            rw [hc] at ht
            cases ht
            refine ⟨(register c i (.plugin i) false).1, ?_, ?_⟩
            · show find (set s.plugins t _) t = _
              rw [find_set _ _ _ _ hs, if_pos rfl]
            · unfold register
              simp only [Bool.false_eq_true, ↓reduceIte]
              by_cases hx : (find c.blocking i).isSome
              · rw [if_pos hx]; exact ⟨hb, hq⟩
              · rw [if_neg hx]
                by_cases hy : (find c.queued i).isNone
                · rw [if_pos hy]
                  refine ⟨hb, ?_⟩
                  have hne : i ≠ "controller" := by rintro rfl; rw [hb] at hx; exact hx rfl
                  show find (set c.queued i _) "controller" = none
                  have hset : ∀ (m : Map Target), find m "controller" = none →
                      find (set m i (.plugin i)) "controller" = none := by
                    intro m
                    induction m with
                    | nil => intro _; simp [StdMap.set, find, hne]
                    | cons y m ih =>
                      obtain ⟨k, v⟩ := y
                      intro hf
                      simp only [find] at hf
                      split at hf
                      · cases hf
                      · rename_i hk
                        unfold StdMap.set
                        split
                        · simp [find, hne, hk, hf]
                        · split
                          · simp [find, hne, hf]
                          · simp [find, hk, ih hf]
                  exact hset _ hq
                · rw [if_neg hy]; exact ⟨hb, hq⟩
          · refine ⟨c, ?_, hb, hq⟩
            show find (set s.plugins t _) b = _
            rw [find_set _ _ _ _ hs, if_neg e]
            exact hc
    · cases hr
  | disconnect i t =>
    simp only [step, disconnect] at hr
    have hi : i ≠ "controller" := by rintro rfl; exact h2 t rfl
    split at hr
    · split at hr
      · cases hm : s.smc with
        | none => rw [hm] at hr; cases hr
        | some m => rw [hm] at hr; cases hr; exact ⟨c, hc, hb, hq⟩
      · cases ht : find s.plugins t with
        | none => rw [ht] at hr; cases hr; exact ⟨c, hc, hb, hq⟩
        | some c' =>
          rw [ht] at hr
          simp only [Res.ok.injEq] at hr
          subst hr
          by_cases e : t = b
          · subst e
            rw [hc] at ht
            cases ht
            refine ⟨(remove c i).1, ?_, ?_⟩
            · show find (set s.plugins t _) t = _
              rw [find_set _ _ _ _ hs, if_pos rfl]
            · unfold remove
              cases hx : find c.queued i with
              | some v =>
                refine ⟨hb, ?_⟩
                show find (erase c.queued i) "controller" = none
                rw [find_filter, if_neg hi, hq]
              | none =>
                cases hy : find c.blocking i with
                | none => exact ⟨hb, hq⟩
                | some v =>
                  refine ⟨?_, hq⟩
                  show find (erase c.blocking i) "controller" = _
                  rw [find_filter, if_neg hi, hb]
          · refine ⟨c, ?_, hb, hq⟩
            show find (set s.plugins t _) b = _
            rw [find_set _ _ _ _ hs, if_neg e]
            exact hc
    · cases hr
  | disconnectAll => exact absurd rfl h1
  | setup x y =>
    simp only [step, setup] at hr
    cases hm : s.smc with
    | none => rw [hm] at hr; cases hr; exact ⟨c, hc, hb, hq⟩
    | some m =>
      rw [hm] at hr
      simp only at hr
      split at hr <;> cases hr <;> exact ⟨c, hc, hb, hq⟩

end Verif.Graph
