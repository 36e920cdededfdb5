import Verif.Model.HalfConfig
import Verif.Props.PluginConfig
/-
C109 after messages that were refused half-way.
-/
namespace Verif.HalfConfig
open Verif.Ipc Verif.PluginConfig

/-- States of the parameter adjustment plugin reached by any messages, accepted or refused. -/
inductive ReachAny : Adjust → Prop
  | new : ReachAny {}
  | msg (s : Adjust) (j : Json) : ReachAny s → ReachAny (run adjust s j).1

theorem setKey_nodup {α : Type} (l : List (Str × α)) (k : Str) (v : α) (h : (l.map (·.1)).Nodup) : ((setKey l k v).map (·.1)).Nodup := by
  rw [setKey_keys]
  split
  · exact h
  · next hk =>
    rw [List.nodup_append]
    refine ⟨h, by simp, fun x hx y hy e => ?_⟩
    rw [List.mem_singleton] at hy
    subst hy e
    exact hk hx

theorem setKey_has {α : Type} (l : List (Str × α)) (k : Str) (v : α) (x : Str) :
    x ∈ (setKey l k v).map (·.1) ↔ x ∈ l.map (·.1) ∨ x = k := by
  rw [setKey_keys]
  split
  · next hk =>
    constructor
    · exact Or.inl
    · rintro (h | h)
      · exact h
      · rw [h]; exact hk
  · simp only [List.mem_append, List.mem_singleton]

theorem loose_new : Adjust.Loose {} := by
  refine ⟨?_, ?_, ?_, ?_⟩
  · intro k hk; simp at hk
  · simp
  · simp
  · intro x hx; simp at hx

theorem loose_one (s : Adjust) (k : Str) (sub : Json) (h : s.Loose) : (adjustOne s k sub).1.Loose := by
  unfold adjustOne
  cases ha : (getParam (some sub) "adjustment".toList).bind asInt64 with
  | none => exact h
  | some a =>
    have h1 : ∀ x ∈ setKey s.adjustments k a, isInt64 x.2 := by
      intro x hx
      rcases setKey_mem _ _ _ _ hx with hx | hx
      · exact h.range x hx
      · rw [hx]
        obtain ⟨z, _, hz⟩ := Option.bind_eq_some_iff.1 ha
        exact asInt64_range z a hz
    show (input { s with adjustments := setKey s.adjustments k a } k sub).1.Loose
    unfold input
    cases field sub "input".toList Json.asStr with
    | none => exact ⟨fun x hx => (setKey_has _ _ _ _).2 (Or.inl (h.keys x hx)), setKey_nodup _ _ _ h.nodup, h.inodup, h1⟩
    | some i =>
      refine ⟨fun x hx => ?_, setKey_nodup _ _ _ h.nodup, setKey_nodup _ _ _ h.inodup, h1⟩
      rcases (setKey_has _ _ _ _).1 hx with hx | hx
      · exact (setKey_has _ _ _ _).2 (Or.inl (h.keys x hx))
      · exact (setKey_has _ _ _ _).2 (Or.inr hx)

theorem loose_all (j : Json) (l : List Str) (s : Adjust) (h : s.Loose) : (adjustAll j l s).1.Loose := by
  induction l generalizing s with
  | nil => exact h
  | cons k l ih =>
    unfold adjustAll
    cases getParam (some j) k with
    | none => exact h
    | some sub =>
      have h1 := loose_one s k sub h
      dsimp only
      cases ho : (adjustOne s k sub).2 with
      | ok => exact ih _ h1
      | refused => exact h1
      | ub => exact h1

theorem loose_run (s : Adjust) (j : Json) (h : s.Loose) : (run adjust s j).1.Loose := by
  have he : ∀ v, (parameters s v).1.Loose := by
    intro v
    cases v with
    | obj l =>
      show (if l = [] then (({} : Adjust), Out.ok) else adjustAll (.obj l) (l.map (·.1)) s).1.Loose
      split
      · exact loose_new
      · exact loose_all _ _ _ h
    | _ => exact h
  have hg : (Stage.enter { name := "parameter".toList, given := parameters } s j).1.Loose := by
    unfold Stage.enter
    cases hasParam (some j) "parameter".toList with
    | none => exact h
    | some b =>
      cases b with
      | false => exact h
      | true =>
        show (Stage.value _ s (getParam (some j) "parameter".toList)).1.Loose
        cases getParam (some j) "parameter".toList with
        | none => exact h
        | some v => exact he v
  unfold adjust
  show (match (Stage.enter { name := "parameter".toList, given := parameters } s j).2 with
    | .ok => run [] (Stage.enter { name := "parameter".toList, given := parameters } s j).1 j
    | o => ((Stage.enter { name := "parameter".toList, given := parameters } s j).1, o)).1.Loose
  cases (Stage.enter { name := "parameter".toList, given := parameters } s j).2 with
  | ok => exact hg
  | refused => exact hg
  | ub => exact hg

theorem loose_any (s : Adjust) (h : ReachAny s) : s.Loose := by
  induction h with
  | new => exact loose_new
  | msg s j _ ih => exact loose_run s j ih

/-- Whatever messages came, also such that were refused half-way: a new plugin configured with the report makes the same
adjustments of the same inputs, if no parameter has a slash in its name. -/
theorem C109_half (s : Adjust) (h : ReachAny s) (hs : ∀ x ∈ s.adjustments, '/' ∉ x.1) (n : Str) (hn : Name n) :
    (reply n s.report).2 = .ok ∧ ∃ t, restore Adjust.configure {} n (reply n s.report).1 = some t ∧ t.Alike s := by
  obtain ⟨h1, t, h2, h3⟩ := adjust_restored s (loose_any s h) hs n hn
  refine ⟨h1, t, h2, fun k => ⟨(h3 k).1, ?_⟩⟩
  rw [(h3 k).2]
  cases ha : look s.adjustments k with
  | some a => rfl
  | none =>
    cases hb : look s.inputs k with
    | none => rfl
    | some b =>
      obtain ⟨v, hv⟩ := (look_mem _ _).2 ((loose_any s h).keys k ((look_mem _ _).1 ⟨b, hb⟩))
      rw [ha] at hv
      cases hv

/-- The input is refused when the adjustment has been made. -/
def refusedInput : Json :=
  .obj [("parameter".toList, .obj [("uid".toList, .obj [("adjustment".toList, .num 1), ("input".toList, .num 2)])])]

/-- Such a state is not one that an accepted configuration leaves, and the members of the restored plugin are not the same; what it does
to frames is. -/
theorem C109_half_members : (run adjust {} refusedInput) = ({ adjustments := [("uid".toList, 1)] }, .refused) ∧
    restore Adjust.configure {} "adjust".toList (reply "adjust".toList (Adjust.report { adjustments := [("uid".toList, 1)] })).1 =
      some { adjustments := [("uid".toList, 1)], inputs := [("uid".toList, [])] } := by
  decide +kernel

example : ∃ t, restore Adjust.configure {} "adjust".toList (reply "adjust".toList (Adjust.report (run adjust {} refusedInput).1)).1 = some t ∧
    t.Alike (run adjust {} refusedInput).1 :=
  (C109_half _ (.msg _ _ .new) (by decide +kernel) "adjust".toList ⟨Verif.Reply.plain_of _ (by decide +kernel), by decide +kernel⟩).2

end Verif.HalfConfig
