import Verif.Model.HalfConfig
/-
C184: a configuration that is refused leaves the plugin as it was.
-/
namespace Verif.HalfConfig
open Verif.Ipc Verif.PluginConfig

/-- Refused configurations change nothing, and none is undefined. -/
def Atomic {σ : Type} (configure : σ → Json → σ × Out) : Prop :=
  ∀ s j, (configure s j).2 ≠ .ub ∧ ((configure s j).2 = .refused → (configure s j).1 = s)

/-- The full claim, for the seven plugins with parameters of their own other than the file writer. -/
def C184_statement : Prop :=
  Atomic (run offset) ∧ Atomic (run dummy) ∧ Atomic (run blosc) ∧ (∀ debug, Atomic (run (gapFill debug))) ∧ (∀ ok, Atomic (run (kafka ok))) ∧
    (∀ ok, Atomic (run (live ok))) ∧ Atomic (run adjust)

/-! ## The two models agree -/

/-- The result as in `Verif.PluginConfig`. -/
def accepted {σ : Type} (r : σ × Out) : Option σ := match r.2 with
  | .ok => some r.1
  | _ => none

theorem accepted_iff {σ : Type} (r : σ × Out) (t : σ) : accepted r = some t ↔ r = (t, .ok) := by
  obtain ⟨s, o⟩ := r
  cases o <;> simp [accepted]

theorem run_cons {σ : Type} (g : Stage σ) (gs : List (Stage σ)) (s : σ) (j : Json) :
    accepted (run (g :: gs) s j) = (accepted (g.enter s j)).bind fun s => accepted (run gs s j) := by
  show accepted (match (g.enter s j).2 with
    | .ok => run gs (g.enter s j).1 j
    | o => ((g.enter s j).1, o)) = _
  cases h : (g.enter s j).2 <;> simp [accepted, h]

theorem enter_gen {α σ : Type} (g : Stage σ) (conv : Json → Option α) (f : σ → α → σ) (s : σ) (j : Json) (ha : g.absent = id)
    (hg : ∀ v, accepted (g.given s v) = (conv v).map (f s)) : accepted (g.enter s j) = upd s f (field j g.name conv) := by
  unfold Stage.enter field
  cases hasParam (some j) g.name with
  | none => rfl
  | some b =>
    cases b with
    | false => dsimp only; rw [ha]; rfl
    | true =>
      dsimp only
      cases getParam (some j) g.name with
      | none => rfl
      | some v =>
        have := hg v
        dsimp only [Stage.value, Option.bind_some]
        rw [this]
        cases conv v <;> simp [upd]

theorem enter_plain {α σ : Type} (n : Str) (conv : Json → Option α) (f : σ → α → σ) (s : σ) (j : Json) :
    accepted ((plain n conv f).enter s j) = upd s f (field j n conv) := by
  refine enter_gen (plain n conv f) conv f s j rfl fun v => ?_
  show accepted (store f s (conv v)) = _
  cases conv v <;> rfl

theorem run_nil {σ : Type} (s : σ) (j : Json) : accepted (run ([] : List (Stage σ)) s j) = some s := rfl

theorem bind_self {σ : Type} (x : Option σ) : (x.bind fun s => some s) = x := by cases x <;> rfl

theorem agrees_offset (s : Offset) (j : Json) : accepted (run offset s j) = s.configure j := by
  simp only [offset, run_cons, enter_plain, run_nil, bind_self]
  rfl

theorem agrees_dummy (s : Dummy) (j : Json) : accepted (run dummy s j) = s.configure j := by
  simp only [dummy, run_cons, enter_plain, run_nil, bind_self]
  rfl

theorem agrees_blosc (s : Blosc) (j : Json) : accepted (run blosc s j) = s.configure j := by
  simp only [blosc, run_cons, enter_plain, run_nil, bind_self]
  rfl

theorem filled_ok (l : List Json) : (if allInts l = false then none else some (filled l)) = l.mapM Json.asInt := by
  induction l with
  | nil => rfl
  | cons v l ih =>
    rw [List.mapM_cons, ← ih]
    have e : allInts (v :: l) = (v.asInt.isSome && allInts l) := rfl
    have e2 : filled (v :: l) = (match v.asInt with
      | some i => i :: filled l
      | none => 0 :: l.map fun _ => 0) := rfl
    rw [e, e2]
    cases h : v.asInt with
    | none => simp
    | some i => by_cases ha : allInts l = false <;> simp [ha]

theorem enter_vector {σ : Type} (n : Str) (set : σ → List Int → σ) (s : σ) (j : Json) :
    accepted (Stage.enter { name := n, given := vector false set } s j) = upd s set (field j n asInts) := by
  refine enter_gen { name := n, given := vector false set } asInts set s j rfl fun v => ?_
  cases v with
  | arr l =>
    show accepted (set s (filled l), readArray false l) = (l.mapM Json.asInt).map (set s)
    rw [← filled_ok]
    unfold readArray
    by_cases ha : allInts l = false
    · rw [if_pos ha, if_pos ha]; rfl
    · rw [if_neg ha, if_neg ha]; rfl
  | _ => rfl

theorem agrees_gap (s : PluginConfig.GapFill) (j : Json) : accepted (run (gapFill false) s j) = s.configure j := by
  simp only [gapFill, run_cons, enter_vector, run_nil, bind_self]
  rfl

theorem enter_servers (ok : Str → Bool) (s : Kafka) (j : Json) :
    accepted (Stage.enter { name := "servers".toList, given := servers ok } s j) = upd s (Kafka.setServers ok) (field j "servers".toList Json.asStr) := by
  refine enter_gen { name := "servers".toList, given := servers ok } Json.asStr (Kafka.setServers ok) s j rfl fun v => ?_
  show accepted (store (Kafka.setServers ok) { s with producer := false, used := none } v.asStr) = _
  cases v.asStr with
  | none => rfl
  | some t =>
    show some (Kafka.setServers ok { s with producer := false, used := none } t) = some (Kafka.setServers ok s t)
    unfold Kafka.setServers
    split <;> rfl

theorem agrees_kafka (ok : Str → Bool) (s : Kafka) (j : Json) : accepted (run (kafka ok) s j) = s.configure ok j := by
  simp only [kafka, run_cons, enter_plain, enter_servers, run_nil, bind_self]
  rfl

theorem enter_address (ok : Str → Bool) (s : Live) (j : Json) :
    accepted (Stage.enter { name := "live_view_socket_addr".toList, given := fun s v => store (fun s v => s.address ok (some v)) s v.asStr, absent := fun s => s.address ok none } s j) =
      (field j "live_view_socket_addr".toList Json.asStr).map (s.address ok) := by
  unfold Stage.enter field
  dsimp only
  cases hasParam (some j) "live_view_socket_addr".toList with
  | none => rfl
  | some b =>
    cases b with
    | false => rfl
    | true =>
      dsimp only
      cases getParam (some j) "live_view_socket_addr".toList with
      | none => rfl
      | some v =>
        dsimp only [Stage.value, Option.bind_some]
        cases v.asStr <;> rfl

theorem agrees_live (ok : Str → Bool) (s : Live) (j : Json) : accepted (run (live ok) s j) = s.configure ok j := by
  simp only [live, run_cons, enter_plain, enter_address, run_nil, bind_self]
  rfl

theorem agrees_one (s : Adjust) (k : Str) (sub : Json) : accepted (adjustOne s k sub) = s.one k sub := by
  unfold adjustOne Adjust.one
  cases (getParam (some sub) "adjustment".toList).bind asInt64 with
  | none => rfl
  | some a =>
    dsimp only
    unfold input
    cases field sub "input".toList Json.asStr <;> rfl

theorem agrees_all (j : Json) (l : List Str) (s : Adjust) : accepted (adjustAll j l s) = s.all j l := by
  induction l generalizing s with
  | nil => rfl
  | cons k l ih =>
    unfold adjustAll Adjust.all
    cases getParam (some j) k with
    | none => rfl
    | some sub =>
      dsimp only
      rw [← agrees_one]
      cases h : (adjustOne s k sub).2 with
      | ok => simp [accepted, h, ← ih]
      | refused => simp [accepted, h]
      | ub => simp [accepted, h]

theorem agrees_adjust (s : Adjust) (j : Json) : accepted (run adjust s j) = s.configure j := by
  rw [adjust, run_cons]
  simp only [run_nil, bind_self]
  unfold Stage.enter Adjust.configure
  dsimp only
  cases hasParam (some j) "parameter".toList with
  | none => rfl
  | some b =>
    cases b with
    | false => rfl
    | true =>
      dsimp only
      cases getParam (some j) "parameter".toList with
      | none => rfl
      | some v =>
        cases v with
        | obj l =>
          show accepted (if l = [] then (({} : Adjust), Out.ok) else adjustAll (.obj l) (l.map (·.1)) s) = if l = [] then some {} else s.all (.obj l) (l.map (·.1))
          split
          · rfl
          · exact agrees_all _ _ _
        | _ => rfl

/-- An accepted configuration does what C108 to C112 say of it, for each of the plugins. -/
theorem C184_accepted (okS okA : Str → Bool) (o : Offset) (d : Dummy) (b : Blosc) (g : PluginConfig.GapFill) (k : Kafka) (v : Live) (a : Adjust) (j : Json) :
    accepted (run offset o j) = o.configure j ∧ accepted (run dummy d j) = d.configure j ∧ accepted (run blosc b j) = b.configure j ∧
    accepted (run (gapFill false) g j) = g.configure j ∧ accepted (run (kafka okS) k j) = k.configure okS j ∧
    accepted (run (live okA) v j) = v.configure okA j ∧ accepted (run adjust a j) = a.configure j :=
  ⟨agrees_offset o j, agrees_dummy d j, agrees_blosc b j, agrees_gap g j, agrees_kafka okS k j, agrees_live okA v j, agrees_adjust a j⟩

/-! ## What is left behind -/

/-- What was set before the exception stays: a configuration is refused by one parameter, after all before it have been taken over. -/
theorem C184_exactly {σ : Type} (gs : List (Stage σ)) (s : σ) (j : Json) (h : (run gs s j).2 ≠ .ok) :
    ∃ pre g post u, gs = pre ++ g :: post ∧ run pre s j = (u, .ok) ∧ g.enter u j = run gs s j := by
  induction gs generalizing s with
  | nil => exact absurd rfl h
  | cons g gs ih =>
    unfold run at h
    cases ho : (g.enter s j).2 with
    | ok =>
      rw [ho] at h
      obtain ⟨pre, g', post, u, e1, e2, e3⟩ := ih _ h
      refine ⟨g :: pre, g', post, u, by rw [e1]; rfl, ?_, ?_⟩
      · unfold run; rw [ho]; exact e2
      · rw [e3]; conv => rhs; unfold run
        rw [ho]
    | refused => exact ⟨[], g, gs, s, rfl, rfl, by unfold run; rw [ho]; exact Prod.ext rfl ho⟩
    | ub => exact ⟨[], g, gs, s, rfl, rfl, by unfold run; rw [ho]; exact Prod.ext rfl ho⟩

/-- The parameters of a plugin that the message has, or may have. -/
def Sole {σ : Type} (gs : List (Stage σ)) (j : Json) : Prop :=
  ∀ g ∈ gs, ∀ h ∈ gs, hasParam (some j) g.name ≠ some false → hasParam (some j) h.name ≠ some false → g.name = h.name

/-- A parameter that is refused changes nothing. -/
def Clean {σ : Type} (g : Stage σ) : Prop := ∀ s v, (g.given s v).2 ≠ .ok → (g.given s v).1 = s

theorem clean_plain {α σ : Type} (n : Str) (conv : Json → Option α) (f : σ → α → σ) : Clean (plain n conv f) := by
  intro s v h
  change (store f s (conv v)).2 ≠ .ok at h
  change (store f s (conv v)).1 = s
  cases e : conv v with
  | none => rfl
  | some a => rw [e] at h; exact absurd rfl h

theorem enter_clean {σ : Type} (g : Stage σ) (hg : Clean g) (s : σ) (j : Json) (h : (g.enter s j).2 ≠ .ok) :
    (g.enter s j).1 = s ∧ hasParam (some j) g.name ≠ some false := by
  unfold Stage.enter at h ⊢
  cases hp : hasParam (some j) g.name with
  | none => exact ⟨rfl, by simp⟩
  | some b =>
    rw [hp] at h
    cases b with
    | false => exact absurd rfl h
    | true =>
      refine ⟨?_, by simp⟩
      dsimp only at h ⊢
      cases hv : getParam (some j) g.name with
      | none => rfl
      | some v => rw [hv] at h; exact hg s v h

theorem run_absent {σ : Type} (gs : List (Stage σ)) (s : σ) (j : Json) (h : ∀ g ∈ gs, hasParam (some j) g.name = some false ∧ g.absent = id) :
    run gs s j = (s, .ok) := by
  induction gs generalizing s with
  | nil => rfl
  | cons g gs ih =>
    have he : g.enter s j = (s, .ok) := by
      unfold Stage.enter
      rw [(h g (by simp)).1, (h g (by simp)).2]
      rfl
    unfold run
    rw [he]
    exact ih s fun g' hg => h g' (by simp [hg])

/-- A message with one parameter of the plugin is taken over or changes nothing, if each of the parameters is. -/
theorem sole_atomic {σ : Type} (gs : List (Stage σ)) (hn : (gs.map Stage.name).Nodup) (ha : ∀ g ∈ gs.dropLast, g.absent = id) (hc : ∀ g ∈ gs, Clean g)
    (s : σ) (j : Json) (hs : Sole gs j) (h : (run gs s j).2 ≠ .ok) : (run gs s j).1 = s := by
  obtain ⟨pre, g, post, u, e1, e2, e3⟩ := C184_exactly gs s j h
  subst e1
  have hg : g ∈ pre ++ g :: post := by simp
  rw [← e3] at h ⊢
  obtain ⟨c1, c2⟩ := enter_clean g (hc g hg) u j h
  have : run pre s j = (s, .ok) := by
    refine run_absent pre s j fun p hp => ⟨?_, ha p ?_⟩
    · cases hq : hasParam (some j) p.name with
      | none => exact absurd (hs p (by simp [hp]) g hg (by rw [hq]; simp) c2) (by
          rw [List.map_append, List.map_cons] at hn
          have := (List.nodup_append.1 hn).2.2 p.name (List.mem_map_of_mem hp) g.name (by simp)
          exact this)
      | some b =>
        cases b with
        | false => rfl
        | true => exact absurd (hs p (by simp [hp]) g hg (by rw [hq]; simp) c2) (by
            rw [List.map_append, List.map_cons] at hn
            exact (List.nodup_append.1 hn).2.2 p.name (List.mem_map_of_mem hp) g.name (by simp))
    · rw [List.dropLast_append_of_ne_nil (by simp)]
      exact List.mem_append_left _ hp
  rw [e2] at this
  cases this
  exact c1

/-! ## Undefined behaviour -/

/-- A parameter whose value is never looked at outside of its array. -/
def Safe {σ : Type} (g : Stage σ) : Prop := ∀ s v, (g.given s v).2 ≠ .ub

theorem safe_plain {α σ : Type} (n : Str) (conv : Json → Option α) (f : σ → α → σ) : Safe (plain n conv f) := by
  intro s v
  change (store f s (conv v)).2 ≠ .ub
  cases conv v <;> simp [store]

theorem enter_safe {σ : Type} (g : Stage σ) (hg : Safe g) (s : σ) (j : Json) : (g.enter s j).2 ≠ .ub := by
  unfold Stage.enter
  cases hasParam (some j) g.name with
  | none => simp
  | some b =>
    cases b with
    | false => simp
    | true =>
      dsimp only
      cases getParam (some j) g.name with
      | none => simp [Stage.value]
      | some v => exact hg s v

theorem run_safe {σ : Type} (gs : List (Stage σ)) (h : ∀ g ∈ gs, Safe g) (s : σ) (j : Json) : (run gs s j).2 ≠ .ub := by
  induction gs generalizing s with
  | nil => simp [run]
  | cons g gs ih =>
    have hg := enter_safe g (h g (by simp)) s j
    unfold run
    cases ho : (g.enter s j).2 with
    | ok => exact ih (fun g' hg' => h g' (by simp [hg'])) _
    | refused => simp
    | ub => exact absurd ho hg

theorem vector_safe {σ : Type} (n : Str) (set : σ → List Int → σ) : Safe { name := n, given := vector false set } := by
  intro s v
  cases v with
  | arr l =>
    show readArray false l ≠ .ub
    unfold readArray
    split <;> simp
  | _ => simp [vector]

theorem servers_safe (ok : Str → Bool) (s : Kafka) (v : Json) : (servers ok s v).2 ≠ .ub := by
  unfold servers
  cases v.asStr <;> simp [store]

theorem adjustAll_safe (j : Json) (l : List Str) (s : Adjust) : (adjustAll j l s).2 ≠ .ub := by
  induction l generalizing s with
  | nil => simp [adjustAll]
  | cons k l ih =>
    have one : ∀ sub, (adjustOne s k sub).2 ≠ .ub := by
      intro sub
      unfold adjustOne
      cases (getParam (some sub) "adjustment".toList).bind asInt64 with
      | none => simp
      | some a => dsimp only; unfold input; cases field sub "input".toList Json.asStr <;> simp
    unfold adjustAll
    cases getParam (some j) k with
    | none => simp
    | some sub =>
      dsimp only
      cases ho : (adjustOne s k sub).2 with
      | ok => exact ih _
      | refused => simp
      | ub => exact absurd ho (one sub)

theorem parameters_safe (s : Adjust) (v : Json) : (parameters s v).2 ≠ .ub := by
  cases v with
  | obj l =>
    show (if l = [] then (({} : Adjust), Out.ok) else adjustAll (.obj l) (l.map (·.1)) s).2 ≠ .ub
    split
    · simp
    · exact adjustAll_safe _ _ _
  | _ => simp [parameters]

/-- Without messages of the debug level no configuration is undefined, of any of the plugins. -/
theorem C184_defined (okS okA : Str → Bool) (o : Offset) (d : Dummy) (b : Blosc) (g : PluginConfig.GapFill) (k : Kafka) (v : Live) (a : Adjust) (j : Json) :
    (run offset o j).2 ≠ .ub ∧ (run dummy d j).2 ≠ .ub ∧ (run blosc b j).2 ≠ .ub ∧ (run (gapFill false) g j).2 ≠ .ub ∧ (run (kafka okS) k j).2 ≠ .ub ∧
    (run (live okA) v j).2 ≠ .ub ∧ (run adjust a j).2 ≠ .ub := by
  refine ⟨run_safe _ ?_ _ _, run_safe _ ?_ _ _, run_safe _ ?_ _ _, run_safe _ ?_ _ _, run_safe _ ?_ _ _, run_safe _ ?_ _ _, run_safe _ ?_ _ _⟩
  · simp only [offset, List.forall_mem_cons]
    exact ⟨safe_plain _ _ _, by simp⟩
  · simp only [dummy, List.forall_mem_cons]
    exact ⟨safe_plain _ _ _, safe_plain _ _ _, safe_plain _ _ _, by simp⟩
  · simp only [blosc, List.forall_mem_cons]
    exact ⟨safe_plain _ _ _, safe_plain _ _ _, safe_plain _ _ _, safe_plain _ _ _, by simp⟩
  · simp only [gapFill, List.forall_mem_cons]
    exact ⟨vector_safe _ _, vector_safe _ _, vector_safe _ _, vector_safe _ _, by simp⟩
  · simp only [kafka, List.forall_mem_cons]
    exact ⟨servers_safe okS, safe_plain _ _ _, safe_plain _ _ _, safe_plain _ _ _, safe_plain _ _ _, by simp⟩
  · simp only [live, List.forall_mem_cons]
    exact ⟨safe_plain _ _ _, safe_plain _ _ _, safe_plain _ _ _, safe_plain _ _ _,
      safe_plain "live_view_socket_addr".toList Json.asStr (fun (s : Live) v => s.address okA (some v)), by simp⟩
  · simp only [adjust, List.forall_mem_cons]
    exact ⟨parameters_safe, by simp⟩

/-- With them, the message about a grid or chip size reads the first two numbers even if there are fewer. -/
theorem C184_ub (s : PluginConfig.GapFill) (j : Json) (l : List Json) (hh : hasParam (some j) "grid_size".toList = some true)
    (hg : getParam (some j) "grid_size".toList = some (.arr l)) (hi : allInts l = true) (hl : l.length < 2) : (run (gapFill true) s j).2 = .ub := by
  have he : (Stage.enter { name := "grid_size".toList, given := vector true fun (s : PluginConfig.GapFill) v => { s with grid := v } } s j).2 = .ub := by
    unfold Stage.enter
    dsimp only
    rw [hh, hg]
    show readArray true l = .ub
    unfold readArray
    rw [hi, if_neg (by simp), if_pos (by simpa using hl)]
  unfold gapFill run
  rw [he]

/-- Only those messages: gaps are logged one by one, and without a grid and a chip size it is all the same. -/
theorem C184_gaps (s : PluginConfig.GapFill) (j : Json) (hg : hasParam (some j) "grid_size".toList = some false)
    (hc : hasParam (some j) "chip_size".toList = some false) : run (gapFill true) s j = run (gapFill false) s j := by
  have skip : ∀ (d : Bool) (n : Str) (f : PluginConfig.GapFill → List Int → PluginConfig.GapFill) (l : List (Stage PluginConfig.GapFill)),
      hasParam (some j) n = some false → run ({ name := n, given := vector d f } :: l) s j = run l s j := by
    intro d n f l hn
    have he : Stage.enter { name := n, given := vector d f } s j = (s, .ok) := by
      unfold Stage.enter
      dsimp only
      rw [hn]
      rfl
    rw [run, he]
  unfold gapFill
  rw [skip true _ _ _ hg, skip true _ _ _ hc, skip false _ _ _ hg, skip false _ _ _ hc]

/-! ## The claim -/

/-- A wrong height does not keep the new width from being set. -/
theorem C184_violated : ¬ C184_statement := by
  rintro ⟨_, h, _⟩
  have := (h {} (.obj [("width".toList, .num 10), ("height".toList, .str [])])).2 (by decide +kernel)
  revert this
  decide +kernel

/-- The same of each of the other plugins with several parameters. The compression level is set although the shuffle is refused; the live view shows
other frames; an adjustment is made although its input is refused. -/
theorem C184_others : ¬ Atomic (run blosc) ∧ (∀ ok, ¬ Atomic (run (live ok))) ∧ ¬ Atomic (run adjust) ∧ ∀ debug, ¬ Atomic (run (gapFill debug)) := by
  refine ⟨fun h => ?_, fun ok h => ?_, fun h => ?_, fun debug h => ?_⟩
  · have := (h {} (.obj [("level".toList, .num 9), ("shuffle".toList, .str [])])).2 (by decide +kernel)
    revert this
    decide +kernel
  · have e : run (live ok) {} (.obj [("frame_frequency".toList, .num 100), ("per_second".toList, .str [])]) = ({ freq := 100 }, .refused) := by rfl
    have := (h {} (.obj [("frame_frequency".toList, .num 100), ("per_second".toList, .str [])])).2 (by rw [e])
    rw [e] at this
    revert this
    decide +kernel
  · have := (h {} (.obj [("parameter".toList, .obj [("uid".toList, .obj [("adjustment".toList, .num 1), ("input".toList, .num 2)])])])).2 (by decide +kernel)
    revert this
    decide +kernel
  · have e : run (gapFill debug) { grid := [2, 2] } (.obj [("grid_size".toList, .num 2)]) = ({}, .refused) := by cases debug <;> decide +kernel
    have := (h { grid := [2, 2] } (.obj [("grid_size".toList, .num 2)])).2 (by rw [e])
    rw [e] at this
    revert this
    decide +kernel

/-- Servers that are no text end the sending of frames to Kafka, and the message is refused. -/
theorem C184_kafka (ok : Str → Bool) (s : Kafka) (j v : Json) (hh : hasParam (some j) "servers".toList = some true)
    (hg : getParam (some j) "servers".toList = some v) (hv : v.asStr = none) :
    run (kafka ok) s j = ({ s with producer := false, used := none }, .refused) := by
  have he : Stage.enter { name := "servers".toList, given := servers ok } s j = ({ s with producer := false, used := none }, .refused) := by
    unfold Stage.enter
    dsimp only
    rw [hh, hg]
    show store (Kafka.setServers ok) { s with producer := false, used := none } v.asStr = _
    rw [hv]
    rfl
  unfold kafka run
  rw [he]

/-- A grid size that is no list is refused, and from then on every frame is undefined behaviour until another one is set. -/
theorem C184_gap (debug : Bool) (s : PluginConfig.GapFill) (j v : Json) (hh : hasParam (some j) "grid_size".toList = some true)
    (hg : getParam (some j) "grid_size".toList = some v) (hv : ∀ l, v ≠ .arr l) :
    run (gapFill debug) s j = ({ s with grid := [] }, .refused) ∧
    ∀ c x y dims, Verif.GapFill.configurationValidI { grid := [], chip := c, gapsX := x, gapsY := y } dims = none := by
  refine ⟨?_, fun c x y dims => rfl⟩
  have he : Stage.enter { name := "grid_size".toList, given := vector debug fun (s : PluginConfig.GapFill) v => { s with grid := v } } s j =
      ({ s with grid := [] }, .refused) := by
    unfold Stage.enter
    dsimp only
    rw [hh, hg]
    cases v with
    | arr l => exact absurd rfl (hv l)
    | _ => rfl
  unfold gapFill run
  rw [he]

/-- A list with a wrong element: as long as the one given, its numbers up to the wrong one, then zeros. -/
theorem C184_list (l l' : List Json) (is : List Int) (x : Json) (h1 : l.mapM Json.asInt = some is) (h2 : x.asInt = none) :
    filled (l ++ x :: l') = is ++ List.replicate (l'.length + 1) 0 ∧ allInts (l ++ x :: l') = false := by
  induction l generalizing is with
  | nil =>
    cases h1
    refine ⟨?_, by simp [allInts, h2]⟩
    show (match x.asInt with
      | some i => i :: filled l'
      | none => 0 :: l'.map fun _ => 0) = _
    rw [h2, List.replicate_succ]
    simp [List.map_const']
  | cons v l ih =>
    rw [List.mapM_cons] at h1
    cases hv : v.asInt with
    | none => rw [hv] at h1; cases h1
    | some i =>
      rw [hv] at h1
      cases hm : l.mapM Json.asInt with
      | none => rw [hm] at h1; cases h1
      | some is' =>
        rw [hm] at h1
        cases h1
        obtain ⟨a, b⟩ := ih is' hm
        refine ⟨?_, ?_⟩
        · show (match v.asInt with
            | some i => i :: filled (l ++ x :: l')
            | none => 0 :: (l ++ x :: l').map fun _ => 0) = _
          rw [hv, a]
          rfl
        · show (v.asInt.isSome && allInts (l ++ x :: l')) = false
          rw [b, Bool.and_false]

/-- What holds: a refused message with one of the parameters of the plugin changes nothing, for these four plugins. -/
theorem C184_partial (ok : Str → Bool) (o : Offset) (d : Dummy) (b : Blosc) (v : Live) (j : Json) :
    ((run offset o j).2 = .refused → (run offset o j).1 = o) ∧
    (Sole dummy j → (run dummy d j).2 = .refused → (run dummy d j).1 = d) ∧
    (Sole blosc j → (run blosc b j).2 = .refused → (run blosc b j).1 = b) ∧
    (Sole (live ok) j → (run (live ok) v j).2 = .refused → (run (live ok) v j).1 = v) := by
  have ne : ∀ o : Out, o = .refused → o ≠ .ok := by intro o h; rw [h]; decide
  refine ⟨fun h => sole_atomic offset (by decide) (by simp [offset]) ?_ o j ?_ (ne _ h),
    fun hs h => sole_atomic dummy (by decide +kernel) (by simp [dummy, plain]) ?_ d j hs (ne _ h),
    fun hs h => sole_atomic blosc (by decide +kernel) (by simp [blosc, plain]) ?_ b j hs (ne _ h),
    fun hs h => sole_atomic (live ok) (by simp only [live, List.map, plain]; decide +kernel) (by simp [live, plain]) ?_ v j hs (ne _ h)⟩
  · simp only [offset, List.forall_mem_cons]
    exact ⟨clean_plain _ _ _, by simp⟩
  · intro g hg h hh _ _
    simp only [offset, List.mem_singleton] at hg hh
    rw [hg, hh]
  · simp only [dummy, List.forall_mem_cons]
    exact ⟨clean_plain _ _ _, clean_plain _ _ _, clean_plain _ _ _, by simp⟩
  · simp only [blosc, List.forall_mem_cons]
    exact ⟨clean_plain _ _ _, clean_plain _ _ _, clean_plain _ _ _, clean_plain _ _ _, by simp⟩
  · simp only [live, List.forall_mem_cons]
    exact ⟨clean_plain _ _ _, clean_plain _ _ _, clean_plain _ _ _, clean_plain _ _ _,
      clean_plain "live_view_socket_addr".toList Json.asStr (fun (s : Live) v => s.address ok (some v)), by simp⟩

/-- Non-vacuity: a message with a wrong height only. -/
example : Sole dummy (.obj [("height".toList, .str [])]) ∧ (run dummy {} (.obj [("height".toList, .str [])])).2 = .refused := by
  refine ⟨?_, by decide +kernel⟩
  have : ∀ n ∈ dummy.map Stage.name, hasParam (some (.obj [("height".toList, .str [])])) n ≠ some false → n = "height".toList := by decide +kernel
  intro g hg h hh h1 h2
  rw [this _ (List.mem_map_of_mem hg) h1, this _ (List.mem_map_of_mem hh) h2]

/-- A grid with a wrong second number has a zero instead; a grid of one number is logged with what lies behind it. -/
example : run (gapFill false) { grid := [2, 2] } (.obj [("grid_size".toList, .arr [.num 3, .str [], .num 4])]) = ({ grid := [3, 0, 0] }, .refused) := by decide +kernel
example : (run (gapFill true) {} (.obj [("grid_size".toList, .arr [.num 3])])).2 = .ub := by decide +kernel

end Verif.HalfConfig
