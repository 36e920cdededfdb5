import Verif.Model.Reply
import Verif.Props.IpcMessage
/-!
C103: the status reply is complete; C104: the version reply; C105: the commands offered; C106: commands reach their plugins;
C107: resetting statistics.
-/
namespace Verif.Reply
open Verif.Ipc

/-! ## Successive changes along paths -/

/-- A change at a path: the value there is replaced by `f` of it. -/
structure Chg where
  path : List Str
  f : Json → Json

def puts : Json → List Chg → Json × Res
  | j, [] => (j, .ok)
  | j, c :: l =>
    match put c.f c.path j with
    | (j', .ok) => puts j' l
    | r => r

/-- What a list of changes makes of the value at a path. -/
def val (p : List Str) : Option Json → List Chg → Option Json
  | x, [] => x
  | x, c :: l => val p (if c.path = p then some (c.f (x.getD (.obj []))) else x) l

/-- No change is above or below another one. -/
def Apart (l : List Chg) : Prop := ∀ c ∈ l, ∀ d ∈ l, c.path = d.path ∨ ¬ Related c.path d.path

theorem put_prefix (f : Json → Json) (q r : List Str) (j : Json) (hr : r ≠ []) (h : (put f (q ++ r) j).2 = .ok) :
    ∃ m, Ipc.get q (put f (q ++ r) j).1 = some (.obj m) := by
  induction q generalizing j with
  | nil =>
    cases r with
    | nil => exact absurd rfl hr
    | cons k ks =>
      cases j with
      | obj l =>
        simp only [List.nil_append, put, Ipc.get]
        cases findM l k <;> exact ⟨_, rfl⟩
      | _ => simp [put] at h
  | cons k q ih =>
    cases j with
    | obj l =>
      simp only [List.cons_append, put] at h ⊢
      cases hf : findM l k with
      | some x =>
        simp only [hf] at h ⊢
        simp only [Ipc.get, findM_setM_same l k _ (by rw [hf]; simp), Option.bind_some]
        exact ih x h
      | none =>
        simp only [hf] at h ⊢
        simp only [Ipc.get, findM_append l k k _ hf, if_true, Option.bind_some]
        exact ih _ h
    | _ => simp [put] at h

/-- Values that are not objects are at or below the paths changed. -/
def Leaves (done : List Chg) (j : Json) : Prop :=
  ∀ q x, Ipc.get q j = some x → (∀ m, x ≠ .obj m) → ∃ c ∈ done, c.path <+: q

theorem puts_spec (l done : List Chg) (j : Json) (ha : Apart (done ++ l)) (hl : Leaves done j) :
    (puts j l).2 = .ok ∧ Leaves (done ++ l) (puts j l).1 ∧
    ∀ p, (∀ c ∈ l, c.path = p ∨ ¬ Related c.path p) → Ipc.get p (puts j l).1 = val p (Ipc.get p j) l := by
  induction l generalizing done j with
  | nil => exact ⟨rfl, by rw [List.append_nil]; exact hl, fun p _ => rfl⟩
  | cons c l ih =>
    have hok : (put c.f c.path j).2 = .ok := by
      rw [put_ok]
      intro ⟨q, r, x, e, hr, hg, hn⟩
      obtain ⟨d, hd, hp⟩ := hl q x hg hn
      have hlen : d.path.length < c.path.length := by
        have h1 := hp.length_le
        have h2 : 0 < r.length := List.length_pos_iff.2 hr
        have h3 : c.path.length = q.length + r.length := by rw [e, List.length_append]
        omega
      rcases ha d (by simp [hd]) c (by simp) with h | h
      · rw [h] at hlen; omega
      · exact h (Or.inl (hp.trans ⟨r, e.symm⟩))
    have hl' : Leaves (done ++ [c]) (put c.f c.path j).1 := by
      intro q x hg hn
      by_cases hr : Related c.path q
      · rcases hr with hr | ⟨r, hr⟩
        · exact ⟨c, by simp, hr⟩
        · by_cases h0 : r = []
          · subst h0
            exact ⟨c, by simp, by rw [← hr]; simp⟩
          · have h2 := put_prefix c.f q r j h0 (by rw [hr]; exact hok)
            rw [hr] at h2
            obtain ⟨m, hm⟩ := h2
            rw [hm] at hg
            simp only [Option.some.injEq] at hg
            exact absurd hg.symm (hn m)
      · rw [put_other _ _ _ _ hr] at hg
        obtain ⟨d, hd, hp⟩ := hl q x hg hn
        exact ⟨d, by simp [hd], hp⟩
    have hputs : puts j (c :: l) = puts (put c.f c.path j).1 l := by
      have : put c.f c.path j = ((put c.f c.path j).1, .ok) := by rw [← hok]
      simp only [puts]
      rw [this]
    obtain ⟨i1, i2, i3⟩ := ih (done ++ [c]) (put c.f c.path j).1 (by simpa using ha) hl'
    rw [hputs]
    refine ⟨i1, by simpa using i2, fun p hp => ?_⟩
    rw [i3 p (fun d hd => hp d (by simp [hd]))]
    simp only [val]
    congr 1
    by_cases e : c.path = p
    · rw [if_pos e, ← e, put_get _ _ _ hok]
    · rw [if_neg e]
      rcases hp c (by simp) with h | h
      · exact absurd h e
      · exact put_other _ _ _ _ h

theorem leaves_empty : Leaves [] (.obj []) := by
  intro q x hg hn
  cases q with
  | nil => simp only [Ipc.get, Option.some.injEq] at hg; exact absurd hg.symm (hn [])
  | cons k q => simp [Ipc.get, findM] at hg

/-! ## `set_param` as a change -/

/-- A change by `set_param`, plain or with "[]". -/
inductive Call
  | plain (p : List Str) (v : Json)
  | app (p : List Str) (v : Json)

def Call.path : Call → List Str
  | .plain p _ => p
  | .app p _ => p

def Call.value : Call → Json
  | .plain _ v => v
  | .app _ v => v

def Call.isApp : Call → Bool
  | .plain _ _ => false
  | .app _ _ => true

/-- The name passed to `set_param`. -/
def Call.name : Call → Str
  | .plain p _ => join p
  | .app p _ => join p ++ ['[', ']']

def Call.chg : Call → Chg
  | .plain p v => ⟨p, fun _ => v⟩
  | .app p v => ⟨p, final true v⟩

theorem chg_path (c : Call) : c.chg.path = c.path := by cases c <;> rfl

/-- Components without slash, the first and the last one with at least two characters and not ending in "[]". -/
def Fine (c : Call) : Prop := Path c.path ∧ PlainPath c.path ∧ (c.isApp = true → ∀ s, c.path.getLast? = some s → s ++ ['[', ']'] ∉ c.path)

theorem join_snoc (p : List Str) (s t : Str) : join (p ++ [s]) ++ t = join (p ++ [s ++ t]) := by
  induction p with
  | nil => rfl
  | cons k ks ih =>
    cases ks with
    | nil => simp [join]
    | cons a ks =>
      simp only [List.cons_append, join, List.append_assoc] at ih ⊢
      rw [← ih]

theorem setParam_append (l : List (Str × Json)) (p : List Str) (s : Str) (v : Json)
    (hp : Path (p ++ [s])) (h : ∀ k, p.head? = some k → Plain k) (hs : s ++ ['[', ']'] ∉ p) :
    setParam (.obj l) (join (p ++ [s ++ ['[', ']']])) v = put (final true v) (p ++ [s]) (.obj l) := by
  have hp' : Path (p ++ [s ++ ['[', ']']]) := by
    refine ⟨by simp, fun k hk => ?_⟩
    rcases List.mem_append.1 hk with hk | hk
    · exact hp.2 k (by simp [hk])
    · have e : k = s ++ ['[', ']'] := by simpa using hk
      have := hp.2 s (by simp)
      rw [e]
      simp [this]
  unfold setParam
  rw [getlines_join _ hp' (by simp)]
  cases p with
  | nil =>
    simp only [List.nil_append, setParts, isArray_array, chop_array, put, walk, if_true]
    rfl
  | cons k ks =>
    have hk := isArray_plain k (h k rfl)
    have hks : s ++ ['[', ']'] ∉ ks := fun e => hs (by simp [e])
    have hl : ((ks ++ [s ++ ['[', ']']]).getLast?).getD [] = s ++ ['[', ']'] := by simp
    simp only [List.cons_append, setParts, hk, hl, walk_array v s ks hks]
    rfl

theorem setParam_call (l : List (Str × Json)) (c : Call) (h : Fine c) :
    setParam (.obj l) c.name c.value = put c.chg.f c.chg.path (.obj l) := by
  obtain ⟨h1, h2, h3⟩ := h
  cases c with
  | plain p v => exact setParam_plain l p v h1 h2
  | app p v =>
    obtain ⟨q, s, e⟩ : ∃ q s, p = q ++ [s] := by
      rcases List.eq_nil_or_concat p with e | ⟨q, s, e⟩
      · exact absurd e h1.1
      · exact ⟨q, s, by simpa using e⟩
    subst e
    simp only [Call.path] at h1 h2 h3
    have := setParam_append l q s v h1 (fun k hk => h2.1 k (by cases q <;> simp_all)) (fun hm => h3 rfl s (by simp) (by simp [hm]))
    simp only [Call.name, Call.value, Call.chg]
    rw [join_snoc]
    exact this

theorem put_obj (f : Json → Json) (p : List Str) (l : List (Str × Json)) (h : p ≠ []) : ∃ m, (put f p (.obj l)).1 = .obj m := by
  cases p with
  | nil => exact absurd rfl h
  | cons k ks =>
    simp only [put]
    cases findM l k <;> exact ⟨_, rfl⟩

theorem sets_puts (l : List Call) (m : List (Str × Json)) (h : ∀ c ∈ l, Fine c) :
    sets (.obj m) (l.map (fun c => (c.name, c.value))) = puts (.obj m) (l.map Call.chg) := by
  induction l generalizing m with
  | nil => rfl
  | cons c l ih =>
    have hc := h c (by simp)
    simp only [List.map_cons, sets, puts]
    rw [setParam_call m c hc]
    obtain ⟨m', hm'⟩ := put_obj c.chg.f c.chg.path m (by rw [chg_path]; exact hc.1.1)
    generalize put c.chg.f c.chg.path (.obj m) = r at *
    obtain ⟨j, res⟩ := r
    cases hm'
    cases res
    · exact ih m' (fun d hd => h d (by simp [hd]))
    all_goals rfl

/-- No call is above or below another one. -/
def ApartC (l : List Call) : Prop := ∀ c ∈ l, ∀ d ∈ l, c.path = d.path ∨ ¬ Related c.path d.path

/-- The values of the calls for a path. -/
def at_ (p : List Str) (l : List Call) : List Json := (l.filter (fun c => c.path = p)).map Call.value

theorem val_app (p : List Str) (l : List Call) (h : ∀ c ∈ l, c.path = p → c.isApp = true) (a : List Json) :
    val p (some (.arr a)) (l.map Call.chg) = some (.arr (a ++ at_ p l)) := by
  induction l generalizing a with
  | nil => simp [val, at_]
  | cons c l ih =>
    have ih' := ih (fun d hd => h d (by simp [hd]))
    simp only [List.map_cons, val, chg_path]
    by_cases e : c.path = p
    · rw [if_pos e]
      have ha := h c (by simp) e
      cases c with
      | plain q v => cases ha
      | app q v =>
        have : (Call.app q v).chg.f ((some (Json.arr a)).getD (.obj [])) = .arr (a ++ [v]) := rfl
        rw [this, ih' (a ++ [v])]
        have e' : q = p := e
        simp [at_, e', Call.path, Call.value]
    · rw [if_neg e, ih' a]
      simp [at_, e]

theorem val_first (p : List Str) (l : List Call) (h : ∀ c ∈ l, c.path = p → c.isApp = true) :
    val p none (l.map Call.chg) = if at_ p l = [] then none else some (.arr (at_ p l)) := by
  induction l with
  | nil => simp [val, at_]
  | cons c l ih =>
    have h' : ∀ d ∈ l, d.path = p → d.isApp = true := fun d hd => h d (by simp [hd])
    simp only [List.map_cons, val, chg_path]
    by_cases e : c.path = p
    · rw [if_pos e]
      have ha := h c (by simp) e
      cases c with
      | plain q v => cases ha
      | app q v =>
        have : (Call.app q v).chg.f ((none : Option Json).getD (.obj [])) = .arr ([v]) := rfl
        rw [this, val_app p l h' [v]]
        have e' : q = p := e
        simp [at_, e', Call.path, Call.value]
    · rw [if_neg e, ih h']
      simp [at_, e]

theorem val_last (p : List Str) (l : List Call) (x : Option Json) (h : ∀ c ∈ l, c.path = p → c.isApp = false) :
    val p x (l.map Call.chg) = ((at_ p l).getLast?).or x := by
  induction l generalizing x with
  | nil => simp [val, at_]
  | cons c l ih =>
    have h' : ∀ d ∈ l, d.path = p → d.isApp = false := fun d hd => h d (by simp [hd])
    simp only [List.map_cons, val, chg_path]
    by_cases e : c.path = p
    · rw [if_pos e]
      have ha := h c (by simp) e
      cases c with
      | app q v => cases ha
      | plain q v =>
        have e' : q = p := e
        rw [ih _ h']
        have : at_ p (Call.plain q v :: l) = v :: at_ p l := by simp [at_, e', Call.path, Call.value]
        rw [this, List.getLast?_cons]
        cases (at_ p l).getLast? <;> rfl
    · rw [if_neg e, ih _ h']
      simp [at_, e]

/-- All calls succeed, and every path can be read back. -/
theorem sets_spec (l : List Call) (hf : ∀ c ∈ l, Fine c) (ha : ApartC l) :
    (sets (.obj []) (l.map (fun c => (c.name, c.value)))).2 = .ok ∧
    ∀ p, Path p → (∀ c ∈ l, c.path = p ∨ ¬ Related c.path p) →
      ((∀ c ∈ l, c.path = p → c.isApp = true) →
        getParam (some (sets (.obj []) (l.map (fun c => (c.name, c.value)))).1) (join p) =
          if at_ p l = [] then none else some (.arr (at_ p l))) ∧
      ((∀ c ∈ l, c.path = p → c.isApp = false) →
        getParam (some (sets (.obj []) (l.map (fun c => (c.name, c.value)))).1) (join p) = (at_ p l).getLast?) := by
  rw [sets_puts l [] hf]
  have hA : Apart ([] ++ l.map Call.chg) := by
    intro c hc d hd
    simp only [List.nil_append, List.mem_map] at hc hd
    obtain ⟨c', hc', rfl⟩ := hc
    obtain ⟨d', hd', rfl⟩ := hd
    simp only [chg_path]
    exact ha c' hc' d' hd'
  obtain ⟨h1, _, h3⟩ := puts_spec (l.map Call.chg) [] (.obj []) hA leaves_empty
  refine ⟨h1, fun p hp hr => ?_⟩
  have hg : Ipc.get p (.obj []) = none := by
    cases p with
    | nil => exact absurd rfl hp.1
    | cons k ks => simp [Ipc.get, findM]
  have h3' := h3 p (fun c hc => by
    simp only [List.mem_map] at hc
    obtain ⟨c', hc', rfl⟩ := hc
    rw [chg_path]
    exact hr c' hc')
  rw [hg] at h3'
  simp only [getParam, Option.bind_some, splitAll_join p hp, h3']
  exact ⟨fun h => val_first p l h, fun h => by rw [val_last p l none h]; simp⟩

theorem at_append (p : List Str) (l m : List Call) : at_ p (l ++ m) = at_ p l ++ at_ p m := by simp [at_]

theorem at_flatMap {α : Type} (p : List Str) (l : List α) (g : α → List Call) : at_ p (l.flatMap g) = l.flatMap (fun x => at_ p (g x)) := by
  induction l with
  | nil => rfl
  | cons x l ih => simp only [List.flatMap_cons, at_append, ih]

theorem at_none (p : List Str) (l : List Call) (h : ∀ c ∈ l, c.path ≠ p) : at_ p l = [] := by
  unfold at_
  rw [List.filter_eq_nil_iff.2 (fun c hc => by simpa using h c hc)]
  rfl

theorem at_all (p : List Str) (l : List Json) : at_ p (l.map (Call.app p)) = l := by
  induction l with
  | nil => rfl
  | cons x l ih =>
    unfold at_ at ih ⊢
    rw [List.map_cons, List.filter_cons_of_pos (by simp [Call.path]), List.map_cons, ih]
    rfl

theorem at_last (l : List Call) (c : Call) (hc : c ∈ l) (h : ∀ d ∈ l, d.path = c.path → d.value = c.value) :
    (at_ c.path l).getLast? = some c.value := by
  have hm : c.value ∈ at_ c.path l := List.mem_map.2 ⟨c, List.mem_filter.2 ⟨hc, by simp⟩, rfl⟩
  cases hg : (at_ c.path l).getLast? with
  | none => rw [List.getLast?_eq_none_iff] at hg; rw [hg] at hm; cases hm
  | some x =>
    have hx := List.mem_of_getLast? hg
    obtain ⟨d, hd, e⟩ := List.mem_map.1 hx
    obtain ⟨hd1, hd2⟩ := List.mem_filter.1 hd
    rw [← e, h d hd1 (by simpa using hd2)]

theorem related_head (a b : Str) (p q : List Str) (h : Related (a :: p) (b :: q)) : a = b := by
  rcases h with h | h
  · exact (List.cons_prefix_cons.1 h).1
  · exact (List.cons_prefix_cons.1 h).1.symm

theorem related_tail (a : Str) (p q : List Str) (h : Related (a :: p) (a :: q)) : Related p q := by
  rcases h with h | h
  · exact Or.inl (List.cons_prefix_cons.1 h).2
  · exact Or.inr (List.cons_prefix_cons.1 h).2

/-! ## C103 -/

/-- What is reported below the name of a plugin. -/
def own (sp : Plug → List (List Str × Json)) (p : Plug) : List (List Str × Json) :=
  sp p ++ [(["timing".toList, "last_process".toList], p.last), (["timing".toList, "max_process".toList], p.max),
    (["timing".toList, "mean_process".toList], p.mean)]

/-- The status a plugin reports, as paths: no path is above, below or equal to another one or one of the three durations. -/
structure Tidy (sp : Plug → List (List Str × Json)) (p : Plug) : Prop where
  keys : p.status = (sp p).map (fun x => (join x.1, x.2))
  path : ∀ x ∈ sp p, Path x.1 ∧ ∀ k, x.1.getLast? = some k → Plain k
  apart : ∀ x ∈ own sp p, ∀ y ∈ own sp p, x = y ∨ ¬ Related x.1 y.1

/-- Names of plugins that are not used otherwise in the reply. -/
def Named (ps : List Plug) : Prop :=
  (ps.map (·.name)).Nodup ∧ ∀ p ∈ ps, Plain p.name ∧ '/' ∉ p.name ∧
    p.name ∉ ["plugins".toList, "error".toList, "warning".toList, "shared_memory".toList]

/-- What the reply should say. -/
structure Complete (sp : Plug → List (List Str × Json)) (shm : Option Bool) (ps : List Plug) (r : Json × Res) : Prop where
  ok : r.2 = .ok
  names : getParam (some r.1) "plugins/names".toList = if ps = [] then none else some (.arr (ps.map (fun p => .str p.name)))
  errors : getParam (some r.1) "error".toList =
    if ps.flatMap (·.errors) = [] then none else some (.arr ((ps.flatMap (·.errors)).map .str))
  warnings : getParam (some r.1) "warning".toList =
    if ps.flatMap (·.warnings) = [] then none else some (.arr ((ps.flatMap (·.warnings)).map .str))
  memory : getParam (some r.1) "shared_memory/configured".toList = shm.map .bool
  plugins : ∀ p ∈ ps, ∀ x ∈ own sp p, getParam (some r.1) (p.name ++ '/' :: join x.1) = some x.2

/-- C103, full statement: for all plugins of different names. -/
def C103_statement : Prop :=
  ∀ (sp : Plug → List (List Str × Json)) (shm : Option Bool) (ps : List Plug), (ps.map (·.name)).Nodup →
    (∀ p ∈ ps, p.name ≠ [] ∧ '/' ∉ p.name) → (∀ p ∈ ps, Tidy sp p) → Complete sp shm ps (provideStatus shm ps)

/-- The calls, with paths. -/
def plugC (sp : Plug → List (List Str × Json)) (p : Plug) : List Call :=
  Call.app ["plugins".toList, "names".toList] (.str p.name) :: (own sp p).map (fun x => Call.plain (p.name :: x.1) x.2)

def shmC : Option Bool → List Call
  | none => []
  | some b => [.plain ["shared_memory".toList, "configured".toList] (.bool b)]

def callsC (sp : Plug → List (List Str × Json)) (shm : Option Bool) (ps : List Plug) : List Call :=
  shmC shm ++ ps.flatMap (plugC sp) ++ ((ps.flatMap (·.errors)).map Json.str).map (Call.app ["error".toList]) ++
    ((ps.flatMap (·.warnings)).map Json.str).map (Call.app ["warning".toList])

theorem join_cons (k : Str) (p : List Str) (h : p ≠ []) : join (k :: p) = k ++ '/' :: join p := by
  cases p with
  | nil => exact absurd rfl h
  | cons a p => rfl

theorem plugC_calls (sp : Plug → List (List Str × Json)) (p : Plug) (h : Tidy sp p) :
    plugCalls p = (plugC sp p).map (fun c => (c.name, c.value)) := by
  have e1 : "plugins/names[]".toList = join ["plugins".toList, "names".toList] ++ ['[', ']'] := by decide +kernel
  have e2 : "/timing/last_process".toList = '/' :: join ["timing".toList, "last_process".toList] := by decide +kernel
  have e3 : "/timing/max_process".toList = '/' :: join ["timing".toList, "max_process".toList] := by decide +kernel
  have e4 : "/timing/mean_process".toList = '/' :: join ["timing".toList, "mean_process".toList] := by decide +kernel
  unfold plugCalls plugC own
  rw [e1, e2, e3, e4, h.keys]
  simp only [List.map_cons, List.map_append, List.map_map, List.map_nil, Call.name, Call.value, List.cons_append]
  congr 2
  refine List.map_congr_left (fun x hx => ?_)
  simp only [Function.comp_apply, Call.name, Call.value]
  rw [join_cons p.name x.1 (h.path x hx).1.1]

theorem calls_eq (sp : Plug → List (List Str × Json)) (shm : Option Bool) (ps : List Plug) (h : ∀ p ∈ ps, Tidy sp p) :
    statusCalls shm ps = (callsC sp shm ps).map (fun c => (c.name, c.value)) := by
  have e1 : "error[]".toList = join ["error".toList] ++ ['[', ']'] := by decide +kernel
  have e2 : "warning[]".toList = join ["warning".toList] ++ ['[', ']'] := by decide +kernel
  have e3 : "shared_memory/configured".toList = join ["shared_memory".toList, "configured".toList] := by decide +kernel
  have hp : ps.flatMap plugCalls = (ps.flatMap (plugC sp)).map (fun c => (c.name, c.value)) := by
    clear e1 e2 e3
    induction ps with
    | nil => rfl
    | cons p ps ih =>
      simp only [List.flatMap_cons, List.map_append]
      rw [ih (fun q hq => h q (by simp [hq])), plugC_calls sp p (h p (by simp))]
  unfold statusCalls callsC
  rw [hp, e1, e2]
  simp only [List.map_append, List.map_map]
  congr 2
  · congr 1
    cases shm with
    | none => rfl
    | some b => simp only [shmCalls, shmC, List.map_cons, List.map_nil, Call.name, Call.value, e3]

/-- The kinds of calls. -/
inductive Kind (sp : Plug → List (List Str × Json)) (shm : Option Bool) (ps : List Plug) : Call → Prop
  | shm (b : Bool) : shm = some b → Kind sp shm ps (.plain ["shared_memory".toList, "configured".toList] (.bool b))
  | name (v : Json) : Kind sp shm ps (.app ["plugins".toList, "names".toList] v)
  | own (p : Plug) (x : List Str × Json) : p ∈ ps → x ∈ own sp p → Kind sp shm ps (.plain (p.name :: x.1) x.2)
  | error (v : Json) : Kind sp shm ps (.app ["error".toList] v)
  | warning (v : Json) : Kind sp shm ps (.app ["warning".toList] v)

theorem kind (sp : Plug → List (List Str × Json)) (shm : Option Bool) (ps : List Plug) (c : Call) (h : c ∈ callsC sp shm ps) :
    Kind sp shm ps c := by
  unfold callsC at h
  rcases List.mem_append.1 h with h | h
  · rcases List.mem_append.1 h with h | h
    · rcases List.mem_append.1 h with h | h
      · cases shm with
        | none => cases h
        | some b =>
          simp only [shmC, List.mem_singleton] at h
          subst h
          exact Kind.shm b rfl
      · obtain ⟨p, hp, hc⟩ := List.mem_flatMap.1 h
        unfold plugC at hc
        rcases List.mem_cons.1 hc with hc | hc
        · subst hc; exact Kind.name _
        · obtain ⟨x, hx, rfl⟩ := List.mem_map.1 hc
          exact Kind.own p x hp hx
    · obtain ⟨v, _, rfl⟩ := List.mem_map.1 h
      exact Kind.error v
  · obtain ⟨v, _, rfl⟩ := List.mem_map.1 h
    exact Kind.warning v

theorem same_plug (ps : List Plug) (h : (ps.map (·.name)).Nodup) (p q : Plug) (hp : p ∈ ps) (hq : q ∈ ps) (e : p.name = q.name) : p = q := by
  induction ps with
  | nil => cases hp
  | cons a ps ih =>
    rw [List.map_cons, List.nodup_cons] at h
    rcases List.mem_cons.1 hp with hp' | hp' <;> rcases List.mem_cons.1 hq with hq' | hq'
    · rw [hp', hq']
    · subst hp'; exact absurd (List.mem_map.2 ⟨q, hq', e.symm⟩) h.1
    · subst hq'; exact absurd (List.mem_map.2 ⟨p, hp', e⟩) h.1
    · exact ih h.2 hp' hq'

theorem distinct_heads : "plugins".toList ≠ "error".toList ∧ "plugins".toList ≠ "warning".toList ∧ "plugins".toList ≠ "shared_memory".toList ∧
    "error".toList ≠ "warning".toList ∧ "error".toList ≠ "shared_memory".toList ∧ "warning".toList ≠ "shared_memory".toList := by decide +kernel

theorem apart_calls (sp : Plug → List (List Str × Json)) (shm : Option Bool) (ps : List Plug) (hn : Named ps) (ht : ∀ p ∈ ps, Tidy sp p)
    (c d : Call) (hc : Kind sp shm ps c) (hd : Kind sp shm ps d) :
    (c.path = d.path ∧ c.isApp = d.isApp ∧ (c.isApp = false → c.value = d.value)) ∨ ¬ Related c.path d.path := by
  obtain ⟨h1, h2, h3, h4, h5, h6⟩ := distinct_heads
  have hname : ∀ p ∈ ps, p.name ≠ "plugins".toList ∧ p.name ≠ "error".toList ∧ p.name ≠ "warning".toList ∧
      p.name ≠ "shared_memory".toList := by
    intro p hp
    have := (hn.2 p hp).2.2
    simp only [List.mem_cons, List.not_mem_nil, or_false, not_or] at this
    exact this
  cases hc with
  | shm b hb =>
    cases hd with
    | shm b' hb' =>
      rw [hb] at hb'
      simp only [Option.some.injEq] at hb'
      subst hb'
      exact Or.inl ⟨rfl, rfl, fun _ => rfl⟩
    | name v => exact Or.inr (fun h => h3 (related_head _ _ _ _ h).symm)
    | own p x hp hx => exact Or.inr (fun h => (hname p hp).2.2.2 (related_head _ _ _ _ h).symm)
    | error v => exact Or.inr (fun h => h5 (related_head _ _ _ _ h).symm)
    | warning v => exact Or.inr (fun h => h6 (related_head _ _ _ _ h).symm)
  | name v =>
    cases hd with
    | shm b hb => exact Or.inr (fun h => h3 (related_head _ _ _ _ h))
    | name v => exact Or.inl ⟨rfl, rfl, fun h => by cases h⟩
    | own p x hp hx => exact Or.inr (fun h => (hname p hp).1 (related_head _ _ _ _ h).symm)
    | error v => exact Or.inr (fun h => h1 (related_head _ _ _ _ h))
    | warning v => exact Or.inr (fun h => h2 (related_head _ _ _ _ h))
  | own p x hp hx =>
    cases hd with
    | shm b hb => exact Or.inr (fun h => (hname p hp).2.2.2 (related_head _ _ _ _ h))
    | name v => exact Or.inr (fun h => (hname p hp).1 (related_head _ _ _ _ h))
    | own q y hq hy =>
      by_cases e : p.name = q.name
      · have := same_plug ps hn.1 p q hp hq e
        subst this
        rcases (ht p hp).apart x hx y hy with h | h
        · subst h; exact Or.inl ⟨rfl, rfl, fun _ => rfl⟩
        · exact Or.inr (fun hr => h (related_tail _ _ _ hr))
      · exact Or.inr (fun h => e (related_head _ _ _ _ h))
    | error v => exact Or.inr (fun h => (hname p hp).2.1 (related_head _ _ _ _ h))
    | warning v => exact Or.inr (fun h => (hname p hp).2.2.1 (related_head _ _ _ _ h))
  | error v =>
    cases hd with
    | shm b hb => exact Or.inr (fun h => h5 (related_head _ _ _ _ h))
    | name v => exact Or.inr (fun h => h1 (related_head _ _ _ _ h).symm)
    | own p x hp hx => exact Or.inr (fun h => (hname p hp).2.1 (related_head _ _ _ _ h).symm)
    | error v => exact Or.inl ⟨rfl, rfl, fun h => by cases h⟩
    | warning v => exact Or.inr (fun h => h4 (related_head _ _ _ _ h))
  | warning v =>
    cases hd with
    | shm b hb => exact Or.inr (fun h => h6 (related_head _ _ _ _ h))
    | name v => exact Or.inr (fun h => h2 (related_head _ _ _ _ h).symm)
    | own p x hp hx => exact Or.inr (fun h => (hname p hp).2.2.1 (related_head _ _ _ _ h).symm)
    | error v => exact Or.inr (fun h => h4 (related_head _ _ _ _ h).symm)
    | warning v => exact Or.inl ⟨rfl, rfl, fun h => by cases h⟩

theorem plain_of (k : Str) (h : 2 ≤ k.length ∧ k.drop (k.length - 2) ≠ ['[', ']']) : Plain k := by
  refine ⟨h.1, fun s e => h.2 ?_⟩
  rw [e]
  simp

theorem fine_calls (sp : Plug → List (List Str × Json)) (shm : Option Bool) (ps : List Plug) (hn : Named ps) (ht : ∀ p ∈ ps, Tidy sp p)
    (c : Call) (hc : Kind sp shm ps c) : Fine c := by
  cases hc with
  | shm b hb =>
    refine ⟨⟨by simp [Call.path], ?_⟩, ⟨?_, ?_⟩, fun h => by cases h⟩
    · simp only [Call.path]; decide +kernel
    · intro k hk
      simp only [Call.path, List.head?_cons, Option.some.injEq] at hk
      subst hk
      exact plain_of _ (by decide +kernel)
    · intro k hk
      simp only [Call.path, List.getLast?_cons_cons, List.getLast?_singleton, Option.some.injEq] at hk
      subst hk
      exact plain_of _ (by decide +kernel)
  | name v =>
    refine ⟨⟨by simp [Call.path], ?_⟩, ⟨?_, ?_⟩, ?_⟩
    · simp only [Call.path]; decide +kernel
    · intro k hk
      simp only [Call.path, List.head?_cons, Option.some.injEq] at hk
      subst hk
      exact plain_of _ (by decide +kernel)
    · intro k hk
      simp only [Call.path, List.getLast?_cons_cons, List.getLast?_singleton, Option.some.injEq] at hk
      subst hk
      exact plain_of _ (by decide +kernel)
    · intro _ s hs
      simp only [Call.path, List.getLast?_cons_cons, List.getLast?_singleton, Option.some.injEq] at hs
      subst hs
      simp only [Call.path]; decide +kernel
  | own p x hp hx =>
    obtain ⟨n1, n2, _⟩ := hn.2 p hp
    have hx' : Path x.1 ∧ ∀ k, x.1.getLast? = some k → Plain k := by
      unfold own at hx
      rcases List.mem_append.1 hx with h | h
      · exact (ht p hp).path x h
      · have lastp : ∀ k : Str, (k = "last_process".toList ∨ k = "max_process".toList ∨ k = "mean_process".toList) → Plain k := by
          rintro k (rfl | rfl | rfl) <;> exact plain_of _ (by decide +kernel)
        simp only [List.mem_cons, List.not_mem_nil, or_false] at h
        rcases h with h | h | h <;> subst h <;> refine ⟨⟨by simp, by dsimp only; decide +kernel⟩, fun k hk => lastp k ?_⟩ <;>
          simp only [List.getLast?_cons_cons, List.getLast?_singleton, Option.some.injEq] at hk <;> simp [← hk]
    refine ⟨⟨by simp [Call.path], ?_⟩, ⟨?_, ?_⟩, fun h => by cases h⟩
    · intro k hk
      simp only [Call.path] at hk
      rcases List.mem_cons.1 hk with h | h
      · subst h; exact n2
      · exact hx'.1.2 k h
    · intro k hk
      simp only [Call.path, List.head?_cons, Option.some.injEq] at hk
      subst hk
      exact n1
    · intro k hk
      refine hx'.2 k ?_
      simp only [Call.path] at hk
      cases hx1 : x.1 with
      | nil => exact absurd hx1 hx'.1.1
      | cons a l => rw [hx1, List.getLast?_cons_cons] at hk; exact hk
  | error v =>
    refine ⟨⟨by simp [Call.path], ?_⟩, ⟨?_, ?_⟩, ?_⟩
    · simp only [Call.path]; decide +kernel
    · intro k hk
      simp only [Call.path, List.head?_cons, Option.some.injEq] at hk
      subst hk
      exact plain_of _ (by decide +kernel)
    · intro k hk
      simp only [Call.path, List.getLast?_singleton, Option.some.injEq] at hk
      subst hk
      exact plain_of _ (by decide +kernel)
    · intro _ s hs
      simp only [Call.path, List.getLast?_singleton, Option.some.injEq] at hs
      subst hs
      simp only [Call.path]; decide +kernel
  | warning v =>
    refine ⟨⟨by simp [Call.path], ?_⟩, ⟨?_, ?_⟩, ?_⟩
    · simp only [Call.path]; decide +kernel
    · intro k hk
      simp only [Call.path, List.head?_cons, Option.some.injEq] at hk
      subst hk
      exact plain_of _ (by decide +kernel)
    · intro k hk
      simp only [Call.path, List.getLast?_singleton, Option.some.injEq] at hk
      subst hk
      exact plain_of _ (by decide +kernel)
    · intro _ s hs
      simp only [Call.path, List.getLast?_singleton, Option.some.injEq] at hs
      subst hs
      simp only [Call.path]; decide +kernel

theorem own_ne (sp : Plug → List (List Str × Json)) (p : Plug) (h : Tidy sp p) (x : List Str × Json) (hx : x ∈ own sp p) : x.1 ≠ [] := by
  unfold own at hx
  rcases List.mem_append.1 hx with h' | h'
  · exact (h.path x h').1.1
  · simp only [List.mem_cons, List.not_mem_nil, or_false] at h'
    rcases h' with e | e | e <;> subst e <;> simp

/-- C103, proved part: for plugins whose names have at least two characters, do not end in "[]" and are not used otherwise in the reply. -/
theorem C103_partial (sp : Plug → List (List Str × Json)) (shm : Option Bool) (ps : List Plug) (hn : Named ps) (ht : ∀ p ∈ ps, Tidy sp p) :
    Complete sp shm ps (provideStatus shm ps) := by
  unfold provideStatus
  rw [calls_eq sp shm ps ht]
  have hk := kind sp shm ps
  have hf : ∀ c ∈ callsC sp shm ps, Fine c := fun c hc => fine_calls sp shm ps hn ht c (hk c hc)
  have ha : ApartC (callsC sp shm ps) := by
    intro c hc d hd
    rcases apart_calls sp shm ps hn ht c d (hk c hc) (hk d hd) with h | h
    · exact Or.inl h.1
    · exact Or.inr h
  obtain ⟨hok, hget⟩ := sets_spec (callsC sp shm ps) hf ha
  obtain ⟨h1, h2, h3, h4, h5, h6⟩ := distinct_heads
  have hname : ∀ p ∈ ps, p.name ≠ "plugins".toList ∧ p.name ≠ "error".toList ∧ p.name ≠ "warning".toList ∧
      p.name ≠ "shared_memory".toList := by
    intro p hp
    have := (hn.2 p hp).2.2
    simp only [List.mem_cons, List.not_mem_nil, or_false, not_or] at this
    exact this
  -- the list at a path that is none of a plugin's own
  have atPath : ∀ q : List Str, q ≠ [] → (∀ p ∈ ps, q.head? ≠ some p.name) → at_ q (callsC sp shm ps) =
      at_ q (shmC shm) ++ (if q = ["plugins".toList, "names".toList] then ps.map (fun p => Json.str p.name) else []) ++
      (if q = ["error".toList] then (ps.flatMap (·.errors)).map .str else []) ++
      (if q = ["warning".toList] then (ps.flatMap (·.warnings)).map .str else []) := by
    intro q hq hh
    unfold callsC
    rw [at_append, at_append, at_append, at_flatMap]
    congr 1
    · congr 1
      · congr 1
        have : ∀ p ∈ ps, at_ q (plugC sp p) = if q = ["plugins".toList, "names".toList] then [Json.str p.name] else [] := by
          intro p hp
          have hrest : at_ q ((own sp p).map (fun x => Call.plain (p.name :: x.1) x.2)) = [] := by
            refine at_none q _ (fun c hc e => ?_)
            obtain ⟨x, _, rfl⟩ := List.mem_map.1 hc
            simp only [Call.path] at e
            exact hh p hp (by rw [← e]; rfl)
          unfold plugC
          have : at_ q (Call.app ["plugins".toList, "names".toList] (.str p.name) ::
              (own sp p).map (fun x => Call.plain (p.name :: x.1) x.2)) =
              at_ q [Call.app ["plugins".toList, "names".toList] (.str p.name)] ++
              at_ q ((own sp p).map (fun x => Call.plain (p.name :: x.1) x.2)) := by
            rw [← at_append]; rfl
          rw [this, hrest, List.append_nil]
          by_cases e : q = ["plugins".toList, "names".toList]
          · rw [if_pos e]; subst e; exact at_all _ [Json.str p.name]
          · rw [if_neg e]
            refine at_none q _ (fun c hc e' => ?_)
            rw [List.mem_singleton] at hc
            subst hc
            exact e e'.symm
        clear h1 h2 h3 h4 h5 h6 hok hget hf ha hk hname hh
        induction ps with
        | nil => simp
        | cons p ps ih =>
          rw [List.flatMap_cons, this p (by simp), ih ?_ ?_ (fun r hr => this r (by simp [hr]))]
          · by_cases e : q = ["plugins".toList, "names".toList]
            · rw [if_pos e, if_pos e, if_pos e]; rfl
            · rw [if_neg e, if_neg e, if_neg e]; rfl
          · exact ⟨(List.nodup_cons.1 hn.1).2, fun r hr => hn.2 r (by simp [hr])⟩
          · exact fun r hr => ht r (by simp [hr])
      · by_cases e : q = ["error".toList]
        · rw [if_pos e]; subst e; exact at_all _ _
        · rw [if_neg e]
          refine at_none q _ (fun c hc e' => ?_)
          obtain ⟨v, _, rfl⟩ := List.mem_map.1 hc
          exact e e'.symm
    · by_cases e : q = ["warning".toList]
      · rw [if_pos e]; subst e; exact at_all _ _
      · rw [if_neg e]
        refine at_none q _ (fun c hc e' => ?_)
        obtain ⟨v, _, rfl⟩ := List.mem_map.1 hc
        exact e e'.symm
  have shmNone : ∀ q : List Str, q.head? ≠ some "shared_memory".toList → at_ q (shmC shm) = [] := by
    intro q hq
    refine at_none q _ (fun c hc e => ?_)
    cases shm with
    | none => cases hc
    | some b =>
      simp only [shmC, List.mem_singleton] at hc
      subst hc
      exact hq (by rw [← e]; rfl)
  -- reading a path at which values are appended
  have readApp : ∀ q : List Str, Path q → (∀ v, Kind sp shm ps (.app q v)) →
      getParam (some (sets (.obj []) ((callsC sp shm ps).map (fun c => (c.name, c.value)))).1) (join q) =
        if at_ q (callsC sp shm ps) = [] then none else some (.arr (at_ q (callsC sp shm ps))) := by
    intro q hq hv
    refine (hget q hq (fun c hc => ?_)).1 (fun c hc e => ?_)
    · rcases apart_calls sp shm ps hn ht c (.app q .null) (hk c hc) (hv .null) with h | h
      · exact Or.inl h.1
      · exact Or.inr h
    · rcases apart_calls sp shm ps hn ht c (.app q .null) (hk c hc) (hv .null) with h | h
      · exact h.2.1
      · exact absurd (Or.inl (by rw [e]; exact List.prefix_refl _)) h
  -- reading a path that is set
  have readPlain : ∀ c ∈ callsC sp shm ps, c.isApp = false →
      getParam (some (sets (.obj []) ((callsC sp shm ps).map (fun c => (c.name, c.value)))).1) (join c.path) = some c.value := by
    intro c hc hca
    rw [(hget c.path (hf c hc).1 (fun d hd => ?_)).2 (fun d hd e => ?_)]
    · refine at_last _ c hc (fun d hd e => ?_)
      rcases apart_calls sp shm ps hn ht c d (hk c hc) (hk d hd) with h | h
      · exact (h.2.2 hca).symm
      · exact absurd (Or.inl (by rw [e]; exact List.prefix_refl _)) h
    · rcases apart_calls sp shm ps hn ht d c (hk d hd) (hk c hc) with h | h
      · exact Or.inl h.1
      · exact Or.inr h
    · rcases apart_calls sp shm ps hn ht d c (hk d hd) (hk c hc) with h | h
      · rw [h.2.1]; exact hca
      · exact absurd (Or.inl (by rw [e]; exact List.prefix_refl _)) h
  have hd1 : ∀ (a : Str) (l : List Str), (a :: l).head? = some a := fun _ _ => rfl
  refine ⟨hok, ?_, ?_, ?_, ?_, ?_⟩
  · have e : "plugins/names".toList = join ["plugins".toList, "names".toList] := by decide +kernel
    have hat : at_ ["plugins".toList, "names".toList] (callsC sp shm ps) = ps.map (fun p => Json.str p.name) := by
      rw [atPath _ (by simp) (fun p hp h => (hname p hp).1 (by simpa using h.symm)),
        shmNone _ (fun h => h3 (by simpa using h)), if_pos rfl, if_neg (show ["plugins".toList, "names".toList] ≠ ["error".toList] by decide +kernel), if_neg (show ["plugins".toList, "names".toList] ≠ ["warning".toList] by decide +kernel)]
      simp only [List.nil_append, List.append_nil]
    rw [e, readApp ["plugins".toList, "names".toList] (fine_calls sp shm ps hn ht _ (Kind.name .null)).1 (fun v => Kind.name v), hat]
    simp only [List.map_eq_nil_iff]
  · have e : "error".toList = join ["error".toList] := by decide +kernel
    have hat : at_ ["error".toList] (callsC sp shm ps) = (ps.flatMap (·.errors)).map Json.str := by
      rw [atPath _ (by simp) (fun p hp h => (hname p hp).2.1 (by simpa using h.symm)),
        shmNone _ (fun h => h5 (by simpa using h)), if_neg (show ["error".toList] ≠ ["plugins".toList, "names".toList] by decide +kernel), if_pos rfl, if_neg (show ["error".toList] ≠ ["warning".toList] by decide +kernel)]
      simp only [List.nil_append, List.append_nil]
    rw [e, readApp ["error".toList] (fine_calls sp shm ps hn ht _ (Kind.error .null)).1 (fun v => Kind.error v), hat]
    simp only [List.map_eq_nil_iff]
  · have e : "warning".toList = join ["warning".toList] := by decide +kernel
    have hat : at_ ["warning".toList] (callsC sp shm ps) = (ps.flatMap (·.warnings)).map Json.str := by
      rw [atPath _ (by simp) (fun p hp h => (hname p hp).2.2.1 (by simpa using h.symm)),
        shmNone _ (fun h => h6 (by simpa using h)), if_neg (show ["warning".toList] ≠ ["plugins".toList, "names".toList] by decide +kernel), if_neg (show ["warning".toList] ≠ ["error".toList] by decide +kernel), if_pos rfl]
      simp only [List.nil_append, List.append_nil]
    rw [e, readApp ["warning".toList] (fine_calls sp shm ps hn ht _ (Kind.warning .null)).1 (fun v => Kind.warning v), hat]
    simp only [List.map_eq_nil_iff]
  · have e : "shared_memory/configured".toList = join ["shared_memory".toList, "configured".toList] := by decide +kernel
    cases shm with
    | some b =>
      have := readPlain (.plain ["shared_memory".toList, "configured".toList] (.bool b)) (by simp [callsC, shmC]) rfl
      rw [e]
      exact this
    | none =>
      have hfine := (fine_calls sp (some true) ps hn ht _ (Kind.shm true rfl)).1
      have hun : ∀ c ∈ callsC sp none ps, ¬ Related c.path ["shared_memory".toList, "configured".toList] := by
        intro c hc hr
        cases hk c hc with
        | shm b hb => cases hb
        | name v => exact h3 (related_head _ _ _ _ hr)
        | own p x hp hx => exact (hname p hp).2.2.2 (related_head _ _ _ _ hr)
        | error v => exact h5 (related_head _ _ _ _ hr)
        | warning v => exact h6 (related_head _ _ _ _ hr)
      have hr := (hget _ hfine (fun c hc => Or.inr (hun c hc))).2
        (fun c hc e => absurd (Or.inl (by rw [e]; exact List.prefix_refl _)) (hun c hc))
      rw [e]
      refine hr.trans ?_
      rw [at_none _ _ (fun c hc e => hun c hc (Or.inl (by rw [e]; exact List.prefix_refl _)))]
      rfl
  · intro p hp x hx
    have hc : Call.plain (p.name :: x.1) x.2 ∈ callsC sp shm ps := by
      unfold callsC
      refine List.mem_append.2 (Or.inl (List.mem_append.2 (Or.inl (List.mem_append.2 (Or.inr ?_)))))
      refine List.mem_flatMap.2 ⟨p, hp, ?_⟩
      unfold plugC
      exact List.mem_cons.2 (Or.inr (List.mem_map.2 ⟨x, hx, rfl⟩))
    have := readPlain _ hc rfl
    rw [← join_cons p.name x.1 (own_ne sp p (ht p hp) x hx)]
    exact this

/-- A plugin with a name of one character, and one named as the list of errors. -/
def one : Plug := { name := "a".toList }
def err : Plug := { name := "error".toList, last := .num 7, errors := ["E".toList] }

theorem three_apart (t a b c : Str) (va vb vc : Json) (h1 : a ≠ b) (h2 : a ≠ c) (h3 : b ≠ c) :
    ∀ x ∈ [([t, a], va), ([t, b], vb), ([t, c], vc)], ∀ y ∈ [([t, a], va), ([t, b], vb), ([t, c], vc)], x = y ∨ ¬ Related x.1 y.1 := by
  have g : ∀ u w : Str, u ≠ w → ¬ Related [t, u] [t, w] := fun u w h hr => h (related_head _ _ _ _ (related_tail _ _ _ hr))
  intro x hx y hy
  simp only [List.mem_cons, List.not_mem_nil, or_false] at hx hy
  rcases hx with e | e | e <;> rcases hy with f | f | f <;> rw [e, f]
  · exact Or.inl rfl
  · exact Or.inr (g _ _ h1)
  · exact Or.inr (g _ _ h2)
  · exact Or.inr (g _ _ h1.symm)
  · exact Or.inl rfl
  · exact Or.inr (g _ _ h3)
  · exact Or.inr (g _ _ h2.symm)
  · exact Or.inr (g _ _ h3.symm)
  · exact Or.inl rfl

theorem tidy_one (p : Plug) (h : p.status = []) : Tidy (fun _ => []) p where
  keys := h
  path := fun x hx => by cases hx
  apart := three_apart _ _ _ _ _ _ _ (by decide +kernel) (by decide +kernel) (by decide +kernel)

/-- Two plugins, one of which reports two values and an error. -/
def two : List Plug :=
  [{ name := "hdf".toList, status := [("writing".toList, .bool true), ("frames/max".toList, .num 5)], errors := ["disk full".toList] },
   { name := "view".toList, mean := .num 3 }]

example : getParam (some (provideStatus (some true) two).1) "error".toList = some (.arr [.str "disk full".toList]) ∧
    getParam (some (provideStatus (some true) two).1) "view/timing/mean_process".toList = some (.num 3) ∧
    getParam (some (provideStatus (some true) two).1) "hdf/frames/max".toList = some (.num 5) := ⟨rfl, rfl, rfl⟩

/-- C103 does not hold: a plugin whose name has one character makes the request fail. -/
theorem C103_violated : ¬ C103_statement := by
  intro h
  have := (h (fun _ => []) none [one] (by decide +kernel) (by decide +kernel)
    (fun p hp => by rw [List.mem_singleton] at hp; subst hp; exact tidy_one one rfl)).ok
  exact absurd this (by decide +kernel)

/-- A plugin named "error": the reply holds its errors and nothing else about it. -/
theorem C103_error : (provideStatus none [err]).2 = .ok ∧
    getParam (some (provideStatus none [err]).1) "error/timing/last_process".toList = none := ⟨by decide +kernel, rfl⟩

/-! ## C104 -/

/-- The members below "version/name". -/
def fields (v : Json × Json × Json × Json × Json) : List (Str × Json) :=
  [("major".toList, v.1), ("minor".toList, v.2.1), ("patch".toList, v.2.2.1), ("short".toList, v.2.2.2.1), ("full".toList, v.2.2.2.2)]

/-- What the reply should say: the versions of the application and of all plugins. -/
def Versions (own : Json × Json × Json × Json × Json) (ps : List Plug) (r : Json × Res) : Prop :=
  r.2 = .ok ∧ (∀ f ∈ fields own, getParam (some r.1) ("version/odin-data/".toList ++ f.1) = some f.2) ∧
  ∀ p ∈ ps, ∀ f ∈ fields p.version, getParam (some r.1) ("version/".toList ++ p.name ++ '/' :: f.1) = some f.2

/-- C104, full statement: for all plugins of different names. -/
def C104_statement : Prop :=
  ∀ (own : Json × Json × Json × Json × Json) (ps : List Plug), (ps.map (·.name)).Nodup → (∀ p ∈ ps, p.name ≠ [] ∧ '/' ∉ p.name) →
    Versions own ps (provideVersion own ps)

def verC (name : Str) (v : Json × Json × Json × Json × Json) : List Call :=
  (fields v).map (fun f => Call.plain ["version".toList, name, f.1] f.2)

theorem verC_calls (name : Str) (v : Json × Json × Json × Json × Json) :
    versionCalls name v = (verC name v).map (fun c => (c.name, c.value)) := by
  simp [versionCalls, verC, fields, Call.name, Call.value, join]

/-- Reading a path that is set, in a list of calls of which no two differ at a path. -/
theorem read_plain (l : List Call) (hf : ∀ c ∈ l, Fine c)
    (ha : ∀ c ∈ l, ∀ d ∈ l, (c.path = d.path ∧ c.isApp = d.isApp ∧ (c.isApp = false → c.value = d.value)) ∨ ¬ Related c.path d.path)
    (c : Call) (hc : c ∈ l) (hca : c.isApp = false) :
    getParam (some (sets (.obj []) (l.map (fun c => (c.name, c.value)))).1) (join c.path) = some c.value := by
  have hA : ApartC l := by
    intro c hc d hd
    rcases ha c hc d hd with h | h
    · exact Or.inl h.1
    · exact Or.inr h
  obtain ⟨_, hget⟩ := sets_spec l hf hA
  have self : ∀ d : Call, d.path = c.path → Related d.path c.path := fun d e => Or.inl (by rw [e]; exact List.prefix_refl _)
  rw [(hget c.path (hf c hc).1 (fun d hd => hA d hd c hc)).2 (fun d hd e => ?_)]
  · refine at_last _ c hc (fun d hd e => ?_)
    rcases ha d hd c hc with h | h
    · exact h.2.2 (by rw [h.2.1]; exact hca)
    · exact absurd (self d e) h
  · rcases ha d hd c hc with h | h
    · rw [h.2.1]; exact hca
    · exact absurd (self d e) h

theorem fields_one (v : Json × Json × Json × Json × Json) (f g : Str × Json) (hf : f ∈ fields v) (hg : g ∈ fields v) (e : f.1 = g.1) : f = g := by
  have d : (["major".toList, "minor".toList, "patch".toList, "short".toList, "full".toList] : List Str).Nodup := by decide +kernel
  simp only [List.nodup_cons, List.mem_cons, List.not_mem_nil, or_false, not_or] at d
  obtain ⟨⟨a1, a2, a3, a4⟩, ⟨b1, b2, b3⟩, ⟨c1, c2⟩, d1, _⟩ := d
  simp only [fields, List.mem_cons, List.not_mem_nil, or_false] at hf hg
  rcases hf with a | a | a | a | a <;> rcases hg with b | b | b | b | b <;> subst a <;> subst b <;> first
    | rfl
    | exact absurd e (by assumption)
    | exact absurd e.symm (by assumption)

theorem fields_name (v : Json × Json × Json × Json × Json) (f : Str × Json) (hf : f ∈ fields v) : '/' ∉ f.1 ∧ Plain f.1 := by
  have d : ∀ k ∈ (["major".toList, "minor".toList, "patch".toList, "short".toList, "full".toList] : List Str),
      '/' ∉ k ∧ (2 ≤ k.length ∧ k.drop (k.length - 2) ≠ ['[', ']']) := by decide +kernel
  have : f.1 ∈ (["major".toList, "minor".toList, "patch".toList, "short".toList, "full".toList] : List Str) := by
    simp only [fields, List.mem_cons, List.not_mem_nil, or_false] at hf
    rcases hf with a | a | a | a | a <;> subst a <;> simp
  exact ⟨(d _ this).1, plain_of _ (d _ this).2⟩

/-- C104, proved part: no plugin has the name of the application. -/
theorem C104_partial (own : Json × Json × Json × Json × Json) (ps : List Plug) (hn : (ps.map (·.name)).Nodup)
    (hs : ∀ p ∈ ps, '/' ∉ p.name) (ho : ∀ p ∈ ps, p.name ≠ "odin-data".toList) : Versions own ps (provideVersion own ps) := by
  have hc : provideVersion own ps = sets (.obj []) ((verC "odin-data".toList own ++ ps.flatMap (fun p => verC p.name p.version)).map
      (fun c => (c.name, c.value))) := by
    unfold provideVersion
    rw [List.map_append, List.map_flatMap, ← verC_calls]
    simp only [← verC_calls]
  rw [hc]
  have hm : ∀ c ∈ verC "odin-data".toList own ++ ps.flatMap (fun p => verC p.name p.version),
      (∃ f ∈ fields own, c = Call.plain ["version".toList, "odin-data".toList, f.1] f.2) ∨
      ∃ p ∈ ps, ∃ f ∈ fields p.version, c = Call.plain ["version".toList, p.name, f.1] f.2 := by
    intro c hc
    rcases List.mem_append.1 hc with h | h
    · obtain ⟨f, hf, rfl⟩ := List.mem_map.1 h
      exact Or.inl ⟨f, hf, rfl⟩
    · obtain ⟨p, hp, h⟩ := List.mem_flatMap.1 h
      obtain ⟨f, hf, rfl⟩ := List.mem_map.1 h
      exact Or.inr ⟨p, hp, f, hf, rfl⟩
  have fineOf : ∀ (n : Str) v (f : Str × Json), '/' ∉ n → f ∈ fields v → Fine (Call.plain ["version".toList, n, f.1] f.2) := by
    intro n v f hn hf
    obtain ⟨f1, f2⟩ := fields_name v f hf
    refine ⟨⟨by simp [Call.path], ?_⟩, ⟨?_, ?_⟩, fun h => by cases h⟩
    · intro k hk
      simp only [Call.path, List.mem_cons, List.not_mem_nil, or_false] at hk
      rcases hk with e | e | e
      · rw [e]; decide +kernel
      · rw [e]; exact hn
      · rw [e]; exact f1
    · intro k hk
      simp only [Call.path, List.head?_cons, Option.some.injEq] at hk
      subst hk
      exact plain_of _ (by decide +kernel)
    · intro k hk
      simp only [Call.path, List.getLast?_cons_cons, List.getLast?_singleton, Option.some.injEq] at hk
      subst hk
      exact f2
  have slash : '/' ∉ "odin-data".toList := by decide +kernel
  have hF : ∀ c ∈ verC "odin-data".toList own ++ ps.flatMap (fun p => verC p.name p.version), Fine c := by
    intro c hc
    rcases hm c hc with ⟨f, hf, rfl⟩ | ⟨p, hp, f, hf, rfl⟩
    · exact fineOf _ _ f slash hf
    · exact fineOf _ _ f (hs p hp) hf
  have same : ∀ (n n' f f' : Str), Related ["version".toList, n, f] ["version".toList, n', f'] → n = n' ∧ f = f' := by
    intro n n' f f' h
    have h1 := related_tail _ _ _ h
    have e := related_head _ _ _ _ h1
    subst e
    have h2 := related_tail _ _ _ h1
    exact ⟨rfl, related_head _ _ _ _ h2⟩
  have hA : ∀ c ∈ verC "odin-data".toList own ++ ps.flatMap (fun p => verC p.name p.version),
      ∀ d ∈ verC "odin-data".toList own ++ ps.flatMap (fun p => verC p.name p.version),
      (c.path = d.path ∧ c.isApp = d.isApp ∧ (c.isApp = false → c.value = d.value)) ∨ ¬ Related c.path d.path := by
    intro c hc d hd
    by_cases hr : Related c.path d.path
    · left
      rcases hm c hc with ⟨f, hf, rfl⟩ | ⟨p, hp, f, hf, rfl⟩ <;> rcases hm d hd with ⟨g, hg, rfl⟩ | ⟨q, hq, g, hg, rfl⟩ <;>
        obtain ⟨e1, e2⟩ := same _ _ _ _ hr
      · rw [fields_one own f g hf hg e2]; simp
      · exact absurd e1.symm (ho q hq)
      · exact absurd e1 (ho p hp)
      · have e := same_plug ps hn p q hp hq e1
        subst e
        rw [fields_one p.version f g hf hg e2]; simp
    · exact Or.inr hr
  have hA' : ApartC (verC "odin-data".toList own ++ ps.flatMap (fun p => verC p.name p.version)) := by
    intro c hc d hd
    rcases hA c hc d hd with h | h
    · exact Or.inl h.1
    · exact Or.inr h
  refine ⟨(sets_spec _ hF hA').1, fun f hf => ?_, fun p hp f hf => ?_⟩
  · have := read_plain _ hF hA (Call.plain ["version".toList, "odin-data".toList, f.1] f.2)
      (List.mem_append.2 (Or.inl (List.mem_map.2 ⟨f, hf, rfl⟩))) rfl
    simpa [Call.path, Call.value, join] using this
  · have := read_plain _ hF hA (Call.plain ["version".toList, p.name, f.1] f.2)
      (List.mem_append.2 (Or.inr (List.mem_flatMap.2 ⟨p, hp, List.mem_map.2 ⟨f, hf, rfl⟩⟩))) rfl
    simpa [Call.path, Call.value, join] using this

/-- C104 does not hold: a plugin named "odin-data" hides the version of the application. -/
theorem C104_violated : ¬ C104_statement := by
  intro h
  have := (h (.num 1, .num 0, .num 0, .str [], .str []) [{ name := "odin-data".toList }] (by decide +kernel) (by decide +kernel)).2.1
    ("major".toList, .num 1) (by simp [fields])
  have e : getParam (some (provideVersion (.num 1, .num 0, .num 0, .str [], .str []) [{ name := "odin-data".toList }]).1)
    ("version/odin-data/".toList ++ "major".toList) = some (.num 0) := rfl
  rw [e] at this
  cases this

/-- Two plugins, one of them with a name of one character. -/
example : ((["a".toList, "hdf".toList] : List Str)).Nodup ∧ getParam (some (provideVersion (.num 1, .num 9, .num 0, .str [], .str [])
    [{ name := "a".toList }, { name := "hdf".toList, version := (.num 3, .num 4, .num 5, .str "x".toList, .str []) }]).1)
    "version/hdf/minor".toList = some (.num 4) := ⟨by decide +kernel, rfl⟩

/-! ## C105 -/

/-- What the reply should say: the commands of every plugin. -/
def Commands (ps : List Plug) (r : Json × Res) : Prop :=
  r.2 = .ok ∧ ∀ p ∈ ps, getParam (some r.1) (p.name ++ "/command".toList) =
    if p.commands = [] then none else some (.arr (p.commands.map .str))

/-- C105, full statement: for all plugins of different names. -/
def C105_statement : Prop :=
  ∀ ps : List Plug, (ps.map (·.name)).Nodup → (∀ p ∈ ps, p.name ≠ [] ∧ '/' ∉ p.name) → Commands ps (requestCommands ps)

def comC (p : Plug) : List Call := p.commands.map (fun c => Call.app [p.name, "command".toList] (.str c))

/-- C105, proved part: for names of at least two characters that do not end in "[]". -/
theorem C105_partial (ps : List Plug) (hn : (ps.map (·.name)).Nodup) (hs : ∀ p ∈ ps, Plain p.name ∧ '/' ∉ p.name) :
    Commands ps (requestCommands ps) := by
  have hc : requestCommands ps = sets (.obj []) ((ps.flatMap comC).map (fun c => (c.name, c.value))) := by
    unfold requestCommands
    rw [List.map_flatMap]
    congr 2
    funext p
    simp [comC, Call.name, Call.value, join]
  have hm : ∀ c ∈ ps.flatMap comC, ∃ p ∈ ps, ∃ k, c = Call.app [p.name, "command".toList] k := by
    intro c hc
    obtain ⟨p, hp, h⟩ := List.mem_flatMap.1 hc
    obtain ⟨k, hk, rfl⟩ := List.mem_map.1 h
    exact ⟨p, hp, _, rfl⟩
  have hpath : ∀ p ∈ ps, Path [p.name, "command".toList] := by
    refine fun p hp => ⟨by simp, fun k hk => ?_⟩
    simp only [List.mem_cons, List.not_mem_nil, or_false] at hk
    rcases hk with e | e
    · rw [e]; exact (hs p hp).2
    · rw [e]; decide +kernel
  have hF : ∀ c ∈ ps.flatMap comC, Fine c := by
    intro c hc
    obtain ⟨p, hp, k, rfl⟩ := hm c hc
    refine ⟨hpath p hp, ⟨?_, ?_⟩, fun _ => ?_⟩
    · intro k hk
      simp only [Call.path, List.head?_cons, Option.some.injEq] at hk
      subst hk
      exact (hs p hp).1
    · intro k hk
      simp only [Call.path, List.getLast?_cons_cons, List.getLast?_singleton, Option.some.injEq] at hk
      subst hk
      exact plain_of _ (by decide +kernel)
    · intro s hs' hmem
      simp only [Call.path, List.getLast?_cons_cons, List.getLast?_singleton, Option.some.injEq] at hs'
      subst hs'
      simp only [Call.path, List.mem_cons, List.not_mem_nil, or_false] at hmem
      rcases hmem with e | e
      · exact (hs p hp).1.2 _ e.symm
      · exact absurd e (by decide +kernel)
  have hA : ∀ p ∈ ps, ∀ c ∈ ps.flatMap comC, c.path = [p.name, "command".toList] ∨ ¬ Related c.path [p.name, "command".toList] := by
    intro p hp c hc
    obtain ⟨q, hq, k, rfl⟩ := hm c hc
    by_cases hr : Related [q.name, "command".toList] [p.name, "command".toList]
    · exact Or.inl (by rw [← related_head _ _ _ _ hr]; rfl)
    · exact Or.inr hr
  have hA' : ApartC (ps.flatMap comC) := by
    intro c hc d hd
    obtain ⟨p, hp, k, rfl⟩ := hm d hd
    exact hA p hp c hc
  obtain ⟨h1, h2⟩ := sets_spec _ hF hA'
  rw [hc]
  refine ⟨h1, fun p hp => ?_⟩
  have hr := (h2 [p.name, "command".toList] (hpath p hp) (hA p hp)).1 (fun c hc _ => by
    obtain ⟨q, hq, k, rfl⟩ := hm c hc
    rfl)
  have hat : at_ [p.name, "command".toList] (ps.flatMap comC) = p.commands.map .str := by
    rw [at_flatMap]
    clear h1 h2 hr hc hm hpath hF hA hA' hs
    have other : ∀ q : Plug, q.name ≠ p.name → at_ [p.name, "command".toList] (comC q) = [] := by
      refine fun q hq => at_none _ _ (fun c hc e => ?_)
      obtain ⟨k, hk, rfl⟩ := List.mem_map.1 hc
      exact hq (List.cons.inj e).1
    have this' : at_ [p.name, "command".toList] (comC p) = p.commands.map .str := by
      have : comC p = (p.commands.map Json.str).map (Call.app [p.name, "command".toList]) := by simp [comC, Function.comp_def]
      rw [this, at_all]
    induction ps with
    | nil => cases hp
    | cons q ps ih =>
      simp only [List.map_cons, List.nodup_cons] at hn
      rw [List.flatMap_cons]
      rcases List.mem_cons.1 hp with e | h
      · subst e
        rw [this', List.flatMap_eq_nil_iff.2 (fun q hq => other q (fun e => hn.1 (List.mem_map.2 ⟨q, hq, e⟩))), List.append_nil]
      · rw [other q (fun e => hn.1 (List.mem_map.2 ⟨p, h, e.symm⟩)), List.nil_append, ih hn.2 h]
  rw [hat] at hr
  simpa [join] using hr

/-- C105 does not hold: a plugin whose name has one character makes the request fail. -/
theorem C105_violated : ¬ C105_statement := by
  intro h
  have := (h [{ name := "a".toList, commands := ["go".toList] }] (by decide +kernel) (by decide +kernel)).1
  exact absurd this (by decide +kernel)

example : getParam (some (requestCommands [{ name := "hdf".toList, commands := ["go".toList, "stop".toList] }, { name := "view".toList }]).1)
    "hdf/command".toList = some (.arr [.str "go".toList, .str "stop".toList]) := rfl

/-! ## C106 -/

/-- The command a message holds for a plugin. -/
def asked (params : Option Json) (name : Str) : Option Str :=
  match getParam params name with
  | none => none
  | some sub =>
    match getParam (some sub) "command".toList with
    | some (.str c) => some c
    | _ => none

/-- C106, full statement: a request that is acknowledged was executed in full, and a refused command does not keep other plugins from
executing theirs. -/
def C106_statement : Prop :=
  ∀ (run : Str → Str → Out) (params : Option Json) (names : List Str), names.Nodup →
    ((execute run params names).nack = false → (execute run params names).thrown = false →
      ∀ name c, asked params name = some c → (name, c) ∈ (execute run params names).log ∧ run name c = .done) ∧
    ∀ name ∈ names, ∀ c, asked params name = some c → (name, c) ∈ (execute run params names).log

/-- The commands for loaded plugins. -/
def wanted (params : Option Json) (names : List Str) : List (Str × Str) :=
  names.filterMap (fun n => (asked params n).map (fun c => (n, c)))

theorem has_get (p : List Str) (j : Json) :
    (has p j = some true → ∃ v, Ipc.get p j = some v) ∧ (has p j ≠ some true → Ipc.get p j = none) := by
  induction p generalizing j with
  | nil => exact ⟨fun _ => ⟨j, rfl⟩, fun h => absurd rfl h⟩
  | cons k ks ih =>
    cases j with
    | obj l =>
      simp only [has, Ipc.get]
      cases hf : findM l k with
      | none => simp
      | some v =>
        simp only [Option.bind_some]
        cases ks with
        | nil => simp [Ipc.get]
        | cons k' ks => exact ih v
    | _ => simp [has, Ipc.get]

theorem hasParam_get (params : Option Json) (n : Str) :
    (hasParam params n = some true → ∃ v, getParam params n = some v) ∧ (hasParam params n ≠ some true → getParam params n = none) := by
  cases params with
  | none => simp [hasParam, getParam]
  | some j => exact has_get (splitAll n) j

/-- One turn: nothing, an exception before the plugin is called, or the command of that plugin. -/
theorem execOne_cases (run : Str → Str → Out) (params : Option Json) (s : Exec) (n : Str) :
    (execOne run params s n = s ∧ asked params n = none) ∨
    ((execOne run params s n).thrown = true ∧ (execOne run params s n).log = s.log ∧ asked params n = none) ∨
    ∃ c, asked params n = some c ∧ execOne run params s n =
      { log := s.log ++ [(n, c)], present := true, nack := s.nack || (run n c == .nack), thrown := run n c == .throws } := by
  obtain ⟨a1, a2⟩ := hasParam_get params n
  unfold execOne asked
  cases h : hasParam params n with
  | none =>
    rw [a2 (by rw [h]; simp)]
    exact Or.inr (Or.inl ⟨rfl, rfl, rfl⟩)
  | some b =>
    cases b with
    | false =>
      rw [a2 (by rw [h]; simp)]
      exact Or.inl ⟨rfl, rfl⟩
    | true =>
      obtain ⟨sub, hs⟩ := a1 h
      obtain ⟨b1, b2⟩ := hasParam_get (some sub) "command".toList
      simp only [hs]
      cases h' : hasParam (some sub) "command".toList with
      | none =>
        rw [b2 (by rw [h']; simp)]
        exact Or.inr (Or.inl ⟨rfl, rfl, rfl⟩)
      | some b =>
        cases b with
        | false =>
          rw [b2 (by rw [h']; simp)]
          exact Or.inl ⟨rfl, rfl⟩
        | true =>
          obtain ⟨v, hv⟩ := b1 h'
          simp only [hv, Option.bind_some]
          cases v with
          | str c => exact Or.inr (Or.inr ⟨c, rfl, rfl⟩)
          | _ => exact Or.inr (Or.inl ⟨rfl, rfl, rfl⟩)

/-- What the loop has done when it ends. -/
theorem execLoop_spec (run : Str → Str → Out) (params : Option Json) (names : List Str) (s : Exec) (hs : s.thrown = false) :
    (∃ k, (execLoop run params s names).log = s.log ++ (wanted params names).take k ∧
      ((execLoop run params s names).thrown = false → k = (wanted params names).length)) ∧
    ((execLoop run params s names).thrown = false →
      ((execLoop run params s names).present = (s.present || !(wanted params names).isEmpty)) ∧
      ((execLoop run params s names).nack = (s.nack || (wanted params names).any (fun x => run x.1 x.2 == .nack))) ∧
      ∀ x ∈ wanted params names, run x.1 x.2 ≠ .throws) := by
  induction names generalizing s with
  | nil =>
    refine ⟨⟨0, by simp [execLoop], fun _ => by simp [wanted]⟩, fun _ => ?_⟩
    simp [execLoop, wanted]
  | cons n names ih =>
    have hw : wanted params (n :: names) = (match asked params n with | none => [] | some c => [(n, c)]) ++ wanted params names := by
      simp only [wanted, List.filterMap_cons]
      cases asked params n <;> rfl
    simp only [execLoop]
    rcases execOne_cases run params s n with ⟨e, ha⟩ | ⟨ht, hl, ha⟩ | ⟨c, ha, e⟩
    · rw [e, hs, if_neg (by simp), hw, ha]
      exact ih s hs
    · rw [if_pos ht]
      refine ⟨⟨0, by simp [hl], fun h => ?_⟩, fun h => ?_⟩ <;> rw [ht] at h <;> cases h
    · rw [hw, ha]
      by_cases ht : run n c = .throws
      · have h1 : (execOne run params s n).thrown = true := by rw [e]; simp [ht]
        rw [if_pos h1]
        refine ⟨⟨1, by rw [e]; simp, fun h => ?_⟩, fun h => ?_⟩ <;> rw [h1] at h <;> cases h
      · have h1 : (execOne run params s n).thrown = false := by rw [e]; simp [ht]
        rw [if_neg (by rw [h1]; simp)]
        obtain ⟨⟨k, i1, i2⟩, i3⟩ := ih (execOne run params s n) h1
        refine ⟨⟨k + 1, ?_, fun h => ?_⟩, fun h => ?_⟩
        · rw [i1, e]
          simp
        · rw [i2 h]; simp
        · obtain ⟨j1, j2, j3⟩ := i3 h
          rw [j1, j2, e]
          refine ⟨by simp, by simp [Bool.or_assoc], fun x hx => ?_⟩
          rcases List.mem_append.1 hx with hx | hx
          · rw [List.mem_singleton] at hx; subst hx; exact ht
          · exact j3 x hx

/-- C106, proved part: the commands are those the message holds for loaded plugins, in the order of the plugins, up to the first exception; a
request that ends without one was executed in full for the loaded plugins, is refused if one of them refused, and is refused if it held no
command for any of them. -/
theorem C106_partial (run : Str → Str → Out) (params : Option Json) (names : List Str) :
    (execute run params names).log <+: wanted params names ∧
    ((execute run params names).thrown = false →
      (execute run params names).log = wanted params names ∧ (∀ x ∈ wanted params names, run x.1 x.2 ≠ .throws) ∧
      ((execute run params names).nack = true ↔ wanted params names = [] ∨ ∃ x ∈ wanted params names, run x.1 x.2 = .nack)) := by
  obtain ⟨⟨k, i1, i2⟩, i3⟩ := execLoop_spec run params names {} rfl
  have hlog : (execute run params names).log = (execLoop run params {} names).log := by
    unfold execute
    split <;> rfl
  have hthr : (execute run params names).thrown = (execLoop run params {} names).thrown := by
    unfold execute
    split <;> rfl
  rw [hlog, hthr]
  refine ⟨by rw [i1]; exact List.take_prefix _ _, fun h => ?_⟩
  obtain ⟨j1, j2, j3⟩ := i3 h
  refine ⟨by rw [i1, i2 h]; simp, j3, ?_⟩
  unfold execute
  rw [if_neg (by rw [h]; simp)]
  simp only [j1, j2]
  cases hw : wanted params names with
  | nil => simp
  | cons x l => simp

/-- What a message holds for a plugin is an object, and the command in it a string. -/
def Formed (l : List (Str × Json)) (n : Str) : Prop :=
  '/' ∉ n ∧ ∀ sub, findM l n = some sub → ∃ m, sub = .obj m ∧ ∀ v, findM m "command".toList = some v → ∃ c, v = .str c

/-- With such a message, nothing is thrown before a plugin is called. -/
theorem formed_asked (run : Str → Str → Out) (l : List (Str × Json)) (n : Str) (h : Formed l n) (s : Exec) (hs : s.thrown = false)
    (ht : (execOne run (some (.obj l)) s n).thrown = true) : ∃ c, asked (some (.obj l)) n = some c := by
  obtain ⟨h1, h2⟩ := h
  have sp : ∀ n : Str, '/' ∉ n → splitAll n = [n] := fun n h => by
    have := splitAll_join [n] ⟨by simp, by simpa using h⟩
    simpa [join] using this
  have hcom : '/' ∉ "command".toList := by decide +kernel
  cases hf : findM l n with
  | none =>
    have : hasParam (some (.obj l)) n = some false := by simp [hasParam, sp n h1, has, hf]
    simp only [execOne, this] at ht
    rw [hs] at ht; cases ht
  | some sub =>
    obtain ⟨m, rfl, h3⟩ := h2 sub hf
    have e1 : hasParam (some (.obj l)) n = some true := by simp [hasParam, sp n h1, has, hf]
    have e2 : getParam (some (.obj l)) n = some (.obj m) := by simp [getParam, sp n h1, Ipc.get, hf]
    cases hc : findM m "command".toList with
    | none =>
      have : hasParam (some (.obj m)) "command".toList = some false := by simp only [hasParam, sp _ hcom, has, hc]
      simp only [execOne, e1, e2, this] at ht
      rw [hs] at ht; cases ht
    | some v =>
      obtain ⟨c, rfl⟩ := h3 v hc
      have : getParam (some (.obj m)) "command".toList = some (.str c) := by
        simp only [getParam, Option.bind_some, sp _ hcom, Ipc.get, hc]
      exact ⟨c, by simp only [asked, e2, this]⟩

/-- With plugins that support what they are asked, a well-formed request for loaded plugins only satisfies C106 in full. -/
theorem C106_loaded_partial (run : Str → Str → Out) (l : List (Str × Json)) (names : List Str)
    (hrun : ∀ x ∈ wanted (some (.obj l)) names, run x.1 x.2 ≠ .throws) (hform : ∀ n ∈ names, Formed l n)
    (hload : ∀ n c, asked (some (.obj l)) n = some c → n ∈ names) :
    (execute run (some (.obj l)) names).thrown = false ∧
    ((execute run (some (.obj l)) names).nack = false → ∀ name c, asked (some (.obj l)) name = some c → (name, c) ∈ (execute run (some (.obj l)) names).log ∧
      run name c = .done) ∧
    ∀ name c, asked (some (.obj l)) name = some c → (name, c) ∈ (execute run (some (.obj l)) names).log := by
  have ht : ∀ (ns : List Str) (s : Exec), s.thrown = false → (∀ n ∈ ns, n ∈ names) → (execLoop run (some (.obj l)) s ns).thrown = false := by
    intro ns
    induction ns with
    | nil => intro s hs _; exact hs
    | cons n ns ih =>
      intro s hs hl
      have h1 : (execOne run (some (.obj l)) s n).thrown = false := by
        rcases execOne_cases run (some (.obj l)) s n with ⟨e, _⟩ | ⟨h, _, ha⟩ | ⟨c, ha, e⟩
        · rw [e]; exact hs
        · obtain ⟨c, hc⟩ := formed_asked run l n (hform n (hl n (by simp))) s hs h
          rw [ha] at hc; cases hc
        · rw [e]
          have : run n c ≠ .throws := hrun (n, c) (List.mem_filterMap.2 ⟨n, hl n (by simp), by rw [ha]; rfl⟩)
          simpa using this
      simp only [execLoop]
      rw [if_neg (by rw [h1]; simp)]
      exact ih _ h1 (fun m hm => hl m (by simp [hm]))
  have hthr : (execute run (some (.obj l)) names).thrown = (execLoop run (some (.obj l)) {} names).thrown := by
    unfold execute
    split <;> rfl
  have h0 : (execute run (some (.obj l)) names).thrown = false := by rw [hthr]; exact ht names {} rfl (fun _ h => h)
  obtain ⟨h1, h2, h3⟩ := (C106_partial run (some (.obj l)) names).2 h0
  have hmem : ∀ name c, asked (some (.obj l)) name = some c → (name, c) ∈ wanted (some (.obj l)) names :=
    fun name c h => List.mem_filterMap.2 ⟨name, hload name c h, by rw [h]; rfl⟩
  refine ⟨h0, fun hn name c ha => ⟨by rw [h1]; exact hmem name c ha, ?_⟩, fun name c ha => by rw [h1]; exact hmem name c ha⟩
  have n1 := hrun _ (hmem name c ha)
  have n2 : run name c ≠ .nack := fun e => by
    have := h3.2 (Or.inr ⟨_, hmem name c ha, e⟩)
    rw [hn] at this
    cases this
  cases hr : run name c with
  | done => rfl
  | nack => exact absurd hr n2
  | throws => exact absurd hr n1

/-- A message with commands for two plugins. -/
def both : Json := .obj [("hdf".toList, .obj [("command".toList, .str "go".toList)]), ("view".toList, .obj [("command".toList, .str "go".toList)])]

/-- C106 does not hold: a command for a plugin that is not loaded is acknowledged with one for a plugin that is. -/
theorem C106_violated : ¬ C106_statement := by
  intro h
  have := ((h (fun _ _ => .done) (some both) ["hdf".toList] (by decide +kernel)).1 (by decide +kernel) (by decide +kernel)
    "view".toList "go".toList rfl).1
  exact absurd this (by decide +kernel)

/-- A plugin that does not support the command keeps the next one from executing its own. -/
theorem C106_stopped : asked (some both) "view".toList = some "go".toList ∧
    (execute (fun n _ => if n = "hdf".toList then .throws else .done) (some both) ["hdf".toList, "view".toList]).log =
      [("hdf".toList, "go".toList)] := ⟨rfl, by decide +kernel⟩

example : (execute (fun _ _ => .done) (some both) ["hdf".toList, "view".toList]).log = [("hdf".toList, "go".toList), ("view".toList, "go".toList)] ∧
    (execute (fun _ _ => .done) (some both) ["hdf".toList, "view".toList]).nack = false ∧
    (execute (fun _ _ => .done) (some both) ["other".toList]).nack = true := by decide +kernel

/-! ## C107 -/

/-- C107: every plugin is reset once, in order; the reply is a refusal exactly if one of them failed, and names the last one that did. -/
theorem C107 (l : List (Str × Bool)) :
    (reset {} l).calls = l.map (·.1) ∧ ((reset {} l).nack = true ↔ ∃ x ∈ l, x.2 = false) ∧
    (reset {} l).error = ((l.filter (fun x => !x.2)).map (·.1)).getLast? := by
  have g : ∀ (l : List (Str × Bool)) (r : Reset), (reset r l).calls = r.calls ++ l.map (·.1) ∧
      ((reset r l).nack = true ↔ r.nack = true ∨ ∃ x ∈ l, x.2 = false) ∧
      (reset r l).error = (((l.filter (fun x => !x.2)).map (·.1)).getLast?).or r.error := by
    intro l
    induction l with
    | nil => intro r; simp [reset]
    | cons x l ih =>
      intro r
      obtain ⟨n, ok⟩ := x
      simp only [reset]
      cases ok with
      | true =>
        obtain ⟨i1, i2, i3⟩ := ih { r with calls := r.calls ++ [n] }
        rw [if_pos rfl, i1, i2, i3]
        simp
      | false =>
        obtain ⟨i1, i2, i3⟩ := ih { calls := r.calls ++ [n], nack := true, error := some n }
        rw [if_neg (by simp), i1, i2, i3]
        refine ⟨by simp, by simp, ?_⟩
        simp only [Bool.not_false, List.filter_cons_of_pos, List.map_cons, List.getLast?_cons]
        cases ((l.filter (fun x => !x.2)).map (·.1)).getLast? <;> rfl
  obtain ⟨h1, h2, h3⟩ := g l {}
  refine ⟨by rw [h1]; rfl, by rw [h2]; simp, by rw [h3]; simp⟩

example : (reset {} [("a".toList, false), ("b".toList, true), ("c".toList, false)]).error = some "c".toList ∧
    (reset {} [("a".toList, false), ("b".toList, true), ("c".toList, false)]).nack = true := by decide +kernel

end Verif.Reply
