import Verif.Model.ParamAdjust
import Verif.Lemmas.StdMap
/-! Property C22: parameter and offset adjustment. -/
namespace Verif.ParamAdjust
open Verif.StdMap

namespace Spec

/-- The value an adjustment reads: the frame number, or the input parameter. A parameter that is itself
adjusted counts with its new value if its name comes first in the alphabet. -/
def source (s : State) (f g : Frame) (name : String) : Option Value :=
  if (find s.adjustments (s.input name)).isSome ∧ s.input name < name then find g.params (s.input name)
  else find f.params (s.input name)

/-- What the frame has to carry under `name` after the adjustment. -/
def expected (s : State) (f g : Frame) (name : String) (adj : Int) : Option Value :=
  if s.input name = "" then some (.u64 ((f.number + adj) % 2 ^ 64).toNat)
  else match source s f g name with
    | some (.u64 v) => some (.u64 ((v + adj) % 2 ^ 64).toNat)
    | _ => find f.params name

/-- The error to be reported for one adjustment. -/
def complaint (s : State) (f g : Frame) (x : String × Int) : List Err :=
  if s.input x.1 = "" then []
  else match source s f g x.1 with
    | some (.u64 _) => []
    | some (.other _) => [.badInput x.1]
    | none => [.noInput (s.input x.1)]

/-- No addition to the frame number leaves 64 bits. -/
def NoOverflow (s : State) (f : Frame) : Prop :=
  ∀ x ∈ s.adjustments, s.input x.1 = "" → I64 (f.number + x.2)

end Spec
open Spec

/-! ## The loop -/

theorem adjust_other (s : State) (number : Int) (name : String) (adj : Int) (p q : Map Value × List Err)
    (ho : Ordered p.1) (h : adjust s number name adj p = some q) (k : String) (hk : name ≠ k) :
    find q.1 k = find p.1 k := by
  unfold adjust at h
  split at h
  · split at h
    · cases h; rw [find_set _ _ _ _ ho, if_neg hk]
    · cases h
  · split at h
    · cases h; rfl
    · cases h; rw [find_set _ _ _ _ ho, if_neg hk]
    · cases h; rfl

theorem adjust_ordered (s : State) (number : Int) (name : String) (adj : Int) (p q : Map Value × List Err)
    (ho : Ordered p.1) (h : adjust s number name adj p = some q) : Ordered q.1 := by
  unfold adjust at h
  split at h
  · split at h
    · cases h; exact ordered_set _ _ _ ho
    · cases h
  · split at h
    · cases h; exact ho
    · cases h; exact ordered_set _ _ _ ho
    · cases h; exact ho

theorem adjustAll_ordered (s : State) (number : Int) (m : Map Int) : ∀ (p q : Map Value × List Err),
    Ordered p.1 → adjustAll s number m p = some q → Ordered q.1 := by
  induction m with
  | nil => intro p q ho h; cases h; exact ho
  | cons x m ih =>
    intro p q ho h
    obtain ⟨r, hr, h⟩ := Option.bind_eq_some_iff.1 h
    exact ih r q (adjust_ordered s number _ _ p r ho hr) h

theorem adjustAll_other (s : State) (number : Int) (m : Map Int) : ∀ (p q : Map Value × List Err),
    Ordered p.1 → adjustAll s number m p = some q → ∀ k, (∀ x ∈ m, x.1 ≠ k) → find q.1 k = find p.1 k := by
  induction m with
  | nil => intro p q _ h k _; cases h; rfl
  | cons x m ih =>
    intro p q ho h k hk
    obtain ⟨r, hr, h⟩ := Option.bind_eq_some_iff.1 h
    rw [ih r q (adjust_ordered s number _ _ p r ho hr) h k (fun y hy => hk y (List.mem_cons_of_mem _ hy))]
    exact adjust_other s number _ _ p r ho hr k (hk x (by simp))

theorem adjustAll_append (s : State) (number : Int) (m m' : Map Int) : ∀ p,
    adjustAll s number (m ++ m') p = (adjustAll s number m p).bind (adjustAll s number m') := by
  induction m with
  | nil => intro p; rfl
  | cons x m ih =>
    intro p
    obtain ⟨k, a⟩ := x
    simp only [List.cons_append, adjustAll]
    cases adjust s number k a p with
    | none => rfl
    | some r => exact ih r

/-- No overflow: the loop ends. -/
theorem adjustAll_some (s : State) (number : Int) (m : Map Int)
    (h : ∀ x ∈ m, s.input x.1 = "" → I64 (number + x.2)) : ∀ p, ∃ q, adjustAll s number m p = some q := by
  induction m with
  | nil => intro p; exact ⟨p, rfl⟩
  | cons x m ih =>
    intro p
    obtain ⟨k, a⟩ := x
    have : ∃ r, adjust s number k a p = some r := by
      unfold adjust
      split
      · rename_i hi
        rw [if_pos (h (k, a) (by simp) hi)]
        exact ⟨_, rfl⟩
      · split
        · exact ⟨_, rfl⟩
        · exact ⟨_, rfl⟩
        · exact ⟨_, rfl⟩
    obtain ⟨r, hr⟩ := this
    obtain ⟨q, hq⟩ := ih (fun y hy => h y (List.mem_cons_of_mem _ hy)) r
    exact ⟨q, by simp only [adjustAll, hr, Option.bind_some, hq]⟩

/-- The value an entry of the loop reads. -/
theorem adjustAll_source (s : State) (f : Frame) (ha : Ordered s.adjustments) (hp : Ordered f.params)
    (m1 m2 : Map Int) (name : String) (adj : Int) (hm : s.adjustments = m1 ++ (name, adj) :: m2)
    (r t q : Map Value × List Err) (hr : adjustAll s f.number m1 (f.params, []) = some r)
    (ht : adjust s f.number name adj r = some t) (hq : adjustAll s f.number m2 t = some q) :
    find r.1 (s.input name) = source s f { f with params := q.1 } name := by
  have ha' := ha
  unfold Ordered at ha'
  rw [hm, List.pairwise_append, List.pairwise_cons] at ha'
  obtain ⟨-, ⟨h2, -⟩, h12⟩ := ha'
  have hro := adjustAll_ordered _ _ _ _ _ hp hr
  have hto := adjust_ordered _ _ _ _ _ _ hro ht
  have later : ∀ k, (∀ y ∈ m2, y.1 ≠ k) → find q.1 k = find t.1 k :=
    fun k hk => adjustAll_other _ _ _ _ _ hto hq k hk
  unfold source
  by_cases hc : (find s.adjustments (s.input name)).isSome ∧ s.input name < name
  · rw [if_pos hc]
    show find r.1 (s.input name) = find q.1 (s.input name)
    rw [later (s.input name) (fun y hy e => by
      have := h2 y hy; rw [e] at this
      exact String.lt_irrefl _ (String.lt_trans this hc.2))]
    refine (adjust_other _ _ _ _ _ _ hro ht _ ?_).symm
    intro e; have := hc.2; rw [← e] at this; exact String.lt_irrefl _ this
  · rw [if_neg hc]
    refine adjustAll_other _ _ _ _ _ hp hr _ ?_
    intro y hy e
    apply hc
    have hmem : y ∈ s.adjustments := by rw [hm]; simp [hy]
    have hlt := h12 y hy (name, adj) (by simp)
    refine ⟨?_, by rw [← e]; exact hlt⟩
    rw [← e, mem_find _ y.1 y.2 ha hmem]; rfl

/-! ## C22 -/

/-- C22, full statement: every frame is passed on, every configured parameter is adjusted once, with
64-bit wrap-around, and everything else is unchanged. -/
def C22_statement : Prop :=
  ∀ (s : State) (f : Frame), Ordered s.adjustments → Ordered f.params →
    ∃ g errs, processFrame s f = some (g, errs) ∧ g.number = f.number ∧ g.offset = f.offset ∧
      (∀ x ∈ s.adjustments, find g.params x.1 = expected s f g x.1 x.2) ∧
      (∀ k, (∀ x ∈ s.adjustments, x.1 ≠ k) → find g.params k = find f.params k)

/-- C22, proved part: if no sum of frame number and adjustment leaves 64 bits. Missing: the signed overflow
(`C22_violated`). -/
theorem C22_partial (s : State) (f : Frame) (ha : Ordered s.adjustments) (hp : Ordered f.params)
    (hov : NoOverflow s f) :
    ∃ g errs, processFrame s f = some (g, errs) ∧ g.number = f.number ∧ g.offset = f.offset ∧
      (∀ x ∈ s.adjustments, find g.params x.1 = expected s f g x.1 x.2) ∧
      (∀ k, (∀ x ∈ s.adjustments, x.1 ≠ k) → find g.params k = find f.params k) := by
  obtain ⟨q, hq⟩ := adjustAll_some s f.number s.adjustments hov (f.params, [])
  refine ⟨{ f with params := q.1 }, q.2, by unfold processFrame; rw [hq]; rfl, rfl, rfl, ?_, ?_⟩
  · intro x hx
    obtain ⟨name, adj⟩ := x
    obtain ⟨m1, m2, hm⟩ := List.append_of_mem hx
    have ha' := ha
    unfold Ordered at ha'
    rw [hm, List.pairwise_append, List.pairwise_cons] at ha'
    obtain ⟨-, ⟨h2, -⟩, h12⟩ := ha'
    have hq' := hq
    rw [hm, adjustAll_append] at hq'
    obtain ⟨r, hr, hq'⟩ := Option.bind_eq_some_iff.1 hq'
    obtain ⟨t, ht, hq'⟩ := Option.bind_eq_some_iff.1 hq'
    have hro := adjustAll_ordered _ _ _ _ _ hp hr
    have hto := adjust_ordered _ _ _ _ _ _ hro ht
    -- nothing after the entry touches this name or an earlier one
    have later : ∀ k, (∀ y ∈ m2, y.1 ≠ k) → find q.1 k = find t.1 k :=
      fun k hk => adjustAll_other _ _ _ _ _ hto hq' k hk
    have hname : find q.1 name = find t.1 name :=
      later name (fun y hy e => by have := h2 y hy; rw [e] at this; exact String.lt_irrefl _ this)
    have hfn : find r.1 name = find f.params name :=
      adjustAll_other _ _ _ _ _ hp hr name (fun y hy e => by
        have := h12 y hy (name, adj) (by simp); rw [e] at this; exact String.lt_irrefl _ this)
    show find q.1 name = _
    rw [hname]
    have hsrc := adjustAll_source s f ha hp m1 m2 name adj hm r t q hr ht hq'
    unfold adjust at ht
    unfold expected
    by_cases hi : s.input name = ""
    · rw [if_pos hi] at ht
      rw [if_pos hi]
      split at ht
      · cases ht; rw [find_set _ _ _ _ hro, if_pos rfl]; rfl
      · cases ht
    · rw [if_neg hi] at ht
      rw [if_neg hi, ← hsrc]
      cases hv : find r.1 (s.input name) with
      | none => rw [hv] at ht; simp only at ht; cases ht; exact hfn
      | some v =>
        rw [hv] at ht
        cases v with
        | u64 n => simp only at ht; cases ht; rw [find_set _ _ _ _ hro, if_pos rfl]; rfl
        | other n => simp only at ht; cases ht; exact hfn
  · intro k hk
    exact adjustAll_other _ _ _ _ _ hp hq k hk

/-- C22: every adjustment whose input is missing or of another type is reported, in the order of the names, and
nothing else is. -/
theorem C22_errors (s : State) (f g : Frame) (errs : List Err) (ha : Ordered s.adjustments)
    (hp : Ordered f.params) (h : processFrame s f = some (g, errs)) :
    errs = s.adjustments.flatMap (complaint s f g) := by
  unfold processFrame at h
  obtain ⟨q, hq, he⟩ := Option.map_eq_some_iff.1 h
  cases he
  suffices ∀ (m2 m1 : Map Int) (r : Map Value × List Err), s.adjustments = m1 ++ m2 →
      adjustAll s f.number m1 (f.params, []) = some r → adjustAll s f.number m2 r = some q →
      q.2 = r.2 ++ m2.flatMap (complaint s f { f with params := q.1 }) by
    have := this s.adjustments [] (f.params, []) rfl rfl hq
    simpa using this
  intro m2
  induction m2 with
  | nil => intro m1 r _ _ hr; cases hr; simp
  | cons x m2 ih =>
    intro m1 r hm hr hq
    obtain ⟨name, adj⟩ := x
    obtain ⟨t, ht, hq'⟩ := Option.bind_eq_some_iff.1 hq
    have hsrc := adjustAll_source s f ha hp m1 m2 name adj hm r t q hr ht hq'
    have hall : adjustAll s f.number (m1 ++ [(name, adj)]) (f.params, []) = some t := by
      rw [adjustAll_append, hr]
      simp only [Option.bind_some, adjustAll, ht]
    rw [ih (m1 ++ [(name, adj)]) t (by rw [hm]; simp) hall hq', List.flatMap_cons]
    suffices t.2 = r.2 ++ complaint s f { f with params := q.1 } (name, adj) by rw [this, List.append_assoc]
    unfold complaint
    simp only
    rw [← hsrc]
    unfold adjust at ht
    by_cases hi : s.input name = ""
    · rw [if_pos hi] at ht
      rw [if_pos hi]
      split at ht
      · cases ht; simp
      · cases ht
    · rw [if_neg hi] at ht
      rw [if_neg hi]
      cases hv : find r.1 (s.input name) with
      | none => rw [hv] at ht; simp only at ht; cases ht; rfl
      | some v =>
        rw [hv] at ht
        cases v with
        | u64 n => simp only at ht; cases ht; simp
        | other n => simp only at ht; cases ht; rfl

/-- C22 is false of the code: the frame number is a signed number, and adding to it can overflow. -/
theorem C22_violated : ¬ C22_statement := by
  intro h
  obtain ⟨g, e, h, -⟩ := h { adjustments := [("uid", 1)] } { number := 2 ^ 63 - 1 } (by simp [Ordered]) (by simp [Ordered])
  revert h
  have : processFrame { adjustments := [("uid", 1)] } { number := 2 ^ 63 - 1 } = none := by decide +kernel
  rw [this]
  exact fun h => absurd h.symm (Option.some_ne_none _)

/-! ## Configuration -/

theorem configureAll_ordered (es : List Entry) : ∀ s : State, Ordered s.adjustments → Ordered s.inputs →
    Ordered (configureAll s es).1.adjustments ∧ Ordered (configureAll s es).1.inputs := by
  induction es with
  | nil => intro s h1 h2; exact ⟨h1, h2⟩
  | cons e es ih =>
    intro s h1 h2
    unfold configureAll
    split
    · exact ⟨h1, h2⟩
    · split
      · exact ih _ (ordered_set _ _ _ h1) (ordered_set _ _ _ h2)
      · exact ⟨ordered_set _ _ _ h1, h2⟩
      · exact ih _ (ordered_set _ _ _ h1) (ordered_set _ _ _ h2)

/-- The hypothesis of C22 on the plugin holds after every history of messages. -/
theorem C22_reachable (ms : List (List Entry)) :
    Ordered (ms.foldl (fun s m => (configure s m).1) {}).adjustments := by
  suffices ∀ s : State, Ordered s.adjustments → Ordered s.inputs →
      Ordered (ms.foldl (fun s m => (configure s m).1) s).adjustments from
    this {} List.Pairwise.nil List.Pairwise.nil
  induction ms with
  | nil => intro s h _; exact h
  | cons m ms ih =>
    intro s h1 h2
    have : Ordered (configure s m).1.adjustments ∧ Ordered (configure s m).1.inputs := by
      unfold configure
      split
      · exact ⟨List.Pairwise.nil, List.Pairwise.nil⟩
      · exact configureAll_ordered m s h1 h2
    exact ih _ this.1 this.2

theorem configureAll_other (es : List Entry) : ∀ s : State, Ordered s.adjustments → Ordered s.inputs →
    ∀ k, (∀ e ∈ es, e.name ≠ k) → find (configureAll s es).1.adjustments k = find s.adjustments k ∧
      find (configureAll s es).1.inputs k = find s.inputs k := by
  induction es with
  | nil => intro s _ _ k _; exact ⟨rfl, rfl⟩
  | cons e es ih =>
    intro s h1 h2 k hk
    have he := hk e (by simp)
    have hes : ∀ e ∈ es, e.name ≠ k := fun x hx => hk x (List.mem_cons_of_mem _ hx)
    unfold configureAll
    split
    · exact ⟨rfl, rfl⟩
    · rename_i a _
      split
      · have := ih ⟨set s.adjustments e.name a, set s.inputs e.name ""⟩ (ordered_set s.adjustments e.name a h1)
          (ordered_set s.inputs e.name "" h2) k hes
        simp only at this
        rw [find_set _ _ _ _ h1, find_set _ _ _ _ h2, if_neg he, if_neg he] at this
        exact this
      · exact ⟨by rw [find_set _ _ _ _ h1, if_neg he], rfl⟩
      · rename_i i _
        have := ih ⟨set s.adjustments e.name a, set s.inputs e.name i⟩ (ordered_set s.adjustments e.name a h1)
          (ordered_set s.inputs e.name i h2) k hes
        simp only at this
        rw [find_set _ _ _ _ h1, find_set _ _ _ _ h2, if_neg he, if_neg he] at this
        exact this

theorem configureAll_set (es : List Entry) : ∀ s : State, Ordered s.adjustments → Ordered s.inputs →
    (configureAll s es).2 = true → es.Pairwise (fun a b => a.name ≠ b.name) →
    ∀ e ∈ es, find (configureAll s es).1.adjustments e.name = e.adjustment ∧
      (configureAll s es).1.input e.name = (e.input.getD (some "")).getD "" := by
  induction es with
  | nil => intro s _ _ _ _ e he; cases he
  | cons x es ih =>
    intro s h1 h2 hok hd e he
    rw [List.pairwise_cons] at hd
    unfold configureAll at hok ⊢
    cases hxa : x.adjustment with
    | none => rw [hxa] at hok; cases hok
    | some a =>
      rw [hxa] at hok
      simp only at hok ⊢
      cases hxi : x.input with
      | none =>
        rw [hxi] at hok
        simp only at hok ⊢
        rcases List.mem_cons.1 he with rfl | he
        · have := configureAll_other es ⟨set s.adjustments e.name a, set s.inputs e.name ""⟩
            (ordered_set s.adjustments e.name a h1) (ordered_set s.inputs e.name "" h2)
            e.name (fun y hy => (hd.1 y hy).symm)
          simp only at this
          rw [find_set _ _ _ _ h1, find_set _ _ _ _ h2, if_pos rfl, if_pos rfl] at this
          exact ⟨this.1.trans hxa.symm, by unfold State.input; rw [this.2, hxi]; rfl⟩
        · exact ih _ (ordered_set _ _ _ h1) (ordered_set _ _ _ h2) hok hd.2 e he
      | some o =>
        cases o with
        | none => rw [hxi] at hok; cases hok
        | some i =>
          rw [hxi] at hok
          simp only at hok ⊢
          rcases List.mem_cons.1 he with rfl | he
          · have := configureAll_other es ⟨set s.adjustments e.name a, set s.inputs e.name i⟩
                (ordered_set s.adjustments e.name a h1) (ordered_set s.inputs e.name i h2) e.name (fun y hy => (hd.1 y hy).symm)
            simp only at this
            rw [find_set _ _ _ _ h1, find_set _ _ _ _ h2, if_pos rfl, if_pos rfl] at this
            exact ⟨this.1.trans hxa.symm, by unfold State.input; rw [this.2, hxi]; rfl⟩
          · exact ih _ (ordered_set _ _ _ h1) (ordered_set _ _ _ h2) hok hd.2 e he

/-- C22: an accepted message sets exactly the adjustments and inputs it names; the others are kept; the empty
message clears all. -/
theorem C22_configure (s : State) (es : List Entry) (h1 : Ordered s.adjustments) (h2 : Ordered s.inputs)
    (hok : (configure s es).2 = true) (hd : es.Pairwise (fun a b => a.name ≠ b.name)) :
    (es = [] → (configure s es).1 = {}) ∧
    (∀ e ∈ es, find (configure s es).1.adjustments e.name = e.adjustment ∧
      (configure s es).1.input e.name = (e.input.getD (some "")).getD "") ∧
    (es ≠ [] → ∀ k, (∀ e ∈ es, e.name ≠ k) → find (configure s es).1.adjustments k = find s.adjustments k ∧
      (configure s es).1.input k = s.input k) := by
  unfold configure at hok ⊢
  by_cases he : es = []
  · subst he
    exact ⟨fun _ => rfl, (fun e h => absurd h (List.not_mem_nil)), fun h => absurd rfl h⟩
  · rw [if_neg he] at hok ⊢
    refine ⟨fun h => absurd h he, configureAll_set es s h1 h2 hok hd, fun _ k hk => ?_⟩
    have := configureAll_other es s h1 h2 k hk
    exact ⟨this.1, by unfold State.input; rw [this.2]⟩

/-- C22, offset: the offset of every frame is moved by the adjustment, if the sum fits 64 bits; nothing else
changes. -/
theorem C22_offset_partial (adj : Int) (f : Frame) (h : I64 (f.offset + adj)) :
    offsetFrame adj f = some { f with offset := f.offset + adj } := by
  unfold offsetFrame; rw [if_pos h]

/-- An adjusted parameter read by another adjustment counts with the new value only if its name is smaller. -/
example : processFrame { adjustments := [("a", 10), ("b", 1), ("c", -3)], inputs := [("a", ""), ("b", "a"), ("c", "x")] }
      { number := 5, params := [("a", .u64 100), ("x", .u64 1)] }
    = some ({ number := 5, params := [("a", .u64 15), ("b", .u64 16), ("c", .u64 (2 ^ 64 - 2)), ("x", .u64 1)] }, []) := by
  decide +kernel

/-- Missing and ill-typed inputs leave the frame alone and are reported. -/
example : processFrame { adjustments := [("a", 10), ("b", 1)], inputs := [("a", "y"), ("b", "x")] }
      { number := 5, params := [("a", .u64 100), ("x", .other 0)] }
    = some ({ number := 5, params := [("a", .u64 100), ("x", .other 0)] }, [.noInput "y", .badInput "b"]) := by
  decide +kernel

example : NoOverflow { adjustments := [("a", 10), ("b", 1)], inputs := [("b", "x")] } { number := 2 ^ 63 - 11 } := by
  unfold NoOverflow; decide +kernel

end Verif.ParamAdjust
