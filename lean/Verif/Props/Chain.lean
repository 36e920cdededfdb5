import Verif.Model.Chain
/-
C74: frames pass through the plugins without loss, duplication or reordering; C102: plugins do not block each other.
C75: the end of an acquisition reaches every plugin, once and after all its frames.
-/
namespace Verif.Chain

variable {F σ : Type}

/-! The specification: a plugin fed with a list of frames. -/

/-- The state and the frames pushed by a plugin given a list of frames. -/
def feed (w : σ → F → σ × List F) (s : σ) : List F → σ × List F
  | [] => (s, [])
  | f :: fs => ((feed w (w s f).1 fs).1, (w s f).2 ++ (feed w (w s f).1 fs).2)

theorem feed_append (w : σ → F → σ × List F) (s : σ) (l r : List F) :
    feed w s (l ++ r) = ((feed w (feed w s l).1 r).1, (feed w s l).2 ++ (feed w (feed w s l).1 r).2) := by
  induction l generalizing s with
  | nil => rfl
  | cons f l ih => simp only [List.cons_append, feed, ih, List.append_assoc]

theorem feed_snoc (w : σ → F → σ × List F) (s : σ) (l : List F) (f : F) :
    feed w s (l ++ [f]) = ((w (feed w s l).1 f).1, (feed w s l).2 ++ (w (feed w s l).1 f).2) := by
  rw [feed_append]; simp [feed]

/-- The frames of a list that carry a tag. -/
def tagged (p : Nat) (l : List (Nat × F)) : List F := (l.filter (fun x => x.1 == p)).map (·.2)

theorem tagged_append (p : Nat) (l r : List (Nat × F)) : tagged p (l ++ r) = tagged p l ++ tagged p r := by
  simp [tagged]

theorem tagged_cons (p : Nat) (x : Nat × F) (l : List (Nat × F)) :
    tagged p (x :: l) = (if x.1 = p then [x.2] else []) ++ tagged p l := by
  simp only [tagged, List.filter_cons]
  by_cases h : x.1 = p <;> simp [h]

theorem tagged_deliveries (ts : List Nat) (gs : List F) (t : Nat) (hn : ts.Nodup) :
    tagged t (deliveries ts gs) = if t ∈ ts then gs else [] := by
  induction gs with
  | nil => simp [deliveries, tagged]
  | cons g gs ih =>
    have : deliveries ts (g :: gs) = ts.map (fun t => (t, g)) ++ deliveries ts gs := rfl
    rw [this, tagged_append, ih]
    have h : tagged t (ts.map (fun t => (t, g))) = if t ∈ ts then [g] else [] := by
      clear ih this
      induction ts with
      | nil => simp [tagged]
      | cons a ts ih =>
        rw [List.nodup_cons] at hn
        rw [List.map_cons, tagged_cons, ih hn.2]
        by_cases h : a = t
        · subst h; simp [hn.1]
        · simp [h, Ne.symm h]
    rw [h]
    by_cases ht : t ∈ ts <;> simp [ht]

/-- Everything that has come to a node so far. -/
def Node.seen (x : Node F σ) : List (Nat × F) := x.done ++ x.queue

/-- What a node was given to do so far. -/
def Node.inputs (x : Node F σ) : List F := x.done.map (·.2)

structure Inv (N : Net F σ) (src : List F) (s : State F σ) : Prop where
  st : ∀ p, (s p).st = (feed (N.work p) (N.init p) (s p).inputs).1
  out : ∀ p t, p ≠ 0 ∨ t ≠ 0 →
    tagged p (s t).seen ++ tagged t (s p).out =
      if t ∈ N.succ p then (feed (N.work p) (N.init p) (s p).inputs).2 else []
  src : 0 ∉ N.succ 0 → tagged 0 (s 0).seen = src ∧ ∀ g, (0, g) ∉ (s 0).out

theorem mem_tagged {l : List (Nat × F)} {p : Nat} {g : F} : g ∈ tagged p l ↔ (p, g) ∈ l := by
  simp only [tagged, List.mem_map, List.mem_filter, beq_iff_eq]
  constructor
  · rintro ⟨⟨a, b⟩, ⟨h1, h2⟩, h3⟩
    simp only at h2 h3
    subst h2 h3
    exact h1
  · intro h
    exact ⟨(p, g), ⟨h, rfl⟩, rfl⟩

theorem start_inv (N : Net F σ) (src : List F) : Inv N src (start N src) := by
  refine ⟨fun p => rfl, ?_, ?_⟩
  · intro p t h
    have e1 : (start N src p).out = [] := rfl
    have e2 : (start N src p).inputs = [] := rfl
    rw [e1, e2]
    have e3 : tagged p (start N src t).seen = [] := by
      simp only [start, Node.seen, List.nil_append]
      by_cases ht : t = 0
      · rw [if_pos ht]
        have hp : p ≠ 0 := by rcases h with h | h; exact h; exact absurd ht h
        simp [tagged, List.filter_map, Function.comp_def, Ne.symm hp]
      · rw [if_neg ht]; rfl
    rw [e3]
    simp [feed, tagged]
  · intro _
    refine ⟨?_, fun g h => by cases h⟩
    simp only [start, Node.seen, List.nil_append, if_pos]
    simp [tagged, List.filter_map, Function.comp_def]

theorem seen_take (N : Net F σ) (p : Nat) (x : Node F σ) (f : Nat × F) (rest : List (Nat × F)) (h : x.queue = f :: rest) :
    (x.take N p f rest).seen = x.seen := by
  simp [Node.seen, Node.take, h]

theorem inputs_take (N : Net F σ) (p : Nat) (x : Node F σ) (f : Nat × F) (rest : List (Nat × F)) :
    (x.take N p f rest).inputs = x.inputs ++ [f.2] := by
  simp [Node.inputs, Node.take]

theorem upd_same (s : State F σ) (p : Nat) (x : Node F σ) : upd s p x p = x := by simp [upd]
theorem upd_other (s : State F σ) (p q : Nat) (x : Node F σ) (h : q ≠ p) : upd s p x q = s q := by simp [upd, h]

/-- The effect of a delivery on every node. -/
theorem deliver_node (s : State F σ) (p t q : Nat) (g : F) (rest : List (Nat × F)) :
    let s' := upd (upd s p ((s p).sent rest)) t ((upd s p ((s p).sent rest) t).got (p, g))
    (s' q).st = (s q).st ∧ (s' q).done = (s q).done ∧
    (s' q).queue = (s q).queue ++ (if q = t then [(p, g)] else []) ∧
    (s' q).out = (if q = p then rest else (s q).out) := by
  intro s'
  by_cases hq : q = t
  · subst hq
    simp only [s', upd_same, Node.got]
    by_cases hp : q = p
    · subst hp; simp [upd_same, Node.sent]
    · simp [upd_other _ _ _ _ hp, hp]
  · simp only [s', upd_other _ _ _ _ hq]
    by_cases hp : q = p
    · subst hp; simp [upd_same, Node.sent, hq]
    · simp [upd_other _ _ _ _ hp, hp, hq]

theorem step_inv (N : Net F σ) (hn : ∀ p, (N.succ p).Nodup) (src : List F) (s s' : State F σ) (h : Inv N src s)
    (hs : Step N s s') : Inv N src s' := by
  obtain ⟨hst, hout, hsrc⟩ := h
  cases hs with
  | take p f rest h1 h2 =>
    have hseen : ∀ q, (upd s p ((s p).take N p f rest) q).seen = (s q).seen := by
      intro q
      by_cases hq : q = p
      · subst hq; rw [upd_same, seen_take _ _ _ _ _ h2]
      · rw [upd_other _ _ _ _ hq]
    refine ⟨?_, ?_, ?_⟩
    · intro q
      by_cases hq : q = p
      · subst hq
        rw [upd_same, inputs_take, feed_snoc, ← hst q]
        rfl
      · rw [upd_other _ _ _ _ hq]; exact hst q
    · intro q t hqt
      rw [hseen]
      by_cases hq : q = p
      · subst hq
        rw [upd_same, inputs_take, feed_snoc, ← hst q]
        have := hout q t hqt
        rw [h1] at this
        simp only [Node.take, tagged_deliveries _ _ _ (hn q)]
        have e : tagged t ([] : List (Nat × F)) = [] := rfl
        rw [e, List.append_nil] at this
        rw [this]
        by_cases ht : t ∈ N.succ q <;> simp [ht]
      · rw [upd_other _ _ _ _ hq]; exact hout q t hqt
    · intro h0
      obtain ⟨h3, h4⟩ := hsrc h0
      rw [hseen]
      refine ⟨h3, fun g hg => ?_⟩
      by_cases hp : 0 = p
      · subst hp
        rw [upd_same] at hg
        have := mem_tagged.2 hg
        simp only [Node.take, tagged_deliveries _ _ _ (hn 0), if_neg h0] at this
        cases this
      · rw [upd_other _ _ _ _ hp] at hg; exact h4 g hg
  | deliver p t g rest h1 h2 =>
    have hnode := fun q => deliver_node s p t q g rest
    generalize upd (upd s p ((s p).sent rest)) t ((upd s p ((s p).sent rest) t).got (p, g)) = s' at hnode
    simp only at hnode
    have hin : ∀ q, (s' q).inputs = (s q).inputs := by
      intro q; simp only [Node.inputs, (hnode q).2.1]
    have hseen : ∀ q, (s' q).seen = (s q).seen ++ (if q = t then [(p, g)] else []) := by
      intro q; simp only [Node.seen, (hnode q).2.1, (hnode q).2.2.1, List.append_assoc]
    refine ⟨?_, ?_, ?_⟩
    · intro q; rw [hin, (hnode q).1]; exact hst q
    · intro q u hqu
      rw [hin, ← hout q u hqu, hseen, tagged_append, (hnode q).2.2.2]
      by_cases hq : q = p
      · subst hq
        simp only [if_pos, h1, tagged_cons, List.append_assoc]
        congr 1
        by_cases hu : u = t
        · subst hu; simp [tagged]
        · simp [hu, Ne.symm hu, tagged]
      · simp only [hq, if_false]
        by_cases hu : u = t
        · subst hu; simp [tagged, Ne.symm hq]
        · simp [hu, tagged]
    · intro h0
      obtain ⟨h3, h4⟩ := hsrc h0
      rw [hseen, tagged_append]
      refine ⟨?_, fun g' hg => ?_⟩
      · by_cases ht : 0 = t
        · subst ht
          by_cases hp : p = 0
          · subst hp
            exact absurd (by rw [h1]; simp) (h4 g)
          · simp [tagged, hp]
            simpa [tagged] using h3
        · rw [if_neg ht, h3]; simp [tagged]
      · rw [(hnode 0).2.2.2] at hg
        split at hg
        · rename_i hp
          subst hp
          exact h4 g' (by rw [h1]; exact List.mem_cons_of_mem _ hg)
        · exact h4 g' hg

theorem run_inv (N : Net F σ) (hn : ∀ p, (N.succ p).Nodup) (src : List F) (k : Nat) (s : State F σ)
    (h : Run N k (start N src) s) : Inv N src s := by
  generalize hs : start N src = s0 at h
  induction h with
  | nil => subst hs; exact start_inv N src
  | cons k s s' s'' _ hstep ih => exact step_inv N hn src _ _ (ih hs) hstep

/-- C74: however plugins are connected and threads are scheduled, of the frames pushed by a plugin `p` exactly
those not still being delivered have come to a plugin `t` connected to it, each once and in their order; and
nothing to a plugin that is not connected. -/
theorem C74 (N : Net F σ) (hn : ∀ p, (N.succ p).Nodup) (src : List F) (k : Nat) (s : State F σ)
    (h : Run N k (start N src) s) (p t : Nat) (hpt : p ≠ 0 ∨ t ≠ 0) :
    tagged p ((s t).done ++ (s t).queue) ++ tagged t (s p).out =
      if t ∈ N.succ p then (feed (N.work p) (N.init p) ((s p).done.map (·.2))).2 else [] :=
  (run_inv N hn src k s h).out p t hpt

/-- C74: when everything is done, a plugin has processed exactly the frames pushed by each of the others. -/
theorem C74_done (N : Net F σ) (hn : ∀ p, (N.succ p).Nodup) (src : List F) (k : Nat) (s : State F σ)
    (h : Run N k (start N src) s) (hq : ∀ p, (s p).queue = [] ∧ (s p).out = []) (p t : Nat) (hpt : p ≠ 0 ∨ t ≠ 0) :
    tagged p (s t).done = if t ∈ N.succ p then (feed (N.work p) (N.init p) ((s p).done.map (·.2))).2 else [] := by
  rw [← C74 N hn src k s h p t hpt, (hq t).1, (hq p).2]
  simp [tagged]

/-! Chains and trees: every plugin gets frames from one other only. -/

/-- `up t` is the plugin that `t` is connected to; plugins not connected to anything have `up t = t`. -/
structure Tree (N : Net F σ) (up : Nat → Nat) : Prop where
  nodup : ∀ p, (N.succ p).Nodup
  succ : ∀ p t, t ∈ N.succ p ↔ up t = p ∧ t ≠ p
  lt : ∀ t, up t ≤ t

/-- The frames plugin `t` gets, from the frames `src` received. -/
def stream (N : Net F σ) (up : Nat → Nat) (src : List F) (t : Nat) : List F :=
  if t = 0 then src
  else if _h : up t < t then (feed (N.work (up t)) (N.init (up t)) (stream N up src (up t))).2
  else []

theorem tagged_all (l : List (Nat × F)) (p : Nat) (h : ∀ x ∈ l, x.1 = p) : tagged p l = l.map (·.2) := by
  unfold tagged
  rw [List.filter_eq_self.2]
  intro x hx
  simpa using h x hx

theorem tree_seen (N : Net F σ) (up : Nat → Nat) (hT : Tree N up) (src : List F) (s : State F σ) (h : Inv N src s) (t : Nat) :
    (t = 0 → (s 0).seen.map (·.2) = src) ∧
    (t ≠ 0 → up t < t → (s t).seen.map (·.2) ++ tagged t (s (up t)).out =
      (feed (N.work (up t)) (N.init (up t)) (s (up t)).inputs).2) ∧
    (t ≠ 0 → up t = t → (s t).seen = []) := by
  have h00 : 0 ∉ N.succ 0 := by intro h0; exact ((hT.succ 0 0).1 h0).2 rfl
  have hother : ∀ p, (p ≠ 0 ∨ t ≠ 0) → t ∉ N.succ p → tagged p (s t).seen = [] := by
    intro p hpt hp
    have := h.out p t hpt
    rw [if_neg hp] at this
    exact (List.append_eq_nil_iff.1 this).1
  refine ⟨?_, ?_, ?_⟩
  · intro h0
    subst h0
    rw [← (h.src h00).1]
    symm
    apply tagged_all
    intro x hx
    by_cases hx0 : x.1 = 0
    · exact hx0
    · have hns : 0 ∉ N.succ x.1 := by
        intro hm
        have := (hT.succ x.1 0).1 hm
        have h1 := hT.lt 0
        omega
      have := hother x.1 (Or.inl hx0) hns
      have hm : x.2 ∈ tagged x.1 (s 0).seen := mem_tagged.2 hx
      rw [this] at hm; cases hm
  · intro h0 hlt
    have hmem : t ∈ N.succ (up t) := (hT.succ _ _).2 ⟨rfl, by omega⟩
    have := h.out (up t) t (Or.inr h0)
    rw [if_pos hmem] at this
    rw [← this]
    congr 1
    symm
    apply tagged_all
    intro x hx
    by_cases hxu : x.1 = up t
    · exact hxu
    · have hns : t ∉ N.succ x.1 := by
        intro hm
        exact hxu ((hT.succ x.1 t).1 hm).1.symm
      have := hother x.1 (Or.inr h0) hns
      have hm : x.2 ∈ tagged x.1 (s t).seen := mem_tagged.2 hx
      rw [this] at hm; cases hm
  · intro h0 hup
    apply List.eq_nil_iff_forall_not_mem.2
    intro x hx
    have hns : t ∉ N.succ x.1 := by
      intro hm
      have := (hT.succ x.1 t).1 hm
      exact this.2 (by rw [← this.1]; exact hup.symm)
    have := hother x.1 (Or.inr h0) hns
    have hm : x.2 ∈ tagged x.1 (s t).seen := mem_tagged.2 hx
    rw [this] at hm; cases hm

theorem feed_prefix (w : σ → F → σ × List F) (s : σ) {l r : List F} (h : l <+: r) :
    (feed w s l).2 <+: (feed w s r).2 := by
  obtain ⟨x, rfl⟩ := h
  rw [feed_append]
  exact List.prefix_append _ _

theorem stream_zero (N : Net F σ) (up : Nat → Nat) (src : List F) : stream N up src 0 = src := by
  unfold stream; rw [if_pos rfl]

theorem stream_up (N : Net F σ) (up : Nat → Nat) (src : List F) (t : Nat) (h0 : t ≠ 0) (h : up t < t) :
    stream N up src t = (feed (N.work (up t)) (N.init (up t)) (stream N up src (up t))).2 := by
  conv => lhs; unfold stream
  rw [if_neg h0, dif_pos h]

theorem seen_prefix (N : Net F σ) (up : Nat → Nat) (hT : Tree N up) (src : List F) (s : State F σ) (h : Inv N src s) (t : Nat) :
    (s t).seen.map (·.2) <+: stream N up src t := by
  induction t using Nat.strongRecOn with
  | ind t ih =>
    obtain ⟨a, b, c⟩ := tree_seen N up hT src s h t
    by_cases h0 : t = 0
    · subst h0
      rw [stream_zero, a rfl]
      exact List.prefix_rfl
    · by_cases hlt : up t < t
      · rw [stream_up N up src t h0 hlt]
        have hp : (s (up t)).inputs <+: stream N up src (up t) := by
          refine List.IsPrefix.trans ?_ (ih _ hlt)
          simp only [Node.inputs, Node.seen, List.map_append]
          exact List.prefix_append _ _
        refine List.IsPrefix.trans ?_ (feed_prefix _ _ hp)
        rw [← b h0 hlt]
        exact List.prefix_append _ _
      · have := hT.lt t
        rw [c h0 (by omega)]
        simp

/-- C74 for trees: at any time and in any schedule each plugin has processed an initial part of the one list of
frames determined by the frames received and the plugins before it. -/
theorem C74_tree (N : Net F σ) (up : Nat → Nat) (hT : Tree N up) (src : List F) (k : Nat) (s : State F σ)
    (h : Run N k (start N src) s) (t : Nat) : (s t).done.map (·.2) <+: stream N up src t := by
  refine List.IsPrefix.trans ?_ (seen_prefix N up hT src s (run_inv N hT.nodup src k s h) t)
  simp only [Node.seen, List.map_append]
  exact List.prefix_append _ _

/-- C74 for trees: and all of that list when everything is done. -/
theorem C74_tree_done (N : Net F σ) (up : Nat → Nat) (hT : Tree N up) (src : List F) (k : Nat) (s : State F σ)
    (h : Run N k (start N src) s) (hq : ∀ p, (s p).queue = [] ∧ (s p).out = []) (t : Nat) :
    (s t).done.map (·.2) = stream N up src t := by
  have hI := run_inv N hT.nodup src k s h
  induction t using Nat.strongRecOn with
  | ind t ih =>
    obtain ⟨a, b, c⟩ := tree_seen N up hT src s hI t
    have hseen : (s t).seen = (s t).done := by simp [Node.seen, (hq t).1]
    by_cases h0 : t = 0
    · subst h0
      rw [stream_zero, ← a rfl, hseen]
    · by_cases hlt : up t < t
      · rw [stream_up N up src t h0 hlt, ← ih _ hlt]
        have := b h0 hlt
        rw [hseen, (hq (up t)).2] at this
        simpa [tagged, Node.inputs] using this
      · have hle := hT.lt t
        have := c h0 (by omega)
        rw [hseen] at this
        rw [this]
        unfold stream
        rw [if_neg h0, dif_neg hlt]
        rfl

/-- C102: plugins connected without a cycle never block each other: as long as anything is left to do for one of
the first `n` plugins (the others not being connected), some thread can go on. -/
theorem C102_progress_partial (N : Net F σ) (n : Nat) (hmax : 0 < N.max) (s : State F σ)
    (hacyclic : ∀ p x, x ∈ (s p).out → p < x.1) (hn : ∀ p, n ≤ p → (s p).queue = [] ∧ (s p).out = [])
    (hleft : ∃ p, (s p).queue ≠ [] ∨ (s p).out ≠ []) : ∃ s', Step N s s' := by
  have : ∀ m, m ≤ n → (∀ p, m ≤ p → (s p).queue = [] ∧ (s p).out = []) → (∃ s', Step N s s') := by
    intro m
    induction m with
    | zero =>
      intro _ h
      obtain ⟨p, hp⟩ := hleft
      have := h p (by omega)
      rcases hp with hp | hp
      · exact absurd this.1 hp
      · exact absurd this.2 hp
    | succ m ih =>
      intro hm h
      cases ho : (s m).out with
      | cons x rest =>
        obtain ⟨t, g⟩ := x
        have hlt := hacyclic m (t, g) (by rw [ho]; simp)
        simp only at hlt
        refine ⟨_, Step.deliver s m t g rest ho (Or.inr ?_)⟩
        rw [(h t (by omega)).1]
        exact hmax
      | nil =>
        cases hq : (s m).queue with
        | cons f rest => exact ⟨_, Step.take s m f rest ho hq⟩
        | nil =>
          refine ih (by omega) (fun p hp => ?_)
          by_cases e : p = m
          · subst e; exact ⟨hq, ho⟩
          · exact h p (by omega)
  exact this n (by omega) hn

/-- Deliveries only go along the connections. -/
theorem out_succ (N : Net F σ) (src : List F) (k : Nat) (s : State F σ) (h : Run N k (start N src) s) (p : Nat)
    (x : Nat × F) (hx : x ∈ (s p).out) : x.1 ∈ N.succ p := by
  generalize hs : start N src = s0 at h
  induction h generalizing p x with
  | nil => subst hs; cases hx
  | cons k s s' s'' _ hstep ih =>
    have ih := fun p x => ih p x
    cases hstep with
    | take q f rest h1 h2 =>
      by_cases e : p = q
      · subst e
        rw [upd_same] at hx
        simp only [Node.take, deliveries, List.mem_flatMap, List.mem_map] at hx
        obtain ⟨g, _, t, ht, rfl⟩ := hx
        exact ht
      · rw [upd_other _ _ _ _ e] at hx
        exact ih p x hx hs
    | deliver q t g rest h1 h2 =>
      rw [(deliver_node _ q t p g rest).2.2.2] at hx
      split at hx
      · rename_i e
        subst e
        exact ih p x (by rw [h1]; exact List.mem_cons_of_mem _ hx) hs
      · exact ih p x hx hs

/-! Termination -/

def total (n : Nat) (f : Nat → Nat) : Nat := ((List.range n).map f).sum

theorem total_succ (n : Nat) (f : Nat → Nat) : total (n + 1) f = total n f + f n := by
  simp [total, List.range_succ]

theorem total_le (n : Nat) (f g : Nat → Nat) (h : ∀ p, p < n → f p ≤ g p) : total n f ≤ total n g := by
  induction n with
  | zero => exact Nat.le_refl _
  | succ n ih =>
    rw [total_succ, total_succ]
    have := ih (fun p hp => h p (by omega))
    have := h n (by omega)
    omega

theorem total_bump (n : Nat) (f g : Nat → Nat) (q : Nat) (hq : q < n) (h1 : g q = f q + 1) (h2 : ∀ p, p ≠ q → g p = f p) :
    total n g = total n f + 1 := by
  induction n with
  | zero => omega
  | succ n ih =>
    rw [total_succ, total_succ]
    by_cases e : q = n
    · subst e
      have : total q g = total q f := by
        apply Nat.le_antisymm <;> apply total_le <;> intro p hp <;> rw [h2 p (by omega)] <;> exact Nat.le_refl _
      omega
    · have := ih (by omega)
      have := h2 n (Ne.symm e)
      omega

/-- The steps taken so far. -/
def work (n : Nat) (s : State F σ) : Nat := total n (fun p => (s p).done.length + (s p).seen.length)

theorem step_work (N : Net F σ) (n : Nat) (s s' : State F σ) (h : Step N s s')
    (hn : ∀ p, n ≤ p → (s p).queue = []) (ho : ∀ p x, x ∈ (s p).out → x.1 < n) :
    work n s' = work n s + 1 := by
  cases h with
  | take p f rest h1 h2 =>
    have hp : p < n := by
      by_cases e : p < n
      · exact e
      · have := hn p (by omega)
        rw [h2] at this; cases this
    refine total_bump n _ _ p hp ?_ ?_
    · simp only [upd_same, seen_take _ _ _ _ _ h2]
      simp only [Node.take, List.length_append, List.length_cons, List.length_nil]
      omega
    · intro q hq
      simp only [upd_other _ _ _ _ hq]
  | deliver p t g rest h1 h2 =>
    have hnode := fun q => deliver_node s p t q g rest
    generalize upd (upd s p ((s p).sent rest)) t ((upd s p ((s p).sent rest) t).got (p, g)) = s' at hnode
    simp only at hnode
    refine total_bump n _ _ t (ho p (t, g) (by rw [h1]; simp)) ?_ ?_
    · simp only [Node.seen, (hnode t).2.1, (hnode t).2.2.1, List.length_append, if_pos, List.length_cons, List.length_nil]
      omega
    · intro q hq
      simp only [Node.seen, (hnode q).2.1, (hnode q).2.2.1, if_neg hq, List.append_nil]

/-- C102 for trees: every schedule comes to an end, after at most as many steps as frames are processed and
delivered in all. With `C102_progress_partial`: everything is done then. -/
theorem C102_terminates_partial (N : Net F σ) (up : Nat → Nat) (hT : Tree N up) (n : Nat) (hpos : 0 < n) (hn : ∀ t, n ≤ t → up t = t)
    (src : List F) (k : Nat) (s : State F σ) (h : Run N k (start N src) s) :
    k ≤ 2 * total n (fun t => (stream N up src t).length) := by
  have hsucc : ∀ p t, t ∈ N.succ p → t < n := by
    intro p t ht
    have := (hT.succ p t).1 ht
    by_cases e : t < n
    · exact e
    · have h1 := hn t (by omega)
      exact absurd (by rw [← this.1]; exact h1.symm) this.2
  have hbase : work n s = k + work n (start N src) := by
    generalize hs : start N src = s0 at h
    induction h with
    | nil => subst hs; omega
    | cons k s s' s'' hrun hstep ih =>
      have ih := ih hs
      have hI := run_inv N hT.nodup src k s' (by rw [hs]; exact hrun)
      rw [step_work N n s' s'' hstep, ih]
      · omega
      · intro p hp
        have := (tree_seen N up hT src s' hI p).2.2 (by omega) (hn p hp)
        simp only [Node.seen, List.append_eq_nil_iff] at this
        exact this.2
      · intro p x hx
        exact hsucc p _ (out_succ N src k s' (by rw [hs]; exact hrun) p x hx)
  have hI := run_inv N hT.nodup src k s h
  have hle : work n s ≤ total n (fun t => (stream N up src t).length + (stream N up src t).length) := by
    apply total_le
    intro p _
    have h1 := (seen_prefix N up hT src s hI p).length_le
    have h2 := (C74_tree N up hT src k s h p).length_le
    simp only [List.length_map] at h1 h2
    omega
  have hd : ∀ (m : Nat) (f : Nat → Nat), total m (fun t => f t + f t) = 2 * total m f := by
    intro m f
    induction m with
    | zero => rfl
    | succ m ih => rw [total_succ, total_succ, ih]; omega
  rw [hd] at hle
  omega

/-! Examples: a tree of four plugins; plugin 1 pushes each frame twice, plugin 3 every other one. -/

def exNet : Net Nat Nat where
  succ p := if p = 0 then [1] else if p = 1 then [2, 3] else if p = 3 then [4] else []
  work p s f := if p = 1 then (s, [f, f + 100]) else if p = 3 then (s + 1, if s % 2 = 0 then [f] else []) else (s, [f])
  init _ := 0
  max := 8

def exUp (t : Nat) : Nat := if t = 1 then 0 else if t = 2 then 1 else if t = 3 then 1 else if t = 4 then 3 else t

theorem exTree : Tree exNet exUp := by
  refine ⟨fun p => ?_, fun p t => ?_, fun t => ?_⟩
  · simp only [exNet]; split
    · simp
    · split
      · simp
      · split <;> simp
  · simp only [exNet, exUp]
    rcases t with _ | _ | _ | _ | _ | t <;> rcases p with _ | _ | _ | _ | p <;> simp <;> omega
  · simp only [exUp]
    split
    · omega
    · split
      · omega
      · split
        · omega
        · split <;> omega

example : stream exNet exUp [1, 2] 4 = [1, 2] ∧ stream exNet exUp [1, 2] 2 = [1, 101, 2, 102] := by
  simp [stream, exUp, feed, exNet]

/-- A schedule: `true` for a frame taken, `false` for a delivery. -/
def exec (N : Net F σ) (s : State F σ) : List (Bool × Nat) → Option (State F σ)
  | [] => some s
  | (true, p) :: as =>
    match (s p).out, (s p).queue with
    | [], f :: rest => exec N (upd s p ((s p).take N p f rest)) as
    | _, _ => none
  | (false, p) :: as =>
    match (s p).out with
    | (t, g) :: rest =>
      if p = 0 ∨ (s t).queue.length < N.max then
        exec N (upd (upd s p ((s p).sent rest)) t ((upd s p ((s p).sent rest) t).got (p, g))) as
      else none
    | [] => none

theorem run_trans (N : Net F σ) {k m : Nat} {s s' s'' : State F σ} (h1 : Run N k s s') (h2 : Run N m s' s'') :
    Run N (k + m) s s'' := by
  induction h2 with
  | nil => exact h1
  | cons m a b c _ hs ih => exact Run.cons _ _ _ _ (ih h1) hs

theorem exec_run (N : Net F σ) (as : List (Bool × Nat)) (s s' : State F σ) (h : exec N s as = some s') :
    Run N as.length s s' := by
  induction as generalizing s with
  | nil => cases h; exact Run.nil _
  | cons a as ih =>
    obtain ⟨b, p⟩ := a
    have key : ∀ s1, Step N s s1 → exec N s1 as = some s' → Run N (as.length + 1) s s' := by
      intro s1 h1 h2
      have := run_trans N (Run.cons 0 s s s1 (Run.nil s) h1) (ih s1 h2)
      rw [Nat.add_comm]
      exact this
    cases b
    · simp only [exec] at h
      cases ho : (s p).out with
      | nil => rw [ho] at h; cases h
      | cons x rest =>
        obtain ⟨t, g⟩ := x
        rw [ho] at h
        simp only at h
        split at h
        · rename_i hr
          exact key _ (Step.deliver s p t g rest ho hr) h
        · cases h
    · simp only [exec] at h
      cases ho : (s p).out with
      | cons x rest => rw [ho] at h; cases h
      | nil =>
        cases hq : (s p).queue with
        | nil => rw [ho, hq] at h; cases h
        | cons f rest =>
          rw [ho, hq] at h
          exact key _ (Step.take s p f rest ho hq) h

/-! C75 -/

/-- What the base class and the plugins do: an end of acquisition is passed on after anything the plugin still
has to push (`callback`, 362-366); no plugin makes one of its own. -/
def Forwards (N : Net F σ) (eoa : F → Bool) : Prop :=
  (∀ p s f, eoa f = true → ∃ pre, (N.work p s f).2 = pre ++ [f] ∧ ∀ g ∈ pre, eoa g = false) ∧
  (∀ p s f, eoa f = false → ∀ g ∈ (N.work p s f).2, eoa g = false)

/-- C75: for plugins connected without a cycle, when everything is done each connected plugin has processed the
end of the acquisition exactly once, and no frame after it. -/
def C75_statement : Prop := ∀ (F σ : Type) (N : Net F σ) (eoa : F → Bool) (l : List F) (e : F) (k : Nat) (s : State F σ),
  (∀ p, (N.succ p).Nodup) → (∀ p t, t ∈ N.succ p → p < t) → Forwards N eoa → (∀ f ∈ l, eoa f = false) → eoa e = true →
  Run N k (start N (l ++ [e])) s → (∀ p, (s p).queue = [] ∧ (s p).out = []) →
  ∀ p t, t ∈ N.succ p → (s p).done ≠ [] → ∃ d, (s t).done.map (·.2) = d ++ [e] ∧ ∀ f ∈ d, eoa f = false

/-- Plugin 2 gets frames from plugin 0 directly and through plugin 1; 0 stands for the end of acquisition. -/
def exDiamond : Net Nat Unit where
  succ p := if p = 0 then [1, 2] else if p = 1 then [2] else []
  work _ _ f := ((), [f])
  init _ := ()
  max := 8

def exSchedule : List (Bool × Nat) :=
  [(true, 0), (false, 0), (false, 0), (true, 0), (false, 0), (false, 0), (true, 2), (true, 2),
   (true, 1), (false, 1), (true, 1), (false, 1), (true, 2), (true, 2)]

theorem idle (N : Net F σ) (src : List F) (s : State F σ) (h : Inv N src s) (t : Nat) (h0 : t ≠ 0) (ht : ∀ p, t ∉ N.succ p) :
    (s t).queue = [] := by
  apply List.eq_nil_iff_forall_not_mem.2
  intro x hx
  have := h.out x.1 t (Or.inr h0)
  rw [if_neg (ht x.1)] at this
  have hm : x.2 ∈ tagged x.1 (s t).seen := mem_tagged.2 (by simp [Node.seen, hx])
  rw [(List.append_eq_nil_iff.1 this).1] at hm
  cases hm

/-- C102: in no schedule do plugins connected without a cycle block each other: while any frame is left in a queue or
to be delivered, some thread can go on. -/
theorem C102_live_partial (N : Net F σ) (n : Nat) (hpos : 0 < n) (hmax : 0 < N.max) (hnd : ∀ p, (N.succ p).Nodup)
    (hs : ∀ p t, t ∈ N.succ p → p < t ∧ t < n) (src : List F) (k : Nat) (s : State F σ) (h : Run N k (start N src) s)
    (hleft : ∃ p, (s p).queue ≠ [] ∨ (s p).out ≠ []) : ∃ s', Step N s s' := by
  refine C102_progress_partial N n hmax s (fun p x hx => (hs p _ (out_succ N src k s h p x hx)).1) (fun p hp => ⟨?_, ?_⟩) hleft
  · exact idle N src s (run_inv N hnd src k s h) p (by omega) (fun q hq => by have := hs q p hq; omega)
  · apply List.eq_nil_iff_forall_not_mem.2
    intro x hx
    have := hs p _ (out_succ N src k s h p x hx)
    omega

/-- C75 fails: a plugin connected in two ways gets the end of acquisition twice, and the first one before frames
that come the other way. -/
theorem C75_violated : ¬ C75_statement := by
  intro h
  have hex : (exec exDiamond (start exDiamond ([5] ++ [0])) exSchedule).map
      (fun s => ((s 2).done, (s 0).done)) = some ([(0, 5), (0, 0), (1, 5), (1, 0)], [(0, 5), (0, 0)]) := by decide +kernel
  have hex1 : (exec exDiamond (start exDiamond ([5] ++ [0])) exSchedule).map
      (fun s => ((s 0).queue, (s 1).queue, (s 2).queue)) = some ([], [], []) := by decide +kernel
  have hex2 : (exec exDiamond (start exDiamond ([5] ++ [0])) exSchedule).map
      (fun s => ((s 0).out, (s 1).out, (s 2).out)) = some ([], [], []) := by decide +kernel
  cases hs : exec exDiamond (start exDiamond ([5] ++ [0])) exSchedule with
  | none => rw [hs] at hex; cases hex
  | some s =>
    rw [hs] at hex hex1 hex2
    simp only [Option.map_some, Option.some.injEq, Prod.mk.injEq] at hex hex1 hex2
    have hrun := exec_run _ _ _ _ hs
    have hnd : ∀ p, (exDiamond.succ p).Nodup := by
      intro p; simp only [exDiamond]; split
      · simp
      · split <;> simp
    have hlt : ∀ p t, t ∈ exDiamond.succ p → p < t := by
      intro p t; simp only [exDiamond]; split
      · simp only [List.mem_cons, List.not_mem_nil, or_false]; omega
      · split
        · simp only [List.mem_cons, List.not_mem_nil, or_false]; omega
        · simp
    have hbig : ∀ p t, t ∈ exDiamond.succ p → t < 3 := by
      intro p t; simp only [exDiamond]; split
      · simp only [List.mem_cons, List.not_mem_nil, or_false]; omega
      · split
        · simp only [List.mem_cons, List.not_mem_nil, or_false]; omega
        · simp
    have hI := run_inv _ hnd _ _ _ hrun
    have hq : ∀ p, (s p).queue = [] ∧ (s p).out = [] := by
      intro p
      match p with
      | 0 => exact ⟨hex1.1, hex2.1⟩
      | 1 => exact ⟨hex1.2.1, hex2.2.1⟩
      | 2 => exact ⟨hex1.2.2, hex2.2.2⟩
      | p + 3 =>
        refine ⟨idle _ _ _ hI (p + 3) (by omega) (fun q hq => ?_), ?_⟩
        · have := hbig q _ hq; omega
        · apply List.eq_nil_iff_forall_not_mem.2
          intro x hx
          have := out_succ _ _ _ _ hrun (p + 3) x hx
          simp [exDiamond] at this
    obtain ⟨d, h1, h2⟩ := h Nat Unit exDiamond (· == 0) [5] 0 _ s hnd hlt
      ⟨fun p s f _ => ⟨[], rfl, by simp⟩, fun p s f hf g hg => by
        simp only [exDiamond, List.mem_singleton] at hg; subst hg; exact hf⟩ (by decide) rfl hrun hq 0 2
      (by simp [exDiamond]) (by rw [hex.2]; simp)
    rw [hex.1] at h1
    have h3 : d = [5, 0, 5] := by
      have := congrArg List.dropLast h1
      simpa using this.symm
    have := h2 0 (by rw [h3]; simp)
    simp at this

/-- With a cycle an end of acquisition is passed on forever: there is always something left to do. -/
theorem C75_cycle (N : Net F σ) (hs : ∀ p, N.succ p ≠ []) (hf : ∀ p s f, (N.work p s f).2 ≠ []) (src : List F) (hsrc : src ≠ [])
    (k : Nat) (s : State F σ) (h : Run N k (start N src) s) : ∃ p, (s p).queue ≠ [] ∨ (s p).out ≠ [] := by
  cases h with
  | nil => exact ⟨0, Or.inl (by simpa [start] using hsrc)⟩
  | cons k _ s' _ _ hstep =>
    cases hstep with
    | take p f rest h1 h2 =>
      refine ⟨p, Or.inr ?_⟩
      rw [upd_same]
      intro he
      simp only [Node.take, deliveries, List.flatMap_eq_nil_iff, List.map_eq_nil_iff] at he
      cases hw : (N.work p (s' p).st f.2).2 with
      | nil => exact hf _ _ _ hw
      | cons g gs => exact hs p (he g (by rw [hw]; simp))
    | deliver p t g rest h1 h2 =>
      refine ⟨t, Or.inl ?_⟩
      rw [(deliver_node _ p t t g rest).2.2.1]
      simp

/-- Two plugins connected to each other, which the controller does not refuse. -/
example : ∃ N : Net Nat Unit, N.succ 1 = [2] ∧ N.succ 2 = [1] ∧ (∀ p, N.succ p ≠ []) ∧ Forwards N (· == 0) ∧
    (∀ p s f, (N.work p s f).2 ≠ []) := by
  refine ⟨⟨fun p => if p = 1 then [2] else [1], fun _ _ f => ((), [f]), fun _ => (), 8⟩, rfl, rfl, ?_, ?_, ?_⟩
  · intro p; simp only; split <;> simp
  · exact ⟨fun p s f _ => ⟨[], rfl, by simp⟩, fun p s f hf g hg => by simp only [List.mem_singleton] at hg; subst hg; exact hf⟩
  · intro p s f; simp

/-- The plugin gets frames, directly or through others, from the frame receiver. -/
inductive Conn (up : Nat → Nat) : Nat → Prop
  | zero : Conn up 0
  | up (t : Nat) : up t < t → Conn up (up t) → Conn up t

theorem feed_eoa (N : Net F σ) (eoa : F → Bool) (hF : Forwards N eoa) (p : Nat) (s : σ) (l : List F) :
    (feed (N.work p) s l).2.filter eoa = l.filter eoa := by
  induction l generalizing s with
  | nil => rfl
  | cons f l ih =>
    simp only [feed, List.filter_append, ih, List.filter_cons]
    cases hf : eoa f
    · have : ((N.work p s f).2).filter eoa = [] := by
        rw [List.filter_eq_nil_iff]
        intro g hg
        rw [hF.2 p s f hf g hg]; simp
      rw [this]; simp
    · obtain ⟨pre, h1, h2⟩ := hF.1 p s f hf
      rw [h1, List.filter_append]
      have : pre.filter eoa = [] := by
        rw [List.filter_eq_nil_iff]
        intro g hg
        rw [h2 g hg]; simp
      rw [this]; simp [hf]

theorem stream_eoa (N : Net F σ) (eoa : F → Bool) (hF : Forwards N eoa) (up : Nat → Nat) (src : List F) (t : Nat) (h : Conn up t) :
    (stream N up src t).filter eoa = src.filter eoa := by
  induction h with
  | zero => rw [stream_zero]
  | up t hlt _ ih => rw [stream_up N up src t (by omega) hlt, feed_eoa N eoa hF, ih]

theorem stream_split (N : Net F σ) (eoa : F → Bool) (hF : Forwards N eoa) (up : Nat → Nat) (l r : List F) (e : F) (he : eoa e = true)
    (t : Nat) (h : Conn up t) :
    ∃ pre r', stream N up (l ++ e :: r) t = stream N up l t ++ pre ++ e :: r' ∧ (∀ g ∈ pre, eoa g = false) ∧
      (r = [] → r' = []) := by
  induction h with
  | zero => exact ⟨[], r, by simp [stream_zero], by simp, id⟩
  | up t hlt _ ih =>
    obtain ⟨pre, r', h1, h2, h3⟩ := ih
    rw [stream_up N up _ t (by omega) hlt, stream_up N up l t (by omega) hlt, h1]
    generalize stream N up l (up t) = A
    generalize N.init (up t) = s
    rw [feed_append, feed_append]
    simp only [feed]
    obtain ⟨pre2, h4, h5⟩ := hF.1 (up t) (feed (N.work (up t)) (feed (N.work (up t)) s A).1 pre).1 e he
    refine ⟨(feed (N.work (up t)) (feed (N.work (up t)) s A).1 pre).2 ++ pre2,
      (feed (N.work (up t)) (N.work (up t) (feed (N.work (up t)) (feed (N.work (up t)) s A).1 pre).1 e).1 r').2, ?_, ?_, ?_⟩
    · rw [h4]
      simp only [List.append_assoc, List.singleton_append]
    · intro g hg
      rcases List.mem_append.1 hg with hg | hg
      · have hz : (feed (N.work (up t)) (feed (N.work (up t)) s A).1 pre).2.filter eoa = [] := by
          rw [feed_eoa N eoa hF, List.filter_eq_nil_iff]
          intro x hx
          rw [h2 x hx]; simp
        rw [List.filter_eq_nil_iff] at hz
        simpa using hz g hg
      · exact h5 g hg
    · intro hr
      rw [h3 hr]
      rfl

/-- C75 for trees: when everything is done each connected plugin has processed the end of the acquisition exactly
once, and last. -/
theorem C75_partial (N : Net F σ) (up : Nat → Nat) (hT : Tree N up) (eoa : F → Bool) (hF : Forwards N eoa) (l : List F) (e : F)
    (hl : ∀ f ∈ l, eoa f = false) (he : eoa e = true) (k : Nat) (s : State F σ) (h : Run N k (start N (l ++ [e])) s)
    (hq : ∀ p, (s p).queue = [] ∧ (s p).out = []) (t : Nat) (ht : Conn up t) :
    ∃ d, (s t).done.map (·.2) = d ++ [e] ∧ ∀ f ∈ d, eoa f = false := by
  rw [C74_tree_done N up hT (l ++ [e]) k s h hq t]
  obtain ⟨pre, r', h1, h2, h3⟩ := stream_split N eoa hF up l [] e he t ht
  rw [h3 rfl] at h1
  refine ⟨_, h1, ?_⟩
  intro f hf
  rcases List.mem_append.1 hf with hf | hf
  · have := stream_eoa N eoa hF up l t ht
    rw [show l.filter eoa = [] by rw [List.filter_eq_nil_iff]; intro x hx; rw [hl x hx]; simp,
      List.filter_eq_nil_iff] at this
    simpa using this f hf
  · exact h2 f hf

/-- C75 for trees, at any time and for any number of acquisitions: a plugin has processed either only what comes
before this end of acquisition, or all frames that stem from frames received before it, and then the end. -/
theorem C75_order_partial (N : Net F σ) (up : Nat → Nat) (hT : Tree N up) (eoa : F → Bool) (hF : Forwards N eoa) (l r : List F) (e : F)
    (he : eoa e = true) (k : Nat) (s : State F σ) (h : Run N k (start N (l ++ e :: r)) s) (t : Nat) (ht : Conn up t) :
    ∃ pre, (∀ g ∈ pre, eoa g = false) ∧
      ((s t).done.map (·.2) <+: stream N up l t ++ pre ∨ stream N up l t ++ pre ++ [e] <+: (s t).done.map (·.2)) := by
  obtain ⟨pre, r', h1, h2, _⟩ := stream_split N eoa hF up l r e he t ht
  refine ⟨pre, h2, ?_⟩
  have hp := C74_tree N up hT _ k s h t
  rw [h1] at hp
  by_cases hlen : ((s t).done.map (·.2)).length ≤ (stream N up l t ++ pre).length
  · exact Or.inl (List.prefix_of_prefix_length_le hp (List.prefix_append _ _) hlen)
  · refine Or.inr (List.prefix_of_prefix_length_le (l₃ := stream N up l t ++ pre ++ e :: r') ?_ hp ?_)
    · refine ⟨r', ?_⟩
      simp
    · simp only [List.length_append, List.length_cons, List.length_nil] at hlen ⊢
      omega

/-- Non-vacuity: a chain of two plugins, the second of which pushes its count of frames at the end. -/
def exEnd : Net Nat Nat where
  succ p := if p = 0 then [1] else if p = 1 then [2] else []
  work p s f := if p = 1 then (if f = 0 then (0, [s + 100, 0]) else (s + 1, [f])) else (s, [f])
  init _ := 0
  max := 1

example : Forwards exEnd (· == 0) := by
  constructor
  · intro p s f hf
    have : f = 0 := by simpa using hf
    subst this
    by_cases hp : p = 1
    · exact ⟨[s + 100], by simp [exEnd, hp], by simp⟩
    · exact ⟨[], by simp [exEnd, hp], by simp⟩
  · intro p s f hf g hg
    have h0 : f ≠ 0 := by simpa using hf
    have : g = f := by
      by_cases hp : p = 1 <;> simpa [exEnd, hp, h0] using hg
    rw [this]; exact hf

example : (exec exEnd (start exEnd ([7, 8] ++ [0])) [(true, 0), (false, 0), (true, 0), (false, 0), (true, 1), (false, 1), (true, 1),
    (true, 0), (false, 0), (true, 2), (false, 1), (true, 1), (true, 2), (false, 1), (true, 2), (false, 1), (true, 2)]).map
    (fun s => ((s 1).done.map (·.2), (s 2).done.map (·.2), (s 2).queue, (s 1).out)) =
    some ([7, 8, 0], [7, 8, 102, 0], [], []) := by decide +kernel

end Verif.Chain
