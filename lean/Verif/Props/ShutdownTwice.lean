import Verif.Model.ShutdownTwice
/-
C50, second half: repeated shutdowns have no further effect.
-/
namespace Verif.ShutdownTwice

/-- A step whose work is done changes nothing. -/
def Done (s : St) : Step → Prop
  | .stopPlugins => ∀ p ∈ s.plugins, p = false
  | .send => s.sent = true
  | .clear => s.plugins = []
  | .stopOwn => s.own = false
  | .stopReactor => s.stopped = true
  | .join => s.joinable = false
  | .unregister => s.registered = false
  | .close => s.open_ = false
  | .release => s.shm = false
  | .tearDown => s.pools = 0
  | .finish => s.over = true

theorem nulls_off (ps : List Bool) (h : ∀ p ∈ ps, p = false) : ∀ k, nulls k ps = [] ∧ ps.map (fun _ => false) = ps := by
  induction ps with
  | nil => exact fun _ => ⟨rfl, rfl⟩
  | cons p ps ih =>
    intro k
    obtain rfl := h p (by simp)
    have := ih (fun q hq => h q (by simp [hq])) (k + 1)
    exact ⟨this.1, by rw [List.map_cons, this.2]⟩

theorem apply_done (s : St) (a : Step) (h : Done s a) : apply s a = s := by
  obtain ⟨plugins, sent, own, stopped, joinable, registered, open_, shm, pools, over, log⟩ := s
  cases a with
  | stopPlugins =>
    have := nulls_off plugins h 0
    simp only [apply, this.1, this.2, List.append_nil]
  | _ => cases h; simp [apply]

theorem done_apply (s : St) (a : Step) : Done (apply s a) a := by
  cases a <;> simp [Done, apply]

/-- No step undoes another. -/
theorem done_keep (s : St) (a b : Step) (h : Done s a) : Done (apply s b) a := by
  by_cases e : a = b
  · subst e; exact done_apply s a
  · cases a <;> cases b <;> first | exact h | exact absurd rfl e | simp_all [Done, apply]

theorem done_fold (l : List Step) : ∀ (s : St) (a : Step), (a ∈ l ∨ Done s a) → Done (l.foldl apply s) a := by
  induction l with
  | nil => intro s a h; rcases h with h | h; cases h; exact h
  | cons b l ih =>
    intro s a h
    refine ih _ a ?_
    rcases h with h | h
    · rcases List.mem_cons.1 h with rfl | h
      · exact Or.inr (done_apply s a)
      · exact Or.inl h
    · exact Or.inr (done_keep s a b h)

theorem fold_done (l : List Step) (s : St) (h : ∀ a ∈ l, Done s a) : l.foldl apply s = s := by
  induction l with
  | nil => rfl
  | cons a l ih =>
    show l.foldl apply (apply s a) = s
    rw [apply_done s a (h a (by simp))]
    exact ih (fun b hb => h b (by simp [hb]))

/-- Steps repeated from the beginning go on where the first attempt ended. -/
theorem resume (l : List Step) (s : St) (n m : Nat) : (l.take m).foldl apply ((l.take n).foldl apply s) = (l.take (max n m)).foldl apply s := by
  by_cases h : m ≤ n
  · rw [Nat.max_eq_left h]
    refine fold_done _ _ (fun a ha => done_fold _ _ a (Or.inl ?_))
    have : l.take m = (l.take n).take m := by rw [List.take_take, Nat.min_eq_left h]
    rw [this] at ha
    exact List.mem_of_mem_take ha
  · rw [Nat.max_eq_right (by omega)]
    have e : l.take m = l.take n ++ (l.take m).drop n := by
      have := (List.take_append_drop n (l.take m)).symm
      rw [List.take_take, Nat.min_eq_left (by omega)] at this
      exact this
    rw [e, List.foldl_append, List.foldl_append,
      fold_done (l.take n) _ (fun a ha => done_fold _ _ a (Or.inl ha))]

theorem over_take (s : St) (h : s.over = false) (n : Nat) (hn : n < body.length) : ((body.take n).foldl apply s).over = false := by
  have hk : ∀ (l : List Step), .finish ∉ l → ∀ s : St, s.over = false → (l.foldl apply s).over = false := by
    intro l
    induction l with
    | nil => exact fun _ _ h => h
    | cons a l ih =>
      intro hl s hs
      refine ih (fun h => hl (by simp [h])) _ ?_
      cases a <;> first | exact hs | exact absurd (by simp) hl
  refine hk _ ?_ s h
  intro hm
  have : body = body.dropLast ++ [.finish] := by decide
  have hp : body.take n <+: body.dropLast := by
    rw [List.dropLast_eq_take]
    exact List.take_prefix_take_left (by omega)
  have := hp.subset hm
  revert this
  decide

/-- The furthest of several attempts. -/
def furthest (ns : List Nat) : Nat := ns.foldl max 0

theorem max_fold (ns : List Nat) : ∀ k, ns.foldl max k = max k (ns.foldl max 0) := by
  induction ns with
  | nil => intro k; exact (Nat.max_eq_left (Nat.zero_le k)).symm
  | cons n ns ih =>
    intro k
    show ns.foldl max (max k n) = max k (ns.foldl max (max 0 n))
    rw [ih, ih (max 0 n), Nat.zero_max, Nat.max_assoc]

/-- Once a shutdown is complete, further calls change nothing at all. -/
theorem C50_again (s : St) (n : Nat) (hn : body.length ≤ n) (ms : List Nat) : calls (shutdown s n) ms = shutdown s n := by
  have ho : (shutdown s n).over = true := by
    unfold shutdown
    by_cases h : s.over = true
    · rw [if_pos h]; exact h
    · rw [if_neg h]
      have := done_fold (body.take n) s .finish (Or.inl (by rw [List.take_of_length_le hn]; decide))
      exact this
  generalize shutdown s n = t at ho ⊢
  induction ms with
  | nil => rfl
  | cons m ms ih =>
    show calls (shutdown t m) ms = t
    have : shutdown t m = t := by unfold shutdown; rw [if_pos ho]
    rw [this]; exact ih

/-- Whatever attempts there were, and wherever exceptions left them, the state and all effects are those of one call that got as far as
the furthest of them: nothing is done twice, and nothing left out. -/
theorem C50_attempts (s : St) (h : s.over = false) (ns : List Nat) : calls s ns = shutdown s (furthest ns) := by
  have key : ∀ (ns : List Nat) (k : Nat), calls (shutdown s k) ns = shutdown s (max k (furthest ns)) := by
    intro ns
    induction ns with
    | nil => intro k; rw [show max k (furthest []) = k from Nat.max_eq_left (Nat.zero_le k)]; rfl
    | cons n ns ih =>
      intro k
      show calls (shutdown (shutdown s k) n) ns = _
      have e : shutdown (shutdown s k) n = shutdown s (max k n) := by
        by_cases hk : body.length ≤ k
        · have := C50_again s k hk [n]
          rw [show calls (shutdown s k) [n] = shutdown (shutdown s k) n from rfl] at this
          rw [this]
          unfold shutdown
          rw [h, if_neg (by simp), if_neg (by simp), List.take_of_length_le hk, List.take_of_length_le (Nat.le_trans hk (Nat.le_max_left k n))]
        · have h1 : shutdown s k = (body.take k).foldl apply s := by unfold shutdown; rw [h, if_neg (by simp)]
          rw [h1]
          have h2 := over_take s h k (by omega)
          unfold shutdown
          rw [h2, if_neg (by simp), h, if_neg (by simp), resume]
      rw [e, ih]
      congr 1
      show max (max k n) (furthest ns) = max k (ns.foldl max (max 0 n))
      rw [max_fold, Nat.zero_max, Nat.max_assoc]
      rfl
  have := key ns 0
  rw [Nat.zero_max] at this
  rw [← this]
  have h0 : shutdown s 0 = s := by unfold shutdown; rw [h, if_neg (by simp)]; rfl
  rw [h0]

/-- So, if any of the calls was a whole one, the effects are those of one whole call, each working plugin being told once. -/
theorem C50_once (s : St) (h : s.over = false) (ns : List Nat) (hn : ∃ n ∈ ns, body.length ≤ n) :
    calls s ns = shutdown s body.length ∧ (calls s ns).log = s.log ++ nulls 0 s.plugins ++ (if s.sent then [] else [.sent]) ++
      (if s.plugins = [] then [] else [.destroyed s.plugins.length]) ++ (if s.own then [.nullOwn] else []) ++ (if s.stopped then [] else [.reactor]) ++
      (if s.joinable then [.joined] else []) ++ (if s.registered then [.unregistered] else []) ++ (if s.open_ then [.closed] else []) ++
      (if s.shm then [.released] else []) ++ (if s.pools = 0 then [] else [.pools s.pools]) := by
  obtain ⟨n, hm, hl⟩ := hn
  have hf : body.length ≤ furthest ns := by
    have : ∀ (ns : List Nat) (k : Nat), n ∈ ns ∨ n ≤ k → n ≤ ns.foldl max k := by
      intro ns
      induction ns with
      | nil => intro k hk; rcases hk with hk | hk; cases hk; exact hk
      | cons a ns ih =>
        intro k hk
        refine ih _ ?_
        rcases hk with hk | hk
        · rcases List.mem_cons.1 hk with rfl | hk
          · exact Or.inr (Nat.le_max_right _ _)
          · exact Or.inl hk
        · exact Or.inr (Nat.le_trans hk (Nat.le_max_left _ _))
    exact Nat.le_trans hl (this ns 0 (Or.inl hm))
  have e : calls s ns = shutdown s body.length := by
    rw [C50_attempts s h ns]
    unfold shutdown
    rw [h, if_neg (by simp), if_neg (by simp), List.take_of_length_le hf, List.take_of_length_le (Nat.le_refl _)]
  refine ⟨e, ?_⟩
  rw [e]
  unfold shutdown
  rw [h, if_neg (by simp), List.take_of_length_le (Nat.le_refl _)]
  show (body.foldl apply s).log = _
  simp [body, apply]

/-- Non-vacuity: two attempts that fail, the second further on, and a whole one. -/
example : (calls ⟨[true, false, true], false, true, false, true, true, true, true, 2, false, []⟩ [1, 6, 11, 3]).log =
    [.null 0, .null 2, .sent, .destroyed 3, .nullOwn, .reactor, .joined, .unregistered, .closed, .released, .pools 2] := by decide

end Verif.ShutdownTwice
