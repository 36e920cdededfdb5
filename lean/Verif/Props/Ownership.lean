import Verif.Model.Ownership

/-
C197: At the end of the frame processor nothing keeps its plugins alive.
-/
namespace Verif.Ownership

/-! ### What is left -/

theorem sweep_sub (g : Refs) (l : List Nat) : ∀ x ∈ sweep g l, x ∈ l := fun _ hx => (List.mem_filter.1 hx).1

theorem settle_sub (g : Refs) : ∀ n l, ∀ x ∈ settle g n l, x ∈ l := by
  intro n
  induction n with
  | zero => intro l x hx; exact hx
  | succ n ih => intro l x hx; exact sweep_sub g l x (ih _ x hx)

/-- A set of objects in which each one is held by one of them stays. -/
theorem settle_keeps (g : Refs) (S : Nat → Prop) (hS : ∀ x, S x → ∃ y, S y ∧ x ∈ g y) : ∀ n l, (∀ x, S x → x ∈ l) → ∀ x, S x → x ∈ settle g n l := by
  intro n
  induction n with
  | zero => intro l h x hx; exact h x hx
  | succ n ih =>
    intro l h
    refine ih _ fun x hx => List.mem_filter.2 ⟨h x hx, ?_⟩
    obtain ⟨y, hy, hxy⟩ := hS x hx
    exact List.any_eq_true.2 ⟨y, h y hy, decide_eq_true hxy⟩

theorem settle_fixed (g : Refs) : ∀ n l, sweep g l = l → settle g n l = l := by
  intro n
  induction n with
  | zero => intro l _; rfl
  | succ n ih => intro l h; rw [settle, h]; exact ih l h

/-- After as many sweeps as there are objects another one changes nothing. -/
theorem settle_done (g : Refs) : ∀ n l, l.length ≤ n → sweep g (settle g n l) = settle g n l := by
  intro n
  induction n with
  | zero =>
    intro l h
    have : l = [] := List.eq_nil_of_length_eq_zero (by omega)
    subst this
    rfl
  | succ n ih =>
    intro l h
    rw [settle]
    have hle : (sweep g l).length ≤ l.length := List.length_filter_le ..
    by_cases hl : (sweep g l).length = l.length
    · have e : sweep g l = l := (List.filter_sublist (l := l)).eq_of_length hl
      rw [e, settle_fixed g n l e, e]
    · exact ih _ (by omega)

/-- Exactly the objects in a set of which each one is held by another one of the set are left. -/
theorem left_exactly (g : Refs) (l : List Nat) (x : Nat) :
    x ∈ settle g l.length l ↔ ∃ S : Nat → Prop, S x ∧ (∀ y, S y → y ∈ l) ∧ ∀ y, S y → ∃ z, S z ∧ y ∈ g z := by
  constructor
  · intro h
    refine ⟨fun y => y ∈ settle g l.length l, h, fun y hy => settle_sub g _ _ y hy, fun y hy => ?_⟩
    have hd := settle_done g l.length l (Nat.le_refl _)
    rw [← hd] at hy
    obtain ⟨z, hz, hyz⟩ := List.any_eq_true.1 (List.mem_filter.1 hy).2
    exact ⟨z, hz, of_decide_eq_true hyz⟩
  · rintro ⟨S, hx, hl, hS⟩
    exact settle_keeps g S hS _ _ hl x hx

/-- Without a cycle nothing is left. -/
theorem left_nothing (g : Refs) (l : List Nat) (rank : Nat → Nat) (h : ∀ y ∈ l, ∀ x ∈ g y, x ∈ l → rank y < rank x) :
    settle g l.length l = [] := by
  have key : ∀ n x, rank x ≤ n → x ∉ settle g l.length l := by
    intro n
    induction n with
    | zero =>
      intro x hr hx
      obtain ⟨S, hs, hl, hS⟩ := (left_exactly g l x).1 hx
      obtain ⟨z, hz, hxz⟩ := hS x hs
      have := h z (hl z hz) x hxz (hl x hs)
      omega
    | succ n ih =>
      intro x hr hx
      obtain ⟨S, hs, hl, hS⟩ := (left_exactly g l x).1 hx
      obtain ⟨z, hz, hxz⟩ := hS x hs
      have := h z (hl z hz) x hxz (hl x hs)
      exact ih z (by omega) ((left_exactly g l z).2 ⟨S, hz, hl, hS⟩)
  exact List.eq_nil_iff_forall_not_mem.2 fun x => key (rank x) x (Nat.le_refl _)

/-! ### The configuration -/

/-- What holds of all configurations: plugins have numbers from 2 on, and callbacks of plugins are plugins or the controller. -/
structure Good (c : Cfg) : Prop where
  two : ∀ x ∈ c.plugins, 2 ≤ x
  targets : ∀ y x, x ∈ c.refs y → (x ∈ c.plugins ∨ x = 0) ∧ (y ∈ c.plugins ∨ y = 1)
  shm : ∀ x ∈ c.refs 1, x ∈ c.plugins

theorem step_good (c : Cfg) (o : Op) (h : Good c) : Good (step c o) := by
  cases o with
  | load x writer =>
    simp only [step]
    split
    · exact h
    · next hx =>
      have hx2 : ¬ x ∈ c.plugins ∧ 2 ≤ x := ⟨fun hm => hx (Or.inl hm), by omega⟩
      refine ⟨fun z hz => ?_, fun y z hz => ?_, fun z hz => ?_⟩
      · rcases List.mem_cons.1 hz with rfl | hz
        · exact hx2.2
        · exact h.two z hz
      · simp only [upd] at hz
        split at hz
        · next e =>
          subst e
          refine ⟨?_, Or.inl (List.mem_cons_self ..)⟩
          cases writer
          · cases hz
          · exact Or.inr (List.mem_singleton.1 hz)
        · obtain ⟨a, b⟩ := h.targets y z hz
          refine ⟨?_, ?_⟩
          · rcases a with a | a
            · exact Or.inl (List.mem_cons_of_mem _ a)
            · exact Or.inr a
          · rcases b with b | b
            · exact Or.inl (List.mem_cons_of_mem _ b)
            · exact Or.inr b
      · simp only [upd] at hz
        rw [if_neg (by omega)] at hz
        exact List.mem_cons_of_mem _ (h.shm z hz)
  | interface =>
    refine ⟨h.two, fun y z hz => ?_, fun z hz => ?_⟩
    · simp only [step, upd] at hz
      split at hz
      · cases hz
      · exact h.targets y z hz
    · simp only [step, upd, if_true] at hz
      cases hz
  | connect x y =>
    simp only [step]
    split
    · next hc =>
      have hin : ∀ z, z ∈ insert (c.refs y) x → z = x ∨ z ∈ c.refs y := by
        intro z hz
        unfold insert at hz
        split at hz
        · exact Or.inr hz
        · exact List.mem_cons.1 hz
      refine ⟨h.two, fun w z hz => ?_, fun z hz => ?_⟩
      · simp only [upd] at hz
        split at hz
        · next e =>
          subst e
          rcases hin z hz with rfl | hz
          · exact ⟨Or.inl hc.1, hc.2.imp id And.left⟩
          · exact h.targets _ z hz
        · exact h.targets w z hz
      · simp only [upd] at hz
        split at hz
        · next e =>
          subst e
          rcases hin z hz with rfl | hz
          · exact hc.1
          · exact h.shm z hz
        · exact h.shm z hz
    · exact h
  | disconnect x y =>
    simp only [step]
    split
    · refine ⟨h.two, fun w z hz => ?_, fun z hz => ?_⟩
      · simp only [upd] at hz
        split at hz
        · next e => subst e; exact h.targets _ z (List.mem_filter.1 hz).1
        · exact h.targets w z hz
      · simp only [upd] at hz
        split at hz
        · next e => subst e; exact h.shm z (List.mem_filter.1 hz).1
        · exact h.shm z hz
    · exact h
  | disconnectAll =>
    refine ⟨h.two, fun w z hz => ?_, fun z hz => ?_⟩
    · simp only [step] at hz
      split at hz
      · cases hz
      · exact h.targets w z hz
    · simp only [step] at hz
      split at hz
      · cases hz
      · exact h.shm z hz

theorem run_good (ops : List Op) : Good (run ops) := by
  suffices ∀ c, Good c → Good (ops.foldl step c) from this {} ⟨fun x hx => (by cases hx), fun y x hx => (by cases hx), fun x hx => (by cases hx)⟩
  induction ops with
  | nil => intro c h; exact h
  | cons o os ih => intro c h; exact ih _ (step_good c o h)

/-! ### C197 -/

/-- Plugins are connected without a cycle: there is an order in which every plugin comes before those that receive its frames. -/
def Acyclic (c : Cfg) : Prop := ∃ rank : Nat → Nat, ∀ y ∈ c.plugins, ∀ x ∈ c.plugins, x ∈ c.refs y → rank y < rank x

/-- A file writer with its callback to the controller. -/
def Writer (c : Cfg) : Prop := ∃ x ∈ c.plugins, 0 ∈ c.refs x

/-- The full statement: whatever was configured, the program ends, after `shutdown` and after an exception. -/
def C197_statement : Prop := ∀ ops, ends (leftAfterShutdown (run ops)) = true ∧ ends (leftAfterException (run ops)) = true

/-- A plugin connected to itself is never destroyed. -/
theorem C197_violated : ¬ C197_statement := by
  intro h
  have := (h [.load 2 false, .connect 2 2]).1
  revert this
  decide

/-- In general: plugins connected in a cycle, here given as a set in which each one receives the frames of another, and what they hold stay. -/
theorem C197_cycle (c : Cfg) (S : Nat → Prop) (hp : ∀ x, S x → x ∈ c.plugins) (h0 : ∀ x ∈ c.plugins, x ≠ 0) (hS : ∀ x, S x → ∃ y, S y ∧ x ∈ c.refs y) (x : Nat) (hx : S x) :
    x ∈ leftAfterShutdown c := by
  refine (left_exactly (down c) (objects c) x).2 ⟨S, hx, fun y hy => ?_, fun y hy => ?_⟩
  · unfold objects
    exact List.mem_cons_of_mem _ (List.mem_append.2 (Or.inr (hp y hy)))
  · obtain ⟨z, hz, hyz⟩ := hS y hy
    refine ⟨z, hz, ?_⟩
    unfold down upd
    rw [if_neg (h0 z (hp z hz))]
    exact hyz

/-- Proved part: plugins connected without a cycle are destroyed after `shutdown`, with the controller. -/
theorem C197_partial (ops : List Op) (h : Acyclic (run ops)) : ends (leftAfterShutdown (run ops)) = true := by
  have hg := run_good ops
  generalize run ops = c at *
  obtain ⟨rank, hr⟩ := h
  obtain ⟨m, hm⟩ : ∃ m, ∀ x ∈ c.plugins, rank x < m := by
    generalize c.plugins = l
    induction l with
    | nil => exact ⟨0, fun x hx => (by cases hx)⟩
    | cons a l ih =>
      obtain ⟨m, hm⟩ := ih
      refine ⟨max m (rank a + 1), fun x hx => ?_⟩
      rcases List.mem_cons.1 hx with rfl | hx
      · omega
      · have := hm x hx; omega
  have hn : leftAfterShutdown c = [] := by
    refine left_nothing (down c) (objects c) (fun x => if x = 0 then m + 1 else if x = 1 then 0 else rank x + 1) fun y hy x hx _ => ?_
    unfold down upd at hx
    by_cases hy0 : y = 0
    · rw [if_pos hy0] at hx; cases hx
    · rw [if_neg hy0] at hx
      obtain ⟨a, b⟩ := hg.targets y x hx
      show (if y = 0 then _ else _) < (if x = 0 then _ else _)
      rw [if_neg hy0]
      rcases b with b | b
      · have y2 := hg.two y b
        rw [if_neg (by omega)]
        rcases a with a | a
        · have x2 := hg.two x a
          rw [if_neg (by omega), if_neg (by omega)]
          have := hr y b x a hx
          omega
        · rw [if_pos a]
          have := hm y b
          omega
      · rw [if_pos b]
        subst b
        have x2 := hg.two x (hg.shm x hx)
        rw [if_neg (by omega), if_neg (by omega)]
        omega
  rw [hn]
  rfl

/-- An exception before `run` of the controller, with a file writer loaded: writer and controller hold each other, so the
controller is not destroyed, its destructor does not call `shutdown`, and all plugins stay. -/
theorem C197_exception (ops : List Op) (h : Writer (run ops)) :
    0 ∈ leftAfterException (run ops) ∧ ∀ x ∈ (run ops).plugins, x ∈ leftAfterException (run ops) := by
  have hg := run_good ops
  generalize run ops = c at *
  obtain ⟨w, hw, h0⟩ := h
  have all : ∀ x, x = 0 ∨ x ∈ c.plugins → x ∈ settle (running c) (objects c).length (objects c) := by
    intro x hx
    refine (left_exactly (running c) (objects c) x).2 ⟨fun y => y = 0 ∨ y ∈ c.plugins, hx, fun y hy => ?_, fun y hy => ?_⟩
    · rcases hy with rfl | hy
      · exact List.mem_cons_self ..
      · exact List.mem_cons_of_mem _ (List.mem_append.2 (Or.inr hy))
    · rcases hy with rfl | hy
      · refine ⟨w, Or.inr hw, ?_⟩
        have := hg.two w hw
        unfold running upd
        rw [if_neg (by omega)]
        exact h0
      · refine ⟨0, Or.inl rfl, ?_⟩
        unfold running upd
        rw [if_pos rfl]
        exact List.mem_append.2 (Or.inr hy)
  unfold leftAfterException
  rw [if_pos (all 0 (Or.inl rfl))]
  exact ⟨all 0 (Or.inl rfl), fun x hx => all x (Or.inr hx)⟩

/-- Without a file writer, an exception is as good as `shutdown`. -/
theorem C197_without (ops : List Op) (h : ¬ Writer (run ops)) : leftAfterException (run ops) = leftAfterShutdown (run ops) := by
  have hg := run_good ops
  generalize run ops = c at *
  unfold leftAfterException
  rw [if_neg]
  intro h0
  obtain ⟨S, hs, hl, hS⟩ := (left_exactly _ _ 0).1 h0
  obtain ⟨z, hz, h0z⟩ := hS 0 hs
  unfold running upd at h0z
  split at h0z
  · rcases List.mem_append.1 h0z with h1 | h1
    · split at h1
      · cases List.mem_singleton.1 h1
      · cases h1
    · have := hg.two 0 h1; omega
  · obtain ⟨_, b⟩ := hg.targets z 0 h0z
    rcases b with b | b
    · exact h ⟨z, b, h0z⟩
    · subst b
      have := hg.two 0 (hg.shm 0 h0z); omega

/-- The usual way: a plugin and the file writer, connected in a row; a wrong message in the file of the configuration. -/
def usual : List Op := [.interface, .load 2 false, .load 3 true, .connect 2 1, .connect 3 2]

example : ends (leftAfterShutdown (run usual)) = true ∧ leftAfterException (run usual) = [0, 1, 3, 2] ∧ ends (leftAfterException (run usual)) = false := by
  decide

example : Acyclic (run usual) := ⟨id, by decide⟩

/-- Two plugins connected with each other, and one behind them; disconnecting all of them in time helps. -/
example : leftAfterShutdown (run [.load 2 false, .load 3 false, .load 4 false, .connect 2 3, .connect 3 2, .connect 4 3]) = [4, 3, 2] ∧
    leftAfterShutdown (run [.load 2 false, .load 3 true, .connect 2 3, .connect 3 2, .disconnectAll]) = [] ∧
    leftAfterShutdown (run [.load 2 false, .load 3 true, .connect 2 3, .connect 3 2, .disconnect 2 3]) = [] := by decide

end Verif.Ownership
