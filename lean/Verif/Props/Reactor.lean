import Verif.Model.Reactor

/-!
C41: timers fire as often as requested, never early, and not after their removal.
-/
namespace Verif.Reactor

/-- The times at which a timer has fired, oldest first. -/
def firings (id : Nat) (log : List Ev) : List Int :=
  log.filterMap fun e => match e with
    | .fire i t => if i = id then some t else none
    | _ => none

/-- What the firings of a timer registered at `start` have to satisfy. -/
def Good (start : Int) (delay times : Nat) (l : List Int) : Prop :=
  (∀ k (h : k < l.length), start + ((k : Int) + 1) * delay ≤ l[k]) ∧ (0 < times → l.length ≤ times)

/-- An event is the registration of a timer. -/
def Ev.registers (id : Nat) : Ev → Bool
  | .reg i _ _ _ => i == id
  | _ => false

/-- A registered timer has been removed. -/
def Removed (id : Nat) (log : List Ev) : Prop :=
  ∃ a b, log = a ++ .rm id :: b ∧ a.any (Ev.registers id) = true

/-- No firing after a removal. -/
def Silent (log : List Ev) : Prop :=
  ∀ id a b, log = a ++ .rm id :: b → a.any (Ev.registers id) = true → ∀ t, .fire id t ∉ b

/-- What a reactor has to satisfy. -/
def Correct (log : List Ev) : Prop :=
  (∀ id start delay times, .reg id start delay times ∈ log → Good start delay times (firings id log)) ∧ Silent log

/-- Values that the types can hold. -/
def Act.Typed : Act → Prop
  | .regTimer now delay times => 0 ≤ now ∧ now < 9223372036854775808 ∧ delay < 18446744073709551616 ∧
      times < 18446744073709551616
  | _ => True

def Round.Typed (r : Round) : Prop :=
  (∀ a ∈ r.during, a.Typed) ∧ (∀ c, ∀ a ∈ r.chan c, a.Typed) ∧ (∀ i, 0 ≤ r.clock i ∧ r.clock i < 9223372036854775808)

/-- The full claim. -/
def C41_statement : Prop := ∀ s, Reach Act.Typed Round.Typed s → Correct s.log

/-- Values of which the sums do not overflow: 2^62 milliseconds are 146 million years. -/
def Act.Small : Act → Prop
  | .regTimer now delay _ => 0 ≤ now ∧ now < 4611686018427387904 ∧ delay < 4611686018427387904
  | _ => True

def Round.Small (r : Round) : Prop :=
  (∀ a ∈ r.during, a.Small) ∧ (∀ c, ∀ a ∈ r.chan c, a.Small) ∧ (∀ i, 0 ≤ r.clock i ∧ r.clock i < 4611686018427387904)

/-! ### Lists -/

theorem snoc_split {α : Type} {a b l : List α} {x e : α} (h : l ++ [e] = a ++ x :: b) :
    (b = [] ∧ a = l ∧ x = e) ∨ ∃ c, b = c ++ [e] ∧ l = a ++ x :: c := by
  rcases List.eq_nil_or_concat b with rfl | ⟨c, y, rfl⟩
  · obtain ⟨h1, h2⟩ := List.append_inj' h rfl
    exact .inl ⟨rfl, h1.symm, (by simpa using h2.symm)⟩
  · right
    rw [List.concat_eq_append] at h ⊢
    have h' : l ++ [e] = (a ++ x :: c) ++ [y] := by simpa using h
    obtain ⟨h1, h2⟩ := List.append_inj' h' rfl
    have : e = y := by simpa using h2
    exact ⟨c, by rw [this], h1⟩

theorem firings_snoc (id : Nat) (log : List Ev) (e : Ev) :
    firings id (log ++ [e]) = firings id log ++ firings id [e] := List.filterMap_append

theorem firings_fire (id i : Nat) (t : Int) : firings id [.fire i t] = if i = id then [t] else [] := by
  by_cases h : i = id <;> simp [firings, h]

theorem removed_snoc {id : Nat} {log : List Ev} {e : Ev} (h : Removed id (log ++ [e])) :
    Removed id log ∨ (e = .rm id ∧ log.any (Ev.registers id) = true) := by
  obtain ⟨a, b, h, ha⟩ := h
  rcases snoc_split h with ⟨_, rfl, he⟩ | ⟨c, _, hl⟩
  · exact .inr ⟨he.symm, ha⟩
  · exact .inl ⟨a, c, hl, ha⟩

theorem removed_mono {id : Nat} {log : List Ev} (l : List Ev) (h : Removed id log) : Removed id (log ++ l) := by
  obtain ⟨a, b, h, ha⟩ := h
  exact ⟨a, b ++ l, by simp [h], ha⟩

theorem silent_snoc {log : List Ev} {e : Ev} (h : Silent log) (he : ∀ id t, e = .fire id t → ¬ Removed id log) :
    Silent (log ++ [e]) := by
  intro id a b hl ha t hm
  rcases snoc_split hl with ⟨rfl, _, _⟩ | ⟨c, rfl, hs⟩
  · simp at hm
  · rcases List.mem_append.1 hm with hm | hm
    · exact h id a c hs ha t hm
    · exact he id t (List.mem_singleton.1 hm).symm ⟨a, c, hs, ha⟩

theorem registers_iff (id : Nat) (log : List Ev) :
    log.any (Ev.registers id) = true ↔ ∃ s d n, .reg id s d n ∈ log := by
  rw [List.any_eq_true]
  constructor
  · rintro ⟨e, he, h⟩
    cases e <;> simp [Ev.registers] at h
    exact ⟨_, _, _, h ▸ he⟩
  · rintro ⟨s, d, n, h⟩
    exact ⟨_, h, by simp [Ev.registers]⟩

/-! ### The invariant -/

/-- A timer agrees with its registration and its firings. -/
structure Ok (log : List Ev) (t : Timer) : Prop where
  live : t.expired = false
  kept : ¬ Removed t.id log
  agrees : ∃ start times, .reg t.id start t.delay times ∈ log ∧
    t.due = start + ((firings t.id log).length + 1) * (t.delay : Int) ∧
    (times = 0 → t.times = 0) ∧ (0 < times → t.times + (firings t.id log).length = times ∧ 0 < t.times)

structure Inv (L : List Timer) (s : St) : Prop where
  ok : ∀ t ∈ L, Ok s.log t
  distinct : (L.map (·.id)).Nodup
  known : ∀ e ∈ s.log, ∀ i, (e.registers i = true ∨ ∃ t, e = .fire i t) → i < s.next
  once : ∀ i a d n a' d' n', .reg i a d n ∈ s.log → .reg i a' d' n' ∈ s.log → a = a' ∧ d = d' ∧ n = n'
  small : ∀ i a d n, .reg i a d n ∈ s.log → 0 ≤ a ∧ a < 4611686018427387904 ∧ d < 4611686018427387904
  good : ∀ i a d n, .reg i a d n ∈ s.log → Good a d n (firings i s.log)
  silent : Silent s.log
  present : ∀ i a d n, .reg i a d n ∈ s.log → ¬ Removed i s.log → (n = 0 ∨ (firings i s.log).length < n) → ∃ t ∈ L, t.id = i

theorem Inv.perm {L M : List Timer} {s : St} (h : Inv L s) (p : L.Perm M) : Inv M s :=
  { h with ok := fun t ht => h.ok t (p.mem_iff.2 ht), distinct := (p.map _).nodup_iff.1 h.distinct,
           present := fun i a d n h1 h2 h3 => let ⟨t, ht, hi⟩ := h.present i a d n h1 h2 h3; ⟨t, p.mem_iff.1 ht, hi⟩ }

theorem Inv.congr {L : List Timer} {s u : St} (h : Inv L s) (hl : u.log = s.log) (hn : s.next ≤ u.next) : Inv L u := by
  obtain ⟨a, b, c, d, e, f, g, k⟩ := h
  exact ⟨by rw [hl]; exact a, b, by rw [hl]; exact fun e he i hi => Nat.lt_of_lt_of_le (c e he i hi) hn, by rw [hl]; exact d,
    by rw [hl]; exact e, by rw [hl]; exact f, by rw [hl]; exact g, by rw [hl]; exact k⟩

/-- Events that say nothing about timers. -/
def Ev.quiet : Ev → Bool
  | .join _ | .leave _ | .call _ | .turn => true
  | _ => false

theorem Inv.quiet {L : List Timer} {s u : St} {e : Ev} (h : Inv L s) (he : e.quiet = true) (hl : u.log = s.log ++ [e])
    (hn : u.next = s.next) : Inv L u := by
  have hf : ∀ i, firings i (s.log ++ [e]) = firings i s.log := by
    intro i
    rw [firings_snoc]
    cases e <;> simp_all [Ev.quiet, firings]
  have hm : ∀ i a d n, .reg i a d n ∈ s.log ++ [e] → .reg i a d n ∈ s.log := by
    intro i a d n hr
    rcases List.mem_append.1 hr with hr | hr
    · exact hr
    · rw [List.mem_singleton] at hr
      subst hr
      simp [Ev.quiet] at he
  have hr : ∀ i, Removed i (s.log ++ [e]) → Removed i s.log := by
    intro i hr
    rcases removed_snoc hr with hr | ⟨rfl, _⟩
    · exact hr
    · simp [Ev.quiet] at he
  refine ⟨?_, h.distinct, ?_, ?_, ?_, ?_, ?_, ?_⟩ <;> rw [hl]
  · intro t ht
    obtain ⟨h1, h2, a, n, h3, h4⟩ := h.ok t ht
    exact ⟨h1, fun x => h2 (hr _ x), a, n, List.mem_append_left _ h3, by rw [hf]; exact h4⟩
  · intro x hx i hi
    rw [hn]
    rcases List.mem_append.1 hx with hx | hx
    · exact h.known x hx i hi
    · rw [List.mem_singleton] at hx
      subst hx
      rcases hi with hi | ⟨t, rfl⟩
      · cases x <;> simp_all [Ev.quiet, Ev.registers]
      · simp [Ev.quiet] at he
  · exact fun i a d n a' d' n' x y => h.once i a d n a' d' n' (hm _ _ _ _ x) (hm _ _ _ _ y)
  · exact fun i a d n x => h.small i a d n (hm _ _ _ _ x)
  · intro i a d n x
    rw [hf]
    exact h.good i a d n (hm _ _ _ _ x)
  · refine silent_snoc h.silent fun i t x => ?_
    subst x
    simp [Ev.quiet] at he
  · intro i a d n x y z
    rw [hf] at z
    exact h.present i a d n (hm _ _ _ _ x) (fun k => y (removed_mono _ k)) z

theorem wrap_small (i : Int) (h0 : 0 ≤ i) (h : i < 9223372036854775808) : wrap i = i := by
  unfold wrap
  omega

theorem Inv.reg {s : St} {now : Int} {delay times : Nat} (h : Inv s.timers s)
    (hs : (Act.regTimer now delay times).Small) :
    Inv (act s (.regTimer now delay times)).timers (act s (.regTimer now delay times)) := by
  obtain ⟨s1, s2, s3⟩ := hs
  have hno : ∀ a d n, .reg s.next a d n ∉ s.log := by
    intro a d n hm
    exact Nat.lt_irrefl _ (h.known _ hm s.next (.inl (by simp [Ev.registers])))
  have hnf : firings s.next s.log = [] := by
    unfold firings
    rw [List.filterMap_eq_nil_iff]
    intro e he
    cases e with
    | fire i t =>
      by_cases hi : i = s.next
      · exact absurd (h.known _ he s.next (.inr ⟨t, by rw [hi]⟩)) (Nat.lt_irrefl _)
      · simp [hi]
    | _ => rfl
  have hf : ∀ i, firings i (s.log ++ [.reg s.next now delay times]) = firings i s.log := by
    intro i
    rw [firings_snoc]
    simp [firings]
  have hrm : ∀ i, Removed i (s.log ++ [.reg s.next now delay times]) → Removed i s.log := by
    intro i hr
    rcases removed_snoc hr with hr | ⟨x, _⟩
    · exact hr
    · cases x
  have hmem : ∀ i a d n, .reg i a d n ∈ s.log ++ [Ev.reg s.next now delay times] →
      .reg i a d n ∈ s.log ∨ (i = s.next ∧ a = now ∧ d = delay ∧ n = times) := by
    intro i a d n hm
    rcases List.mem_append.1 hm with hm | hm
    · exact .inl hm
    · rw [List.mem_singleton] at hm
      cases hm
      exact .inr ⟨rfl, rfl, rfl, rfl⟩
  refine ⟨?_, ?_, ?_, ?_, ?_, ?_, ?_, ?_⟩ <;> simp only [act]
  · intro t ht
    rcases List.mem_append.1 ht with ht | ht
    · obtain ⟨h1, h2, a, n, h3, h4⟩ := h.ok t ht
      exact ⟨h1, fun x => h2 (hrm _ x), a, n, List.mem_append_left _ h3, by rw [hf]; exact h4⟩
    · rw [List.mem_singleton] at ht
      subst ht
      refine ⟨rfl, fun x => ?_, now, times, List.mem_append_right _ (by simp [create]), ?_⟩
      · obtain ⟨a, b, hl, ha⟩ := hrm _ x
        obtain ⟨a', d', n', hr⟩ := (registers_iff _ _).1 ha
        exact hno a' d' n' (by rw [hl]; exact List.mem_append_left _ hr)
      · rw [hf]
        show wrap (now + delay) = now + ((firings s.next s.log).length + 1) * (delay : Int) ∧
          (times = 0 → times = 0) ∧ (0 < times → times + (firings s.next s.log).length = times ∧ 0 < times)
        rw [hnf, wrap_small _ (by omega) (by omega)]
        refine ⟨by simp, id, fun h => ⟨by simp, h⟩⟩
  · rw [List.map_append, List.nodup_append]
    refine ⟨h.distinct, by simp, ?_⟩
    intro a ha b hb
    obtain ⟨t, ht, rfl⟩ := List.mem_map.1 ha
    have hb' : b = s.next := by simpa [create] using hb
    obtain ⟨_, _, st, n, h3, _⟩ := h.ok t ht
    have := h.known _ h3 t.id (.inl (by simp [Ev.registers]))
    omega
  · intro x hx i hi
    rcases List.mem_append.1 hx with hx | hx
    · exact Nat.lt_succ_of_lt (h.known x hx i hi)
    · rw [List.mem_singleton] at hx
      subst hx
      rcases hi with hi | ⟨t, hi⟩
      · have : s.next = i := by simpa [Ev.registers] using hi
        omega
      · cases hi
  · intro i a d n a' d' n' x y
    rcases hmem _ _ _ _ x with x1 | ⟨x1, x2, x3, x4⟩
    · rcases hmem _ _ _ _ y with y1 | ⟨y1, _⟩
      · exact h.once _ _ _ _ _ _ _ x1 y1
      · exact absurd (y1 ▸ x1) (hno _ _ _)
    · rcases hmem _ _ _ _ y with y1 | ⟨_, y2, y3, y4⟩
      · exact absurd (x1 ▸ y1) (hno _ _ _)
      · exact ⟨x2.trans y2.symm, x3.trans y3.symm, x4.trans y4.symm⟩
  · intro i a d n x
    rcases hmem _ _ _ _ x with x | ⟨rfl, rfl, rfl, rfl⟩
    · exact h.small _ _ _ _ x
    · exact ⟨s1, s2, s3⟩
  · intro i a d n x
    rw [hf]
    rcases hmem _ _ _ _ x with x | ⟨rfl, rfl, rfl, rfl⟩
    · exact h.good _ _ _ _ x
    · rw [hnf]
      exact ⟨by simp, by simp⟩
  · exact silent_snoc h.silent fun i t x => by cases x
  · intro i a d n x y z
    rw [hf] at z
    rcases hmem _ _ _ _ x with x1 | ⟨x1, _⟩
    · obtain ⟨t, ht, hi⟩ := h.present i a d n x1 (fun k => y (removed_mono _ k)) z
      exact ⟨t, List.mem_append_left _ ht, hi⟩
    · exact ⟨create s.next now delay times, by simp, x1.symm⟩

theorem Inv.rm {s : St} {id : Nat} (h : Inv s.timers s) : Inv (act s (.rmTimer id)).timers (act s (.rmTimer id)) := by
  have hf : ∀ i, firings i (s.log ++ [.rm id]) = firings i s.log := by
    intro i
    rw [firings_snoc]
    simp [firings]
  have hm : ∀ i a d n, .reg i a d n ∈ s.log ++ [Ev.rm id] → .reg i a d n ∈ s.log := by
    intro i a d n hr
    rcases List.mem_append.1 hr with hr | hr
    · exact hr
    · rw [List.mem_singleton] at hr
      cases hr
  refine ⟨?_, (List.filter_sublist.map _).nodup h.distinct, ?_, ?_, ?_, ?_, ?_, ?_⟩ <;> simp only [act]
  · intro t ht
    obtain ⟨ht, hi⟩ := List.mem_filter.1 ht
    have hi : t.id ≠ id := by simpa using hi
    obtain ⟨h1, h2, a, n, h3, h4⟩ := h.ok t ht
    refine ⟨h1, fun x => ?_, a, n, List.mem_append_left _ h3, by rw [hf]; exact h4⟩
    rcases removed_snoc x with x | ⟨x, _⟩
    · exact h2 x
    · cases x
      exact hi rfl
  · intro x hx i hi
    rcases List.mem_append.1 hx with hx | hx
    · exact h.known x hx i hi
    · rw [List.mem_singleton] at hx
      subst hx
      rcases hi with hi | ⟨t, hi⟩
      · simp [Ev.registers] at hi
      · cases hi
  · exact fun i a d n a' d' n' x y => h.once i a d n a' d' n' (hm _ _ _ _ x) (hm _ _ _ _ y)
  · exact fun i a d n x => h.small i a d n (hm _ _ _ _ x)
  · intro i a d n x
    rw [hf]
    exact h.good i a d n (hm _ _ _ _ x)
  · exact silent_snoc h.silent fun i t x => by cases x
  · intro i a d n x y z
    rw [hf] at z
    obtain ⟨t, ht, hi⟩ := h.present i a d n (hm _ _ _ _ x) (fun k => y (removed_mono _ k)) z
    refine ⟨t, List.mem_filter.2 ⟨ht, ?_⟩, hi⟩
    have : t.id ≠ id := by
      rintro rfl
      rw [hi] at y
      exact y ⟨s.log, [], rfl, (registers_iff _ _).2 ⟨a, d, n, hm _ _ _ _ x⟩⟩
    simpa using this

/-- The timer as it goes on after firing, if it does. -/
def next (t : Timer) : List Timer := if t.after.expired then [] else [t.after]

theorem Inv.fire {t : Timer} {M : List Timer} {s u : St} {c : Int} (h : Inv (t :: M) s) (hc : t.due ≤ c)
    (hs : c < 4611686018427387904) (hl : u.log = s.log ++ [.fire t.id c]) (hn : u.next = s.next) :
    Inv (next t ++ M) u := by
  obtain ⟨k1, k2, st, n, k3, k4, k5, k6⟩ := h.ok t (by simp)
  obtain ⟨b1, b2, b3⟩ := h.small _ _ _ _ k3
  have hg := h.good _ _ _ _ k3
  have hdist := h.distinct
  rw [List.map_cons, List.nodup_cons] at hdist
  have hf : ∀ i, i ≠ t.id → firings i (s.log ++ [.fire t.id c]) = firings i s.log := by
    intro i hi
    rw [firings_snoc, firings_fire, if_neg (Ne.symm hi), List.append_nil]
  have hft : firings t.id (s.log ++ [.fire t.id c]) = firings t.id s.log ++ [c] := by
    rw [firings_snoc, firings_fire, if_pos rfl]
  have hm : ∀ i a d n, .reg i a d n ∈ s.log ++ [Ev.fire t.id c] → .reg i a d n ∈ s.log := by
    intro i a d n hr
    rcases List.mem_append.1 hr with hr | hr
    · exact hr
    · rw [List.mem_singleton] at hr
      cases hr
  have hrm : ∀ i, Removed i (s.log ++ [.fire t.id c]) → Removed i s.log := by
    intro i hr
    rcases removed_snoc hr with hr | ⟨x, _⟩
    · exact hr
    · cases x
  refine ⟨?_, ?_, ?_, ?_, ?_, ?_, ?_, ?_⟩ <;> (try rw [hl]) <;> (try rw [hn])
  · intro x hx
    rcases List.mem_append.1 hx with hx | hx
    · unfold next at hx
      split at hx
      · simp at hx
      · next hexp =>
        rw [List.mem_singleton] at hx
        subst hx
        have ht1 : t.times ≠ 1 := fun h1 => hexp (by simp [Timer.after, h1])
        have e : t.after = { t with times := t.times - 1, due := wrap (t.due + t.delay) } := by
          simp [Timer.after, ht1]
        rw [e]
        refine ⟨k1, fun x => k2 (hrm _ x), st, n, List.mem_append_left _ k3, ?_⟩
        show wrap (t.due + t.delay) = st + ((firings t.id (s.log ++ [.fire t.id c])).length + 1) * (t.delay : Int) ∧
          (n = 0 → t.times - 1 = 0) ∧
          (0 < n → t.times - 1 + (firings t.id (s.log ++ [.fire t.id c])).length = n ∧ 0 < t.times - 1)
        rw [hft, List.length_append, List.length_singleton]
        have hnn : 0 ≤ (((firings t.id s.log).length : Int) + 1) * (t.delay : Int) := Int.mul_nonneg (by omega) (by omega)
        refine ⟨?_, fun h0 => by rw [k5 h0], fun h0 => ?_⟩
        · rw [wrap_small _ (by omega) (by omega), k4]
          push_cast
          rw [Int.add_mul, Int.add_mul, Int.add_mul]
          omega
        · obtain ⟨p1, p2⟩ := k6 h0
          omega
    · have hne : x.id ≠ t.id := fun he => hdist.1 (he ▸ List.mem_map_of_mem hx)
      obtain ⟨h1, h2, a, n, h3, h4⟩ := h.ok x (List.mem_cons_of_mem _ hx)
      exact ⟨h1, fun y => h2 (hrm _ y), a, n, List.mem_append_left _ h3, by rw [hf _ hne]; exact h4⟩
  · unfold next
    split
    · exact hdist.2
    · have : t.after.id = t.id := by unfold Timer.after; split <;> rfl
      rw [List.singleton_append, List.map_cons, this, List.nodup_cons]
      exact hdist
  · intro x hx i hi
    rcases List.mem_append.1 hx with hx | hx
    · exact h.known x hx i hi
    · rw [List.mem_singleton] at hx
      subst hx
      rcases hi with hi | ⟨t', hi⟩
      · simp [Ev.registers] at hi
      · cases hi
        exact h.known _ k3 t.id (.inl (by simp [Ev.registers]))
  · exact fun i a d n a' d' n' x y => h.once i a d n a' d' n' (hm _ _ _ _ x) (hm _ _ _ _ y)
  · exact fun i a d n x => h.small i a d n (hm _ _ _ _ x)
  · intro i a d m x
    by_cases hi : i = t.id
    · subst hi
      obtain ⟨rfl, rfl, rfl⟩ := h.once _ _ _ _ _ _ _ k3 (hm _ _ _ _ x)
      rw [hft]
      constructor
      · intro k hk
        rw [List.length_append, List.length_singleton] at hk
        by_cases hlt : k < (firings t.id s.log).length
        · rw [List.getElem_append_left hlt]
          exact hg.1 k hlt
        · have hke : k = (firings t.id s.log).length := by omega
          rw [List.getElem_append_right (by omega)]
          subst hke
          simp only [Nat.sub_self, List.getElem_cons_zero]
          omega
      · intro h0
        obtain ⟨p1, p2⟩ := k6 h0
        rw [List.length_append, List.length_singleton]
        omega
    · rw [hf i hi]
      exact h.good i a d m (hm _ _ _ _ x)
  · refine silent_snoc h.silent fun i t' x => ?_
    cases x
    exact k2
  · intro i a d m x y z
    by_cases hi : i = t.id
    · subst hi
      obtain ⟨rfl, rfl, rfl⟩ := h.once _ _ _ _ _ _ _ k3 (hm _ _ _ _ x)
      rw [hft, List.length_append, List.length_singleton] at z
      have ht1 : t.times ≠ 1 := by
        intro h1
        rcases z with z | z
        · have := k5 z
          omega
        · have := k6 (by omega)
          omega
      refine ⟨t.after, List.mem_append_left _ ?_, ?_⟩
      · simp [next, Timer.after, ht1, k1]
      · simp [Timer.after, ht1]
    · rw [hf i hi] at z
      obtain ⟨u, hu, hui⟩ := h.present i a d m (hm _ _ _ _ x) (fun k => y (removed_mono _ k)) z
      rcases List.mem_cons.1 hu with rfl | hu
      · exact absurd hui.symm hi
      · exact ⟨u, List.mem_append_right _ hu, hui⟩

/-! ### Preservation -/

theorem act_quiet {L : List Timer} {s : St} (a : Act) (h : Inv L s) (ha : a.locks = false) : Inv L (act s a) := by
  cases a with
  | regTimer _ _ _ => simp [Act.locks] at ha
  | rmTimer _ => simp [Act.locks] at ha
  | regChan c => exact h.quiet (e := .join c) rfl rfl rfl
  | rmChan c => exact h.quiet (e := .leave c) rfl rfl rfl
  | stop => exact h.congr rfl (Nat.le_refl _)
  | others n => exact h.congr rfl (Nat.le_add_right _ _)

theorem act_timers {s : St} {a : Act} (ha : a.locks = false) : (act s a).timers = s.timers := by
  cases a <;> first | rfl | simp [Act.locks] at ha

theorem act_inv {s : St} (a : Act) (h : Inv s.timers s) (ha : a.Small) : Inv (act s a).timers (act s a) := by
  cases hl : a.locks with
  | false => rw [act_timers hl]; exact act_quiet a h hl
  | true =>
    cases a with
    | regTimer now delay times => exact h.reg ha
    | rmTimer id => exact h.rm
    | _ => simp [Act.locks] at hl

theorem acts_inv (l : List Act) : ∀ s : St, Inv s.timers s → (∀ a ∈ l, a.Small) → Inv (acts s l).timers (acts s l) := by
  induction l with
  | nil => exact fun s h _ => h
  | cons a l ih =>
    intro s h ha
    exact ih _ (act_inv a h (ha a (by simp))) fun b hb => ha b (by simp [hb])

theorem acts_quiet (l : List Act) (L : List Timer) :
    ∀ s : St, Inv L s → l.any Act.locks = false → Inv L (acts s l) ∧ (acts s l).timers = s.timers := by
  induction l with
  | nil => exact fun s h _ => ⟨h, rfl⟩
  | cons a l ih =>
    intro s h ha
    rw [List.any_cons, Bool.or_eq_false_iff] at ha
    obtain ⟨h1, h2⟩ := ih _ (act_quiet a h ha.1) ha.2
    exact ⟨h1, h2.trans (act_timers ha.1)⟩

theorem channels_inv (r : Round) (hr : r.Small) (l : List Nat) :
    ∀ s : St, Inv s.timers s → Inv (channels r l s).timers (channels r l s) := by
  induction l with
  | nil => exact fun s h => h
  | cons c l ih =>
    intro s h
    unfold channels
    split
    · refine ih _ (acts_inv _ _ ?_ (hr.2.1 c))
      exact h.quiet (u := { s with log := s.log ++ [.call c] }) (e := .call c) rfl rfl rfl
    · exact ih s h

theorem keep_after (t : Timer) (s : St) :
    (keep t.after s).timers = s.timers ++ next t ∧ (keep t.after s).log = s.log ∧ (keep t.after s).next = s.next := by
  unfold keep next
  split
  · simp
  · exact ⟨rfl, rfl, rfl⟩

theorem fires_inv (r : Round) (hr : r.Small) (l : List Timer) :
    ∀ s w : St, Inv (s.timers ++ l) s → fires r l s = some w → Inv w.timers w := by
  induction l with
  | nil =>
    intro s w h hw
    cases hw
    simpa using h
  | cons t l ih =>
    intro s w h hw
    have h' : Inv (t :: (s.timers ++ l)) s := h.perm List.perm_middle
    unfold fires at hw
    split at hw
    · next hd =>
      split at hw
      · cases hw
      · next hq =>
        have hq : (r.timer t.id).any Act.locks = false := by simpa using hq
        have h1 := h'.fire (u := { s with log := s.log ++ [.fire t.id (r.clock t.id)] }) hd (hr.2.2 t.id).2 rfl rfl
        obtain ⟨h2, h3⟩ := acts_quiet _ _ _ h1 hq
        refine ih _ _ ?_ hw
        obtain ⟨k1, k2, k3⟩ := keep_after t (acts { s with log := s.log ++ [.fire t.id (r.clock t.id)] } (r.timer t.id))
        have h4 := h2.congr k2 (Nat.le_of_eq k3.symm)
        rw [k1, h3]
        refine h4.perm ?_
        show (next t ++ (s.timers ++ l)).Perm (s.timers ++ next t ++ l)
        rw [← List.append_assoc]
        exact List.perm_append_comm.append_right l
    · next hd =>
      refine ih _ _ ?_ hw
      have hexp : t.expired = false := (h'.ok t (by simp)).live
      simp only [keep, hexp, Bool.false_eq_true, if_false]
      refine (h.congr (u := { s with timers := s.timers ++ [t] }) rfl (Nat.le_refl _)).perm ?_
      simp

theorem rebuilt_inv {s : St} (h : Inv s.timers s) : Inv (rebuilt s).timers (rebuilt s) := by
  unfold rebuilt
  split
  · exact h.congr rfl (Nat.le_refl _)
  · exact h

theorem round_inv (r : Round) (hr : r.Small) (s t : St) (h : Inv s.timers s) (ht : round r s = .again t) :
    Inv t.timers t := by
  unfold round at ht
  split at ht
  · cases ht
  · split at ht
    · cases ht
    · have h1 : Inv s.timers { s with log := s.log ++ [.turn] } := h.quiet (e := .turn) rfl rfl rfl
      have h2 := rebuilt_inv (s := { s with log := s.log ++ [.turn] }) h1
      have h3 := channels_inv r hr (rebuilt { s with log := s.log ++ [.turn] }).poll _ (acts_inv r.during _ h2 hr.1)
      simp only at ht
      split at ht
      · cases ht
      · next w hw =>
        cases ht
        refine fires_inv r hr _ _ _ ?_ hw
        exact h3.congr rfl (Nat.le_refl _)

theorem reach_inv (s : St) (h : Reach Act.Small Round.Small s) : Inv s.timers s := by
  induction h with
  | init =>
    refine ⟨by simp, by simp, by simp, by simp, by simp, by simp, ?_, by simp⟩
    intro id a b h
    exact absurd h.symm (by simp)
  | act s a _ ha ih => exact act_inv a ih ha
  | round s t r _ hr ht ih => exact round_inv r hr s t ih ht

/-- Timers never fire early, never too often and not after their removal. Missing: clock values and delays above 2^62
milliseconds. -/
theorem C41_partial (s : St) (h : Reach Act.Small Round.Small s) : Correct s.log :=
  ⟨(reach_inv s h).good, (reach_inv s h).silent⟩

/-! ### A round fires every timer that is due -/

theorem act_log (s : St) (a : Act) : ∃ l, (act s a).log = s.log ++ l ∧ ∀ i, firings i l = [] := by
  cases a with
  | regTimer now d n => exact ⟨[_], rfl, fun i => by simp [firings]⟩
  | rmTimer i => exact ⟨[_], rfl, fun i => by simp [firings]⟩
  | regChan c => exact ⟨[_], rfl, fun i => by simp [firings]⟩
  | rmChan c => exact ⟨[_], rfl, fun i => by simp [firings]⟩
  | stop => exact ⟨[], by simp [act], fun i => rfl⟩
  | others n => exact ⟨[], by simp [act], fun i => rfl⟩

theorem firings_append (i : Nat) (a b : List Ev) : firings i (a ++ b) = firings i a ++ firings i b :=
  List.filterMap_append

theorem acts_log (l : List Act) : ∀ s : St, ∃ k, (acts s l).log = s.log ++ k ∧ ∀ i, firings i k = [] := by
  induction l with
  | nil => exact fun s => ⟨[], by simp [acts], fun i => rfl⟩
  | cons a l ih =>
    intro s
    obtain ⟨k, hk, hf⟩ := act_log s a
    obtain ⟨m, hm, hg⟩ := ih (act s a)
    refine ⟨k ++ m, ?_, fun i => by rw [firings_append, hf, hg]; rfl⟩
    show (acts (act s a) l).log = _
    rw [hm, hk, List.append_assoc]

theorem channels_log (r : Round) (l : List Nat) :
    ∀ s : St, ∃ k, (channels r l s).log = s.log ++ k ∧ ∀ i, firings i k = [] := by
  induction l with
  | nil => exact fun s => ⟨[], by simp [channels], fun i => rfl⟩
  | cons c l ih =>
    intro s
    unfold channels
    split
    · obtain ⟨k, hk, hf⟩ := acts_log (r.chan c) { s with log := s.log ++ [.call c] }
      obtain ⟨m, hm, hg⟩ := ih (acts { s with log := s.log ++ [.call c] } (r.chan c))
      refine ⟨[.call c] ++ k ++ m, ?_, fun i => by rw [firings_append, firings_append, hf, hg]; simp [firings]⟩
      rw [hm, hk]
      simp
    · exact ih s

theorem keep_log (t : Timer) (s : St) : (keep t s).log = s.log := by
  unfold keep
  split <;> rfl

/-- What the timers add to the log. -/
theorem fires_log (r : Round) (l : List Timer) :
    ∀ s w : St, fires r l s = some w → ∃ k, w.log = s.log ++ k ∧
      (∀ i, i ∉ l.map (·.id) → firings i k = []) ∧
      ((l.map (·.id)).Nodup → ∀ t ∈ l, firings t.id k = if t.due ≤ r.clock t.id then [r.clock t.id] else []) := by
  induction l with
  | nil =>
    intro s w h
    cases h
    exact ⟨[], by simp, fun _ _ => rfl, by simp⟩
  | cons t l ih =>
    intro s w h
    unfold fires at h
    split at h
    · next hd =>
      split at h
      · cases h
      · obtain ⟨m, hm, hf⟩ := acts_log (r.timer t.id) { s with log := s.log ++ [.fire t.id (r.clock t.id)] }
        obtain ⟨k, hk, h1, h2⟩ := ih _ _ h
        rw [keep_log, hm] at hk
        refine ⟨[.fire t.id (r.clock t.id)] ++ m ++ k, by rw [hk]; simp, ?_, ?_⟩
        · intro i hi
          rw [List.map_cons, List.mem_cons, not_or] at hi
          rw [firings_append, firings_append, hf, h1 i hi.2, firings_fire, if_neg (Ne.symm hi.1)]
          rfl
        · intro hn u hu
          rw [List.map_cons, List.nodup_cons] at hn
          rw [firings_append, firings_append, hf]
          rcases List.mem_cons.1 hu with rfl | hu
          · rw [h1 _ hn.1, firings_fire, if_pos rfl, if_pos hd]
            rfl
          · have hne : t.id ≠ u.id := fun he => hn.1 (he ▸ List.mem_map_of_mem hu)
            rw [h2 hn.2 u hu, firings_fire, if_neg hne]
            rfl
    · next hd =>
      obtain ⟨k, hk, h1, h2⟩ := ih _ _ h
      rw [keep_log] at hk
      refine ⟨k, hk, ?_, ?_⟩
      · intro i hi
        rw [List.map_cons, List.mem_cons, not_or] at hi
        exact h1 i hi.2
      · intro hn u hu
        rw [List.map_cons, List.nodup_cons] at hn
        rcases List.mem_cons.1 hu with rfl | hu
        · rw [h1 _ hn.1, if_neg hd]
        · exact h2 hn.2 u hu

/-- A round fires exactly the timers that are due, each once. -/
theorem C41_round_partial (s t : St) (r : Round) (h : Reach Act.Small Round.Small s) (hr : r.Small)
    (ht : round r s = .again t) (id : Nat) (start : Int) (delay times : Nat) (hg : .reg id start delay times ∈ s.log)
    (hm : ¬ Removed id t.log) (hn : times = 0 ∨ (firings id s.log).length < times) :
    firings id t.log = firings id s.log ++
      (if start + ((firings id s.log).length + 1) * (delay : Int) ≤ r.clock id then [r.clock id] else []) := by
  have h0 := reach_inv s h
  unfold round at ht
  split at ht
  · cases ht
  · split at ht
    · cases ht
    · have h1 : Inv s.timers { s with log := s.log ++ [.turn] } := h0.quiet (e := .turn) rfl rfl rfl
      have h2 := rebuilt_inv (s := { s with log := s.log ++ [.turn] }) h1
      have h3 := channels_inv r hr (rebuilt { s with log := s.log ++ [.turn] }).poll _ (acts_inv r.during _ h2 hr.1)
      have e1 : (rebuilt { s with log := s.log ++ [.turn] }).log = s.log ++ [.turn] := by
        unfold rebuilt
        split <;> rfl
      obtain ⟨k1, q1, f1⟩ := acts_log r.during (rebuilt { s with log := s.log ++ [.turn] })
      obtain ⟨k2, q2, f2⟩ := channels_log r (rebuilt { s with log := s.log ++ [.turn] }).poll
        (acts (rebuilt { s with log := s.log ++ [.turn] }) r.during)
      simp only at ht
      split at ht
      · cases ht
      · next w hw =>
        cases ht
        generalize hv : channels r (rebuilt { s with log := s.log ++ [.turn] }).poll
          (acts (rebuilt { s with log := s.log ++ [.turn] }) r.during) = v at h3 q2 hw
        have hlog : v.log = s.log ++ ([.turn] ++ k1 ++ k2) := by rw [q2, q1, e1]; simp
        have hfv : firings id v.log = firings id s.log := by
          rw [hlog, firings_append, firings_append, firings_append, f1, f2]
          simp [firings]
        obtain ⟨k3, q3, _, f3⟩ := fires_log r _ _ _ hw
        replace q3 : t.log = v.log ++ k3 := q3
        have hgv : .reg id start delay times ∈ v.log := by rw [hlog]; exact List.mem_append_left _ hg
        obtain ⟨u, hu, hui⟩ := h3.present id start delay times hgv
          (fun x => hm (by rw [q3]; exact removed_mono _ x)) (by rw [hfv]; exact hn)
        subst hui
        obtain ⟨_, _, st, n, g1, g2, _⟩ := h3.ok u hu
        obtain ⟨e1, e2, _⟩ := h3.once _ _ _ _ _ _ _ hgv g1
        rw [q3, firings_append, f3 h3.distinct u hu, hfv, g2, hfv, e1, e2]

/-- Rounds in succession. -/
inductive Rounds : List Round → St → St → Prop
  | nil (s : St) : Rounds [] s s
  | cons (r : Round) (l : List Round) (s t u : St) : round r s = .again t → Rounds l t u → Rounds (r :: l) s u

theorem round_log (r : Round) (s t : St) (h : round r s = .again t) : ∃ k, t.log = s.log ++ k := by
  unfold round at h
  split at h
  · cases h
  · split at h
    · cases h
    · have e1 : (rebuilt { s with log := s.log ++ [.turn] }).log = s.log ++ [.turn] := by
        unfold rebuilt
        split <;> rfl
      obtain ⟨k1, q1, f1⟩ := acts_log r.during (rebuilt { s with log := s.log ++ [.turn] })
      obtain ⟨k2, q2, f2⟩ := channels_log r (rebuilt { s with log := s.log ++ [.turn] }).poll
        (acts (rebuilt { s with log := s.log ++ [.turn] }) r.during)
      simp only at h
      split at h
      · cases h
      · next w hw =>
        cases h
        obtain ⟨k3, q3, _⟩ := fires_log r _ _ _ hw
        exact ⟨[.turn] ++ k1 ++ k2 ++ k3, by rw [q3]; simp only []; rw [q2, q1, e1]; simp⟩

theorem rounds_log {l : List Round} {s t : St} (h : Rounds l s t) : ∃ k, t.log = s.log ++ k := by
  induction h with
  | nil s => exact ⟨[], by simp⟩
  | cons r l s t u h _ ih =>
    obtain ⟨a, ha⟩ := round_log r s t h
    obtain ⟨b, hb⟩ := ih
    exact ⟨a ++ b, by rw [hb, ha]; simp⟩

/-- A timer with a number of repetitions that is not removed fires exactly that often, once the loop has gone round often
enough after its last time. -/
theorem C41_exact_partial {l : List Round} {s t : St} (hl : Rounds l s t) :
    Reach Act.Small Round.Small s → (∀ r ∈ l, r.Small) → ∀ (id : Nat) (start : Int) (delay times : Nat),
    .reg id start delay times ∈ s.log → 0 < times → ¬ Removed id t.log →
    (∀ r ∈ l, start + times * (delay : Int) ≤ r.clock id) →
    (firings id t.log).length = min times ((firings id s.log).length + l.length) := by
  induction hl with
  | nil s =>
    intro h _ id start delay times hg h0 _ _
    have := ((reach_inv s h).good id start delay times hg).2 h0
    simp only [List.length_nil]
    omega
  | cons r l s t u ht hr ih =>
    intro h hs id start delay times hg h0 hm hc
    obtain ⟨a, ha⟩ := round_log r s t ht
    obtain ⟨b, hb⟩ := rounds_log hr
    have hreach : Reach Act.Small Round.Small t := .round s t r h (hs r (by simp)) ht
    have hgt : .reg id start delay times ∈ t.log := by rw [ha]; exact List.mem_append_left _ hg
    have hmt : ¬ Removed id t.log := fun x => hm (by rw [hb]; exact removed_mono _ x)
    have := ih hreach (fun r hr => hs r (by simp [hr])) id start delay times hgt h0 hm (fun r hr => hc r (by simp [hr]))
    rw [this, List.length_cons]
    have hle := ((reach_inv s h).good id start delay times hg).2 h0
    have hlet := ((reach_inv t hreach).good id start delay times hgt).2 h0
    by_cases hlt : (firings id s.log).length < times
    · have hrd := C41_round_partial s t r h (hs r (by simp)) ht id start delay times hg hmt (.inr hlt)
      have hdue : start + ((firings id s.log).length + 1) * (delay : Int) ≤ r.clock id := by
        have h1 := hc r (by simp)
        have h2 : (((firings id s.log).length : Int) + 1) * (delay : Int) ≤ (times : Int) * delay :=
          Int.mul_le_mul_of_nonneg_right (by omega) (by omega)
        omega
      rw [if_pos hdue] at hrd
      rw [hrd, List.length_append, List.length_singleton]
      omega
    · have : (firings id t.log).length ≥ (firings id s.log).length := by rw [ha, firings_append]; simp
      omega

/-- A timer without a number of repetitions fires in every round in which it is due. -/
theorem C41_forever_partial (s t : St) (r : Round) (h : Reach Act.Small Round.Small s) (hr : r.Small)
    (ht : round r s = .again t) (id : Nat) (start : Int) (delay : Nat) (hg : .reg id start delay 0 ∈ s.log)
    (hm : ¬ Removed id t.log) (hc : start + ((firings id s.log).length + 1) * (delay : Int) ≤ r.clock id) :
    firings id t.log = firings id s.log ++ [r.clock id] := by
  rw [C41_round_partial s t r h hr ht id start delay 0 hg hm (.inl rfl), if_pos hc]

/-- The sum of the clock and a long delay wraps: the timer fires at once. -/
theorem C41_violated : ¬ C41_statement := by
  intro h
  have hs := h _ (.round _ _ { clock := fun _ => 0 }
    (.act _ (.regTimer 0 18446744073709551615 0) .init ⟨by decide, by decide, by decide, by decide⟩)
    ⟨by simp, by simp, by simp⟩ (by rfl))
  have := (hs.1 0 0 18446744073709551615 0 (by decide +kernel)).1 0 (by decide +kernel)
  revert this
  decide +kernel

/-- A timer of two repetitions every 10 ms, and one for ever. -/
def two : St := acts {} [.regTimer 100 10 2, .regTimer 100 7 0]

example : Reach Act.Small Round.Small two :=
  .act (act {} (.regTimer 100 10 2)) (.regTimer 100 7 0) (.act {} (.regTimer 100 10 2) .init ⟨by decide, by decide, by decide⟩)
    ⟨by decide, by decide, by decide⟩

/-- Non-vacuity: rounds at 105, 111, 112 and 130. -/
def after (s : St) (now : Int) : St :=
  match round { clock := fun _ => now } s with
  | .again t => t
  | _ => s

example : firings 0 (after (after (after (after two 105) 111) 112) 130).log = [111, 130] ∧
    firings 1 (after (after (after (after two 105) 111) 112) 130).log = [111, 130] ∧
    ((after (after (after (after two 105) 111) 112) 130).timers.map (·.id)) = [1] := by decide +kernel

end Verif.Reactor
