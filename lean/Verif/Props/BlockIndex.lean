import Verif.Model.BlockIndex
/-! Property C169: indices of data blocks. -/
namespace Verif.BlockIndex
namespace Spec

/-- No two blocks have the same index. -/
def Unique (y : Sys) : Prop := ∀ a b, a < y.next → b < y.next → y.index a = y.index b → a = b

/-- The map of used blocks contains the blocks in use and no others. -/
def Mapped (p : Pool) : Prop := ∀ b, b ∈ p.held ↔ b ∈ p.map.map (·.2)

/-- Each block is either free or in use, in one pool and once, and the counters are right. -/
def Sound (y : Sys) : Prop :=
  (∀ k, ((y.pool k).free ++ (y.pool k).held).Nodup ∧ (y.pool k).freeN = (y.pool k).free.length ∧
    (y.pool k).usedN = (y.pool k).held.length) ∧
  (∀ k j b, b ∈ (y.pool k).free ++ (y.pool k).held → b ∈ (y.pool j).free ++ (y.pool j).held → k = j)

/-- No thread starts to construct a block while another does. -/
def Serial (y : Sys) : List Ev → Prop
  | [] => True
  | e :: es => (∀ t k, e = .load t k → y.busy = []) ∧ Serial (step y e) es

end Spec
open Spec

/-! ## Pools -/

theorem upd_eq {α} (f : Nat → α) (k : Nat) (v : α) : upd f k v k = v := by simp [upd]
theorem upd_ne {α} (f : Nat → α) {k i : Nat} (v : α) (h : i ≠ k) : upd f k v i = f i := by simp [upd, h]

/-- One pool: blocks below `n`, none twice, the counters, and the map, whose entries are blocks in use under their indices. -/
structure PInv (p : Pool) (index : Nat → Nat) (n : Nat) : Prop where
  nodup : (p.free ++ p.held).Nodup
  lt : ∀ b ∈ p.free ++ p.held, b < n
  freeN : p.freeN = p.free.length
  usedN : p.usedN = p.held.length
  map : ∀ e ∈ p.map, e.1 = index e.2 ∧ e.2 ∈ p.held

structure Inv (y : Sys) : Prop where
  pool : ∀ k, PInv (y.pool k) y.index y.next
  own : ∀ k j b, b ∈ (y.pool k).free ++ (y.pool k).held → b ∈ (y.pool j).free ++ (y.pool j).held → k = j

theorem pinv_new {p : Pool} {index : Nat → Nat} {n v : Nat} (h : PInv p index n) : PInv p (upd index n v) (n + 1) := by
  refine ⟨h.nodup, fun b hb => Nat.lt_succ_of_lt (h.lt b hb), h.freeN, h.usedN, ?_⟩
  intro e he
  have h1 := h.map e he
  have h2 := h.lt e.2 (List.mem_append_right _ h1.2)
  exact ⟨by rw [upd_ne _ _ (by omega)]; exact h1.1, h1.2⟩

theorem pinv_add {p : Pool} {index : Nat → Nat} {n v : Nat} (h : PInv p index n) : PInv (p.add n) (upd index n v) (n + 1) := by
  have h' := pinv_new (v := v) h
  refine ⟨?_, ?_, ?_, h.usedN, h'.map⟩
  · show (n :: (p.free ++ p.held)).Nodup
    exact List.nodup_cons.2 ⟨fun hm => Nat.lt_irrefl _ (h.lt n hm), h.nodup⟩
  · intro b hb
    rcases List.mem_cons.1 (show b ∈ n :: (p.free ++ p.held) from hb) with e | hb
    · omega
    · exact h'.lt b hb
  · show p.freeN + 1 = (n :: p.free).length
    rw [h.freeN]; rfl

theorem take_mem {p : Pool} {index : Nat → Nat} (b : Nat) :
    b ∈ (p.take index).free ++ (p.take index).held ↔ b ∈ p.free ++ p.held := by
  unfold Pool.take
  cases hf : p.free with
  | nil => simp [hf]
  | cons a rest =>
    simp only [List.mem_append, List.mem_cons]
    constructor
    · rintro (h | h | h) <;> simp [h]
    · rintro ((h | h) | h) <;> simp [h]

theorem pinv_take {p : Pool} {index : Nat → Nat} {n : Nat} (h : PInv p index n) : PInv (p.take index) index n := by
  cases hf : p.free with
  | nil =>
    have : p.take index = p := by unfold Pool.take; rw [hf]
    rw [this]; exact h
  | cons a rest =>
    have e : p.take index = ⟨rest, (index a, a) :: p.map.filter (fun e => e.1 ≠ index a), a :: p.held, p.freeN - 1, p.usedN + 1⟩ := by
      unfold Pool.take; rw [hf]
    have hn := h.nodup
    rw [hf] at hn
    refine ⟨?_, fun b hb => h.lt b ((take_mem b).1 hb), ?_, ?_, ?_⟩
    · rw [e]
      show (rest ++ a :: p.held).Nodup
      exact List.perm_middle.nodup_iff.2 hn
    · rw [e]
      have := h.freeN
      rw [hf] at this
      show p.freeN - 1 = rest.length
      rw [this]; rfl
    · rw [e]
      show p.usedN + 1 = (a :: p.held).length
      rw [h.usedN]; rfl
    · intro x hx
      rw [e] at hx ⊢
      rcases List.mem_cons.1 hx with hx | hx
      · rw [hx]; exact ⟨rfl, List.mem_cons_self⟩
      · have := h.map x (List.mem_filter.1 hx).1
        exact ⟨this.1, List.mem_cons_of_mem _ this.2⟩

theorem release_perm {p : Pool} {index : Nat → Nat} {b : Nat} (hb : b ∈ p.held) :
    ((p.release index b).free ++ (p.release index b).held).Perm (p.free ++ p.held) := by
  show (b :: (p.free ++ p.held.erase b)).Perm _
  refine List.perm_middle.symm.trans ?_
  exact (List.perm_cons_erase hb).symm.append_left _

theorem pinv_release {p : Pool} {index : Nat → Nat} {n b : Nat} (h : PInv p index n) (hb : b ∈ p.held) :
    PInv (p.release index b) index n := by
  have hp := release_perm (index := index) hb
  refine ⟨hp.nodup_iff.2 h.nodup, fun x hx => h.lt x (hp.mem_iff.1 hx), ?_, ?_, ?_⟩
  · show p.freeN + 1 = (b :: p.free).length
    rw [h.freeN]; rfl
  · show p.usedN - 1 = (p.held.erase b).length
    rw [h.usedN, List.length_erase_of_mem hb]
  · intro e he
    obtain ⟨h1, h2⟩ := List.mem_filter.1 (show e ∈ p.map.filter (fun e => e.1 ≠ index b) from he)
    obtain ⟨h3, h4⟩ := h.map e h1
    refine ⟨h3, (List.mem_erase_of_ne ?_).2 h4⟩
    intro e2
    rw [e2] at h3
    simp [h3] at h2

/-! ## All pools -/

theorem init_inv : Inv {} := by
  refine ⟨fun k => ⟨List.nodup_nil, ?_, rfl, rfl, ?_⟩, ?_⟩
  · intro b hb; cases hb
  · intro e he; cases he
  · intro k j b hb; cases hb

/-- Changing one pool to one with the same blocks. -/
theorem inv_upd {y : Sys} (h : Inv y) (k : Nat) (p : Pool) (hp : PInv p y.index y.next)
    (hm : ∀ b, b ∈ p.free ++ p.held ↔ b ∈ (y.pool k).free ++ (y.pool k).held) : Inv { y with pool := upd y.pool k p } := by
  have hmem : ∀ i b, b ∈ (upd y.pool k p i).free ++ (upd y.pool k p i).held → b ∈ (y.pool i).free ++ (y.pool i).held := by
    intro i b hb
    by_cases e : i = k
    · rw [e, upd_eq] at hb
      rw [e]; exact (hm b).1 hb
    · rw [upd_ne _ _ e] at hb; exact hb
  refine ⟨fun i => ?_, fun i j b hi hj => h.own i j b (hmem i b hi) (hmem j b hj)⟩
  show PInv (upd y.pool k p i) y.index y.next
  by_cases e : i = k
  · rw [e, upd_eq]; exact hp
  · rw [upd_ne _ _ e]; exact h.pool i

theorem store_inv {y : Sys} (h : Inv y) (u : Busy) : Inv (store y u) := by
  have hmem : ∀ i b, b ∈ ((store y u).pool i).free ++ ((store y u).pool i).held →
      b ∈ (y.pool i).free ++ (y.pool i).held ∨ (b = y.next ∧ i = u.pool) := by
    intro i b hb
    by_cases e : i = u.pool
    · have hb : b ∈ (upd y.pool u.pool ((y.pool u.pool).add y.next) i).free ++ (upd y.pool u.pool ((y.pool u.pool).add y.next) i).held := hb
      rw [e, upd_eq] at hb
      rcases List.mem_cons.1 (show b ∈ y.next :: ((y.pool u.pool).free ++ (y.pool u.pool).held) from hb) with hb | hb
      · exact Or.inr ⟨hb, e⟩
      · rw [e]; exact Or.inl hb
    · have hb : b ∈ (upd y.pool u.pool ((y.pool u.pool).add y.next) i).free ++ (upd y.pool u.pool ((y.pool u.pool).add y.next) i).held := hb
      rw [upd_ne _ _ e] at hb
      exact Or.inl hb
  refine ⟨fun i => ?_, ?_⟩
  · show PInv (upd y.pool u.pool ((y.pool u.pool).add y.next) i) (upd y.index y.next u.value) (y.next + 1)
    by_cases e : i = u.pool
    · rw [e, upd_eq]; exact pinv_add (h.pool _)
    · rw [upd_ne _ _ e]; exact pinv_new (h.pool i)
  · intro i j b hi hj
    rcases hmem i b hi with hi | ⟨e1, e2⟩
    · rcases hmem j b hj with hj | ⟨e1, -⟩
      · exact h.own i j b hi hj
      · have := (h.pool i).lt b hi; omega
    · rcases hmem j b hj with hj | ⟨-, e3⟩
      · have := (h.pool j).lt b hj; omega
      · rw [e2, e3]

theorem step_inv {y : Sys} (h : Inv y) (e : Ev) : Inv (step y e) := by
  cases e with
  | load t k =>
    show Inv (if locked y k || within y t then y else load y t k)
    split
    · exact h
    · exact ⟨h.pool, h.own⟩
  | store t =>
    unfold step
    dsimp only
    cases y.busy.find? (fun u => u.thread == t) with
    | none => exact h
    | some u => exact store_inv h u
  | take k =>
    show Inv (if locked y k then y else _)
    split
    · exact h
    · exact inv_upd h k _ (pinv_take (h.pool k)) (fun b => take_mem b)
  | release k b =>
    show Inv (if locked y k || !(y.pool k).held.contains b then y else _)
    split
    · exact h
    · next hc =>
      have hb : b ∈ (y.pool k).held := by
        simp only [Bool.or_eq_true, Bool.not_eq_true', not_or, Bool.not_eq_false] at hc
        exact List.contains_iff_mem.1 hc.2
      exact inv_upd h k _ (pinv_release (h.pool k) hb) (fun x => (release_perm hb).mem_iff)

theorem run_inv (es : List Ev) : ∀ {y : Sys}, Inv y → Inv (run y es) := by
  induction es with
  | nil => intro y h; exact h
  | cons e es ih => intro y h; exact ih (step_inv h e)

/-- C169, the blocks themselves: whatever the threads do and whatever indices come of it, no block is handed to two users, none
is lost, the counters are right, and the map of used blocks contains blocks in use only. -/
theorem C169_sound (es : List Ev) : Sound (run {} es) ∧ ∀ k, ∀ e ∈ ((run {} es).pool k).map, e.2 ∈ ((run {} es).pool k).held := by
  have h := run_inv es init_inv
  exact ⟨⟨fun k => ⟨(h.pool k).nodup, (h.pool k).freeN, (h.pool k).usedN⟩, h.own⟩, fun k e he => ((h.pool k).map e he).2⟩

/-! ## Indices -/

/-- Every block below the counter in the order of construction, at most one thread at work, with the value of the counter. -/
structure SInv (y : Sys) : Prop where
  count : y.counter = y.next
  index : ∀ b, b < y.next → y.index b = b
  busy : y.busy = [] ∨ ∃ u, y.busy = [u] ∧ u.value = y.counter

theorem sstep {y : Sys} (h : SInv y) (e : Ev) (hs : ∀ t k, e = .load t k → y.busy = []) : SInv (step y e) := by
  cases e with
  | load t k =>
    have hb := hs t k rfl
    show SInv (if locked y k || within y t then y else load y t k)
    split
    · exact h
    · exact ⟨h.count, h.index, Or.inr ⟨⟨t, k, y.counter⟩, by unfold load; rw [hb], rfl⟩⟩
  | store t =>
    unfold step
    dsimp only
    cases hf : y.busy.find? (fun u => u.thread == t) with
    | none => exact h
    | some u =>
      have hm := List.mem_of_find?_eq_some hf
      rcases h.busy with hb | ⟨v, hb, hv⟩
      · rw [hb] at hm; cases hm
      · rw [hb] at hm
        have e := List.mem_singleton.1 hm
        refine ⟨?_, ?_, Or.inl ?_⟩
        · show u.value + 1 = y.next + 1
          rw [e, hv, h.count]
        · intro b hbn
          show upd y.index y.next u.value b = b
          by_cases e2 : b = y.next
          · rw [e2, upd_eq, e, hv, h.count]
          · rw [upd_ne _ _ e2]
            exact h.index b (by have : b < y.next + 1 := hbn; omega)
        · show y.busy.filter (fun v => v.thread ≠ u.thread) = []
          rw [hb, e]
          simp
  | take k =>
    show SInv (if locked y k then y else _)
    split
    · exact h
    · exact ⟨h.count, h.index, h.busy⟩
  | release k b =>
    show SInv (if locked y k || !(y.pool k).held.contains b then y else _)
    split
    · exact h
    · exact ⟨h.count, h.index, h.busy⟩

theorem srun (es : List Ev) : ∀ {y : Sys}, SInv y → Serial y es → SInv (run y es) := by
  induction es with
  | nil => intro y h _; exact h
  | cons e es ih => intro y h hs; exact ih (sstep h e hs.1) hs.2

theorem init_sinv : SInv {} := ⟨rfl, fun b hb => absurd hb (Nat.not_lt_zero b), Or.inl rfl⟩

/-- C169 in full: indices are unique, in every history. -/
def C169_statement : Prop := ∀ es, Unique (run {} es)

/-- C169, proved part: if no two threads construct blocks at the same time. -/
theorem C169_partial (es : List Ev) (hs : Serial {} es) : Unique (run {} es) := by
  have h := srun es init_sinv hs
  intro a b ha hb e
  rwa [h.index a ha, h.index b hb] at e

theorem serial_one (k : Nat) (es : List Ev) : ∀ (y : Sys), (∀ u ∈ y.busy, u.pool = k) → (∀ t j, Ev.load t j ∈ es → j = k) →
    SInv y → SInv (run y es) := by
  induction es with
  | nil => intro y _ _ h; exact h
  | cons e es ih =>
    intro y hy he h
    have hbusy : ∀ u ∈ (step y e).busy, u.pool = k := by
      cases e with
      | load t j =>
        show ∀ u ∈ (if locked y j || within y t then y else load y t j).busy, u.pool = k
        split
        · exact hy
        · intro u hu
          rcases List.mem_cons.1 (show u ∈ ⟨t, j, y.counter⟩ :: y.busy from hu) with hu | hu
          · rw [hu]; exact he t j List.mem_cons_self
          · exact hy u hu
      | store t =>
        unfold step
        dsimp only
        cases y.busy.find? (fun u => u.thread == t) with
        | none => exact hy
        | some v => exact fun u hu => hy u (List.mem_filter.1 (show u ∈ y.busy.filter _ from hu)).1
      | take j =>
        show ∀ u ∈ (if locked y j then y else _).busy, u.pool = k
        split <;> exact hy
      | release j b =>
        show ∀ u ∈ (if locked y j || !(y.pool j).held.contains b then y else _).busy, u.pool = k
        split <;> exact hy
    have hrest : ∀ t j, Ev.load t j ∈ es → j = k := fun t j hm => he t j (List.mem_cons_of_mem _ hm)
    refine ih (step y e) hbusy hrest ?_
    by_cases hl : ∃ t, e = .load t k
    · obtain ⟨t, rfl⟩ := hl
      by_cases hb : y.busy = []
      · exact sstep h _ (fun _ _ _ => hb)
      · have hlk : locked y k = true := by
          obtain ⟨u, hu⟩ := List.exists_mem_of_ne_nil _ hb
          exact List.any_eq_true.2 ⟨u, hu, by rw [hy u hu]; exact beq_self_eq_true k⟩
        have : step y (.load t k) = y := by
          show (if locked y k || within y t then y else load y t k) = y
          rw [hlk]; rfl
        rw [this]; exact h
    · refine sstep h e (fun t j e2 => absurd ⟨t, ?_⟩ hl)
      rw [e2, he t j (by rw [e2]; exact List.mem_cons_self)]

/-- C169, proved part: if frames of one size only are made, the mutex of the pool is enough. -/
theorem C169_one_pool (k : Nat) (es : List Ev) (h : ∀ t j, Ev.load t j ∈ es → j = k) : Unique (run {} es) := by
  have h := serial_one k es {} (fun u hu => by cases hu) h init_sinv
  intro a b ha hb e
  rwa [h.index a ha, h.index b hb] at e

/-- Two threads, two sizes: the first has loaded the counter when the second makes two blocks, and sets it back. -/
def race : List Ev := [.load 1 100, .load 2 200, .store 2, .load 2 200, .store 2, .store 1, .load 2 200, .store 2]

theorem C169_violated : ¬C169_statement := by
  intro h
  exact absurd (h race 1 3 (by decide) (by decide) (by decide)) (by decide)

/-- The two blocks with the same index are in the same pool. -/
theorem C169_same_pool : ((run {} race).pool 200).free.map (run {} race).index = [1, 1, 0] := by decide

/-- When both are taken, the map forgets one of them, which is in use. -/
theorem C169_forgotten : ¬Mapped ((run {} (race ++ [.take 200, .take 200])).pool 200) := by
  intro h
  exact absurd ((h 3).1 (by decide)) (by decide)

/-! ## The map of used blocks -/

/-- Every block in use is in the map, under its index. -/
def Full (y : Sys) : Prop := ∀ k, ∀ b ∈ (y.pool k).held, (y.index b, b) ∈ (y.pool k).map

theorem full_step {y : Sys} {e : Ev} (hi : Inv y) (hu : Unique (step y e)) (h : Full y) : Full (step y e) := by
  cases e with
  | load t k =>
    show Full (if locked y k || within y t then y else load y t k)
    split
    · exact h
    · exact h
  | store t =>
    unfold step
    dsimp only
    cases y.busy.find? (fun u => u.thread == t) with
    | none => exact h
    | some u =>
      intro i b hb
      have hh : ((store y u).pool i).held = (y.pool i).held ∧ ((store y u).pool i).map = (y.pool i).map := by
        show (upd y.pool u.pool _ i).held = _ ∧ (upd y.pool u.pool _ i).map = _
        by_cases e : i = u.pool
        · rw [e, upd_eq]; exact ⟨rfl, rfl⟩
        · rw [upd_ne _ _ e]; exact ⟨rfl, rfl⟩
      rw [hh.1] at hb
      rw [hh.2]
      have hlt := (hi.pool i).lt b (List.mem_append_right _ hb)
      show (upd y.index y.next u.value b, b) ∈ _
      rw [upd_ne _ _ (by omega)]
      exact h i b hb
  | take k =>
    have hu : Unique (if locked y k then y else { y with pool := upd y.pool k ((y.pool k).take y.index) }) := hu
    show Full (if locked y k then y else { y with pool := upd y.pool k ((y.pool k).take y.index) })
    split at hu
    · next hc => rw [if_pos hc]; exact h
    · next hc =>
      rw [if_neg hc]
      have hu : Unique y := hu
      intro i b hb
      have hb : b ∈ (upd y.pool k ((y.pool k).take y.index) i).held := hb
      show (y.index b, b) ∈ (upd y.pool k ((y.pool k).take y.index) i).map
      by_cases e : i = k
      · rw [e, upd_eq] at hb ⊢
        unfold Pool.take at hb ⊢
        cases hf : (y.pool k).free with
        | nil => rw [hf] at hb; exact h k b hb
        | cons a rest =>
          rw [hf] at hb
          have hn := (hi.pool k).nodup
          rw [hf] at hn
          rcases List.mem_cons.1 hb with e2 | hb
          · rw [e2]; exact List.mem_cons_self
          · refine List.mem_cons_of_mem _ (List.mem_filter.2 ⟨h k b hb, ?_⟩)
            have hne : b ≠ a := by
              intro e2
              rw [e2] at hb
              exact (List.nodup_cons.1 hn).1 (List.mem_append_right _ hb)
            have h1 := (hi.pool k).lt b (List.mem_append_right _ hb)
            have h2 := (hi.pool k).lt a (by rw [hf]; exact List.mem_cons_self)
            exact decide_eq_true (fun e3 => hne (hu b a h1 h2 e3))
      · rw [upd_ne _ _ e] at hb ⊢; exact h i b hb
  | release k c =>
    have hu : Unique (if locked y k || !(y.pool k).held.contains c then y
      else { y with pool := upd y.pool k ((y.pool k).release y.index c) }) := hu
    show Full (if locked y k || !(y.pool k).held.contains c then y
      else { y with pool := upd y.pool k ((y.pool k).release y.index c) })
    split at hu
    · next hc => rw [if_pos hc]; exact h
    · next hc =>
      rw [if_neg hc]
      have hu : Unique y := hu
      have hcm : c ∈ (y.pool k).held := by
        simp only [Bool.or_eq_true, Bool.not_eq_true', not_or, Bool.not_eq_false] at hc
        exact List.contains_iff_mem.1 hc.2
      intro i b hb
      have hb : b ∈ (upd y.pool k ((y.pool k).release y.index c) i).held := hb
      show (y.index b, b) ∈ (upd y.pool k ((y.pool k).release y.index c) i).map
      by_cases e : i = k
      · rw [e, upd_eq] at hb ⊢
        have hb : b ∈ (y.pool k).held.erase c := hb
        have hnd : (y.pool k).held.Nodup := (List.nodup_append.1 (hi.pool k).nodup).2.1
        obtain ⟨hne, hbm⟩ := (hnd.mem_erase_iff).1 hb
        refine List.mem_filter.2 ⟨h k b hbm, ?_⟩
        have h1 := (hi.pool k).lt b (List.mem_append_right _ hbm)
        have h2 := (hi.pool k).lt c (List.mem_append_right _ hcm)
        exact decide_eq_true (fun e3 => hne (hu b c h1 h2 e3))
      · rw [upd_ne _ _ e] at hb ⊢; exact h i b hb

theorem full_run (k : Nat) (es : List Ev) : ∀ (y : Sys), (∀ u ∈ y.busy, u.pool = k) → (∀ t j, Ev.load t j ∈ es → j = k) →
    SInv y → Inv y → Full y → Full (run y es) := by
  induction es with
  | nil => intro y _ _ _ _ h; exact h
  | cons e es ih =>
    intro y hy he hs hi h
    have hb : ∀ es' : List Ev, es' = [e] → SInv (run y es') := fun es' e' =>
      serial_one k es' y hy (by rw [e']; intro t j hm; exact he t j (by rw [List.mem_singleton.1 hm]; exact List.mem_cons_self)) hs
    have hs' : SInv (step y e) := hb [e] rfl
    have hu : Unique (step y e) := by
      intro a b ha hb e
      rwa [hs'.index a ha, hs'.index b hb] at e
    refine ih (step y e) ?_ (fun t j hm => he t j (List.mem_cons_of_mem _ hm)) hs' (step_inv hi e) (full_step hi hu h)
    cases e with
    | load t j =>
      show ∀ u ∈ (if locked y j || within y t then y else load y t j).busy, u.pool = k
      split
      · exact hy
      · intro u hu
        rcases List.mem_cons.1 (show u ∈ ⟨t, j, y.counter⟩ :: y.busy from hu) with hu | hu
        · rw [hu]; exact he t j List.mem_cons_self
        · exact hy u hu
    | store t =>
      unfold step
      dsimp only
      cases y.busy.find? (fun u => u.thread == t) with
      | none => exact hy
      | some v => exact fun u hu => hy u (List.mem_filter.1 (show u ∈ y.busy.filter _ from hu)).1
    | take j =>
      show ∀ u ∈ (if locked y j then y else _).busy, u.pool = k
      split <;> exact hy
    | release j b =>
      show ∀ u ∈ (if locked y j || !(y.pool j).held.contains b then y else _).busy, u.pool = k
      split <;> exact hy

/-- The map of used blocks is right as long as frames of one size only are made. -/
theorem C169_mapped_partial (k : Nat) (es : List Ev) (h : ∀ t j, Ev.load t j ∈ es → j = k) (j : Nat) : Mapped ((run {} es).pool j) := by
  have hf := full_run k es {} (fun u hu => by cases hu) h init_sinv init_inv (fun k b hb => by cases hb)
  have hi := run_inv es init_inv
  intro b
  constructor
  · intro hb
    exact List.mem_map.2 ⟨_, hf j b hb, rfl⟩
  · intro hb
    obtain ⟨e, he, e2⟩ := List.mem_map.1 hb
    rw [← e2]
    exact ((hi.pool j).map e he).2

/-- Non-vacuity: two threads that want blocks of the same size; the second has to wait. -/
def polite : List Ev := [.load 1 100, .load 2 100, .store 1, .load 2 100, .store 2, .take 100, .take 100, .release 100 1]

example : (run {} polite).next = 2 ∧ ((run {} polite).pool 100).held = [0] ∧ ((run {} polite).pool 100).map = [(0, 0)] := by decide
example : ∀ t j, Ev.load t j ∈ polite → j = 100 := by
  intro t j h
  simp [polite] at h
  omega
example : Serial {} [.load 1 100, .store 1, .load 2 200, .store 2] :=
  ⟨fun _ _ _ => rfl, fun _ _ h => (by cases h), fun _ _ _ => (by decide), fun _ _ h => (by cases h), trivial⟩

end Verif.BlockIndex
