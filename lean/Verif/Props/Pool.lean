import Verif.Model.Pool
/-! Properties C26 (the pool never hands a block to two users), C27 (copying frames), C60 (frame sizes). -/
namespace Verif.Pool

namespace Spec

/-- What users do with the pool. -/
inductive Op
  | allocate (k n : Nat)
  | take (k : Nat)
  | release (b : Nat)
deriving DecidableEq, Repr

/-- The pool and its users: the blocks handed out and not yet returned, with the size asked for. A user
returns a block only while holding it, and once. -/
structure Use where
  sys : Sys := {}
  held : List (Nat × Nat) := []

/-- One operation; what is handed out. -/
def step (u : Use) : Op → Use × Option Nat
  | .allocate k n => ({ u with sys := allocate k n u.sys }, none)
  | .take k =>
    match take k u.sys with
    | none => (u, none)
    | some r => ({ sys := r.1, held := (r.2, k) :: u.held }, some r.2)
  | .release b =>
    if b ∈ u.held.map (·.1) then ({ sys := release b u.sys, held := u.held.filter (fun x => x.1 ≠ b) }, none)
    else (u, none)

def after (u : Use) (ops : List Op) : Use := ops.foldl (fun u o => (step u o).1) u

end Spec
open Spec

/-! ## The pool -/

/-- Invariant of the pool, given the blocks that are held. -/
structure Inv (y : Sys) (H : Nat → Prop) : Prop where
  nodup : ∀ k, (y.pool k).free.Nodup
  free : ∀ k b, b ∈ (y.pool k).free → y.size b = k ∧ b < y.next ∧ ¬ H b
  held : ∀ b, H b → b < y.next

/-- What the counters say, whatever users do. -/
structure Cnt (y : Sys) : Prop where
  free : ∀ k, (y.pool k).freeN = (y.pool k).free.length
  sum : ∀ k, (y.pool k).freeN + (y.pool k).usedN = (y.pool k).total

theorem upd_same {α} (f : Nat → α) (k : Nat) (v : α) : upd f k v k = v := by simp [upd]
theorem upd_other {α} (f : Nat → α) (k i : Nat) (v : α) (h : i ≠ k) : upd f k v i = f i := by simp [upd, h]

theorem allocOne_inv (k : Nat) (y : Sys) (H : Nat → Prop) (h : Inv y H) : Inv (allocOne k y) H := by
  have hfree : ∀ i b, b ∈ ((allocOne k y).pool i).free → (b = y.next ∧ i = k) ∨ b ∈ (y.pool i).free := by
    intro i b hb
    simp only [allocOne] at hb
    by_cases hi : i = k
    · subst hi
      rw [upd_same] at hb
      rcases List.mem_cons.1 hb with hb | hb
      · exact Or.inl ⟨hb, rfl⟩
      · exact Or.inr hb
    · rw [upd_other _ _ _ _ hi] at hb; exact Or.inr hb
  have hlt : ∀ i b, b ∈ (y.pool i).free → b < y.next := fun i b hb => (h.free i b hb).2.1
  refine ⟨?_, ?_, ?_⟩
  · intro i
    simp only [allocOne]
    by_cases hi : i = k
    · subst hi
      rw [upd_same]
      exact List.nodup_cons.2 ⟨fun hm => by have := hlt _ _ hm; omega, h.nodup i⟩
    · rw [upd_other _ _ _ _ hi]; exact h.nodup i
  · intro i b hb
    rcases hfree i b hb with ⟨rfl, rfl⟩ | hb
    · exact ⟨by simp only [allocOne]; rw [upd_same], by simp only [allocOne]; omega,
        fun hH => by have := h.held _ hH; omega⟩
    · obtain ⟨h1, h2, h3⟩ := h.free i b hb
      refine ⟨?_, by simp only [allocOne]; omega, h3⟩
      simp only [allocOne]
      rw [upd_other _ _ _ _ (by omega)]; exact h1
  · intro b hb
    have := h.held b hb
    simp only [allocOne]; omega

theorem allocOne_cnt (k : Nat) (y : Sys) (h : Cnt y) : Cnt (allocOne k y) := by
  refine ⟨fun i => ?_, fun i => ?_⟩
  · simp only [allocOne]
    by_cases hi : i = k
    · subst hi
      rw [upd_same]
      have := h.free i
      simp only [List.length_cons]; omega
    · rw [upd_other _ _ _ _ hi]; exact h.free i
  · simp only [allocOne]
    by_cases hi : i = k
    · subst hi
      rw [upd_same]
      have := h.sum i
      simp only; omega
    · rw [upd_other _ _ _ _ hi]; exact h.sum i

/-- What allocation does not change. -/
theorem allocate_keeps (k n : Nat) : ∀ (y : Sys), 
    (∀ H, Inv y H → Inv (allocate k n y) H) ∧ (Cnt y → Cnt (allocate k n y)) ∧
    ((allocate k n y).pool k).freeN = (y.pool k).freeN + n ∧
    ((allocate k n y).pool k).total = (y.pool k).total + n ∧
    (∀ b, b < y.next → (allocate k n y).size b = y.size b) ∧ y.next ≤ (allocate k n y).next := by
  induction n with
  | zero => intro y; exact ⟨fun _ h => h, fun h => h, by simp [allocate], rfl, fun _ _ => rfl, Nat.le_refl _⟩
  | succ n ih =>
    intro y
    obtain ⟨a, b, c, d, e, f⟩ := ih (allocOne k y)
    have hn : (allocOne k y).next = y.next + 1 := rfl
    refine ⟨fun H h => a H (allocOne_inv k y H h), fun h => b (allocOne_cnt k y h), ?_, ?_, ?_, ?_⟩
    · show ((allocate k n (allocOne k y)).pool k).freeN = _
      rw [c]; simp only [allocOne]; rw [upd_same]; simp only; omega
    · show ((allocate k n (allocOne k y)).pool k).total = _
      rw [d]; simp only [allocOne]; rw [upd_same]; simp only; omega
    · intro x hx
      show (allocate k n (allocOne k y)).size x = _
      rw [e x (by omega)]
      simp only [allocOne]; rw [upd_other _ _ _ _ (by omega)]
    · show y.next ≤ (allocate k n (allocOne k y)).next
      omega

theorem refill_keeps (k : Nat) (y : Sys) :
    (∀ H, Inv y H → Inv (refill k y) H) ∧ (Cnt y → Cnt (refill k y)) ∧
    (∀ b, b < y.next → (refill k y).size b = y.size b) ∧ y.next ≤ (refill k y).next := by
  unfold refill
  split
  · split
    · obtain ⟨a, b, -, -, e, f⟩ := allocate_keeps k 2 y; exact ⟨a, b, e, f⟩
    · obtain ⟨a, b, -, -, e, f⟩ := allocate_keeps k (y.pool k).total y; exact ⟨a, b, e, f⟩
  · exact ⟨fun _ h => h, fun h => h, fun _ _ => rfl, Nat.le_refl _⟩

theorem refill_pos (k : Nat) (y : Sys) (h : Cnt y) : ((refill k y).pool k).freeN > 0 := by
  have hf := h.free k
  unfold refill
  split
  · split
    · rw [(allocate_keeps k 2 y).2.2.1]; omega
    · rw [(allocate_keeps k (y.pool k).total y).2.2.1]; omega
  · omega

/-- Taking: a free block is handed out. -/
theorem take_spec (k : Nat) (y : Sys) (hc : Cnt y) : ∃ y' b, take k y = some (y', b) ∧ Cnt y' ∧
    y.next ≤ y'.next ∧ y'.size b = k ∧
    ∀ H, Inv y H → ¬ H b ∧ (∀ x, H x → y'.size x = y.size x) ∧ Inv y' (fun x => x = b ∨ H x) := by
  obtain ⟨r1, r2, r3, r4⟩ := refill_keeps k y
  have hpos := refill_pos k y hc
  have hc' := r2 hc
  unfold take
  simp only
  rw [if_pos hpos]
  cases hfr : ((refill k y).pool k).free with
  | nil =>
    have := hc'.free k
    rw [hfr] at this
    simp only [List.length_nil] at this
    omega
  | cons b rest =>
    refine ⟨handOut k (refill k y) b rest, b, rfl, ?_, r4, by simp only [handOut]; rw [upd_same], ?_⟩
    · refine ⟨fun i => ?_, fun i => ?_⟩
      · simp only [handOut]
        by_cases hi : i = k
        · subst hi
          rw [upd_same]
          have := hc'.free i
          rw [hfr] at this
          simp only [List.length_cons] at this
          simp only; omega
        · rw [upd_other _ _ _ _ hi]; exact hc'.free i
      · simp only [handOut]
        by_cases hi : i = k
        · subst hi
          rw [upd_same]
          have := hc'.sum i
          simp only; omega
        · rw [upd_other _ _ _ _ hi]; exact hc'.sum i
    · intro H hH
      have hI := r1 H hH
      have hbm : b ∈ ((refill k y).pool k).free := by rw [hfr]; simp
      obtain ⟨hb1, hb2, hb3⟩ := hI.free k b hbm
      have hnd := hI.nodup k
      rw [hfr, List.nodup_cons] at hnd
      refine ⟨hb3, ?_, ?_, ?_, ?_⟩
      · intro x hx
        simp only [handOut]
        rw [upd_other _ _ _ _ (by rintro rfl; exact hb3 hx), r3 x (hH.held x hx)]
      · intro i
        simp only [handOut]
        by_cases hi : i = k
        · subst hi; rw [upd_same]; exact hnd.2
        · rw [upd_other _ _ _ _ hi]; exact hI.nodup i
      · intro i x hx
        have hx' : x ∈ ((refill k y).pool i).free ∧ x ≠ b := by
          simp only [handOut] at hx
          by_cases hi : i = k
          · subst hi
            rw [upd_same] at hx
            exact ⟨by rw [hfr]; exact List.mem_cons_of_mem _ hx, by rintro rfl; exact hnd.1 hx⟩
          · rw [upd_other _ _ _ _ hi] at hx
            refine ⟨hx, ?_⟩
            rintro rfl
            exact hi ((hI.free i x hx).1.symm.trans hb1)
        obtain ⟨h1, h2, h3⟩ := hI.free i x hx'.1
        refine ⟨?_, h2, fun h => h.elim hx'.2 h3⟩
        simp only [handOut]
        rw [upd_other _ _ _ _ hx'.2]; exact h1
      · intro x hx
        rcases hx with rfl | hx
        · exact hb2
        · exact hI.held x hx

theorem release_spec (b : Nat) (y : Sys) (H : Nat → Prop) (h : Inv y H) (hb : H b) :
    Inv (release b y) (fun x => H x ∧ x ≠ b) := by
  refine ⟨?_, ?_, fun x hx => h.held x hx.1⟩
  · intro i
    simp only [release]
    by_cases hi : i = y.size b
    · subst hi
      rw [upd_same]
      exact List.nodup_cons.2 ⟨fun hm => (h.free _ b hm).2.2 hb, h.nodup _⟩
    · rw [upd_other _ _ _ _ hi]; exact h.nodup i
  · intro i x hx
    have : (x = b ∧ i = y.size b) ∨ x ∈ (y.pool i).free := by
      simp only [release] at hx
      by_cases hi : i = y.size b
      · subst hi
        rw [upd_same] at hx
        rcases List.mem_cons.1 hx with hx | hx
        · exact Or.inl ⟨hx, rfl⟩
        · exact Or.inr hx
      · rw [upd_other _ _ _ _ hi] at hx; exact Or.inr hx
    rcases this with ⟨rfl, rfl⟩ | hx
    · exact ⟨rfl, h.held _ hb, fun h => h.2 rfl⟩
    · obtain ⟨h1, h2, h3⟩ := h.free i x hx
      exact ⟨h1, h2, fun h => h3 h.1⟩

theorem release_cnt (b : Nat) (y : Sys) (h : Cnt y) : Cnt (release b y) := by
  refine ⟨fun i => ?_, fun i => ?_⟩
  · simp only [release]
    by_cases hi : i = y.size b
    · subst hi
      rw [upd_same]
      have := h.free (y.size b)
      simp only [List.length_cons]; omega
    · rw [upd_other _ _ _ _ hi]; exact h.free i
  · simp only [release]
    by_cases hi : i = y.size b
    · subst hi
      rw [upd_same]
      have := h.sum (y.size b)
      simp only; omega
    · rw [upd_other _ _ _ _ hi]; exact h.sum i

theorem inv_empty : Inv {} (fun _ => False) :=
  ⟨fun _ => List.nodup_nil, fun _ _ h => (by cases h), fun _ h => h.elim⟩
theorem cnt_empty : Cnt {} := ⟨fun _ => rfl, fun _ => rfl⟩

theorem inv_congr {y : Sys} {H H' : Nat → Prop} (h : Inv y H) (e : ∀ x, H x ↔ H' x) : Inv y H' :=
  ⟨h.nodup, fun k b hb => by
    obtain ⟨a, b', c⟩ := h.free k b hb; exact ⟨a, b', fun hh => c ((e b).2 hh)⟩, fun b hb => h.held b ((e b).2 hb)⟩

/-- What holds in every history of a pool used properly. -/
structure Good (u : Use) : Prop where
  inv : Inv u.sys (fun x => x ∈ u.held.map (·.1))
  cnt : Cnt u.sys
  nodup : (u.held.map (·.1)).Nodup
  size : ∀ x ∈ u.held, u.sys.size x.1 = x.2

theorem step_good (u : Use) (o : Op) (h : Good u) : Good (step u o).1 := by
  cases o with
  | allocate k n =>
    obtain ⟨a, b, -, -, e, -⟩ := allocate_keeps k n u.sys
    exact ⟨a _ h.inv, b h.cnt, h.nodup, fun x hx => by
      show (allocate k n u.sys).size x.1 = x.2
      rw [e _ (h.inv.held _ (List.mem_map_of_mem hx))]; exact h.size x hx⟩
  | take k =>
    obtain ⟨y', b, ht, hc, -, hs, hH⟩ := take_spec k u.sys h.cnt
    obtain ⟨h1, h2, h3⟩ := hH _ h.inv
    simp only [step, ht]
    refine ⟨inv_congr h3 (fun x => by simp [List.mem_cons]), hc, List.nodup_cons.2 ⟨h1, h.nodup⟩, ?_⟩
    intro x hx
    rcases List.mem_cons.1 hx with rfl | hx
    · exact hs
    · show y'.size x.1 = x.2
      rw [h2 _ (List.mem_map_of_mem hx)]; exact h.size x hx
  | release b =>
    simp only [step]
    split
    · rename_i hb
      refine ⟨inv_congr (release_spec b u.sys _ h.inv hb) ?_, release_cnt b _ h.cnt, ?_, ?_⟩
      · intro x
        simp only [List.mem_map, List.mem_filter]
        constructor
        · rintro ⟨⟨z, hz, rfl⟩, hne⟩; exact ⟨z, ⟨hz, by simpa using hne⟩, rfl⟩
        · rintro ⟨z, ⟨hz, hne⟩, rfl⟩; exact ⟨⟨z, hz, rfl⟩, by simpa using hne⟩
      · exact h.nodup.sublist (List.Sublist.map _ List.filter_sublist)
      · intro x hx; exact h.size x (List.mem_filter.1 hx).1
    · exact h

theorem after_good (ops : List Op) : Good (after {} ops) := by
  suffices ∀ u, Good u → Good (after u ops) from
    this {} ⟨inv_congr inv_empty (fun x => by simp), cnt_empty, List.nodup_nil, fun x hx => by cases hx⟩
  induction ops with
  | nil => intro u h; exact h
  | cons o os ih => intro u h; exact ih _ (step_good u o h)

/-- C26: after any history of allocating, taking and (single) releasing, with any sizes, a request gets a
block of exactly that size that nobody holds; no block is held twice; and blocks held keep their size. -/
theorem C26_exclusive (ops : List Op) (k : Nat) :
    (∃ b, (step (after {} ops) (.take k)).2 = some b ∧ b ∉ (after {} ops).held.map (·.1) ∧
      (step (after {} ops) (.take k)).1.sys.size b = k) ∧
    ((after {} ops).held.map (·.1)).Nodup ∧
    (∀ x ∈ (after {} ops).held, (after {} ops).sys.size x.1 = x.2) := by
  have h := after_good ops
  refine ⟨?_, h.nodup, h.size⟩
  obtain ⟨y', b, ht, -, -, hs, hH⟩ := take_spec k (after {} ops).sys h.cnt
  exact ⟨b, by simp only [step, ht], (hH _ h.inv).1, by simp only [step, ht]; exact hs⟩

/-- C26: the counters of free and used blocks are those of the history: free blocks are the list, and used and
free add up to the total. -/
theorem C26_counters (ops : List Op) (k : Nat) :
    (((after {} ops).sys.pool k).freeN = ((after {} ops).sys.pool k).free.length) ∧
    ((after {} ops).sys.pool k).freeN + ((after {} ops).sys.pool k).usedN = ((after {} ops).sys.pool k).total :=
  ⟨(after_good ops).cnt.free k, (after_good ops).cnt.sum k⟩

/-! The memory counter, and the used counter against what is held. -/

def Mem (y : Sys) : Prop := ∀ k, (y.pool k).mem = ((k * (y.pool k).total : Nat) : Int)

theorem allocOne_mem (k : Nat) (y : Sys) (h : Mem y) : Mem (allocOne k y) := by
  intro i
  simp only [allocOne]
  by_cases hi : i = k
  · subst hi
    rw [upd_same]
    have := h i
    simp only [Nat.mul_add, Nat.mul_one]; omega
  · rw [upd_other _ _ _ _ hi]; exact h i

theorem allocate_mem (k n : Nat) : ∀ y, Mem y → Mem (allocate k n y) ∧
    ∀ i, ((allocate k n y).pool i).usedN = (y.pool i).usedN := by
  induction n with
  | zero => intro y h; exact ⟨h, fun _ => rfl⟩
  | succ n ih =>
    intro y h
    obtain ⟨a, b⟩ := ih _ (allocOne_mem k y h)
    refine ⟨a, fun i => (b i).trans ?_⟩
    simp only [allocOne]
    by_cases hi : i = k
    · subst hi; rw [upd_same]
    · rw [upd_other _ _ _ _ hi]

theorem refill_mem (k : Nat) (y : Sys) (h : Mem y) : Mem (refill k y) ∧
    ∀ i, ((refill k y).pool i).usedN = (y.pool i).usedN := by
  unfold refill
  split
  · split
    · exact allocate_mem k _ y h
    · exact allocate_mem k _ y h
  · exact ⟨h, fun _ => rfl⟩

theorem take_mem (k : Nat) (y y' : Sys) (b : Nat) (H : Nat → Prop) (hI : Inv y H) (h : Mem y)
    (ht : take k y = some (y', b)) : Mem y' ∧
    ∀ i, (y'.pool i).usedN = (y.pool i).usedN + if i = k then 1 else 0 := by
  obtain ⟨hm, hu⟩ := refill_mem k y h
  have hI' := (refill_keeps k y).1 H hI
  unfold take at ht
  simp only at ht
  split at ht
  · cases hf : ((refill k y).pool k).free with
    | nil => rw [hf] at ht; cases ht
    | cons c rest =>
      rw [hf] at ht
      cases ht
      have hsz : (refill k y).size b = k := (hI'.free k b (by rw [hf]; simp)).1
      refine ⟨fun i => ?_, fun i => ?_⟩
      · simp only [handOut]
        by_cases hi : i = k
        · subst hi
          rw [upd_same]
          have := hm i
          simp only [hsz, ne_eq, not_true, if_false]; exact this
        · rw [upd_other _ _ _ _ hi]; exact hm i
      · rw [← hu i]
        simp only [handOut]
        by_cases hi : i = k
        · subst hi; rw [upd_same, if_pos rfl]
        · rw [upd_other _ _ _ _ hi, if_neg hi]; omega
  · cases ht

theorem release_mem (b : Nat) (y : Sys) (h : Mem y) : Mem (release b y) ∧
    ∀ i, ((release b y).pool i).usedN = (y.pool i).usedN - if i = y.size b then 1 else 0 := by
  refine ⟨fun i => ?_, fun i => ?_⟩
  · simp only [release]
    by_cases hi : i = y.size b
    · subst hi; rw [upd_same]; exact h (y.size b)
    · rw [upd_other _ _ _ _ hi]; exact h i
  · simp only [release]
    by_cases hi : i = y.size b
    · subst hi; rw [upd_same, if_pos rfl]
    · rw [upd_other _ _ _ _ hi, if_neg hi]; omega

/-- The number of held blocks of a size, when one of them is returned. -/
theorem held_remove (l : List (Nat × Nat)) (b kb k : Nat) (hn : (l.map (·.1)).Nodup) (hb : (b, kb) ∈ l) :
    ((l.filter (fun x => x.2 = k)).length : Int) =
      ((l.filter (fun x => x.1 ≠ b)).filter (fun x => x.2 = k)).length + if k = kb then 1 else 0 := by
  induction l with
  | nil => cases hb
  | cons a l ih =>
    rw [List.map_cons, List.nodup_cons] at hn
    rcases List.mem_cons.1 hb with rfl | hb
    · have hall : l.filter (fun x => decide (x.1 ≠ b)) = l := by
        rw [List.filter_eq_self]
        intro x hx
        simp only [decide_eq_true_eq]
        intro e
        exact hn.1 (List.mem_map.2 ⟨x, hx, e⟩)
      rw [List.filter_cons_of_neg (p := fun x : Nat × Nat => decide (x.1 ≠ b)) (by simp), hall]
      by_cases hk : k = kb
      · subst hk
        rw [List.filter_cons_of_pos (by simp), if_pos rfl, List.length_cons]; omega
      · rw [List.filter_cons_of_neg (by simp; omega), if_neg hk]; omega
    · have := ih hn.2 hb
      have hab : a.1 ≠ b := by rintro rfl; exact hn.1 (List.mem_map_of_mem (f := (·.1)) hb)
      rw [List.filter_cons_of_pos (p := fun x : Nat × Nat => decide (x.1 ≠ b)) (by simpa using hab)]
      by_cases hak : a.2 = k
      · rw [List.filter_cons_of_pos (by simpa using hak), List.filter_cons_of_pos (by simpa using hak),
          List.length_cons, List.length_cons]; omega
      · rw [List.filter_cons_of_neg (by simpa using hak), List.filter_cons_of_neg (by simpa using hak)]
        exact this

/-- C26: the counter of used blocks is the number of blocks that users hold, and the memory reported is that of
all blocks of the pool. -/
theorem C26_used_memory (ops : List Op) (k : Nat) :
    ((after {} ops).sys.pool k).usedN = ((after {} ops).held.filter (fun x => x.2 = k)).length ∧
    ((after {} ops).sys.pool k).mem = ((k * ((after {} ops).sys.pool k).total : Nat) : Int) := by
  suffices ∀ (ops : List Op) (u : Use), Good u → Mem u.sys →
      (∀ k, (u.sys.pool k).usedN = (u.held.filter (fun x => x.2 = k)).length) →
      Mem (after u ops).sys ∧
      ∀ k, ((after u ops).sys.pool k).usedN = ((after u ops).held.filter (fun x => x.2 = k)).length by
    obtain ⟨a, b⟩ := this ops {} (after_good []) (fun _ => by simp) (fun _ => rfl)
    exact ⟨b k, a k⟩
  intro ops
  induction ops with
  | nil => intro u _ hm hu; exact ⟨hm, hu⟩
  | cons o os ih =>
    intro u hg hm hu
    refine ih (step u o).1 (step_good u o hg) ?_ ?_
    · cases o with
      | allocate k n => exact (allocate_mem k n u.sys hm).1
      | take k =>
        obtain ⟨y', b, ht, -⟩ := take_spec k u.sys hg.cnt
        simp only [step, ht]
        exact (take_mem k u.sys y' b _ hg.inv hm ht).1
      | release b =>
        simp only [step]
        split
        · exact (release_mem b u.sys hm).1
        · exact hm
    · intro i
      cases o with
      | allocate k n =>
        show ((allocate k n u.sys).pool i).usedN = _
        rw [(allocate_mem k n u.sys hm).2 i]; exact hu i
      | take k =>
        obtain ⟨y', b, ht, -⟩ := take_spec k u.sys hg.cnt
        simp only [step, ht]
        rw [(take_mem k u.sys y' b _ hg.inv hm ht).2 i, hu i]
        by_cases hi : i = k
        · subst hi
          rw [if_pos rfl, List.filter_cons_of_pos (by simp), List.length_cons]; omega
        · rw [if_neg hi, List.filter_cons_of_neg (by simp; omega)]; omega
      | release b =>
        simp only [step]
        split
        · rename_i hb
          obtain ⟨x, hx, rfl⟩ := List.mem_map.1 hb
          have hr := held_remove u.held x.1 x.2 i hg.nodup hx
          have hs := hg.size x hx
          show ((release x.1 u.sys).pool i).usedN = _
          rw [(release_mem x.1 u.sys hm).2 i, hu i, hs, hr]
          simp only
          omega
        · exact hu i

/-- Non-vacuity: three blocks in use, five made in all. -/
example : ((after {} [.take 8, .take 4, .release 1, .take 8, .take 8]).sys.pool 8).usedN = 2 ∧
    ((after {} [.take 8, .take 4, .release 1, .take 8, .take 8]).sys.pool 8).mem = 16 := by
  decide +kernel

/-- A released block is the next one handed out of its size: nothing is leaked. -/
theorem C26_reused (y : Sys) (b : Nat) (h : (y.pool (y.size b)).freeN = (y.pool (y.size b)).free.length) :
    ∃ y', take (y.size b) (release b y) = some (y', b) := by
  have hp : (release b y).pool (y.size b) = { y.pool (y.size b) with
      free := b :: (y.pool (y.size b)).free, used := (y.pool (y.size b)).used.filter (· ≠ b),
      usedN := (y.pool (y.size b)).usedN - 1, freeN := (y.pool (y.size b)).freeN + 1 } := by
    simp only [release]; rw [upd_same]
  have hr : refill (y.size b) (release b y) = release b y := by
    unfold refill
    rw [if_neg (by rw [hp]; simp only; omega)]
  unfold take
  simp only [hr]
  rw [if_pos (by rw [hp]; simp only; omega), hp]
  exact ⟨_, rfl⟩

/-- Non-vacuity: sizes mixed, a block comes back. -/
example : (after {} [.take 8, .take 4, .release 1, .take 8, .take 8]).held = [(0, 8), (1, 8), (3, 4)] := by
  decide +kernel

/-! ## C27: frames -/

namespace Spec

/-- What the user of frames expects: every frame has its own value. -/
def vstep (m : Nat → Option Nat) : FOp → Nat → Option Nat
  | .create f _ v => match m f with | none => upd m f (some v) | some _ => m
  | .write f v => match m f with | none => m | some _ => upd m f (some v)
  | .copy f g _ => match m f, m g with | none, some v => upd m f (some v) | _, _ => m
  | .assign f g => match m f, m g with | some _, some v => upd m f (some v) | _, _ => m
  | .drop f => upd m f none

def vrun (m : Nat → Option Nat) (ops : List FOp) : Nat → Option Nat := ops.foldl vstep m

/-- No copy constructor, and assignments only between frames of one size. -/
def Plain (w : World) : FOp → Prop
  | .copy _ _ _ => False
  | .assign f g => ∀ a b, w.frames f = some a → w.frames g = some b → a.dataSize = b.dataSize
  | _ => True

def PlainRun (w : World) : List FOp → Prop
  | [] => True
  | o :: os => Plain w o ∧ ∀ w', fstep w o = some w' → PlainRun w' os

end Spec

/-- Invariant of frames. -/
structure Owned (w : World) (m : Nat → Option Nat) : Prop where
  inv : Inv w.sys (fun b => ∃ f a, w.frames f = some a ∧ a.block = b)
  cnt : Cnt w.sys
  inj : ∀ f g a b, w.frames f = some a → w.frames g = some b → a.block = b.block → f = g
  size : ∀ f a, w.frames f = some a → w.sys.size a.block = a.dataSize
  val : ∀ f, m f = (w.frames f).map (fun a => w.content a.block)

/-- Giving `f` a block nobody has. -/
theorem owned_place (w : World) (m : Nat → Option Nat) (f k v : Nat) (hf : w.frames f = none) (h : Owned w m) :
    ∃ y' b, take k w.sys = some (y', b) ∧ (∀ g a, w.frames g = some a → a.block ≠ b) ∧
      Owned { sys := y', frames := upd w.frames f (some ⟨b, k⟩), content := upd w.content b v } (upd m f (some v)) := by
  obtain ⟨y', b, ht, hc, -, hs, hH⟩ := take_spec k w.sys h.cnt
  obtain ⟨h1, h2, h3⟩ := hH _ h.inv
  have hnew : ∀ g a, w.frames g = some a → a.block ≠ b := fun g a hg e => h1 ⟨g, a, hg, e⟩
  refine ⟨y', b, ht, hnew, ?_, hc, ?_, ?_, ?_⟩
  · refine inv_congr h3 (fun x => ?_)
    constructor
    · rintro (rfl | ⟨g, a, hg, rfl⟩)
      · exact ⟨f, ⟨x, k⟩, upd_same _ _ _, rfl⟩
      · refine ⟨g, a, ?_, rfl⟩
        show upd w.frames f _ g = _
        rw [upd_other _ _ _ _ (by rintro rfl; rw [hf] at hg; cases hg)]; exact hg
    · rintro ⟨g, a, hg, rfl⟩
      simp only [upd] at hg
      split at hg
      · cases hg; exact Or.inl rfl
      · exact Or.inr ⟨g, a, hg, rfl⟩
  · intro g g' a a' hg hg' e
    simp only [upd] at hg hg'
    split at hg
    · split at hg'
      · omega
      · cases hg; exact absurd e.symm (hnew g' a' hg')
    · split at hg'
      · cases hg'; exact absurd e (hnew g a hg)
      · exact h.inj g g' a a' hg hg' e
  · intro g a hg
    simp only [upd] at hg
    split at hg
    · cases hg; exact hs
    · show y'.size a.block = _
      rw [h2 _ ⟨g, a, hg, rfl⟩]; exact h.size g a hg
  · intro g
    simp only [upd]
    split
    · simp
    · rw [h.val g]
      cases hg : w.frames g with
      | none => rfl
      | some a => simp [hnew g a hg]

/-- Dropping a frame. -/
theorem owned_drop (w : World) (m : Nat → Option Nat) (f : Nat) (a : Obj) (hf : w.frames f = some a) (h : Owned w m) :
    Owned { w with sys := release a.block w.sys, frames := upd w.frames f none } (upd m f none) := by
  refine ⟨inv_congr (release_spec a.block w.sys _ h.inv ⟨f, a, hf, rfl⟩) (fun x => ?_), release_cnt _ _ h.cnt, ?_, ?_, ?_⟩
  · constructor
    · rintro ⟨⟨g, b, hg, rfl⟩, hne⟩
      refine ⟨g, b, ?_, rfl⟩
      show upd w.frames f none g = _
      rw [upd_other _ _ _ _ (by rintro rfl; rw [hf] at hg; cases hg; exact hne rfl)]; exact hg
    · rintro ⟨g, b, hg, rfl⟩
      simp only [upd] at hg
      split at hg
      · cases hg
      · rename_i hne
        exact ⟨⟨g, b, hg, rfl⟩, fun e => hne (h.inj g f b a hg hf e)⟩
  · intro g g' b b' hg hg' e
    simp only [upd] at hg hg'
    split at hg
    · cases hg
    · split at hg'
      · cases hg'
      · exact h.inj g g' b b' hg hg' e
  · intro g b hg
    simp only [upd] at hg
    split at hg
    · cases hg
    · exact h.size g b hg
  · intro g
    simp only [upd]
    split
    · rfl
    · exact h.val g

theorem val_some {w : World} {m : Nat → Option Nat} (h : Owned w m) {f : Nat} {a : Obj} (hf : w.frames f = some a) :
    m f = some (w.content a.block) := by rw [h.val, hf]; rfl
theorem val_none {w : World} {m : Nat → Option Nat} (h : Owned w m) {f : Nat} (hf : w.frames f = none) :
    m f = none := by rw [h.val, hf]; rfl

theorem upd_upd {α} (m : Nat → α) (f : Nat) (u v : α) : upd (upd m f u) f v = upd m f v := by
  funext i; simp only [upd]; split <;> rfl

theorem upd_id {α} (m : Nat → α) (f : Nat) (v : α) (h : m f = v) : upd m f v = m := by
  funext i; simp only [upd]; split
  · rename_i e; rw [e, h]
  · rfl

theorem fstep_owned (w : World) (m : Nat → Option Nat) (o : FOp) (h : Owned w m) (hp : Plain w o) :
    ∃ w', fstep w o = some w' ∧ Owned w' (vstep m o) := by
  cases o with
  | create f k v =>
    simp only [fstep, vstep]
    cases hf : w.frames f with
    | none =>
      rw [val_none h hf]
      obtain ⟨y', b, ht, -, ho⟩ := owned_place w m f k v hf h
      exact ⟨_, by simp only [create, ht, Option.map_some], ho⟩
    | some a => rw [val_some h hf]; exact ⟨w, rfl, h⟩
  | write f v =>
    simp only [fstep, vstep]
    cases hf : w.frames f with
    | none => rw [val_none h hf]; exact ⟨w, rfl, h⟩
    | some a =>
      rw [val_some h hf]
      refine ⟨_, rfl, h.inv, h.cnt, h.inj, h.size, ?_⟩
      intro g
      simp only [upd]
      split
      · rename_i e; subst e; rw [hf]; simp
      · rename_i e
        rw [h.val g]
        cases hg : w.frames g with
        | none => rfl
        | some b =>
          simp only [Option.map_some]
          rw [if_neg (fun eb => e (h.inj g f b a hg hf eb))]
  | copy f g j => exact hp.elim
  | assign f g =>
    simp only [fstep, vstep]
    cases hf : w.frames f with
    | none => rw [val_none h hf]; exact ⟨w, rfl, h⟩
    | some a =>
      rw [val_some h hf]
      cases hg : w.frames g with
      | none => rw [val_none h hg]; exact ⟨w, rfl, h⟩
      | some b =>
        rw [val_some h hg]
        have hsz : a.dataSize = b.dataSize := hp a b hf hg
        have hbs := h.size g b hg
        simp only [assign]
        rw [if_neg (by omega)]
        have hd := owned_drop w m f a hf h
        obtain ⟨y', c, ht, hnew, ho⟩ := owned_place _ _ f b.dataSize (w.content b.block) (upd_same _ _ _) hd
        simp only at ht
        rw [ht]
        refine ⟨_, rfl, ?_⟩
        rw [upd_upd] at ho
        simp only [upd_upd] at ho
        rw [hsz]
        by_cases hfg : f = g
        · simp only [if_pos hfg]
          -- the block just released comes back
          have hab : a = b := by subst hfg; rw [hf] at hg; cases hg; rfl
          subst hab
          obtain ⟨y2, h2⟩ := C26_reused w.sys a.block (h.cnt.free _)
          rw [h.size f a hf] at h2
          rw [h2] at ht
          cases ht
          have : upd w.content a.block (w.content a.block) = w.content := upd_id _ _ _ rfl
          rw [this] at ho
          exact ho
        · simp only [if_neg hfg]; exact ho
  | drop f =>
    simp only [fstep, vstep]
    cases hf : w.frames f with
    | none => rw [upd_id m f none (val_none h hf)]; exact ⟨w, rfl, h⟩
    | some a => exact ⟨_, rfl, owned_drop w m f a hf h⟩

theorem frun_owned (ops : List FOp) : ∀ (w : World) (m : Nat → Option Nat), Owned w m → PlainRun w ops →
    ∃ w', frun w ops = some w' ∧ Owned w' (vrun m ops) := by
  induction ops with
  | nil => intro w m h _; exact ⟨w, rfl, h⟩
  | cons o os ih =>
    intro w m h hp
    obtain ⟨w', hw, ho⟩ := fstep_owned w m o h hp.1
    obtain ⟨w2, hw2, ho2⟩ := ih w' _ ho (hp.2 w' hw)
    exact ⟨w2, by simp only [frun, hw, Option.bind_some]; exact hw2, ho2⟩

theorem owned_empty : Owned {} (fun _ => none) := by
  refine ⟨inv_congr inv_empty (fun x => ?_), cnt_empty, ?_, ?_, fun _ => rfl⟩
  · constructor
    · exact fun h => h.elim
    · rintro ⟨f, a, h, -⟩; cases h
  · intro f g a b h; cases h
  · intro f a h; cases h

/-- C27, full statement: whatever is done with frames, every frame has the value its user gave it, and the pool
has each block at most once. -/
def C27_statement : Prop :=
  ∀ ops : List FOp, ∃ w, frun {} ops = some w ∧ (∀ k, (w.sys.pool k).free.Nodup) ∧
    ∀ f, (w.frames f).map (fun a => w.content a.block) = vrun (fun _ => none) ops f

/-- C27, proved part: without the copy constructor, and with assignments between frames of one size. Missing:
these two (`C27_violated`, `C60_violated`). Then no block is in use twice or free while in use either. -/
theorem C27_partial (ops : List FOp) (hp : PlainRun {} ops) : ∃ w, frun {} ops = some w ∧
    (∀ k, (w.sys.pool k).free.Nodup) ∧
    (∀ f, (w.frames f).map (fun a => w.content a.block) = vrun (fun _ => none) ops f) ∧
    (∀ f g a b, w.frames f = some a → w.frames g = some b → a.block = b.block → f = g) ∧
    (∀ f a k, w.frames f = some a → a.block ∉ (w.sys.pool k).free) := by
  obtain ⟨w, hw, ho⟩ := frun_owned ops {} _ owned_empty hp
  exact ⟨w, hw, ho.inv.nodup, fun f => (ho.val f).symm, ho.inj,
    fun f a k hf hm => (ho.inv.free k _ hm).2.2 ⟨f, a, hf, rfl⟩⟩

/-- C27 is false of the code: a frame and its copy return the block twice. -/
theorem C27_violated : ¬ C27_statement := by
  intro h
  obtain ⟨w, hw, hn, -⟩ := h [.create 0 4 7, .copy 1 0 0, .drop 0, .drop 1]
  have h2 : (frun {} [.create 0 4 7, .copy 1 0 0, .drop 0, .drop 1]).map (fun w => (w.sys.pool 4).free) = some [1, 1, 0] := by
    decide +kernel
  rw [hw] at h2
  have h3 : (w.sys.pool 4).free = [1, 1, 0] := Option.some.inj h2
  have := hn 4
  rw [h3] at this
  exact absurd this (by decide)

/-- After that two frames created separately share their memory. -/
theorem C27_shared : (frun {} [.create 0 4 7, .copy 1 0 0, .drop 0, .drop 1, .create 2 4 8, .create 3 4 9]).map
    (fun w => (w.frames 2, w.frames 3, w.content 1)) = some (some ⟨1, 4⟩, some ⟨1, 4⟩, 9) := by
  decide +kernel

/-- A copy still in use loses its data when the other is dropped. -/
theorem C27_use_after_release : (frun {} [.create 0 4 7, .copy 1 0 0, .drop 0, .create 2 4 8]).map
    (fun w => (w.frames 1).map (fun a => w.content a.block)) = some (some 8) := by
  decide +kernel

/-! ## C60: sizes of frames -/

/-- C60, full statement: the data size of every frame is that of its memory. -/
def C60_statement : Prop :=
  ∀ ops w f a, frun {} ops = some w → w.frames f = some a → a.dataSize ≤ w.sys.size a.block

/-- C60, proved part: without copy constructor and with assignments between frames of one size. -/
theorem C60_partial (ops : List FOp) (hp : PlainRun {} ops) (w : World) (f : Nat) (a : Obj)
    (hw : frun {} ops = some w) (hf : w.frames f = some a) : w.sys.size a.block = a.dataSize := by
  obtain ⟨w', hw', ho⟩ := frun_owned ops {} _ owned_empty hp
  rw [hw] at hw'
  cases hw'
  exact ho.size f a hf

/-- C60 is false of the code: the assignment from a smaller frame shrinks the memory and keeps the size. -/
theorem C60_violated : ¬ C60_statement := by
  intro h
  have h1 : (frun {} [.create 0 8 1, .create 1 4 2, .assign 0 1]).map (fun w => (w.frames 0, (w.frames 0).map (fun a => w.sys.size a.block)))
      = some (some ⟨2, 8⟩, some 4) := by decide +kernel
  obtain ⟨w, hw⟩ : ∃ w, frun {} [.create 0 8 1, .create 1 4 2, .assign 0 1] = some w := by
    cases hf : frun {} [.create 0 8 1, .create 1 4 2, .assign 0 1] with
    | none => rw [hf] at h1; cases h1
    | some w => exact ⟨w, rfl⟩
  rw [hw] at h1
  simp only [Option.map_some, Option.some.injEq, Prod.mk.injEq] at h1
  have := h _ w 0 _ hw h1.1
  rw [h1.1] at h1
  simp only [Option.map_some, Option.some.injEq] at h1
  simp only at this
  omega

/-- It is false without assignments too: a copy does not take over the data size, its own is indeterminate. -/
theorem C60_copy_violated (junk : Nat) : ∃ w a, frun {} [.create 0 4 7, .copy 1 0 junk] = some w ∧
    w.frames 1 = some a ∧ a.dataSize = junk ∧ w.sys.size a.block = 4 :=
  ⟨_, _, rfl, rfl, rfl, rfl⟩

/-- Assigning such a frame further reads beyond its memory. -/
theorem C60_assign_ub : (frun {} [.create 0 8 1, .create 1 4 2, .assign 0 1, .create 2 8 3, .assign 2 0]).isNone = true := by
  decide +kernel

/-- Non-vacuity of `C27_partial`: frames of two sizes, an assignment, a self-assignment. -/
example : (frun {} [.create 0 4 1, .create 1 4 2, .create 2 8 3, .assign 0 1, .assign 2 2, .write 1 5, .drop 1, .create 3 4 6]).map
    (fun w => [0, 1, 2, 3].map (fun f => (w.frames f).map (fun a => w.content a.block))) = some [some 2, none, some 3, some 6] := by
  decide +kernel

end Verif.Pool
