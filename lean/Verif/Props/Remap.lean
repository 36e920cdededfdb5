import Verif.Model.Remap
/-
C136: A processor reads every frame from the memory the receiver has put it into, and the memory a receiver names can be
opened. The code violates both. Here: what a configuration message does to the memory, exactly; two ways in which every
processor is led astray, for every reachable state; and an order of events in which it is not.
-/
namespace Verif.Remap

/-! ## Specification -/

/-- The receiver and the processor start; there may be shared memory of earlier processes. -/
def init (names : Nat → Option Nat) (objs : Nat) : St := { names := names, objs := objs }

/-- The objects of earlier processes are numbered below `objs`. -/
def Older (names : Nat → Option Nat) (objs : Nat) : Prop := ∀ n o, names n = some o → o < objs

/-- The processor has not failed, and has read each frame from where it is. -/
def Right (s : St) : Prop := s.down = false ∧ ∀ e ∈ s.log, e.1 = e.2

def C136_statement : Prop := ∀ names objs, Older names objs → ∀ os, Right (run (init names objs) os)

/-! ## What letting go of managers changes -/

section
variable (s : St) (m : Option Mgr)
theorem letGo_none : letGo s none = s := rfl
theorem letGo_held (k : Mgr) (h : s.ctrl = some k ∨ s.dec = some (some k) ∨ s.rx = some k) : letGo s (some k) = s := by
  simp only [letGo, if_pos h]
theorem letGo_last (k : Mgr) (h : ¬ (s.ctrl = some k ∨ s.dec = some (some k) ∨ s.rx = some k)) :
    letGo s (some k) = { s with names := fun n => if n = k.name then none else s.names n } := by
  simp only [letGo, if_neg h]
end

/-- What holds of every reachable state. -/
structure Inv (s : St) : Prop where
  over : s.over = true → s.rx = none
  rx : s.over = false → ∀ m, s.rx = some m → s.dec = some (some m)
  dec : s.over = false → ∀ m, s.dec = some m → ∃ k, m = some k ∧ s.ctrl = some k ∧ k.name = s.name ∧ s.needDecoder = true ∧
    s.needBuffer = true ∧ s.needRx = true
  ids : s.over = false → ∀ m, s.ctrl = some m → m.id < s.mgrs ∧ m.obj < s.objs
  names : Older s.names s.objs
  proc : ∀ o, s.proc = some o → o < s.objs

/-- The names after the last holder of a manager is gone. -/
def without (names : Nat → Option Nat) : Option Mgr → Nat → Option Nat
  | none => names
  | some m => fun n => if n = m.name then none else names n

/-- The names after opening one. -/
def opens (names : Nat → Option Nat) (objs name : Nat) : Nat → Option Nat :=
  fun n => if n = name then some ((names name).getD objs) else names n

/-- The number of objects after opening a name. -/
def count (names : Nat → Option Nat) (objs name : Nat) : Nat := if (names name).isSome then objs else objs + 1

/-- The new manager, if the names are those at its opening. -/
def fresh (c : Conf) (s : St) (names : Nat → Option Nat) : Mgr :=
  ⟨s.mgrs, c.name.getD s.name, (names (c.name.getD s.name)).getD s.objs⟩

/-- The receiver with everything made anew, a name removed or not in the end. -/
def renewed (c : Conf) (s : St) (before : Nat → Option Nat) (after : (Nat → Option Nat) → Nat → Option Nat) : St :=
  { s with type := c.type.getD s.type, name := c.name.getD s.name, needDecoder := true, needBuffer := true, needRx := true
           names := after (opens before s.objs (c.name.getD s.name)), objs := count before s.objs (c.name.getD s.name)
           mgrs := s.mgrs + 1, ctrl := some (fresh c s before), dec := some (some (fresh c s before))
           rx := some (fresh c s before), pending := s.pending + 1 }

theorem stop_same (s : St) (h : Inv s) (ho : s.over = false) : stopRx s = { s with rx := none } := by
  simp only [stopRx]
  cases e : s.rx with
  | none => rw [letGo_none]
  | some m =>
    have h1 := h.rx ho m e
    obtain ⟨k, hk, hc, _⟩ := h.dec ho _ h1
    injection hk with hk
    rw [letGo_held]
    exact Or.inl (by rw [hk]; exact hc)

theorem stop_asked (s : St) (c : Conf) (h : Inv s) (ho : s.over = false) :
    stopRx (asked c s) = { asked c s with rx := none } := by
  simp only [stopRx]
  cases e : (asked c s).rx with
  | none => rw [letGo_none]
  | some m =>
    have e' : s.rx = some m := e
    have h1 := h.rx ho m e'
    obtain ⟨k, hk, hc, _⟩ := h.dec ho _ h1
    injection hk with hk
    rw [letGo_held]
    exact Or.inl (by rw [hk]; exact hc)

theorem drop_asked (s : St) (c : Conf) (h : Inv s) (ho : s.over = false) :
    dropDecoder { asked c s with rx := none } = { asked c s with rx := none, dec := none } := by
  simp only [dropDecoder]
  cases e : (asked c s).dec with
  | none => simp [Option.join, letGo_none]
  | some o =>
    have e' : s.dec = some o := e
    obtain ⟨k, hk, hc, _⟩ := h.dec ho _ e'
    subst hk
    simp only [Option.join_some]
    rw [letGo_held]
    exact Or.inl hc

theorem decoder_loaded (s : St) (c : Conf) (h : Inv s) (ho : s.over = false) (hl : c.loads = true)
    (ht : c.type.getD s.type ≠ 0) (hn : (asked c s).needDecoder = true) : decoder c (asked c s) =
      ({ asked c s with rx := none, dec := some none, needBuffer := true, needRx := true }, true) := by
  have ht' : (asked c s).type ≠ 0 := ht
  simp only [decoder, if_pos hn, if_neg ht', if_pos hl, stop_asked s c h ho, drop_asked s c h ho]

/-- The decoder is loaded anew: nobody's memory loses its name until the controller lets go of the old one. -/
theorem conf_reload (s : St) (c : Conf) (h : Inv s) (ho : s.over = false) (hl : c.loads = true) (hf : c.fits = true)
    (ht : c.type.getD s.type ≠ 0) (hn : (asked c s).needDecoder = true) :
    configure c s = renewed c s (without s.names s.ctrl) id := by
  have e2 := decoder_loaded s c h ho hl ht hn
  have e4 : buffer c (named c (decoder c (asked c s)).1) =
      { renewed c s (without s.names s.ctrl) id with rx := none, needDecoder := (asked c s).needDecoder } := by
    rw [e2]
    have h1 : (named c { asked c s with rx := none, dec := some none, needBuffer := true, needRx := true }).needBuffer = true := rfl
    have h2 : (named c { asked c s with rx := none, dec := some none, needBuffer := true, needRx := true }).dec.isSome = true := rfl
    simp only [buffer, if_pos h1, if_pos h2, if_pos hf]
    cases hc : s.ctrl with
    | none =>
      simp [stopRx, dropCtrl, letGo, named, asked, make, register, claim, opened, renewed, without, count, fresh, hc]
      exact ⟨rfl, rfl⟩
    | some m =>
      simp [stopRx, dropCtrl, letGo, named, asked, make, register, claim, opened, renewed, without, count, fresh, hc]
      exact ⟨rfl, rfl⟩
  simp only [configure]
  have e5 : (decoder c (asked c s)).2 = true := by rw [e2]
  rw [if_pos e5, e4]
  simp only [renewed, ho, thread, stopRx, letGo, hn]
  simp

/-- The decoder cannot be loaded: the receiver is left without, and with its memory. -/
theorem conf_fail (s : St) (c : Conf) (h : Inv s) (ho : s.over = false) (hl : c.loads = false)
    (ht : c.type.getD s.type ≠ 0) (hn : (asked c s).needDecoder = true) :
    configure c s = { asked c s with rx := none, dec := none } := by
  have ht' : (asked c s).type ≠ 0 := ht
  have e2 : decoder c (asked c s) = ({ asked c s with rx := none, dec := none }, false) := by
    simp only [decoder, if_pos hn, if_neg ht', hl, stop_asked s c h ho, drop_asked s c h ho]
    simp
  simp only [configure, e2]
  simp

/-- There is no decoder, and none is loaded. -/
theorem conf_none (s : St) (c : Conf) (ho : s.over = false) (hd : s.dec = none)
    (hn : (asked c s).needDecoder = false ∨ c.type.getD s.type = 0) :
    configure c s = { named c (asked c s) with needRx := s.needRx || c.thread } := by
  have e2 : decoder c (asked c s) = (asked c s, true) := by
    simp only [decoder]
    rcases hn with hn | hn
    · simp [hn]
    · have : (asked c s).type = 0 := hn
      simp [this]
  have hd' : (named c (asked c s)).dec.isSome = false := by
    show s.dec.isSome = false
    rw [hd]; rfl
  have e4 : buffer c (named c (asked c s)) = named c (asked c s) := by
    simp only [buffer, hd']
    simp
  have ho' : (named c (asked c s)).over = false := ho
  simp only [configure, e2, e4, ho', thread, hd']
  simp [named, asked]

/-- The decoder is kept, and its manager let go of after the new one has been made. -/
theorem conf_kept (s : St) (c : Conf) (h : Inv s) (ho : s.over = false) (hf : c.fits = true) (m : Mgr)
    (hd : s.dec = some (some m)) (ht : c.type.getD s.type = 0) :
    configure c s = renewed c s s.names (fun f => without f (some m)) := by
  obtain ⟨k, hk, hc, hm, hnd, hnb, hnr⟩ := h.dec ho _ hd
  injection hk with hk
  subst hk
  have e2 : decoder c (asked c s) = (asked c s, true) := by
    have : (asked c s).type = 0 := ht
    simp [decoder, this]
  have hs := stop_asked s c h ho
  have hid : m.id < s.mgrs := (h.ids ho m hc).1
  have hne : ∀ n o, (⟨s.mgrs, n, o⟩ : Mgr) ≠ m := by
    intro n o hh
    rw [← hh] at hid
    exact Nat.lt_irrefl _ hid
  have e4 : buffer c (named c (asked c s)) =
      { renewed c s s.names (fun f => without f (some m)) with rx := none } := by
    have h1 : (named c (asked c s)).needBuffer = true := by simp [named, asked, hnb]
    have h2 : (named c (asked c s)).dec.isSome = true := by simp [named, asked, hd]
    have h3 : stopRx (named c (asked c s)) = { named c (asked c s) with rx := none } := by
      simp only [stopRx]
      cases e : (named c (asked c s)).rx with
      | none => rw [letGo_none]
      | some j =>
        have e' : s.rx = some j := e
        have h1 := h.rx ho j e'
        rw [letGo_held]
        exact Or.inr (Or.inl h1)
    have h4 : dropCtrl { named c (asked c s) with rx := none } = { named c (asked c s) with rx := none, ctrl := none } := by
      have : (named c (asked c s)).ctrl = some m := hc
      simp only [dropCtrl, this]
      rw [letGo_held]
      exact Or.inr (Or.inl hd)
    simp only [buffer, if_pos h1, if_pos h2, if_pos hf, h3, h4]
    simp only [register, make, claim, opened, named, asked, hd, Option.join_some]
    rw [letGo_last _ m (by simp [hne])]
    simp [renewed, opens, count, fresh, without, hnd, hnb]
  simp only [configure, e2, e4]
  simp only [renewed, ho, thread, stopRx, letGo]
  simp

/-! ## Invariants of every run -/

theorem without_older (names : Nat → Option Nat) (objs : Nat) (m : Option Mgr) (h : Older names objs) :
    Older (without names m) objs := by
  intro n o hn
  cases m with
  | none => exact h n o hn
  | some m =>
    simp only [without] at hn
    split at hn
    · exact absurd hn (by simp)
    · exact h n o hn

theorem count_ge (names : Nat → Option Nat) (objs name : Nat) : objs ≤ count names objs name := by
  simp only [count]; split <;> omega

theorem opened_lt (names : Nat → Option Nat) (objs name : Nat) (h : Older names objs) :
    (names name).getD objs < count names objs name := by
  simp only [count]
  cases e : names name with
  | none => simp
  | some o => simpa using h name o e

theorem opens_older (names : Nat → Option Nat) (objs name : Nat) (h : Older names objs) :
    Older (opens names objs name) (count names objs name) := by
  intro n o hn
  simp only [opens] at hn
  split at hn
  · injection hn with hn
    rw [← hn]
    exact opened_lt names objs name h
  · exact Nat.lt_of_lt_of_le (h n o hn) (count_ge names objs name)

/-- Letting go changes nothing but names. -/
theorem letGo_eq (s : St) (m : Option Mgr) : letGo s m = s ∨ letGo s m = { s with names := without s.names m } := by
  cases m with
  | none => exact Or.inl rfl
  | some m =>
    simp only [letGo]
    split
    · exact Or.inl rfl
    · exact Or.inr rfl

/-- The objects a state knows of have been made. -/
def Known (s : St) : Prop := Older s.names s.objs ∧ ∀ o, s.proc = some o → o < s.objs

theorem letGo_known (s : St) (m : Option Mgr) (h : Known s) : Known (letGo s m) := by
  rcases letGo_eq s m with e | e <;> rw [e]
  · exact h
  · exact ⟨without_older _ _ _ h.1, h.2⟩

theorem letGo_rx (s : St) (m : Option Mgr) : (letGo s m).rx = s.rx := by
  rcases letGo_eq s m with e | e <;> rw [e]

theorem claim_known (s : St) (h : Known s) : Known (claim s) :=
  ⟨opens_older s.names s.objs s.name h.1, fun o ho => Nat.lt_of_lt_of_le (h.2 o ho) (count_ge s.names s.objs s.name)⟩

theorem fail_known (s : St) (h : Known s) (hr : s.rx = none) : Known (fail s) ∧ (fail s).rx = none ∧ (fail s).over = true := by
  refine ⟨?_, ?_, rfl⟩
  · have := letGo_known { claim s with dec := none } s.dec.join (claim_known s h)
    exact this
  · show (letGo _ _).rx = none
    rw [letGo_rx]
    exact hr

theorem inv_over (s : St) (h : Known s) (hr : s.rx = none) (ho : s.over = true) : Inv s where
  over := fun _ => hr
  rx := fun h => absurd (ho.symm.trans h) (by simp)
  dec := fun h => absurd (ho.symm.trans h) (by simp)
  ids := fun h => absurd (ho.symm.trans h) (by simp)
  names := h.1
  proc := h.2

theorem stop_rx (s : St) : (stopRx s).rx = none := by
  simp only [stopRx]; rw [letGo_rx]

theorem stop_known (s : St) (h : Known s) : Known (stopRx s) := letGo_known _ _ h
theorem dropDecoder_known (s : St) (h : Known s) : Known (dropDecoder s) := letGo_known _ _ h
theorem dropCtrl_known (s : St) (h : Known s) : Known (dropCtrl s) := letGo_known _ _ h
theorem dropCtrl_rx (s : St) : (dropCtrl s).rx = s.rx := letGo_rx _ _

theorem decoder_known (c : Conf) (s : St) (h : Known s) : Known (decoder c s).1 := by
  simp only [decoder]
  split
  · split
    · exact h
    · split
      · exact dropDecoder_known _ (stop_known s h)
      · exact dropDecoder_known _ (stop_known s h)
  · exact h

theorem renewed_inv (c : Conf) (s : St) (before : Nat → Option Nat) (m : Option Mgr) (hi : Inv s) (ho : s.over = false)
    (hb : Older before s.objs) : Inv (renewed c s before (fun f => without f m)) where
  over := fun h => absurd (ho.symm.trans h) (by simp)
  rx := fun _ k hk => by
    have hk : some (fresh c s before) = some k := hk
    rw [← hk]; rfl
  dec := fun _ k hk => by
    have hk : some (some (fresh c s before)) = some k := hk
    injection hk with hk
    exact ⟨fresh c s before, hk.symm, rfl, rfl, rfl, rfl, rfl⟩
  ids := fun _ k hk => by
    have hk : some (fresh c s before) = some k := hk
    injection hk with hk
    rw [← hk]
    exact ⟨Nat.lt_succ_self _, opened_lt before s.objs _ hb⟩
  names := without_older _ _ _ (opens_older before s.objs _ hb)
  proc := fun o h => Nat.lt_of_lt_of_le (hi.proc o h) (count_ge before s.objs _)

/-- The cases of a configuration message. -/
theorem conf_cases (s : St) (c : Conf) (h : Inv s) (ho : s.over = false) :
    (c.fits = true ∧ c.loads = true ∧ c.type.getD s.type ≠ 0 ∧ (asked c s).needDecoder = true ∧
      configure c s = renewed c s (without s.names s.ctrl) id) ∨
    (c.loads = false ∧ c.type.getD s.type ≠ 0 ∧ (asked c s).needDecoder = true ∧
      configure c s = { asked c s with rx := none, dec := none }) ∨
    (s.dec = none ∧ ((asked c s).needDecoder = false ∨ c.type.getD s.type = 0) ∧
      configure c s = { named c (asked c s) with needRx := s.needRx || c.thread }) ∨
    (∃ m, c.fits = true ∧ s.dec = some (some m) ∧ c.type.getD s.type = 0 ∧
      configure c s = renewed c s s.names (fun f => without f (some m))) ∨
    (c.fits = false ∧ (configure c s).over = true ∧ (configure c s).rx = none ∧ Known (configure c s)) := by
  have hk : Known s := ⟨h.names, h.proc⟩
  have hnd : ∀ m, s.dec = some m → (asked c s).needDecoder = true := by
    intro m hm
    obtain ⟨_, _, _, _, h4, _⟩ := h.dec ho _ hm
    simp [asked, h4]
  have unfit : ∀ t : St, Known t → t.needBuffer = true → t.dec.isSome = true → c.fits = false →
      (decoder c (asked c s)).2 = true → named c (decoder c (asked c s)).1 = t →
      (configure c s).over = true ∧ (configure c s).rx = none ∧ Known (configure c s) := by
    intro t hkt h1 h2 h3 h4 h5
    have e : buffer c t = fail (dropCtrl (stopRx t)) := by simp [buffer, h1, h2, h3]
    obtain ⟨a, b, d⟩ := fail_known (dropCtrl (stopRx t)) (dropCtrl_known _ (stop_known _ hkt)) (by rw [dropCtrl_rx, stop_rx])
    simp only [configure, h4, h5, e, d]
    exact ⟨d, b, a⟩
  by_cases hl : (asked c s).needDecoder = true ∧ c.type.getD s.type ≠ 0
  · obtain ⟨hn, ht⟩ := hl
    cases e : c.loads with
    | false => exact Or.inr (Or.inl ⟨rfl, ht, hn, conf_fail s c h ho e ht hn⟩)
    | true =>
      cases ef : c.fits with
      | true => exact Or.inl ⟨rfl, rfl, ht, hn, conf_reload s c h ho e ef ht hn⟩
      | false =>
        refine Or.inr (Or.inr (Or.inr (Or.inr ⟨rfl, ?_⟩)))
        have e2 := decoder_loaded s c h ho e ht hn
        refine unfit _ ?_ ?_ ?_ ef (by rw [e2]) rfl
        · exact decoder_known c _ hk
        · rw [e2]; rfl
        · rw [e2]; rfl
  · have hn : (asked c s).needDecoder = false ∨ c.type.getD s.type = 0 := by
      cases e : (asked c s).needDecoder with
      | false => exact Or.inl rfl
      | true =>
        refine Or.inr ?_
        by_cases ht : c.type.getD s.type = 0
        · exact ht
        · exact absurd ⟨e, ht⟩ hl
    cases e : s.dec with
    | none => exact Or.inr (Or.inr (Or.inl ⟨rfl, hn, conf_none s c ho e hn⟩))
    | some m =>
      have h1 := hnd m e
      have ht : c.type.getD s.type = 0 := by
        rcases hn with hn | hn
        · rw [h1] at hn; cases hn
        · exact hn
      obtain ⟨k, hk', _, _, _, hnb, _⟩ := h.dec ho _ e
      subst hk'
      cases ef : c.fits with
      | true => exact Or.inr (Or.inr (Or.inr (Or.inl ⟨k, rfl, rfl, ht, conf_kept s c h ho ef k e ht⟩)))
      | false =>
        refine Or.inr (Or.inr (Or.inr (Or.inr ⟨rfl, ?_⟩)))
        have e2 : decoder c (asked c s) = (asked c s, true) := by
          have : (asked c s).type = 0 := ht
          simp [decoder, this]
        refine unfit _ ?_ ?_ ?_ ef (by rw [e2]) rfl
        · exact decoder_known c _ hk
        · rw [e2]; simp [named, asked, hnb]
        · rw [e2]; simp [named, asked, e]

theorem conf_inv (s : St) (c : Conf) (h : Inv s) (ho : s.over = false) : Inv (configure c s) := by
  rcases conf_cases s c h ho with ⟨_, _, _, _, e⟩ | ⟨_, _, _, e⟩ | ⟨hd, _, e⟩ | ⟨m, _, _, _, e⟩ | ⟨_, ho', hr, hk⟩
  · rw [e]
    exact renewed_inv c s _ none h ho (without_older _ _ _ h.names)
  · rw [e]
    exact ⟨fun _ => rfl, fun _ m hm => absurd hm (by simp), fun _ m hm => absurd hm (by simp), fun _ => h.ids ho, h.names, h.proc⟩
  · rw [e]
    have hr : s.rx = none := by
      cases er : s.rx with
      | none => rfl
      | some m => rw [h.rx ho m er] at hd; cases hd
    refine ⟨fun _ => hr, fun _ m hm => ?_, fun _ m hm => ?_, fun _ => h.ids ho, h.names, h.proc⟩
    · have hm : s.rx = some m := hm
      rw [hr] at hm; cases hm
    · have hm : s.dec = some m := hm
      rw [hd] at hm; cases hm
  · rw [e]
    exact renewed_inv c s _ (some m) h ho h.names
  · exact inv_over _ hk hr ho'

theorem step_inv (s : St) (o : Op) (h : Inv s) : Inv (step s o) := by
  cases o with
  | conf c =>
    simp only [step]
    split
    · exact h
    · next ho => exact conf_inv s c h (by simpa using ho)
  | timer =>
    simp only [step]
    split
    · exact h
    · exact ⟨h.over, h.rx, h.dec, h.ids, h.names, h.proc⟩
  | request =>
    simp only [step]
    split
    · exact h
    · exact ⟨h.over, h.rx, h.dec, h.ids, h.names, h.proc⟩
  | frame =>
    simp only [step]
    split
    · exact ⟨h.over, h.rx, h.dec, h.ids, h.names, h.proc⟩
    · exact h
  | take =>
    simp only [step]
    split
    · next m l _ =>
      split
      · exact h
      · cases m with
        | config n =>
          simp only [take]
          split
          · next o e =>
            refine ⟨h.over, h.rx, h.dec, h.ids, h.names, fun k hk => ?_⟩
            have hk : some o = some k := hk
            injection hk with hk
            rw [← hk]
            exact h.names n o e
          · exact ⟨h.over, h.rx, h.dec, h.ids, h.names, fun k hk => absurd hk (by simp)⟩
        | ready w =>
          simp only [take]
          split
          · exact ⟨h.over, h.rx, h.dec, h.ids, h.names, h.proc⟩
          · exact ⟨h.over, h.rx, h.dec, h.ids, h.names, h.proc⟩
    · exact h

theorem init_inv (names : Nat → Option Nat) (objs : Nat) (h : Older names objs) : Inv (init names objs) := by
  refine ⟨fun h => absurd h (by simp [init]), fun _ m hm => ?_, fun _ m hm => ?_, fun _ m hm => ?_, h, fun o ho => ?_⟩
  · exact absurd hm (by simp [init])
  · exact absurd hm (by simp [init])
  · exact absurd hm (by simp [init])
  · exact absurd ho (by simp [init])

theorem run_inv (s : St) (os : List Op) (h : Inv s) : Inv (run s os) := by
  induction os generalizing s with
  | nil => exact h
  | cons o os ih => exact ih (step s o) (step_inv s o h)

theorem run_append (s : St) (os ps : List Op) : run s (os ++ ps) = run (run s os) ps := List.foldl_append ..

/-! ## What goes wrong, in every reachable state -/

/-- A frame announced before the processor has opened any memory is ignored, the processor goes on. -/
theorem C136_unopened (s : St) (w : Nat) (r : List Msg) (hd : s.down = false) (hp : s.proc = none) (hc : s.chan = .ready w :: r) :
    step s .take = { s with chan := r } := by
  simp only [step, hd, hc, take, hp]
  simp

example : ∃ s : St, s.down = false ∧ s.proc = none ∧ s.chan = [.ready 1, .config 3] :=
  ⟨{ init (fun _ => none) 2 with chan := [.ready 1, .config 3] }, by decide, by decide, rfl⟩

/-- Whatever a configuration message says that is obeyed, if it does not change the name of the memory: all memory is made anew,
and the next frame is read by the processor from the old one, in which it is not. -/
theorem C136_stale (names : Nat → Option Nat) (objs : Nat) (ha : Older names objs) (os : List Op) (s : St)
    (hs : run (init names objs) os = s) (hr : s.rx ≠ none) (c : Conf) (ht : c.type.getD s.type ≠ 0) (hn : c.name = none)
    (hl : c.loads = true) (hf : c.fits = true) (hc : s.chan = []) (hd : s.down = false) (p : Nat) (hp : s.proc = some p) :
    ∃ w, (run s [.conf c, .frame, .take]).log = s.log ++ [(w, p)] ∧ w ≠ p := by
  have hi : Inv s := hs ▸ run_inv _ os (init_inv names objs ha)
  have ho : s.over = false := by
    cases e : s.over with
    | false => rfl
    | true => exact absurd (hi.over e) hr
  obtain ⟨m, hm⟩ := Option.ne_none_iff_exists'.mp hr
  obtain ⟨k, hk, hk2, hk3, hk4, hk5, _⟩ := hi.dec ho _ (hi.rx ho m hm)
  injection hk with hk
  subst hk
  have e := conf_reload s c hi ho hl hf ht (by simp [asked, hk4])
  refine ⟨s.objs, ?_, ?_⟩
  · have e1 : step s (.conf c) = renewed c s (without s.names s.ctrl) id := by simp only [step, ho]; exact e
    have e2 : (fresh c s (without s.names s.ctrl)).obj = s.objs := by
      simp [fresh, hn, hk2, without, hk3]
    simp only [run, List.foldl_cons, List.foldl_nil, e1]
    simp [step, renewed, hc, hd, take, hp, e2]
  · have := hi.proc p hp
    omega

/-- If a message takes the type of the decoder back to "unknown", the decoder stays and the memory is made anew, but the manager
that the decoder has kept removes its name: no processor can open it, and one that is told its name fails. -/
theorem C136_unlinked (names : Nat → Option Nat) (objs : Nat) (ha : Older names objs) (os : List Op) (s : St)
    (hs : run (init names objs) os = s) (hr : s.rx ≠ none) (c : Conf) (ht : c.type.getD s.type = 0) (hn : c.name = none)
    (hf : c.fits = true) :
    (step s (.conf c)).rx ≠ none ∧ (step s (.conf c)).names (step s (.conf c)).name = none ∧
      (s.chan = [] → (run s [.conf c, .timer, .take]).down = true) := by
  have hi : Inv s := hs ▸ run_inv _ os (init_inv names objs ha)
  have ho : s.over = false := by
    cases e : s.over with
    | false => rfl
    | true => exact absurd (hi.over e) hr
  obtain ⟨m, hm⟩ := Option.ne_none_iff_exists'.mp hr
  obtain ⟨k, hk, hk2, hk3, hk4, hk5, _⟩ := hi.dec ho _ (hi.rx ho m hm)
  injection hk with hk
  subst hk
  have e := conf_kept s c hi ho hf m (hi.rx ho m hm) ht
  have e1 : step s (.conf c) = renewed c s s.names (fun f => without f (some m)) := by simp only [step, ho]; exact e
  have e2 : (renewed c s s.names (fun f => without f (some m))).names s.name = none := by
    simp [renewed, without, hk3]
  have e3 : (renewed c s s.names (fun f => without f (some m))).name = s.name := by simp [renewed, hn]
  refine ⟨?_, ?_, fun hc => ?_⟩
  · rw [e1]; simp [renewed]
  · rw [e1, e3, e2]
  · simp only [run, List.foldl_cons, List.foldl_nil, e1]
    cases hd : s.down with
    | true => simp [step, renewed, ho, hc, hd]
    | false => simp [step, renewed, ho, hc, hd, take, hn, without, hk3]

/-- A first configuration with a decoder, told to the processor. -/
def served : List Op := [.conf { type := some 1 }, .timer, .take]

theorem C136_violated : ¬ C136_statement := by
  intro h
  have h1 := (h (fun _ => none) 0 (fun _ _ h => by cases h) (served ++ [.conf {}, .frame, .take])).2
  have h2 : (run (init (fun _ => none) 0) (served ++ [.conf {}, .frame, .take])).log = [(1, 0)] := by decide
  rw [h2] at h1
  exact absurd (h1 (1, 0) (by simp)) (by decide)

/-- The processor also fails if it asks before there is memory. -/
theorem C136_violated_early : (run (init (fun _ => none) 0) [.request, .take]).down = true := by decide

/-- And if the name it is told is replaced by another before it gets round to it. -/
theorem C136_violated_renamed :
    (run (init (fun _ => none) 0) [.conf { type := some 1 }, .request, .conf { name := some 5 }, .take]).down = true := by decide

/-- Non-vacuity of `C136_stale` and `C136_unlinked`. -/
example : (run (init (fun _ => none) 0) served).rx ≠ none ∧ (run (init (fun _ => none) 0) served).type = 1 ∧
    (run (init (fun _ => none) 0) served).chan = [] ∧ (run (init (fun _ => none) 0) served).down = false ∧
    (run (init (fun _ => none) 0) served).proc = some 0 := by decide

/-! ## An order in which all goes well -/

/-- Configuration messages are handled when the processor has caught up, and keep a type of decoder (or there never was memory);
the processor asks once there is memory; frames are received when the processor has been told. -/
def Fine (s : St) : Op → Prop
  | .conf c => s.chan = [] ∧ c.fits = true ∧ (c.type.getD s.type ≠ 0 ∨ s.ctrl = none)
  | .timer => True
  | .request => s.ctrl ≠ none
  | .frame => s.pending = 0
  | .take => True

def AllFine (s : St) : List Op → Prop
  | [] => True
  | o :: os => Fine s o ∧ AllFine (step s o) os

/-- The messages under way can be obeyed and lead to the right memory. -/
def Sound (names : Nat → Option Nat) : Option Nat → List Msg → Prop
  | _, [] => True
  | _, .config n :: l => ∃ o, names n = some o ∧ Sound names (some o) l
  | p, .ready w :: l => p = some w ∧ Sound names p l

/-- The memory the processor has after the messages under way. -/
def final (names : Nat → Option Nat) : Option Nat → List Msg → Option Nat
  | p, [] => p
  | _, .config n :: l => final names (names n) l
  | p, .ready _ :: l => final names p l

theorem sound_append (names : Nat → Option Nat) (p : Option Nat) (l k : List Msg) :
    Sound names p (l ++ k) ↔ Sound names p l ∧ Sound names (final names p l) k := by
  induction l generalizing p with
  | nil => simp [Sound, final]
  | cons m l ih =>
    cases m with
    | config n =>
      simp only [List.cons_append, Sound, final]
      constructor
      · rintro ⟨o, h1, h2⟩
        obtain ⟨h3, h4⟩ := (ih (some o)).mp h2
        exact ⟨⟨o, h1, h3⟩, by rw [h1]; exact h4⟩
      · rintro ⟨⟨o, h1, h3⟩, h4⟩
        rw [h1] at h4
        exact ⟨o, h1, (ih (some o)).mpr ⟨h3, h4⟩⟩
    | ready w =>
      simp only [List.cons_append, Sound, final, ih]
      exact and_assoc.symm

theorem final_append (names : Nat → Option Nat) (p : Option Nat) (l k : List Msg) :
    final names p (l ++ k) = final names (final names p l) k := by
  induction l generalizing p with
  | nil => rfl
  | cons m l ih => cases m <;> simp only [List.cons_append, final, ih]

structure Good (s : St) : Prop where
  inv : Inv s
  alive : s.over = false
  up : s.down = false
  linked : ∀ m, s.ctrl = some m → m.name = s.name ∧ s.names s.name = some m.obj
  has : s.ctrl = none → s.dec = none ∧ s.pending = 0 ∧ s.rx = none
  sound : Sound s.names s.proc s.chan
  told : s.pending = 0 → ∀ m, s.ctrl = some m → final s.names s.proc s.chan = some m.obj
  log : ∀ e ∈ s.log, e.1 = e.2
  flag : s.ctrl ≠ none → s.needDecoder = true

theorem conf_good (s : St) (c : Conf) (h : Good s) (hf : Fine s (.conf c)) : Good (configure c s) := by
  obtain ⟨hc, hfit, ht⟩ := hf
  have hinv := conf_inv s c h.inv h.alive
  rcases conf_cases s c h.inv h.alive with ⟨_, _, _, _, e⟩ | ⟨_, _, hn, e⟩ | ⟨hd, hn, e⟩ | ⟨m, _, hd, ht', e⟩ | ⟨hu, _⟩
  · rw [e] at hinv ⊢
    refine ⟨hinv, h.alive, h.up, fun m hm => ?_, fun hn => absurd hn (by simp [renewed]), ?_, fun hp => ?_, h.log, fun _ => rfl⟩
    · have hm : some (fresh c s (without s.names s.ctrl)) = some m := hm
      injection hm with hm
      rw [← hm]
      refine ⟨rfl, ?_⟩
      simp [renewed, opens, fresh]
    · show Sound _ s.proc s.chan
      rw [hc]; trivial
    · have hp : s.pending + 1 = 0 := hp
      omega
  · rw [e] at hinv ⊢
    exact ⟨hinv, h.alive, h.up, h.linked, fun hn => ⟨rfl, (h.has hn).2.1, rfl⟩, h.sound, h.told, h.log, fun _ => hn⟩
  · rw [e] at hinv ⊢
    have hct : s.ctrl = none := by
      rcases ht with ht | ht
      · cases ec : s.ctrl with
        | none => rfl
        | some m =>
          have := h.flag (by rw [ec]; simp)
          rcases hn with hn | hn
          · simp [asked, this] at hn
          · exact absurd hn ht
      · exact ht
    refine ⟨hinv, h.alive, h.up, fun m hm => ?_, fun _ => h.has hct, h.sound, fun _ m hm => ?_, h.log, fun hh => absurd hct hh⟩
    · have hm : s.ctrl = some m := hm
      rw [hct] at hm; cases hm
    · have hm : s.ctrl = some m := hm
      rw [hct] at hm; cases hm
  · rcases ht with ht | ht
    · exact absurd ht' ht
    · rw [(h.has ht).1] at hd; cases hd
  · rw [hfit] at hu; cases hu

theorem step_good (s : St) (o : Op) (h : Good s) (hf : Fine s o) : Good (step s o) := by
  have hinv := step_inv s o h.inv
  cases o with
  | conf c =>
    have e : step s (.conf c) = configure c s := by simp [step, h.alive]
    rw [e]
    exact conf_good s c h hf
  | timer =>
    by_cases hp : s.pending = 0
    · have e : step s .timer = s := by simp [step, hp]
      rw [e]; exact h
    · have e : step s .timer = { s with pending := s.pending - 1, chan := s.chan ++ [.config s.name] } := by
        simp [step, h.alive, hp]
      rw [e] at hinv ⊢
      have hne : s.ctrl ≠ none := fun hn => hp (h.has hn).2.1
      obtain ⟨m, ec⟩ := Option.ne_none_iff_exists'.mp hne
      obtain ⟨h1, h2⟩ := h.linked m ec
      refine ⟨hinv, h.alive, h.up, h.linked, fun hn => absurd hn hne, ?_, fun _ k hk => ?_, h.log, h.flag⟩
      · exact (sound_append _ _ _ _).mpr ⟨h.sound, m.obj, h2, trivial⟩
      · have hk : s.ctrl = some k := hk
        rw [ec] at hk; injection hk with hk
        show final s.names s.proc (s.chan ++ [.config s.name]) = _
        rw [final_append, ← hk]
        exact h2
  | request =>
    have e : step s .request = { s with chan := s.chan ++ [.config s.name] } := by simp [step, h.alive]
    rw [e] at hinv ⊢
    obtain ⟨m, ec⟩ := Option.ne_none_iff_exists'.mp (show s.ctrl ≠ none from hf)
    obtain ⟨h1, h2⟩ := h.linked m ec
    refine ⟨hinv, h.alive, h.up, h.linked, h.has, ?_, fun _ k hk => ?_, h.log, h.flag⟩
    · exact (sound_append _ _ _ _).mpr ⟨h.sound, m.obj, h2, trivial⟩
    · have hk : s.ctrl = some k := hk
      rw [ec] at hk; injection hk with hk
      show final s.names s.proc (s.chan ++ [.config s.name]) = _
      rw [final_append, ← hk]
      exact h2
  | frame =>
    cases er : s.rx with
    | none =>
      have e : step s .frame = s := by simp [step, er]
      rw [e]; exact h
    | some m =>
      have e : step s .frame = { s with chan := s.chan ++ [.ready m.obj] } := by simp [step, er]
      rw [e] at hinv ⊢
      obtain ⟨k, hk, hc, _⟩ := h.inv.dec h.alive _ (h.inv.rx h.alive m er)
      injection hk with hk
      subst hk
      have h1 := h.told hf m hc
      refine ⟨hinv, h.alive, h.up, h.linked, h.has, ?_, fun hp j hj => ?_, h.log, h.flag⟩
      · exact (sound_append _ _ _ _).mpr ⟨h.sound, h1, trivial⟩
      · show final s.names s.proc (s.chan ++ [.ready m.obj]) = _
        rw [final_append]
        exact h.told hp j hj
  | take =>
    cases ec : s.chan with
    | nil =>
      have e : step s .take = s := by simp [step, ec]
      rw [e]; exact h
    | cons m l =>
      have hs := h.sound
      have ht := h.told
      rw [ec] at hs ht
      cases m with
      | config n =>
        obtain ⟨o, h1, h2⟩ := hs
        have e : step s .take = { s with chan := l, proc := some o } := by simp [step, ec, h.up, take, h1]
        rw [e] at hinv ⊢
        refine ⟨hinv, h.alive, h.up, h.linked, h.has, h2, fun hp j hj => ?_, h.log, h.flag⟩
        have := ht hp j hj
        simp only [final, h1] at this
        exact this
      | ready w =>
        obtain ⟨h1, h2⟩ := hs
        have e : step s .take = { s with chan := l, log := s.log ++ [(w, w)] } := by simp [step, ec, h.up, take, h1]
        rw [e] at hinv ⊢
        refine ⟨hinv, h.alive, h.up, h.linked, h.has, h2, fun hp j hj => ht hp j hj, fun x hx => ?_, h.flag⟩
        rcases List.mem_append.mp hx with hx | hx
        · exact h.log x hx
        · rw [List.mem_singleton.mp hx]

theorem run_good (s : St) (os : List Op) (h : Good s) (hf : AllFine s os) : Good (run s os) := by
  induction os generalizing s with
  | nil => exact h
  | cons o os ih => exact ih (step s o) (step_good s o h hf.1) hf.2

theorem init_good (names : Nat → Option Nat) (objs : Nat) (h : Older names objs) : Good (init names objs) where
  inv := init_inv names objs h
  alive := rfl
  up := rfl
  linked := fun _ hm => absurd hm (by simp [init])
  has := fun _ => ⟨rfl, rfl, rfl⟩
  sound := trivial
  told := fun _ _ hm => absurd hm (by simp [init])
  log := fun _ he => absurd he (by simp [init])
  flag := fun hn => absurd rfl hn

/-- C136, if configuration messages, requests and frames come when they should (`Fine`): the processor does not fail, every frame
it reads is read from where it is, and once it has been told and has caught up it has the memory of the receiver.
Missing: the rest (`C136_stale`, `C136_unlinked`, `C136_violated_early`, `C136_violated_renamed`). -/
theorem C136_partial (names : Nat → Option Nat) (objs : Nat) (h : Older names objs) (os : List Op)
    (hf : AllFine (init names objs) os) :
    Right (run (init names objs) os) ∧
      ((run (init names objs) os).pending = 0 → (run (init names objs) os).chan = [] →
        ∀ m, (run (init names objs) os).ctrl = some m → (run (init names objs) os).proc = some m.obj) := by
  have g := run_good _ os (init_good names objs h) hf
  refine ⟨⟨g.up, g.log⟩, fun hp hc m hm => ?_⟩
  have := g.told hp m hm
  rw [hc] at this
  exact this

/-- Frames received while a receiver thread runs. -/
def received (s : St) : List Op → Nat
  | [] => 0
  | .frame :: os => (if s.rx.isSome then 1 else 0) + received (step s .frame) os
  | o :: os => received (step s o) os

/-- Frames announced and not yet handled. -/
def underWay : List Msg → Nat
  | [] => 0
  | .config _ :: l => underWay l
  | .ready _ :: l => underWay l + 1

theorem underWay_append (l k : List Msg) : underWay (l ++ k) = underWay l + underWay k := by
  induction l with
  | nil => simp [underWay]
  | cons m l ih => cases m <;> simp [underWay, ih] <;> omega

/-- The frames of a run so far. -/
def total (s : St) : Nat := s.log.length + underWay s.chan

theorem conf_total (s : St) (c : Conf) (h : Good s) (hf : Fine s (.conf c)) : total (configure c s) = total s := by
  rcases conf_cases s c h.inv h.alive with ⟨_, _, _, _, e⟩ | ⟨_, _, _, e⟩ | ⟨_, _, e⟩ | ⟨m, _, _, _, e⟩ | ⟨hu, _⟩
  · rw [e]; rfl
  · rw [e]; rfl
  · rw [e]; rfl
  · rw [e]; rfl
  · rw [hf.2.1] at hu; cases hu

theorem total_run (s : St) (os : List Op) (h : Good s) (hf : AllFine s os) :
    total (run s os) = total s + received s os := by
  induction os generalizing s with
  | nil => rfl
  | cons o os ih =>
    have hi := ih (step s o) (step_good s o h hf.1) hf.2
    have e : run s (o :: os) = run (step s o) os := rfl
    rw [e, hi]
    cases o with
    | conf c =>
      have e : step s (.conf c) = configure c s := by simp [step, h.alive]
      have h1 : total (step s (.conf c)) = total s := by rw [e]; exact conf_total s c h hf.1
      simp only [received, h1]
    | timer =>
      have h1 : total (step s .timer) = total s := by
        simp only [step]
        split
        · rfl
        · simp [total, underWay_append, underWay]
      simp only [received, h1]
    | request =>
      have h1 : total (step s .request) = total s := by
        simp only [step]
        split
        · rfl
        · simp [total, underWay_append, underWay]
      simp only [received, h1]
    | frame =>
      have h1 : total (step s .frame) = total s + (if s.rx.isSome then 1 else 0) := by
        simp only [step]
        split
        · next m e => simp [total, underWay_append, underWay, e]; omega
        · next e => simp [e]
      simp only [received, h1]
      omega
    | take =>
      have h1 : total (step s .take) = total s := by
        cases ec : s.chan with
        | nil =>
          have e : step s .take = s := by simp [step, ec]
          rw [e]
        | cons m l =>
          have hs := h.sound
          rw [ec] at hs
          cases m with
          | config n =>
            obtain ⟨o, h1, h2⟩ := hs
            simp [step, ec, h.up, take, h1, total, underWay]
          | ready w =>
            obtain ⟨h1, h2⟩ := hs
            simp [step, ec, h.up, take, h1, total, underWay]
            omega
      simp only [received, h1]

/-- In the same order of events, every frame received is read by the processor or still announced to it. -/
theorem C136_all (names : Nat → Option Nat) (objs : Nat) (h : Older names objs) (os : List Op)
    (hf : AllFine (init names objs) os) :
    (run (init names objs) os).log.length + underWay (run (init names objs) os).chan = received (init names objs) os := by
  have := total_run _ os (init_good names objs h) hf
  simpa [total, init, underWay] using this

/-- Non-vacuity: memory made anew, under another name and at last under a leftover name, with frames in between. -/
def fineOps : List Op :=
  served ++ [.frame, .take, .request, .frame, .take, .take, .conf { mem := true }, .timer, .frame, .frame, .take, .take, .take,
    .conf { name := some 5, loads := false }, .conf { name := some 5 }, .take, .timer, .take, .frame, .take]

instance (s : St) (o : Op) : Decidable (Fine s o) := by
  cases o <;> simp only [Fine] <;> infer_instance

instance decAllFine (s : St) : (os : List Op) → Decidable (AllFine s os)
  | [] => inferInstanceAs (Decidable True)
  | o :: os => by
    simp only [AllFine]
    have := decAllFine (step s o) os
    infer_instance

example : Older (fun n => if n = 5 then some 0 else none) 1 := by
  intro n o h
  simp only at h
  split at h
  · injection h with h; omega
  · cases h

example : AllFine (init (fun n => if n = 5 then some 0 else none) 1) fineOps := by decide +kernel

example : (run (init (fun n => if n = 5 then some 0 else none) 1) fineOps).log = [(1, 1), (1, 1), (2, 2), (2, 2), (0, 0)] := by
  decide +kernel

end Verif.Remap
