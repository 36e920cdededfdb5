import Verif.Model.RxEndpoints
namespace Verif.RxEndpoints

/-- The channel listens at the endpoint of the configuration and nowhere else. -/
def Spec.Right (s : St) (c : Ch) : Prop := ∀ ep, ep ∈ s.bound c ↔ ep = s.cfg c ∧ ep ≠ ""

/-- C175, full statement: once the deferred actions are done, every channel listens at the endpoint that the receiver reports. -/
def C175_statement : Prop := ∀ as, (run init as).1.timers = [] → ∀ c, Spec.Right (run init as).1 c

/-- A message with a new endpoint for one channel. -/
def only (c : Ch) (ep : String) : Ch → Option String := fun d => if d = c then some ep else none

/-- The control endpoint is changed and changed back within a second; everything else goes well. -/
def back : List Act :=
  [.configure (only .ctrl "tcp://127.0.0.1:5000") (fun _ => true), .configure (only .ctrl "tcp://127.0.0.1:5010") (fun _ => true),
   .configure (only .ctrl "tcp://127.0.0.1:5000") (fun _ => true), .fire, .fire]

/-- In the end the receiver reports an endpoint, and its control channel listens nowhere. -/
theorem C175_back : (run init back).1.cfg .ctrl = "tcp://127.0.0.1:5010" ∧ (run init back).1.bound .ctrl = [] ∧
    (run init back).1.timers = [] ∧ (run init back).2 = [true, true, false, true, true] := by decide +kernel

/-- C175 is false of the code. -/
theorem C175_violated : ¬ C175_statement := by
  intro h
  have h1 := (h back C175_back.2.2.1 .ctrl "tcp://127.0.0.1:5010").mpr ⟨C175_back.1.symm, by decide⟩
  rw [C175_back.2.1] at h1
  cases h1

theorem put_same {α} (f : Ch → α) (c : Ch) (x : α) : put f c x c = x := by simp [put]
theorem put_other {α} (f : Ch → α) (c d : Ch) (x : α) (h : d ≠ c) : put f c x d = f d := by simp [put, h]

/-- A control endpoint that cannot be bound is refused; a second later the receiver listens nowhere on its control channel. -/
theorem C175_unreachable (s : St) (ep : String) (can : String → Bool) (msg : Ch → Option String) (hb : s.bound .ctrl = [s.cfg .ctrl])
    (ht : s.timers = []) (hm : msg .ctrl = some ep) (hn : ep ≠ s.cfg .ctrl) (hc : can ep = false) :
    (configure can msg s).2 = false ∧ (configure can msg s).1.cfg = s.cfg ∧ (fire (configure can msg s).1).bound .ctrl = [] ∧
    (fire (configure can msg s).1).timers = [] := by
  have h1 : unbindChannel s .ctrl (s.cfg .ctrl) = ⟨s.cfg, s.bound, [s.cfg .ctrl]⟩ := by
    unfold unbindChannel
    rw [if_pos (by rw [hb]; exact List.mem_singleton.mpr rfl), if_pos rfl, ht]
    rfl
  have h2 : configure1 can s .ctrl (msg .ctrl) = (⟨s.cfg, s.bound, [s.cfg .ctrl]⟩, false) := by
    rw [hm]
    show change can s .ctrl ep = _
    unfold change
    rw [if_neg hn, h1, bindNew, hc]
    rfl
  have h3 : configure can msg s = (⟨s.cfg, s.bound, [s.cfg .ctrl]⟩, false) := by
    unfold configure
    rw [configureAll, h2]
  rw [h3]
  refine ⟨rfl, rfl, ?_, rfl⟩
  simp only [fire, unbind, put_same]
  rw [hb]
  simp

/-- Non-vacuity of `C175_unreachable`. -/
example : (run init (back.take 1)).1.bound .ctrl = [(run init (back.take 1)).1.cfg .ctrl] := by decide +kernel

theorem all_none (can : String → Bool) (msg : Ch → Option String) (c : Ch) (cs : List Ch) (s : St) (h : msg c = none) :
    configureAll can msg (c :: cs) s = configureAll can msg cs s := by
  rw [configureAll, h]; rfl
theorem all_fail (can : String → Bool) (msg : Ch → Option String) (c : Ch) (cs : List Ch) (s : St) {m : Option String} {t : St}
    (hm : msg c = m) (h : configure1 can s c m = (t, false)) : configureAll can msg (c :: cs) s = (t, false) := by
  rw [configureAll, hm, h]
theorem all_ok (can : String → Bool) (msg : Ch → Option String) (c : Ch) (cs : List Ch) (s : St) {m : Option String} {t : St}
    (hm : msg c = m) (h : configure1 can s c m = (t, true)) : configureAll can msg (c :: cs) s = configureAll can msg cs t := by
  rw [configureAll, hm, h]

/-- The other channels lose their endpoint at once; the receiver still reports it, and sending it again does not bind it. -/
theorem C175_dead (s : St) (c : Ch) (ep : String) (can can' : String → Bool) (h0 : c ≠ .ctrl) (hb : s.bound c = [s.cfg c])
    (hn : ep ≠ s.cfg c) (hc : can ep = false) :
    (configure can (only c ep) s).2 = false ∧ (configure can (only c ep) s).1.cfg = s.cfg ∧ (configure can (only c ep) s).1.bound c = [] ∧
    configure can' (only c (s.cfg c)) (configure can (only c ep) s).1 = ((configure can (only c ep) s).1, true) := by
  have h1 : unbindChannel s c (s.cfg c) = unbind s c (s.cfg c) := by
    unfold unbindChannel
    rw [if_pos (by rw [hb]; exact List.mem_singleton.mpr rfl), if_neg h0]
  have h2 : configure1 can s c (some ep) = (unbind s c (s.cfg c), false) := by
    show change can s c ep = _
    unfold change
    rw [if_neg hn, h1, bindNew, hc]
    rfl
  have h3 : configure can (only c ep) s = (unbind s c (s.cfg c), false) := by
    unfold configure
    cases c with
    | ctrl => exact absurd rfl h0
    | rx => rw [all_none _ _ _ _ _ rfl, all_fail _ _ _ _ _ rfl h2]
    | ready => rw [all_none _ _ _ _ _ rfl, all_none _ _ _ _ _ rfl, all_fail _ _ _ _ _ rfl h2]
    | release => rw [all_none _ _ _ _ _ rfl, all_none _ _ _ _ _ rfl, all_none _ _ _ _ _ rfl, all_fail _ _ _ _ _ rfl h2]
  rw [h3]
  refine ⟨rfl, rfl, ?_, ?_⟩
  · simp only [unbind, put_same]; rw [hb]; simp
  · have h4 : ∀ t : St, t.cfg c = s.cfg c → configure1 can' t c (some (s.cfg c)) = (t, true) := by
      intro t ht
      show change can' t c (s.cfg c) = _
      unfold change
      rw [if_pos ht.symm]
    have h5 := h4 (unbind s c (s.cfg c)) rfl
    unfold configure
    cases c with
    | ctrl => exact absurd rfl h0
    | rx => rw [all_none _ _ _ _ _ rfl, all_ok _ _ _ _ _ rfl h5]; rfl
    | ready => rw [all_none _ _ _ _ _ rfl, all_none _ _ _ _ _ rfl, all_ok _ _ _ _ _ rfl h5]; rfl
    | release => rw [all_none _ _ _ _ _ rfl, all_none _ _ _ _ _ rfl, all_none _ _ _ _ _ rfl, all_ok _ _ _ _ _ rfl h5]; rfl

/-- Non-vacuity of `C175_dead`. -/
example : (run init [.configure (only .ready "tcp://*:5001") (fun _ => true)]).1.bound .ready = ["tcp://*:5001"] := by decide +kernel

/-! ### Proved part -/

/-- The control channel is bound to its endpoint and to those that timers will unbind, every other channel to its endpoint. -/
structure Inv (s : St) : Prop where
  ctrl : s.bound .ctrl = (if s.cfg .ctrl = "" then [] else [s.cfg .ctrl]) ++ s.timers.reverse
  nodup : (s.bound .ctrl).Nodup
  none : s.cfg .ctrl = "" → s.timers = []
  other : ∀ c, c ≠ .ctrl → s.bound c = if s.cfg c = "" then [] else [s.cfg c]

theorem inv_init : Inv init := ⟨rfl, List.nodup_nil, fun _ => rfl, fun _ _ => rfl⟩

theorem inv_configure1 (can : String → Bool) (s : St) (c : Ch) (m : Option String) (h : Inv s) (hr : (configure1 can s c m).2 = true) :
    Inv (configure1 can s c m).1 := by
  cases m with
  | none => exact h
  | some ep =>
    replace hr : (change can s c ep).2 = true := hr
    show Inv (change can s c ep).1
    unfold change at hr ⊢
    by_cases he : ep = s.cfg c
    · rw [if_pos he]; exact h
    · rw [if_neg he] at hr ⊢
      unfold bindNew at hr ⊢
      cases hcond : (can ep && !taken (unbindChannel s c (s.cfg c)) ep && ep != "") with
      | false => rw [hcond] at hr; cases hr
      | true =>
        rw [if_pos rfl]
        simp only [Bool.and_eq_true, Bool.not_eq_true', bne_iff_ne, ne_eq] at hcond
        obtain ⟨⟨_, htk⟩, hne⟩ := hcond
        by_cases hc : c = .ctrl
        · subst hc
          have hu : unbindChannel s .ctrl (s.cfg .ctrl) = ⟨s.cfg, s.bound, s.timers ++ (if s.cfg .ctrl = "" then [] else [s.cfg .ctrl])⟩ := by
            unfold unbindChannel
            by_cases h0 : s.cfg .ctrl = ""
            · have hb : s.bound .ctrl = [] := by rw [h.ctrl, if_pos h0, h.none h0]; rfl
              rw [if_neg (by rw [hb]; intro hx; cases hx), if_pos h0, List.append_nil]
            · have hb : s.cfg .ctrl ∈ s.bound .ctrl := by rw [h.ctrl, if_neg h0]; exact List.mem_cons_self
              rw [if_pos hb, if_pos rfl, if_neg h0]
          rw [hu] at htk ⊢
          have hni : ep ∉ s.bound .ctrl := by
            intro hx
            simp [taken, hx] at htk
          refine ⟨?_, ?_, ?_, ?_⟩
          · simp only [put_same]
            rw [if_neg hne, h.ctrl]
            by_cases h0 : s.cfg .ctrl = ""
            · rw [if_pos h0, List.append_nil]; rfl
            · rw [if_neg h0, List.reverse_append]; rfl
          · simp only [put_same]
            exact List.nodup_cons.mpr ⟨hni, h.nodup⟩
          · simp only [put_same]
            exact fun hx => absurd hx hne
          · intro d hd
            simp only [put_other _ _ _ _ hd]
            exact h.other d hd
        · have hu : unbindChannel s c (s.cfg c) = ⟨s.cfg, put s.bound c [], s.timers⟩ := by
            have ho := h.other c hc
            unfold unbindChannel
            by_cases h0 : s.cfg c = ""
            · rw [if_pos h0] at ho
              rw [if_neg (by rw [ho]; intro hx; cases hx)]
              have : put s.bound c [] = s.bound := by
                funext d
                by_cases hd : d = c
                · rw [hd, put_same, ho]
                · rw [put_other _ _ _ _ hd]
              rw [this]
            · rw [if_neg h0] at ho
              rw [if_pos (by rw [ho]; exact List.mem_singleton.mpr rfl), if_neg hc]
              unfold unbind
              rw [ho]
              simp
          rw [hu]
          have hcc : Ch.ctrl ≠ c := fun hx => hc hx.symm
          refine ⟨?_, ?_, ?_, ?_⟩
          · simp only [put_other _ _ _ _ hcc]; exact h.ctrl
          · simp only [put_other _ _ _ _ hcc]; exact h.nodup
          · simp only [put_other _ _ _ _ hcc]; exact h.none
          · intro d hd
            by_cases hdc : d = c
            · subst hdc; simp only [put_same]; rw [if_neg hne]
            · simp only [put_other _ _ _ _ hdc]; exact h.other d hd

theorem inv_configureAll (can : String → Bool) (msg : Ch → Option String) (cs : List Ch) : ∀ s, Inv s →
    (configureAll can msg cs s).2 = true → Inv (configureAll can msg cs s).1 := by
  induction cs with
  | nil => intro s h _; exact h
  | cons c cs ih =>
    intro s h hr
    have h1 := inv_configure1 can s c (msg c) h
    rw [configureAll] at hr ⊢
    cases h2 : configure1 can s c (msg c) with
    | mk t b =>
      rw [h2] at hr h1
      cases b with
      | true => exact ih t (h1 rfl) hr
      | false => cases hr

theorem inv_fire (s : St) (h : Inv s) : Inv (fire s) := by
  unfold fire
  cases ht : s.timers with
  | nil => exact h
  | cons ep l =>
    dsimp only
    have h0 : s.cfg .ctrl ≠ "" := fun hx => by have := h.none hx; rw [ht] at this; cases this
    have hb := h.ctrl
    rw [if_neg h0, ht, List.reverse_cons, ← List.append_assoc] at hb
    have hnd := h.nodup
    rw [hb] at hnd
    have hni : ep ∉ [s.cfg .ctrl] ++ l.reverse := by
      intro hx
      exact (List.nodup_append.mp hnd).2.2 ep hx ep (List.mem_singleton.mpr rfl) rfl
    have hee : (s.bound .ctrl).erase ep = [s.cfg .ctrl] ++ l.reverse := by
      rw [hb, List.erase_append_right _ hni]; simp
    refine ⟨?_, ?_, ?_, ?_⟩
    · show put s.bound .ctrl ((s.bound .ctrl).erase ep) .ctrl = (if s.cfg .ctrl = "" then [] else [s.cfg .ctrl]) ++ l.reverse
      rw [put_same, if_neg h0, hee]
    · simp only [unbind, put_same]; rw [hee]; exact (List.nodup_append.mp hnd).1
    · exact fun hx => absurd hx h0
    · intro c hc; simp only [unbind, put_other _ _ _ _ hc]; exact h.other c hc

theorem inv_run (as : List Act) : ∀ s, Inv s → (∀ b ∈ (run s as).2, b = true) → Inv (run s as).1 := by
  induction as with
  | nil => intro s h _; exact h
  | cons a as ih =>
    intro s h hr
    simp only [run] at hr ⊢
    refine ih _ ?_ (fun b hb => hr b (List.mem_cons_of_mem _ hb))
    have h1 := hr _ List.mem_cons_self
    cases a with
    | fire => exact inv_fire s h
    | configure msg can => exact inv_configureAll can msg _ s h h1

/-- C175, proved part: as long as no configure command has been refused, every channel listens at its endpoint at every moment, and
nowhere else, the control channel once the deferred actions are done. -/
theorem C175_partial (as : List Act) (hr : ∀ b ∈ (run init as).2, b = true) (c : Ch) :
    ((run init as).1.cfg c ≠ "" → (run init as).1.cfg c ∈ (run init as).1.bound c) ∧
    (c ≠ .ctrl ∨ (run init as).1.timers = [] → Spec.Right (run init as).1 c) := by
  have h := inv_run as init inv_init hr
  generalize (run init as).1 = s at h ⊢
  constructor
  · intro h0
    by_cases hc : c = .ctrl
    · subst hc; rw [h.ctrl, if_neg h0]; exact List.mem_cons_self
    · rw [h.other c hc, if_neg h0]; exact List.mem_cons_self
  · intro hh ep
    have hb : s.bound c = if s.cfg c = "" then [] else [s.cfg c] := by
      by_cases hc : c = .ctrl
      · subst hc
        rcases hh with hh | hh
        · exact absurd rfl hh
        · rw [h.ctrl, hh]; simp
      · exact h.other c hc
    rw [hb]
    by_cases h0 : s.cfg c = ""
    · rw [if_pos h0, h0]
      constructor
      · intro hx; cases hx
      · rintro ⟨h1, h2⟩; exact absurd h1 h2
    · rw [if_neg h0, List.mem_singleton]
      exact ⟨fun hx => ⟨hx, fun hy => h0 (hx ▸ hy)⟩, fun hx => hx.1⟩

/-- Non-vacuity: the control endpoint is changed twice and the first timer has fired. -/
def exRun : List Act :=
  [.configure (fun c => match c with | .ctrl => some "a" | .rx => some "b" | .ready => some "c" | .release => some "d") (fun _ => true),
   .configure (only .ctrl "e") (fun _ => true), .configure (fun c => match c with | .ctrl => some "f" | .rx => some "g" | _ => none) (fun _ => true),
   .fire]
example : (run init exRun).2 = [true, true, true, true] ∧ (run init exRun).1.bound .ctrl = ["f", "e"] ∧ (run init exRun).1.timers = ["e"] ∧
    (run init exRun).1.bound .rx = ["g"] := by decide +kernel

end Verif.RxEndpoints
