import Verif.Model.FrameMeta
import Verif.Lemmas.StdMap

/-!
C164: what is asked of a frame is what was last put there, through all copies.
-/
namespace Verif.FrameMeta
open Verif.StdMap

/-! ## The specification -/

/-- The values of a new frame. -/
def new (number : Int) (dataset : String) (dtype : Nat) (acq : String) (dims : List Nat) (comp : Nat) (size : Nat) : Field → Val
  | .number => .int number
  | .dataset => .str dataset
  | .dtype => .int dtype
  | .acq => .str acq
  | .dims => .list dims
  | .comp => .int comp
  | .offset => .int 0
  | .size => .int size
  | .outer => .int 1
  | .param _ => .absent

/-- The value after a call from that before. -/
def changed : Call → Field → Val → Val
  | .number n, .number, _ => .int n
  | .dataset s, .dataset, _ => .str s
  | .dtype t, .dtype, _ => .int t
  | .acq s, .acq, _ => .str s
  | .dims l, .dims, _ => .list l
  | .comp c, .comp, _ => .int c
  | .offset n, .offset, _ => .int n
  | .adjust n, .offset, .int o => .int (o + n)
  | .param k v, .param k', x => if k' = k then .any v else x
  | .size n, .size, .int o => if o < n then .int o else .int n
  | .outer n, .outer, _ => .int n
  | _, _, x => x

/-- Fields of the meta data. -/
def Field.isMeta : Field → Bool
  | .size => false
  | .outer => false
  | _ => true

/-- What field `φ` of frame `i` should be, the last operation first; `none`: there is no such frame. -/
def truth : List Op → Nat → Field → Option Val
  | [], _, _ => none
  | .make f n d t a l c k :: h, i, φ => if i = f then some (new n d t a l c k φ) else truth h i φ
  | .empty f k :: h, i, φ => if i = f then some (new (-1) "" 0 "" [] 0 k φ) else truth h i φ
  | .eoa f :: h, i, φ => if i = f then some (new (-1) "" 0 "" [] 0 0 φ) else truth h i φ
  | .copy f g :: h, i, φ => if i = f then (truth h g φ).or (truth h f φ) else truth h i φ
  | .assign f g :: h, i, φ => if i = f then (truth h f φ).map fun v => (truth h g φ).getD v else truth h i φ
  | .info f g :: h, i, φ => if i = f ∧ φ.isMeta = true then (truth h f φ).map fun v => (truth h g φ).getD v else truth h i φ
  | .call f c :: h, i, φ => if i = f then (truth h f φ).map (changed c φ) else truth h i φ

/-- Adjusted offsets stay in 64 bits. -/
def Fits : List Op → Prop
  | [] => True
  | .call f (.adjust n) :: h => Fits h ∧ ∀ o, truth h f .offset = some (.int o) → -(2 ^ 63) ≤ o + n ∧ o + n < 2 ^ 63
  | _ :: h => Fits h

/-- The answers are right. -/
def Right (h : List Op) (s : State) (φ : Field) : Prop := ∀ i, (s i).map (fun f => f.get φ) = (truth h i φ).map some

/-- C164, full statement. -/
def C164_statement : Prop := ∀ h, Fits h → ∃ s, run (fun _ => none) h.reverse = some s ∧ ∀ φ, Right h s φ

def NoEoa (h : List Op) : Prop := ∀ f, Op.eoa f ∉ h
def NoCopies (h : List Op) : Prop := ∀ f g, Op.copy f g ∉ h ∧ Op.assign f g ∉ h
def NoSizes (h : List Op) : Prop := ∀ f n, Op.call f (.size n) ∉ h

/-! ## Proof -/

theorem run_snoc (s : State) (l : List Op) (o : Op) : run s (l ++ [o]) = (run s l).bind fun t => step t o := by
  induction l generalizing s with
  | nil =>
    show (step s o).bind _ = step s o
    cases step s o <;> rfl
  | cons p l ih =>
    show (step s p).bind _ = ((step s p).bind _).bind _
    cases step s p with
    | none => rfl
    | some t => exact ih t

/-- What every frame is like. -/
structure Sound (f : Frame) : Prop where
  number : ∃ n, f.info.number = some n
  dtype : ∃ n, f.info.dtype = some n
  comp : ∃ n, f.info.comp = some n
  offset : ∃ n, f.info.offset = some n
  outer : ∃ n, f.outer = some n
  order : Ordered f.info.params

theorem copy_sound (f : Frame) (h : Sound f) : f.info.copy = some f.info := by
  obtain ⟨⟨a, ha⟩, ⟨b, hb⟩, ⟨c, hc⟩, ⟨d, hd⟩, _, _⟩ := h
  cases hm : f.info with
  | mk n ds dt ac dm cp pr of =>
    rw [hm] at ha hb hc hd
    cases ha; cases hb; cases hc; cases hd
    rfl

/-- The invariant. -/
structure Inv (h : List Op) (s : State) : Prop where
  sound : ∀ i f, s i = some f → Sound f
  right : ∀ φ, φ ≠ .size → Right h s φ
  size : NoCopies h → Right h s .size

theorem put_hit (s : State) (f : Nat) (v : Frame) : s.put f v f = some v := by simp [State.put]
theorem put_miss (s : State) (f i : Nat) (v : Frame) (h : i ≠ f) : s.put f v i = s i := by simp [State.put, h]

/-- Whether there is such a frame. -/
theorem exists_iff (h : List Op) (s : State) (φ : Field) (hr : Right h s φ) (i : Nat) : s i = none ↔ truth h i φ = none := by
  have := hr i
  cases e : s i <;> cases e' : truth h i φ <;> simp_all

theorem get_of (h : List Op) (s : State) (φ : Field) (hr : Right h s φ) (i : Nat) (f : Frame) (e : s i = some f) : ∃ v, truth h i φ = some v ∧ f.get φ = some v := by
  have := hr i
  rw [e] at this
  cases e' : truth h i φ with
  | none => rw [e'] at this; cases this
  | some v => rw [e'] at this; exact ⟨v, rfl, by simpa using this⟩

theorem NoCopies.tail {o : Op} {h : List Op} (H : NoCopies (o :: h)) : NoCopies h :=
  fun f g => ⟨fun m => (H f g).1 (List.mem_cons_of_mem _ m), fun m => (H f g).2 (List.mem_cons_of_mem _ m)⟩

theorem new_get (n : Int) (d : String) (t : Nat) (a : String) (l : List Nat) (c k : Nat) (φ : Field) :
    Frame.get { info := Meta.make n d t a l c, data := some k, outer := some 1 } φ = some (new n d t a l c k φ) := by
  cases φ <;> rfl

theorem new_sound (n : Int) (d : String) (t : Nat) (a : String) (l : List Nat) (c : Nat) (k : Option Nat) :
    Sound { info := Meta.make n d t a l c, data := k, outer := some 1 } :=
  ⟨⟨_, rfl⟩, ⟨_, rfl⟩, ⟨_, rfl⟩, ⟨_, rfl⟩, ⟨_, rfl⟩, List.Pairwise.nil⟩

theorem sound_put (s : State) (f : Nat) (v : Frame) (hs : ∀ i g, s i = some g → Sound g) (hv : Sound v) : ∀ i g, s.put f v i = some g → Sound g := by
  intro i g e
  by_cases h : i = f
  · subst h; rw [put_hit] at e; cases e; exact hv
  · rw [put_miss s f i v h] at e; exact hs i g e

/-- One new frame, or one frame changed. -/
theorem right_put (h : List Op) (o : Op) (s : State) (f : Nat) (v : Frame) (φ : Field) (hr : Right h s φ)
    (hv : (v.get φ).map some = (truth (o :: h) f φ).map some) (ho : ∀ i, i ≠ f → truth (o :: h) i φ = truth h i φ) (hn : ∃ x, v.get φ = some x) : Right (o :: h) (s.put f v) φ := by
  intro i
  by_cases e : i = f
  · subst e
    rw [put_hit]
    obtain ⟨x, hx⟩ := hn
    rw [hx] at hv
    show some (v.get φ) = _
    rw [hx, ← hv]; rfl
  · rw [put_miss s f i v e, ho i e]; exact hr i

theorem right_same (h : List Op) (o : Op) (s : State) (φ : Field) (hr : Right h s φ) (ho : ∀ i, truth (o :: h) i φ = truth h i φ) : Right (o :: h) s φ := by
  intro i; rw [ho i]; exact hr i

/-- A frame is made. -/
theorem step_new (h : List Op) (s : State) (hi : Inv h s) (o : Op) (f : Nat) (n : Int) (d : String) (t : Nat) (a : String) (l : List Nat) (c k : Nat)
    (ho : ∀ i φ, truth (o :: h) i φ = if i = f then some (new n d t a l c k φ) else truth h i φ) :
    Inv (o :: h) (s.put f { info := Meta.make n d t a l c, data := some k, outer := some 1 }) := by
  have hr : ∀ φ, Right h s φ → Right (o :: h) (s.put f { info := Meta.make n d t a l c, data := some k, outer := some 1 }) φ := fun φ hr =>
    right_put h o s f _ φ hr (by rw [new_get, ho, if_pos rfl]) (fun i hne => by rw [ho, if_neg hne]) ⟨_, new_get n d t a l c k φ⟩
  exact ⟨sound_put s f _ hi.sound (new_sound n d t a l c (some k)), fun φ hne => hr φ (hi.right φ hne), fun hc => hr _ (hi.size hc.tail)⟩

/-- The answer to a question about the meta data. -/
theorem get_meta (f g : Frame) (φ : Field) (h : φ.isMeta = true) (e : f.info = g.info) : f.get φ = g.get φ := by
  cases φ
  all_goals first | (simp only [Frame.get, e]; done) | cases h

theorem get_outer (f g : Frame) (e : f.outer = g.outer) : f.get .outer = g.get .outer := by simp only [Frame.get, e]

theorem isMeta_of (φ : Field) (h : φ ≠ .size) : φ.isMeta = true ∨ φ = .outer := by
  cases φ
  all_goals first | (exact Or.inl rfl) | (exact Or.inr rfl) | (exact absurd rfl h)

theorem get_all (f g : Frame) (φ : Field) (h : φ ≠ .size) (e : f.info = g.info) (e' : f.outer = g.outer) : f.get φ = g.get φ := by
  rcases isMeta_of φ h with h' | rfl
  · exact get_meta f g φ h' e
  · exact get_outer f g e'

theorem step_copy (h : List Op) (s : State) (hi : Inv h s) (f g : Nat) : ∃ t, step s (.copy f g) = some t ∧ Inv (.copy f g :: h) t := by
  cases e : s g with
  | none =>
    refine ⟨s, by simp only [step, e], hi.sound, fun φ hne => right_same h _ s φ (hi.right φ hne) fun i => ?_, fun hc => absurd List.mem_cons_self (hc f g).1⟩
    show (if i = f then (truth h g φ).or (truth h f φ) else truth h i φ) = truth h i φ
    rw [(exists_iff h s φ (hi.right φ hne) g).mp e]
    split
    · next e => rw [e]; rfl
    · rfl
  | some v =>
    have hs := hi.sound g v e
    obtain ⟨x, hx⟩ := hs.outer
    refine ⟨s.put f { info := v.info, outer := some x, eoa := v.eoa }, by simp only [step, e, Frame.copy, copy_sound v hs, hx]; rfl,
      sound_put s f _ hi.sound ⟨hs.number, hs.dtype, hs.comp, hs.offset, ⟨x, rfl⟩, hs.order⟩, fun φ hne => ?_, fun hc => absurd List.mem_cons_self (hc f g).1⟩
    obtain ⟨w, h1, h2⟩ := get_of h s φ (hi.right φ hne) g v e
    have h3 : Frame.get { info := v.info, outer := some x, eoa := v.eoa } φ = some w := by
      rw [← h2]; exact get_all { info := v.info, outer := some x, eoa := v.eoa } v φ hne rfl hx.symm
    refine right_put h _ s f _ φ (hi.right φ hne) ?_ (fun i hne' => ?_) ⟨w, h3⟩
    · rw [h3]
      show _ = Option.map some (if f = f then (truth h g φ).or (truth h f φ) else truth h f φ)
      rw [if_pos rfl, h1]; rfl
    · show (if i = f then _ else truth h i φ) = _
      rw [if_neg hne']

theorem step_assign (h : List Op) (s : State) (hi : Inv h s) (f g : Nat) : ∃ t, step s (.assign f g) = some t ∧ Inv (.assign f g :: h) t := by
  have keep : (s f = none ∨ s g = none) → step s (.assign f g) = some s → ∃ t, step s (.assign f g) = some t ∧ Inv (.assign f g :: h) t := by
    intro hno e
    refine ⟨s, e, hi.sound, fun φ hne => right_same h _ s φ (hi.right φ hne) fun i => ?_, fun hc => absurd List.mem_cons_self (hc f g).2⟩
    show (if i = f then (truth h f φ).map (fun v => (truth h g φ).getD v) else truth h i φ) = truth h i φ
    split
    · next e =>
      subst e
      rcases hno with hno | hno
      · rw [(exists_iff h s φ (hi.right φ hne) i).mp hno]; rfl
      · rw [(exists_iff h s φ (hi.right φ hne) g).mp hno]; cases truth h i φ <;> rfl
    · rfl
  cases ef : s f with
  | none => exact keep (Or.inl ef) (by simp only [step, ef])
  | some u =>
    cases eg : s g with
    | none => exact keep (Or.inr eg) (by simp only [step, ef, eg])
    | some v =>
      have hs := hi.sound g v eg
      obtain ⟨x, hx⟩ := hs.outer
      refine ⟨s.put f { info := v.info, data := u.data, outer := some x, eoa := u.eoa }, by simp only [step, ef, eg, Frame.assign, copy_sound v hs, hx]; rfl,
        sound_put s f _ hi.sound ⟨hs.number, hs.dtype, hs.comp, hs.offset, ⟨x, rfl⟩, hs.order⟩, fun φ hne => ?_, fun hc => absurd List.mem_cons_self (hc f g).2⟩
      obtain ⟨w, h1, h2⟩ := get_of h s φ (hi.right φ hne) g v eg
      obtain ⟨w', h1', _⟩ := get_of h s φ (hi.right φ hne) f u ef
      have h3 : Frame.get { info := v.info, data := u.data, outer := some x, eoa := u.eoa } φ = some w := by
        rw [← h2]; exact get_all { info := v.info, data := u.data, outer := some x, eoa := u.eoa } v φ hne rfl hx.symm
      refine right_put h _ s f _ φ (hi.right φ hne) ?_ (fun i hne' => ?_) ⟨w, h3⟩
      · rw [h3]
        show _ = Option.map some (if f = f then (truth h f φ).map (fun v => (truth h g φ).getD v) else truth h f φ)
        rw [if_pos rfl, h1, h1']; rfl
      · show (if i = f then _ else truth h i φ) = _
        rw [if_neg hne']

theorem step_info (h : List Op) (s : State) (hi : Inv h s) (f g : Nat) : ∃ t, step s (.info f g) = some t ∧ Inv (.info f g :: h) t := by
  have tr : ∀ i φ, truth (.info f g :: h) i φ = if i = f ∧ φ.isMeta = true then (truth h f φ).map (fun v => (truth h g φ).getD v) else truth h i φ := fun _ _ => rfl
  have ts : ∀ i φ, φ.isMeta = false → truth (.info f g :: h) i φ = truth h i φ := by
    intro i φ hm
    rw [tr, if_neg (by rw [hm]; simp)]
  have keep : (s f = none ∨ s g = none) → step s (.info f g) = some s → ∃ t, step s (.info f g) = some t ∧ Inv (.info f g :: h) t := by
    intro hno e
    refine ⟨s, e, hi.sound, fun φ hne => right_same h _ s φ (hi.right φ hne) fun i => ?_, fun hc => right_same h _ s _ (hi.size hc.tail) fun i => ts i _ rfl⟩
    rw [tr]
    split
    · next e =>
      obtain ⟨rfl, _⟩ := e
      rcases hno with hno | hno
      · rw [(exists_iff h s φ (hi.right φ hne) i).mp hno]; rfl
      · rw [(exists_iff h s φ (hi.right φ hne) g).mp hno]; cases truth h i φ <;> rfl
    · rfl
  cases ef : s f with
  | none => exact keep (Or.inl ef) (by simp only [step, ef])
  | some u =>
    cases eg : s g with
    | none => exact keep (Or.inr eg) (by simp only [step, ef, eg])
    | some v =>
      have hs := hi.sound g v eg
      have hu := hi.sound f u ef
      have other : ∀ φ, φ.isMeta = false → Right h s φ → Right (.info f g :: h) (s.put f { info := v.info, data := u.data, outer := u.outer, eoa := u.eoa }) φ := by
        intro φ hm hr
        obtain ⟨w, h1, h2⟩ := get_of h s φ hr f u ef
        have h3 : Frame.get { info := v.info, data := u.data, outer := u.outer, eoa := u.eoa } φ = some w := by
          rw [← h2]
          cases φ
          all_goals first | rfl | cases hm
        exact right_put h _ s f _ φ hr (by rw [h3, ts f φ hm, h1]) (fun i _ => ts i φ hm) ⟨w, h3⟩
      refine ⟨s.put f { info := v.info, data := u.data, outer := u.outer, eoa := u.eoa },
        by simp only [step, ef, eg, copy_sound v hs, Option.bind_some, Option.map_some],
        sound_put s f _ hi.sound ⟨hs.number, hs.dtype, hs.comp, hs.offset, hu.outer, hs.order⟩, fun φ hne => ?_, fun hc => other _ rfl (hi.size hc.tail)⟩
      rcases isMeta_of φ hne with hm | rfl
      · obtain ⟨w, h1, h2⟩ := get_of h s φ (hi.right φ hne) g v eg
        obtain ⟨w', h1', _⟩ := get_of h s φ (hi.right φ hne) f u ef
        have h3 : Frame.get { info := v.info, data := u.data, outer := u.outer, eoa := u.eoa } φ = some w := by
          rw [← h2]; exact get_meta { info := v.info, data := u.data, outer := u.outer, eoa := u.eoa } v φ hm rfl
        refine right_put h _ s f _ φ (hi.right φ hne) ?_ (fun i hne' => ?_) ⟨w, h3⟩
        · rw [h3, tr, if_pos ⟨rfl, hm⟩, h1, h1']; rfl
        · rw [tr, if_neg fun e => hne' e.1]
      · exact other _ rfl (hi.right _ hne)

theorem fits_iff (i : Int) (h : -(2 ^ 63) ≤ i ∧ i < 2 ^ 63) : fits i = true := by
  simp only [fits, Bool.and_eq_true, decide_eq_true_eq]; exact h

/-- A call changes exactly what it should. -/
theorem call_right (u : Frame) (hu : Sound u) (c : Call) (hsz : (∃ k, u.data = some k) ∨ ∀ n, c ≠ .size n)
    (hf : ∀ n, c = .adjust n → ∀ o, u.info.offset = some o → -(2 ^ 63) ≤ o + n ∧ o + n < 2 ^ 63) :
    ∃ w, u.call c = some w ∧ Sound w ∧ ∀ φ x, u.get φ = some x → w.get φ = some (changed c φ x) := by
  obtain ⟨⟨a, ha⟩, ⟨b, hb⟩, ⟨p, hp⟩, ⟨o, ho⟩, ⟨q, hq⟩, hord⟩ := hu
  cases c with
  | size n =>
    rcases hsz with ⟨k, hk⟩ | hsz
    · refine ⟨{ u with data := some (resize k n) }, by simp only [Frame.call, hk, Option.map_some], ⟨⟨a, ha⟩, ⟨b, hb⟩, ⟨p, hp⟩, ⟨o, ho⟩, ⟨q, hq⟩, hord⟩, fun φ x hx => ?_⟩
      cases φ with
      | size =>
        simp only [Frame.get, hk, Option.map_some, Option.some.injEq] at hx
        subst hx
        simp only [Frame.get, changed, resize, Option.map_some, Option.some.injEq]
        split <;> split <;> first | rfl | omega
      | _ => exact hx
    · exact absurd rfl (hsz n)
  | adjust n =>
    have hfit := fits_iff _ (hf n rfl o ho)
    refine ⟨{ u with info := { u.info with offset := some (o + n) } }, by simp only [Frame.call, Meta.call, ho, Option.bind_some, hfit, if_true, Option.map_some],
      ⟨⟨a, ha⟩, ⟨b, hb⟩, ⟨p, hp⟩, ⟨_, rfl⟩, ⟨q, hq⟩, hord⟩, fun φ x hx => ?_⟩
    cases φ with
    | offset =>
      simp only [Frame.get, ho, Option.map_some, Option.some.injEq] at hx
      subst hx; rfl
    | _ => exact hx
  | param k v =>
    refine ⟨{ u with info := { u.info with params := set u.info.params k v } }, rfl,
      ⟨⟨a, ha⟩, ⟨b, hb⟩, ⟨p, hp⟩, ⟨o, ho⟩, ⟨q, hq⟩, ordered_set _ k v hord⟩, fun φ x hx => ?_⟩
    cases φ with
    | param k' =>
      simp only [Frame.get, Option.some.injEq] at hx
      simp only [Frame.get, changed, find_set _ _ _ _ hord]
      by_cases e : k' = k
      · simp [e]
      · rw [if_neg (fun h => e h.symm), if_neg e, hx]
    | _ => exact hx
  | number n => refine ⟨_, rfl, ⟨⟨_, rfl⟩, ⟨b, hb⟩, ⟨p, hp⟩, ⟨o, ho⟩, ⟨q, hq⟩, hord⟩, fun φ x hx => ?_⟩; cases φ <;> first | rfl | exact hx
  | dataset n => refine ⟨_, rfl, ⟨⟨a, ha⟩, ⟨b, hb⟩, ⟨p, hp⟩, ⟨o, ho⟩, ⟨q, hq⟩, hord⟩, fun φ x hx => ?_⟩; cases φ <;> first | rfl | exact hx
  | dtype n => refine ⟨_, rfl, ⟨⟨a, ha⟩, ⟨_, rfl⟩, ⟨p, hp⟩, ⟨o, ho⟩, ⟨q, hq⟩, hord⟩, fun φ x hx => ?_⟩; cases φ <;> first | rfl | exact hx
  | acq n => refine ⟨_, rfl, ⟨⟨a, ha⟩, ⟨b, hb⟩, ⟨p, hp⟩, ⟨o, ho⟩, ⟨q, hq⟩, hord⟩, fun φ x hx => ?_⟩; cases φ <;> first | rfl | exact hx
  | dims n => refine ⟨_, rfl, ⟨⟨a, ha⟩, ⟨b, hb⟩, ⟨p, hp⟩, ⟨o, ho⟩, ⟨q, hq⟩, hord⟩, fun φ x hx => ?_⟩; cases φ <;> first | rfl | exact hx
  | comp n => refine ⟨_, rfl, ⟨⟨a, ha⟩, ⟨b, hb⟩, ⟨_, rfl⟩, ⟨o, ho⟩, ⟨q, hq⟩, hord⟩, fun φ x hx => ?_⟩; cases φ <;> first | rfl | exact hx
  | offset n => refine ⟨_, rfl, ⟨⟨a, ha⟩, ⟨b, hb⟩, ⟨p, hp⟩, ⟨_, rfl⟩, ⟨q, hq⟩, hord⟩, fun φ x hx => ?_⟩; cases φ <;> first | rfl | exact hx
  | outer n => refine ⟨_, rfl, ⟨⟨a, ha⟩, ⟨b, hb⟩, ⟨p, hp⟩, ⟨o, ho⟩, ⟨_, rfl⟩, hord⟩, fun φ x hx => ?_⟩; cases φ <;> first | rfl | exact hx

theorem step_call (h : List Op) (s : State) (hi : Inv h s) (f : Nat) (c : Call) (hz : NoCopies h ∨ ∀ n, c ≠ .size n) (hf : Fits (.call f c :: h)) :
    ∃ t, step s (.call f c) = some t ∧ Inv (.call f c :: h) t := by
  have tr : ∀ i φ, truth (.call f c :: h) i φ = if i = f then (truth h f φ).map (changed c φ) else truth h i φ := fun _ _ => rfl
  cases e : s f with
  | none =>
    refine ⟨s, by simp only [step, e], hi.sound, fun φ hne => right_same h _ s φ (hi.right φ hne) fun i => ?_, fun hc => right_same h _ s _ (hi.size hc.tail) fun i => ?_⟩
    · rw [tr]
      split
      · next e' => rw [e', (exists_iff h s φ (hi.right φ hne) f).mp e]; rfl
      · rfl
    · rw [tr]
      split
      · next e' => rw [e', (exists_iff h s _ (hi.size hc.tail) f).mp e]; rfl
      · rfl
  | some u =>
    have hs := hi.sound f u e
    obtain ⟨w, h1, h2, h3⟩ := call_right u hs c
      (hz.imp (fun hz => by
        obtain ⟨v, _, g⟩ := get_of h s _ (hi.size hz) f u e
        cases hd : u.data with
        | none => simp [Frame.get, hd] at g
        | some k => exact ⟨k, rfl⟩) id)
      (by
        rintro n rfl o ho
        obtain ⟨v, g1, g2⟩ := get_of h s .offset (hi.right _ (by simp)) f u e
        simp only [Frame.get, ho, Option.map_some, Option.some.injEq] at g2
        exact hf.2 o (by rw [g1, ← g2]))
    have hr : ∀ φ, Right h s φ → Right (.call f c :: h) (s.put f w) φ := by
      intro φ hr
      obtain ⟨x, g1, g2⟩ := get_of h s φ hr f u e
      exact right_put h _ s f w φ hr (by rw [h3 φ x g2, tr, if_pos rfl, g1]; rfl) (fun i hne => by rw [tr, if_neg hne]) ⟨_, h3 φ x g2⟩
    exact ⟨s.put f w, by simp only [step, e, h1, Option.map_some], sound_put s f w hi.sound h2, fun φ hne => hr φ (hi.right φ hne), fun hc => hr _ (hi.size hc.tail)⟩

theorem Fits.tail {o : Op} {h : List Op} (H : Fits (o :: h)) : Fits h := by
  cases o with
  | call f c => cases c <;> first | exact H | exact H.1
  | _ => exact H

theorem inv_run (h : List Op) (hf : Fits h) (he : NoEoa h) (hz : NoCopies h ∨ NoSizes h) : ∃ s, run (fun _ => none) h.reverse = some s ∧ Inv h s := by
  induction h with
  | nil =>
    exact ⟨_, rfl, fun _ _ e => (by cases e), fun _ _ _ => rfl, fun _ _ => rfl⟩
  | cons o h ih =>
    obtain ⟨s, hs, hi⟩ := ih hf.tail (fun f m => he f (List.mem_cons_of_mem _ m)) (hz.imp NoCopies.tail fun g f n m => g f n (List.mem_cons_of_mem _ m))
    have hstep : ∃ t, step s o = some t ∧ Inv (o :: h) t := by
      cases o with
      | make f n d t a l c k => exact ⟨_, rfl, step_new h s hi _ f n d t a l c k fun _ _ => rfl⟩
      | empty f k => exact ⟨_, rfl, step_new h s hi _ f (-1) "" 0 "" [] 0 k fun _ _ => rfl⟩
      | eoa f => exact absurd List.mem_cons_self (he f)
      | copy f g => exact step_copy h s hi f g
      | assign f g => exact step_assign h s hi f g
      | info f g => exact step_info h s hi f g
      | call f c =>
        exact step_call h s hi f c (hz.imp NoCopies.tail fun g n e => (by subst e; exact g f n List.mem_cons_self)) hf
    obtain ⟨t, ht, hi'⟩ := hstep
    exact ⟨t, by rw [List.reverse_cons, run_snoc, hs]; exact ht, hi'⟩

/-- C164, what holds: without frames for the end of an acquisition every answer but the size of the data is right, through all copies; the size is right as
long as no frame is copied as a whole. The size of a frame that was copied must not be set either. -/
theorem C164_partial (h : List Op) (hf : Fits h) (he : NoEoa h) (hz : NoCopies h ∨ NoSizes h) :
    ∃ s, run (fun _ => none) h.reverse = some s ∧ (∀ φ, φ ≠ .size → Right h s φ) ∧ (NoCopies h → Right h s .size) := by
  obtain ⟨s, h1, h2⟩ := inv_run h hf he hz
  exact ⟨s, h1, h2.right, h2.size⟩

/-- C164, parameters: a parameter is given as the type it was set with, and as no other; and there is one exactly if one was set. -/
theorem C164_param (h : List Op) (hf : Fits h) (he : NoEoa h) (hz : NoCopies h ∨ NoSizes h) :
    ∃ s, run (fun _ => none) h.reverse = some s ∧ ∀ i f, s i = some f → ∀ k ty v,
      (f.getParam k ty = some v ↔ truth h i (.param k) = some (.any ⟨ty, v⟩)) ∧ (f.hasParam k = true ↔ truth h i (.param k) ≠ some .absent) := by
  obtain ⟨s, h1, h2⟩ := inv_run h hf he hz
  refine ⟨s, h1, fun i f e k ty v => ?_⟩
  obtain ⟨x, g1, g2⟩ := get_of h s (.param k) (h2.right _ (by simp)) i f e
  rw [g1]
  simp only [Frame.get, Option.some.injEq] at g2
  subst g2
  unfold Frame.getParam Frame.hasParam
  cases find f.info.params k with
  | none => simp
  | some a =>
    cases a with
    | mk t' v' => by_cases ht : t' = ty <;> simp [ht]

/-- C164, validity: a frame is valid exactly if its data type and its compression are known. -/
theorem C164_valid (h : List Op) (hf : Fits h) (he : NoEoa h) (hz : NoCopies h ∨ NoSizes h) :
    ∃ s, run (fun _ => none) h.reverse = some s ∧ ∀ i f, s i = some f → ∃ t c, truth h i .dtype = some (.int t) ∧ truth h i .comp = some (.int c) ∧
      f.isValid = some (decide (t ≠ 0 ∧ c ≠ 0)) := by
  obtain ⟨s, h1, h2⟩ := inv_run h hf he hz
  refine ⟨s, h1, fun i f e => ?_⟩
  obtain ⟨⟨t, ht⟩, ⟨c, hc⟩⟩ := And.intro (h2.sound i f e).dtype (h2.sound i f e).comp
  obtain ⟨x, g1, g2⟩ := get_of h s .dtype (h2.right _ (by simp)) i f e
  obtain ⟨y, k1, k2⟩ := get_of h s .comp (h2.right _ (by simp)) i f e
  simp only [Frame.get, ht, hc, Option.map_some, Option.some.injEq] at g2 k2
  refine ⟨t, c, by rw [g1, g2], by rw [k1, k2], ?_⟩
  simp only [Frame.isValid, ht, hc, Option.bind_some, Option.map_some, rawUnknown, unknownCompression]
  by_cases a : t = 0
  · simp [a]
  · by_cases b : c = 0 <;> simp [a, b]

/-- Non-vacuity: the meta data of one frame go to another, are changed there, and the first one keeps its own. -/
def copied : List Op := [.call 1 (.adjust (-3)), .call 1 (.param "x" ⟨"float", 5⟩), .info 1 0, .call 0 (.offset 7), .call 0 (.param "x" ⟨"int", 2⟩), .empty 1 10,
  .make 0 4 "data" 2 "a" [3, 3] 1 18]

example : Fits copied ∧ NoEoa copied ∧ NoCopies copied ∧ truth copied 1 .offset = some (.int 4) ∧ truth copied 0 .offset = some (.int 7) ∧
    truth copied 1 (.param "x") = some (.any ⟨"float", 5⟩) ∧ truth copied 0 (.param "x") = some (.any ⟨"int", 2⟩) ∧
    truth copied 1 .size = some (.int 10) ∧ truth copied 1 .number = some (.int 4) := by
  refine ⟨⟨trivial, fun o h => ?_⟩, fun f => by simp [copied], fun f g => by simp [copied], by decide, by decide, by decide, by decide, by decide, by decide⟩
  have : truth (copied.tail) 1 .offset = some (.int 7) := by decide
  have h' : truth (copied.tail) 1 .offset = some (.int o) := h
  rw [this] at h'
  cases h'
  decide

/-! ## What does not hold -/

/-- A frame for the end of an acquisition takes its meta data from itself, before they are there. -/
theorem C164_eoa : run (fun _ => none) [.eoa 0] = none := rfl

/-- The copy of a frame has no size. -/
theorem C164_copy (n : Int) (d : String) (t : Nat) (a : String) (l : List Nat) (c k : Nat) :
    ∃ s f, run (fun _ => none) [.make 0 n d t a l c k, .copy 1 0] = some s ∧ s 1 = some f ∧ f.get .size = none := ⟨_, _, rfl, rfl, rfl⟩

/-- After an assignment the size is still the old one. -/
theorem C164_assign : ∃ s f, run (fun _ => none) [.empty 0 10, .empty 1 20, .assign 0 1] = some s ∧ s 0 = some f ∧ f.get .size = some (.int 10) ∧
    truth [.assign 0 1, .empty 1 20, .empty 0 10] 0 .size = some (.int 20) := ⟨_, _, rfl, rfl, rfl, rfl⟩

theorem C164_violated : ¬ C164_statement := by
  intro h
  obtain ⟨s, h1, _⟩ := h [.eoa 0] trivial
  cases h1

end Verif.FrameMeta
