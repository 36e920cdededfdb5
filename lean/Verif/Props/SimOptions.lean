import Verif.Model.SimOptions

/-! C200: the simulator sends what its command line says. -/
namespace Verif.SimOptions
open Verif.Ipc (Str)

/-- The settings without options, from the text of the options and the headers. -/
def Usual : Name → Option Str
  | .ports => some "9999".toList
  | .frames => some "1000".toList
  | .interval => some "0.02".toList
  | .width => some "1400".toList
  | .height => some "1024".toList
  | .packetLen => some "8000".toList
  | _ => none

/-- These settings are those of this command line. -/
def Says (l : List (Name × Str)) (s : Settings) : Prop :=
  (∀ n v, (n, v) ∈ l → s n = some v) ∧ (∀ n, n ∉ l.map (·.1) → s n = Usual n)

/-- A command line of known options. -/
def known (l : List (Name × Str)) : List (Option Name × Str) := l.map (fun o => (some o.1, o.2))

/-- The full claim: what is simulated is what all of the command line says. -/
def C200_statement : Prop := ∀ (good : Name → Str → Bool) (l : List (Name × Str)) (s : Settings),
  simulate good (known l) = .ready s → Says l s

/-! ## Storing -/

theorem put_same {α : Type} (m : Name → α) (n : Name) (v : α) : put m n v n = v := by
  unfold put
  rw [if_pos rfl]

theorem put_other {α : Type} (m : Name → α) (n k : Name) (v : α) (h : k ≠ n) : put m n v k = m k := by
  unfold put
  rw [if_neg h]

/-- The entries of a line whose options are all stored. -/
theorem store_all (good : Name → Str → Bool) : ∀ (l : List (Name × Str)) (m : Vm), (l.map (·.1)).Nodup → (∀ o ∈ l, good o.1 o.2 = true ∧ m o.1 = none) →
    ∃ m', (∀ r, store good m (l ++ r) = store good m' r) ∧ (∀ n v, (n, v) ∈ l → m' n = some (some v)) ∧ (∀ n, n ∉ l.map (·.1) → m' n = m n)
  | [], m, _, _ => ⟨m, fun _ => rfl, fun _ _ h => (by cases h), fun _ _ => rfl⟩
  | o :: l, m, hn, h => by
    have hn' := List.nodup_cons.mp hn
    have ho := h o (List.mem_cons_self ..)
    have h1 : storeOne good m o = (put m o.1 (some (some o.2)), true) := by
      unfold storeOne
      rw [ho.2]
      simp only
      rw [if_pos ho.1]
    obtain ⟨m', a, b, c⟩ := store_all good l (put m o.1 (some (some o.2))) hn'.2 (fun x hx => ⟨(h x (List.mem_cons_of_mem _ hx)).1, by
      rw [put_other]
      · exact (h x (List.mem_cons_of_mem _ hx)).2
      · intro e
        have hm := List.mem_map_of_mem (f := (·.1)) hx
        rw [e] at hm
        exact hn'.1 hm⟩)
    refine ⟨m', fun r => ?_, ?_, ?_⟩
    · rw [List.cons_append]
      simp only [store, h1]
      exact a r
    · intro n v hm
      rcases List.mem_cons.mp hm with e | hm
      · rw [c n (by rw [show n = o.1 from by rw [← e]]; exact hn'.1), show n = o.1 from by rw [← e], put_same, ← e]
      · exact b n v hm
    · intro n hm
      rw [List.map_cons, List.mem_cons, not_or] at hm
      rw [c n hm.2, put_other _ _ _ _ hm.1]

theorem known_back : ∀ l : List (Name × Str), (known l).filterMap (fun o => o.1.map (fun n => (n, o.2))) = l
  | [] => rfl
  | o :: l => congrArg (o :: ·) (known_back l)

theorem parse_known (good : Name → Str → Bool) (l : List (Name × Str)) : parse good (known l) = match store good (fun _ => none) l with
    | (m, true) => defaults m
    | (m, false) => m := by
  have h1 : (known l).any (fun o => o.1.isNone) = false := by
    unfold known
    rw [List.any_map]
    exact List.any_eq_false.mpr (fun _ _ => by simp)
  unfold parse
  rw [h1, if_neg (by decide), known_back]
  rcases store good (fun _ => none) l with ⟨m, b⟩
  cases b <;> rfl

/-! ## Reading -/

theorem optional_some (m : Vm) (n : Name) (d : Option Str) (s : Settings) (h : m n ≠ some none) :
    optional m n d s = some (put s n (match m n with | some x => x | none => d)) := by
  unfold optional
  cases e : m n with
  | none => rfl
  | some x => cases x with
    | none => exact absurd e h
    | some v => rfl

theorem optional_none (m : Vm) (n : Name) (d : Option Str) (s : Settings) (h : m n = some none) : optional m n d s = none := by
  unfold optional
  rw [h]

theorem required_some (m : Vm) (n : Name) (v : Str) (s : Settings) (h : m n = some (some v)) : required m n s = some (put s n (some v)) := by
  unfold required
  rw [h]

/-- With values for the address and the ports, and no empty entry, the simulator is ready with the entries, and the usual settings else. -/
theorem setup_ready (m : Vm) (hm : ∀ n, m n ≠ some none) (i p : Str) (hi : m .destIp = some (some i)) (hp : m .ports = some (some p)) :
    ∃ s, setup m = .ready s ∧ ∀ n, s n = match m n with | some x => x | none => Usual n := by
  refine ⟨fun n => match m n with | some x => x | none => Usual n, ?_, fun _ => rfl⟩
  have hb : ∀ s, basePart m s = (optional m .frames (default .frames) s).bind (optional m .interval (default .interval)) := fun s => by
    unfold basePart
    rw [if_neg (by rw [hp]; simp)]
  unfold setup ownPart udpPart
  simp only [hb, optional_some m _ _ _ (hm _), Option.bind_some, required_some m _ _ _ hi, required_some m _ _ _ hp]
  rw [hi, if_neg (by simp)]
  congr 1
  funext n
  cases n <;> simp [put, Usual, default, hi, hp]

/-- The simulator is ready only if no entry is empty. -/
theorem ready_full (m : Vm) (s : Settings) (h : setup m = .ready s) (n : Name) : m n ≠ some none := by
  intro e
  have stop : ∀ n d (s : Settings), m n = some none → optional m n d s = none := fun n d s e => optional_none m n d s e
  have req : ∀ n (s : Settings), m n = some none → required m n s = none := fun n s e => by unfold required; rw [e]
  have pass : ∀ n d (s : Settings), optional m n d s = none ∨ ∃ s', optional m n d s = some s' := fun n d s => by
    cases optional m n d s with
    | none => exact Or.inl rfl
    | some x => exact Or.inr ⟨x, rfl⟩
  have own : m .width = some none ∨ m .height = some none ∨ m .packetLen = some none → ownPart m = none := by
    unfold ownPart
    rintro (e | e | e)
    · rw [stop _ _ _ e]; rfl
    · rcases pass .width (some "1400".toList) (fun _ => none) with h | ⟨x, h⟩
      · rw [h]; rfl
      · rw [h, Option.bind_some, stop _ _ _ e]; rfl
    · rcases pass .width (some "1400".toList) (fun _ => none) with h | ⟨x, h⟩
      · rw [h]; rfl
      · rw [h, Option.bind_some]
        cases optional m .height (some "1024".toList) x with
        | none => rfl
        | some y => rw [Option.bind_some, stop _ _ _ e]
  have udp : m .packetGap = some none ∨ m .dropFraction = some none ∨ m .dropPackets = some none ∨ m .pcapFile = some none ∨ m .destIp = some none ∨
      m .ports = some none ∨ m .ports = none → ∀ s, udpPart m s = none := by
    intro he s
    unfold udpPart
    cases h1 : optional m .packetGap none s with
    | none => rfl
    | some s1 =>
      rw [Option.bind_some]
      cases h2 : optional m .dropFraction none s1 with
      | none => rfl
      | some s2 =>
        rw [Option.bind_some]
        cases h3 : optional m .dropPackets none s2 with
        | none => rfl
        | some s3 =>
          rw [Option.bind_some]
          cases h4 : required m .destIp s3 with
          | none => rfl
          | some s4 =>
            rw [Option.bind_some]
            cases h5 : required m .ports s4 with
            | none => rfl
            | some s5 =>
              rw [Option.bind_some]
              rcases he with e | e | e | e | e | e | e
              · rw [stop _ _ _ e] at h1; cases h1
              · rw [stop _ _ _ e] at h2; cases h2
              · rw [stop _ _ _ e] at h3; cases h3
              · exact stop _ _ _ e
              · rw [req _ _ e] at h4; cases h4
              · rw [req _ _ e] at h5; cases h5
              · unfold required at h5; rw [e] at h5; cases h5
  unfold setup at h
  cases h0 : ownPart m with
  | none => rw [h0] at h; cases h
  | some s0 =>
    rw [h0, Option.bind_some] at h
    cases hb : basePart m s0 with
    | none => rw [hb] at h; cases h
    | some s1 =>
      rw [hb] at h
      simp only at h
      split at h
      · cases h
      · cases hu : udpPart m s1 with
        | none => rw [hu] at h; cases h
        | some s2 =>
          have hp : m .ports ≠ none := fun e => by
            have := udp (by simp [e]) s1
            rw [hu] at this
            cases this
          have base : m .frames = some none ∨ m .interval = some none → False := by
            intro he
            unfold basePart at hb
            rw [if_neg hp] at hb
            rcases he with e | e
            · rw [stop _ _ _ e] at hb; cases hb
            · cases h6 : optional m .frames (default .frames) s0 with
              | none => rw [h6] at hb; cases hb
              | some s6 => rw [h6, Option.bind_some, stop _ _ _ e] at hb; cases hb
          have no : (∀ s, udpPart m s = none) → False := fun hno => by
            rw [hno s1] at hu
            cases hu
          cases n with
          | ports => exact no (udp (by simp [e]))
          | frames => exact base (Or.inl e)
          | interval => exact base (Or.inr e)
          | destIp => exact no (udp (by simp [e]))
          | pcapFile => exact no (udp (by simp [e]))
          | packetGap => exact no (udp (by simp [e]))
          | dropFraction => exact no (udp (by simp [e]))
          | dropPackets => exact no (udp (by simp [e]))
          | width => rw [own (by simp [e])] at h0; cases h0
          | height => rw [own (by simp [e])] at h0; cases h0
          | packetLen => rw [own (by simp [e])] at h0; cases h0

/-! ## C200 -/

theorem usual_of_default (n : Name) (v : Str) (h : default n = some v) : Usual n = some v := by
  cases n <;> simp_all [default, Usual]

theorem entries (good : Name → Str → Bool) (l : List (Name × Str)) (hn : (l.map (·.1)).Nodup) (hg : ∀ o ∈ l, good o.1 o.2 = true) :
    ∃ m : Vm, (∀ r, store good (fun _ => none) (l ++ r) = store good m r) ∧ (∀ n v, (n, v) ∈ l → m n = some (some v)) ∧
      (∀ n, n ∉ l.map (·.1) → m n = none) ∧ ∀ n, m n ≠ some none := by
  obtain ⟨m, a, b, c⟩ := store_all good l (fun _ => none) hn (fun o ho => ⟨hg o ho, rfl⟩)
  refine ⟨m, a, b, c, fun n e => ?_⟩
  by_cases h : n ∈ l.map (·.1)
  · obtain ⟨o, ho, rfl⟩ := List.mem_map.mp h
    rw [b o.1 o.2 ho] at e
    cases e
  · rw [c n h] at e
    cases e

/-- With known options, each given once with a value that can be converted, and the address among them, the simulator is ready with the settings of the line. -/
theorem C200_partial (good : Name → Str → Bool) (l : List (Name × Str)) (hn : (l.map (·.1)).Nodup) (hg : ∀ o ∈ l, good o.1 o.2 = true)
    (i : Str) (hi : (Name.destIp, i) ∈ l) : ∃ s, simulate good (known l) = .ready s ∧ Says l s := by
  obtain ⟨m, a, b, c, d⟩ := entries good l hn hg
  have hs : store good (fun _ => none) l = (m, true) := by
    have := a []
    rw [List.append_nil] at this
    exact this
  have hp : parse good (known l) = defaults m := by rw [parse_known, hs]
  have some_of : ∀ n x, m n = some x → defaults m n = some x := fun n x e => by unfold defaults; rw [e]
  have none_of : ∀ n, m n = none → defaults m n = (default n).map some := fun n e => by unfold defaults; rw [e]
  have full : ∀ n, defaults m n ≠ some none := fun n e => by
    cases h : m n with
    | none =>
      rw [none_of n h] at e
      cases hd : default n with
      | none => rw [hd] at e; cases e
      | some v => rw [hd] at e; cases e
    | some x => rw [some_of n x h] at e; exact d n (h.trans e)
  obtain ⟨p, hports⟩ : ∃ p, defaults m .ports = some (some p) := by
    cases h : m .ports with
    | none => exact ⟨_, none_of _ h⟩
    | some x => cases x with
      | none => exact absurd h (d _)
      | some v => exact ⟨v, some_of _ _ h⟩
  obtain ⟨s, hs, hv⟩ := setup_ready (defaults m) full i p (some_of _ _ (b _ _ hi)) hports
  refine ⟨s, by unfold simulate; rw [hp]; exact hs, fun n v h => ?_, fun n h => ?_⟩
  · rw [hv n, some_of n _ (b n v h)]
  · rw [hv n, none_of n (c n h)]
    cases hd : default n with
    | none => rfl
    | some v => exact (usual_of_default n v hd).symm

/-- An option given a second time: it, and all that is behind it, is ignored, and the frames are sent if address and ports came before. -/
theorem C200_twice (good : Name → Str → Bool) (l r : List (Name × Str)) (hn : (l.map (·.1)).Nodup) (hg : ∀ o ∈ l, good o.1 o.2 = true)
    (i p : Str) (hi : (Name.destIp, i) ∈ l) (hp : (Name.ports, p) ∈ l) (o : Name × Str) (ho : o.1 ∈ l.map (·.1)) :
    ∃ s, simulate good (known (l ++ o :: r)) = .ready s ∧ Says l s := by
  obtain ⟨m, a, b, c, d⟩ := entries good l hn hg
  obtain ⟨x, hx, hxo⟩ := List.mem_map.mp ho
  have h1 : storeOne good m o = (m, false) := by
    unfold storeOne
    rw [← hxo, b x.1 x.2 hx]
  have hpm : parse good (known (l ++ o :: r)) = m := by
    rw [parse_known, a]
    simp only [store, h1]
  obtain ⟨s, hs, hv⟩ := setup_ready m d i p (b _ _ hi) (b _ _ hp)
  refine ⟨s, by unfold simulate; rw [hpm]; exact hs, fun n v h => ?_, fun n h => ?_⟩
  · rw [hv n, b n v h]
  · rw [hv n, c n h]

/-- Without the ports before the second time, the program ends with an exception. -/
theorem C200_twice_ports (good : Name → Str → Bool) (l r : List (Name × Str)) (hn : (l.map (·.1)).Nodup) (hg : ∀ o ∈ l, good o.1 o.2 = true)
    (i : Str) (hi : (Name.destIp, i) ∈ l) (hp : Name.ports ∉ l.map (·.1)) (o : Name × Str) (ho : o.1 ∈ l.map (·.1)) :
    simulate good (known (l ++ o :: r)) = .threw := by
  obtain ⟨m, a, b, c, d⟩ := entries good l hn hg
  obtain ⟨x, hx, hxo⟩ := List.mem_map.mp ho
  have h1 : storeOne good m o = (m, false) := by
    unfold storeOne
    rw [← hxo, b x.1 x.2 hx]
  have hpm : parse good (known (l ++ o :: r)) = m := by
    rw [parse_known, a]
    simp only [store, h1]
  have hr : ∀ s, required m .ports s = none := fun s => by unfold required; rw [c _ hp]
  unfold simulate
  rw [hpm]
  have hb : ∀ s, basePart m s = some s := fun s => by
    unfold basePart
    rw [if_pos (c _ hp)]
  unfold setup ownPart udpPart
  simp only [hb, optional_some m _ _ _ (d _), Option.bind_some, required_some m _ _ _ (b _ _ hi), hr, Option.bind_none]
  rw [b _ _ hi, if_neg (by simp)]

/-- A value that cannot be converted, with no option given twice: nothing is sent. -/
theorem C200_wrong (good : Name → Str → Bool) (l : List (Name × Str)) (hn : (l.map (·.1)).Nodup) (o : Name × Str) (ho : o ∈ l) (hb : good o.1 o.2 = false)
    (s : Settings) : simulate good (known l) ≠ .ready s := by
  intro h
  -- the first such value
  have first : ∀ (l : List (Name × Str)), o ∈ l → ∃ a x r, l = a ++ x :: r ∧ (∀ y ∈ a, good y.1 y.2 = true) ∧ good x.1 x.2 = false := by
    intro l
    induction l with
    | nil => intro h; cases h
    | cons y l ih =>
      intro hm
      cases hy : good y.1 y.2 with
      | false => exact ⟨[], y, l, rfl, fun _ h => (by cases h), hy⟩
      | true =>
        rcases List.mem_cons.mp hm with e | hm
        · rw [e, hy] at hb; cases hb
        · obtain ⟨a, x, r, e, h1, h2⟩ := ih hm
          refine ⟨y :: a, x, r, by rw [e]; rfl, fun z hz => ?_, h2⟩
          rcases List.mem_cons.mp hz with e | hz
          · rw [e]; exact hy
          · exact h1 z hz
  obtain ⟨a, x, r, e, h1, h2⟩ := first l ho
  rw [e, List.map_append, List.map_cons] at hn
  have hn1 := List.nodup_append.mp hn
  obtain ⟨m, ha, b, c, d⟩ := entries good a hn1.1 h1
  have hx : m x.1 = none := c x.1 (fun hm => hn1.2.2 x.1 hm x.1 (List.mem_cons_self ..) rfl)
  have hs : storeOne good m x = (put m x.1 (some none), false) := by
    unfold storeOne
    rw [hx]
    simp only
    rw [h2, if_neg (by decide)]
  have hpm : parse good (known l) = put m x.1 (some none) := by
    rw [e, parse_known, ha]
    simp only [store, hs]
  unfold simulate at h
  rw [hpm] at h
  exact ready_full _ s h x.1 (put_same ..)

/-- With an unknown option nothing is sent, and the program ends as if all had been well. -/
theorem C200_unknown (good : Name → Str → Bool) (l : List (Option Name × Str)) (v : Str) (h : (none, v) ∈ l) : simulate good l = .notReady := by
  have : parse good l = fun _ => none := by
    unfold parse
    rw [if_pos (List.any_eq_true.mpr ⟨_, h, rfl⟩)]
  unfold simulate
  rw [this]
  rfl

/-- The ports given twice, and then the number of frames: 1000 frames are sent instead of 10. -/
def twice : List (Name × Str) := [(.destIp, "127.0.0.1".toList), (.ports, "61649".toList), (.ports, "61650".toList), (.frames, "10".toList)]

theorem C200_violated : ¬ C200_statement := by
  intro h
  obtain ⟨s, hs, hl⟩ := C200_twice (fun _ _ => true) [(.destIp, "127.0.0.1".toList), (.ports, "61649".toList)] [(.frames, "10".toList)]
    (by decide) (fun _ _ => rfl) "127.0.0.1".toList "61649".toList (by simp) (by simp) (.ports, "61650".toList) (by simp)
  have h1 := (h _ twice s hs).1 .frames "10".toList (by simp [twice])
  rw [hl.2 .frames (by simp)] at h1
  exact absurd h1 (by decide)

/-! ## Cases -/

/-- Number of frames of a simulation. -/
def framesOf : Setup → Option (Option Str)
  | .ready s => some (s .frames)
  | _ => none

/-- Numbers have digits only, for the cases. -/
def digits (n : Name) (v : Str) : Bool := n != .frames || v.all Char.isDigit

example : framesOf (simulate digits (known [(.destIp, "127.0.0.1".toList), (.frames, "10".toList)])) = some (some "10".toList) ∧
    framesOf (simulate digits (known [(.destIp, "127.0.0.1".toList)])) = some (some "1000".toList) ∧
    framesOf (simulate digits (known twice)) = some (some "1000".toList) := by decide

example : framesOf (simulate digits (known [(.destIp, "127.0.0.1".toList), (.frames, "ten".toList)])) = none ∧ digits .frames "ten".toList = false := by decide

example : (twice.map (·.1)).Nodup = False := by simp [twice]

example : ([(Name.destIp, "127.0.0.1".toList), (.frames, "10".toList)].map (·.1)).Nodup ∧
    simulate digits [(some .destIp, "127.0.0.1".toList), (none, "x".toList)] = .notReady := by exact ⟨by decide, rfl⟩

end Verif.SimOptions
