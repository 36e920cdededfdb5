import Verif.Model.Notices
import Verif.Props.NameMaps

/-!
C162: no message between receiver and processor ends one of them.
-/
namespace Verif.Notices

open Verif.Ipc

/-- Both programs before the first configuration. -/
def start : St := { buffers := 0, queue := [], names := fun _ => none }

/-- C162, full statement: whatever texts arrive on the two channels, and whatever memory the receiver is configured with in between. -/
def C162_statement : Prop := ∀ (T : Times) (l : List Ev), (run T start l).rxEnded = false ∧ (run T start l).procEnded = false

/-! ## What the messages say -/

/-- The members of a notification with this value. -/
def Notice (l : List (Str × Json)) (v : String) : Prop :=
  findM l "msg_type".toList = some (.str "notify".toList) ∧ findM l "msg_val".toList = some (.str v.toList)

/-- The buffer of a notification, if it is a number with 32 bits, is one of the first `n`, or -1. -/
def SaneBuffer (n : Nat) (v : String) (j : Option Json) : Prop :=
  ∀ l p i, j = some (.obj l) → Notice l v → findM l "params".toList = some (.obj p) → findM p "buffer_id".toList = some (.num i) →
    -2147483648 ≤ i → i < 2147483648 → i = -1 ∨ (0 ≤ i ∧ i < n)

/-- The shared memory of a notification exists. -/
def SaneName (names : Str → Option Nat) (j : Option Json) : Prop :=
  ∀ l p k, j = some (.obj l) → Notice l "buffer_config" → findM l "params".toList = some (.obj p) → findM p "shared_buffer_name".toList = some (.str k) →
    names k ≠ none

/-- What one side sends fits to what the other one has. -/
def Sane (s : St) : Ev → Prop
  | .release _ j => SaneBuffer s.buffers "frame_release" j
  | .packet => True
  | .ready j => (∀ n, s.proc = some n → SaneBuffer n "frame_ready" j) ∧ SaneName s.names j
  | .remake _ _ => True

def AllSane (T : Times) : St → List Ev → Prop
  | _, [] => True
  | s, e :: l => Sane s e ∧ AllSane T (step T s e) l

/-! ## Proofs -/

theorem type_name (s : Str) (h : typeOf s = .notify) : s = "notify".toList := by
  rw [typeOf] at h
  cases hl : left (bimap typeMap) s with
  | none => rw [hl] at h; cases h
  | some t =>
    rw [hl] at h
    have ht : t = .notify := h
    subst ht
    have := NameMaps.left_mem _ _ _ hl
    rw [show bimap typeMap = [("cmd".toList, .cmd), ("ack".toList, .ack), ("nack".toList, .nack), ("notify".toList, .notify)] by decide] at this
    simp only [List.mem_cons, Prod.mk.injEq, List.not_mem_nil, or_false, reduceCtorEq, and_false, false_or, and_true] at this
    exact this

theorem bimap_val : bimap valMap = valMap.map fun e => (e.1.toList, e.2) := by decide

theorem val_name (s : Str) (v : MsgVal) (k : String) (hk : (k, v) ∈ valMap) (hv : v ≠ .illegal) (h : valOf s = v) : s = k.toList := by
  rw [valOf] at h
  cases hl : left (bimap valMap) s with
  | none => rw [hl] at h; exact absurd h.symm hv
  | some t =>
    rw [hl] at h
    have ht : t = v := h
    subst ht
    have hm := NameMaps.left_mem _ _ _ hl
    rw [bimap_val, List.mem_map] at hm
    obtain ⟨e, he, heq⟩ := hm
    have h1 : e.1.toList = s := congrArg Prod.fst heq
    have h2 : e.2 = t := congrArg Prod.snd heq
    obtain ⟨i, hi⟩ := List.getElem?_of_mem he
    obtain ⟨j, hj⟩ := List.getElem?_of_mem hk
    have hd := NameMaps.distinct_of valMap (by decide) i j e (k, t) hi hj (Or.inr h2)
    subst hd
    rw [hi] at hj
    cases hj
    exact h1.symm

theorem strAttr_str (l : List (Str × Json)) (k s : Str) (hs : s ≠ "none".toList) (h : strAttr l k = some s) : findM l k = some (.str s) := by
  rw [strAttr] at h
  split at h
  · cases h; exact absurd rfl hs
  · next e => cases h; exact e
  · cases h

/-- A message that is taken. -/
theorem message_ok (T : Times) (j : Option Json) (m : Msg) (h : message T j = .ok m) :
    ∃ l p, j = some (.obj l) ∧ m.doc = l ∧ findM l "params".toList = some (.obj p) ∧
      ∃ t v, strAttr l "msg_type".toList = some t ∧ strAttr l "msg_val".toList = some v ∧ m.type = typeOf t ∧ m.val = valOf v := by
  rw [message.eq_def] at h
  cases j with
  | none => cases h
  | some d =>
    simp only at h
    cases hd : decode T true d with
    | none => rw [hd] at h; cases h
    | some m' =>
      rw [hd] at h
      cases h
      cases d with
      | obj l =>
        simp only [decode] at hd
        split at hd
        · next t v time h1 h2 h3 =>
          split at hd
          · cases hd
          · next hn =>
            cases hd
            have hp : hasParams l = true := by
              cases hh : hasParams l with
              | true => rfl
              | false => exact absurd ⟨trivial, Or.inr (Or.inr (Or.inr (Or.inr hh)))⟩ hn
            rw [hasParams] at hp
            split at hp
            · next p hp' => exact ⟨l, p, rfl, rfl, hp', t, v, h1, h2, rfl, rfl⟩
            · cases hp
        · cases hd
      | _ => cases hd

/-- A notification that is taken. -/
theorem notice_of (l : List (Str × Json)) (t v : Str) (k : String) (val : MsgVal) (hk : (k, val) ∈ valMap) (hv : val ≠ .illegal) (hn : k ≠ "none")
    (h1 : strAttr l "msg_type".toList = some t) (h2 : strAttr l "msg_val".toList = some v) (h3 : typeOf t = .notify) (h4 : valOf v = val) :
    Notice l k := by
  have e1 := type_name t h3
  have e2 := val_name v val k hk hv h4
  subst e1; subst e2
  refine ⟨strAttr_str l _ _ (by decide) h1, strAttr_str l _ _ ?_ h2⟩
  intro e
  exact hn (String.toList_inj.mp e)

/-- A number read from a message. -/
theorem intParam_num (m : Msg) (p : List (Str × Json)) (name : String) (d i : Int) (hp : m.params = some (.obj p)) (h : intParam m name d = some i) :
    i = d ∨ (findM p name.toList = some (.num i) ∧ -2147483648 ≤ i ∧ i < 2147483648) := by
  rw [intParam, hp] at h
  simp only [getParamOr] at h
  cases hf : findM p name.toList with
  | none => rw [hf] at h; cases h; exact Or.inl rfl
  | some v =>
    rw [hf] at h
    simp only at h
    cases v with
    | num k =>
      simp only [Json.asInt] at h
      split at h
      · next hr => cases h; exact Or.inr ⟨rfl, hr.1, hr.2⟩
      · cases h
    | _ => cases h

theorem addressable_iff (n : Nat) (i : Int) : addressable n i = true ↔ 0 ≤ i ∧ i < n := by simp [addressable]

/-- Nothing has ended and all empty buffers exist. -/
def Fine (s : St) : Prop := s.rxEnded = false ∧ s.procEnded = false ∧ ∀ i, i ∈ s.queue → 0 ≤ i ∧ i < s.buffers

theorem released_sane (T : Times) (j : Option Json) (n : Nat) (hs : SaneBuffer n "frame_release" j) :
    released T j ≠ .ends ∧ ∀ i, released T j = .ok i → 0 ≤ i ∧ i < n := by
  rw [released]
  cases hm : message T j with
  | refused => exact ⟨by simp, by simp⟩
  | ends =>
    exfalso
    rw [message.eq_def] at hm
    split at hm
    · cases hm
    · split at hm <;> cases hm
  | ok m =>
    simp only
    split
    · next hc =>
      cases hi : intParam m "buffer_id" (-1) with
      | none => exact ⟨by simp, by simp⟩
      | some i =>
        simp only
        by_cases h1 : i = -1
        · rw [if_pos h1]; exact ⟨by simp, by simp⟩
        · rw [if_neg h1]
          refine ⟨by simp, fun i' e => ?_⟩
          have e' : i = i' := by injection e
          subst e'
          obtain ⟨l, p, hj, hd, hp, t, v, ht, hv, h3, h4⟩ := message_ok T j m hm
          have hpar : m.params = some (.obj p) := by rw [Msg.params, hd]; exact hp
          rcases intParam_num m p "buffer_id" (-1) i hpar hi with h | ⟨h5, h6, h7⟩
          · exact absurd h h1
          · have hN := notice_of l t v "frame_release" .frameRelease (by decide) (by decide) (by decide) ht hv (h3 ▸ hc.1) (h4 ▸ hc.2)
            rcases hs l p i hj hN hp h5 h6 h7 with h | h
            · exact absurd h h1
            · exact h
    · exact ⟨by simp, by simp⟩

theorem release_fine (T : Times) (b : Bool) (j : Option Json) (s : St) (h : Fine s) (hs : SaneBuffer s.buffers "frame_release" j) :
    Fine (onRelease T b j s) := by
  obtain ⟨h1, h2⟩ := released_sane T j s.buffers hs
  rw [onRelease]
  split
  · split
    · next i hi =>
      refine ⟨h.1, h.2.1, fun k hk => ?_⟩
      rcases List.mem_append.mp hk with hk | hk
      · exact h.2.2 k hk
      · rw [List.mem_singleton.mp hk]; exact h2 i hi
    · exact h
    · next he => exact absurd he h1
  · exact h

theorem packet_fine (s : St) (h : Fine s) : Fine (onPacket s) := by
  rw [onPacket]
  split
  · exact h
  · next i q hq =>
    have := h.2.2 i (by rw [hq]; exact List.mem_cons_self)
    rw [if_pos ((addressable_iff _ _).mpr this)]
    exact ⟨h.1, h.2.1, fun k hk => h.2.2 k (by rw [hq]; exact List.mem_cons_of_mem _ hk)⟩

theorem remade_fine (name : Str) (n : Nat) (s : St) (h : Fine s) : Fine (remade name n s) := by
  refine ⟨h.1, h.2.1, fun i hi => ?_⟩
  simp only [remade, precharged, List.mem_map, List.mem_range] at hi
  obtain ⟨k, hk, rfl⟩ := hi
  exact ⟨Int.natCast_nonneg k, Int.ofNat_lt.mpr hk⟩

theorem ready_fine (T : Times) (j : Option Json) (s : St) (h : Fine s) (hs : Sane s (.ready j)) : Fine (onReady T j s) := by
  rw [onReady]
  split
  · next m hm =>
    obtain ⟨l, p, hj, hd, hp, t, v, ht, hv, h3, h4⟩ := message_ok T j m hm
    have hpar : m.params = some (.obj p) := by rw [Msg.params, hd]; exact hp
    split
    · next hc =>
      have hN := notice_of l t v "frame_ready" .frameReady (by decide) (by decide) (by decide) ht hv (h3 ▸ hc.1) (h4 ▸ hc.2)
      rw [readyFrame]
      split
      · exact h
      · next i hi =>
        split
        · exact h
        · next h1 =>
          split
          · exact h
          · next n hn =>
            split
            · exact h
            · rcases intParam_num m p "buffer_id" (-1) i hpar hi with h5 | ⟨h5, h6, h7⟩
              · exact absurd h5 h1
              · rcases hs.1 n hn l p i hj hN hp h5 h6 h7 with h8 | h8
                · exact absurd h8 h1
                · rw [if_pos ((addressable_iff _ _).mpr h8)]; exact h
    · split
      · next hc =>
        have hN := notice_of l t v "buffer_config" .bufferConfig (by decide) (by decide) (by decide) ht hv (h3 ▸ hc.1) (h4 ▸ hc.2)
        rw [bufferConfig]
        split
        · exact h
        · next name hname =>
          have hf : findM p "shared_buffer_name".toList = some (.str name) := by
            rw [hpar, getParam] at hname
            rw [show splitAll "shared_buffer_name".toList = ["shared_buffer_name".toList] by decide +kernel] at hname
            simp only [Option.bind_some, Ipc.get] at hname
            cases hx : findM p "shared_buffer_name".toList with
            | none => rw [hx] at hname; cases hname
            | some x =>
              rw [hx] at hname
              simp only [Option.bind_some] at hname
              cases x with
              | str s => cases hname; rfl
              | _ => cases hname
          split
          · exact h
          · next hno => exact absurd hno (hs.2 l p name hj hN hp hf)
      · exact h
  · exact h

theorem step_fine (T : Times) (s : St) (e : Ev) (h : Fine s) (hs : Sane s e) : Fine (step T s e) := by
  cases e with
  | release b j => exact release_fine T b j s h hs
  | packet => exact packet_fine s h
  | ready j => exact ready_fine T j s h hs
  | remake name n => exact remade_fine name n s h

theorem run_fine (T : Times) (l : List Ev) : ∀ s, Fine s → AllSane T s l → Fine (run T s l) := by
  induction l with
  | nil => intro s h _; exact h
  | cons e l ih =>
    intro s h hs
    exact ih _ (step_fine T s e h hs.1) hs.2

/-- C162, what holds: if the numbers of buffers and the names of shared memory in the notifications fit to what the one that gets them has, then no
text ends a program, whatever else it holds. -/
theorem C162_partial (T : Times) (l : List Ev) (h : AllSane T start l) : (run T start l).rxEnded = false ∧ (run T start l).procEnded = false :=
  have := run_fine T l start ⟨rfl, rfl, fun i hi => by cases hi⟩ h
  ⟨this.1, this.2.1⟩

/-! ## What ends a program -/

/-- Packets until the buffer in question is taken. -/
theorem packets_end (T : Times) (q : List Int) : ∀ (s : St) (i : Int) (r : List Int), s.queue = q ++ i :: r → ¬ (0 ≤ i ∧ i < s.buffers) →
    (run T s (List.replicate (q.length + 1) .packet)).rxEnded = true := by
  have keep : ∀ (n : Nat) (s : St), s.rxEnded = true → (run T s (List.replicate n .packet)).rxEnded = true := by
    intro n
    induction n with
    | zero => intro s h; exact h
    | succ n ih =>
      intro s h
      rw [List.replicate_succ, run, List.foldl_cons]
      refine ih _ ?_
      rw [step, onPacket]
      split
      · exact h
      · split
        · exact h
        · rfl
  induction q with
  | nil =>
    intro s i r hq hi
    rw [List.nil_append] at hq
    simp only [List.length_nil, Nat.zero_add, List.replicate_one, run, List.foldl_cons, List.foldl_nil, step]
    rw [onPacket, hq]
    simp only
    rw [if_neg (fun h => hi ((addressable_iff _ _).mp h))]
  | cons k q ih =>
    intro s i r hq hi
    rw [List.cons_append] at hq
    rw [List.length_cons, List.replicate_succ, run, List.foldl_cons, step]
    have hp : onPacket s = if addressable s.buffers k then { s with queue := q ++ i :: r } else { s with queue := q ++ i :: r, rxEnded := true } := by
      rw [onPacket, hq]
    rw [hp]
    split
    · exact ih { s with queue := q ++ i :: r } i r rfl hi
    · exact keep _ _ rfl

/-- Without the log of level 2 the controller looks at type and value only; with it, what it logs has to be there as well. -/
theorem C162_passes (T : Times) (j : Option Json) (m : Msg) (h : message T j = .ok m) :
    (passesOn T false j = true ↔ m.type = .notify ∧ m.val = .frameRelease) ∧
    (passesOn T true j = true ↔ (m.type = .notify ∧ m.val = .frameRelease) ∧ intParam m "frame" (-1) ≠ none ∧ intParam m "buffer_id" (-1) ≠ none) := by
  have e : ∀ b, passesOn T b j = (decide (m.type = .notify) && decide (m.val = .frameRelease) && logs b m) := fun b => by
    unfold passesOn
    rw [h]
  rw [e, e]
  unfold logs
  constructor
  · simp
  · simp only [Bool.not_true, Bool.false_or, Bool.and_eq_true, decide_eq_true_eq, Option.isSome_iff_ne_none]

/-- Every release of a buffer that is not there ends the receiver, when the buffers before it have been used. -/
theorem C162_release (T : Times) (s : St) (j : Option Json) (i : Int) (hr : released T j = .ok i) (hp : passesOn T false j = true)
    (hi : ¬ (0 ≤ i ∧ i < s.buffers)) :
    (run T s (.release false j :: List.replicate (s.queue.length + 1) .packet)).rxEnded = true := by
  rw [run, List.foldl_cons]
  have hs : step T s (.release false j) = { s with queue := s.queue ++ [i] } := by
    rw [step, onRelease, if_pos hp, hr]
  rw [hs]
  exact packets_end T s.queue { s with queue := s.queue ++ [i] } i [] rfl hi

/-- A clock, for the examples. -/
def clock : Times := ⟨fun _ => [], fun _ => some 0⟩

/-- The members of a notification. -/
def members (v : String) (p : List (Str × Json)) : List (Str × Json) :=
  [("msg_type".toList, .str "notify".toList), ("msg_val".toList, .str v.toList), ("id".toList, .num 0), ("timestamp".toList, .str "now".toList),
    ("params".toList, .obj p)]

/-- A notification. -/
def notice (v : String) (p : List (Str × Json)) : Option Json := some (.obj (members v p))

theorem find_hit (k : Str) (v : Json) (l : List (Str × Json)) : findM ((k, v) :: l) k = some v := if_pos rfl

theorem find_miss (n k : Str) (v : Json) (l : List (Str × Json)) (h : n ≠ k) : findM ((n, v) :: l) k = findM l k := if_neg h

theorem find_val (v : String) (p : List (Str × Json)) : findM (members v p) "msg_val".toList = some (.str v.toList) := by
  rw [members, find_miss _ _ _ _ (by decide), find_hit]

theorem find_params (v : String) (p : List (Str × Json)) : findM (members v p) "params".toList = some (.obj p) := by
  rw [members, find_miss _ _ _ _ (by decide), find_miss _ _ _ _ (by decide), find_miss _ _ _ _ (by decide), find_miss _ _ _ _ (by decide), find_hit]

/-- A processor still has the third of three buffers when the receiver is configured with two; then it releases it. -/
def late : List Ev :=
  [.remake "shm".toList 3, .ready (notice "buffer_config" [("shared_buffer_name".toList, .str "shm".toList)]), .packet, .packet, .packet,
   .ready (notice "frame_ready" [("frame".toList, .num 2), ("buffer_id".toList, .num 2)]), .remake "shm".toList 2,
   .release false (notice "frame_release" [("frame".toList, .num 2), ("buffer_id".toList, .num 2)]), .packet, .packet, .packet]

theorem C162_late : (run clock start (late.take 8)).frames = [2] ∧ (run clock start (late.take 8)).rxEnded = false ∧ (run clock start late).rxEnded = true := by
  decide +kernel

theorem C162_violated : ¬ C162_statement := by
  intro h
  have h1 := (h clock late).1
  rw [C162_late.2.2] at h1
  cases h1

/-- So does the announcement of a frame in memory that the processor has not mapped yet, and of memory that is not there any longer. -/
theorem C162_processor :
    (run clock start [.remake "shm".toList 2, .ready (notice "buffer_config" [("shared_buffer_name".toList, .str "shm".toList)]), .remake "shm".toList 3,
      .packet, .packet, .packet, .ready (notice "frame_ready" [("frame".toList, .num 2), ("buffer_id".toList, .num 2)])]).procEnded = true ∧
    (run clock start [.ready (notice "buffer_config" [("shared_buffer_name".toList, .str "shm".toList)])]).procEnded = true := by
  decide +kernel

/-- Non-vacuity: texts that are not what is expected, which all are sane, and one that is released. -/
example : AllSane clock start [.remake "shm".toList 2, .packet, .release true none, .release false (some (.str "x".toList)), .ready (notice "frame_ready" []),
    .release true (notice "frame_release" [("buffer_id".toList, .num 1)])] ∧
    (run clock start [.remake "shm".toList 2, .packet, .release true none, .release false (some (.str "x".toList)), .ready (notice "frame_ready" []),
      .release true (notice "frame_release" [("buffer_id".toList, .num 1)])]).queue = [1, 1] := by
  refine ⟨⟨trivial, trivial, ?_, ?_, ?_, ?_, trivial⟩, by decide +kernel⟩
  · intro l p i h; cases h
  · intro l p i h; cases h
  · refine ⟨fun n h => (by cases h), fun l p k h h2 => ?_⟩
    have h' := Json.obj.inj (Option.some.inj h)
    rw [← h'] at h2
    have := h2.2
    rw [find_val] at this
    exact absurd (Json.str.inj (Option.some.inj this)) (by decide)
  · intro l p i h _ h3 h4 _ _
    have h' := Json.obj.inj (Option.some.inj h)
    rw [← h', find_params] at h3
    rw [← Json.obj.inj (Option.some.inj h3)] at h4
    rw [find_hit] at h4
    have := Json.num.inj (Option.some.inj h4)
    right
    rw [← this]
    decide

end Verif.Notices
