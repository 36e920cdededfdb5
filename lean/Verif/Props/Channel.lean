import Verif.Model.Channel
/-!
C94: requests are attributed to their senders. C95: the identity of a channel is written inside its buffer. C96: a channel listens
on the endpoints it records. C97: the processor listens on the endpoint configured last. C98: ZeroMQ messages are handed to the
decoder part by part.
-/
namespace Verif.Channel

/-! ## C94 -/

/-- C94, full statement: whatever the clients send (at least one part each), every message is handled once, with the identity of its
sender, and no handler waits. -/
def C94_statement : Prop :=
  ∀ (l : List (Msg Nat)), (∀ m ∈ l, m.parts ≠ []) →
    ∃ f : Msg Nat → Nat, (∀ m ∈ l, f m ∈ m.parts) ∧ handled (queue l) = (l.map (fun m => (m.sender, f m)), false)

theorem handled_pairs {α} (l : List (Msg α)) (h : ∀ m ∈ l, ∃ p, m.parts = [p]) (rest : List α) :
    handled (queue l ++ rest) =
      (l.flatMap (fun m => m.parts.map (fun p => (m.sender, p))) ++ (handled rest).1, (handled rest).2) := by
  induction l with
  | nil => rfl
  | cons m l ih =>
    obtain ⟨p, hp⟩ := h m (by simp)
    have := ih (fun x hx => h x (by simp [hx]))
    simp only [queue] at this
    simp only [queue, List.flatMap_cons, hp, List.cons_append, List.nil_append, handled, List.map_cons, List.map_nil]
    rw [this]

/-- C94, proved part: messages of one part, which is what `IpcChannel::send` sends. -/
theorem C94_partial {α} (l : List (Msg α)) (h : ∀ m ∈ l, ∃ p, m.parts = [p]) :
    handled (queue l) = (l.flatMap (fun m => m.parts.map (fun p => (m.sender, p))), false) := by
  have := handled_pairs l h []
  simpa [handled] using this

/-- What the loop hands to the handlers is what the calls of `recv` return, one after the other. -/
theorem C94_recv {α} (q : List α) :
    (∀ i p rest, recv q = .got i p rest → handled q = ((i, p) :: (handled rest).1, (handled rest).2)) ∧
    (recv q = .waits → (handled q).1 = [] ∧ ((handled q).2 = false ↔ q = [])) := by
  match q with
  | [] => exact ⟨fun _ _ _ h => (by cases h), fun _ => (by simp [handled])⟩
  | [a] => exact ⟨fun _ _ _ h => (by cases h), fun _ => (by simp [handled])⟩
  | a :: b :: r => exact ⟨fun _ _ _ h => (by cases h; rfl), fun h => (by cases h)⟩

/-- The first call returns the sender and the first part of its message, and leaves the other parts. -/
theorem C94_recv_first {α} (m : Msg α) (p : α) (ps : List α) (l : List (Msg α)) (h : m.parts = p :: ps) :
    recv (queue (m :: l)) = .got m.sender p (ps ++ queue l) := by
  simp [queue, h, recv]

/-- After a message of two parts every handler takes the content of a message for the identity of its sender and the identity for the
content, and one waits inside `recv` for the next message. -/
theorem C94_shifted {α} (before after : List (Msg α)) (s p q : α) (hb : ∀ m ∈ before, ∃ p, m.parts = [p])
    (x : α) (content : Msg α → α) (ha : ∀ m ∈ after, m.parts = [content m]) :
    ∃ pairs, handled (queue (before ++ ⟨s, [p, q]⟩ :: after)) =
        (before.flatMap (fun m => m.parts.map (fun p => (m.sender, p))) ++ (s, p) :: pairs, true) ∧
      pairs.length = after.length ∧
      (∀ (i : Nat) (m : Msg α), after[i]? = some m → pairs[i]? = some (if i = 0 then q else ((after[i - 1]?).map content).getD x, m.sender)) := by
  have key : ∀ (after : List (Msg α)) (q : α), (∀ m ∈ after, m.parts = [content m]) →
      ∃ pairs, handled (q :: queue after) = (pairs, true) ∧ pairs.length = after.length ∧
        ∀ (i : Nat) (m : Msg α), after[i]? = some m →
          pairs[i]? = some (if i = 0 then q else ((after[i - 1]?).map content).getD x, m.sender) := by
    intro after
    induction after with
    | nil => intro q _; exact ⟨[], rfl, rfl, fun i m h => by simp at h⟩
    | cons m after ih =>
      intro q ha
      obtain ⟨ps, h1, h2, h3⟩ := ih (content m) (fun y hy => ha y (by simp [hy]))
      refine ⟨(q, m.sender) :: ps, ?_, by simp [h2], ?_⟩
      · simp only [queue, List.flatMap_cons, ha m (by simp), List.cons_append, List.nil_append, handled]
        simp only [queue] at h1
        rw [h1]
      · intro i y hy
        cases i with
        | zero => simp at hy; subst hy; rfl
        | succ i =>
          simp only [List.getElem?_cons_succ] at hy ⊢
          rw [h3 i y hy]
          cases i with
          | zero => rfl
          | succ i => rfl
  obtain ⟨ps, h1, h2, h3⟩ := key after q ha
  refine ⟨ps, ?_, h2, h3⟩
  have hq : queue (before ++ ⟨s, [p, q]⟩ :: after) = queue before ++ (s :: p :: q :: queue after) := by
    simp [queue]
  rw [hq, handled_pairs before hb]
  simp only [handled, h1]

theorem C94_violated : ¬ C94_statement := by
  intro h
  obtain ⟨f, _, h2⟩ := h [⟨1, [10, 11]⟩] (by decide)
  have : (handled (queue [(⟨1, [10, 11]⟩ : Msg Nat)])).2 = true := by decide
  rw [h2] at this
  cases this

/-- A client with a REQ socket sends an empty part before the content: the request seen is empty, and its content is taken for a
sender. -/
theorem C94_req : handled (queue [(⟨"id", ["", "request"]⟩ : Msg String), ⟨"other", ["next"]⟩]) = ([("id", ""), ("request", "other")], true) := by
  decide

example : handled (queue [(⟨1, [10]⟩ : Msg Nat), ⟨2, [20]⟩, ⟨1, [11]⟩]) = ([(1, 10), (2, 20), (1, 11)], false) := by decide

/-! ## C95 -/

/-- C95, full statement: for all values of `random()`, which are below 2^31. -/
def C95_statement : Prop := ∀ r1 r2, r1 < 2 ^ 31 → r2 < 2 ^ 31 → written r1 r2 ≤ bufferSize

theorem rnd24_bounds (n : Nat) (h : n < 2 ^ 31 - 64) : rnd24 n < 2 ^ 31 := by
  by_cases h0 : n < 2 ^ 30
  · have hl : Nat.log2 n - 23 ≤ 6 := by
      by_cases hz : n = 0
      · subst hz; decide
      · have := (Nat.log2_lt hz).2 h0
        omega
    unfold rnd24
    generalize Nat.log2 n - 23 = e at *
    simp only
    have : e = 0 ∨ e = 1 ∨ e = 2 ∨ e = 3 ∨ e = 4 ∨ e = 5 ∨ e = 6 := by omega
    rcases this with rfl | rfl | rfl | rfl | rfl | rfl | rfl <;> split <;> omega
  · have hl : Nat.log2 n = 30 := by
      have h1 := (Nat.log2_lt (n := n) (k := 31) (by omega)).2 (by omega)
      have h2 := (Nat.le_log2 (n := n) (k := 30) (by omega)).2 (by omega)
      omega
    unfold rnd24
    rw [hl]
    simp only
    split <;> omega

theorem rnd24_top (n : Nat) (h : 2 ^ 31 - 64 ≤ n) (h2 : n < 2 ^ 31) : rnd24 n = 2 ^ 31 := by
  have hl : Nat.log2 n = 30 := by
    have h1 := (Nat.log2_lt (n := n) (k := 31) (by omega)).2 (by omega)
    have h2 := (Nat.le_log2 (n := n) (k := 30) (by omega)).2 (by omega)
    omega
  unfold rnd24
  rw [hl]
  simp only
  split <;> omega

/-- `rnd24` is the nearest of the numbers with 24 significant bits, and of two that are as near the even one. -/
theorem rnd24_nearest (n : Nat) : ∃ q e, rnd24 n = q * 2 ^ e ∧ e = Nat.log2 n - 23 ∧ 2 * (n - q * 2 ^ e) ≤ 2 ^ e ∧ 2 * (q * 2 ^ e - n) ≤ 2 ^ e ∧
    (2 * (n - q * 2 ^ e) = 2 ^ e ∨ 2 * (q * 2 ^ e - n) = 2 ^ e → q % 2 = 0) := by
  unfold rnd24
  generalize Nat.log2 n - 23 = e
  have h1 := Nat.div_add_mod n (2 ^ e)
  have h2 := Nat.mod_lt n (Nat.two_pow_pos e)
  have h3 := Nat.two_pow_pos e
  dsimp only
  generalize n / 2 ^ e = q at *
  generalize n % 2 ^ e = r at *
  have h4 : (q + 1) * 2 ^ e = q * 2 ^ e + 2 ^ e := by rw [Nat.add_mul, Nat.one_mul]
  rw [Nat.mul_comm] at h1
  split
  · next hc => exact ⟨q, e, rfl, rfl, by omega, by omega, by omega⟩
  · next hc => exact ⟨q + 1, e, rfl, rfl, by omega, by omega, by omega⟩

theorem hexLength_four (n : Nat) (h : n < 65536) : hexLength n = 4 := by
  unfold hexLength
  by_cases h0 : n = 0
  · subst h0; decide
  · have := (Nat.log2_lt h0 (k := 16)).2 (by omega)
    omega

theorem within_lt (r : Nat) (h : r < 2 ^ 31 - 64) : within r < 65536 := by
  have := rnd24_bounds r h
  unfold within
  omega

theorem within_top (r : Nat) (h : 2 ^ 31 - 64 ≤ r) (h2 : r < 2 ^ 31) : within r = 65536 := by
  unfold within
  rw [rnd24_top r h h2]

/-- C95: exactly when both numbers are below 2^31 - 64 the identity fits. -/
theorem C95_partial (r1 r2 : Nat) (h1 : r1 < 2 ^ 31) (h2 : r2 < 2 ^ 31) :
    written r1 r2 ≤ bufferSize ↔ r1 < 2 ^ 31 - 64 ∧ r2 < 2 ^ 31 - 64 := by
  have five : hexLength 65536 = 5 := by decide
  unfold written bufferSize
  by_cases g1 : r1 < 2 ^ 31 - 64
  · by_cases g2 : r2 < 2 ^ 31 - 64
    · rw [hexLength_four _ (within_lt r1 g1), hexLength_four _ (within_lt r2 g2)]
      simp [g1, g2]
    · rw [hexLength_four _ (within_lt r1 g1), within_top r2 (by omega) h2, five]
      simp [g2]
  · by_cases g2 : r2 < 2 ^ 31 - 64
    · rw [within_top r1 (by omega) h1, hexLength_four _ (within_lt r2 g2), five]
      simp [g1]
    · rw [within_top r1 (by omega) h1, within_top r2 (by omega) h2, five]
      simp [g1]

theorem C95_violated : ¬ C95_statement := by
  intro h
  have := (C95_partial (2 ^ 31 - 1) 0 (by decide) (by decide)).1 (h _ _ (by decide) (by decide))
  omega

example : written 1804289383 846930886 = 10 := by decide +kernel

/-! ## C96 -/

/-- ZeroMQ does not bind a socket to an address twice. -/
def Possible (c : Chan) : Op → Prop
  | .bind _ (.bound a) => a ∉ c.sock
  | .bind _ (.long a) => a ∉ c.sock
  | _ => True

inductive Reach : Chan → Prop
  | init : Reach {}
  | step (c : Chan) (o : Op) : Reach c → Possible c o → Reach (step c o)

/-- The channel listens exactly on the addresses it has recorded. -/
def Recorded (c : Chan) : Prop := ∀ a, a ∈ c.sock ↔ ∃ ep, c.map ep = some a

/-- C96, full statement. -/
def C96_statement : Prop := ∀ c, Reach c → Recorded c

/-- As `Reach`, an endpoint not being bound again before it is unbound, and no address being too long. -/
def Careful (c : Chan) : Op → Prop
  | .bind ep (.bound a) => a ∉ c.sock ∧ c.map ep = none
  | .bind _ (.long _) => False
  | _ => True

inductive ReachC : Chan → Prop
  | init : ReachC {}
  | step (c : Chan) (o : Op) : ReachC c → Careful c o → ReachC (step c o)

structure Inv (c : Chan) : Prop where
  recorded : Recorded c
  nodup : c.sock.Nodup
  inj : ∀ e e' a, c.map e = some a → c.map e' = some a → e = e'

theorem inv_step (c : Chan) (o : Op) (h : Inv c) (ho : Careful c o) : Inv (step c o) := by
  obtain ⟨h1, h2, h3⟩ := h
  cases o with
  | bind ep r =>
    cases r with
    | refused => exact ⟨h1, h2, h3⟩
    | long a => exact absurd ho id
    | bound a =>
      obtain ⟨ho1, ho2⟩ := ho
      refine ⟨?_, ?_, ?_⟩
      · intro x
        simp only [step, bind, put, List.mem_cons]
        constructor
        · rintro (rfl | hx)
          · exact ⟨ep, by simp⟩
          · obtain ⟨e, he⟩ := (h1 x).1 hx
            refine ⟨e, ?_⟩
            have : e ≠ ep := by rintro rfl; rw [ho2] at he; cases he
            simp [this, he]
        · rintro ⟨e, he⟩
          split at he
          · simp only [Option.some.injEq] at he; exact Or.inl he.symm
          · exact Or.inr ((h1 x).2 ⟨e, he⟩)
      · simp only [step, bind]
        exact List.nodup_cons.2 ⟨ho1, h2⟩
      · intro e e' b he he'
        simp only [step, bind, put] at he he'
        split at he <;> split at he'
        · rename_i x y; rw [x, y]
        · simp only [Option.some.injEq] at he; subst he
          exact absurd ((h1 _).2 ⟨e', he'⟩) ho1
        · simp only [Option.some.injEq] at he'; subst he'
          exact absurd ((h1 _).2 ⟨e, he⟩) ho1
        · exact h3 e e' b he he'
  | unbind ep =>
    simp only [step, unbind]
    cases hm : c.map ep with
    | none => exact ⟨h1, h2, h3⟩
    | some a =>
      refine ⟨?_, h2.erase a, ?_⟩
      · intro x
        simp only [put]
        rw [List.Nodup.mem_erase_iff h2]
        constructor
        · rintro ⟨hx, hx'⟩
          obtain ⟨e, he⟩ := (h1 x).1 hx'
          refine ⟨e, ?_⟩
          have : e ≠ ep := by
            rintro rfl
            rw [hm] at he
            simp only [Option.some.injEq] at he
            exact hx he.symm
          simp [this, he]
        · rintro ⟨e, he⟩
          split at he
          · cases he
          · rename_i hne
            refine ⟨?_, (h1 x).2 ⟨e, he⟩⟩
            rintro rfl
            exact hne (h3 e ep x he hm)
      · intro e e' b he he'
        simp only [put] at he he'
        split at he
        · cases he
        · split at he'
          · cases he'
          · exact h3 e e' b he he'

/-- C96, proved part. -/
theorem C96_partial (c : Chan) (h : ReachC c) : Recorded c := by
  have : Inv c := by
    induction h with
    | init => exact ⟨fun a => by simp, List.nodup_nil, fun _ _ _ h => by cases h⟩
    | step c o _ ho ih => exact inv_step c o ih ho
  exact this.recorded

/-- C96: unbinding stops listening at the endpoint and at no other one. -/
theorem C96_unbind_partial (c : Chan) (h : ReachC c) (ep a : String) (ha : c.map ep = some a) :
    hasBound (unbind c ep) ep = false ∧ a ∉ (unbind c ep).sock ∧
      ∀ e b, e ≠ ep → c.map e = some b → hasBound (unbind c ep) e = true ∧ b ∈ (unbind c ep).sock := by
  have hc : Recorded (unbind c ep) := C96_partial _ (ReachC.step c (.unbind ep) h trivial)
  have hinv : Inv c := by
    clear hc ha
    induction h with
    | init => exact ⟨fun a => by simp, List.nodup_nil, fun _ _ _ h => by cases h⟩
    | step c o _ ho ih => exact inv_step c o ih ho
  have hmap : (unbind c ep).map = put c.map ep none := by simp [unbind, ha]
  refine ⟨by simp [hasBound, hmap, put], ?_, ?_⟩
  · intro hm
    obtain ⟨e, he⟩ := (hc a).1 hm
    rw [hmap] at he
    simp only [put] at he
    split at he
    · cases he
    · rename_i hne
      exact hne (hinv.inj e ep a he ha)
  · intro e b hne hb
    have : (unbind c ep).map e = some b := by rw [hmap]; simp [put, hne, hb]
    exact ⟨by simp [hasBound, this], (hc b).2 ⟨e, this⟩⟩

/-- A wildcard endpoint bound twice: the first address is forgotten, and listened on for good. -/
theorem C96_violated : ¬ C96_statement := by
  intro h
  have hr : Reach (run {} [.bind "tcp://*:*" (.bound "tcp://0.0.0.0:4000"), .bind "tcp://*:*" (.bound "tcp://0.0.0.0:4001"), .unbind "tcp://*:*"]) := by
    simp only [run, List.foldl_cons, List.foldl_nil]
    refine Reach.step _ _ (Reach.step _ _ (Reach.step _ _ Reach.init ?_) ?_) ?_
    · simp [Possible]
    · simp [Possible, step, bind]
    · trivial
  have := (h _ hr "tcp://0.0.0.0:4000").1 (by simp [run, step, bind, unbind, put])
  obtain ⟨ep, hep⟩ := this
  have he : ∀ ep, (run {} [.bind "tcp://*:*" (.bound "tcp://0.0.0.0:4000"), .bind "tcp://*:*" (.bound "tcp://0.0.0.0:4001"), .unbind "tcp://*:*"]).map ep = none := by
    intro ep
    by_cases e : ep = "tcp://*:*" <;> simp [run, step, bind, unbind, put, e]
  rw [he] at hep
  cases hep

/-- An address that does not fit into the buffer is listened on although binding has failed. -/
theorem C96_long (c : Chan) (ep a : String) : (bind c ep (.long a)).2 = false ∧ a ∈ (bind c ep (.long a)).1.sock ∧
    (bind c ep (.long a)).1.map = c.map := ⟨rfl, by simp [bind], rfl⟩

example : ReachC (run {} [.bind "a" (.bound "x"), .bind "b" (.bound "y"), .unbind "a", .bind "a" (.bound "z")]) := by
  simp only [run, List.foldl_cons, List.foldl_nil]
  refine ReachC.step _ _ (ReachC.step _ _ (ReachC.step _ _ (ReachC.step _ _ ReachC.init ?_) ?_) ?_) ?_ <;>
    simp [Careful, step, bind, unbind, put]

/-! ## C97 -/

/-- C97, full statement: after any configurations the processor listens on the endpoint configured last, and on nothing else. All
endpoints are free and no wildcards. -/
def C97_statement : Prop :=
  ∀ (l : List String), l.Nodup → l ≠ [] →
    (setups {} (l.map (fun e => (e, .bound e)))).chan.sock = [(setups {} (l.map (fun e => (e, .bound e)))).endpoint]

/-- It listens on all of them. -/
theorem C97_all (l : List String) (p : Proc) :
    (setups p (l.map (fun e => (e, .bound e)))).chan.sock = l.reverse ++ p.chan.sock ∧
      (setups p (l.map (fun e => (e, .bound e)))).endpoint = l.getLast?.getD p.endpoint := by
  induction l generalizing p with
  | nil => exact ⟨rfl, rfl⟩
  | cons e l ih =>
    have := ih { chan := (bind p.chan e (.bound e)).1, endpoint := e }
    refine ⟨this.1.trans (by simp [bind]), this.2.trans ?_⟩
    cases l with
    | nil => rfl
    | cons f l =>
      rw [List.getLast?_cons_cons]
      cases h : (f :: l).getLast? with
      | none => simp at h
      | some x => rfl

theorem C97_violated : ¬ C97_statement := by
  intro h
  have h1 := h ["tcp://*:5000", "tcp://*:5001"] (by decide) (by decide)
  rw [(C97_all _ _).1, (C97_all _ _).2] at h1
  revert h1
  decide

/-- C97, proved part: the endpoint configured for the first time; a refused one changes nothing. -/
theorem C97_partial (ep a : String) (bad : List String) :
    (setups {} (bad.map (fun e => (e, BindRes.refused)) ++ [(ep, .bound a)])).chan.sock = [a] ∧
    (setups {} (bad.map (fun e => (e, BindRes.refused)) ++ [(ep, .bound a)])).endpoint = ep ∧
    hasBound (setups {} (bad.map (fun e => (e, BindRes.refused)) ++ [(ep, .bound a)])).chan ep = true := by
  have hbad : ∀ (bad : List String) (p : Proc), setups p (bad.map (fun e => (e, BindRes.refused))) = p := by
    intro bad
    induction bad with
    | nil => intro p; rfl
    | cons e l ih => intro p; exact ih p
  unfold setups at hbad ⊢
  rw [List.foldl_append, hbad]
  exact ⟨rfl, rfl, by simp [setup, bind, hasBound, put]⟩

/-! ## C98 -/

/-- C98, full statement: the decoder is told of every part and of the end of every message, in order. -/
def C98_statement : Prop :=
  ∀ (room : Nat → Nat) (l : List (List Nat)), (∀ m ∈ l, m ≠ []) →
    rxAll room 0 l = some (l.flatMap (fun m => m.map Call.message ++ [.eom]))

theorem rxParts_spec (room : Nat → Nat) (m : List Nat) (n : Nat) (h0 : m ≠ [])
    (h : ∀ (i : Nat) (b : Nat), m[i]? = some b → b ≤ room (n + i)) :
    rxParts room n m = some (m.map Call.message ++ [.eom], n + m.length) := by
  induction m generalizing n with
  | nil => exact absurd rfl h0
  | cons b l ih =>
    have hb := h 0 b rfl
    simp only [rxParts]
    rw [if_neg (by simpa using hb)]
    cases l with
    | nil => rfl
    | cons c l =>
      have := ih (n + 1) (by simp) (fun i x hx => by
        have := h (i + 1) x (by simpa using hx)
        rwa [Nat.add_assoc, Nat.add_comm 1 i])
      rw [this]
      simp [Nat.add_assoc, Nat.add_comm]

theorem rxAll_spec (room : Nat → Nat) (l : List (List Nat)) (n : Nat) (h0 : ∀ m ∈ l, m ≠ [])
    (h : ∀ (i : Nat) (b : Nat), l.flatten[i]? = some b → b ≤ room (n + i)) :
    rxAll room n l = some (l.flatMap (fun m => m.map Call.message ++ [.eom])) := by
  induction l generalizing n with
  | nil => rfl
  | cons m l ih =>
    simp only [rxAll]
    rw [rxParts_spec room m n (h0 m (by simp)) (fun i b hb => h i b (by
      rw [List.flatten_cons, List.getElem?_append_left (List.getElem?_eq_some_iff.1 hb).1]; exact hb))]
    simp only
    rw [ih (n + m.length) (fun x hx => h0 x (by simp [hx])) (fun i b hb => by
      have := h (m.length + i) b (by
        rw [List.flatten_cons, List.getElem?_append_right (by omega)]
        rw [Nat.add_sub_cancel_left]; exact hb)
      rwa [← Nat.add_assoc] at this)]
    simp

/-- C98, proved part: every part fits into the buffer given for it. -/
theorem C98_partial (room : Nat → Nat) (l : List (List Nat)) (h0 : ∀ m ∈ l, m ≠ [])
    (h : ∀ (i : Nat) (b : Nat), l.flatten[i]? = some b → b ≤ room i) :
    rxAll room 0 l = some (l.flatMap (fun m => m.map Call.message ++ [.eom])) :=
  rxAll_spec room l 0 h0 (fun i b hb => by simpa using h i b hb)

/-- A larger part is written behind the buffer. -/
theorem C98_overflow (room : Nat → Nat) (b : Nat) (l : List Nat) (ms : List (List Nat)) (h : room 0 < b) :
    rxAll room 0 ((b :: l) :: ms) = none := by
  simp [rxAll, rxParts, h]

theorem C98_violated : ¬ C98_statement := by
  intro h
  have := h (fun _ => 100) [[101]] (by decide)
  rw [C98_overflow _ _ _ _ (by decide)] at this
  cases this

example : rxAll (fun _ => 100) 0 [[10, 20], [5]] = some [.message 10, .message 20, .eom, .message 5, .eom] := by decide

end Verif.Channel
