import Verif.Model.Tcp
/-!
C88: frames received over TCP are stored whole, one after the other, and handed on.
-/
namespace Verif.Tcp

/-! ## Specification -/

/-- All bytes a socket will deliver. -/
def stream : List Rd → List Nat
  | [] => []
  | .data bs :: l => bs ++ stream l
  | _ :: l => stream l

/-- The frames cut out of the streams of the sockets, for the sockets in the order in which they are read. -/
def frames (size : Nat) : (Nat → List Nat) → List Nat → List (List Nat)
  | _, [] => []
  | f, i :: l => (f i).take size :: frames size (fun j => if j = i then (f j).drop size else f j) l

/-- There are enough bytes on every socket for all these reads. -/
def Enough (size : Nat) : (Nat → List Nat) → List Nat → Prop
  | _, [] => True
  | f, i :: l => size ≤ (f i).length ∧ Enough size (fun j => if j = i then (f j).drop size else f j) l

/-- Only data on a socket. -/
def Clean (l : List Rd) : Prop := ∀ r ∈ l, ∃ bs, r = .data bs

/-- C88, full statement: the handlers return as long as there are bytes for whole frames or the connection is closed or
disturbed, the frames stored are those of the streams, and each is handed on. -/
def C88_statement : Prop :=
  ∀ (c : Cfg) (sock : Nat → List Rd) (is : List Nat), c.count ≤ c.buffers → 0 < c.count → 0 < c.size →
    Enough c.size (fun i => stream (sock i)) is →
    (run c { sock := sock } is).2 = .ok ∧
      (run c { sock := sock } is).1.stores.map (·.2) = frames c.size (fun i => stream (sock i)) is ∧
      (run c { sock := sock } is).1.handed = (run c { sock := sock } is).1.stores.map (·.1)

/-! ## Proofs -/

theorem loop_done (size : Nat) (l : List Rd) (acc : List Nat) (h : size ≤ acc.length) : loop size l acc = (.ok, acc, l) := by
  unfold loop; rw [if_pos h]

theorem loop_clean (size : Nat) (l : List Rd) (hc : Clean l) (acc : List Nat) (ha : acc.length ≤ size)
    (he : size ≤ acc.length + (stream l).length) :
    ∃ l', loop size l acc = (.ok, acc ++ (stream l).take (size - acc.length), l') ∧ Clean l' ∧
      stream l' = (stream l).drop (size - acc.length) := by
  induction l generalizing acc with
  | nil =>
    have hs : size ≤ acc.length := by simpa [stream] using he
    refine ⟨[], ?_, hc, ?_⟩
    · rw [loop_done _ _ _ hs]; simp [stream]
    · simp [stream]
  | cons r l ih =>
    obtain ⟨bs, rfl⟩ := hc r List.mem_cons_self
    have hc' : Clean l := fun r hr => hc r (List.mem_cons_of_mem _ hr)
    by_cases hs : size ≤ acc.length
    · have h0 : size - acc.length = 0 := by omega
      refine ⟨.data bs :: l, ?_, hc, ?_⟩
      · rw [loop_done _ _ _ hs, h0]; simp
      · rw [h0]; simp
    · unfold loop
      rw [if_neg hs]
      simp only
      simp only [stream, List.length_append] at he
      by_cases hb : acc.length + bs.length ≤ size
      · rw [if_pos hb]
        obtain ⟨l', h1, h2, h3⟩ := ih hc' (acc ++ bs) (by simpa using hb) (by simp; omega)
        refine ⟨l', ?_, h2, ?_⟩
        · rw [h1, stream, List.take_append, List.take_of_length_le (show bs.length ≤ size - acc.length by omega),
            List.length_append, ← List.append_assoc, Nat.sub_sub]
        · rw [h3, stream, List.drop_append, List.drop_of_length_le (show bs.length ≤ size - acc.length by omega),
            List.length_append, List.nil_append, Nat.sub_sub]
      · rw [if_neg hb]
        refine ⟨.data (bs.drop (size - acc.length)) :: l, ?_, ?_, ?_⟩
        · rw [stream, List.take_append, show size - acc.length - bs.length = 0 by omega]
          simp
        · intro r hr
          rcases List.mem_cons.1 hr with hr | hr
          · exact ⟨_, hr⟩
          · exact hc' r hr
        · rw [stream, stream, List.drop_append, show size - acc.length - bs.length = 0 by omega]
          simp

/-- Buffers are used in turn. -/
def ids (c : Cfg) : Nat → Nat → List Nat
  | _, 0 => []
  | last, n + 1 => nextId c last :: ids c (nextId c last) n

theorem nextId_lt (c : Cfg) (h : 0 < c.count) (last : Nat) : nextId c last < c.count := by
  unfold nextId
  split <;> omega

theorem run_clean (c : Cfg) (hb : c.count ≤ c.buffers) (h0 : 0 < c.count) (is : List Nat) (s : St)
    (hc : ∀ i, Clean (s.sock i)) (he : Enough c.size (fun i => stream (s.sock i)) is) :
    (run c s is).2 = .ok ∧
      (run c s is).1.stores = s.stores ++ (ids c s.last is.length).zip (frames c.size (fun i => stream (s.sock i)) is) := by
  induction is generalizing s with
  | nil => exact ⟨rfl, by simp [run, frames, ids]⟩
  | cons i is ih =>
    obtain ⟨e1, e2⟩ := he
    have hn := nextId_lt c h0 s.last
    obtain ⟨l', h1, h2, h3⟩ := loop_clean c.size (s.sock i) (hc i) [] (by simp) (by simpa using e1)
    simp only [List.nil_append, List.length_nil, Nat.sub_zero] at h1 h3
    have hh : handle c s i = ({ s with last := nextId c s.last, stores := s.stores ++ [(nextId c s.last, (stream (s.sock i)).take c.size)],
                                       sock := fun j => if j = i then l' else s.sock j }, .ok) := by
      unfold handle readInto
      rw [if_neg (by omega), h1]
    have hf : (fun j => stream (if j = i then l' else s.sock j)) =
        (fun j => if j = i then (stream (s.sock j)).drop c.size else stream (s.sock j)) := by
      funext j
      by_cases hj : j = i
      · subst hj; simp [h3]
      · simp [hj]
    have := ih { s with last := nextId c s.last, stores := s.stores ++ [(nextId c s.last, (stream (s.sock i)).take c.size)],
                        sock := fun j => if j = i then l' else s.sock j }
      (fun j => by simp only; split
                   · exact h2
                   · exact hc j)
      (by simp only [hf]; exact e2)
    simp only [hf] at this
    unfold run
    rw [hh]
    simp only
    refine ⟨this.1, ?_⟩
    rw [this.2]
    simp [frames, ids]

theorem ids_get (c : Cfg) (h0 : 0 < c.count) (n k last : Nat) (hk : k < n) (hl : last < c.count) :
    (ids c last n)[k]? = some ((last + 1 + k) % c.count) := by
  induction n generalizing k last with
  | zero => omega
  | succ n ih =>
    have hn : nextId c last = (last + 1) % c.count := by
      unfold nextId
      split
      · rw [show last + 1 = c.count by omega]; simp
      · rw [Nat.mod_eq_of_lt (by omega)]
    cases k with
    | zero => simp [ids, hn]
    | succ k =>
      simp only [ids, List.getElem?_cons_succ]
      rw [ih k (nextId c last) (by omega) (nextId_lt c h0 last)]
      simp only [hn]
      congr 1
      rw [Nat.add_assoc, Nat.mod_add_mod]
      congr 1
      omega

theorem ids_length (c : Cfg) (last : Nat) (n : Nat) : (ids c last n).length = n := by
  induction n generalizing last with
  | zero => rfl
  | succ n ih => simp [ids, ih]

theorem frames_length (size : Nat) (f : Nat → List Nat) (is : List Nat) : (frames size f is).length = is.length := by
  induction is generalizing f with
  | nil => rfl
  | cons i is ih => simp [frames, ih]

/-- C88, proved part: as long as there are only data, whatever the sizes of the reads and the order of the sockets, every frame
is stored whole, frame `k` (counted from 0) in buffer `k + 1` modulo the number of buffers. Missing: closed and disturbed connections, and handing
on (see below). -/
theorem C88_partial (c : Cfg) (sock : Nat → List Rd) (is : List Nat) (hb : c.count ≤ c.buffers) (h0 : 0 < c.count)
    (hc : ∀ i, Clean (sock i)) (he : Enough c.size (fun i => stream (sock i)) is) :
    (run c { sock := sock } is).2 = .ok ∧
      (run c { sock := sock } is).1.stores.map (·.2) = frames c.size (fun i => stream (sock i)) is ∧
      ∀ (k : Nat), k < is.length → ((run c { sock := sock } is).1.stores.map (·.1))[k]? = some ((k + 1) % c.count) := by
  obtain ⟨h1, h2⟩ := run_clean c hb h0 is { sock := sock } hc he
  refine ⟨h1, ?_, fun k hk => ?_⟩
  · rw [h2]
    simp only [List.nil_append]
    rw [show (fun x : Nat × List Nat => x.2) = Prod.snd from rfl, List.map_snd_zip]
    rw [ids_length, frames_length]
    exact Nat.le_refl _
  · rw [h2]
    simp only [List.nil_append]
    rw [show (fun x : Nat × List Nat => x.1) = Prod.fst from rfl, List.map_fst_zip]
    · rw [ids_get c h0 is.length k 0 hk h0, Nat.add_comm k 1]
    · rw [ids_length, frames_length]
      exact Nat.le_refl _

/-- C88 is false of the code: no frame is ever handed on. -/
theorem C88_never (c : Cfg) (s : St) (is : List Nat) : (run c s is).1.handed = s.handed := by
  have hh : ∀ s i, (handle c s i).1.handed = s.handed := by
    intro s i
    unfold handle readInto
    split
    · rfl
    · split <;> rfl
  induction is generalizing s with
  | nil => rfl
  | cons i is ih =>
    unfold run
    have := hh s i
    generalize handle c s i = r at *
    obtain ⟨t, o⟩ := r
    cases o with
    | ok => exact (ih t).trans this
    | _ => exact this

theorem C88_violated : ¬ C88_statement := by
  intro h
  obtain ⟨_, h2, h3⟩ := h { size := 1, buffers := 5 } (fun _ => [.data [7]]) [0] (by decide) (by decide) (by decide) (by simp [Enough, stream])
  rw [C88_never] at h3
  have h4 := congrArg List.length h2
  have h5 := congrArg List.length h3
  simp [frames_length] at h4 h5
  omega

/-- When the peer closes the connection the handler never returns, and with it the event loop of the receiver thread. -/
theorem C88_closed (c : Cfg) (hs : 0 < c.size) (hb : c.count ≤ c.buffers) (h0 : 0 < c.count) (s : St) (i : Nat) (h : s.sock i = [.eof]) :
    (handle c s i).2 = .endless := by
  have hn := nextId_lt c h0 s.last
  unfold handle readInto
  rw [if_neg (by omega), h]
  unfold loop
  rw [if_neg (by simp; omega)]

/-- An error at the beginning of a frame throws. -/
theorem C88_error (c : Cfg) (hs : 0 < c.size) (hb : c.count ≤ c.buffers) (h0 : 0 < c.count) (s : St) (i : Nat) (l : List Rd)
    (h : s.sock i = .err :: l) : (handle c s i).2 = .thrown := by
  have hn := nextId_lt c h0 s.last
  unfold handle readInto
  rw [if_neg (by omega), h]
  unfold loop
  rw [if_neg (by simp; omega)]
  simp

/-- An interruption in the middle loses a byte. -/
theorem C88_interrupted : loop 3 [.data [1, 2], .err, .data [3, 4]] [] = (.ok, [1, 3, 4], []) := by
  simp [loop]

example : (run { size := 2, buffers := 5, count := 2 } { sock := fun i => if i = 0 then [.data [1], .data [2, 3, 4]] else [.data [5, 6, 7]] } [0, 1, 0]).1.stores =
    [(1, [1, 2]), (0, [5, 6]), (1, [3, 4])] := by
  simp [run, handle, readInto, loop, nextId]

/-- If the shared memory has fewer buffers than the decoder uses, the message for the first buffer that is not there is not read:
an exception is thrown, and the next message is for the buffer after it. -/
theorem C88_few (c : Cfg) (s : St) (i : Nat) (h : c.buffers ≤ nextId c s.last) :
    (handle c s i).2 = .thrown ∧ (handle c s i).1.stores = s.stores ∧ (handle c s i).1.sock = s.sock ∧
      (handle c s i).1.last = nextId c s.last := by
  unfold handle readInto
  rw [if_pos h]
  exact ⟨rfl, rfl, rfl, rfl⟩

/-- Every frame is stored in a buffer that is there, whatever the connections do. -/
theorem C88_inside (c : Cfg) (is : List Nat) (s : St) (h : ∀ x ∈ s.stores, x.1 < c.buffers) :
    ∀ x ∈ (run c s is).1.stores, x.1 < c.buffers := by
  induction is generalizing s with
  | nil => exact h
  | cons i is ih =>
    have key : ∀ x ∈ (handle c s i).1.stores, x.1 < c.buffers := by
      unfold handle readInto
      split
      · exact h
      · next hb =>
        split
        · intro x hx
          rcases List.mem_append.1 hx with hx | hx
          · exact h x hx
          · rw [List.mem_singleton.1 hx]
            exact Nat.lt_of_not_le hb
        · exact h
    show ∀ x ∈ (match handle c s i with
      | (s, .ok) => run c s is
      | r => r).1.stores, x.1 < c.buffers
    generalize handle c s i = r at key
    obtain ⟨t, o⟩ := r
    cases o with
    | ok => exact ih t key
    | blocked => exact key
    | endless => exact key
    | thrown => exact key

/-- Three buffers, five in use: the third frame throws. -/
example : (run { size := 1, buffers := 3 } { sock := fun _ => [.data [7, 8, 9]] } [0, 0, 0]).1.stores = [(1, [7]), (2, [8])] ∧
    (run { size := 1, buffers := 3 } { sock := fun _ => [.data [7, 8, 9]] } [0, 0, 0]).2 = .thrown := by
  simp [run, handle, readInto, loop, nextId]

end Verif.Tcp
