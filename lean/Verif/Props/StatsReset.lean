import Verif.Props.Decoder
import Verif.Props.Tcp
/-! Property C177: resetting the statistics does not disturb the data. -/
namespace Verif.StatsReset

/-! ## Specification -/

/-- A history with resets in it, between its events and in the middle of them, at two places. -/
inductive Ev (α : Type)
  | ev (e : α)
  | reset
  | mid (e : α) (a b : Bool)
deriving DecidableEq, Repr

/-- The same history without the resets. -/
def strip {α : Type} : List (Ev α) → List α
  | [] => []
  | .ev e :: es => e :: strip es
  | .reset :: es => strip es
  | .mid e _ _ :: es => e :: strip es

open Verif.Decoder Verif.Decoder.Spec in
/-- A reset, or not. -/
def resetIf (b : Bool) (s : State) : State := if b then Decoder.resetStats s else s

open Verif.Decoder Verif.Decoder.Spec in
/-- A packet with resets before its payload is stored, and before it is seen whether the frame is complete. -/
def packetMid (c : Decoder.Cfg) (s : State) (p : Packet) (now : Int) (a b : Bool) : Option (State × List Ready) :=
  (select c s p.frame now).bind (fun s => (store c (resetIf a s) p).bind (fun s => finish c (resetIf b s)))

open Verif.Decoder Verif.Decoder.Spec in
/-- The step for a packet as in `Decoder.Spec.step`, given what the decoder has done; for the others, resets after them. -/
def stepMid (c : Decoder.Cfg) (w : World) (a b : Bool) : Decoder.Spec.Ev → Option World
  | .packet p now => (packetMid c w.s p now a b).map (fun r =>
      { w.hand r.1 r.2 (rxAdd w.rx p) with
        stale := [], count := w.count + 1, refused := if w.refuses p then w.refused + 1 else w.refused,
        last := if w.refuses p then true else if w.accepts p then false else w.last,
        began := fun f => if f = p.frame ∧ w.rx f = [] then now else w.began f })
  | e => (Decoder.Spec.step c w e).map (fun w => { w with s := resetIf (a || b) w.s })

open Verif.Decoder Verif.Decoder.Spec in
/-- A run of the UDP decoder with resets. -/
def runUdp (c : Decoder.Cfg) (w : World) : List (Ev Decoder.Spec.Ev) → Option World
  | [] => some w
  | .ev e :: es => (Decoder.Spec.step c w e).bind (fun w => runUdp c w es)
  | .reset :: es => runUdp c { w with s := Decoder.resetStats w.s } es
  | .mid e a b :: es => (stepMid c w a b e).bind (fun w => runUdp c w es)

/-- A run of the TCP decoder with resets. -/
def runTcp (c : Tcp.Cfg) (s : Tcp.St) : List (Ev Nat) → Tcp.St × Tcp.Out
  | [] => (s, .ok)
  | .ev i :: es => match Tcp.handle c s i with
    | (s, .ok) => runTcp c s es
    | r => r
  | .reset :: es => runTcp c (Tcp.resetStats s) es
  | .mid i a b :: es => match Tcp.handleMid c s i a b with
    | (s, .ok) => runTcp c s es
    | r => r

/-- C177, full statement: with and without resets, between events or in the middle of them, the same frames are handed on and
stored, in the same buffers. -/
def C177_statement : Prop :=
  (∀ (c : Decoder.Cfg) es, (runUdp c (Decoder.Spec.init c) es).map (fun w => (w.log, w.out)) =
    (Decoder.Spec.run c (Decoder.Spec.init c) (strip es)).map (fun w => (w.log, w.out))) ∧
  (∀ (c : Tcp.Cfg) sock es, (runTcp c { sock := sock } es).1.stores = (Tcp.run c { sock := sock } (strip es)).1.stores)

/-! ## Proofs: UDP -/
section Udp
open Verif.Decoder Verif.Decoder.Spec

def Z : State → State := Decoder.resetStats
def ZR (r : State × List Ready) : State × List Ready := (Z r.1, r.2)
def ZW (w : World) : World := { w with s := Z w.s }

theorem Z_select (c : Decoder.Cfg) (s : State) (f : Nat) (now : Int) :
    (select c (Z s) f now).map Z = (select c s f now).map Z := by
  unfold select
  by_cases h : f = s.seen
  · rw [if_pos (show f = (Z s).seen from h), if_pos h]; rfl
  · rw [if_neg (show ¬ f = (Z s).seen from h), if_neg h]
    cases hl : lookup s.map f with
    | some b =>
      rw [show lookup (Z s).map f = some b from hl]
      dsimp only
      split <;> rfl
    | none =>
      rw [show lookup (Z s).map f = none from hl]
      dsimp only
      cases he : s.empty with
      | nil => rw [show (Z s).empty = [] from he]; rfl
      | cons b q =>
        rw [show (Z s).empty = b :: q from he]
        dsimp only
        split <;> rfl

theorem Z_count (s : State) : Z (countPacket (Z s)) = Z (countPacket s) := by
  unfold countPacket
  show Z (if s.dropping then _ else _) = _
  split <;> rfl

theorem Z_count' (s t : State) (h : Z s = Z t) : Z (countPacket s) = Z (countPacket t) := by
  rw [← Z_count s, ← Z_count t, h]

theorem Z_store (c : Decoder.Cfg) (s : State) (p : Packet) : (store c (Z s) p).map Z = (store c s p).map Z := by
  unfold store
  cases h : s.cur with
  | none => rw [show (Z s).cur = none from h]
  | some l =>
    rw [show (Z s).cur = some l from h]
    dsimp only
    split
    · rfl
    · exact congrArg some (Z_count' (setBuf (Z s) l (stored (s.bufs l) p)) (setBuf s l (stored (s.bufs l) p)) rfl)

theorem Z_finish (c : Decoder.Cfg) (s : State) : (finish c (Z s)).map ZR = (finish c s).map ZR := by
  unfold finish
  cases h : s.cur with
  | none => rw [show (Z s).cur = none from h]
  | some l =>
    rw [show (Z s).cur = some l from h, show (Z s).bufs = s.bufs from rfl, show (Z s).dropping = s.dropping from rfl]
    dsimp only
    split
    · split <;> rfl
    · rfl

/-- A function that respects `Z` respects equality up to `Z`. -/
theorem lift {α β : Type} (g : State → Option α) (k : α → β) (h : ∀ s, (g (Z s)).map k = (g s).map k) (s t : State) (e : Z s = Z t) :
    (g s).map k = (g t).map k := by rw [← h s, ← h t, e]

theorem bind_lift {β : Type} (x y : Option State) (g : State → Option β) {γ : Type} (k : β → γ)
    (hxy : x.map Z = y.map Z) (h : ∀ s, (g (Z s)).map k = (g s).map k) : (x.bind g).map k = (y.bind g).map k := by
  cases x with
  | none => cases y with
    | none => rfl
    | some y => cases hxy
  | some x => cases y with
    | none => cases hxy
    | some y =>
      simp only [Option.map_some, Option.some.injEq] at hxy
      exact lift g k h x y hxy

theorem Z_packet (c : Decoder.Cfg) (s : State) (p : Packet) (now : Int) :
    (packet c (Z s) p now).map ZR = (packet c s p now).map ZR := by
  unfold packet
  refine bind_lift _ _ _ _ (Z_select c s p.frame now) ?_
  intro s
  exact bind_lift _ _ _ _ (Z_store c s p) (Z_finish c)

theorem Z_resetIf (b : Bool) (s : State) : Z (resetIf b s) = Z s := by
  cases b <;> rfl

theorem bind_map {β γ : Type} (x : Option State) (g g' : State → Option β) (k : β → γ) (h : ∀ s, (g s).map k = (g' s).map k) :
    (x.bind g).map k = (x.bind g').map k := by
  cases x with
  | none => rfl
  | some s => exact h s

theorem Z_packetMid (c : Decoder.Cfg) (s : State) (p : Packet) (now : Int) (a b : Bool) :
    (packetMid c s p now a b).map ZR = (packet c s p now).map ZR := by
  unfold packetMid packet
  refine bind_map _ _ _ _ (fun s => ?_)
  have hf : ∀ t, (finish c (resetIf b t)).map ZR = (finish c t).map ZR := fun t => lift _ _ (Z_finish c) _ _ (Z_resetIf b t)
  rw [bind_map _ _ _ _ hf]
  exact bind_lift _ _ _ _ (lift (fun s => store c s p) Z (fun s => Z_store c s p) _ _ (Z_resetIf a s)) (Z_finish c)

theorem Z_loop (c : Decoder.Cfg) (now : Int) (m : List (Nat × Nat)) : ∀ s t, Z s = Z t →
    (monitorLoop c now m s).map ZR = (monitorLoop c now m t).map ZR := by
  induction m with
  | nil => intro s t h; simp only [monitorLoop, Option.map_some, ZR, h]
  | cons x m ih =>
    obtain ⟨f, b⟩ := x
    intro s t h
    have hb : s.bufs = t.bufs := (show (Z s).bufs = (Z t).bufs by rw [h])
    unfold monitorLoop
    rw [hb]
    split
    · split
      · rfl
      · split
        · have h1 : (timeOut c s f b).2 = (timeOut c t f b).2 := by unfold timeOut; simp only [hb]
          have h2 : Z (timeOut c s f b).1 = Z (timeOut c t f b).1 := by
            show Z { (Z s) with bufs := fun k => if k = .shared b then { s.bufs (.shared b) with state := .timedout } else s.bufs k, map := erase s.map f } =
              Z { (Z t) with bufs := fun k => if k = .shared b then { t.bufs (.shared b) with state := .timedout } else t.bufs k, map := erase t.map f }
            rw [h, hb, show s.map = t.map from (show (Z s).map = (Z t).map by rw [h])]
          have := ih _ _ h2
          simp only [Option.map_map]
          rw [h1]
          have e : ∀ r : Ready, (ZR ∘ fun q : State × List Ready => (q.1, r :: q.2)) = (fun q : State × List Ready => (q.1, r :: q.2)) ∘ ZR := by
            intro r; rfl
          rw [e, ← Option.map_map, this, Option.map_map]
        · exact ih _ _ h
    · rfl

theorem Z_monitor (c : Decoder.Cfg) (s : State) (now : Int) : (monitor c (Z s) now).map ZR = (monitor c s now).map ZR :=
  Z_loop c now s.map (Z s) s rfl

theorem map_lift (x y : Option (State × List Ready)) (k k' : State × List Ready → World) (h : x.map ZR = y.map ZR)
    (h1 : ∀ a, k (ZR a) = k a) (h2 : ∀ a, k' (ZR a) = k' a) (h3 : ∀ a, k a = k' a) : x.map k = y.map k' := by
  cases x with
  | none => cases y with
    | none => rfl
    | some y => cases h
  | some x => cases y with
    | none => cases h
    | some y =>
      simp only [Option.map_some, Option.some.injEq] at h ⊢
      rw [← h1 x, h, h3, h2]

theorem ZW_step (c : Decoder.Cfg) (w : World) (e : Decoder.Spec.Ev) :
    (Decoder.Spec.step c (ZW w) e).map ZW = (Decoder.Spec.step c w e).map ZW := by
  cases e with
  | packet p now =>
    simp only [Decoder.Spec.step, Option.map_map]
    exact map_lift _ _ _ _ (Z_packet c w.s p now) (fun _ => rfl) (fun _ => rfl) (fun _ => rfl)
  | tick now =>
    simp only [Decoder.Spec.step, Option.map_map]
    exact map_lift _ _ _ _ (Z_monitor c w.s now) (fun _ => rfl) (fun _ => rfl) (fun _ => rfl)
  | release b =>
    simp only [Decoder.Spec.step]
    rw [show (ZW w).out = w.out from rfl]
    split <;> rfl

theorem ZW_step' (c : Decoder.Cfg) (v w : World) (h : ZW v = ZW w) (e : Decoder.Spec.Ev) :
    (Decoder.Spec.step c v e).map ZW = (Decoder.Spec.step c w e).map ZW := by
  rw [← ZW_step c v, ← ZW_step c w, h]

theorem ZW_stepMid (c : Decoder.Cfg) (w : World) (a b : Bool) (e : Decoder.Spec.Ev) :
    (stepMid c w a b e).map ZW = (Decoder.Spec.step c w e).map ZW := by
  cases e with
  | packet p now =>
    simp only [stepMid, Decoder.Spec.step, Option.map_map]
    exact map_lift _ _ _ _ (Z_packetMid c w.s p now a b) (fun _ => rfl) (fun _ => rfl) (fun _ => rfl)
  | tick now =>
    show ((Decoder.Spec.step c w (.tick now)).map _).map ZW = _
    rw [Option.map_map]
    congr 1
    funext v
    show ZW { v with s := resetIf (a || b) v.s } = ZW v
    unfold ZW
    rw [Z_resetIf]
  | release i =>
    show ((Decoder.Spec.step c w (.release i)).map _).map ZW = _
    rw [Option.map_map]
    congr 1
    funext v
    show ZW { v with s := resetIf (a || b) v.s } = ZW v
    unfold ZW
    rw [Z_resetIf]

theorem ZW_run (c : Decoder.Cfg) (es : List (Ev Decoder.Spec.Ev)) : ∀ v w, ZW v = ZW w →
    (runUdp c v es).map ZW = (Decoder.Spec.run c w (strip es)).map ZW := by
  induction es with
  | nil => intro v w h; simp only [runUdp, strip, Decoder.Spec.run, Option.map_some, h]
  | cons e es ih =>
    intro v w h
    have key : ∀ (x : Option World) (e : Decoder.Spec.Ev), x.map ZW = (Decoder.Spec.step c w e).map ZW →
        (x.bind (fun v => runUdp c v es)).map ZW = ((Decoder.Spec.step c w e).bind (fun w => Decoder.Spec.run c w (strip es))).map ZW := by
      intro x e h1
      cases x with
      | none => cases hw : Decoder.Spec.step c w e with
        | none => rfl
        | some w' => rw [hw] at h1; cases h1
      | some v' => cases hw : Decoder.Spec.step c w e with
        | none => rw [hw] at h1; cases h1
        | some w' =>
          rw [hw] at h1
          simp only [Option.map_some, Option.some.injEq] at h1
          exact ih v' w' h1
    cases e with
    | reset => exact ih _ w (by rw [← h]; rfl)
    | ev e => exact key _ e (ZW_step' c v w h e)
    | mid e a b => exact key _ e ((ZW_stepMid c v a b e).trans (ZW_step' c v w h e))

/-- C177 for the UDP decoder, in full: resets between packets, and in the middle of them, change nothing but the counters. -/
theorem C177_udp (c : Decoder.Cfg) (es : List (Ev Decoder.Spec.Ev)) :
    (runUdp c (Decoder.Spec.init c) es).map (fun w => (w.log, w.out, w.s.empty, w.s.map)) =
      (Decoder.Spec.run c (Decoder.Spec.init c) (strip es)).map (fun w => (w.log, w.out, w.s.empty, w.s.map)) := by
  have h := congrArg (Option.map (fun w : World => (w.log, w.out, w.s.empty, w.s.map)))
    (ZW_run c es (Decoder.Spec.init c) (Decoder.Spec.init c) rfl)
  rw [Option.map_map, Option.map_map] at h
  exact h

/-- Non-vacuity: a frame of two packets with a reset between them is handed on, and the counter was reset. -/
example : (runUdp small (Decoder.Spec.init small) [.ev (.packet ⟨0, 0, 7⟩ 0), .reset, .ev (.packet ⟨0, 1, 8⟩ 1)]).map
    (fun w => (w.log.map (fun x => (x.1.buffer, x.1.frame, x.1.buf.pay 0, x.1.buf.pay 1)), w.out, w.s.received)) = some ([(0, 0, 7, 8)], [0], 1) := by
  decide

end Udp

/-! ## Proofs: TCP -/
section TcpPart
open Verif.Tcp

/-- Five buffers; frames of one byte. -/
def exCfg : Tcp.Cfg := { size := 1, buffers := 5 }
def exSock : Nat → List Rd := fun _ => [.data [1, 2, 3]]

/-- The frame after the reset goes to buffer 1 again, which has the frame before it. -/
theorem C177_tcp : (runTcp exCfg { sock := exSock } [.ev 0, .reset, .ev 0]).1.stores = [(1, [1]), (1, [2])] ∧
    (runTcp exCfg { sock := exSock } [.ev 0, .mid 0 true false]).1.stores = [(1, [1]), (0, [2])] ∧
    (Tcp.run exCfg { sock := exSock } [0, 0]).1.stores = [(1, [1]), (2, [2])] := by
  refine ⟨?_, ?_, ?_⟩ <;> decide

/-- C177 is false of the code. -/
theorem C177_violated : ¬ C177_statement := by
  intro h
  have h1 := h.2 exCfg exSock [.ev 0, .reset, .ev 0]
  rw [C177_tcp.1, show strip [Ev.ev 0, Ev.reset, Ev.ev 0] = [0, 0] from rfl, C177_tcp.2.2] at h1
  exact absurd h1 (by decide)

/-- The rest of a run after a handler, with `g` done to the state. -/
def more (c : Tcp.Cfg) (es : List (Ev Nat)) (r : Tcp.St × Tcp.Out) (g : Tcp.St → Tcp.St) : Tcp.St × Tcp.Out :=
  match r with
  | (s, .ok) => runTcp c (g s) es
  | (s, o) => (g s, o)

theorem more_ev (c : Tcp.Cfg) (s : Tcp.St) (i : Nat) (es : List (Ev Nat)) :
    runTcp c s (.ev i :: es) = more c es (Tcp.readInto c s i (nextId c s.last)) id := by
  simp only [runTcp]
  unfold Tcp.handle more
  cases Tcp.readInto c s i (nextId c s.last) with
  | mk u o => cases o <;> rfl

theorem more_mid (c : Tcp.Cfg) (s : Tcp.St) (i : Nat) (a b : Bool) (es : List (Ev Nat)) :
    runTcp c s (.mid i a b :: es) = more c es (Tcp.readInto c s i (if a then 0 else nextId c s.last)) (fun u => if b then Tcp.resetStats u else u) := by
  simp only [runTcp]
  unfold Tcp.handleMid more
  cases Tcp.readInto c s i (if a then 0 else nextId c s.last) with
  | mk u o => cases b <;> cases o <;> rfl

theorem tcp_run (c : Tcp.Cfg) (hb : c.count ≤ c.buffers) (h0 : 0 < c.count) (es : List (Ev Nat)) : ∀ s t : Tcp.St,
    s.sock = t.sock → s.stores.map (·.2) = t.stores.map (·.2) →
    (runTcp c s es).2 = (Tcp.run c t (strip es)).2 ∧
      (runTcp c s es).1.stores.map (·.2) = (Tcp.run c t (strip es)).1.stores.map (·.2) := by
  induction es with
  | nil => intro s t _ h; exact ⟨rfl, h⟩
  | cons e es ih =>
    intro s t hs h
    have n2 := nextId_lt c h0 t.last
    have key : ∀ (i k : Nat) (g : Tcp.St → Tcp.St), k < c.count → (∀ u, (g u).sock = u.sock ∧ (g u).stores = u.stores) →
        (more c es (Tcp.readInto c s i k) g).2 = (Tcp.run c t (i :: strip es)).2 ∧
        (more c es (Tcp.readInto c s i k) g).1.stores.map (·.2) = (Tcp.run c t (i :: strip es)).1.stores.map (·.2) := by
      intro i k g hk hg
      simp only [Tcp.run]
      unfold Tcp.handle Tcp.readInto
      rw [if_neg (by omega), if_neg (by omega), ← hs]
      cases hl : loop c.size (s.sock i) [] with
      | mk o r =>
        obtain ⟨bs, l⟩ := r
        cases o with
        | ok => exact ih _ _ (by simp only [(hg _).1, hs]) (by simp only [(hg _).2, List.map_append, h, List.map_cons, List.map_nil])
        | blocked => exact ⟨rfl, by show (g _).stores.map (·.2) = _; rw [(hg _).2]; exact h⟩
        | endless => exact ⟨rfl, by show (g _).stores.map (·.2) = _; rw [(hg _).2]; exact h⟩
        | thrown => exact ⟨rfl, by show (g _).stores.map (·.2) = _; rw [(hg _).2]; exact h⟩
    cases e with
    | reset => exact ih (Tcp.resetStats s) t hs h
    | ev i =>
      rw [more_ev]
      exact key i _ id (nextId_lt c h0 s.last) (fun _ => ⟨rfl, rfl⟩)
    | mid i a b =>
      have hk : (if a then 0 else nextId c s.last) < c.count := by
        split
        · exact h0
        · exact nextId_lt c h0 s.last
      rw [more_mid]
      refine key i _ (fun u => if b then Tcp.resetStats u else u) hk (fun u => ?_)
      cases b <;> exact ⟨rfl, rfl⟩

/-- C177 for the TCP decoder, the part that holds: the same frames are stored in the same order, though not in the same buffers, and the
handler ends in the same way. -/
theorem C177_partial (c : Tcp.Cfg) (hb : c.count ≤ c.buffers) (h0 : 0 < c.count) (sock : Nat → List Rd) (es : List (Ev Nat)) :
    (runTcp c { sock := sock } es).2 = (Tcp.run c { sock := sock } (strip es)).2 ∧
      (runTcp c { sock := sock } es).1.stores.map (·.2) = (Tcp.run c { sock := sock } (strip es)).1.stores.map (·.2) :=
  tcp_run c hb h0 es _ _ rfl rfl

example : exCfg.count ≤ exCfg.buffers ∧ 0 < exCfg.count ∧
    (runTcp exCfg { sock := exSock } [.ev 0, .reset, .ev 0]).1.stores.map (·.2) = [[1], [2]] := by
  refine ⟨by decide, by decide, by decide⟩
end TcpPart
end Verif.StatsReset
