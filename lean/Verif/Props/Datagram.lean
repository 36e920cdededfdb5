import Verif.Model.Datagram
import Verif.Props.DecoderData
/-! Property C166: the bytes of a complete frame are those that were sent for it. -/
namespace Verif.Datagram
open Verif.Decoder Verif.Decoder.Spec

namespace Spec

/-- The receiver and its surroundings. -/
structure Rx where
  m : Mach
  out : List Nat := []                       -- buffers handed on and not yet returned
  got : List (List Nat) := []                -- all datagrams
  log : List (Ready × (Nat → Nat)) := []     -- all frames handed on, with the contents of their buffer at that time

inductive Event
  | datagram (d : List Nat) (now : Int)
  | tick (now : Int)
  | release (b : Nat)
deriving DecidableEq, Repr

def Rx.hand (x : Rx) (m : Mach) (rs : List Ready) : Rx :=
  { x with m := m, out := x.out ++ rs.map (·.buffer), log := x.log ++ rs.map (fun r => (r, m.mem (.shared r.buffer))) }

/-- `none`: undefined behaviour or an exception. -/
def next (c : Cfg) (x : Rx) : Event → Option Rx
  | .datagram d now => (receive c x.m d now).map fun r => { x.hand r.1 r.2 with got := x.got ++ [d] }
  | .tick now => (monitor c x.m.s now).map fun r => x.hand { x.m with s := r.1 } r.2
  | .release b => if b ∈ x.out then some { x with m := { x.m with s := push x.m.s b }, out := x.out.erase b } else some x

/-- The buffers 0, ..., n-1 are precharged, and hold anything. -/
def start (c : Cfg) (old : Loc → Nat → Nat) : Rx := { m := { s := { empty := List.range c.buffers }, mem := old } }

def all (c : Cfg) (x : Rx) : List Event → Option Rx
  | [] => some x
  | e :: es => (next c x e).bind (fun x => all c x es)

/-- The number in four bytes of a datagram. -/
def word (d : List Nat) (k : Nat) : Nat := d.getD k 0 + 256 * d.getD (k + 1) 0 + 65536 * d.getD (k + 2) 0 + 16777216 * d.getD (k + 3) 0

/-- The datagram is packet `i` of frame `f`. -/
def IsFor (d : List Nat) (f i : Nat) : Prop := 8 ≤ d.length ∧ word d 0 = f ∧ word d 4 % 1073741824 = i

/-- A datagram as a packet of the decoder, the payload being the number `k` of the datagram. -/
def asPacket (k : Nat) (d : List Nat) : Packet := ⟨word d 0, word d 4 % 1073741824, k⟩

def asEvents (k : Nat) : List Event → List Ev
  | [] => []
  | .datagram d now :: es => .packet (asPacket k d) now :: asEvents (k + 1) es
  | .tick now :: es => .tick now :: asEvents k es
  | .release b :: es => .release b :: asEvents k es

/-- Every datagram has a header and a payload of the size of packets, or more. -/
def Whole (c : Cfg) (es : List Event) : Prop := ∀ d now, .datagram d now ∈ es → 8 + c.size ≤ d.length

/-- Every datagram has a header. -/
def Headed (es : List Event) : Prop := ∀ d now, .datagram d now ∈ es → 8 ≤ d.length

end Spec
open Spec

/-- C166, full statement: every byte of a frame handed on as complete was received in a datagram for that packet of that
frame. -/
def C166_statement : Prop :=
  ∀ (c : Cfg) (old : Loc → Nat → Nat) (es : List Event) (x : Rx), c.accepted = true →
    Every c (Regular c) (init c) (asEvents 0 es) → all c (start c old) es = some x →
    ∀ y ∈ x.log, y.1.buf.state = .complete → ∀ i j, i < c.packets → j < c.size →
      ∃ d ∈ x.got, IsFor d y.1.frame i ∧ 8 + j < d.length ∧ y.2 (i * c.size + j) = d.getD (8 + j) 0

/-! ## Headers -/

theorem peek_whole (h : List (Option Nat)) (d : List Nat) (hh : h.length = 8) (hd : 8 ≤ d.length) :
    peek h d = (d.take 8).map some := by
  unfold peek headerBytes
  rw [List.drop_eq_nil_of_le (by omega), List.append_nil]

theorem eight (d : List Nat) (hd : 8 ≤ d.length) :
    ∃ a0 a1 a2 a3 a4 a5 a6 a7 t, d = a0 :: a1 :: a2 :: a3 :: a4 :: a5 :: a6 :: a7 :: t := by
  match d, hd with
  | a0 :: a1 :: a2 :: a3 :: a4 :: a5 :: a6 :: a7 :: t, _ => exact ⟨a0, a1, a2, a3, a4, a5, a6, a7, t, rfl⟩

theorem numbers_whole (h : List (Option Nat)) (d : List Nat) (hh : h.length = 8) (hd : 8 ≤ d.length) :
    frameNumber (peek h d) = some (word d 0) ∧ packetNumber (peek h d) = some (word d 4 % 1073741824) := by
  rw [peek_whole h d hh hd]
  obtain ⟨a0, a1, a2, a3, a4, a5, a6, a7, t, rfl⟩ := eight d hd
  exact ⟨rfl, rfl⟩

theorem peek_length (h : List (Option Nat)) (d : List Nat) (hh : h.length = 8) : (peek h d).length = 8 := by
  unfold peek headerBytes
  rw [List.length_append, List.length_map, List.length_take, List.length_drop]
  omega

/-! ## Buffers -/

/-- The bytes of every packet that is in a buffer are those of a datagram, as far as it goes. -/
def Held (c : Cfg) (got : List (List Nat)) (b : Buf) (mem : Nat → Nat) : Prop :=
  ∀ i ∈ b.got, ∃ d, got[b.pay i]? = some d ∧ ∀ j, j < c.size → 8 + j < d.length → mem (i * c.size + j) = d.getD (8 + j) 0

theorem held_more {c : Cfg} {got : List (List Nat)} {b : Buf} {mem : Nat → Nat} (h : Held c got b mem) (d : List Nat) :
    Held c (got ++ [d]) b mem := by
  intro i hi
  obtain ⟨e, h1, h2⟩ := h i hi
  refine ⟨e, ?_, h2⟩
  rw [List.getElem?_append_left (by
    have := (List.getElem?_eq_some_iff.1 h1).1
    exact this)]
  exact h1

theorem slots (n i z j : Nat) (hj : j < z) (h : n * z ≤ i * z + j) (h2 : i * z + j < n * z + z) : i = n := by
  rcases Nat.lt_trichotomy i n with h3 | h3 | h3
  · have := Nat.mul_le_mul_right z (show i + 1 ≤ n by omega)
    rw [Nat.add_mul, Nat.one_mul] at this
    omega
  · exact h3
  · have := Nat.mul_le_mul_right z (show n + 1 ≤ i by omega)
    rw [Nat.add_mul, Nat.one_mul] at this
    omega

theorem held_store {c : Cfg} {got : List (List Nat)} {b : Buf} {mem : Loc → Nat → Nat} (l : Loc) (h : Held c got b (mem l))
    (f n : Nat) (d : List Nat) :
    Held c (got ++ [d]) (stored b ⟨f, n, got.length⟩) (place c mem l n d l) := by
  intro i hi
  by_cases hin : i = n
  · subst hin
    refine ⟨d, ?_, ?_⟩
    · show (got ++ [d])[if i = i then got.length else b.pay i]? = some d
      rw [if_pos rfl, List.getElem?_append_right (Nat.le_refl _), Nat.sub_self]
      rfl
    · intro j hj hjd
      unfold place headerBytes
      rw [if_pos ⟨rfl, by omega, by omega⟩]
      congr 1
      omega
  · have hi' : i ∈ b.got := by
      replace hi : i ∈ (if n ∈ b.got then b.got else n :: b.got) := hi
      split at hi
      · exact hi
      · rcases List.mem_cons.1 hi with hi | hi
        · exact absurd hi hin
        · exact hi
    obtain ⟨e, h1, h3⟩ := held_more h d i hi'
    refine ⟨e, ?_, ?_⟩
    · show (got ++ [d])[if i = n then got.length else b.pay i]? = some e
      rw [if_neg hin]
      exact h1
    · intro j hj hjd
      unfold place
      rw [if_neg (by
        rintro ⟨-, g1, g2⟩
        exact hin (slots n i c.size j hj g1 (by omega)))]
      exact h3 j hj hjd

theorem held_same {c : Cfg} {got : List (List Nat)} {a b : Buf} {mem : Nat → Nat} (h : Held c got b mem) (h1 : a.got = b.got)
    (h2 : a.pay = b.pay) : Held c got a mem := by
  unfold Held
  rw [h1, h2]
  exact h

def HeldAll (c : Cfg) (got : List (List Nat)) (s : State) (mem : Loc → Nat → Nat) : Prop :=
  ∀ l, Held c got (s.bufs l) (mem l)

theorem setBuf_held {c : Cfg} {got : List (List Nat)} {s : State} {mem : Loc → Nat → Nat} (h : HeldAll c got s mem) (l : Loc)
    (b : Buf) (hb : Held c got b (mem l)) : HeldAll c got (setBuf s l b) mem := by
  intro k
  show Held c got (if k = l then b else s.bufs k) (mem k)
  split
  · rename_i e; subst e; exact hb
  · exact h k

theorem held_empty (c : Cfg) (got : List (List Nat)) (b : Buf) (mem : Nat → Nat) (h : b.got = []) : Held c got b mem := by
  intro i hi
  rw [h] at hi
  cases hi

theorem select_held {c : Cfg} {got : List (List Nat)} {s t : State} {mem : Loc → Nat → Nat} (h : HeldAll c got s mem) (f : Nat)
    (now : Int) (hs : select c s f now = some t) : HeldAll c got t mem := by
  unfold select at hs
  split at hs
  · cases hs; exact h
  · split at hs
    · split at hs
      · cases hs; exact h
      · cases hs
    · split at hs
      · cases hs
        exact setBuf_held (s := dropFrame s f) h _ _ (held_empty _ _ _ _ rfl)
      · split at hs
        · cases hs
          exact setBuf_held (s := openFrame s f _ _) h _ _ (held_empty _ _ _ _ rfl)
        · cases hs

theorem store_held {c : Cfg} {got : List (List Nat)} {s t : State} {mem : Loc → Nat → Nat} (h : HeldAll c got s mem) (l : Loc)
    (hl : s.cur = some l) (f n : Nat) (d : List Nat) (hs : store c s ⟨f, n, got.length⟩ = some t) :
    HeldAll c (got ++ [d]) t (place c mem l n d) ∧ t.cur = some l := by
  unfold store at hs
  rw [hl] at hs
  simp only at hs
  split at hs
  · cases hs
  · cases hs
    refine ⟨?_, ?_⟩
    · intro k
      rw [countPacket_bufs]
      show Held c (got ++ [d]) (if k = l then stored (s.bufs l) ⟨f, n, got.length⟩ else s.bufs k) (place c mem l n d k)
      split
      · rename_i e
        subst e
        exact held_store k (h k) f n d
      · rename_i e
        have : place c mem l n d k = mem k := by
          funext j
          unfold place
          rw [if_neg (fun g => e g.1)]
        rw [this]
        exact held_more (h k) d
    · unfold countPacket
      split <;> exact hl

theorem finish_held {c : Cfg} {got : List (List Nat)} {s : State} {mem : Loc → Nat → Nat} (h : HeldAll c got s mem)
    (r : State × List Ready) (hs : finish c s = some r) (hc : s.dropping = false → s.cur = some (.shared s.bufId)) :
    HeldAll c got r.1 mem ∧ ∀ y ∈ r.2, Held c got y.buf (mem (.shared y.buffer)) := by
  unfold finish at hs
  cases hl : s.cur with
  | none => rw [hl] at hs; cases hs
  | some l =>
    rw [hl] at hs
    simp only at hs
    split at hs
    · split at hs
      · cases hs
        exact ⟨setBuf_held h l _ (held_same (h l) rfl rfl), fun y hy => (by cases hy)⟩
      · rename_i hdrop
        cases hs
        refine ⟨setBuf_held h l _ (held_same (h l) rfl rfl), ?_⟩
        intro y hy
        cases List.mem_singleton.1 hy
        show Held c got (completed (counted (s.bufs l))) (mem (.shared s.bufId))
        have : l = .shared s.bufId := by
          have := hc (by simpa using hdrop)
          rw [hl] at this
          exact Option.some.inj this
        rw [← this]
        exact held_same (h l) rfl rfl
    · cases hs
      exact ⟨setBuf_held h l _ (held_same (h l) rfl rfl), fun y hy => (by cases hy)⟩

theorem monitor_held {c : Cfg} {got : List (List Nat)} {mem : Loc → Nat → Nat} (now : Int) (m : List (Nat × Nat)) :
    ∀ (s : State) (r : State × List Ready), HeldAll c got s mem → monitorLoop c now m s = some r →
    HeldAll c got r.1 mem ∧ ∀ y ∈ r.2, Held c got y.buf (mem (.shared y.buffer)) := by
  induction m with
  | nil => intro s r h hs; cases hs; exact ⟨h, fun y hy => (by cases hy)⟩
  | cons e m ih =>
    intro s r h hs
    obtain ⟨f, b⟩ := e
    simp only [monitorLoop] at hs
    split at hs
    · split at hs
      · cases hs
      · split at hs
        · obtain ⟨q, hq, e⟩ := Option.map_eq_some_iff.1 hs
          cases e
          have h1 : HeldAll c got (timeOut c s f b).1 mem :=
            setBuf_held h (.shared b) _ (held_same (h (.shared b)) rfl rfl)
          obtain ⟨g1, g2⟩ := ih _ q h1 hq
          refine ⟨g1, ?_⟩
          intro y hy
          rcases List.mem_cons.1 hy with rfl | hy
          · exact held_same (h (.shared b)) rfl rfl
          · exact g2 y hy
        · exact ih s r h hs
    · cases hs

/-! ## The receiver and the decoder -/

/-- The packets of the decoder are the datagrams. -/
structure Same (c : Cfg) (x : Rx) (w : World) : Prop where
  s : x.m.s = w.s
  out : x.out = w.out
  count : x.m.count = x.got.length
  hdr : x.m.hdr.length = 8
  held : HeldAll c x.got x.m.s x.m.mem
  rx : ∀ f, ∀ e ∈ w.rx f, ∃ d, x.got[e.2]? = some d ∧ IsFor d f e.1
  log : ∀ y ∈ x.log, ∃ l, (y.1, l) ∈ w.log ∧ Held c x.got y.1.buf y.2 ∧ ∀ e ∈ l, ∃ d, x.got[e.2]? = some d ∧ IsFor d y.1.frame e.1
  frames : x.log.map (·.1) = w.log.map (·.1)

theorem hand_frames (x : Rx) (w : World) (m : Mach) (s : State) (rs : List Ready) (rx : Nat → List (Nat × Nat))
    (h : x.log.map (·.1) = w.log.map (·.1)) : (x.hand m rs).log.map (·.1) = (w.hand s rs rx).log.map (·.1) := by
  unfold Rx.hand World.hand
  simp only [List.map_append, List.map_map, h]
  rfl

theorem more {got : List (List Nat)} {k : Nat} {d : List Nat} (e : List Nat) (h : got[k]? = some d) : (got ++ [e])[k]? = some d := by
  rw [List.getElem?_append_left (List.getElem?_eq_some_iff.1 h).1]
  exact h

theorem hand_rx (w : World) (s : State) (rs : List Ready) (rx : Nat → List (Nat × Nat)) (f : Nat) (e : Nat × Nat)
    (h : e ∈ (w.hand s rs rx).rx f) : e ∈ rx f := by
  replace h : e ∈ (if lookup s.map f = none then [] else rx f) := h
  split at h
  · cases h
  · exact h

theorem hand_log (w : World) (s : State) (rs : List Ready) (rx : Nat → List (Nat × Nat)) :
    (w.hand s rs rx).log = w.log ++ rs.map (fun r => (r, rx r.frame)) := rfl

theorem own_current {c : Cfg} {s : State} {out : List Nat} (h : Own c s out []) (hn : s.seen ≠ noFrame) (hd : s.dropping = false) :
    s.cur = some (.shared s.bufId) := by
  cases hl : lookup s.map s.seen with
  | some b =>
    obtain ⟨h1, h2⟩ := h.mapped b hl
    rw [h1, h2]
  | none =>
    rcases h.unmapped hl with h1 | h1 | h1
    · exact absurd h1 hn
    · rw [h.scratch h1] at hd; cases hd
    · cases h1

theorem same_datagram (c : Cfg) (x : Rx) (w w' : World) (d : List Nat) (now : Int) (h : Same c x w)
    (hown : Own c w.s w.out w.stale) (hd : 8 ≤ d.length) (hp : Punctual w (asPacket x.got.length d))
    (hs : step c w (.packet (asPacket x.got.length d) now) = some w') :
    ∃ x', next c x (.datagram d now) = some x' ∧ Same c x' w' ∧ x'.got = x.got ++ [d] := by
  obtain ⟨n1, n2⟩ := numbers_whole x.m.hdr d h.hdr (by omega)
  obtain ⟨r, hr, e⟩ := Option.map_eq_some_iff.1 hs
  have hpk := hr
  unfold packet at hr
  obtain ⟨t, h1, hr⟩ := Option.bind_eq_some_iff.1 hr
  obtain ⟨u, h2, hr⟩ := Option.bind_eq_some_iff.1 hr
  cases hl : t.cur with
  | none => unfold store at h2; rw [hl] at h2; cases h2
  | some l =>
    have htar : target c x.m.s (word d 0) now = some l := by
      unfold target
      rw [h.s, show select c w.s (word d 0) now = some t from h1]
      exact hl
    have hrec : receive c x.m d now =
        some (⟨r.1, peek x.m.hdr d, place c x.m.mem l (word d 4 % 1073741824) d, x.m.count + 1⟩, r.2) := by
      unfold receive
      rw [n1, Option.bind_some, n2, Option.bind_some, htar, Option.bind_some, h.s, h.count,
        show packet c w.s ⟨word d 0, word d 4 % 1073741824, x.got.length⟩ now = some r from hpk]
      rfl
    refine ⟨{ x.hand ⟨r.1, peek x.m.hdr d, place c x.m.mem l (word d 4 % 1073741824) d, x.m.count + 1⟩ r.2 with
      got := x.got ++ [d] }, by show (receive c x.m d now).map _ = _; rw [hrec]; rfl, ?_, rfl⟩
    obtain ⟨o1, o2⟩ := select_own c w.s t _ now w.out w.stale hown hp.1 hp.2 h1
    have k1 : HeldAll c x.got t x.m.mem := select_held (by have := h.held; rw [h.s] at this; exact this) _ now h1
    obtain ⟨k2, k3⟩ := store_held k1 l hl _ _ d h2
    obtain ⟨f1, f2, f3, f4, f5, f6⟩ := store_frame c t u _ h2
    have k4 := finish_held k2 r hr (fun hdr => by
      have := own_current o1 (by rw [o2]; exact hp.2) (by rw [← f6.1]; exact hdr)
      rw [f4, f5]
      exact this)
    subst e
    have hrx : ∀ f, ∀ e ∈ rxAdd w.rx (asPacket x.got.length d) f, ∃ d', (x.got ++ [d])[e.2]? = some d' ∧ IsFor d' f e.1 := by
      intro f e he
      unfold rxAdd at he
      split at he
      · rename_i ef
        rcases List.mem_cons.1 he with he | he
        · subst he
          subst ef
          refine ⟨d, ?_, by omega, rfl, rfl⟩
          show (x.got ++ [d])[x.got.length]? = some d
          rw [List.getElem?_append_right (Nat.le_refl _), Nat.sub_self]
          rfl
        · obtain ⟨d', g1, g2⟩ := h.rx f e he
          exact ⟨d', more d g1, g2⟩
      · obtain ⟨d', g1, g2⟩ := h.rx f e he
        exact ⟨d', more d g1, g2⟩
    refine ⟨rfl, ?_, ?_, peek_length _ _ h.hdr, k4.1, ?_, ?_, hand_frames x w _ r.1 _ (rxAdd w.rx (asPacket x.got.length d)) h.frames⟩
    · show x.out ++ _ = w.out ++ _
      rw [h.out]
    · show x.m.count + 1 = (x.got ++ [d]).length
      rw [h.count, List.length_append]; rfl
    · intro f e he
      exact hrx f e (hand_rx w r.1 r.2 _ f e he)
    · intro y hy
      rcases List.mem_append.1 hy with hy | hy
      · obtain ⟨lst, g1, g2, g3⟩ := h.log y hy
        refine ⟨lst, List.mem_append.2 (Or.inl g1), held_more g2 d, ?_⟩
        intro e he
        obtain ⟨d', q1, q2⟩ := g3 e he
        exact ⟨d', more d q1, q2⟩
      · obtain ⟨z, hz, rfl⟩ := List.mem_map.1 hy
        exact ⟨_, List.mem_append.2 (Or.inr (List.mem_map.2 ⟨z, hz, rfl⟩)), k4.2 z hz, hrx z.frame⟩

theorem same_tick (c : Cfg) (x : Rx) (w w' : World) (now : Int) (h : Same c x w) (hs : step c w (.tick now) = some w') :
    ∃ x', next c x (.tick now) = some x' ∧ Same c x' w' ∧ x'.got = x.got := by
  obtain ⟨r, hr, e⟩ := Option.map_eq_some_iff.1 hs
  have hm : monitor c x.m.s now = some r := by rw [h.s]; exact hr
  refine ⟨x.hand { x.m with s := r.1 } r.2, by show (monitor c x.m.s now).map _ = _; rw [hm]; rfl, ?_, rfl⟩
  subst e
  have k := monitor_held now x.m.s.map x.m.s r h.held hm
  refine ⟨rfl, ?_, h.count, h.hdr, k.1, ?_, ?_, hand_frames x w _ r.1 _ w.rx h.frames⟩
  · show x.out ++ _ = w.out ++ _
    rw [h.out]
  · intro f e he
    exact h.rx f e (hand_rx w r.1 r.2 _ f e he)
  · intro y hy
    rcases List.mem_append.1 hy with hy | hy
    · obtain ⟨lst, g1, g2⟩ := h.log y hy
      exact ⟨lst, List.mem_append.2 (Or.inl g1), g2⟩
    · obtain ⟨z, hz, rfl⟩ := List.mem_map.1 hy
      exact ⟨_, List.mem_append.2 (Or.inr (List.mem_map.2 ⟨z, hz, rfl⟩)), k.2 z hz, h.rx z.frame⟩

theorem same_release (c : Cfg) (x : Rx) (w w' : World) (b : Nat) (h : Same c x w) (hs : step c w (.release b) = some w') :
    ∃ x', next c x (.release b) = some x' ∧ Same c x' w' ∧ x'.got = x.got := by
  unfold step at hs
  simp only at hs
  unfold next
  simp only
  by_cases hb : b ∈ w.out
  · rw [if_pos hb] at hs
    cases hs
    rw [if_pos (by rw [h.out]; exact hb)]
    exact ⟨_, rfl, ⟨by show push x.m.s b = push w.s b; rw [h.s], by show x.out.erase b = _; rw [h.out], h.count, h.hdr, h.held,
      h.rx, h.log, h.frames⟩, rfl⟩
  · rw [if_neg hb] at hs
    cases hs
    rw [if_neg (by rw [h.out]; exact hb)]
    exact ⟨_, rfl, h, rfl⟩

theorem init_same (c : Cfg) (old : Loc → Nat → Nat) : Same c (start c old) (init c) :=
  ⟨rfl, rfl, rfl, rfl, fun _ => held_empty _ _ _ _ rfl, fun _ _ he => (by cases he), fun _ hy => (by cases hy), rfl⟩

theorem step_of_next (c : Cfg) (x x' : Rx) (w : World) (e : Event) (es : List Event) (hw : Headed (e :: es)) (h : Same c x w)
    (hs : next c x e = some x') : ∃ a l w', asEvents x.got.length (e :: es) = a :: l ∧ step c w a = some w' := by
  cases e with
  | datagram d now =>
    refine ⟨.packet (asPacket x.got.length d) now, asEvents (x.got.length + 1) es, ?_⟩
    obtain ⟨n1, n2⟩ := numbers_whole x.m.hdr d h.hdr (by have := hw d now (by simp); omega)
    obtain ⟨r, hr, -⟩ := Option.map_eq_some_iff.1 hs
    unfold receive at hr
    rw [n1, Option.bind_some, n2, Option.bind_some] at hr
    obtain ⟨l, -, hr⟩ := Option.bind_eq_some_iff.1 hr
    obtain ⟨q, hq, -⟩ := Option.map_eq_some_iff.1 hr
    rw [h.s, h.count] at hq
    have hq : packet c w.s (asPacket x.got.length d) now = some q := hq
    exact ⟨_, rfl, congrArg (Option.map _) hq⟩
  | tick now =>
    refine ⟨.tick now, asEvents x.got.length es, ?_⟩
    obtain ⟨r, hr, -⟩ := Option.map_eq_some_iff.1 hs
    rw [h.s] at hr
    exact ⟨_, rfl, congrArg (Option.map _) hr⟩
  | release b =>
    by_cases hb : b ∈ w.out
    · exact ⟨_, _, _, rfl, if_pos hb⟩
    · exact ⟨_, _, _, rfl, if_neg hb⟩

/-- The receiver of datagrams does what the decoder of packets does. -/
theorem all_same (c : Cfg) (ha : c.accepted = true) (es : List Event) : ∀ (x x' : Rx) (w : World), Headed es → Same c x w →
    Inv c w → Every c (Regular c) w (asEvents x.got.length es) → all c x es = some x' →
    ∃ w', run c w (asEvents x.got.length es) = some w' ∧ Same c x' w' := by
  induction es with
  | nil => intro x x' w _ h _ _ hr; cases hr; exact ⟨w, rfl, h⟩
  | cons e es ih =>
    intro x x' w hw h hi hp hr
    have hw' : Headed es := fun d now hm => hw d now (List.mem_cons_of_mem _ hm)
    obtain ⟨x1, hx, hr1⟩ := Option.bind_eq_some_iff.1 hr
    obtain ⟨a, l, t, ea, ht⟩ := step_of_next c x x1 w e es hw h hx
    cases e with
    | datagram d now =>
      cases ea
      have hreg := hp.1 _ now rfl
      obtain ⟨x2, g1, g2, g3⟩ := same_datagram c x w t d now h hi.own (hw d now (by simp)) hreg.1 ht
      rw [hx] at g1
      cases g1
      have hlen : x1.got.length = x.got.length + 1 := by rw [g3, List.length_append]; rfl
      obtain ⟨w', q1, q2⟩ := ih x1 x' t hw' g2 (step_inv c ha w t _ hi hp.1 ht) (by rw [hlen]; exact hp.2 t ht) hr1
      rw [hlen] at q1
      exact ⟨w', by show (step c w _).bind _ = _; rw [ht]; exact q1, q2⟩
    | tick now =>
      cases ea
      obtain ⟨x2, g1, g2, g3⟩ := same_tick c x w t now h ht
      rw [hx] at g1
      cases g1
      obtain ⟨w', q1, q2⟩ := ih x1 x' t hw' g2 (step_inv c ha w t _ hi hp.1 ht) (by rw [g3]; exact hp.2 t ht) hr1
      rw [g3] at q1
      exact ⟨w', by show (step c w _).bind _ = _; rw [ht]; exact q1, q2⟩
    | release b =>
      cases ea
      obtain ⟨x2, g1, g2, g3⟩ := same_release c x w t b h ht
      rw [hx] at g1
      cases g1
      obtain ⟨w', q1, q2⟩ := ih x1 x' t hw' g2 (step_inv c ha w t _ hi hp.1 ht) (by rw [g3]; exact hp.2 t ht) hr1
      rw [g3] at q1
      exact ⟨w', by show (step c w _).bind _ = _; rw [ht]; exact q1, q2⟩

theorem got_mem (c : Cfg) (es : List Event) : ∀ x x' : Rx, all c x es = some x' → ∀ d ∈ x'.got,
    d ∈ x.got ∨ ∃ now, Event.datagram d now ∈ es := by
  induction es with
  | nil => intro x x' h d hd; cases h; exact Or.inl hd
  | cons e es ih =>
    intro x x' h d hd
    obtain ⟨x1, hx, hr⟩ := Option.bind_eq_some_iff.1 h
    rcases ih x1 x' hr d hd with h1 | ⟨now, h1⟩
    · cases e with
      | datagram a now =>
        obtain ⟨r, -, e⟩ := Option.map_eq_some_iff.1 hx
        subst e
        rcases List.mem_append.1 h1 with h1 | h1
        · exact Or.inl h1
        · rw [List.mem_singleton.1 h1]; exact Or.inr ⟨now, List.mem_cons_self⟩
      | tick now =>
        obtain ⟨r, -, e⟩ := Option.map_eq_some_iff.1 hx
        subst e
        exact Or.inl h1
      | release b =>
        unfold next at hx
        simp only at hx
        split at hx <;> cases hx <;> exact Or.inl h1
    · exact Or.inr ⟨now, List.mem_cons_of_mem _ h1⟩

/-- C166 for datagrams of any length that have a header, and for timed out frames too: the bytes of a packet that is marked as
received are those of a datagram for it, as far as the datagram goes. What is behind is old (`C166_violated`). -/
theorem C166_headed (c : Cfg) (old : Loc → Nat → Nat) (es : List Event) (x : Rx) (ha : c.accepted = true) (hw : Headed es)
    (hp : Every c (Regular c) (init c) (asEvents 0 es)) (hr : all c (start c old) es = some x) :
    ∀ y ∈ x.log, (∀ i ∈ y.1.buf.got, ∃ d ∈ x.got, IsFor d y.1.frame i ∧
        ∀ j, j < c.size → 8 + j < d.length → y.2 (i * c.size + j) = d.getD (8 + j) 0) ∧
      (y.1.buf.state = .complete → ∀ i, i < c.packets → i ∈ y.1.buf.got) := by
  obtain ⟨w, h1, h2⟩ := all_same c ha es (start c old) x (init c) hw (init_same c old) (init_inv c) hp hr
  intro y hy
  obtain ⟨l, g1, g2, g3⟩ := h2.log y hy
  obtain ⟨g, gc, -⟩ := (run_inv c ha _ w hp h1).log (y.1, l) g1
  refine ⟨?_, ?_⟩
  · intro i hi
    obtain ⟨d, k1, k3⟩ := g2 i hi
    obtain ⟨d', q1, q2⟩ := g3 (i, y.1.buf.pay i) (g.pay i hi)
    rw [k1] at q1
    cases q1
    exact ⟨d, List.mem_of_getElem? k1, q2, k3⟩
  · intro hc i hi
    exact all_of_length g.nodup g.below (by rw [← g.received]; exact gc hc) i hi

/-- C166, proved part: if every datagram has a header and a payload of the size of packets, or more. This holds of timed out
frames too, for the packets marked as received. Missing: short datagrams (`C166_violated`, `C166_empty`; but see `C166_headed`). -/
theorem C166_partial (c : Cfg) (old : Loc → Nat → Nat) (es : List Event) (x : Rx) (ha : c.accepted = true) (hw : Whole c es)
    (hp : Every c (Regular c) (init c) (asEvents 0 es)) (hr : all c (start c old) es = some x) :
    ∀ y ∈ x.log, (∀ i ∈ y.1.buf.got, ∀ j, j < c.size →
        ∃ d ∈ x.got, IsFor d y.1.frame i ∧ 8 + j < d.length ∧ y.2 (i * c.size + j) = d.getD (8 + j) 0) ∧
      (y.1.buf.state = .complete → ∀ i, i < c.packets → i ∈ y.1.buf.got) := by
  intro y hy
  obtain ⟨h1, h2⟩ := C166_headed c old es x ha (fun d now hm => Nat.le_trans (Nat.le_add_right _ _) (hw d now hm)) hp hr y hy
  refine ⟨?_, h2⟩
  intro i hi j hj
  obtain ⟨d, k1, k2, k3⟩ := h1 i hi
  have hl : 8 + c.size ≤ d.length := by
    rcases got_mem c es _ x hr d k1 with h | ⟨now, h⟩
    · cases h
    · exact hw d now h
  exact ⟨d, k1, k2, by omega, k3 j hj (by omega)⟩

/-- In particular the full statement, for whole datagrams. -/
theorem C166_bytes_partial (c : Cfg) (old : Loc → Nat → Nat) (es : List Event) (x : Rx) (ha : c.accepted = true) (hw : Whole c es)
    (hp : Every c (Regular c) (init c) (asEvents 0 es)) (hr : all c (start c old) es = some x) :
    ∀ y ∈ x.log, y.1.buf.state = .complete → ∀ i j, i < c.packets → j < c.size →
      ∃ d ∈ x.got, IsFor d y.1.frame i ∧ 8 + j < d.length ∧ y.2 (i * c.size + j) = d.getD (8 + j) 0 := by
  intro y hy hc i j hi hj
  obtain ⟨h1, h2⟩ := C166_partial c old es x ha hw hp hr y hy
  exact h1 i (h2 hc i hi) j hj

/-! ## Short datagrams -/

/-- Two packets of two bytes per frame, one buffer. -/
def tiny : Cfg := { packets := 2, size := 2, buffers := 1, timeout := 1000 }

/-- A packet of frame `f`, below 256. -/
def dg (f n : Nat) (p : List Nat) : List Nat := [f, 0, 0, 0, n, 0, 0, 0] ++ p

/-- Frame 0, and then frame 1, whose second packet is one byte short. -/
def shortEvents : List Event :=
  [.datagram (dg 0 0 [1, 2]) 0, .datagram (dg 0 1 [3, 4]) 1, .release 0, .datagram (dg 1 0 [5, 6]) 2, .datagram (dg 1 1 [7]) 3]

theorem short_result : (all tiny (start tiny (fun _ _ => 0)) shortEvents).map
    (fun x => x.log.map (fun y => (y.1.frame, y.1.buf.state, (List.range 4).map y.2))) =
    some [(0, .complete, [1, 2, 3, 4]), (1, .complete, [5, 6, 7, 4])] := by decide +kernel

theorem short_regular : Every tiny (Regular tiny) (init tiny) (asEvents 0 shortEvents) :=
  every_of_everyB _ (Regular tiny) (fun w p => decide (p.frame ∉ w.stale) && decide (p.frame ≠ 4294967295) &&
      (decide (p.num < tiny.packets) && decide (p.num ∉ (w.rx p.frame).map (·.1))))
    (fun w p h => by
      simp only [Bool.and_eq_true, decide_eq_true_eq] at h
      exact ⟨h.1, h.2⟩) _ _ (by decide +kernel)

theorem short_got : (all tiny (start tiny (fun _ _ => 0)) shortEvents).map (fun x => x.got) =
    some [dg 0 0 [1, 2], dg 0 1 [3, 4], dg 1 0 [5, 6], dg 1 1 [7]] := by decide +kernel

/-- C166 is false of the code: the number of bytes received is not looked at. The frame is handed on as complete, and its last
byte is of the frame that was in the buffer before. -/
theorem C166_violated : ¬ C166_statement := by
  intro h
  have h1 := short_result
  have h2 := short_got
  cases hr : all tiny (start tiny (fun _ _ => 0)) shortEvents with
  | none => rw [hr] at h1; cases h1
  | some x =>
    rw [hr] at h1 h2
    have h3 : x.log.map (fun y => (y.1.frame, y.1.buf.state, (List.range 4).map y.2)) = _ := Option.some.inj h1
    have h4 : x.got = _ := Option.some.inj h2
    cases hl : x.log with
    | nil => rw [hl] at h3; cases h3
    | cons a t =>
      rw [hl] at h3
      cases ht : t with
      | nil => rw [ht] at h3; exact absurd (congrArg List.length h3) (by simp)
      | cons y u =>
        rw [ht] at h3
        obtain ⟨-, e⟩ := List.cons.inj h3
        obtain ⟨e, -⟩ := List.cons.inj e
        obtain ⟨e1, e2⟩ := Prod.mk.inj e
        obtain ⟨e2, -⟩ := Prod.mk.inj e2
        obtain ⟨d, hd, hf, hlen, -⟩ := h tiny _ shortEvents x (by decide) short_regular hr y (by rw [hl, ht]; simp) e2 1 1
          (by decide) (by decide)
        rw [h4] at hd
        rw [e1] at hf
        obtain ⟨-, f1, f2⟩ := hf
        simp only [List.mem_cons, List.not_mem_nil, or_false] at hd
        rcases hd with rfl | rfl | rfl | rfl
        · exact absurd f1 (by decide)
        · exact absurd f1 (by decide)
        · exact absurd f2 (by decide)
        · exact absurd hlen (by decide)

/-- A datagram of no bytes, which anyone can send, or a call that fails, counts as the last packet once more: it completes a frame
of which one packet has arrived. -/
theorem C166_empty : (all tiny (start tiny (fun _ _ => 9)) [.datagram (dg 0 0 [1, 2]) 0, .datagram [] 1]).map
    (fun x => x.log.map (fun y => (y.1.frame, y.1.buf.state, (List.range 4).map y.2))) =
    some [(0, .complete, [1, 2, 9, 9])] := by decide +kernel

/-- If it is the first of all, the header is read from memory that has not been written. -/
theorem C166_first (c : Cfg) (old : Loc → Nat → Nat) (d : List Nat) (now : Int) (h : d.length < 4) :
    next c (start c old) (.datagram d now) = none := by
  have : frameNumber (peek (start c old).m.hdr d) = none := by
    match d, h with
    | [], _ => rfl
    | [_], _ => rfl
    | [_, _], _ => rfl
    | [_, _, _], _ => rfl
  show (receive c (start c old).m d now).map _ = none
  unfold receive
  rw [this]
  rfl

/-- A datagram that is too long is cut; what is behind the size of packets is lost. -/
theorem C166_long (c : Cfg) (mem : Loc → Nat → Nat) (l : Loc) (n : Nat) (d e : List Nat) (h : d.length = 8 + c.size) :
    place c mem l n (d ++ e) = place c mem l n d := by
  funext k j
  unfold place headerBytes
  rw [List.length_append, show min (d.length + e.length - 8) c.size = min (d.length - 8) c.size by omega]
  split
  · rename_i hc
    rw [List.getD_eq_getElem?_getD, List.getD_eq_getElem?_getD, List.getElem?_append_left (by omega)]
  · rfl

/-- Non-vacuity: two interleaved frames with whole datagrams, one of them longer. -/
def wholeEvents : List Event :=
  [.datagram (dg 0 0 [1, 2]) 0, .datagram (dg 1 1 [7, 8, 9]) 1, .datagram (dg 0 1 [3, 4]) 2, .release 0,
   .datagram (dg 1 0 [5, 6]) 3]

example : Whole tiny wholeEvents := by
  intro d now hm
  simp only [wholeEvents, List.mem_cons, List.not_mem_nil, or_false, reduceCtorEq, false_or, Event.datagram.injEq] at hm
  rcases hm with h | h | h | h <;> obtain ⟨rfl, -⟩ := h <;> decide

example : (all { tiny with buffers := 2 } (start tiny (fun _ _ => 0)) []).isSome = true := rfl

example : (all { tiny with buffers := 2 } (start { tiny with buffers := 2 } (fun _ _ => 0)) wholeEvents).map
    (fun x => x.log.map (fun y => (y.1.frame, y.1.buf.state, (List.range 4).map y.2))) =
    some [(0, .complete, [1, 2, 3, 4]), (1, .complete, [5, 6, 7, 8])] := by decide +kernel

end Verif.Datagram
