import Verif.Model.TcpConfig

/-
C193: A frame decoder that accepts a configuration has the settings in it.
-/
namespace Verif.Receiver
open Verif.Ipc

/-- Every setting of an accepted message that the decoder has (it reports one of that name) is reported with the value of
the message, and the settings that are not in the message are reported as before. -/
def Taken {D : Type} (init : Json → D → D × Out) (report : D → List (Str × Json)) : Prop :=
  ∀ (l : List (Str × Json)) (d : D) (k : Str) (x : Json), (init (.obj l) d).2 = .ok → (k, x) ∈ report d →
    (k, (findM l k).getD x) ∈ report (init (.obj l) d).1

/-- C193, in full: of both decoders. -/
def C193_statement : Prop := Taken initDec (decCalls []) ∧ Taken initTcp (tcpCalls [])

theorem taken_bool (l : List (Str × Json)) (name : String) (d b : Bool)
    (h : paramOr (.obj l) name Json.asBool d = some b) : (findM l name.toList).getD (.bool d) = .bool b := by
  simp only [paramOr] at h
  cases hf : findM l name.toList with
  | none => rw [hf] at h; cases h; rfl
  | some j =>
    rw [hf] at h
    cases j <;> simp_all [Json.asBool]

theorem taken_uint (l : List (Str × Json)) (name : String) (d n : Nat)
    (h : paramOr (.obj l) name Json.asUint d = some n) : (findM l name.toList).getD (.num d) = .num n := by
  simp only [paramOr] at h
  cases hf : findM l name.toList with
  | none => rw [hf] at h; cases h; rfl
  | some j =>
    rw [hf] at h
    cases j with
    | num i =>
      simp only [Json.asUint] at h
      split at h
      · rename_i hi
        cases h
        simp only [Option.getD_some, Json.num.injEq]
        omega
      · cases h
    | _ => simp [Json.asUint] at h

theorem then_ok {r : UdpDec × Out} {f : UdpDec → UdpDec × Out} (h : (decThen r f).2 = .ok) :
    r.2 = .ok ∧ decThen r f = f r.1 := by
  obtain ⟨d, o⟩ := r
  cases o <;> first | exact ⟨rfl, rfl⟩ | cases h

theorem logging_taken (l : List (Str × Json)) (d : UdpDec) (h : (initLogging (.obj l) d).2 = .ok) :
    ∃ b, initLogging (.obj l) d = ({ d with logging := b }, .ok) ∧
      (findM l "enable_packet_logging".toList).getD (.bool d.logging) = .bool b := by
  unfold initLogging at h ⊢
  cases hp : paramOr (.obj l) "enable_packet_logging" Json.asBool d.logging with
  | none => rw [hp] at h; cases h
  | some b => exact ⟨b, rfl, taken_bool l _ _ b hp⟩

theorem timeout_taken (l : List (Str × Json)) (d : UdpDec) (h : (initTimeout (.obj l) d).2 = .ok) :
    ∃ n, initTimeout (.obj l) d = ({ d with timeout := n }, .ok) ∧
      (findM l "frame_timeout_ms".toList).getD (.num d.timeout) = .num n := by
  unfold initTimeout at h ⊢
  cases hp : paramOr (.obj l) "frame_timeout_ms" Json.asUint d.timeout with
  | none => rw [hp] at h; cases h
  | some b => exact ⟨b, rfl, taken_uint l _ _ b hp⟩

theorem packets_taken (l : List (Str × Json)) (d : UdpDec) (h : (initPackets (.obj l) d).2 = .ok) :
    ∃ n, initPackets (.obj l) d = ({ d with packets := n }, .ok) ∧ n ≤ 4195 ∧
      (findM l "udp_packets_per_frame".toList).getD (.num d.packets) = .num n := by
  unfold initPackets at h ⊢
  cases hp : paramOr (.obj l) "udp_packets_per_frame" Json.asUint d.packets with
  | none => rw [hp] at h; cases h
  | some b =>
    rw [hp] at h
    dsimp only at h ⊢
    by_cases hb : b > 4195
    · rw [if_pos hb] at h; cases h
    · rw [if_neg hb]; exact ⟨b, rfl, by omega, taken_uint l _ _ b hp⟩

theorem size_taken (l : List (Str × Json)) (d : UdpDec) (h : (initSize (.obj l) d).2 = .ok) :
    ∃ n, initSize (.obj l) d = ({ d with size := n }, .ok) ∧ n ≤ 8964 ∧
      (findM l "udp_packet_size".toList).getD (.num d.size) = .num n := by
  unfold initSize at h ⊢
  cases hp : paramOr (.obj l) "udp_packet_size" Json.asUint d.size with
  | none => rw [hp] at h; cases h
  | some b =>
    rw [hp] at h
    dsimp only at h ⊢
    by_cases hb : b > 8964
    · rw [if_pos hb] at h; cases h
    · rw [if_neg hb]; exact ⟨b, rfl, by omega, taken_uint l _ _ b hp⟩

/-- The UDP decoder, in whatever state, has the settings of every message it accepts. -/
theorem C193_partial : Taken initDec (decCalls []) := by
  intro l d k x h hx
  unfold initDec at h ⊢
  obtain ⟨o1, e1⟩ := then_ok h
  rw [e1] at h ⊢
  obtain ⟨b, eb, tb⟩ := logging_taken l d o1
  rw [eb] at h ⊢
  obtain ⟨o2, e2⟩ := then_ok h
  rw [e2] at h ⊢
  obtain ⟨t, et, tt⟩ := timeout_taken l _ o2
  rw [et] at h ⊢
  obtain ⟨o3, e3⟩ := then_ok h
  rw [e3] at h ⊢
  obtain ⟨p, ep, _, tp⟩ := packets_taken l _ o3
  rw [ep] at h ⊢
  obtain ⟨s, es, _, ts⟩ := size_taken l _ h
  rw [es]
  simp only [decCalls, List.nil_append, List.mem_cons, List.not_mem_nil, or_false, Prod.mk.injEq] at hx ⊢
  rcases hx with ⟨rfl, rfl⟩ | ⟨rfl, rfl⟩ | ⟨rfl, rfl⟩ | ⟨rfl, rfl⟩
  · exact Or.inl ⟨rfl, tb⟩
  · exact Or.inr (Or.inl ⟨rfl, tt⟩)
  · exact Or.inr (Or.inr (Or.inl ⟨rfl, tp⟩))
  · exact Or.inr (Or.inr (Or.inr ⟨rfl, ts⟩))

/-- What it accepts is within its limits. -/
theorem C193_limits (l : List (Str × Json)) (d : UdpDec) (h : (initDec (.obj l) d).2 = .ok) :
    (initDec (.obj l) d).1.packets ≤ 4195 ∧ (initDec (.obj l) d).1.size ≤ 8964 := by
  unfold initDec at h ⊢
  obtain ⟨o1, e1⟩ := then_ok h
  rw [e1] at h ⊢
  obtain ⟨o2, e2⟩ := then_ok h
  rw [e2] at h ⊢
  obtain ⟨o3, e3⟩ := then_ok h
  rw [e3] at h ⊢
  obtain ⟨p, ep, hp, _⟩ := packets_taken l _ o3
  rw [ep] at h ⊢
  obtain ⟨s, es, hs, _⟩ := size_taken l _ h
  rw [es]
  exact ⟨hp, hs⟩

/-- The TCP decoder accepts every message, and has the settings of none. -/
theorem C193_tcp (ps : Json) (d : TcpDec) : initTcp ps d = (d, .ok) := rfl

/-- What the TCP decoder reports of itself, whatever it holds; the size of a frame is that of the class. -/
theorem C193_report (pre : Str) (d : TcpDec) : (tcpCalls pre d).map Prod.snd = [.bool d.logging, .num d.timeout, .num 1000] ∧
    (tcpCalls pre d).map (fun p => String.ofList (p.1.drop pre.length)) = ["enable_packet_logging", "frame_timeout_ms", "frame_size"] := by
  simp [tcpCalls]

theorem C193_violated : ¬ C193_statement := by
  intro h
  have := h.2 [("frame_timeout_ms".toList, .num 50)] {} "frame_timeout_ms".toList (.num 1000) rfl (by simp [tcpCalls])
  rw [show findM [("frame_timeout_ms".toList, Json.num 50)] "frame_timeout_ms".toList = some (.num 50) by
    simp [findM]] at this
  simp [tcpCalls, initTcp] at this

/-- The buffers of the TCP decoder have room for all its frames, each of them; of the frames there is room for in the
shared memory, it can hold one in five. -/
theorem C193_memory (memory frame : Nat) : memory / tcpBuffer 5 frame = memory / frame / 5 := by
  rw [Nat.div_div_eq_div_mul, tcpBuffer, Nat.mul_comm]

/-! Concrete cases: a message that is accepted, one that is refused. -/

example : initDec (.obj [("udp_packet_size".toList, .num 8000), ("udp_packets_per_frame".toList, .num 23)]) {} =
    (⟨false, 1000, 23, 8000⟩, .ok) := by decide +kernel
example : (initDec (.obj [("udp_packets_per_frame".toList, .num 5000)]) {}).2 = .other := by decide +kernel
example : initTcp (.obj [("frame_timeout_ms".toList, .str [])]) {} = ({}, .ok) := rfl
example : 1048576 / tcpBuffer 5 1000 = 209 ∧ 1048576 / 1000 = 1048 := by decide

end Verif.Receiver
