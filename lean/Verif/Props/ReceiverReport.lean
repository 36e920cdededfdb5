import Verif.Model.ReceiverReport
import Verif.Props.ReceiverStore
/-! Property C179: the configuration reported by a frame receiver, sent to another one, makes that one like the first. -/
namespace Verif.Receiver
open Verif.Ipc

/-! ## Specification -/

/-- The members that the report of a decoder has. -/
def decMembers (d : UdpDec) : List (Str × Json) :=
  [("enable_packet_logging".toList, .bool d.logging), ("frame_timeout_ms".toList, .num d.timeout),
   ("udp_packets_per_frame".toList, .num d.packets), ("udp_packet_size".toList, .num d.size)]

/-- C179, full statement: whatever a receiver with a decoder reports, if another receiver accepts it, that one has the same settings,
and a decoder initialised with the configuration stored there is configured like the first one. -/
def C179_statement : Prop :=
  ∀ (s : St) (d : UdpDec) (r : Json), Reach s → reported s.cfg (some d) = (r, .ok) → ∀ (e : Env) (path : Str) (d0 : UdpDec),
    (configure e r { cfg := { path := path } }).2 = .ok →
    ∃ dc, (configure e r { cfg := { path := path } }).1.cfg = { s.cfg with decoder := dc } ∧ (initDec dc d0).1 = d

/-! ## Proofs -/

/-- The report of a receiver with a decoder, member by member. -/
def members (c : Config) (d : UdpDec) (ports : Str) (frames : Nat) : List (Str × Json) :=
  [("ctrl_endpoint".toList, .str c.ctrl), ("rx_endpoint".toList, .str c.rx),
   ("frame_ready_endpoint".toList, .str c.ready), ("frame_release_endpoint".toList, .str c.release),
   ("decoder_path".toList, .str c.path), ("decoder_type".toList, .str c.type), ("decoder_config".toList, .obj (decMembers d)),
   ("shared_buffer_name".toList, .str c.name), ("max_buffer_mem".toList, .num c.mem),
   ("rx_type".toList, .str (rxTypeName c.rxType)), ("rx_address".toList, .str c.address), ("rx_ports".toList, .str ports),
   ("rx_recv_buffer_size".toList, .num c.recvSize), ("frame_count".toList, .num frames)]

theorem set_flat (l : List (Str × Json)) (n : Str) (v : Json) (h1 : getlines n = [n]) (h2 : isArray n = some false)
    (h3 : findM l n = none) : setParam (.obj l) n v = (.obj (l ++ [(n, v)]), .ok) := by
  unfold setParam
  rw [h1]
  simp [setParts, h2, h3, walk, final]

theorem set_new (l : List (Str × Json)) (name k n : Str) (v : Json) (h1 : getlines name = [k, n]) (h2 : isArray k = some false)
    (h3 : isArray n = some false) (h4 : findM l k = none) :
    setParam (.obj l) name v = (.obj (l ++ [(k, .obj [(n, v)])]), .ok) := by
  unfold setParam
  rw [h1]
  simp [setParts, h2, h3, h4, walk, final, checked, findM]

theorem set_in (l m : List (Str × Json)) (name k n : Str) (v : Json) (h1 : getlines name = [k, n]) (h2 : isArray k = some false)
    (h3 : isArray n = some false) (h4 : findM l k = some (.obj m)) (h5 : findM m n = none) :
    setParam (.obj l) name v = (.obj (setM l k (.obj (m ++ [(n, v)]))), .ok) := by
  unfold setParam
  rw [h1]
  simp [setParts, h2, h3, h4, h5, walk, final, checked]

theorem setAll_ok (p q : Json) (n : Str) (v : Json) (l : List (Str × Json)) (h : setParam p n v = (q, .ok)) :
    setAll p ((n, v) :: l) = setAll q l := by
  simp [setAll, h]

theorem setAll_append (p q : Json) (a b : List (Str × Json)) (h : setAll p a = (q, .ok)) : setAll p (a ++ b) = setAll q b := by
  induction a generalizing p with
  | nil => cases h; rfl
  | cons x a ih =>
    obtain ⟨n, v⟩ := x
    unfold setAll at h
    rw [List.cons_append]
    conv => lhs; unfold setAll
    cases hs : setParam p n v with
    | mk p' r =>
      rw [hs] at h
      cases r <;> first | exact ih _ h | (cases h)

theorem findM_last (l : List (Str × Json)) (k : Str) (x : Json) (h : findM l k = none) : findM (l ++ [(k, x)]) k = some x := by
  induction l with
  | nil => simp [findM]
  | cons a l ih =>
    obtain ⟨n, v⟩ := a
    simp only [findM, List.cons_append] at h ⊢
    split at h
    · cases h
    · next hn => rw [if_neg hn]; exact ih h

theorem setM_last (l : List (Str × Json)) (k : Str) (x y : Json) (h : findM l k = none) :
    setM (l ++ [(k, x)]) k y = l ++ [(k, y)] := by
  induction l with
  | nil => simp [setM]
  | cons a l ih =>
    obtain ⟨n, v⟩ := a
    simp only [findM] at h
    simp only [setM, List.cons_append]
    split at h
    · cases h
    · next hn => rw [if_neg hn, ih h]

/-- The part of the decoder. -/
theorem setAll_dec (l : List (Str × Json)) (d : UdpDec) (h : findM l "decoder_config".toList = none) :
    setAll (.obj l) (decPart (some d)) = (.obj (l ++ [("decoder_config".toList, .obj (decMembers d))]), .ok) := by
  unfold decPart decCalls
  simp only
  rw [setAll_ok _ _ _ _ _ (set_new l _ "decoder_config".toList "enable_packet_logging".toList _ (by decide +kernel)
    (by decide +kernel) (by decide +kernel) h)]
  rw [setAll_ok _ _ _ _ _ (set_in _ _ _ "decoder_config".toList "frame_timeout_ms".toList _ (by decide +kernel)
    (by decide +kernel) (by decide +kernel) (findM_last _ _ _ h) (findM_none _ _ (by simp only [List.map]; decide +kernel))), setM_last _ _ _ _ h]
  rw [setAll_ok _ _ _ _ _ (set_in _ _ _ "decoder_config".toList "udp_packets_per_frame".toList _ (by decide +kernel)
    (by decide +kernel) (by decide +kernel) (findM_last _ _ _ h)
    (findM_none _ _ (by simp only [List.map, List.cons_append, List.nil_append]; decide +kernel))), setM_last _ _ _ _ h]
  rw [setAll_ok _ _ _ _ _ (set_in _ _ _ "decoder_config".toList "udp_packet_size".toList _ (by decide +kernel)
    (by decide +kernel) (by decide +kernel) (findM_last _ _ _ h)
    (findM_none _ _ (by simp only [List.map, List.cons_append, List.nil_append]; decide +kernel))), setM_last _ _ _ _ h]
  rfl

/-- Several members without structure. -/
theorem setAll_flat (l a : List (Str × Json)) (h : ∀ x ∈ a, getlines x.1 = [x.1] ∧ isArray x.1 = some false ∧ findM l x.1 = none)
    (hd : (a.map (·.1)).Nodup) : setAll (.obj l) a = (.obj (l ++ a), .ok) := by
  induction a generalizing l with
  | nil => rw [List.append_nil]; rfl
  | cons x a ih =>
    obtain ⟨n, v⟩ := x
    obtain ⟨h1, h2, h3⟩ := h (n, v) List.mem_cons_self
    rw [List.map_cons, List.nodup_cons] at hd
    rw [setAll_ok _ _ _ _ _ (set_flat l n v h1 h2 h3), ih _ ?_ hd.2]
    · rw [List.append_assoc]; rfl
    · intro y hy
      obtain ⟨g1, g2, g3⟩ := h y (List.mem_cons_of_mem _ hy)
      refine ⟨g1, g2, ?_⟩
      have hne : y.1 ≠ n := fun e => hd.1 (e ▸ List.mem_map_of_mem (f := (·.1)) hy)
      rw [findM_append l n y.1 v h3, if_neg hne, g3]

theorem findM_none_names (l : List (Str × Json)) (k : Str) (ns : List Str) (h : l.map (·.1) = ns) (hk : k ∉ ns) : findM l k = none :=
  findM_none l k (by rw [h]; exact hk)

/-- The names reported, before and after the decoder. -/
def names1 : List Str :=
  ["ctrl_endpoint", "rx_endpoint", "frame_ready_endpoint", "frame_release_endpoint", "decoder_path", "decoder_type"].map String.toList

def names2 : List Str :=
  ["shared_buffer_name", "max_buffer_mem", "rx_type", "rx_address", "rx_ports", "rx_recv_buffer_size", "frame_count"].map String.toList

theorem names_facts : (∀ n ∈ names1 ++ names2, getlines n = [n] ∧ isArray n = some false) ∧ names1.Nodup ∧ names2.Nodup ∧
    "decoder_config".toList ∉ names1 ∧ (∀ n ∈ names2, n ∉ names1 ++ ["decoder_config".toList]) := by decide +kernel

theorem setAll_calls (c : Config) (d : UdpDec) (ports : Str) (n : Nat) :
    setAll (.obj []) (calls c (some d) ports n) = (.obj (members c d ports n), .ok) := by
  obtain ⟨f1, f2, f3, f4, f5⟩ := names_facts
  unfold calls
  generalize ha : ([("ctrl_endpoint".toList, Json.str c.ctrl), ("rx_endpoint".toList, .str c.rx),
   ("frame_ready_endpoint".toList, .str c.ready), ("frame_release_endpoint".toList, .str c.release),
   ("decoder_path".toList, .str c.path), ("decoder_type".toList, .str c.type)] : List (Str × Json)) = a
  generalize hb : ([("shared_buffer_name".toList, Json.str c.name), ("max_buffer_mem".toList, .num c.mem),
   ("rx_type".toList, .str (rxTypeName c.rxType)), ("rx_address".toList, .str c.address), ("rx_ports".toList, .str ports),
   ("rx_recv_buffer_size".toList, .num c.recvSize), ("frame_count".toList, .num n)] : List (Str × Json)) = b
  have na : a.map (·.1) = names1 := by rw [← ha]; rfl
  have nb : b.map (·.1) = names2 := by rw [← hb]; rfl
  have e1 : setAll (.obj []) a = (.obj a, .ok) := by
    have := setAll_flat [] a (fun x hx => by
      have := f1 x.1 (List.mem_append_left _ (by rw [← na]; exact List.mem_map_of_mem hx))
      exact ⟨this.1, this.2, rfl⟩) (by rw [na]; exact f2)
    rwa [List.nil_append] at this
  have e2 := setAll_dec a d (findM_none_names a _ names1 na f4)
  have e3 : setAll (.obj (a ++ [("decoder_config".toList, .obj (decMembers d))])) b =
      (.obj (a ++ [("decoder_config".toList, .obj (decMembers d))] ++ b), .ok) := by
    refine setAll_flat _ b (fun x hx => ?_) (by rw [nb]; exact f3)
    have hm : x.1 ∈ names2 := by rw [← nb]; exact List.mem_map_of_mem hx
    have := f1 x.1 (List.mem_append_right _ hm)
    exact ⟨this.1, this.2, findM_none_names _ _ (names1 ++ ["decoder_config".toList]) (by rw [List.map_append, na]; rfl) (f5 _ hm)⟩
  rw [List.append_assoc, setAll_append _ _ _ _ e1, setAll_append _ _ _ _ e2, e3, ← ha, ← hb]
  rfl

/-! ### The decoder -/

/-- The values of a decoder that was initialised: 32 bits, and within the limits. -/
def DecOk (d : UdpDec) : Prop := d.timeout < 4294967296 ∧ d.packets ≤ 4195 ∧ d.size ≤ 8964

theorem asUint_lt (j : Json) (n : Nat) (h : j.asUint = some n) : n < 4294967296 := by
  cases j <;> simp only [Json.asUint] at h <;> try cases h
  split at h
  · cases h; omega
  · cases h

theorem paramOr_uint (ps : Json) (name : String) (d n : Nat) (hd : d < 4294967296) (h : paramOr ps name Json.asUint d = some n) :
    n < 4294967296 := by
  unfold paramOr at h
  (repeat' split at h) <;> first | (cases h; exact hd) | exact asUint_lt _ _ h | cases h

theorem decThen_ok {r : UdpDec × Out} {f : UdpDec → UdpDec × Out} (h : (decThen r f).2 = .ok) :
    r.2 = .ok ∧ (f r.1).2 = .ok ∧ decThen r f = f r.1 := by
  obtain ⟨d, o⟩ := r
  cases o <;> first | exact ⟨rfl, h, rfl⟩ | cases h

/-- After an initialisation that returns, the values are in their range. -/
theorem initDec_range (ps : Json) (d : UdpDec) (ht : d.timeout < 4294967296) (h : (initDec ps d).2 = .ok) : DecOk (initDec ps d).1 := by
  unfold initDec at h ⊢
  obtain ⟨o1, h, e1⟩ := decThen_ok h
  rw [e1]
  obtain ⟨o2, h, e2⟩ := decThen_ok h
  rw [e2]
  obtain ⟨o3, h, e3⟩ := decThen_ok h
  rw [e3]
  have t1 : (initLogging ps d).1.timeout = d.timeout := by unfold initLogging; split <;> rfl
  generalize (initLogging ps d).1 = d1 at *
  have t2 : (initTimeout ps d1).1.timeout < 4294967296 := by
    unfold initTimeout
    split
    · rw [t1]; exact ht
    · next n hn => exact paramOr_uint ps _ _ n (by rw [t1]; exact ht) hn
  generalize (initTimeout ps d1).1 = d2 at *
  have t3 : (initPackets ps d2).1.timeout = d2.timeout ∧ (initPackets ps d2).1.packets ≤ 4195 := by
    unfold initPackets at o3 ⊢
    split
    · next hn => rw [hn] at o3; cases o3
    · next n hn =>
      rw [hn] at o3
      dsimp only at o3
      split at o3
      · cases o3
      · exact ⟨rfl, by show n ≤ 4195; omega⟩
  generalize (initPackets ps d2).1 = d3 at *
  unfold initSize at h ⊢
  split
  · next hn => rw [hn] at h; cases h
  · next n hn =>
    rw [hn] at h
    dsimp only at h
    split at h
    · cases h
    · exact ⟨by show d3.timeout < _; rw [t3.1]; exact t2, t3.2, by show n ≤ 8964; omega⟩

theorem asUint_nat (n : Nat) (h : n < 4294967296) : (Json.num n).asUint = some n := by
  simp only [Json.asUint]
  rw [if_pos (by omega)]
  rfl

theorem paramOr_found {α : Type} (l : List (Str × Json)) (name : String) (f : Json → Option α) (d : α) (j : Json) (x : α)
    (h : findM l name.toList = some j) (hf : f j = some x) : paramOr (.obj l) name f d = some x := by
  unfold paramOr
  simp only [h, hf]

theorem decThen_go (d : UdpDec) (f : UdpDec → UdpDec × Out) : decThen (d, .ok) f = f d := rfl

theorem dec_find (d : UdpDec) : findM (decMembers d) "enable_packet_logging".toList = some (.bool d.logging) ∧
    findM (decMembers d) "frame_timeout_ms".toList = some (.num d.timeout) ∧
    findM (decMembers d) "udp_packets_per_frame".toList = some (.num d.packets) ∧
    findM (decMembers d) "udp_packet_size".toList = some (.num d.size) := by
  refine ⟨?_, ?_, ?_, ?_⟩ <;> simp [decMembers, findM]

theorem initLogging_dec (d x : UdpDec) : initLogging (.obj (decMembers d)) x = ({ x with logging := d.logging }, .ok) := by
  unfold initLogging
  rw [paramOr_found _ _ _ _ _ d.logging (dec_find d).1 rfl]

theorem uint_dec (l : List (Str × Json)) (name : String) (x n : Nat) (h : findM l name.toList = some (.num n)) (hn : n < 4294967296) :
    paramOr (.obj l) name Json.asUint x = some n := paramOr_found l name Json.asUint x _ n h (asUint_nat n hn)

theorem initTimeout_of (ps : Json) (x : UdpDec) (n : Nat) (h : paramOr ps "frame_timeout_ms" Json.asUint x.timeout = some n) :
    initTimeout ps x = ({ x with timeout := n }, .ok) := by
  unfold initTimeout; rw [h]

theorem initPackets_of (ps : Json) (x : UdpDec) (n : Nat) (h : paramOr ps "udp_packets_per_frame" Json.asUint x.packets = some n)
    (hn : n ≤ 4195) : initPackets ps x = ({ x with packets := n }, .ok) := by
  unfold initPackets; rw [h]; dsimp only; rw [if_neg (by omega)]

theorem initSize_of (ps : Json) (x : UdpDec) (n : Nat) (h : paramOr ps "udp_packet_size" Json.asUint x.size = some n)
    (hn : n ≤ 8964) : initSize ps x = ({ x with size := n }, .ok) := by
  unfold initSize; rw [h]; dsimp only; rw [if_neg (by omega)]

theorem initTimeout_dec (d x : UdpDec) (h : d.timeout < 4294967296) :
    initTimeout (.obj (decMembers d)) x = ({ x with timeout := d.timeout }, .ok) :=
  initTimeout_of _ x d.timeout (uint_dec _ _ _ _ (dec_find d).2.1 h)

theorem initPackets_dec (d x : UdpDec) (h : d.packets ≤ 4195) :
    initPackets (.obj (decMembers d)) x = ({ x with packets := d.packets }, .ok) :=
  initPackets_of _ x d.packets (uint_dec _ _ _ _ (dec_find d).2.2.1 (by omega)) h

theorem initSize_dec (d x : UdpDec) (h : d.size ≤ 8964) :
    initSize (.obj (decMembers d)) x = ({ x with size := d.size }, .ok) :=
  initSize_of _ x d.size (uint_dec _ _ _ _ (dec_find d).2.2.2 (by omega)) h

/-- C179, proved part, decoder: a decoder in whatever state, initialised with what another one reports, is configured like that one. -/
theorem C179_decoder_partial (d d0 : UdpDec) (h : DecOk d) : initDec (.obj (decMembers d)) d0 = (d, .ok) := by
  obtain ⟨h1, h2, h3⟩ := h
  unfold initDec
  rw [initLogging_dec, decThen_go, initTimeout_dec d _ h1, decThen_go, initPackets_dec d _ h2, decThen_go, initSize_dec d _ h3]

theorem update_step (o p q : Json) (k : Str) (v : Json) (l : List Str) (h1 : getParam (some o) k = some v)
    (h2 : setParam p k v = (q, .ok)) : updateNames o p (k :: l) = updateNames o q l := by
  simp [updateNames, h1, h2]

theorem getParam_plain (l : List (Str × Json)) (k : Str) (v : Json) (h : splitAll k = [k]) (hf : findM l k = some v) :
    getParam (some (.obj l)) k = some v := by
  simp [getParam, h, Ipc.get, hf]

theorem merge_dec (d : UdpDec) : mergeConfig (.obj (decMembers d)) (.obj []) = (.obj (decMembers d), .ok) := by
  have hu : update (.obj (decMembers d)) (.obj []) = (.obj (decMembers d), .ok) := by
    obtain ⟨h1, h2, h3, h4⟩ := dec_find d
    show updateNames _ _ ["enable_packet_logging".toList, "frame_timeout_ms".toList, "udp_packets_per_frame".toList,
      "udp_packet_size".toList] = _
    rw [update_step _ _ _ _ _ _ (getParam_plain _ _ _ (by decide +kernel) h1)
      (set_flat _ _ _ (by decide +kernel) (by decide +kernel) rfl)]
    rw [update_step _ _ _ _ _ _ (getParam_plain _ _ _ (by decide +kernel) h2)
      (set_flat _ _ _ (by decide +kernel) (by decide +kernel)
        (findM_none _ _ (by simp only [List.map, List.nil_append]; decide +kernel)))]
    rw [update_step _ _ _ _ _ _ (getParam_plain _ _ _ (by decide +kernel) h3)
      (set_flat _ _ _ (by decide +kernel) (by decide +kernel)
        (findM_none _ _ (by simp only [List.map, List.cons_append, List.nil_append]; decide +kernel)))]
    rw [update_step _ _ _ _ _ _ (getParam_plain _ _ _ (by decide +kernel) h4)
      (set_flat _ _ _ (by decide +kernel) (by decide +kernel)
        (findM_none _ _ (by simp only [List.map, List.cons_append, List.nil_append]; decide +kernel)))]
    rfl
  simp only [mergeConfig, hu]

theorem setDecoderConfig_report (d : UdpDec) (l : List (Str × Json)) (t : St)
    (hl : findM l "decoder_config".toList = some (.obj (decMembers d))) (h0 : t.cfg.decoder = .obj [])
    (ho : (setDecoderConfig (.obj l) t).2 = .ok) : (setDecoderConfig (.obj l) t).1.cfg.decoder = .obj (decMembers d) := by
  have hp : param (.obj l) "decoder_config" some = some (some (.obj (decMembers d))) := by
    unfold param; simp only [hl]; rfl
  have hm : msgEq (.obj (decMembers d)) t.cfg.decoder = false := by
    rw [h0]; simp [msgEq, MessageEq.block, MessageEq.blockEq, decMembers]
  unfold setDecoderConfig at ho ⊢
  simp only [hp, hm] at ho ⊢
  rw [if_neg (by simp)] at ho ⊢
  cases hc : newClass (.obj l) t with
  | none => rw [hc] at ho; cases ho
  | some b =>
    cases b with
    | true => rfl
    | false => simp only [h0, merge_dec d]

/-- The configuration of the decoder that is stored when a report is sent to a new receiver. -/
theorem configure_decoder (e : Env) (d : UdpDec) (l : List (Str × Json)) (s : St)
    (hl : findM l "decoder_config".toList = some (.obj (decMembers d))) (hp : Ports s.cfg.ports) (h0 : s.cfg.decoder = .obj [])
    (hf : findM l "frames".toList ≠ some (.num 0)) (h : (configure e (.obj l) s).2 = .ok) :
    (configure e (.obj l) s).1.cfg.decoder = .obj (decMembers d) := by
  unfold configure at h ⊢
  obtain ⟨o1, h, e1⟩ := andThen_ok h
  rw [e1]
  obtain ⟨o2, h, e2⟩ := andThen_ok h
  rw [e2]
  have c1 := setDebug_cfg (.obj l) s
  generalize (setDebug (.obj l) s).1 = t1 at *
  have c2 := setFrames_cfg l t1 hf o2
  generalize (setFrames (.obj l) t1).1 = t2 at *
  obtain ⟨o3, h, e3⟩ := andThen_ok h
  rw [e3]
  obtain ⟨o4, h, e4⟩ := andThen_ok h
  rw [e4]
  obtain ⟨o5, h, e5⟩ := andThen_ok h
  rw [e5]
  obtain ⟨o6, h, e6⟩ := andThen_ok h
  rw [e6]
  have d2 : t2.cfg.decoder = .obj [] ∧ Ports t2.cfg.ports := by rw [c2, c1]; exact ⟨h0, hp⟩
  have d3 : (configureIpc e (.obj l) t2).1.cfg.decoder = .obj [] ∧ Ports (configureIpc e (.obj l) t2).1.cfg.ports := by
    unfold configureIpc at o3 ⊢
    obtain ⟨a1, o3, f1⟩ := andThen_ok o3
    rw [f1]
    obtain ⟨a2, o3, f2⟩ := andThen_ok o3
    rw [f2]
    obtain ⟨a3, o3, f3⟩ := andThen_ok o3
    rw [f3]
    obtain ⟨a4, o3, f4⟩ := andThen_ok o3
    rw [f4]
    show (setRelease e (.obj l) _).1.cfg.decoder = _ ∧ Ports (setRelease e (.obj l) _).1.cfg.ports
    rw [setRelease_cfg e l _ a4, setReady_cfg e l _ a3, setRx_cfg e l _ a2, setCtrl_cfg e l _ a1]
    exact d2
  generalize (configureIpc e (.obj l) t2).1 = t3 at *
  have d4 : (configureDecoder e (.obj l) t3).1.cfg.decoder = .obj (decMembers d) ∧
      Ports (configureDecoder e (.obj l) t3).1.cfg.ports := by
    unfold configureDecoder at o4 ⊢
    obtain ⟨a1, o4, f1⟩ := andThen_ok o4
    rw [f1]
    obtain ⟨a2, o4, f2⟩ := andThen_ok o4
    rw [f2]
    obtain ⟨a3, o4, f3⟩ := andThen_ok o4
    rw [f3, loadDecoder_cfg]
    have hx : (setType (.obj l) (setPath (.obj l) t3).1).1.cfg.decoder = .obj [] ∧
        Ports (setType (.obj l) (setPath (.obj l) t3).1).1.cfg.ports := by
      rw [setType_cfg l _ a2, setPath_cfg l _ a1]; exact d3
    refine ⟨setDecoderConfig_report d l _ hl hx.1 a3, ?_⟩
    obtain ⟨x, hx'⟩ := setDecoderConfig_cfg (.obj l) (setType (.obj l) (setPath (.obj l) t3).1).1
    rw [hx']
    exact hx.2
  generalize (configureDecoder e (.obj l) t3).1 = t4 at *
  have d5 : (configureBuffer e (.obj l) t4).1.cfg.decoder = .obj (decMembers d) ∧ Ports (configureBuffer e (.obj l) t4).1.cfg.ports := by
    unfold configureBuffer at o5 ⊢
    obtain ⟨a1, o5, f1⟩ := andThen_ok o5
    rw [f1]
    obtain ⟨a2, o5, f2⟩ := andThen_ok o5
    rw [f2, createManager_cfg, setMem_cfg l _ a2, setName_cfg l _ a1]
    exact d4
  generalize (configureBuffer e (.obj l) t4).1 = t5 at *
  show (configureRx e (.obj l) t5).1.cfg.decoder = _
  unfold configureRx at o6 ⊢
  obtain ⟨a1, o6, f1⟩ := andThen_ok o6
  rw [f1]
  obtain ⟨a2, o6, f2⟩ := andThen_ok o6
  rw [f2]
  obtain ⟨a3, o6, f3⟩ := andThen_ok o6
  rw [f3]
  obtain ⟨a4, o6, f4⟩ := andThen_ok o6
  rw [f4, startThread_cfg]
  have hq : Ports (setRecvSize (.obj l) (setAddress (.obj l) (setRxType (.obj l) t5).1).1).1.cfg.ports := by
    rw [setRecvSize_cfg l _ a3, setAddress_cfg l _ a2, setRxType_cfg l _ a1]; exact d5.2
  rw [setPorts_cfg l _ hq a4, setRecvSize_cfg l _ a3, setAddress_cfg l _ a2, setRxType_cfg l _ a1]
  exact d5.1

/-! ### The receiver -/

theorem paramOr_uint64 (ps : Json) (name : String) (d n : Nat) (hd : d < 18446744073709551616)
    (h : paramOr ps name Json.asUint64 d = some n) : n < 18446744073709551616 := by
  have key (j : Json) (h : j.asUint64 = some n) : n < 18446744073709551616 := by
    cases j <;> simp only [Json.asUint64] at h <;> try cases h
    split at h
    · cases h; omega
    · cases h
  unfold paramOr at h
  (repeat' split at h) <;> first | (cases h; exact hd) | exact key _ h | cases h

theorem paramOr_int (ps : Json) (name : String) (d n : Int) (hd : -2147483648 ≤ d ∧ d < 2147483648)
    (h : paramOr ps name Json.asInt d = some n) : -2147483648 ≤ n ∧ n < 2147483648 := by
  have key (j : Json) (h : j.asInt = some n) : -2147483648 ≤ n ∧ n < 2147483648 := by
    cases j <;> simp only [Json.asInt] at h <;> try cases h
    split at h
    · next hb => cases h; exact hb
    · cases h
  unfold paramOr at h
  (repeat' split at h) <;> first | (cases h; exact hd) | exact key _ h | cases h

/-- Numbers are within the range of their types. -/
theorem range_inv (s : St) (h : Reach s) : s.cfg.mem < 18446744073709551616 ∧ -2147483648 ≤ s.cfg.recvSize ∧ s.cfg.recvSize < 2147483648 := by
  refine Reach.inv (P := fun s => s.cfg.mem < 18446744073709551616 ∧ -2147483648 ≤ s.cfg.recvSize ∧ s.cfg.recvSize < 2147483648)
    ?_ ?_ ?_ ?_ s h
  · intro path; exact ⟨(by decide : 1048576 < 18446744073709551616), (by decide : (-2147483648 : Int) ≤ 30000000), (by decide : (30000000 : Int) < 2147483648)⟩
  · intro e ps
    constructor <;> first
      | (intro s h
         simp only [setMem]
         split
         · exact h
         · next m hm =>
           split
           · exact h
           · exact ⟨paramOr_uint64 ps _ _ m h.1 hm, h.2⟩)
      | (intro s h
         simp only [setRecvSize]
         split
         · exact h
         · next m hm =>
           split
           · exact h
           · exact ⟨h.1, paramOr_int ps _ _ m h.2 hm⟩)
      | step
  · others
  · intro e; others

theorem rxType_round (t : RxType) : rxTypeOf (rxTypeName t) = t := by cases t <;> decide +kernel

theorem given_found {α : Type} (l : List (Str × Json)) (name : String) (f : Json → Option α) (old x : α) (j : Json)
    (h : findM l name.toList = some j) (hf : f j = some x) : Spec.given l name f old = x := by
  simp [Spec.given, h, hf]

theorem given_absent {α : Type} (l : List (Str × Json)) (name : String) (f : Json → Option α) (old : α)
    (h : findM l name.toList = none) : Spec.given l name f old = old := by
  simp [Spec.given, h]

theorem members_find (c : Config) (d : UdpDec) (ports : Str) (n : Nat) :
    findM (members c d ports n) "ctrl_endpoint".toList = some (.str c.ctrl) ∧
    findM (members c d ports n) "rx_endpoint".toList = some (.str c.rx) ∧
    findM (members c d ports n) "frame_ready_endpoint".toList = some (.str c.ready) ∧
    findM (members c d ports n) "frame_release_endpoint".toList = some (.str c.release) ∧
    findM (members c d ports n) "decoder_path".toList = some (.str c.path) ∧
    findM (members c d ports n) "decoder_type".toList = some (.str c.type) ∧
    findM (members c d ports n) "decoder_config".toList = some (.obj (decMembers d)) := by
  refine ⟨?_, ?_, ?_, ?_, ?_, ?_, ?_⟩ <;> simp [members, findM]

theorem members_find2 (c : Config) (d : UdpDec) (ports : Str) (n : Nat) :
    findM (members c d ports n) "shared_buffer_name".toList = some (.str c.name) ∧
    findM (members c d ports n) "max_buffer_mem".toList = some (.num c.mem) ∧
    findM (members c d ports n) "rx_type".toList = some (.str (rxTypeName c.rxType)) ∧
    findM (members c d ports n) "rx_address".toList = some (.str c.address) ∧
    findM (members c d ports n) "rx_ports".toList = some (.str ports) ∧
    findM (members c d ports n) "rx_recv_buffer_size".toList = some (.num c.recvSize) ∧
    findM (members c d ports n) "frames".toList = none ∧ findM (members c d ports n) "debug_level".toList = none := by
  refine ⟨?_, ?_, ?_, ?_, ?_, ?_, ?_, ?_⟩ <;> simp [members, findM]

theorem asUint64_nat (n : Nat) (h : n < 18446744073709551616) : (Json.num n).asUint64 = some n := by
  simp only [Json.asUint64]
  rw [if_pos (by omega)]
  rfl

theorem asInt_int (n : Int) (h : -2147483648 ≤ n ∧ n < 2147483648) : (Json.num n).asInt = some n := by
  simp only [Json.asInt]
  rw [if_pos h]

/-- The settings in a report are those of the receiver; there is no frame count among them. -/
theorem stored_members (c c0 : Config) (d : UdpDec) (ports : Str) (n : Nat) (hm : c.mem < 18446744073709551616)
    (hr : -2147483648 ≤ c.recvSize ∧ c.recvSize < 2147483648) (ht : tokenize ports = c.ports) :
    Spec.stored (members c d ports n) c0 = { c with decoder := c0.decoder, frameCount := c0.frameCount } := by
  obtain ⟨a1, a2, a3, a4, a5, a6, _⟩ := members_find c d ports n
  obtain ⟨b1, b2, b3, b4, b5, b6, b7, _⟩ := members_find2 c d ports n
  unfold Spec.stored
  rw [given_found _ _ _ _ c.ctrl _ a1 rfl, given_found _ _ _ _ c.rx _ a2 rfl, given_found _ _ _ _ c.ready _ a3 rfl,
    given_found _ _ _ _ c.release _ a4 rfl, given_found _ _ _ _ c.path _ a5 rfl, given_found _ _ _ _ c.type _ a6 rfl,
    given_found _ _ _ _ c.name _ b1 rfl, given_found _ _ _ _ c.mem _ b2 (asUint64_nat _ hm),
    given_found _ _ _ _ c.rxType _ b3 (by show some _ = _; rw [rxType_round]),
    given_found _ _ _ _ c.address _ b4 rfl, given_found _ _ _ _ c.ports _ b5 (by show some _ = _; rw [ht]),
    given_found _ _ _ _ c.recvSize _ b6 (asInt_int _ hr), given_absent _ _ _ _ b7]

/-- What a reply that was sent contains. -/
theorem reported_ok (c : Config) (d : UdpDec) (r : Json) (h : reported c (some d) = (r, .ok)) :
    ∃ ports n, portText c.ports = some ports ∧ c.frameCount = some n ∧ r = .obj (members c d ports n) := by
  unfold reported at h
  cases hp : portText c.ports with
  | none => rw [hp] at h; cases h
  | some ports =>
    rw [hp] at h
    dsimp only at h
    cases hf : c.frameCount with
    | none => rw [hf] at h; cases h
    | some n =>
      rw [hf] at h
      dsimp only at h
      rw [setAll_calls] at h
      exact ⟨ports, n, rfl, rfl, (congrArg Prod.fst h).symm⟩

/-- C179, proved part: a new receiver that accepts what another one reports has the same settings, but for the frame count, and stores for
the decoder exactly what the decoder of the other one reported. Missing: the frame count (`C179_violated`). -/
theorem C179_partial (s : St) (d : UdpDec) (r : Json) (hs : Reach s) (hr : reported s.cfg (some d) = (r, .ok)) (e : Env) (path : Str)
    (h : (configure e r { cfg := { path := path } }).2 = .ok) :
    (configure e r { cfg := { path := path } }).1.cfg = { s.cfg with decoder := .obj (decMembers d), frameCount := none } := by
  obtain ⟨ports, n, hp, _, rfl⟩ := reported_ok s.cfg d r hr
  have hP := ports_inv s hs
  have hne : s.cfg.ports ≠ [] := fun e => by rw [(C43_empty _).2 e] at hp; cases hp
  obtain ⟨t, ht, hk⟩ := C43_partial s.cfg.ports hne hP
  have : t = ports := by rw [hp] at ht; cases ht; rfl
  subst this
  obtain ⟨hm, hv⟩ := range_inv s hs
  have hf : findM (members s.cfg d t n) "frames".toList ≠ some (.num 0) := by
    rw [(members_find2 s.cfg d t n).2.2.2.2.2.2.1]; simp
  obtain ⟨dc, hc⟩ := C85_partial e (members s.cfg d t n) _ (.init path) h hf
  have hd := configure_decoder e d (members s.cfg d t n) { cfg := { path := path } } (members_find s.cfg d t n).2.2.2.2.2.2
    (C43_range _) rfl hf h
  rw [hc] at hd ⊢
  rw [stored_members s.cfg _ d t n hm hv hk]
  have : dc = .obj (decMembers d) := hd
  rw [this]

/-! ### A report is accepted -/

theorem andThen_two {r : St × Out} {f : St → St × Out} (h1 : r.2 = .ok) (h2 : (f r.1).2 = .ok) : (andThen r f).2 = .ok := by
  obtain ⟨s, o⟩ := r
  cases h1
  exact h2

theorem param_found {α : Type} (l : List (Str × Json)) (name : String) (f : Json → Option α) (j : Json) (x : α)
    (h : findM l name.toList = some j) (hf : f j = some x) : param (.obj l) name f = some (some x) := by
  unfold param
  simp only [h, hf]
  rfl

theorem param_absent {α : Type} (l : List (Str × Json)) (name : String) (f : Json → Option α) (h : findM l name.toList = none) :
    param (.obj l) name f = some none := by
  unfold param
  simp only [h]

theorem ite_ok (c : Prop) [Decidable c] (s t : St) : (if c then (s, Out.ok) else (t, Out.ok)).2 = .ok := by split <;> rfl

/-- The calls of the surroundings succeed. -/
structure Works (e : Env) (d : UdpDec) : Prop where
  bind : ∀ ep, e.bind ep = true
  load : ∀ path type, e.load path type = true
  init : e.init (.obj (decMembers d)) = true
  manager : ∀ name mem, (e.manager name mem).isSome

theorem loadDecoder_ok (e : Env) (d : UdpDec) (he : Works e d) (s : St) (h : s.cfg.decoder = .obj (decMembers d)) :
    (loadDecoder e s).2 = .ok := by
  unfold loadDecoder
  rw [he.load, h, he.init]
  (repeat' split) <;> first | rfl | contradiction

theorem createManager_ok (e : Env) (d : UdpDec) (he : Works e d) (s : St) : (createManager e s).2 = .ok := by
  have := he.manager s.cfg.name s.cfg.mem
  unfold createManager
  cases hm : e.manager s.cfg.name s.cfg.mem with
  | none => rw [hm] at this; cases this
  | some n => (repeat' split) <;> first | rfl | contradiction

theorem startThread_ok (e : Env) (s : St) (h : s.cfg.rxType ≠ .illegal) : (startThread e s).2 = .ok := by
  unfold startThread
  rw [if_neg h]
  (repeat' split) <;> rfl

theorem setDecoderConfig_ok (d : UdpDec) (l : List (Str × Json)) (t : St) (p ty : Str)
    (hl : findM l "decoder_config".toList = some (.obj (decMembers d))) (h0 : t.cfg.decoder = .obj [])
    (hp : findM l "decoder_path".toList = some (.str p)) (ht : findM l "decoder_type".toList = some (.str ty)) :
    (setDecoderConfig (.obj l) t).2 = .ok := by
  have h1 := param_found l "decoder_config" some _ _ hl rfl
  have hm : msgEq (.obj (decMembers d)) t.cfg.decoder = false := by
    rw [h0]; simp [msgEq, MessageEq.block, MessageEq.blockEq, decMembers]
  unfold setDecoderConfig
  simp only [h1, hm]
  rw [if_neg (by simp)]
  unfold newClass
  rw [param_found l "decoder_path" Json.asStr _ p hp rfl, param_found l "decoder_type" Json.asStr _ ty ht rfl]
  simp only
  cases decide (t.cfg.path ≠ p) || decide (t.cfg.type ≠ ty) with
  | true => rfl
  | false => simp only [h0, merge_dec d]

theorem setPorts_ok (l : List (Str × Json)) (s : St) (t : Str) (h : findM l "rx_ports".toList = some (.str t))
    (hp : portText s.cfg.ports ≠ none) : (setPorts (.obj l) s).2 = .ok := by
  unfold setPorts
  cases hq : portText s.cfg.ports with
  | none => exact absurd hq hp
  | some cur =>
    simp only
    rw [paramOr_found l "rx_ports" Json.asStr cur _ t h rfl]
    exact ite_ok _ _ _

theorem setMem_ok (ps : Json) (s : St) (m : Nat) (h : paramOr ps "max_buffer_mem" Json.asUint64 s.cfg.mem = some m) :
    (setMem ps s).2 = .ok := by
  unfold setMem; rw [h]; exact ite_ok _ _ _

theorem setRecvSize_ok (ps : Json) (s : St) (m : Int) (h : paramOr ps "rx_recv_buffer_size" Json.asInt s.cfg.recvSize = some m) :
    (setRecvSize ps s).2 = .ok := by
  unfold setRecvSize; rw [h]; exact ite_ok _ _ _

theorem uint64_found (l : List (Str × Json)) (name : String) (x n : Nat) (h : findM l name.toList = some (.num n))
    (hn : n < 18446744073709551616) : paramOr (.obj l) name Json.asUint64 x = some n :=
  paramOr_found l name Json.asUint64 x _ n h (asUint64_nat n hn)

theorem int_found (l : List (Str × Json)) (name : String) (x n : Int) (h : findM l name.toList = some (.num n))
    (hn : -2147483648 ≤ n ∧ n < 2147483648) : paramOr (.obj l) name Json.asInt x = some n :=
  paramOr_found l name Json.asInt x _ n h (asInt_int n hn)

theorem setDebug_absent (ps : Json) (s : St) (h : param ps "debug_level" Json.asUint = some none) : setDebug ps s = (s, .ok) := by
  unfold setDebug; rw [h]

theorem setFrames_absent (ps : Json) (s : St) (h : param ps "frames" Json.asUint = some none) : setFrames ps s = (s, .ok) := by
  unfold setFrames; rw [h]

theorem setCtrl_ok (e : Env) (l : List (Str × Json)) (t : St) (x : Str) (hb : e.bind x = true)
    (h : findM l "ctrl_endpoint".toList = some (.str x)) : (setCtrl e (.obj l) t).2 = .ok := by
  unfold setCtrl; rw [param_found l "ctrl_endpoint" Json.asStr _ _ h rfl]
  simp only [hb, if_true]; exact ite_ok _ _ _

theorem setRx_ok (e : Env) (l : List (Str × Json)) (t : St) (x : Str) (hb : e.bind x = true)
    (h : findM l "rx_endpoint".toList = some (.str x)) : (setRx e (.obj l) t).2 = .ok := by
  unfold setRx; rw [param_found l "rx_endpoint" Json.asStr _ _ h rfl]
  simp only [hb, if_true]; exact ite_ok _ _ _

theorem setReady_ok (e : Env) (l : List (Str × Json)) (t : St) (x : Str) (hb : e.bind x = true)
    (h : findM l "frame_ready_endpoint".toList = some (.str x)) : (setReady e (.obj l) t).2 = .ok := by
  unfold setReady; rw [param_found l "frame_ready_endpoint" Json.asStr _ _ h rfl]
  simp only [hb, if_true]; exact ite_ok _ _ _

theorem setRelease_ok (e : Env) (l : List (Str × Json)) (t : St) (x : Str) (hb : e.bind x = true)
    (h : findM l "frame_release_endpoint".toList = some (.str x)) : (setRelease e (.obj l) t).2 = .ok := by
  unfold setRelease; rw [param_found l "frame_release_endpoint" Json.asStr _ _ h rfl]
  simp only [hb, if_true]; exact ite_ok _ _ _

/-- The channels. -/
theorem ipc_ok (e : Env) (l : List (Str × Json)) (s0 : St) (o1 : ∀ t, (setCtrl e (.obj l) t).2 = .ok) (o2 : ∀ t, (setRx e (.obj l) t).2 = .ok)
    (o3 : ∀ t, (setReady e (.obj l) t).2 = .ok) (o4 : ∀ t, (setRelease e (.obj l) t).2 = .ok) :
    (configureIpc e (.obj l) s0).2 = .ok ∧ (configureIpc e (.obj l) s0).1.cfg.decoder = s0.cfg.decoder ∧
      (configureIpc e (.obj l) s0).1.cfg.ports = s0.cfg.ports := by
  have ok : (configureIpc e (.obj l) s0).2 = .ok :=
    andThen_two (o1 _) (andThen_two (o2 _) (andThen_two (o3 _) (andThen_two (o4 _) rfl)))
  refine ⟨ok, ?_⟩
  unfold configureIpc at ok ⊢
  obtain ⟨a1, ok, f1⟩ := andThen_ok ok
  rw [f1]
  obtain ⟨a2, ok, f2⟩ := andThen_ok ok
  rw [f2]
  obtain ⟨a3, ok, f3⟩ := andThen_ok ok
  rw [f3]
  obtain ⟨a4, ok, f4⟩ := andThen_ok ok
  rw [f4]
  show (setRelease e (.obj l) _).1.cfg.decoder = _ ∧ (setRelease e (.obj l) _).1.cfg.ports = _
  rw [setRelease_cfg e l _ a4, setReady_cfg e l _ a3, setRx_cfg e l _ a2, setCtrl_cfg e l _ a1]
  exact ⟨rfl, rfl⟩

/-- The decoder. -/
theorem decoder_ok (e : Env) (d : UdpDec) (he : Works e d) (l : List (Str × Json)) (t3 : St) (p ty : Str) (hp : p ≠ [])
    (h0 : t3.cfg.decoder = .obj []) (a5 : findM l "decoder_path".toList = some (.str p))
    (a6 : findM l "decoder_type".toList = some (.str ty)) (a7 : findM l "decoder_config".toList = some (.obj (decMembers d))) :
    (configureDecoder e (.obj l) t3).2 = .ok ∧ (configureDecoder e (.obj l) t3).1.cfg.ports = t3.cfg.ports := by
  have p1 : (setPath (.obj l) t3).2 = .ok := by
    unfold setPath; rw [paramOr_found l "decoder_path" Json.asStr _ _ _ a5 rfl]
    simp only; rw [if_neg hp]; exact ite_ok _ _ _
  have c1 := setPath_cfg l t3 p1
  have p2 : (setType (.obj l) (setPath (.obj l) t3).1).2 = .ok := by
    unfold setType; rw [paramOr_found l "decoder_type" Json.asStr _ _ _ a6 rfl]
    exact ite_ok _ _ _
  have c2 := setType_cfg l _ p2
  have dd : (setType (.obj l) (setPath (.obj l) t3).1).1.cfg.decoder = .obj [] ∧
      (setType (.obj l) (setPath (.obj l) t3).1).1.cfg.ports = t3.cfg.ports := by rw [c2, c1]; exact ⟨h0, rfl⟩
  have p3 := setDecoderConfig_ok d l _ _ _ a7 dd.1 a5 a6
  have p4 := setDecoderConfig_report d l _ a7 dd.1 p3
  have ok : (configureDecoder e (.obj l) t3).2 = .ok :=
    andThen_two p1 (andThen_two p2 (andThen_two p3 (loadDecoder_ok e d he _ p4)))
  refine ⟨ok, ?_⟩
  unfold configureDecoder at ok ⊢
  obtain ⟨a1, ok, f1⟩ := andThen_ok ok
  rw [f1]
  obtain ⟨a2, ok, f2⟩ := andThen_ok ok
  rw [f2]
  obtain ⟨a3, ok, f3⟩ := andThen_ok ok
  rw [f3, loadDecoder_cfg]
  obtain ⟨x, hx'⟩ := setDecoderConfig_cfg (.obj l) (setType (.obj l) (setPath (.obj l) t3).1).1
  rw [hx']
  exact dd.2

/-- The shared memory. -/
theorem buffer_ok (e : Env) (d : UdpDec) (he : Works e d) (l : List (Str × Json)) (t4 : St) (name : Str) (mem : Nat)
    (hm : mem < 18446744073709551616) (b1 : findM l "shared_buffer_name".toList = some (.str name))
    (b2 : findM l "max_buffer_mem".toList = some (.num mem)) :
    (configureBuffer e (.obj l) t4).2 = .ok ∧ (configureBuffer e (.obj l) t4).1.cfg.ports = t4.cfg.ports := by
  have q1 : (setName (.obj l) t4).2 = .ok := by
    unfold setName; rw [paramOr_found l "shared_buffer_name" Json.asStr _ _ _ b1 rfl]; exact ite_ok _ _ _
  have q2 : (setMem (.obj l) (setName (.obj l) t4).1).2 = .ok := setMem_ok _ _ _ (uint64_found _ _ _ _ b2 hm)
  have ok : (configureBuffer e (.obj l) t4).2 = .ok := andThen_two q1 (andThen_two q2 (createManager_ok e d he _))
  refine ⟨ok, ?_⟩
  unfold configureBuffer at ok ⊢
  obtain ⟨a1, ok, f1⟩ := andThen_ok ok
  rw [f1]
  obtain ⟨a2, ok, f2⟩ := andThen_ok ok
  rw [f2, createManager_cfg, setMem_cfg l _ a2, setName_cfg l _ a1]

/-- The receiver thread. -/
theorem rx_ok (e : Env) (l : List (Str × Json)) (t5 : St) (ty : RxType) (address ports : Str) (size : Int)
    (h1 : portText t5.cfg.ports ≠ none) (h2 : Ports t5.cfg.ports) (hv : -2147483648 ≤ size ∧ size < 2147483648) (hx : ty ≠ .illegal)
    (b3 : findM l "rx_type".toList = some (.str (rxTypeName ty))) (b4 : findM l "rx_address".toList = some (.str address))
    (b5 : findM l "rx_ports".toList = some (.str ports)) (b6 : findM l "rx_recv_buffer_size".toList = some (.num size)) :
    (configureRx e (.obj l) t5).2 = .ok := by
  have r1 : (setRxType (.obj l) t5).2 = .ok := by
    unfold setRxType; rw [paramOr_found l "rx_type" Json.asStr _ _ _ b3 rfl]; exact ite_ok _ _ _
  have r2 : (setAddress (.obj l) (setRxType (.obj l) t5).1).2 = .ok := by
    unfold setAddress; rw [paramOr_found l "rx_address" Json.asStr _ _ _ b4 rfl]; exact ite_ok _ _ _
  have r3 : (setRecvSize (.obj l) (setAddress (.obj l) (setRxType (.obj l) t5).1).1).2 = .ok :=
    setRecvSize_ok _ _ _ (int_found _ _ _ _ b6 hv)
  have hq : (setRecvSize (.obj l) (setAddress (.obj l) (setRxType (.obj l) t5).1).1).1.cfg.ports = t5.cfg.ports := by
    rw [setRecvSize_cfg l _ r3, setAddress_cfg l _ r2, setRxType_cfg l _ r1]
  have r4 := setPorts_ok l (setRecvSize (.obj l) (setAddress (.obj l) (setRxType (.obj l) t5).1).1).1 ports b5
    (by rw [hq]; exact h1)
  have hc : (setPorts (.obj l) (setRecvSize (.obj l) (setAddress (.obj l) (setRxType (.obj l) t5).1).1).1).1.cfg.rxType = ty := by
    rw [setPorts_cfg l _ (by rw [hq]; exact h2) r4, setRecvSize_cfg l _ r3, setAddress_cfg l _ r2, setRxType_cfg l _ r1]
    show Spec.given _ _ _ _ = _
    rw [given_found _ _ _ _ ty _ b3 (by show some _ = _; rw [rxType_round])]
  exact andThen_two r1 (andThen_two r2 (andThen_two r3 (andThen_two r4 (startThread_ok e _ (by rw [hc]; exact hx)))))

theorem accepted_of (c : Config) (d : UdpDec) (ports : Str) (n : Nat) (e : Env) (s0 : St) (h0 : s0.cfg.decoder = .obj [])
    (h1 : portText s0.cfg.ports ≠ none) (h2 : Ports s0.cfg.ports) (hm : c.mem < 18446744073709551616)
    (hv : -2147483648 ≤ c.recvSize ∧ c.recvSize < 2147483648)
    (he : Works e d) (hp : c.path ≠ []) (hx : c.rxType ≠ .illegal) : (configure e (.obj (members c d ports n)) s0).2 = .ok := by
  obtain ⟨a1, a2, a3, a4, a5, a6, a7⟩ := members_find c d ports n
  obtain ⟨b1, b2, b3, b4, b5, b6, b7, b8⟩ := members_find2 c d ports n
  generalize members c d ports n = l at *
  unfold configure
  rw [setDebug_absent _ _ (param_absent _ _ _ b8)]
  show (andThen (setFrames (.obj l) s0) _).2 = _
  rw [setFrames_absent _ _ (param_absent _ _ _ b7)]
  show (andThen (configureIpc e (.obj l) s0) _).2 = _
  obtain ⟨i1, i2, i3⟩ := ipc_ok e l s0 (fun t => setCtrl_ok e l t _ (he.bind _) a1) (fun t => setRx_ok e l t _ (he.bind _) a2)
    (fun t => setReady_ok e l t _ (he.bind _) a3) (fun t => setRelease_ok e l t _ (he.bind _) a4)
  refine andThen_two i1 ?_
  generalize (configureIpc e (.obj l) s0).1 = t3 at *
  obtain ⟨j1, j2⟩ := decoder_ok e d he l t3 _ _ hp (i2.trans h0) a5 a6 a7
  refine andThen_two j1 ?_
  generalize (configureDecoder e (.obj l) t3).1 = t4 at *
  obtain ⟨m1, m2⟩ := buffer_ok e d he l t4 _ _ hm b1 b2
  refine andThen_two m1 ?_
  generalize (configureBuffer e (.obj l) t4).1 = t5 at *
  have hq : t5.cfg.ports = s0.cfg.ports := m2.trans (j2.trans i3)
  exact andThen_two (rx_ok e l t5 _ _ _ _ (by rw [hq]; exact h1) (by rw [hq]; exact h2) hv hx b3 b4 b5 b6) rfl

/-- A new receiver accepts what a receiver with a path of the library and a known kind of reception reports, if all calls of the
surroundings succeed. -/
theorem C179_accepted (s : St) (d : UdpDec) (r : Json) (hs : Reach s) (hr : reported s.cfg (some d) = (r, .ok)) (e : Env) (path : Str)
    (he : Works e d) (hp : s.cfg.path ≠ []) (hx : s.cfg.rxType ≠ .illegal) : (configure e r { cfg := { path := path } }).2 = .ok := by
  obtain ⟨ports, n, _, _, rfl⟩ := reported_ok s.cfg d r hr
  have hq : portText (tokenize "8989,8990".toList) ≠ none := by decide +kernel
  exact accepted_of s.cfg d ports n e _ rfl hq (C43_range _) (range_inv s hs).1 (range_inv s hs).2 he hp hx

example : Works good {} := ⟨fun _ => rfl, fun _ _ => rfl, rfl, fun _ _ => rfl⟩

/-! ### What is not restored -/

/-- A receiver that has been told to stop after three frames. -/
def exThree : St := (configure good (.obj [("frames".toList, .num 3)]) full).1

theorem exThree_report : ∃ r, reported exThree.cfg (some {}) = (r, .ok) ∧
    (configure good r { cfg := { path := lib } }).2 = .ok := by
  have hp : portText exThree.cfg.ports = some "8989,8990".toList := by decide +kernel
  have hf : exThree.cfg.frameCount = some 3 := by decide +kernel
  refine ⟨.obj (members exThree.cfg {} "8989,8990".toList 3), ?_, by decide +kernel⟩
  unfold reported
  rw [hp]
  dsimp only
  rw [hf]
  dsimp only
  rw [setAll_calls]
  rfl

/-- C179 is false of the code: the frame count is reported under a name that is not read. -/
theorem C179_violated : ¬ C179_statement := by
  intro h
  obtain ⟨r, h1, h2⟩ := exThree_report
  have hs : Reach exThree := .configure _ _ _ (.configure _ _ _ (.init lib))
  obtain ⟨dc, hc, _⟩ := h exThree {} r hs h1 good lib {} h2
  rw [C179_partial exThree {} r hs h1 good lib h2] at hc
  have : (none : Option Nat) = exThree.cfg.frameCount := congrArg Config.frameCount hc
  revert this
  decide +kernel

/-- Non-vacuity of `C179_partial` and `C179_accepted`: that receiver is reached, reports, and has a path and a kind of reception. -/
example : Reach exThree ∧ exThree.cfg.path ≠ [] ∧ exThree.cfg.rxType = .udp ∧ exThree.cfg.frameCount = some 3 :=
  ⟨.configure _ _ _ (.configure _ _ _ (.init lib)), by decide +kernel, by decide +kernel, by decide +kernel⟩

example : DecOk ⟨true, 500, 10, 4000⟩ ∧ (initDec (.obj (decMembers ⟨true, 500, 10, 4000⟩)) {}).1 = ⟨true, 500, 10, 4000⟩ := by
  refine ⟨⟨?_, ?_, ?_⟩, ?_⟩ <;> decide +kernel

theorem initSize_over (ps : Json) (x : UdpDec) (n : Nat) (h : paramOr ps "udp_packet_size" Json.asUint x.size = some n)
    (hn : n > 8964) : initSize ps x = ({ x with size := n }, .other) := by
  unfold initSize; rw [h]; dsimp only; rw [if_pos hn]

theorem initDec_over (d d0 : UdpDec) (h1 : d.timeout < 4294967296) (h2 : d.packets ≤ 4195) (h3 : d.size > 8964) (h4 : d.size < 4294967296) :
    initDec (.obj (decMembers d)) d0 = (d, .other) := by
  unfold initDec
  rw [initLogging_dec, decThen_go, initTimeout_dec _ _ h1, decThen_go, initPackets_dec _ _ h2, decThen_go,
    initSize_over _ _ d.size (uint_dec _ _ _ _ (dec_find d).2.2.2 h4) h3]

/-- A packet size over the limit is refused by the decoder and kept all the same; it is then reported, and what is reported is refused
by every decoder. -/
theorem C179_refused_value (d0 : UdpDec) : initDec (.obj [("udp_packet_size".toList, .num 9000)]) {} = (⟨false, 1000, 1, 9000⟩, .other) ∧
    initDec (.obj (decMembers ⟨false, 1000, 1, 9000⟩)) d0 = (⟨false, 1000, 1, 9000⟩, .other) :=
  ⟨by decide +kernel, initDec_over ⟨false, 1000, 1, 9000⟩ d0 (by decide : 1000 < 4294967296) (by decide : 1 ≤ 4195)
    (by decide : 9000 > 8964) (by decide : 9000 < 4294967296)⟩

end Verif.Receiver
