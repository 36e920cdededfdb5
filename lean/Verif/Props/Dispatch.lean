import Verif.Model.Dispatch
import Verif.Props.IpcMessage
/-! Property C187: each plugin gets exactly the part of a configuration that is under its name. -/
namespace Verif.Dispatch
open Verif.Ipc

/-! ## What is meant -/

namespace Spec

/-- The value of a member, of the first one of that name. -/
def member : List (Str × Json) → Str → Option Json
  | [], _ => none
  | (k, v) :: l, n => if k = n then some v else member l n

/-- The parts of a configuration for these plugins, in their order. -/
def parts (l : List (Str × Json)) (plugins : List Str) : List (Str × Json) := plugins.filterMap fun n => (member l n).map fun v => (n, v)

/-- Up to the first that is refused, and with it. -/
def upTo (accepts : Str → Json → Bool) : List (Str × Json) → List (Str × Json)
  | [] => []
  | (n, v) :: l => if accepts n v then (n, v) :: upTo accepts l else [(n, v)]

end Spec
open Spec

/-- The full claim: a configuration of one plugin that this plugin accepts is accepted, and reaches it and no other one. -/
def C187_statement : Prop :=
  ∀ (plugins : List Str), plugins.Nodup → ∀ n ∈ plugins, ∀ v : Json, isObj v = true → ∀ accepts : Str → Json → Bool, accepts n v = true →
    configure (fun _ => some plugins) accepts (.obj [(n, v)]) = ([(n, v)], .ok)

theorem findM_member (l : List (Str × Json)) (n : Str) : findM l n = member l n := by
  induction l with
  | nil => rfl
  | cons x l ih =>
    obtain ⟨k, v⟩ := x
    unfold findM member
    rw [ih]

theorem has_plain (l : List (Str × Json)) (n : Str) (h : '/' ∉ n) : hasParam (some (.obj l)) n = some (member l n).isSome := by
  unfold hasParam
  rw [splitAll_plain n h]
  simp only [has, findM_member]
  cases member l n <;> rfl

theorem get_plain (l : List (Str × Json)) (n : Str) (h : '/' ∉ n) : getParam (some (.obj l)) n = member l n := by
  unfold getParam
  rw [splitAll_plain n h]
  simp only [Option.bind_some, Ipc.get, findM_member]
  cases member l n <;> rfl

/-- The loop over the plugins, for names without a slash: what each of them gets, up to the first that refuses. -/
theorem C187_loop (accepts : Str → Json → Bool) (l : List (Str × Json)) (plugins : List Str) (h : ∀ n ∈ plugins, '/' ∉ n) :
    (dispatch accepts (.obj l) plugins).1 = upTo accepts (parts l plugins) ∧
      ((dispatch accepts (.obj l) plugins).2 = .ok ↔ ∀ x ∈ parts l plugins, accepts x.1 x.2 = true) := by
  induction plugins with
  | nil => exact ⟨rfl, by simp [dispatch, parts]⟩
  | cons n ns ih =>
    obtain ⟨ih1, ih2⟩ := ih fun m hm => h m (List.mem_cons_of_mem _ hm)
    have hn := h n (List.mem_cons_self ..)
    unfold dispatch
    rw [has_plain l n hn, get_plain l n hn]
    cases hm : member l n with
    | none =>
      have hp : parts l (n :: ns) = parts l ns := by simp [parts, hm]
      rw [hp]
      exact ⟨ih1, ih2⟩
    | some v =>
      have hp : parts l (n :: ns) = (n, v) :: parts l ns := by simp [parts, hm]
      rw [hp]
      simp only [Option.isSome_some]
      by_cases ha : accepts n v = true
      · rw [if_pos ha]
        refine ⟨?_, ?_⟩
        · show (n, v) :: _ = _
          rw [ih1]
          simp [upTo, ha]
        · show _ ↔ _
          rw [List.forall_mem_cons, ih2]
          simp [ha]
      · rw [if_neg ha]
        refine ⟨by simp [upTo, ha], ?_⟩
        simp [ha]

/-- A setting that the message does not have. -/
theorem fits_absent (l : List (Str × Json)) (k : Str) (t : Json → Bool) (hk : '/' ∉ k) (h : member l k = none) : fits (.obj l) (k, t) = true := by
  unfold fits
  simp only [has_plain l k hk, h, Option.isSome_none]

theorem fits_master (l : List (Str × Json)) (t : Json → Bool) (h : ∀ v, member l "hdf".toList = some v → ∃ m, v = .obj m ∧ member m "master".toList = none) :
    fits (.obj l) ("hdf/master".toList, t) = true := by
  have hs : splitAll "hdf/master".toList = ["hdf".toList, "master".toList] := by decide +kernel
  unfold fits hasParam
  simp only [hs, has, findM_member]
  cases hm : member l "hdf".toList with
  | none => rfl
  | some v =>
    obtain ⟨m, rfl, h2⟩ := h v hm
    simp only [has, findM_member, h2]

/-- No setting of the controller is in the message; a part for a plugin `hdf` may be, without `master`. -/
def Foreign (l : List (Str × Json)) : Prop :=
  (∀ k ∈ ["frames", "debug_level", "ctrl_endpoint", "meta_endpoint", "plugin", "fr_setup", "store", "execute"], member l k.toList = none) ∧
    ∀ v, member l "hdf".toList = some v → ∃ m, v = .obj m ∧ member m "master".toList = none

theorem own_fits (l : List (Str × Json)) (h : Foreign l) : own.all (fits (.obj l)) = true := by
  have hs : ∀ k ∈ ["frames", "debug_level", "ctrl_endpoint", "meta_endpoint", "plugin", "fr_setup", "store", "execute"], '/' ∉ k.toList := by decide +kernel
  have hk : ∀ k ∈ ["frames", "debug_level", "ctrl_endpoint", "meta_endpoint", "plugin", "fr_setup", "store", "execute"], ∀ t, fits (.obj l) (k.toList, t) = true :=
    fun k hm t => fits_absent l _ t (hs k hm) (h.1 k hm)
  simp only [own, List.all_cons, List.all_nil, Bool.and_true, Bool.and_eq_true]
  refine ⟨fits_master l _ h.2, hk "frames" (by simp) _, hk "debug_level" (by simp) _, hk "ctrl_endpoint" (by simp) _, hk "meta_endpoint" (by simp) _,
    hk "plugin" (by simp) _, hk "fr_setup" (by simp) _, hk "store" (by simp) _, hk "execute" (by simp) _⟩

/-- For plugins without a slash in their names, and messages without settings of the controller: every plugin gets its part, once, and is given
nothing else, up to the first that refuses. The message is accepted exactly if all of them accept. Missing: other names. -/
theorem C187_partial (accepts : Str → Json → Bool) (l : List (Str × Json)) (plugins : List Str) (hp : ∀ n ∈ plugins, '/' ∉ n) (hl : Foreign l) :
    (configure (fun _ => some plugins) accepts (.obj l)).1 = upTo accepts (parts l plugins) ∧
      ((configure (fun _ => some plugins) accepts (.obj l)).2 = .ok ↔ ∀ x ∈ parts l plugins, accepts x.1 x.2 = true) := by
  unfold configure
  rw [if_pos (own_fits l hl)]
  exact C187_loop accepts l plugins hp

theorem parts_one (n : Str) (v : Json) (plugins : List Str) (hd : plugins.Nodup) (h : n ∈ plugins) : parts [(n, v)] plugins = [(n, v)] := by
  have hf : ∀ ns : List Str, n ∉ ns → parts [(n, v)] ns = [] := by
    intro ns hn
    unfold parts
    rw [List.filterMap_eq_nil_iff]
    intro m hm
    have : n ≠ m := by rintro rfl; exact hn hm
    simp [member, this]
  induction plugins with
  | nil => simp at h
  | cons m ms ih =>
    rw [List.nodup_cons] at hd
    by_cases hm : m = n
    · subst hm
      have : parts [(m, v)] (m :: ms) = (m, v) :: parts [(m, v)] ms := by simp [parts, member]
      rw [this, hf ms hd.1]
    · have hx : n ∈ ms := by
        rcases List.mem_cons.1 h with h | h
        · exact absurd h.symm hm
        · exact h
      have : parts [(n, v)] (m :: ms) = parts [(n, v)] ms := by
        have : n ≠ m := fun h => hm h.symm
        simp [parts, member, this]
      rw [this]
      exact ih hd.2 hx

/-- The claim for plugins with names of their own. -/
theorem C187_one (plugins : List Str) (hd : plugins.Nodup) (hp : ∀ n ∈ plugins, '/' ∉ n) (n : Str) (hn : n ∈ plugins) (v : Json)
    (hl : Foreign [(n, v)]) (accepts : Str → Json → Bool) (ha : accepts n v = true) :
    configure (fun _ => some plugins) accepts (.obj [(n, v)]) = ([(n, v)], .ok) := by
  obtain ⟨h1, h2⟩ := C187_partial accepts [(n, v)] plugins hp hl
  rw [parts_one n v plugins hd hn] at h1 h2
  have h2 := h2.2 (by simp [ha])
  refine Prod.ext ?_ h2
  rw [h1]
  simp [upTo, ha]

/-- The claim is false: a plugin may be loaded under the name of a setting, and then no configuration of it is accepted. -/
theorem C187_violated : ¬ C187_statement := by
  intro h
  have := congrArg Prod.snd (h ["frames".toList] (by decide) _ (List.mem_singleton_self _) (.obj []) rfl (fun _ _ => true) rfl)
  revert this
  decide +kernel

/-- Whatever else is loaded and whatever the plugin would say. -/
theorem C187_setting (apply : Json → Option (List Str)) (accepts : Str → Json → Bool) (m l : List (Str × Json)) (h : member l "frames".toList = some (.obj m)) :
    configure apply accepts (.obj l) = ([], .refused) := by
  have hf : fits (.obj l) ("frames".toList, fun v => v.asUint.isSome) = false := by
    unfold fits
    have hs : '/' ∉ "frames".toList := by decide +kernel
    simp only [has_plain l _ hs, get_plain l _ hs, h, Option.isSome_some]
    rfl
  have : own.all (fits (.obj l)) = false := by
    rw [List.all_eq_false]
    exact ⟨_, List.mem_cons_of_mem _ (List.mem_cons_self ..), by rw [hf]; simp⟩
  unfold configure
  rw [this]
  rfl

namespace Spec

/-- What the controller takes for its own settings: numbers, texts and objects. -/
inductive Takes : String → Json → Prop
  | frames (n : Nat) (h : n < 2 ^ 32) : Takes "frames" (.num n)
  | debug (n : Nat) (h : n < 2 ^ 32) : Takes "debug_level" (.num n)
  | ctrl (s : Str) : Takes "ctrl_endpoint" (.str s)
  | info (s : Str) : Takes "meta_endpoint" (.str s)
  | plugin (m : List (Str × Json)) : Takes "plugin" (.obj m)
  | receiver (m : List (Str × Json)) : Takes "fr_setup" (.obj m)
  | store (m : List (Str × Json)) : Takes "store" (.obj m)
  | execute (m : List (Str × Json)) : Takes "execute" (.obj m)

end Spec

theorem setting_refused (apply : Json → Option (List Str)) (accepts : Str → Json → Bool) (l : List (Str × Json)) (k : Str) (ok : Json → Bool) (v : Json)
    (hk : (k, ok) ∈ own) (hs : '/' ∉ k) (h : member l k = some v) (hv : ok v = false) : configure apply accepts (.obj l) = ([], .refused) := by
  have hf : fits (.obj l) (k, ok) = false := by
    unfold fits
    simp only [has_plain l _ hs, get_plain l _ hs, h, Option.isSome_some, hv]
  have : own.all (fits (.obj l)) = false := by
    rw [List.all_eq_false]
    exact ⟨_, hk, by rw [hf]; simp⟩
  unfold configure
  rw [this]
  rfl

theorem text_other {v : Json} (h : ∀ s, v ≠ .str s) : v.asStr.isSome = false := by
  cases v <;> first | rfl | exact absurd rfl (h _)
theorem obj_other {v : Json} (h : ∀ m, v ≠ .obj m) : isObj v = false := by
  cases v <;> first | rfl | exact absurd rfl (h _)
theorem uint_other {v : Json} (h : ∀ n : Nat, n < 2 ^ 32 → v ≠ .num n) : v.asUint.isSome = false := by
  cases v with
  | num i =>
    show (if 0 ≤ i ∧ i < 4294967296 then some i.toNat else none).isSome = false
    by_cases hi : 0 ≤ i ∧ i < 4294967296
    · exact absurd (by rw [Int.toNat_of_nonneg hi.1]) (h i.toNat (by omega))
    · rw [if_neg hi]; rfl
  | _ => rfl

/-- Each setting of the controller is refused with a value of another type, whatever the plugins are and would say: no plugin sees the
configuration. -/
theorem C187_types (apply : Json → Option (List Str)) (accepts : Str → Json → Bool) (l : List (Str × Json)) (k : String) (v : Json)
    (hk : k ∈ ["frames", "debug_level", "ctrl_endpoint", "meta_endpoint", "plugin", "fr_setup", "store", "execute"])
    (h : member l k.toList = some v) (hv : ¬ Spec.Takes k v) : configure apply accepts (.obj l) = ([], .refused) := by
  have hs : ∀ k ∈ ["frames", "debug_level", "ctrl_endpoint", "meta_endpoint", "plugin", "fr_setup", "store", "execute"], '/' ∉ k.toList := by
    decide +kernel
  have hs := hs k hk
  simp only [List.mem_cons, List.not_mem_nil, or_false] at hk
  rcases hk with rfl | rfl | rfl | rfl | rfl | rfl | rfl | rfl
  · exact setting_refused apply accepts l _ _ v (.tail _ (.head _)) hs h (uint_other fun n hn e => hv (e ▸ .frames n hn))
  · exact setting_refused apply accepts l _ _ v (.tail _ (.tail _ (.head _))) hs h (uint_other fun n hn e => hv (e ▸ .debug n hn))
  · exact setting_refused apply accepts l _ _ v (.tail _ (.tail _ (.tail _ (.head _)))) hs h (text_other fun s e => hv (e ▸ .ctrl s))
  · exact setting_refused apply accepts l _ _ v (.tail _ (.tail _ (.tail _ (.tail _ (.head _))))) hs h (text_other fun s e => hv (e ▸ .info s))
  · exact setting_refused apply accepts l _ _ v (.tail _ (.tail _ (.tail _ (.tail _ (.tail _ (.head _)))))) hs h (obj_other fun s e => hv (e ▸ .plugin s))
  · exact setting_refused apply accepts l _ _ v (.tail _ (.tail _ (.tail _ (.tail _ (.tail _ (.tail _ (.head _))))))) hs h (obj_other fun s e => hv (e ▸ .receiver s))
  · exact setting_refused apply accepts l _ _ v (.tail _ (.tail _ (.tail _ (.tail _ (.tail _ (.tail _ (.tail _ (.head _)))))))) hs h (obj_other fun s e => hv (e ▸ .store s))
  · exact setting_refused apply accepts l _ _ v (.tail _ (.tail _ (.tail _ (.tail _ (.tail _ (.tail _ (.tail _ (.tail _ (.head _))))))))) hs h (obj_other fun s e => hv (e ▸ .execute s))

example : configure (fun _ => some []) (fun _ _ => true) (.obj [("fr_setup".toList, .num 3)]) = ([], .refused) :=
  C187_types _ _ _ "fr_setup" _ (by decide +kernel) (by rfl) (by
    intro h
    generalize hk : "fr_setup" = k at h
    generalize hv : Json.num 3 = v at h
    cases h with
    | frames n => exact absurd hk (by decide)
    | debug n => exact absurd hk (by decide)
    | _ => cases hv)

/-- A setting that is refused for what it says: the message is refused, and no plugin sees it. -/
theorem C187_unapplied (apply : Json → Option (List Str)) (accepts : Str → Json → Bool) (j : Json) (h : apply j = none) :
    configure apply accepts j = ([], .refused) := by
  unfold configure
  rw [h]
  split <;> rfl

/-- A name with a slash is taken for a path: what is under the name itself reaches nobody, and is accepted. -/
theorem C187_slash (accepts : Str → Json → Bool) (v : Json) :
    configure (fun _ => some ["raw/hdf".toList]) accepts (.obj [("raw/hdf".toList, v)]) = ([], .ok) := by
  have h1 : own.all (fits (.obj [("raw/hdf".toList, v)])) = true := by
    refine own_fits _ ⟨?_, ?_⟩
    · intro k hk
      have : "raw/hdf".toList ≠ k.toList := by revert k; decide +kernel
      simp only [member, if_neg this]
    · intro w hw
      have : "raw/hdf".toList ≠ "hdf".toList := by decide +kernel
      simp only [member, if_neg this] at hw
      cases hw
  have hs : splitAll "raw/hdf".toList = ["raw".toList, "hdf".toList] := by decide +kernel
  have h2 : hasParam (some (.obj [("raw/hdf".toList, v)])) "raw/hdf".toList = some false := by
    have : "raw/hdf".toList ≠ "raw".toList := by decide +kernel
    unfold hasParam
    simp only [hs, has, findM_member, member, if_neg this]
  unfold configure
  rw [if_pos h1]
  unfold dispatch
  simp only [h2]
  rfl

/-- And a part of what is meant for one plugin reaches another one. -/
theorem C187_nested : configure (fun _ => some ["raw".toList, "raw/hdf".toList]) (fun _ _ => true)
      (.obj [("raw".toList, .obj [("hdf".toList, .obj [])])]) =
    ([("raw".toList, .obj [("hdf".toList, .obj [])]), ("raw/hdf".toList, .obj [])], .ok) := by rfl

/-- Of several plugins, those before one that refuses have their new configuration, the others not; the reply does not say which. -/
theorem C187_half (v w x : Json) (accepts : Str → Json → Bool) (h1 : accepts "a".toList v = true) (h2 : accepts "b".toList w = false) :
    dispatch accepts (.obj [("c".toList, x), ("b".toList, w), ("a".toList, v)]) ["a".toList, "b".toList, "c".toList] =
      ([("a".toList, v), ("b".toList, w)], .refused) := by
  have h := C187_loop accepts [("c".toList, x), ("b".toList, w), ("a".toList, v)] ["a".toList, "b".toList, "c".toList] (by decide +kernel)
  have hp : parts [("c".toList, x), ("b".toList, w), ("a".toList, v)] ["a".toList, "b".toList, "c".toList] =
    [("a".toList, v), ("b".toList, w), ("c".toList, x)] := by rfl
  rw [hp] at h
  refine Prod.ext ?_ ?_
  · rw [h.1]
    simp only [upTo, h1, h2, if_true]
    rfl
  · cases ho : (dispatch accepts (.obj [("c".toList, x), ("b".toList, w), ("a".toList, v)]) ["a".toList, "b".toList, "c".toList]).2 with
    | refused => rfl
    | ok =>
      have := h.2.1 ho ("b".toList, w) (by simp)
      rw [h2] at this
      cases this

/-- Non-vacuity: two plugins and a message for both. -/
example : Foreign [("hdf".toList, .obj [("write".toList, .bool true)]), ("blosc".toList, .obj [])] := by
  refine ⟨by decide +kernel, ?_⟩
  intro v hv
  have : v = .obj [("write".toList, .bool true)] := (Option.some.inj hv).symm
  subst this
  exact ⟨_, rfl, by decide +kernel⟩
example : configure (fun _ => some ["blosc".toList, "hdf".toList]) (fun _ _ => true)
    (.obj [("hdf".toList, .obj [("write".toList, .bool true)]), ("blosc".toList, .obj [])]) =
    ([("blosc".toList, .obj []), ("hdf".toList, .obj [("write".toList, .bool true)])], .ok) := by rfl

end Verif.Dispatch
