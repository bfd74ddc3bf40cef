import Verif.Props.ConfigFile
import Verif.Props.ConfigExample
/-
  C49: exactly the files that describe a set of proxies are accepted.
-/
namespace SSP21.Config
open Tool (Outcome)
open Spec

theorem optionalString_ok {n : Yaml} {k d s : String} : optionalString n k d = .ok s ↔ Optional Text n k d s := by
  unfold optionalString Optional Text
  simp only [bind_ok]
  constructor
  · rintro ⟨a, h1, h2⟩
    obtain ⟨hs, rfl⟩ := get_ok.1 h1
    refine ⟨hs, ?_⟩
    split at h2
    · cases h2
      simp_all
    · cases h2
      simp_all
    · cases h2
  · rintro ⟨h1, h2⟩
    refine ⟨entry n k, get_ok.2 ⟨h1, rfl⟩, ?_⟩
    split at h2
    · rename_i he
      rw [he, h2]
    · rename_i he
      subst h2
      rw [he]

theorem flowControl_ok {n : Yaml} {f : FlowControl} :
    getFlowControl n = .ok f ↔ ∃ t, Optional Text n "flow_control" "none" t ∧ (t, f) ∈ flowControls := by
  unfold getFlowControl
  simp only [bind_ok, optionalString_ok]
  refine exists_congr fun t => and_congr_right fun _ => ?_
  constructor
  · intro h
    split at h <;> cases h <;> decide
  · intro h
    simp only [flowControls, List.mem_cons, Prod.mk.injEq, List.not_mem_nil, or_false] at h
    rcases h with ⟨rfl, rfl⟩ | ⟨rfl, rfl⟩ | ⟨rfl, rfl⟩ <;> rfl

theorem stopBits_ok {n : Yaml} {f : StopBits} :
    getStopBits n = .ok f ↔ ∃ t, Optional Text n "stop_bits" "one" t ∧ (t, f) ∈ Spec.stopBits := by
  unfold getStopBits
  simp only [bind_ok, optionalString_ok]
  refine exists_congr fun t => and_congr_right fun _ => ?_
  constructor
  · intro h
    split at h <;> cases h <;> decide
  · intro h
    simp only [Spec.stopBits, List.mem_cons, Prod.mk.injEq, List.not_mem_nil, or_false] at h
    rcases h with ⟨rfl, rfl⟩ | ⟨rfl, rfl⟩ | ⟨rfl, rfl⟩ <;> rfl

/-- **Serial line**: the settings of the line to a source of quantum keys are accepted iff every entry of the section has a
meaning, and then they are what the section means; only the device must be given. -/
theorem C49_serial (w : World) (n : Yaml) (s : SerialSettings) : readSerialSettings w n = .ok s ↔ SerialMeans w n s := by
  unfold readSerialSettings SerialMeans
  simp only [bind_ok, requireString_ok, optionalUInt32_ok, flowControl_ok, stopBits_ok]
  constructor
  · rintro ⟨a, h1, b, h2, c, h3, d, h4, e, h5, h6⟩
    cases h6
    exact ⟨h1, h2, h3, h4, h5⟩
  · rintro ⟨h1, h2, h3, h4, h5⟩
    exact ⟨_, h1, _, h2, _, h3, _, h4, _, h5, rfl⟩

theorem uint16_of {w : World} {n : Yaml} {k : String} {v : Int} (h : Required (Number w 0 65535) n k v) :
    ∃ x : UInt16, (x.toNat : Int) = v := by
  obtain ⟨_, _, _, _, _, h1, h2⟩ := h
  exact ⟨UInt16.ofNat v.toNat, by rw [UInt16.toNat_ofNat']; omega⟩

theorem requireDuration_ok {w : World} {n : Yaml} {k : String} {v : Int} :
    requireDuration w n k = .ok v ↔ Required (Timeout w) n k v := by
  unfold requireDuration Required
  simp only [bind_ok, require_ok, getDurationValue_ok]

theorem createQkdSource_ok {w : World} {n : Yaml} {r : Qix.Router} {id : String} (hid : Required Text n "qkd_source_id" id) :
    createQkdSource w n = .ok r ↔ SourceMeans w n (id, r) := by
  unfold createQkdSource SourceMeans
  simp only [bind_ok, requireString_ok]
  constructor
  · rintro ⟨t, h1, h2⟩
    split at h2
    · simp only [bind_ok, require_ok, requireUInt16_ok, requireDuration_ok, C49_serial] at h2
      obtain ⟨m, h3, k, h4, p, h5, b, h6, l, h7, s, h8, h9⟩ := h2
      cases h9
      exact ⟨hid, h1, h4, rfl, ⟨m, p, _, h3, h5, h6⟩, s, l, h7, h8⟩
    · cases h2
  · rintro ⟨-, h1, h4, h, ⟨m, p, b, h3, h5, h6⟩, s, l, h7, h8⟩
    obtain ⟨x, rfl⟩ := uint16_of h6
    refine ⟨_, h1, ?_⟩
    simp only [bind_ok, require_ok, requireUInt16_ok, requireDuration_ok, C49_serial]
    refine ⟨m, h3, _, h4, p, h5, x, h6, l, h7, s, h8, ?_⟩
    cases r
    cases h
    rfl

theorem configureQkdSource_ok {w : World} {n : Yaml} {reg reg' : Registry} :
    configureQkdSource w n reg = .ok reg' ↔ ∃ s, SourceMeans w n s ∧ s.1 ∉ reg.map (·.1) ∧ reg' = reg ++ [s] := by
  unfold configureQkdSource
  simp only [bind_ok, requireString_ok]
  have any_iff : ∀ id : String, (reg.any (·.1 = id)) = true ↔ id ∈ reg.map (·.1) := by
    intro id
    simp only [List.any_eq_true, decide_eq_true_eq, List.mem_map]
  constructor
  · rintro ⟨id, h1, h2⟩
    split at h2
    · cases h2
    · rename_i hn
      simp only [bind_ok] at h2
      obtain ⟨r, h3, h4⟩ := h2
      cases h4
      exact ⟨(id, r), (createQkdSource_ok h1).1 h3, fun h => hn ((any_iff id).2 h), rfl⟩
  · rintro ⟨⟨id, r⟩, h1, h2, rfl⟩
    refine ⟨id, h1.1, ?_⟩
    rw [if_neg (fun h => h2 ((any_iff id).1 h))]
    simp only [bind_ok]
    exact ⟨r, (createQkdSource_ok h1.1).2 h1, rfl⟩

/-- **Sources**: the sources of quantum keys are accepted iff each item has a meaning and no two have the same name; they are
registered in the order of the file. -/
theorem readSources_ok {w : World} {l : List Yaml} {reg reg' : Registry} (hr : (reg.map (·.1)).Nodup) :
    readSources w l reg = .ok reg' ↔
      ∃ sources, List.Forall₂ (SourceMeans w) l sources ∧ reg' = reg ++ sources ∧ (reg'.map (·.1)).Nodup := by
  induction l generalizing reg with
  | nil =>
    unfold readSources
    constructor
    · intro h
      cases h
      exact ⟨[], .nil, by simp, hr⟩
    · rintro ⟨s, h1, h2, -⟩
      cases h1
      simp [h2]
  | cons n l ih =>
    unfold readSources
    simp only [bind_ok, configureQkdSource_ok]
    constructor
    · rintro ⟨_, ⟨s, h1, h2, rfl⟩, h3⟩
      have hn : ((reg ++ [s]).map (·.1)).Nodup := by
        rw [List.map_append, List.nodup_append]
        exact ⟨hr, by simp, by rintro a ha b hb rfl; simp only [List.map_cons, List.map_nil, List.mem_singleton] at hb; exact h2 (hb ▸ ha)⟩
      obtain ⟨ss, h4, h5, h6⟩ := (ih hn).1 h3
      exact ⟨s :: ss, .cons h1 h4, by simp [h5], h6⟩
    · rintro ⟨sources, h1, rfl, h3⟩
      cases h1 with
      | @cons _ s _ ss h1 h4 =>
        have e : reg ++ s :: ss = (reg ++ [s]) ++ ss := by simp
        rw [e, List.map_append] at h3
        have hn := (List.nodup_append.1 h3).1
        refine ⟨reg ++ [s], ⟨s, h1, ?_, rfl⟩, (ih hn).2 ⟨ss, h4, e, by rw [e, List.map_append]; exact h3⟩⟩
        rw [List.map_append] at hn
        exact fun h => (List.nodup_append.1 hn).2.2 _ h _ (by simp) rfl

theorem log_ok {n : Yaml} : checkLog n = .ok () ↔ LogMeans n := by
  unfold checkLog LogMeans
  simp only [bind_ok, requireString_ok]
  constructor
  · rintro ⟨i, h1, l, h2, h3⟩
    split at h3
    · rename_i h
      refine ⟨i, l, h1, h2, fun c hc => ?_⟩
      have := List.all_eq_true.1 h c hc
      simpa [logLevels] using this
    · cases h3
  · rintro ⟨i, l, h1, h2, h3⟩
    refine ⟨i, h1, l, h2, if_pos (List.all_eq_true.2 fun c hc => ?_)⟩
    have := h3 c hc
    simpa [logLevels] using this

/-! ### stores -/

theorem find_name {reg : Registry} {id : String} : (∃ x, reg.find? (·.1 = id) = some (id, x)) ↔ id ∈ reg.map (·.1) := by
  constructor
  · rintro ⟨x, h⟩
    exact List.mem_map.2 ⟨_, List.mem_of_find?_eq_some h, rfl⟩
  · intro h
    cases hf : reg.find? (·.1 = id) with
    | none =>
      obtain ⟨x, hx, rfl⟩ := List.mem_map.1 h
      have := List.find?_eq_none.1 hf x hx
      simp at this
    | some x =>
      have := List.find?_some hf
      simp only [decide_eq_true_eq] at this
      subst this
      exact ⟨x.2, rfl⟩

/-- What a source knows after the store was handed out. -/
theorem bindKeyStore_iff {w : World} {n : Yaml} {reg : Registry} {s : String × UInt16} :
    (∃ reg', bindKeyStore w n reg = .ok (s, reg')) ↔
      Spec.Store w n s ∧ (∃ m : UInt16, Required (Number w 0 65535) n "max_key_cache_size" (m.toNat : Int)) ∧
      s.1 ∈ reg.map (·.1) ∧ ¬ Bound reg s := by
  constructor
  · rintro ⟨reg', h⟩
    have hb := (bindKeyStore_bound h).1
    obtain ⟨h1, source, -, -, h3, -, -⟩ := bindKeyStore_ok h
    unfold bindKeyStore at h
    simp only [bind_ok, requireString_ok] at h
    obtain ⟨id, -, h2⟩ := h
    split at h2
    · cases h2
    simp only [bind_ok, requireUInt16_ok] at h2
    obtain ⟨sub, -, m, h4, -⟩ := h2
    exact ⟨h1, ⟨m, h4⟩, find_name.1 ⟨_, h3⟩, hb⟩
  · rintro ⟨⟨h1, h2⟩, ⟨m, h3⟩, h4, h5⟩
    obtain ⟨source, h6⟩ := find_name.2 h4
    unfold bindKeyStore
    simp only [bind_ok, requireString_ok]
    have hb : source.bind s.2 m = some { source with subscribers := source.subscribers ++ [(s.2, ⟨m, []⟩)] } := by
      unfold Qix.Router.bind
      rw [if_neg]
      intro h
      simp only [List.any_eq_true, decide_eq_true_eq] at h
      obtain ⟨x, hx, he⟩ := h
      exact h5 ⟨source, h6, x, hx, he⟩
    refine ⟨reg.map fun x => if x.1 = s.1 then (x.1, { source with subscribers := source.subscribers ++ [(s.2, ⟨m, []⟩)] }) else x,
      s.1, h1, ?_⟩
    rw [h6]
    simp only [bind_ok, requireUInt16_ok]
    refine ⟨_, h2, _, h3, ?_⟩
    rw [hb]

theorem map_names (reg : Registry) (id : String) (r : Qix.Router) :
    (reg.map fun x => if x.1 = id then (x.1, r) else x).map (·.1) = reg.map (·.1) := by
  rw [List.map_map]
  apply List.map_congr_left
  intro x _
  dsimp only [Function.comp]
  split <;> rfl

theorem find_map_inv {reg : Registry} {id : String} {source' : Qix.Router} {id' : String} {source : Qix.Router}
    (h : (reg.map fun x => if x.1 = id then (x.1, source') else x).find? (·.1 = id') = some (id', source)) :
    ∃ old, reg.find? (·.1 = id') = some (id', old) ∧ source = if id' = id then source' else old := by
  have hm : id' ∈ reg.map (·.1) := by
    rw [← map_names reg id source']
    exact find_name.1 ⟨_, h⟩
  obtain ⟨old, ho⟩ := find_name.2 hm
  refine ⟨old, ho, ?_⟩
  rw [find_map ho] at h
  cases h
  rfl

theorem bindKeyStore_after {w : World} {n : Yaml} {reg reg' : Registry} {s : String × UInt16}
    (h : bindKeyStore w n reg = .ok (s, reg')) : reg'.map (·.1) = reg.map (·.1) ∧ ∀ t, Bound reg' t → Bound reg t ∨ t = s := by
  obtain ⟨-, source, source', m, h1, h2, rfl⟩ := bindKeyStore_ok h
  obtain ⟨h3, h4⟩ := bind_sub h2
  refine ⟨map_names _ _ _, ?_⟩
  rintro t ⟨so, h5, x, h6, h7⟩
  obtain ⟨old, h8, rfl⟩ := find_map_inv h5
  split at h6
  · rename_i he
    rw [h4, List.mem_append, List.mem_singleton] at h6
    rw [he, h1] at h8
    rcases h6 with h6 | rfl
    · left
      refine ⟨source, ?_, x, h6, h7⟩
      rw [he, h1]
    · right
      exact Prod.ext he h7.symm
  · exact .inl ⟨old, h8, x, h6, h7⟩

/-! ### one session -/

/-- The store is free: its source is known and it was not handed out. -/
def Free (reg : Registry) (s : String × UInt16) : Prop := s.1 ∈ reg.map (·.1) ∧ ¬ Bound reg s

/-- How the registry of stores develops when a session is read. -/
def Step (reg reg' : Registry) (s : Option (String × UInt16)) : Prop :=
  match s with
  | none => reg' = reg
  | some s => Free reg s ∧ reg'.map (·.1) = reg.map (·.1) ∧ ∀ t, Bound reg' t ↔ Bound reg t ∨ t = s

theorem bindKeyStore_step {w : World} {n : Yaml} {reg reg' : Registry} {s : String × UInt16}
    (h : bindKeyStore w n reg = .ok (s, reg')) : Step reg reg' (some s) := by
  have h1 := bindKeyStore_iff.1 ⟨_, h⟩
  obtain ⟨h2, h3⟩ := bindKeyStore_after h
  obtain ⟨-, h4, h5⟩ := bindKeyStore_bound h
  exact ⟨⟨h1.2.2.1, h1.2.2.2⟩, h2, fun t => ⟨h3 t, fun h => h.elim (h5 t) (fun e => e ▸ h4)⟩⟩

/-- The store that the keys of an initiator come from. -/
def initiatorStore : InitiatorKeys → Option (String × UInt16)
  | .qkd _ s => some s
  | _ => none

def responderStore : ResponderKeys → Option (String × UInt16)
  | .qkd s => some s
  | _ => none

def Cache (w : World) (n : Yaml) : Prop := ∃ m : UInt16, Required (Number w 0 65535) n "max_key_cache_size" (m.toNat : Int)

theorem handshakeMode_iff {n : Yaml} {m : HandshakeMode} : getHandshakeMode n = .ok m ↔
    (m = .shared_secret ∧ Required Text n "type" "shared_secret") ∨
    (m = .quantum_key_distribution ∧ Required Text n "type" "qkd") ∨
    (m = .public_keys ∧ Required Text n "type" "preshared_public_key") ∨
    (m = .industrial_certificates ∧ Required Text n "type" "certificate") := by
  refine ⟨handshakeMode_ok, fun h => ?_⟩
  unfold getHandshakeMode
  simp only [bind_ok, requireString_ok]
  rcases h with ⟨rfl, h⟩ | ⟨rfl, h⟩ | ⟨rfl, h⟩ | ⟨rfl, h⟩ <;> exact ⟨_, h, rfl⟩

theorem initiator_accept {w : World} {n : Yaml} {reg : Registry} {k : InitiatorKeys} :
    (∃ m reg', getHandshakeMode n = .ok m ∧ getInitiatorKeys w n m reg = .ok (k, reg')) ↔
      InitiatorSecrets w n k ∧ AlgorithmsMean n k ∧ (initiatorStore k ≠ none → Cache w n) ∧
      ∀ s, initiatorStore k = some s → Free reg s := by
  constructor
  · rintro ⟨m, reg', hm, h⟩
    obtain ⟨h1, h2, h3⟩ := initiatorKeys_ok hm h
    refine ⟨h1, ⟨h3, ?_⟩, ?_⟩
    · cases k with
      | certificates s a b c =>
        cases m <;> unfold getInitiatorKeys at h <;> dsimp only at h <;> try (simp only [bind_ok, require_ok] at h)
        case industrial_certificates =>
          obtain ⟨_, _, _, _, _, _, x, hx, h⟩ := h
          cases h
          exact ⟨⟨x, hx⟩, rfl⟩
        case shared_secret => obtain ⟨_, _, _, _, _, _, h⟩ := h; cases h
        case public_keys => obtain ⟨_, _, _, _, _, _, _, _, h⟩ := h; cases h
        case quantum_key_distribution => obtain ⟨⟨_, _⟩, _, _, _, h⟩ := h; cases h
        case undefined => cases h
      | sharedSecret => exact h2 (by simp)
      | qkd => exact h2 (by simp)
      | preshared => exact h2 (by simp)
    · cases k with
      | qkd su s =>
        cases m <;> unfold getInitiatorKeys at h <;> dsimp only at h <;> try (simp only [bind_ok, require_ok] at h)
        case quantum_key_distribution =>
          obtain ⟨⟨s', reg1⟩, hb, _, _, h⟩ := h
          cases h
          obtain ⟨-, a, b, c⟩ := bindKeyStore_iff.1 ⟨_, hb⟩
          refine ⟨fun _ => a, fun t ht => ?_⟩
          cases ht
          exact ⟨b, c⟩
        case industrial_certificates => obtain ⟨_, _, _, _, _, _, x, hx, h⟩ := h; cases h
        case shared_secret => obtain ⟨_, _, _, _, _, _, h⟩ := h; cases h
        case public_keys => obtain ⟨_, _, _, _, _, _, _, _, h⟩ := h; cases h
        case undefined => cases h
      | sharedSecret => exact ⟨fun h => absurd rfl h, fun _ h => by cases h⟩
      | preshared => exact ⟨fun h => absurd rfl h, fun _ h => by cases h⟩
      | certificates => exact ⟨fun h => absurd rfl h, fun _ h => by cases h⟩
  · rintro ⟨h1, ⟨h2, h3⟩, h4, h5⟩
    cases k with
    | sharedSecret su key =>
      obtain ⟨ht, p, hp, hk⟩ := h1
      refine ⟨_, reg, handshakeMode_iff.2 (.inl ⟨rfl, ht⟩), ?_⟩
      unfold getInitiatorKeys
      simp only [bind_ok, requireString_ok, getCryptoKey_ok, suite_ok]
      exact ⟨p, hp, key, hk, su, ⟨h3, h2⟩, rfl⟩
    | qkd su s =>
      obtain ⟨ht, hs⟩ := h1
      obtain ⟨a, b⟩ := h5 s rfl
      obtain ⟨reg', hb⟩ := bindKeyStore_iff.2 ⟨hs, h4 (by simp [initiatorStore]), a, b⟩
      refine ⟨_, reg', handshakeMode_iff.2 (.inr (.inl ⟨rfl, ht⟩)), ?_⟩
      unfold getInitiatorKeys
      simp only [bind_ok, suite_ok]
      exact ⟨_, hb, su, ⟨h3, h2⟩, rfl⟩
    | preshared su keys remote =>
      obtain ⟨ht, ho, p, hp, hk⟩ := h1
      refine ⟨_, reg, handshakeMode_iff.2 (.inr (.inr (.inl ⟨rfl, ht⟩))), ?_⟩
      unfold getInitiatorKeys
      simp only [bind_ok, requireString_ok, getCryptoKey_ok, suite_ok, ownKeys_ok]
      exact ⟨_, ho, p, hp, _, hk, su, ⟨h3, h2⟩, rfl⟩
    | certificates su keys anchor chain =>
      obtain ⟨ht, ho, ha, hc⟩ := h1
      obtain ⟨⟨x, hx⟩, hmode⟩ := h3
      refine ⟨_, reg, handshakeMode_iff.2 (.inr (.inr (.inr ⟨rfl, ht⟩))), ?_⟩
      unfold getInitiatorKeys
      simp only [bind_ok, require_ok, ownKeys_ok, contents_ok]
      refine ⟨_, ho, _, ha, _, hc, x, hx, ?_⟩
      have : su = defaultSuite := by
        have h2' : su = { defaultSuite with session_crypto_mode := su.session_crypto_mode } := h2
        rw [h2', hmode]
        rfl
      rw [this]

theorem responder_accept {w : World} {n : Yaml} {reg : Registry} {k : ResponderKeys} :
    (∃ m reg', getHandshakeMode n = .ok m ∧ getResponderKeys w n m reg = .ok (k, reg')) ↔
      ResponderSecrets w n k ∧ (responderStore k ≠ none → Cache w n) ∧ ∀ s, responderStore k = some s → Free reg s := by
  constructor
  · rintro ⟨m, reg', hm, h⟩
    refine ⟨responderKeys_ok hm h, ?_⟩
    cases k with
    | qkd s =>
      cases m <;> unfold getResponderKeys at h <;> dsimp only at h <;> try (simp only [bind_ok, require_ok] at h)
      case quantum_key_distribution =>
        obtain ⟨⟨s', reg1⟩, hb, h⟩ := h
        cases h
        obtain ⟨-, a, b, c⟩ := bindKeyStore_iff.1 ⟨_, hb⟩
        refine ⟨fun _ => a, fun t ht => ?_⟩
        cases ht
        exact ⟨b, c⟩
      case industrial_certificates => obtain ⟨_, _, _, _, _, _, h⟩ := h; cases h
      case shared_secret => obtain ⟨_, _, _, _, h⟩ := h; cases h
      case public_keys => obtain ⟨_, _, _, _, _, _, h⟩ := h; cases h
      case undefined => cases h
    | sharedSecret => exact ⟨fun h => absurd rfl h, fun _ h => by cases h⟩
    | preshared => exact ⟨fun h => absurd rfl h, fun _ h => by cases h⟩
    | certificates => exact ⟨fun h => absurd rfl h, fun _ h => by cases h⟩
  · rintro ⟨h1, h4, h5⟩
    cases k with
    | sharedSecret key =>
      obtain ⟨ht, p, hp, hk⟩ := h1
      refine ⟨_, reg, handshakeMode_iff.2 (.inl ⟨rfl, ht⟩), ?_⟩
      unfold getResponderKeys
      simp only [bind_ok, requireString_ok, getCryptoKey_ok]
      exact ⟨p, hp, key, hk, rfl⟩
    | qkd s =>
      obtain ⟨ht, hs⟩ := h1
      obtain ⟨a, b⟩ := h5 s rfl
      obtain ⟨reg', hb⟩ := bindKeyStore_iff.2 ⟨hs, h4 (by simp [responderStore]), a, b⟩
      refine ⟨_, reg', handshakeMode_iff.2 (.inr (.inl ⟨rfl, ht⟩)), ?_⟩
      unfold getResponderKeys
      simp only [bind_ok]
      exact ⟨_, hb, rfl⟩
    | preshared keys remote =>
      obtain ⟨ht, ho, p, hp, hk⟩ := h1
      refine ⟨_, reg, handshakeMode_iff.2 (.inr (.inr (.inl ⟨rfl, ht⟩))), ?_⟩
      unfold getResponderKeys
      simp only [bind_ok, requireString_ok, getCryptoKey_ok, ownKeys_ok]
      exact ⟨_, ho, p, hp, _, hk, rfl⟩
    | certificates keys anchor chain =>
      obtain ⟨ht, ho, ha, hc⟩ := h1
      refine ⟨_, reg, handshakeMode_iff.2 (.inr (.inr (.inr ⟨rfl, ht⟩))), ?_⟩
      unfold getResponderKeys
      simp only [bind_ok, ownKeys_ok, contents_ok]
      exact ⟨_, ho, _, ha, _, hc, rfl⟩


theorem store_initiator (c : InitiatorConfig) (k : InitiatorKeys) : Spec.store (.initiator c k) = initiatorStore k := by
  cases k <;> rfl

theorem store_responder (c : LayerConfig) (k : ResponderKeys) : Spec.store (.responder c k) = responderStore k := by
  cases k <;> rfl

theorem stackType_iff {n : Yaml} {t : StackType} : getStackType n = .ok t ↔
    Required Text n "mode" (match t with | .initiator => "initiator" | .responder => "responder") := by
  refine ⟨fun h => by cases t <;> exact stackType_ok h, fun h => ?_⟩
  unfold getStackType
  simp only [bind_ok, requireString_ok]
  cases t <;> exact ⟨_, h, rfl⟩

/-- Which security sections are accepted, and what becomes of the registry. -/
theorem stack_accept {w : World} {n : Yaml} {reg : Registry} {s : StackSpec} :
    (∃ t reg', getStackType n = .ok t ∧ getStack w n t reg = .ok (s, reg')) ↔
      SecurityMeans w n s ∧ (∃ handshake, entry n "handshake" = some handshake ∧ CacheMeans w handshake s ∧
        ∀ c keys, s = .initiator c keys → AlgorithmsMean handshake keys) ∧
      ∀ t, Spec.store s = some t → Free reg t := by
  constructor
  · rintro ⟨t, reg', ht, h⟩
    refine ⟨stack_ok ht h, ?_⟩
    unfold getStack at h
    simp only [bind_ok, require_ok] at h
    obtain ⟨hs, h1, se, h2, h3⟩ := h
    cases t <;> dsimp only at h3 <;> simp only [bind_ok, initiatorConfig_ok, layerConfig_ok] at h3
    all_goals
      obtain ⟨c, h4, m, h5, ⟨k, reg1⟩, h6, h7⟩ := h3
      cases h7
    · obtain ⟨a, b, d, e⟩ := initiator_accept.1 ⟨m, _, h5, h6⟩
      unfold CacheMeans
      rw [store_initiator]
      exact ⟨⟨hs, h1, d, fun c' k' he => by cases he; exact b⟩, e⟩
    · obtain ⟨a, d, e⟩ := responder_accept.1 ⟨m, _, h5, h6⟩
      unfold CacheMeans
      rw [store_responder]
      exact ⟨⟨hs, h1, d, fun c' k' he => by cases he⟩, e⟩
  · rintro ⟨⟨hs, se, h1, h2, h3⟩, ⟨hs', h1', h4, h5⟩, h6⟩
    rw [h1] at h1'
    cases h1'
    cases s with
    | initiator c k =>
      obtain ⟨h7, h8, h9⟩ := h3
      unfold CacheMeans at h4
      rw [store_initiator] at h4 h6
      obtain ⟨m, reg', h10, h11⟩ := initiator_accept.2 ⟨h9, h5 _ _ rfl, h4, h6⟩
      refine ⟨.initiator, reg', stackType_iff.2 h7, ?_⟩
      unfold getStack
      simp only [bind_ok, require_ok, initiatorConfig_ok]
      exact ⟨hs, h1, se, h2, c, h8, m, h10, _, h11, rfl⟩
    | responder c k =>
      obtain ⟨h7, h8, h9⟩ := h3
      unfold CacheMeans at h4
      rw [store_responder] at h4 h6
      obtain ⟨m, reg', h10, h11⟩ := responder_accept.2 ⟨h9, h4, h6⟩
      refine ⟨.responder, reg', stackType_iff.2 h7, ?_⟩
      unfold getStack
      simp only [bind_ok, require_ok, layerConfig_ok]
      exact ⟨hs, h1, se, h2, c, h8, m, h10, _, h11, rfl⟩

theorem at2 {n x : Yaml} {a b : String} : at' n [a, b] = some x ↔ ∃ m, entry n a = some m ∧ entry m b = some x := by
  simp only [at', Option.bind_eq_some_iff, Option.some.injEq, exists_eq_right]

theorem stackFactory_accept {w : World} {n : Yaml} {reg : Registry} {a : Option Link.Addresses} {s : StackSpec} :
    (∃ reg', getStackFactory w n reg = .ok ((a, s), reg')) ↔
      Required (SecurityMeans w) n "security" s ∧ Required (LinkMeans w) n "link_layer" a ∧
      (∃ handshake, at' n ["security", "handshake"] = some handshake ∧ CacheMeans w handshake s ∧
        ∀ c keys, s = .initiator c keys → AlgorithmsMean handshake keys) ∧
      ∀ t, Spec.store s = some t → Free reg t := by
  constructor
  · rintro ⟨reg', h⟩
    obtain ⟨h1, h2⟩ := stackFactory_ok h
    refine ⟨h1, h2, ?_⟩
    unfold getStackFactory at h
    simp only [bind_ok, require_ok] at h
    obtain ⟨l, -, se, h3, t, h4, b, -, h6⟩ := h
    have key : getStack w se t reg = .ok (s, reg') := by
      split at h6 <;> simp only [bind_ok] at h6
      · obtain ⟨_, _, _, _, ⟨s', reg1⟩, h9, h10⟩ := h6
        cases h10
        exact h9
      · obtain ⟨⟨s', reg1⟩, h9, h10⟩ := h6
        cases h10
        exact h9
    obtain ⟨-, ⟨hs, h7, h8⟩, h9⟩ := stack_accept.1 ⟨t, reg', h4, key⟩
    exact ⟨⟨hs, at2.2 ⟨se, h3, h7⟩, h8⟩, h9⟩
  · rintro ⟨⟨se, h1, h2⟩, ⟨l, h3, h4⟩, ⟨hs, h5, h6⟩, h7⟩
    obtain ⟨se', h8, h9⟩ := at2.1 h5
    rw [h1] at h8
    cases h8
    obtain ⟨t, reg', h10, h11⟩ := stack_accept.2 ⟨h2, ⟨hs, h9, h6⟩, h7⟩
    refine ⟨reg', ?_⟩
    unfold getStackFactory
    simp only [bind_ok, require_ok, requireBool_ok]
    refine ⟨l, h3, se, h1, t, h10, ?_⟩
    cases a with
    | none =>
      obtain ⟨x, h12, h13⟩ := h4
      refine ⟨false, ⟨x, h12, h13⟩, ?_⟩
      simp only [Bool.false_eq_true, if_false, bind_ok]
      exact ⟨_, h11, rfl⟩
    | some a =>
      obtain ⟨x, ad, h12, h13, h14, h15⟩ := h4
      refine ⟨true, ⟨x, h12, h13⟩, ?_⟩
      simp only [if_true, bind_ok, require_ok, addresses_ok]
      exact ⟨ad, h14, a, h15, _, h11, rfl⟩

/-- Which items of `sessions` are accepted. -/
theorem session_accept {w : World} {n : Yaml} {reg : Registry} {p : Proxy} :
    (∃ reg', getSession w n reg = .ok (p, reg')) ↔
      SessionComplete w n p ∧ ∀ t, Spec.store p.stack = some t → Free reg t := by
  constructor
  · rintro ⟨reg', h⟩
    obtain ⟨h1, h2, h3⟩ := session_ok h
    obtain ⟨-, -, h4, h5⟩ := stackFactory_accept.1 ⟨reg', h3⟩
    unfold getSession at h
    rw [bind_ok] at h
    obtain ⟨_, h6, -⟩ := h
    exact ⟨⟨h1, log_ok.1 h6, h4, h2⟩, h5⟩
  · rintro ⟨⟨⟨h1, h2, tr, h3, h4⟩, h5, h6, h7⟩, h8⟩
    obtain ⟨reg', h9⟩ := stackFactory_accept.2 ⟨h1, h2, h6, h8⟩
    refine ⟨reg', ?_⟩
    unfold getSession
    rw [bind_ok]
    refine ⟨(), log_ok.2 h5, ?_⟩
    rw [bind_ok]
    refine ⟨_, h9, ?_⟩
    simp only [bind_ok, require_ok, requireString_ok]
    obtain ⟨a, s, t⟩ := p
    cases t with
    | tcp m l c =>
      obtain ⟨h10, h11, ⟨l', h12, h13⟩, c', h14, h15⟩ := h4
      refine ⟨tr, h3, "tcp", h10, ?_⟩
      have : a.isNone = false := by
        have := h7 ⟨m, l, c, rfl⟩
        cases a with
        | none => exact absurd rfl this
        | some _ => rfl
      dsimp only
      rw [this]
      simp only [Bool.false_eq_true, if_false, bind_ok, require_ok, requireUInt16_ok, endpoint_ok]
      exact ⟨m, h11, l', h12, l, h13, c', h14, c, h15, rfl⟩
    | udp a1 a2 a3 a4 =>
      obtain ⟨h10, ⟨b1, h11, h12⟩, ⟨b2, h13, h14⟩, ⟨b3, h15, h16⟩, b4, h17, h18⟩ := h4
      refine ⟨tr, h3, "udp", h10, ?_⟩
      simp only [bind_ok, require_ok, endpoint_ok]
      exact ⟨b1, h11, a1, h12, b2, h13, a2, h14, b3, h15, a3, h16, b4, h17, a4, h18, rfl⟩

theorem keys_step {w : World} {n : Yaml} {reg reg' : Registry} {m : HandshakeMode} :
    (∀ k, getInitiatorKeys w n m reg = .ok (k, reg') → Step reg reg' (initiatorStore k)) ∧
    (∀ k, getResponderKeys w n m reg = .ok (k, reg') → Step reg reg' (responderStore k)) := by
  constructor
  all_goals
    intro k h
    first | unfold getInitiatorKeys at h | unfold getResponderKeys at h
    cases m <;> dsimp only at h <;> try simp only [bind_ok] at h
  case left.shared_secret => obtain ⟨_, _, _, _, _, _, h⟩ := h; cases h; rfl
  case left.public_keys => obtain ⟨_, _, _, _, _, _, _, _, h⟩ := h; cases h; rfl
  case left.industrial_certificates => obtain ⟨_, _, _, _, _, _, _, _, h⟩ := h; cases h; rfl
  case left.quantum_key_distribution =>
    obtain ⟨⟨s, r⟩, h1, _, _, h⟩ := h
    cases h
    exact bindKeyStore_step h1
  case left.undefined => cases h
  case right.shared_secret => obtain ⟨_, _, _, _, h⟩ := h; cases h; rfl
  case right.public_keys => obtain ⟨_, _, _, _, _, _, h⟩ := h; cases h; rfl
  case right.industrial_certificates => obtain ⟨_, _, _, _, _, _, h⟩ := h; cases h; rfl
  case right.quantum_key_distribution =>
    obtain ⟨⟨s, r⟩, h1, h⟩ := h
    cases h
    exact bindKeyStore_step h1
  case right.undefined => cases h

theorem session_step {w : World} {n : Yaml} {reg reg' : Registry} {p : Proxy} (h : getSession w n reg = .ok (p, reg')) :
    Step reg reg' (Spec.store p.stack) := by
  have h := (session_ok h).2.2
  unfold getStackFactory at h
  simp only [bind_ok, require_ok] at h
  obtain ⟨l, -, se, h3, t, h4, b, -, h6⟩ := h
  have key : getStack w se t reg = .ok (p.stack, reg') := by
    generalize p.stack = s, p.addresses = a at h6 ⊢
    split at h6 <;> simp only [bind_ok] at h6
    · obtain ⟨_, _, _, _, ⟨s', reg1⟩, h9, h10⟩ := h6
      cases h10
      exact h9
    · obtain ⟨⟨s', reg1⟩, h9, h10⟩ := h6
      cases h10
      exact h9
  clear h4 h6
  generalize p.stack = s at key ⊢
  unfold getStack at key
  simp only [bind_ok, require_ok] at key
  obtain ⟨hs, h7, se', h8, h9⟩ := key
  cases t <;> dsimp only at h9 <;> simp only [bind_ok] at h9
  all_goals
    obtain ⟨c', h10, m, h11, ⟨k', reg1⟩, h12, h13⟩ := h9
    cases h13
  · rw [store_initiator]
    exact keys_step.1 _ h12
  · rw [store_responder]
    exact keys_step.2 _ h12

theorem Step.names {reg reg' : Registry} {s : Option (String × UInt16)} (h : Step reg reg' s) : reg'.map (·.1) = reg.map (·.1) := by
  cases s with
  | none => rw [show reg' = reg from h]
  | some s => exact h.2.1

theorem Step.bound {reg reg' : Registry} {s : Option (String × UInt16)} (h : Step reg reg' s) (t : String × UInt16) :
    Bound reg' t ↔ Bound reg t ∨ s = some t := by
  cases s with
  | none => rw [show reg' = reg from h]; simp
  | some s =>
    rw [h.2.2 t]
    simp [eq_comm]

/-- Which lists of sessions are accepted. -/
theorem readSessions_accept {w : World} {l : List Yaml} {reg : Registry} {ps : List Proxy} :
    (∃ reg', readSessions w l reg = .ok (ps, reg')) ↔
      List.Forall₂ (SessionComplete w) l ps ∧ (ps.filterMap fun p => Spec.store p.stack).Nodup ∧
      ∀ p ∈ ps, ∀ s, Spec.store p.stack = some s → Free reg s := by
  induction l generalizing reg ps with
  | nil =>
    unfold readSessions
    constructor
    · rintro ⟨_, h⟩
      cases h
      exact ⟨.nil, List.nodup_nil, by simp⟩
    · rintro ⟨h, -, -⟩
      cases h
      exact ⟨reg, rfl⟩
  | cons n l ih =>
    unfold readSessions
    simp only [bind_ok]
    constructor
    · rintro ⟨reg', ⟨p, r1⟩, h1, ⟨ps', r2⟩, h2, h3⟩
      cases h3
      obtain ⟨a, b⟩ := session_accept.1 ⟨_, h1⟩
      obtain ⟨c, d, e⟩ := ih.1 ⟨_, h2⟩
      have st := session_step h1
      refine ⟨.cons a c, ?_, ?_⟩
      · rw [List.filterMap_cons]
        cases hs : Spec.store p.stack with
        | none => exact d
        | some t =>
          refine List.nodup_cons.2 ⟨fun hm => ?_, d⟩
          obtain ⟨q, hq, hq'⟩ := List.mem_filterMap.1 hm
          exact (e q hq t hq').2 ((st.bound t).2 (.inr hs))
      · intro q hq s hs
        rcases List.mem_cons.1 hq with rfl | hq
        · exact b s hs
        · obtain ⟨f, g⟩ := e q hq s hs
          exact ⟨st.names ▸ f, fun h => g ((st.bound s).2 (.inl h))⟩
    · rintro ⟨h1, h2, h3⟩
      cases h1 with
      | @cons _ p _ ps' h1 h4 =>
        obtain ⟨r1, h5⟩ := session_accept.2 ⟨h1, fun t ht => h3 p (by simp) t ht⟩
        have st := session_step h5
        rw [List.filterMap_cons] at h2
        obtain ⟨r2, h6⟩ := (ih (reg := r1) (ps := ps')).2 ⟨h4, by
            cases hs : Spec.store p.stack with
            | none => rw [hs] at h2; exact h2
            | some t => rw [hs] at h2; exact (List.nodup_cons.1 h2).2, by
            intro q hq s hs
            obtain ⟨f, g⟩ := h3 q (by simp [hq]) s hs
            refine ⟨st.names.symm ▸ f, fun h => ?_⟩
            rcases (st.bound s).1 h with h | h
            · exact g h
            · rw [h] at h2
              exact (List.nodup_cons.1 h2).1 (List.mem_filterMap.2 ⟨q, hq, hs⟩)⟩
        exact ⟨r2, _, h5, _, h6, rfl⟩

/-- **Exactly the meaningful files are accepted**: a file is accepted, with the given proxies, iff it describes them: nothing
that is required may be missing, every value must be known and in range, the sources must have different names, each store of
quantum keys must belong to a known source and to one session only, and there must be a session. Nothing else is refused. -/
theorem C49_accepted (w : World) (root : Yaml) (ps : List Proxy) :
    (∃ reg, read w root = .ok (ps, reg)) ↔ FileMeans w root ps := by
  have unbound : ∀ (qs : List Yaml) (sources : Registry), List.Forall₂ (SourceMeans w) qs sources → ∀ s, ¬ Bound sources s := by
    rintro qs sources h s ⟨so, h1, x, h2, -⟩
    have : ∀ y ∈ sources, y.2.subscribers = [] := by
      clear h1
      induction h with
      | nil => simp
      | cons a _ ih =>
        intro y hy
        rcases List.mem_cons.1 hy with rfl | hy
        · exact a.2.2.2.1
        · exact ih y hy
    have := this _ (List.mem_of_find?_eq_some h1)
    dsimp only at this
    rw [this] at h2
    cases h2
  constructor
  · rintro ⟨reg, h⟩
    obtain ⟨qs, ss, reg0, h1, h2, h3, h4, h5⟩ := read_ok h
    obtain ⟨sources, h6, h7, h8⟩ := (readSources_ok (by simp)).1 h3
    rw [List.nil_append] at h7
    subst h7
    obtain ⟨h9, h10, h11⟩ := readSessions_accept.1 ⟨_, h4⟩
    refine ⟨qs, ss, reg0, h1, h2, h6, h8, ?_, h9, h10, fun p hp s hs => (h11 p hp s hs).1⟩
    rintro rfl
    cases h9
    exact h5 rfl
  · rintro ⟨qs, ss, sources, h1, h2, h3, h4, h5, h6, h7, h8⟩
    obtain ⟨reg, h9⟩ := readSessions_accept.2 ⟨h6, h7, fun p hp s hs => ⟨h8 p hp s hs, unbound _ _ h3 s⟩⟩
    refine ⟨reg, ?_⟩
    unfold read
    simp only [bind_ok, require_ok, items_ok]
    refine ⟨_, h1, qs, rfl, sources, (readSources_ok (by simp)).2 ⟨sources, h3, by simp, h4⟩, _, h2, ss, rfl, _, h9, ?_⟩
    cases h6 with
    | nil => exact absurd rfl h5
    | cons => rfl

/-! ### without a link layer -/

/-- **Link layer disabled**: messages go out as they are, and nothing is unframed. -/
theorem C49_no_link (w : World) (node : Yaml) (reg reg' : Registry) (p : Proxy) (h : getSession w node reg = .ok (p, reg'))
    (t : String) (he : at' node ["link_layer", "enabled"] = some (.scalar t)) (ht : w.bool t = some false)
    (b : Backend) (caps : Caps) (st : Stack) (hs : makeStack b caps p.addresses p.stack = .ok st) :
    (∀ m : Bytes, st.cfg.fw.wrap m = m) ∧ st.link = none := by
  obtain ⟨-, ⟨l, h1, h2⟩, -⟩ := (session_ok h).1
  obtain ⟨l', h3, h4⟩ := at2.1 he
  rw [h1] at h3
  cases h3
  have hn : p.addresses = none := by
    unfold LinkMeans at h2
    split at h2
    · assumption
    · obtain ⟨t', _, ⟨m, h5, h6⟩, h7, _⟩ := h2
      rw [h4] at h5
      cases h5
      cases h6
      rw [ht] at h7
      cases h7
  obtain ⟨h5, h6⟩ := makeStack_link hs
  rw [hn] at h5 h6
  refine ⟨fun m => ?_, h6⟩
  rw [h5]
  rfl

/-! ### the size of a store -/

/-- The store was handed out with this capacity, and holds no keys. -/
def BoundAs (reg : Registry) (s : String × UInt16) (m : UInt16) : Prop :=
  ∃ source, reg.find? (·.1 = s.1) = some (s.1, source) ∧ (s.2, (⟨m, []⟩ : Qix.Store)) ∈ source.subscribers

theorem bindKeyStore_as {w : World} {n : Yaml} {reg reg' : Registry} {s : String × UInt16}
    (h : bindKeyStore w n reg = .ok (s, reg')) :
    (∃ m : UInt16, Required (Number w 0 65535) n "max_key_cache_size" (m.toNat : Int) ∧ BoundAs reg' s m) ∧
    ∀ t m, BoundAs reg t m → BoundAs reg' t m := by
  unfold bindKeyStore at h
  simp only [bind_ok, requireString_ok] at h
  obtain ⟨id, h1, h2⟩ := h
  split at h2
  · cases h2
  rename_i i source hf
  have hi : i = id := by simpa using List.find?_some hf
  subst hi
  simp only [bind_ok, requireUInt16_ok] at h2
  obtain ⟨sub, h3, m, h4, h5⟩ := h2
  split at h5
  · cases h5
  rename_i source' hb
  cases h5
  obtain ⟨-, h6⟩ := bind_sub hb
  refine ⟨⟨m, h4, source', ?_, by simp [h6]⟩, ?_⟩
  · rw [find_map hf, if_pos rfl]
  · rintro t m' ⟨so, h7, h8⟩
    refine ⟨_, find_map h7, ?_⟩
    split
    · rename_i ht
      rw [ht, hf] at h7
      cases h7
      rw [h6]
      exact List.mem_append_left _ h8
    · exact h8

theorem session_as {w : World} {n : Yaml} {reg reg' : Registry} {p : Proxy} (h : getSession w n reg = .ok (p, reg')) :
    (∀ s, Spec.store p.stack = some s → ∃ hs, at' n ["security", "handshake"] = some hs ∧
      ∃ m : UInt16, Required (Number w 0 65535) hs "max_key_cache_size" (m.toNat : Int) ∧ BoundAs reg' s m) ∧
    ∀ t m, BoundAs reg t m → BoundAs reg' t m := by
  have h := (session_ok h).2.2
  unfold getStackFactory at h
  simp only [bind_ok, require_ok] at h
  obtain ⟨l, -, se, h3, t, h4, b, -, h6⟩ := h
  have key : getStack w se t reg = .ok (p.stack, reg') := by
    generalize p.stack = s, p.addresses = a at h6 ⊢
    split at h6 <;> simp only [bind_ok] at h6
    · obtain ⟨_, _, _, _, ⟨s', reg1⟩, h9, h10⟩ := h6
      cases h10
      exact h9
    · obtain ⟨⟨s', reg1⟩, h9, h10⟩ := h6
      cases h10
      exact h9
  clear h4 h6
  generalize p.stack = s at key ⊢
  unfold getStack at key
  simp only [bind_ok, require_ok] at key
  obtain ⟨hs, h7, se', h8, h9⟩ := key
  have hat : at' n ["security", "handshake"] = some hs := at2.2 ⟨se, h3, h7⟩
  cases t <;> dsimp only at h9 <;> simp only [bind_ok] at h9
  all_goals
    obtain ⟨c', h10, m, h11, ⟨k', reg1⟩, h12, h13⟩ := h9
    cases h13
    first | unfold getInitiatorKeys at h12 | unfold getResponderKeys at h12
    cases m <;> dsimp only at h12 <;> try simp only [bind_ok] at h12
  case initiator.refl.shared_secret => obtain ⟨_, _, _, _, _, _, h⟩ := h12; cases h; exact ⟨fun _ h => (by cases h), fun _ _ h => h⟩
  case initiator.refl.public_keys => obtain ⟨_, _, _, _, _, _, _, _, h⟩ := h12; cases h; exact ⟨fun _ h => (by cases h), fun _ _ h => h⟩
  case initiator.refl.industrial_certificates => obtain ⟨_, _, _, _, _, _, _, _, h⟩ := h12; cases h; exact ⟨fun _ h => (by cases h), fun _ _ h => h⟩
  case initiator.refl.quantum_key_distribution =>
    obtain ⟨⟨s, r⟩, h1, _, _, h⟩ := h12
    cases h
    obtain ⟨a, b⟩ := bindKeyStore_as h1
    exact ⟨fun _ h => by cases h; exact ⟨hs, hat, a⟩, b⟩
  case initiator.refl.undefined => cases h12
  case responder.refl.shared_secret => obtain ⟨_, _, _, _, h⟩ := h12; cases h; exact ⟨fun _ h => (by cases h), fun _ _ h => h⟩
  case responder.refl.public_keys => obtain ⟨_, _, _, _, _, _, h⟩ := h12; cases h; exact ⟨fun _ h => (by cases h), fun _ _ h => h⟩
  case responder.refl.industrial_certificates => obtain ⟨_, _, _, _, _, _, h⟩ := h12; cases h; exact ⟨fun _ h => (by cases h), fun _ _ h => h⟩
  case responder.refl.quantum_key_distribution =>
    obtain ⟨⟨s, r⟩, h1, h⟩ := h12
    cases h
    obtain ⟨a, b⟩ := bindKeyStore_as h1
    exact ⟨fun _ h => by cases h; exact ⟨hs, hat, a⟩, b⟩
  case responder.refl.undefined => cases h12

theorem readSessions_as {w : World} {l : List Yaml} {reg reg' : Registry} {ps : List Proxy}
    (h : readSessions w l reg = .ok (ps, reg')) :
    List.Forall₂ (fun n p => ∀ s, Spec.store p.stack = some s → ∃ hs, at' n ["security", "handshake"] = some hs ∧
      ∃ m : UInt16, Required (Number w 0 65535) hs "max_key_cache_size" (m.toNat : Int) ∧ BoundAs reg' s m) l ps ∧
    ∀ t m, BoundAs reg t m → BoundAs reg' t m := by
  induction l generalizing reg ps with
  | nil => cases h; exact ⟨.nil, fun _ _ h => h⟩
  | cons n l ih =>
    unfold readSessions at h
    simp only [bind_ok] at h
    obtain ⟨⟨p, r1⟩, h1, ⟨ps', r2⟩, h2, h3⟩ := h
    cases h3
    obtain ⟨a, b⟩ := session_as h1
    obtain ⟨c, d⟩ := ih h2
    refine ⟨.cons (fun s hs => ?_) c, fun t m h => d t m (b t m h)⟩
    obtain ⟨x, h4, m, h5, h6⟩ := a s hs
    exact ⟨x, h4, m, h5, d _ _ h6⟩

/-- **The size of a store**: the store of quantum keys of each session of an accepted file starts empty and holds at most as
many keys as the section of the session says. -/
theorem C49_cache_size (w : World) (root : Yaml) (ps : List Proxy) (reg : Registry) (h : read w root = .ok (ps, reg)) :
    ∃ ss, entry root "sessions" = some (.seq ss) ∧ List.Forall₂ (fun n p => ∀ s, Spec.store p.stack = some s →
      ∃ hs, at' n ["security", "handshake"] = some hs ∧
      ∃ m : UInt16, Required (Number w 0 65535) hs "max_key_cache_size" (m.toNat : Int) ∧
      ∃ source, (s.1, source) ∈ reg ∧ (s.2, (⟨m, []⟩ : Qix.Store)) ∈ source.subscribers) ss ps := by
  obtain ⟨qs, ss, reg0, -, h2, -, h4, h5⟩ := read_ok h
  refine ⟨ss, h2, forall₂_imp (fun n p hp s hs => ?_) (readSessions_as h4).1⟩
  obtain ⟨x, h6, m, h7, source, h8, h9⟩ := hp s hs
  exact ⟨x, h6, m, h7, source, List.mem_of_find?_eq_some h8, h9⟩

/-! ### examples -/

open Example

/-- The shipped file describes the proxy of `Example.proxy`. -/
example : FileMeans world shipped [proxy] := (C49_accepted _ _ _).1 shipped_accepted

/-- The smallest section of a serial line, and the defaults. -/
example : SerialMeans world (.map [("device", .scalar "/dev/pts/2")]) ⟨"/dev/pts/2", 9600, 8, .none, .one⟩ :=
  (C49_serial _ _ _).1 rfl

example : SerialMeans world (.map [("device", .scalar "/dev/pts/2"), ("baud_rate", .scalar "20000"), ("data_bits", .scalar "7"),
    ("flow_control", .scalar "hardware"), ("stop_bits", .scalar "two")]) ⟨"/dev/pts/2", 20000, 7, .hardware, .two⟩ :=
  (C49_serial _ _ _).1 rfl

/-- Two sources with the same name, an unknown level of logging, an unknown flow control: refused. -/
example : read world (root [source "1", source "1"] [item "initiator" "10" "1" (session .null)
    (handshake "hmac_sha256_16" (time "2" "seconds") (qkd "0"))]) = .throw := rfl
example : checkLog (.map [("id", .scalar "s"), ("levels", .scalar "xe")]) = .throw := by decide +kernel
example : readSerialSettings world (.map [("device", .scalar "d"), ("flow_control", .scalar "rts")]) = .throw := rfl

/-- A session over UDP without a link layer, as `C49_no_link` requires; its store holds 100 keys. -/
def Example.udpItem : Yaml :=
  .map [("id", .scalar "session1"), ("levels", .scalar ""), ("link_layer", .map [("enabled", .scalar "false")]),
    ("security", .map [("mode", .scalar "initiator"), ("session", .null),
      ("handshake", handshake "hmac_sha256_16" (time "2" "seconds") (qkd "0"))]),
    ("transport", .map [("type", .scalar "udp"), ("raw_rx", endpoint "20000"), ("raw_tx", endpoint "20001"),
      ("secure_rx", endpoint "20000"), ("secure_tx", endpoint "20001")])]

example : (∃ p reg st, read world (root [source "1"] [udpItem]) = .ok ([p], reg) ∧
      makeStack Toy.strong Crypto.LayerExample.caps p.addresses p.stack = .ok st ∧ Spec.store p.stack = some ("source1", 0)) ∧
    at' udpItem ["link_layer", "enabled"] = some (.scalar "false") ∧ world.bool "false" = some false :=
  ⟨⟨_, _, _, rfl, rfl, rfl⟩, rfl, rfl⟩

/-- **The code violates the property for the shipped files**: those with a source of quantum keys give the speed of the line
as `baud`, and whatever is written there, the line runs at 9600 baud. -/
theorem C49_baud_violation (w : World) (baud : Yaml) (es : List (String × Yaml)) (s : SerialSettings)
    (hb : ∀ v, ("baud_rate", v) ∉ es) (h : readSerialSettings w (.map (("baud", baud) :: es)) = .ok s) : s.baud = 9600 := by
  obtain ⟨-, ⟨-, h2⟩, -⟩ := (C49_serial _ _ _).1 h
  have hn : entry (.map (("baud", baud) :: es)) "baud_rate" = none := by
    unfold entry
    dsimp only
    rw [Option.map_eq_none_iff, List.find?_eq_none]
    rintro ⟨k, v⟩ hx
    rcases List.mem_cons.1 hx with he | hx
    · cases he
      simp
    · have : k ≠ "baud_rate" := fun hk => hb v (hk ▸ hx)
      simpa using this
  rw [hn] at h2
  dsimp only at h2
  exact UInt32.toNat_inj.1 (by simpa using Int.ofNat.inj h2)

example : ∃ s, readSerialSettings world (.map [("baud", .scalar "20000"), ("device", .scalar "/dev/pts/2")]) = .ok s := ⟨_, rfl⟩

end SSP21.Config
