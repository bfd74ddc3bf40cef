import Verif.Spec.Config
/-
  C49: the configuration file of a proxy is obeyed.
-/
namespace SSP21.Config
open Tool (Outcome)
open Spec

/-! ### the reader, one setting at a time -/

theorem bind_ok {α β : Type} {x : Outcome α} {f : α → Outcome β} {b : β} :
    (x >>= f) = .ok b ↔ ∃ a, x = .ok a ∧ f a = .ok b := by
  show Outcome.bind x f = _ ↔ _
  cases x <;> simp [Outcome.bind]

theorem find_eq (key : String) (es : List (String × Yaml)) : find key es = (es.find? (·.1 = key)).map (·.2) := by
  induction es with
  | nil => rfl
  | cons e es ih =>
    obtain ⟨k, v⟩ := e
    unfold find
    by_cases h : k = key <;> simp [h, ih]

theorem require_ok {n v : Yaml} {k : String} : require n k = .ok v ↔ entry n k = some v := by
  unfold require entry
  split
  · rw [find_eq]
    dsimp only
    generalize (List.find? (fun x : String × Yaml => decide (x.1 = k)) _).map (·.2) = o
    cases o <;> simp
  · rename_i hn
    cases n <;> simp
    exact (hn _ rfl).elim

theorem get_ok {n : Yaml} {k : String} {o : Option Yaml} : n.get k = .ok o ↔ IsSection n ∧ entry n k = o := by
  unfold Yaml.get entry IsSection
  cases n <;> simp [find_eq]

theorem requireString_ok {n : Yaml} {k s : String} : requireString n k = .ok s ↔ Required Text n k s := by
  unfold requireString Required Text
  simp only [bind_ok, require_ok]
  constructor
  · rintro ⟨a, h1, h2⟩
    split at h2 <;> simp_all
  · rintro ⟨a, h1, rfl⟩
    exact ⟨_, h1, rfl⟩

theorem extractInteger_ok {w : World} {lo hi v : Int} {n : Yaml} (hl : -9223372036854775808 ≤ lo)
    (hh : hi ≤ 9223372036854775807) : extractInteger w lo hi n = .ok v ↔ Number w lo hi n v := by
  unfold extractInteger Number
  split
  · split
    · simp_all
    · rename_i s k hk
      constructor
      · intro h
        split at h
        · cases h
        split at h
        · cases h
        split at h
        · cases h
        cases h
        exact ⟨_, rfl, hk, by omega, by omega⟩
      · rintro ⟨t, h1, h2, h3, h4⟩
        cases h1
        rw [hk] at h2
        cases h2
        rw [if_neg (by omega), if_neg (by omega), if_neg (by omega)]
  · rename_i hn
    simp only [reduceCtorEq, false_iff]
    rintro ⟨s, rfl, -⟩
    exact hn _ rfl

theorem ofNat16 {v : Int} {x : UInt16} (h : 0 ≤ v) (h' : v ≤ 65535) :
    UInt16.ofNat v.toNat = x ↔ v = (x.toNat : Int) := by
  constructor
  · rintro rfl
    rw [UInt16.toNat_ofNat']
    omega
  · rintro rfl
    simp

theorem ofNat32 {v : Int} {x : UInt32} (h : 0 ≤ v) (h' : v ≤ 4294967295) :
    UInt32.ofNat v.toNat = x ↔ v = (x.toNat : Int) := by
  constructor
  · rintro rfl
    rw [UInt32.toNat_ofNat']
    omega
  · rintro rfl
    simp

theorem uint16_ok {w : World} {n : Yaml} {x : UInt16} :
    (do let v ← extractInteger w 0 65535 n; Outcome.ok (UInt16.ofNat v.toNat)) = .ok x ↔ Number w 0 65535 n (x.toNat : Int) := by
  simp only [bind_ok, extractInteger_ok (w := w) (lo := 0) (hi := 65535) (by decide) (by decide)]
  constructor
  · rintro ⟨a, h1, h2⟩
    have hb : 0 ≤ a ∧ a ≤ 65535 := by obtain ⟨_, _, _, h⟩ := h1; exact h
    cases h2
    rw [← (ofNat16 hb.1 hb.2).1 rfl]
    exact h1
  · intro h
    exact ⟨_, h, by simp⟩

theorem uint32_ok {w : World} {n : Yaml} {x : UInt32} :
    (do let v ← extractInteger w 0 4294967295 n; Outcome.ok (UInt32.ofNat v.toNat)) = .ok x ↔
      Number w 0 4294967295 n (x.toNat : Int) := by
  simp only [bind_ok, extractInteger_ok (w := w) (lo := 0) (hi := 4294967295) (by decide) (by decide)]
  constructor
  · rintro ⟨a, h1, h2⟩
    have hb : 0 ≤ a ∧ a ≤ 4294967295 := by obtain ⟨_, _, _, h⟩ := h1; exact h
    cases h2
    rw [← (ofNat32 hb.1 hb.2).1 rfl]
    exact h1
  · intro h
    exact ⟨_, h, by simp⟩

theorem requireUInt16_ok {w : World} {n : Yaml} {k : String} {x : UInt16} :
    requireUInt16 w n k = .ok x ↔ Required (Number w 0 65535) n k (x.toNat : Int) := by
  unfold requireUInt16
  rw [bind_ok]
  simp only [uint16_ok, require_ok, Required]

theorem optional_ok {α β : Type} {n : Yaml} {k : String} {d : β} {x : β} {g : Yaml → Outcome β} {P : Yaml → α → Prop} {c : β → α}
    (hc : ∀ a b, c a = c b → a = b) (hg : ∀ m, g m = .ok x ↔ P m (c x)) :
    (do match ← n.get k with
        | none => Outcome.ok d
        | some child => g child) = .ok x ↔ Optional P n k (c d) (c x) := by
  rw [bind_ok]
  unfold Optional
  constructor
  · rintro ⟨a, h1, h2⟩
    obtain ⟨hs, rfl⟩ := get_ok.1 h1
    refine ⟨hs, ?_⟩
    split at h2 <;> rename_i he <;> rw [he]
    · cases h2; rfl
    · exact (hg _).1 h2
  · rintro ⟨h1, h2⟩
    refine ⟨_, get_ok.2 ⟨h1, rfl⟩, ?_⟩
    split at h2 <;> rename_i he <;> rw [he]
    · rw [hc _ _ h2]
    · exact (hg _).2 h2

theorem toNat16_inj (a b : UInt16) (h : (a.toNat : Int) = (b.toNat : Int)) : a = b :=
  UInt16.toNat_inj.1 (Int.ofNat_inj.1 h)
theorem toNat32_inj (a b : UInt32) (h : (a.toNat : Int) = (b.toNat : Int)) : a = b :=
  UInt32.toNat_inj.1 (Int.ofNat_inj.1 h)

theorem optionalUInt16_ok {w : World} {n : Yaml} {k : String} {d x : UInt16} :
    optionalUInt16 w n k d = .ok x ↔ Optional (Number w 0 65535) n k (d.toNat : Int) (x.toNat : Int) :=
  optional_ok toNat16_inj fun _ => uint16_ok

theorem optionalUInt32_ok {w : World} {n : Yaml} {k : String} {d x : UInt32} :
    optionalUInt32 w n k d = .ok x ↔ Optional (Number w 0 4294967295) n k (d.toNat : Int) (x.toNat : Int) :=
  optional_ok toNat32_inj fun _ => uint32_ok

theorem getTimeUnit_ok {n : Yaml} {k : Int} :
    getTimeUnit n = .ok k ↔ ∃ u, entry n "unit" = some (.scalar u) ∧ (u, k) ∈ units := by
  unfold getTimeUnit
  simp only [bind_ok, requireString_ok, Required, Text]
  constructor
  · rintro ⟨u, ⟨m, h1, rfl⟩, h2⟩
    refine ⟨u, h1, ?_⟩
    split at h2 <;> cases h2 <;> decide
  · rintro ⟨u, h1, h2⟩
    refine ⟨u, ⟨_, h1, rfl⟩, ?_⟩
    simp only [units, List.mem_cons, Prod.mk.injEq, List.not_mem_nil, or_false] at h2
    rcases h2 with ⟨rfl, rfl⟩ | ⟨rfl, rfl⟩ | ⟨rfl, rfl⟩ | ⟨rfl, rfl⟩ <;> rfl

theorem toNanoseconds_ok {n v : Int} : toNanoseconds n = .ok v ↔ v = n ∧ int64 n := by
  unfold toNanoseconds int64
  split <;> rename_i h
  · constructor
    · intro e; cases e; exact ⟨rfl, by omega⟩
    · rintro ⟨rfl, -⟩; rfl
  · simp only [reduceCtorEq, false_iff]
    rintro ⟨-, h1⟩
    exact h (by omega)

theorem getDurationValue_ok {w : World} {n : Yaml} {ns : Int} : getDurationValue w n = .ok ns ↔ Timeout w n ns := by
  unfold getDurationValue Timeout Time
  simp only [bind_ok, require_ok, extractInteger_ok (w := w) (lo := -9223372036854775808) (hi := 9223372036854775807)
    (by decide) (by decide), getTimeUnit_ok, toNanoseconds_ok]
  constructor
  · rintro ⟨a, h1, v, h2, k, ⟨u, h3, h4⟩, rfl, h6⟩
    exact ⟨⟨a, v, u, k, h1, h2, h3, h4, rfl⟩, h6⟩
  · rintro ⟨⟨a, v, u, k, h1, h2, h3, h4, rfl⟩, h6⟩
    exact ⟨a, h1, v, h2, k, ⟨u, h3, h4⟩, rfl, h6⟩

theorem optionalDuration_ok {w : World} {n : Yaml} {k : String} {d x : Int} :
    optionalDuration w n k d = .ok x ↔ Optional (Timeout w) n k d x :=
  optional_ok (c := id) (fun _ _ h => h) fun _ => getDurationValue_ok

theorem units_pos {u : String} {k : Int} (h : (u, k) ∈ units) : ∃ m, k = m * 1000000 := by
  simp only [units, List.mem_cons, Prod.mk.injEq, List.not_mem_nil, or_false] at h
  rcases h with ⟨-, rfl⟩ | ⟨-, rfl⟩ | ⟨-, rfl⟩ | ⟨-, rfl⟩
  exacts [⟨1, rfl⟩, ⟨1000, rfl⟩, ⟨60 * 1000, rfl⟩, ⟨60 * 60 * 1000, rfl⟩]

theorem time_millis {w : World} {n : Yaml} {ns : Int} (h : Time w n ns) : ns = ns.tdiv 1000000 * 1000000 := by
  obtain ⟨a, v, u, k, -, -, -, h4, rfl⟩ := h
  obtain ⟨m, rfl⟩ := units_pos h4
  rw [← Int.mul_assoc, Int.mul_tdiv_cancel _ (by decide)]

theorem getOptionalMs_ok {w : World} {n : Yaml} {k : String} {d x : UInt32} :
    getOptionalMs w n k d = .ok x ↔ Optional (Millis w) n k (d.toNat : Int) (x.toNat : Int) := by
  unfold getOptionalMs
  simp only [bind_ok, optionalDuration_ok]
  have hd := d.toNat_lt
  have hx := x.toNat_lt
  constructor
  · rintro ⟨ns, ⟨h1, h2⟩, h3⟩
    split at h3
    · cases h3
    split at h3
    · cases h3
    have hms : ns.tdiv 1000000 = (x.toNat : Int) := (ofNat32 (by omega) (by omega)).1 (by cases h3; rfl)
    refine ⟨h1, ?_⟩
    split at h2
    · rw [h2, Int.mul_tdiv_cancel _ (by decide)] at hms
      exact hms.symm
    · refine ⟨?_, by omega, by omega⟩
      rw [← hms, ← time_millis h2.1]
      exact h2.1
  · rintro ⟨h1, h2⟩
    refine ⟨(x.toNat : Int) * 1000000, ⟨h1, ?_⟩, ?_⟩
    · split at h2
      · rw [h2]
      · exact ⟨h2.1, by unfold int64; omega⟩
    · rw [Int.mul_tdiv_cancel _ (by decide), if_neg (by omega), if_neg (by omega)]
      simp

/-! ### parameters -/

theorem layerConfig_ok {w : World} {session : Yaml} {c : LayerConfig} :
    getLayerConfig w session = .ok c ↔ LayerParameters w session c := by
  unfold getLayerConfig LayerParameters
  simp only [bind_ok, optionalUInt16_ok, getOptionalMs_ok]
  constructor
  · rintro ⟨a, h1, b, h2, h3⟩
    cases h3
    exact ⟨h1, h2⟩
  · rintro ⟨h1, h2⟩
    exact ⟨_, h1, _, h2, rfl⟩

theorem initiatorConfig_ok {w : World} {handshake session : Yaml} {c : InitiatorConfig} :
    getInitiatorConfig w handshake session = .ok c ↔ InitiatorParameters w handshake session c := by
  unfold getInitiatorConfig InitiatorParameters
  simp only [bind_ok, layerConfig_ok, optionalUInt16_ok, optionalUInt32_ok, optionalDuration_ok, getOptionalMs_ok]
  constructor
  · rintro ⟨a, h1, b, h2, d, h3, e, h4, f, h5, g, h6, i, h7, h8⟩
    cases h8
    exact ⟨h1, h2, h3, h4, h7, h5, h6⟩
  · rintro ⟨h1, h2, h3, h4, h5, h6, h7⟩
    exact ⟨_, h1, _, h2, _, h3, _, h4, _, h6, _, h7, _, h5, rfl⟩

/-! ### keys -/

theorem readFile_ok {w : World} {path : String} {data : Bytes} :
    readFile w path = .ok data ↔ w.file path = some data ∧ 0 < data.length ∧ data.length ≤ 4096 := by
  unfold readFile Tool.secureRead
  cases w.file path with
  | none => simp
  | some d =>
    dsimp only
    constructor
    · intro h
      split at h
      · cases h
      split at h
      · cases h
      cases h
      exact ⟨rfl, by omega, by omega⟩
    · rintro ⟨h1, h2, h3⟩
      cases h1
      rw [if_neg (by omega), if_neg (by omega)]

theorem parseOrThrow_ok {α : Type} {c : Codec α} {data : Bytes} {a : α} :
    Tool.parseOrThrow c data = .ok a ↔ Codec.readAll c data = .ok a := by
  unfold Tool.parseOrThrow
  cases Codec.readAll c data <;> simp

theorem readAll_nil : ∃ e, Codec.readAll ContainerFile.codec [] = .error e := by
  exact ⟨_, rfl⟩

theorem getCryptoKey_ok {w : World} {path : String} {type : ContainerEntryType} {key : Bytes} :
    getCryptoKey w path type = .ok key ↔ KeyFile w path type key := by
  unfold getCryptoKey KeyFile
  simp only [bind_ok, readFile_ok, parseOrThrow_ok]
  constructor
  · rintro ⟨data, ⟨h1, h2, h3⟩, ⟨t, k⟩, h4, h5⟩
    dsimp only at h5
    split at h5
    · cases h5
    split at h5
    · cases h5
    cases h5
    rename_i ht hl
    have ht : t = type := by simpa using ht
    exact ⟨data, h1, h3, by simpa using hl, ht ▸ h4⟩
  · rintro ⟨data, h1, h2, h3, h4⟩
    refine ⟨data, ⟨h1, ?_, h2⟩, ⟨type, key⟩, h4, ?_⟩
    · cases data with
      | nil =>
        obtain ⟨e, he⟩ := readAll_nil
        rw [he] at h4
        cases h4
      | cons => simp
    · simp [h3]

theorem key_ok {w : World} {n : Yaml} {name : String} {type : ContainerEntryType} {key : Bytes} :
    (do let path ← requireString n name; getCryptoKey w path type) = .ok key ↔ Key w n name type key := by
  simp only [bind_ok, requireString_ok, getCryptoKey_ok, Key]

theorem contents_ok {w : World} {n : Yaml} {name : String} {data : Bytes} :
    getFileData w n name = .ok data ↔ Contents w n name data := by
  unfold getFileData
  simp only [bind_ok, requireString_ok, readFile_ok, Contents]

theorem ownKeys_ok {w : World} {n : Yaml} {keys : StaticKeys} : getLocalStaticKeys w n = .ok keys ↔ OwnKeys w n keys := by
  unfold getLocalStaticKeys OwnKeys Key
  simp only [bind_ok, requireString_ok, getCryptoKey_ok]
  constructor
  · rintro ⟨p, h1, a, h2, q, h3, b, h4, h5⟩
    cases h5
    exact ⟨⟨p, h1, h2⟩, q, h3, h4⟩
  · rintro ⟨⟨p, h1, h2⟩, q, h3, h4⟩
    exact ⟨p, h1, _, h2, q, h3, _, h4, rfl⟩

theorem cryptoMode_ok {n : Yaml} {m : SessionCryptoMode} :
    getSessionCryptoMode n = .ok m ↔ ∃ s, entry n "session_crypto_mode" = some (.scalar s) ∧ (s, m) ∈ modes := by
  unfold getSessionCryptoMode
  simp only [bind_ok, requireString_ok, Required, Text]
  constructor
  · rintro ⟨u, ⟨m, h1, rfl⟩, h2⟩
    refine ⟨u, h1, ?_⟩
    split at h2 <;> cases h2 <;> decide
  · rintro ⟨u, h1, h2⟩
    refine ⟨u, ⟨_, h1, rfl⟩, ?_⟩
    simp only [modes, List.mem_cons, Prod.mk.injEq, List.not_mem_nil, or_false] at h2
    rcases h2 with ⟨rfl, rfl⟩ | ⟨rfl, rfl⟩ <;> rfl

theorem suite_ok {n : Yaml} {s : CryptoSpec} :
    getCryptoSuite n = .ok s ↔ Protection n s.session_crypto_mode ∧ s = { defaultSuite with session_crypto_mode := s.session_crypto_mode } := by
  unfold getCryptoSuite Protection at'
  simp only [bind_ok, require_ok, cryptoMode_ok, at', Option.bind_eq_some_iff]
  constructor
  · rintro ⟨b, h1, a, ⟨u, h2, h3⟩, h4⟩
    cases h4
    exact ⟨⟨u, ⟨b, h1, _, h2, rfl⟩, h3⟩, rfl⟩
  · rintro ⟨⟨u, ⟨b, h1, c, h2, h4⟩, h3⟩, h5⟩
    cases h4
    refine ⟨b, h1, _, ⟨u, h2, h3⟩, ?_⟩
    rw [← h5]

theorem handshakeMode_ok {n : Yaml} {m : HandshakeMode} (h : getHandshakeMode n = .ok m) :
    (m = .shared_secret ∧ Required Text n "type" "shared_secret") ∨
    (m = .quantum_key_distribution ∧ Required Text n "type" "qkd") ∨
    (m = .public_keys ∧ Required Text n "type" "preshared_public_key") ∨
    (m = .industrial_certificates ∧ Required Text n "type" "certificate") := by
  unfold getHandshakeMode at h
  simp only [bind_ok, requireString_ok] at h
  obtain ⟨s, h1, h2⟩ := h
  split at h2 <;> cases h2
  · exact .inl ⟨rfl, h1⟩
  · exact .inr (.inl ⟨rfl, h1⟩)
  · exact .inr (.inr (.inl ⟨rfl, h1⟩))
  · exact .inr (.inr (.inr ⟨rfl, h1⟩))

theorem bindKeyStore_ok {w : World} {n : Yaml} {reg reg' : Registry} {s : String × UInt16}
    (h : bindKeyStore w n reg = .ok (s, reg')) :
    Spec.Store w n s ∧ ∃ source source' m, reg.find? (·.1 = s.1) = some (s.1, source) ∧ source.bind s.2 m = some source' ∧
      reg' = reg.map fun x => if x.1 = s.1 then (x.1, source') else x := by
  unfold bindKeyStore at h
  simp only [bind_ok, requireString_ok] at h
  obtain ⟨id, h1, h2⟩ := h
  split at h2
  · cases h2
  rename_i i source hf
  have hi : i = id := by simpa using List.find?_some hf
  subst hi
  simp only [bind_ok, requireUInt16_ok] at h2
  obtain ⟨sub, h3, m, h4, h5⟩ := h2
  split at h5
  · cases h5
  rename_i source' hb
  cases h5
  exact ⟨⟨h1, h3⟩, source, source', m, hf, hb, rfl⟩

theorem initiatorKeys_ok {w : World} {n : Yaml} {m : HandshakeMode} {reg reg' : Registry} {k : InitiatorKeys}
    (hm : getHandshakeMode n = .ok m) (h : getInitiatorKeys w n m reg = .ok (k, reg')) :
    InitiatorSecrets w n k ∧
    ((∀ s a b c, k ≠ .certificates s a b c) → Protection n (Spec.suite k).session_crypto_mode) ∧
    Spec.suite k = { defaultSuite with session_crypto_mode := (Spec.suite k).session_crypto_mode } := by
  rcases handshakeMode_ok hm with ⟨rfl, ht⟩ | ⟨rfl, ht⟩ | ⟨rfl, ht⟩ | ⟨rfl, ht⟩
  all_goals
    unfold getInitiatorKeys at h
    dsimp only at h
    simp only [bind_ok, requireString_ok, getCryptoKey_ok, suite_ok, ownKeys_ok, contents_ok, require_ok] at h
  · obtain ⟨p, h1, key, h2, s, h3, h4⟩ := h
    cases h4
    exact ⟨⟨ht, p, h1, h2⟩, fun _ => h3.1, h3.2⟩
  · obtain ⟨⟨st, reg1⟩, h1, s, h3, h4⟩ := h
    cases h4
    exact ⟨⟨ht, (bindKeyStore_ok h1).1⟩, fun _ => h3.1, h3.2⟩
  · obtain ⟨keys, h1, p, h2, r, h3, s, h4, h5⟩ := h
    cases h5
    exact ⟨⟨ht, h1, p, h2, h3⟩, fun _ => h4.1, h4.2⟩
  · obtain ⟨keys, h1, a, h2, c, h3, s, h4, h5⟩ := h
    cases h5
    exact ⟨⟨ht, h1, h2, h3⟩, fun h => absurd rfl (h _ _ _ _), rfl⟩

theorem responderKeys_ok {w : World} {n : Yaml} {m : HandshakeMode} {reg reg' : Registry} {k : ResponderKeys}
    (hm : getHandshakeMode n = .ok m) (h : getResponderKeys w n m reg = .ok (k, reg')) : ResponderSecrets w n k := by
  rcases handshakeMode_ok hm with ⟨rfl, ht⟩ | ⟨rfl, ht⟩ | ⟨rfl, ht⟩ | ⟨rfl, ht⟩
  all_goals
    unfold getResponderKeys at h
    dsimp only at h
    simp only [bind_ok, requireString_ok, getCryptoKey_ok, ownKeys_ok, contents_ok] at h
  · obtain ⟨p, h1, key, h2, h4⟩ := h
    cases h4
    exact ⟨ht, p, h1, h2⟩
  · obtain ⟨⟨st, reg1⟩, h1, h4⟩ := h
    cases h4
    exact ⟨ht, (bindKeyStore_ok h1).1⟩
  · obtain ⟨keys, h1, p, h2, r, h3, h5⟩ := h
    cases h5
    exact ⟨ht, h1, p, h2, h3⟩
  · obtain ⟨keys, h1, a, h2, c, h3, h5⟩ := h
    cases h5
    exact ⟨ht, h1, h2, h3⟩

theorem stackType_ok {n : Yaml} {t : StackType} (h : getStackType n = .ok t) :
    Required Text n "mode" (match t with | .initiator => "initiator" | .responder => "responder") := by
  unfold getStackType at h
  simp only [bind_ok, requireString_ok] at h
  obtain ⟨s, h1, h2⟩ := h
  split at h2 <;> cases h2 <;> exact h1

theorem stack_ok {w : World} {n : Yaml} {t : StackType} {reg reg' : Registry} {s : StackSpec}
    (ht : getStackType n = .ok t) (h : getStack w n t reg = .ok (s, reg')) : SecurityMeans w n s := by
  have hm := stackType_ok ht
  unfold getStack at h
  simp only [bind_ok, require_ok] at h
  obtain ⟨hs, h1, se, h2, h3⟩ := h
  cases t <;> dsimp only at h3 <;> simp only [bind_ok, initiatorConfig_ok, layerConfig_ok] at h3
  all_goals
    obtain ⟨c, h4, m, h5, ⟨k, reg1⟩, h6, h7⟩ := h3
    cases h7
  · exact ⟨hs, se, h1, h2, hm, h4, (initiatorKeys_ok h5 h6).1⟩
  · exact ⟨hs, se, h1, h2, hm, h4, responderKeys_ok h5 h6⟩

theorem requireBool_ok {w : World} {n : Yaml} {k : String} {b : Bool} :
    requireBool w n k = .ok b ↔ ∃ t, Required Text n k t ∧ w.bool t = some b := by
  unfold requireBool Required Text
  simp only [bind_ok, require_ok]
  constructor
  · rintro ⟨a, h1, h2⟩
    split at h2
    · split at h2
      · cases h2
      · cases h2
        exact ⟨_, ⟨_, h1, rfl⟩, ‹_›⟩
    · cases h2
  · rintro ⟨t, ⟨a, h1, rfl⟩, h2⟩
    exact ⟨_, h1, by simp [h2]⟩

theorem addresses_ok {w : World} {n : Yaml} {a : Link.Addresses} : getAddresses w n = .ok a ↔
    Required (Number w 0 65535) n "local" (a.source.toNat : Int) ∧
    Required (Number w 0 65535) n "remote" (a.destination.toNat : Int) := by
  unfold getAddresses
  simp only [bind_ok, requireUInt16_ok]
  constructor
  · rintro ⟨r, h1, l, h2, h3⟩
    cases h3
    exact ⟨h2, h1⟩
  · rintro ⟨h1, h2⟩
    exact ⟨_, h2, _, h1, rfl⟩

theorem endpoint_ok {w : World} {n : Yaml} {e : Endpoint} : getEndpoint w n = .ok e ↔ EndpointMeans w n e := by
  unfold getEndpoint EndpointMeans
  simp only [bind_ok, requireUInt16_ok, requireString_ok]
  constructor
  · rintro ⟨r, h1, l, h2, h3⟩
    cases h3
    exact ⟨h1, h2⟩
  · rintro ⟨h1, h2⟩
    exact ⟨_, h1, _, h2, rfl⟩

theorem stackFactory_ok {w : World} {n : Yaml} {reg reg' : Registry} {a : Option Link.Addresses} {s : StackSpec}
    (h : getStackFactory w n reg = .ok ((a, s), reg')) :
    Required (SecurityMeans w) n "security" s ∧ Required (LinkMeans w) n "link_layer" a := by
  unfold getStackFactory at h
  simp only [bind_ok, require_ok, requireBool_ok] at h
  obtain ⟨l, h1, se, h2, t, h3, b, ⟨x, h4, h5⟩, h6⟩ := h
  split at h6
  all_goals
    rename_i hb
    simp only [bind_ok, require_ok, addresses_ok] at h6
  · obtain ⟨ad, h7, a', h8, ⟨s', reg1⟩, h9, h10⟩ := h6
    cases h10
    subst hb
    exact ⟨⟨se, h2, stack_ok h3 h9⟩, l, h1, x, ad, h4, h5, h7, h8⟩
  · obtain ⟨⟨s', reg1⟩, h9, h10⟩ := h6
    cases h10
    exact ⟨⟨se, h2, stack_ok h3 h9⟩, l, h1, x, h4, by simpa [hb] using h5⟩

theorem session_ok {w : World} {n : Yaml} {reg reg' : Registry} {p : Proxy}
    (h : getSession w n reg = .ok (p, reg')) :
    SessionMeans w n p ∧ ((∃ m l c, p.transport = .tcp m l c) → p.addresses ≠ none) ∧
    getStackFactory w n reg = .ok ((p.addresses, p.stack), reg') := by
  unfold getSession at h
  simp only [bind_ok] at h
  obtain ⟨-, -, ⟨⟨a, s⟩, reg1⟩, h1, h2⟩ := h
  have hs := stackFactory_ok h1
  simp only [bind_ok, require_ok, requireString_ok] at h2
  obtain ⟨tr, h3, ty, h4, h5⟩ := h2
  split at h5
  · split at h5
    · cases h5
    rename_i ha
    simp only [bind_ok, require_ok, requireUInt16_ok, endpoint_ok] at h5
    obtain ⟨m, h6, l, h7, li, h8, c, h9, co, h10, h11⟩ := h5
    cases h11
    refine ⟨⟨hs.1, hs.2, tr, h3, h4, h6, ⟨l, h7, h8⟩, c, h9, h10⟩, fun _ => ?_, h1⟩
    intro hn
    dsimp only at hn
    subst hn
    simp at ha
  · simp only [bind_ok, require_ok, endpoint_ok] at h5
    obtain ⟨a1, h6, b1, h7, a2, h8, b2, h9, a3, h10, b3, h11, a4, h12, b4, h13, h14⟩ := h5
    cases h14
    refine ⟨⟨hs.1, hs.2, tr, h3, h4, ⟨a1, h6, h7⟩, ⟨a2, h8, h9⟩, ⟨a3, h10, h11⟩, a4, h12, h13⟩, fun ⟨_, _, _, h⟩ => ?_, h1⟩
    cases h
  · cases h5

/-! ### the whole file -/

theorem items_ok {n : Yaml} {l : List Yaml} : items n = .ok l ↔ n = .seq l := by
  unfold items
  split <;> simp_all

theorem readSessions_ok {w : World} {l : List Yaml} {reg reg' : Registry} {ps : List Proxy}
    (h : readSessions w l reg = .ok (ps, reg')) :
    List.Forall₂ (fun n p => ∃ r r', getSession w n r = .ok (p, r')) l ps := by
  induction l generalizing reg ps with
  | nil => cases h; exact .nil
  | cons n l ih =>
    unfold readSessions at h
    simp only [bind_ok] at h
    obtain ⟨⟨p, r1⟩, h1, ⟨ps', r2⟩, h2, h3⟩ := h
    cases h3
    exact .cons ⟨_, _, h1⟩ (ih h2)

theorem read_ok {w : World} {root : Yaml} {ps : List Proxy} {reg : Registry} (h : read w root = .ok (ps, reg)) :
    ∃ qs ss reg0, entry root "qkd_sources" = some (.seq qs) ∧ entry root "sessions" = some (.seq ss) ∧
      readSources w qs [] = .ok reg0 ∧ readSessions w ss reg0 = .ok (ps, reg) ∧ ps ≠ [] := by
  unfold read at h
  simp only [bind_ok, require_ok, items_ok] at h
  obtain ⟨_, h1, qs, rfl, reg0, h2, _, h3, ss, rfl, ⟨ps', reg1⟩, h4, h5⟩ := h
  dsimp only at h5
  split at h5
  · cases h5
  · cases h5
    exact ⟨qs, ss, reg0, h1, h3, h2, h4, by simp_all⟩

end SSP21.Config
