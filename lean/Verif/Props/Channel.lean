import Verif.Props.Transfer
/-
  Property C44 at the level of sessions: two sessions with the same key form a secure channel over a network
  controlled by an adversary who can drop, delay, duplicate, reorder and alter messages, but cannot forge
  authentication tags.
-/
namespace SSP21

/-! ## Specification -/

/-- The messages sent, each with the part of the user data it carries. -/
def transmitted (es : List SEvent) : List (SessionData × Bytes) :=
  es.filterMap fun
    | .sent f clear rest => some (f.msg, clear.take (clear.length - rest.length))
    | _ => none

/-- The chunks of user data sent in data messages (those with a nonce other than 0). -/
def sentChunks (es : List SEvent) : List Bytes :=
  ((transmitted es).filter fun x => x.1.metadata.nonce ≠ 0).map (·.2)

/-- The data delivered to the user, message by message. -/
def deliveredChunks (es : List SEvent) : List Bytes :=
  es.filterMap fun
    | .acceptedData _ p => some p
    | _ => none

/-- The data message was authenticated by this side: accepted, or refused for being empty. -/
def authenticatedHere (es : List SEvent) (m : SessionData) : Prop :=
  (∃ p, .acceptedData m p ∈ es) ∨ .rejected m (.crypto .empty_user_data) ∈ es ∨ (∃ p, .acceptedAuth m p ∈ es)

/-- Nothing was forged: whatever the receiver authenticated, the sender has sent. -/
def NoForgery (sender receiver : List SEvent) : Prop :=
  ∀ m, authenticatedHere receiver m → ∃ f clear rest, .sent f clear rest ∈ sender ∧ f.msg = m

/-! ## helper lemmas -/

theorem decrypt_unique {b : Backend} (hb : b.Lawful) {mode : SessionMode}
    (hm : mode = .hmacSha256Trunc16 b ∨ mode = .aes256Gcm b) {key ad ct tag clear p : Bytes} {nonce : UInt16} {n d : Nat}
    (he : mode.encrypt key nonce ad clear n = .ok (ct, tag)) (hd : mode.decrypt key nonce ad ct tag d = .ok p) :
    p = clear := by
  rcases hm with rfl | rfl
  · simp only [SessionMode.hmacSha256Trunc16, aeadMacEncrypt] at he
    simp only [SessionMode.hmacSha256Trunc16, aeadMacDecrypt] at hd
    split at he
    · cases he
    · cases he
      split at hd
      · cases hd
      · split at hd
        · cases hd
        · cases hd; rfl
  · simp only [SessionMode.aes256Gcm, gcmEncrypt] at he
    simp only [SessionMode.aes256Gcm, gcmDecrypt] at hd
    obtain ⟨ct', tag', e1, e2, e3, e4⟩ := hb.gcm_seal key (gcmNonce nonce) ad clear
    rw [e1] at he
    split at he
    · cases he
    · cases he
      split at hd
      · cases hd
      · rw [← e3, List.take_length, e4] at hd
        cases hd; rfl

/-- What one step tells about keys. -/
theorem step_detail (b : Backend) (s : Session) (st : Stats) (op : SOp) (hstd : s.algorithms.Standard b)
    (hni : (op.step s st).2.2.isInit = false) :
    ((op.step s st).1.algorithms = s.algorithms ∧
      ((op.step s st).1.valid = true → s.valid = true ∧ (op.step s st).1.keys = s.keys)) ∧
    (∀ f clear rest, (op.step s st).2.2 = .sent f clear rest → s.valid = true ∧ ∃ n,
      s.algorithms.mode.encrypt s.keys.txKey f.msg.metadata.nonce (metadataBytes f.msg.metadata)
        (clear.take (clear.length - rest.length)) n = .ok (f.msg.user_data, f.msg.auth_tag)) ∧
    (∀ m p, (op.step s st).2.2 = .acceptedData m p ∨ (op.step s st).2.2 = .acceptedAuth m p ∨
        ((op.step s st).2.2 = .rejected m (.crypto .empty_user_data) ∧ p = []) → s.valid = true ∧ ∃ d,
      s.algorithms.mode.decrypt s.keys.rxKey m.metadata.nonce (metadataBytes m.metadata) m.user_data m.auth_tag d = .ok p) := by
  have hread : ∀ m d p, s.algorithms.mode.read s.keys.rxKey m d = .ok p →
      s.algorithms.mode.decrypt s.keys.rxKey m.metadata.nonce (metadataBytes m.metadata) m.user_data m.auth_tag d = .ok p := by
    intro m d p h
    unfold SessionMode.read at h
    split at h
    · cases h
    · exact h
  have hfmt : ∀ now clear, (s.formatNoNonceCheck now clear).1.algorithms = s.algorithms ∧
      (s.formatNoNonceCheck now clear).1.valid = s.valid ∧ (s.formatNoNonceCheck now clear).1.keys = s.keys ∧
      ∀ f, (s.formatNoNonceCheck now clear).2.2 = .ok f → s.valid = true ∧ ∃ n,
      s.algorithms.mode.encrypt s.keys.txKey f.msg.metadata.nonce (metadataBytes f.msg.metadata)
        (clear.take (clear.length - (s.formatNoNonceCheck now clear).2.1.length)) n = .ok (f.msg.user_data, f.msg.auth_tag) := by
    intro now clear
    rcases format_cases s now clear with ⟨rest, e, h⟩ | ⟨f, n, h, h1, h2, h3, h4, h5, h6, h7, h8, h9, _⟩
    · rw [h]; exact ⟨rfl, rfl, rfl, fun f hf => by cases hf⟩
    · rw [h]
      refine ⟨rfl, rfl, rfl, fun g hg => ?_⟩
      cases hg
      refine ⟨h1, s.encryptBufferLen, ?_⟩
      have : clear.length - (clear.drop n).length = n := by rw [List.length_drop]; omega
      rw [this]; exact h9
  cases op with
  | init alg param keys =>
    simp only [SOp.step, Session.initialize] at hni ⊢
    cases hk : keys.valid with
    | false => simp
    | true => simp [hk, SEvent.isInit] at hni
  | reset => simp [SOp.step, Session.reset]
  | validateAuth m now d =>
    simp only [SOp.step, Session.validateAuth]
    rcases validateWith_cases s st m now d equalToZero with ⟨st', e, h, he⟩ | ⟨st', p, h, h1, h2, h3, h4, h5, h6, h7⟩
    · rw [h]
      refine ⟨⟨rfl, fun h => ⟨h, rfl⟩⟩, fun _ _ _ h => by (try cases h), ?_⟩
      intro m' p' hx
      rcases hx with hx | hx | ⟨hx, _⟩
      · cases hx
      · cases hx
      · cases hx
        exact absurd (he rfl) (read_not_empty_error hstd.2 _ _ _)
    · rw [h]
      refine ⟨⟨rfl, fun h => ⟨h, rfl⟩⟩, fun _ _ _ h => by (try cases h), ?_⟩
      intro m' p' hx
      rcases hx with hx | hx | ⟨hx, _⟩
      · cases hx
      · cases hx; exact ⟨h1, d, hread _ _ _ h2⟩
      · cases hx
  | validateData m now d =>
    simp only [SOp.step]
    rcases validateData_cases s st m now d with ⟨st', e, h, he⟩ | ⟨st', p, r, h, h0, h1, h2, h3, h4, h5, h6, h7⟩
    · rw [h]
      refine ⟨⟨rfl, fun h => ⟨h, rfl⟩⟩, fun _ _ _ h => by (try cases h), ?_⟩
      intro m' p' hx
      rcases hx with hx | hx | ⟨hx, _⟩
      · cases hx
      · cases hx
      · cases hx
        exact absurd (he rfl) (read_not_empty_error hstd.2 _ _ _)
    · rw [h]
      by_cases hp : p = []
      · rw [if_pos hp] at h0; subst h0
        refine ⟨⟨rfl, fun h => ⟨h, rfl⟩⟩, fun _ _ _ h => by (try cases h), ?_⟩
        intro m' p' hx
        rcases hx with hx | hx | ⟨hx, hx2⟩
        · cases hx
        · cases hx
        · cases hx; subst hx2; subst hp; exact ⟨h1, d, hread _ _ _ h2⟩
      · rw [if_neg hp] at h0; subst h0
        refine ⟨⟨rfl, fun h => ⟨h, rfl⟩⟩, fun _ _ _ h => by (try cases h), ?_⟩
        intro m' p' hx
        rcases hx with hx | hx | ⟨hx, hx2⟩
        · cases hx; exact ⟨h1, d, hread _ _ _ h2⟩
        · cases hx
        · cases hx
  | formatAuth now clear =>
    simp only [SOp.step, Session.formatAuth]
    by_cases hz : s.txNonce ≠ 0
    · rw [if_pos hz]
      exact ⟨⟨rfl, fun h => ⟨h, rfl⟩⟩, fun _ _ _ h => by (try cases h), fun _ _ h => by rcases h with h | h | ⟨h, _⟩ <;> cases h⟩
    · rw [if_neg hz]
      have k := hfmt now clear
      generalize s.formatNoNonceCheck now clear = x at k ⊢
      obtain ⟨x1, x2, x3⟩ := x
      obtain ⟨k1, k2, k3, k4⟩ := k
      cases x3 with
      | error e =>
        exact ⟨⟨k1, fun h => ⟨by rw [← k2]; exact h, k3⟩⟩, fun _ _ _ h => by (try cases h), fun _ _ h => by rcases h with h | h | ⟨h, _⟩ <;> cases h⟩
      | ok f =>
        refine ⟨⟨k1, fun h => ⟨by rw [← k2]; exact h, k3⟩⟩, fun f' c' r' h => ?_, fun _ _ h => by rcases h with h | h | ⟨h, _⟩ <;> cases h⟩
        cases h
        exact k4 f rfl
  | formatData now clear =>
    simp only [SOp.step, Session.formatData]
    by_cases hz : s.txNonce ≥ s.param.maxNonce
    · rw [if_pos hz]
      exact ⟨⟨rfl, fun h => ⟨h, rfl⟩⟩, fun _ _ _ h => by (try cases h), fun _ _ h => by rcases h with h | h | ⟨h, _⟩ <;> cases h⟩
    · rw [if_neg hz]
      have k := hfmt now clear
      generalize s.formatNoNonceCheck now clear = x at k ⊢
      obtain ⟨x1, x2, x3⟩ := x
      obtain ⟨k1, k2, k3, k4⟩ := k
      cases x3 with
      | error e =>
        exact ⟨⟨k1, fun h => ⟨by rw [← k2]; exact h, k3⟩⟩, fun _ _ _ h => by (try cases h), fun _ _ h => by rcases h with h | h | ⟨h, _⟩ <;> cases h⟩
      | ok f =>
        refine ⟨⟨k1, fun h => ⟨by rw [← k2]; exact h, k3⟩⟩, fun f' c' r' h => ?_, fun _ _ h => by rcases h with h | h | ⟨h, _⟩ <;> cases h⟩
        cases h
        exact k4 f rfl

/-- In a run without initialisation every event uses the keys and the mode of the start. -/
theorem run_detail (b : Backend) (ops : List SOp) : ∀ (s : Session) (st : Stats) (keys : SessionKeys),
    s.algorithms.Standard b → (s.valid = true → s.keys = keys) →
    (∀ e ∈ (runOps s st ops).2.2, e.isInit = false) →
    (∀ f clear rest, .sent f clear rest ∈ (runOps s st ops).2.2 → ∃ n,
      s.algorithms.mode.encrypt keys.txKey f.msg.metadata.nonce (metadataBytes f.msg.metadata)
        (clear.take (clear.length - rest.length)) n = .ok (f.msg.user_data, f.msg.auth_tag)) ∧
    (∀ m p, .acceptedData m p ∈ (runOps s st ops).2.2 ∨ .acceptedAuth m p ∈ (runOps s st ops).2.2 ∨
        (.rejected m (.crypto .empty_user_data) ∈ (runOps s st ops).2.2 ∧ p = []) → ∃ d,
      s.algorithms.mode.decrypt keys.rxKey m.metadata.nonce (metadataBytes m.metadata) m.user_data m.auth_tag d = .ok p) := by
  induction ops with
  | nil =>
    intro s st keys _ _ _
    refine ⟨fun f c r h => by simp [runOps] at h, fun m p h => by simp [runOps] at h⟩
  | cons op ops ih =>
    intro s st keys hstd hkeys hni
    simp only [runOps] at hni ⊢
    obtain ⟨⟨d1, d2⟩, d3, d4⟩ := step_detail b s st op hstd (hni _ (by simp))
    obtain ⟨i1, i2⟩ := ih (op.step s st).1 (op.step s st).2.1 keys (by rw [d1]; exact hstd)
      (fun h => by rw [(d2 h).2]; exact hkeys (d2 h).1) (fun e he => hni e (by simp [he]))
    rw [d1] at i1 i2
    constructor
    · intro f clear rest h
      rcases List.mem_cons.mp h with h | h
      · obtain ⟨v, n, hn⟩ := d3 f clear rest h.symm
        rw [hkeys v] at hn
        exact ⟨n, hn⟩
      · exact i1 f clear rest h
    · intro m p h
      have hsplit : ((op.step s st).2.2 = .acceptedData m p ∨ (op.step s st).2.2 = .acceptedAuth m p ∨
          ((op.step s st).2.2 = .rejected m (.crypto .empty_user_data) ∧ p = [])) ∨
          (.acceptedData m p ∈ (runOps (op.step s st).1 (op.step s st).2.1 ops).2.2 ∨
           .acceptedAuth m p ∈ (runOps (op.step s st).1 (op.step s st).2.1 ops).2.2 ∨
           (.rejected m (.crypto .empty_user_data) ∈ (runOps (op.step s st).1 (op.step s st).2.1 ops).2.2 ∧ p = [])) := by
        rcases h with h | h | ⟨h, h'⟩
        · rcases List.mem_cons.mp h with h | h
          · exact Or.inl (Or.inl h.symm)
          · exact Or.inr (Or.inl h)
        · rcases List.mem_cons.mp h with h | h
          · exact Or.inl (Or.inr (Or.inl h.symm))
          · exact Or.inr (Or.inr (Or.inl h))
        · rcases List.mem_cons.mp h with h | h
          · exact Or.inl (Or.inr (Or.inr ⟨h.symm, h'⟩))
          · exact Or.inr (Or.inr (Or.inr ⟨h, h'⟩))
      rcases hsplit with h | h
      · obtain ⟨v, n, hn⟩ := d4 m p h
        rw [hkeys v] at hn
        exact ⟨n, hn⟩
      · exact i2 m p h

/-- The data messages authenticated, with the data they carry. -/
def consumed (es : List SEvent) : List (SessionData × Bytes) :=
  es.filterMap fun
    | .acceptedData m p => some (m, p)
    | .rejected m (.crypto .empty_user_data) => some (m, [])
    | _ => none

theorem transmitted_nonces (es : List SEvent) :
    (transmitted es).map (fun x => x.1.metadata.nonce.toNat) = sentNonces es := by
  induction es with
  | nil => rfl
  | cons e es ih =>
    cases e with
    | sent f c r => simp only [transmitted, sentNonces, List.filterMap_cons, List.map_cons] at ih ⊢; rw [ih]
    | _ => simpa [transmitted, sentNonces, List.filterMap_cons] using ih

theorem consumed_nonces (es : List SEvent) :
    (consumed es).map (fun x => x.1.metadata.nonce.toNat) = consumedNonces es := by
  induction es with
  | nil => rfl
  | cons e es ih =>
    cases e with
    | acceptedData m p => simp only [consumed, consumedNonces, List.filterMap_cons, List.map_cons] at ih ⊢; rw [ih]
    | rejected m e =>
      by_cases he : e = .crypto .empty_user_data
      · subst he
        simp only [consumed, consumedNonces, List.filterMap_cons, List.map_cons] at ih ⊢; rw [ih]
      · have h1 : consumed (.rejected m e :: es) = consumed es := by
          unfold consumed
          rw [List.filterMap_cons_none]
          split
          · rename_i h2; cases h2
          · rename_i h2; cases h2; exact absurd rfl he
          · rfl
        have h2 : consumedNonces (.rejected m e :: es) = consumedNonces es := by
          unfold consumedNonces
          rw [List.filterMap_cons_none]
          split
          · rename_i h2; cases h2
          · rename_i h2; cases h2; exact absurd rfl he
          · rfl
        rw [h1, h2]; exact ih
    | _ => simpa [consumed, consumedNonces, List.filterMap_cons] using ih

theorem delivered_sublist (es : List SEvent) : (deliveredChunks es).Sublist ((consumed es).map (·.2)) := by
  induction es with
  | nil => exact List.Sublist.slnil
  | cons e es ih =>
    cases e with
    | acceptedData m p => simp only [deliveredChunks, consumed, List.filterMap_cons, List.map_cons] at ih ⊢; exact ih.cons_cons _
    | rejected m e =>
      simp only [deliveredChunks, consumed, List.filterMap_cons] at ih ⊢
      split
      · exact ih
      · exact ih.cons _
    | _ => simpa [deliveredChunks, consumed, List.filterMap_cons] using ih

theorem delivered_flatten (es : List SEvent) : (deliveredChunks es).flatten = ((consumed es).map (·.2)).flatten := by
  induction es with
  | nil => rfl
  | cons e es ih =>
    cases e with
    | acceptedData m p =>
      simp only [deliveredChunks, consumed, List.filterMap_cons, List.map_cons, List.flatten_cons] at ih ⊢
      rw [ih]
    | rejected m e =>
      simp only [deliveredChunks, consumed, List.filterMap_cons] at ih ⊢
      split
      · exact ih
      · rename_i x hx
        split at hx
        · rename_i h2; cases h2
        · cases hx
          simp only [List.map_cons, List.flatten_cons, List.nil_append]
          exact ih
        · cases hx
    | _ => simpa [deliveredChunks, consumed, List.filterMap_cons] using ih

theorem mem_transmitted {es : List SEvent} {f : Formatted} {c r : Bytes} (h : .sent f c r ∈ es) :
    (f.msg, c.take (c.length - r.length)) ∈ transmitted es :=
  List.mem_filterMap.mpr ⟨_, h, rfl⟩

theorem mem_consumed {es : List SEvent} {x : SessionData × Bytes} (h : x ∈ consumed es) :
    .acceptedData x.1 x.2 ∈ es ∨ (.rejected x.1 (.crypto .empty_user_data) ∈ es ∧ x.2 = []) := by
  obtain ⟨e, he, hx⟩ := List.mem_filterMap.mp h
  split at hx
  · cases hx; exact Or.inl he
  · cases hx; exact Or.inr ⟨he, rfl⟩
  · cases hx

theorem sublist_of_increasing {α : Type} (f : α → Nat) : ∀ (T R : List α), (T.map f).Pairwise (· < ·) →
    (R.map f).Pairwise (· < ·) → (∀ r ∈ R, r ∈ T) → R.Sublist T := by
  intro T
  induction T with
  | nil =>
    intro R _ _ h
    cases R with
    | nil => exact List.Sublist.slnil
    | cons r R => exact absurd (h r (by simp)) (by simp)
  | cons t T ih =>
    intro R hT hR h
    simp only [List.map_cons, List.pairwise_cons, List.mem_map, forall_exists_index, and_imp,
      forall_apply_eq_imp_iff₂] at hT
    cases R with
    | nil => exact List.nil_sublist _
    | cons r R =>
      simp only [List.map_cons, List.pairwise_cons, List.mem_map, forall_exists_index, and_imp,
        forall_apply_eq_imp_iff₂] at hR
      have hrest : ∀ x ∈ R, x ∈ T := by
        intro x hx
        rcases List.mem_cons.mp (h x (by simp [hx])) with rfl | hx'
        · have h1 := hR.1 x hx
          rcases List.mem_cons.mp (h r (by simp)) with rfl | hr
          · omega
          · have := hT.1 r hr; omega
        · exact hx'
      rcases List.mem_cons.mp (h r (by simp)) with rfl | hr
      · exact (ih R hT.2 hR.2 hrest).cons_cons _
      · refine (ih (r :: R) hT.2 ?_ ?_).cons _
        · simp only [List.map_cons, List.pairwise_cons, List.mem_map, forall_exists_index, and_imp,
            forall_apply_eq_imp_iff₂]
          exact hR
        · intro x hx
          rcases List.mem_cons.mp hx with rfl | hx
          · exact hr
          · exact hrest x hx

theorem range'_prefix_of_mem {α : Type} (f : α → Nat) : ∀ (k : Nat) (T R : List α) (a : Nat), T.map f = List.range' a T.length →
    R.map f = List.range' a k → (∀ r ∈ R, r ∈ T) → R <+: T := by
  intro k
  induction k with
  | zero =>
    intro T R a _ hR _
    have : R = [] := by simpa using hR
    subst this; exact List.nil_prefix
  | succ k ih =>
    intro T R a hT hR hmem
    cases R with
    | nil => exact List.nil_prefix
    | cons r R =>
      cases T with
      | nil => exact absurd (hmem r (by simp)) (by simp)
      | cons t T =>
        simp only [List.map_cons, List.length_cons, List.range'_succ, List.cons.injEq] at hT hR
        have hgt : ∀ x ∈ T, a < f x := by
          intro x hx
          have : f x ∈ T.map f := List.mem_map_of_mem hx
          rw [hT.2, List.mem_range'_1] at this; omega
        have hgt' : ∀ x ∈ R, a < f x := by
          intro x hx
          have : f x ∈ R.map f := List.mem_map_of_mem hx
          rw [hR.2, List.mem_range'_1] at this; omega
        have hrt : r = t := by
          rcases List.mem_cons.mp (hmem r (by simp)) with h | h
          · exact h
          · have := hgt r h; omega
        subst hrt
        rw [List.cons_prefix_cons]
        refine ⟨rfl, ih T R (a + 1) hT.2 hR.2 ?_⟩
        intro x hx
        rcases List.mem_cons.mp (hmem x (by simp [hx])) with rfl | h
        · have := hgt' x hx; omega
        · exact h

/-- The situation of C44: sender and receiver are sessions with arbitrary histories of which the segments
`sent` and `recv`, without re-initialisation, are considered; both were initialised with a standard
algorithm suite in the same mode and the sender's transmit key is the receiver's receive key. -/
structure Channel (b : Backend) (sent recv : List SEvent) (rxAlg : SessionAlgorithms) : Prop where
  sender : ∃ fw pad ops before after alg param keys,
    events b fw pad ops = before ++ .initialized alg param keys :: sent ++ after ∧
    alg.Standard b ∧
    ∃ fw' pad' ops' before' after' param' keys',
      events b fw' pad' ops' = before' ++ .initialized rxAlg param' keys' :: recv ++ after' ∧
      rxAlg.Standard b ∧ rxAlg.mode = alg.mode ∧ keys'.rxKey = keys.txKey
  sentNoInit : ∀ e ∈ sent, e.isInit = false
  recvNoInit : ∀ e ∈ recv, e.isInit = false

theorem channel_facts (b : Backend) (hb : b.Lawful) (sent recv : List SEvent) (rxAlg : SessionAlgorithms)
    (hc : Channel b sent recv rxAlg) (hf : NoForgery sent recv) :
    (∃ k, (transmitted sent).map (fun x => x.1.metadata.nonce.toNat) = List.range k) ∧
    (∀ x ∈ consumed recv, x ∈ transmitted sent) ∧
    (0 :: (consumed recv).map (fun x => x.1.metadata.nonce.toNat)).Pairwise (· < ·) ∧
    (rxAlg.verifyNonce = verifyStrictIncrement →
      ∃ k, (consumed recv).map (fun x => x.1.metadata.nonce.toNat) = List.range' 1 k) ∧
    (∀ m p, .acceptedAuth m p ∈ recv → m.metadata.nonce = 0 ∧ (m, p) ∈ transmitted sent) := by
  obtain ⟨⟨fw, pad, ops, before, after, alg, param, keys, h1, h2, fw', pad', ops', before', after', param', keys', h3, h4, h5, h6⟩, hs, hr⟩ := hc
  obtain ⟨sa, sta, opa, a1, a2, a3, a4, a5, a6, a7, a8⟩ := segment h1
  obtain ⟨sr, str, opr, r1, r2, r3, r4, r5, r6, r7, r8⟩ := segment h3
  have da := run_detail b opa sa sta keys (by rw [a4]; exact h2) (fun _ => a6) (by rw [a1]; exact hs)
  have dr := run_detail b opr sr str keys' (by rw [r4]; exact h4) (fun _ => r6) (by rw [r1]; exact hr)
  rw [a1, a4] at da
  rw [r1, r4, h6, h5] at dr
  obtain ⟨k1, k2, k3, k4⟩ := consumed_from b opr sr str (by rw [r4]; exact h4) (by rw [r1]; exact hr)
  rw [r1] at k1 k3 k4
  rw [r2] at k1 k3
  rw [r4] at k3
  rw [consumed_nonces, transmitted_nonces]
  refine ⟨?_, ?_, by simpa using k1, by simpa using k3, ?_⟩
  · obtain ⟨k, hk, _⟩ := C16_tx_nonces_count_up b fw pad ops before sent after alg param keys h1 hs
    exact ⟨k, hk⟩
  · intro x hx
    have hx' := mem_consumed hx
    have hauth : authenticatedHere recv x.1 := by
      rcases hx' with hx' | ⟨hx', _⟩
      · exact Or.inl ⟨_, hx'⟩
      · exact Or.inr (Or.inl hx')
    obtain ⟨f, c, r, g1, g2⟩ := hf x.1 hauth
    obtain ⟨n, hn⟩ := da.1 f c r g1
    obtain ⟨d, hd⟩ := dr.2 x.1 x.2 (by
      rcases hx' with hx' | ⟨hx', h0⟩
      · exact Or.inl hx'
      · exact Or.inr (Or.inr ⟨hx', h0⟩))
    rw [g2] at hn
    have := decrypt_unique hb h2.2 hn hd
    have hm := mem_transmitted g1
    rw [g2, ← this] at hm
    exact hm
  · intro m p hx
    obtain ⟨f, c, r, g1, g2⟩ := hf m (Or.inr (Or.inr ⟨p, hx⟩))
    obtain ⟨n, hn⟩ := da.1 f c r g1
    obtain ⟨d, hd⟩ := dr.2 m p (Or.inr (Or.inl hx))
    rw [g2] at hn
    have := decrypt_unique hb h2.2 hn hd
    have hm := mem_transmitted g1
    rw [g2, ← this] at hm
    refine ⟨?_, hm⟩
    have h0 := (k4 m.metadata.nonce.toNat (List.mem_filterMap.mpr ⟨_, hx, rfl⟩)).1
    exact UInt16.toNat.inj h0

theorem transmitted_split (T : List (SessionData × Bytes)) (k : Nat)
    (h : T.map (fun x => x.1.metadata.nonce.toNat) = List.range k) :
    let D := T.filter fun x => x.1.metadata.nonce ≠ 0
    D.map (fun x => x.1.metadata.nonce.toNat) = List.range' 1 D.length ∧
    (∀ x ∈ T, x.1.metadata.nonce ≠ 0 → x ∈ D) := by
  intro D
  refine ⟨?_, fun x hx h0 => by simp only [D, List.mem_filter]; exact ⟨hx, by simpa using h0⟩⟩
  cases T with
  | nil => rfl
  | cons t T =>
    cases k with
    | zero => simp at h
    | succ k =>
      rw [List.range_eq_range', List.range'_succ] at h
      simp only [List.map_cons, List.cons.injEq] at h
      have h0 : t.1.metadata.nonce = 0 := UInt16.toNat.inj h.1
      have hD : D = T := by
        simp only [D, List.filter_cons, h0]
        simp only [ne_eq, not_true_eq_false, decide_false, Bool.false_eq_true, if_false]
        rw [List.filter_eq_self]
        intro x hx
        have : x.1.metadata.nonce.toNat ∈ T.map (fun x => x.1.metadata.nonce.toNat) := List.mem_map_of_mem hx
        rw [h.2, List.mem_range'_1] at this
        simp only [decide_eq_true_eq]
        intro h1
        rw [h1] at this
        simp at this
      rw [hD, h.2]
      have := congrArg List.length h.2
      simp at this
      rw [this]

/-! ## C44 — the secure channel -/

/-- Strict nonce mode: whatever the network does, as long as no tag is forged, the bytes delivered in data
messages are a prefix of the bytes sent in data messages: nothing is altered, duplicated, reordered or
skipped. -/
theorem C44_delivered_is_prefix (b : Backend) (hb : b.Lawful) (sent recv : List SEvent) (rxAlg : SessionAlgorithms)
    (hc : Channel b sent recv rxAlg) (hf : NoForgery sent recv) (hstrict : rxAlg.verifyNonce = verifyStrictIncrement) :
    (deliveredChunks recv).flatten <+: (sentChunks sent).flatten := by
  obtain ⟨⟨k, f1⟩, f2, f3, f4, -⟩ := channel_facts b hb sent recv rxAlg hc hf
  obtain ⟨k', f4⟩ := f4 hstrict
  obtain ⟨t1, t2⟩ := transmitted_split _ _ f1
  have hp : consumed recv <+: (transmitted sent).filter fun x => x.1.metadata.nonce ≠ 0 := by
    refine range'_prefix_of_mem _ k' _ _ 1 t1 f4 ?_
    intro x hx
    refine t2 x (f2 x hx) ?_
    intro h0
    have : x.1.metadata.nonce.toNat ∈ (consumed recv).map (fun x => x.1.metadata.nonce.toNat) := List.mem_map_of_mem hx
    rw [f4, List.mem_range'_1, h0] at this
    simp at this
  rw [delivered_flatten]
  obtain ⟨rest, hrest⟩ := hp
  refine ⟨(rest.map (·.2)).flatten, ?_⟩
  rw [← List.flatten_append, ← List.map_append, hrest]
  rfl

/-- Either nonce mode: the chunks delivered are a subsequence of the chunks sent. -/
theorem C44_delivered_is_subsequence (b : Backend) (hb : b.Lawful) (sent recv : List SEvent) (rxAlg : SessionAlgorithms)
    (hc : Channel b sent recv rxAlg) (hf : NoForgery sent recv) :
    (deliveredChunks recv).Sublist (sentChunks sent) := by
  obtain ⟨⟨k, f1⟩, f2, f3, -, -⟩ := channel_facts b hb sent recv rxAlg hc hf
  obtain ⟨t1, t2⟩ := transmitted_split _ _ f1
  rw [List.pairwise_cons] at f3
  refine (delivered_sublist recv).trans (List.Sublist.map _ ?_)
  refine sublist_of_increasing (fun x => x.1.metadata.nonce.toNat) _ _ ?_ f3.2 ?_
  · rw [t1]; exact List.pairwise_lt_range'
  · intro x hx
    refine t2 x (f2 x hx) ?_
    intro h0
    have := f3.1 _ (List.mem_map_of_mem hx)
    rw [h0] at this; simp at this

/-- Strict nonce mode: when as many data messages were authenticated as were sent, everything was delivered. -/
theorem C44_complete (b : Backend) (hb : b.Lawful) (sent recv : List SEvent) (rxAlg : SessionAlgorithms)
    (hc : Channel b sent recv rxAlg) (hf : NoForgery sent recv) (hstrict : rxAlg.verifyNonce = verifyStrictIncrement)
    (hall : (sentChunks sent).length ≤ (consumedNonces recv).length) :
    (deliveredChunks recv).flatten = (sentChunks sent).flatten := by
  obtain ⟨⟨k, f1⟩, f2, f3, f4, -⟩ := channel_facts b hb sent recv rxAlg hc hf
  obtain ⟨k', f4⟩ := f4 hstrict
  obtain ⟨t1, t2⟩ := transmitted_split _ _ f1
  have hp : consumed recv <+: (transmitted sent).filter fun x => x.1.metadata.nonce ≠ 0 := by
    refine range'_prefix_of_mem _ k' _ _ 1 t1 f4 ?_
    intro x hx
    refine t2 x (f2 x hx) ?_
    intro h0
    have : x.1.metadata.nonce.toNat ∈ (consumed recv).map (fun x => x.1.metadata.nonce.toNat) := List.mem_map_of_mem hx
    rw [f4, List.mem_range'_1, h0] at this
    simp at this
  have heq : consumed recv = (transmitted sent).filter fun x => x.1.metadata.nonce ≠ 0 := by
    refine hp.eq_of_length_le ?_
    rw [sentChunks, List.length_map, ← consumed_nonces, List.length_map] at hall
    exact hall
  rw [delivered_flatten, heq]; rfl

/-- The data accepted with an authentication message is what the sender put into its message number 0. -/
theorem C44_auth_payload (b : Backend) (hb : b.Lawful) (sent recv : List SEvent) (rxAlg : SessionAlgorithms)
    (hc : Channel b sent recv rxAlg) (hf : NoForgery sent recv) (m : SessionData) (p : Bytes)
    (h : .acceptedAuth m p ∈ recv) : (transmitted sent).head? = some (m, p) := by
  obtain ⟨⟨k, f1⟩, -, -, -, f5⟩ := channel_facts b hb sent recv rxAlg hc hf
  obtain ⟨h0, hm⟩ := f5 m p h
  cases hT : transmitted sent with
  | nil => rw [hT] at hm; cases hm
  | cons t T =>
    rw [hT] at hm f1
    cases k with
    | zero => simp at f1
    | succ k =>
      rw [List.range_eq_range', List.range'_succ] at f1
      simp only [List.map_cons, List.cons.injEq] at f1
      rcases List.mem_cons.mp hm with rfl | hm
      · rfl
      · have : (m, p).1.metadata.nonce.toNat ∈ T.map (fun x => x.1.metadata.nonce.toNat) := List.mem_map_of_mem hm
        rw [f1.2, List.mem_range'_1, h0] at this
        simp at this

/-! ### a concrete channel meeting the hypotheses -/
namespace ChannelExample
open SessionExample

/-- Message number `n` as the sender formats it at time 0 with a padding of 10 seconds. -/
def sentMsg (n : UInt16) (data : Bytes) : Formatted :=
  ⟨Spec.sessionData (message n data), message n data⟩

def txOps : List SOp :=
  [.init alg ⟨0, 9, ms 60000⟩ ⟨key, key⟩, .formatAuth 0 [], .formatData 0 [1, 2], .formatData 0 [3]]
def sentEvents : List SEvent :=
  [.sent (sentMsg 0 []) [] [], .sent (sentMsg 1 [1, 2]) [1, 2] [], .sent (sentMsg 2 [3]) [3] []]

/-- The network alters, replays and reorders. -/
def rxOps : List SOp :=
  [.init alg ⟨0, 9, ms 60000⟩ ⟨key, key⟩, .validateAuth (message 0 []) 1 2000,
   .validateData { message 1 [1, 2] with user_data := [1, 7] } 2 2000, .validateData (message 2 [3]) 3 2000,
   .validateData (message 1 [1, 2]) 4 2000, .validateData (message 1 [1, 2]) 5 2000,
   .validateData (message 2 [3]) 6 2000]
def recvEvents : List SEvent :=
  [.acceptedAuth (message 0 []) [], .rejected { message 1 [1, 2] with user_data := [1, 7] } (.crypto .mac_auth_fail),
   .rejected (message 2 [3]) (.crypto .nonce_replay), .acceptedData (message 1 [1, 2]) [1, 2],
   .rejected (message 1 [1, 2]) (.crypto .nonce_replay), .acceptedData (message 2 [3]) [3]]

theorem channel : Channel Toy.backend sentEvents recvEvents alg where
  sender := ⟨fw, 10000, txOps, [], [], alg, ⟨0, 9, ms 60000⟩, ⟨key, key⟩, rfl, ⟨Or.inl rfl, Or.inl rfl⟩,
    fw, 10000, rxOps, [], [], ⟨0, 9, ms 60000⟩, ⟨key, key⟩, rfl, ⟨Or.inl rfl, Or.inl rfl⟩, rfl, rfl⟩
  sentNoInit := by simp [sentEvents, SEvent.isInit]
  recvNoInit := by simp [recvEvents, SEvent.isInit]

theorem noForgery : NoForgery sentEvents recvEvents := by
  intro m h
  rcases h with ⟨p, h⟩ | h | ⟨p, h⟩
  · simp only [recvEvents, List.mem_cons, reduceCtorEq, false_or, SEvent.acceptedData.injEq, List.not_mem_nil, or_false] at h
    rcases h with ⟨rfl, _⟩ | ⟨rfl, _⟩
    · exact ⟨sentMsg 1 [1, 2], [1, 2], [], by simp [sentEvents], rfl⟩
    · exact ⟨sentMsg 2 [3], [3], [], by simp [sentEvents], rfl⟩
  · simp [recvEvents] at h
  · simp only [recvEvents, List.mem_cons, reduceCtorEq, false_or, SEvent.acceptedAuth.injEq, List.not_mem_nil, or_false] at h
    obtain ⟨rfl, _⟩ := h
    exact ⟨sentMsg 0 [], [], [], by simp [sentEvents], rfl⟩

example : (deliveredChunks recvEvents).flatten = [1, 2, 3] ∧ sentChunks sentEvents = [[1, 2], [3]] ∧
    (deliveredChunks recvEvents).flatten <+: (sentChunks sentEvents).flatten :=
  ⟨rfl, rfl, C44_delivered_is_prefix _ Toy.lawful _ _ _ channel noForgery rfl⟩
end ChannelExample

end SSP21
