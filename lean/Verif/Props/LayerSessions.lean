import Verif.Props.Refine
/-
  C16, C17, C21, C36 for a whole layer: the sessions of a layer in an arbitrary environment (any application, which
  may call the layer from inside callbacks; any messages; any timers), with the definitions of Spec/History.lean.
-/
namespace SSP21.Crypto
open Spec

/-! ### each session of a layer has the history of a session object -/

/-- Session `n` of a layer begins with the installation of keys that a handshake of this layer established; no keys are
installed in it afterwards; all of it is a history of a newly constructed session object. -/
theorem layer_session {c : Cfg} {E : Env} {s : Layer} (h : Observed c E s) {n : Nat} (hn : n < (view s).count) :
    ∃ a p k es, (view s).session n = .initialized a p k :: es ∧ (∀ e ∈ es, e.isInit = false) ∧
      Obs.established k a p ∈ s.log ∧ ∃ ops, events c.backend c.fw c.ttlPadMs ops = [] ++ .initialized a p k :: es ++ [] := by
  have hi := RefineProof.inv h
  obtain ⟨⟨S, ⟨ops, -, ho⟩, a, p, k, es, he, hni⟩, -⟩ := hi.good.all n hn
  refine ⟨a, p, k, es, he, hni, ?_, ops, by rw [events, ho, he]; simp⟩
  have hm : SEvent.initialized a p k ∈ (view s).session n := by rw [he]; simp
  obtain ⟨x, hx, hx'⟩ := List.mem_filterMap.mp hm
  split at hx'
  · rename_i hxn
    obtain ⟨m, e⟩ := x
    cases hx'
    exact hi.good.init m a p k hx
  · cases hx'

/-- Nothing happens outside sessions that exist. -/
theorem layer_events {c : Cfg} {E : Env} {s : Layer} (h : Observed c E s) :
    ∀ x ∈ (view s).events, x.1 < (view s).count := (RefineProof.inv h).good.idx

theorem layer_standard {c : Cfg} {E : Env} (hb : c.backend.Lawful) {s : Layer} (h : Observed c E s) {k : SessionKeys}
    {a : SessionAlgorithms} {p : SessionParam} (he : Obs.established k a p ∈ s.log) : a.Standard c.backend := by
  obtain ⟨pre, post, hlog⟩ := List.append_of_mem he
  exact (C29_keys_from_handshake c E hb s h pre post k a p hlog).1

theorem sentNonces_init (a : SessionAlgorithms) (p : SessionParam) (k : SessionKeys) (es : List SEvent) :
    sentNonces (.initialized a p k :: es) = sentNonces es := rfl
theorem dataNonces_init (a : SessionAlgorithms) (p : SessionParam) (k : SessionKeys) (es : List SEvent) :
    dataNonces (.initialized a p k :: es) = dataNonces es := rfl
theorem authNonces_init (a : SessionAlgorithms) (p : SessionParam) (k : SessionKeys) (es : List SEvent) :
    authNonces (.initialized a p k :: es) = authNonces es := rfl
theorem consumedNonces_init (a : SessionAlgorithms) (p : SessionParam) (k : SessionKeys) (es : List SEvent) :
    consumedNonces (.initialized a p k :: es) = consumedNonces es := rfl

/-! ### C16 -/

/-- In every execution, in every session of the layer: the messages made carry the nonces 0, 1, 2, ..., in this order
and without repetition, up to the maximum of the handshake. -/
theorem C16_layer_nonces_count_up (c : Cfg) (E : Env) (s : Layer) (h : Observed c E s) (n : Nat) (hn : n < (view s).count) :
    ∃ a p k es m, (view s).session n = .initialized a p k :: es ∧ Obs.established k a p ∈ s.log ∧
      sentNonces es = List.range m ∧ m ≤ max p.maxNonce.toNat 1 := by
  obtain ⟨a, p, k, es, h1, h2, h3, ops, h4⟩ := layer_session h hn
  obtain ⟨m, hm⟩ := C16_tx_nonces_count_up _ _ _ _ _ _ _ _ _ _ h4 h2
  exact ⟨a, p, k, es, m, h1, h3, hm⟩

theorem history_split {c : Cfg} {E : Env} {s : Layer} (h : Observed c E s) {pre post : List Ev} {e : Ev}
    (hh : history s = pre ++ e :: post) : Fits c pre e := (RefineProof.inv h).fits pre e post hh

theorem history_induct {c : Cfg} (P : List Ev → Prop) : ∀ (h : List Ev),
    (∀ pre e post, h = pre ++ e :: post → Fits c pre e) → P [] → (∀ pre e, P pre → Fits c pre e → P (pre ++ [e])) → P h := by
  have key : ∀ (n : Nat) (h : List Ev), h.length = n → (∀ pre e post, h = pre ++ e :: post → Fits c pre e) → P [] →
      (∀ pre e, P pre → Fits c pre e → P (pre ++ [e])) → P h := by
    intro n
    induction n with
    | zero => intro h hn _ h0 _; rw [List.length_eq_zero_iff.mp hn]; exact h0
    | succ n ih =>
      intro h hn hf h0 hs
      have hne : h ≠ [] := by rintro rfl; simp at hn
      have hd := List.dropLast_concat_getLast hne
      rw [← hd]
      refine hs _ _ (ih h.dropLast (by simp [hn]) ?_ h0 hs) (hf _ _ [] (by rw [hd]))
      intro pre e post heq
      refine hf pre e (post ++ [h.getLast hne]) (hd.symm.trans ?_)
      rw [heq]
      simp
  exact fun h => key h.length h rfl

/-- The frames of session messages made, in order. -/
def Spec.View.frames (v : View) : List Bytes :=
  v.events.filterMap fun x => match x.2 with | .sent f _ _ => some f.frame | _ => none

/-- The frame handed to the layer below. -/
def Spec.frameOf : Obs → Option Bytes
  | .lowerTx frame _ => some frame
  | _ => none

/-- A frame that is not one of the handshake. -/
noncomputable def Spec.isSessionFrame (c : Cfg) (frame : Bytes) : Bool :=
  @decide (¬ HandshakeFrame c frame) (Classical.propDecidable _)

theorem frames_snoc {v : View} {n : Nat} {e : SEvent} {x : List (Nat × SEvent)} (h : x = v.events ++ [(n, e)]) :
    View.frames { v with events := x } = v.frames ++ (match e with | .sent f _ _ => [f.frame] | _ => []) := by
  subst h
  unfold Spec.View.frames
  rw [List.filterMap_append]
  cases e <;> rfl

theorem frames_of_events {v w : View} (h : w.events = v.events) : w.frames = v.frames := by
  unfold Spec.View.frames; rw [h]

/-- What a step does to the list of frames. -/
theorem frames_step (v : View) (e : Ev) : (v.step e).frames = v.frames ∨
    ∃ p out clear rest, e = .act (.sent p out clear rest) ∧
      ((v.owner p).isSome → (v.step e).frames = v.frames ++ [out.frame]) := by
  have hadd : ∀ (o : Option Nat) (x : SEvent), (∀ f c r, x ≠ .sent f c r) → (v.add o x).frames = v.frames := by
    intro o x hx
    cases o with
    | none => rfl
    | some n =>
      rw [View.add, frames_snoc (n := n) (e := x) rfl]
      cases x <;> first | exact absurd rfl (hx _ _ _) | simp
  have hr : ∀ (w : View) (o : Option (Nat × Bytes)) (a b : Option Nat), View.frames { w with unread := o, current := a, waiting := b } = w.frames :=
    fun _ _ _ _ => rfl
  cases e with
  | obs o =>
    left
    cases o with
    | established k a p =>
      show View.frames { v with events := _, waiting := _, count := _ } = _
      unfold Spec.View.frames
      simp
    | startTx d b => cases b <;> rfl
    | startRx d =>
      simp only [View.step]
      split
      · rfl
      · split <;> rfl
    | _ => rfl
  | act a =>
    cases a with
    | sent p out clear rest =>
      right
      refine ⟨p, out, clear, rest, rfl, fun h => ?_⟩
      show View.frames { v.add (v.owner p) _ with outstanding := rest } = _
      obtain ⟨n, hn⟩ := Option.isSome_iff_exists.mp h
      rw [hn, View.add]
      unfold Spec.View.frames
      simp
    | notSent p => left; simp only [View.step]; split <;> rfl
    | dropped => left; rfl
    | checked p msg r =>
      left
      cases r with
      | error e => cases p <;> exact hadd _ _ (by simp)
      | ok x => cases p <;> exact hadd _ _ (by simp)
    | discarded => left; rfl

theorem andThen_split {w1 w2 : Nat → Except FormatError Bytes} {cap : Nat} {x : Bytes} (h : andThen w1 w2 cap = .ok x) :
    ∃ a b, w1 cap = .ok a ∧ w2 (cap - a.length) = .ok b := by
  unfold andThen at h
  split at h
  · cases h
  · rename_i a ha
    split at h
    · cases h
    · rename_i b hb
      exact ⟨a, b, ha, hb⟩

theorem seqByte_write_le {v : Bytes} {cap : Nat} {x : Bytes} (h : Codec.seqByte.write v cap = .ok x) : v.length ≤ cap := by
  obtain ⟨a, b, -, hb⟩ := andThen_split h
  unfold emit at hb
  split at hb
  · omega
  · cases hb

/-- What the writer of session messages writes into a buffer of less than 4 GiB is read back. -/
theorem written_is_read {m : SessionData} {cap : Nat} {w : Bytes} (hc : cap < 2 ^ 32) (h : m.write cap = .ok w) :
    SessionData.read w = .ok m := by
  refine C02_session_data_roundtrip m ?_ cap w h
  obtain ⟨f, b, -, hb⟩ := andThen_split h
  obtain ⟨a, b', -, hb'⟩ := andThen_split hb
  obtain ⟨a1, b1, h1, h2⟩ := andThen_split hb'
  have h1 : m.user_data.length ≤ _ := seqByte_write_le h1
  have h2 : m.auth_tag.length ≤ _ := seqByte_write_le h2
  exact ⟨by omega, by omega⟩

theorem mem_events_step {v : View} {e : Ev} {n : Nat} {f : Formatted} {cl rs : Bytes}
    (h : (n, SEvent.sent f cl rs) ∈ (v.step e).events) :
    (n, SEvent.sent f cl rs) ∈ v.events ∨ ∃ p, e = .act (.sent p f cl rs) := by
  have hadd : ∀ (o : Option Nat) (x : SEvent), (n, SEvent.sent f cl rs) ∈ (v.add o x).events →
      (n, SEvent.sent f cl rs) ∈ v.events ∨ x = .sent f cl rs := by
    intro o x hx
    cases o with
    | none => exact .inl hx
    | some m =>
      rcases List.mem_append.mp hx with hx | hx
      · exact .inl hx
      · cases List.mem_singleton.mp hx; exact .inr rfl
  cases e with
  | obs o =>
    left
    cases o with
    | established k a p =>
      rcases List.mem_append.mp h with hx | hx
      · exact hx
      · cases List.mem_singleton.mp hx
    | startTx d b => cases b <;> exact h
    | startRx d =>
      simp only [View.step] at h
      split at h
      · exact h
      · split at h <;> exact h
    | _ => exact h
  | act a =>
    cases a with
    | sent p out clear rest =>
      rcases hadd _ _ h with h | h
      · exact .inl h
      · cases h; exact .inr ⟨p, rfl⟩
    | notSent p => left; simp only [View.step] at h; split at h <;> exact h
    | dropped => exact .inl h
    | checked p msg r =>
      cases r with
      | error e =>
        cases p <;> (rcases hadd _ _ h with h | h; exact .inl h; cases h)
      | ok x =>
        cases p <;> (rcases hadd _ _ h with h | h; exact .inl h; cases h)
    | discarded => exact .inl h

/-- In every execution: the frame of a message made in a session is the frame of its encoding, which is read back as that
message. -/
theorem C16_layer_messages (c : Cfg) (E : Env) (s : Layer) (h : Observed c E s) (n : Nat) (f : Formatted) (clear rest : Bytes)
    (hm : SEvent.sent f clear rest ∈ (view s).session n) :
    ∃ w, f.frame = c.fw.wrap w ∧ SessionData.read w = .ok f.msg := by
  obtain ⟨⟨n', e'⟩, hx, hx'⟩ := List.mem_filterMap.mp hm
  split at hx'
  · cases hx'
    have key : ∀ n f cl rs, (n, SEvent.sent f cl rs) ∈ (viewOf (history s)).events →
        ∃ w, SessionData.write f.msg c.fw.maxPayload.toNat = .ok w ∧ f.frame = c.fw.wrap w := by
      refine history_induct (c := c) (fun h => ∀ n f cl rs, (n, SEvent.sent f cl rs) ∈ (viewOf h).events →
        ∃ w, SessionData.write f.msg c.fw.maxPayload.toNat = .ok w ∧ f.frame = c.fw.wrap w) _
        (fun pre e post => history_split h) (by intro n f cl rs hx; cases hx) ?_
      intro pre e ih hf n f cl rs hx
      rw [RefineProof.viewOf_snoc] at hx
      rcases mem_events_step hx with hx | ⟨p, rfl⟩
      · exact ih n f cl rs hx
      · exact hf.2.2.2
    obtain ⟨w, h1, h2⟩ := key _ f clear rest hx
    exact ⟨w, h2, written_is_read (by have := c.fw.maxPayload.toNat_lt; omega) h1⟩
  · cases hx'

/-- In every execution: the frames handed to the layer below that are not frames of the handshake are, in this order,
frames of messages made in the sessions of the layer (each of them at most once). -/
theorem C16_layer_frames (c : Cfg) (E : Env) (s : Layer) (h : Observed c E s) :
    ((s.log.filterMap frameOf).filter (isSessionFrame c)).Sublist (view s).frames := by
  have key : ((((observations (history s)).filterMap frameOf).filter (isSessionFrame c)).Sublist (viewOf (history s)).frames) ∧
      (∀ p out clear rest, (history s).getLast? = some (.act (.sent p out clear rest)) →
        ∃ fs, (viewOf (history s)).frames = fs ++ [out.frame] ∧
          (((observations (history s)).filterMap frameOf).filter (isSessionFrame c)).Sublist fs) := by
    refine history_induct (c := c) (fun h => (((observations h).filterMap frameOf).filter (isSessionFrame c)).Sublist (viewOf h).frames ∧
      (∀ p out clear rest, h.getLast? = some (.act (.sent p out clear rest)) →
        ∃ fs, (viewOf h).frames = fs ++ [out.frame] ∧
          (((observations h).filterMap frameOf).filter (isSessionFrame c)).Sublist fs)) _
      (fun pre e post => history_split h) ⟨List.nil_sublist _, by simp⟩ ?_
    intro pre e ⟨i1, i2⟩ hf
    have hobs : observations (pre ++ [e]) = observations pre ++ (Ev.observation e).toList := by
      unfold observations
      rw [List.filterMap_append]
      cases e <;> rfl
    rw [RefineProof.viewOf_snoc, hobs, List.filterMap_append, List.filter_append]
    rcases frames_step (viewOf pre) e with he | ⟨p, out, clear, rest, rfl, he⟩
    · constructor
      · rw [he]
        cases e with
        | act a => simpa [Ev.observation] using i1
        | obs o =>
          cases o with
          | lowerTx frame b =>
            rcases hf with ⟨p, out, clear, rest, h1, rfl⟩ | h1
            · obtain ⟨fs, h2, h3⟩ := i2 p out clear rest h1
              rw [h2]
              exact h3.append (List.filter_sublist)
            · have : isSessionFrame c frame = false := by simp [isSessionFrame, h1]
              simpa [Ev.observation, frameOf, this] using i1
          | _ =>
            refine (congrArg (fun l => List.Sublist l _) (List.append_nil _)).mpr ?_
            exact i1
      · intro p out clear rest hl
        rw [List.getLast?_concat] at hl
        cases hl
        obtain ⟨-, -, hs, -⟩ := hf
        have : ((viewOf pre).step (.act (.sent p out clear rest))).frames = (viewOf pre).frames ++ [out.frame] := by
          rcases frames_step (viewOf pre) (.act (.sent p out clear rest)) with _ | ⟨p', out', clear', rest', heq, he'⟩
          · exfalso
            obtain ⟨n, hn⟩ := Option.isSome_iff_exists.mp hs
            have h0 : View.frames { (viewOf pre).add ((viewOf pre).owner p) (.sent out clear rest) with outstanding := rest } =
              (viewOf pre).frames := he
            rw [hn, View.add] at h0
            unfold Spec.View.frames at h0
            simp at h0
          · cases heq; exact he' hs
        refine ⟨(viewOf pre).frames, this, ?_⟩
        simpa [Ev.observation] using i1
    · obtain ⟨-, -, hs, -⟩ := hf
      rw [he hs]
      have e0 : List.filter (isSessionFrame c) (List.filterMap frameOf (Ev.observation (.act (.sent p out clear rest))).toList) = [] := rfl
      rw [e0, List.append_nil]
      refine ⟨i1.trans (List.sublist_append_left _ _), ?_⟩
      intro p' out' clear' rest' hl
      rw [List.getLast?_concat] at hl
      cases hl
      exact ⟨_, rfl, i1⟩
  rw [observations_history] at key
  exact key.1

/-! ### C17 -/

/-- In every execution, in every session of the layer: the nonces of the data messages accepted are strictly increasing,
positive and at most the maximum of the handshake; in strict mode they are consecutive (a gap only where an authentic but
empty message was refused); the message that authenticates the peer is accepted at most once, it has nonce 0, and it
comes before all data. -/
theorem C17_layer_no_replay (c : Cfg) (E : Env) (hb : c.backend.Lawful) (s : Layer) (h : Observed c E s) (n : Nat)
    (hn : n < (view s).count) :
    ∃ a p k es, (view s).session n = .initialized a p k :: es ∧ Obs.established k a p ∈ s.log ∧
      (dataNonces es).Pairwise (· < ·) ∧ (∀ x ∈ dataNonces es, 0 < x ∧ x ≤ p.maxNonce.toNat) ∧
      (a.verifyNonce = verifyStrictIncrement → ∃ m, consumedNonces es = List.range' 1 m) ∧
      (authNonces es = [] ∧ dataNonces es = [] ∨
        ∃ e1 m d e2, es = e1 ++ .acceptedAuth m d :: e2 ∧ m.metadata.nonce = 0 ∧ dataNonces e1 = [] ∧
          authNonces e1 = [] ∧ authNonces e2 = []) := by
  obtain ⟨a, p, k, es, h1, h2, h3, ops, h4⟩ := layer_session h hn
  obtain ⟨m1, m2, m3, m4⟩ := C17_rx_nonces_increase _ _ _ _ _ _ _ _ _ _ h4 h2 (layer_standard hb h h3)
  refine ⟨a, p, k, es, h1, h3, m1, m2, m3, ?_⟩
  have hq : ∀ l : List SEvent, (∀ e ∈ l, SEvent.quiet e = true) → authNonces l = [] ∧ dataNonces l = [] := by
    intro l hl
    constructor
    · refine List.filterMap_eq_nil_iff.mpr fun e he => ?_
      have := hl e he
      cases e <;> first | rfl | cases this
    · refine List.filterMap_eq_nil_iff.mpr fun e he => ?_
      have := hl e he
      cases e <;> first | rfl | cases this
  rcases ((RefineProof.inv h).good.all n hn).2 with ⟨x, m, d, y, hx, hx1, hx2⟩ | hx
  · right
    rw [h1] at hx
    cases x with
    | nil => simp at hx
    | cons e x =>
      simp only [List.cons_append, List.cons.injEq] at hx
      obtain ⟨-, rfl⟩ := hx
      have hxq := hq x (fun e he => hx1 e (by simp [he]))
      refine ⟨x, m, d, y, rfl, ?_, hxq.2, hxq.1, ?_⟩
      · have := m4 m.metadata.nonce.toNat (by simp [authNonces])
        exact UInt16.toNat.inj this
      · refine List.filterMap_eq_nil_iff.mpr fun e he => ?_
        have := hx2 e he
        cases e <;> first | rfl | exact absurd rfl (this _ _)
  · left
    rw [h1] at hx
    exact hq es (fun e he => hx e (by simp [he]))

/-! ### C21, C36 -/

/-- The parts of the data of the application put into messages. -/
def Spec.sentParts (h : List Ev) : List Bytes :=
  h.filterMap fun e => match e with
    | .act (.sent _ _ clear rest) => some (clear.take (clear.length - rest.length))
    | _ => none

/-- A transmission is accepted from the application. -/
def Spec.accepts : Ev → Bool
  | .obs (.startTx _ true) => true
  | _ => false

theorem outstanding_step {c : Cfg} {pre : List Ev} {e : Ev} (hf : Fits c pre e) (ha : accepts e = false)
    (hd : e ≠ .act .discarded) :
    (sentParts [e]).flatten ++ ((viewOf pre).step e).outstanding = (viewOf pre).outstanding := by
  have hadd : ∀ (v : View) (o : Option Nat) (x : SEvent), (v.add o x).outstanding = v.outstanding := by
    intro v o x; cases o <;> rfl
  cases e with
  | obs o =>
    cases o with
    | startTx d b => cases b with
      | true => cases ha
      | false => rfl
    | startRx d =>
      simp only [View.step]
      split
      · rfl
      · split <;> rfl
    | _ => rfl
  | act a =>
    cases a with
    | sent p out clear rest =>
      obtain ⟨h1, ⟨k, hk, rfl⟩, -⟩ := hf
      show (clear.take (clear.length - (clear.drop k).length) ++ []) ++ clear.drop k = _
      have : clear.length - (clear.drop k).length = k := by rw [List.length_drop]; omega
      rw [this, List.append_nil, List.take_append_drop, h1]
    | notSent p => simp only [View.step]; split <;> rfl
    | dropped => rfl
    | checked p msg r =>
      cases r with
      | error e => cases p <;> exact hadd _ _ _
      | ok x => cases p <;> exact hadd _ _ _
    | discarded => exact absurd rfl hd

theorem lowerIsOpen_snoc (h : List Ev) (e : Ev) : lowerIsOpen (h ++ [e]) = openAfter (lowerIsOpen h) e := by
  simp [lowerIsOpen]

theorem sentParts_append (x y : List Ev) : sentParts (x ++ y) = sentParts x ++ sentParts y := by
  simp [sentParts]

/-- A stretch of history in which nothing is accepted and the layer below does not close. -/
theorem outstanding_stretch {c : Cfg} (pre : List Ev) : ∀ (mid : List Ev),
    (∀ x e y, mid = x ++ e :: y → Fits c (pre ++ x) e) → lowerIsOpen pre = true →
    (∀ e ∈ mid, accepts e = false) → Ev.obs .lowerClose ∉ mid →
    (sentParts mid).flatten ++ (viewOf (pre ++ mid)).outstanding = (viewOf pre).outstanding := by
  intro mid
  induction mid generalizing pre with
  | nil => intro _ _ _ _; simp [sentParts]
  | cons e mid ih =>
    intro hf ho ha hc
    have hd : e ≠ .act .discarded := by
      rintro rfl
      have := hf [] _ mid rfl
      simp only [List.append_nil, Fits] at this
      rw [ho] at this
      cases this
    have h1 := outstanding_step (by simpa using hf [] e mid rfl) (ha e (by simp)) hd
    have ho' : lowerIsOpen (pre ++ [e]) = true := by
      rw [lowerIsOpen_snoc, ho]
      unfold openAfter
      split
      · rfl
      · exact absurd (List.mem_cons_self ..) hc
      · rfl
    have h2 := ih (pre ++ [e]) (fun x e' y hx => by
        have := hf (e :: x) e' y (by simp [hx])
        simpa using this) ho' (fun e he => ha e (by simp [he])) (fun h => hc (by simp [h]))
    rw [RefineProof.viewOf_snoc] at h2
    have h3 : sentParts (e :: mid) = sentParts [e] ++ sentParts mid := sentParts_append [e] mid
    rw [h3, List.flatten_append, List.append_assoc, show pre ++ e :: mid = pre ++ [e] ++ mid by simp, h2, h1]

/-- In every execution: after the application has handed over `d`, and until it hands over something else or the layer
below closes, the parts put into messages, in their order, make up a prefix of `d`; when the application is told that
the layer is ready for more they make up exactly `d`. The same holds when the layer accepts the next data. -/
theorem C21_layer (c : Cfg) (E : Env) (s : Layer) (h : Observed c E s) (pre mid post : List Ev) (d : Bytes)
    (hh : history s = pre ++ .obs (.startTx d true) :: mid ++ post) (hno : ∀ e ∈ mid, accepts e = false)
    (hc : Ev.obs .lowerClose ∉ mid) :
    (sentParts mid).flatten <+: d ∧
    ∀ e rest, post = e :: rest → (e = .obs (.up .txReady) ∨ accepts e = true) → (sentParts mid).flatten = d := by
  have hstart := history_split h (pre := pre) (e := .obs (.startTx d true)) (post := mid ++ post) (by simp [hh])
  have hopen : lowerIsOpen (pre ++ [.obs (.startTx d true)]) = true := by
    rw [lowerIsOpen_snoc]; exact hstart.2
  have key := outstanding_stretch (c := c) (pre ++ [.obs (.startTx d true)]) mid (fun x e y hx => by
    refine history_split h (post := y ++ post) ?_
    rw [hh, hx]; simp) hopen hno hc
  rw [RefineProof.viewOf_snoc] at key
  have key : (sentParts mid).flatten ++ (viewOf (pre ++ [.obs (.startTx d true)] ++ mid)).outstanding = d := key
  refine ⟨⟨_, key⟩, ?_⟩
  intro e rest hp he
  have hlast := history_split h (pre := pre ++ [.obs (.startTx d true)] ++ mid) (e := e) (post := rest) (by rw [hh, hp]; simp)
  have : (viewOf (pre ++ [.obs (.startTx d true)] ++ mid)).outstanding = [] := by
    rcases he with rfl | he
    · exact hlast
    · unfold accepts at he
      split at he
      · exact hlast.1
      · cases he
  rw [this, List.append_nil] at key
  exact key

/-- In every execution: what is put into messages after the layer below has opened is data that the application has
handed over after that. -/
theorem C36_nothing_survives_reopen (c : Cfg) (E : Env) (s : Layer) (h : Observed c E s) (pre mid post : List Ev)
    (p : Bool) (out : Formatted) (clear rest : Bytes)
    (hh : history s = pre ++ .obs .lowerOpen :: mid ++ .act (.sent p out clear rest) :: post) (hne : clear ≠ []) :
    ∃ d m1 m2, mid = m1 ++ .obs (.startTx d true) :: m2 ∧ clear <:+ d := by
  have hsent := history_split h hh
  have hopen := history_split h (pre := pre) (e := .obs .lowerOpen) (post := mid ++ .act (.sent p out clear rest) :: post)
    (by rw [hh]; simp)
  have key : ∀ (n : Nat) (m : List Ev), m.length = n → (∀ x e y, m = x ++ e :: y → Fits c (pre ++ .obs .lowerOpen :: x) e) →
      (viewOf (pre ++ .obs .lowerOpen :: m)).outstanding ≠ [] →
      ∃ d m1 m2, m = m1 ++ .obs (.startTx d true) :: m2 ∧ (viewOf (pre ++ .obs .lowerOpen :: m)).outstanding <:+ d := by
    intro n
    induction n with
    | zero =>
      intro m hm _ hne
      exfalso
      rw [List.length_eq_zero_iff.mp hm] at hne
      rw [RefineProof.viewOf_snoc] at hne
      exact hne hopen
    | succ n ih =>
      intro m hm hf hne
      have hm0 : m ≠ [] := by rintro rfl; simp at hm
      obtain ⟨m', e, rfl⟩ : ∃ m' e, m = m' ++ [e] := ⟨_, _, (List.dropLast_concat_getLast hm0).symm⟩
      have hfe := hf m' e [] (by simp)
      have hv : viewOf (pre ++ .obs .lowerOpen :: (m' ++ [e])) = (viewOf (pre ++ .obs .lowerOpen :: m')).step e := by
        rw [← RefineProof.viewOf_snoc]; simp
      rw [hv] at hne ⊢
      by_cases ha : accepts e = true
      · unfold accepts at ha
        split at ha
        · rename_i d
          exact ⟨d, m', [], by simp, ⟨[], rfl⟩⟩
        · cases ha
      · have hd : e ≠ .act .discarded := by rintro rfl; exact hne rfl
        have hstep := outstanding_step hfe (by simpa using ha) hd
        obtain ⟨d, m1, m2, h1, h2⟩ := ih m' (by simpa using hm) (fun x e' y hx => hf x e' (y ++ [e]) (by simp [hx])) (by
          intro h0
          rw [h0, List.append_eq_nil_iff] at hstep
          exact hne hstep.2)
        exact ⟨d, m1, m2 ++ [e], by simp [h1], (List.IsSuffix.trans ⟨_, hstep⟩ h2)⟩
  have hcl : clear = (viewOf (pre ++ .obs .lowerOpen :: mid)).outstanding := hsent.1
  obtain ⟨d, m1, m2, h1, h2⟩ := key mid.length mid rfl (fun x e y hx => by
    refine history_split h (post := y ++ .act (.sent p out clear rest) :: post) ?_
    rw [hh, hx]; simp) (by rw [← hcl]; exact hne)
  exact ⟨d, m1, m2, h1, by rw [hcl]; exact h2⟩

/-! ### concrete executions -/

namespace LayerExample
open Exec
set_option synthInstance.maxSize 2000

/-- An initiator in its first session: it has sent messages 0 and 1, the second with the data of the application; the
peer was authenticated. -/
example : ∃ s, Observed ini EnvB.tame.env s ∧ (view s).count = 1 ∧ sentNonces ((view s).session 0) = [0, 1] ∧
    authNonces ((view s).session 0) = [0] ∧ (view s).frames.length = 2 ∧ (s.log.filterMap frameOf).length = 3 ∧
    sentParts (history s) = [[], [1, 2, 3]] := by
  obtain ⟨s, h1, h2⟩ := Exec.exists_of_map configured (c := ini) (E := .tame) (h := hs) (script := iniData)
    (f := fun s => ((view s).count, sentNonces ((view s).session 0), authNonces ((view s).session 0),
      (view s).frames.length, (s.log.filterMap frameOf).length, sentParts (history s)))
    (a := (1, [0, 1], [0], 2, 3, [[], [1, 2, 3]])) (by decide +kernel)
  simp only [Prod.mk.injEq] at h2
  exact ⟨s, h1.observed, h2⟩

/-- A responder that has accepted the session auth message and a data message. -/
example : ∃ s, Observed res EnvB.tame.env s ∧ (view s).count = 1 ∧ dataNonces ((view s).session 0) = [1] ∧
    authNonces ((view s).session 0) = [0] ∧ (view s).given = [(0, [1, 2, 3])] := by
  obtain ⟨s, h1, h2⟩ := Exec.exists_of_map configured (c := res) (E := .tame) (h := hs) (script := resRead)
    (f := fun s => ((view s).count, dataNonces ((view s).session 0), authNonces ((view s).session 0), (view s).given))
    (a := (1, [1], [0], [(0, [1, 2, 3])])) (by decide +kernel)
  simp only [Prod.mk.injEq] at h2
  exact ⟨s, h1.observed, h2⟩

/-- What an element of a history is, and the data. -/
def evTag : Ev → Nat × Bytes
  | .obs (.startTx d true) => (1, d)
  | .obs (.up .txReady) => (2, [])
  | .obs .lowerOpen => (3, [])
  | .obs .lowerClose => (4, [])
  | .act (.sent _ _ clear rest) => (5, clear.take (clear.length - rest.length))
  | .act .discarded => (6, [])
  | _ => (0, [])

/-- The initiator transmits, is told so, so the hypotheses of C21 and C36 (an accepted transmission, completed) are met. -/
def iniCycle : List Choice := iniData ++ [.event .lowerTxReady, .ret, .recv [], ans 12]
example : ∃ s, Observed ini EnvB.tame.env s ∧
    ((history s).map evTag).filter (fun x => x.1 ≠ 0) = [(3, []), (5, []), (1, [1, 2, 3]), (5, [1, 2, 3]), (2, [])] := by
  obtain ⟨s, h1, h2⟩ := Exec.exists_of_map configured (c := ini) (E := .tame) (h := hs) (script := iniCycle)
    (f := fun s => ((history s).map evTag).filter (fun x => x.1 ≠ 0))
    (a := [(3, []), (5, []), (1, [1, 2, 3]), (5, [1, 2, 3]), (2, [])]) (by decide +kernel)
  exact ⟨s, h1.observed, h2⟩

end LayerExample

end SSP21.Crypto
