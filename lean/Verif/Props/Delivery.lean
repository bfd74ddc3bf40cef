import Verif.Props.Open
import Verif.Props.Hold
/-
  Property C29, second part, and property C33, second half: where delivered data comes from, and that announced
  data is given to the application exactly once.

  These hold if the application calls `start_rx` from inside callbacks only at once when it is told that there is
  data (`Spec.ReadsAtOnce`; the proxy of this repository does that), or not at all from inside callbacks, and for a
  responder whatever the application does. For an initiator with an application that reads from inside the "opened" callback they
  are false: see the counterexamples at the end.
-/
namespace SSP21.Crypto

namespace Spec

/-- Messages and closes. -/
def cuts : Obs → Bool
  | .recv _ => true
  | .lowerClose => true
  | _ => false

/-- Data is given to the application. -/
def gives : Obs → Bool
  | .startRx d => !d.isEmpty
  | _ => false

/-- `data` is the user data in the last message read (`m`), which is authentic under the keys of the
authenticated session (nonce not zero), or completes the last handshake (nonce zero); the layer below has not
closed since. -/
def ComesFrom (bufLen : Nat) (log : List Obs) (data : Bytes) (since : List Obs) : Prop :=
  ∃ before m, log = before ++ .recv m :: since ∧ (∀ o ∈ since, cuts o = false) ∧
    ((∃ nonce k a p, nonce ≠ 0 ∧ AuthenticatedSession bufLen before k a p ∧ Authentic bufLen k a m nonce data) ∨
      ∃ k a p, LastHandshake before k a p ∧ Authentic bufLen k a m 0 data)

/-- Whether the application was told that there is data and has not called since. -/
def toldStep (told : Bool) : Obs → Bool
  | .up .rxReady => true
  | .rxCall => false
  | .lowerClose => false
  | _ => told

/-- The same for a log. -/
def told (log : List Obs) : Bool := log.foldl toldStep false

/-- The application uses the layer directly, or the layer below has not closed yet (the flag of an `IStack` that
says whether the application holds data survives a close). -/
def Unstale (c : Cfg) (log : List Obs) : Prop := c.viaStack = false ∨ .lowerClose ∉ log

/-- From inside callbacks, the application reads only at once when it is told that there is data (through an
`IStack`: and only before the layer below closes for the first time). -/
def ReadsAtOnce (c : Cfg) (E : Env) : Prop :=
  ∀ s, E.nested s .startRx → s.log.getLast? = some (.up .rxReady) ∧ Unstale c s.log

/-- The application reads from inside callbacks only when it has just been told that there is data; or the layer is
a responder, and the application reads as it likes. -/
def ReadsInOrder (c : Cfg) (E : Env) : Prop := ReadsAtOnce c E ∨ ∃ h, c.role = .responder h

theorem Unstale.of_append {c : Cfg} {log extra : List Obs} (h : Unstale c (log ++ extra)) : Unstale c log :=
  h.imp id fun h' hm => h' (List.mem_append_left _ hm)

/-- Applications that do not read from inside callbacks. -/
theorem readsAtOnce_of_noNestedRx {E : Env} (c : Cfg) (h : E.NoNestedRx) : ReadsAtOnce c E :=
  fun s hn => absurd hn (h s)

end Spec

namespace DeliveryProof

/-- Observations that matter. -/
def matters (o : Obs) : Bool :=
  Spec.cuts o || Spec.gives o || (match o with | .up .rxReady => true | .rxCall => true | _ => false)

theorem matters_false {o : Obs} (h : matters o = false) :
    Spec.cuts o = false ∧ Spec.gives o = false ∧ ∀ b, Spec.toldStep b o = b := by
  cases o with
  | up cb => cases cb <;> simp_all [matters, Spec.cuts, Spec.gives, Spec.toldStep]
  | _ => simp_all [matters, Spec.cuts, Spec.gives, Spec.toldStep]

/-- No session, nothing to read, and none can come up before the layer below is ready again. -/
def Dead (c : Cfg) (s : Layer) : Prop :=
  s.payloadLen = 0 ∧ s.active.valid = false ∧
  match c.role with
  | .initiator _ _ => s.ini.hs = .waitForBeginReply ∨ s.ini.hs = .waitForAuthReply → s.lowerReady = false
  | .responder _ => s.pending.valid = true → s.lowerReady = false

/-- The slice of received data is left alone. -/
def Still (s t : Layer) : Prop :=
  t.buf = s.buf ∧ ∃ ext, t.log = s.log ++ ext ∧ (∀ o ∈ ext, Spec.cuts o = false) ∧
    (s.payloadLen = 0 → t.payloadLen = 0 ∧ (s.rxFlag = false → t.rxFlag = false) ∧ ∀ o ∈ ext, Spec.gives o = false)

theorem Still.refl (s : Layer) : Still s s := ⟨rfl, [], by simp, by simp, fun h => ⟨h, id, by simp⟩⟩

theorem Still.trans {s t u : Layer} (h : Still s t) (h' : Still t u) : Still s u := by
  obtain ⟨a1, x, a2, a3, a4⟩ := h
  obtain ⟨b1, y, b2, b3, b4⟩ := h'
  refine ⟨b1.trans a1, x ++ y, by rw [b2, a2]; simp, ?_, ?_⟩
  · intro o ho
    rcases List.mem_append.mp ho with ho | ho
    · exact a3 o ho
    · exact b3 o ho
  · intro h
    obtain ⟨c1, c2, c3⟩ := a4 h
    obtain ⟨d1, d2, d3⟩ := b4 c1
    refine ⟨d1, fun h => d2 (c2 h), ?_⟩
    intro o ho
    rcases List.mem_append.mp ho with ho | ho
    · exact c3 o ho
    · exact d3 o ho

/-- The flag is set only while there is data (not guaranteed through an `IStack` after a close). -/
def J (c : Cfg) (s : Layer) : Prop := Spec.Unstale c s.log → s.rxFlag = true → s.payloadLen ≠ 0

/-- What may happen; `q`: the slice is left alone even if the layer below is ready. -/
structure Rel (c : Cfg) (q : Prop) (s t : Layer) : Prop where
  busy : s.lowerReady = false → t.lowerReady = false
  still : q ∨ s.lowerReady = false → Still s t
  dead : Dead c s → Dead c t
  flag : J c s → J c t
  kept : Spec.Unstale c t.log → Spec.Unstale c s.log

theorem Rel.refl (c : Cfg) (q : Prop) (s : Layer) : Rel c q s s := ⟨id, fun _ => .refl s, id, id, id⟩

theorem Rel.trans {c : Cfg} {q : Prop} {s t u : Layer} (h : Rel c q s t) (h' : Rel c q t u) : Rel c q s u :=
  ⟨fun a => h'.busy (h.busy a), fun a => (h.still a).trans (h'.still (a.imp id h.busy)), fun a => h'.dead (h.dead a),
    fun a => h'.flag (h.flag a), fun a => h.kept (h'.kept a)⟩

/-- What the history must look like. -/
def Fine (c : Cfg) (pre : List Obs) (o : Obs) (post : List Obs) : Prop :=
  match o with
  | .startRx d => d ≠ [] → ∃ since, Spec.ComesFrom c.bufLen pre d since ∧ ∀ o ∈ since, Spec.gives o = false
  | .rxCall => Spec.Unstale c pre → Spec.told pre = true → ∃ d rest, d ≠ [] ∧ post = .startRx d :: rest
  | _ => True

theorem fine_mono {c : Cfg} (pre : List Obs) (o : Obs) (post x : List Obs) (h : Fine c pre o post) :
    Fine c pre o (post ++ x) := by
  unfold Fine at *
  split at h
  · exact h
  · intro hv ht
    obtain ⟨d, rest, hd, rfl⟩ := h hv ht
    exact ⟨d, rest ++ x, hd, rfl⟩
  · trivial

theorem fine_quiet {c : Cfg} {o : Obs} (h : matters o = false) (pre post : List Obs) : Fine c pre o post := by
  unfold Fine
  split
  · intro hd
    simp [matters, Spec.gives, Spec.cuts, hd] at h
  · simp [matters] at h
  · trivial

/-- The invariant. -/
structure Inv (c : Cfg) (s : Layer) : Prop where
  hist : Every (Fine c) s.log
  data : s.payloadLen ≠ 0 → ∃ since, Spec.ComesFrom c.bufLen s.log s.payload since ∧
    (s.rxFlag = false → ∀ o ∈ since, Spec.gives o = false)
  full : s.payloadLen ≠ 0 → s.payload ≠ []
  flag : Spec.Unstale c s.log → s.rxFlag = true → s.payloadLen ≠ 0 ∨ Dead c s
  told : Spec.told s.log = true → s.payloadLen ≠ 0 ∧ (Spec.Unstale c s.log → s.rxFlag = false)

theorem told_snoc (log : List Obs) (o : Obs) : Spec.told (log ++ [o]) = Spec.toldStep (Spec.told log) o := by
  simp [Spec.told]

theorem told_last {log : List Obs} (h : log.getLast? = some (.up .rxReady)) : Spec.told log = true := by
  obtain ⟨pre, rfl⟩ := List.getLast?_eq_some_iff.1 h
  rw [told_snoc]
  rfl

theorem told_quiet {log extra : List Obs} (h : ∀ o ∈ extra, matters o = false) :
    Spec.told (log ++ extra) = Spec.told log := by
  simp only [Spec.told, List.foldl_append]
  exact foldl_neutral fun o ho => (matters_false (h o ho)).2.2 _

theorem comesFrom_append {n : Nat} {log extra : List Obs} {d : Bytes} {since : List Obs}
    (h : Spec.ComesFrom n log d since) (hq : ∀ o ∈ extra, Spec.cuts o = false) :
    Spec.ComesFrom n (log ++ extra) d (since ++ extra) := by
  obtain ⟨before, m, rfl, h2, h3⟩ := h
  refine ⟨before, m, by simp, ?_, h3⟩
  intro o ho
  rcases List.mem_append.mp ho with ho | ho
  · exact h2 o ho
  · exact hq o ho

theorem hist_quiet {c : Cfg} {log extra : List Obs} (h : Every (Fine c) log)
    (hq : ∀ o ∈ extra, matters o = false) : Every (Fine c) (log ++ extra) :=
  h.append fine_mono fun _ o _ he => fine_quiet (hq o (by rw [he]; simp)) _ _

/-- Steps that do not concern received data. -/
theorem Inv.quiet {c : Cfg} {s t : Layer} (h : Inv c s) (extra : List Obs) (hl : t.log = s.log ++ extra)
    (hq : ∀ o ∈ extra, matters o = false) (hp : t.payloadLen = s.payloadLen) (hb : t.buf = s.buf)
    (hf : t.rxFlag = s.rxFlag) (hd : Dead c s → Dead c t) : Inv c t where
  hist := by rw [hl]; exact hist_quiet h.hist hq
  data := by
    rw [hp, hl, hf]
    intro h0
    obtain ⟨since, h1, h2⟩ := h.data h0
    refine ⟨since ++ extra, ?_, ?_⟩
    · have : t.payload = s.payload := by simp [Layer.payload, hp, hb]
      rw [this]
      exact comesFrom_append h1 fun o ho => (matters_false (hq o ho)).1
    · intro h3 o ho
      rcases List.mem_append.mp ho with ho | ho
      · exact h2 h3 o ho
      · exact (matters_false (hq o ho)).2.1
  full := by
    have : t.payload = s.payload := by simp [Layer.payload, hp, hb]
    rw [hp, this]
    exact h.full
  flag := by
    rw [hf, hp, hl]
    exact fun hv h0 => (h.flag hv.of_append h0).imp id hd
  told := by
    rw [hl, told_quiet hq, hp, hf]
    exact fun ht => ⟨(h.told ht).1, fun hv => (h.told ht).2 hv.of_append⟩

theorem Inv.not_told {c : Cfg} {s : Layer} (h : Inv c s) (hp : s.payloadLen = 0) : Spec.told s.log = false := by
  by_contra hc
  exact (h.told (by simpa using hc)).1 hp

theorem Inv.noFlag {c : Cfg} {s : Layer} (h : Inv c s) (hp : s.payloadLen = 0) (hd : ¬ Dead c s)
    (hv : Spec.Unstale c s.log) : s.rxFlag = false := by
  by_contra hc
  rcases h.flag hv (by simpa using hc) with h | h
  · exact h hp
  · exact hd h

theorem Rel.quiet {c : Cfg} {q : Prop} {s t : Layer} (extra : List Obs) (hl : t.log = s.log ++ extra)
    (hq : ∀ o ∈ extra, matters o = false) (hp : t.payloadLen = s.payloadLen) (hb : t.buf = s.buf)
    (hf : t.rxFlag = s.rxFlag) (hr : s.lowerReady = false → t.lowerReady = false) (hd : Dead c s → Dead c t) :
    Rel c q s t where
  busy := hr
  still _ := ⟨hb, extra, hl, fun o ho => (matters_false (hq o ho)).1,
    fun h => ⟨hp.trans h, fun h => hf.trans h, fun o ho => (matters_false (hq o ho)).2.1⟩⟩
  dead := hd
  flag := by unfold J; rw [hf, hp, hl]; exact fun h hv => h hv.of_append
  kept := by rw [hl]; exact .of_append

/-- A message is read. -/
theorem Rel.reads {c : Cfg} {s t : Layer} (hr : s.lowerReady = true) (hp : s.payloadLen = 0)
    (hf : t.rxFlag = s.rxFlag) (hl : ∃ ext, t.log = s.log ++ ext) (hd : Dead c s → Dead c t) : Rel c False s t where
  busy h := by rw [hr] at h; cases h
  still h := by
    rcases h with h | h
    · exact h.elim
    · rw [hr] at h; cases h
  dead := hd
  flag := by
    unfold J
    obtain ⟨ext, hl⟩ := hl
    rw [hl]
    intro h hv
    have : s.rxFlag = false := by
      by_contra hc
      exact h hv.of_append (by simpa using hc) hp
    rw [hf, this]
    nofun
  kept := by
    obtain ⟨ext, hl⟩ := hl
    rw [hl]
    exact .of_append

theorem dead_of {c : Cfg} {s t : Layer} (hp : t.payloadLen = s.payloadLen) (ha : s.active.valid = false → t.active.valid = false)
    (hi : ∀ params limits, c.role = .initiator params limits → t.ini.hs = s.ini.hs ∨
      t.ini.hs ≠ .waitForBeginReply ∧ t.ini.hs ≠ .waitForAuthReply ∨ t.lowerReady = false)
    (hh : ∀ r, c.role = .responder r → (t.pending.valid = true → s.pending.valid = true) ∨ t.lowerReady = false)
    (hr : s.lowerReady = false → t.lowerReady = false) (h : Dead c s) : Dead c t := by
  obtain ⟨h1, h2, h3⟩ := h
  refine ⟨hp.trans h1, ha h2, ?_⟩
  cases hrole : c.role with
  | initiator params limits =>
    rw [hrole] at h3
    rcases hi params limits hrole with h | ⟨e1, e2⟩ | h
    · intro hw
      exact hr (h3 (h ▸ hw))
    · rintro (hw | hw)
      · exact absurd hw e1
      · exact absurd hw e2
    · exact fun _ => h
  | responder r =>
    rw [hrole] at h3
    rcases hh r hrole with h | h
    · exact fun hw => hr (h3 (h hw))
    · exact fun _ => h

theorem hsReq_dead {c : Cfg} {limits : SessionLimits} {s t : Layer} (hq : HsReq c limits s t) (h : Dead c s) :
    Dead c t := by
  refine dead_of hq.payloadLen (by rw [hq.active]; exact id) ?_ ?_ ?_ h
  · intro params limits' _
    cases hq with
    | deferred => exact .inl rfl
    | noKey => exact .inr (.inl (by simp))
    | badConfig => exact .inr (.inl (by simp))
    | sent => exact .inr (.inr rfl)
  · intro r _
    left
    rw [hq.pending]
    exact id
  · rcases hq.log with ⟨_, h⟩ | ⟨_, h, _⟩
    · rw [h]; exact id
    · exact fun _ => h

theorem hsReq_extra {c : Cfg} {limits : SessionLimits} {s t : Layer} (hq : HsReq c limits s t) :
    ∃ extra, t.log = s.log ++ extra ∧ (∀ o ∈ extra, matters o = false) := by
  rcases hq.log with ⟨⟨o, h⟩, _⟩ | ⟨_, _, o, f, h⟩
  · refine ⟨_, h, ?_⟩
    cases o <;> simp [keyObs, matters, Spec.cuts, Spec.gives]
  · refine ⟨_, h, ?_⟩
    cases o <;> simp [keyObs, matters, Spec.cuts, Spec.gives]

theorem hsReq_busy {c : Cfg} {limits : SessionLimits} {s t : Layer} (hq : HsReq c limits s t) :
    s.lowerReady = false → t.lowerReady = false := by
  rcases hq.log with ⟨_, h⟩ | ⟨_, h, _⟩
  · rw [h]; exact id
  · exact fun _ => h

theorem Inv.hsReq {c : Cfg} {limits : SessionLimits} {s t : Layer} (h : Inv c s) (hq : HsReq c limits s t) : Inv c t := by
  obtain ⟨extra, h1, h2⟩ := hsReq_extra hq
  exact h.quiet extra h1 h2 hq.payloadLen hq.buf hq.rxFlag (hsReq_dead hq)

theorem Rel.hsReq {c : Cfg} {q : Prop} {limits : SessionLimits} {s t : Layer} (hq : HsReq c limits s t) : Rel c q s t := by
  obtain ⟨extra, h1, h2⟩ := hsReq_extra hq
  exact .quiet extra h1 h2 hq.payloadLen hq.buf hq.rxFlag (hsReq_busy hq) (hsReq_dead hq)

theorem validateData_valid {s : Session} {st : Stats} {msg : SessionData} {now : Int} {d : Nat} {p : Bytes}
    (h : (s.validateData st msg now d).2.2 = .ok p) : s.valid = true := by
  exact (C18_data_is_authentic s _ st _ msg now d p (Prod.ext rfl (Prod.ext rfl h))).1

/-- A message is read that brings no data. -/
theorem Inv.reads {c : Cfg} {s t : Layer} (h : Inv c s) (hp : s.payloadLen = 0) (m : Bytes) (extra : List Obs)
    (hl : t.log = s.log ++ .recv m :: extra) (hq : ∀ o ∈ extra, matters o = false)
    (hp' : t.payloadLen = s.payloadLen) (hf : t.rxFlag = s.rxFlag) (hd : Dead c s → Dead c t) : Inv c t where
  hist := by
    have e : t.log = (s.log ++ [.recv m]) ++ extra := by rw [hl]; simp
    rw [e]
    exact hist_quiet (h.hist.snoc fine_mono (by simp [Fine])) hq
  data := fun hc => absurd (hp'.trans hp) hc
  full := fun hc => absurd (hp'.trans hp) hc
  flag := by
    rw [hf, hl]
    intro hv h0
    rcases h.flag hv.of_append h0 with h1 | h1
    · exact absurd hp h1
    · exact .inr (hd h1)
  told := by
    have e : t.log = (s.log ++ [.recv m]) ++ extra := by rw [hl]; simp
    rw [e, told_quiet hq, told_snoc, h.not_told hp]
    simp [Spec.toldStep]

theorem comesFrom_data {c : Cfg} {s : Layer} {m : Bytes} {msg : SessionData} {now : Int} {p : Bytes}
    (ha : s.active.valid = true → Spec.AuthenticatedSession c.bufLen s.log s.active.keys s.active.algorithms s.active.param)
    (hm : SessionData.read m = .ok msg) (hn : msg.metadata.nonce ≠ 0)
    (hv : (s.active.validateData s.stats msg now c.bufLen).2.2 = .ok p) :
    Spec.ComesFrom c.bufLen (s.log ++ [.recv m]) p [] := by
  obtain ⟨h1, _, h3⟩ := authentic_data hm hv
  exact ⟨s.log, m, rfl, by simp, .inl ⟨_, _, _, _, hn, ha h1, h3⟩⟩

theorem comesFrom_auth {c : Cfg} {s : Layer} {m : Bytes} {msg : SessionData} {now : Int} {p : Bytes}
    (ha : s.pending.valid = true → Spec.LastHandshake s.log s.pending.keys s.pending.algorithms s.pending.param)
    (hm : SessionData.read m = .ok msg)
    (hv : (s.pending.validateAuth s.stats msg now c.bufLen).2.2 = .ok p) :
    Spec.ComesFrom c.bufLen (s.log ++ [.recv m]) p [] := by
  obtain ⟨h1, h3⟩ := authentic_auth hm hv
  exact ⟨s.log, m, rfl, by simp, .inr ⟨_, _, _, ha h1, h3⟩⟩

/-- The application is told. -/
theorem Inv.rx {c : Cfg} {s : Layer} (h : Inv c s) (hp : s.payloadLen ≠ 0)
    (hf : Spec.Unstale c s.log → s.rxFlag = false) : Inv c s.rxNotified := by
  unfold Layer.rxNotified
  split
  · refine ⟨h.hist.snoc fine_mono (by simp [Fine]), ?_, h.full, ?_, fun _ => ⟨hp, fun hv => hf hv.of_append⟩⟩
    · intro h0
      obtain ⟨since, h1, h2⟩ := h.data h0
      refine ⟨since ++ [.up .rxReady], ?_, fun h3 o ho => ?_⟩
      · exact comesFrom_append (extra := [.up .rxReady]) h1 (by simp [Spec.cuts])
      rcases List.mem_append.mp ho with ho | ho
      · exact h2 h3 o ho
      · rw [List.mem_singleton.mp ho]; rfl
    · intro _ _
      exact .inl hp
  · exact h

theorem rel_rx {c : Cfg} {q : Prop} {s : Layer} (hp : s.payloadLen ≠ 0) : Rel c q s s.rxNotified where
  busy := by simp
  still _ := by
    refine ⟨by simp, _, rxNotified_log s, ?_, fun h => absurd h hp⟩
    intro o ho
    by_cases hu : s.upperOpen = true <;> simp_all [Spec.cuts]
  dead h := absurd h.1 hp
  flag _ := by unfold J; simpa using fun _ _ => hp
  kept := by rw [rxNotified_log]; exact .of_append

/-- The application calls and is given data. -/
theorem Rel.reading {c : Cfg} {q : Prop} {s : Layer} (hp : s.payloadLen ≠ 0) : Rel c q s s.reading :=
  ⟨id, fun _ => ⟨rfl, [.rxCall, .startRx s.payload], by simp [Layer.noted], by simp [Spec.cuts], fun h => absurd h hp⟩,
    fun hd => absurd hd.1 hp, fun _ _ _ => hp, fun h => h.of_append.of_append⟩

theorem dead_closing {c : Cfg} (s : Layer) : Dead c (s.lowerClosing c) := by
  refine ⟨by simp, by simp [Session.reset], ?_⟩
  split
  · rename_i hr
    rw [lowerClosing_ini, hr]
    simp
  · simp [Session.reset]

/-- Reactions to a message that brings no data. -/
theorem Rel.reads' {c : Cfg} {s t : Layer} (hr : s.lowerReady = true) (hp : s.payloadLen = 0)
    (hd : Dead c s → Dead c t) (hf : J c s → J c t) (hk : Spec.Unstale c t.log → Spec.Unstale c s.log) : Rel c False s t where
  busy h := by rw [hr] at h; cases h
  still h := by
    rcases h with h | h
    · exact h.elim
    · rw [hr] at h; cases h
  dead := hd
  flag := hf
  kept := hk

/-- Steps between functions. -/
theorem Inv.top {c : Cfg} {s t : Layer} (h : Inv c s) (hj : J c s) (extra : List Obs) (hl : t.log = s.log ++ extra)
    (hq : ∀ o ∈ extra, matters o = false) (hp : t.payloadLen = s.payloadLen) (hb : t.buf = s.buf)
    (hf : t.rxFlag = s.rxFlag) : Inv c t ∧ J c t := by
  have hj' : J c t := by unfold J; rw [hf, hp, hl]; exact fun hv => hj hv.of_append
  have hpay : t.payload = s.payload := by simp [Layer.payload, hp, hb]
  refine ⟨⟨?_, ?_, by rw [hp, hpay]; exact h.full, fun hv h0 => .inl (hj' hv h0), ?_⟩, hj'⟩
  · rw [hl]; exact hist_quiet h.hist hq
  · rw [hp, hl, hf]
    intro h0
    obtain ⟨since, h1, h2⟩ := h.data h0
    refine ⟨since ++ extra, ?_, ?_⟩
    · rw [hpay]
      exact comesFrom_append h1 fun o ho => (matters_false (hq o ho)).1
    · intro h3 o ho
      rcases List.mem_append.mp ho with ho | ho
      · exact h2 h3 o ho
      · exact (matters_false (hq o ho)).2.1
  · rw [hl, told_quiet hq, hp, hf]
    exact fun ht => ⟨(h.told ht).1, fun hv => (h.told ht).2 hv.of_append⟩

theorem not_dead_active {c : Cfg} {s : Layer} (h : s.active.valid = true) : ¬ Dead c s := by
  intro hd
  rw [hd.2.1] at h
  cases h

theorem not_dead_pending {c : Cfg} {s : Layer} {r : ResponderHandshake} (hr : c.role = .responder r)
    (h : s.pending.valid = true) (hl : s.lowerReady = true) : ¬ Dead c s := by
  intro hd
  have := hd.2.2
  rw [hr] at this
  rw [this h] at hl
  cases hl

theorem not_dead_waiting {c : Cfg} {s : Layer} {params : Params} {limits : SessionLimits}
    (hr : c.role = .initiator params limits) (h : s.ini.hs = .waitForBeginReply ∨ s.ini.hs = .waitForAuthReply)
    (hl : s.lowerReady = true) : ¬ Dead c s := by
  intro hd
  have := hd.2.2
  rw [hr] at this
  rw [this h] at hl
  cases hl

theorem take_bufferAfter (old scratch p : Bytes) : (bufferAfter old scratch (.ok p)).take p.length = p := by
  simp [bufferAfter]

/-- The payload of an authentication message is made available after the application was told that the session
is open. -/
theorem Inv.payload {c : Cfg} {s0 s : Layer} {log : List Obs} {p : Bytes} {e0 : List Obs} (h : Inv c s) (hp : p ≠ [])
    (h0 : s0.payloadLen = 0) (hf : Spec.Unstale c s0.log → s0.rxFlag = false) (hl : s0.log = log ++ e0)
    (he0 : ∀ o ∈ e0, matters o = false) (hc : Spec.ComesFrom c.bufLen log p []) (hb : s0.buf.take p.length = p)
    (hs : Still s0 s) : Inv c (({ s with payloadLen := p.length } : Layer).rxNotified) := by
  obtain ⟨g1, ext, g2, g3, g4⟩ := hs
  obtain ⟨k1, k2, k3⟩ := g4 h0
  have hp' : p.length ≠ 0 := by simpa using hp
  have hpay : ({ s with payloadLen := p.length } : Layer).payload = p := by
    simp only [Layer.payload]
    rw [g1, hb]
  refine Inv.rx (s := { s with payloadLen := p.length })
    ⟨h.hist, fun _ => ?_, fun _ => by rw [hpay]; exact hp, fun _ _ => .inl hp', fun ht => ?_⟩ hp' (fun hv => k2 (hf (Spec.Unstale.of_append (g2 ▸ hv))))
  · refine ⟨e0 ++ ext, ?_, fun _ o ho => ?_⟩
    · rw [hpay]
      have e : s.log = log ++ (e0 ++ ext) := by rw [g2, hl]; simp
      show Spec.ComesFrom c.bufLen s.log p _
      rw [e]
      refine comesFrom_append (since := []) hc ?_
      intro o ho
      rcases List.mem_append.mp ho with ho | ho
      · exact (matters_false (he0 o ho)).1
      · exact g3 o ho
    · rcases List.mem_append.mp ho with ho | ho
      · exact (matters_false (he0 o ho)).2.1
      · exact k3 o ho
  · exact ⟨hp', fun hv => k2 (hf (Spec.Unstale.of_append (g2 ▸ hv)))⟩

theorem atomic (c : Cfg) (E : Env) (hE : Spec.ReadsInOrder c E) :
    Atomic c E (OpenProof.Inv c E) (Inv c) (J c) (Rel c (Spec.ReadsAtOnce c E)) (Rel c False) := by
  refine ⟨fun _ => .refl .., fun _ _ _ => Rel.trans, fun _ _ _ => Rel.trans, ?sub, ?nested, ?init, ?tx, ?rx, ?tail,
    fun _ _ _ _ hj hl => hl.flag hj, ?top, ?closing, ?closed⟩
  case sub => exact fun s t h => ⟨h.busy, fun a => h.still (a.elim False.elim .inr), h.dead, h.flag, h.kept⟩
  case nested =>
    intro s hn _ hi
    refine ⟨fun hp hf => .reading hp, fun hc t h => ⟨h.busy, fun a => ?_, h.dead, h.flag, h.kept⟩⟩
    rcases a with a | a
    · exfalso
      obtain ⟨h1, h2⟩ := a s hn
      obtain ⟨g1, g2⟩ := hi.told (told_last h1)
      rcases hc with hc | hc
      · exact g1 hc
      · rw [g2 h2] at hc; cases hc
    · exact h.still (.inr a)
  case init =>
    intro hh _ _
    refine ⟨⟨?_, fun h => absurd rfl h, fun h => absurd rfl h, ?_, ?_⟩, ?_⟩
    · intro pre o post h
      simp [Layer.new] at h
    · simp [Layer.new]
    · simp [Layer.new, Spec.told]
    · simp [J, Layer.new]
  case tx =>
    intro s s' _ _ h ha
    cases ha with
    | nonceTrigger params limits s' hr _ hq =>
      have hd : Dead c s → Dead c { s with ini := { s.ini with sessTimer := none } } := id
      refine ⟨Inv.hsReq (by exact h.quiet [] (by simp) (by simp) rfl rfl rfl hd) hq, ?_⟩
      exact (Rel.quiet (s := s) (t := { s with ini := { s.ini with sessTimer := none } }) [] (by simp) (by simp) rfl rfl rfl id hd).trans
        (.hsReq hq)
    | startTxRefused d _ =>
      exact ⟨h.quiet [_] rfl (by simp [matters, Spec.cuts, Spec.gives]) rfl rfl rfl id,
        .quiet [_] rfl (by simp [matters, Spec.cuts, Spec.gives]) rfl rfl rfl id id⟩
    | startTxAccepted d _ =>
      exact ⟨h.quiet [.startTx d true] rfl (by simp [matters, Spec.cuts, Spec.gives]) rfl rfl rfl id,
        .quiet [.startTx d true] rfl (by simp [matters, Spec.cuts, Spec.gives]) rfl rfl rfl id id⟩
    | dataSent now out hc _ =>
      have hnd : ¬ Dead c s := not_dead_active (by simp only [canTransmit, Bool.and_eq_true] at hc; exact hc.1.1)
      exact ⟨h.quiet [.lowerTx _ _] rfl (by simp [matters, Spec.cuts, Spec.gives]) rfl rfl rfl (fun h => absurd h hnd),
        .quiet [.lowerTx _ _] rfl (by simp [matters, Spec.cuts, Spec.gives]) rfl rfl rfl (fun _ => rfl) (fun h => absurd h hnd)⟩
    | dataFailed now e hc _ =>
      have hnd : ¬ Dead c s := not_dead_active (by simp only [canTransmit, Bool.and_eq_true] at hc; exact hc.1.1)
      have hx : ∀ o ∈ (if s.upperOpen then [Obs.up .closed] else []), matters o = false := by
        intro o ho
        by_cases hu : s.upperOpen = true <;> simp_all [matters, Spec.cuts, Spec.gives]
      exact ⟨h.quiet _ (closing_log _) hx (by simp) (by simp) (by simp) (fun h => absurd h hnd),
        .quiet _ (closing_log _) hx (by simp) (by simp) (by simp) (by simp) (fun h => absurd h hnd)⟩
  case rx =>
    intro s s' hP _ h ha
    have hk : ∀ k : Option (UInt64 × Bytes), ∀ o ∈ keyObs k, matters o = false := by
      intro k o ho
      cases k <;> simp_all [keyObs, matters, Spec.cuts, Spec.gives]
    have both : ∀ {t : Layer} (_ : s.lowerReady = true) (_ : s.payloadLen = 0) (m : Bytes) (extra : List Obs)
        (_ : t.log = s.log ++ .recv m :: extra) (_ : ∀ o ∈ extra, matters o = false)
        (_ : t.payloadLen = s.payloadLen) (_ : t.rxFlag = s.rxFlag) (_ : Dead c s → Dead c t),
        Inv c t ∧ Rel c False s t :=
      fun hr hp m extra hl hq hp' hf hd => ⟨h.reads hp m extra hl hq hp' hf hd, .reads hr hp hf ⟨_, hl⟩ hd⟩
    cases ha with
    | ignored m w hr => exact both hr.1 hr.2.1 m [] rfl (by simp) rfl rfl id
    | errorReply m w hh e frame hr hrole _ =>
      refine both hr.1 hr.2.1 m _ (by simp; rfl) (by simp [matters, Spec.cuts, Spec.gives]) rfl rfl ?_
      exact dead_of rfl id (fun _ _ h => .inr (.inr rfl)) (fun _ _ => .inr rfl) (fun _ => rfl)
    | requestRefused m w hh msg now f e hr hrole _ _ he s1 h1 _ h2 =>
      rcases hproc : hh.process c.backend c.caps f.lookup f.rnd msg m now c.fw s.pending s.stats with
        ⟨s'', st'', used, res⟩
      rw [hproc] at he h1
      simp only at he h1
      obtain ⟨hno, _⟩ := C25_responder_session _ _ _ _ _ _ _ _ _ _ _ _ _ _ _ hproc
      obtain ⟨g1, g2⟩ := hno _ he
      rcases h2 with rfl | ⟨fr, _, rfl⟩
      · subst h1
        refine both hr.1 hr.2.1 m _ (by simp; rfl) (hk _) (by simp) (by simp) ?_
        refine dead_of (by simp) (by simp) (fun _ _ h => by rw [hrole] at h; cases h) (fun _ _ => .inl ?_) (by simp)
        simp [g1]
      · subst h1
        refine both hr.1 hr.2.1 m _ (by simp; rfl) ?_ (by simp) (by simp) ?_
        · intro o ho
          simp only [List.mem_append, List.mem_singleton] at ho
          rcases ho with ho | rfl
          · exact hk _ o ho
          · rfl
        · exact dead_of (by simp) (by simp) (fun _ _ h => .inr (.inr (by simp))) (fun _ _ => .inr (by simp)) (by simp)
    | requestAccepted m w hh msg now f frame hr _ _ _ _ _ _ h1 =>
      subst h1
      refine both hr.1 hr.2.1 m _ (by simp; rfl) ?_ (by simp) (by simp) ?_
      · intro o ho
        simp only [List.mem_append, List.mem_singleton] at ho
        rcases ho with ho | ho | rfl
        · exact hk _ o ho
        · split at ho <;> simp_all [matters, Spec.cuts, Spec.gives]
        · rfl
      · exact dead_of (by simp) (by simp) (fun _ _ h => .inr (.inr (by simp))) (fun _ _ => .inr (by simp)) (by simp)
    | replyRefused m w params limits msg now hr hrole _ hw _ _ h1 =>
      subst h1
      exact both hr.1 hr.2.1 m [] rfl (by simp) rfl rfl fun hd => absurd hd (not_dead_waiting hrole (.inl hw) hr.1)
    | replyAuthFailed m w params limits msg now now' e hr hrole _ hw _ s1 h1 _ _ h2 =>
      subst h2
      refine both hr.1 hr.2.1 m _ (by simp; rw [h1]; simp; rfl) ?_ (by rw [h1]; simp) (by rw [h1]; simp)
        fun hd => absurd hd (not_dead_waiting hrole (.inl hw) hr.1)
      intro o ho
      split at ho <;> simp_all [matters, Spec.cuts, Spec.gives]
    | replyAccepted m w params limits msg now now' out hr hrole _ hw _ s1 h1 _ s2 h2 _ h3 =>
      subst h3
      refine both hr.1 hr.2.1 m _ (by simp; rw [h2]; simp; rw [h1]; simp; rfl) ?_ (by rw [h2, h1]; simp)
        (by rw [h2, h1]; simp) fun hd => absurd hd (not_dead_waiting hrole (.inl hw) hr.1)
      intro o ho
      simp only [List.mem_append, List.mem_singleton] at ho
      rcases ho with ho | rfl
      · split at ho <;> simp_all [matters, Spec.cuts, Spec.gives]
      · rfl
    | replyError m w params limits hr hrole hw =>
      exact both hr.1 hr.2.1 m [] rfl (by simp) rfl rfl fun hd => absurd hd (not_dead_waiting hrole hw hr.1)
    | initAuthRefused m w params limits msg now scratch e hr hrole _ _ hw _ _ h1 =>
      subst h1
      exact both hr.1 hr.2.1 m [] rfl (by simp) rfl rfl fun hd => absurd hd (not_dead_waiting hrole (.inr hw) hr.1)
    | initAuthOk m w params limits msg now scratch payload hr hrole _ _ hw =>
      refine both hr.1 hr.2.1 m _ (by simp; rfl) ?_ (by simp) (by simp)
        fun hd => absurd hd (not_dead_waiting hrole (.inr hw) hr.1)
      intro o ho
      split at ho <;> simp_all [matters, Spec.cuts, Spec.gives]
    | respAuthRefused m w hh msg now scratch e hr hrole _ _ hv =>
      exact both hr.1 hr.2.1 m [] rfl (by simp) rfl rfl fun hd => absurd hd (not_dead_pending hrole hv hr.1)
    | respAuthFailed m w hh msg now now' scratch payload e hr hrole _ _ hv _ s1 h1 =>
      exact both hr.1 hr.2.1 m [] (by simp [h1]) (by simp) (by simp [h1]) (by simp [h1])
        fun hd => absurd hd (not_dead_pending hrole hv hr.1)
    | respAuthOk m w hh msg now now' scratch payload out hr hrole _ _ hv _ s1 h1 =>
      refine both hr.1 hr.2.1 m _ (by simp; rw [h1]; simp; rfl) ?_ (by simp [h1]) (by simp [h1])
        fun hd => absurd hd (not_dead_pending hrole hv hr.1)
      intro o ho
      simp only [List.mem_cons] at ho
      rcases ho with rfl | ho
      · rfl
      · by_cases hu : s.upperOpen = true <;> simp_all [matters, Spec.cuts, Spec.gives]
    | dataRefused m w msg now scratch e hr =>
      refine both hr.1 hr.2.1 m [] rfl (by simp) rfl rfl ?_
      have := same_validateData s.active s.stats msg now c.bufLen
      refine dead_of rfl ?_ (fun _ _ _ => .inl rfl) (fun _ _ => .inl id) id
      intro h0
      exact this.1.1.trans h0
    | dataOk m w msg now scratch payload hr hm hn hv =>
      have hnd : ¬ Dead c s := not_dead_active (validateData_valid hv)
      have hf := h.noFlag hr.2.1 hnd
      have hpay : ({ (s.received m w).dataValidated c msg now scratch with payloadLen := payload.length } : Layer).payload
          = payload := by
        simp only [Layer.payload, Layer.dataValidated, received_active, received_stats, received_buf]
        rw [hv]
        exact take_bufferAfter ..
      refine ⟨⟨h.hist.snoc fine_mono (by simp [Fine]), fun _ => ?_, fun _ => ?_, ?_, ?_⟩, .reads hr.1 hr.2.1 rfl ⟨[.recv m], rfl⟩ fun h => absurd h hnd⟩
      · refine ⟨[], ?_, by simp⟩
        rw [hpay]
        exact comesFrom_data hP.act hm hn hv
      · rw [hpay]
        exact (authentic_data hm hv).2.1
      · intro hv h0
        exact absurd (hf (Spec.Unstale.of_append hv)) (by simpa using h0)
      · intro ht
        simp only [dataValidated_log, received_log, told_snoc, h.not_told hr.2.1, Spec.toldStep] at ht
        cases ht
    | readEmpty w hr hp =>
      refine ⟨⟨h.hist, fun h0 => absurd hp h0, fun h0 => absurd hp h0, h.flag, h.told⟩, .reads hr hp rfl ⟨[], by simp⟩ id⟩
    | discarded hf =>
      have ht : Spec.Unstale c s.log → Spec.told s.log = false := by
        intro hv
        by_contra hc
        have := (h.told (by simpa using hc)).2 hv
        rw [hf] at this
        cases this
      refine ⟨⟨h.hist.snoc fine_mono (by intro hv h0; rw [ht hv] at h0; cases h0), fun h0 => absurd rfl h0, fun h0 => absurd rfl h0, by simp, ?_⟩, ?_⟩
      · simp [told_snoc, Spec.toldStep]
      · refine ⟨id, fun _ => ⟨rfl, [.rxCall], rfl, by simp [Spec.cuts], fun _ => ⟨rfl, fun _ => rfl, by simp [Spec.gives]⟩⟩, ?_, ?_, .of_append⟩
        · exact fun h => ⟨rfl, h.2.1, h.2.2⟩
        · simp [J]
    | asked hf hp =>
      refine ⟨⟨h.hist.snoc fine_mono (by simp [Fine, h.not_told hp]), fun h0 => absurd hp h0, fun h0 => absurd hp h0, ?_, ?_⟩, ?_⟩
      · simp [hf]
      · simp [told_snoc, Spec.toldStep]
      · exact ⟨id, fun _ => ⟨rfl, [.rxCall], rfl, by simp [Spec.cuts], fun h => ⟨h, id, by simp [Spec.gives]⟩⟩, id, fun h hv => h (Spec.Unstale.of_append hv), .of_append⟩
    | readNothing =>
      exact ⟨h.quiet [_] rfl (by simp [matters, Spec.cuts, Spec.gives]) rfl rfl rfl id,
        .quiet [_] rfl (by simp [matters, Spec.cuts, Spec.gives]) rfl rfl rfl id id⟩
    | readData hp hf =>
      obtain ⟨since, h1, h2⟩ := h.data hp
      have h1' : Spec.ComesFrom c.bufLen (s.log ++ [.rxCall]) s.payload (since ++ [.rxCall]) :=
        comesFrom_append h1 (by simp [Spec.cuts])
      have hpay : s.payload ≠ [] := h.full hp
      refine ⟨⟨?_, fun _ => ?_, fun _ => hpay, fun _ _ => .inl hp, ?_⟩, ?_⟩
      · have e : ({ (s.noted .rxCall).noted (.startRx s.payload) with rxFlag := true } : Layer).log
            = s.log ++ [.rxCall, .startRx s.payload] := by simp [Layer.noted]
        rw [e]
        refine h.hist.append fine_mono ?_
        intro e1 o e2 he
        match e1, he with
        | [], he =>
          simp only [List.nil_append, List.cons.injEq] at he
          obtain ⟨rfl, rfl⟩ := he
          exact fun _ _ => ⟨_, [], hpay, rfl⟩
        | [x], he =>
          simp only [List.cons_append, List.nil_append, List.cons.injEq] at he
          obtain ⟨rfl, rfl, rfl⟩ := he
          refine fun _ => ⟨_, h1', fun o ho => ?_⟩
          rcases List.mem_append.mp ho with ho | ho
          · exact h2 hf o ho
          · rw [List.mem_singleton.mp ho]; rfl
        | x :: y :: e1, he => simp at he
      · refine ⟨since ++ [.rxCall] ++ [.startRx s.payload], ?_, by simp⟩
        exact comesFrom_append (extra := [.startRx s.payload]) h1' (by simp [Spec.cuts])
      · intro ht
        simp only [noted_log, told_snoc, Spec.toldStep] at ht
        cases ht
      · exact .reading hp
  case tail =>
    intro o s s' hPo _ _ ho h ha
    cases ha with
    | initAuthPayload s0 m w params limits msg now scratch p hr hrole hm hn hw hv h0 hR hp =>
      have hnn : Spec.ReadsAtOnce c E := hE.resolve_right fun ⟨r, h⟩ => by rw [hrole] at h; cases h
      have hnd : ¬ Dead c o := not_dead_waiting hrole (.inr hw) hr.1
      have hp' : p.length ≠ 0 := by simpa using hp
      have hk0 : Spec.Unstale c s0.log → Spec.Unstale c o.log := by
        rw [h0, initAuthOk_log, received_log, List.append_assoc]; exact .of_append
      refine ⟨?_, .reads' hr.1 hr.2.1 (fun h => absurd h hnd) (fun _ _ _ => by simpa using hp) ?_⟩
      swap
      · rw [rxNotified_log]
        exact fun hu => hk0 (hR.kept hu.of_append)
      refine h.payload (s0 := s0) (e0 := if o.upperOpen then [] else [.up .opened]) hp (by rw [h0]; simpa using hr.2.1)
        (fun hu => by have := ho.noFlag hr.2.1 hnd (hk0 hu); rw [h0]; simpa using this)
        (by rw [h0]; simp; rfl) ?_ (comesFrom_auth hPo.pend hm hv) ?_ (hR.still (.inl hnn))
      · intro o' ho'
        split at ho' <;> simp_all [matters, Spec.cuts, Spec.gives]
      · rw [h0]
        unfold Layer.initAuthOk
        simp only [opening_buf, activated_buf, Layer.authValidated, received_pending, received_stats, received_buf]
        rw [hv]
        exact take_bufferAfter ..
    | initAuthEnd s0 m w params limits msg now scratch p hr hrole hm hn hw hv h0 hR =>
      have hnd : ¬ Dead c o := not_dead_waiting hrole (.inr hw) hr.1
      have hd : Dead c s → Dead c { s with inAuth := false, ini := { s.ini with hs := .idle } } :=
        dead_of rfl id (fun _ _ _ => .inr (.inl (by simp))) (fun _ _ => .inl id) id
      have hk0 : Spec.Unstale c s0.log → Spec.Unstale c o.log := by
        rw [h0, initAuthOk_log, received_log, List.append_assoc]; exact .of_append
      refine ⟨h.quiet [] (by simp) (by simp) rfl rfl rfl hd, .reads' hr.1 hr.2.1 (fun h => absurd h hnd) ?_ ?_⟩
      swap
      · rcases hR with ⟨_, hR⟩ | ⟨s1, hR, _, hR'⟩
        · exact fun hu => hk0 (hR.kept hu)
        · intro hu
          have := hR'.kept hu
          rw [rxNotified_log] at this
          exact hk0 (hR.kept this.of_append)
      intro hj
      have hjs : J c s := by
        rcases hR with ⟨_, hR⟩ | ⟨s1, _, hp, hR⟩
        · refine hR.flag ?_
          have : s0.rxFlag = o.rxFlag := by rw [h0]; simp
          have := ho.noFlag hr.2.1 hnd
          intro hv
          have := this (hk0 hv)
          simp_all
        · refine hR.flag ?_
          intro _ _
          simpa using hp
      exact hjs
    | dataNotified s1 m w msg now scratch p hr hm hn hv hp h1 hnc =>
      have hnd : ¬ Dead c o := not_dead_active (validateData_valid hv)
      have hf := ho.noFlag hr.2.1 hnd
      have hlen : s.payloadLen ≠ 0 := by rw [hnc.payloadLen, h1]; simpa using hp
      have hk0 : Spec.Unstale c s.log → Spec.Unstale c o.log := by
        obtain ⟨ext, he⟩ : ∃ ext, s.log = s1.log ++ ext := by
          rcases hnc with ⟨rfl, _⟩ | ⟨_, _, _, _, hq⟩
          · exact ⟨[], by simp⟩
          · obtain ⟨ext, he, _⟩ := hsReq_extra hq
            exact ⟨ext, he⟩
        rw [he, h1]
        exact fun hu => hu.of_append.of_append
      have hfs : Spec.Unstale c s.log → s.rxFlag = false := by
        intro hu
        have := hf (hk0 hu)
        rw [hnc.rxFlag, h1]; simpa using this
      refine ⟨h.rx hlen hfs, .reads' hr.1 hr.2.1 (fun h => absurd h hnd) (fun _ _ _ => by simpa using hlen) ?_⟩
      rw [rxNotified_log]
      exact fun hu => hk0 hu.of_append
    | respAuthPayload s0 s1 m w hh msg now now' scratch p out hr hrole hm hn hpv hv h1 hout h0 hR hp =>
      have hnd : ¬ Dead c o := not_dead_pending hrole hpv hr.1
      have hk0 : Spec.Unstale c s0.log → Spec.Unstale c o.log := by
        have : ∃ ext, s0.log = o.log ++ ext := by rw [h0, h1]; simp
        obtain ⟨ext, he⟩ := this
        rw [he]; exact .of_append
      refine ⟨?_, .reads' hr.1 hr.2.1 (fun h => absurd h hnd) (fun _ _ _ => by simpa using hp) ?_⟩
      swap
      · rw [rxNotified_log]
        exact fun hu => hk0 (hR.kept hu.of_append)
      refine h.payload (s0 := s0) (e0 := .lowerTx out.frame s1.lowerReady :: if s1.upperOpen then [] else [.up .opened]) hp
        (by rw [h0, h1]; simpa using hr.2.1)
        (fun hu => by have := ho.noFlag hr.2.1 hnd (hk0 hu); rw [h0, h1]; simpa using this)
        (by rw [h0, h1]; simp; rfl) ?_ (comesFrom_auth hPo.pend hm hv) ?_ (hR.still (.inr (by rw [h0]; simp)))
      · intro o' ho'
        rcases List.mem_cons.mp ho' with rfl | ho'
        · rfl
        · by_cases hu : s1.upperOpen = true <;> simp_all [matters, Spec.cuts, Spec.gives]
      · rw [h0]
        simp only [opening_buf, sent_buf, authTaken_buf, authFormatted_buf, h1, activated_buf, Layer.authValidated,
          received_pending, received_stats, received_buf]
        rw [hv]
        exact take_bufferAfter ..
  case top =>
    intro s s' _ _ h hj ha
    have hq : ∀ {limits : SessionLimits} {t u : Layer}, Inv c t ∧ J c t → HsReq c limits t u → Inv c u ∧ J c u := by
      intro limits t u ht hq
      obtain ⟨extra, h1, h2⟩ := hsReq_extra hq
      exact ht.1.top ht.2 extra h1 h2 hq.payloadLen hq.buf hq.rxFlag
    cases ha with
    | ready b => exact h.top hj [_] rfl (by simp [matters, Spec.cuts, Spec.gives]) rfl rfl rfl
    | openedResponder => exact h.top hj [_] rfl (by simp [matters, Spec.cuts, Spec.gives]) rfl rfl rfl
    | openedInitiator params limits _ _ _ hh =>
      exact hq (by exact h.top hj [.lowerOpen] rfl (by simp [matters, Spec.cuts, Spec.gives]) rfl rfl rfl) hh
    | txComplete => exact h.top hj [] (by simp) (by simp) rfl rfl rfl
    | preTxReady params limits _ _ _ _ hh => exact hq ⟨h, hj⟩ hh
    | txNotified =>
      refine h.top hj _ (txNotified_log s) ?_ (by simp) (by simp) (by simp)
      intro o ho
      by_cases hu : s.upperOpen = true <;> simp_all [matters, Spec.cuts, Spec.gives]
    | responseTimeout => exact h.top hj [] (by simp) (by simp) rfl rfl rfl
    | retryTimeout params limits _ _ _ i _ hh => exact hq (by exact h.top hj [] (by simp) (by simp) rfl rfl rfl) hh
    | sessionTimeout params limits _ _ _ hh => exact hq (by exact h.top hj [] (by simp) (by simp) rfl rfl rfl) hh
    | orphanResponse => exact h.top hj [] (by simp) (by simp) rfl rfl rfl
    | orphanRetry params limits _ _ _ i _ hh => exact hq (by exact h.top hj [] (by simp) (by simp) rfl rfl rfl) hh
    | orphanSession params limits _ _ _ hh => exact hq (by exact h.top hj [] (by simp) (by simp) rfl rfl rfl) hh
  case closing =>
    intro s _ _ h _ _
    have hl : (s.lowerClosing c).log = (s.log ++ [.lowerClose]) ++ (if s.upperOpen then [.up .closed] else []) := by
      simp [lowerClosing_log]
    have hn : ∀ o ∈ (if s.upperOpen then [Obs.up .closed] else []), matters o = false := by
      intro o ho
      by_cases hu : s.upperOpen = true <;> simp_all [matters, Spec.cuts, Spec.gives]
    refine ⟨?_, fun h0 => absurd (by simp) h0, fun h0 => absurd (by simp) h0, fun _ _ => .inr (dead_closing s), ?_⟩
    · rw [hl]
      exact hist_quiet (h.hist.snoc fine_mono (by simp [Fine])) hn
    · rw [hl, told_quiet hn, told_snoc]
      simp [Spec.toldStep]
  case closed =>
    intro s0 s _ _ _ _ _ _ h hR
    have hd : Dead c s := hR.dead (dead_closing s0)
    have hv' : Spec.Unstale c s.log → c.viaStack = false := by
      intro hu
      refine (hR.kept hu).resolve_right fun h => h ?_
      simp [lowerClosing_log]
    refine ⟨⟨h.hist, fun h0 => absurd hd.1 h0, fun h0 => absurd hd.1 h0, ?_, fun ht => ?_⟩, ?_⟩
    · intro hv; simp [hv' hv, Layer.closedDown]
    · exact absurd hd.1 (h.told ht).1
    · intro hv; simp [hv' hv, Layer.closedDown]

end DeliveryProof

/-- An application that reads from inside callbacks only when it has just been told that there is data finds data. -/
theorem available_of_readsAtOnce {c : Cfg} {E : Env} (hE : Spec.ReadsAtOnce c E) {s : Layer} (h : Observed c E s)
    (hn : E.nested s .startRx) : s.payloadLen ≠ 0 ∧ s.rxFlag = false := by
  have hi := ((DeliveryProof.atomic c E (.inl hE)).proof (OpenProof.atomic c E)).observed h
  obtain ⟨h1, h2⟩ := hE s hn
  exact ⟨(hi.2.told (DeliveryProof.told_last h1)).1, (hi.2.told (DeliveryProof.told_last h1)).2 h2⟩

/-- In every execution: data that the application is given is the user data of the last message read from below;
that message is authentic under the keys of the session that was authenticated last (and not closed since), or,
if it has nonce zero, under the keys of the last handshake; and the data of no message is given twice. -/
theorem C29_data_only_from_session_partial (c : Cfg) (E : Env) (hE : Spec.ReadsInOrder c E) (s : Layer) (h : Observed c E s)
    (pre post : List Obs) (d : Bytes) (hd : d ≠ []) (hlog : s.log = pre ++ .startRx d :: post) :
    ∃ since, Spec.ComesFrom c.bufLen pre d since ∧ ∀ d', d' ≠ [] → .startRx d' ∉ since := by
  have hi := ((DeliveryProof.atomic c E hE).proof (OpenProof.atomic c E)).observed h
  obtain ⟨since, h1, h2⟩ := hi.2.hist pre (.startRx d) post hlog hd
  refine ⟨since, h1, fun d' hd' hm => ?_⟩
  have := h2 _ hm
  simp [Spec.gives, hd'] at this

/-- In every execution: when the application was told that there is data, its next call of `start_rx` gives it
data, unless the layer below closed in between. This is for applications that use the layer directly, or through an
`IStack` before the layer below closes for the first time; through an `IStack` it is false afterwards, see
`C33_stack_violation`. -/
theorem C33_announced_data_is_given_partial (c : Cfg) (E : Env) (hE : Spec.ReadsInOrder c E)
    (s : Layer) (h : Observed c E s) (pre mid post : List Obs) (hd : Spec.Unstale c pre) (h1 : .rxCall ∉ mid) (h2 : .lowerClose ∉ mid)
    (hlog : s.log = pre ++ .up .rxReady :: mid ++ .rxCall :: post) : ∃ d rest, d ≠ [] ∧ post = .startRx d :: rest := by
  have hi := ((DeliveryProof.atomic c E hE).proof (OpenProof.atomic c E)).observed h
  have := hi.2.hist (pre ++ .up .rxReady :: mid) .rxCall post hlog
  refine this (hd.imp id fun h hm => ?_) ?_
  · rcases List.mem_append.mp hm with hm | hm
    · exact h hm
    · simp [h2] at hm
  have key : ∀ mid : List Obs, .rxCall ∉ mid → .lowerClose ∉ mid → mid.foldl Spec.toldStep true = true := by
    intro mid h1 h2
    apply foldl_neutral
    intro o ho
    cases o with
    | rxCall => exact absurd ho h1
    | lowerClose => exact absurd ho h2
    | up cb => cases cb <;> rfl
    | _ => rfl
  simpa [Spec.told, List.foldl_append, Spec.toldStep] using key mid h1 h2

namespace LayerExample
open Exec

/-- The theorems apply to the responder of the example, which gives its application the data it announced. -/
example : ∃ s, Observed res EnvB.tame.env s ∧ Spec.ReadsInOrder res EnvB.tame.env ∧
    (s.log.map tag).drop 9 = [10, 0, 5, 13, 8] ∧ given s = [[1, 2, 3]] := by
  obtain ⟨s, h1, h2⟩ := Exec.exists_of_map configured (c := res) (E := .tame) (h := hs) (script := resRead)
    (f := fun s => ((s.log.map tag).drop 9, given s)) (a := ([10, 0, 5, 13, 8], [[1, 2, 3]])) (by decide +kernel)
  rw [Prod.mk.injEq] at h2
  exact ⟨s, h1.observed, .inl (Spec.readsAtOnce_of_noNestedRx _ EnvB.tame_noNestedRx), h2⟩

/-! ### The restriction is needed: an application of an initiator that reads from inside "opened" -/

/-- An initiator that connects to the responder of `resAuth` for the second time. -/
def iniRequest2 : List Choice := [.event (.lowerOpen true), ans 105 3, ans 105 3]
def request2 : Bytes := lastTx (final ini .tame hs iniRequest2)
/-- The responder has data to send when the second request arrives, and sends it with its session auth. -/
def resReply2 : List Choice := resAuth ++
  [.api (.startTx [9, 9, 9]), .event .lowerTxReady, .recv request2, ans 106 4, ans 106 4, ans 106 4]
def reply2 : Bytes := lastTx (final res .tame hs resReply2)
def iniAuth2 : List Choice := iniRequest2 ++ [.event .lowerTxReady, .recv reply2, ans 107, ans 107, ans 107]
def auth1b : Bytes := lastTx (final ini .tame hs iniAuth2)
def resAuth2 : List Choice := resReply2 ++ [.event .lowerTxReady, .recv auth1b, ans 108, ans 108, ans 108, ans 108]
def auth2b : Bytes := lastTx (final res .tame hs resAuth2)
/-- The layer below has put a message of the attacker into its buffer. -/
def attack (t : Int) : Choice := .fresh ⟨t, List.replicate 32 0, none, fun _ => none, [6, 6, 6]⟩
/-- The application reads in the callback "opened": the layer reads an unauthentic message (and ignores it), which
overwrites the memory where the authentic data of the session auth message was; then it announces that data. -/
def iniNested : List Choice := iniAuth2 ++ [.event .lowerTxReady, .recv auth2b, ans 109, ans 109, ans 109,
  .api .startRx, .recv [1, 2, 3], attack 109, attack 109, .recv [], attack 109, .ret, .api .startRx, .ret]

/-- The responder then sends more data. -/
def resMore : List Choice := resAuth2 ++
  [.event .lowerTxReady, .ret, .recv [], ans 108, .api (.startTx [8]), ans 108]
def data2b : Bytes := lastTx (final res .tame hs resMore)
/-- If that message is what the application gets in the callback "opened", the data of the session auth message is
announced to it afterwards and then discarded. -/
def iniLost : List Choice := iniAuth2 ++ [.event .lowerTxReady, .recv auth2b, ans 109, ans 109, ans 109,
  .api .startRx, .recv data2b, ans 109, ans 109, ans 109, .api .startRx, .ret, .ret, .api .startRx, .recv [], ans 109,
  .ret, .recv [], ans 109]

/-- The last message read. -/
def lastRecv (log : List Obs) : Option Bytes :=
  log.foldl (fun acc o => match o with | .recv m => some m | _ => acc) none

theorem lastRecv_of_comesFrom {n : Nat} {log : List Obs} {d : Bytes} {since : List Obs}
    (h : Spec.ComesFrom n log d since) : ∃ m, lastRecv log = some m ∧ ∃ msg, SessionData.read m = .ok msg := by
  obtain ⟨before, m, rfl, h2, h3⟩ := h
  refine ⟨m, ?_, ?_⟩
  · simp only [lastRecv, List.foldl_append, List.foldl_cons]
    apply foldl_neutral
    intro o ho
    have := h2 o ho
    cases o <;> simp_all [Spec.cuts]
  · rcases h3 with ⟨_, _, _, _, _, _, msg, h, _⟩ | ⟨_, _, _, _, msg, h, _⟩ <;> exact ⟨msg, h⟩

/-- Without the restriction the claim is false: an application of an initiator that calls `start_rx` from inside
the callback "opened" is given the bytes `[6, 6, 6]` of an attacker, who knows no key. -/
theorem C29_nested_read_violation : ∃ c s pre d, Observed c anyEnv s ∧ s.log = pre ++ [.startRx d] ∧
    d = [6, 6, 6] ∧ lastRecv pre = some [1, 2, 3] ∧ ¬ ∃ since, Spec.ComesFrom c.bufLen pre d since := by
  obtain ⟨s, h1, h2⟩ := Exec.exists_of_map configured (c := ini) (E := .any) (h := hs) (script := iniNested)
    (f := fun s => (lastRecv s.log.dropLast, (s.log.getLast?.bind fun | .startRx d => some d | _ => none)))
    (a := (some [1, 2, 3], some [6, 6, 6])) (by decide +kernel)
  rw [Prod.mk.injEq] at h2
  obtain ⟨h2, h3⟩ := h2
  rw [Option.bind_eq_some_iff] at h3
  obtain ⟨o, h3, h4⟩ := h3
  cases o with
  | startRx d =>
    obtain rfl : d = [6, 6, 6] := by simpa using h4
    refine ⟨ini, s, s.log.dropLast, [6, 6, 6], h1.any, by
      obtain ⟨ys, h5⟩ := List.getLast?_eq_some_iff.1 h3
      rw [h5, List.dropLast_concat], rfl, h2, ?_⟩
    rintro ⟨since, h⟩
    obtain ⟨m, h5, msg, h6⟩ := lastRecv_of_comesFrom h
    rw [h2] at h5
    obtain rfl : [1, 2, 3] = m := by simpa using h5
    have : (match SessionData.read [1, 2, 3] with | .ok _ => true | .error _ => false) = false := by decide +kernel
    rw [h6] at this
    cases this
  | _ => simp at h4

/-- Whether the last three observations are: data is announced, the application calls, it is given nothing. -/
def lostData (log : List Obs) : Bool :=
  match log.reverse with
  | .startRx [] :: .rxCall :: .up .rxReady :: _ => true
  | _ => false

/-- Without the restriction announced data can be lost: the application of an initiator that calls `start_rx` from
inside the callback "opened" is told that there is data, and its next call gives it nothing. -/
theorem C33_nested_read_violation : ∃ c s pre, Observed c anyEnv s ∧
    s.log = pre ++ [.up .rxReady, .rxCall, .startRx []] := by
  obtain ⟨s, h1, h2⟩ := Exec.exists_of_map configured (c := ini) (E := .any) (h := hs) (script := iniLost)
    (f := fun s => lostData s.log) (a := true) (by decide +kernel)
  refine ⟨ini, s, (s.log.reverse.drop 3).reverse, h1.any, ?_⟩
  unfold lostData at h2
  split at h2
  · rename_i rest h
    rw [h, List.drop_succ_cons, List.drop_succ_cons, List.drop_succ_cons, List.drop_zero, ← List.reverse_inj, h]
    simp
  · cases h2

/-- The responder of the example, used through the `IStack` made by the factory. -/
def resStack : Cfg := { res with viaStack := true }
/-- The application reads data; the layer below closes and opens again; a new session is established; data is
announced and the application calls. -/
def resAgain : List Choice := resRead ++ [.event (.lowerClose true), .ret] ++ resRead ++ [.recv [], ans 11]

/-- Through an `IStack`, data announced in a session is lost if the application held data when the previous session
was closed: the flag of the stack survives the close. The application does nothing from inside callbacks here. -/
theorem C33_stack_violation : ∃ s pre, Observed resStack EnvB.tame.env s ∧ resStack.viaStack = true ∧
    Spec.ReadsInOrder resStack EnvB.tame.env ∧ s.log = pre ++ [.up .rxReady, .rxCall, .startRx []] := by
  obtain ⟨s, h1, h2⟩ := Exec.exists_of_map (configured : hs.Configured resStack.backend resStack.caps) (c := resStack)
    (E := .tame) (h := hs) (script := resAgain) (f := fun s => lostData s.log) (a := true) (by decide +kernel)
  refine ⟨s, (s.log.reverse.drop 3).reverse, h1.observed, rfl, .inl (Spec.readsAtOnce_of_noNestedRx _ EnvB.tame_noNestedRx), ?_⟩
  unfold lostData at h2
  split at h2
  · rename_i rest h
    rw [h, List.drop_succ_cons, List.drop_succ_cons, List.drop_succ_cons, List.drop_zero, ← List.reverse_inj, h]
    simp
  · cases h2

end LayerExample

end SSP21.Crypto
