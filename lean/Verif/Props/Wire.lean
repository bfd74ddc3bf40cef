import Verif.Props.Stations
import Verif.Spec.Success
/-
  Property C68: the network between two stations. If what the crypto layer of a station reads are messages that its peer has
  transmitted - as it is when they are connected by a link or a cable that nobody tampers with - then no assumption about
  the cryptography is needed: whatever a session of the receiver authenticates was made by the sender (C68_no_forgery). The
  bytes on the way are those of link frames, cut into chunks anywhere; the link layer of the receiver puts the messages
  together again (C68_messages_cross). From socket to socket: C68_bytes_to_responder, C68_bytes_to_initiator.
-/
namespace SSP21.Crypto

namespace Spec

/-- All messages that `s'` has read were transmitted by `s`. -/
def Wired (c : Cfg) (s s' : Layer) : Prop :=
  ∀ m, m ≠ [] → Obs.recv m ∈ s'.log → m.length ≤ c.fw.maxPayload.toNat ∧ ∃ ready, Obs.lowerTx (c.fw.wrap m) ready ∈ s.log

end Spec

namespace WireProof

/-! ### Messages fit -/

/-- What is written is not longer than the space for it. -/
def Bounded (w : Nat → Except FormatError Bytes) : Prop := ∀ cap x, w cap = .ok x → x.length ≤ cap

theorem bounded_emit (bs : Bytes) : Bounded (emit bs) := by
  intro cap x h
  unfold emit at h
  split at h
  · cases h; assumption
  · cases h

theorem bounded_andThen {w w' : Nat → Except FormatError Bytes} (h : Bounded w) (h' : Bounded w') : Bounded (andThen w w') := by
  intro cap x hx
  obtain ⟨a, b, h1, h2, rfl⟩ := Crypto.andThen_ok hx
  have := h _ _ h1
  have := h' _ _ h2
  rw [List.length_append]
  omega

theorem bounded_vlength (v : UInt32) : Bounded (VLength.write v) := by
  unfold VLength.write
  dsimp only
  split
  · exact bounded_emit _
  · refine bounded_andThen (bounded_emit _) ?_
    split
    · exact bounded_emit _
    · split
      · exact bounded_emit _
      · split
        · exact bounded_andThen (bounded_emit _) (bounded_emit _)
        · exact bounded_emit _

theorem bounded_bytes (v : Bytes) : Bounded (Codec.seqByte.write v) := bounded_andThen (bounded_vlength _) (bounded_emit _)

theorem bounded_request (m : RequestHandshakeBegin) : Bounded (RequestHandshakeBegin.fields.write m) :=
  bounded_andThen (bounded_andThen (bounded_emit _) (bounded_emit _))
    (bounded_andThen (bounded_andThen (bounded_emit _) (bounded_andThen (bounded_emit _) (bounded_andThen (bounded_emit _)
      (bounded_andThen (bounded_emit _) (bounded_emit _)))))
      (bounded_andThen (bounded_andThen (bounded_emit _) (bounded_emit _))
        (bounded_andThen (bounded_emit _) (bounded_andThen (bounded_bytes _) (bounded_bytes _)))))

theorem bounded_reply (m : ReplyHandshakeBegin) : Bounded (ReplyHandshakeBegin.fields.write m) :=
  bounded_andThen (bounded_andThen (bounded_emit _) (bounded_emit _)) (bounded_andThen (bounded_bytes _) (bounded_bytes _))

theorem bounded_error (m : ReplyHandshakeError) : Bounded (ReplyHandshakeError.fields.write m) :=
  bounded_andThen (bounded_andThen (bounded_emit _) (bounded_emit _)) (bounded_emit _)

theorem bounded_data (m : SessionData) : Bounded (SessionData.fields.write m) :=
  bounded_andThen (bounded_andThen (bounded_emit _) (bounded_emit _)) (bounded_andThen (bounded_bytes _) (bounded_bytes _))

/-- The first byte of a message is its function; a message fits. -/
theorem written {α : Type} {f : Function} {fields : Codec α} {m : α} (hb : Bounded (fields.write m)) {cap : Nat} {w : Bytes}
    (h : writeMessage f fields m cap = .ok w) : w.head? = some f.toType ∧ w.length ≤ cap := by
  refine ⟨?_, bounded_andThen (bounded_emit [f.toType]) hb _ _ h⟩
  obtain ⟨a, b, h1, -, rfl⟩ := Crypto.andThen_ok h
  have h1 : emit [f.toType] cap = .ok a := h1
  unfold emit at h1
  split at h1
  · cases h1; rfl
  · cases h1

/-! ### What is transmitted -/

open _root_.SSP21.Crypto.Spec

/-- Whatever is transmitted is a message in a frame: one that a session has made, or one of the handshake. -/
theorem transmitted {c : Cfg} {E : Env} {s : Layer} (h : Observed c E s) {frame : Bytes} {ready : Bool}
    (hm : Obs.lowerTx frame ready ∈ s.log) : ∃ w, frame = c.fw.wrap w ∧ w ≠ [] ∧ w.length ≤ c.fw.maxPayload.toNat ∧
      ((∃ n f clear rest, SEvent.sent f clear rest ∈ (view s).session n ∧ f.frame = c.fw.wrap w ∧ SessionData.read w = .ok f.msg) ∨
        w.head? ≠ some 3) := by
  have ne_of_head : ∀ {w : Bytes} {b : UInt8}, w.head? = some b → w ≠ [] := by rintro _ _ h rfl; cases h
  have data_written : ∀ {d : SessionData} {w : Bytes}, SessionData.write d c.fw.maxPayload.toNat = .ok w →
      w ≠ [] ∧ w.length ≤ c.fw.maxPayload.toNat ∧ SessionData.read w = .ok d := fun {d w} hw =>
    ⟨ne_of_head (written (bounded_data d) hw).1, (written (bounded_data d) hw).2,
      written_is_read (by have := c.fw.maxPayload.toNat_lt; omega) hw⟩
  by_cases hh : HandshakeFrame c frame
  · obtain ⟨w, h1, hw⟩ := hh
    have key : ∃ f : Function, f ≠ .session_data ∧ w.head? = some f.toType ∧ w.length ≤ c.fw.maxPayload.toNat := by
      rcases hw with ⟨m, hw⟩ | ⟨m, hw⟩ | ⟨m, hw⟩
      · exact ⟨_, by nofun, written (bounded_request m) hw⟩
      · exact ⟨_, by nofun, written (bounded_reply m) hw⟩
      · exact ⟨_, by nofun, written (bounded_error m) hw⟩
    obtain ⟨f, hf, h2, h3⟩ := key
    refine ⟨w, h1, ne_of_head h2, h3, .inr ?_⟩
    rw [h2]
    cases f <;> first | exact absurd rfl hf | decide
  · have h1 : frame ∈ (view s).frames := by
      refine (C16_layer_frames c E s h).subset (List.mem_filter.mpr ⟨List.mem_filterMap.mpr ⟨_, hm, rfl⟩, ?_⟩)
      simp [isSessionFrame, hh]
    obtain ⟨⟨n, e⟩, h2, h3⟩ := List.mem_filterMap.mp h1
    cases e with
    | sent f clear rest =>
      cases h3
      have h4 : SEvent.sent f clear rest ∈ (view s).session n := List.mem_filterMap.mpr ⟨_, h2, by simp⟩
      have key : ∀ n f cl rs, (n, SEvent.sent f cl rs) ∈ (viewOf (history s)).events →
          ∃ w, SessionData.write f.msg c.fw.maxPayload.toNat = .ok w ∧ f.frame = c.fw.wrap w := by
        refine history_induct (c := c) (fun h => ∀ n f cl rs, (n, SEvent.sent f cl rs) ∈ (viewOf h).events →
          ∃ w, SessionData.write f.msg c.fw.maxPayload.toNat = .ok w ∧ f.frame = c.fw.wrap w) _
          (fun pre e post => history_split h) (by intro n f cl rs hx; cases hx) ?_
        intro pre e ih hf n f cl rs hx
        rw [RefineProof.viewOf_snoc] at hx
        rcases mem_events_step hx with hx | ⟨p, rfl⟩
        · exact ih n f cl rs hx
        · exact hf.2.2.2
      obtain ⟨w, h5, h6⟩ := key n f clear rest h2
      obtain ⟨h7, h8, h9⟩ := data_written h5
      exact ⟨w, h6, h7, h8, .inl ⟨n, f, clear, rest, h4, h6, h9⟩⟩
    | _ => cases h3

/-! ### What is checked was read -/

/-- The message that was checked. -/
def checkedMsg : SEvent → Option SessionData
  | .acceptedAuth m _ => some m
  | .acceptedData m _ => some m
  | .rejected m _ => some m
  | _ => none

theorem mem_checked_step {v : View} {e : Ev} {n : Nat} {x : SEvent} {m : SessionData} (hc : checkedMsg x = some m)
    (h : (n, x) ∈ (v.step e).events) : (n, x) ∈ v.events ∨ ∃ p r, e = .act (.checked p m r) := by
  have hadd : ∀ (o : Option Nat) (y : SEvent), (n, x) ∈ (v.add o y).events → (n, x) ∈ v.events ∨ x = y := by
    intro o y hx
    cases o with
    | none => exact .inl hx
    | some k =>
      rcases List.mem_append.mp hx with hx | hx
      · exact .inl hx
      · cases List.mem_singleton.mp hx; exact .inr rfl
  cases e with
  | obs o =>
    left
    cases o with
    | established k a p =>
      rcases List.mem_append.mp h with hx | hx
      · exact hx
      · cases List.mem_singleton.mp hx; cases hc
    | startTx d b => cases b <;> exact h
    | startRx d =>
      simp only [View.step] at h
      split at h
      · exact h
      · split at h <;> exact h
    | _ => exact h
  | act a =>
    cases a with
    | sent p out clear rest =>
      rcases hadd _ _ h with h | h
      · exact .inl h
      · subst h; cases hc
    | notSent p => left; simp only [View.step] at h; split at h <;> exact h
    | dropped => exact .inl h
    | checked p msg r =>
      cases r with
      | error e =>
        cases p <;> (rcases hadd _ _ h with h | h; exact .inl h; subst h; cases hc; exact .inr ⟨_, _, rfl⟩)
      | ok y =>
        cases p <;> (rcases hadd _ _ h with h | h; exact .inl h; subst h; cases hc; exact .inr ⟨_, _, rfl⟩)
    | discarded => exact .inl h

theorem checked_was_read {c : Cfg} {E : Env} {s : Layer} (h : Observed c E s) {n : Nat} {x : SEvent} {m : SessionData}
    (hx : x ∈ (view s).session n) (hc : checkedMsg x = some m) : ∃ b, Obs.recv b ∈ s.log ∧ SessionData.read b = .ok m := by
  obtain ⟨⟨n', e'⟩, hx0, hx'⟩ := List.mem_filterMap.mp hx
  split at hx'
  · cases hx'
    rw [← observations_history s]
    refine history_induct (c := c) (fun h => (n', e') ∈ (viewOf h).events → ∃ b, Obs.recv b ∈ observations h ∧ SessionData.read b = .ok m)
      (history s) (fun pre e post => history_split h) (by intro hx; cases hx) ?_ hx0
    intro pre e ih hf hx
    have hobs : ∀ b, Obs.recv b ∈ observations pre → Obs.recv b ∈ observations (pre ++ [e]) := by
      intro b hb
      unfold observations
      rw [List.filterMap_append]
      exact List.mem_append_left _ hb
    rw [RefineProof.viewOf_snoc] at hx
    rcases mem_checked_step hc hx with hx | ⟨p, r, rfl⟩
    · obtain ⟨b, h1, h2⟩ := ih hx
      exact ⟨b, hobs b h1, h2⟩
    · obtain ⟨b, h1, h2⟩ := hf
      refine ⟨b, hobs b (List.mem_filterMap.mpr ⟨_, List.mem_of_getLast? h1, rfl⟩), h2⟩
  · cases hx'

end WireProof

open WireProof _root_.SSP21.Crypto.Spec

/-- **Authentic without assumptions.** If all that a layer has read was transmitted by another one, then every message that any
of its sessions has authenticated was made in a session of the other one. -/
theorem C68_authenticated_was_sent (c c' : Cfg) (E E' : Env) (hf : Faithful c.fw) (s s' : Layer) (h : Observed c E s)
    (h' : Observed c' E' s') (hw : Wired c s s') (n' : Nat) (m : SessionData) (hm : authenticatedHere ((view s').session n') m) :
    ∃ n f clear rest, SEvent.sent f clear rest ∈ (view s).session n ∧ f.msg = m := by
  have key : ∃ b, Obs.recv b ∈ s'.log ∧ SessionData.read b = .ok m := by
    rcases hm with ⟨p, hx⟩ | hx | ⟨p, hx⟩ <;> exact checked_was_read h' hx rfl
  obtain ⟨b, h1, h2⟩ := key
  have hb := (C03_function_code b).2.2.2 m h2
  obtain ⟨h3, ready, h4⟩ := hw b (by rintro rfl; cases hb) h1
  obtain ⟨w, h5, -, h6, h7⟩ := WireProof.transmitted h h4
  have := hf _ _ h3 h6 h5
  subst this
  rcases h7 with ⟨n, f, clear, rest, h8, -, h9⟩ | h7
  · rw [h2] at h9
    cases h9
    exact ⟨n, f, clear, rest, h8, rfl⟩
  · exact absurd hb h7

/-- So nothing is forged when the sender has had one session. -/
theorem C68_no_forgery (c c' : Cfg) (E E' : Env) (hf : Faithful c.fw) (s s' : Layer) (h : Observed c E s)
    (h' : Observed c' E' s') (hw : Wired c s s') (h1 : (view s).count = 1) (n' : Nat) :
    NoForgery ((view s).session 0) ((view s').session n') := by
  intro m hm
  obtain ⟨n, f, clear, rest, h2, h3⟩ := C68_authenticated_was_sent c c' E E' hf s s' h h' hw n' m hm
  have hn : n = 0 := by
    obtain ⟨⟨k, e⟩, h4, h5⟩ := List.mem_filterMap.mp h2
    have := layer_events h _ h4
    split at h5
    · omega
    · cases h5
  exact ⟨f, clear, rest, hn ▸ h2, h3⟩

end SSP21.Crypto

namespace SSP21.Config

namespace Spec

/-- The messages that a layer has read from the layer below. -/
def messagesRead (log : List Crypto.Obs) : List Bytes :=
  log.filterMap fun | .recv m => if m = [] then none else some m | _ => none

/-- The settings of the link layers of two stations match, for what the first sends to the second: both are disabled; or both are
enabled, and the address that the first sends to is that of the second. -/
inductive LinksMatch (st st' : Stack) : Prop
  | disabled : st.cfg.fw = frameWriter none → st'.link = none → LinksMatch st st'
  | enabled (a a' : Link.Addresses) : st.cfg.fw = frameWriter (some a) → st'.link = some (Link.Layer.new a'.source) →
      a.destination = a'.source → LinksMatch st st'

/-- The network carries what the first station has transmitted to the second. Without link layers: every message that the
second has read is one that the first has transmitted. With link layers: the frames that the first has transmitted are on their
way as one stream of bytes; a part of it has arrived at the link layer of the second, in chunks of any size; and the messages
that the second has read are what its link layer has given it. -/
def Network (st' : Stack) (s s' : Crypto.Layer) : Prop :=
  match st'.link with
  | none => ∀ m ∈ messagesRead s'.log, m ∈ Crypto.Spec.framesSent s.log
  | some l => ∃ es onTheWay v out, (∀ e ∈ es, e.calm) ∧ Link.arrivals es ++ onTheWay = (Crypto.Spec.framesSent s.log).flatten ∧
      Link.exec ⟨l, [], []⟩ es = some (v, out) ∧ messagesRead s'.log <+: Link.payloads out

end Spec

open _root_.SSP21.Config.Spec

/-- **Files with mirrored addresses** make stacks whose link layers match, in both directions. -/
theorem C68_links_of_files (w w' : World) (n n' : Yaml) (r r' q q' : Registry) (p p' : Proxy) (h : getSession w n r = .ok (p, r'))
    (h' : getSession w' n' q = .ok (p', q')) (loc remote : UInt16) (hl : Spec.Link w n loc remote)
    (hl' : Spec.Link w' n' remote loc) (b b' : Backend) (caps caps' : Caps) (st st' : Stack)
    (hs : makeStack b caps p.addresses p.stack = .ok st) (hs' : makeStack b' caps' p'.addresses p'.stack = .ok st') :
    LinksMatch st st' ∧ LinksMatch st' st := by
  obtain ⟨h1, h2⟩ := makeStack_link hs
  obtain ⟨h1', h2'⟩ := makeStack_link hs'
  rw [link_addresses h hl] at h1 h2
  rw [link_addresses h' hl'] at h1' h2'
  exact ⟨.enabled _ _ h1 h2' rfl, .enabled _ _ h1' h2 rfl⟩

theorem framesSent_mem {log : List Crypto.Obs} {f : Bytes} (h : f ∈ Crypto.Spec.framesSent log) : Crypto.Obs.lowerTx f true ∈ log := by
  obtain ⟨o, h1, h2⟩ := List.mem_filterMap.mp h
  split at h2
  · cases h2; exact h1
  · cases h2

theorem frames_are_messages {c : Crypto.Cfg} {E : Crypto.Env} {s : Crypto.Layer} (h : Crypto.Observed c E s) :
    ∃ ms : List Bytes, Crypto.Spec.framesSent s.log = ms.map c.fw.wrap ∧ ∀ m ∈ ms, m ≠ [] ∧ m.length ≤ c.fw.maxPayload.toNat := by
  have : ∀ fs : List Bytes, (∀ f ∈ fs, f ∈ Crypto.Spec.framesSent s.log) →
      ∃ ms : List Bytes, fs = ms.map c.fw.wrap ∧ ∀ m ∈ ms, m ≠ [] ∧ m.length ≤ c.fw.maxPayload.toNat := by
    intro fs
    induction fs with
    | nil => exact fun _ => ⟨[], rfl, by simp⟩
    | cons f fs ih =>
      intro hf
      obtain ⟨ms, h1, h2⟩ := ih fun f hx => hf f (List.mem_cons_of_mem _ hx)
      obtain ⟨m, h3, h4, h5, -⟩ := Crypto.WireProof.transmitted h (framesSent_mem (hf f List.mem_cons_self))
      exact ⟨m :: ms, by rw [h1, h3]; rfl, by simp [h4, h5]; exact fun m hm => h2 m hm⟩
  exact this _ fun _ h => h

theorem cross {st : Stack} {a a' : Link.Addresses} (hfw : st.cfg.fw = frameWriter (some a))
    (ha : a.destination = a'.source) {ms : List Bytes} (h2 : ∀ m ∈ ms, m ≠ [] ∧ m.length ≤ st.cfg.fw.maxPayload.toNat)
    (es : List Link.Ev) (hc : ∀ e ∈ es, e.calm) (onTheWay : Bytes)
    (he : Link.arrivals es ++ onTheWay = (ms.map st.cfg.fw.wrap).flatten) :
    ∃ v out, Link.exec ⟨Link.Layer.new a'.source, [], []⟩ es = some (v, out) ∧ Link.payloads out <+: ms ∧
      (onTheWay = [] → ∃ v' out', Link.exec v (List.replicate ms.length .upperRead) = some (v', out') ∧
        Link.payloads out ++ Link.payloads out' = ms) := by
  rw [hfw] at h2
  have h3 : ∀ m ∈ ms, m ≠ [] ∧ m.length ≤ 4092 := h2
  have hmap : ms.map st.cfg.fw.wrap = (ms.map fun m => (⟨a.destination, a.source, m⟩ : Link.Frame)).map fun f =>
      SSP21.Spec.frame f.destination f.source f.payload := by
    rw [List.map_map]
    refine List.map_congr_left fun m hx => ?_
    rw [hfw]
    exact linkWriter_wrap a m (h3 m hx).2
  have := Link.C14_delivered_partial a'.source (ms.map fun m => ⟨a.destination, a.source, m⟩)
    (fun f hf => by obtain ⟨m, hm, rfl⟩ := List.mem_map.mp hf; exact (h3 m hm).2) es hc onTheWay (by rw [he, hmap])
  have hall : ((ms.map fun m => (⟨a.destination, a.source, m⟩ : Link.Frame)).takeWhile fun f => f.destination = a'.source ∧ f.payload ≠ []) =
      ms.map fun m => ⟨a.destination, a.source, m⟩ := by
    have : ∀ l : List Bytes, (∀ m ∈ l, m ≠ []) → ((l.map fun m => (⟨a.destination, a.source, m⟩ : Link.Frame)).takeWhile fun f =>
        f.destination = a'.source ∧ f.payload ≠ []) = l.map fun m => ⟨a.destination, a.source, m⟩ := by
      intro l hl
      induction l with
      | nil => rfl
      | cons m l ih =>
        rw [List.map_cons, List.takeWhile_cons, if_pos (by simp [ha, hl m]), ih fun m hm => hl m (List.mem_cons_of_mem _ hm)]
    exact this ms fun m hm => (h3 m hm).1
  have e : (ms.map fun m => (⟨a.destination, a.source, m⟩ : Link.Frame)).map (·.payload) = ms := by
    rw [List.map_map]
    exact List.map_id _
  dsimp only at this
  rw [hall, e, List.length_map] at this
  exact this

/-- **Messages cross the link.** What a station transmits are messages in frames; when the bytes of these frames have arrived in part,
in any chunks, the link layer of a station with the right address has given its crypto layer the first of these messages, in order
and unchanged; when all have arrived, as many reads as there are messages yield the rest of them. -/
theorem C68_messages_cross (st st' : Stack) (a a' : Link.Addresses) (hfw : st.cfg.fw = frameWriter (some a))
    (ha : a.destination = a'.source) (hl : st'.link = some (Link.Layer.new a'.source))
    (E : Crypto.Env) (s : Crypto.Layer) (h : Crypto.Observed st.cfg E s) (es : List Link.Ev) (hc : ∀ e ∈ es, e.calm) (onTheWay : Bytes)
    (he : Link.arrivals es ++ onTheWay = (Crypto.Spec.framesSent s.log).flatten) :
    ∃ ms l v out, Crypto.Spec.framesSent s.log = ms.map st.cfg.fw.wrap ∧ st'.link = some l ∧
      Link.exec ⟨l, [], []⟩ es = some (v, out) ∧ Link.payloads out <+: ms ∧
      (onTheWay = [] → ∃ v' out', Link.exec v (List.replicate ms.length .upperRead) = some (v', out') ∧
        Link.payloads out ++ Link.payloads out' = ms) := by
  obtain ⟨ms, h1, h2⟩ := frames_are_messages h
  obtain ⟨v, out, g1, g2, g3⟩ := cross hfw ha h2 es hc onTheWay (by rw [he, h1])
  exact ⟨ms, _, v, out, h1, hl, g1, g2, g3⟩

/-- Over such a network, a station reads only what its peer has transmitted. -/
theorem C68_network_wired (st st' : Stack) (hm : LinksMatch st st') (E : Crypto.Env) (s s' : Crypto.Layer)
    (h : Crypto.Observed st.cfg E s) (hn : Network st' s s') : Crypto.Spec.Wired st.cfg s s' := by
  have mem : ∀ m, m ≠ [] → Crypto.Obs.recv m ∈ s'.log → m ∈ messagesRead s'.log := fun m h1 h2 =>
    List.mem_filterMap.mpr ⟨_, h2, by simp [h1]⟩
  obtain ⟨ms, g1, g2⟩ := frames_are_messages h
  have sent : ∀ m ∈ ms, m.length ≤ st.cfg.fw.maxPayload.toNat ∧ ∃ ready, Crypto.Obs.lowerTx (st.cfg.fw.wrap m) ready ∈ s.log :=
    fun m hm => ⟨(g2 m hm).2, true, framesSent_mem (by rw [g1]; exact List.mem_map.mpr ⟨m, hm, rfl⟩)⟩
  intro m h1 h2
  unfold Network at hn
  cases hm with
  | disabled hfw hl =>
    rw [hl] at hn
    have h3 := hn m (mem m h1 h2)
    rw [g1, hfw] at h3
    obtain ⟨m', h4, h5⟩ := List.mem_map.mp h3
    have h5 : m' = m := h5
    exact sent m (h5 ▸ h4)
  | enabled a a' hfw hl ha =>
    rw [hl] at hn
    obtain ⟨es, onTheWay, v, out, n1, n2, n3, n4⟩ := hn
    obtain ⟨v', out', k3, k4, -⟩ := cross hfw ha g2 es n1 onTheWay (by rw [n2, g1])
    rw [n3] at k3
    cases k3
    exact sent m (k4.subset (n4.subset (mem m h1 h2)))

open Crypto.Bridge (State Reachable)
open Crypto.Bridge.Spec (Outside)
open Crypto.Spec (view SameHandshake history)

/-- **From socket to socket, to the responder.** Two stations with matching files, connected by a network that carries what the
initiator transmits to the responder. What the responder has written to the socket of its application is a prefix of what the
initiator has read from its own, if the first session of both was made by a handshake between the two. (No assumption is made
about the cryptography but that what is encrypted is decrypted.) -/
theorem C68_bytes_to_responder (b : Backend) (st st' : Stack) (kind kind' : Asio.Transport) (E E' : Crypto.Env)
    (hp : Pair b st st' E E') (hm : LinksMatch st st') (x x' : State) (h : Reachable st.cfg kind E x)
    (h' : Reachable st'.cfg kind' E' x') (s s' : Crypto.Layer) (hs : Outside x s) (hs' : Outside x' s') (hn : Network st' s s')
    (h1 : (view s).count = 1) (h1' : (view s').count = 1) (hx : SameHandshake st.cfg st'.cfg s s' 0 0)
    (hc : Crypto.Obs.lowerClose ∉ s.log) (hc' : Crypto.Obs.lowerClose ∉ s'.log)
    (hl : Crypto.Spec.Ev.act (.notSent false) ∉ history s') : x'.rawOut.flatten <+: x.rawIn.flatten := by
  obtain ⟨limits, hpe, -⟩ := pair_peers hp
  obtain ⟨rh, -, -, hf, -⟩ := hpe.responder
  obtain ⟨a1, -, -⟩ := Crypto.Bridge.Proof.outside_observed hp.silent h hs
  obtain ⟨b1, -, -⟩ := Crypto.Bridge.Proof.outside_observed hp.silent' h' hs'
  exact C54_bytes_to_responder b st st' kind kind' E E' hp x x' h h' s s' hs hs' h1 h1' hx
    (Crypto.C68_no_forgery _ _ _ _ hf s s' a1 b1 (C68_network_wired st st' hm _ s s' a1 hn) h1 0) hc hc' hl

/-- **To the initiator.** -/
theorem C68_bytes_to_initiator (b : Backend) (st st' : Stack) (kind kind' : Asio.Transport) (E E' : Crypto.Env)
    (hp : Pair b st st' E E') (hm : LinksMatch st' st) (x x' : State) (h : Reachable st.cfg kind E x)
    (h' : Reachable st'.cfg kind' E' x') (s s' : Crypto.Layer) (hs : Outside x s) (hs' : Outside x' s') (hn : Network st s' s)
    (h1 : (view s).count = 1) (h1' : (view s').count = 1) (hx : SameHandshake st.cfg st'.cfg s s' 0 0)
    (hc : Crypto.Obs.lowerClose ∉ s.log) (hc' : Crypto.Obs.lowerClose ∉ s'.log) : x.rawOut.flatten <+: x'.rawIn.flatten := by
  obtain ⟨limits, hpe, -⟩ := pair_peers hp
  obtain ⟨rh, -, -, -, hf⟩ := hpe.responder
  obtain ⟨a1, -, -⟩ := Crypto.Bridge.Proof.outside_observed hp.silent h hs
  obtain ⟨b1, -, -⟩ := Crypto.Bridge.Proof.outside_observed hp.silent' h' hs'
  exact C54_bytes_to_initiator b st st' kind kind' E E' hp x x' h h' s s' hs hs' h1 h1' hx
    (Crypto.C68_no_forgery _ _ _ _ hf s' s b1 a1 (C68_network_wired st' st hm _ s' s b1 hn) h1' 0) hc hc'

/-- **Everything**: if moreover the initiator has nothing left to send, the responder has authenticated its peer and as many
messages as the initiator has made, and nothing is unread, then the responder has written exactly what the initiator has read. -/
theorem C68_everything_to_responder (b : Backend) (st st' : Stack) (kind kind' : Asio.Transport) (E E' : Crypto.Env)
    (hp : Pair b st st' E E') (hm : LinksMatch st st') (x x' : State) (h : Reachable st.cfg kind E x)
    (h' : Reachable st'.cfg kind' E' x') (s s' : Crypto.Layer) (hs : Outside x s) (hs' : Outside x' s') (hn : Network st' s s')
    (h1 : (view s).count = 1) (h1' : (view s').count = 1) (hx : SameHandshake st.cfg st'.cfg s s' 0 0)
    (hc : Crypto.Obs.lowerClose ∉ s.log) (hc' : Crypto.Spec.Ev.obs .lowerClose ∉ history s')
    (hl : Crypto.Spec.Ev.act (.notSent false) ∉ history s') (hauth : authNonces ((view s').session 0) ≠ [])
    (hall : ((view s).sentIn 0).length ≤ 1 + (consumedNonces ((view s').session 0)).length)
    (ho : (view s).outstanding = []) (hu : (view s').unread = none) : x'.rawOut.flatten = x.rawIn.flatten := by
  obtain ⟨limits, hpe, -⟩ := pair_peers hp
  obtain ⟨rh, -, -, hf, -⟩ := hpe.responder
  obtain ⟨a1, -, -⟩ := Crypto.Bridge.Proof.outside_observed hp.silent h hs
  obtain ⟨b1, -, -⟩ := Crypto.Bridge.Proof.outside_observed hp.silent' h' hs'
  exact C54_everything_to_responder b st st' kind kind' E E' hp x x' h h' s s' hs hs' h1 h1' hx
    (Crypto.C68_no_forgery _ _ _ _ hf s s' a1 b1 (C68_network_wired st st' hm _ s s' a1 hn) h1 0) hc hc' hl hauth hall ho hu

theorem C68_everything_to_initiator (b : Backend) (st st' : Stack) (kind kind' : Asio.Transport) (E E' : Crypto.Env)
    (hp : Pair b st st' E E') (hm : LinksMatch st' st) (x x' : State) (h : Reachable st.cfg kind E x)
    (h' : Reachable st'.cfg kind' E' x') (s s' : Crypto.Layer) (hs : Outside x s) (hs' : Outside x' s') (hn : Network st s' s)
    (h1 : (view s).count = 1) (h1' : (view s').count = 1) (hx : SameHandshake st.cfg st'.cfg s s' 0 0)
    (hc : Crypto.Spec.Ev.obs .lowerClose ∉ history s) (hc' : Crypto.Obs.lowerClose ∉ s'.log)
    (hauth : authNonces ((view s).session 0) ≠ [])
    (hall : ((view s').sentIn 0).length ≤ 1 + (consumedNonces ((view s).session 0)).length)
    (ho : (view s').outstanding = []) (hu : (view s).unread = none) : x.rawOut.flatten = x'.rawIn.flatten := by
  obtain ⟨limits, hpe, -⟩ := pair_peers hp
  obtain ⟨rh, -, -, -, hf⟩ := hpe.responder
  obtain ⟨a1, -, -⟩ := Crypto.Bridge.Proof.outside_observed hp.silent h hs
  obtain ⟨b1, -, -⟩ := Crypto.Bridge.Proof.outside_observed hp.silent' h' hs'
  exact C54_everything_to_initiator b st st' kind kind' E E' hp x x' h h' s s' hs hs' h1 h1' hx
    (Crypto.C68_no_forgery _ _ _ _ hf s' s b1 a1 (C68_network_wired st' st hm _ s' s b1 hn) h1' 0) hc hc' hauth hall ho hu

/-! ### Two stations and a network -/

namespace StationExample
open Crypto (EnvB)
open Crypto.LayerExample (ini res hs request reply auth1 data1)
open Crypto.Bridge.Example (iniOut resIn)
open Crypto.Bridge.Exec (final idle?)
open Crypto.LayerExample (summary exchanged_of closesBelow unanswered)

set_option maxRecDepth 1000000 in
set_option synthInstance.maxSize 2000 in
/-- Without link layers: [1, 2, 3] was read from the socket of the first and written to the socket of the second. All hypotheses of
`C68_bytes_to_responder` are met. -/
example : ∃ x x' s s', Pair Toy.strong first second (EnvB.tame.only (· = hs)) EnvB.tame.env ∧ LinksMatch first second ∧
    Reachable first.cfg .udp (EnvB.tame.only (· = hs)) x ∧ Reachable second.cfg .udp EnvB.tame.env x' ∧ Outside x s ∧ Outside x' s' ∧
    Network second s s' ∧ (messagesRead s'.log).length = 3 ∧
    (view s).count = 1 ∧ (view s').count = 1 ∧ SameHandshake first.cfg second.cfg s s' 0 0 ∧
    Crypto.Obs.lowerClose ∉ s.log ∧ Crypto.Obs.lowerClose ∉ s'.log ∧
    Crypto.Spec.Ev.act (.notSent false) ∉ history s' ∧ x.rawIn = [[1, 2, 3]] ∧ x'.rawOut = [[1, 2, 3]] := by
  obtain ⟨x, s, h1, h1a, h2⟩ := Crypto.Bridge.Exec.exists_only Crypto.LayerExample.configured (c := first.cfg) (kind := .udp)
    (E := .tame) (h := hs) (ready := true) (script := iniOut)
    (f := fun x s => (summary s, (view s).count, s.log.any closesBelow, x.rawIn, Crypto.Spec.framesSent s.log))
    (a := (some (some request, some reply, ((final first.cfg .udp .tame hs true iniOut).bind fun x => (idle? x).bind fun s =>
      (summary s).bind (·.2.2.1)), []), 1, false, [[1, 2, 3]], [request, auth1, data1])) rfl
  obtain ⟨x', s', h1', h1b, h2'⟩ := Crypto.Bridge.Exec.exists_of_map Crypto.LayerExample.configured (c := second.cfg) (kind := .udp)
    (E := .tame) (h := hs) (ready := true) (script := resIn)
    (f := fun x s => (summary s, (view s).count, s.log.any closesBelow, (history s).any unanswered, x.rawOut, messagesRead s.log))
    (a := (some (none, some request, some reply, []), 1, false, false, [[1, 2, 3]], [request, auth1, data1])) rfl
  simp only [Prod.mk.injEq] at h2 h2'
  obtain ⟨a1, a2, a4, a5, a6⟩ := h2
  obtain ⟨b1, b2, b4, b5, b6, b7⟩ := h2'
  refine ⟨x, x', s, s', pair, .disabled rfl rfl, h1, h1', .inl h1a, .inl h1b, ?_, by rw [b7]; rfl, a2, b2,
    exchanged_of rfl rfl a1 b1 (by decide +kernel) (by decide +kernel) (by simp), fun hx => ?_, fun hx => ?_,
    fun hx => ?_, a5, b6⟩
  · show ∀ m ∈ messagesRead s'.log, m ∈ Crypto.Spec.framesSent s.log
    rw [b7, a6]
    exact fun m hm => hm
  · rw [List.any_eq_false] at a4
    exact a4 _ hx rfl
  · rw [List.any_eq_false] at b4
    exact b4 _ hx rfl
  · rw [List.any_eq_false] at b5
    exact b5 _ hx rfl

/-- The same stations with link layers. -/
def firstL : Stack := ⟨{ first.cfg with fw := frameWriter (some ⟨10, 1⟩) }, some hs, some (Link.Layer.new 1)⟩
def secondL : Stack := ⟨{ second.cfg with fw := frameWriter (some ⟨1, 10⟩) }, none, some (Link.Layer.new 10)⟩

set_option maxRecDepth 1000000 in
set_option synthInstance.maxSize 2000 in
/-- With link layers: the frames of the three messages of the first station have arrived in one chunk, its peer has read all. All
hypotheses of `C68_network_wired` (with those of `C68_messages_cross`) are met. -/
example : ∃ s s', LinksMatch firstL secondL ∧ Crypto.Observed firstL.cfg (Crypto.Bridge.Proof.env firstL.cfg (EnvB.tame.only (· = hs))) s ∧
    Crypto.Observed secondL.cfg (Crypto.Bridge.Proof.env secondL.cfg EnvB.tame.env) s' ∧ Network secondL s s' ∧
    messagesRead s'.log = [request, auth1, data1] := by
  obtain ⟨x, s, h1, h1a, h2⟩ := Crypto.Bridge.Exec.exists_only Crypto.LayerExample.configured (c := firstL.cfg) (kind := .udp)
    (E := .tame) (h := hs) (ready := true) (script := iniOut)
    (f := fun _ s => Crypto.Spec.framesSent s.log)
    (a := [request, auth1, data1].map firstL.cfg.fw.wrap) rfl
  obtain ⟨x', s', h1', h1b, h2'⟩ := Crypto.Bridge.Exec.exists_of_map Crypto.LayerExample.configured (c := secondL.cfg) (kind := .udp)
    (E := .tame) (h := hs) (ready := true) (script := resIn)
    (f := fun _ s => messagesRead s.log)
    (a := [request, auth1, data1]) rfl
  obtain ⟨a1, -, -⟩ := Crypto.Bridge.Proof.outside_observed pair.silent h1 (.inl h1a)
  obtain ⟨b1, -, -⟩ := Crypto.Bridge.Proof.outside_observed pair.silent' h1' (.inl h1b)
  refine ⟨s, s', .enabled ⟨10, 1⟩ ⟨1, 10⟩ rfl rfl rfl, a1, b1, ?_, h2'⟩
  have hm : ∀ m ∈ [request, auth1, data1], m ≠ [] ∧ m.length ≤ firstL.cfg.fw.maxPayload.toNat := by decide +kernel
  let bytes := ([request, auth1, data1].map firstL.cfg.fw.wrap).flatten
  have hcalm : ∀ e ∈ [Link.Ev.lowerOpen, .arrive bytes, .lowerRxReady], e.calm := by
    intro e he
    simp only [List.mem_cons, List.not_mem_nil, or_false] at he
    rcases he with rfl | rfl | rfl
    · trivial
    · show bytes ≠ []
      intro hb
      have h1 : ([request, auth1, data1].map firstL.cfg.fw.wrap).flatten = [] := hb
      rw [List.flatten_eq_nil_iff] at h1
      have h2 := h1 (firstL.cfg.fw.wrap request) (List.mem_map.mpr ⟨_, List.mem_cons_self, rfl⟩)
      have h3 : firstL.cfg.fw.wrap request = SSP21.Spec.frame 10 1 request := linkWriter_wrap ⟨10, 1⟩ request (hm request List.mem_cons_self).2
      rw [h3] at h2
      simp [SSP21.Spec.frame, SSP21.Spec.frameHeader] at h2
    · trivial
  obtain ⟨v, out, g1, -, g3⟩ := cross (st := firstL) (a := ⟨10, 1⟩) (a' := ⟨1, 10⟩) rfl rfl hm
    [.lowerOpen, .arrive bytes, .lowerRxReady] hcalm [] (by simp [Link.arrivals, bytes])
  obtain ⟨v', out', g4, g5⟩ := g3 rfl
  refine ⟨_, [], v', out ++ out', ?_, ?_, Link.exec_append g1 g4, ?_⟩
  · intro e he
    rcases List.mem_append.mp he with he | he
    · exact hcalm e he
    · rw [List.eq_of_mem_replicate he]; trivial
  · rw [h2]
    simp [Link.arrivals, bytes, List.replicate]
  · rw [h2', Link.payloads_append, g5]
    exact List.prefix_rfl

end StationExample

end SSP21.Config
