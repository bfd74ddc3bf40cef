import Verif.Memory
/-
  C63: what handshakes and sessions leave behind in memory.
-/
namespace SSP21.Memory

/-! ## Specification -/

namespace Spec

/-- What was written at an address is gone: it is as it was before the program began, or it has been overwritten with
zeros. -/
def Blank (m0 m : Mem) (a : Nat) : Prop := (m.cell a).bytes = (m0.cell a).bytes ∨ ∀ x ∈ (m.cell a).bytes, x = 0

/-- At an address there is `p`, and behind it what was there before the program began. -/
def Holds (m0 m : Mem) (a : Nat) (p : Bytes) : Prop := (m.cell a).bytes = p ++ (m0.cell a).bytes.drop p.length

/-- The two keys of a session. -/
def keysOf (s : SessionMem) : List Nat := [s.rx, s.tx]

/-- The long-term key of a station. -/
def longTerm : RoleMem → List Nat
  | .responder (.sharedSecret k) => [k]
  | .responder .qkd => []
  | .responder (.publicKey k _) => [k]
  | .initiator (.sharedSecret k _ _) => [k]
  | .initiator (.qkd _ _) => []
  | .initiator (.publicKey k _ _ _ _) => [k]

/-- What the handshake of an initiator keeps between calls: nonce, quantum key or ephemeral keys, and a hash of
messages. -/
def members : RoleMem → List Nat
  | .responder _ => []
  | .initiator (.sharedSecret _ n h) => [n, h]
  | .initiator (.qkd none h) => [h]
  | .initiator (.qkd (some k) h) => [k, h]
  | .initiator (.publicKey _ _ pub priv h) => [pub, priv, h]

/-- What a request makes public: the nonce of the responder, or its ephemeral public key. -/
def published (b : Backend) (role : RoleMem) (rnd : Bytes) : Bytes :=
  match role with
  | .responder (.publicKey _ _) => b.dhPublic rnd
  | _ => rnd

/-- ... in a sequence of events. -/
def Published (b : Backend) (role : RoleMem) (events : List Event) (p : Bytes) : Prop :=
  ∃ rnd msg raw, Event.request rnd msg raw ∈ events ∧ p = published b role rnd

/-- Where secrets are meant to be: the long-term key, what an initiator keeps, the unused quantum keys and the keys of
the valid sessions. -/
def kept (st : Station) : List Nat :=
  longTerm st.role ++ members st.role ++ st.store.map Prod.snd ++
    (if st.active.valid then keysOf st.active else []) ++ (if st.pending.valid then keysOf st.pending else [])

/-- A station from its construction through a sequence of events. -/
def history (g : Setting) (kind : Kind) (contents payload : Bytes) (events : List Event) : Op Station := do
  let st ← start kind contents payload
  st.run g events

/-- The responders. -/
def isResponder : RoleMem → Prop
  | .responder _ => True
  | .initiator _ => False

/-- What an initiator keeps besides the hash: nonce, quantum key, ephemeral keys. -/
def material : RoleMem → List Nat
  | .responder _ => []
  | .initiator (.sharedSecret _ n _) => [n]
  | .initiator (.qkd none _) => []
  | .initiator (.qkd (some k) _) => [k]
  | .initiator (.publicKey _ _ pub priv _) => [pub, priv]

end Spec

open Spec

namespace MemoryProof

/-! ### What a program does to memory -/

/-- From `m` to `m'`: of the old cells only those in `W` change their contents, and none its kind; new cells have been
destroyed and hold zeros or something in `P`; the rest is untouched. -/
structure Frame (W : Nat → Prop) (P : Bytes → Prop) (m m' : Mem) : Prop where
  le : m.next ≤ m'.next
  same : ∀ a, a < m.next → ¬ W a → m'.cell a = m.cell a
  kind : ∀ a, a < m.next → (m'.cell a).wipes = (m.cell a).wipes ∧ (m'.cell a).owners = (m.cell a).owners
  free : ∀ a, m'.next ≤ a → m'.cell a = m.cell a
  gone : ∀ a, m.next ≤ a → a < m'.next →
    (∀ x ∈ (m'.cell a).bytes, x = 0) ∨ ∃ p, P p ∧ (m'.cell a).bytes = p ++ (m.cell a).bytes.drop p.length

theorem Frame.refl (W : Nat → Prop) (P : Bytes → Prop) (m : Mem) : Frame W P m m :=
  ⟨Nat.le_refl _, fun _ _ _ => rfl, fun _ _ => ⟨rfl, rfl⟩, fun _ _ => rfl, fun a h1 h2 => by omega⟩

theorem Frame.trans {W : Nat → Prop} {P : Bytes → Prop} {m m1 m2 : Mem} (hW : ∀ a, W a → a < m.next)
    (h1 : Frame W P m m1) (h2 : Frame W P m1 m2) : Frame W P m m2 := by
  refine ⟨Nat.le_trans h1.le h2.le, fun a ha hw => ?_, fun a ha => ?_, fun a ha => ?_, fun a ha hb => ?_⟩
  · rw [h2.same a (Nat.lt_of_lt_of_le ha h1.le) hw, h1.same a ha hw]
  · obtain ⟨x1, y1⟩ := h1.kind a ha
    obtain ⟨x2, y2⟩ := h2.kind a (Nat.lt_of_lt_of_le ha h1.le)
    exact ⟨x2.trans x1, y2.trans y1⟩
  · rw [h2.free a ha, h1.free a (Nat.le_trans h2.le ha)]
  · by_cases hc : a < m1.next
    · have : m2.cell a = m1.cell a := h2.same a hc (fun hw => by have := hW a hw; omega)
      rw [this]
      exact h1.gone a ha hc
    · have e : m1.cell a = m.cell a := h1.free a (by omega)
      have := h2.gone a (by omega) hb
      rwa [e] at this

theorem Frame.mono {W V : Nat → Prop} {P : Bytes → Prop} {m m' : Mem} (h : Frame W P m m') (hW : ∀ a, W a → V a) :
    Frame V P m m' :=
  ⟨h.le, fun a ha hv => h.same a ha (fun hw => hv (hW a hw)), h.kind, h.free, h.gone⟩

/-- The same for a program; what it may change can depend on its result. -/
def Frames {α : Type} (W : α → Nat → Prop) (P : Bytes → Prop) (f : Op α) : Prop :=
  ∀ m, (∀ r a, W r a → a < m.next) → Frame (W (f m).1) P m (f m).2

variable {α β : Type} {W : α → Nat → Prop} {V : β → Nat → Prop} {P : Bytes → Prop}

theorem Frames.pure (x : α) : Frames W P (Pure.pure x : Op α) := fun m _ => Frame.refl _ _ m

theorem Frames.bind {f : Op α} {g : α → Op β} {A : Nat → Prop} (hf : Frames (fun _ => A) P f)
    (hA : ∀ r a, A a → V r a) (hg : ∀ x, Frames V P (g x)) : Frames V P (f >>= g) := by
  intro m hV
  have h1 : Frame A P m (f m).2 := hf m (fun _ a ha => hV (g (f m).1 (f m).2).1 a (hA _ a ha))
  have h2 := hg (f m).1 (f m).2 (fun r a ha => Nat.lt_of_lt_of_le (hV r a ha) h1.le)
  exact Frame.trans (fun a ha => hV _ a ha) (h1.mono (hA _)) h2

theorem Frames.mono {f : Op α} {V : α → Nat → Prop} (h : Frames W P f) (hW : ∀ r a, W r a → V r a) : Frames V P f :=
  fun m hV => (h m (fun r a ha => hV r a (hW r a ha))).mono (hW _)

theorem Frames.andThen {f : Op α} {g : α → Op β} {A : Nat → Prop} (hf : Frames (fun _ => A) P f)
    (hg : ∀ x, Frames (fun _ => A) P (g x)) : Frames (fun _ => A) P (f >>= g) :=
  Frames.bind hf (fun _ _ h => h) hg

theorem Frames.quiet {f : Op α} (h : ∀ m, (f m).2 = m) : Frames W P f := fun m _ => by rw [h m]; exact Frame.refl _ _ m

theorem Frames.read (a : Nat) {W : Bytes → Nat → Prop} : Frames W P (read a) := Frames.quiet fun _ => rfl
theorem Frames.lengthOf (a : Nat) {W : Nat → Nat → Prop} : Frames W P (lengthOf a) := Frames.quiet fun _ => rfl

theorem frame_set {W : Nat → Prop} {m : Mem} {a : Nat} {c : Cell} (ha : W a) (hb : a < m.next)
    (h1 : c.wipes = (m.cell a).wipes) (h2 : c.owners = (m.cell a).owners) : Frame W P m (m.set a c) := by
  refine ⟨Nat.le_refl _, fun x _ hx => ?_, fun x _ => ?_, fun x hx => ?_, fun x h3 h4 => absurd h4 (by simp only [Mem.set]; omega)⟩
  · have : x ≠ a := fun e => hx (e ▸ ha)
    simp [Mem.set, this]
  · by_cases e : x = a
    · subst e; simp [Mem.set, h1, h2]
    · simp [Mem.set, e]
  · have : x ≠ a := by simp only [Mem.set] at hx; omega
    simp [Mem.set, this]

theorem Frames.put (a : Nat) (bs : Bytes) {W : Unit → Nat → Prop} (h : ∀ r, W r a) : Frames W P (put a bs) :=
  fun _ hm => frame_set (h _) (hm () a (h _)) rfl rfl
theorem Frames.setLength (a n : Nat) {W : Unit → Nat → Prop} (h : ∀ r, W r a) : Frames W P (setLength a n) :=
  fun _ hm => frame_set (h _) (hm () a (h _)) rfl rfl
theorem Frames.copy (a s : Nat) {W : Unit → Nat → Prop} (h : ∀ r, W r a) : Frames W P (copy a s) :=
  fun _ hm => frame_set (h _) (hm () a (h _)) rfl rfl
theorem Frames.zero (a : Nat) {W : Unit → Nat → Prop} (h : ∀ r, W r a) : Frames W P (zero a) :=
  fun _ hm => frame_set (h _) (hm () a (h _)) rfl rfl

theorem mem_zeros {bs : Bytes} {x : UInt8} (h : x ∈ zeros bs) : x = 0 := by
  obtain ⟨_, _, rfl⟩ := List.mem_map.mp h
  rfl

theorem withLocal_run (wipes : Bool) (body : Nat → Op α) (m : Mem) :
    withLocal wipes body m = ((body m.next (new wipes m).2).1, (release m.next (body m.next (new wipes m).2).2).2) := rfl

/-- A local variable whose destructor overwrites it leaves nothing. -/
theorem Frames.local_ {body : Nat → Op α} (h : ∀ a, Frames (fun r x => W r x ∨ x = a) P (body a)) :
    Frames W P (withLocal true body) := by
  intro m hW
  rw [withLocal_run]
  generalize hm1 : (new true m).2 = m1
  have e1 : m1.next = m.next + 1 := by subst hm1; rfl
  have e2 : ∀ x, x ≠ m.next → m1.cell x = m.cell x := by subst hm1; intro x hx; simp [new, Mem.set, hx]
  have e3 : (m1.cell m.next).wipes = true ∧ (m1.cell m.next).owners = 1 := by subst hm1; simp [new, Mem.set]
  have e4 : (m1.cell m.next).bytes = (m.cell m.next).bytes := by subst hm1; simp [new, Mem.set]
  have hb := h m.next m1 (fun r a ha => by
    rcases ha with ha | rfl
    · have := hW r a ha; omega
    · omega)
  generalize body m.next m1 = r at hb
  obtain ⟨k1, k2⟩ := hb.kind m.next (by omega)
  have kk : (r.2.cell m.next).wipes = true ∧ (r.2.cell m.next).owners = 1 := ⟨k1.trans e3.1, k2.trans e3.2⟩
  have hle := hb.le
  refine ⟨?_, fun a ha hw => ?_, fun a ha => ?_, fun a ha => ?_, fun a ha hx => ?_⟩
  · show m.next ≤ r.2.next; omega
  · have hne : a ≠ m.next := by omega
    simp only [release, Mem.set, hne, if_false]
    rw [hb.same a (by omega) (by rintro (h | h); exacts [hw h, hne h]), e2 a hne]
  · have hne : a ≠ m.next := by omega
    simp only [release, Mem.set, hne, if_false]
    rw [← e2 a hne]
    exact hb.kind a (by omega)
  · replace ha : r.2.next ≤ a := ha
    have hne : a ≠ m.next := by omega
    simp only [release, Mem.set, hne, if_false]
    rw [hb.free a ha, e2 a hne]
  · replace hx : a < r.2.next := hx
    by_cases hne : a = m.next
    · subst hne
      left
      simp only [release, Mem.set, if_true, kk.1, kk.2, Nat.le_refl, and_self, decide_true]
      exact fun x hx => mem_zeros hx
    · simp only [release, Mem.set, hne, if_false]
      have := hb.gone a (by omega) hx
      rwa [e2 a hne] at this

/-- A local variable without such a destructor leaves what was written into it. -/
theorem Frames.plain {body : Nat → Op α} {p : Bytes} (h : ∀ a, Frames (fun r x => W r x ∨ x = a) P (body a)) (hp : P p)
    (hb : ∀ a m, (∀ r x, W r x → x < a) → a < m.next → ((body a m).2.cell a).bytes = p ++ (m.cell a).bytes.drop p.length) :
    Frames W P (withLocal false body) := by
  intro m hW
  rw [withLocal_run]
  generalize hm1 : (new false m).2 = m1
  have e1 : m1.next = m.next + 1 := by subst hm1; rfl
  have e2 : ∀ x, x ≠ m.next → m1.cell x = m.cell x := by subst hm1; intro x hx; simp [new, Mem.set, hx]
  have e3 : (m1.cell m.next).wipes = false ∧ (m1.cell m.next).owners = 1 := by subst hm1; simp [new, Mem.set]
  have e4 : (m1.cell m.next).bytes = (m.cell m.next).bytes := by subst hm1; simp [new, Mem.set]
  have hc := hb m.next m1 hW (by omega)
  have hb := h m.next m1 (fun r a ha => by
    rcases ha with ha | rfl
    · have := hW r a ha; omega
    · omega)
  generalize body m.next m1 = r at hb hc
  obtain ⟨k1, k2⟩ := hb.kind m.next (by omega)
  have kk : (r.2.cell m.next).wipes = false := k1.trans e3.1
  have hle := hb.le
  refine ⟨?_, fun a ha hw => ?_, fun a ha => ?_, fun a ha => ?_, fun a ha hx => ?_⟩
  · show m.next ≤ r.2.next; omega
  · have hne : a ≠ m.next := by omega
    simp only [release, Mem.set, hne, if_false]
    rw [hb.same a (by omega) (by rintro (h | h); exacts [hw h, hne h]), e2 a hne]
  · have hne : a ≠ m.next := by omega
    simp only [release, Mem.set, hne, if_false]
    rw [← e2 a hne]
    exact hb.kind a (by omega)
  · replace ha : r.2.next ≤ a := ha
    have hne : a ≠ m.next := by omega
    simp only [release, Mem.set, hne, if_false]
    rw [hb.free a ha, e2 a hne]
  · replace hx : a < r.2.next := hx
    by_cases hne : a = m.next
    · subst hne
      right
      refine ⟨p, hp, ?_⟩
      simp only [release, Mem.set, if_true, kk, Bool.false_eq_true, and_false, if_false]
      rw [hc, e4]
    · simp only [release, Mem.set, hne, if_false]
      have := hb.gone a (by omega) hx
      rwa [e2 a hne] at this

/-! ### The functions -/

theorem frames_hash {W : Unit → Nat → Prop} (b : Backend) (data : Bytes) (dst : Nat) (h : ∀ r, W r dst) : Frames W P (hashInto b data dst) :=
  Frames.bind (A := fun x => x = dst) (Frames.put _ _ fun _ => rfl) (fun r a e => e ▸ h r) fun _ => Frames.setLength _ _ h

theorem frames_hmac {W : Unit → Nat → Prop} (b : Backend) (key data : Bytes) (dst : Nat) (h : ∀ r, W r dst) : Frames W P (hmacInto b key data dst) :=
  Frames.bind (A := fun x => x = dst) (Frames.put _ _ fun _ => rfl) (fun r a e => e ▸ h r) fun _ => Frames.setLength _ _ h

theorem frames_hkdf {W : Unit → Nat → Prop} (b : Backend) (salt : Bytes) (ikm : List Bytes) (o1 o2 : Nat) (h1 : ∀ r, W r o1) (h2 : ∀ r, W r o2) :
    Frames W P (hkdfInto b salt ikm o1 o2) := by
  refine Frames.mono (W := fun _ => W ()) (Frames.local_ fun t => ?_) (fun _ _ h => h)
  refine Frames.andThen (frames_hmac _ _ _ _ fun _ => .inr rfl) fun _ => ?_
  refine Frames.andThen (Frames.read _) fun _ => ?_
  refine Frames.andThen (frames_hmac _ _ _ _ fun _ => .inl (h1 ())) fun _ => ?_
  refine Frames.andThen (Frames.read _) fun _ => ?_
  refine Frames.andThen (Frames.read _) fun _ => ?_
  refine Frames.andThen (frames_hmac _ _ _ _ fun _ => .inl (h2 ())) fun _ => ?_
  exact Frames.andThen (Frames.setLength _ _ fun _ => .inl (h1 ())) fun _ => Frames.setLength _ _ fun _ => .inl (h2 ())

theorem frames_gen {W : Unit → Nat → Prop} (b : Backend) (rnd : Bytes) (pub priv : Nat) (h1 : ∀ r, W r pub) (h2 : ∀ r, W r priv) :
    Frames W P (genKeyPairInto b rnd pub priv) := by
  refine Frames.mono (W := fun _ => W ()) ?_ (fun _ _ h => h)
  refine Frames.andThen (Frames.put _ _ fun _ => h2 ()) fun _ => ?_
  refine Frames.andThen (Frames.put _ _ fun _ => h1 ()) fun _ => ?_
  exact Frames.andThen (Frames.setLength _ _ fun _ => h1 ()) fun _ => Frames.setLength _ _ fun _ => h2 ()

theorem frames_dh {A : Nat → Prop} (b : Backend) (priv : Nat) (pub : Bytes) (out : Nat) (h : A out) :
    Frames (fun _ => A) P (dhInto b priv pub out) := by
  refine Frames.andThen (Frames.read _) fun k => ?_
  split
  · exact Frames.pure _
  · split
    · exact Frames.pure _
    · exact Frames.andThen (Frames.put _ _ fun _ => h) fun _ => Frames.andThen (Frames.setLength _ _ fun _ => h) fun _ => Frames.pure _

theorem frames_triple {A : Nat → Prop} (b : Backend) (sp ep : Nat) (rs re : Bytes) (d1 d2 d3 : Nat) (h1 : A d1) (h2 : A d2) (h3 : A d3) :
    Frames (fun _ => A) P (tripleInto b sp ep rs re d1 d2 d3) := by
  refine Frames.andThen (frames_dh _ _ _ _ h1) fun r => ?_
  split
  · exact Frames.pure _
  · refine Frames.andThen (frames_dh _ _ _ _ h2) fun r => ?_
    split
    · exact Frames.pure _
    · exact frames_dh _ _ _ _ h3

theorem frames_withTriple (b : Backend) (sp ep : Nat) (rs re : Bytes) (fail : CryptoError → Op α) (k : Bytes → Bytes → Bytes → Op α)
    (hf : ∀ e, Frames W P (fail e)) (hk : ∀ x y z, Frames W P (k x y z)) : Frames W P (withTriple b sp ep rs re fail k) := by
  refine Frames.local_ fun d1 => Frames.local_ fun d2 => Frames.local_ fun d3 => ?_
  refine Frames.bind (A := fun x => x = d1 ∨ x = d2 ∨ x = d3)
    (frames_triple _ _ _ _ _ _ _ _ (.inl rfl) (.inr (.inl rfl)) (.inr (.inr rfl))) ?_ fun r => ?_
  · rintro r a (h | h | h)
    exacts [.inl (.inl (.inr h)), .inl (.inr h), .inr h]
  · have up : ∀ {f : Op α}, Frames W P f → Frames (fun r x => ((W r x ∨ x = d1) ∨ x = d2) ∨ x = d3) P f :=
      fun h => h.mono fun _ _ h => .inl (.inl (.inl h))
    split
    · exact up (hf _)
    · refine Frames.bind (A := fun _ => False) (Frames.read _) (fun _ _ h => h.elim) fun x => ?_
      refine Frames.bind (A := fun _ => False) (Frames.read _) (fun _ _ h => h.elim) fun y => ?_
      exact Frames.bind (A := fun _ => False) (Frames.read _) (fun _ _ h => h.elim) fun z => up (hk _ _ _)

/-- What processing a message may change: the keys of the session, if it is valid afterwards. -/
def Touches {γ : Type} (s : SessionMem) (r : SessionMem × γ) (a : Nat) : Prop := r.1.valid = true ∧ (a = s.rx ∨ a = s.tx)

theorem initialize_run (s : SessionMem) (rx tx : Nat) (m : Mem) :
    s.initialize rx tx m = if (m.cell rx).len = 32 ∧ (m.cell tx).len = 32 then
      (({ s with valid := true }, true), (copy s.tx tx (copy s.rx rx m).2).2) else ((s, false), m) := by
  have e : s.initialize rx tx m = (if (m.cell rx).len = 32 ∧ (m.cell tx).len = 32 then
      (do copy s.rx rx; copy s.tx tx; Pure.pure ({ s with valid := true }, true) : Op (SessionMem × Bool)) else Pure.pure (s, false)) m := rfl
  rw [e]
  split <;> rfl

theorem frames_initialize (s : SessionMem) (rx tx : Nat) : Frames (Touches s) P (s.initialize rx tx) := by
  intro m hW
  rw [initialize_run]
  split
  · have hb : ∀ a, a = s.rx ∨ a = s.tx → a < m.next := fun a ha => hW ⟨{ s with valid := true }, true⟩ a ⟨rfl, ha⟩
    have : Frames (fun _ x => x = s.rx ∨ x = s.tx) P (do copy s.rx rx; copy s.tx tx) :=
      Frames.andThen (Frames.copy _ _ fun _ => .inl rfl) fun _ => Frames.copy _ _ fun _ => .inr rfl
    exact (this m (fun _ => hb)).mono fun a ha => ⟨rfl, ha⟩
  · exact Frame.refl _ _ m

theorem frames_deriveResponder (b : Backend) (salt : Bytes) (ikm : List Bytes) (s : SessionMem) (frame : Bytes) :
    Frames (Touches s) P (deriveResponder b salt ikm s frame) := by
  refine Frames.local_ fun rx => Frames.local_ fun tx => ?_
  refine Frames.bind (A := fun x => x = rx ∨ x = tx) (frames_hkdf _ _ _ _ _ (fun _ => .inl rfl) fun _ => .inr rfl) ?_ fun _ => ?_
  · rintro r a (h | h)
    exacts [.inl (.inr h), .inr h]
  · intro m hV
    exact (frames_initialize s rx tx m fun r a ha => hV (r.1, .ok frame) a (.inl (.inl ha))).mono fun a ha => .inl (.inl ha)

theorem frames_respond (b : Backend) (reply : ReplyHandshakeBegin) (ikm : (List Bytes → Op Processed) → Op Processed)
    (msgBytes : Bytes) (fw : FrameWriter) (s : SessionMem)
    (h : ∀ (hasher : Nat) (k : List Bytes → Op Processed), (∀ l, Frames (Touches s) P (k l)) → Frames (Touches s) P (ikm k)) :
    Frames (Touches s) P (respondMem b reply ikm msgBytes fw s) := by
  unfold respondMem
  split
  · exact Frames.pure _
  · refine Frames.local_ fun hasher => ?_
    refine Frames.bind (A := fun x => x = hasher) (frames_hash _ _ _ fun _ => rfl) (fun _ _ h => .inr h) fun _ => ?_
    refine Frames.bind (A := fun _ => False) (Frames.read _) (fun _ _ h => h.elim) fun _ => ?_
    refine Frames.bind (A := fun x => x = hasher) (frames_hash _ _ _ fun _ => rfl) (fun _ _ h => .inr h) fun _ => ?_
    refine (h hasher _ fun l => ?_).mono fun _ _ h => .inl h
    exact Frames.bind (A := fun _ => False) (Frames.read _) (fun _ _ h => h.elim) fun salt => frames_deriveResponder b salt l s _

theorem set_ne {m : Mem} {a x : Nat} {c : Cell} (h : x ≠ a) : (m.set a c).cell x = m.cell x := by simp [Mem.set, h]
theorem set_eq {m : Mem} {a : Nat} {c : Cell} : (m.set a c).cell a = c := by simp [Mem.set]

theorem frames_shared (b : Backend) (caps : Caps) (key : Nat) (rnd : Bytes) (msg : RequestHandshakeBegin) (msgBytes : Bytes)
    (fw : FrameWriter) (s : SessionMem) (hp : P rnd) : Frames (Touches s) P (processShared b caps key rnd msg msgBytes fw s) := by
  unfold processShared
  split
  · exact Frames.pure _
  split
  · exact Frames.pure _
  split
  · exact Frames.pure _
  have hr : ∀ nonce, Frames (Touches s) P (respondMem b ⟨protocolVersion, rnd, []⟩ (fun k => do
      let x ← read key
      let n ← read nonce
      k [x, msg.mode_ephemeral, n]) msgBytes fw s) := fun nonce => by
    refine frames_respond _ _ _ _ _ _ fun _ k hk => ?_
    refine Frames.bind (A := fun _ => False) (Frames.read _) (fun _ _ h => h.elim) fun x => ?_
    exact Frames.bind (A := fun _ => False) (Frames.read _) (fun _ _ h => h.elim) fun n => hk _
  refine Frames.plain (p := rnd) (fun nonce => ?_) hp fun a m hW ha => ?_
  · refine Frames.bind (A := fun x => x = nonce) (Frames.put _ _ fun _ => rfl) (fun _ _ h => .inr h) fun _ => ?_
    refine Frames.bind (A := fun x => x = nonce) (Frames.setLength _ _ fun _ => rfl) (fun _ _ h => .inr h) fun _ => ?_
    exact (hr nonce).mono fun _ _ h => .inl h
  · have := (hr a) (setLength a 32 (put a rnd m).2).2 (fun r x hx => Nat.lt_trans (hW r x hx) ha)
    have := this.same a ha (fun h => by have := hW _ a h; omega)
    show (((respondMem b ⟨protocolVersion, rnd, []⟩ (fun k => do
      let x ← read key
      let n ← read a
      k [x, msg.mode_ephemeral, n]) msgBytes fw s) (setLength a 32 (put a rnd m).2).2).2.cell a).bytes = _
    rw [this]
    simp only [setLength, put, set_eq]

theorem frames_public (b : Backend) (caps : Caps) (sp : Nat) (certs : CertHandler) (rnd : Bytes) (msg : RequestHandshakeBegin)
    (msgBytes : Bytes) (fw : FrameWriter) (s : SessionMem) (hp : P (b.dhPublic rnd)) :
    Frames (Touches s) P (processPublic b caps sp certs rnd msg msgBytes fw s) := by
  unfold processPublic
  split
  · exact Frames.pure _
  split
  · exact Frames.pure _
  split
  · exact Frames.pure _
  split
  · exact Frames.pure _
  rename_i remote _
  split
  · exact Frames.pure _
  have hr : ∀ priv, Frames (Touches s) P (respondMem b ⟨protocolVersion, b.dhPublic rnd, certs.data⟩ (fun k =>
            withTriple b sp priv remote msg.mode_ephemeral
              (fun e => pure (s, .error (match e with | .memory_fault => .fault | _ => .err .unknown)))
              (fun x y z => k [x, y, z])) msgBytes fw s) := fun priv => by
    refine frames_respond _ _ _ _ _ _ fun _ k hk => ?_
    exact frames_withTriple _ _ _ _ _ _ _ (fun e => Frames.pure _) fun x y z => hk _
  refine Frames.plain (p := b.dhPublic rnd) (fun pub => Frames.local_ fun priv => ?_) hp fun a m hW ha => ?_
  · refine Frames.bind (A := fun x => x = pub ∨ x = priv) (frames_gen _ _ _ _ (fun _ => .inl rfl) fun _ => .inr rfl) ?_ fun _ => ?_
    · rintro r x (h | h)
      exacts [.inl (.inr h), .inr h]
    · exact (hr priv).mono fun _ _ h => .inl (.inl h)
  · rw [withLocal_run]
    have hne : a ≠ m.next := by omega
    simp only [release, set_ne hne]
    generalize hm1 : (new true m).2 = m1
    have e1 : m1.next = m.next + 1 := by subst hm1; rfl
    have e2 : m1.cell a = m.cell a := by subst hm1; simp [new, Mem.set, hne]
    generalize hm2 : (genKeyPairInto b rnd a m.next m1).2 = m2
    have e3 : m2.next = m.next + 1 := by subst hm2; exact e1
    have e4 : (m2.cell a).bytes = b.dhPublic rnd ++ (m.cell a).bytes.drop (b.dhPublic rnd).length := by
      subst hm2
      simp [genKeyPairInto, Bind.bind, put, setLength, Mem.set, hne, e2]
    have := (hr m.next) m2 (fun r x hx => by have := hW r x hx; omega)
    have := this.same a (by omega) (fun h => by have := hW _ a h; omega)
    rw [← e4, ← this, ← hm2]
    rfl

theorem frames_deriveInitiator (b : Backend) (salt : Bytes) (ikm : List Bytes) (rollback : Bool) (s : SessionMem) :
    Frames (Touches s) P (deriveInitiator b salt ikm rollback s) := by
  refine Frames.local_ fun rx => Frames.local_ fun tx => ?_
  refine Frames.bind (A := fun x => x = rx ∨ x = tx) (frames_hkdf _ _ _ _ _ (fun _ => .inr rfl) fun _ => .inl rfl) ?_ fun _ => ?_
  · rintro r a (h | h)
    exacts [.inl (.inr h), .inr h]
  · split
    · exact Frames.pure _
    · intro m hV
      exact (frames_initialize s rx tx m fun r a ha => hV (r.1, if r.2 then .ok else .refused) a (.inl (.inl ha))).mono
        fun a ha => .inl (.inl ha)

theorem frames_mix (h : InitiatorMem) (b : Backend) (input : Bytes) : Frames (fun _ x => x = h.hash) P (h.mix b input) :=
  Frames.andThen (Frames.read _) fun _ => Frames.andThen (frames_hash _ _ _ fun _ => rfl) fun _ => Frames.read _

theorem frames_reply (h : InitiatorMem) (b : Backend) (caps : Caps) (msg : ReplyHandshakeBegin) (msgBytes : Bytes)
    (rollback : Bool) (s : SessionMem) :
    Frames (fun r x => Touches s r x ∨ x = h.hash) P (h.reply b caps msg msgBytes rollback s) := by
  have hd : ∀ salt l, Frames (fun r x => Touches s r x ∨ x = h.hash) P (deriveInitiator b salt l rollback s) :=
    fun salt l => (frames_deriveInitiator b salt l rollback s).mono fun _ _ h => .inl h
  have hm := frames_mix (P := P) h b msgBytes
  unfold InitiatorMem.reply
  split
  · split
    · exact Frames.pure _
    split
    · exact Frames.pure _
    refine Frames.bind hm (fun _ _ h => .inr h) fun salt => ?_
    refine Frames.bind (A := fun _ => False) (Frames.read _) (fun _ _ h => h.elim) fun _ => ?_
    exact Frames.bind (A := fun _ => False) (Frames.read _) (fun _ _ h => h.elim) fun _ => hd _ _
  · exact Frames.pure _
  · split
    · exact Frames.pure _
    split
    · exact Frames.pure _
    refine Frames.bind hm (fun _ _ h => .inr h) fun salt => ?_
    exact Frames.bind (A := fun _ => False) (Frames.read _) (fun _ _ h => h.elim) fun _ => hd _ _
  · split
    · exact Frames.pure _
    · exact Frames.pure _
    · refine Frames.bind hm (fun _ _ h => .inr h) fun salt => ?_
      exact frames_withTriple _ _ _ _ _ _ _ (fun e => Frames.pure _) fun x y z => hd _ _

theorem frames_seal (b : Backend) (mode : SessionCryptoMode) (key : Nat) (nonce : UInt16) (ad clear : Bytes) (n : Nat) :
    Frames (fun _ _ => False) P (sealWith b mode key nonce ad clear n) := by
  refine Frames.local_ fun mac => ?_
  refine Frames.andThen (Frames.read _) fun k => ?_
  split
  · split
    · exact Frames.pure _
    split
    · exact Frames.pure _
    refine Frames.andThen (Frames.put _ _ fun _ => .inr rfl) fun _ => ?_
    refine Frames.andThen (Frames.setLength _ _ fun _ => .inr rfl) fun _ => ?_
    exact Frames.andThen (Frames.read _) fun _ => Frames.pure _
  · split
    · exact Frames.pure _
    refine Frames.andThen (frames_hmac _ _ _ _ fun _ => .inr rfl) fun _ => ?_
    exact Frames.andThen (Frames.read _) fun _ => Frames.pure _

theorem frames_open (b : Backend) (mode : SessionCryptoMode) (key : Nat) (nonce : UInt16) (ad cipher tag : Bytes) (n : Nat) :
    Frames (fun _ _ => False) P (openWith b mode key nonce ad cipher tag n) := by
  refine Frames.andThen (Frames.read _) fun k => ?_
  split
  · split
    · exact Frames.pure _
    split
    · exact Frames.pure _
    · exact Frames.pure _
  · split
    · exact Frames.pure _
    refine Frames.local_ fun mac => ?_
    refine Frames.andThen (frames_hmac _ _ _ _ fun _ => .inr rfl) fun _ => ?_
    refine Frames.andThen (Frames.read _) fun _ => ?_
    split
    · exact Frames.pure _
    · exact Frames.pure _

/-! ### Results -/

/-- Every result of the program has the property. -/
def Yields (R : α → Prop) (f : Op α) : Prop := ∀ m, R (f m).1

theorem Yields.pure {R : α → Prop} {x : α} (h : R x) : Yields R (Pure.pure x : Op α) := fun _ => h
theorem Yields.bind {R : β → Prop} {f : Op α} {g : α → Op β} (h : ∀ x, Yields R (g x)) : Yields R (f >>= g) :=
  fun m => h _ (f m).2
theorem Yields.map {R : β → Prop} {S : α → Prop} {f : Op α} {g : α → β} (h : Yields S f) (hg : ∀ x, S x → R (g x)) :
    Yields R (do let x ← f; Pure.pure (g x)) := fun m => hg _ (h m)
theorem Yields.local_ {R : α → Prop} {w : Bool} {body : Nat → Op α} (h : ∀ a, Yields R (body a)) : Yields R (withLocal w body) :=
  fun m => h _ _

/-- The same session, valid or not more than before. -/
def Same {γ : Type} (s : SessionMem) (r : SessionMem × γ) : Prop := r.1 = s ∨ r.1 = { s with valid := true }

theorem same_initialize (s : SessionMem) (rx tx : Nat) : Yields (Same s) (s.initialize rx tx) := by
  intro m
  rw [initialize_run]
  split
  · exact .inr rfl
  · exact .inl rfl

theorem same_deriveResponder (b : Backend) (salt : Bytes) (ikm : List Bytes) (s : SessionMem) (frame : Bytes) :
    Yields (Same s) (deriveResponder b salt ikm s frame) :=
  Yields.local_ fun rx => Yields.local_ fun tx => Yields.bind fun _ => Yields.map (same_initialize s rx tx) fun _ h => h

theorem same_respond (b : Backend) (reply : ReplyHandshakeBegin) (ikm : (List Bytes → Op Processed) → Op Processed)
    (msgBytes : Bytes) (fw : FrameWriter) (s : SessionMem)
    (h : ∀ k : List Bytes → Op Processed, (∀ l, Yields (Same s) (k l)) → Yields (Same s) (ikm k)) :
    Yields (Same s) (respondMem b reply ikm msgBytes fw s) := by
  unfold respondMem
  split
  · exact Yields.pure (.inl rfl)
  · exact Yields.local_ fun _ => Yields.bind fun _ => Yields.bind fun _ => Yields.bind fun _ =>
      h _ fun l => Yields.bind fun _ => same_deriveResponder _ _ _ _ _

theorem yields_withTriple {R : α → Prop} (b : Backend) (sp ep : Nat) (rs re : Bytes) (fail : CryptoError → Op α)
    (k : Bytes → Bytes → Bytes → Op α) (hf : ∀ e, Yields R (fail e)) (hk : ∀ x y z, Yields R (k x y z)) :
    Yields R (withTriple b sp ep rs re fail k) := by
  refine Yields.local_ fun _ => Yields.local_ fun _ => Yields.local_ fun _ => Yields.bind fun r => ?_
  split
  · exact hf _
  · exact Yields.bind fun _ => Yields.bind fun _ => Yields.bind fun _ => hk _ _ _

theorem same_shared (b : Backend) (caps : Caps) (key : Nat) (rnd : Bytes) (msg : RequestHandshakeBegin) (msgBytes : Bytes)
    (fw : FrameWriter) (s : SessionMem) : Yields (Same s) (processShared b caps key rnd msg msgBytes fw s) := by
  unfold processShared
  repeat' split
  iterate 3 exact Yields.pure (.inl rfl)
  exact Yields.local_ fun _ => Yields.bind fun _ => Yields.bind fun _ => same_respond _ _ _ _ _ _ fun k hk =>
    Yields.bind fun _ => Yields.bind fun _ => hk _

theorem same_public (b : Backend) (caps : Caps) (sp : Nat) (certs : CertHandler) (rnd : Bytes) (msg : RequestHandshakeBegin)
    (msgBytes : Bytes) (fw : FrameWriter) (s : SessionMem) :
    Yields (Same s) (processPublic b caps sp certs rnd msg msgBytes fw s) := by
  unfold processPublic
  repeat' split
  iterate 5 exact Yields.pure (.inl rfl)
  exact Yields.local_ fun _ => Yields.local_ fun _ => Yields.bind fun _ => same_respond _ _ _ _ _ _ fun k hk =>
    yields_withTriple _ _ _ _ _ _ _ (fun _ => Yields.pure (.inl rfl)) fun _ _ _ => hk _

theorem same_deriveInitiator (b : Backend) (salt : Bytes) (ikm : List Bytes) (rollback : Bool) (s : SessionMem) :
    Yields (Same s) (deriveInitiator b salt ikm rollback s) := by
  refine Yields.local_ fun rx => Yields.local_ fun tx => Yields.bind fun _ => ?_
  split
  · exact Yields.pure (.inl rfl)
  · exact Yields.map (same_initialize s rx tx) fun _ h => h

theorem same_reply (h : InitiatorMem) (b : Backend) (caps : Caps) (msg : ReplyHandshakeBegin) (msgBytes : Bytes)
    (rollback : Bool) (s : SessionMem) : Yields (Same s) (h.reply b caps msg msgBytes rollback s) := by
  unfold InitiatorMem.reply
  split
  · repeat' split
    iterate 2 exact Yields.pure (.inl rfl)
    exact Yields.bind fun _ => Yields.bind fun _ => Yields.bind fun _ => same_deriveInitiator _ _ _ _ _
  · exact Yields.pure (.inl rfl)
  · repeat' split
    iterate 2 exact Yields.pure (.inl rfl)
    exact Yields.bind fun _ => Yields.bind fun _ => same_deriveInitiator _ _ _ _ _
  · repeat' split
    iterate 2 exact Yields.pure (.inl rfl)
    exact Yields.bind fun _ => yields_withTriple _ _ _ _ _ _ _ (fun _ => Yields.pure (.inl rfl)) fun _ _ _ => same_deriveInitiator _ _ _ _ _

/-! ### Stations -/

/-- The quantum key of an initiator. -/
def quantum : RoleMem → List Nat
  | .initiator (.qkd (some k) _) => [k]
  | _ => []

/-- Everything that belongs to a station. -/
def owned (st : Station) : List Nat :=
  longTerm st.role ++ members st.role ++ keysOf st.active ++ keysOf st.pending ++ st.store.map Prod.snd

/-- Nothing is left at an address but what has been published. -/
def Left (m0 : Mem) (Q : Bytes → Prop) (m : Mem) (a : Nat) : Prop := Blank m0 m a ∨ ∃ p, Q p ∧ Holds m0 m a p

structure Inv (m0 : Mem) (Q : Bytes → Prop) (st : Station) (m : Mem) : Prop where
  nodup : (owned st).Nodup
  range : ∀ a ∈ owned st, a < m.next
  free : ∀ a, m.next ≤ a → m.cell a = m0.cell a
  once : ∀ a ∈ st.store.map Prod.snd ++ quantum st.role, (m.cell a).wipes = true ∧ (m.cell a).owners = 1
  rest : ∀ a, a ∉ owned st → a < m.next → Left m0 Q m a
  active : st.active.valid = false → ∀ a ∈ keysOf st.active, Blank m0 m a
  pending : st.pending.valid = false → ∀ a ∈ keysOf st.pending, Blank m0 m a

theorem Left.congr {m0 m m' : Mem} {Q : Bytes → Prop} {a : Nat} (h : Left m0 Q m a) (e : m'.cell a = m.cell a) : Left m0 Q m' a := by
  unfold Left Blank Holds at *
  rwa [e]

theorem blank_congr {m0 m m' : Mem} {a : Nat} (h : Blank m0 m a) (e : m'.cell a = m.cell a) : Blank m0 m' a := by
  unfold Blank at *
  rwa [e]

theorem mem_owned {st : Station} {a : Nat} : a ∈ owned st ↔
    a ∈ longTerm st.role ∨ a ∈ members st.role ∨ a ∈ keysOf st.active ∨ a ∈ keysOf st.pending ∨ a ∈ st.store.map Prod.snd := by
  simp only [owned, List.mem_append, or_assoc]

theorem quantum_members {role : RoleMem} {a : Nat} (h : a ∈ quantum role) : a ∈ members role := by
  unfold quantum at h
  split at h
  · simp only [List.mem_singleton] at h
    subst h
    simp [members]
  · cases h

/-- The parts of a station do not overlap. -/
theorem Inv.apart {m0 : Mem} {Q : Bytes → Prop} {st : Station} {m : Mem} (h : Inv m0 Q st m) {a : Nat} :
    (a ∈ longTerm st.role → a ∉ members st.role) ∧ (a ∈ keysOf st.active → a ∉ members st.role) ∧
    (a ∈ keysOf st.pending → a ∉ members st.role) ∧ (a ∈ keysOf st.active → a ∉ keysOf st.pending) ∧
    (a ∈ st.store.map Prod.snd → a ∉ keysOf st.active ∧ a ∉ keysOf st.pending ∧ a ∉ members st.role ∧ a ∉ longTerm st.role) := by
  have hn := h.nodup
  unfold owned at hn
  obtain ⟨h1, -, h5⟩ := List.nodup_append.mp hn
  obtain ⟨h1, -, h6⟩ := List.nodup_append.mp h1
  obtain ⟨h1, -, h7⟩ := List.nodup_append.mp h1
  obtain ⟨-, -, h8⟩ := List.nodup_append.mp h1
  simp only [List.mem_append] at h5 h6 h7 h8
  refine ⟨fun x y => h8 a x a y rfl, fun x y => h7 a (.inr y) a x rfl, fun x y => h6 a (.inl (.inr y)) a x rfl,
    fun x y => h6 a (.inr x) a y rfl, fun x => ⟨fun y => h5 a (.inl (.inr y)) a x rfl, fun y => h5 a (.inr y) a x rfl,
      fun y => h5 a (.inl (.inl (.inr y))) a x rfl, fun y => h5 a (.inl (.inl (.inl y))) a x rfl⟩⟩

/-- A program that only writes to the members of the handshake and the keys of the pending session, valid afterwards. -/
theorem Inv.frame {m0 : Mem} {Q : Bytes → Prop} {st : Station} {m m' : Mem} {W : Nat → Prop} {p : SessionMem}
    (h : Inv m0 Q st m) (hf : Frame W Q m m') (hp : p = st.pending ∨ p = { st.pending with valid := true })
    (hW : ∀ a, W a → a ∈ members st.role ∨ p.valid = true ∧ a ∈ keysOf st.pending) :
    Inv m0 Q { st with pending := p } m' := by
  have hk : keysOf p = keysOf st.pending := by rcases hp with rfl | rfl <;> rfl
  have ho : owned { st with pending := p } = owned st := by simp only [owned, hk]
  have hb : ∀ a ∈ owned st, a < m'.next := fun a ha => Nat.lt_of_lt_of_le (h.range a ha) hf.le
  refine ⟨by rw [ho]; exact h.nodup, by rw [ho]; exact hb, fun a ha => ?_, fun a ha => ?_, ?_, fun hv a ha => ?_, fun hv a ha => ?_⟩
  · rw [hf.free a ha, h.free a (Nat.le_trans hf.le ha)]
  · have : a < m.next := h.range a (by
      rcases List.mem_append.mp ha with ha | ha
      · exact mem_owned.mpr (.inr (.inr (.inr (.inr ha))))
      · exact mem_owned.mpr (.inr (.inl (quantum_members ha))))
    rw [(hf.kind a this).1, (hf.kind a this).2]
    exact h.once a ha
  · rw [ho]
    intro a ha hx
    by_cases hc : a < m.next
    · refine (h.rest a ha hc).congr (hf.same a hc fun hw => ha ?_)
      rcases hW a hw with h1 | h1
      · exact mem_owned.mpr (.inr (.inl h1))
      · exact mem_owned.mpr (.inr (.inr (.inr (.inl h1.2))))
    · rcases hf.gone a (by omega) hx with h1 | ⟨q, h1, h2⟩
      · exact .inl (.inr h1)
      · exact .inr ⟨q, h1, by unfold Holds; rw [h2, h.free a (by omega)]⟩
  · refine blank_congr (h.active hv a ha) (hf.same a (h.range a (mem_owned.mpr (.inr (.inr (.inl ha))))) fun hw => ?_)
    rcases hW a hw with h1 | h1
    · exact h.apart.2.1 ha h1
    · exact h.apart.2.2.2.1 ha h1.2
  · replace hv : p.valid = false := hv
    replace ha : a ∈ keysOf st.pending := by rw [← hk]; exact ha
    have hv' : st.pending.valid = false := by
      rcases hp with rfl | rfl
      · exact hv
      · cases hv
    refine blank_congr (h.pending hv' a ha) (hf.same a (h.range a (mem_owned.mpr (.inr (.inr (.inr (.inl ha)))))) fun hw => ?_)
    rcases hW a hw with h1 | h1
    · exact h.apart.2.2.1 ha h1
    · rw [hv] at h1; cases h1.1

theorem Inv.keep {m0 : Mem} {Q : Bytes → Prop} {st : Station} {m m' : Mem} {W : Nat → Prop}
    (h : Inv m0 Q st m) (hf : Frame W Q m m') (hW : ∀ a, W a → a ∈ members st.role) : Inv m0 Q st m' :=
  h.frame (p := st.pending) hf (.inl rfl) fun a ha => .inl (hW a ha)

/-- What destroying a record with one owner does. -/
theorem release_cell {m : Mem} {a : Nat} (h : (m.cell a).wipes = true ∧ (m.cell a).owners = 1) :
    (∀ x ∈ ((release a m).2.cell a).bytes, x = 0) ∧ (∀ x, x ≠ a → (release a m).2.cell x = m.cell x) ∧
    (release a m).2.next = m.next := by
  refine ⟨?_, fun x hx => ?_, rfl⟩
  · simp only [release, set_eq, h.1, h.2, Nat.le_refl, and_self, if_true, decide_true]
    exact fun x hx => mem_zeros hx
  · simp only [release, set_ne hx]

theorem share_release {m : Mem} {a : Nat} (h : (m.cell a).owners = 1) : (release a (share a m).2).2 = m := by
  simp only [release, share, set_eq, h]
  cases m with
  | mk cell next =>
    simp only [Mem.set, Mem.mk.injEq, and_true]
    funext x
    by_cases e : x = a
    · subst e
      simp only [if_true]
      simp only at h
      cases hc : cell x
      rw [hc] at h
      simp only at h
      subst h
      simp
    · simp [e]

theorem releaseAll_cells : ∀ (l : StoreMem) (m : Mem), (l.map Prod.snd).Nodup →
    (∀ a ∈ l.map Prod.snd, (m.cell a).wipes = true ∧ (m.cell a).owners = 1) →
    (∀ a ∈ l.map Prod.snd, ∀ x ∈ ((releaseAll l m).2.cell a).bytes, x = 0) ∧
    (∀ x, x ∉ l.map Prod.snd → (releaseAll l m).2.cell x = m.cell x) ∧ (releaseAll l m).2.next = m.next
  | [], m, _, _ => ⟨fun _ h => (by cases h), fun _ _ => rfl, rfl⟩
  | r :: l, m, hn, ho => by
    rw [List.map_cons, List.nodup_cons] at hn
    have h1 := release_cell (ho r.2 (by simp))
    have ih := releaseAll_cells l (release r.2 m).2 hn.2 fun a ha => by
      rw [h1.2.1 a (fun e => hn.1 (e ▸ ha))]
      exact ho a (by simp only [List.map_cons, List.mem_cons]; exact .inr ha)
    refine ⟨fun a ha => ?_, fun x hx => ?_, ih.2.2.trans h1.2.2⟩
    · show ∀ x ∈ ((releaseAll l (release r.2 m).2).2.cell a).bytes, x = 0
      simp only [List.map_cons, List.mem_cons] at ha
      by_cases hc : a ∈ l.map Prod.snd
      · exact ih.1 a hc
      · rw [ih.2.1 a hc]
        rcases ha with rfl | ha
        · exact h1.1
        · exact absurd ha hc
    · show (releaseAll l (release r.2 m).2).2.cell x = m.cell x
      simp only [List.map_cons, List.mem_cons, not_or] at hx
      rw [ih.2.1 x hx.2, h1.2.1 x hx.1]

/-- Records are taken out of the store and destroyed. -/
theorem Inv.erase {m0 : Mem} {Q : Bytes → Prop} {st : Station} {m : Mem} (h : Inv m0 Q st m) {gone left : StoreMem}
    (hp : (gone ++ left).Perm st.store) :
    Inv m0 Q { st with store := left } (releaseAll gone m).2 := by
  have hm : ∀ a, a ∈ st.store.map Prod.snd ↔ a ∈ gone.map Prod.snd ∨ a ∈ left.map Prod.snd := fun a => by
    rw [← (hp.map Prod.snd).mem_iff, List.map_append, List.mem_append]
  have hn : (longTerm st.role ++ members st.role ++ keysOf st.active ++ keysOf st.pending ++ (gone.map Prod.snd ++ left.map Prod.snd)).Nodup := by
    refine (List.Perm.nodup_iff ?_).mp h.nodup
    rw [← List.map_append]
    exact List.Perm.append_left _ (hp.symm.map _)
  obtain ⟨n1, n2, n3⟩ := List.nodup_append.mp hn
  obtain ⟨n4, n5, n6⟩ := List.nodup_append.mp n2
  obtain ⟨r1, r2, r3⟩ := releaseAll_cells gone m n4 fun a ha => h.once a (List.mem_append.mpr (.inl ((hm a).mpr (.inl ha))))
  have hne : ∀ a, a ∈ owned { st with store := left } → a ∉ gone.map Prod.snd := fun a ha hg => by
    rcases List.mem_append.mp ha with ha | ha
    · exact n3 a ha a (List.mem_append.mpr (.inl hg)) rfl
    · exact n6 a hg a ha rfl
  have hsub : ∀ a, a ∈ owned { st with store := left } → a ∈ owned st := fun a ha => by
    rw [mem_owned] at ha ⊢
    rcases ha with ha | ha | ha | ha | ha
    exacts [.inl ha, .inr (.inl ha), .inr (.inr (.inl ha)), .inr (.inr (.inr (.inl ha))), .inr (.inr (.inr (.inr ((hm a).mpr (.inr ha)))))]
  refine ⟨?_, fun a ha => ?_, fun a ha => ?_, fun a ha => ?_, fun a ha hx => ?_, fun hv a ha => ?_, fun hv a ha => ?_⟩
  · refine hn.sublist ?_
    exact List.Sublist.append_left (List.sublist_append_right _ _) _
  · rw [r3]; exact h.range a (hsub a ha)
  · rw [r3] at ha
    rw [r2 a fun hg => ?_, h.free a ha]
    have := h.range a (mem_owned.mpr (.inr (.inr (.inr (.inr ((hm a).mpr (.inl hg)))))))
    omega
  · have ho : a ∈ owned { st with store := left } := by
      rcases List.mem_append.mp ha with ha | ha
      · exact mem_owned.mpr (.inr (.inr (.inr (.inr ha))))
      · exact mem_owned.mpr (.inr (.inl (quantum_members ha)))
    rw [r2 a (hne a ho)]
    refine h.once a (List.mem_append.mpr ?_)
    rcases List.mem_append.mp ha with ha | ha
    exacts [.inl ((hm a).mpr (.inr ha)), .inr ha]
  · rw [r3] at hx
    by_cases hg : a ∈ gone.map Prod.snd
    · exact .inl (.inr (r1 a hg))
    · refine (h.rest a (fun ho => ha ?_) hx).congr (r2 a hg)
      rw [mem_owned] at ho ⊢
      rcases ho with ho | ho | ho | ho | ho
      · exact .inl ho
      · exact .inr (.inl ho)
      · exact .inr (.inr (.inl ho))
      · exact .inr (.inr (.inr (.inl ho)))
      · rcases (hm a).mp ho with ho | ho
        · exact absurd ho hg
        · exact .inr (.inr (.inr (.inr ho)))
  · exact blank_congr (h.active hv a ha) (r2 a (hne a (mem_owned.mpr (.inr (.inr (.inl ha))))))
  · exact blank_congr (h.pending hv a ha) (r2 a (hne a (mem_owned.mpr (.inr (.inr (.inr (.inl ha)))))))

/-- A record for a new key is added to the store. -/
theorem Inv.add {m0 : Mem} {Q : Bytes → Prop} {st : Station} {m : Mem} (h : Inv m0 Q st m) (key : Bytes) {store : StoreMem} {id : UInt64}
    (hp : store.Perm ((id, m.next) :: st.store)) :
    Inv m0 Q { st with store := store } (setLength m.next 32 (put m.next key (new true m).2).2).2 := by
  generalize hm' : (setLength m.next 32 (put m.next key (new true m).2).2).2 = m'
  have e1 : m'.next = m.next + 1 := by subst hm'; rfl
  have e2 : ∀ x, x ≠ m.next → m'.cell x = m.cell x := by subst hm'; intro x hx; simp [new, put, setLength, Mem.set, hx]
  have e3 : (m'.cell m.next).wipes = true ∧ (m'.cell m.next).owners = 1 := by subst hm'; simp [new, put, setLength, Mem.set]
  have hm : ∀ a, a ∈ store.map Prod.snd ↔ a = m.next ∨ a ∈ st.store.map Prod.snd := fun a => by
    rw [(hp.map Prod.snd).mem_iff, List.map_cons, List.mem_cons]
  have hlt : ∀ a, a ∈ owned st → a ≠ m.next := fun a ha e => by have := h.range a ha; omega
  have ho : ∀ a, a ∈ owned { st with store := store } ↔ a = m.next ∨ a ∈ owned st := fun a => by
    rw [mem_owned, mem_owned]
    simp only [hm]
    constructor
    · rintro (h | h | h | h | h | h) <;> simp [h]
    · rintro (h | h | h | h | h | h) <;> simp [h]
  refine ⟨?_, fun a ha => ?_, fun a ha => ?_, fun a ha => ?_, fun a ha hx => ?_, fun hv a ha => ?_, fun hv a ha => ?_⟩
  · have : (owned { st with store := store }).Perm (m.next :: owned st) := by
      refine (List.Perm.append_left _ (hp.map _)).trans ?_
      simp only [List.map_cons]
      exact List.perm_middle
    rw [this.nodup_iff, List.nodup_cons]
    exact ⟨fun hx => hlt _ hx rfl, h.nodup⟩
  · rw [e1]
    rcases (ho a).mp ha with rfl | ha
    · omega
    · have := h.range a ha; omega
  · rw [e1] at ha
    rw [e2 a (by omega), h.free a (by omega)]
  · rcases List.mem_append.mp ha with ha | ha
    · rcases (hm a).mp ha with rfl | ha
      · exact e3
      · rw [e2 a (hlt a (mem_owned.mpr (.inr (.inr (.inr (.inr ha))))))]
        exact h.once a (List.mem_append.mpr (.inl ha))
    · rw [e2 a (hlt a (mem_owned.mpr (.inr (.inl (quantum_members ha)))))]
      exact h.once a (List.mem_append.mpr (.inr ha))
  · rw [ho] at ha
    simp only [not_or] at ha
    exact (h.rest a ha.2 (by omega)).congr (e2 a ha.1)
  · exact blank_congr (h.active hv a ha) (e2 a (hlt a (mem_owned.mpr (.inr (.inr (.inl ha))))))
  · exact blank_congr (h.pending hv a ha) (e2 a (hlt a (mem_owned.mpr (.inr (.inr (.inr (.inl ha)))))))

/-- The entries of a store are in increasing order. -/
def Sorted (store : StoreMem) : Prop := store.Pairwise (fun x y => x.1 < y.1)

theorem filter_none {store : StoreMem} {id : UInt64} (h : ∀ r ∈ store, r.1 ≠ id) :
    store.filter (fun r => r.1 = id) = [] ∧ store.filter (fun r => r.1 ≠ id) = store := by
  constructor
  · rw [List.filter_eq_nil_iff]
    intro r hr
    simp [h r hr]
  · rw [List.filter_eq_self]
    intro r hr
    simp [h r hr]

theorem u64_lt_ne {x y : UInt64} (h : x < y) : y ≠ x := fun e => by
  subst e
  exact absurd h (UInt64.lt_irrefl _)

/-- Taking out the entry for an id. -/
theorem filter_found : ∀ {store : StoreMem} {id : UInt64} {r : UInt64 × Nat}, Sorted store → store.find? (fun r => r.1 = id) = some r →
    ([r] ++ store.filter (fun r => r.1 ≠ id)).Perm store
  | [], _, _, _, hf => by cases hf
  | x :: store, id, r, hs, hf => by
    have hs' := List.pairwise_cons.mp hs
    by_cases e : x.1 = id
    · simp only [List.find?_cons, e, decide_true] at hf
      cases hf
      have := (filter_none (store := store) (id := id) fun y hy => by
        have := hs'.1 y hy
        rw [e] at this
        exact u64_lt_ne this).2
      simp only [ne_eq, decide_not] at this
      simp [e, this]
    · simp only [List.find?_cons, e, decide_false] at hf
      have ih := filter_found hs'.2 hf
      simp only [ne_eq, decide_not, List.cons_append, List.nil_append] at ih
      simp only [ne_eq, decide_not, List.filter_cons, e, decide_false, Bool.not_false, if_true, List.cons_append, List.nil_append]
      exact (List.Perm.swap _ _ _).trans (ih.cons x)

theorem Sorted.filter {store : StoreMem} (h : Sorted store) (f : UInt64 × Nat → Bool) : Sorted (store.filter f) :=
  List.Pairwise.sublist List.filter_sublist h

theorem insertMem_perm : ∀ {store : StoreMem} {id : UInt64} {a : Nat}, Sorted store →
    (store.filter (fun r => r.1 = id) ++ insertMem id a store).Perm ((id, a) :: store)
  | [], _, _, _ => List.Perm.refl _
  | (i, k) :: store, id, a, hs => by
    have hs' := List.pairwise_cons.mp hs
    unfold insertMem
    by_cases h1 : id < i
    · have := (filter_none (store := (i, k) :: store) (id := id) fun y hy => by
        rcases List.mem_cons.mp hy with rfl | hy
        · exact u64_lt_ne h1
        · exact u64_lt_ne (UInt64.lt_trans h1 (hs'.1 y hy))).1
      rw [this, if_pos h1]
      exact List.Perm.refl _
    · rw [if_neg h1]
      by_cases h2 : id = i
      · subst h2
        have := (filter_none (store := store) (id := id) fun y hy => u64_lt_ne (hs'.1 y hy)).1
        simp only [List.filter_cons, decide_true, if_true, this]
        exact List.Perm.swap _ _ _
      · rw [if_neg h2]
        have h3 : ¬ i = id := fun e => h2 e.symm
        simp only [List.filter_cons, h3, decide_false, Bool.false_eq_true, if_false]
        refine List.perm_middle.trans ?_
        exact ((insertMem_perm hs'.2).cons (i, k)).trans (List.Perm.swap _ _ _)

theorem mem_insertMem {store : StoreMem} {id : UInt64} {a : Nat} {r : UInt64 × Nat} (h : r ∈ insertMem id a store) :
    r = (id, a) ∨ r ∈ store := by
  induction store with
  | nil => simp only [insertMem, List.mem_singleton] at h; exact .inl h
  | cons x store ih =>
    obtain ⟨i, k⟩ := x
    unfold insertMem at h
    split at h
    · rcases List.mem_cons.mp h with h | h
      exacts [.inl h, .inr h]
    · split at h
      · rcases List.mem_cons.mp h with h | h
        exacts [.inl h, .inr (List.mem_cons_of_mem _ h)]
      · rcases List.mem_cons.mp h with h | h
        · exact .inr (h ▸ List.mem_cons_self)
        · rcases ih h with h | h
          exacts [.inl h, .inr (List.mem_cons_of_mem _ h)]

theorem Sorted.insert {store : StoreMem} {id : UInt64} {a : Nat} (h : Sorted store) : Sorted (insertMem id a store) := by
  induction store with
  | nil => exact List.pairwise_singleton _ _
  | cons x store ih =>
    obtain ⟨i, k⟩ := x
    have hs' := List.pairwise_cons.mp h
    unfold insertMem
    split
    · rename_i h1
      refine List.pairwise_cons.mpr ⟨fun y hy => ?_, h⟩
      rcases List.mem_cons.mp hy with rfl | hy
      · exact h1
      · exact UInt64.lt_trans h1 (hs'.1 y hy)
    · rename_i h1
      split
      · rename_i h2
        subst h2
        exact List.pairwise_cons.mpr ⟨fun y hy => hs'.1 y hy, hs'.2⟩
      · rename_i h2
        refine List.pairwise_cons.mpr ⟨fun y hy => ?_, ih hs'.2⟩
        rcases mem_insertMem hy with rfl | hy
        · show i < id
          rw [UInt64.lt_iff_toNat_lt] at h1 ⊢
          have : id.toNat ≠ i.toNat := fun e => h2 (UInt64.toNat_inj.mp e)
          omega
        · exact hs'.1 y hy

variable {m0 : Mem} {Q : Bytes → Prop} {st : Station} {m : Mem}

theorem Inv.addKey (h : Inv m0 Q st m) (hs : Sorted st.store) (max : UInt16) (id : UInt64) (key : Bytes) :
    Inv m0 Q { st with store := (addKeyMem max st.store id key m).1 } (addKeyMem max st.store id key m).2 ∧
      Sorted (addKeyMem max st.store id key m).1 := by
  have core : ∀ (store : StoreMem) (m : Mem), Inv m0 Q { st with store := store } m → Sorted store →
      ∀ r, r = addRecord max store id key m → Inv m0 Q { st with store := r.1 } r.2 ∧ Sorted r.1 := by
    intro store m h hs r hr
    have h1 := (h.add (store := (id, m.next) :: store) key (List.Perm.refl _)).erase (gone := store.filter fun r => r.1 = id)
      (left := insertMem id m.next store) (insertMem_perm hs)
    have hr' : r = (if (insertMem id m.next store).length > max.toNat then (do
          releaseAll ((insertMem id m.next store).take 1)
          Pure.pure ((insertMem id m.next store).drop 1) : Op StoreMem)
        else Pure.pure (insertMem id m.next store))
        (releaseAll (store.filter fun r => r.1 = id) (setLength m.next 32 (put m.next key (new true m).2).2).2).2 := hr
    rw [hr']
    split
    · refine ⟨h1.erase (gone := (insertMem id m.next store).take 1) (left := (insertMem id m.next store).drop 1) ?_, ?_⟩
      · rw [List.take_append_drop]
      · exact List.Pairwise.sublist (List.drop_sublist _ _) hs.insert
    · exact ⟨h1, hs.insert⟩
  unfold addKeyMem
  split
  · exact core [] _ (h.erase (gone := st.store) (left := []) (by rw [List.append_nil])) List.Pairwise.nil _ rfl
  · exact core st.store m h hs _ rfl

theorem zeroed (s : SessionMem) (m : Mem) :
    (s.reset m).1 = { s with valid := false } ∧ (s.reset m).2.next = m.next ∧
    (∀ a, a ∉ keysOf s → (s.reset m).2.cell a = m.cell a) ∧
    (∀ a, ((s.reset m).2.cell a).wipes = (m.cell a).wipes ∧ ((s.reset m).2.cell a).owners = (m.cell a).owners) ∧
    (∀ a ∈ keysOf s, ∀ x ∈ ((s.reset m).2.cell a).bytes, x = 0) := by
  have e : s.reset m = ({ s with valid := false }, (zero s.tx (zero s.rx m).2).2) := rfl
  rw [e]
  refine ⟨rfl, rfl, fun a ha => ?_, fun a => ?_, fun a ha => ?_⟩
  · simp only [keysOf, List.mem_cons, List.not_mem_nil, or_false, not_or] at ha
    simp only [zero, set_ne ha.1, set_ne ha.2]
  · by_cases e1 : a = s.tx
    · subst e1
      by_cases e2 : s.tx = s.rx
      · rw [e2]; simp [zero, Mem.set]
      · simp [zero, Mem.set, e2]
    · by_cases e2 : a = s.rx
      · subst e2; simp [zero, Mem.set, e1]
      · simp [zero, Mem.set, e1, e2]
  · intro x hx
    by_cases e1 : a = s.tx
    · subst e1
      simp only [zero, set_eq] at hx
      exact mem_zeros hx
    · simp only [keysOf, List.mem_cons, List.not_mem_nil, or_false] at ha
      rcases ha with rfl | ha
      · simp only [zero, set_ne e1, set_eq] at hx
        exact mem_zeros hx
      · exact absurd ha e1

/-- Either session is reset. -/
theorem Inv.resetActive (h : Inv m0 Q st m) : Inv m0 Q { st with active := (st.active.reset m).1 } (st.active.reset m).2 := by
  obtain ⟨z1, z2, z3, z4, z5⟩ := zeroed st.active m
  rw [z1]
  have ho : owned { st with active := { st.active with valid := false } } = owned st := rfl
  refine ⟨h.nodup, fun a ha => by rw [z2]; exact h.range a ha, fun a ha => ?_, fun a ha => ?_, fun a ha hx => ?_, fun _ a ha => ?_, fun hv a ha => ?_⟩
  · rw [z2] at ha
    rw [z3 a fun hk => ?_, h.free a ha]
    have := h.range a (mem_owned.mpr (.inr (.inr (.inl hk))))
    omega
  · rw [(z4 a).1, (z4 a).2]; exact h.once a ha
  · rw [ho] at ha
    rw [z2] at hx
    exact (h.rest a ha hx).congr (z3 a fun hk => ha (mem_owned.mpr (.inr (.inr (.inl hk)))))
  · exact .inr (z5 a ha)
  · exact blank_congr (h.pending hv a ha) (z3 a fun hk => h.apart.2.2.2.1 hk ha)

theorem Inv.swap (h : Inv m0 Q st m) : Inv m0 Q { st with active := st.pending, pending := st.active } m := by
  have hp : (owned { st with active := st.pending, pending := st.active }).Perm (owned st) := by
    unfold owned
    refine List.Perm.append_right _ ?_
    rw [List.append_assoc _ (keysOf st.active), List.append_assoc _ (keysOf st.pending)]
    exact List.Perm.append_left _ List.perm_append_comm
  exact ⟨hp.nodup_iff.mpr h.nodup, fun a ha => h.range a (hp.mem_iff.mp ha), h.free, h.once,
    fun a ha hx => h.rest a (fun hx => ha (hp.mem_iff.mpr hx)) hx, h.pending, h.active⟩

/-- The quantum key of an initiator is given up. -/
theorem Inv.forget {key : Option Nat} {hash : Nat} (h : Inv m0 Q st m) (hr : st.role = .initiator (.qkd key hash)) :
    Inv m0 Q { st with role := .initiator (.qkd none hash) } (drop key m).2 := by
  obtain ⟨role, active, pending, store⟩ := st
  simp only at hr
  subst hr
  cases key with
  | none => exact h
  | some k =>
    have hn := h.nodup
    obtain ⟨z1, z2, z3⟩ := release_cell (h.once k (by simp [quantum]))
    have ho : ∀ a, a ∈ owned ⟨.initiator (.qkd (some k) hash), active, pending, store⟩ ↔
        a = k ∨ a ∈ owned ⟨.initiator (.qkd none hash), active, pending, store⟩ := fun a => by
      simp only [mem_owned, longTerm, members, List.mem_cons, List.not_mem_nil, or_false, false_or, or_assoc]
    have hk : k ∉ owned ⟨.initiator (.qkd none hash), active, pending, store⟩ ∧
        (owned ⟨.initiator (.qkd none hash), active, pending, store⟩).Nodup := List.nodup_cons.mp hn
    have hne : ∀ a, a ∈ owned ⟨.initiator (.qkd none hash), active, pending, store⟩ → a ≠ k := fun a ha e => hk.1 (e ▸ ha)
    have hb := h.range k ((ho k).mpr (.inl rfl))
    show Inv m0 Q _ (release k m).2
    refine ⟨hk.2, fun a ha => by rw [z3]; exact h.range a ((ho a).mpr (.inr ha)), fun a ha => ?_, fun a ha => ?_, fun a ha hx => ?_,
      fun hv a ha => ?_, fun hv a ha => ?_⟩
    · rw [z3] at ha
      rw [z2 a (by omega), h.free a ha]
    · have ha' : a ∈ store.map Prod.snd := by
        rcases List.mem_append.mp ha with ha | ha
        · exact ha
        · cases ha
      rw [z2 a (hne a (mem_owned.mpr (.inr (.inr (.inr (.inr ha'))))))]
      exact h.once a (List.mem_append.mpr (.inl ha'))
    · rw [z3] at hx
      by_cases e : a = k
      · subst e; exact .inl (.inr z1)
      · refine (h.rest a (fun hx => ?_) hx).congr (z2 a e)
        rcases (ho a).mp hx with h1 | h1
        · exact e h1
        · exact ha h1
    · exact blank_congr (h.active hv a ha) (z2 a (hne a (mem_owned.mpr (.inr (.inr (.inl ha))))))
    · exact blank_congr (h.pending hv a ha) (z2 a (hne a (mem_owned.mpr (.inr (.inr (.inr (.inl ha)))))))

/-- An initiator takes a key from its store. -/
theorem Inv.take {hash a : Nat} {id : UInt64} {left : StoreMem} (h : Inv m0 Q st m) (hr : st.role = .initiator (.qkd none hash))
    (hp : ((id, a) :: left).Perm st.store) :
    Inv m0 Q { st with role := .initiator (.qkd (some a) hash), store := left } m := by
  obtain ⟨role, active, pending, store⟩ := st
  simp only at hr hp
  subst hr
  have hq : (owned ⟨.initiator (.qkd (some a) hash), active, pending, left⟩).Perm
      (owned ⟨.initiator (.qkd none hash), active, pending, store⟩) := by
    refine List.Perm.trans ?_ (List.Perm.append_left _ (hp.map Prod.snd))
    exact (List.perm_middle (l₁ := [hash] ++ keysOf active ++ keysOf pending)).symm
  refine ⟨hq.nodup_iff.mpr h.nodup, fun a ha => h.range a (hq.mem_iff.mp ha), h.free, fun x hx => h.once x ?_,
    fun x hx hl => h.rest x (fun hy => hx (hq.mem_iff.mpr hy)) hl, h.active, h.pending⟩
  refine List.mem_append.mpr (.inl ((hp.map Prod.snd).mem_iff.mp ?_))
  simp only [List.map_cons, List.mem_cons]
  rcases List.mem_append.mp hx with hx | hx
  · exact .inr hx
  · exact .inl (List.mem_singleton.mp hx)

/-- Both conditions. -/
def Good (m0 : Mem) (Q : Bytes → Prop) (st : Station) (m : Mem) : Prop := Inv m0 Q st m ∧ Sorted st.store

theorem Inv.belowPending (h : Inv m0 Q st m) {a : Nat} (ha : a = st.pending.rx ∨ a = st.pending.tx) : a < m.next :=
  h.range a (mem_owned.mpr (.inr (.inr (.inr (.inl (by simpa [keysOf] using ha))))))

/-- Processing that only touches the pending session. -/
theorem Inv.process {γ : Type} {f : Op (SessionMem × γ)} (h : Inv m0 Q st m) (hf : Frames (Touches st.pending) Q f)
    (hs : Yields (Same st.pending) f) : Inv m0 Q { st with pending := (f m).1.1 } (f m).2 := by
  refine h.frame (hf m fun r a ha => h.belowPending ha.2) (hs m) fun a ha => .inr ⟨ha.1, ?_⟩
  simpa [keysOf] using ha.2

theorem qkd_frames (b : Backend) (key : Nat) (msgBytes : Bytes) (fw : FrameWriter) (s : SessionMem) :
    Frames (Touches s) P (respondMem b ⟨protocolVersion, [], []⟩ (fun k => do
      let x ← read key
      k [x]) msgBytes fw s) :=
  frames_respond _ _ _ _ _ _ fun _ k hk => Frames.bind (A := fun _ => False) (Frames.read _) (fun _ _ h => h.elim) fun x => hk _

theorem qkd_same (b : Backend) (key : Nat) (msgBytes : Bytes) (fw : FrameWriter) (s : SessionMem) :
    Yields (Same s) (respondMem b ⟨protocolVersion, [], []⟩ (fun k => do
      let x ← read key
      k [x]) msgBytes fw s) :=
  same_respond _ _ _ _ _ _ fun k hk => Yields.bind fun _ => hk _

theorem find_id {store : StoreMem} {id : UInt64} {r : UInt64 × Nat} (h : store.find? (fun r => r.1 = id) = some r) :
    r.1 = id ∧ r ∈ store := ⟨by simpa using List.find?_some h, List.mem_of_find?_eq_some h⟩

/-- The conditions hold after the program. -/
def After (m0 : Mem) (Q : Bytes → Prop) (st : Station) (m : Mem) (f : Op (StoreMem × Processed)) : Prop :=
  Good m0 Q { st with pending := (f m).1.2.1, store := (f m).1.1 } (f m).2

theorem Good.processQkd (h : Good m0 Q st m) (b : Backend) (caps : Caps) (msg : RequestHandshakeBegin) (msgBytes : Bytes) (fw : FrameWriter) :
    After m0 Q st m (processQkd b caps st.store msg msgBytes fw st.pending) := by
  unfold SSP21.Memory.processQkd
  split
  · exact h
  split
  · exact h
  split
  · exact h
  simp only
  split
  · exact h
  · rename_i id' key hfind
    obtain ⟨hid, hmem⟩ := find_id hfind
    have hown : (m.cell key).wipes = true ∧ (m.cell key).owners = 1 :=
      h.1.once key (List.mem_append.mpr (.inl (List.mem_map.mpr ⟨_, hmem, rfl⟩)))
    have e := share_release hown.2
    have h1 := h.1.process (qkd_frames b key msgBytes fw st.pending) (qkd_same b key msgBytes fw st.pending)
    have h2 := h1.erase (gone := [(id', key)]) (filter_found h.2 hfind)
    have h3 : Good m0 Q _ _ := ⟨h2, h.2.filter _⟩
    unfold After
    simp only [Bind.bind, Pure.pure, e]
    exact h3

theorem Good.step (g : Setting) (h : Good m0 Q st m) (e : Event)
    (hq : ∀ rnd msg raw, e = .request rnd msg raw → Q (published g.backend st.role rnd)) :
    Good m0 Q (st.step g e m).1 (st.step g e m).2 := by
  cases e with
  | request rnd msg raw =>
    have hq := hq _ _ _ rfl
    obtain ⟨role, active, pending, store⟩ := st
    match role with
    | .responder (.sharedSecret key) =>
      exact ⟨h.1.process (frames_shared _ _ _ _ _ _ _ _ hq) (same_shared _ _ _ _ _ _ _ _), h.2⟩
    | .responder .qkd => exact h.processQkd g.backend g.caps msg raw g.fw
    | .responder (.publicKey priv certs) =>
      exact ⟨h.1.process (frames_public _ _ _ _ _ _ _ _ _ hq) (same_public _ _ _ _ _ _ _ _ _), h.2⟩
    | .initiator _ => exact h
  | begin rnd =>
    obtain ⟨role, active, pending, store⟩ := st
    match role, h with
    | .responder _, h => exact h
    | .initiator (.sharedSecret k n hs), h =>
      have hf : Frames (fun _ x => x = n) Q (do put n rnd; setLength n 32) :=
        Frames.andThen (Frames.put n rnd fun _ => rfl) fun _ => Frames.setLength n 32 fun _ => rfl
      have hn : ∀ a, a = n → a ∈ members (.initiator (.sharedSecret k n hs)) := fun a ha => by subst ha; simp [members]
      have h1 := h.1.keep (hf m fun _ a ha => h.1.range a (mem_owned.mpr (.inr (.inl (hn a ha))))) hn
      exact ⟨h1, h.2⟩
    | .initiator (.publicKey k c pub priv hs), h =>
      have hf : Frames (fun _ x => x = pub ∨ x = priv) Q (genKeyPairInto g.backend rnd pub priv) :=
        frames_gen g.backend rnd pub priv (fun _ => .inl rfl) (fun _ => .inr rfl)
      have hn : ∀ a, a = pub ∨ a = priv → a ∈ members (.initiator (.publicKey k c pub priv hs)) := fun a ha => by
        rcases ha with rfl | rfl <;> simp [members]
      have h1 := h.1.keep (hf m fun _ a ha => h.1.range a (mem_owned.mpr (.inr (.inl (hn a ha))))) hn
      exact ⟨h1, h.2⟩
    | .initiator (.qkd key hash), h =>
      have h1 := h.1.forget rfl
      generalize hr : (Station.step g ⟨.initiator (.qkd key hash), active, pending, store⟩ (.begin rnd)) m = r
      generalize hm : (drop key m).2 = m1 at h1
      have hr' : r = (match store.getLast? with
          | none => ((⟨.initiator (.qkd none hash), active, pending, store⟩ : Station), m1)
          | some (_, a) => (⟨.initiator (.qkd (some a) hash), active, pending, store.dropLast⟩, (release a (share a m1).2).2)) := by
        rw [← hr, ← hm]
        simp only [Station.step, InitiatorMem.begin, Bind.bind]
        cases store.getLast? with
        | none => rfl
        | some x => rfl
      rw [hr']
      cases hl : store.getLast? with
      | none => exact ⟨h1, h.2⟩
      | some x =>
        obtain ⟨id, a⟩ := x
        have hp : ((id, a) :: store.dropLast).Perm store := by
          obtain ⟨ys, rfl⟩ := List.getLast?_eq_some_iff.mp hl
          rw [List.dropLast_concat]
          exact (List.perm_append_singleton _ _).symm
        have ha : (m1.cell a).owners = 1 := (h1.once a (List.mem_append.mpr (.inl (List.mem_map.mpr ⟨(id, a), hp.mem_iff.mp List.mem_cons_self, rfl⟩)))).2
        refine ⟨?_, List.Pairwise.sublist (List.dropLast_sublist _) h.2⟩
        show Inv m0 Q _ (release a (share a m1).2).2
        rw [share_release ha]
        exact h1.take rfl hp
  | requested raw =>
    obtain ⟨role, active, pending, store⟩ := st
    match role with
    | .responder _ => exact h
    | .initiator i =>
      have hi : i.hash ∈ members (.initiator i) := by
        match i with
        | .sharedSecret .. => simp [members, InitiatorMem.hash]
        | .qkd none _ => simp [members, InitiatorMem.hash]
        | .qkd (some _) _ => simp [members, InitiatorMem.hash]
        | .publicKey .. => simp [members, InitiatorMem.hash]
      refine ⟨h.1.keep (W := fun x => x = i.hash) ?_ fun a ha => by subst ha; exact hi, h.2⟩
      exact (frames_hash g.backend raw i.hash (fun _ => rfl) : Frames (fun _ x => x = i.hash) Q _) m
        fun _ a ha => h.1.range a (by subst ha; exact mem_owned.mpr (.inr (.inl hi)))
  | reply msg raw rollback =>
    obtain ⟨role, active, pending, store⟩ := st
    match role with
    | .responder _ => exact h
    | .initiator i =>
      have hi : i.hash ∈ members (.initiator i) := by
        match i with
        | .sharedSecret .. => simp [members, InitiatorMem.hash]
        | .qkd none _ => simp [members, InitiatorMem.hash]
        | .qkd (some _) _ => simp [members, InitiatorMem.hash]
        | .publicKey .. => simp [members, InitiatorMem.hash]
      have hf := frames_reply (P := Q) i g.backend g.caps msg raw rollback pending m fun r a ha => by
        rcases ha with ha | ha
        · exact h.1.belowPending ha.2
        · exact h.1.range a (by subst ha; exact mem_owned.mpr (.inr (.inl hi)))
      refine ⟨h.1.frame hf (same_reply i g.backend g.caps msg raw rollback pending m) fun a ha => ?_, h.2⟩
      rcases ha with ha | ha
      · exact .inr ⟨ha.1, by simpa [keysOf] using ha.2⟩
      · exact .inl (by subst ha; exact hi)
  | transmit mode p nonce ad clear n =>
    simp only [Station.step]
    split
    · exact ⟨h.1.keep (frames_seal g.backend mode (st.session p).tx nonce ad clear n m fun _ _ h => h.elim) fun _ h => h.elim, h.2⟩
    · exact h
  | receive mode p nonce ad cipher tag n =>
    simp only [Station.step]
    split
    · exact ⟨h.1.keep (frames_open g.backend mode (st.session p).rx nonce ad cipher tag n m fun _ _ h => h.elim) fun _ h => h.elim, h.2⟩
    · exact h
  | activate => exact ⟨h.1.resetActive.swap, h.2⟩
  | reset => exact ⟨h.1.resetActive.swap.resetActive.swap, h.2⟩
  | key id key => exact h.1.addKey h.2 _ _ _

/-- The kind of a station does not change. -/
theorem published_step (g : Setting) (st : Station) (e : Event) (m : Mem) (rnd : Bytes) :
    published g.backend (st.step g e m).1.role rnd = published g.backend st.role rnd := by
  obtain ⟨role, active, pending, store⟩ := st
  match e with
  | .request .. => match role with
    | .responder (.sharedSecret _) => rfl
    | .responder .qkd => rfl
    | .responder (.publicKey ..) => rfl
    | .initiator _ => rfl
  | .begin _ => match role with
    | .responder _ => rfl
    | .initiator _ => rfl
  | .requested _ => match role with
    | .responder _ => rfl
    | .initiator _ => rfl
  | .reply .. => match role with
    | .responder _ => rfl
    | .initiator _ => rfl
  | .transmit .. => simp only [Station.step]; split <;> rfl
  | .receive .. => simp only [Station.step]; split <;> rfl
  | .activate => rfl
  | .reset => rfl
  | .key .. => rfl

theorem Good.run (g : Setting) : ∀ (es : List Event) {st : Station} {m : Mem}, Good m0 Q st m →
    (∀ p, Published g.backend st.role es p → Q p) → Good m0 Q (st.run g es m).1 (st.run g es m).2
  | [], _, _, h, _ => h
  | e :: es, st, m, h, hq => by
    refine Good.run g es (h.step g e fun rnd msg raw he => hq _ ⟨rnd, msg, raw, by rw [he]; exact List.mem_cons_self, rfl⟩) ?_
    rintro p ⟨rnd, msg, raw, hm, rfl⟩
    rw [published_step]
    exact hq _ ⟨rnd, msg, raw, List.mem_cons_of_mem _ hm, rfl⟩

/-! ### The beginning -/

/-- Nothing has been written but to the addresses in `K`. -/
structure Fresh (m0 : Mem) (K : List Nat) (m : Mem) : Prop where
  le : m0.next ≤ m.next
  free : ∀ a, m.next ≤ a → m.cell a = m0.cell a
  blank : ∀ a, a ∉ K → Blank m0 m a

theorem Fresh.refl (m0 : Mem) : Fresh m0 [] m0 := ⟨Nat.le_refl _, fun _ _ => rfl, fun _ _ => .inl rfl⟩

theorem Fresh.new {K : List Nat} (h : Fresh m0 K m) (w : Bool) : Fresh m0 K (new w m).2 := by
  refine ⟨Nat.le_succ_of_le h.le, fun a ha => ?_, fun a ha => ?_⟩
  · replace ha : m.next + 1 ≤ a := ha
    rw [show (SSP21.Memory.new w m).2.cell a = m.cell a from set_ne (by omega)]
    exact h.free a (by omega)
  · by_cases e : a = m.next
    · subst e
      left
      rw [← h.free m.next (Nat.le_refl _)]
      simp [SSP21.Memory.new, Mem.set]
    · exact blank_congr (h.blank a ha) (set_ne e)

theorem fresh_load (contents payload : Bytes) (m0 : Mem) :
    (loadKey contents payload m0).1 = m0.next + 1 ∧ (loadKey contents payload m0).2.next = m0.next + 2 ∧
    Fresh m0 [m0.next + 1] (loadKey contents payload m0).2 ∧
    ∀ x ∈ ((loadKey contents payload m0).2.cell m0.next).bytes, x = 0 := by
  have hz : ∀ x ∈ ((loadKey contents payload m0).2.cell m0.next).bytes, x = 0 := by
    intro x hx
    simp [loadKey, withLocal, Bind.bind, Pure.pure, SSP21.Memory.new, put, setLength, release, Mem.set] at hx
    exact mem_zeros hx
  have ho : ∀ a, a ≠ m0.next → a ≠ m0.next + 1 → (loadKey contents payload m0).2.cell a = m0.cell a := by
    intro a h1 h2
    simp [loadKey, withLocal, Bind.bind, Pure.pure, SSP21.Memory.new, put, setLength, release, Mem.set, h1, h2]
  refine ⟨rfl, rfl, ⟨by show m0.next ≤ m0.next + 2; omega, fun a ha => ?_, fun a ha => ?_⟩, hz⟩
  · replace ha : m0.next + 2 ≤ a := ha
    exact ho a (by omega) (by omega)
  · by_cases e : a = m0.next
    · subst e; exact .inr hz
    · refine .inl (congrArg Cell.bytes (ho a e fun h => ha ?_))
      simp [h]

theorem Fresh.good {m0 : Mem} {K : List Nat} {st : Station} {m : Mem} (h : Fresh m0 K m) (hK : K = longTerm st.role) (hn : (owned st).Nodup)
    (hb : ∀ a ∈ owned st, a < m.next) (hs : st.store = []) (hq : quantum st.role = []) : Good m0 Q st m := by
  have hd : ∀ a, a ∈ members st.role ++ keysOf st.active ++ keysOf st.pending → Blank m0 m a := fun a ha => h.blank a fun hk => by
    rw [hK] at hk
    unfold owned at hn
    simp only [List.append_assoc] at hn
    obtain ⟨-, -, h3⟩ := List.nodup_append.mp hn
    refine h3 a hk a ?_ rfl
    simp only [List.mem_append] at ha ⊢
    rcases ha with (ha | ha) | ha
    exacts [.inl ha, .inr (.inl ha), .inr (.inr (.inl ha))]
  refine ⟨⟨hn, hb, h.free, fun a ha => ?_, fun a ha _ => .inl (h.blank a fun hk => ha (mem_owned.mpr (.inl (hK ▸ hk)))), fun _ a ha => ?_, fun _ a ha => ?_⟩, ?_⟩
  · rw [hs, hq] at ha
    cases ha
  · exact hd a (by simp [ha])
  · exact hd a (by simp [ha])
  · rw [hs]; exact List.Pairwise.nil

theorem good_start (kind : Kind) (contents payload : Bytes) (m0 : Mem) :
    Good m0 Q (start kind contents payload m0).1 (start kind contents payload m0).2 := by
  obtain ⟨l1, l2, l3, -⟩ := fresh_load contents payload m0
  cases kind with
  | sharedSecretResponder =>
    refine Fresh.good ((((l3.new true).new true).new true).new true) rfl ?_ ?_ rfl rfl
    all_goals
      simp [start, newSession, owned, longTerm, members, keysOf, Bind.bind, Pure.pure, SSP21.Memory.new, Mem.set, l1, l2]
  | qkdResponder =>
    refine Fresh.good (((((Fresh.refl m0).new true).new true).new true).new true) rfl ?_ ?_ rfl rfl
    all_goals
      simp [start, newSession, owned, longTerm, members, keysOf, Bind.bind, Pure.pure, SSP21.Memory.new, Mem.set, l1, l2]
      omega
  | publicKeyResponder certs =>
    refine Fresh.good ((((l3.new true).new true).new true).new true) rfl ?_ ?_ rfl rfl
    all_goals
      simp [start, newSession, owned, longTerm, members, keysOf, Bind.bind, Pure.pure, SSP21.Memory.new, Mem.set, l1, l2]
  | sharedSecretInitiator =>
    refine Fresh.good ((((((l3.new false).new true).new true).new true).new true).new true) rfl ?_ ?_ rfl rfl
    all_goals
      simp [start, newSession, owned, longTerm, members, keysOf, Bind.bind, Pure.pure, SSP21.Memory.new, Mem.set, l1, l2]
  | qkdInitiator =>
    refine Fresh.good ((((((Fresh.refl m0).new true).new true).new true).new true).new true) rfl ?_ ?_ rfl rfl
    all_goals
      simp [start, newSession, owned, longTerm, members, keysOf, Bind.bind, Pure.pure, SSP21.Memory.new, Mem.set, l1, l2]
      omega
  | publicKeyInitiator certs =>
    refine Fresh.good (((((((l3.new false).new true).new true).new true).new true).new true).new true) rfl ?_ ?_ rfl rfl
    all_goals
      simp [start, newSession, owned, longTerm, members, keysOf, Bind.bind, Pure.pure, SSP21.Memory.new, Mem.set, l1, l2]

theorem good_history (g : Setting) (kind : Kind) (contents payload : Bytes) (events : List Event) (m0 : Mem) :
    Good m0 (Published g.backend (start kind contents payload m0).1.role events)
      (history g kind contents payload events m0).1 (history g kind contents payload events m0).2 :=
  (good_start kind contents payload m0).run g events fun _ h => h

theorem run_append (g : Setting) (es es' : List Event) : ∀ (st : Station) (m : Mem),
    st.run g (es ++ es') m = (st.run g es m).1.run g es' (st.run g es m).2 := by
  induction es with
  | nil => intro st m; rfl
  | cons e es ih => intro st m; exact ih _ _

theorem role_kind_step (g : Setting) (st : Station) (e : Event) (m : Mem) :
    isResponder (st.step g e m).1.role ↔ isResponder st.role := by
  obtain ⟨role, active, pending, store⟩ := st
  match e with
  | .request .. => match role with
    | .responder (.sharedSecret _) => exact Iff.rfl
    | .responder .qkd => exact Iff.rfl
    | .responder (.publicKey ..) => exact Iff.rfl
    | .initiator _ => exact Iff.rfl
  | .begin _ => match role with
    | .responder _ => exact Iff.rfl
    | .initiator _ => exact Iff.rfl
  | .requested _ => match role with
    | .responder _ => exact Iff.rfl
    | .initiator _ => exact Iff.rfl
  | .reply .. => match role with
    | .responder _ => exact Iff.rfl
    | .initiator _ => exact Iff.rfl
  | .transmit .. => simp only [Station.step]; split <;> exact Iff.rfl
  | .receive .. => simp only [Station.step]; split <;> exact Iff.rfl
  | .activate => exact Iff.rfl
  | .reset => exact Iff.rfl
  | .key .. => exact Iff.rfl

theorem role_kind_run (g : Setting) : ∀ (es : List Event) (st : Station) (m : Mem), isResponder (st.run g es m).1.role ↔ isResponder st.role
  | [], _, _ => Iff.rfl
  | e :: es, st, m => (role_kind_run g es _ _).trans (role_kind_step g st e m)

theorem releaseAll_other : ∀ (l : StoreMem) (m : Mem) (x : Nat), x ∉ l.map Prod.snd → (releaseAll l m).2.cell x = m.cell x
  | [], _, _, _ => rfl
  | r :: l, m, x, h => by
    simp only [List.map_cons, List.mem_cons, not_or] at h
    show (releaseAll l (release r.2 m).2).2.cell x = m.cell x
    rw [releaseAll_other l _ x h.2]
    exact set_ne h.1

theorem releaseAll_next : ∀ (l : StoreMem) (m : Mem), (releaseAll l m).2.next = m.next
  | [], _ => rfl
  | r :: l, m => releaseAll_next l (release r.2 m).2

/-- Adding a key leaves everything else alone. -/
theorem addKey_same (max : UInt16) (store : StoreMem) (id : UInt64) (key : Bytes) (a : Nat) (ha : a < m.next)
    (hn : a ∉ store.map Prod.snd) : (addKeyMem max store id key m).2.cell a = m.cell a := by
  have core : ∀ (store : StoreMem) (m : Mem), a < m.next → a ∉ store.map Prod.snd →
      (addRecord max store id key m).2.cell a = m.cell a := by
    intro store m ha hn
    have e1 : (setLength m.next 32 (put m.next key (new true m).2).2).2.cell a = m.cell a := by
      have : a ≠ m.next := by omega
      simp [SSP21.Memory.new, put, setLength, Mem.set, this]
    have e2 : (releaseAll (store.filter fun r => r.1 = id) (setLength m.next 32 (put m.next key (new true m).2).2).2).2.cell a = m.cell a := by
      rw [releaseAll_other _ _ _ fun hx => hn ?_, e1]
      obtain ⟨r, hr, rfl⟩ := List.mem_map.mp hx
      exact List.mem_map.mpr ⟨r, (List.mem_filter.mp hr).1, rfl⟩
    have hr : addRecord max store id key m = (if (insertMem id m.next store).length > max.toNat then (do
          releaseAll ((insertMem id m.next store).take 1)
          Pure.pure ((insertMem id m.next store).drop 1) : Op StoreMem)
        else Pure.pure (insertMem id m.next store))
        (releaseAll (store.filter fun r => r.1 = id) (setLength m.next 32 (put m.next key (new true m).2).2).2).2 := rfl
    rw [hr]
    split
    · show (releaseAll _ _).2.cell a = _
      rw [releaseAll_other _ _ _ fun hx => ?_, e2]
      obtain ⟨r, hr, e⟩ := List.mem_map.mp hx
      rcases mem_insertMem (List.mem_of_mem_take hr) with rfl | h1
      · simp only at e; omega
      · exact hn (List.mem_map.mpr ⟨r, h1, e⟩)
    · exact e2
  unfold addKeyMem
  split
  · show (addRecord max [] id key (releaseAll store m).2).2.cell a = _
    have hl := releaseAll_next store m
    rw [core [] _ (by omega) (by simp), releaseAll_other _ _ _ hn]
  · exact core store m ha hn

theorem material_members {role : RoleMem} {a : Nat} (h : a ∈ material role) : a ∈ members role := by
  match role with
  | .responder _ => cases h
  | .initiator (.sharedSecret ..) => simp only [material, members, List.mem_cons, List.not_mem_nil, or_false] at *; simp [h]
  | .initiator (.qkd none _) => cases h
  | .initiator (.qkd (some _) _) => simp only [material, members, List.mem_cons, List.not_mem_nil, or_false] at *; simp [h]
  | .initiator (.publicKey ..) => simp only [material, members, List.mem_cons, List.not_mem_nil, or_false] at *; omega

/-- Only the beginning of a handshake changes the material of an initiator. -/
theorem material_step (g : Setting) (h : Good m0 Q st m) (e : Event) (hb : ∀ rnd, e ≠ .begin rnd) (hi : ¬ isResponder st.role) :
    (st.step g e m).1.role = st.role ∧ ∀ a ∈ material st.role, ((st.step g e m).2.cell a).bytes = (m.cell a).bytes := by
  obtain ⟨role, active, pending, store⟩ := st
  match role, hi with
  | .responder _, hi => exact absurd trivial hi
  | .initiator i, _ =>
    have hlt : ∀ a ∈ material (.initiator i), a < m.next := fun a ha => h.1.range a (mem_owned.mpr (.inr (.inl (material_members ha))))
    have hmh : ∀ a ∈ material (.initiator i), a ≠ i.hash := fun a ha e => by
      have hn : (members (.initiator i)).Nodup := by
        have := h.1.nodup
        unfold owned at this
        obtain ⟨h1, -, -⟩ := List.nodup_append.mp this
        obtain ⟨h1, -, -⟩ := List.nodup_append.mp h1
        obtain ⟨h1, -, -⟩ := List.nodup_append.mp h1
        exact (List.nodup_append.mp h1).2.1
      match i with
      | .sharedSecret _ n x => simp only [material, members, InitiatorMem.hash, List.mem_cons, List.not_mem_nil, or_false, List.nodup_cons] at *; omega
      | .qkd none _ => cases ha
      | .qkd (some _) _ => simp only [material, members, InitiatorMem.hash, List.mem_cons, List.not_mem_nil, or_false, List.nodup_cons] at *; omega
      | .publicKey _ _ _ _ _ => simp only [material, members, InitiatorMem.hash, List.mem_cons, List.not_mem_nil, or_false, List.nodup_cons] at *; omega
    have hpk : ∀ a ∈ material (.initiator i), a ∉ keysOf pending := fun a ha hk => h.1.apart.2.2.1 hk (material_members ha)
    have hak : ∀ a ∈ material (.initiator i), a ∉ keysOf active := fun a ha hk => h.1.apart.2.1 hk (material_members ha)
    have hi : i.hash < m.next := h.1.range _ (mem_owned.mpr (.inr (.inl (by
        match i with
        | .sharedSecret .. => simp [members, InitiatorMem.hash]
        | .qkd none _ => simp [members, InitiatorMem.hash]
        | .qkd (some _) _ => simp [members, InitiatorMem.hash]
        | .publicKey .. => simp [members, InitiatorMem.hash]))))
    cases e with
    | request rnd msg raw => exact ⟨rfl, fun _ _ => rfl⟩
    | begin rnd => exact absurd rfl (hb rnd)
    | requested raw =>
      refine ⟨rfl, fun a ha => congrArg Cell.bytes ?_⟩
      exact ((frames_hash g.backend raw i.hash (fun _ => rfl) : Frames (fun _ x => x = i.hash) (fun _ => True) _) m
        fun _ a ha => by subst ha; exact hi).same a (hlt a ha) (hmh a ha)
    | reply msg raw rollback =>
      refine ⟨rfl, fun a ha => congrArg Cell.bytes ?_⟩
      refine (frames_reply (P := fun _ => True) i g.backend g.caps msg raw rollback pending m fun r a ha => ?_).same a (hlt a ha) ?_
      · rcases ha with ha | ha
        · exact h.1.belowPending ha.2
        · subst ha; exact hi
      · rintro (h1 | h1)
        · exact hpk a ha (by simpa [keysOf] using h1.2)
        · exact hmh a ha h1
    | transmit mode p nonce ad clear n =>
      simp only [Station.step]
      split
      · exact ⟨rfl, fun a ha => congrArg Cell.bytes ((frames_seal (P := fun _ => True) g.backend mode _ nonce ad clear n m fun _ _ h => h.elim).same a (hlt a ha) id)⟩
      · exact ⟨rfl, fun _ _ => rfl⟩
    | receive mode p nonce ad cipher tag n =>
      simp only [Station.step]
      split
      · exact ⟨rfl, fun a ha => congrArg Cell.bytes ((frames_open (P := fun _ => True) g.backend mode _ nonce ad cipher tag n m fun _ _ h => h.elim).same a (hlt a ha) id)⟩
      · exact ⟨rfl, fun _ _ => rfl⟩
    | activate => exact ⟨rfl, fun a ha => congrArg Cell.bytes ((zeroed active m).2.2.1 a (hak a ha))⟩
    | reset => exact ⟨rfl, fun a ha => congrArg Cell.bytes (((zeroed pending _).2.2.1 a (hpk a ha)).trans ((zeroed active m).2.2.1 a (hak a ha)))⟩
    | key id key => exact ⟨rfl, fun a ha => congrArg Cell.bytes (addKey_same _ _ _ _ _ (hlt a ha) fun hs => (h.1.apart.2.2.2.2 hs).2.2.1 (material_members ha))⟩

theorem material_run (g : Setting) : ∀ (es : List Event) {st : Station} {m : Mem}, Good m0 Q st m →
    (∀ p, Published g.backend st.role es p → Q p) → (∀ e ∈ es, ∀ rnd, e ≠ .begin rnd) → ¬ isResponder st.role →
    (st.run g es m).1.role = st.role ∧ ∀ a ∈ material st.role, ((st.run g es m).2.cell a).bytes = (m.cell a).bytes
  | [], _, _, _, _, _, _ => ⟨rfl, fun _ _ => rfl⟩
  | e :: es, st, m, h, hq, hb, hi => by
    have h1 := material_step g h e (hb e List.mem_cons_self) hi
    have h2 := h.step g e fun rnd msg raw he => hq _ ⟨rnd, msg, raw, by rw [he]; exact List.mem_cons_self, rfl⟩
    have ih := material_run g es h2 (fun p hp => by
      obtain ⟨rnd, msg, raw, hm, rfl⟩ := hp
      rw [published_step]
      exact hq _ ⟨rnd, msg, raw, List.mem_cons_of_mem _ hm, rfl⟩) (fun e he => hb e (List.mem_cons_of_mem _ he)) (by rw [h1.1]; exact hi)
    rw [h1.1] at ih
    exact ⟨ih.1, fun a ha => (ih.2 a ha).trans (h1.2 a ha)⟩

end MemoryProof

open MemoryProof

/-! ## Theorems -/

/-- At every moment in the life of a station, whatever has happened: outside the places where keys are meant to be there is
nothing that the station has written - each address is as it was before or zero - except the nonces and ephemeral public keys
that a responder has sent in its replies. -/
theorem C63_nowhere_else (g : Setting) (kind : Kind) (contents payload : Bytes) (events : List Event) (m0 : Mem) (a : Nat)
    (ha : a ∉ kept (history g kind contents payload events m0).1) :
    Blank m0 (history g kind contents payload events m0).2 a ∨
      ∃ p, Published g.backend (start kind contents payload m0).1.role events p ∧
        Holds m0 (history g kind contents payload events m0).2 a p := by
  have h := (good_history g kind contents payload events m0).1
  generalize history g kind contents payload events m0 = r at h ha
  simp only [kept, List.mem_append, not_or] at ha
  obtain ⟨⟨⟨⟨h1, h2⟩, h3⟩, h4⟩, h5⟩ := ha
  by_cases ho : a ∈ owned r.1
  · left
    rcases mem_owned.mp ho with ho | ho | ho | ho | ho
    · exact absurd ho h1
    · exact absurd ho h2
    · cases hv : r.1.active.valid
      · exact h.active hv a ho
      · rw [hv] at h4; exact absurd ho h4
    · cases hv : r.1.pending.valid
      · exact h.pending hv a ho
      · rw [hv] at h5; exact absurd ho h5
    · exact absurd ho h3
  · by_cases hl : a < r.2.next
    · exact h.rest a ho hl
    · exact .inl (.inl (by rw [h.free a (by omega)]))

/-- When a responder has closed its sessions only its long-term key and the quantum keys that have not been used are left. -/
theorem C63_responder_closed_partial (g : Setting) (kind : Kind) (contents payload : Bytes) (events : List Event) (m0 : Mem)
    (hk : isResponder (start kind contents payload m0).1.role) (a : Nat)
    (h1 : a ∉ longTerm (history g kind contents payload (events ++ [.reset]) m0).1.role)
    (h2 : a ∉ (history g kind contents payload (events ++ [.reset]) m0).1.store.map Prod.snd) :
    Blank m0 (history g kind contents payload (events ++ [.reset]) m0).2 a ∨
      ∃ p, Published g.backend (start kind contents payload m0).1.role (events ++ [.reset]) p ∧
        Holds m0 (history g kind contents payload (events ++ [.reset]) m0).2 a p := by
  refine C63_nowhere_else g kind contents payload (events ++ [.reset]) m0 a ?_
  have hr := (role_kind_run g (events ++ [.reset]) (start kind contents payload m0).1 (start kind contents payload m0).2).mpr hk
  have hv : (history g kind contents payload (events ++ [.reset]) m0).1.active.valid = false ∧
      (history g kind contents payload (events ++ [.reset]) m0).1.pending.valid = false := by
    simp only [history, Bind.bind, run_append]
    exact ⟨rfl, rfl⟩
  change isResponder (history g kind contents payload (events ++ [.reset]) m0).1.role at hr
  generalize history g kind contents payload (events ++ [.reset]) m0 = r at h1 h2 hr hv
  simp only [kept, hv.1, hv.2, List.mem_append, Bool.false_eq_true, if_false, List.not_mem_nil, or_false, not_or]
  refine ⟨⟨h1, ?_⟩, h2⟩
  cases hx : r.1.role with
  | responder _ => exact List.not_mem_nil
  | initiator _ => rw [hx] at hr; exact hr.elim

/-- The file with the long-term key has been read into a buffer that is overwritten: after the construction nothing but the
key itself has been written. -/
theorem C63_only_the_key_is_loaded (kind : Kind) (contents payload : Bytes) (m0 : Mem) (a : Nat)
    (ha : a ∉ longTerm (start kind contents payload m0).1.role) : Blank m0 (start kind contents payload m0).2 a := by
  obtain ⟨-, -, l3, -⟩ := fresh_load contents payload m0
  cases kind with
  | sharedSecretResponder => exact ((((l3.new true).new true).new true).new true).blank a ha
  | qkdResponder => exact (((((Fresh.refl m0).new true).new true).new true).new true).blank a ha
  | publicKeyResponder certs => exact ((((l3.new true).new true).new true).new true).blank a ha
  | sharedSecretInitiator => exact ((((((l3.new false).new true).new true).new true).new true).new true).blank a ha
  | qkdInitiator => exact ((((((Fresh.refl m0).new true).new true).new true).new true).new true).blank a ha
  | publicKeyInitiator certs => exact (((((((l3.new false).new true).new true).new true).new true).new true).new true).blank a ha

/-- A responder that has found the quantum key a request names has no copy of it afterwards, whether or not there is a
session: the key is out of the store and its object overwritten. -/
theorem C63_quantum_key_used_up (g : Setting) (contents payload : Bytes) (events : List Event) (m0 : Mem) (rnd raw : Bytes)
    (msg : RequestHandshakeBegin) (id : UInt64) (a : Nat)
    (hs : (id, a) ∈ (history g .qkdResponder contents payload events m0).1.store)
    (hm : msg.mode_ephemeral = [] ∧ msg.mode_data = be 8 id.toNat ∧ ∃ x, CommonAlgorithms.configure g.backend g.caps msg.spec = .ok x) :
    (∀ r ∈ (history g .qkdResponder contents payload (events ++ [.request rnd msg raw]) m0).1.store, r.1 ≠ id ∧ r.2 ≠ a) ∧
    ∀ x ∈ ((history g .qkdResponder contents payload (events ++ [.request rnd msg raw]) m0).2.cell a).bytes, x = 0 := by
  have h := good_history g .qkdResponder contents payload events m0
  have hrole : (history g .qkdResponder contents payload events m0).1.role = .responder .qkd := by
    have : ∀ (es : List Event) (st : Station) (m : Mem), st.role = .responder .qkd → (st.run g es m).1.role = .responder .qkd := by
      intro es
      induction es with
      | nil => exact fun _ _ h => h
      | cons e es ih =>
        intro st m hst
        refine ih _ _ ?_
        obtain ⟨role, active, pending, store⟩ := st
        simp only at hst
        subst hst
        cases e with
        | transmit => simp only [Station.step]; split <;> rfl
        | receive => simp only [Station.step]; split <;> rfl
        | _ => rfl
    exact this events _ _ rfl
  have e : history g .qkdResponder contents payload (events ++ [.request rnd msg raw]) m0 =
      (history g .qkdResponder contents payload events m0).1.step g (.request rnd msg raw) (history g .qkdResponder contents payload events m0).2 := by
    simp only [history, Bind.bind, run_append]
    rfl
  rw [e]
  generalize history g .qkdResponder contents payload events m0 = r at h hs hrole
  obtain ⟨⟨role, active, pending, store⟩, m⟩ := r
  simp only at hs hrole
  subst hrole
  obtain ⟨c1, c2, x, c3⟩ := hm
  have hid : UInt64.ofNat (beNat msg.mode_data) = id := by
    rw [c2, beNat_be, Nat.mod_eq_of_lt (by have := id.toNat_lt; simpa using this), UInt64.ofNat_toNat]
  have hl : msg.mode_data.length = 8 := by rw [c2, be_length]
  obtain ⟨r, hr⟩ : ∃ r, store.find? (fun r => r.1 = id) = some r := by
    cases hf : store.find? (fun r => r.1 = id) with
    | some r => exact ⟨r, rfl⟩
    | none => exact absurd (List.find?_eq_none.mp hf (id, a) hs) (by simp)
  obtain ⟨hf1, hf2⟩ := find_id hr
  have hra : r = (id, a) := by
    have hp := filter_found h.2 hr
    have hm := hp.mem_iff.mpr hs
    simp only [List.singleton_append, List.mem_cons, List.mem_filter] at hm
    rcases hm with hm | hm
    · exact hm.symm
    · simp at hm
  subst hra
  have hown : (m.cell a).wipes = true ∧ (m.cell a).owners = 1 :=
    h.1.once a (List.mem_append.mpr (.inl (List.mem_map.mpr ⟨_, hs, rfl⟩)))
  have hlt : ∀ x ∈ owned ⟨.responder .qkd, active, pending, store⟩, x < m.next := h.1.range
  have hrun : processQkd g.backend g.caps store msg raw g.fw pending m =
      ((store.filter (fun r => r.1 ≠ id), (respondMem g.backend ⟨protocolVersion, [], []⟩ (fun k => do
        let x ← read a
        k [x]) raw g.fw pending m).1), (release a (respondMem g.backend ⟨protocolVersion, [], []⟩ (fun k => do
        let x ← read a
        k [x]) raw g.fw pending m).2).2) := by
    unfold processQkd
    rw [if_neg (by simp [c1]), c3]
    simp only [hl, ne_eq, not_true, if_false, hid]
    rw [hr]
    simp only [Bind.bind, Pure.pure, share_release hown.2]
  have hst : Station.step g ⟨.responder .qkd, active, pending, store⟩ (.request rnd msg raw) m =
      (⟨.responder .qkd, active, (processQkd g.backend g.caps store msg raw g.fw pending m).1.2.1,
        (processQkd g.backend g.caps store msg raw g.fw pending m).1.1⟩, (processQkd g.backend g.caps store msg raw g.fw pending m).2) := rfl
  rw [hst, hrun]
  have hfr := qkd_frames (P := fun _ => True) g.backend a raw g.fw pending m fun r x hx => h.1.belowPending hx.2
  have ha : a < m.next := hlt a (mem_owned.mpr (.inr (.inr (.inr (.inr (List.mem_map.mpr ⟨_, hs, rfl⟩))))))
  refine ⟨fun r hr' => ?_, (release_cell (by rw [(hfr.kind a ha).1, (hfr.kind a ha).2]; exact hown)).1⟩
  simp only at hr'
  obtain ⟨y1, y2⟩ := List.mem_filter.mp hr'
  simp only [ne_eq, decide_not, Bool.not_eq_true', decide_eq_false_iff_not] at y2
  refine ⟨y2, fun e => ?_⟩
  have hp := (filter_found h.2 hr).map Prod.snd
  have hn : (store.map Prod.snd).Nodup := by
    have := h.1.nodup
    unfold owned at this
    exact (List.nodup_append.mp this).2.1
  have hn2 := hp.nodup_iff.mpr hn
  simp only [List.singleton_append, List.map_cons, List.nodup_cons] at hn2
  exact hn2.1 (List.mem_map.mpr ⟨r, hr', e⟩)

/-- What is missing for initiators: the material of a handshake - the ephemeral private key, the quantum key - stays in memory
until the next handshake begins, also when the sessions made from it have been closed. -/
theorem C63_initiator_keeps_violation (g : Setting) (kind : Kind) (contents payload : Bytes) (events later : List Event) (m0 : Mem)
    (hk : ¬ isResponder (start kind contents payload m0).1.role) (hl : ∀ e ∈ later, ∀ rnd, e ≠ .begin rnd) :
    (history g kind contents payload (events ++ later ++ [.reset]) m0).1.role = (history g kind contents payload events m0).1.role ∧
    ∀ a ∈ material (history g kind contents payload events m0).1.role,
      ((history g kind contents payload (events ++ later ++ [.reset]) m0).2.cell a).bytes =
        ((history g kind contents payload events m0).2.cell a).bytes := by
  have hr : ¬ isResponder (history g kind contents payload events m0).1.role := fun h =>
    hk ((role_kind_run g events (start kind contents payload m0).1 (start kind contents payload m0).2).mp h)
  have h := (good_start (Q := fun _ => True) kind contents payload m0).run g events fun _ _ => trivial
  have := material_run g (later ++ [.reset]) h (fun _ _ => trivial) (fun e he rnd => by
    rcases List.mem_append.mp he with he | he
    · exact hl e he rnd
    · rw [List.mem_singleton.mp he]; exact nofun) hr
  simp only [history, Bind.bind, List.append_assoc] at *
  rw [run_append]
  exact this

/-- And for the reader of quantum keys: when it has reported a frame the key is still in the buffer of its parser (which is
an ordinary buffer) until the next frame is written over it. -/
theorem C63_parser_keeps_violation (r : Qix.Reader) (chunk : Bytes) (f : Qix.Frame) (h : (r.onRead chunk).2 = some f) :
    (((r.onRead chunk).1.parser.buffer.drop 10).take 32) = f.key := by
  unfold Qix.Reader.onRead at h ⊢
  generalize r.parser.buffer.take r.dest ++ chunk ++ r.parser.buffer.drop (r.dest + chunk.length) = buffer at *
  simp only at h ⊢
  split at h
  · cases h
  · rename_i hc
    rw [if_neg hc]
    simp only [Qix.Parser.parse] at h ⊢
    split at h
    · cases h
    · split at h
      · cases h
      · rename_i h1 h2
        rw [if_neg h1, if_neg h2]
        simp only [Option.some.injEq] at h
        rw [← h]
        simp [Qix.readFields]

end SSP21.Memory
