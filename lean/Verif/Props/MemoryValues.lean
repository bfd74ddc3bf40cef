import Verif.Props.Memory
import Verif.Toy
/-
  C63: the programs of Verif/Memory.lean compute what the functions of Verif/Handshake.lean and Verif/Primitives.lean do, and
  a session holds the keys that have been derived.
-/
namespace SSP21.Memory

namespace Spec

/-- The object at `a` holds `v`. -/
def At (m : Mem) (a : Nat) (v : Bytes) : Prop := (m.cell a).len = v.length ∧ (m.cell a).bytes.take v.length = v

/-- The two keys at the addresses of a session are those of a session of the other model. -/
def SameKeys (m : Mem) (s : SessionMem) (session : Session) : Prop :=
  s.valid = session.valid ∧ (session.valid = true → At m s.rx session.keys.rxKey ∧ At m s.tx session.keys.txKey)

/-- The handshake of an initiator and its members in memory. -/
def Matches (m : Mem) (i : InitiatorMem) (h : InitiatorHandshake) : Prop :=
  At m i.hash h.handshakeHash ∧
  match i, h.mode with
  | .sharedSecret key nonce _, .sharedSecret k n => At m key k ∧ At m nonce n
  | .qkd none _, .qkd none => True
  | .qkd (some key) _, .qkd (some k) => At m key k
  | .publicKey sp certs pub priv _, .publicKey k certs' eph => At m sp k ∧ At m pub eph.pub ∧ At m priv eph.priv ∧ certs = certs'
  | _, _ => False

/-- The objects of the handshake of an initiator. -/
def objects (i : InitiatorMem) : List Nat := longTerm (.initiator i) ++ members (.initiator i)

/-- The session has two objects, in memory that is in use. -/
def Proper (m : Mem) (s : SessionMem) : Prop := s.rx ≠ s.tx ∧ s.rx < m.next ∧ s.tx < m.next

end Spec

open Spec

namespace MemoryProof

theorem _root_.SSP21.Memory.Spec.At.congr {m m' : Mem} {a : Nat} {v : Bytes} (h : At m a v) (e : m'.cell a = m.cell a) : At m' a v := by
  unfold At at *
  rwa [e]

theorem _root_.SSP21.Memory.Spec.At.read {m : Mem} {a : Nat} {v : Bytes} (h : At m a v) : SSP21.Memory.read a m = (v, m) := by
  simp only [SSP21.Memory.read, h.1, h.2]

theorem new_same (w : Bool) (m : Mem) (a : Nat) (h : a < m.next) : (new w m).2.cell a = m.cell a := set_ne (by omega)

/-- Local variables cannot be seen from outside. -/
theorem local_cell {α : Type} (w : Bool) (body : Nat → Op α) (m : Mem) (a : Nat) (h : a < m.next) :
    (withLocal w body m).2.cell a = (body m.next (new w m).2).2.cell a := by
  rw [withLocal_run]
  exact set_ne (by omega)

theorem _root_.SSP21.Memory.Spec.At.write {m : Mem} {a n : Nat} {v : Bytes} (h : v.length = n) : At (setLength a n (put a v m).2).2 a v := by
  subst h
  refine ⟨?_, ?_⟩ <;> simp [setLength, put, Mem.set]

theorem hash_at (b : Backend) (hb : b.Lawful) (data : Bytes) (dst : Nat) (m : Mem) : At (hashInto b data dst m).2 dst (b.hash data) :=
  At.write (hb.hash_length data)

theorem hmac_at (b : Backend) (hb : b.Lawful) (key data : Bytes) (dst : Nat) (m : Mem) : At (hmacInto b key data dst m).2 dst (b.hmac key data) :=
  At.write (hb.hmac_length key data)

theorem hash_same (b : Backend) (data : Bytes) (dst : Nat) (m : Mem) (a : Nat) (h : a ≠ dst) : (hashInto b data dst m).2.cell a = m.cell a := by
  simp [hashInto, Bind.bind, put, setLength, Mem.set, h]

theorem hmac_same (b : Backend) (key data : Bytes) (dst : Nat) (m : Mem) (a : Nat) (h : a ≠ dst) : (hmacInto b key data dst m).2.cell a = m.cell a := by
  simp [hmacInto, Bind.bind, put, setLength, Mem.set, h]

theorem hkdf_at (b : Backend) (hb : b.Lawful) (salt : Bytes) (ikm : List Bytes) (o1 o2 : Nat) (m : Mem) (hne : o1 ≠ o2) (h1 : o1 < m.next) (h2 : o2 < m.next) :
    At (hkdfInto b salt ikm o1 o2 m).2 o1 (b.hkdf salt ikm).1 ∧ At (hkdfInto b salt ikm o1 o2 m).2 o2 (b.hkdf salt ikm).2 ∧
    ∀ a, a < m.next → a ≠ o1 → a ≠ o2 → (hkdfInto b salt ikm o1 o2 m).2.cell a = m.cell a := by
  unfold hkdfInto
  have n1 : o1 ≠ m.next := by omega
  have n2 : o2 ≠ m.next := by omega
  generalize hm1 : (hmacInto b salt ikm.flatten m.next (new true m).2).2 = m1
  have a1 : At m1 m.next (b.hmac salt ikm.flatten) := hm1 ▸ hmac_at b hb _ _ _ _
  have s1 : ∀ a, a < m.next → m1.cell a = m.cell a := fun a ha => by
    rw [← hm1, hmac_same _ _ _ _ _ _ (by omega), new_same _ _ _ ha]
  generalize hm2 : (hmacInto b (b.hmac salt ikm.flatten) [0x01] o1 m1).2 = m2
  have a2 : At m2 o1 (b.hmac (b.hmac salt ikm.flatten) [0x01]) := hm2 ▸ hmac_at b hb _ _ _ _
  have a3 : At m2 m.next (b.hmac salt ikm.flatten) := a1.congr (by rw [← hm2, hmac_same _ _ _ _ _ _ (Ne.symm n1)])
  have s2 : ∀ a, a ≠ o1 → m2.cell a = m1.cell a := fun a ha => by rw [← hm2, hmac_same _ _ _ _ _ _ ha]
  generalize hm3 : (hmacInto b (b.hmac salt ikm.flatten) (b.hmac (b.hmac salt ikm.flatten) [0x01] ++ [0x02]) o2 m2).2 = m3
  have a4 : At m3 o2 (b.hkdf salt ikm).2 := hm3 ▸ hmac_at b hb _ _ _ _
  have s3 : ∀ a, a ≠ o2 → m3.cell a = m2.cell a := fun a ha => by rw [← hm3, hmac_same _ _ _ _ _ _ ha]
  have a5 : At m3 o1 (b.hkdf salt ikm).1 := a2.congr (s3 o1 hne)
  have hrun : (do
      hmacInto b salt ikm.flatten m.next
      let t ← read m.next
      hmacInto b t [0x01] o1
      let t ← read m.next
      let k ← read o1
      hmacInto b t (k ++ [0x02]) o2
      setLength o1 32
      setLength o2 32 : Op Unit) (new true m).2 = ((), (setLength o2 32 (setLength o1 32 m3).2).2) := by
    simp only [Bind.bind, hm1, a1.read, hm2, a2.read, a3.read, hm3]
  have hk1 : (b.hkdf salt ikm).1.length = 32 := hb.hmac_length _ _
  have hk2 : (b.hkdf salt ikm).2.length = 32 := hb.hmac_length _ _
  have fin : ∀ a, a < m.next → (withLocal true (fun temp => do
      hmacInto b salt ikm.flatten temp
      let t ← read temp
      hmacInto b t [0x01] o1
      let t ← read temp
      let k ← read o1
      hmacInto b t (k ++ [0x02]) o2
      setLength o1 32
      setLength o2 32) m).2.cell a = (setLength o2 32 (setLength o1 32 m3).2).2.cell a := fun a ha => by
    rw [local_cell _ _ _ _ ha, hrun]
  refine ⟨?_, ?_, fun a ha e1 e2 => ?_⟩
  · unfold At at a5 ⊢
    rw [fin o1 h1]
    rw [hk1] at a5 ⊢
    simp [setLength, Mem.set, hne, a5.2]
  · unfold At at a4 ⊢
    rw [fin o2 h2]
    rw [hk2] at a4 ⊢
    simp [setLength, Mem.set, Ne.symm hne, a4.2]
  · rw [fin a ha]
    simp only [setLength, Mem.set, e1, e2, if_false]
    rw [s3 a e2, s2 a e1, s1 a ha]

theorem copy_at {m : Mem} {dst src : Nat} {v : Bytes} (h : At m src v) : At (copy dst src m).2 dst v := by
  refine ⟨by simp [copy, Mem.set, h.1], ?_⟩
  have := h.2
  simp only [copy, set_eq, h.1]
  rw [List.take_append_of_le_length, List.take_take, Nat.min_self, h.2]
  rw [List.length_take]
  have : v.length = min v.length (m.cell src).bytes.length := by
    conv => lhs; rw [← h.2]
    rw [List.length_take]
  omega

theorem initialize_at (s : SessionMem) (rx tx : Nat) (k1 k2 : Bytes) (m : Mem) (h1 : At m rx k1) (h2 : At m tx k2) (l1 : k1.length = 32) (l2 : k2.length = 32)
    (hs : s.rx ≠ s.tx) (hn : tx ≠ s.rx) :
    (s.initialize rx tx m).1 = ({ s with valid := true }, true) ∧ At (s.initialize rx tx m).2 s.rx k1 ∧ At (s.initialize rx tx m).2 s.tx k2 ∧
    (s.initialize rx tx m).2.next = m.next ∧ ∀ a, a ≠ s.rx → a ≠ s.tx → (s.initialize rx tx m).2.cell a = m.cell a := by
  rw [initialize_run, if_pos ⟨by rw [h1.1, l1], by rw [h2.1, l2]⟩]
  refine ⟨rfl, (copy_at h1).congr (set_ne hs), copy_at (h2.congr (set_ne hn)), rfl, fun a e1 e2 => ?_⟩
  show (copy s.tx tx (copy s.rx rx m).2).2.cell a = _
  rw [show (copy s.tx tx (copy s.rx rx m).2).2.cell a = (copy s.rx rx m).2.cell a from set_ne e2]
  exact set_ne e1

/-- The two local keys and the session. -/
theorem derive_at (b : Backend) (hb : b.Lawful) (salt : Bytes) (ikm : List Bytes) (s : SessionMem) (frame : Bytes) (m : Mem) (hs : Proper m s) :
    (deriveResponder b salt ikm s frame m).1 = ({ s with valid := true }, .ok frame) ∧
    At (deriveResponder b salt ikm s frame m).2 s.rx (b.hkdf salt ikm).1 ∧ At (deriveResponder b salt ikm s frame m).2 s.tx (b.hkdf salt ikm).2 := by
  obtain ⟨p1, p2, p3⟩ := hs
  unfold deriveResponder
  generalize hm1 : (new true m).2 = m1
  have e1 : m1.next = m.next + 1 := by subst hm1; rfl
  generalize hm2 : (new true m1).2 = m2
  have e2 : m2.next = m.next + 2 := by subst hm2; simp [new, Mem.set, e1]
  obtain ⟨k1, k2, -⟩ := hkdf_at b hb salt ikm m.next m1.next m2 (by omega) (by omega) (by omega)
  obtain ⟨i1, i2, i3, -⟩ := initialize_at s m.next m1.next _ _ (hkdfInto b salt ikm m.next m1.next m2).2 k1 k2 (hb.hmac_length _ _) (hb.hmac_length _ _) p1 (by omega)
  have hr : ∀ a, a < m.next → (withLocal true (fun rx => withLocal true fun tx => (do
      hkdfInto b salt ikm rx tx
      let r ← s.initialize rx tx
      Pure.pure (r.1, .ok frame) : Op Processed)) m).2.cell a = (s.initialize m.next m1.next (hkdfInto b salt ikm m.next m1.next m2).2).2.cell a := by
    intro a ha
    rw [local_cell _ _ _ _ ha, hm1, local_cell _ _ _ _ (by omega), hm2]
    rfl
  refine ⟨?_, i2.congr (hr _ p2), i3.congr (hr _ p3)⟩
  rw [withLocal_run, hm1, withLocal_run, hm2]
  show ((s.initialize m.next m1.next (hkdfInto b salt ikm m.next m1.next m2).2).1.1, _) = _
  rw [i1]

theorem dh_at (b : Backend) (hb : b.Lawful) (priv : Nat) (pub k : Bytes) (out : Nat) (m : Mem) (h : At m priv k) :
    (dhInto b priv pub out m).1 = (b.dh k pub).map (fun _ => ()) ∧ (∀ r, b.dh k pub = .ok r → At (dhInto b priv pub out m).2 out r) ∧
    (dhInto b priv pub out m).2.next = m.next ∧ ∀ a, a ≠ out → (dhInto b priv pub out m).2.cell a = m.cell a := by
  have e : dhInto b priv pub out m = (if pub.length < 32 then Pure.pure (.error .memory_fault)
    else match b.dhRaw k (pub.take 32) with
      | none => Pure.pure (.error .dh_x25519_fail)
      | some r => (do
        put out r
        setLength out 32
        Pure.pure (.ok ()) : Op (Except CryptoError Unit)) : Op (Except CryptoError Unit)) m := by
    simp only [dhInto, Bind.bind, h.read]
    rfl
  rw [e]
  unfold Backend.dh
  split
  · exact ⟨rfl, nofun, rfl, fun _ _ => rfl⟩
  · cases hr : b.dhRaw k (pub.take 32) with
    | none => exact ⟨rfl, nofun, rfl, fun _ _ => rfl⟩
    | some r =>
      refine ⟨rfl, fun r' h' => ?_, rfl, fun a ha => ?_⟩
      · cases h'
        exact At.write (hb.dh_length _ _ _ hr)
      · simp [Bind.bind, Pure.pure, put, setLength, Mem.set, ha]

theorem triple_at (b : Backend) (hb : b.Lawful) (sp ep : Nat) (spk epk rs re : Bytes) (d1 d2 d3 : Nat) (m : Mem) (h1 : At m sp spk) (h2 : At m ep epk)
    (hd : d1 ≠ d2 ∧ d1 ≠ d3 ∧ d2 ≠ d3) (hs : ∀ d ∈ [d1, d2, d3], sp ≠ d ∧ ep ≠ d) :
    (tripleInto b sp ep rs re d1 d2 d3 m).1 = (tripleDH b spk epk rs re).map (fun _ => ()) ∧
    (∀ x y z, tripleDH b spk epk rs re = .ok (x, y, z) → At (tripleInto b sp ep rs re d1 d2 d3 m).2 d1 x ∧
      At (tripleInto b sp ep rs re d1 d2 d3 m).2 d2 y ∧ At (tripleInto b sp ep rs re d1 d2 d3 m).2 d3 z) ∧
    (tripleInto b sp ep rs re d1 d2 d3 m).2.next = m.next ∧
    ∀ a, a ∉ [d1, d2, d3] → (tripleInto b sp ep rs re d1 d2 d3 m).2.cell a = m.cell a := by
  obtain ⟨g1, g2, g3⟩ := hd
  have hs1 := hs d1 (by simp)
  have hs2 := hs d2 (by simp)
  have hs3 := hs d3 (by simp)
  simp only [tripleInto, Bind.bind, tripleDH]
  obtain ⟨r1, v1, n1, s1⟩ := dh_at b hb ep re epk d1 m h2
  generalize dhInto b ep re d1 m = x1 at *
  cases q1 : b.dh epk re with
  | error e =>
    rw [q1] at r1
    rw [r1]
    exact ⟨rfl, nofun, n1, fun a ha => s1 a (by simp at ha; exact ha.1)⟩
  | ok w1 =>
    rw [q1] at r1
    rw [r1]
    simp only [Except.map]
    have t1 : At x1.2 ep epk := h2.congr (s1 ep hs1.2)
    obtain ⟨r2, v2, n2, s2⟩ := dh_at b hb ep rs epk d2 x1.2 t1
    generalize dhInto b ep rs d2 x1.2 = x2 at *
    cases q2 : b.dh epk rs with
    | error e =>
      rw [q2] at r2
      rw [r2]
      exact ⟨rfl, nofun, n2.trans n1, fun a ha => by simp at ha; exact (s2 a ha.2.1).trans (s1 a ha.1)⟩
    | ok w2 =>
      rw [q2] at r2
      rw [r2]
      simp only [Except.map]
      have t2 : At x2.2 sp spk := (h1.congr (s1 sp hs1.1)).congr (s2 sp hs2.1)
      obtain ⟨r3, v3, n3, s3⟩ := dh_at b hb sp re spk d3 x2.2 t2
      generalize dhInto b sp re d3 x2.2 = x3 at *
      cases q3 : b.dh spk re with
      | error e =>
        rw [q3] at r3
        exact ⟨r3, nofun, n3.trans (n2.trans n1), fun a ha => by simp at ha; exact (s3 a ha.2.2).trans ((s2 a ha.2.1).trans (s1 a ha.1))⟩
      | ok w3 =>
        rw [q3] at r3
        refine ⟨r3, fun x y z h => ?_, n3.trans (n2.trans n1), fun a ha => by simp at ha; exact (s3 a ha.2.2).trans ((s2 a ha.2.1).trans (s1 a ha.1))⟩
        cases h
        exact ⟨((v1 _ q1).congr (s2 d1 g1)).congr (s3 d1 g2), (v2 _ q2).congr (s3 d2 g3), v3 _ q3⟩

/-- The continuation with the three results. -/
theorem withTriple_at {α : Type} (b : Backend) (hb : b.Lawful) (sp ep : Nat) (spk epk rs re : Bytes) (m : Mem) (h1 : At m sp spk) (h2 : At m ep epk)
    (l1 : sp < m.next) (l2 : ep < m.next) : ∃ m', m.next ≤ m'.next ∧ (∀ a, a < m.next → m'.cell a = m.cell a) ∧
    ∀ (fail : CryptoError → Op α) (k : Bytes → Bytes → Bytes → Op α),
      (withTriple b sp ep rs re fail k m).1 = ((match tripleDH b spk epk rs re with | .error e => fail e | .ok (x, y, z) => k x y z) m').1 ∧
      ∀ a, a < m.next → (withTriple b sp ep rs re fail k m).2.cell a =
        ((match tripleDH b spk epk rs re with | .error e => fail e | .ok (x, y, z) => k x y z) m').2.cell a := by
  generalize hm1 : (new true m).2 = m1
  have e1 : m1.next = m.next + 1 := by subst hm1; rfl
  generalize hm2 : (new true m1).2 = m2
  have e2 : m2.next = m.next + 2 := by subst hm2; simp [new, Mem.set, e1]
  generalize hm3 : (new true m2).2 = m3
  have e3 : m3.next = m.next + 3 := by subst hm3; simp [new, Mem.set, e2]
  have c3 : ∀ a, a < m.next → m3.cell a = m.cell a := fun a ha => by
    rw [← hm3, new_same _ _ _ (by omega), ← hm2, new_same _ _ _ (by omega), ← hm1, new_same _ _ _ ha]
  obtain ⟨t1, t2, t3, t4⟩ := triple_at b hb sp ep spk epk rs re m.next m1.next m2.next m3 (h1.congr (c3 _ l1)) (h2.congr (c3 _ l2))
    (by omega) (by intro d hd; simp at hd; omega)
  generalize hm4 : (tripleInto b sp ep rs re m.next m1.next m2.next m3).2 = m4 at *
  refine ⟨m4, by omega, fun a ha => ?_, fun fail k => ?_⟩
  · rw [t4 a (by simp; omega), c3 a ha]
  · have run : ∀ (α : Type) (fail : CryptoError → Op α) (k : Bytes → Bytes → Bytes → Op α), (do
        match ← tripleInto b sp ep rs re m.next m1.next m2.next with
        | .error e => fail e
        | .ok () => do
          let x ← read m.next
          let y ← read m1.next
          let z ← read m2.next
          k x y z : Op α) m3 = (match tripleDH b spk epk rs re with | .error e => fail e | .ok (x, y, z) => k x y z) m4 := by
      intro α fail k
      simp only [Bind.bind, hm4, t1]
      cases hq : tripleDH b spk epk rs re with
      | error e => rfl
      | ok v =>
        obtain ⟨x, y, z⟩ := v
        obtain ⟨v1, v2, v3⟩ := t2 x y z hq
        simp only [Except.map, v1.read, v2.read, v3.read]
    constructor
    · unfold withTriple
      rw [withLocal_run, hm1, withLocal_run, hm2, withLocal_run, hm3]
      have := congrArg (fun r : α × Mem => r.1) (run α fail k)
      exact this
    · intro a ha
      unfold withTriple
      rw [local_cell _ _ _ _ ha, hm1, local_cell _ _ _ _ (by omega), hm2, local_cell _ _ _ _ (by omega), hm3]
      exact congrArg (fun r : α × Mem => r.2.cell a) (run α fail k)

/-- What the key material of a handshake is. -/
def Supplies (s : SessionMem) (ikm : (List Bytes → Op Processed) → Op Processed) (l : Except HsFail (List Bytes)) (m : Mem) : Prop :=
  match l with
  | .error e => ∀ k, (ikm k m).1 = (s, .error e) ∧ ∀ a, a < m.next → (ikm k m).2.cell a = m.cell a
  | .ok l => ∃ m', m.next ≤ m'.next ∧ (∀ a, a < m.next → m'.cell a = m.cell a) ∧
      ∀ k, (ikm k m).1 = (k l m').1 ∧ ∀ a, a < m.next → (ikm k m).2.cell a = (k l m').2.cell a

theorem _root_.SSP21.Memory.Spec.SameKeys.congr {m m' : Mem} {s : SessionMem} {session : Session} (h : SameKeys m s session) (hs : Proper m s)
    (e : ∀ a, a < m.next → m'.cell a = m.cell a) : SameKeys m' s session :=
  ⟨h.1, fun hv => ⟨(h.2 hv).1.congr (e _ hs.2.1), (h.2 hv).2.congr (e _ hs.2.2)⟩⟩

theorem respond_at (b : Backend) (hb : b.Lawful) (alg : CommonAlgorithms) (hal : alg.handshake = ⟨b.hash, b.hkdf⟩) (reply : ReplyHandshakeBegin)
    (ikm : (List Bytes → Op Processed) → Op Processed) (l : Except HsFail (List Bytes)) (msg : RequestHandshakeBegin) (raw : Bytes) (now : Int)
    (fw : FrameWriter) (s : SessionMem) (session : Session) (st : Stats) (m : Mem) (hs : Proper m s) (hk : SameKeys m s session)
    (hi : ∀ m', m.next ≤ m'.next → (∀ a, a < m.next → m'.cell a = m.cell a) → Supplies s ikm l m') :
    (respondMem b reply ikm raw fw s m).1.2 = (respond alg reply l msg raw now fw session st).2.2 ∧
    SameKeys (respondMem b reply ikm raw fw s m).2 (respondMem b reply ikm raw fw s m).1.1 (respond alg reply l msg raw now fw session st).1 := by
  unfold respondMem respond
  cases hw : reply.write fw.maxPayload.toNat with
  | error e => exact ⟨rfl, hk⟩
  | ok written =>
    simp only
    generalize hm1 : (new true m).2 = m1
    have e1 : m1.next = m.next + 1 := by subst hm1; rfl
    have c1 : ∀ a, a < m.next → m1.cell a = m.cell a := fun a ha => by rw [← hm1, new_same _ _ _ ha]
    have a2 := hash_at b hb raw m.next m1
    have c2 : ∀ a, a < m.next → (hashInto b raw m.next m1).2.cell a = m.cell a := fun a ha => by rw [hash_same _ _ _ _ _ (by omega), c1 a ha]
    have n2 : (hashInto b raw m.next m1).2.next = m.next + 1 := e1
    generalize hm2 : (hashInto b raw m.next m1).2 = m2 at *
    have a3 := hash_at b hb (b.hash raw ++ written) m.next m2
    have c3 : ∀ a, a < m.next → (hashInto b (b.hash raw ++ written) m.next m2).2.cell a = m.cell a := fun a ha => by
      rw [hash_same _ _ _ _ _ (by omega), c2 a ha]
    have n3 : (hashInto b (b.hash raw ++ written) m.next m2).2.next = m.next + 1 := n2
    generalize hm3 : (hashInto b (b.hash raw ++ written) m.next m2).2 = m3 at *
    have run : (do
        hashInto b raw m.next
        let h ← read m.next
        hashInto b (h ++ written) m.next
        ikm fun l => do
          let salt ← read m.next
          deriveResponder b salt l s (fw.wrap written) : Op Processed) m1 = ikm (fun l => do
          let salt ← read m.next
          deriveResponder b salt l s (fw.wrap written)) m3 := by
      simp only [Bind.bind, hm2, a2.read, hm3]
    have hsup := hi m3 (by omega) c3
    have fin : ∀ a, a < m.next → (withLocal true (fun hasher => do
        hashInto b raw hasher
        let h ← read hasher
        hashInto b (h ++ written) hasher
        ikm fun l => do
          let salt ← read hasher
          deriveResponder b salt l s (fw.wrap written)) m).2.cell a = (ikm (fun l => do
          let salt ← read m.next
          deriveResponder b salt l s (fw.wrap written)) m3).2.cell a := fun a ha => by
      rw [local_cell _ _ _ _ ha, hm1]
      exact congrArg (fun r : Processed × Mem => r.2.cell a) run
    have val : (withLocal true (fun hasher => do
        hashInto b raw hasher
        let h ← read hasher
        hashInto b (h ++ written) hasher
        ikm fun l => do
          let salt ← read hasher
          deriveResponder b salt l s (fw.wrap written)) m).1 = (ikm (fun l => do
          let salt ← read m.next
          deriveResponder b salt l s (fw.wrap written)) m3).1 := by
      rw [withLocal_run, hm1]
      have := congrArg (fun r : Processed × Mem => r.1) run
      exact this
    cases l with
    | error e =>
      obtain ⟨r1, r2⟩ := hsup (fun l => do
          let salt ← read m.next
          deriveResponder b salt l s (fw.wrap written))
      rw [val, r1]
      exact ⟨rfl, hk.congr hs fun a ha => by rw [fin a ha, r2 a (by omega), c3 a ha]⟩
    | ok l =>
      obtain ⟨m4, n4, c4, r⟩ := hsup
      obtain ⟨r1, r2⟩ := r (fun l => do
          let salt ← read m.next
          deriveResponder b salt l s (fw.wrap written))
      have a4 : At m4 m.next (b.hash (b.hash raw ++ written)) := a3.congr (c4 _ (by omega))
      have run4 : (do
          let salt ← read m.next
          deriveResponder b salt l s (fw.wrap written) : Op Processed) m4 =
          deriveResponder b (b.hash (b.hash raw ++ written)) l s (fw.wrap written) m4 := by
        simp only [Bind.bind, a4.read]
      obtain ⟨p1, p2, p3⟩ := hs
      obtain ⟨d1, d2, d3⟩ := derive_at b hb (b.hash (b.hash raw ++ written)) l s (fw.wrap written) m4 ⟨p1, by omega, by omega⟩
      have hv : (SessionKeys.mk (b.hkdf (b.hash (b.hash raw ++ written)) l).1 (b.hkdf (b.hash (b.hash raw ++ written)) l).2).valid = true := by
        simp [SessionKeys.valid, Backend.hkdf, hb.hmac_length]
      rw [val, r1, run4, d1]
      simp only [hal, handshakeHasher, Session.initialize, hv, Bool.not_true, Bool.false_eq_true, if_false]
      refine ⟨trivial, rfl, fun _ => ⟨d2.congr ?_, d3.congr ?_⟩⟩
      · show _ = _
        rw [fin _ p2, r2 _ (by omega), run4]
      · show _ = _
        rw [fin _ p3, r2 _ (by omega), run4]

theorem configure_handshake {b : Backend} {caps : Caps} {spec : CryptoSpec} {a : CommonAlgorithms}
    (h : CommonAlgorithms.configure b caps spec = .ok a) : a.handshake = ⟨b.hash, b.hkdf⟩ := by
  unfold CommonAlgorithms.configure at h
  cases hh : HandshakeAlgorithms.configure b caps spec.handshake_kdf spec.handshake_hash with
  | error e => rw [hh] at h; cases h
  | ok x =>
    rw [hh] at h
    simp only at h
    split at h
    · cases h
    · cases h
      unfold HandshakeAlgorithms.configure at hh
      repeat' split at hh
      all_goals first | (cases hh; done) | (cases hh; rfl)

theorem _root_.SSP21.Memory.Spec.SameKeys.at {m m' : Mem} {t : SessionMem} {session : Session} (h : SameKeys m t session)
    (e1 : m'.cell t.rx = m.cell t.rx) (e2 : m'.cell t.tx = m.cell t.tx) : SameKeys m' t session :=
  ⟨h.1, fun hv => ⟨(h.2 hv).1.congr e1, (h.2 hv).2.congr e2⟩⟩

theorem _root_.SSP21.Memory.Spec.SameKeys.of_eq {m : Mem} {t t' : SessionMem} {session : Session} (h : SameKeys m t session) (e : t' = t) :
    SameKeys m t' session := e ▸ h

theorem Same.addresses {γ : Type} {s : SessionMem} {r : SessionMem × γ} (h : Same s r) : r.1.rx = s.rx ∧ r.1.tx = s.tx := by
  rcases h with h | h <;> rw [h] <;> exact ⟨rfl, rfl⟩

end MemoryProof

open MemoryProof

/-! ## Theorems -/

/-- A responder with a shared secret: the same answer and the same session as in the model without memory. -/
theorem C63_shared_secret_computes (b : Backend) (hb : b.Lawful) (caps : Caps) (key : Nat) (k rnd : Bytes) (msg : RequestHandshakeBegin)
    (raw : Bytes) (now : Int) (fw : FrameWriter) (s : SessionMem) (session : Session) (st : Stats) (lookup : UInt64 → Option Bytes) (m : Mem)
    (hs : Proper m s) (hv : SameKeys m s session) (hk : At m key k) (hl : key < m.next) (hr : rnd.length = 32) :
    (processShared b caps key rnd msg raw fw s m).1.2 =
      ((ResponderHandshake.sharedSecret k).process b caps lookup rnd msg raw now fw session st).2.2.2 ∧
    SameKeys (processShared b caps key rnd msg raw fw s m).2 (processShared b caps key rnd msg raw fw s m).1.1
      ((ResponderHandshake.sharedSecret k).process b caps lookup rnd msg raw now fw session st).1 := by
  have hsame := (same_shared b caps key rnd msg raw fw s m).addresses
  revert hsame
  unfold processShared ResponderHandshake.process
  simp only
  split
  · exact fun _ => ⟨rfl, hv⟩
  split
  · exact fun _ => ⟨rfl, hv⟩
  cases hc : CommonAlgorithms.configure b caps msg.spec with
  | error e => exact fun _ => ⟨rfl, hv⟩
  | ok a =>
    simp only
    generalize hm1 : (setLength m.next 32 (put m.next rnd (new false m).2).2).2 = m1
    have e1 : m1.next = m.next + 1 := by subst hm1; rfl
    have c1 : ∀ x, x < m.next → m1.cell x = m.cell x := fun x hx => by
      have : x ≠ m.next := by omega
      subst hm1
      simp [new, put, setLength, Mem.set, this]
    have a1 : At m1 m.next rnd := hm1 ▸ At.write hr
    have h := respond_at b hb a (configure_handshake hc) ⟨protocolVersion, rnd, []⟩ (fun k => do
      let x ← read key
      let n ← read m.next
      k [x, msg.mode_ephemeral, n]) (.ok [k, msg.mode_ephemeral, rnd]) msg raw now fw s session st m1
      ⟨hs.1, by have := hs.2.1; omega, by have := hs.2.2; omega⟩ (hv.congr hs c1) (fun m2 n2 c2 => by
        refine ⟨m2, Nat.le_refl _, fun _ _ => rfl, fun f => ?_⟩
        have r1 : At m2 key k := (hk.congr (c1 _ hl)).congr (c2 _ (by omega))
        have r2 : At m2 m.next rnd := a1.congr (c2 _ (by omega))
        have e : (do
          let x ← read key
          let n ← read m.next
          f [x, msg.mode_ephemeral, n] : Op Processed) m2 = f [k, msg.mode_ephemeral, rnd] m2 := by
          simp only [Bind.bind, r1.read, r2.read]
        exact ⟨congrArg (fun r : Processed × Mem => r.1) e, fun a _ => congrArg (fun r : Processed × Mem => r.2.cell a) e⟩)
    generalize hf : (respondMem b ⟨protocolVersion, rnd, []⟩ (fun k => do
      let x ← read key
      let n ← read m.next
      k [x, msg.mode_ephemeral, n]) raw fw s) = f at h
    have hrun : withLocal false (fun nonce => (do
      put nonce rnd
      setLength nonce 32
      respondMem b ⟨protocolVersion, rnd, []⟩ (fun k => do
        let x ← read key
        let n ← read nonce
        k [x, msg.mode_ephemeral, n]) raw fw s : Op Processed)) m = ((f m1).1, (release m.next (f m1).2).2) := by
      rw [withLocal_run]
      show (((respondMem b ⟨protocolVersion, rnd, []⟩ (fun k => do
        let x ← read key
        let n ← read m.next
        k [x, msg.mode_ephemeral, n]) raw fw s) (setLength m.next 32 (put m.next rnd (new false m).2).2).2).1, _) = _
      rw [hf, hm1]
      show _ = ((f m1).1, (release m.next (f m1).2).2)
      rw [← hf, ← hm1]
      rfl
    intro hsame
    have e := hrun
    rw [e] at hsame ⊢
    refine ⟨h.1, h.2.at ?_ ?_⟩
    · rw [hsame.1]; exact set_ne (by have := hs.2.1; omega)
    · rw [hsame.2]; exact set_ne (by have := hs.2.2; omega)

/-- A responder with quantum keys: the same, and the key has been taken out of the store. -/
theorem C63_quantum_key_computes (b : Backend) (hb : b.Lawful) (caps : Caps) (store : StoreMem) (rnd : Bytes) (msg : RequestHandshakeBegin)
    (raw : Bytes) (now : Int) (fw : FrameWriter) (s : SessionMem) (session : Session) (st : Stats) (lookup : UInt64 → Option Bytes) (m : Mem)
    (hs : Proper m s) (hv : SameKeys m s session)
    (h0 : ∀ id, store.find? (fun r => r.1 = id) = none → lookup id = none)
    (h1 : ∀ id r, store.find? (fun r => r.1 = id) = some r →
      ∃ k, lookup id = some k ∧ At m r.2 k ∧ r.2 < m.next ∧ (m.cell r.2).owners = 1 ∧ r.2 ≠ s.rx ∧ r.2 ≠ s.tx) :
    (processQkd b caps store msg raw fw s m).1.2.2 = (ResponderHandshake.qkd.process b caps lookup rnd msg raw now fw session st).2.2.2 ∧
    SameKeys (processQkd b caps store msg raw fw s m).2 (processQkd b caps store msg raw fw s m).1.2.1
      (ResponderHandshake.qkd.process b caps lookup rnd msg raw now fw session st).1 ∧
    (processQkd b caps store msg raw fw s m).1.1 = store.filter (fun r => some r.1 ≠
      (ResponderHandshake.qkd.process b caps lookup rnd msg raw now fw session st).2.2.1.map Prod.fst) := by
  have hall : store = store.filter (fun r => some r.1 ≠ Option.map Prod.fst (none : Option (UInt64 × Bytes))) := by
    refine (List.filter_eq_self.mpr fun _ _ => ?_).symm
    simp
  unfold processQkd ResponderHandshake.process
  simp only
  split
  · exact ⟨rfl, hv, hall⟩
  cases hc : CommonAlgorithms.configure b caps msg.spec with
  | error e => exact ⟨rfl, hv, hall⟩
  | ok a =>
    simp only
    split
    · exact ⟨rfl, hv, hall⟩
    generalize UInt64.ofNat (beNat msg.mode_data) = id
    cases hf : store.find? (fun r => r.1 = id) with
    | none =>
      rw [h0 id hf]
      exact ⟨rfl, hv, hall⟩
    | some r =>
      obtain ⟨k, q1, q2, q3, q4, q5, q6⟩ := h1 id r hf
      obtain ⟨id', key⟩ := r
      rw [q1]
      simp only at q2 q3 q4 q5 q6 ⊢
      have h := respond_at b hb a (configure_handshake hc) ⟨protocolVersion, [], []⟩ (fun k => do
        let x ← read key
        k [x]) (.ok [k]) msg raw now fw s session st m hs hv (fun m2 n2 c2 => by
          refine ⟨m2, Nat.le_refl _, fun _ _ => rfl, fun f => ?_⟩
          have r1 : At m2 key k := q2.congr (c2 _ q3)
          have e : (do
            let x ← read key
            f [x] : Op Processed) m2 = f [k] m2 := by
            simp only [Bind.bind, r1.read]
          exact ⟨congrArg (fun r : Processed × Mem => r.1) e, fun a _ => congrArg (fun r : Processed × Mem => r.2.cell a) e⟩)
      have hsame := (qkd_same b key raw fw s m).addresses
      have e : (do
          share key
          release key
          let r ← respondMem b ⟨protocolVersion, [], []⟩ (fun k => do
            let x ← read key
            k [x]) raw fw s
          release key
          Pure.pure (store.filter (fun r => r.1 ≠ id), r) : Op (StoreMem × Processed)) m =
          ((store.filter (fun r => r.1 ≠ id), (respondMem b ⟨protocolVersion, [], []⟩ (fun k => do
            let x ← read key
            k [x]) raw fw s m).1), (release key (respondMem b ⟨protocolVersion, [], []⟩ (fun k => do
            let x ← read key
            k [x]) raw fw s m).2).2) := by
        simp only [Bind.bind, Pure.pure, share_release q4]
      rw [e]
      refine ⟨h.1, h.2.at ?_ ?_, ?_⟩
      · rw [hsame.1]; exact set_ne (Ne.symm q5)
      · rw [hsame.2]; exact set_ne (Ne.symm q6)
      · simp

/-- A responder with key pairs. -/
theorem C63_public_key_computes (b : Backend) (hb : b.Lawful) (caps : Caps) (sp : Nat) (k : Bytes) (certs : CertHandler) (rnd : Bytes)
    (msg : RequestHandshakeBegin) (raw : Bytes) (now : Int) (fw : FrameWriter) (s : SessionMem) (session : Session) (st : Stats)
    (lookup : UInt64 → Option Bytes) (m : Mem)
    (hs : Proper m s) (hv : SameKeys m s session) (hk : At m sp k) (hl : sp < m.next) (hr : rnd.length = 32) :
    (processPublic b caps sp certs rnd msg raw fw s m).1.2 =
      ((ResponderHandshake.publicKey k certs).process b caps lookup rnd msg raw now fw session st).2.2.2 ∧
    SameKeys (processPublic b caps sp certs rnd msg raw fw s m).2 (processPublic b caps sp certs rnd msg raw fw s m).1.1
      ((ResponderHandshake.publicKey k certs).process b caps lookup rnd msg raw now fw session st).1 := by
  have hsame := (same_public b caps sp certs rnd msg raw fw s m).addresses
  revert hsame
  unfold processPublic ResponderHandshake.process
  simp only
  cases hc : CommonAlgorithms.configure b caps msg.spec with
  | error e => exact fun _ => ⟨rfl, hv⟩
  | ok a =>
    simp only
    cases hd : dhConfigure caps msg.spec.handshake_ephemeral with
    | error e => exact fun _ => ⟨rfl, hv⟩
    | ok _ =>
      simp only
      split
      · exact fun _ => ⟨rfl, hv⟩
      cases hce : certs.validate b caps msg.handshake_mode msg.mode_data with
      | error e => exact fun _ => ⟨rfl, hv⟩
      | ok remote =>
        simp only
        split
        · exact fun _ => ⟨rfl, hv⟩
        generalize hm0 : (new false m).2 = m0
        have e0 : m0.next = m.next + 1 := by subst hm0; rfl
        generalize hm1 : (genKeyPairInto b rnd m.next m0.next (new true m0).2).2 = m1
        have e1 : m1.next = m.next + 2 := by subst hm1; show m0.next + 1 = _; omega
        have c1 : ∀ x, x < m.next → m1.cell x = m.cell x := fun x hx => by
          have g1 : x ≠ m.next := by omega
          have g2 : x ≠ m0.next := by omega
          have : m0.cell x = m.cell x := by rw [← hm0, new_same _ _ _ hx]
          rw [← this, ← hm1]
          simp [genKeyPairInto, Bind.bind, new, put, setLength, Mem.set, g1, g2]
        have a1 : At m1 m0.next rnd := by
          have g2 : m0.next ≠ m.next := by omega
          subst hm1
          refine ⟨?_, ?_⟩ <;> simp [genKeyPairInto, Bind.bind, new, put, setLength, Mem.set, g2, hr]
        obtain ⟨l, hlm⟩ : ∃ l, l = (match tripleDH b k rnd remote msg.mode_ephemeral with
          | .error .memory_fault => .error .fault
          | .error _ => .error (.err .unknown)
          | .ok (dh1, dh2, dh3) => .ok [dh1, dh2, dh3] : Except HsFail (List Bytes)) := ⟨_, rfl⟩
        have h := respond_at b hb a (configure_handshake hc) ⟨protocolVersion, b.dhPublic rnd, certs.data⟩ (fun k =>
            withTriple b sp m0.next remote msg.mode_ephemeral
              (fun e => Pure.pure (s, .error (match e with | .memory_fault => .fault | _ => .err .unknown)))
              (fun x y z => k [x, y, z])) l msg raw now fw s session st m1
          ⟨hs.1, by have := hs.2.1; omega, by have := hs.2.2; omega⟩ (hv.congr hs c1) (fun m2 n2 c2 => by
            have r1 : At m2 sp k := (hk.congr (c1 _ hl)).congr (c2 _ (by omega))
            have r2 : At m2 m0.next rnd := a1.congr (c2 _ (by omega))
            obtain ⟨m3, n3, c3, w⟩ := withTriple_at (α := Processed) b hb sp m0.next k rnd remote msg.mode_ephemeral m2 r1 r2 (by omega) (by omega)
            subst hlm
            show Supplies s _ (match tripleDH b k rnd remote msg.mode_ephemeral with
              | .error .memory_fault => .error .fault
              | .error _ => .error (.err .unknown)
              | .ok (dh1, dh2, dh3) => .ok [dh1, dh2, dh3] : Except HsFail (List Bytes)) m2
            cases ht : tripleDH b k rnd remote msg.mode_ephemeral with
            | error e =>
              rw [ht] at w
              have : ∀ f : HsFail, f = (match (generalizing := false) e with | .memory_fault => .fault | _ => .err .unknown) → Supplies s (fun k =>
                withTriple b sp m0.next remote msg.mode_ephemeral
                  (fun e => Pure.pure (s, .error (match e with | .memory_fault => .fault | _ => .err .unknown)))
                  (fun x y z => k [x, y, z])) (.error f) m2 := by
                intro f hf q
                obtain ⟨w1, w2⟩ := w (fun e => Pure.pure (s, .error (match e with | .memory_fault => .fault | _ => .err .unknown))) (fun x y z => q [x, y, z])
                refine ⟨w1.trans (by subst hf; rfl), fun a ha => (w2 a ha).trans (c3 a ha)⟩
              cases e <;> exact this _ rfl
            | ok v =>
              obtain ⟨x, y, z⟩ := v
              rw [ht] at w
              exact ⟨m3, n3, c3, fun q => w _ _⟩)
        generalize hf : (respondMem b ⟨protocolVersion, b.dhPublic rnd, certs.data⟩ (fun k =>
            withTriple b sp m0.next remote msg.mode_ephemeral
              (fun e => Pure.pure (s, .error (match e with | .memory_fault => .fault | _ => .err .unknown)))
              (fun x y z => k [x, y, z])) raw fw s) = f at h
        have hrun : withLocal false (fun pub => withLocal true fun priv => (do
            genKeyPairInto b rnd pub priv
            respondMem b ⟨protocolVersion, b.dhPublic rnd, certs.data⟩ (fun k =>
              withTriple b sp priv remote msg.mode_ephemeral
                (fun e => Pure.pure (s, .error (match e with | .memory_fault => .fault | _ => .err .unknown)))
                (fun x y z => k [x, y, z])) raw fw s : Op Processed)) m = ((f m1).1, (release m.next (release m0.next (f m1).2).2).2) := by
          rw [← hf, ← hm1, ← hm0]
          rfl
        have fin : ∀ x : Processed × Mem, x = ((f m1).1, (release m.next (release m0.next (f m1).2).2).2) → x.1.1.rx = s.rx ∧ x.1.1.tx = s.tx →
            x.1.2 = (respond a ⟨protocolVersion, b.dhPublic rnd, certs.data⟩ l msg raw now fw session st).2.2 ∧
            SameKeys x.2 x.1.1 (respond a ⟨protocolVersion, b.dhPublic rnd, certs.data⟩ l msg raw now fw session st).1 := by
          intro x hx hsame
          subst hx
          refine ⟨h.1, h.2.at ?_ ?_⟩
          · rw [hsame.1]; exact (set_ne (by have := hs.2.1; omega)).trans (set_ne (by have := hs.2.1; omega))
          · rw [hsame.2]; exact (set_ne (by have := hs.2.2; omega)).trans (set_ne (by have := hs.2.2; omega))
        subst hlm
        exact fin _ hrun

namespace MemoryProof

theorem deriveInitiator_at (b : Backend) (hb : b.Lawful) (salt : Bytes) (ikm : List Bytes) (rollback : Bool) (s : SessionMem) (m : Mem) (hs : Proper m s) :
    (rollback = true → (deriveInitiator b salt ikm rollback s m).1 = (s, .refused) ∧
      ∀ a, a < m.next → (deriveInitiator b salt ikm rollback s m).2.cell a = m.cell a) ∧
    (rollback = false → (deriveInitiator b salt ikm rollback s m).1 = ({ s with valid := true }, .ok) ∧
      At (deriveInitiator b salt ikm rollback s m).2 s.rx (b.hkdf salt ikm).2 ∧ At (deriveInitiator b salt ikm rollback s m).2 s.tx (b.hkdf salt ikm).1 ∧
      ∀ a, a < m.next → a ≠ s.rx → a ≠ s.tx → (deriveInitiator b salt ikm rollback s m).2.cell a = m.cell a) := by
  obtain ⟨p1, p2, p3⟩ := hs
  unfold deriveInitiator
  generalize hm1 : (new true m).2 = m1
  have e1 : m1.next = m.next + 1 := by subst hm1; rfl
  generalize hm2 : (new true m1).2 = m2
  have e2 : m2.next = m.next + 2 := by subst hm2; simp [new, Mem.set, e1]
  have c2 : ∀ a, a < m.next → m2.cell a = m.cell a := fun a ha => by
    rw [← hm2, new_same _ _ _ (by omega), ← hm1, new_same _ _ _ ha]
  obtain ⟨k1, k2, k3⟩ := hkdf_at b hb salt ikm m1.next m.next m2 (by omega) (by omega) (by omega)
  generalize hm3 : (hkdfInto b salt ikm m1.next m.next m2).2 = m3 at k1 k2 k3
  have c3 : ∀ a, a < m.next → m3.cell a = m.cell a := fun a ha => by rw [k3 a (by omega) (by omega) (by omega), c2 a ha]
  obtain ⟨i1, i2, i3, i4, i5⟩ := initialize_at s m.next m1.next _ _ m3 k2 k1 (hb.hmac_length _ _) (hb.hmac_length _ _) p1 (by omega)
  cases rollback
  · refine ⟨nofun, fun _ => ?_⟩
    have hr : ∀ x, x = withLocal true (fun rx => withLocal true fun tx => (do
        hkdfInto b salt ikm tx rx
        if false = true then Pure.pure (s, .refused)
        else do
          let r ← s.initialize rx tx
          Pure.pure (r.1, if r.2 then .ok else .refused) : Op (SessionMem × InitOutcome))) m →
        x.1 = ((s.initialize m.next m1.next m3).1.1, if (s.initialize m.next m1.next m3).1.2 then InitOutcome.ok else .refused) ∧
        ∀ a, a < m.next → x.2.cell a = (s.initialize m.next m1.next m3).2.cell a := by
      intro x hx
      subst hx
      constructor
      · rw [withLocal_run, hm1, withLocal_run, hm2, ← hm3]
        rfl
      · intro a ha
        rw [local_cell _ _ _ _ ha, hm1, local_cell _ _ _ _ (by omega), hm2, ← hm3]
        rfl
    obtain ⟨r1, r2⟩ := hr _ rfl
    refine ⟨r1.trans (by rw [i1]; rfl), i2.congr (r2 _ p2), i3.congr (r2 _ p3), fun a ha h1 h2 => ?_⟩
    exact (r2 a ha).trans ((i5 a h1 h2).trans (c3 a ha))
  · refine ⟨fun _ => ⟨rfl, fun a ha => ?_⟩, nofun⟩
    rw [local_cell _ _ _ _ ha, hm1, local_cell _ _ _ _ (by omega), hm2]
    show (hkdfInto b salt ikm m1.next m.next m2).2.cell a = _
    rw [hm3, c3 a ha]

/-- The common end of the three functions. -/
theorem finish_at (b : Backend) (hb : b.Lawful) (h : InitiatorHandshake) (hal : h.algorithms.handshake = ⟨b.hash, b.hkdf⟩) (ikm : List Bytes)
    (limits : SessionLimits) (now : Int) (s : SessionMem) (session : Session) (st : Stats) (m : Mem) (hs : Proper m s) (hv : SameKeys m s session) :
    (deriveInitiator b h.handshakeHash ikm (decide (now < h.timeRequestTx)) s m).1.2 = (h.finishSession ikm limits now session st).2.2 ∧
    SameKeys (deriveInitiator b h.handshakeHash ikm (decide (now < h.timeRequestTx)) s m).2
      (deriveInitiator b h.handshakeHash ikm (decide (now < h.timeRequestTx)) s m).1.1 (h.finishSession ikm limits now session st).1 ∧
    ∀ a, a < m.next → a ≠ s.rx → a ≠ s.tx →
      (deriveInitiator b h.handshakeHash ikm (decide (now < h.timeRequestTx)) s m).2.cell a = m.cell a := by
  have hd := deriveInitiator_at b hb h.handshakeHash ikm (decide (now < h.timeRequestTx)) s m hs
  unfold InitiatorHandshake.finishSession
  rw [hal]
  simp only
  have hval : (SessionKeys.mk (b.hkdf h.handshakeHash ikm).2 (b.hkdf h.handshakeHash ikm).1).valid = true := by
    simp [SessionKeys.valid, Backend.hkdf, hb.hmac_length]
  by_cases hr : now < h.timeRequestTx
  · obtain ⟨d1, d2⟩ := hd.1 (decide_eq_true hr)
    rw [d1, if_pos hr]
    exact ⟨rfl, hv.congr hs d2, fun a ha _ _ => d2 a ha⟩
  · obtain ⟨d1, d2, d3, d4⟩ := hd.2 (decide_eq_false hr)
    rw [d1, if_neg hr]
    simp only [Session.initialize, hval, Bool.not_true, Bool.false_eq_true, if_false]
    exact ⟨trivial, ⟨rfl, fun _ => ⟨d2, d3⟩⟩, d4⟩

theorem mix_at (b : Backend) (hb : b.Lawful) (i : InitiatorMem) (h : InitiatorHandshake) (hal : h.algorithms.handshake = ⟨b.hash, b.hkdf⟩) (input : Bytes)
    (m : Mem) (hh : At m i.hash h.handshakeHash) : (i.mix b input m).1 = (h.mix input).handshakeHash ∧
    At (i.mix b input m).2 i.hash (h.mix input).handshakeHash ∧ (i.mix b input m).2.next = m.next ∧
    ∀ a, a ≠ i.hash → (i.mix b input m).2.cell a = m.cell a := by
  have a1 := hash_at b hb (h.handshakeHash ++ input) i.hash m
  have e : i.mix b input m = (b.hash (h.handshakeHash ++ input), (hashInto b (h.handshakeHash ++ input) i.hash m).2) := by
    simp only [InitiatorMem.mix, Bind.bind, hh.read, a1.read]
  rw [e]
  have : (h.mix input).handshakeHash = b.hash (h.handshakeHash ++ input) := by
    simp only [InitiatorHandshake.mix, hal]
  rw [this]
  exact ⟨rfl, a1, rfl, fun a ha => hash_same _ _ _ _ _ ha⟩

end MemoryProof

/-- An initiator that processes a reply: the same outcome, the same session, and the hash in memory is the hash of the other
model. -/
theorem C63_initiator_computes (b : Backend) (hb : b.Lawful) (caps : Caps) (i : InitiatorMem) (h : InitiatorHandshake)
    (hal : h.algorithms.handshake = ⟨b.hash, b.hkdf⟩) (msg : ReplyHandshakeBegin) (raw : Bytes) (limits : SessionLimits) (now : Int)
    (s : SessionMem) (session : Session) (st : Stats) (m : Mem) (hs : Proper m s) (hv : SameKeys m s session) (hm : Matches m i h)
    (hd : (objects i).Nodup) (hl : ∀ a ∈ objects i, a < m.next ∧ a ≠ s.rx ∧ a ≠ s.tx) :
    (i.reply b caps msg raw (decide (now < h.timeRequestTx)) s m).1.2 =
      (h.initializeSession b caps msg raw limits now session st).2.2.2 ∧
    SameKeys (i.reply b caps msg raw (decide (now < h.timeRequestTx)) s m).2
      (i.reply b caps msg raw (decide (now < h.timeRequestTx)) s m).1.1 (h.initializeSession b caps msg raw limits now session st).2.1 ∧
    Matches (i.reply b caps msg raw (decide (now < h.timeRequestTx)) s m).2 i (h.initializeSession b caps msg raw limits now session st).1 := by
  obtain ⟨hh, hmode⟩ := hm
  have hhash : i.hash < m.next ∧ i.hash ≠ s.rx ∧ i.hash ≠ s.tx := hl _ (by
    match i with
    | .sharedSecret .. => simp [objects, members, InitiatorMem.hash]
    | .qkd none _ => simp [objects, members, InitiatorMem.hash]
    | .qkd (some _) _ => simp [objects, members, InitiatorMem.hash]
    | .publicKey .. => simp [objects, members, InitiatorMem.hash])
  obtain ⟨x1, x2, x3, x4⟩ := mix_at b hb i h hal raw m hh
  have hs1 : Proper (i.mix b raw m).2 s := ⟨hs.1, by rw [x3]; exact hs.2.1, by rw [x3]; exact hs.2.2⟩
  have hv1 : SameKeys (i.mix b raw m).2 s session := hv.at (x4 _ (Ne.symm hhash.2.1)) (x4 _ (Ne.symm hhash.2.2))
  have halm : (h.mix raw).algorithms.handshake = ⟨b.hash, b.hkdf⟩ := hal
  obtain ⟨mode, suite, algorithms, time, hash⟩ := h
  match i, mode with
  | .sharedSecret key nonce hsh, .sharedSecret k n =>
    obtain ⟨g1, g2⟩ := hmode
    have hk := hl key (by simp [objects, longTerm])
    have hn := hl nonce (by simp [objects, members])
    simp only [objects, longTerm, members, List.cons_append, List.nil_append, List.nodup_cons, List.mem_cons, List.not_mem_nil, or_false, not_or] at hd
    unfold InitiatorMem.reply InitiatorHandshake.initializeSession
    simp only
    split
    · exact ⟨rfl, hv, hh, g1, g2⟩
    split
    · exact ⟨rfl, hv, hh, g1, g2⟩
    have r1 : At (InitiatorMem.mix (.sharedSecret key nonce hsh) b raw m).2 key k := g1.congr (x4 _ hd.1.2)
    have r2 : At (InitiatorMem.mix (.sharedSecret key nonce hsh) b raw m).2 nonce n := g2.congr (x4 _ hd.2.1)
    have e : (do
      let salt ← InitiatorMem.mix (.sharedSecret key nonce hsh) b raw
      let x ← read key
      let n ← read nonce
      deriveInitiator b salt [x, n, msg.mode_ephemeral] (decide (now < time)) s : Op (SessionMem × InitOutcome)) m =
      deriveInitiator b (InitiatorHandshake.mix ⟨.sharedSecret k n, suite, algorithms, time, hash⟩ raw).handshakeHash [k, n, msg.mode_ephemeral]
        (decide (now < time)) s (InitiatorMem.mix (.sharedSecret key nonce hsh) b raw m).2 := by
      simp only [Bind.bind, x1, r1.read, r2.read]
    have fin := finish_at b hb (InitiatorHandshake.mix ⟨.sharedSecret k n, suite, algorithms, time, hash⟩ raw) halm [k, n, msg.mode_ephemeral] limits now s
      session st _ hs1 hv1
    have put : ∀ x, x = deriveInitiator b (InitiatorHandshake.mix ⟨.sharedSecret k n, suite, algorithms, time, hash⟩ raw).handshakeHash [k, n, msg.mode_ephemeral]
        (decide (now < time)) s (InitiatorMem.mix (.sharedSecret key nonce hsh) b raw m).2 → x.1.2 = (InitiatorHandshake.finishSession (InitiatorHandshake.mix ⟨.sharedSecret k n, suite, algorithms, time, hash⟩ raw) [k, n, msg.mode_ephemeral] limits now session st).2.2 ∧ SameKeys x.2 x.1.1 (InitiatorHandshake.finishSession (InitiatorHandshake.mix ⟨.sharedSecret k n, suite, algorithms, time, hash⟩ raw) [k, n, msg.mode_ephemeral] limits now session st).1 ∧
        Matches x.2 (.sharedSecret key nonce hsh) (InitiatorHandshake.mix ⟨.sharedSecret k n, suite, algorithms, time, hash⟩ raw) := by
      intro x hx
      subst hx
      refine ⟨fin.1, fin.2.1, x2.congr (fin.2.2 _ (by rw [x3]; exact hhash.1) hhash.2.1 hhash.2.2),
        r1.congr (fin.2.2 _ (by rw [x3]; exact hk.1) hk.2.1 hk.2.2), r2.congr (fin.2.2 _ (by rw [x3]; exact hn.1) hn.2.1 hn.2.2)⟩
    exact put _ e
  | .qkd none hsh, .qkd none => exact ⟨rfl, hv, hh, trivial⟩
  | .qkd (some key) hsh, .qkd (some k) =>
    have hk := hl key (by simp [objects, members])
    simp only [objects, longTerm, members, List.cons_append, List.nil_append, List.nodup_cons, List.mem_cons, List.not_mem_nil, or_false, not_or] at hd
    unfold InitiatorMem.reply InitiatorHandshake.initializeSession
    simp only
    split
    · exact ⟨rfl, hv, hh, hmode⟩
    split
    · exact ⟨rfl, hv, hh, hmode⟩
    have r1 : At (InitiatorMem.mix (.qkd (some key) hsh) b raw m).2 key k := At.congr hmode (x4 _ hd.1)
    have e : (do
      let salt ← InitiatorMem.mix (.qkd (some key) hsh) b raw
      let x ← read key
      deriveInitiator b salt [x] (decide (now < time)) s : Op (SessionMem × InitOutcome)) m =
      deriveInitiator b (InitiatorHandshake.mix ⟨.qkd (some k), suite, algorithms, time, hash⟩ raw).handshakeHash [k]
        (decide (now < time)) s (InitiatorMem.mix (.qkd (some key) hsh) b raw m).2 := by
      simp only [Bind.bind, x1, r1.read]
    have fin := finish_at b hb (InitiatorHandshake.mix ⟨.qkd (some k), suite, algorithms, time, hash⟩ raw) halm [k] limits now s
      session st _ hs1 hv1
    have put : ∀ x, x = deriveInitiator b (InitiatorHandshake.mix ⟨.qkd (some k), suite, algorithms, time, hash⟩ raw).handshakeHash [k]
        (decide (now < time)) s (InitiatorMem.mix (.qkd (some key) hsh) b raw m).2 → x.1.2 = (InitiatorHandshake.finishSession (InitiatorHandshake.mix ⟨.qkd (some k), suite, algorithms, time, hash⟩ raw) [k] limits now session st).2.2 ∧ SameKeys x.2 x.1.1 (InitiatorHandshake.finishSession (InitiatorHandshake.mix ⟨.qkd (some k), suite, algorithms, time, hash⟩ raw) [k] limits now session st).1 ∧
        Matches x.2 (.qkd (some key) hsh) (InitiatorHandshake.mix ⟨.qkd (some k), suite, algorithms, time, hash⟩ raw) := by
      intro x hx
      subst hx
      exact ⟨fin.1, fin.2.1, x2.congr (fin.2.2 _ (by rw [x3]; exact hhash.1) hhash.2.1 hhash.2.2),
        r1.congr (fin.2.2 _ (by rw [x3]; exact hk.1) hk.2.1 hk.2.2)⟩
    exact put _ e
  | .publicKey sp certs pub priv hsh, .publicKey k certs' eph =>
    obtain ⟨g1, g2, g3, rfl⟩ := hmode
    have hk := hl sp (by simp [objects, longTerm])
    have hpub := hl pub (by simp [objects, members])
    have hpr := hl priv (by simp [objects, members])
    simp only [objects, longTerm, members, List.cons_append, List.nil_append, List.nodup_cons, List.mem_cons, List.not_mem_nil, or_false, not_or] at hd
    unfold InitiatorMem.reply InitiatorHandshake.initializeSession
    simp only
    cases hce : certs.validate b caps certs.mode msg.mode_data with
    | error e =>
      cases e with
      | fault => exact ⟨rfl, hv, hh, g1, g2, g3, rfl⟩
      | err _ => exact ⟨rfl, hv, hh, g1, g2, g3, rfl⟩
    | ok remote =>
      simp only
      have r1 : At (InitiatorMem.mix (.publicKey sp certs pub priv hsh) b raw m).2 sp k := g1.congr (x4 _ (by exact hd.1.2.2))
      have r2 : At (InitiatorMem.mix (.publicKey sp certs pub priv hsh) b raw m).2 pub eph.pub := g2.congr (x4 _ (by exact hd.2.1.2))
      have r3 : At (InitiatorMem.mix (.publicKey sp certs pub priv hsh) b raw m).2 priv eph.priv := g3.congr (x4 _ (by exact hd.2.2.1))
      generalize hm1 : (InitiatorMem.mix (.publicKey sp certs pub priv hsh) b raw m).2 = m1 at *
      obtain ⟨m2, n2, c2, w⟩ := withTriple_at (α := SessionMem × InitOutcome) b hb sp priv k eph.priv remote msg.mode_ephemeral m1 r1 r3
        (by rw [x3]; exact hk.1) (by rw [x3]; exact hpr.1)
      obtain ⟨w1, w2⟩ := w (fun e => Pure.pure (s, match e with | .memory_fault => .fault | _ => .refused))
        (fun x y z => deriveInitiator b (InitiatorHandshake.mix ⟨.publicKey k certs eph, suite, algorithms, time, hash⟩ raw).handshakeHash [x, z, y]
          (decide (now < time)) s)
      have e : (do
        let salt ← InitiatorMem.mix (.publicKey sp certs pub priv hsh) b raw
        withTriple b sp priv remote msg.mode_ephemeral
          (fun e => Pure.pure (s, match e with | .memory_fault => .fault | _ => .refused))
          (fun x y z => deriveInitiator b salt [x, z, y] (decide (now < time)) s) : Op (SessionMem × InitOutcome)) m =
          withTriple b sp priv remote msg.mode_ephemeral
          (fun e => Pure.pure (s, match e with | .memory_fault => .fault | _ => .refused))
          (fun x y z => deriveInitiator b (InitiatorHandshake.mix ⟨.publicKey k certs eph, suite, algorithms, time, hash⟩ raw).handshakeHash [x, z, y]
            (decide (now < time)) s) m1 := by
        simp only [Bind.bind, x1, hm1]
      have hs2 : Proper m2 s := ⟨hs1.1, by have := hs1.2.1; omega, by have := hs1.2.2; omega⟩
      have hv2 : SameKeys m2 s session := hv1.congr hs1 c2
      cases ht : tripleDH b k eph.priv remote msg.mode_ephemeral with
      | error er =>
        rw [ht] at w1 w2
        have put : ∀ x, x = withTriple b sp priv remote msg.mode_ephemeral
            (fun e => Pure.pure (s, match e with | .memory_fault => .fault | _ => .refused))
            (fun x y z => deriveInitiator b (InitiatorHandshake.mix ⟨.publicKey k certs eph, suite, algorithms, time, hash⟩ raw).handshakeHash [x, z, y]
              (decide (now < time)) s) m1 →
            x.1.2 = (match (generalizing := false) er with | .memory_fault => .fault | _ => .refused) ∧ SameKeys x.2 x.1.1 session ∧
            Matches x.2 (.publicKey sp certs pub priv hsh) (InitiatorHandshake.mix ⟨.publicKey k certs eph, suite, algorithms, time, hash⟩ raw) := by
          intro x hx
          subst hx
          have cc : ∀ a, a < m.next → (withTriple b sp priv remote msg.mode_ephemeral
            (fun e => (Pure.pure (s, match e with | .memory_fault => .fault | _ => .refused) : Op (SessionMem × InitOutcome)))
            (fun x y z => deriveInitiator b (InitiatorHandshake.mix ⟨.publicKey k certs eph, suite, algorithms, time, hash⟩ raw).handshakeHash [x, z, y]
              (decide (now < time)) s) m1).2.cell a = m1.cell a := fun a ha => (w2 a (by omega)).trans (c2 a (by omega))
          exact ⟨congrArg Prod.snd w1, (hv1.at (cc _ hs.2.1) (cc _ hs.2.2)).of_eq (congrArg Prod.fst w1), x2.congr (cc _ hhash.1), r1.congr (cc _ hk.1), r2.congr (cc _ hpub.1), r3.congr (cc _ hpr.1), rfl⟩
        cases er with
        | memory_fault => exact put _ e
        | _ => exact put _ e
      | ok v =>
        obtain ⟨x, y, z⟩ := v
        rw [ht] at w1 w2
        have fin := finish_at b hb (InitiatorHandshake.mix ⟨.publicKey k certs eph, suite, algorithms, time, hash⟩ raw) halm [x, z, y] limits now s
          session st _ hs2 hv2
        have put : ∀ r, r = withTriple b sp priv remote msg.mode_ephemeral
            (fun e => Pure.pure (s, match e with | .memory_fault => .fault | _ => .refused))
            (fun x y z => deriveInitiator b (InitiatorHandshake.mix ⟨.publicKey k certs eph, suite, algorithms, time, hash⟩ raw).handshakeHash [x, z, y]
              (decide (now < time)) s) m1 → r.1.2 = (InitiatorHandshake.finishSession (InitiatorHandshake.mix ⟨.publicKey k certs eph, suite, algorithms, time, hash⟩ raw) [x, z, y] limits now session st).2.2 ∧ SameKeys r.2 r.1.1 (InitiatorHandshake.finishSession (InitiatorHandshake.mix ⟨.publicKey k certs eph, suite, algorithms, time, hash⟩ raw) [x, z, y] limits now session st).1 ∧
            Matches r.2 (.publicKey sp certs pub priv hsh) (InitiatorHandshake.mix ⟨.publicKey k certs eph, suite, algorithms, time, hash⟩ raw) := by
          intro r hr
          subst hr
          have cc : ∀ a, a < m.next → a ≠ s.rx → a ≠ s.tx → (withTriple b sp priv remote msg.mode_ephemeral
            (fun e => (Pure.pure (s, match e with | .memory_fault => .fault | _ => .refused) : Op (SessionMem × InitOutcome)))
            (fun x y z => deriveInitiator b (InitiatorHandshake.mix ⟨.publicKey k certs eph, suite, algorithms, time, hash⟩ raw).handshakeHash [x, z, y]
              (decide (now < time)) s) m1).2.cell a = m1.cell a := fun a ha h1 h2 =>
            (w2 a (by omega)).trans ((fin.2.2 a (by omega) h1 h2).trans (c2 a (by omega)))
          have had := (same_deriveInitiator b (InitiatorHandshake.mix ⟨.publicKey k certs eph, suite, algorithms, time, hash⟩ raw).handshakeHash [x, z, y]
              (decide (now < time)) s m2).addresses
          refine ⟨(congrArg Prod.snd w1).trans fin.1, ?_, x2.congr (cc _ hhash.1 hhash.2.1 hhash.2.2), r1.congr (cc _ hk.1 hk.2.1 hk.2.2),
            r2.congr (cc _ hpub.1 hpub.2.1 hpub.2.2), r3.congr (cc _ hpr.1 hpr.2.1 hpr.2.2), rfl⟩
          rw [w1]
          refine fin.2.1.at ?_ ?_
          · refine w2 _ ?_
            exact Nat.lt_of_le_of_lt (Nat.le_of_eq had.1) hs1.2.1
          · refine w2 _ ?_
            exact Nat.lt_of_le_of_lt (Nat.le_of_eq had.2) hs1.2.2
        exact put _ e
  | .sharedSecret .., .qkd _ => exact hmode.elim
  | .sharedSecret .., .publicKey .. => exact hmode.elim
  | .qkd none _, .qkd (some _) => exact hmode.elim
  | .qkd (some _) _, .qkd none => exact hmode.elim
  | .qkd none _, .sharedSecret .. => exact hmode.elim
  | .qkd (some _) _, .sharedSecret .. => exact hmode.elim
  | .qkd none _, .publicKey .. => exact hmode.elim
  | .qkd (some _) _, .publicKey .. => exact hmode.elim
  | .publicKey .., .sharedSecret .. => exact hmode.elim
  | .publicKey .., .qkd _ => exact hmode.elim

/-- Sending: the text and the tag are those of the model without memory. -/
theorem C63_seal_computes (b : Backend) (hb : b.Lawful) (key : Nat) (k : Bytes) (nonce : UInt16) (ad clear : Bytes) (n : Nat) (m : Mem)
    (hk : At m key k) (hl : key < m.next) :
    (sealWith b .hmac_sha256_16 key nonce ad clear n m).1 = (SessionMode.hmacSha256Trunc16 b).encrypt k nonce ad clear n ∧
    (sealWith b .aes_256_gcm key nonce ad clear n m).1 = (SessionMode.aes256Gcm b).encrypt k nonce ad clear n := by
  have hk' : At (new true m).2 key k := hk.congr (new_same _ _ _ hl)
  constructor
  · simp only [sealWith, SessionMode.hmacSha256Trunc16, aeadMacEncrypt]
    by_cases hc : clear.length > 65535
    · simp only [hc, if_true]
      rfl
    · simp only [hc, if_false]
      rw [withLocal_run]
      simp only [Bind.bind, hk'.read, (hmac_at b hb _ _ _ _).read]
      rfl
  · simp only [sealWith, SessionMode.aes256Gcm, gcmEncrypt]
    rw [withLocal_run]
    simp only [Bind.bind, hk'.read]
    split
    · rfl
    · obtain ⟨ct, tag, e, -, e2, -⟩ := hb.gcm_seal k (gcmNonce nonce) ad clear
      rw [e]
      simp only [(At.write e2).read]
      rfl

/-- Receiving: accepted or refused with the same outcome as in the model without memory. -/
theorem C63_open_computes (b : Backend) (hb : b.Lawful) (key : Nat) (k : Bytes) (nonce : UInt16) (ad cipher tag : Bytes) (n : Nat) (m : Mem)
    (hk : At m key k) :
    (openWith b .hmac_sha256_16 key nonce ad cipher tag n m).1 = (SessionMode.hmacSha256Trunc16 b).decrypt k nonce ad cipher tag n ∧
    (openWith b .aes_256_gcm key nonce ad cipher tag n m).1 = (SessionMode.aes256Gcm b).decrypt k nonce ad cipher tag n := by
  constructor
  · simp only [openWith, Bind.bind, hk.read, SessionMode.hmacSha256Trunc16, aeadMacDecrypt]
    by_cases hc : n > 65535
    · rw [if_pos hc, if_pos hc]
      rfl
    · rw [if_neg hc, if_neg hc]
      simp only [withLocal, Bind.bind, (hmac_at b hb _ _ _ _).read]
      split <;> rfl
  · simp only [openWith, Bind.bind, hk.read, SessionMode.aes256Gcm, gcmDecrypt]
    split
    · rfl
    · split <;> rename_i e <;> rw [e] <;> rfl

/-- An initiator that begins a handshake: whether it can, the new key or nonce, and for a quantum key that it has left the
store. -/
theorem C63_begin_computes (b : Backend) (hb : b.Lawful) (i : InitiatorMem) (h : InitiatorHandshake) (store : StoreMem) (rnd : Bytes)
    (record : Option (UInt64 × Bytes)) (m : Mem) (hm : Matches m i h) (hd : (objects i).Nodup) (hr : rnd.length = 32)
    (h0 : store.getLast? = none → record = none)
    (h1 : ∀ id a, store.getLast? = some (id, a) →
      ∃ k, record = some (id, k) ∧ At m a k ∧ (m.cell a).owners = 1 ∧ a ∉ objects i) :
    Matches (i.begin b store rnd m).2 (i.begin b store rnd m).1.1 (h.initializeNew b rnd record).1 ∧
    (i.begin b store rnd m).1.2.2 = (h.initializeNew b rnd record).2.isSome ∧
    (i.begin b store rnd m).1.2.1 = store.take (store.length - (h.usedRecord record).toList.length) := by
  obtain ⟨mode, suite, algorithms, time, hash⟩ := h
  obtain ⟨hh, hmode⟩ := hm
  match i, mode, hmode with
  | .sharedSecret key nonce hsh, .sharedSecret k n, hmode =>
    have d : key ≠ nonce ∧ nonce ≠ hsh := by
      simp only [objects, longTerm, members, List.cons_append, List.nil_append, List.nodup_cons, List.mem_cons, not_or] at hd
      exact ⟨hd.1.1, hd.2.1.1⟩
    refine ⟨⟨hh.congr ?_, hmode.1.congr ?_, At.write hr⟩, rfl, ?_⟩
    · simp [InitiatorMem.begin, InitiatorMem.hash, Bind.bind, Pure.pure, setLength, put, Mem.set, Ne.symm d.2]
    · simp [InitiatorMem.begin, Bind.bind, Pure.pure, setLength, put, Mem.set, d.1]
    · exact (List.take_of_length_le (Nat.le_refl _)).symm
  | .publicKey sp certs pub priv hsh, .publicKey k certs' eph, hmode =>
    have d : sp ≠ pub ∧ sp ≠ priv ∧ pub ≠ priv ∧ hsh ≠ pub ∧ hsh ≠ priv := by
      simp only [objects, longTerm, members, List.cons_append, List.nil_append, List.nodup_cons, List.mem_cons, not_or] at hd
      exact ⟨hd.1.1, hd.1.2.1, hd.2.1.1, Ne.symm hd.2.1.2.1, Ne.symm hd.2.2.1.1⟩
    refine ⟨⟨hh.congr ?_, hmode.1.congr ?_, ?_, ?_, hmode.2.2.2⟩, rfl, ?_⟩
    · simp [InitiatorMem.begin, InitiatorMem.hash, genKeyPairInto, Bind.bind, Pure.pure, setLength, put, Mem.set, d.2.2.2.1, d.2.2.2.2]
    · simp [InitiatorMem.begin, genKeyPairInto, Bind.bind, Pure.pure, setLength, put, Mem.set, d.1, d.2.1]
    · have := hb.dhPublic_length rnd
      constructor <;>
      simp [InitiatorMem.begin, Backend.genKeyPair, genKeyPairInto, Bind.bind, Pure.pure, setLength, put, Mem.set, d.2.2.1, this]
    · constructor <;>
      simp [InitiatorMem.begin, Backend.genKeyPair, genKeyPairInto, Bind.bind, Pure.pure, setLength, put, Mem.set, Ne.symm d.2.2.1, hr]
    · exact (List.take_of_length_le (Nat.le_refl _)).symm
  | .qkd key hsh, .qkd k, hmode =>
    have dr : ∀ x, x ∉ key → (drop key m).2.cell x = m.cell x := by
      intro x hx
      cases key with
      | none => rfl
      | some y => exact set_ne (fun e => hx (by simp [e]))
    have hhk : hsh ∉ key := by
      intro e
      cases key with
      | none => cases e
      | some y =>
        cases e
        simp [objects, longTerm, members] at hd
    cases hg : store.getLast? with
    | none =>
      have e : (InitiatorMem.qkd key hsh).begin b store rnd m = ((.qkd none hsh, store, false), (drop key m).2) := by
        simp only [InitiatorMem.begin, hg]
        rfl
      rw [e, h0 hg]
      exact ⟨⟨hh.congr (dr _ hhk), trivial⟩, rfl, (List.take_of_length_le (Nat.le_refl _)).symm⟩
    | some r =>
      obtain ⟨id, a⟩ := r
      obtain ⟨kk, e1, e2, e3, e4⟩ := h1 id a hg
      have hak : a ∉ key ∧ a ≠ hsh := by
        constructor
        · intro e
          cases key with
          | none => cases e
          | some y => cases e; exact e4 (by simp [objects, longTerm, members])
        · rintro rfl
          cases key <;> exact e4 (by simp [objects, longTerm, members])
      have e : (InitiatorMem.qkd key hsh).begin b store rnd m =
          ((.qkd (some a) hsh, store.dropLast, true), (release a (share a (drop key m).2).2).2) := by
        simp only [InitiatorMem.begin, hg]
        rfl
      rw [e, e1]
      refine ⟨⟨hh.congr ?_, ?_⟩, rfl, ?_⟩
      · refine (set_ne (Ne.symm hak.2)).trans ((set_ne (Ne.symm hak.2)).trans (dr _ hhk))
      · have : ((release a (share a (drop key m).2).2).2).cell a = m.cell a := by
          have := dr a hak.1
          simp only [release, share, set_eq, this]
          revert e3
          generalize m.cell a = c
          obtain ⟨x, y, z, w⟩ := c
          rintro rfl
          simp
        exact e2.congr this
      · exact List.dropLast_eq_take
  | .sharedSecret .., .qkd _, hmode => exact hmode.elim
  | .sharedSecret .., .publicKey .., hmode => exact hmode.elim
  | .qkd none _, .sharedSecret .., hmode => exact hmode.elim
  | .qkd (some _) _, .sharedSecret .., hmode => exact hmode.elim
  | .qkd none _, .publicKey .., hmode => exact hmode.elim
  | .qkd (some _) _, .publicKey .., hmode => exact hmode.elim
  | .publicKey .., .sharedSecret .., hmode => exact hmode.elim
  | .publicKey .., .qkd _, hmode => exact hmode.elim

/-- An initiator that has written its request: the hash of the request. -/
theorem C63_request_computes (b : Backend) (hb : b.Lawful) (i : InitiatorMem) (h : InitiatorHandshake)
    (hal : h.algorithms.handshake = ⟨b.hash, b.hkdf⟩) (request : Bytes) (now : Int) (m : Mem) (hm : Matches m i h) (hd : (objects i).Nodup) :
    Matches (i.requested b request m).2 i (h.finalizeRequestTx request now) := by
  obtain ⟨mode, suite, algorithms, time, hash⟩ := h
  obtain ⟨hh, hmode⟩ := hm
  refine ⟨?_, ?_⟩
  · have := hash_at b hb request i.hash m
    have e : algorithms.handshake.hash = b.hash := congrArg HandshakeAlgorithms.hash hal
    simp only [InitiatorHandshake.finalizeRequestTx, e]
    exact this
  match i, mode, hmode with
  | .sharedSecret key nonce hsh, .sharedSecret k n, hmode =>
    simp only [objects, longTerm, members, List.cons_append, List.nil_append, List.nodup_cons, List.mem_cons, not_or] at hd
    exact ⟨hmode.1.congr (hash_same _ _ _ _ _ hd.1.2.1), hmode.2.congr (hash_same _ _ _ _ _ hd.2.1.1)⟩
  | .publicKey sp certs pub priv hsh, .publicKey k certs' eph, hmode =>
    simp only [objects, longTerm, members, List.cons_append, List.nil_append, List.nodup_cons, List.mem_cons, not_or] at hd
    exact ⟨hmode.1.congr (hash_same _ _ _ _ _ hd.1.2.2.1), hmode.2.1.congr (hash_same _ _ _ _ _ hd.2.1.2.1),
      hmode.2.2.1.congr (hash_same _ _ _ _ _ hd.2.2.1.1), hmode.2.2.2⟩
  | .qkd none hsh, .qkd none, _ => trivial
  | .qkd (some a) hsh, .qkd (some k), hmode =>
    simp [objects, longTerm, members] at hd
    exact hmode.congr (hash_same _ _ _ _ _ hd)
  | .qkd none _, .qkd (some _), hmode => exact hmode.elim
  | .qkd (some _) _, .qkd none, hmode => exact hmode.elim
  | .sharedSecret .., .qkd _, hmode => exact hmode.elim
  | .sharedSecret .., .publicKey .., hmode => exact hmode.elim
  | .qkd none _, .sharedSecret .., hmode => exact hmode.elim
  | .qkd (some _) _, .sharedSecret .., hmode => exact hmode.elim
  | .qkd none _, .publicKey .., hmode => exact hmode.elim
  | .qkd (some _) _, .publicKey .., hmode => exact hmode.elim
  | .publicKey .., .sharedSecret .., hmode => exact hmode.elim
  | .publicKey .., .qkd _, hmode => exact hmode.elim

end SSP21.Memory
