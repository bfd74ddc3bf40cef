import Verif.Props.Bridge
import Verif.Props.KeyFiles
import Verif.Props.Renegotiation
/-
  Property C54: two proxies whose configuration files match carry the bytes of their sockets to each other. From the files
  to the sockets: the files give two stacks (C49), whose handshakes make two ends of one channel (C52), which the proxies
  connect to their sockets (C48).
-/
namespace SSP21.Config
open _root_.SSP21.Config.Spec

namespace Spec

/-- The role that an item of `sessions` names. -/
def Runs (node : Yaml) (role : String) : Prop := ∃ security, entry node "security" = some security ∧ Required Text security "mode" role

/-- The file of a chain of certificates, the last of which is for this public key. -/
def Certifies (file key : Bytes) : Prop :=
  ∃ certs env body, file = SSP21.Spec.container ⟨.certificate_chain, SSP21.Spec.chain certs⟩ ∧
    (SSP21.Spec.chain certs).length < 2 ^ 32 ∧ CertificateChain.WF certs ∧ certs.getLast? = some env ∧
    env.certificate_body = SSP21.Spec.certificateBody body ∧ body.WF ∧ body.public_key = key

/-- The handshake sections of an initiator and a responder match: both have the same shared secret; or both have quantum
keys; or each has the public key of the other; or both trust the same authority, and present a chain of certificates for
the public key that belongs to their own private key. -/
inductive Matching (b : Backend) (w w' : World) (hs hs' : Yaml) : Prop
  | sharedSecret (key : Bytes) : Required Text hs "type" "shared_secret" → Required Text hs' "type" "shared_secret" →
      Key w hs "shared_secret_key_path" .shared_secret key → Key w' hs' "shared_secret_key_path" .shared_secret key →
      Matching b w w' hs hs'
  | qkd : Required Text hs "type" "qkd" → Required Text hs' "type" "qkd" → Matching b w w' hs hs'
  | preshared (x x' : Bytes) : Required Text hs "type" "preshared_public_key" → Required Text hs' "type" "preshared_public_key" →
      Key w hs "local_private_key_path" .x25519_private_key x → Key w' hs' "local_private_key_path" .x25519_private_key x' →
      Key w hs "remote_public_key_path" .x25519_public_key (b.dhPublic x') →
      Key w' hs' "remote_public_key_path" .x25519_public_key (b.dhPublic x) → Matching b w w' hs hs'
  | certificates (x x' authority chain chain' : Bytes) : Required Text hs "type" "certificate" → Required Text hs' "type" "certificate" →
      Key w hs "local_private_key_path" .x25519_private_key x → Key w' hs' "local_private_key_path" .x25519_private_key x' →
      Contents w hs "authority_cert_path" authority → Contents w' hs' "authority_cert_path" authority →
      Contents w hs "local_cert_path" chain → Contents w' hs' "local_cert_path" chain' →
      Certifies chain (b.dhPublic x) → Certifies chain' (b.dhPublic x') → Matching b w w' hs hs'

end Spec

/-! ### Certificates of one authority -/

theorem contents_unique {w : World} {n : Yaml} {k : String} {a a' : Bytes} (h : Contents w n k a) (h' : Contents w n k a') : a = a' := by
  rw [← contents_ok] at h h'
  rw [h] at h'
  cases h'
  rfl

theorem mkIndustrial_ok {b : Backend} {caps : Caps} {authority chain : Bytes} {h : CertHandler}
    (hh : CertHandler.mkIndustrial b caps authority chain = some h) :
    ∃ anchor certs leaf, readAnchorCert authority = some anchor ∧ h = .industrial anchor (SSP21.Spec.chain certs) ∧
      chain = SSP21.Spec.container ⟨.certificate_chain, SSP21.Spec.chain certs⟩ ∧ (SSP21.Spec.chain certs).length < 2 ^ 32 ∧
      (certs.length ≤ 6 ∧ ∀ x ∈ certs, x.signature.length < 2 ^ 32 ∧ x.certificate_body.length < 2 ^ 32) ∧
      Chain.verify b caps anchor certs = .ok leaf := by
  unfold CertHandler.mkIndustrial at hh
  split at hh
  · cases hh
  rename_i anchor ha
  split at hh
  · cases hh
  rename_i p hp
  cases hh
  unfold verifyPresentedChain at hp
  split at hp
  · cases hp
  rename_i file hf
  split at hp
  · cases hp
  rename_i ht
  split at hp
  · cases hp
  rename_i chain hc
  split at hp
  · cases hp
  rename_i leaf hv
  cases hp
  obtain ⟨f1, f2⟩ := ((C05_container).2.2.2 _ file).mp hf
  obtain ⟨c1, c2⟩ := ((C05_chain).2.2.2 file.payload chain).mp hc
  have ht : file.container_entry_type = .certificate_chain := by simpa using ht
  refine ⟨anchor, chain, leaf, ha, by rw [c2], ?_, by rw [← c2]; exact f1.2, c1, hv⟩
  rw [f2, ← c2, ← ht]

theorem container_inj {t : ContainerEntryType} {p p' : Bytes} (ht : t ≠ .undefined) (hp : p.length < 2 ^ 32) (hp' : p'.length < 2 ^ 32)
    (h : SSP21.Spec.container ⟨t, p⟩ = SSP21.Spec.container ⟨t, p'⟩) : p = p' := by
  have h1 := (C05_container.2.2.2 _ ⟨t, p⟩).mpr ⟨⟨ht, hp⟩, rfl⟩
  have h2 := (C05_container.2.2.2 _ ⟨t, p'⟩).mpr ⟨⟨ht, hp'⟩, rfl⟩
  rw [h, h2] at h1
  cases h1
  rfl

/-- Who has certificates of the same authority accepts them. -/
theorem certified {b : Backend} {caps caps' : Caps} {authority chain chain' key : Bytes} {h h' : CertHandler}
    (hh : CertHandler.mkIndustrial b caps authority chain = some h)
    (hh' : CertHandler.mkIndustrial b caps' authority chain' = some h') (hc : Certifies chain key) :
    h'.validate b caps' .industrial_certificates h.data = .ok key := by
  obtain ⟨anchor, certs, leaf, e1, rfl, e3, e4, e5, e6⟩ := mkIndustrial_ok hh
  obtain ⟨anchor', certs', leaf', f1, rfl, -, -, -, f6⟩ := mkIndustrial_ok hh'
  rw [e1] at f1
  cases f1
  obtain ⟨certs2, env, body, g1, g2, g3, g4, g5, g6, rfl⟩ := hc
  have hpay := container_inj (by simp) e4 g2 (e3.symm.trans g1)
  have heq : certs = certs2 := by
    have h1 := (C05_chain.2.2.2 _ certs).mpr ⟨e5, rfl⟩
    have h2 := (C05_chain.2.2.2 _ certs2).mpr ⟨g3, rfl⟩
    rw [hpay, h2] at h1
    cases h1
    rfl
  subst heq
  obtain ⟨-, k2, k3, k4, bodies, k5, k6⟩ := (C28_accept_iff b caps anchor certs leaf).mp e6
  have hv : Chain.verify b caps' anchor certs = .ok leaf :=
    (C28_accept_iff b caps' anchor certs leaf).mpr ⟨((C28_accept_iff b caps' anchor certs' leaf').mp f6).1, k2, k3, k4, bodies, k5, k6⟩
  refine ((C28_handler b caps' .industrial_certificates (SSP21.Spec.chain certs) body.public_key).1 anchor _).mpr
    ⟨rfl, certs, leaf, e5, rfl, hv, ?_⟩
  have hlen := k5.1
  have hne : bodies ≠ [] := fun h => by rw [h] at k6; cases k6
  have hiss := k5.2 (certs.length - 1) env ((anchor :: bodies)[certs.length - 1]'(by simp; omega)) leaf
    (by rw [← g4, List.getLast?_eq_getElem?]) (List.getElem?_eq_getElem _)
    (by rw [← k6, List.getLast?_eq_getElem?, hlen])
  have h1 := (C05_certificate_body.2.2.2 _ leaf).mpr ⟨hiss.wellFormed, rfl⟩
  have h2 := (C05_certificate_body.2.2.2 _ body).mpr ⟨g6, rfl⟩
  rw [← hiss.encoded, g5, h2] at h1
  cases h1
  rfl

/-! ### From files to peers -/

theorem makeInitiator_nonces {b : Backend} {caps : Caps} {k : InitiatorKeys} {h : InitiatorHandshake}
    (hm : makeInitiator b caps k = .ok h) : h.suite.session_nonce_mode = (Spec.suite k).session_nonce_mode := by
  have orThrow_ok : ∀ {α : Type} {o : Option α} {a : α}, orThrow o = .ok a → o = some a := by
    intro α o a ho
    cases o <;> simp [orThrow] at ho
    rw [ho]
  have pk : ∀ {suite priv certs}, InitiatorHandshake.mkPublicKey b caps suite priv certs = some h →
      h.suite.session_nonce_mode = suite.session_nonce_mode := by
    intro suite priv certs hm
    unfold InitiatorHandshake.mkPublicKey at hm
    split at hm
    · cases hm
    · split at hm
      · cases hm
      · split at hm <;> cases hm
        rfl
  unfold makeInitiator at hm
  split at hm
  · have hm := orThrow_ok hm
    unfold InitiatorHandshake.mkSharedSecret at hm
    split at hm <;> cases hm
    rfl
  · have hm := orThrow_ok hm
    unfold InitiatorHandshake.mkQkd at hm
    split at hm <;> cases hm
    rfl
  · exact pk (orThrow_ok hm)
  · simp only [bind_ok] at hm
    obtain ⟨c, -, hm⟩ := hm
    exact pk (orThrow_ok hm)

theorem runs_unique {n : Yaml} {x y : String} (h : Runs n x) (h' : Runs n y) : x = y := by
  obtain ⟨s, h1, h2⟩ := h
  obtain ⟨s', h3, h4⟩ := h'
  rw [h1] at h3
  cases h3
  exact required_unique (P := Text) (fun m x y h h' => by cases h; cases h'; rfl) h2 h4

/-- **Matching files make peers.** The stacks of an initiator and a responder whose handshake sections match can talk to each
other: their credentials match, their frame writers do not confuse messages, and nonces are strict. -/
theorem C54_matching_files_make_peers (w w' : World) (n n' : Yaml) (r r' q q' : Registry) (p p' : Proxy)
    (h : getSession w n r = .ok (p, r')) (h' : getSession w' n' q = .ok (p', q')) (b : Backend) (hb : b.Lawful) (caps caps' : Caps)
    (st st' : Stack) (hs : makeStack b caps p.addresses p.stack = .ok st) (hs' : makeStack b caps' p'.addresses p'.stack = .ok st')
    (hi : Runs n "initiator") (hr : Runs n' "responder") (handshake handshake' : Yaml)
    (hh : at' n ["security", "handshake"] = some handshake) (hh' : at' n' ["security", "handshake"] = some handshake')
    (hm : Matching b w w' handshake handshake') :
    ∃ limits, ∀ E : Crypto.Env, (∀ ih, E.config ih → st.handshake = some ih) → Crypto.Spec.Peers st.cfg st'.cfg E limits ∧
      ∀ ih, E.config ih → ih.suite.session_nonce_mode = .strict_increment := by
  have orThrow_ok : ∀ {α : Type} {o : Option α} {a : α}, orThrow o = .ok a → o = some a := by
    intro α o a ho
    cases o <;> simp [orThrow] at ho
    rw [ho]
  have hf := (session_ok h).2.2
  obtain ⟨⟨se, e1, hsk, ss, e2, e3, e4⟩, -, -⟩ := (session_ok h).1
  obtain ⟨⟨se', e1', hsk', ss', e2', e3', e4'⟩, -, -⟩ := (session_ok h').1
  have hh : some hsk = some handshake := by rw [← hh]; simp [at', e1, e2]
  have hh' : some hsk' = some handshake' := by rw [← hh']; simp [at', e1', e2']
  cases hh
  cases hh'
  cases hp : p.stack with
  | responder c keys =>
    rw [hp] at e4
    exact absurd (runs_unique hi ⟨se, e1, e4.1⟩) (by simp)
  | initiator c keys =>
    cases hp' : p'.stack with
    | initiator c' keys' =>
      rw [hp'] at e4'
      exact absurd (runs_unique hr ⟨se', e1', e4'.1⟩) (by simp)
    | responder c' keys' =>
      rw [hp] at e4 hf hs
      rw [hp'] at e4' hs'
      unfold makeStack at hs hs'
      simp only [bind_ok] at hs hs'
      obtain ⟨x, hx, hs⟩ := hs
      obtain ⟨x', hx', hs'⟩ := hs'
      cases hs
      cases hs'
      obtain ⟨hk1, m, f1, f2, f3⟩ := stackFactory_initiator hf
      have f1 : some handshake = some hk1 := by rw [← f1]; simp [at', e1, e2]
      cases f1
      have hstrict : x.suite.session_nonce_mode = .strict_increment := by
        rw [makeInitiator_nonces hx, (initiatorKeys_ok f2 f3).2.2]
        rfl
      have e4 := e4.2.2
      have e4' := e4'.2.2
      have cred : Crypto.Spec.Credentials b caps caps' x x' := by
        cases hm with
        | sharedSecret key t t' k k' =>
          cases keys with
          | qkd s st => exact absurd (type_unique t e4.1) (by simp)
          | preshared s k r => exact absurd (type_unique t e4.1) (by simp)
          | certificates s k a c => exact absurd (type_unique t e4.1) (by simp)
          | sharedSecret suite key1 =>
            cases keys' with
            | qkd s => exact absurd (type_unique t' e4'.1) (by simp)
            | preshared k r => exact absurd (type_unique t' e4'.1) (by simp)
            | certificates k a c => exact absurd (type_unique t' e4'.1) (by simp)
            | sharedSecret key2 =>
              cases hx'
              cases key_unique e4.2 k
              cases key_unique e4'.2 k'
              exact .sharedSecret suite _ x (orThrow_ok hx)
        | qkd t t' =>
          cases keys with
          | sharedSecret s k => exact absurd (type_unique t e4.1) (by simp)
          | preshared s k r => exact absurd (type_unique t e4.1) (by simp)
          | certificates s k a c => exact absurd (type_unique t e4.1) (by simp)
          | qkd suite store =>
            cases keys' with
            | sharedSecret k => exact absurd (type_unique t' e4'.1) (by simp)
            | preshared k r => exact absurd (type_unique t' e4'.1) (by simp)
            | certificates k a c => exact absurd (type_unique t' e4'.1) (by simp)
            | qkd store' =>
              cases hx'
              exact .qkd suite x (orThrow_ok hx)
        | preshared y y' t t' k k' o o' =>
          cases keys with
          | sharedSecret s k => exact absurd (type_unique t e4.1) (by simp)
          | qkd s st => exact absurd (type_unique t e4.1) (by simp)
          | certificates s k a c => exact absurd (type_unique t e4.1) (by simp)
          | preshared suite own remote =>
            cases keys' with
            | sharedSecret k => exact absurd (type_unique t' e4'.1) (by simp)
            | qkd s => exact absurd (type_unique t' e4'.1) (by simp)
            | certificates k a c => exact absurd (type_unique t' e4'.1) (by simp)
            | preshared own' remote' =>
              cases hx'
              have h1 := key_unique e4.2.1.2 k
              have h2 := key_unique e4'.2.1.2 k'
              have h3 := key_unique e4.2.2 o
              have h4 := key_unique e4'.2.2 o'
              subst h3
              subst h4
              refine .publicKey suite own.priv own'.priv (.preshared _) (.preshared _) x (orThrow_ok hx) ?_ ?_
              · exact ((C28_handler b caps .public_keys [] _).2 _).mpr ⟨rfl, rfl, by rw [h2]⟩
              · exact ((C28_handler b caps' .public_keys [] _).2 _).mpr ⟨rfl, rfl, by rw [h1]⟩
        | certificates y y' au ch ch' t t' k k' a a' l l' o o' =>
          cases keys with
          | sharedSecret s k => exact absurd (type_unique t e4.1) (by simp)
          | qkd s st => exact absurd (type_unique t e4.1) (by simp)
          | preshared s k r => exact absurd (type_unique t e4.1) (by simp)
          | certificates suite own anchor chain =>
            cases keys' with
            | sharedSecret k => exact absurd (type_unique t' e4'.1) (by simp)
            | qkd s => exact absurd (type_unique t' e4'.1) (by simp)
            | preshared k r => exact absurd (type_unique t' e4'.1) (by simp)
            | certificates own' anchor' chain' =>
              cases contents_unique e4.2.2.1 a
              cases contents_unique e4'.2.2.1 a'
              cases contents_unique e4.2.2.2 l
              cases contents_unique e4'.2.2.2 l'
              have h1 := key_unique e4.2.1.2 k
              have h2 := key_unique e4'.2.1.2 k'
              rw [← h1] at o
              rw [← h2] at o'
              unfold makeInitiator at hx
              unfold makeResponder at hx'
              simp only [bind_ok] at hx hx'
              obtain ⟨certs, j1, j2⟩ := hx
              obtain ⟨certs', j3, j4⟩ := hx'
              cases j4
              have j1 := orThrow_ok j1
              have j3 := orThrow_ok j3
              have hmode : certs.mode = .industrial_certificates := by
                obtain ⟨_, _, _, _, rfl, _⟩ := mkIndustrial_ok j1
                rfl
              exact .publicKey suite own.priv own'.priv certs certs' x (orThrow_ok j2) (by rw [hmode]; exact certified j3 j1 o')
                (by rw [hmode]; exact certified j1 j3 o)
      refine ⟨_, fun E hE => ⟨⟨hb, rfl, ⟨_, rfl⟩, x', rfl, fun ih hc => ?_, Crypto.C52_writers_faithful _, Crypto.C52_writers_faithful _⟩,
        fun ih hc => ?_⟩⟩
      · cases hE ih hc
        exact cred
      · cases hE ih hc
        exact hstrict

/-! ### Keys that the tool has made -/

theorem tool_key {w : World} {node : Yaml} {name path : String} {t : ContainerEntryType} {key : Bytes} (ht : t ≠ .undefined)
    (hk : key.length = 32) (hn : Required Text node name path) (hw : w.file path = some (SSP21.Spec.container ⟨t, key⟩)) :
    Key w node name t key :=
  ⟨path, hn, getCryptoKey_ok.mp (container_loads w path t ht key hk hw)⟩

/-- **Keys of the tool match.** A shared secret that the tool has made, in files of both stations; or a key pair of each of
them, made by the tool, with the public one also in a file of the other station. -/
theorem C54_keys_of_the_tool_match (b : Backend) (hb : b.Lawful) (caps : Caps) (w w' : World) (hs hs' : Yaml) :
    (∀ secret f path path', secret.length = 32 → Tool.genSharedSecret secret = .ok f → w.file path = some f → w'.file path' = some f →
      Required Text hs "type" "shared_secret" → Required Text hs' "type" "shared_secret" →
      Required Text hs "shared_secret_key_path" path → Required Text hs' "shared_secret_key_path" path' → Matching b w w' hs hs') ∧
    (∀ x x' f g f' g' own own' remote remote', x.length = 32 → x'.length = 32 →
      Tool.genX25519 caps x (b.dhPublic x) = .ok (f, g) → Tool.genX25519 caps x' (b.dhPublic x') = .ok (f', g') →
      w.file own = some f → w.file remote = some g' → w'.file own' = some f' → w'.file remote' = some g →
      Required Text hs "type" "preshared_public_key" → Required Text hs' "type" "preshared_public_key" →
      Required Text hs "local_private_key_path" own → Required Text hs' "local_private_key_path" own' →
      Required Text hs "remote_public_key_path" remote → Required Text hs' "remote_public_key_path" remote' →
      Matching b w w' hs hs') := by
  constructor
  · intro secret f path path' hl hf hw hw' t t' n n'
    have h1 := (Tool.C45_key_files caps secret [] (by omega) (by simp)).1
    rw [hf] at h1
    cases h1
    exact .sharedSecret secret t t' (tool_key (by simp) hl n hw) (tool_key (by simp) hl n' hw')
  · intro x x' f g f' g' own own' remote remote' hl hl' hg hg' w1 w2 w3 w4 t t' n1 n2 n3 n4
    have l1 := hb.dhPublic_length x
    have l2 := hb.dhPublic_length x'
    obtain ⟨-, e⟩ := ((Tool.C45_key_files caps x (b.dhPublic x) (by omega) (by omega)).2.1 _).mp hg
    obtain ⟨-, e'⟩ := ((Tool.C45_key_files caps x' (b.dhPublic x') (by omega) (by omega)).2.1 _).mp hg'
    cases e
    cases e'
    exact .preshared x x' t t' (tool_key (by simp) hl n1 w1) (tool_key (by simp) hl' n2 w3) (tool_key (by simp) l2 n3 w2)
      (tool_key (by simp) l1 n4 w4)

/-- **Certificates of the tool certify.** The file that the tool makes from the public key of a station is a chain of one
certificate, for this key. -/
theorem C54_certificates_of_the_tool_certify (caps : Caps) (sign : Bytes → Bytes → Bytes) (hs : ∀ m k, (sign m k).length = 64)
    (x pub f g signer file : Bytes) (hx : x.length = 32) (hp : pub.length = 32) (hg : Tool.genX25519 caps x pub = .ok (f, g))
    (times : Tool.Times) (level : UInt8) (hc : Tool.createCertificate caps sign g signer times level = .ok file) :
    Certifies file pub := by
  obtain ⟨-, e⟩ := ((Tool.C45_key_files caps x pub (by omega) (by omega)).2.1 _).mp hg
  cases e
  obtain ⟨-, type, key, priv, h1, h2, h3, h4, h5, h6, rfl⟩ := (Tool.C45_create caps sign hs _ _ _ _ _).mp hc
  have hk : key = pub := by
    have a1 := (C05_container.2.2.2 _ ⟨Tool.Spec.keyEntry type, key⟩).mpr ⟨⟨by cases type <;> simp [Tool.Spec.keyEntry] at h1 ⊢, by simp only; omega⟩, rfl⟩
    have a2 := (C05_container.2.2.2 _ ⟨.x25519_public_key, pub⟩).mpr ⟨⟨by simp, by simp only; omega⟩, rfl⟩
    rw [← h5, a2] at a1
    simp only [Except.ok.injEq, ContainerFile.mk.injEq] at a1
    exact a1.2.symm
  subst hk
  have hl := Tool.bodyLength times level type key hp
  have hcl := Tool.chainLength (Tool.Spec.signed sign (Tool.Spec.body times level type key) priv) (hs _ _) hl
  refine ⟨_, _, Tool.Spec.body times level type key, rfl, by rw [hcl]; decide, ⟨by simp, fun e he => ?_⟩, rfl, rfl,
    ⟨h1, by simp only [Tool.Spec.body]; omega, by simp [Tool.Spec.body], by simp [Tool.Spec.body]⟩, rfl⟩
  rw [List.mem_singleton] at he
  subst he
  exact ⟨by simp only [Tool.Spec.signed, hs]; decide, by simp only [Tool.Spec.signed, hl]; decide⟩

/-! ### From socket to socket -/

/-- A station: the stack that a proxy makes from an item of `sessions`. -/
structure Spec.Station (b : Backend) (caps : Caps) (w : World) (node : Yaml) (role : String) (handshake : Yaml) (st : Stack) : Prop where
  made : ∃ reg reg' p, getSession w node reg = .ok (p, reg') ∧ makeStack b caps p.addresses p.stack = .ok st
  role : Runs node role
  handshake : at' node ["security", "handshake"] = some handshake

/-- Two stations that run: matching files, matching keys; the layers below do not act after they have closed; the initiator
begins with the handshake that its file describes. -/
structure Spec.Pair (b : Backend) (st st' : Stack) (E E' : Crypto.Env) : Prop where
  lawful : b.Lawful
  stations : ∃ caps caps' w w' n n' handshake handshake', Station b caps w n "initiator" handshake st ∧
    Station b caps' w' n' "responder" handshake' st' ∧ Matching b w w' handshake handshake'
  silent : E.SilentWhenClosed
  silent' : E'.SilentWhenClosed
  config : ∀ ih, E.config ih → st.handshake = some ih

theorem pair_peers {b : Backend} {st st' : Stack} {E E' : Crypto.Env} (h : Spec.Pair b st st' E E') :
    ∃ limits, Crypto.Spec.Peers st.cfg st'.cfg (Crypto.Bridge.Proof.env st.cfg E) limits ∧
      ∀ ih, E.config ih → ih.suite.session_nonce_mode = .strict_increment := by
  obtain ⟨hb, ⟨caps, caps', w, w', n, n', hsk, hsk', ⟨⟨r, r', p, h1, h2⟩, h3, h4⟩, ⟨⟨q, q', p', h1', h2'⟩, h3', h4'⟩, hm⟩, -, -, hc⟩ := h
  obtain ⟨limits, hl⟩ := C54_matching_files_make_peers w w' n n' r r' q q' p p' h1 h1' b hb caps caps' st st' h2 h2' h3 h3' hsk hsk'
    h4 h4' hm
  exact ⟨limits, hl (Crypto.Bridge.Proof.env st.cfg E) hc⟩

open Crypto.Bridge (State Reachable)
open Crypto.Bridge.Spec (Outside)
open Crypto.Spec (view SameHandshake history)

/-- **First session, to the responder.** What a responder has written to the socket of its application is a prefix of what
its peer has read from the socket of its own, if their files match, the first session of both was made by a handshake
between the two, and no session message was forged. (The layers below have not been closed, and the session auth message
was answered.) -/
theorem C54_bytes_to_responder (b : Backend) (st st' : Stack) (kind kind' : Asio.Transport) (E E' : Crypto.Env)
    (hp : Spec.Pair b st st' E E') (x x' : State) (h : Reachable st.cfg kind E x) (h' : Reachable st'.cfg kind' E' x')
    (s s' : Crypto.Layer) (hs : Outside x s) (hs' : Outside x' s') (h1 : (view s).count = 1) (h1' : (view s').count = 1)
    (hx : SameHandshake st.cfg st'.cfg s s' 0 0) (hf : NoForgery ((view s).session 0) ((view s').session 0))
    (hc : Crypto.Obs.lowerClose ∉ s.log) (hc' : Crypto.Obs.lowerClose ∉ s'.log)
    (hl : Crypto.Spec.Ev.act (.notSent false) ∉ history s') : x'.rawOut.flatten <+: x.rawIn.flatten := by
  obtain ⟨limits, hpe, hn⟩ := pair_peers hp
  obtain ⟨a1, -, a2⟩ := Crypto.Bridge.Proof.outside_observed hp.silent h hs
  obtain ⟨b1, b2, -⟩ := Crypto.Bridge.Proof.outside_observed hp.silent' h' hs'
  rw [b2, ← Crypto.Bridge.Proof.taken_of a2]
  exact Crypto.C52_to_responder _ _ _ _ limits hpe hn (.inl (Crypto.Bridge.Proof.env_readsAtOnce _ E')) s s' a1 b1 h1 h1' hx hf hc hl
    (.inr hc')

/-- **First session, to the initiator.** -/
theorem C54_bytes_to_initiator (b : Backend) (st st' : Stack) (kind kind' : Asio.Transport) (E E' : Crypto.Env)
    (hp : Spec.Pair b st st' E E') (x x' : State) (h : Reachable st.cfg kind E x) (h' : Reachable st'.cfg kind' E' x')
    (s s' : Crypto.Layer) (hs : Outside x s) (hs' : Outside x' s') (h1 : (view s).count = 1) (h1' : (view s').count = 1)
    (hx : SameHandshake st.cfg st'.cfg s s' 0 0) (hf : NoForgery ((view s').session 0) ((view s).session 0))
    (hc : Crypto.Obs.lowerClose ∉ s.log) (hc' : Crypto.Obs.lowerClose ∉ s'.log) : x.rawOut.flatten <+: x'.rawIn.flatten := by
  obtain ⟨limits, hpe, hn⟩ := pair_peers hp
  obtain ⟨a1, a2, -⟩ := Crypto.Bridge.Proof.outside_observed hp.silent h hs
  obtain ⟨b1, -, b2⟩ := Crypto.Bridge.Proof.outside_observed hp.silent' h' hs'
  rw [a2, ← Crypto.Bridge.Proof.taken_of b2]
  exact Crypto.C52_to_initiator _ _ _ _ limits hpe hn (.inl (Crypto.Bridge.Proof.env_readsAtOnce _ E)) s s' a1 b1 h1 h1' hx hf hc'
    (.inr hc)

/-- **First session, everything to the responder.** If moreover the initiator has nothing left to send, the responder has
authenticated its peer and as many messages as the initiator has made, and nothing is unread, the responder has written to its
socket exactly what its peer has read from its own. -/
theorem C54_everything_to_responder (b : Backend) (st st' : Stack) (kind kind' : Asio.Transport) (E E' : Crypto.Env)
    (hp : Spec.Pair b st st' E E') (x x' : State) (h : Reachable st.cfg kind E x) (h' : Reachable st'.cfg kind' E' x')
    (s s' : Crypto.Layer) (hs : Outside x s) (hs' : Outside x' s') (h1 : (view s).count = 1) (h1' : (view s').count = 1)
    (hx : SameHandshake st.cfg st'.cfg s s' 0 0) (hf : NoForgery ((view s).session 0) ((view s').session 0))
    (hc : Crypto.Obs.lowerClose ∉ s.log) (hc' : Crypto.Spec.Ev.obs .lowerClose ∉ history s')
    (hl : Crypto.Spec.Ev.act (.notSent false) ∉ history s') (hauth : authNonces ((view s').session 0) ≠ [])
    (hall : ((view s).sentIn 0).length ≤ 1 + (consumedNonces ((view s').session 0)).length)
    (ho : (view s).outstanding = []) (hu : (view s').unread = none) : x'.rawOut.flatten = x.rawIn.flatten := by
  obtain ⟨limits, hpe, hn⟩ := pair_peers hp
  obtain ⟨a1, -, a2⟩ := Crypto.Bridge.Proof.outside_observed hp.silent h hs
  obtain ⟨b1, b2, -⟩ := Crypto.Bridge.Proof.outside_observed hp.silent' h' hs'
  rw [b2, ← Crypto.Bridge.Proof.taken_of a2]
  exact Crypto.C52_everything_to_responder _ _ _ _ limits hpe hn (.inl (Crypto.Bridge.Proof.env_readsAtOnce _ E')) s s' a1 b1 h1 h1'
    hx hf hc hl hauth hall ho hu hc'

/-- **First session, everything to the initiator.** -/
theorem C54_everything_to_initiator (b : Backend) (st st' : Stack) (kind kind' : Asio.Transport) (E E' : Crypto.Env)
    (hp : Spec.Pair b st st' E E') (x x' : State) (h : Reachable st.cfg kind E x) (h' : Reachable st'.cfg kind' E' x')
    (s s' : Crypto.Layer) (hs : Outside x s) (hs' : Outside x' s') (h1 : (view s).count = 1) (h1' : (view s').count = 1)
    (hx : SameHandshake st.cfg st'.cfg s s' 0 0) (hf : NoForgery ((view s').session 0) ((view s).session 0))
    (hc : Crypto.Spec.Ev.obs .lowerClose ∉ history s) (hc' : Crypto.Obs.lowerClose ∉ s'.log)
    (hauth : authNonces ((view s).session 0) ≠ [])
    (hall : ((view s').sentIn 0).length ≤ 1 + (consumedNonces ((view s).session 0)).length)
    (ho : (view s').outstanding = []) (hu : (view s).unread = none) : x.rawOut.flatten = x'.rawIn.flatten := by
  obtain ⟨limits, hpe, hn⟩ := pair_peers hp
  obtain ⟨a1, a2, -⟩ := Crypto.Bridge.Proof.outside_observed hp.silent h hs
  obtain ⟨b1, -, b2⟩ := Crypto.Bridge.Proof.outside_observed hp.silent' h' hs'
  rw [a2, ← Crypto.Bridge.Proof.taken_of b2]
  exact Crypto.C52_everything_to_initiator _ _ _ _ limits hpe hn (.inl (Crypto.Bridge.Proof.env_readsAtOnce _ E)) s s' a1 b1 h1 h1'
    hx hf hc' hauth hall ho hu hc

/-- **Any number of sessions, to the initiator.** What an initiator has written to the socket of its application is, in
order and without repetition, a part of what its peer has read from the socket of its own, if each session in which data was
delivered was made by a handshake between the two (later sessions by later handshakes) and no session message was forged. -/
theorem C54_sessions_to_initiator (b : Backend) (st st' : Stack) (kind kind' : Asio.Transport) (E E' : Crypto.Env)
    (hp : Spec.Pair b st st' E E') (x x' : State) (h : Reachable st.cfg kind E x) (h' : Reachable st'.cfg kind' E' x')
    (s s' : Crypto.Layer) (hs : Outside x s) (hs' : Outside x' s') (partner : Nat → Nat)
    (hx : ∀ n, (view s).givenIn n ≠ [] → SameHandshake st.cfg st'.cfg s s' n (partner n) ∧
      NoForgery ((view s').session (partner n)) ((view s).session n))
    (ho : ∀ m n, (view s).givenIn m ≠ [] → (view s).givenIn n ≠ [] → m < n → partner m < partner n) :
    x.rawOut.flatten.Sublist x'.rawIn.flatten := by
  obtain ⟨limits, hpe, hn⟩ := pair_peers hp
  obtain ⟨a1, a2, -⟩ := Crypto.Bridge.Proof.outside_observed hp.silent h hs
  obtain ⟨b1, -, b2⟩ := Crypto.Bridge.Proof.outside_observed hp.silent' h' hs'
  rw [a2, ← Crypto.Bridge.Proof.taken_of b2]
  exact (Crypto.C53_to_initiator _ _ _ _ limits hpe (.inl (Crypto.Bridge.Proof.env_readsAtOnce _ E)) s s' a1 b1 partner hx ho).2

/-- **Any number of sessions, to the responder**, if the initiator never sent in an older session after a newer one. (It may:
`C53_reordering_violation`.) -/
theorem C54_sessions_to_responder_partial (b : Backend) (st st' : Stack) (kind kind' : Asio.Transport) (E E' : Crypto.Env)
    (hp : Spec.Pair b st st' E E') (x x' : State) (h : Reachable st.cfg kind E x) (h' : Reachable st'.cfg kind' E' x')
    (s s' : Crypto.Layer) (hs : Outside x s) (hs' : Outside x' s') (hturn : Crypto.Spec.SessionsInTurn (view s)) (partner : Nat → Nat)
    (hx : ∀ n', (view s').givenIn n' ≠ [] → SameHandshake st.cfg st'.cfg s s' (partner n') n' ∧
      NoForgery ((view s).session (partner n')) ((view s').session n'))
    (ho : ∀ m n, (view s').givenIn m ≠ [] → (view s').givenIn n ≠ [] → m < n → partner m < partner n) :
    x'.rawOut.flatten.Sublist x.rawIn.flatten := by
  obtain ⟨limits, hpe, hn⟩ := pair_peers hp
  obtain ⟨a1, -, a2⟩ := Crypto.Bridge.Proof.outside_observed hp.silent h hs
  obtain ⟨b1, b2, -⟩ := Crypto.Bridge.Proof.outside_observed hp.silent' h' hs'
  rw [b2, ← Crypto.Bridge.Proof.taken_of a2]
  exact (Crypto.C53_to_responder_partial _ _ _ _ limits hpe (.inl (Crypto.Bridge.Proof.env_readsAtOnce _ E')) s s' a1 b1 hturn partner hx ho).2

/-! ### Two stations -/

namespace StationExample
open Crypto (EnvB)
open Crypto.LayerExample (ini res hs request reply)
open Crypto.Bridge.Example (iniOut resIn)

/-- Files as they are read at both stations. -/
def world : World where
  int
    | "3" => some 3 | "5" => some 5 | "30" => some 30 | "4092" => some 4092 | "60000" => some 60000 | "20000" => some 20000 | _ => none
  bool
    | "false" => some false | _ => none
  file
    | "secret" => some (SSP21.Spec.container ⟨.shared_secret, List.replicate 32 7⟩)
    | _ => none

/-- At most nonce 5 and 60 s; renegotiation at nonce 3 or after 30 s. -/
def session : Yaml :=
  .map [("max_payload_size", .scalar "4092"), ("max_nonce_value", .scalar "5"), ("max_session_time_ms", .scalar "60000"),
    ("nonce_renegotiation_trigger_value", .scalar "3"),
    ("session_time_renegotiation_trigger_ms", .map [("value", .scalar "30"), ("unit", .scalar "seconds")])]
def handshake : Yaml :=
  .map [("type", .scalar "shared_secret"), ("shared_secret_key_path", .scalar "secret"),
    ("algorithms", .map [("session_crypto_mode", .scalar "hmac_sha256_16")])]
def endpoint : Yaml := .map [("address", .scalar "127.0.0.1"), ("port", .scalar "20000")]
def item (role : String) : Yaml :=
  .map [("id", .scalar "session1"), ("levels", .scalar "iwemf"), ("link_layer", .map [("enabled", .scalar "false")]),
    ("security", .map [("mode", .scalar role), ("session", session), ("handshake", handshake)]),
    ("transport", .map [("type", .scalar "udp"), ("raw_rx", endpoint), ("raw_tx", endpoint), ("secure_rx", endpoint),
      ("secure_tx", endpoint)])]

/-- The stacks that are made of them. -/
def first : Stack := ⟨{ ini with viaStack := true }, some hs, none⟩
def second : Stack := ⟨{ res with viaStack := true }, none, none⟩

theorem station_first : Station Toy.strong Crypto.LayerExample.caps world (item "initiator") "initiator" handshake first where
  made := ⟨[], [], ⟨none, .initiator ⟨⟨4092, 10000⟩, 5, 60000, 3, 30000, 2000000000, 5000000000⟩
    (.sharedSecret defaultSuite (List.replicate 32 7)), .udp ⟨"127.0.0.1", 20000⟩ ⟨"127.0.0.1", 20000⟩ ⟨"127.0.0.1", 20000⟩
      ⟨"127.0.0.1", 20000⟩⟩, by rfl, by rfl⟩
  role := ⟨_, rfl, _, rfl, rfl⟩
  handshake := rfl

theorem station_second : Station Toy.strong Crypto.LayerExample.caps world (item "responder") "responder" handshake second where
  made := ⟨[], [], ⟨none, .responder ⟨4092, 10000⟩ (.sharedSecret (List.replicate 32 7)),
    .udp ⟨"127.0.0.1", 20000⟩ ⟨"127.0.0.1", 20000⟩ ⟨"127.0.0.1", 20000⟩ ⟨"127.0.0.1", 20000⟩⟩, by rfl, by rfl⟩
  role := ⟨_, rfl, _, rfl, rfl⟩
  handshake := rfl

theorem pair : Spec.Pair Toy.strong first second (EnvB.tame.only (· = hs)) EnvB.tame.env where
  lawful := Toy.strong_lawful
  stations := ⟨_, _, _, _, _, _, _, _, station_first, station_second,
    .sharedSecret (List.replicate 32 7) ⟨_, rfl, rfl⟩ ⟨_, rfl, rfl⟩
      (tool_key (path := "secret") (by simp) (by simp) ⟨_, rfl, rfl⟩ rfl) (tool_key (path := "secret") (by simp) (by simp) ⟨_, rfl, rfl⟩ rfl)⟩
  silent := Crypto.EnvB.tame_silent
  silent' := Crypto.EnvB.tame_silent
  config := fun ih h => by rw [h]; rfl

open Crypto.Bridge.Exec (final idle?)
open Crypto.LayerExample (summary exchanged_of closesBelow unanswered noForgery_of authMessages sentMessages)

/-- The session messages that the first station has sent. -/
def sent : List SessionData :=
  ((final first.cfg .udp .tame hs true iniOut).bind fun x => (idle? x).map fun s => sentMessages ((view s).session 0)).getD []

set_option maxRecDepth 1000000 in
set_option synthInstance.maxSize 2000 in
/-- [1, 2, 3] was read from the socket of the first and written to the socket of the second. All hypotheses of
`C54_bytes_to_responder` and of `C54_everything_to_responder` are met. -/
example : ∃ x x' s s', Spec.Pair Toy.strong first second (EnvB.tame.only (· = hs)) EnvB.tame.env ∧
    Reachable first.cfg .udp (EnvB.tame.only (· = hs)) x ∧ Reachable second.cfg .udp EnvB.tame.env x' ∧ Outside x s ∧ Outside x' s' ∧
    (view s).count = 1 ∧ (view s').count = 1 ∧ SameHandshake first.cfg second.cfg s s' 0 0 ∧
    NoForgery ((view s).session 0) ((view s').session 0) ∧ Crypto.Obs.lowerClose ∉ s.log ∧ Crypto.Obs.lowerClose ∉ s'.log ∧
    Crypto.Spec.Ev.act (.notSent false) ∉ history s' ∧ x.rawIn = [[1, 2, 3]] ∧ x'.rawOut = [[1, 2, 3]] ∧
    Crypto.Spec.Ev.obs .lowerClose ∉ history s' ∧ authNonces ((view s').session 0) ≠ [] ∧
    ((view s).sentIn 0).length ≤ 1 + (consumedNonces ((view s').session 0)).length ∧
    (view s).outstanding = [] ∧ (view s').unread = none := by
  obtain ⟨x, s, h1, h1a, h2⟩ := Crypto.Bridge.Exec.exists_only Crypto.LayerExample.configured (c := first.cfg) (kind := .udp)
    (E := .tame) (h := hs) (ready := true) (script := iniOut)
    (f := fun x s => (summary s, (view s).count, sentMessages ((view s).session 0), s.log.any closesBelow, x.rawIn,
      (view s).outstanding, ((view s).sentIn 0).length))
    (a := (some (some request, some reply, ((final first.cfg .udp .tame hs true iniOut).bind fun x => (idle? x).bind fun s =>
      (summary s).bind (·.2.2.1)), []), 1, sent, false, [[1, 2, 3]], [], 2)) rfl
  obtain ⟨x', s', h1', h1b, h2'⟩ := Crypto.Bridge.Exec.exists_of_map Crypto.LayerExample.configured (c := second.cfg) (kind := .udp)
    (E := .tame) (h := hs) (ready := true) (script := resIn)
    (f := fun x s => (summary s, (view s).count, (authMessages ((view s).session 0)).all sent.contains, s.log.any closesBelow,
      (history s).any unanswered, x.rawOut, (authNonces ((view s).session 0)).length,
      (consumedNonces ((view s).session 0)).length, (view s).unread))
    (a := (some (none, some request, some reply, []), 1, true, false, false, [[1, 2, 3]], 1, 1, none)) rfl
  simp only [Prod.mk.injEq] at h2 h2'
  obtain ⟨a1, a2, a3, a4, a5, a6, a7⟩ := h2
  obtain ⟨b1, b2, b3, b4, b5, b6, b7, b8, b9⟩ := h2'
  have hclose : Crypto.Obs.lowerClose ∉ s'.log := fun hx => by
    rw [List.any_eq_false] at b4
    exact b4 _ hx rfl
  refine ⟨x, x', s, s', pair, h1, h1', .inl h1a, .inl h1b, a2, b2,
    exchanged_of rfl rfl a1 b1 (by decide +kernel) (by decide +kernel) (by simp), noForgery_of ?_, fun hx => ?_, hclose,
    fun hx => ?_, a5, b6, fun hx => hclose ?_, (fun hx => by rw [hx] at b7; cases b7), by omega, a6, b9⟩
  · intro m hm
    rw [a3]
    exact by simpa using List.all_eq_true.mp b3 m hm
  · rw [List.any_eq_false] at a4
    exact a4 _ hx rfl
  · rw [List.any_eq_false] at b5
    exact b5 _ hx rfl
  · rw [← Crypto.observations_history s']
    exact List.mem_filterMap.mpr ⟨_, hx, rfl⟩

/-- The certificate of a station, issued by an intermediate authority. -/
def leaf : CertificateBody := ⟨20, 80, 0, .X25519, Toy.strong.dhPublic (List.replicate 32 7), []⟩
def chain : List CertificateEnvelope :=
  [ChainExample.issue ChainExample.mid ChainExample.anchor, ChainExample.issue leaf ChainExample.mid]
def certified : World :=
  { world with file := fun
    | "public" => some (SSP21.Spec.container ⟨.x25519_public_key, Toy.strong.dhPublic (List.replicate 32 7)⟩)
    | "private" => some (SSP21.Spec.container ⟨.x25519_private_key, List.replicate 32 7⟩)
    | "anchor" => some (SSP21.Spec.container ⟨.certificate_chain, SSP21.Spec.chain [⟨[], SSP21.Spec.certificateBody ChainExample.anchor⟩]⟩)
    | "chain" => some (SSP21.Spec.container ⟨.certificate_chain, SSP21.Spec.chain chain⟩)
    | _ => none }
def withCertificates : Yaml :=
  .map [("type", .scalar "certificate"), ("local_public_key_path", .scalar "public"), ("local_private_key_path", .scalar "private"),
    ("authority_cert_path", .scalar "anchor"), ("local_cert_path", .scalar "chain"), ("algorithms", .null)]

set_option maxRecDepth 100000 in
/-- Sections with certificates match (here both stations have the same key), and stacks can be made with them. -/
example : Matching Toy.strong certified certified withCertificates withCertificates ∧
    (match getInitiatorKeys certified withCertificates .industrial_certificates [] with
      | .ok (k, _) => (match makeInitiator Toy.strong Crypto.LayerExample.caps k with | .ok _ => true | _ => false)
      | _ => false) = true ∧
    (match getResponderKeys certified withCertificates .industrial_certificates [] with
      | .ok (k, _) => (match makeResponder Toy.strong Crypto.LayerExample.caps k with | .ok _ => true | _ => false)
      | _ => false) = true := by
  have hc : Certifies (SSP21.Spec.container ⟨.certificate_chain, SSP21.Spec.chain chain⟩) (Toy.strong.dhPublic (List.replicate 32 7)) :=
    ⟨chain, _, leaf, rfl, by decide +kernel, ⟨by decide +kernel, fun x hx =>
      (show ∀ x ∈ chain, x.signature.length < 2 ^ 32 ∧ x.certificate_body.length < 2 ^ 32 by decide +kernel) x hx⟩, rfl, rfl,
      ⟨by decide +kernel, by decide +kernel, by decide +kernel, by intro x hx; cases hx⟩, rfl⟩
  have ha : Contents certified withCertificates "authority_cert_path"
      (SSP21.Spec.container ⟨.certificate_chain, SSP21.Spec.chain [⟨[], SSP21.Spec.certificateBody ChainExample.anchor⟩]⟩) :=
    ⟨"anchor", ⟨_, rfl, rfl⟩, rfl, by decide +kernel, by decide +kernel⟩
  have hl : Contents certified withCertificates "local_cert_path" (SSP21.Spec.container ⟨.certificate_chain, SSP21.Spec.chain chain⟩) :=
    ⟨"chain", ⟨_, rfl, rfl⟩, rfl, by decide +kernel, by decide +kernel⟩
  refine ⟨.certificates (List.replicate 32 7) (List.replicate 32 7)
    (SSP21.Spec.container ⟨.certificate_chain, SSP21.Spec.chain [⟨[], SSP21.Spec.certificateBody ChainExample.anchor⟩]⟩)
    (SSP21.Spec.container ⟨.certificate_chain, SSP21.Spec.chain chain⟩)
    (SSP21.Spec.container ⟨.certificate_chain, SSP21.Spec.chain chain⟩) ⟨_, rfl, rfl⟩ ⟨_, rfl, rfl⟩
    (tool_key (path := "private") (by simp) (by simp) ⟨_, rfl, rfl⟩ rfl) (tool_key (path := "private") (by simp) (by simp) ⟨_, rfl, rfl⟩ rfl)
    ha ha hl hl hc hc, ?_, ?_⟩
  · decide +kernel
  · decide +kernel

end StationExample

end SSP21.Config
