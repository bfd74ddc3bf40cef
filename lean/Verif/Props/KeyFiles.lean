import Verif.Props.Tool
import Verif.Props.ConfigFile
/-
  C45 and C49 together: the keys that the tool makes are the keys that the proxy loads.
-/
namespace SSP21.Config
open Tool (Outcome)
open Spec

theorem container_small (t : ContainerEntryType) (p : Bytes) (h : p.length ≤ 64) :
    (SSP21.Spec.container ⟨t, p⟩).length ≤ 4096 := by
  simp only [SSP21.Spec.container, SSP21.Spec.field, List.length_append, List.length_cons, List.length_nil]
  rw [Tool.vlength_le _ (by omega)]
  omega

theorem container_loads (w : World) (path : String) (t : ContainerEntryType) (ht : t ≠ .undefined) (key : Bytes)
    (hk : key.length = 32) (h : w.file path = some (SSP21.Spec.container ⟨t, key⟩)) : getCryptoKey w path t = .ok key :=
  (C49_keys w path t key).mpr ⟨_, h, container_small t key (by omega), hk,
    (C05_container.2.2.2 _ _).mpr ⟨⟨ht, by simp only; omega⟩, rfl⟩⟩

/-- **The keys that the tool makes are the keys that the proxy uses**: a proxy whose configuration names a file that the
tool made for a shared secret loads that secret, and one whose configuration names the two files of an X25519 key pair
loads that pair, the private key as the private one; a private key is not accepted where a public one is expected, nor a
pair the wrong way round. -/
theorem C45_keys_load (caps : Caps) (w : World) (priv pub : Bytes) (hp : priv.length = 32) (hq : pub.length = 32) :
    (∀ path f, Tool.genSharedSecret priv = .ok f → w.file path = some f →
      getCryptoKey w path .shared_secret = .ok priv ∧ ∀ t, t ≠ .shared_secret → getCryptoKey w path t = .throw) ∧
    (∀ node path path' f f', Tool.genX25519 caps priv pub = .ok (f, f') →
      Required Text node "local_private_key_path" path → Required Text node "local_public_key_path" path' →
      (w.file path = some f → w.file path' = some f' → getLocalStaticKeys w node = .ok ⟨pub, priv⟩) ∧
      (w.file path = some f' → ∀ k, getLocalStaticKeys w node ≠ .ok k)) := by
  obtain ⟨h1, h2, h3⟩ := Tool.C45_key_files caps priv pub (by omega) (by omega)
  have wrong : ∀ path t t' k, t ≠ .undefined → k.length = 32 → w.file path = some (SSP21.Spec.container ⟨t, k⟩) → t' ≠ t →
      getCryptoKey w path t' = .throw := by
    intro path t t' k ht hk hf hne
    have hr : Codec.readAll ContainerFile.codec (SSP21.Spec.container ⟨t, k⟩) = .ok ⟨t, k⟩ :=
      (C05_container.2.2.2 _ _).mpr ⟨⟨ht, by simp only; omega⟩, rfl⟩
    have hs : readFile w path = .ok (SSP21.Spec.container ⟨t, k⟩) := by
      unfold readFile
      rw [hf]
      exact (Tool.secureRead_ok _ _).mpr ⟨rfl, by simp [SSP21.Spec.container], container_small t k (by omega)⟩
    have hp : Tool.parseOrThrow ContainerFile.codec (SSP21.Spec.container ⟨t, k⟩) = .ok ⟨t, k⟩ :=
      (Tool.parseOrThrow_ok _ _ _).mpr hr
    unfold getCryptoKey
    simp only [bind, Outcome.bind, hs, hp, ne_eq]
    rw [if_pos (fun h => hne h.symm)]
  refine ⟨fun path f hf hw => ?_, fun node path path' f f' hf n1 n2 => ⟨fun w1 w2 => ?_, fun w1 => ?_⟩⟩
  · cases h1.symm.trans hf
    exact ⟨container_loads w path _ (by simp) priv hp hw, fun t ht => wrong path _ t priv (by simp) hp hw ht⟩
  · obtain ⟨-, e⟩ := (h2 _).mp hf
    cases e
    have a1 := container_loads w path _ (by simp) priv hp w1
    have a2 := container_loads w path' _ (by simp) pub hq w2
    unfold getLocalStaticKeys
    rw [requireString_ok.mpr n1, requireString_ok.mpr n2]
    simp only [bind, Outcome.bind, a1, a2]
  · obtain ⟨-, e⟩ := (h2 _).mp hf
    cases e
    have a1 := wrong path _ .x25519_private_key pub (by simp) hq w1 (by simp)
    intro k
    unfold getLocalStaticKeys
    rw [requireString_ok.mpr n1, requireString_ok.mpr n2]
    simp only [bind, Outcome.bind, a1]
    cases getCryptoKey w path' .x25519_public_key <;> simp

/-- **The keys that the tool makes for an authority sign certificates**: with the private key file of a pair of Ed25519 keys
that it made, the tool issues a certificate for the key in any public key file that it made. -/
theorem C45_keys_sign (caps : Caps) (sign : Bytes → Bytes → Bytes) (hs : ∀ m k, (sign m k).length = 64)
    (priv pub subject subjectPriv : Bytes) (hp : priv.length = 64) (hq : pub.length = 32) (hk : subject.length = 32)
    (hk' : subjectPriv.length = 32) (f f' g g' : Bytes)
    (h : Tool.genEd25519 caps priv pub = .ok (f, f')) (h' : Tool.genX25519 caps subjectPriv subject = .ok (g, g'))
    (times : Tool.Times) (level : UInt8) :
    Tool.createCertificate caps sign g' f times level =
      .ok (Tool.Spec.chainFile [Tool.Spec.signed sign (Tool.Spec.body times level .X25519 subject) priv]) ∧
    Tool.createCertificate caps sign f' f times level =
      .ok (Tool.Spec.chainFile [Tool.Spec.signed sign (Tool.Spec.body times level .Ed25519 pub) priv]) := by
  obtain ⟨hc, e⟩ := ((Tool.C45_key_files caps priv pub (by omega) (by omega)).2.2 _).mp h
  obtain ⟨-, e'⟩ := ((Tool.C45_key_files caps subjectPriv subject (by omega) (by omega)).2.1 _).mp h'
  cases e; cases e'
  exact ⟨(Tool.C45_create caps sign hs _ _ _ _ _).mpr ⟨hc, .X25519, subject, priv, by simp, hk, by omega,
      container_small _ _ (by omega), rfl, rfl, rfl⟩,
    (Tool.C45_create caps sign hs _ _ _ _ _).mpr ⟨hc, .Ed25519, pub, priv, by simp, hq, by omega,
      container_small _ _ (by omega), rfl, rfl, rfl⟩⟩

/-- A key pair of the tool in the files that a configuration names. -/
example : ∃ (w : World) (node : Yaml) (f f' : Bytes),
    Tool.genX25519 ⟨true, true, true, true⟩ (List.replicate 32 1) (List.replicate 32 2) = .ok (f, f') ∧
    Required Text node "local_private_key_path" "a" ∧ Required Text node "local_public_key_path" "b" ∧
    w.file "a" = some f ∧ w.file "b" = some f' := by
  refine ⟨⟨fun _ => none, fun _ => none, fun s => if s = "a" then
      some (SSP21.Spec.container ⟨.x25519_private_key, List.replicate 32 1⟩) else
      some (SSP21.Spec.container ⟨.x25519_public_key, List.replicate 32 2⟩)⟩,
    .map [("local_private_key_path", .scalar "a"), ("local_public_key_path", .scalar "b")], _, _,
    ((Tool.C45_key_files ⟨true, true, true, true⟩ _ _ (by simp) (by simp)).2.1 _).mpr ⟨rfl, rfl⟩, ?_, ?_, rfl, rfl⟩
  · exact requireString_ok.mp rfl
  · exact requireString_ok.mp rfl

end SSP21.Config
