import Verif.Props.ConfigFile
/-
  C49: reading a configuration file has no undefined behaviour unless a time in it is too large.
-/
namespace SSP21.Config
open Tool (Outcome)
open Spec

/-- The parts of a file. -/
inductive Spec.Part (root : Yaml) : Yaml → Prop
  | root : Part root root
  | entry {n : Yaml} {k : String} {v : Yaml} : Part root n → Spec.entry n k = some v → Part root v
  | item {l : List Yaml} {v : Yaml} : Part root (.seq l) → v ∈ l → Part root v

/-- The result is a value or an exception. -/
def Sound {α : Type} : Outcome α → Prop
  | .ok _ | .throw => True
  | _ => False

theorem Sound.bind {α β : Type} {x : Outcome α} {f : α → Outcome β} (h : Sound x) (g : ∀ a, x = .ok a → Sound (f a)) :
    Sound (x >>= f) := by
  cases x with
  | ok a => exact g a rfl
  | throw => trivial
  | exit => exact h
  | fault => exact h

theorem require_sound (n : Yaml) (k : String) : Sound (require n k) := by
  unfold require
  split
  · split <;> trivial
  · trivial

theorem get_sound (n : Yaml) (k : String) : Sound (n.get k) := by
  unfold Yaml.get
  split <;> trivial

theorem extractInteger_sound (w : World) (lo hi : Int) (n : Yaml) : Sound (extractInteger w lo hi n) := by
  unfold extractInteger
  split
  · split
    · trivial
    · split
      · trivial
      · split
        · trivial
        · split <;> trivial
  · trivial

theorem requireString_sound (n : Yaml) (k : String) : Sound (requireString n k) :=
  (require_sound n k).bind fun a _ => by split <;> trivial

theorem requireBool_sound (w : World) (n : Yaml) (k : String) : Sound (requireBool w n k) :=
  (require_sound n k).bind fun a _ => by
    split
    · split <;> trivial
    · trivial

theorem requireUInt16_sound (w : World) (n : Yaml) (k : String) : Sound (requireUInt16 w n k) :=
  (require_sound n k).bind fun a _ => (extractInteger_sound _ _ _ _).bind fun _ _ => trivial

theorem optionalUInt16_sound (w : World) (n : Yaml) (k : String) (d : UInt16) : Sound (optionalUInt16 w n k d) :=
  (get_sound n k).bind fun a _ => by
    split
    · trivial
    · exact (extractInteger_sound _ _ _ _).bind fun _ _ => trivial

theorem optionalUInt32_sound (w : World) (n : Yaml) (k : String) (d : UInt32) : Sound (optionalUInt32 w n k d) :=
  (get_sound n k).bind fun a _ => by
    split
    · trivial
    · exact (extractInteger_sound _ _ _ _).bind fun _ _ => trivial

theorem optionalString_sound (n : Yaml) (k d : String) : Sound (optionalString n k d) :=
  (get_sound n k).bind fun a _ => by split <;> trivial

theorem getTimeUnit_sound (n : Yaml) : Sound (getTimeUnit n) :=
  (requireString_sound n _).bind fun a _ => by split <;> trivial

theorem readFile_sound (w : World) (p : String) : Sound (readFile w p) := by
  unfold readFile Tool.secureRead
  split
  · trivial
  · split
    · trivial
    · split <;> trivial

theorem getCryptoKey_sound (w : World) (p : String) (t : ContainerEntryType) : Sound (getCryptoKey w p t) :=
  (readFile_sound w p).bind fun a _ => by
    refine Sound.bind ?_ fun f _ => ?_
    · unfold Tool.parseOrThrow
      split <;> trivial
    · split
      · trivial
      · split <;> trivial

theorem getLocalStaticKeys_sound (w : World) (n : Yaml) : Sound (getLocalStaticKeys w n) :=
  (requireString_sound n _).bind fun _ _ => (getCryptoKey_sound _ _ _).bind fun _ _ =>
    (requireString_sound n _).bind fun _ _ => (getCryptoKey_sound _ _ _).bind fun _ _ => trivial

theorem getFileData_sound (w : World) (n : Yaml) (k : String) : Sound (getFileData w n k) :=
  (requireString_sound n _).bind fun _ _ => readFile_sound _ _

theorem getCryptoSuite_sound (n : Yaml) : Sound (getCryptoSuite n) :=
  (require_sound n _).bind fun a _ =>
    Sound.bind ((requireString_sound a _).bind fun s _ => by split <;> trivial) fun _ _ => trivial

theorem bindKeyStore_sound (w : World) (n : Yaml) (r : Registry) : Sound (bindKeyStore w n r) :=
  (requireString_sound n _).bind fun _ _ => by
    split
    · trivial
    · exact (requireUInt16_sound _ _ _).bind fun _ _ => (requireUInt16_sound _ _ _).bind fun _ _ => by split <;> trivial

theorem keys_sound (w : World) (n : Yaml) (m : HandshakeMode) (r : Registry) :
    Sound (getInitiatorKeys w n m r) ∧ Sound (getResponderKeys w n m r) := by
  have key : ∀ k t, Sound (do let path ← requireString n k; getCryptoKey w path t) := fun k t =>
    (requireString_sound n k).bind fun _ _ => getCryptoKey_sound _ _ _
  cases m
  case shared_secret =>
    exact ⟨(requireString_sound n _).bind fun _ _ => (getCryptoKey_sound _ _ _).bind fun _ _ =>
      (getCryptoSuite_sound n).bind fun _ _ => trivial,
      (requireString_sound n _).bind fun _ _ => (getCryptoKey_sound _ _ _).bind fun _ _ => trivial⟩
  case quantum_key_distribution =>
    exact ⟨(bindKeyStore_sound w n r).bind fun _ _ => (getCryptoSuite_sound n).bind fun _ _ => trivial,
      (bindKeyStore_sound w n r).bind fun _ _ => trivial⟩
  case public_keys =>
    exact ⟨(getLocalStaticKeys_sound w n).bind fun _ _ => (requireString_sound n _).bind fun _ _ =>
        (getCryptoKey_sound _ _ _).bind fun _ _ => (getCryptoSuite_sound n).bind fun _ _ => trivial,
      (getLocalStaticKeys_sound w n).bind fun _ _ => (requireString_sound n _).bind fun _ _ =>
        (getCryptoKey_sound _ _ _).bind fun _ _ => trivial⟩
  case industrial_certificates =>
    exact ⟨(getLocalStaticKeys_sound w n).bind fun _ _ => (getFileData_sound w n _).bind fun _ _ =>
        (getFileData_sound w n _).bind fun _ _ => (require_sound n _).bind fun _ _ => trivial,
      (getLocalStaticKeys_sound w n).bind fun _ _ => (getFileData_sound w n _).bind fun _ _ =>
        (getFileData_sound w n _).bind fun _ _ => trivial⟩
  case undefined => exact ⟨trivial, trivial⟩

section
variable {w : World} {root : Yaml} (H : ∀ n ns, Part root n → Time w n ns → int64 ns)
include H

theorem getDurationValue_sound {n : Yaml} (hn : Part root n) : Sound (getDurationValue w n) :=
  (require_sound n _).bind fun a ha => (extractInteger_sound _ _ _ _).bind fun v hv =>
    (getTimeUnit_sound n).bind fun u hu => by
      have ha := require_ok.1 ha
      have hv := (extractInteger_ok (by decide) (by decide)).1 hv
      obtain ⟨t, ht, hm⟩ := getTimeUnit_ok.1 hu
      have := H n (v * u) hn ⟨a, v, t, u, ha, hv, ht, hm, rfl⟩
      rw [toNanoseconds_ok.2 ⟨rfl, this⟩]
      trivial

theorem requireDuration_sound {n : Yaml} (hn : Part root n) (k : String) : Sound (requireDuration w n k) :=
  (require_sound n _).bind fun _ ha => getDurationValue_sound H (hn.entry (require_ok.1 ha))

theorem optionalDuration_sound {n : Yaml} (hn : Part root n) (k : String) (d : Int) : Sound (optionalDuration w n k d) :=
  (get_sound n _).bind fun a ha => by
    split
    · trivial
    · exact getDurationValue_sound H (hn.entry (get_ok.1 ha).2)

theorem getOptionalMs_sound {n : Yaml} (hn : Part root n) (k : String) (d : UInt32) : Sound (getOptionalMs w n k d) :=
  (optionalDuration_sound H hn _ _).bind fun a _ => by
    dsimp only
    split
    · trivial
    · split <;> trivial

theorem getLayerConfig_sound {n : Yaml} (hn : Part root n) : Sound (getLayerConfig w n) :=
  (optionalUInt16_sound _ _ _ _).bind fun _ _ => (getOptionalMs_sound H hn _ _).bind fun _ _ => trivial

theorem getInitiatorConfig_sound {m n : Yaml} (hm : Part root m) (hn : Part root n) : Sound (getInitiatorConfig w m n) :=
  (getLayerConfig_sound H hn).bind fun _ _ => (optionalUInt16_sound _ _ _ _).bind fun _ _ =>
  (optionalUInt32_sound _ _ _ _).bind fun _ _ => (optionalUInt16_sound _ _ _ _).bind fun _ _ =>
  (optionalDuration_sound H hm _ _).bind fun _ _ => (optionalDuration_sound H hm _ _).bind fun _ _ =>
  (getOptionalMs_sound H hn _ _).bind fun _ _ => trivial

theorem getStack_sound {n : Yaml} (hn : Part root n) (t : StackType) (r : Registry) : Sound (getStack w n t r) :=
  (require_sound n _).bind fun h hh => (require_sound n _).bind fun s hs => by
    have hh := hn.entry (require_ok.1 hh)
    have hs := hn.entry (require_ok.1 hs)
    have mode : Sound (getHandshakeMode h) := (requireString_sound h _).bind fun _ _ => by split <;> trivial
    cases t
    · exact (getInitiatorConfig_sound H hh hs).bind fun _ _ => mode.bind fun _ _ =>
        (keys_sound _ _ _ _).1.bind fun _ _ => trivial
    · exact (getLayerConfig_sound H hs).bind fun _ _ => mode.bind fun _ _ =>
        (keys_sound _ _ _ _).2.bind fun _ _ => trivial

theorem getStackFactory_sound {n : Yaml} (hn : Part root n) (r : Registry) : Sound (getStackFactory w n r) :=
  (require_sound n _).bind fun l _ => (require_sound n _).bind fun s hs =>
    Sound.bind (x := getStackType s) ((requireString_sound s _).bind fun _ _ => by split <;> trivial) fun t _ =>
    (requireBool_sound w l _).bind fun b _ => by
      have hs := hn.entry (require_ok.1 hs)
      split
      · refine (require_sound l _).bind fun a _ => Sound.bind ?_ fun _ _ => (getStack_sound H hs t r).bind fun _ _ => trivial
        exact (requireUInt16_sound _ _ _).bind fun _ _ => (requireUInt16_sound _ _ _).bind fun _ _ => trivial
      · exact (getStack_sound H hs t r).bind fun _ _ => trivial

theorem getSession_sound {n : Yaml} (hn : Part root n) (r : Registry) : Sound (getSession w n r) := by
  have ep : ∀ m, Sound (getEndpoint w m) := fun m =>
    (requireString_sound m _).bind fun _ _ => (requireUInt16_sound _ _ _).bind fun _ _ => trivial
  refine Sound.bind (x := checkLog n) ?_ fun _ _ => (getStackFactory_sound H hn r).bind fun x _ =>
    (require_sound n _).bind fun t _ => (requireString_sound t _).bind fun s _ => ?_
  · exact (requireString_sound n _).bind fun _ _ => (requireString_sound n _).bind fun _ _ => by split <;> trivial
  · split
    · split
      · trivial
      · exact (requireUInt16_sound _ _ _).bind fun _ _ => (require_sound t _).bind fun _ _ => (ep _).bind fun _ _ =>
          (require_sound t _).bind fun _ _ => (ep _).bind fun _ _ => trivial
    · exact (require_sound t _).bind fun _ _ => (ep _).bind fun _ _ => (require_sound t _).bind fun _ _ =>
        (ep _).bind fun _ _ => (require_sound t _).bind fun _ _ => (ep _).bind fun _ _ => (require_sound t _).bind fun _ _ =>
        (ep _).bind fun _ _ => trivial
    · trivial

theorem readSessions_sound (l : List Yaml) (hl : ∀ n ∈ l, Part root n) (r : Registry) : Sound (readSessions w l r) := by
  induction l generalizing r with
  | nil => trivial
  | cons n l ih =>
    exact (getSession_sound H (hl n (by simp)) r).bind fun _ _ =>
      (ih (fun m hm => hl m (by simp [hm])) _).bind fun _ _ => trivial

theorem configureQkdSource_sound {n : Yaml} (hn : Part root n) (r : Registry) : Sound (configureQkdSource w n r) :=
  (requireString_sound n _).bind fun id _ => by
    split
    · trivial
    · refine Sound.bind (x := createQkdSource w n) ((requireString_sound n _).bind fun t _ => ?_) fun _ _ => trivial
      split
      · refine (require_sound n _).bind fun m hm => (requireUInt16_sound _ _ _).bind fun _ _ =>
          (requireDuration_sound H (hn.entry (require_ok.1 hm)) _).bind fun _ _ => (requireUInt16_sound _ _ _).bind fun _ _ =>
          (require_sound n _).bind fun s _ => Sound.bind (x := readSerialSettings w s) ?_ fun _ _ => trivial
        exact (requireString_sound s _).bind fun _ _ => (optionalUInt32_sound _ _ _ _).bind fun _ _ =>
          (optionalUInt32_sound _ _ _ _).bind fun _ _ =>
          Sound.bind (x := getFlowControl s) ((optionalString_sound s _ _).bind fun _ _ => by split <;> trivial) fun _ _ =>
          Sound.bind (x := getStopBits s) ((optionalString_sound s _ _).bind fun _ _ => by split <;> trivial) fun _ _ => trivial
      · trivial

theorem readSources_sound (l : List Yaml) (hl : ∀ n ∈ l, Part root n) (r : Registry) : Sound (readSources w l r) := by
  induction l generalizing r with
  | nil => trivial
  | cons n l ih =>
    exact (configureQkdSource_sound H (hl n (by simp)) r).bind fun _ _ => ih (fun m hm => hl m (by simp [hm])) _

/-- **Reading is safe**: any file whatsoever is accepted or refused with an exception, unless a time in it exceeds 64 bits of
nanoseconds (292 years). -/
theorem C49_reading_safe_partial : (∃ r, read w root = .ok r) ∨ read w root = .throw := by
  have items_sound : ∀ n, Sound (items n) := fun n => by unfold items; split <;> trivial
  have h : Sound (read w root) := by
    refine (require_sound root _).bind fun q hq => (items_sound q).bind fun ql hql =>
      (readSources_sound H ql ?_ _).bind fun r _ => (require_sound root _).bind fun s hs => (items_sound s).bind fun sl hsl =>
      (readSessions_sound H sl ?_ _).bind fun x _ => ?_
    · cases items_ok.1 hql
      exact fun n hn => .item (Part.root.entry (require_ok.1 hq)) hn
    · cases items_ok.1 hsl
      exact fun n hn => .item (Part.root.entry (require_ok.1 hs)) hn
    · dsimp only
      split <;> trivial
  cases hr : read w root with
  | ok r => exact .inl ⟨r, rfl⟩
  | throw => exact .inr rfl
  | exit => rw [hr] at h; exact h.elim
  | fault => rw [hr] at h; exact h.elim

end

end SSP21.Config
