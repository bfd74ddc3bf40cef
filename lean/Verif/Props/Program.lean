import Verif.Program
import Verif.Props.Tool
/-
  C61: what a run of `icftool` does to the files.
-/
namespace SSP21.Tool

namespace Spec

/-- What a command line asks for. Options are looked at in a fixed order. -/
inductive Request
  | shared (path : String)
  | pair (x25519 : Bool) (priv pub : String)
  | cert (out pub priv : String)
  | append (in1 in2 out : String)

/-- What a command line with the right number of names asks for; anything else asks for nothing to be written. -/
inductive Asks (a : Args) : Request → Prop
  | shared (path) : a.help = false → a.show_ = false → a.shared = true → a.pos = [path] → Asks a (.shared path)
  | x25519 (priv pub) : a.help = false → a.show_ = false → a.shared = false → a.x25519 = true → a.pos = [priv, pub] →
      Asks a (.pair true priv pub)
  | ed25519 (priv pub) : a.help = false → a.show_ = false → a.shared = false → a.x25519 = false → a.ed25519 = true →
      a.pos = [priv, pub] → Asks a (.pair false priv pub)
  | cert (out pub priv) : a.help = false → a.show_ = false → a.shared = false → a.x25519 = false → a.ed25519 = false →
      a.cert = true → a.pos = [out, pub, priv] → Asks a (.cert out pub priv)
  | append (in1 in2 out) : a.help = false → a.show_ = false → a.shared = false → a.x25519 = false → a.ed25519 = false →
      a.cert = false → a.append = true → a.pos = [in1, in2, out] → Asks a (.append in1 in2 out)

/-- The files that are to be written. -/
def Request.outputs : Request → List String
  | .shared path => [path]
  | .pair _ priv pub => [priv, pub]
  | .cert out _ _ => [out]
  | .append _ _ out => [out]

/-- What is typed in answer to the question for the number of days, and what is left. -/
inductive DaysTyped : List Word → UInt16 → List Word → Prop
  | number (n : UInt16) (rest : List Word) : DaysTyped (.number n.toNat :: rest) n rest

/-- What is typed in answer to the question for the level: the first number of at most 6 (larger ones are skipped, the question
is asked again), or, for something that is not a number, 0. -/
inductive LevelTyped : List Word → UInt8 → Prop
  | number (n : UInt8) (rest : List Word) : n.toNat ≤ 6 → LevelTyped (.number n.toNat :: rest) n
  | again (n : Nat) (rest : List Word) (l : UInt8) : 6 < n → n < 2 ^ 32 → LevelTyped rest l → LevelTyped (.number n :: rest) l
  | other (rest : List Word) : LevelTyped (.other :: rest) 0

/-- The number of days and the level of a certificate: from the command line, or typed. Something that is not a number of days, or no
answer at all, counts as 0 days; then the level must be given on the command line. -/
inductive Chosen (a : Args) : List Word → UInt16 → UInt8 → Prop
  | line (w d l) : a.days = some (some d) → a.level = some (some l) → Chosen a w d l
  | level (w d l) : a.days = some (some d) → a.level = none → LevelTyped w l → Chosen a w d l
  | days (w d rest l) : a.days = none → a.level = some (some l) → DaysTyped w d rest → Chosen a w d l
  | both (w d rest l) : a.days = none → a.level = none → DaysTyped w d rest → LevelTyped rest l → Chosen a w d l
  | zero (w l) : a.days = none → a.level = some (some l) → w.head? = none ∨ w.head? = some .other → Chosen a w 0 l

/-- What the disk has of data that is written. -/
def stored : Disk → Bytes → Bytes
  | .good, d => d
  | .full n _, d => d.take n

/-- Writing the file does not report a failure. -/
def Unreported (fs : FS) (path : String) : Prop := fs.canOpen path = true ∧ ∀ n, fs.disk path ≠ .full n true

/-- The file can be written. -/
def Writable (fs : FS) (path : String) : Prop := fs.canOpen path = true ∧ fs.disk path = .good

/-- The contents of the files that are asked for. -/
inductive Product (o : Outside) (a : Args) (w : List Word) (fs : FS) : Request → List Bytes → Prop
  | shared (path) : Product o a w fs (.shared path) [SSP21.Spec.container ⟨.shared_secret, o.random⟩]
  | x25519 (priv pub) : o.caps.ed25519 = true → Product o a w fs (.pair true priv pub)
      [SSP21.Spec.container ⟨.x25519_private_key, o.x25519.1⟩, SSP21.Spec.container ⟨.x25519_public_key, o.x25519.2⟩]
  | ed25519 (priv pub) : o.caps.ed25519 = true → Product o a w fs (.pair false priv pub)
      [SSP21.Spec.container ⟨.ed25519_private_key, o.ed25519.1⟩, SSP21.Spec.container ⟨.ed25519_public_key, o.ed25519.2⟩]
  | cert (out pub priv) (days : UInt16) (times : Times) (level : UInt8) (type : PublicKeyType) (key secret : Bytes) :
      o.caps.ed25519 = true → Chosen a w days level → days.toNat ≤ 24 → times.valid_after = o.now →
      times.valid_before.toNat = o.now.toNat + millisOfDays days.toNat → type ≠ .undefined → key.length = 32 →
      64 ≤ secret.length → (SSP21.Spec.container ⟨.ed25519_private_key, secret⟩).length ≤ 4096 →
      fs.file pub = some (SSP21.Spec.container ⟨keyEntry type, key⟩) →
      fs.file priv = some (SSP21.Spec.container ⟨.ed25519_private_key, secret⟩) →
      Product o a w fs (.cert out pub priv) [chainFile [signed o.sign (body times level type key) secret]]
  | append (in1 in2 out) (f1 f2 : Bytes) (init : List CertificateEnvelope) (last env : CertificateEnvelope) (parent leaf : CertificateBody) :
      o.caps.ed25519 = true → fs.file in1 = some f1 → fs.file in2 = some f2 → ChainInput f1 (init ++ [last]) →
      ChainInput f2 [env] → parent.WF → last.certificate_body = SSP21.Spec.certificateBody parent →
      SSP21.Spec.Issued o.backend parent env leaf → leaf.signing_level = 0 → leaf.public_key_type = .X25519 → init.length ≤ 4 →
      Product o a w fs (.append in1 in2 out) [chainFile (init ++ [last, env])]

/-- The files after all of them were written one after the other. -/
def put (fs : FS) : List (String × Bytes) → FS
  | [] => fs
  | (p, d) :: rest => put (fs.put p (stored (fs.disk p) d)) rest

/-- What the run gets from outside has the right size: keys of at most 64 bytes, signatures of 64 bytes. The clock is not near the end
of its range. -/
structure Sane (o : Outside) : Prop where
  random : o.random.length ≤ 64
  x25519 : o.x25519.1.length ≤ 64 ∧ o.x25519.2.length ≤ 64
  ed25519 : o.ed25519.1.length ≤ 64 ∧ o.ed25519.2.length ≤ 64
  sign : ∀ m k, (o.sign m k).length = 64
  now : o.now.toNat < 2 ^ 64 - 2 ^ 31

end Spec

namespace ProgramProof
open Spec

theorem put_self (fs : FS) (path : String) (d : Bytes) : (fs.put path d).file path = some d := by simp [FS.put]
theorem put_other (fs : FS) (path p : String) (d : Bytes) (h : p ≠ path) : (fs.put path d).file p = fs.file p := by simp [FS.put, h]
@[simp] theorem put_disk (fs : FS) (path : String) (d : Bytes) : (fs.put path d).disk = fs.disk := rfl
@[simp] theorem put_canOpen (fs : FS) (path : String) (d : Bytes) : (fs.put path d).canOpen = fs.canOpen := rfl

theorem ending_done {α : Type} (x : Outcome α) : x.ending = .done ↔ ∃ v, x = .ok v := by
  cases x <;> simp [Outcome.ending]

/-- Writing a file: nothing is reported, or it cannot be opened, or the failure is reported. -/
theorem write_cases (fs : FS) (path : String) (d : Bytes) :
    (fs.write path d = (fs.put path (stored (fs.disk path) d), .ok ()) ∧ Unreported fs path) ∨
    (fs.write path d = (fs, .throw) ∧ fs.canOpen path = false) ∨
    (∃ n, fs.write path d = (fs.put path (d.take n), .throw) ∧ fs.canOpen path = true ∧ fs.disk path = .full n true) := by
  unfold FS.write Unreported
  cases fs.canOpen path with
  | false => simp
  | true =>
    cases fs.disk path with
    | good => simp [stored]
    | full n r => cases r <;> simp [stored]

/-- Writing one file that is there to be written. -/
theorem writeOne_cases (fs : FS) (f : Bytes) (path : String) :
    (writeOne fs (.ok f) path = (fs.put path (stored (fs.disk path) f), .done) ∧ Unreported fs path) ∨
    (writeOne fs (.ok f) path = (fs, .failed) ∧ fs.canOpen path = false) ∨
    (∃ n, writeOne fs (.ok f) path = (fs.put path (f.take n), .failed) ∧ fs.canOpen path = true ∧ fs.disk path = .full n true) := by
  simp only [writeOne]
  rcases write_cases fs path f with ⟨h, h1⟩ | ⟨h, h1⟩ | ⟨n, h, h1⟩
  · exact .inl ⟨by rw [h]; rfl, h1⟩
  · exact .inr (.inl ⟨by rw [h]; rfl, h1⟩)
  · exact .inr (.inr ⟨n, by rw [h]; rfl, h1⟩)

theorem not_unreported_of_closed {fs : FS} {p : String} (h : fs.canOpen p = false) : ¬ Unreported fs p := fun hu => by
  rw [hu.1] at h; cases h

theorem not_unreported_of_full {fs : FS} {p : String} {n : Nat} (h : fs.disk p = .full n true) : ¬ Unreported fs p := fun hu => hu.2 n h

/-- A file is written exactly if there is something to write, and nothing is reported. -/
theorem writeOne_done (fs fs' : FS) (c : Outcome Bytes) (path : String) :
    writeOne fs c path = (fs', .done) ↔ ∃ f, c = .ok f ∧ Unreported fs path ∧ fs' = fs.put path (stored (fs.disk path) f) := by
  cases c with
  | ok f =>
    rcases writeOne_cases fs f path with ⟨h, h1⟩ | ⟨h, h1⟩ | ⟨n, h, h1, h2⟩
    · rw [h]
      simp [h1, eq_comm]
    · rw [h]
      simp [not_unreported_of_closed h1]
    · rw [h]
      simp [not_unreported_of_full h2]
  | throw => simp [writeOne, Outcome.ending]
  | exit => simp [writeOne, Outcome.ending]
  | fault => simp [writeOne, Outcome.ending]

/-- Only that file is touched. -/
theorem writeOne_frame (fs : FS) (c : Outcome Bytes) (path p : String) (h : p ≠ path) : (writeOne fs c path).1.file p = fs.file p := by
  cases c with
  | ok f =>
    rcases writeOne_cases fs f path with ⟨h1, -⟩ | ⟨h1, -⟩ | ⟨n, h1, -⟩ <;> rw [h1]
    · exact put_other _ _ _ _ h
    · exact put_other _ _ _ _ h
  | throw => rfl
  | exit => rfl
  | fault => rfl

/-- If it can be written, a run that is not done has not touched it. -/
theorem writeOne_unchanged (fs : FS) (c : Outcome Bytes) (path : String) (hw : Writable fs path) (h : (writeOne fs c path).2 ≠ .done) :
    (writeOne fs c path).1 = fs := by
  cases c with
  | ok f =>
    rcases writeOne_cases fs f path with ⟨h1, -⟩ | ⟨h1, -⟩ | ⟨n, h1, -, h2⟩
    · rw [h1] at h; exact absurd rfl h
    · rw [h1]
    · rw [hw.2] at h2; cases h2
  | throw => rfl
  | exit => rfl
  | fault => rfl

theorem writePair_done (fs fs' : FS) (c : Outcome (Bytes × Bytes)) (p q : String) :
    writePair fs c p q = (fs', .done) ↔ ∃ f1 f2, c = .ok (f1, f2) ∧ Unreported fs p ∧ Unreported fs q ∧
      fs' = (fs.put p (stored (fs.disk p) f1)).put q (stored (fs.disk q) f2) := by
  cases c with
  | ok f =>
    obtain ⟨f1, f2⟩ := f
    simp only [writePair]
    rcases writeOne_cases fs f1 p with ⟨h, h1⟩ | ⟨h, h1⟩ | ⟨n, h, h1, h2⟩
    · rw [h, if_pos rfl, writeOne_done]
      constructor
      · rintro ⟨f, hf, h2, rfl⟩
        cases hf
        exact ⟨_, _, rfl, h1, h2, rfl⟩
      · rintro ⟨_, _, hf, -, h2, rfl⟩
        cases hf
        exact ⟨_, rfl, h2, rfl⟩
    · rw [h]
      simp [not_unreported_of_closed h1]
    · rw [h]
      simp [not_unreported_of_full h2]
  | throw => simp [writePair, Outcome.ending]
  | exit => simp [writePair, Outcome.ending]
  | fault => simp [writePair, Outcome.ending]

theorem writePair_frame (fs : FS) (c : Outcome (Bytes × Bytes)) (p q r : String) (h : r ≠ p) (h' : r ≠ q) :
    (writePair fs c p q).1.file r = fs.file r := by
  cases c with
  | ok f =>
    simp only [writePair]
    split
    · rw [writeOne_frame _ _ _ _ h', writeOne_frame _ _ _ _ h]
    · rw [writeOne_frame _ _ _ _ h]
  | throw => rfl
  | exit => rfl
  | fault => rfl

theorem writePair_unchanged (fs : FS) (c : Outcome (Bytes × Bytes)) (p q : String) (hp : Writable fs p) (hq : Writable fs q)
    (h : (writePair fs c p q).2 ≠ .done) : (writePair fs c p q).1 = fs := by
  cases c with
  | ok f =>
    simp only [writePair] at h ⊢
    rcases writeOne_cases fs f.1 p with ⟨h1, -⟩ | ⟨h1, -⟩ | ⟨n, h1, -, h2⟩
    · rcases writeOne_cases (fs.put p (stored (fs.disk p) f.1)) f.2 q with ⟨g1, -⟩ | ⟨g1, g2⟩ | ⟨n, g1, -, g2⟩
      · rw [h1, if_pos rfl, g1] at h; exact absurd rfl h
      · rw [put_canOpen, hq.1] at g2; cases g2
      · rw [put_disk, hq.2] at g2; cases g2
    · rw [h1]; rfl
    · rw [hp.2] at h2; cases h2
  | throw => rfl
  | exit => rfl
  | fault => rfl

/-- What a run does, by what is asked for. -/
theorem run_cases (o : Outside) (fs : FS) (a : Args) (i : Input) :
    ((∀ r, ¬ Asks a r) ∧ (Program.run o fs a i).1 = fs) ∨
    (∃ p, Asks a (.shared p) ∧ Program.run o fs a i = writeOne fs (genSharedSecret o.random) p) ∨
    (∃ p q, Asks a (.pair true p q) ∧ Program.run o fs a i = writePair fs (genX25519 o.caps o.x25519.1 o.x25519.2) p q) ∨
    (∃ p q, Asks a (.pair false p q) ∧ Program.run o fs a i = writePair fs (genEd25519 o.caps o.ed25519.1 o.ed25519.2) p q) ∨
    (∃ out pub priv, Asks a (.cert out pub priv) ∧ Program.run o fs a i = runCert o fs a i out pub priv) ∨
    (∃ p q out, Asks a (.append p q out) ∧ Program.run o fs a i = writeOne fs ((fs.open p).bind fun f1 =>
      (fs.open q).bind fun f2 => appendChains o.backend o.caps f1 f2) out) := by
  unfold Program.run
  by_cases h1 : a.help = true
  · rw [if_pos h1]
    exact .inl ⟨fun r hr => by cases hr <;> simp_all, rfl⟩
  rw [if_neg h1]
  by_cases h2 : a.show_ = true
  · rw [if_pos h2]
    exact .inl ⟨fun r hr => by cases hr <;> simp_all, rfl⟩
  rw [if_neg h2]
  by_cases h3 : a.shared = true
  · rw [if_pos h3]
    split
    · rename_i p hp
      exact .inr (.inl ⟨p, .shared p (by simpa using h1) (by simpa using h2) h3 hp, rfl⟩)
    · rename_i hp
      exact .inl ⟨fun r hr => by cases hr <;> simp_all, rfl⟩
  rw [if_neg h3]
  by_cases h4 : a.x25519 = true
  · rw [if_pos h4]
    split
    · rename_i p q hp
      exact .inr (.inr (.inl ⟨p, q, .x25519 p q (by simpa using h1) (by simpa using h2) (by simpa using h3) h4 hp, rfl⟩))
    · rename_i hp
      exact .inl ⟨fun r hr => by cases hr <;> simp_all, rfl⟩
  rw [if_neg h4]
  by_cases h5 : a.ed25519 = true
  · rw [if_pos h5]
    split
    · rename_i p q hp
      exact .inr (.inr (.inr (.inl ⟨p, q, .ed25519 p q (by simpa using h1) (by simpa using h2) (by simpa using h3) (by simpa using h4) h5 hp, rfl⟩)))
    · rename_i hp
      exact .inl ⟨fun r hr => by cases hr <;> simp_all, rfl⟩
  rw [if_neg h5]
  by_cases h6 : a.cert = true
  · rw [if_pos h6]
    split
    · rename_i p q r hp
      exact .inr (.inr (.inr (.inr (.inl ⟨p, q, r, .cert p q r (by simpa using h1) (by simpa using h2) (by simpa using h3) (by simpa using h4) (by simpa using h5) h6 hp, rfl⟩))))
    · rename_i hp
      exact .inl ⟨fun r hr => by cases hr <;> simp_all, rfl⟩
  rw [if_neg h6]
  by_cases h7 : a.append = true
  · rw [if_pos h7]
    split
    · rename_i p q r hp
      exact .inr (.inr (.inr (.inr (.inr ⟨p, q, r, .append p q r (by simpa using h1) (by simpa using h2) (by simpa using h3) (by simpa using h4) (by simpa using h5) (by simpa using h6) h7 hp, rfl⟩))))
    · rename_i hp
      exact .inl ⟨fun r hr => by cases hr <;> simp_all, rfl⟩
  rw [if_neg h7]
  exact .inl ⟨fun r hr => by cases hr <;> simp_all, rfl⟩

/-- A command line asks for one thing. -/
theorem asks_unique (a : Args) (r r' : Request) (h : Asks a r) (h' : Asks a r') : r = r' := by
  cases h <;> cases h' <;> simp_all

/-- A strict prefix of a container is not a container. -/
theorem container_prefix (c c' : ContainerFile) (n : Nat) (h : c.container_entry_type ≠ .undefined ∧ c.payload.length < 2 ^ 32)
    (h' : c'.container_entry_type ≠ .undefined ∧ c'.payload.length < 2 ^ 32)
    (e : (SSP21.Spec.container c).take n = SSP21.Spec.container c') : (SSP21.Spec.container c).take n = SSP21.Spec.container c := by
  have r1 := SSP21.Spec.container_lawful.read c [] h
  have r2 := SSP21.Spec.container_lawful.read c' ((SSP21.Spec.container c).drop n) h'
  rw [← e, List.take_append_drop] at r2
  rw [List.append_nil, r2] at r1
  simp only [Except.ok.injEq, Prod.mk.injEq] at r1
  have := List.take_append_drop n (SSP21.Spec.container c)
  rw [r1.2, List.append_nil] at this
  exact this

/-- A certificate file is printed exactly if it is all there. -/
theorem print_certificate (fs : FS) (out : String) (sign : Bytes → Bytes → Bytes) (hs : ∀ m k, (sign m k).length = 64) (times : Times)
    (level : UInt8) (type : PublicKeyType) (key priv : Bytes) (ht : type ≠ .undefined) (hk : key.length = 32) (f : Bytes)
    (hf : f = Spec.chainFile [Spec.signed sign (Spec.body times level type key) priv]) (n : Nat)
    (ho : fs.file out = some (f.take n)) : (printContents fs out).ending = .done ↔ f.take n = f := by
  subst hf
  have hsig := hs (SSP21.Spec.certificateBody (Spec.body times level type key)) (priv.take 64)
  have hl := bodyLength times level type key hk
  have hcl := chainLength (Spec.signed sign (Spec.body times level type key) priv) hsig hl
  have hlen : (Spec.chainFile [Spec.signed sign (Spec.body times level type key) priv]).length ≤ 4096 := by
    simp only [Spec.chainFile, SSP21.Spec.container, SSP21.Spec.field, List.length_append, hcl]
    simp [SSP21.Spec.vlength]
  have hpos : 0 < (Spec.chainFile [Spec.signed sign (Spec.body times level type key) priv]).length := by
    simp [Spec.chainFile, SSP21.Spec.container]
  have wf : (⟨.certificate_chain, SSP21.Spec.chain [Spec.signed sign (Spec.body times level type key) priv]⟩ : ContainerFile).container_entry_type
      ≠ .undefined ∧ (SSP21.Spec.chain [Spec.signed sign (Spec.body times level type key) priv]).length < 2 ^ 32 := ⟨by simp, by
      simp only [hcl]; omega⟩
  have r1 := (C05_container.2.2.2 (Spec.chainFile [Spec.signed sign (Spec.body times level type key) priv])
    ⟨.certificate_chain, SSP21.Spec.chain [Spec.signed sign (Spec.body times level type key) priv]⟩).mpr ⟨wf, rfl⟩
  have r2 := (C05_chain.2.2.2 (SSP21.Spec.chain [Spec.signed sign (Spec.body times level type key) priv])
    [Spec.signed sign (Spec.body times level type key) priv]).mpr ⟨⟨by simp, by
      intro x hx
      simp only [List.mem_singleton] at hx
      subst hx
      simp only [Spec.signed, hl, hsig]
      decide⟩, rfl⟩
  have r3 := (C05_certificate_body.2.2.2 _ _).mpr ⟨bodyWF times level type key ht hk, rfl⟩
  rw [ending_done]
  constructor
  · rintro ⟨v, h⟩
    unfold printContents at h
    obtain ⟨data, h1, h⟩ := (outcome_bind_ok ..).mp h
    obtain ⟨c, h2, -⟩ := (outcome_bind_ok ..).mp h
    rw [FS.open, ho] at h1
    obtain ⟨rfl, -⟩ := (secureRead_ok ..).mp h1
    obtain ⟨w, e⟩ := (C05_container.2.2.2 _ c).mp ((parseOrThrow_ok ..).mp h2)
    exact container_prefix _ _ n wf w e
  · intro e
    rw [e] at ho
    refine ⟨(), ?_⟩
    unfold printContents
    refine (outcome_bind_ok ..).mpr ⟨_, ?_, (outcome_bind_ok ..).mpr ⟨_, (parseOrThrow_ok ..).mpr r1, ?_⟩⟩
    · rw [FS.open, ho]
      exact (secureRead_ok ..).mpr ⟨rfl, hpos, hlen⟩
    · rw [if_pos rfl, printChain]
      refine (outcome_bind_ok ..).mpr ⟨_, (parseOrThrow_ok ..).mpr r2, ?_⟩
      rw [if_pos]
      have := (parseOrThrow_ok CertificateBody.codec (SSP21.Spec.certificateBody (Spec.body times level type key)) _).mpr r3
      simp [Spec.signed, this, Outcome.ending]

theorem open_ok (fs : FS) (p : String) (d : Bytes) : fs.open p = .ok d ↔ fs.file p = some d := by
  unfold FS.open
  cases fs.file p <;> simp

/-! ### The questions -/

theorem askLevel_stuck (fuel : Nat) (w : List Word) (n : Nat) (h : 6 < n) : askLevel fuel ⟨w, true⟩ n = none := by
  induction fuel with
  | zero => rw [askLevel, if_neg (by omega)]
  | succ k ih => rw [askLevel, if_neg (by omega)]; exact ih

theorem askLevel_small (fuel : Nat) (i : Input) (n : Nat) (h : n ≤ 6) : askLevel fuel i n = some (UInt8.ofNat n) := by
  unfold askLevel; rw [if_pos h]

/-- Whatever the number of turns: a level that is taken was typed. -/
theorem askLevel_sound (w : List Word) : ∀ (fuel n : Nat) (l : UInt8), 6 < n → askLevel fuel ⟨w, false⟩ n = some l → LevelTyped w l := by
  induction w with
  | nil =>
    intro fuel n l hn h
    cases fuel with
    | zero => rw [askLevel, if_neg (by omega)] at h; cases h
    | succ k =>
      rw [askLevel, if_neg (by omega)] at h
      simp only [Input.read, Bool.false_eq_true, if_false] at h
      rw [askLevel_stuck k [] n hn] at h
      cases h
  | cons x rest ih =>
    intro fuel n l hn h
    cases fuel with
    | zero => rw [askLevel, if_neg (by omega)] at h; cases h
    | succ k =>
      rw [askLevel, if_neg (by omega)] at h
      cases x with
      | other =>
        simp only [Input.read, Bool.false_eq_true, if_false] at h
        rw [askLevel_small k _ 0 (by omega)] at h
        cases h
        exact .other rest
      | number m =>
        simp only [Input.read] at h
        by_cases hm : m ≤ 4294967295
        · simp only [Bool.false_eq_true, if_false, hm, if_true] at h
          by_cases hm' : m ≤ 6
          · rw [askLevel_small k _ m hm'] at h
            cases h
            have e : (UInt8.ofNat m).toNat = m := by simp; omega
            have := LevelTyped.number (UInt8.ofNat m) rest (by rw [e]; exact hm')
            rwa [e] at this
          · exact .again m rest l (by omega) (by omega) (ih k m l (by omega) h)
        · simp only [Bool.false_eq_true, if_false, hm] at h
          rw [askLevel_stuck k _ _ (by omega)] at h
          cases h

/-- A level that is typed is taken. -/
theorem askLevel_complete (w : List Word) (l : UInt8) (h : LevelTyped w l) : ∀ (fuel n : Nat), 6 < n → w.length < fuel →
    askLevel fuel ⟨w, false⟩ n = some l := by
  induction h with
  | number m rest hm =>
    intro fuel n hn hf
    obtain ⟨k, rfl⟩ : ∃ k, fuel = k + 1 := ⟨fuel - 1, by omega⟩
    have hb : m.toNat ≤ 4294967295 := by omega
    rw [askLevel, if_neg (by omega)]
    simp only [Input.read, Bool.false_eq_true, if_false, hb, if_true]
    rw [askLevel_small k _ _ hm]
    simp
  | again m rest l h1 h2 _ ih =>
    intro fuel n hn hf
    obtain ⟨k, rfl⟩ : ∃ k, fuel = k + 1 := ⟨fuel - 1, by omega⟩
    have hb : m ≤ 4294967295 := by omega
    rw [askLevel, if_neg (by omega)]
    simp only [Input.read, Bool.false_eq_true, if_false, hb, if_true]
    exact ih k m h1 (by simp only [List.length_cons] at hf; omega)
  | other rest =>
    intro fuel n hn hf
    obtain ⟨k, rfl⟩ : ∃ k, fuel = k + 1 := ⟨fuel - 1, by omega⟩
    rw [askLevel, if_neg (by omega)]
    simp only [Input.read, Bool.false_eq_true, if_false]
    rw [askLevel_small k _ 0 (by omega)]
    rfl

theorem askLevel_iff (w : List Word) (l : UInt8) : askLevel (Input.turns ⟨w, false⟩) ⟨w, false⟩ 256 = some l ↔ LevelTyped w l :=
  ⟨askLevel_sound w _ _ l (by omega), fun h => askLevel_complete w l h _ _ (by omega) (by simp [Input.turns])⟩

theorem askLevel_stuck' (w : List Word) : askLevel (Input.turns ⟨w, true⟩) ⟨w, true⟩ 256 = none := askLevel_stuck _ w 256 (by omega)

theorem u16 (n : Nat) (h : n ≤ 65535) : (UInt16.ofNat n).toNat = n := by simp; omega

/-- The choice of days and level. -/
theorem chosen_iff (a : Args) (w : List Word) (d : UInt16) (l : UInt8) (hd : d.toNat ≤ 24) :
    (∃ i, daysOf a ⟨w, false⟩ = some (i, d) ∧ levelOf a i = some (some l)) ↔ Chosen a w d l := by
  constructor
  · rintro ⟨i, h1, h2⟩
    unfold daysOf at h1
    unfold levelOf at h2
    cases hda : a.days with
    | some x =>
      rw [hda] at h1
      cases x with
      | none => cases h1
      | some d' =>
        simp only [Option.map_some, Option.some.injEq, Prod.mk.injEq] at h1
        obtain ⟨rfl, rfl⟩ := h1
        cases hla : a.level with
        | some y =>
          rw [hla] at h2
          cases y with
          | none => cases h2
          | some l' =>
            simp only [Option.map_some, Option.some.injEq] at h2
            subst h2
            exact .line _ _ _ hda hla
        | none =>
          rw [hla] at h2
          simp only [Option.some.injEq] at h2
          exact .level _ _ _ hda hla ((askLevel_iff w l).mp h2)
    | none =>
      rw [hda] at h1
      simp only [Option.some.injEq, askDays, Prod.mk.injEq] at h1
      obtain ⟨rfl, h1⟩ := h1
      have bad : ∀ w', (Input.read ⟨w, false⟩ 65535 0).1 = ⟨w', true⟩ → a.level = some (some l) := by
        intro w' hw
        rw [hw] at h2
        cases hla : a.level with
        | some y =>
          rw [hla] at h2
          cases y with
          | none => cases h2
          | some l' =>
            simp only [Option.map_some, Option.some.injEq] at h2
            rw [h2]
        | none =>
          rw [hla] at h2
          simp only [Option.some.injEq] at h2
          rw [askLevel_stuck'] at h2
          cases h2
      cases w with
      | nil =>
        have e : d = 0 := h1.symm
        subst e
        exact .zero _ _ hda (bad [] rfl) (.inl rfl)
      | cons x rest =>
        cases x with
        | other =>
          have e : d = 0 := h1.symm
          subst e
          exact .zero _ _ hda (bad (.other :: rest) rfl) (.inr rfl)
        | number n =>
          by_cases hn : n ≤ 65535
          · have e : Input.read ⟨.number n :: rest, false⟩ 65535 0 = (⟨rest, false⟩, n) := by
              simp [Input.read, hn]
            rw [e] at h1 h2
            have hdn : n = d.toNat := by rw [← h1, u16 n hn]
            subst hdn
            cases hla : a.level with
            | some y =>
              rw [hla] at h2
              cases y with
              | none => cases h2
              | some l' =>
                simp only [Option.map_some, Option.some.injEq] at h2
                subst h2
                exact .days _ _ _ _ hda hla (.number d rest)
            | none =>
              rw [hla] at h2
              simp only [Option.some.injEq] at h2
              exact .both _ _ _ _ hda hla (.number d rest) ((askLevel_iff rest l).mp h2)
          · have e : (Input.read ⟨.number n :: rest, false⟩ 65535 0).2 = 65535 := by
              simp [Input.read, hn]
            rw [e] at h1
            rw [← h1] at hd
            exact absurd hd (by decide)
  · intro h
    have typed : ∀ (d : UInt16) rest, askDays ⟨.number d.toNat :: rest, false⟩ = (⟨rest, false⟩, d) := by
      intro d rest
      have hb : d.toNat ≤ 65535 := by have := d.toNat_lt; omega
      simp [askDays, Input.read, hb]
    cases h with
    | line _ _ h1 h2 => exact ⟨_, by rw [daysOf, h1]; rfl, by rw [levelOf, h2]; rfl⟩
    | level _ _ h1 h2 h3 => exact ⟨_, by rw [daysOf, h1]; rfl, by rw [levelOf, h2]; simp only; rw [(askLevel_iff w l).mpr h3]⟩
    | days _ rest _ h1 h2 h3 =>
      cases h3
      exact ⟨_, by rw [daysOf, h1]; simp only; rw [typed], by rw [levelOf, h2]; rfl⟩
    | both _ rest _ h1 h2 h3 h4 =>
      cases h3
      exact ⟨_, by rw [daysOf, h1]; simp only; rw [typed], by rw [levelOf, h2]; simp only; rw [(askLevel_iff rest l).mpr h4]⟩
    | zero _ h1 h2 h3 =>
      have e : ∃ w', askDays ⟨w, false⟩ = (w', 0) := by
        cases w with
        | nil => exact ⟨_, rfl⟩
        | cons x rest =>
          cases x with
          | other => exact ⟨_, rfl⟩
          | number n => simp at h3
      obtain ⟨w', e⟩ := e
      exact ⟨w', by rw [daysOf, h1]; simp only; rw [e], by rw [levelOf, h2]; rfl⟩

/-! ### Certificates -/

theorem certContents (o : Outside) (fs : FS) (times : Times) (level : UInt8) (pub priv : String) (f : Bytes) :
    ((fs.open priv).bind fun privFile => (fs.open pub).bind fun pubFile =>
      createCertificate o.caps o.sign pubFile privFile times level) = .ok f ↔
    ∃ f1 f2, fs.file priv = some f1 ∧ fs.file pub = some f2 ∧ createCertificate o.caps o.sign f2 f1 times level = .ok f := by
  constructor
  · intro h
    obtain ⟨f1, h1, h⟩ := (outcome_bind_ok ..).mp h
    obtain ⟨f2, h2, h⟩ := (outcome_bind_ok ..).mp h
    exact ⟨f1, f2, (open_ok ..).mp h1, (open_ok ..).mp h2, h⟩
  · rintro ⟨f1, f2, h1, h2, h3⟩
    exact (outcome_bind_ok ..).mpr ⟨f1, (open_ok ..).mpr h1, (outcome_bind_ok ..).mpr ⟨f2, (open_ok ..).mpr h2, h3⟩⟩

theorem stored_take (disk : Disk) (d : Bytes) : ∃ n, stored disk d = d.take n := by
  cases disk with
  | good => exact ⟨d.length, by simp [stored]⟩
  | full n r => exact ⟨n, rfl⟩

/-- A certificate file is made exactly if it can be made, nothing is reported, and it is there. -/
theorem certFile_done (o : Outside) (hs : ∀ m k, (o.sign m k).length = 64) (fs fs' : FS) (times : Times) (level : UInt8)
    (out pub priv : String) : certFile o fs times level out pub priv = (fs', .done) ↔
      ∃ f f1 f2, fs.file priv = some f1 ∧ fs.file pub = some f2 ∧ createCertificate o.caps o.sign f2 f1 times level = .ok f ∧
        Unreported fs out ∧ stored (fs.disk out) f = f ∧ fs' = fs.put out f := by
  unfold certFile
  generalize hc : ((fs.open priv).bind fun privFile => (fs.open pub).bind fun pubFile =>
      createCertificate o.caps o.sign pubFile privFile times level) = c
  have key : ∀ f, c = .ok f ↔ _ := fun f => hc ▸ certContents o fs times level pub priv f
  have print : ∀ f, c = .ok f → ((printContents (fs.put out (stored (fs.disk out) f)) out).ending = .done ↔
      stored (fs.disk out) f = f) := by
    intro f hf
    obtain ⟨f1, f2, -, -, k3⟩ := (key f).mp hf
    obtain ⟨-, t, k, p, ht', hk', -, -, -, -, e⟩ := (C45_create o.caps o.sign hs ..).mp k3
    obtain ⟨n, hn⟩ := stored_take (fs.disk out) f
    rw [hn]
    exact print_certificate _ out o.sign hs times level t k p ht' hk' f e n (put_self ..)
  simp only
  constructor
  · intro h
    split at h
    · rename_i hd
      obtain ⟨f, h1, h2, h3⟩ := (writeOne_done fs (writeOne fs c out).1 c out).mp (by rw [← hd])
      rw [h3] at h
      simp only [Prod.mk.injEq] at h
      have e := (print f h1).mp h.2
      obtain ⟨f1, f2, k1, k2, k3⟩ := (key f).mp h1
      exact ⟨f, f1, f2, k1, k2, k3, h2, e, by rw [← h.1, e]⟩
    · rename_i hd
      exact absurd (congrArg Prod.snd h) hd
  · rintro ⟨f, f1, f2, k1, k2, k3, h2, e, rfl⟩
    have h1 := (key f).mpr ⟨f1, f2, k1, k2, k3⟩
    have hw := (writeOne_done fs _ c out).mpr ⟨f, h1, h2, rfl⟩
    rw [hw, if_pos rfl, (print f h1).mpr e, e]

theorem certFile_frame (o : Outside) (fs : FS) (times : Times) (level : UInt8) (out pub priv p : String) (h : p ≠ out) :
    (certFile o fs times level out pub priv).1.file p = fs.file p := by
  unfold certFile
  simp only
  split <;> exact writeOne_frame _ _ _ _ h

theorem certFile_unchanged (o : Outside) (hs : ∀ m k, (o.sign m k).length = 64) (fs : FS) (times : Times) (level : UInt8)
    (out pub priv : String) (hw : Writable fs out) (h : (certFile o fs times level out pub priv).2 ≠ .done) :
    (certFile o fs times level out pub priv).1 = fs := by
  by_cases hd : (writeOne fs ((fs.open priv).bind fun privFile => (fs.open pub).bind fun pubFile =>
      createCertificate o.caps o.sign pubFile privFile times level) out).2 = .done
  · exfalso
    obtain ⟨f, h1, h2, h3⟩ := (writeOne_done fs (writeOne fs ((fs.open priv).bind fun privFile => (fs.open pub).bind fun pubFile =>
      createCertificate o.caps o.sign pubFile privFile times level) out).1 _ out).mp (by rw [← hd])
    obtain ⟨f1, f2, k1, k2, k3⟩ := (certContents ..).mp h1
    have := (certFile_done o hs fs (fs.put out f) times level out pub priv).mpr
      ⟨f, f1, f2, k1, k2, k3, h2, by rw [hw.2]; rfl, rfl⟩
    rw [this] at h
    exact h rfl
  · unfold certFile
    simp only
    rw [if_neg hd]
    exact writeOne_unchanged _ _ _ hw hd

theorem times_exist (now : UInt64) (days : UInt16) (hn : now.toNat < 2 ^ 64 - 2 ^ 31) (t : Times) :
    daysToTimes now days = .ok t ↔ days.toNat ≤ 24 ∧ t.valid_after = now ∧ t.valid_before.toNat = now.toNat + millisOfDays days.toNat := by
  constructor
  · intro h
    have hd : days.toNat ≤ 24 := by
      refine Nat.le_of_not_lt fun hlt => ?_
      rw [(C43_overflow_violation now days).mpr hlt] at h
      cases h
    obtain ⟨t', h', h1, h2⟩ := C43_days_partial now days hd hn
    rw [h] at h'
    cases h'
    exact ⟨hd, h1, h2⟩
  · rintro ⟨hd, h1, h2⟩
    obtain ⟨t', h', h1', h2'⟩ := C43_days_partial now days hd hn
    have e : t' = t := by
      cases t; cases t'
      simp only at h1 h2 h1' h2'
      rw [Times.mk.injEq]
      exact ⟨by rw [h1, h1'], UInt64.toNat_inj.mp (by rw [h2, h2'])⟩
    rw [h', e]

theorem runCert_cases (o : Outside) (fs : FS) (a : Args) (i : Input) (out pub priv : String) :
    ((runCert o fs a i out pub priv).1 = fs ∧ (runCert o fs a i out pub priv).2 ≠ .done ∧
      ¬ ∃ i' d t l, daysOf a i = some (i', d) ∧ daysToTimes o.now d = .ok t ∧ levelOf a i' = some (some l)) ∨
    ∃ i' d t l, daysOf a i = some (i', d) ∧ daysToTimes o.now d = .ok t ∧ levelOf a i' = some (some l) ∧
      runCert o fs a i out pub priv = certFile o fs t l out pub priv := by
  unfold runCert
  generalize daysOf a i = x
  cases x with
  | none => exact .inl ⟨rfl, by simp [certInDays], by simp⟩
  | some y =>
    obtain ⟨i', d⟩ := y
    rw [certInDays]
    generalize hy : daysToTimes o.now d = y
    cases y with
    | ok t =>
      rw [certInTimes]
      generalize hz : levelOf a i' = z
      cases z with
      | none => exact .inl ⟨rfl, by simp [certAtLevel], by
          rintro ⟨_, _, _, _, h1, -, h2⟩; cases h1; rw [hz] at h2; cases h2⟩
      | some z =>
        cases z with
        | none => exact .inl ⟨rfl, by simp [certAtLevel], by
            rintro ⟨_, _, _, _, h1, -, h2⟩; cases h1; rw [hz] at h2; cases h2⟩
        | some l => exact .inr ⟨i', d, t, l, rfl, hy, hz, rfl⟩
    | throw => exact .inl ⟨rfl, by simp [certInTimes], by
        rintro ⟨_, _, _, _, h1, h2, -⟩; cases h1; rw [hy] at h2; cases h2⟩
    | exit => exact .inl ⟨rfl, by simp [certInTimes], by
        rintro ⟨_, _, _, _, h1, h2, -⟩; cases h1; rw [hy] at h2; cases h2⟩
    | fault => exact .inl ⟨rfl, by simp [certInTimes], by
        rintro ⟨_, _, _, _, h1, h2, -⟩; cases h1; rw [hy] at h2; cases h2⟩

theorem runCert_done' (o : Outside) (fs fs' : FS) (a : Args) (i : Input) (out pub priv : String) :
    runCert o fs a i out pub priv = (fs', .done) ↔ ∃ i' d t l, daysOf a i = some (i', d) ∧ daysToTimes o.now d = .ok t ∧
      levelOf a i' = some (some l) ∧ certFile o fs t l out pub priv = (fs', .done) := by
  rcases runCert_cases o fs a i out pub priv with ⟨h1, h2, h3⟩ | ⟨i', d, t, l, k1, k2, k3, h1⟩
  · constructor
    · intro h; rw [h] at h2; exact absurd rfl h2
    · rintro ⟨i', d, t, l, k1, k2, k3, -⟩; exact absurd ⟨i', d, t, l, k1, k2, k3⟩ h3
  · rw [h1]
    constructor
    · intro h; exact ⟨i', d, t, l, k1, k2, k3, h⟩
    · rintro ⟨i'', d', t', l', e1, e2, e3, h⟩
      rw [k1] at e1; cases e1
      rw [k2] at e2; cases e2
      rw [k3] at e3; cases e3
      exact h

theorem runCert_done (o : Outside) (ho : Sane o) (fs fs' : FS) (a : Args) (w : List Word) (out pub priv : String) :
    runCert o fs a ⟨w, false⟩ out pub priv = (fs', .done) ↔ ∃ f, Product o a w fs (.cert out pub priv) [f] ∧ Unreported fs out ∧
      stored (fs.disk out) f = f ∧ fs' = fs.put out f := by
  have product : ∀ f, Product o a w fs (.cert out pub priv) [f] ↔ ∃ i d l t f1 f2, daysOf a ⟨w, false⟩ = some (i, d) ∧
      daysToTimes o.now d = .ok t ∧ levelOf a i = some (some l) ∧ fs.file priv = some f1 ∧ fs.file pub = some f2 ∧
      createCertificate o.caps o.sign f2 f1 t l = .ok f := by
    intro f
    constructor
    · intro h
      cases h with
      | cert _ _ _ days times level type key secret h1 h2 h3 h4 h5 h6 h7 h8 h9 h10 h11 =>
        obtain ⟨i, d1, d2⟩ := (chosen_iff a w days level h3).mpr h2
        exact ⟨i, days, level, times, _, _, d1, (times_exist o.now days ho.now times).mpr ⟨h3, h4, h5⟩, d2, h11, h10,
          (C45_create o.caps o.sign ho.sign ..).mpr ⟨h1, type, key, secret, h6, h7, h8, h9, rfl, rfl, rfl⟩⟩
    · rintro ⟨i, d, l, t, f1, f2, d1, ht, d2, h1, h2, h3⟩
      obtain ⟨t1, t2, t3⟩ := (times_exist o.now d ho.now t).mp ht
      obtain ⟨c1, type, key, secret, c2, c3, c4, c5, rfl, rfl, rfl⟩ := (C45_create o.caps o.sign ho.sign ..).mp h3
      exact .cert _ _ _ d t l type key secret c1 ((chosen_iff a w d l t1).mp ⟨i, d1, d2⟩) t1 t2 t3 c2 c3 c4 c5 h2 h1
  rw [runCert_done']
  constructor
  · rintro ⟨i, d, t, l, hd, ht, hl, h⟩
    obtain ⟨f, f1, f2, k1, k2, k3, k4, k5, k6⟩ := (certFile_done o ho.sign ..).mp h
    exact ⟨f, (product f).mpr ⟨i, d, l, t, f1, f2, hd, ht, hl, k1, k2, k3⟩, k4, k5, k6⟩
  · rintro ⟨f, hp, k4, k5, k6⟩
    obtain ⟨i, d, l, t, f1, f2, hd, ht, hl, k1, k2, k3⟩ := (product f).mp hp
    exact ⟨i, d, t, l, hd, ht, hl, (certFile_done o ho.sign ..).mpr ⟨f, f1, f2, k1, k2, k3, k4, k5, k6⟩⟩

theorem runCert_frame (o : Outside) (fs : FS) (a : Args) (i : Input) (out pub priv p : String) (h : p ≠ out) :
    (runCert o fs a i out pub priv).1.file p = fs.file p := by
  rcases runCert_cases o fs a i out pub priv with h1 | ⟨i', d, t, l, -, -, -, h1⟩
  · rw [h1.1]
  · rw [h1]; exact certFile_frame _ _ _ _ _ _ _ _ h

theorem runCert_unchanged (o : Outside) (hs : ∀ m k, (o.sign m k).length = 64) (fs : FS) (a : Args) (i : Input) (out pub priv : String)
    (hw : Writable fs out) (h : (runCert o fs a i out pub priv).2 ≠ .done) : (runCert o fs a i out pub priv).1 = fs := by
  rcases runCert_cases o fs a i out pub priv with h1 | ⟨i', d, t, l, -, -, -, h1⟩
  · exact h1.1
  · rw [h1] at h ⊢; exact certFile_unchanged o hs _ _ _ _ _ _ hw h

end ProgramProof

open Spec ProgramProof

/-! ### C61 -/

/-- C61: what a command line asks for is done exactly if everything that is needed is there (the keys, the backend, the input files, a number
of days and a level, from the command line or typed) and no write reports a failure; the files are then written one after the
other, and nothing else changes. A certificate is read back: it is there in full. -/
theorem C61_exact (o : Outside) (ho : Sane o) (fs fs' : FS) (a : Args) (w : List Word) (r : Request) (hr : Asks a r) :
    Program.run o fs a ⟨w, false⟩ = (fs', .done) ↔ ∃ data, Product o a w fs r data ∧ (∀ p ∈ r.outputs, Unreported fs p) ∧
      (∀ out pub priv, r = .cert out pub priv → data.map (stored (fs.disk out)) = data) ∧
      fs' = Spec.put fs (r.outputs.zip data) := by
  rcases run_cases o fs a ⟨w, false⟩ with ⟨h, -⟩ | ⟨p, h, e⟩ | ⟨p, q, h, e⟩ | ⟨p, q, h, e⟩ | ⟨out, pub, priv, h, e⟩ | ⟨p, q, out, h, e⟩
  · exact absurd hr (h r)
  all_goals
    obtain rfl := asks_unique a _ _ hr h
    rw [e]
  · rw [writeOne_done, (C45_key_files o.caps o.random o.random ho.random ho.random).1]
    constructor
    · rintro ⟨f, hf, hu, rfl⟩
      cases hf
      exact ⟨_, .shared p, by simpa [Request.outputs] using hu, by simp, rfl⟩
    · rintro ⟨data, hp, hu, -, rfl⟩
      cases hp
      exact ⟨_, rfl, hu p (by simp [Request.outputs]), rfl⟩
  · rw [writePair_done]
    have k := (C45_key_files o.caps o.x25519.1 o.x25519.2 ho.x25519.1 ho.x25519.2).2.1
    constructor
    · rintro ⟨f1, f2, hf, h1, h2, rfl⟩
      obtain ⟨hc, hf⟩ := (k _).mp hf
      cases hf
      exact ⟨_, .x25519 p q hc, by simpa [Request.outputs] using ⟨h1, h2⟩, by simp, rfl⟩
    · rintro ⟨data, hp, hu, -, rfl⟩
      cases hp with
      | x25519 _ _ hc => exact ⟨_, _, (k _).mpr ⟨hc, rfl⟩, hu p (by simp [Request.outputs]), hu q (by simp [Request.outputs]), rfl⟩
  · rw [writePair_done]
    have k := (C45_key_files o.caps o.ed25519.1 o.ed25519.2 ho.ed25519.1 ho.ed25519.2).2.2
    constructor
    · rintro ⟨f1, f2, hf, h1, h2, rfl⟩
      obtain ⟨hc, hf⟩ := (k _).mp hf
      cases hf
      exact ⟨_, .ed25519 p q hc, by simpa [Request.outputs] using ⟨h1, h2⟩, by simp, rfl⟩
    · rintro ⟨data, hp, hu, -, rfl⟩
      cases hp with
      | ed25519 _ _ hc => exact ⟨_, _, (k _).mpr ⟨hc, rfl⟩, hu p (by simp [Request.outputs]), hu q (by simp [Request.outputs]), rfl⟩
  · rw [runCert_done o ho]
    constructor
    · rintro ⟨f, hp, hu, hs, rfl⟩
      exact ⟨[f], hp, by simpa [Request.outputs] using hu, by
        intro _ _ _ e
        cases e
        simp [hs], by simp [Request.outputs, Spec.put, hs]⟩
    · rintro ⟨data, hp, hu, hs, rfl⟩
      have hs := hs _ _ _ rfl
      cases hp with
      | cert _ _ _ days times level type key secret h1 h2 h3 h4 h5 h6 h7 h8 h9 h10 h11 =>
        simp only [List.map_cons, List.map_nil, List.cons.injEq, and_true] at hs
        exact ⟨_, .cert _ _ _ days times level type key secret h1 h2 h3 h4 h5 h6 h7 h8 h9 h10 h11,
          hu out (by simp [Request.outputs]), hs, by simp [Request.outputs, Spec.put, hs]⟩
  · rw [writeOne_done]
    constructor
    · rintro ⟨f, hf, hu, rfl⟩
      obtain ⟨f1, h1, hf⟩ := (outcome_bind_ok ..).mp hf
      obtain ⟨f2, h2, hf⟩ := (outcome_bind_ok ..).mp hf
      obtain ⟨hc, init, last, env, parent, leaf, c1, c2, c3, c4, c5, c6, c7, c8, rfl⟩ := (C45_append ..).mp hf
      exact ⟨_, .append p q out f1 f2 init last env parent leaf hc ((open_ok ..).mp h1) ((open_ok ..).mp h2) c1 c2 c3 c4 c5 c6 c7 c8,
        by simpa [Request.outputs] using hu, by simp, rfl⟩
    · rintro ⟨data, hp, hu, -, rfl⟩
      cases hp with
      | append _ _ _ f1 f2 init last env parent leaf hc h1 h2 c1 c2 c3 c4 c5 c6 c7 c8 =>
        exact ⟨_, (outcome_bind_ok ..).mpr ⟨f1, (open_ok ..).mpr h1, (outcome_bind_ok ..).mpr ⟨f2, (open_ok ..).mpr h2,
          (C45_append ..).mpr ⟨hc, init, last, env, parent, leaf, c1, c2, c3, c4, c5, c6, c7, c8, rfl⟩⟩⟩,
          hu out (by simp [Request.outputs]), rfl⟩

/-- C61: whatever happens, only the files that are to be written can change; a command line that asks for nothing changes nothing. -/
theorem C61_frame (o : Outside) (fs : FS) (a : Args) (i : Input) (p : String) (h : ∀ r, Asks a r → p ∉ r.outputs) :
    (Program.run o fs a i).1.file p = fs.file p := by
  rcases run_cases o fs a i with ⟨-, e⟩ | ⟨q, hr, e⟩ | ⟨q, q', hr, e⟩ | ⟨q, q', hr, e⟩ | ⟨out, pub, priv, hr, e⟩ | ⟨q, q', out, hr, e⟩ <;>
    rw [e]
  all_goals have hn := h _ hr
  · exact writeOne_frame _ _ _ _ (by simpa [Request.outputs] using hn)
  · simp only [Request.outputs, List.mem_cons, List.not_mem_nil, or_false, not_or] at hn
    exact writePair_frame _ _ _ _ _ hn.1 hn.2
  · simp only [Request.outputs, List.mem_cons, List.not_mem_nil, or_false, not_or] at hn
    exact writePair_frame _ _ _ _ _ hn.1 hn.2
  · exact runCert_frame _ _ _ _ _ _ _ _ (by simpa [Request.outputs] using hn)
  · exact writeOne_frame _ _ _ _ (by simpa [Request.outputs] using hn)

/-- C61, if the files to be written can be written and are different files: a run that ends well has put what was asked for into them. Without
these conditions it is false, see below. -/
theorem C61_done_partial (o : Outside) (ho : Sane o) (fs fs' : FS) (a : Args) (w : List Word) (r : Request) (hr : Asks a r)
    (hd : ∀ p ∈ r.outputs, fs.disk p = .good) (hn : r.outputs.Nodup) (h : Program.run o fs a ⟨w, false⟩ = (fs', .done)) :
    ∃ data, Product o a w fs r data ∧ r.outputs.map fs'.file = data.map some := by
  obtain ⟨data, hp, -, -, rfl⟩ := (C61_exact o ho fs fs' a w r hr).mp h
  refine ⟨data, hp, ?_⟩
  cases hp with
  | shared p => simp [Request.outputs, Spec.put, put_self, hd p (by simp [Request.outputs]), stored]
  | x25519 p q =>
    simp only [Request.outputs, List.nodup_cons, List.mem_singleton] at hn
    simp [Request.outputs, Spec.put, put_self, put_other _ _ _ _ hn.1, hd p (by simp [Request.outputs]), hd q (by simp [Request.outputs]), stored]
  | ed25519 p q =>
    simp only [Request.outputs, List.nodup_cons, List.mem_singleton] at hn
    simp [Request.outputs, Spec.put, put_self, put_other _ _ _ _ hn.1, hd p (by simp [Request.outputs]), hd q (by simp [Request.outputs]), stored]
  | cert out => simp [Request.outputs, Spec.put, put_self, hd out (by simp [Request.outputs]), stored]
  | append _ _ out => simp [Request.outputs, Spec.put, put_self, hd out (by simp [Request.outputs]), stored]

/-- C61: a run that ends well and was to make a certificate has made it, whatever the disk does. -/
theorem C61_cert_done (o : Outside) (ho : Sane o) (fs fs' : FS) (a : Args) (w : List Word) (out pub priv : String)
    (hr : Asks a (.cert out pub priv)) (h : Program.run o fs a ⟨w, false⟩ = (fs', .done)) :
    ∃ f, Product o a w fs (.cert out pub priv) [f] ∧ fs'.file out = some f := by
  obtain ⟨data, hp, -, hs, rfl⟩ := (C61_exact o ho fs fs' a w _ hr).mp h
  have hs := hs _ _ _ rfl
  cases hp with
  | cert _ _ _ days times level type key secret h1 h2 h3 h4 h5 h6 h7 h8 h9 h10 h11 =>
    simp only [List.map_cons, List.map_nil, List.cons.injEq, and_true] at hs
    exact ⟨_, .cert _ _ _ days times level type key secret h1 h2 h3 h4 h5 h6 h7 h8 h9 h10 h11, by simp [Request.outputs, Spec.put, put_self, hs]⟩

/-- C61, if the files to be written can be written: a run that does not end well has changed nothing. Otherwise it is false, see below. -/
theorem C61_unchanged_partial (o : Outside) (ho : Sane o) (fs : FS) (a : Args) (i : Input) (hw : ∀ r, Asks a r → ∀ p ∈ r.outputs, Writable fs p)
    (h : (Program.run o fs a i).2 ≠ .done) : (Program.run o fs a i).1 = fs := by
  rcases run_cases o fs a i with ⟨-, e⟩ | ⟨q, hr, e⟩ | ⟨q, q', hr, e⟩ | ⟨q, q', hr, e⟩ | ⟨out, pub, priv, hr, e⟩ | ⟨q, q', out, hr, e⟩
  · exact e
  all_goals
    rw [e] at h ⊢
    have hw := hw _ hr
    simp only [Request.outputs, List.mem_cons, List.not_mem_nil, or_false, forall_eq_or_imp, forall_eq] at hw
  · exact writeOne_unchanged _ _ _ hw h
  · exact writePair_unchanged _ _ _ _ hw.1 hw.2 h
  · exact writePair_unchanged _ _ _ _ hw.1 hw.2 h
  · exact runCert_unchanged _ ho.sign _ _ _ _ _ _ hw h
  · exact writeOne_unchanged _ _ _ hw h

/-- C61: the level that is taken from what is typed, however long one waits. -/
theorem C61_level (w : List Word) (l : UInt8) : (∃ turns, askLevel turns ⟨w, false⟩ 256 = some l) ↔ LevelTyped w l :=
  ⟨fun ⟨_, h⟩ => askLevel_sound w _ _ l (by omega) h, fun h => ⟨_, (askLevel_iff w l).mpr h⟩⟩

/-! ### Any number of runs -/

namespace Spec

/-- Any number of runs of the tool, one after the other, with any command lines, input, keys and times. Between them, the disk may fill up or be
emptied, files may become writable or not, and files may be deleted. -/
inductive Runs (b : Backend) (caps : Caps) (sign : Bytes → Bytes → Bytes) (fs : FS) : FS → Prop
  | start : Runs b caps sign fs fs
  | run {fs' : FS} (o : Outside) (a : Args) (i : Input) : Runs b caps sign fs fs' → o.backend = b → o.caps = caps → o.sign = sign → Sane o →
      Runs b caps sign fs (Program.run o fs' a i).1
  | disk {fs' : FS} (canOpen : String → Bool) (disk : String → Disk) : Runs b caps sign fs fs' →
      Runs b caps sign fs ⟨fs'.file, canOpen, disk⟩
  | delete {fs' : FS} (p : String) : Runs b caps sign fs fs' →
      Runs b caps sign fs ⟨fun q => if q = p then none else fs'.file q, fs'.canOpen, fs'.disk⟩

end Spec

namespace ProgramProof
open Spec

theorem container_inj (c c' : ContainerFile) (h : c.container_entry_type ≠ .undefined ∧ c.payload.length < 2 ^ 32)
    (h' : c'.container_entry_type ≠ .undefined ∧ c'.payload.length < 2 ^ 32) (e : SSP21.Spec.container c = SSP21.Spec.container c') : c = c' := by
  have r1 := (C05_container.2.2.2 (SSP21.Spec.container c) c).mpr ⟨h, rfl⟩
  have r2 := (C05_container.2.2.2 (SSP21.Spec.container c) c').mpr ⟨h', e⟩
  rw [r1] at r2
  simpa using r2

/-- Data that a run writes into a file. -/
inductive Data (o : Outside) (fs : FS) : Bytes → Prop
  | key (t : ContainerEntryType) (k : Bytes) : t ≠ .undefined → t ≠ .certificate_chain → k.length < 2 ^ 32 →
      Data o fs (SSP21.Spec.container ⟨t, k⟩)
  | cert {f pub priv : Bytes} {times : Times} {level : UInt8} : createCertificate o.caps o.sign pub priv times level = .ok f → Data o fs f
  | append {p q : String} {f f1 f2 : Bytes} : fs.file p = some f1 → fs.file q = some f2 → appendChains o.backend o.caps f1 f2 = .ok f → Data o fs f

theorem writeOne_data (o : Outside) (fs₀ fs : FS) (c : Outcome Bytes) (hc : ∀ f, c = .ok f → Data o fs₀ f) (path p : String) :
    (writeOne fs c path).1.file p = fs.file p ∨ ∃ f n, Data o fs₀ f ∧ (writeOne fs c path).1.file p = some (f.take n) := by
  by_cases hp : p = path
  · subst hp
    cases c with
    | ok f =>
      rcases writeOne_cases fs f p with ⟨h, -⟩ | ⟨h, -⟩ | ⟨n, h, -⟩ <;> rw [h]
      · obtain ⟨n, hn⟩ := stored_take (fs.disk p) f
        exact .inr ⟨f, n, hc f rfl, by rw [put_self, hn]⟩
      · exact .inl rfl
      · exact .inr ⟨f, n, hc f rfl, put_self ..⟩
    | throw => exact .inl rfl
    | exit => exact .inl rfl
    | fault => exact .inl rfl
  · exact .inl (writeOne_frame _ _ _ _ hp)

theorem writePair_data (o : Outside) (fs : FS) (c : Outcome (Bytes × Bytes)) (hc : ∀ f, c = .ok f → Data o fs f.1 ∧ Data o fs f.2)
    (p1 p2 p : String) :
    (writePair fs c p1 p2).1.file p = fs.file p ∨ ∃ f n, Data o fs f ∧ (writePair fs c p1 p2).1.file p = some (f.take n) := by
  cases c with
  | ok f =>
    obtain ⟨h1, h2⟩ := hc f rfl
    have d1 := writeOne_data o fs fs (.ok f.1) (by rintro _ ⟨⟩; exact h1) p1 p
    simp only [writePair]
    split
    · rcases writeOne_data o fs (writeOne fs (.ok f.1) p1).1 (.ok f.2) (by rintro _ ⟨⟩; exact h2) p2 p with h | h
      · rw [h]; exact d1
      · exact .inr h
    · exact d1
  | throw => exact .inl rfl
  | exit => exact .inl rfl
  | fault => exact .inl rfl

/-- Every file holds what it held before, or a part of what the run writes. -/
theorem run_data (o : Outside) (ho : Sane o) (fs : FS) (a : Args) (i : Input) (p : String) :
    (Program.run o fs a i).1.file p = fs.file p ∨ ∃ f n, Data o fs f ∧ (Program.run o fs a i).1.file p = some (f.take n) := by
  have small : ∀ k : Bytes, k.length ≤ 64 → k.length < 2 ^ 32 := fun k h => by omega
  rcases run_cases o fs a i with ⟨-, e⟩ | ⟨q, -, e⟩ | ⟨q, q', -, e⟩ | ⟨q, q', -, e⟩ | ⟨out, pub, priv, -, e⟩ | ⟨q, q', out, -, e⟩ <;> rw [e]
  · exact .inl rfl
  · refine writeOne_data o fs fs _ (fun f hf => ?_) q p
    rw [(C45_key_files o.caps o.random o.random ho.random ho.random).1] at hf
    cases hf
    exact .key _ _ (by simp) (by simp) (small _ ho.random)
  · refine writePair_data o fs _ (fun f hf => ?_) q q' p
    obtain ⟨-, rfl⟩ := ((C45_key_files o.caps o.x25519.1 o.x25519.2 ho.x25519.1 ho.x25519.2).2.1 _).mp hf
    exact ⟨.key _ _ (by simp) (by simp) (small _ ho.x25519.1), .key _ _ (by simp) (by simp) (small _ ho.x25519.2)⟩
  · refine writePair_data o fs _ (fun f hf => ?_) q q' p
    obtain ⟨-, rfl⟩ := ((C45_key_files o.caps o.ed25519.1 o.ed25519.2 ho.ed25519.1 ho.ed25519.2).2.2 _).mp hf
    exact ⟨.key _ _ (by simp) (by simp) (small _ ho.ed25519.1), .key _ _ (by simp) (by simp) (small _ ho.ed25519.2)⟩
  · rcases runCert_cases o fs a i out pub priv with ⟨h, -⟩ | ⟨i', d, t, l, -, -, -, h⟩
    · rw [h]; exact .inl rfl
    · rw [h]
      have := writeOne_data o fs fs ((fs.open priv).bind fun privFile => (fs.open pub).bind fun pubFile =>
        createCertificate o.caps o.sign pubFile privFile t l) (fun f hf => by
          obtain ⟨f1, f2, -, -, k⟩ := (certContents ..).mp hf
          exact .cert k) out p
      unfold certFile
      simp only
      split <;> exact this
  · refine writeOne_data o fs fs _ (fun f hf => ?_) out p
    obtain ⟨f1, h1, hf⟩ := (outcome_bind_ok ..).mp hf
    obtain ⟨f2, h2, hf⟩ := (outcome_bind_ok ..).mp hf
    exact .append ((open_ok ..).mp h1) ((open_ok ..).mp h2) hf

theorem chain_length (init : List CertificateEnvelope) (last env : CertificateEnvelope) (h : init.length ≤ 4) :
    (SSP21.Spec.chain (init ++ [last, env])).length + 1 = (SSP21.Spec.chain (init ++ [last])).length + (SSP21.Spec.chain [env]).length := by
  have v : ∀ n, n < 128 → (SSP21.Spec.vlength n).length = 1 := vlength_le
  simp only [SSP21.Spec.chain, SSP21.Spec.listOf, List.length_append, List.flatMap_append, List.flatMap_cons, List.flatMap_nil, List.append_nil,
    List.length_cons, List.length_nil]
  rw [v _ (by omega), v _ (by omega), v _ (by omega)]
  omega

/-- What a run writes is a chain only if it is written in full, and was made. -/
theorem data_chain (o : Outside) (hs : ∀ m k, (o.sign m k).length = 64) (fs : FS) (f : Bytes) (n : Nat) (h : Data o fs f)
    (hm : ∀ p f certs, fs.file p = some f → ChainInput f certs → Made o.backend o.caps o.sign f) (certs : List CertificateEnvelope)
    (hc : ChainInput (f.take n) certs) : Made o.backend o.caps o.sign (f.take n) := by
  have hw : (⟨.certificate_chain, SSP21.Spec.chain certs⟩ : ContainerFile).container_entry_type ≠ .undefined ∧
      (SSP21.Spec.chain certs).length < 2 ^ 32 := ⟨by simp, by have := hc.small.2.1; omega⟩
  cases h with
  | key t k h1 h2 h3 =>
    have e := container_prefix ⟨t, k⟩ _ n ⟨h1, h3⟩ hw hc.content
    have := container_inj ⟨t, k⟩ _ ⟨h1, h3⟩ hw (e ▸ hc.content)
    exact absurd (congrArg ContainerFile.container_entry_type this) h2
  | @cert _ pub priv times level h =>
    have h' := h
    obtain ⟨-, t, k, p, -, hk, -, -, -, -, rfl⟩ := (C45_create o.caps o.sign hs ..).mp h'
    have hl := chainLength (Spec.signed o.sign (Spec.body times level t k) p) (hs _ _) (bodyLength times level t k hk)
    have e := container_prefix ⟨.certificate_chain, SSP21.Spec.chain [Spec.signed o.sign (Spec.body times level t k) p]⟩ _ n
      ⟨by simp, by simp only [hl]; omega⟩ hw hc.content
    rw [show Spec.chainFile [Spec.signed o.sign (Spec.body times level t k) p] =
      SSP21.Spec.container ⟨.certificate_chain, SSP21.Spec.chain [Spec.signed o.sign (Spec.body times level t k) p]⟩ from rfl, e]
    exact .create h
  | append h1 h2 h =>
    have h' := h
    obtain ⟨-, init, last, env, parent, leaf, c1, c2, -, -, -, -, -, c3, rfl⟩ := (C45_append ..).mp h'
    have hl := chain_length init last env c3
    have l1 := c1.small.2.1
    have l2 := c2.small.2.1
    have e := container_prefix ⟨.certificate_chain, SSP21.Spec.chain (init ++ [last, env])⟩ _ n
      ⟨by simp, by simp only; omega⟩ hw hc.content
    rw [show Spec.chainFile (init ++ [last, env]) =
      SSP21.Spec.container ⟨.certificate_chain, SSP21.Spec.chain (init ++ [last, env])⟩ from rfl, e]
    exact .append (hm _ _ _ h1 c1) (hm _ _ _ h2 c2) h

end ProgramProof

/-- C61: after any number of runs, on a machine that held no certificate files, no certificate file holds more than two certificates, and
each was made by the tool (as in C45): a chain of three or more, which stations accept, cannot be made. -/
theorem C61_at_most_two (b : Backend) (caps : Caps) (sign : Bytes → Bytes → Bytes) (hs : ∀ m k, (sign m k).length = 64) (fs fs' : FS)
    (h0 : ∀ p f certs, fs.file p = some f → ¬ ChainInput f certs) (h : Runs b caps sign fs fs') (p : String) (f : Bytes)
    (certs : List CertificateEnvelope) (hp : fs'.file p = some f) (hc : ChainInput f certs) :
    Made b caps sign f ∧ certs.length ≤ 2 := by
  have key : ∀ p f certs, fs'.file p = some f → ChainInput f certs → Made b caps sign f := by
    clear hp hc certs f p
    induction h with
    | start => intro p f certs h1 h2; exact absurd h2 (h0 p f certs h1)
    | run o a i h hb hcp hsg ho ih =>
      subst hb hcp hsg
      intro p f certs h1 h2
      rcases run_data o ho _ a i p with e | ⟨g, n, hd, e⟩
      · exact ih p f certs (e ▸ h1) h2
      · rw [e] at h1
        cases h1
        exact data_chain o hs _ g n hd ih certs h2
    | disk _ _ h ih => exact ih
    | delete q h ih =>
      intro p f certs h1 h2
      simp only at h1
      split at h1
      · cases h1
      · exact ih p f certs h1 h2
  have m := key p f certs hp hc
  exact ⟨m, C45_at_most_two b caps sign hs f m certs hc⟩

/-! ### What is false -/

/-- C61 is false: after a failure the exit status is 0, as after a success. -/
theorem C61_status_violation (o : Outside) (ho : Sane o) (fs : FS) (a : Args) (i : Input) (p : String) (hr : Asks a (.shared p)) :
    (Program.run o fs a i).2.status = some 0 := by
  rcases run_cases o fs a i with ⟨h, -⟩ | ⟨q, h, e⟩ | ⟨q, q', h, e⟩ | ⟨q, q', h, e⟩ | ⟨out, pub, priv, h, e⟩ | ⟨q, q', out, h, e⟩
  · exact absurd hr (h _)
  · rw [e, (C45_key_files o.caps o.random o.random ho.random ho.random).1]
    rcases writeOne_cases fs (SSP21.Spec.container ⟨.shared_secret, o.random⟩) q with ⟨h1, -⟩ | ⟨h1, -⟩ | ⟨n, h1, -⟩ <;> rw [h1] <;> rfl
  all_goals exact absurd (asks_unique a _ _ hr h) (by simp)

/-- C61 is false: given one name for both files of a pair, the private key is lost although the run ends well. -/
theorem C61_same_path_violation (o : Outside) (ho : Sane o) (hc : o.caps.ed25519 = true) (fs : FS) (a : Args) (w : List Word) (p : String)
    (hr : Asks a (.pair true p p)) (hw : Writable fs p) : ∃ fs', Program.run o fs a ⟨w, false⟩ = (fs', .done) ∧
      fs'.file p = some (SSP21.Spec.container ⟨.x25519_public_key, o.x25519.2⟩) ∧ ∀ q, q ≠ p → fs'.file q = fs.file q := by
  have h := (C61_exact o ho fs _ a w _ hr).mpr ⟨_, .x25519 p p hc, by
    intro q hq
    simp only [Request.outputs, List.mem_cons, List.not_mem_nil, or_false, or_self] at hq
    subst hq
    exact ⟨hw.1, by rw [hw.2]; simp⟩, by simp, rfl⟩
  refine ⟨_, h, ?_, fun q hq => ?_⟩
  · simp [Request.outputs, Spec.put, put_self, hw.2, stored]
  · simp [Request.outputs, Spec.put, put_other _ _ _ _ hq]

/-- C61 is false: if the public key cannot be written, the run fails, but the file for the private key has been replaced. -/
theorem C61_half_pair_violation (o : Outside) (ho : Sane o) (hc : o.caps.ed25519 = true) (fs : FS) (a : Args) (i : Input) (p q : String)
    (hr : Asks a (.pair false p q)) (hw : Writable fs p) (hq : fs.canOpen q = false) :
    (Program.run o fs a i).2 = .failed ∧
      (Program.run o fs a i).1.file p = some (SSP21.Spec.container ⟨.ed25519_private_key, o.ed25519.1⟩) := by
  rcases run_cases o fs a i with ⟨h, -⟩ | ⟨r, h, e⟩ | ⟨r, r', h, e⟩ | ⟨r, r', h, e⟩ | ⟨out, pub, priv, h, e⟩ | ⟨r, r', out, h, e⟩
  · exact absurd hr (h _)
  · exact absurd (asks_unique a _ _ hr h) (by simp)
  · exact absurd (asks_unique a _ _ hr h) (by simp)
  · have := asks_unique a _ _ hr h
    simp only [Request.pair.injEq, true_and] at this
    obtain ⟨rfl, rfl⟩ := this
    rw [e, ((C45_key_files o.caps o.ed25519.1 o.ed25519.2 ho.ed25519.1 ho.ed25519.2).2.2 _).mpr ⟨hc, rfl⟩]
    simp only [writePair]
    rcases writeOne_cases fs (SSP21.Spec.container ⟨.ed25519_private_key, o.ed25519.1⟩) p with ⟨h1, -⟩ | ⟨-, h1⟩ | ⟨n, -, -, h1⟩
    · rw [h1, if_pos rfl]
      rcases writeOne_cases (fs.put p (stored (fs.disk p) (SSP21.Spec.container ⟨.ed25519_private_key, o.ed25519.1⟩)))
        (SSP21.Spec.container ⟨.ed25519_public_key, o.ed25519.2⟩) q with ⟨-, h2⟩ | ⟨h2, -⟩ | ⟨n, -, h2, -⟩
      · rw [Unreported, put_canOpen, hq] at h2; exact absurd h2.1 (by simp)
      · rw [h2]
        exact ⟨rfl, by rw [put_self, hw.2]; rfl⟩
      · rw [put_canOpen, hq] at h2; cases h2
    · rw [hw.1] at h1; cases h1
    · rw [hw.2] at h1; cases h1
  · exact absurd (asks_unique a _ _ hr h) (by simp)
  · exact absurd (asks_unique a _ _ hr h) (by simp)

/-- C61 is false: if the disk is full and this shows only when the file is closed, the run ends well although the file is not what it
should be. -/
theorem C61_full_disk_violation (o : Outside) (ho : Sane o) (fs : FS) (a : Args) (w : List Word) (p : String) (n : Nat)
    (hr : Asks a (.shared p)) (hw : fs.canOpen p = true) (hd : fs.disk p = .full n false) (hn : n ≤ o.random.length) :
    ∃ fs', Program.run o fs a ⟨w, false⟩ = (fs', .done) ∧
      ∃ f, fs'.file p = some f ∧ f.length = n ∧ f ≠ SSP21.Spec.container ⟨.shared_secret, o.random⟩ := by
  have h := (C61_exact o ho fs _ a w _ hr).mpr ⟨_, .shared p, by
    intro q hq
    simp only [Request.outputs, List.mem_cons, List.not_mem_nil, or_false] at hq
    subst hq
    exact ⟨hw, by rw [hd]; simp⟩, by simp, rfl⟩
  have hl : o.random.length < (SSP21.Spec.container ⟨.shared_secret, o.random⟩).length := by
    simp [SSP21.Spec.container, SSP21.Spec.field]
    omega
  have hk : ((SSP21.Spec.container ⟨.shared_secret, o.random⟩).take n).length = n := by
    rw [List.length_take]; omega
  refine ⟨_, h, (SSP21.Spec.container ⟨.shared_secret, o.random⟩).take n, ?_, hk, fun e => ?_⟩
  · simp [Request.outputs, Spec.put, put_self, hd, stored]
  · rw [e] at hk; omega

/-- C61 is false: without an option for the level, something that is not a number of days, or the end of the input, makes the run
wait for ever. -/
theorem C61_hang_violation (o : Outside) (ho : Sane o) (fs : FS) (a : Args) (w : List Word) (out pub priv : String)
    (hr : Asks a (.cert out pub priv)) (hd : a.days = none) (hl : a.level = none) (hw : w.head? = none ∨ w.head? = some .other) :
    Program.run o fs a ⟨w, false⟩ = (fs, .hang) ∧ ∀ turns, askLevel turns (askDays ⟨w, false⟩).1 256 = none := by
  have e : ∃ w', askDays ⟨w, false⟩ = (⟨w', true⟩, 0) := by
    cases w with
    | nil => exact ⟨_, rfl⟩
    | cons x rest =>
      cases x with
      | other => exact ⟨_, rfl⟩
      | number n => simp at hw
  obtain ⟨w', e⟩ := e
  refine ⟨?_, fun turns => by rw [e]; exact askLevel_stuck _ _ _ (by omega)⟩
  rcases run_cases o fs a ⟨w, false⟩ with ⟨h, -⟩ | ⟨q, h, k⟩ | ⟨q, q', h, k⟩ | ⟨q, q', h, k⟩ | ⟨out, pub, priv, h, k⟩ | ⟨q, q', out, h, k⟩
  · exact absurd hr (h _)
  · exact absurd (asks_unique a _ _ hr h) (by simp)
  · exact absurd (asks_unique a _ _ hr h) (by simp)
  · exact absurd (asks_unique a _ _ hr h) (by simp)
  · obtain ⟨t, ht, -⟩ := C43_days_partial o.now 0 (by decide) ho.now
    have h1 : daysOf a ⟨w, false⟩ = some (⟨w', true⟩, 0) := by rw [daysOf, hd]; simp only; rw [e]
    have h2 : levelOf a ⟨w', true⟩ = some none := by rw [levelOf, hl]; simp only; rw [askLevel_stuck']
    rw [k, runCert, h1, certInDays, ht, certInTimes, h2, certAtLevel]
  · exact absurd (asks_unique a _ _ hr h) (by simp)

/-- C61 is false: something that is not a number, typed as the level, makes the level 0; a number of days that is not typed makes a
certificate that is valid for no time; and the limit of the question (6) does not hold for the command line. -/
theorem C61_typed_violation (a : Args) (d : UInt16) (l : UInt8) (rest : List Word) :
    (a.days = none → a.level = none → Chosen a (.number d.toNat :: .other :: rest) d 0) ∧
    (a.days = none → a.level = some (some l) → Chosen a [] 0 l) ∧
    (a.days = some (some d) → a.level = some (some l) → Chosen a [] d l) :=
  ⟨fun h1 h2 => .both _ _ _ _ h1 h2 (.number d _) (.other rest), fun h1 h2 => .zero _ _ h1 h2 (.inl rfl), fun h1 h2 => .line _ _ _ h1 h2⟩

/-! ### Examples (toy signatures) -/

namespace ProgramExample
open ChainExample Example

/-- An empty disk. -/
def disk : FS := ⟨fun _ => none, fun _ => true, fun _ => .good⟩
/-- Three key pairs are there. -/
def keys : FS := ((((disk.put "ca.pub" (pubFile anchor)).put "ca.prv" (privFile anchor)).put "mid.pub" (pubFile mid)).put "mid.prv" (privFile mid)).put
  "me.pub" (pubFile leaf)
def outside : Outside := ⟨ChainExample.caps, Toy.backend, toySign, List.replicate 32 7, (List.replicate 32 1, List.replicate 32 2),
  (List.replicate 64 3, List.replicate 32 4), 1000⟩

theorem sane : Sane outside := ⟨by decide, by decide, by decide, fun m k => by simp [outside, toySign, ChainExample.sign, Toy.pad], by decide⟩

/-- A shared secret. -/
example : Asks { shared := true, pos := ["k"] } (.shared "k") ∧
    Program.run outside disk { shared := true, pos := ["k"] } ⟨[], false⟩ =
      (disk.put "k" (SSP21.Spec.container ⟨.shared_secret, List.replicate 32 7⟩), .done) := by
  refine ⟨.shared "k" rfl rfl rfl rfl, ?_⟩
  exact (C61_exact outside sane disk _ _ [] _ (.shared "k" rfl rfl rfl rfl)).mpr
    ⟨_, .shared "k", fun p _ => ⟨rfl, fun n => by simp [disk]⟩, by simp, rfl⟩

/-- One name too many: nothing happens, and the exit status is 0. -/
example : (∀ r, ¬ Asks { shared := true, pos := ["k", "l"] } r) ∧
    Program.run outside disk { shared := true, pos := ["k", "l"] } ⟨[], false⟩ = (disk, .failed) ∧ Ending.failed.status = some 0 :=
  ⟨fun r h => by cases h <;> simp_all, rfl, rfl⟩

/-- A pair, in two files; the conditions of C61_done_partial are met. -/
example : ∃ fs', Program.run outside disk { x25519 := true, pos := ["prv", "pub"] } ⟨[], false⟩ = (fs', .done) ∧
    fs'.file "prv" = some (SSP21.Spec.container ⟨.x25519_private_key, List.replicate 32 1⟩) ∧
    fs'.file "pub" = some (SSP21.Spec.container ⟨.x25519_public_key, List.replicate 32 2⟩) := by
  have h := (C61_exact outside sane disk _ { x25519 := true, pos := ["prv", "pub"] } [] _ (.x25519 "prv" "pub" rfl rfl rfl rfl rfl)).mpr
    ⟨_, .x25519 "prv" "pub" rfl, fun p _ => ⟨rfl, fun n => by simp [disk]⟩, by simp, rfl⟩
  exact ⟨_, h, rfl, rfl⟩

/-- The same name twice, as in C61_same_path_violation. -/
example : ∃ fs', Program.run outside disk { x25519 := true, pos := ["key", "key"] } ⟨[], false⟩ = (fs', .done) ∧
    fs'.file "key" = some (SSP21.Spec.container ⟨.x25519_public_key, List.replicate 32 2⟩) ∧ ∀ q, q ≠ "key" → fs'.file q = disk.file q :=
  C61_same_path_violation outside sane rfl disk _ [] "key" (.x25519 "key" "key" rfl rfl rfl rfl rfl) ⟨rfl, rfl⟩

/-- A certificate, days and level typed; the first level is too large and asked for again. -/
example : ∃ fs' f, Program.run outside keys { cert := true, pos := ["mid.crt", "mid.pub", "ca.prv"] } ⟨[.number 24, .number 9, .number 1], false⟩ =
    (fs', .done) ∧ fs'.file "mid.crt" = some f ∧ Spec.ChainInput f [Spec.signed toySign
      (Spec.body ⟨1000, 1000 + 24 * 86400000⟩ 1 .Ed25519 mid.public_key) (priv anchor.public_key)] := by
  have h := (C61_exact outside sane keys _ { cert := true, pos := ["mid.crt", "mid.pub", "ca.prv"] } [.number 24, .number 9, .number 1] _
    (.cert "mid.crt" "mid.pub" "ca.prv" rfl rfl rfl rfl rfl rfl rfl)).mpr
    ⟨_, .cert "mid.crt" "mid.pub" "ca.prv" 24 ⟨1000, 1000 + 24 * 86400000⟩ 1 .Ed25519 mid.public_key (priv anchor.public_key) rfl
      (.both _ _ _ _ rfl rfl (.number 24 _) (.again 9 _ _ (by decide) (by decide) (.number 1 _ (by decide)))) (by decide) rfl (by decide)
      (by simp) (by decide) (by decide) (by decide +kernel) rfl rfl, fun p _ => ⟨rfl, fun n => by simp [keys, disk]⟩, by
        intro out _ _ _; rfl, rfl⟩
  exact ⟨_, _, h, rfl, ⟨rfl, by decide +kernel, by decide⟩⟩

/-- The end of the input instead of an answer, as in C61_hang_violation. -/
example : Program.run outside keys { cert := true, pos := ["mid.crt", "mid.pub", "ca.prv"] } ⟨[], false⟩ = (keys, .hang) :=
  (C61_hang_violation outside sane keys _ [] "mid.crt" "mid.pub" "ca.prv" (.cert _ _ _ rfl rfl rfl rfl rfl rfl rfl) rfl rfl (.inl rfl)).1

/-- The second file of a pair cannot be written, as in C61_half_pair_violation; the disk is full, as in C61_full_disk_violation. -/
example : (Program.run outside { disk with canOpen := fun p => p = "prv" } { ed25519 := true, pos := ["prv", "pub"] } ⟨[], false⟩).2 = .failed :=
  (C61_half_pair_violation outside sane rfl { disk with canOpen := fun p => p = "prv" } _ _ "prv" "pub"
    (.ed25519 _ _ rfl rfl rfl rfl rfl rfl) ⟨rfl, rfl⟩ rfl).1
example : ∃ fs', Program.run outside { disk with disk := fun _ => .full 0 false } { shared := true, pos := ["k"] } ⟨[], false⟩ = (fs', .done) ∧
    ∃ f, fs'.file "k" = some f ∧ f.length = 0 ∧ f ≠ SSP21.Spec.container ⟨.shared_secret, outside.random⟩ :=
  C61_full_disk_violation outside sane _ _ [] "k" 0 (.shared "k" rfl rfl rfl rfl) rfl rfl (by decide)

/-- Two certificates are made and put together, by three runs from a disk with keys alone: a chain of two is there, as many as there can be
(C61_at_most_two). -/
def certArgs (out pub prv : String) (level : UInt8) : Args := { cert := true, days := some (some 24), level := some (some level), pos := [out, pub, prv] }
def one : FS := (Program.run outside keys (certArgs "mid.crt" "mid.pub" "ca.prv" 1) ⟨[], false⟩).1
def two : FS := (Program.run outside one (certArgs "me.crt" "me.pub" "mid.prv" 0) ⟨[], false⟩).1
def three : FS := (Program.run outside two { append := true, pos := ["mid.crt", "me.crt", "all.crt"] } ⟨[], false⟩).1
example : Runs Toy.backend ChainExample.caps toySign keys three ∧
    ((three.file "all.crt").map fun f => (secureRead f >>= parseOrThrow ContainerFile.codec >>= expectCertificateChain).ending) = some .done :=
  ⟨.run outside _ _ (.run outside _ _ (.run outside _ _ .start rfl rfl rfl sane) rfl rfl rfl sane) rfl rfl rfl sane, by decide +kernel⟩

/-- Keys are not certificate files: the condition of C61_at_most_two. -/
theorem no_chains (p : String) (f : Bytes) (certs : List CertificateEnvelope) (h : keys.file p = some f) : ¬ Spec.ChainInput f certs := by
  intro hc
  have hw : (⟨.certificate_chain, SSP21.Spec.chain certs⟩ : ContainerFile).container_entry_type ≠ .undefined ∧
      (SSP21.Spec.chain certs).length < 2 ^ 32 := ⟨by simp, by have := hc.small.2.1; omega⟩
  have bad : ∀ t k, t ≠ .undefined → t ≠ .certificate_chain → k.length < 2 ^ 32 → f ≠ SSP21.Spec.container ⟨t, k⟩ := by
    rintro t k h1 h2 h3 rfl
    exact h2 (congrArg ContainerFile.container_entry_type (container_inj ⟨t, k⟩ _ ⟨h1, h3⟩ hw hc.content))
  simp only [keys, FS.put, disk] at h
  repeat' split at h
  all_goals first
    | exact bad _ _ (by simp [Spec.keyEntry, leaf, mid, anchor]) (by simp [Spec.keyEntry, leaf, mid, anchor]) (by decide) (Option.some.inj h).symm
    | cases h
example (f : Bytes) (certs : List CertificateEnvelope) (h : three.file "all.crt" = some f) (hc : Spec.ChainInput f certs) : certs.length ≤ 2 :=
  (C61_at_most_two Toy.backend ChainExample.caps toySign sane.sign keys three no_chains
    (.run outside _ _ (.run outside _ _ (.run outside _ _ .start rfl rfl rfl sane) rfl rfl rfl sane) rfl rfl rfl sane) "all.crt" f certs h hc).2

end ProgramExample

end SSP21.Tool
