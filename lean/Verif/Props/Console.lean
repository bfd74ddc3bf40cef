import Verif.Console
import Verif.Props.Program
/-
  C67: what `icftool` prints.
-/
namespace SSP21.Tool

/-! ### What is shown -/

theorem digitChar_inj : ∀ a < 16, ∀ b < 16, Nat.digitChar a = Nat.digitChar b → a = b := by decide

theorem hexByte_inj {a b : UInt8} (h : hexByte a = hexByte b) : a = b := by
  have ha := a.toNat_lt
  have hb := b.toNat_lt
  simp only [hexByte, List.cons.injEq, and_true] at h
  have h1 := digitChar_inj _ (by omega) _ (by omega) h.1
  have h2 := digitChar_inj _ (by omega) _ (by omega) h.2
  exact UInt8.toNat_inj.mp (by omega)

theorem hexByte_cons {a b : UInt8} {r s : Text} (h : hexByte a ++ r = hexByte b ++ s) : a = b ∧ r = s := by
  obtain ⟨h1, h2⟩ := List.append_inj h rfl
  exact ⟨hexByte_inj h1, h2⟩

theorem hexLine_inj {a b : Bytes} (h : hexLine a = hexLine b) : a = b := by
  induction a using hexLine.induct generalizing b with
  | case1 =>
    cases b with
    | nil => rfl
    | cons x b => cases b <;> simp [hexLine, hexByte] at h
  | case2 x =>
    cases b with
    | nil => simp [hexLine, hexByte] at h
    | cons y b =>
      cases b with
      | nil => rw [hexByte_inj h]
      | cons z b =>
        have := congrArg List.length h
        simp [hexLine, hexByte] at this
  | case3 x y a ih =>
    cases b with
    | nil => simp [hexLine, hexByte] at h
    | cons z b =>
      cases b with
      | nil =>
        have := congrArg List.length h
        simp [hexLine, hexByte] at this
      | cons u b =>
        obtain ⟨h1, h2⟩ := hexByte_cons h
        have := ih (List.cons.inj h2).2
        rw [h1, this]

theorem hexLines_inj (n : Nat) (indent : Nat) (d d' : Bytes) (r r' : List Text) (hn : d.length ≤ n) (hl : d.length = d'.length)
    (h : hexLines indent d ++ r = hexLines indent d' ++ r') : d = d' ∧ r = r' := by
  induction n generalizing d d' with
  | zero =>
    have h1 : d = [] := List.length_eq_zero_iff.mp (by omega)
    have h2 : d' = [] := List.length_eq_zero_iff.mp (by omega)
    subst h1 h2
    rw [hexLines, dif_pos rfl] at h
    exact ⟨rfl, by simpa using h⟩
  | succ n ih =>
    by_cases h1 : d = []
    · subst h1
      have h2 : d' = [] := List.length_eq_zero_iff.mp hl.symm
      subst h2
      rw [hexLines, dif_pos rfl] at h
      exact ⟨rfl, by simpa using h⟩
    · have hpos := List.length_pos_iff.mpr h1
      have h2 : d' ≠ [] := List.length_pos_iff.mp (by omega)
      rw [hexLines, dif_neg h1, hexLines.eq_def indent d', dif_neg h2] at h
      obtain ⟨ha, hb⟩ := List.cons.inj h
      have ht := hexLine_inj ((List.append_inj ha rfl).2)
      obtain ⟨hd, hr⟩ := ih (d.drop 16) (d'.drop 16) (by simp; omega) (by simp; omega) hb
      refine ⟨?_, hr⟩
      rw [← List.take_append_drop 16 d, ← List.take_append_drop 16 d', ht, hd]

theorem decimal_inj {m n : Nat} (h : decimal m = decimal n) : m = n := by
  have := congrArg (fun l => Nat.ofDigitChars 10 l 0) h
  simpa [decimal, Nat.ofDigitChars_ten_toDigits] using this

theorem printBytes_inj {indent : Nat} {name : Text} {d d' : Bytes} {r r' : List Text}
    (h : printBytes indent name d ++ r = printBytes indent name d' ++ r') : d = d' ∧ r = r' := by
  unfold printBytes at h
  obtain ⟨h1, h2⟩ := List.cons.inj h
  have h3 := (List.append_inj h1 rfl).2
  have h4 := List.append_inj_left' h3 rfl
  have h5 := decimal_inj (List.append_cancel_left h4)
  exact hexLines_inj _ _ _ _ _ _ (Nat.le_refl _) h5 h2

theorem chainLines_inj (i : Nat) (es es' : List CertificateEnvelope) (h : (chainLines i es).2 = true) (h' : (chainLines i es').2 = true)
    (hl : (chainLines i es).1 = (chainLines i es').1) : es = es' := by
  induction es generalizing i es' with
  | nil =>
    cases es' with
    | nil => rfl
    | cons e es' =>
      simp only [chainLines] at hl h'
      split at hl
      · simp [envelopeLines] at hl
      · simp [envelopeLines] at hl
  | cons e es ih =>
    cases es' with
    | nil =>
      simp only [chainLines] at hl
      split at hl
      · simp [envelopeLines] at hl
      · simp [envelopeLines] at hl
    | cons e' es' =>
      simp only [chainLines] at hl h h'
      cases hb : Codec.readAll CertificateBody.codec e.certificate_body with
      | error x => rw [hb] at h; cases h
      | ok body =>
        cases hb' : Codec.readAll CertificateBody.codec e'.certificate_body with
        | error x => rw [hb'] at h'; cases h'
        | ok body' =>
          rw [hb] at h hl
          rw [hb'] at h' hl
          simp only [envelopeLines, List.append_assoc, List.cons_append] at h h' hl
          obtain ⟨-, hl⟩ := List.cons.inj hl
          obtain ⟨-, hl⟩ := List.cons.inj hl
          obtain ⟨h1, hl⟩ := printBytes_inj hl
          obtain ⟨h2, hl3⟩ := printBytes_inj hl
          have he : e = e' := by
            cases e; cases e'
            simp only at h1 h2
            rw [h1, h2]
          subst he
          rw [hb] at hb'
          cases hb'
          rw [ih (i + 1) es' h h' (List.append_cancel_left hl3)]

theorem entryTypeName_inj {a b : ContainerEntryType} (h : entryTypeName a = entryTypeName b) : a = b := by
  cases a <;> cases b <;> first | rfl | (exfalso; revert h; decide +kernel)

theorem contentLines_inj {p : String} {f f' : ContainerFile} (h : (contentLines p f).2 = true) (h' : (contentLines p f').2 = true)
    (hl : (contentLines p f).1 = (contentLines p f').1) : f = f' := by
  unfold contentLines at h h' hl
  have name : f.container_entry_type = f'.container_entry_type := by
    have : ∀ (g : ContainerFile), (contentLines p g).1[1]? = some ("Type: ".toList ++ entryTypeName g.container_entry_type) := by
      intro g
      unfold contentLines
      simp only []
      split
      · split
        · rfl
        · split <;> rfl
      · rfl
    have e := (this f).symm.trans ((congrArg (·[1]?) hl).trans (this f'))
    exact entryTypeName_inj (List.append_cancel_left (Option.some.inj e))
  obtain ⟨t, d⟩ := f
  obtain ⟨t', d'⟩ := f'
  simp only at name h h' hl
  subst name
  by_cases ht : t = .certificate_chain
  · simp only [ht, if_true] at h h' hl
    cases hc : Codec.readAll CertificateChain.codec d with
    | error x => rw [hc] at h; cases h
    | ok chain =>
      cases hc' : Codec.readAll CertificateChain.codec d' with
      | error x => rw [hc'] at h'; cases h'
      | ok chain' =>
        rw [hc] at h hl
        rw [hc'] at h' hl
        simp only at h h' hl
        by_cases h1 : (chainLines 1 chain).2 = true
        · by_cases h2 : (chainLines 1 chain').2 = true
          · simp only [h1, h2, if_true] at hl
            have := chainLines_inj 1 chain chain' h1 h2 (List.append_cancel_left (List.append_cancel_right hl))
            have e1 := ((C05_chain.2.2.2 _ _).mp hc).2
            have e2 := ((C05_chain.2.2.2 _ _).mp hc').2
            rw [e1, e2, this]
          · simp [h2] at h'
        · simp [h1] at h
  · simp only [ht, if_false] at hl
    have e := (printBytes_inj (List.append_cancel_left ((List.append_assoc ..).symm.trans (hl.trans (List.append_assoc ..))))).1
    rw [e]

/-! ### Printing a file -/

theorem shown_of {fs : FS} {p : String} {f : ContainerFile} (hf : fs.file p = some (SSP21.Spec.container f))
    (h1 : (SSP21.Spec.container f).length ≤ 4096) (ht : f.container_entry_type ≠ .undefined) (hl : f.payload.length < 2 ^ 32) :
    shown fs p = ((contentLines p f).1, if (contentLines p f).2 then .ok () else .throw) := by
  have hp : parseOrThrow ContainerFile.codec (SSP21.Spec.container f) = .ok f :=
    (parseOrThrow_ok ..).mpr ((C05_container.2.2.2 _ _).mpr ⟨⟨ht, hl⟩, rfl⟩)
  have hr : (fs.open p).bind secureRead = .ok (SSP21.Spec.container f) := by
    simp only [FS.open, hf, Outcome.bind]
    exact (secureRead_ok _ _).mpr ⟨rfl, by simp [SSP21.Spec.container], h1⟩
  unfold shown
  rw [hr]
  simp only [hp]

theorem shown_ok {fs : FS} {p : String} (h : (shown fs p).2 = .ok ()) :
    ∃ f, fs.file p = some (SSP21.Spec.container f) ∧ (SSP21.Spec.container f).length ≤ 4096 ∧ Codec.readAll ContainerFile.codec (SSP21.Spec.container f) = .ok f ∧
      (contentLines p f).2 = true ∧ (shown fs p).1 = (contentLines p f).1 := by
  unfold shown at h ⊢
  cases hr : (fs.open p).bind secureRead with
  | ok data =>
    rw [hr] at h
    simp only at h ⊢
    cases hp : parseOrThrow ContainerFile.codec data with
    | ok f =>
      rw [hp] at h
      simp only at h ⊢
      obtain ⟨⟨ht, hl⟩, hb⟩ := (C05_container.2.2.2 _ _).mp ((parseOrThrow_ok ..).mp hp)
      cases ho : fs.open p with
      | ok d =>
        rw [ho, Outcome.bind] at hr
        obtain ⟨rfl, h0, h1⟩ := (secureRead_ok _ _).mp hr
        rw [hb] at h1
        refine ⟨f, ?_, h1, (C05_container.2.2.2 _ _).mpr ⟨⟨ht, hl⟩, rfl⟩, ?_, rfl⟩
        · rw [← hb]; exact (ProgramProof.open_ok fs p data).mp ho
        · by_cases hc : (contentLines p f).2 = true
          · exact hc
          · simp [hc] at h
      | _ => rw [ho] at hr; cases hr
    | _ => rw [hp] at h; cases h
  | _ => rw [hr] at h; cases h

theorem chainLines_ends (i : Nat) (es : List CertificateEnvelope) :
    (chainLines i es).2 = es.all fun e => decide ((parseOrThrow CertificateBody.codec e.certificate_body).ending = .done) := by
  induction es generalizing i with
  | nil => rfl
  | cons e es ih =>
    simp only [chainLines, List.all_cons]
    cases hb : Codec.readAll CertificateBody.codec e.certificate_body with
    | error x =>
      have : parseOrThrow CertificateBody.codec e.certificate_body = .throw := by unfold parseOrThrow; rw [hb]
      rw [this]; rfl
    | ok body =>
      have : parseOrThrow CertificateBody.codec e.certificate_body = .ok body := (parseOrThrow_ok ..).mpr hb
      rw [this, ih]
      simp [Outcome.ending]

theorem shown_ends (fs : FS) (p : String) : (shown fs p).2 = printContents fs p := by
  unfold shown printContents
  cases (fs.open p).bind secureRead with
  | ok data =>
    simp only
    show _ = Outcome.bind (Outcome.ok data) _
    unfold Outcome.bind
    simp only
    cases parseOrThrow ContainerFile.codec data with
    | ok f =>
      show _ = Outcome.bind (Outcome.ok f) _
      unfold Outcome.bind
      simp only [contentLines]
      by_cases ht : f.container_entry_type = .certificate_chain
      · simp only [ht, if_true, printChain]
        cases hc : Codec.readAll CertificateChain.codec f.payload with
        | error x =>
          have : parseOrThrow CertificateChain.codec f.payload = .throw := by unfold parseOrThrow; rw [hc]
          rw [this]; rfl
        | ok chain =>
          have : parseOrThrow CertificateChain.codec f.payload = .ok chain := (parseOrThrow_ok ..).mpr hc
          rw [this]
          show _ = Outcome.bind (Outcome.ok chain) _
          unfold Outcome.bind
          simp only [chainLines_ends]
          split <;> rfl
      · simp only [ht, if_false]; rfl
    | _ => rfl
  | _ => rfl

theorem shownAll_ends (fs : FS) (ps : List String) : (shownAll fs ps).2 = showAll fs ps := by
  induction ps with
  | nil => rfl
  | cons p ps ih =>
    unfold shownAll showAll
    rw [← shown_ends]
    cases h : (shown fs p).2 with
    | ok u => simp only [h, Outcome.bind, ih]
    | _ => simp only [h, Outcome.bind]

/-- What `--show` prints about one certificate of a chain, the `i`th: its number, its envelope, its body. -/
def Spec.certificateLines (i : Nat) (e : CertificateEnvelope) (body : CertificateBody) : List Text :=
  ["".toList, "certificate #".toList ++ Nat.toDigits 10 i] ++ printBytes (2 * i) "signature".toList e.signature ++
    printBytes (2 * i) "certificate_body".toList e.certificate_body ++
    ([List.replicate (2 * i + 4) ' ' ++ "valid_after: ".toList ++ Nat.toDigits 10 body.valid_after.toNat,
      List.replicate (2 * i + 4) ' ' ++ "valid_before: ".toList ++ Nat.toDigits 10 body.valid_before.toNat,
      List.replicate (2 * i + 4) ' ' ++ "signing_level: ".toList ++ Nat.toDigits 10 body.signing_level.toNat,
      List.replicate (2 * i + 4) ' ' ++ "public_key_type: ".toList ++ keyTypeName body.public_key_type] ++
      printBytes (2 * i + 4) "public_key".toList body.public_key ++
      (List.replicate (2 * i + 4) ' ' ++ "extensions (count = ".toList ++ Nat.toDigits 10 body.extensions.length ++ ")".toList) ::
        (body.extensions.zipIdx 1).flatMap fun x =>
          [List.replicate (2 * i + 4) ' ' ++ "field #".toList ++ Nat.toDigits 10 x.2,
           List.replicate (2 * i + 4) ' ' ++ "identifier: ".toList ++ Nat.toDigits 10 x.1.identifier.toNat] ++
            printBytes (2 * i + 4) "extension_body".toList x.1.extension_body)

theorem extensionLines_eq (indent i : Nat) (es : List ExtensionEnvelope) : extensionLines indent i es =
    (es.zipIdx i).flatMap fun x =>
      [List.replicate indent ' ' ++ "field #".toList ++ Nat.toDigits 10 x.2,
       List.replicate indent ' ' ++ "identifier: ".toList ++ Nat.toDigits 10 x.1.identifier.toNat] ++
        printBytes indent "extension_body".toList x.1.extension_body := by
  induction es generalizing i with
  | nil => rfl
  | cons e es ih =>
    simp only [extensionLines, List.zipIdx_cons, List.flatMap_cons, ih]
    simp [indented, printField, decimal]

theorem chainLines_eq (i : Nat) (es : List CertificateEnvelope) (h : (chainLines i es).2 = true) :
    ∃ bodies : List CertificateBody, es.map (·.certificate_body) = bodies.map SSP21.Spec.certificateBody ∧
      (chainLines i es).1 = ((es.zip bodies).zipIdx i).flatMap fun x => Spec.certificateLines x.2 x.1.1 x.1.2 := by
  induction es generalizing i with
  | nil => exact ⟨[], rfl, rfl⟩
  | cons e es ih =>
    simp only [chainLines] at h ⊢
    cases hb : Codec.readAll CertificateBody.codec e.certificate_body with
    | error x => rw [hb] at h; cases h
    | ok body =>
      rw [hb] at h
      simp only at h ⊢
      obtain ⟨bodies, h1, h2⟩ := ih (i + 1) h
      refine ⟨body :: bodies, ?_, ?_⟩
      · simp only [List.map_cons, h1, ((C05_certificate_body.2.2.2 _ _).mp hb).2]
      · simp only [List.zip_cons_cons, List.zipIdx_cons, List.flatMap_cons, ← h2]
        congr 1
        simp [envelopeLines, bodyLines, Spec.certificateLines, printField, indented, decimal, extensionLines_eq]

/-! ### C67 -/

/-- The command line `--show <file>...`. -/
def Spec.showing (paths : List String) : Args := { show_ := true, pos := paths }

/-- `--show` of several files prints what it prints of each, in the order of the command line, up to the first that it cannot show; it ends without
an exception if and only if it can show all of them. -/
theorem C67_show_several (o : Outside) (fs : FS) (i : Input) (before : List String) (p : String) (after : List String)
    (h : ∀ q ∈ before, (Program.run o fs (Spec.showing [q]) i).2 = .done) :
    ((Program.run o fs (Spec.showing [p]) i).2 = .done → Program.output o fs (Spec.showing (before ++ p :: after)) i =
      before.flatMap (fun q => Program.output o fs (Spec.showing [q]) i) ++ Program.output o fs (Spec.showing [p]) i ++ Program.output o fs (Spec.showing after) i) ∧
    ((Program.run o fs (Spec.showing [p]) i).2 ≠ .done → Program.output o fs (Spec.showing (before ++ p :: after)) i =
      before.flatMap (fun q => Program.output o fs (Spec.showing [q]) i) ++ Program.output o fs (Spec.showing [p]) i) := by
  have one : ∀ q, Program.output o fs (Spec.showing [q]) i = (shown fs q).1 := by
    intro q
    show (shownAll fs [q]).1 = _
    simp only [shownAll]
    cases h : (shown fs q).2 <;> simp
  have run : ∀ q, (Program.run o fs (Spec.showing [q]) i).2 = .done ↔ (shown fs q).2 = .ok () := by
    intro q
    show (showAll fs [q]).ending = .done ↔ _
    rw [← shownAll_ends]
    simp only [shownAll]
    cases h : (shown fs q).2 <;> simp [Outcome.ending]
  have all : ∀ ps, Program.output o fs (Spec.showing ps) i = (shownAll fs ps).1 := fun ps => rfl
  have pre : ∀ ps : List String, (∀ q ∈ ps, (shown fs q).2 = .ok ()) → ∀ rest, (shownAll fs (ps ++ rest)).1 = ps.flatMap (fun q => (shown fs q).1) ++ (shownAll fs rest).1 := by
    intro ps
    induction ps with
    | nil => intro _ rest; simp
    | cons q ps ih =>
      intro hp rest
      obtain ⟨hq, hp⟩ := List.forall_mem_cons.mp hp
      simp only [List.cons_append, shownAll, hq, ih hp rest, List.flatMap_cons, List.append_assoc]
  have hb : ∀ q ∈ before, (shown fs q).2 = .ok () := fun q hq => (run q).mp (h q hq)
  simp only [one, all, run, ne_eq]
  refine ⟨fun hp => ?_, fun hp => ?_⟩
  · rw [pre before hb]
    simp only [shownAll, hp, List.append_assoc]
  · rw [pre before hb]
    congr 1
    simp only [shownAll]
    cases hs : (shown fs p).2 with
    | ok u => exact absurd hs hp
    | _ => rfl

/-- What it says about a key is the whole of it: its length, then its bytes in hexadecimal, 16 in a line. -/
theorem C67_show_key (o : Outside) (fs : FS) (i : Input) (p : String) (type : ContainerEntryType) (key : Bytes)
    (hf : fs.file p = some (SSP21.Spec.container ⟨type, key⟩)) (ht : type ≠ .undefined ∧ type ≠ .certificate_chain)
    (hl : (SSP21.Spec.container ⟨type, key⟩).length ≤ 4096) :
    Program.output o fs (Spec.showing [p]) i =
      ["File: ".toList ++ p.toList, "Type: ".toList ++ entryTypeName type,
        "  key-data (length == ".toList ++ Nat.toDigits 10 key.length ++ ")".toList] ++ hexLines 4 key ++ ["".toList] := by
  have hk : key.length < 2 ^ 32 := by
    simp only [SSP21.Spec.container, SSP21.Spec.field, List.length_append] at hl
    omega
  have h := shown_of (f := ⟨type, key⟩) hf hl ht.1 hk
  show (shownAll fs [p]).1 = _
  simp only [shownAll]
  rw [h]
  simp only [contentLines, ht.2, if_false, if_true, List.append_nil]
  rfl

/-- `--show` is complete: if it prints the same for two files (shown under the same name, without an exception), they have the same
contents. So nothing that distinguishes two keys or two chains of certificates is left out, or shown in an ambiguous way. -/
theorem C67_show_complete (o o' : Outside) (fs fs' : FS) (i i' : Input) (p : String) (h : (Program.run o fs (Spec.showing [p]) i).2 = .done)
    (h' : (Program.run o' fs' (Spec.showing [p]) i').2 = .done)
    (ho : Program.output o fs (Spec.showing [p]) i = Program.output o' fs' (Spec.showing [p]) i') : fs.file p = fs'.file p := by
  have key : ∀ (o : Outside) (fs : FS) (i : Input), (Program.run o fs (Spec.showing [p]) i).2 = .done →
      ∃ f, fs.file p = some (SSP21.Spec.container f) ∧ (contentLines p f).2 = true ∧ Program.output o fs (Spec.showing [p]) i = (contentLines p f).1 := by
    intro o fs i h
    have h1 : (showAll fs [p]).ending = .done := h
    rw [← shownAll_ends] at h1
    have h2 : (shown fs p).2 = .ok () := by
      simp only [shownAll] at h1
      cases hs : (shown fs p).2 with
      | ok u => rfl
      | _ => rw [hs] at h1; cases h1
    obtain ⟨f, a1, -, -, a2, a3⟩ := shown_ok h2
    refine ⟨f, a1, a2, ?_⟩
    show (shownAll fs [p]).1 = _
    simp only [shownAll, h2, a3, List.append_nil]
  obtain ⟨f, a1, a2, a3⟩ := key o fs i h
  obtain ⟨f', b1, b2, b3⟩ := key o' fs' i' h'
  rw [a3, b3] at ho
  rw [a1, b1, contentLines_inj a2 b2 ho]

/-- What it says about the certificates of a chain is what is in them: it prints them in their order, numbered from 1, each with its signature and the bytes
that are signed, and then what these bytes say: the times, the level, the type of the key, the key, the extensions. -/
theorem C67_show_certificates (o : Outside) (fs : FS) (i : Input) (p : String) (h : (Program.run o fs (Spec.showing [p]) i).2 = .done)
    (certs : List CertificateEnvelope) (hf : fs.file p = some (Spec.chainFile certs))
    (hsize : ∀ x ∈ certs, x.signature.length < 2 ^ 32 ∧ x.certificate_body.length < 2 ^ 32) (hlen : certs.length ≤ 6) :
    ∃ bodies : List CertificateBody, certs.map (·.certificate_body) = bodies.map SSP21.Spec.certificateBody ∧
      Program.output o fs (Spec.showing [p]) i = ["File: ".toList ++ p.toList, "Type: certificate_chain".toList] ++
        ((certs.zip bodies).zipIdx 1).flatMap (fun x => Spec.certificateLines x.2 x.1.1 x.1.2) ++ ["".toList] := by
  have h1 : (showAll fs [p]).ending = .done := h
  rw [← shownAll_ends] at h1
  have h2 : (shown fs p).2 = .ok () := by
    simp only [shownAll] at h1
    cases hs : (shown fs p).2 with
    | ok u => rfl
    | _ => rw [hs] at h1; cases h1
  obtain ⟨f, a1, a2, a3, a4, a5⟩ := shown_ok h2
  rw [hf] at a1
  have he := Option.some.inj a1
  have hl : (SSP21.Spec.chain certs).length < 2 ^ 32 := by
    rw [← he] at a2
    simp only [Spec.chainFile, SSP21.Spec.container, SSP21.Spec.field, List.length_append] at a2
    omega
  rw [← he] at a3
  have h4 := (C05_container.2.2.2 (Spec.chainFile certs) ⟨.certificate_chain, SSP21.Spec.chain certs⟩).mpr ⟨⟨by simp, hl⟩, rfl⟩
  have hff : f = ⟨.certificate_chain, SSP21.Spec.chain certs⟩ := by
    have := a3.symm.trans h4
    cases this
    rfl
  subst hff
  have h5 := (C05_chain.2.2.2 (SSP21.Spec.chain certs) certs).mpr ⟨⟨hlen, hsize⟩, rfl⟩
  have hout : Program.output o fs (Spec.showing [p]) i = (shown fs p).1 := by
    show (shownAll fs [p]).1 = _
    simp only [shownAll, h2, List.append_nil]
  rw [hout, a5]
  simp only [contentLines, if_true, h5] at a4 ⊢
  by_cases h6 : (chainLines 1 certs).2 = true
  · obtain ⟨bodies, h7, h8⟩ := chainLines_eq 1 certs h6
    refine ⟨bodies, h7, ?_⟩
    simp only [h6, if_true, h8, List.append_assoc]
    rfl
  · simp [h6] at a4

theorem certFile_shown (o : Outside) (fs fs' : FS) (times : Times) (level : UInt8) (out pub priv : String)
    (h : certFile o fs times level out pub priv = (fs', .done)) :
    certFileLines o fs times level out pub priv = (shown fs' out).1 ∧ (shown fs' out).2 = .ok () := by
  unfold certFile at h
  unfold certFileLines
  generalize writeOne fs ((fs.open priv).bind fun privFile => (fs.open pub).bind fun pubFile =>
    createCertificate o.caps o.sign pubFile privFile times level) out = r at h
  obtain ⟨fs1, e⟩ := r
  by_cases he : e = .done
  · subst he
    simp only [if_true] at h ⊢
    obtain ⟨rfl, h3⟩ := Prod.mk.inj h
    refine ⟨rfl, ?_⟩
    rw [shown_ends]
    cases hp : printContents fs1 out with
    | ok u => rfl
    | _ => rw [hp] at h3; cases h3
  · simp only [he, if_false] at h
    exact absurd (Prod.mk.inj h).2 he

theorem level_shown (o : Outside) (fs fs' : FS) (a : Args) (i : Input) (times : Times) (out pub priv : String)
    (h : certAtLevel o fs times out pub priv (levelOf a i) = (fs', .done)) :
    levelLines o fs a i out pub priv times = (if a.level = none then [levelQuestion] else []) ++ (shown fs' out).1 ∧ (shown fs' out).2 = .ok () := by
  unfold levelLines
  cases hl : levelOf a i with
  | none => rw [hl] at h; cases h
  | some l =>
    cases l with
    | none => rw [hl] at h; cases h
    | some l =>
      rw [hl] at h
      obtain ⟨h1, h2⟩ := certFile_shown o fs fs' times l out pub priv h
      exact ⟨congrArg _ h1, h2⟩

theorem times_shown (o : Outside) (fs fs' : FS) (a : Args) (i : Input) (out pub priv : String) (t : Outcome Times)
    (h : certInTimes o fs a i out pub priv t = (fs', .done)) :
    timesLines o fs a i out pub priv t = (if a.level = none then [levelQuestion] else []) ++ (shown fs' out).1 ∧ (shown fs' out).2 = .ok () := by
  cases t with
  | throw => cases h
  | exit => cases h
  | fault => cases h
  | ok times => exact level_shown o fs fs' a i times out pub priv h

theorem days_shown (o : Outside) (fs fs' : FS) (a : Args) (out pub priv : String) (d : Option (Input × UInt16))
    (h : certInDays o fs a out pub priv d = (fs', .done)) :
    daysLines o fs a out pub priv d = (if a.level = none then [levelQuestion] else []) ++ (shown fs' out).1 ∧ (shown fs' out).2 = .ok () := by
  cases d with
  | none => cases h
  | some d =>
    obtain ⟨i, d⟩ := d
    simp only [certInDays] at h
    simp only [daysLines]
    exact times_shown o fs fs' a i out pub priv _ h

theorem cert_shown (o : Outside) (fs fs' : FS) (a : Args) (i : Input) (out pub priv : String)
    (h : certInDays o fs a out pub priv (daysOf a i) = (fs', .done)) :
    certLines o fs a i out pub priv = (if a.days = none then [daysQuestion] else []) ++ ((if a.level = none then [levelQuestion] else []) ++ (shown fs' out).1) ∧
      (shown fs' out).2 = .ok () := by
  obtain ⟨h1, h2⟩ := days_shown o fs fs' a out pub priv _ h
  exact ⟨by rw [certLines, h1], h2⟩

theorem cert_output (o : Outside) (fs : FS) (i : Input) (days : Option (Option UInt16)) (level : Option (Option UInt8)) (out pub priv : String) :
    Program.output o fs { cert := true, days := days, level := level, pos := [out, pub, priv] } i =
      certLines o fs { cert := true, days := days, level := level, pos := [out, pub, priv] } i out pub priv := by
  unfold Program.output
  simp only [Bool.false_eq_true, if_false, if_true]

/-- A certificate that is made is shown: if `--cert` ends without an exception, it has printed the questions for what was not on the command line, and then
what `--show` prints of the file it has written. -/
theorem C67_certificate_shown (o : Outside) (fs fs' : FS) (i i' : Input) (days : Option (Option UInt16)) (level : Option (Option UInt8)) (out pub priv : String)
    (h : Program.run o fs { cert := true, days := days, level := level, pos := [out, pub, priv] } i = (fs', .done)) :
    Program.output o fs { cert := true, days := days, level := level, pos := [out, pub, priv] } i =
      (if days = none then ["How many days (from now) should the certificate remain valid?".toList] else []) ++
      (if level = none then ["Enter the certificate signing level (0 == endpoint certificate, max == 6):".toList] else []) ++
      Program.output o fs' (Spec.showing [out]) i' ∧
    (Program.run o fs' (Spec.showing [out]) i').2 = .done := by
  have h1 : certInDays o fs { cert := true, days := days, level := level, pos := [out, pub, priv] } out pub priv
      (daysOf { cert := true, days := days, level := level, pos := [out, pub, priv] } i) = (fs', .done) := by
    unfold Program.run at h
    simp only [Bool.false_eq_true, if_false, if_true] at h
    exact h
  obtain ⟨h3, h4⟩ := cert_shown o fs fs' _ i out pub priv h1
  have h5 : Program.output o fs' (Spec.showing [out]) i' = (shown fs' out).1 := by
    show (shownAll fs' [out]).1 = _
    simp only [shownAll, h4, List.append_nil]
  refine ⟨?_, ?_⟩
  · rw [cert_output, h3, h5, List.append_assoc]
    rfl
  · show (showAll fs' [out]).ending = .done
    rw [← shownAll_ends]
    simp only [shownAll, h4, Outcome.ending]

/-- The system takes a file with this name: it can be opened, and no error is reported while it is written. -/
def Spec.Takes (fs : FS) (p : String) : Prop := fs.canOpen p = true ∧ ∀ n, fs.disk p ≠ .full n true

theorem write_takes (fs : FS) (p : String) (d : Bytes) :
    ((writeOne fs (.ok d) p).2 = .done ↔ Spec.Takes fs p) ∧ (∀ q, Spec.Takes (writeOne fs (.ok d) p).1 q ↔ Spec.Takes fs q) := by
  unfold writeOne FS.write Spec.Takes
  by_cases h : fs.canOpen p = true
  · simp only [h, if_true, true_and]
    cases hd : fs.disk p with
    | good => exact ⟨by simp [Outcome.ending], fun q => Iff.rfl⟩
    | full n b => cases b <;> exact ⟨by simp [Outcome.ending], fun q => Iff.rfl⟩
  · simp [h, Outcome.ending]

/-- What is printed once the times are known, however the run ends. -/
theorem times_any (o : Outside) (fs : FS) (a : Args) (i : Input) (out pub priv : String) (t : Outcome Times) :
    (timesLines o fs a i out pub priv t = [] ∧ (certInTimes o fs a i out pub priv t).2 ≠ .done ∧ (certInTimes o fs a i out pub priv t).1 = fs) ∨
    (timesLines o fs a i out pub priv t = (if a.level = none then [levelQuestion] else []) ∧ (certInTimes o fs a i out pub priv t).2 ≠ .done ∧
      ((certInTimes o fs a i out pub priv t).1 = fs ∨ ¬ Spec.Takes fs out)) ∨
    (timesLines o fs a i out pub priv t = (if a.level = none then [levelQuestion] else []) ++ (shown (certInTimes o fs a i out pub priv t).1 out).1 ∧
      Spec.Takes fs out) := by
  cases t with
  | throw => exact .inl ⟨rfl, (fun e => by cases e), rfl⟩
  | exit => exact .inl ⟨rfl, (fun e => by cases e), rfl⟩
  | fault => exact .inl ⟨rfl, (fun e => by cases e), rfl⟩
  | ok times =>
    refine .inr ?_
    simp only [timesLines, certInTimes, levelLines, certAtLevel]
    cases levelOf a i with
    | none => exact .inl ⟨List.append_nil _, (fun e => by cases e), .inl rfl⟩
    | some l =>
      cases l with
      | none => exact .inl ⟨List.append_nil _, (fun e => by cases e), .inl rfl⟩
      | some level =>
        simp only [certFileLines, certFile]
        generalize ((fs.open priv).bind fun privFile => (fs.open pub).bind fun pubFile => createCertificate o.caps o.sign pubFile privFile times level) = c
        by_cases hd : (writeOne fs c out).2 = .done
        · simp only [hd, if_true]
          refine .inr ⟨trivial, ?_⟩
          cases c with
          | ok d => exact (write_takes fs out d).1.1 hd
          | throw => cases hd
          | exit => cases hd
          | fault => cases hd
        · simp only [hd, if_false]
          refine .inl ⟨List.append_nil _, hd, ?_⟩
          cases c with
          | ok d => exact .inr fun ht => hd ((write_takes fs out d).1.2 ht)
          | throw => exact .inl rfl
          | exit => exact .inl rfl
          | fault => exact .inl rfl

/-- A run of `--cert` prints nothing but its questions and what `--show` prints of the file that it has written, however it ends: only the first question, if no
certificate can be valid that long or nothing is typed; only the questions, if there is no level, the certificate cannot be made or the system does not take the file;
otherwise what is in the new file. -/
theorem C67_certificate_any (o : Outside) (fs : FS) (i i' : Input) (days : Option (Option UInt16)) (level : Option (Option UInt8)) (out pub priv : String)
    (lines : List Text) (hl : lines = Program.output o fs { cert := true, days := days, level := level, pos := [out, pub, priv] } i)
    (run : FS × Ending) (hr : run = Program.run o fs { cert := true, days := days, level := level, pos := [out, pub, priv] } i)
    (first second : List Text)
    (h1 : first = if days = none then ["How many days (from now) should the certificate remain valid?".toList] else [])
    (h2 : second = if level = none then ["Enter the certificate signing level (0 == endpoint certificate, max == 6):".toList] else []) :
    (lines = first ∧ run.2 ≠ .done ∧ run.1 = fs) ∨
    (lines = first ++ second ∧ run.2 ≠ .done ∧ (run.1 = fs ∨ ¬ Spec.Takes fs out)) ∨
    (lines = first ++ second ++ Program.output o run.1 (Spec.showing [out]) i' ∧ Spec.Takes fs out) := by
  have e1 : run = certInDays o fs { cert := true, days := days, level := level, pos := [out, pub, priv] } out pub priv
      (daysOf { cert := true, days := days, level := level, pos := [out, pub, priv] } i) := by
    rw [hr]
    unfold Program.run
    simp only [Bool.false_eq_true, if_false, if_true]
    rfl
  have e2 : lines = first ++ daysLines o fs { cert := true, days := days, level := level, pos := [out, pub, priv] } out pub priv
      (daysOf { cert := true, days := days, level := level, pos := [out, pub, priv] } i) := by
    rw [hl, cert_output, h1]
    rfl
  have e3 : ∀ g : FS, Program.output o g (Spec.showing [out]) i' = (shown g out).1 := by
    intro g
    show (shownAll g [out]).1 = _
    cases he : (shown g out).2 with
    | ok u => simp only [shownAll, he, List.append_nil]
    | _ => simp only [shownAll, he]
  generalize daysOf { cert := true, days := days, level := level, pos := [out, pub, priv] } i = d at e1 e2
  rw [e3, e2, e1, h2]
  cases d with
  | none => exact .inl ⟨List.append_nil _, (fun e => by cases e), rfl⟩
  | some d =>
    obtain ⟨i2, d⟩ := d
    simp only [daysLines, certInDays]
    rcases times_any o fs { cert := true, days := days, level := level, pos := [out, pub, priv] } i2 out pub priv (daysToTimes o.now d) with
      ⟨ha, hb⟩ | ⟨ha, hb⟩ | ⟨ha, hb⟩
    · exact .inl ⟨by rw [ha, List.append_nil], hb⟩
    · exact .inr (.inl ⟨by rw [ha]; rfl, hb⟩)
    · exact .inr (.inr ⟨by rw [ha, ← List.append_assoc]; rfl, hb⟩)

/-- Appending chains prints nothing, however it ends. -/
theorem C67_append_silent (o : Outside) (fs : FS) (i : Input) (a : Args) (p q s : String) (hr : Spec.Asks a (.append p q s)) :
    Program.output o fs a i = [] := by
  cases hr with
  | append p q s h1 h2 h3 h4 h5 h6 h7 h8 => simp only [Program.output, h1, h2, h3, h4, h5, h6, Bool.false_eq_true, if_false]

/-- Making keys and appending chains print nothing of what is in the files: the lines are determined by the names and by how the run ends. -/
theorem C67_nothing_secret (o : Outside) (fs fs' : FS) (i : Input) (a : Args) (r : Spec.Request) (hr : Spec.Asks a r)
    (h : Program.run o fs a i = (fs', .done)) :
    (∀ p, r = .shared p → Program.output o fs a i = ["creating shared secret...".toList, "wrote: ".toList ++ p.toList]) ∧
    (∀ p q, r = .pair true p q → Program.output o fs a i =
      ["generating x25519 key pair...".toList, "wrote: ".toList ++ p.toList, "wrote: ".toList ++ q.toList]) ∧
    (∀ p q, r = .pair false p q → Program.output o fs a i =
      ["generating Ed25519 key pair".toList, "wrote: ".toList ++ p.toList, "wrote: ".toList ++ q.toList]) ∧
    (∀ p q s, r = .append p q s → Program.output o fs a i = []) := by
  have pair : ∀ (c : Outcome (Bytes × Bytes)) (p q : String), writePair fs c p q = (fs', .done) →
      pairLines fs c p q = ["wrote: ".toList ++ p.toList, "wrote: ".toList ++ q.toList] := by
    intro c p q hw
    unfold writePair at hw
    unfold pairLines
    cases c with
    | ok f =>
      obtain ⟨f1, f2⟩ := f
      simp only at hw ⊢
      by_cases h1 : (writeOne fs (.ok f1) p).2 = .done
      · simp only [h1, if_true] at hw ⊢
        rw [hw]
        rfl
      · simp only [h1, if_false] at hw
        rw [hw] at h1
        exact absurd rfl h1
    | throw => cases hw
    | exit => cases hw
    | fault => cases hw
  cases hr with
  | shared p h1 h2 h3 h4 =>
    have h5 : writeOne fs (genSharedSecret o.random) p = (fs', .done) := by
      simpa [Program.run, h1, h2, h3, h4] using h
    refine ⟨fun p' hp => ?_, fun _ _ hp => (by cases hp), fun _ _ hp => (by cases hp), fun _ _ _ hp => (by cases hp)⟩
    cases hp
    simp only [Program.output, h1, h2, h3, h4, h5, wroteLines, Bool.false_eq_true, if_false, if_true]
  | x25519 p q h1 h2 h3 h4 h5 =>
    have h6 : writePair fs (genX25519 o.caps o.x25519.1 o.x25519.2) p q = (fs', .done) := by
      simpa [Program.run, h1, h2, h3, h4, h5] using h
    refine ⟨fun _ hp => (by cases hp), fun p' q' hp => ?_, fun _ _ hp => (by cases hp), fun _ _ _ hp => by cases hp⟩
    cases hp
    simp only [Program.output, h1, h2, h3, h4, h5, pair _ _ _ h6, Bool.false_eq_true, if_false, if_true]
  | ed25519 p q h1 h2 h3 h4 h5 h6 =>
    have h7 : writePair fs (genEd25519 o.caps o.ed25519.1 o.ed25519.2) p q = (fs', .done) := by
      simpa [Program.run, h1, h2, h3, h4, h5, h6] using h
    refine ⟨fun _ hp => (by cases hp), fun _ _ hp => (by cases hp), fun p' q' hp => ?_, fun _ _ _ hp => by cases hp⟩
    cases hp
    simp only [Program.output, h1, h2, h3, h4, h5, h6, pair _ _ _ h7, Bool.false_eq_true, if_false, if_true]
  | cert => exact ⟨fun _ hp => (by cases hp), fun _ _ hp => (by cases hp), fun _ _ hp => (by cases hp), fun _ _ _ hp => by cases hp⟩
  | append p q s h1 h2 h3 h4 h5 h6 h7 h8 =>
    refine ⟨fun _ hp => (by cases hp), fun _ _ hp => (by cases hp), fun _ _ hp => (by cases hp), fun p' q' s' hp => ?_⟩
    simp only [Program.output, h1, h2, h3, h4, h5, h6, Bool.false_eq_true, if_false]

/-- The pair is reported as it has been written. -/
theorem pair_report (fs : FS) (c : Outcome (Bytes × Bytes)) (p q : String) :
    (pairLines fs c p q = ["wrote: ".toList ++ p.toList, "wrote: ".toList ++ q.toList] ∧ (writePair fs c p q).2 = .done ∧
      Spec.Takes fs p ∧ Spec.Takes fs q) ∨
    (pairLines fs c p q = ["wrote: ".toList ++ p.toList] ∧ (writePair fs c p q).2 ≠ .done ∧ Spec.Takes fs p ∧ ¬ Spec.Takes fs q) ∨
    (pairLines fs c p q = [] ∧ (writePair fs c p q).2 ≠ .done ∧ ((writePair fs c p q).1 = fs ∨ ¬ Spec.Takes fs p)) := by
  cases c with
  | ok f =>
    obtain ⟨f1, f2⟩ := f
    obtain ⟨h1, h2⟩ := write_takes fs p f1
    obtain ⟨h3, _⟩ := write_takes (writeOne fs (.ok f1) p).1 q f2
    unfold pairLines writePair
    simp only
    by_cases ht : (writeOne fs (.ok f1) p).2 = .done
    · simp only [ht, if_true]
      by_cases hq : (writeOne (writeOne fs (.ok f1) p).1 (.ok f2) q).2 = .done
      · exact .inl ⟨by rw [hq]; rfl, hq, h1.1 ht, (h2 q).1 (h3.1 hq)⟩
      · refine .inr (.inl ⟨?_, hq, h1.1 ht, fun hh => hq (h3.2 ((h2 q).2 hh))⟩)
        cases he : (writeOne (writeOne fs (.ok f1) p).1 (.ok f2) q).2 with
        | done => exact absurd he hq
        | _ => rfl
    · simp only [ht, if_false]
      exact .inr (.inr ⟨trivial, ht, .inr fun hh => ht (h1.2 hh)⟩)
  | throw => exact .inr (.inr ⟨rfl, fun e => (by cases e), .inl rfl⟩)
  | exit => exact .inr (.inr ⟨rfl, fun e => (by cases e), .inl rfl⟩)
  | fault => exact .inr (.inr ⟨rfl, fun e => (by cases e), .inl rfl⟩)

/-- A file is reported as written exactly when the system has taken it, however the run ends. Of a pair both are reported, or the first, if the second is not
taken, or none, if the first is not taken or nothing could be made. -/
theorem C67_wrote_exact (o : Outside) (fs : FS) (i : Input) (a : Args) (r : Spec.Request) (hr : Spec.Asks a r) :
    (∀ p, r = .shared p →
      (Program.output o fs a i = ["creating shared secret...".toList, "wrote: ".toList ++ p.toList] ∧ (Program.run o fs a i).2 = .done ∧
        Spec.Takes fs p) ∨
      (Program.output o fs a i = ["creating shared secret...".toList] ∧ (Program.run o fs a i).2 ≠ .done ∧
        ((Program.run o fs a i).1 = fs ∨ ¬ Spec.Takes fs p))) ∧
    (∀ x p q, r = .pair x p q → ∃ heading : Text,
      heading = (if x then "generating x25519 key pair...".toList else "generating Ed25519 key pair".toList) ∧
      ((Program.output o fs a i = [heading, "wrote: ".toList ++ p.toList, "wrote: ".toList ++ q.toList] ∧ (Program.run o fs a i).2 = .done ∧
          Spec.Takes fs p ∧ Spec.Takes fs q) ∨
        (Program.output o fs a i = [heading, "wrote: ".toList ++ p.toList] ∧ (Program.run o fs a i).2 ≠ .done ∧
          Spec.Takes fs p ∧ ¬ Spec.Takes fs q) ∨
        (Program.output o fs a i = [heading] ∧ (Program.run o fs a i).2 ≠ .done ∧
          ((Program.run o fs a i).1 = fs ∨ ¬ Spec.Takes fs p)))) := by
  have lift : ∀ (heading : Text) (c : Outcome (Bytes × Bytes)) (p q : String) (out : List Text) (run : FS × Ending),
      out = heading :: pairLines fs c p q → run = writePair fs c p q →
      ((out = [heading, "wrote: ".toList ++ p.toList, "wrote: ".toList ++ q.toList] ∧ run.2 = .done ∧ Spec.Takes fs p ∧ Spec.Takes fs q) ∨
        (out = [heading, "wrote: ".toList ++ p.toList] ∧ run.2 ≠ .done ∧ Spec.Takes fs p ∧ ¬ Spec.Takes fs q) ∨
        (out = [heading] ∧ run.2 ≠ .done ∧ (run.1 = fs ∨ ¬ Spec.Takes fs p))) := by
    intro heading c p q out run h1 h2
    subst h1 h2
    rcases pair_report fs c p q with ⟨e, hh⟩ | ⟨e, hh⟩ | ⟨e, hh⟩
    · exact .inl ⟨by rw [e], hh⟩
    · exact .inr (.inl ⟨by rw [e], hh⟩)
    · exact .inr (.inr ⟨by rw [e], hh⟩)
  cases hr with
  | shared p h1 h2 h3 h4 =>
    refine ⟨fun p' hp => ?_, fun _ _ _ hp => (by cases hp)⟩
    cases hp
    have e1 : Program.run o fs a i = writeOne fs (genSharedSecret o.random) p := by
      simp [Program.run, h1, h2, h3, h4]
    have e2 : Program.output o fs a i = "creating shared secret...".toList :: wroteLines p (writeOne fs (genSharedSecret o.random) p).2 := by
      simp only [Program.output, h1, h2, h3, h4, Bool.false_eq_true, if_false, if_true]
    rw [e1, e2]
    cases hc : genSharedSecret o.random with
    | ok d =>
      obtain ⟨h5, _⟩ := write_takes fs p d
      by_cases hd : (writeOne fs (.ok d) p).2 = .done
      · exact .inl ⟨by rw [hd]; rfl, hd, h5.1 hd⟩
      · refine .inr ⟨?_, hd, .inr fun hh => hd (h5.2 hh)⟩
        cases he : (writeOne fs (.ok d) p).2 with
        | done => exact absurd he hd
        | _ => rfl
    | throw => exact .inr ⟨rfl, fun e => (by cases e), .inl rfl⟩
    | exit => exact .inr ⟨rfl, fun e => (by cases e), .inl rfl⟩
    | fault => exact .inr ⟨rfl, fun e => (by cases e), .inl rfl⟩
  | x25519 p q h1 h2 h3 h4 h5 =>
    refine ⟨fun _ hp => (by cases hp), fun x p' q' hp => ⟨_, rfl, ?_⟩⟩
    cases hp
    refine lift _ (genX25519 o.caps o.x25519.1 o.x25519.2) p q _ _ ?_ ?_
    · simp only [Program.output, h1, h2, h3, h4, h5, Bool.false_eq_true, if_false, if_true]
    · simp [Program.run, h1, h2, h3, h4, h5]
  | ed25519 p q h1 h2 h3 h4 h5 h6 =>
    refine ⟨fun _ hp => (by cases hp), fun x p' q' hp => ⟨_, rfl, ?_⟩⟩
    cases hp
    refine lift _ (genEd25519 o.caps o.ed25519.1 o.ed25519.2) p q _ _ ?_ ?_
    · simp only [Program.output, h1, h2, h3, h4, h5, h6, Bool.false_eq_true, if_false, if_true]
    · simp [Program.run, h1, h2, h3, h4, h5, h6]
  | cert => exact ⟨fun _ hp => (by cases hp), fun _ _ _ hp => (by cases hp)⟩
  | append => exact ⟨fun _ hp => (by cases hp), fun _ _ _ hp => (by cases hp)⟩

/-- The file that `--show` cannot show is not announced, unless it is a chain that cannot be parsed: if the file is missing, empty, longer than 4096 bytes or not a
container file, nothing is printed, and the run ends with an exception. -/
theorem C67_show_refused (o : Outside) (fs : FS) (i : Input) (p : String)
    (h : ∀ f, fs.file p = some (SSP21.Spec.container f) → 4096 < (SSP21.Spec.container f).length ∨ f.container_entry_type = .undefined) :
    Program.output o fs (Spec.showing [p]) i = [] ∧ (Program.run o fs (Spec.showing [p]) i).2 = .failed := by
  have key : shown fs p = ([], .throw) := by
    unfold shown
    cases ho : fs.file p with
    | none => simp only [FS.open, ho, Outcome.bind]
    | some d =>
      simp only [FS.open, ho, Outcome.bind]
      by_cases hs : 0 < d.length ∧ d.length ≤ 4096
      · rw [(secureRead_ok d d).mpr ⟨rfl, hs.1, hs.2⟩]
        simp only
        cases hr : Codec.readAll ContainerFile.codec d with
        | ok f =>
          obtain ⟨⟨ht, -⟩, hb⟩ := (C05_container.2.2.2 _ _).mp hr
          rw [hb] at ho hs
          rcases h f ho with h | h
          · omega
          · exact absurd h ht
        | error e =>
          have : parseOrThrow ContainerFile.codec d = .throw := by unfold parseOrThrow; rw [hr]
          rw [this]
      · have : secureRead d = .throw := by
          unfold secureRead
          by_cases h0 : d.length = 0
          · rw [if_pos h0]
          · rw [if_neg h0, if_pos (by omega)]
        rw [this]
  refine ⟨?_, ?_⟩
  · show (shownAll fs [p]).1 = _
    simp only [shownAll, key]
  · show (showAll fs [p]).ending = _
    rw [← shownAll_ends]
    simp only [shownAll, key, Outcome.ending]

/-! ### The theorems apply (toy signatures) -/

namespace ConsoleExample
open ProgramExample

/-- The secret of `outside`, in a file. -/
def withSecret : FS := (Program.run outside disk { shared := true, pos := ["k"] } ⟨[], false⟩).1

theorem made : Program.run outside disk { shared := true, pos := ["k"] } ⟨[], false⟩ =
    (disk.put "k" (SSP21.Spec.container ⟨.shared_secret, List.replicate 32 7⟩), .done) := by
  have h : genSharedSecret outside.random = .ok (SSP21.Spec.container ⟨.shared_secret, List.replicate 32 7⟩) := writeFile_ok _ _ (by simp) (by decide)
  simp only [Program.run, Bool.false_eq_true, if_false, if_true, h]
  rfl

theorem present : withSecret.file "k" = some (SSP21.Spec.container ⟨.shared_secret, List.replicate 32 7⟩) := by
  unfold withSecret
  rw [made]
  simp [FS.put]

theorem none : withSecret.file "x" = .none := by
  unfold withSecret
  rw [made]
  simp [FS.put, disk]

example : Program.output outside withSecret (Spec.showing ["k"]) ⟨[], false⟩ =
    ["File: k".toList, "Type: shared_secret".toList, "  key-data (length == 32)".toList,
     "    07:07:07:07:07:07:07:07:07:07:07:07:07:07:07:07".toList, "    07:07:07:07:07:07:07:07:07:07:07:07:07:07:07:07".toList, []] := by
  rw [C67_show_key outside withSecret ⟨[], false⟩ "k" .shared_secret (List.replicate 32 7) present (by decide) (by decide +kernel)]
  rw [hexLines, dif_neg (by decide), hexLines, dif_neg (by decide), hexLines, dif_pos (by decide)]
  decide +kernel

/-- The certificate `one` (see the examples of C61) was made without questions, and shown. -/
example : Program.output outside keys (certArgs "mid.crt" "mid.pub" "ca.prv" 1) ⟨[], false⟩ =
    Program.output outside one (Spec.showing ["mid.crt"]) ⟨[], false⟩ ∧
    (Program.run outside one (Spec.showing ["mid.crt"]) ⟨[], false⟩).2 = .done := by
  have h0 : Program.run outside keys (certArgs "mid.crt" "mid.pub" "ca.prv" 1) ⟨[], false⟩ = (one, .done) := by
    refine Prod.ext ?_ (by decide +kernel)
    rw [one]
  unfold certArgs at h0 ⊢
  have h := C67_certificate_shown outside keys one ⟨[], false⟩ ⟨[], false⟩ (some (some 24)) (some (some 1)) "mid.crt" "mid.pub" "ca.prv" h0
  rw [if_neg (by simp), if_neg (by simp), List.nil_append, List.nil_append] at h
  exact h

/-- What is printed when the secret is made. -/
example : Program.output outside disk { shared := true, pos := ["k"] } ⟨[], false⟩ = ["creating shared secret...".toList, "wrote: k".toList] :=
  (C67_nothing_secret outside disk _ ⟨[], false⟩ { shared := true, pos := ["k"] } (.shared "k") (.shared "k" rfl rfl rfl rfl) made).1 "k" rfl

/-- The disk is full when the second of two key files is written: only the first is reported. -/
example : Program.output outside { disk with disk := fun p => if p = "b" then .full 3 true else .good } { x25519 := true, pos := ["a", "b"] } ⟨[], false⟩ =
    ["generating x25519 key pair...".toList, "wrote: a".toList] := by
  decide +kernel

/-- A file that does not exist, after one that does. -/
example : Program.output outside withSecret (Spec.showing ["k", "x"]) ⟨[], false⟩ = Program.output outside withSecret (Spec.showing ["k"]) ⟨[], false⟩ := by
  have h := C67_show_refused outside withSecret ⟨[], false⟩ "x" (fun f hf => absurd (none.symm.trans hf) nofun)
  have := (C67_show_several outside withSecret ⟨[], false⟩ ["k"] "x" [] (by
    intro q hq
    rw [List.mem_singleton.mp hq]
    decide +kernel)).2 (by rw [h.2]; decide)
  rw [h.1] at this
  simpa using this

/-- How a number, a byte and a few bytes are shown. -/
example : decimal 120 = "120".toList ∧ hexByte 10 = "0a".toList ∧ hexLine [1, 255, 16] = "01:ff:10".toList := by decide +kernel

end ConsoleExample

end SSP21.Tool
