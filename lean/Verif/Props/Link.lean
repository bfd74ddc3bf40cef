import Verif.LinkRefine
/-
  Properties C08 - C12: link frames.
-/
namespace SSP21.Link
open Spec

/-! ## Vocabulary -/

/-- A parser that has been constructed with maximum payload `m`, then used through its public interface
(`reset`, `parse`). The byte string is what it has consumed since it was constructed or last reset. -/
inductive Reach (m : UInt16) : Bytes → Parser → Prop
  | new : Reach m [] (Parser.new m)
  | reset {hist p} : Reach m hist p → Reach m [] p.reset
  | parse {hist p input used rest p' avail} : Reach m hist p →
      p.parse input = some (p', rest, avail) → input = used ++ rest → Reach m (hist ++ used) p'

/-- The largest payload a parser constructed with `m` accepts. -/
def limit (m : UInt16) : Nat := min m.toNat 4092

/-- Feed chunks one after the other, stopping when a frame is available; returns the parser, what is
left of the stream, and whether a frame is available. -/
def feed (p : Parser) : List Bytes → Option (Parser × Bytes × Bool)
  | [] => some (p, [], p.hasResult)
  | c :: cs =>
    match p.parse c with
    | none => none
    | some (p', rest, avail) => if avail then some (p', rest ++ cs.flatten, true) else feed p' cs

/-- What a user can do with a parser, and what it then sees. -/
inductive Op | parse (input : Bytes) | reset

/-- Everything observable while performing a list of operations: the left-over input and result flag of
each `parse`, and what `read` returns after each operation. `none` if a fault occurs. -/
def observe (p : Parser) : List Op → Option (List (Bytes × Bool × Option Frame))
  | [] => some []
  | .reset :: ops => (observe p.reset ops).map fun o => ([], false, p.reset.read) :: o
  | .parse input :: ops =>
    match p.parse input with
    | none => none
    | some (p', rest, avail) => (observe p' ops).map fun o => (rest, avail, p'.read) :: o

/-- Two parsers no user can tell apart. -/
def Same (p q : Parser) : Prop := p.read = q.read ∧ ∀ ops, observe p ops = observe q ops

/-! ## helper lemmas -/

theorem reach_reps {m : UInt16} {hist : Bytes} {p : Parser} (h : Reach m hist p) :
    ∃ a, p.Reps (limit m) (16 + m.toNat) a := by
  induction h with
  | new => exact ⟨_, new_reps m⟩
  | reset _ ih => obtain ⟨a, ha⟩ := ih; exact ⟨_, reset_reps ha⟩
  | parse _ hp _ ih =>
    obtain ⟨a, ha⟩ := ih
    obtain ⟨p', h1, h2⟩ := parse_refines (by simp [limit]; omega) ha _
    rw [hp] at h1
    cases h1
    exact ⟨_, h2⟩

theorem observe_reps {mx n : Nat} (hn : mx + 16 ≤ n) (ops : List Op) : ∀ {p q : Parser} {a : A},
    p.Reps mx n a → q.Reps mx n a → observe p ops = observe q ops := by
  induction ops with
  | nil => intros; rfl
  | cons op ops ih =>
    intro p q a hp hq
    cases op with
    | reset =>
      simp only [observe]
      rw [ih (reset_reps hp) (reset_reps hq), read_reps (reset_reps hp), read_reps (reset_reps hq)]
    | parse input =>
      simp only [observe]
      obtain ⟨p', h1, h2⟩ := parse_refines hn hp input
      obtain ⟨q', g1, g2⟩ := parse_refines hn hq input
      rw [h1, g1]
      simp only
      rw [ih h2 g2, read_reps h2, read_reps g2]

theorem same_reps {mx n : Nat} (hn : mx + 16 ≤ n) {p q : Parser} {a : A}
    (hp : p.Reps mx n a) (hq : q.Reps mx n a) : Same p q :=
  ⟨by rw [read_reps hp, read_reps hq], fun ops => observe_reps hn ops hp hq⟩

theorem run_rest_nil (mx : Nat) (a : A) (l : Bytes) (h : (run mx a l).1.isRead = false) : (run mx a l).2 = [] := by
  induction l generalizing a with
  | nil => rw [run_nil]
  | cons v l ih =>
    unfold run at h ⊢
    by_cases hr : a.isRead = true
    · rw [if_pos hr] at h; rw [hr] at h; cases h
    · rw [if_neg hr] at h ⊢; exact ih _ h

theorem feed_reps {mx n : Nat} (hn : mx + 16 ≤ n) (cs : List Bytes) : ∀ {p : Parser} {a : A},
    p.Reps mx n a → ∃ p', feed p cs = some (p', (run mx a cs.flatten).2, (run mx a cs.flatten).1.isRead) ∧
      p'.Reps mx n (run mx a cs.flatten).1 := by
  induction cs with
  | nil =>
    intro p a hp
    refine ⟨p, ?_, ?_⟩
    · simp only [feed, List.flatten_nil, run_nil]
      rw [hasResult_reps hp]
    · simpa [run_nil] using hp
  | cons c cs ih =>
    intro p a hp
    obtain ⟨p', h1, h2⟩ := parse_refines hn hp c
    simp only [feed, h1, List.flatten_cons, run_append]
    cases hb : (run mx a c).1.isRead with
    | true =>
      simp only [if_true]
      by_cases hr : (run mx a c).2 = []
      · rw [if_pos hr, hr, List.nil_append]
        cases ha : (run mx a c).1 with
        | read f => rw [run_read]; exact ⟨p', rfl, by rw [ha] at h2; exact h2⟩
        | _ => rw [ha] at hb; cases hb
      · rw [if_neg hr]
        exact ⟨p', by simp [hb], h2⟩
    | false =>
      have hr := run_rest_nil mx a c hb
      simp only [Bool.false_eq_true, if_false, hr, if_true]
      exact ih h2

/-! ## C11 — no access outside the buffer -/

/-- The parser never faults: whatever it was constructed with, whatever was done with it before and
whatever it is given, parsing stays inside the buffer (including the re-scan of a rejected header out of
the same buffer), no length computation underflows, the loops terminate, and the re-scan does not nest. -/
theorem C11_parser_never_faults {m : UInt16} {hist : Bytes} {p : Parser} (h : Reach m hist p) (input : Bytes) :
    ∃ p' rest avail, p.parse input = some (p', rest, avail) := by
  obtain ⟨a, ha⟩ := reach_reps h
  obtain ⟨p', h1, _⟩ := parse_refines (by simp [limit]; omega) ha input
  exact ⟨_, _, _, h1⟩

/-- What is left over is a suffix of what was given, and everything is consumed unless a frame is
available. -/
theorem C11_parser_consumes {m : UInt16} {hist : Bytes} {p : Parser} (h : Reach m hist p) (input : Bytes)
    {p' : Parser} {rest : Bytes} {avail : Bool} (hp : p.parse input = some (p', rest, avail)) :
    (∃ used, input = used ++ rest) ∧ (avail = false → rest = []) ∧ (avail = p'.hasResult) := by
  obtain ⟨a, ha⟩ := reach_reps h
  obtain ⟨p'', h1, h2⟩ := parse_refines (by simp [limit]; omega) ha input
  rw [hp] at h1
  cases h1
  refine ⟨?_, run_rest_nil _ _ _, (hasResult_reps h2).symm⟩
  have : ∀ (l : Bytes) (a : A), ∃ used, l = used ++ (run (limit m) a l).2 := by
    intro l
    induction l with
    | nil => intro a; exact ⟨[], by simp [run_nil]⟩
    | cons v l ih =>
      intro a
      unfold run
      split
      · exact ⟨[], rfl⟩
      · obtain ⟨u, hu⟩ := ih (step (limit m) a v)
        exact ⟨v :: u, by rw [List.cons_append, ← hu]⟩
  exact this input a

/-! ## C09 — chunking -/

/-- Any way of cutting the stream into chunks gives the same left-over bytes, the same availability, the
same frame and a parser that behaves identically ever after. -/
theorem C09_chunking_irrelevant {m : UInt16} {hist : Bytes} {p : Parser} (h : Reach m hist p)
    (chunks : List Bytes) :
    ∃ p₁ p₂ rest avail, feed p chunks = some (p₁, rest, avail) ∧
      p.parse chunks.flatten = some (p₂, rest, avail) ∧ Same p₁ p₂ := by
  obtain ⟨a, ha⟩ := reach_reps h
  have hn : limit m + 16 ≤ 16 + m.toNat := by simp [limit]; omega
  obtain ⟨p₁, f1, f2⟩ := feed_reps hn chunks ha
  obtain ⟨p₂, g1, g2⟩ := parse_refines hn ha chunks.flatten
  exact ⟨p₁, p₂, _, _, f1, g1, same_reps hn f2 g2⟩

/-! ## C10 — delivered frames were received -/

theorem be2_eq_w16 (v : UInt16) : be 2 v.toNat = w16 v := rfl

theorem w16_ofNat_beNat {l : Bytes} (h : l.length = 2) : w16 (UInt16.ofNat (beNat l)) = l := by
  have hlt := beNat_lt l
  rw [h] at hlt
  have := be_beNat l
  rw [h] at this
  rw [← be2_eq_w16]
  have e : (UInt16.ofNat (beNat l)).toNat = beNat l := by
    simp; omega
  rw [e, this]

theorem crcBytes_eq (d : Bytes) : crcBytes d = be 4 (crcCalc d).toNat := by
  unfold crcBytes
  rw [← crcCalc_eq]
  simp only [be, List.nil_append, List.cons_append, UInt32.toNat_toBitVec]
  have h1 : (crcCalc d).toNat / 256 / 256 / 256 = (crcCalc d).toNat / 16777216 := by omega
  have h2 : (crcCalc d).toNat / 256 / 256 = (crcCalc d).toNat / 65536 := by omega
  rw [h1, h2]

theorem crcBytes_of_field {d c : Bytes} (hc : c.length = 4) (h : crcCalc d = UInt32.ofNat (beNat c)) :
    crcBytes d = c := by
  have hlt := beNat_lt c
  rw [hc] at hlt
  have e : (UInt32.ofNat (beNat c)).toNat = beNat c := by simp; omega
  have := be_beNat c
  rw [hc] at this
  rw [crcBytes_eq, h, e, this]

theorem crcBytes_length (d : Bytes) : (crcBytes d).length = 4 := rfl

theorem field_crc (d : Bytes) (x y : Bytes) (hx : x.length = 8) :
    UInt32.ofNat (field (x ++ crcBytes d ++ y) 8 4) = crcCalc d := by
  have h1 : ((x ++ crcBytes d ++ y).drop 8).take 4 = crcBytes d := by
    rw [List.append_assoc, ← hx, List.drop_left]
    exact List.take_left' (crcBytes_length d)
  unfold field
  rw [h1, crcBytes_eq, beNat_be]
  apply UInt32.toNat_inj.mp
  have := (crcCalc d).toNat_lt
  simp

theorem split12 {h : Bytes} (hl : h.length = 12) :
    h = h.take 2 ++ (h.drop 2).take 2 ++ (h.drop 4).take 2 ++ (h.drop 6).take 2 ++ (h.drop 8).take 4 := by
  match h, hl with
  | [a, b, c, d, e, f, g, h, i, j, k, l], _ => rfl

theorem split8 {h : Bytes} (hl : h.length = 12) :
    h.take 8 = h.take 2 ++ (h.drop 2).take 2 ++ (h.drop 4).take 2 ++ (h.drop 6).take 2 := by
  match h, hl with
  | [a, b, c, d, e, f, g, h, i, j, k, l], _ => rfl

/-- A buffered valid header is a specified header followed by its checksum. -/
theorem header_spec {h : Bytes} (hl : h.length = 12) (h2 : h.take 2 = [Link.sync1, Link.sync2])
    (hc : crcCalc (h.take 8) = UInt32.ofNat (field h 8 4)) :
    h = frameHeader (UInt16.ofNat (field h 2 2)) (UInt16.ofNat (field h 4 2)) (UInt16.ofNat (field h 6 2)) ++
      crcBytes (frameHeader (UInt16.ofNat (field h 2 2)) (UInt16.ofNat (field h 4 2)) (UInt16.ofNat (field h 6 2))) := by
  have l2 : ((h.drop 2).take 2).length = 2 := by simp; omega
  have l4 : ((h.drop 4).take 2).length = 2 := by simp; omega
  have l6 : ((h.drop 6).take 2).length = 2 := by simp; omega
  have l8 : ((h.drop 8).take 4).length = 4 := by simp; omega
  have e8 : h.take 8 = frameHeader (UInt16.ofNat (field h 2 2)) (UInt16.ofNat (field h 4 2)) (UInt16.ofNat (field h 6 2)) := by
    unfold frameHeader field
    rw [w16_ofNat_beNat l2, w16_ofNat_beNat l4, w16_ofNat_beNat l6, split8 hl, h2]; rfl
  rw [← e8, crcBytes_of_field l8 hc]
  conv => lhs; rw [split12 hl]
  rw [split8 hl]

/-- The bytes consumed so far end with what the automaton state holds. -/
def Suffix (mx : Nat) (hist : Bytes) : A → Prop
  | .sync1 => True
  | .sync2 => ∃ pre, hist = pre ++ [Link.sync1]
  | .header h => ∃ pre, hist = pre ++ h
  | .body h b => ∃ pre, hist = pre ++ h ++ b
  | .read f => f.payload.length ≤ mx ∧ ∃ pre, hist = pre ++ frame f.destination f.source f.payload

theorem scan_suffix {mx : Nat} {hist : Bytes} {a : A} (v : UInt8) {k : Nat} (hs : ScanShape k a)
    (h : Suffix mx hist a) : Suffix mx (hist ++ [v]) (scanStep a v) := by
  cases a with
  | sync1 =>
    simp only [scanStep]
    by_cases hv : v = Link.sync1
    · rw [if_pos hv]; exact ⟨hist, by rw [hv]⟩
    · rw [if_neg hv]; trivial
  | sync2 =>
    obtain ⟨pre, rfl⟩ := h
    simp only [scanStep]
    by_cases hv : v = Link.sync2
    · rw [if_pos hv]; exact ⟨pre, by simp⟩
    · rw [if_neg hv]; trivial
  | header h' =>
    obtain ⟨pre, rfl⟩ := h
    exact ⟨pre, by simp⟩
  | body => cases hs
  | read => cases hs

theorem scanl_suffix {mx : Nat} (l : Bytes) : ∀ {hist : Bytes} {a : A} {k : Nat}, ScanShape k a →
    Suffix mx hist a → Suffix mx (hist ++ l) (l.foldl scanStep a) := by
  induction l with
  | nil => intro hist a k _ h; simpa using h
  | cons v l ih =>
    intro hist a k hs h
    have := ih (scanStep_shape v hs) (scan_suffix v hs h)
    simpa using this

theorem step_suffix {mx : Nat} {hist : Bytes} {a : A} (v : UInt8) (hmx : mx ≤ 4092) (hw : A.WF mx a) (hnr : a.isRead = false)
    (h : Suffix mx hist a) : Suffix mx (hist ++ [v]) (step mx a v) := by
  cases a with
  | sync1 => exact scan_suffix (a := .sync1) (k := 0) v trivial h
  | sync2 => exact scan_suffix (a := .sync2) (k := 1) v (Nat.le_refl 1) h
  | header h' =>
    obtain ⟨pre, rfl⟩ := h
    obtain ⟨w1, w2, w3⟩ := hw
    simp only [step]
    by_cases hlt : h'.length + 1 < 12
    · rw [if_pos hlt]; exact ⟨pre, by simp⟩
    · rw [if_neg hlt]
      unfold finishHeader
      split
      · have := scanl_suffix (mx := mx) ((h' ++ [v]).drop 2) (hist := pre ++ (h' ++ [v]).take 2) (a := .sync1) (k := 0) trivial trivial
        rw [List.append_assoc, List.take_append_drop] at this
        rw [List.append_assoc]; exact this
      · split
        · trivial
        · exact ⟨pre, by simp⟩
  | body h' b =>
    obtain ⟨pre, rfl⟩ := h
    obtain ⟨w1, w2, w3, w4, w5⟩ := hw
    simp only [step]
    change Suffix mx _ (if b.length + 1 < plen h' + 4 then _ else _)
    by_cases hlt : b.length + 1 < plen h' + 4
    · rw [if_pos hlt]; exact ⟨pre, by simp⟩
    · rw [if_neg hlt]
      generalize hB : b ++ [v] = B
      have hBl : B.length = plen h' + 4 := by rw [← hB]; simp; omega
      unfold finishBody
      by_cases hcrc : crcCalc (B.take (plen h')) ≠ UInt32.ofNat (beNat ((B.drop (plen h')).take 4))
      · simp only; rw [if_pos hcrc]; trivial
      · simp only; rw [if_neg hcrc]
        have hpl : (B.take (plen h')).length = plen h' := by simp; omega
        refine ⟨by simp only [hpl]; exact w4, pre, ?_⟩
        have hspec := header_spec w1 w2 w3
        have hlen : UInt16.ofNat (B.take (plen h')).length = UInt16.ofNat (field h' 6 2) := by
          rw [hpl]; unfold plen; rw [UInt16.ofNat_toNat]
        have hcb := crcBytes_of_field (d := B.take (plen h')) (c := (B.drop (plen h')).take 4) (by simp; omega)
          (by simpa using hcrc)
        unfold frame
        simp only [hlen]
        rw [hcb, ← hspec]
        have : (B.drop (plen h')).take 4 = B.drop (plen h') := List.take_of_length_le (by simp; omega)
        rw [this, List.append_assoc, List.append_assoc, List.append_assoc, List.take_append_drop, ← hB]
  | read f => cases hnr

theorem step_wf {mx : Nat} {a : A} (v : UInt8) (hw : A.WF mx a) : A.WF mx (step mx a v) := by
  cases a with
  | sync1 =>
    simp only [step, scanStep]
    split <;> trivial
  | sync2 =>
    simp only [step, scanStep]
    by_cases hv : v = Link.sync2
    · rw [if_pos hv]; exact ⟨by simp, by simp, by simp [hv]⟩
    · rw [if_neg hv]; trivial
  | header h' =>
    obtain ⟨w1, w2, w3⟩ := hw
    simp only [step]
    by_cases hlt : h'.length + 1 < 12
    · rw [if_pos hlt]
      exact ⟨by simp; omega, by simp; omega, by rw [List.take_append_of_le_length w1]; exact w3⟩
    · rw [if_neg hlt]
      exact finishHeader_wf mx _ (by simp; omega) (by rw [List.take_append_of_le_length w1]; exact w3)
  | body h' b =>
    obtain ⟨w1, w2, w3, w4, w5⟩ := hw
    simp only [step]
    by_cases hlt : b.length + 1 < plen h' + 4
    · rw [if_pos hlt]; exact ⟨w1, w2, w3, w4, by simp; omega⟩
    · rw [if_neg hlt]; exact finishBody_wf mx _ _
  | read f => trivial

theorem run_suffix {mx : Nat} (hmx : mx ≤ 4092) (l : Bytes) : ∀ {hist used : Bytes} {a : A}, A.WF mx a → Suffix mx hist a →
    l = used ++ (run mx a l).2 → Suffix mx (hist ++ used) (run mx a l).1 := by
  induction l with
  | nil =>
    intro hist used a hw hs hu
    rw [run_nil] at hu ⊢
    simp at hu; subst hu; simpa using hs
  | cons v l ih =>
    intro hist used a hw hs hu
    unfold run at hu ⊢
    cases hr : a.isRead with
    | true =>
      rw [hr, if_pos rfl] at hu
      rw [if_pos rfl]
      have : used = [] := by
        have := congrArg List.length hu
        simp at this
        exact this
      subst this; simpa using hs
    | false =>
      rw [hr] at hu
      simp only [Bool.false_eq_true, if_false] at hu ⊢
      cases used with
      | nil =>
        exfalso
        have hle : ∀ (l : Bytes) (a : A), (run mx a l).2.length ≤ l.length := by
          intro l
          induction l with
          | nil => intro a; simp [run_nil]
          | cons v l ih => intro a; unfold run; split
                           · simp
                           · have := ih (step mx a v); simp; omega
        have h1 := congrArg List.length hu
        have h2 := hle l (step mx a v)
        simp at h1; omega
      | cons u used =>
        simp only [List.cons_append, List.cons.injEq] at hu
        obtain ⟨rfl, hu⟩ := hu
        have := ih (step_wf v hw) (step_suffix v hmx hw hr hs) hu
        simpa using this

/-- Whenever the parser reports a frame, the bytes it has consumed since it was constructed or reset
end with exactly that frame: sync bytes, addresses, length, correct header checksum, payload, correct
payload checksum; and the payload is within the configured limit. -/
theorem C10_frame_was_received {m : UInt16} {hist : Bytes} {p : Parser} (h : Reach m hist p) {f : Frame}
    (hf : p.read = some f) :
    f.payload.length ≤ limit m ∧ ∃ pre, hist = pre ++ frame f.destination f.source f.payload := by
  have key : ∃ a, p.Reps (limit m) (16 + m.toNat) a ∧ Suffix (limit m) hist a := by
    clear hf
    induction h with
    | new => exact ⟨_, new_reps m, trivial⟩
    | reset _ ih => obtain ⟨a, ha, _⟩ := ih; exact ⟨_, reset_reps ha, trivial⟩
    | parse _ hp hu ih =>
      obtain ⟨a, ha, hs⟩ := ih
      obtain ⟨p', h1, h2⟩ := parse_refines (by simp [limit]; omega) ha _
      rw [hp] at h1
      cases h1
      exact ⟨_, h2, run_suffix (by simp [limit]; omega) _ ha.2.2 hs hu⟩
  obtain ⟨a, ha, hs⟩ := key
  rw [read_reps ha] at hf
  cases a with
  | read g => simp [A.frame?] at hf; subst hf; exact hs
  | _ => cases hf

/-! ## C08 — round trip -/

theorem frameHeader_length (d s l : UInt16) : (frameHeader d s l).length = 8 := rfl

theorem frame_length (d s : UInt16) (p : Bytes) : (frame d s p).length = 16 + p.length := by
  simp [frame, frameHeader_length, crcBytes_length]; omega

theorem w16_field (v : UInt16) : UInt16.ofNat (beNat (w16 v)) = v := by
  rw [← be2_eq_w16, beNat_be]
  apply UInt16.toNat_inj.mp
  have := v.toNat_lt
  simp

theorem run_frame (mx : Nat) (hmx : mx ≤ 4092) (d s : UInt16) (p rest : Bytes) (hp : p.length ≤ mx) :
    run mx .sync1 (frame d s p ++ rest) = (.read ⟨d, s, p⟩, rest) := by
  have hpl : (UInt16.ofNat p.length).toNat = p.length := by simp; omega
  unfold frame
  simp only
  generalize hH : frameHeader d s (UInt16.ofNat p.length) = H
  have hH' : H = Link.sync1 :: Link.sync2 :: (w16 d ++ w16 s ++ w16 (UInt16.ofNat p.length)) := by rw [← hH]; rfl
  have hHl : H.length = 8 := by rw [← hH]; rfl
  have e : H ++ crcBytes H ++ p ++ crcBytes p ++ rest =
      Link.sync1 :: Link.sync2 :: ((w16 d ++ w16 s ++ w16 (UInt16.ofNat p.length) ++ crcBytes H) ++ (p ++ crcBytes p ++ rest)) := by
    generalize crcBytes H = C
    rw [hH']
    simp
  rw [e, run, if_neg (by simp [A.isRead])]
  have s1 : step mx .sync1 Link.sync1 = .sync2 := by simp [step, scanStep]
  have s2 : step mx .sync2 Link.sync2 = .header [Link.sync1, Link.sync2] := by simp [step, scanStep]
  rw [s1, run, if_neg (by simp [A.isRead]), s2, run_header_full mx _ _ _ (by simp [w16, crcBytes_length]) (by simp)]
  have e2 : [Link.sync1, Link.sync2] ++ (w16 d ++ w16 s ++ w16 (UInt16.ofNat p.length) ++ crcBytes H) = H ++ crcBytes H := by
    generalize crcBytes H = C
    rw [hH']
    simp
  rw [e2]
  have hfc := field_crc H H [] hHl
  rw [List.append_nil] at hfc
  have ht8 : (H ++ crcBytes H).take 8 = H := by rw [← hHl, List.take_left]
  have f2 : UInt16.ofNat (field (H ++ crcBytes H) 2 2) = d := by
    have : ((H ++ crcBytes H).drop 2).take 2 = w16 d := by rw [hH']; rfl
    unfold field; rw [this, w16_field]
  have f4 : UInt16.ofNat (field (H ++ crcBytes H) 4 2) = s := by
    have : ((H ++ crcBytes H).drop 4).take 2 = w16 s := by rw [hH']; rfl
    unfold field; rw [this, w16_field]
  have f6 : UInt16.ofNat (field (H ++ crcBytes H) 6 2) = UInt16.ofNat p.length := by
    have : ((H ++ crcBytes H).drop 6).take 2 = w16 (UInt16.ofNat p.length) := by rw [hH']; rfl
    unfold field; rw [this, w16_field]
  have fp : plen (H ++ crcBytes H) = p.length := by unfold plen; rw [f6, hpl]
  have hfin : finishHeader mx (H ++ crcBytes H) = .body (H ++ crcBytes H) [] := by
    unfold finishHeader
    rw [ht8, hfc, if_neg (by simp), if_neg (by rw [fp]; omega)]
  rw [hfin, run_body_full mx _ _ _ _ (by rw [fp]; simp [crcBytes_length]) (by rw [fp]; simp)]
  unfold finishBody
  simp only [List.nil_append, fp, f2, f4]
  have t1 : (p ++ crcBytes p).take p.length = p := List.take_left
  have t2 : (p ++ crcBytes p).drop p.length = crcBytes p := List.drop_left
  have t3 : (crcBytes p).take 4 = crcBytes p := List.take_of_length_le (by simp [crcBytes_length])
  rw [t1, t2, t3, crcBytes_eq, beNat_be]
  have hc : crcCalc p = UInt32.ofNat ((crcCalc p).toNat % 256 ^ 4) := by
    apply UInt32.toNat_inj.mp
    have := (crcCalc p).toNat_lt
    simp
  rw [if_neg (by simpa using hc), run_read]

theorem write_lemma (w : Writer) (hb : w.buffer.length = 16 + w.maxPayload.toNat)
    (payload : Nat → Except FormatError Bytes)
    (hcap : ∀ cap x, payload cap = .ok x → x.length ≤ cap) :
    match payload (4 + w.maxPayload.toNat) with
    | .error e => w.write payload = some (.error e, w)
    | .ok p => ∃ w', w'.addr = w.addr ∧ w'.maxPayload = w.maxPayload ∧ w'.buffer.length = w.buffer.length ∧
        w.write payload = some (if p.length ≤ w.maxPayload.toNat
          then .ok (frame w.addr.destination w.addr.source p, p) else .error .insufficient_space, w') := by
  have hc : w.buffer.length - headerTotalSize = 4 + w.maxPayload.toNat := by
    rw [hb]; simp [headerTotalSize]; omega
  have hm := w.maxPayload.toNat_lt
  cases hp : payload (4 + w.maxPayload.toNat) with
  | error e =>
    simp only [Writer.write, Writer.writeBodyAndCrc, hc, hp, Option.bind_some]
  | ok p =>
    have hpl := hcap _ _ hp
    simp only [Writer.write, Writer.writeBodyAndCrc, hc, hp, crcSize]
    have hov : overwrite w.buffer headerTotalSize p =
        some (w.buffer.take 12 ++ p ++ w.buffer.drop (12 + p.length)) :=
      overwrite_some (by simp [headerTotalSize]; omega)
    rw [hov]
    simp only [Option.bind_some]
    generalize hB1 : w.buffer.take 12 ++ p ++ w.buffer.drop (12 + p.length) = B1
    have hB1l : B1.length = w.buffer.length := by rw [← hB1]; exact length_overwrite (by omega)
    by_cases hfit : p.length ≤ w.maxPayload.toNat
    · rw [if_neg (by omega)]
      have hov2 : overwrite B1 (headerTotalSize + p.length) (be 4 (crcCalc p).toNat) =
          some (B1.take (12 + p.length) ++ be 4 (crcCalc p).toNat ++ B1.drop (12 + p.length + 4)) :=
        overwrite_some (by simp [headerTotalSize]; omega)
      rw [hov2]
      have hB1t : B1.take (12 + p.length) = w.buffer.take 12 ++ p := by
        rw [← hB1]; exact take_overwrite (by omega)
      rw [hB1t]
      simp only [Option.bind_some]
      generalize hT : B1.drop (12 + p.length + 4) = T
      have h12 : (w.buffer.take 12).length = 12 := by simp; omega
      generalize hB2 : w.buffer.take 12 ++ p ++ be 4 (crcCalc p).toNat ++ T = B2
      have hB2l : B2.length = w.buffer.length := by
        rw [← hB2, ← hT]; simp only [List.length_append, h12, be_length, List.length_drop]; omega
      rw [if_neg (by omega), if_pos hfit]
      have hlen16 : (UInt16.ofNat p.length).toNat = p.length := by simp; omega
      have hF : [Link.sync1, Link.sync2] ++ be 2 w.addr.destination.toNat ++ be 2 w.addr.source.toNat ++ be 2 p.length =
          frameHeader w.addr.destination w.addr.source (UInt16.ofNat p.length) := by
        unfold frameHeader
        rw [← be2_eq_w16, ← be2_eq_w16, ← be2_eq_w16, hlen16]; rfl
      rw [hF]
      unfold frame
      simp only
      generalize hH : frameHeader w.addr.destination w.addr.source (UInt16.ofNat p.length) = H
      have hHl : H.length = 8 := by rw [← hH]; rfl
      rw [if_neg (by omega), overwrite_some (by omega)]
      simp only [Option.bind_some, hHl, List.take_zero, List.nil_append, Nat.zero_add]
      have hd8 : B2.drop 8 = (w.buffer.take 12).drop 8 ++ p ++ be 4 (crcCalc p).toNat ++ T := by
        rw [← hB2]
        simp only [List.append_assoc]
        rw [List.drop_append_of_le_length (by omega)]
      have hsl : slice (H ++ B2.drop 8) 0 headerFieldsSize = some H := by
        rw [slice_some (by simp [headerFieldsSize]; omega)]
        simp only [headerFieldsSize, List.drop_zero]
        rw [← hHl, List.take_left]
      rw [hsl]
      simp only [Option.bind_some]
      have hll : (H ++ B2.drop 8).length = w.buffer.length := by simp; omega
      rw [hll, if_neg (by omega), overwrite_some (by simp; omega)]
      simp only [Option.bind_some, be_length]
      have ht : (H ++ B2.drop 8).take 8 = H := by rw [← hHl, List.take_left]
      have hdd : (H ++ B2.drop 8).drop (8 + 4) = p ++ be 4 (crcCalc p).toNat ++ T := by
        rw [← List.drop_drop, ← hHl, List.drop_left, hHl, hd8]
        simp only [List.append_assoc]
        have : ((w.buffer.take 12).drop 8).length = 4 := by simp; omega
        rw [← this, List.drop_left]
      rw [ht, hdd]
      have hX : H ++ be 4 (crcCalc H).toNat ++ (p ++ be 4 (crcCalc p).toNat ++ T) =
          (H ++ crcBytes H ++ p ++ crcBytes p) ++ T := by
        rw [crcBytes_eq, crcBytes_eq]; simp
      rw [hX]
      have hlenX : (H ++ crcBytes H ++ p ++ crcBytes p).length = p.length + minFrameSize := by
        simp [hHl, crcBytes_length, minFrameSize]; omega
      rw [slice_some (by rw [List.length_append, hlenX]; omega)]
      simp only [List.drop_zero]
      rw [← hlenX, List.take_left]
      simp only [Option.bind_some]
      refine ⟨{ w with buffer := H ++ crcBytes H ++ p ++ crcBytes p ++ T }, rfl, rfl, ?_, rfl⟩
      simp only
      rw [← hX]
      have := congrArg List.length hB2
      simp only [List.length_append, h12, be_length] at this ⊢
      omega
    · rw [if_pos (by omega)]
      simp only [Option.bind_some]
      rw [if_neg hfit]
      exact ⟨w, rfl, rfl, rfl, rfl⟩

/-- An `IWritable`: writes the bytes `p` when they fit in the destination, and otherwise reports
insufficient space (every SSP21 message is one, by C04). -/
def Writes (payload : Nat → Except FormatError Bytes) (p : Bytes) : Prop :=
  ∀ cap, payload cap = if p.length ≤ cap then .ok p else .error .insufficient_space

/-- The invariant of a frame writer. -/
theorem wreach_inv {addr : Addresses} {m : UInt16} {w : Writer}
    (hw : w.addr = addr ∧ w.maxPayload = m ∧ w.buffer.length = 16 + m.toNat)
    {payload : Nat → Except FormatError Bytes} {p : Bytes} (hp : Writes payload p) :
    ∃ w', w.write payload = some (if p.length ≤ m.toNat
          then .ok (frame addr.destination addr.source p, p) else .error .insufficient_space, w') ∧
      w'.addr = addr ∧ w'.maxPayload = m ∧ w'.buffer.length = 16 + m.toNat := by
  obtain ⟨rfl, rfl, h3⟩ := hw
  have := write_lemma w h3 payload (by
    intro cap x hx
    rw [hp cap] at hx
    split at hx
    · cases hx; assumption
    · cases hx)
  rw [hp] at this
  by_cases hf : p.length ≤ 4 + w.maxPayload.toNat
  · rw [if_pos hf] at this
    obtain ⟨w', e1, e2, e3, e4⟩ := this
    exact ⟨w', e4, e1, e2, by rw [e3, h3]⟩
  · rw [if_neg hf] at this
    exact ⟨w, by rw [if_neg (by omega)]; exact this, rfl, rfl, h3⟩

/-- Any number of earlier writes of any payloads. -/
def writeAll (w : Writer) : List (Nat → Except FormatError Bytes) → Option Writer
  | [] => some w
  | x :: xs => match w.write x with
    | none => none
    | some (_, w') => writeAll w' xs

theorem writeAll_inv {addr : Addresses} {m : UInt16} (ps : List (Nat → Except FormatError Bytes))
    (hps : ∀ x ∈ ps, ∃ p, Writes x p) : ∀ {w : Writer},
    (w.addr = addr ∧ w.maxPayload = m ∧ w.buffer.length = 16 + m.toNat) →
    ∃ w', writeAll w ps = some w' ∧ w'.addr = addr ∧ w'.maxPayload = m ∧ w'.buffer.length = 16 + m.toNat := by
  induction ps with
  | nil => intro w hw; exact ⟨w, rfl, hw⟩
  | cons x xs ih =>
    intro w hw
    obtain ⟨p, hp⟩ := hps x (by simp)
    obtain ⟨w', h1, h2⟩ := wreach_inv hw hp
    simp only [writeAll, h1]
    exact ih (fun y hy => hps y (by simp [hy])) h2

/-- **Writer.** After any earlier use, writing a payload of at most the configured size produces exactly
the specified frame; a larger payload is refused with insufficient space. No access leaves the buffer. -/
theorem C08_writer_emits_frame (addr : Addresses) (m : UInt16)
    (earlier : List (Nat → Except FormatError Bytes)) (he : ∀ x ∈ earlier, ∃ p, Writes x p)
    (payload : Nat → Except FormatError Bytes) (p : Bytes) (hp : Writes payload p) :
    ∃ w w', writeAll (Writer.new addr m) earlier = some w ∧
      w.write payload = some (if p.length ≤ m.toNat
        then .ok (frame addr.destination addr.source p, p)
        else .error .insufficient_space, w') := by
  obtain ⟨w, h1, h2⟩ := writeAll_inv (addr := addr) (m := m) earlier he (w := Writer.new addr m)
    ⟨rfl, rfl, by simp [Writer.new, minFrameSize]⟩
  obtain ⟨w', h3, _⟩ := wreach_inv h2 hp
  exact ⟨w, w', h1, h3⟩

/-- **Round trip.** A parser that was just constructed or reset (after any history), fed a frame with a
payload within its limit followed by anything, reports exactly that frame, and leaves exactly what
followed. -/
theorem C08_frame_round_trip {m : UInt16} {hist : Bytes} {q : Parser} (hq : Reach m hist q)
    (d s : UInt16) (payload rest : Bytes) (hp : payload.length ≤ limit m) :
    ∃ p', q.reset.parse (frame d s payload ++ rest) = some (p', rest, true) ∧
      p'.read = some ⟨d, s, payload⟩ := by
  obtain ⟨a, ha⟩ := reach_reps hq
  obtain ⟨p', h1, h2⟩ := parse_refines (by simp [limit]; omega) (reset_reps ha) (frame d s payload ++ rest)
  rw [run_frame _ (by simp [limit]; omega) d s payload rest hp] at h1 h2
  exact ⟨p', h1, by rw [read_reps h2]; rfl⟩

/-- Writer and parser together: what one station writes, another station parses back. -/
theorem C08_writer_parser (addr : Addresses) (mw mp : UInt16) (p rest : Bytes) (hw : p.length ≤ mw.toNat)
    (hp : p.length ≤ limit mp) :
    ∃ w' f p', (Writer.new addr mw).write (emit p) = some (.ok (f, p), w') ∧
      (Parser.new mp).parse (f ++ rest) = some (p', rest, true) ∧
      p'.read = some ⟨addr.destination, addr.source, p⟩ := by
  obtain ⟨w, w', h1, h2⟩ := C08_writer_emits_frame addr mw [] (by simp) (emit p) p (fun cap => rfl)
  cases h1
  rw [if_pos hw] at h2
  obtain ⟨p', h3, h4⟩ := C08_frame_round_trip (Reach.new (m := mp)) addr.destination addr.source p rest hp
  exact ⟨w', _, p', h2, h3, h4⟩

/-- The hypotheses are satisfiable with the maximum configured payload. -/
example : limit 4092 = 4092 := by decide
example : (List.replicate 4092 (0x55 : UInt8)).length ≤ limit 4092 := by
  rw [List.length_replicate]; decide

/-! ## C12 — resynchronisation -/

theorem run_skip (mx : Nat) (g l : Bytes) (hg : ∀ b ∈ g, b ≠ 0x07) : run mx .sync1 (g ++ l) = run mx .sync1 l := by
  induction g with
  | nil => rfl
  | cons v g ih =>
    have hv : v ≠ Link.sync1 := hg v (by simp)
    rw [List.cons_append, run, if_neg (by simp [A.isRead])]
    have : step mx .sync1 v = .sync1 := by simp [step, scanStep, hv]
    rw [this]
    exact ih (fun b hb => hg b (by simp [hb]))

/-- (a) Bytes other than the first sync byte in front of a frame never prevent its delivery. -/
theorem C12_garbage_skipped {m : UInt16} {hist : Bytes} {q : Parser} (hq : Reach m hist q)
    (g : Bytes) (hg : ∀ b ∈ g, b ≠ 0x07) (d s : UInt16) (payload rest : Bytes)
    (hp : payload.length ≤ limit m) :
    ∃ p', q.reset.parse (g ++ frame d s payload ++ rest) = some (p', rest, true) ∧
      p'.read = some ⟨d, s, payload⟩ := by
  obtain ⟨a, ha⟩ := reach_reps hq
  obtain ⟨p', h1, h2⟩ := parse_refines (by simp [limit]; omega) (reset_reps ha) (g ++ frame d s payload ++ rest)
  rw [List.append_assoc, run_skip _ _ _ hg, run_frame _ (by simp [limit]; omega) d s payload rest hp] at h1 h2
  rw [List.append_assoc]
  exact ⟨p', h1, by rw [read_reps h2]; rfl⟩

/-- (b) After a header with a wrong checksum the parser behaves, on any following bytes, exactly as if
it had just been reset and been given the header bytes after the two sync bytes: a frame that starts
inside them is found. -/
theorem C12_bad_header_rescanned {m : UInt16} {hist : Bytes} {q : Parser} (hq : Reach m hist q)
    (h rest : Bytes) (hl : h.length = 12) (hs : h.take 2 = [0x07, 0xAA])
    (hbad : h.drop 8 ≠ crcBytes (h.take 8)) :
    ∃ p₁ p₂ left avail, q.reset.parse (h ++ rest) = some (p₁, left, avail) ∧
      q.reset.parse (h.drop 2 ++ rest) = some (p₂, left, avail) ∧ Same p₁ p₂ := by
  obtain ⟨a, ha⟩ := reach_reps hq
  have hn : limit m + 16 ≤ 16 + m.toNat := by simp [limit]; omega
  obtain ⟨p₁, f1, f2⟩ := parse_refines hn (reset_reps ha) (h ++ rest)
  obtain ⟨p₂, g1, g2⟩ := parse_refines hn (reset_reps ha) (h.drop 2 ++ rest)
  have key : run (limit m) .sync1 (h ++ rest) = run (limit m) .sync1 (h.drop 2 ++ rest) := by
    have e : h = Link.sync1 :: Link.sync2 :: h.drop 2 := by
      conv => lhs; rw [← List.take_append_drop 2 h, hs]
      rfl
    conv => lhs; rw [e]
    rw [List.cons_append, List.cons_append, run, if_neg (by simp [A.isRead])]
    have s1 : step (limit m) .sync1 Link.sync1 = .sync2 := by simp [step, scanStep]
    have s2 : step (limit m) .sync2 Link.sync2 = .header [Link.sync1, Link.sync2] := by simp [step, scanStep]
    rw [s1, run, if_neg (by simp [A.isRead]), s2,
      run_header_full _ _ _ _ (by simp; omega) (by simp)]
    have e' : [Link.sync1, Link.sync2] ++ h.drop 2 = h := by
      conv => rhs; rw [e]
      rfl
    rw [e']
    unfold finishHeader
    have hd8 : (h.drop 8).length = 4 := by simp; omega
    rw [if_pos (by
      intro hc
      apply hbad
      have h4 : (h.drop 8).take 4 = h.drop 8 := List.take_of_length_le (by omega)
      unfold field at hc
      rw [h4] at hc
      exact (crcBytes_of_field hd8 hc).symm)]
    rw [run_append, rescan_eq _ _ (by simp; omega)]
    simp
  rw [key] at f1 f2
  exact ⟨p₁, p₂, _, _, f1, g1, same_reps hn f2 g2⟩

/-- (b') In particular: a truncated frame of which only `k` bytes of the header arrived, followed directly by a
complete frame whose first `12 - k` bytes complete a header with a wrong checksum: the complete frame is
delivered (the cut must not leave a stray first sync byte pattern in front of it). -/
theorem C12_frame_after_truncated_header {m : UInt16} {hist : Bytes} {q : Parser} (hq : Reach m hist q)
    (cut d s payload rest) (hc2 : 2 ≤ cut.length) (hc : cut.length ≤ 10)
    (hs : cut.take 2 = [0x07, 0xAA]) (hg : ∀ b ∈ cut.drop 2, b ≠ (0x07 : UInt8))
    (hp : payload.length ≤ limit m)
    (hbad : ((cut ++ frame d s payload).take 12).drop 8 ≠ crcBytes ((cut ++ frame d s payload).take 8)) :
    ∃ p', q.reset.parse (cut ++ frame d s payload ++ rest) = some (p', rest, true) ∧
      p'.read = some ⟨d, s, payload⟩ := by
  have hfl := frame_length d s payload
  have hh := C12_bad_header_rescanned hq ((cut ++ frame d s payload).take 12)
    ((cut ++ frame d s payload).drop 12 ++ rest) (by simp; omega)
    (by rw [List.take_take, Nat.min_eq_left (by omega), List.take_append_of_le_length hc2, hs])
    (by rw [List.take_take, Nat.min_eq_left (by omega)]; exact hbad)
  obtain ⟨p₁, p₂, left, avail, e1, e2, e3⟩ := hh
  rw [← List.append_assoc, List.take_append_drop] at e1
  have e4 : ((cut ++ frame d s payload).take 12).drop 2 ++ ((cut ++ frame d s payload).drop 12 ++ rest) =
      cut.drop 2 ++ frame d s payload ++ rest := by
    rw [List.drop_take, ← List.append_assoc]
    congr 1
    have h1 : (cut ++ frame d s payload).drop 12 = ((cut ++ frame d s payload).drop 2).drop (12 - 2) := by
      rw [List.drop_drop]
    rw [h1, List.take_append_drop, List.drop_append_of_le_length hc2]
  rw [e4] at e2
  obtain ⟨p', g1, g2⟩ := C12_garbage_skipped hq (cut.drop 2) hg d s payload rest hp
  rw [g1] at e2
  cases e2
  exact ⟨p₁, e1, by rw [e3.1]; exact g2⟩

/-- (c) A complete frame with a wrong payload checksum is dropped as a whole: the parser continues as if
it had just been reset after it. -/
theorem C12_bad_body_dropped {m : UInt16} {hist : Bytes} {q : Parser} (hq : Reach m hist q)
    (d s : UInt16) (payload crc rest : Bytes) (hp : payload.length ≤ limit m) (hc : crc.length = 4)
    (hbad : crc ≠ crcBytes payload) :
    let H := frameHeader d s (UInt16.ofNat payload.length)
    ∃ p₁ p₂ left avail, q.reset.parse (H ++ crcBytes H ++ payload ++ crc ++ rest) = some (p₁, left, avail) ∧
      q.reset.parse rest = some (p₂, left, avail) ∧ Same p₁ p₂ := by
  intro H
  obtain ⟨a, ha⟩ := reach_reps hq
  have hn : limit m + 16 ≤ 16 + m.toNat := by simp [limit]; omega
  obtain ⟨p₁, f1, f2⟩ := parse_refines hn (reset_reps ha) (H ++ crcBytes H ++ payload ++ crc ++ rest)
  obtain ⟨p₂, g1, g2⟩ := parse_refines hn (reset_reps ha) rest
  have hmx : limit m ≤ 4092 := by simp [limit]; omega
  have key : run (limit m) .sync1 (H ++ crcBytes H ++ payload ++ crc ++ rest) = run (limit m) .sync1 rest := by
    have hpl : (UInt16.ofNat payload.length).toNat = payload.length := by simp; omega
    have hH' : H = Link.sync1 :: Link.sync2 :: (w16 d ++ w16 s ++ w16 (UInt16.ofNat payload.length)) := rfl
    have hHl : H.length = 8 := rfl
    generalize H = H at hH' hHl
    have e : H ++ crcBytes H ++ payload ++ crc ++ rest =
        Link.sync1 :: Link.sync2 :: ((w16 d ++ w16 s ++ w16 (UInt16.ofNat payload.length) ++ crcBytes H) ++ (payload ++ crc ++ rest)) := by
      generalize crcBytes H = C
      rw [hH']
      simp
    rw [e, run, if_neg (by simp [A.isRead])]
    have s1 : step (limit m) .sync1 Link.sync1 = .sync2 := by simp [step, scanStep]
    have s2 : step (limit m) .sync2 Link.sync2 = .header [Link.sync1, Link.sync2] := by simp [step, scanStep]
    rw [s1, run, if_neg (by simp [A.isRead]), s2, run_header_full _ _ _ _ (by simp [w16, crcBytes_length]) (by simp)]
    have e2 : [Link.sync1, Link.sync2] ++ (w16 d ++ w16 s ++ w16 (UInt16.ofNat payload.length) ++ crcBytes H) = H ++ crcBytes H := by
      generalize crcBytes H = C
      rw [hH']
      simp
    rw [e2]
    have hfc := field_crc H H [] hHl
    rw [List.append_nil] at hfc
    have ht8 : (H ++ crcBytes H).take 8 = H := by rw [← hHl, List.take_left]
    have f6 : UInt16.ofNat (field (H ++ crcBytes H) 6 2) = UInt16.ofNat payload.length := by
      have : ((H ++ crcBytes H).drop 6).take 2 = w16 (UInt16.ofNat payload.length) := by rw [hH']; rfl
      unfold field; rw [this, w16_field]
    have fp : plen (H ++ crcBytes H) = payload.length := by unfold plen; rw [f6, hpl]
    have hfin : finishHeader (limit m) (H ++ crcBytes H) = .body (H ++ crcBytes H) [] := by
      unfold finishHeader
      rw [ht8, hfc, if_neg (by simp), if_neg (by rw [fp]; omega)]
    rw [hfin, run_body_full _ _ _ _ _ (by rw [fp]; simp [hc]) (by rw [fp]; simp)]
    unfold finishBody
    simp only [List.nil_append, fp]
    have t1 : (payload ++ crc).take payload.length = payload := List.take_left
    have t2 : (payload ++ crc).drop payload.length = crc := List.drop_left
    have t3 : crc.take 4 = crc := List.take_of_length_le (by omega)
    rw [t1, t2, t3, if_pos (by intro hx; exact hbad (crcBytes_of_field hc hx).symm)]
  rw [key] at f1 f2
  exact ⟨p₁, p₂, _, _, f1, g1, same_reps hn f2 g2⟩

theorem scan_nosync {l : Bytes} (hl : ∀ b ∈ l, b ≠ (0x07 : UInt8)) : l.foldl scanStep .sync1 = .sync1 := by
  induction l with
  | nil => rfl
  | cons v l ih =>
    have hv : v ≠ Link.sync1 := hl v (by simp)
    simp only [List.foldl_cons, scanStep, if_neg hv]
    exact ih (fun b hb => hl b (by simp [hb]))

theorem suffix_overlap {pre pre' a b : Bytes} (h : pre ++ a = pre' ++ b) (hl : a.length ≤ b.length) :
    ∃ x, b = x ++ a := by
  have h1 : a <:+ pre' ++ b := ⟨pre, h⟩
  have h2 : b <:+ pre' ++ b := ⟨pre', rfl⟩
  obtain ⟨x, hx⟩ := List.suffix_of_suffix_length_le h1 h2 hl
  exact ⟨x, hx.symm⟩

theorem suffix_mem {pre pre' a b : Bytes} (h : pre ++ a = pre' ++ b) (hl : b.length ≤ a.length) :
    ∀ x ∈ b, x ∈ a := by
  obtain ⟨x, hx⟩ := suffix_overlap h.symm hl
  intro y hy
  rw [hx]; exact List.mem_append_right _ hy

theorem silence_body {mx : Nat} (l h b : Bytes) (hl : ∀ v ∈ l, v ≠ (0x07 : UInt8)) (hw : A.WF mx (.body h b))
    (hlen : mx + 4 ≤ l.length) :
    (run mx (.body h b) l).1.isRead = true ∨ (run mx (.body h b) l).1 = .sync1 := by
  obtain ⟨w1, w2, w3, w4, w5⟩ := hw
  rw [← List.take_append_drop (plen h + 4 - b.length) l, run_body_full mx h b _ _ (by simp; omega) w5]
  unfold finishBody
  simp only
  split
  · right
    have hs := run_skip mx (l.drop (plen h + 4 - b.length)) [] (fun v hv => hl v (List.mem_of_mem_drop hv))
    rw [List.append_nil] at hs
    rw [hs, run_nil]
  · left; rw [run_read]; rfl

theorem silence_sync1 {mx : Nat} (l : Bytes) (hl : ∀ v ∈ l, v ≠ (0x07 : UInt8)) :
    (run mx .sync1 l).1 = .sync1 := by
  have hs := run_skip mx l [] hl
  rw [List.append_nil] at hs
  rw [hs, run_nil]

theorem silence_header {mx : Nat} (l : Bytes) : ∀ (old sil : Bytes), (∀ v ∈ l, v ≠ (0x07 : UInt8)) →
    (∀ v ∈ sil, v ≠ (0x07 : UInt8)) → A.WF mx (.header (old ++ sil)) → mx + 16 ≤ sil.length + l.length →
    (run mx (.header (old ++ sil)) l).1.isRead = true ∨ (run mx (.header (old ++ sil)) l).1 = .sync1 := by
  induction l with
  | nil =>
    intro old sil hl hs hw hlen
    have := hw.2.1
    simp at this hlen
    omega
  | cons v l ih =>
    intro old sil hl hs hw hlen
    have hwf := step_wf v hw
    obtain ⟨w1, w2, w3⟩ := hw
    have hv : v ≠ 0x07 := hl v (by simp)
    have hl' : ∀ x ∈ l, x ≠ (0x07 : UInt8) := fun x hx => hl x (by simp [hx])
    have hs' : ∀ x ∈ sil ++ [v], x ≠ (0x07 : UInt8) := by
      intro x hx
      rcases List.mem_append.mp hx with h | h
      · exact hs x h
      · simp at h; subst h; exact hv
    simp only [List.length_cons] at hlen
    rw [run, if_neg (by simp [A.isRead])]
    simp only [step] at hwf ⊢
    by_cases hlt : (old ++ sil).length + 1 < 12
    · rw [if_pos hlt] at hwf ⊢
      rw [List.append_assoc] at hwf ⊢
      exact ih old (sil ++ [v]) hl' hs' hwf (by simp; omega)
    · rw [if_neg hlt] at hwf ⊢
      have hsl : sil.length ≤ 11 := by simp at w2; omega
      unfold finishHeader at hwf ⊢
      by_cases hcrc : crcCalc ((old ++ sil ++ [v]).take 8) ≠ UInt32.ofNat (field (old ++ sil ++ [v]) 8 4)
      · rw [if_pos hcrc] at hwf ⊢
        have hsuf := scanl_suffix (mx := mx) ((old ++ sil ++ [v]).drop 2)
          (hist := (old ++ sil ++ [v]).take 2) (a := .sync1) (k := 0) trivial trivial
        rw [List.take_append_drop] at hsuf
        cases hA : ((old ++ sil ++ [v]).drop 2).foldl scanStep .sync1 with
        | sync1 => right; exact silence_sync1 l hl'
        | sync2 =>
          exfalso
          rw [hA] at hsuf
          obtain ⟨pre, hpre⟩ := hsuf
          have := List.append_inj' hpre rfl
          simp at this
          exact hv this.2
        | header h' =>
          rw [hA] at hsuf hwf
          obtain ⟨pre, hpre⟩ := hsuf
          rw [List.append_assoc] at hpre
          have hlong : (sil ++ [v]).length ≤ h'.length := by
            rcases Nat.lt_or_ge h'.length (sil ++ [v]).length with hc | hc
            · exfalso
              have hmem := suffix_mem hpre (by omega)
              have hh : Link.sync1 ∈ h' := by
                apply List.mem_of_mem_take (i := 2)
                rw [hwf.2.2]; simp
              exact hs' _ (hmem _ hh) rfl
            · exact hc
          obtain ⟨x, rfl⟩ := suffix_overlap hpre hlong
          exact ih x (sil ++ [v]) hl' hs' hwf (by simp; omega)
        | body => rw [hA] at hsuf; have := scan_shape (k := 0) (a := .sync1) ((old ++ sil ++ [v]).drop 2) trivial; rw [hA] at this; cases this
        | read => left; rw [run_read]; rfl
      · rw [if_neg hcrc] at hwf ⊢
        by_cases hln : plen (old ++ sil ++ [v]) > mx
        · rw [if_pos hln]; right; exact silence_sync1 l hl'
        · rw [if_neg hln] at hwf ⊢
          exact silence_body l _ _ hl' hwf (by omega)

/-- (d) Bounded recovery: whatever happened before, after 4108 bytes (one maximum-size frame) without
the first sync byte, the parser has either reported a frame or behaves like a freshly reset parser. -/
theorem C12_recovers_after_silence {m : UInt16} {hist : Bytes} {q : Parser} (hq : Reach m hist q)
    (g : Bytes) (hg : ∀ b ∈ g, b ≠ (0x07 : UInt8)) (hlen : 4108 ≤ g.length) :
    ∃ p' rest avail, q.parse g = some (p', rest, avail) ∧
      (avail = true ∨ Same p' q.reset) := by
  obtain ⟨a, ha⟩ := reach_reps hq
  have hn : limit m + 16 ≤ 16 + m.toNat := by simp [limit]; omega
  have hmx : limit m ≤ 4092 := by simp [limit]; omega
  obtain ⟨p', h1, h2⟩ := parse_refines hn ha g
  refine ⟨p', _, _, h1, ?_⟩
  have key : (run (limit m) a g).1.isRead = true ∨ (run (limit m) a g).1 = .sync1 := by
    cases a with
    | sync1 => right; exact silence_sync1 g hg
    | sync2 =>
      cases g with
      | nil => simp at hlen
      | cons v g =>
        have hg' : ∀ x ∈ g, x ≠ (0x07 : UInt8) := fun x hx => hg x (by simp [hx])
        rw [run, if_neg (by simp [A.isRead])]
        simp only [step, scanStep]
        by_cases hv : v = Link.sync2
        · rw [if_pos hv]
          refine silence_header g [Link.sync1] [v] hg' (by simp; exact hg v (by simp)) ⟨by simp, by simp, by simp [hv]⟩ ?_
          simp at hlen ⊢; omega
        · rw [if_neg hv]; right; exact silence_sync1 g hg'
    | header h =>
      have := silence_header (mx := limit m) g h [] hg (by simp) (by simpa using ha.2.2) (by simp; omega)
      simpa using this
    | body h b => exact silence_body g h b hg ha.2.2 (by omega)
    | read f => left; rw [run_read]; rfl
  rcases key with h | h
  · left; exact h
  · right
    rw [h] at h2
    exact same_reps hn h2 (reset_reps ha)

/-- The unrestricted claim is false: a single stray first sync byte directly in front of a frame
swallows the frame (here any frame that contains no further first sync byte). -/
theorem C12_stray_sync_swallows_frame {m : UInt16} {hist : Bytes} {q : Parser} (hq : Reach m hist q)
    (d s : UInt16) (payload : Bytes) (hno : ∀ b ∈ (frame d s payload).tail, b ≠ (0x07 : UInt8)) :
    ∃ p', q.reset.parse (0x07 :: frame d s payload) = some (p', [], false) ∧ p'.read = none := by
  obtain ⟨a, ha⟩ := reach_reps hq
  obtain ⟨p', h1, h2⟩ := parse_refines (by simp [limit]; omega) (reset_reps ha) (0x07 :: frame d s payload)
  have hf : frame d s payload = Link.sync1 :: (frame d s payload).tail := by
    unfold frame frameHeader; rfl
  have key : run (limit m) .sync1 (0x07 :: frame d s payload) = (.sync1, []) := by
    rw [hf, run, if_neg (by simp [A.isRead])]
    have s1 : step (limit m) .sync1 0x07 = .sync2 := by simp [step, scanStep, Link.sync1]
    have s2 : step (limit m) .sync2 Link.sync1 = .sync1 := by simp [step, scanStep, Link.sync1, Link.sync2]
    rw [s1, run, if_neg (by simp [A.isRead]), s2]
    have hs := run_skip (limit m) _ [] hno
    rw [List.append_nil] at hs
    rw [hs, run_nil]
  rw [key] at h1 h2
  exact ⟨p', h1, by rw [read_reps h2]; rfl⟩

/-- Such frames exist. -/
example : ∀ b ∈ (frame 1 10 [1, 2, 3]).tail, b ≠ (0x07 : UInt8) := by decide +kernel
/-- A truncated header followed by a frame, as in (b'). -/
example : let cut : Bytes := [0x07, 0xAA, 0x00, 0x01]
    ((cut ++ frame 1 10 [1, 2]).take 12).drop 8 ≠ crcBytes ((cut ++ frame 1 10 [1, 2]).take 8) := by
  decide +kernel

end SSP21.Link
