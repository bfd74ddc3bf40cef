import Verif.LinkParser
import Verif.Spec.Frame
/-
  A byte-at-a-time automaton without buffers, and the proof that the buffer-level parser of
  LinkParser.lean implements it. This file is proof scaffolding: the properties in Props/Link.lean are
  stated about the parser itself.
-/
namespace SSP21.Link

theorem slice_some {buf : Bytes} {off n : Nat} (h : off + n ≤ buf.length) :
    slice buf off n = some ((buf.drop off).take n) := if_pos h

theorem overwrite_some {buf : Bytes} {off : Nat} {src : Bytes} (h : off + src.length ≤ buf.length) :
    overwrite buf off src = some (buf.take off ++ src ++ buf.drop (off + src.length)) := if_pos h

theorem parseLoop_done (r : Ctx → Input → Res) (fuel : Nat) (st : PState) (ctx : Ctx) (inp : Input)
    (h : inp.length = 0 ∨ st.value = .wait_read) : parseLoop r fuel st ctx inp = some (st, ctx, inp) := by
  unfold parseLoop; rw [if_pos h]

theorem parseLoop_step (r : Ctx → Input → Res) (fuel : Nat) (st : PState) (ctx : Ctx) (inp : Input)
    (h : ¬ (inp.length = 0 ∨ st.value = .wait_read)) : parseLoop r (fuel + 1) st ctx inp =
      (parseOne r st ctx inp).bind fun (st', ctx', inp') => parseLoop r fuel st' ctx' inp' := by
  conv => lhs; unfold parseLoop
  rw [if_neg h]

/-- States of the automaton. `header h`: the bytes received so far of a header (2 ≤ |h| < 12);
`body h b`: a complete valid header and the body bytes so far. -/
inductive A
  | sync1 | sync2
  | header (h : Bytes)
  | body (h b : Bytes)
  | read (f : Frame)

/-- Big-endian number at an offset. -/
def field (h : Bytes) (off n : Nat) : Nat := beNat ((h.drop off).take n)

/-- The payload length announced by a header. -/
def plen (h : Bytes) : Nat := (UInt16.ofNat (field h 6 2)).toNat

/-- The scanning part of the automaton (used for a rejected header, at most ten bytes). -/
def scanStep (a : A) (v : UInt8) : A :=
  match a with
  | .sync1 => if v = sync1 then .sync2 else .sync1
  | .sync2 => if v = sync2 then .header [sync1, v] else .sync1
  | .header h => .header (h ++ [v])
  | a => a

def finishHeader (mx : Nat) (h : Bytes) : A :=
  if crcCalc (h.take 8) ≠ UInt32.ofNat (field h 8 4) then (h.drop 2).foldl scanStep .sync1
  else if plen h > mx then .sync1
  else .body h []

def finishBody (h b : Bytes) : A :=
  let n := plen h
  if crcCalc (b.take n) ≠ UInt32.ofNat (beNat ((b.drop n).take 4)) then .sync1
  else .read ⟨UInt16.ofNat (field h 2 2), UInt16.ofNat (field h 4 2), b.take n⟩

def step (mx : Nat) (a : A) (v : UInt8) : A :=
  match a with
  | .sync1 => scanStep a v
  | .sync2 => scanStep a v
  | .header h => if h.length + 1 < 12 then .header (h ++ [v]) else finishHeader mx (h ++ [v])
  | .body h b =>
    if b.length + 1 < plen h + 4 then .body h (b ++ [v])
    else finishBody h (b ++ [v])
  | .read f => .read f

def A.isRead : A → Bool
  | .read _ => true
  | _ => false

/-- Run until a frame is available or the input is used up. -/
def run (mx : Nat) : A → Bytes → A × Bytes
  | a, [] => (a, [])
  | a, v :: l => if a.isRead then (a, v :: l) else run mx (step mx a v) l

/-- Well-formed automaton states. -/
def A.WF (mx : Nat) : A → Prop
  | .header h => 2 ≤ h.length ∧ h.length < 12 ∧ h.take 2 = [Link.sync1, Link.sync2]
  | .body h b => h.length = 12 ∧ h.take 2 = [Link.sync1, Link.sync2] ∧
      crcCalc (h.take 8) = UInt32.ofNat (field h 8 4) ∧
      plen h ≤ mx ∧ b.length < plen h + 4
  | _ => True

/-- The relation between the parser and the automaton. -/
def Rel (st : PState) (ctx : Ctx) : A → Prop
  | .sync1 => st.value = .wait_sync1
  | .sync2 => st.value = .wait_sync2 ∧ ctx.buf.take 1 = [Link.sync1]
  | .header h => st.value = .wait_header ∧ st.num = h.length ∧ ctx.buf.take st.num = h
  | .body h b => st.value = .wait_body ∧ st.num = 12 + b.length ∧ ctx.buf.take st.num = h ++ b ∧
      ctx.dest = UInt16.ofNat (field h 2 2) ∧ ctx.src = UInt16.ofNat (field h 4 2) ∧
      ctx.len = UInt16.ofNat (field h 6 2)
  | .read f => st.value = .wait_read ∧ ctx.dest = f.destination ∧ ctx.src = f.source ∧
      (ctx.buf.drop ctx.payloadOff).take ctx.payloadLen = f.payload

/-- What never changes. -/
def CtxOK (mx n : Nat) (ctx : Ctx) : Prop := ctx.maxPayload = mx ∧ ctx.buf.length = n

theorem rel_isRead {st ctx a} (h : Rel st ctx a) : (st.value = .wait_read) ↔ a.isRead = true := by
  cases a <;> simp [Rel, A.isRead] at * <;> simp_all

/-! ### bulk steps of the automaton -/

theorem run_nil (mx : Nat) (a : A) : run mx a [] = (a, []) := by
  unfold run; rfl

theorem run_read (mx : Nat) (f : Frame) (l : Bytes) : run mx (.read f) l = (.read f, l) := by
  cases l <;> simp [run, A.isRead]

theorem run_append (mx : Nat) (a : A) (l l' : Bytes) :
    run mx a (l ++ l') =
      let (a', r) := run mx a l
      if r = [] then run mx a' l' else (a', r ++ l') := by
  induction l generalizing a with
  | nil => simp [run_nil]
  | cons v l ih =>
    simp only [List.cons_append]
    by_cases hr : a.isRead = true
    · cases a <;> simp [A.isRead] at hr
      rw [run_read, run_read]; simp
    · have e1 : run mx a (v :: (l ++ l')) = run mx (step mx a v) (l ++ l') := by
        rw [run]; simp [hr]
      have e2 : run mx a (v :: l) = run mx (step mx a v) l := by
        rw [run]; simp [hr]
      rw [e1, e2, ih]

theorem run_header_short (mx : Nat) (h l : Bytes) (hl : h.length + l.length < 12) :
    run mx (.header h) l = (.header (h ++ l), []) := by
  induction l generalizing h with
  | nil => simp [run_nil]
  | cons v l ih =>
    simp only [List.length_cons] at hl
    rw [run]
    have : step mx (.header h) v = .header (h ++ [v]) := by
      simp only [step]; rw [if_pos (by omega)]
    simp only [A.isRead, Bool.false_eq_true, if_false, this]
    rw [ih _ (by simp; omega)]
    simp

theorem run_header_full (mx : Nat) (h l r : Bytes) (hl : h.length + l.length = 12) (hh : h.length < 12) :
    run mx (.header h) (l ++ r) = run mx (finishHeader mx (h ++ l)) r := by
  induction l generalizing h with
  | nil => simp at hl; omega
  | cons v l ih =>
    simp only [List.length_cons] at hl
    simp only [List.cons_append]
    rw [run]
    simp only [A.isRead, Bool.false_eq_true, if_false, step]
    by_cases hx : h.length + 1 < 12
    · rw [if_pos hx, ih _ (by simp; omega) (by simp; omega)]
      simp
    · rw [if_neg hx]
      have : l = [] := List.eq_nil_of_length_eq_zero (by omega)
      subst this; simp

theorem run_body_short (mx : Nat) (h b l : Bytes)
    (hl : b.length + l.length < plen h + 4) :
    run mx (.body h b) l = (.body h (b ++ l), []) := by
  induction l generalizing b with
  | nil => simp [run_nil]
  | cons v l ih =>
    simp only [List.length_cons] at hl
    rw [run]
    have : step mx (.body h b) v = .body h (b ++ [v]) := by
      simp only [step]; rw [if_pos (by omega)]
    simp only [A.isRead, Bool.false_eq_true, if_false, this]
    rw [ih _ (by simp; omega)]
    simp

theorem run_body_full (mx : Nat) (h b l r : Bytes)
    (hl : b.length + l.length = plen h + 4)
    (hb : b.length < plen h + 4) :
    run mx (.body h b) (l ++ r) = run mx (finishBody h (b ++ l)) r := by
  induction l generalizing b with
  | nil => simp at hl; omega
  | cons v l ih =>
    simp only [List.length_cons] at hl
    simp only [List.cons_append]
    rw [run]
    simp only [A.isRead, Bool.false_eq_true, if_false, step]
    by_cases hx : b.length + 1 < plen h + 4
    · rw [if_pos hx, ih _ (by simp; omega) (by simp; omega)]
      simp
    · rw [if_neg hx]
      have : l = [] := List.eq_nil_of_length_eq_zero (by omega)
      subst this; simp

/-! ### the scanning automaton on at most ten bytes -/

theorem scan_header (h l : Bytes) : l.foldl scanStep (.header h) = .header (h ++ l) := by
  induction l generalizing h with
  | nil => simp
  | cons v l ih => simp only [List.foldl_cons, scanStep]; rw [ih]; simp

/-- Shape of the states reachable by scanning. -/
def ScanShape (k : Nat) : A → Prop
  | .sync1 => True
  | .sync2 => 1 ≤ k
  | .header h => 2 ≤ h.length ∧ h.length ≤ k ∧ h.take 2 = [Link.sync1, Link.sync2]
  | _ => False

theorem scanStep_shape {k : Nat} {a : A} (v : UInt8) (h : ScanShape k a) : ScanShape (k + 1) (scanStep a v) := by
  cases a with
  | sync1 =>
    simp only [scanStep]
    split <;> simp [ScanShape]
  | sync2 =>
    simp only [ScanShape] at h
    simp only [scanStep]
    by_cases hv : v = Link.sync2
    · rw [if_pos hv]; exact ⟨by simp, by simp; omega, by simp [hv]⟩
    · rw [if_neg hv]; trivial
  | header h' =>
    obtain ⟨h1, h2, h3⟩ := h
    refine ⟨by simp; omega, by simp; omega, ?_⟩
    rw [List.take_append_of_le_length h1]; exact h3
  | body => cases h
  | read => cases h

theorem scan_shape {k : Nat} {a : A} (l : Bytes) (h : ScanShape k a) :
    ScanShape (k + l.length) (l.foldl scanStep a) := by
  induction l generalizing k a with
  | nil => simpa using h
  | cons v l ih =>
    have := ih (scanStep_shape v h)
    simp only [List.foldl_cons, List.length_cons]
    rwa [show k + (l.length + 1) = k + 1 + l.length by omega]

theorem run_scan (mx : Nat) {k : Nat} {a : A} (l : Bytes) (h : ScanShape k a) (hk : k + l.length < 12) :
    run mx a l = (l.foldl scanStep a, []) := by
  induction l generalizing k a with
  | nil => simp [run_nil]
  | cons v l ih =>
    simp only [List.length_cons] at hk
    have hs : step mx a v = scanStep a v := by
      cases a with
      | sync1 => rfl
      | sync2 => rfl
      | header h' =>
        have := h.2.1
        simp only [step, scanStep]; rw [if_pos (by omega)]
      | body => cases h
      | read => rfl
    have hr : a.isRead = false := by cases a <;> first | rfl | cases h
    rw [run]
    simp only [hr, Bool.false_eq_true, if_false, List.foldl_cons, hs]
    exact ih (scanStep_shape v h) (by omega)

/-- After a rejected header, the automaton continues as if only the ten bytes after the sync bytes had
been received. -/
theorem rescan_eq (mx : Nat) (l : Bytes) (hl : l.length < 12) :
    run mx .sync1 l = (l.foldl scanStep .sync1, []) :=
  run_scan mx (k := 0) l trivial (by omega)

/-! ### buffer lemmas -/

theorem take_overwrite {buf : Bytes} {k : Nat} {src : Bytes} (h : k + src.length ≤ buf.length) :
    (buf.take k ++ src ++ buf.drop (k + src.length)).take (k + src.length) = buf.take k ++ src := by
  have hl : (buf.take k ++ src).length = k + src.length := by simp; omega
  rw [← hl, List.take_left]

theorem length_overwrite {buf : Bytes} {k : Nat} {src : Bytes} (h : k + src.length ≤ buf.length) :
    (buf.take k ++ src ++ buf.drop (k + src.length)).length = buf.length := by
  simp; omega

theorem take_of_take {b : Bytes} {n : Nat} {h : Bytes} (e : b.take n = h) (k : Nat) (hk : k ≤ n) :
    b.take k = h.take k := by
  rw [← e, List.take_take, Nat.min_eq_left hk]

theorem slice_of_take {b h : Bytes} {n : Nat} (e : b.take n = h) (hn : n ≤ b.length) (off k : Nat) (hk : off + k ≤ n) :
    slice b off k = some ((h.drop off).take k) := by
  rw [slice_some (by omega), ← e, List.drop_take, List.take_take, Nat.min_eq_left (by omega)]

/-! ### the rescan on the parser's own buffer -/

/-- The unread part of the input is the slice `[pos, 12)` of the buffer. -/
def SelfView (ctx : Ctx) (pos len : Nat) (l : Bytes) : Prop :=
  (ctx.buf.drop pos).take len = l ∧ pos + len = 12 ∧ 12 ≤ ctx.buf.length

theorem selfView_len {ctx pos len l} (h : SelfView ctx pos len l) : l.length = len := by
  obtain ⟨h1, h2, h3⟩ := h
  rw [← h1]; simp; omega

theorem selfView_head {ctx pos len v l} (h : SelfView ctx pos len (v :: l)) :
    Input.head ctx.buf (.self pos len) = some v := by
  have hl := selfView_len h
  obtain ⟨h1, h2, h3⟩ := h
  simp only [List.length_cons] at hl
  unfold Input.head Input.take
  simp only
  rw [if_pos (by omega), slice_some (by omega)]
  have := congrArg (fun x => x.take 1) h1
  simp only [List.take_take, Nat.min_eq_left (show 1 ≤ len by omega)] at this
  simp [this]

theorem selfView_advance {ctx pos len v l} (h : SelfView ctx pos len (v :: l)) :
    SelfView ctx (pos + 1) (len - 1) l := by
  have hl := selfView_len h
  obtain ⟨h1, h2, h3⟩ := h
  simp only [List.length_cons] at hl
  refine ⟨?_, by omega, h3⟩
  have := congrArg (fun x => x.drop 1) h1
  simp only [List.drop_take, List.drop_drop, List.drop_one, List.tail_cons] at this
  exact this

theorem selfView_set {ctx pos len l} (h : SelfView ctx pos len l) (i : Nat) (v : UInt8) (hi : i < pos) :
    SelfView { ctx with buf := ctx.buf.set i v } pos len l := by
  obtain ⟨h1, h2, h3⟩ := h
  refine ⟨?_, h2, by simpa using h3⟩
  simp only
  rw [List.drop_set_of_lt hi]
  exact h1

/-- Relation between parser and automaton while scanning the own buffer: as `Rel`, and the buffered
bytes stay at least two positions behind the read position. -/
def ScanRel (st : PState) (ctx : Ctx) (pos : Nat) (a : A) : Prop :=
  Rel st ctx a ∧ ScanShape (pos - 2) a ∧ 2 ≤ pos ∧ (a = .sync1 → st = .sync1) ∧ (a = .sync2 → st = .sync2)

theorem parseSync1_self {mx n : Nat} (l : Bytes) : ∀ (ctx : Ctx) (pos len : Nat), CtxOK mx n ctx →
    SelfView ctx pos len l → 2 ≤ pos → 12 ≤ n →
    ∃ st' ctx' pos' len' l', parseSync1 len ctx (.self pos len) = some (st', ctx', .self pos' len') ∧
      CtxOK mx n ctx' ∧ SelfView ctx' pos' len' l' ∧ (l'.length < l.length ∨ l = [] ∧ l' = []) ∧
      ∃ a', ScanRel st' ctx' pos' a' ∧ l'.foldl scanStep a' = l.foldl scanStep .sync1 := by
  induction l with
  | nil =>
    intro ctx pos len hc hv hp hn
    have hl := selfView_len hv
    simp only [List.length_nil] at hl
    subst hl
    refine ⟨_, _, _, _, [], rfl, hc, hv, Or.inr ⟨rfl, rfl⟩, .sync1, ⟨rfl, trivial, hp, fun _ => rfl, fun h => by cases h⟩, rfl⟩
  | cons v l ih =>
    intro ctx pos len hc hv hp hn
    have hl := selfView_len hv
    simp only [List.length_cons] at hl
    obtain ⟨len, rfl⟩ : ∃ k, len = k + 1 := ⟨l.length, by omega⟩
    unfold parseSync1
    rw [selfView_head hv]
    simp only [Option.bind_some]
    have hv' := selfView_advance hv
    by_cases hs : v = sync1
    · rw [if_pos hs]
      have h0 : 0 < ctx.buf.length := by rw [hc.2]; omega
      rw [setAt, if_pos h0]
      simp only [Option.bind_some, Input.advance]
      refine ⟨_, _, _, _, l, rfl, ?_, selfView_set hv' 0 v (by omega), Or.inl (by simp), .sync2, ?_, ?_⟩
      · exact ⟨hc.1, by simpa using hc.2⟩
      · refine ⟨⟨rfl, ?_⟩, by simp only [ScanShape]; omega, by omega, (fun h => by cases h), fun _ => rfl⟩
        simp only
        cases hb : ctx.buf with
        | nil => rw [hb] at h0; simp at h0
        | cons => simp [hs]
      · simp only [List.foldl_cons, scanStep, hs, if_true]
    · rw [if_neg hs]
      obtain ⟨st', ctx', pos', len', l', e1, e2, e3, e4, a', e5, e6⟩ :=
        ih ctx (pos + 1) len hc (by simpa using hv') (by omega) hn
      refine ⟨st', ctx', pos', len', l', ?_, e2, e3, ?_, a', e5, ?_⟩
      · simp only [Input.advance]; simpa using e1
      · left
        rcases e4 with h | ⟨h1, h2⟩
        · simp; omega
        · subst h2; simp
      · rw [e6]; simp only [List.foldl_cons, scanStep, hs, if_false]

theorem transfer_self {mx n : Nat} {st : PState} {ctx : Ctx} {pos len : Nat} {l : Bytes}
    (hc : CtxOK mx n ctx) (hv : SelfView ctx pos len l) (hnum : st.num + 2 ≤ pos) (hn : 12 ≤ n) :
    ∃ ctx', transferData st ctx (.self pos len) headerTotalSize = some (len + st.num, ctx', .self (pos + len) 0) ∧
      CtxOK mx n ctx' ∧ ctx'.buf.take (len + st.num) = ctx.buf.take st.num ++ l ∧
      SelfView ctx' (pos + len) 0 [] := by
  have hl := selfView_len hv
  obtain ⟨h1, h2, h3⟩ := hv
  unfold transferData
  rw [if_neg (by simp [headerTotalSize]; omega)]
  have hmin : min (headerTotalSize - st.num) (Input.self pos len).length = len := by
    simp [headerTotalSize, Input.length]; omega
  simp only [hmin]
  have ht : Input.take ctx.buf (.self pos len) len = some l := by
    unfold Input.take; simp only
    rw [if_pos (Nat.le_refl _), slice_some (by omega), h1]
  rw [ht]
  simp only [Option.bind_some]
  rw [overwrite_some (by omega)]
  simp only [Option.bind_some, Input.advance, Nat.sub_self]
  refine ⟨_, rfl, ⟨hc.1, ?_⟩, ?_, ?_, ?_, ?_⟩
  · simp only; rw [length_overwrite (by omega)]; exact hc.2
  · simp only
    rw [show len + st.num = st.num + l.length by omega, take_overwrite (by omega)]
  · simp
  · omega
  · simp only; rw [length_overwrite (by omega)]; exact h3

/-- Scanning a rejected header never faults and computes the scanning automaton. -/
theorem parseLoop_self {mx n : Nat} (hn : 16 ≤ n) (rescan : Ctx → Input → Res) :
    ∀ (fuel : Nat) (l : Bytes) (st : PState) (ctx : Ctx) (pos len : Nat) (a : A),
      CtxOK mx n ctx → SelfView ctx pos len l → ScanRel st ctx pos a → l.length ≤ fuel →
      ∃ st' ctx' inp', parseLoop rescan fuel st ctx (.self pos len) = some (st', ctx', inp') ∧
        CtxOK mx n ctx' ∧ Rel st' ctx' (l.foldl scanStep a) := by
  intro fuel
  induction fuel with
  | zero =>
    intro l st ctx pos len a hc hv hr hf
    have : l = [] := List.eq_nil_of_length_eq_zero (by omega)
    subst this
    have hl := selfView_len hv
    simp only [List.length_nil] at hl
    subst hl
    rw [parseLoop_done _ _ _ _ _ (Or.inl rfl)]
    exact ⟨_, _, _, rfl, hc, hr.1⟩
  | succ fuel ih =>
    intro l st ctx pos len a hc hv hr hf
    have hl := selfView_len hv
    cases l with
    | nil =>
      simp only [List.length_nil] at hl
      subst hl
      rw [parseLoop_done _ _ _ _ _ (Or.inl rfl)]
      exact ⟨_, _, _, rfl, hc, hr.1⟩
    | cons v l =>
      obtain ⟨hrel, hsh, hp, hs1, hs2⟩ := hr
      have hnr : ¬ st.value = .wait_read := by
        intro h
        have := (rel_isRead hrel).mp h
        cases a <;> simp [A.isRead, ScanShape] at *
      simp only [List.length_cons] at hl hf
      rw [parseLoop_step _ _ _ _ _ (by
        simp only [Input.length]; intro h
        rcases h with h | h
        · omega
        · exact hnr h)]
      cases a with
      | sync1 =>
        have hst := hs1 rfl
        subst hst
        obtain ⟨st', ctx', pos', len', l', e1, e2, e3, e4, a', e5, e6⟩ :=
          parseSync1_self (mx := mx) (n := n) (v :: l) ctx pos len hc hv hp (by omega)
        simp only [parseOne, PState.sync1, Input.length, e1, Option.bind_some]
        have : l'.length ≤ fuel := by
          rcases e4 with h | ⟨h, _⟩
          · simp only [List.length_cons] at h; omega
          · cases h
        obtain ⟨st2, ctx2, inp2, f1, f2, f3⟩ := ih l' st' ctx' pos' len' a' e2 e3 e5 this
        exact ⟨st2, ctx2, inp2, f1, f2, by rw [← e6]; exact f3⟩
      | sync2 =>
        have hst := hs2 rfl
        subst hst
        simp only [parseOne, PState.sync2, parseSync2, selfView_head hv, Option.bind_some]
        have hv' := selfView_advance hv
        by_cases h2 : v = sync2
        · rw [if_pos h2, setAt, if_pos (by rw [hc.2]; omega)]
          simp only [Option.bind_some, Input.advance]
          have hpos : 3 ≤ pos := by simp only [ScanShape] at hsh; omega
          obtain ⟨st2, ctx2, inp2, f1, f2, f3⟩ := ih l ⟨.wait_header, 2⟩ { ctx with buf := ctx.buf.set 1 v }
            (pos + 1) (len - 1) (.header [sync1, v]) ⟨hc.1, by simpa using hc.2⟩
            (selfView_set hv' 1 v (by omega))
            ⟨⟨rfl, rfl, by
                have := hrel.2
                simp only
                cases hb : ctx.buf with
                | nil => rw [hb] at this; simp at this
                | cons x t =>
                  rw [hb] at this
                  simp at this
                  cases t with
                  | nil => have := hc.2; rw [hb] at this; simp at this; omega
                  | cons y t => simp [this]⟩,
             by refine ⟨by simp, ?_, by simp [h2]⟩; simp; omega, by omega, (fun h => by cases h), (fun h => by cases h)⟩ (by omega)
          refine ⟨st2, ctx2, inp2, f1, f2, ?_⟩
          simpa only [List.foldl_cons, scanStep, h2, if_true] using f3
        · rw [if_neg h2]
          simp only [Option.bind_some, Input.advance]
          obtain ⟨st2, ctx2, inp2, f1, f2, f3⟩ := ih l .sync1 ctx (pos + 1) (len - 1) .sync1 hc hv'
            ⟨rfl, trivial, by omega, fun _ => rfl, fun h => by cases h⟩ (by omega)
          refine ⟨st2, ctx2, inp2, f1, f2, ?_⟩
          simpa only [List.foldl_cons, scanStep, h2, if_false] using f3
      | header h =>
        obtain ⟨r1, r2, r3⟩ := hrel
        obtain ⟨s1, s2, s3⟩ := hsh
        obtain ⟨ctx', t1, t2, t3, t4⟩ := transfer_self (st := st) hc hv (by omega) (by omega)
        have hlen : st.num + (l.length + 1) ≤ 10 := by have := hv.2.1; omega
        simp only [parseOne, r1, parseHeader, t1, Option.bind_some]
        rw [if_pos (by simp [headerTotalSize]; omega)]
        simp only [Option.bind_some]
        rw [parseLoop_done _ _ _ _ _ (Or.inl rfl)]
        refine ⟨_, _, _, rfl, t2, ?_⟩
        rw [scan_header]
        refine ⟨rfl, ?_, ?_⟩
        · simp; omega
        · simp only; rw [t3, r3]
      | body => cases hsh
      | read => cases hsh

theorem parseMany_self {mx n : Nat} (hn : 16 ≤ n) (d : Nat) (ctx : Ctx) (hc : CtxOK mx n ctx) (h : Bytes)
    (hh : ctx.buf.take 12 = h) :
    ∃ st' ctx' inp', parseMany (d + 1) .sync1 ctx (.self 2 10) = some (st', ctx', inp') ∧
        CtxOK mx n ctx' ∧ Rel st' ctx' ((h.drop 2).foldl scanStep .sync1) := by
  unfold parseMany
  apply parseLoop_self hn _ _ _ _ _ _ _ _ hc
  · refine ⟨?_, rfl, ?_⟩
    · rw [← hh, List.drop_take]
    · rw [hc.2]; omega
  · exact ⟨rfl, trivial, by omega, fun _ => rfl, fun h => by cases h⟩
  · simp only [Input.length, List.length_drop]
    have : h.length ≤ 12 := by rw [← hh]; simp; omega
    omega

/-! ### parsing caller input -/

theorem ext_head (buf : Bytes) (v : UInt8) (l : Bytes) : Input.head buf (.ext (v :: l)) = some v := by
  simp [Input.head, Input.take, slice]

theorem parseSync1_ext {mx n : Nat} (hn : 16 ≤ n) (l : Bytes) : ∀ (ctx : Ctx), CtxOK mx n ctx →
    ∃ st' ctx' l', parseSync1 l.length ctx (.ext l) = some (st', ctx', .ext l') ∧
      CtxOK mx n ctx' ∧ (l'.length < l.length ∨ l = [] ∧ l' = []) ∧
      ∃ a', Rel st' ctx' a' ∧ A.WF mx a' ∧ run mx a' l' = run mx .sync1 l := by
  induction l with
  | nil =>
    intro ctx hc
    exact ⟨_, _, [], rfl, hc, Or.inr ⟨rfl, rfl⟩, .sync1, rfl, trivial, rfl⟩
  | cons v l ih =>
    intro ctx hc
    simp only [List.length_cons]
    unfold parseSync1
    rw [ext_head]
    simp only [Option.bind_some, Input.advance, List.drop_one, List.tail_cons]
    by_cases hs : v = sync1
    · have h0 : 0 < ctx.buf.length := by rw [hc.2]; omega
      rw [if_pos hs, setAt, if_pos h0]
      simp only [Option.bind_some]
      refine ⟨_, _, l, rfl, ⟨hc.1, by simpa using hc.2⟩, Or.inl (by omega), .sync2, ⟨rfl, ?_⟩, trivial, ?_⟩
      · simp only
        cases hb : ctx.buf with
        | nil => rw [hb] at h0; simp at h0
        | cons => simp [hs]
      · conv => rhs; rw [run]
        simp [A.isRead, step, scanStep, hs]
    · rw [if_neg hs]
      obtain ⟨st', ctx', l', e1, e2, e3, a', e4, e5, e6⟩ := ih ctx hc
      refine ⟨st', ctx', l', e1, e2, Or.inl ?_, a', e4, e5, ?_⟩
      · rcases e3 with h | ⟨h1, h2⟩
        · omega
        · subst h2; simp
      · rw [e6]
        conv => rhs; rw [run]
        simp [A.isRead, step, scanStep, hs]

theorem transfer_ext {mx n : Nat} {st : PState} {ctx : Ctx} (l : Bytes) (max : Nat)
    (hc : CtxOK mx n ctx) (hnum : st.num ≤ max) (hn : max ≤ n) :
    ∃ ctx', transferData st ctx (.ext l) max =
        some (min (max - st.num) l.length + st.num, ctx', .ext (l.drop (max - st.num))) ∧
      ctx' = { ctx with buf := ctx'.buf } ∧ ctx'.buf.length = n ∧
      ctx'.buf.take (min (max - st.num) l.length + st.num) = ctx.buf.take st.num ++ l.take (max - st.num) := by
  unfold transferData
  rw [if_neg (by omega)]
  have hb : ctx.buf.length = n := hc.2
  simp only [Input.length]
  have ht : Input.take ctx.buf (.ext l) (min (max - st.num) l.length) = some (l.take (max - st.num)) := by
    unfold Input.take; simp only
    rw [slice_some (by omega), List.drop_zero, Option.some.injEq, List.take_eq_take_iff]
    omega
  rw [ht]
  have hlen : (l.take (max - st.num)).length = min (max - st.num) l.length := by simp
  simp only [Option.bind_some]
  rw [overwrite_some (by omega)]
  simp only [Option.bind_some, Input.advance]
  refine ⟨{ ctx with buf := ctx.buf.take st.num ++ l.take (max - st.num) ++ ctx.buf.drop (st.num + (l.take (max - st.num)).length) }, ?_, rfl, ?_, ?_⟩
  rotate_left
  · simp only; rw [length_overwrite (by omega)]; exact hb
  · simp only
    rw [show min (max - st.num) l.length + st.num = st.num + (l.take (max - st.num)).length by omega,
      take_overwrite (by omega)]
  · congr 4
    apply List.ext_getElem?
    intro i
    rw [List.getElem?_drop, List.getElem?_drop]
    by_cases h : max - st.num ≤ l.length
    · rw [Nat.min_eq_left h]
    · rw [List.getElem?_eq_none (by omega), List.getElem?_eq_none (by omega)]

theorem finishHeader_wf (mx : Nat) (h : Bytes) (hl : h.length = 12) (h2 : h.take 2 = [sync1, sync2]) :
    A.WF mx (finishHeader mx h) := by
  unfold finishHeader
  split
  · have := scan_shape (k := 0) (a := .sync1) (h.drop 2) trivial
    simp only [List.length_drop, hl] at this
    cases ha : (h.drop 2).foldl scanStep .sync1 with
    | sync1 => trivial
    | sync2 => trivial
    | header h' =>
      rw [ha] at this
      obtain ⟨a1, a2, a3⟩ := this
      exact ⟨a1, by omega, a3⟩
    | body => rw [ha] at this; cases this
    | read => trivial
  · rename_i hcrc
    split
    · trivial
    · rename_i hlen
      refine ⟨hl, h2, by simpa using hcrc, by omega, by simp⟩

theorem finishBody_wf (mx : Nat) (h b : Bytes) : A.WF mx (finishBody h b) := by
  simp only [finishBody]
  split <;> trivial

/-- The parser implements the automaton on caller input, without faults. -/
theorem parseLoop_ext {mx n : Nat} (hn : mx + 16 ≤ n) (d : Nat) :
    ∀ (fuel : Nat) (l : Bytes) (st : PState) (ctx : Ctx) (a : A),
      CtxOK mx n ctx → Rel st ctx a → A.WF mx a → l.length ≤ fuel →
      ∃ st' ctx' rest a', parseLoop (fun ctx inp => parseMany (d + 1) .sync1 ctx inp) fuel st ctx (.ext l) =
          some (st', ctx', .ext rest) ∧
        CtxOK mx n ctx' ∧ run mx a l = (a', rest) ∧ Rel st' ctx' a' ∧ A.WF mx a' := by
  intro fuel
  induction fuel with
  | zero =>
    intro l st ctx a hc hr hw hf
    have : l = [] := List.eq_nil_of_length_eq_zero (by omega)
    subst this
    rw [parseLoop_done _ _ _ _ _ (Or.inl rfl)]
    exact ⟨_, _, _, _, rfl, hc, run_nil _ _, hr, hw⟩
  | succ fuel ih =>
    intro l st ctx a hc hr hw hf
    by_cases hl0 : l = []
    · subst hl0
      rw [parseLoop_done _ _ _ _ _ (Or.inl rfl)]
      exact ⟨_, _, _, _, rfl, hc, run_nil _ _, hr, hw⟩
    have hlpos : 0 < l.length := List.length_pos_iff.mpr hl0
    cases a with
    | read f =>
      rw [parseLoop_done _ _ _ _ _ (Or.inr hr.1)]
      exact ⟨_, _, _, _, rfl, hc, run_read _ _ _, hr, hw⟩
    | sync1 =>
      have hv : st.value = .wait_sync1 := hr
      rw [parseLoop_step _ _ _ _ _ (by rw [hv]; simp [Input.length]; exact hl0)]
      simp only [parseOne, hv, Input.length]
      obtain ⟨st', ctx', l', e1, e2, e3, a', e4, e5, e6⟩ := parseSync1_ext (mx := mx) (n := n) (by omega) l ctx hc
      rw [e1]
      simp only [Option.bind_some]
      obtain ⟨st2, ctx2, rest, a2, f1, f2, f3, f4, f5⟩ := ih l' st' ctx' a' e2 e4 e5 (by
        rcases e3 with h | ⟨h, _⟩
        · omega
        · exact absurd h hl0)
      exact ⟨st2, ctx2, rest, a2, f1, f2, by rw [← e6]; exact f3, f4, f5⟩
    | sync2 =>
      obtain ⟨hv, hb⟩ := hr
      rw [parseLoop_step _ _ _ _ _ (by rw [hv]; simp [Input.length]; exact hl0)]
      cases l with
      | nil => exact absurd rfl hl0
      | cons v l =>
        simp only [parseOne, hv, parseSync2, ext_head, Option.bind_some]
        simp only [List.length_cons] at hf
        have hrun : run mx .sync2 (v :: l) = run mx (scanStep .sync2 v) l := by
          rw [run]; simp [A.isRead, step]
        by_cases h2 : v = sync2
        · rw [if_pos h2, setAt, if_pos (by rw [hc.2]; omega)]
          simp only [Option.bind_some, Input.advance, List.drop_one, List.tail_cons]
          obtain ⟨st2, ctx2, rest, a2, f1, f2, f3, f4, f5⟩ := ih l ⟨.wait_header, 2⟩
            { ctx with buf := ctx.buf.set 1 v } (.header [sync1, v]) ⟨hc.1, by simpa using hc.2⟩
            ⟨rfl, rfl, by
              simp only
              cases hbb : ctx.buf with
              | nil => rw [hbb] at hb; simp at hb
              | cons x t =>
                rw [hbb] at hb
                simp at hb
                cases t with
                | nil => have := hc.2; rw [hbb] at this; simp at this; omega
                | cons y t => simp [hb]⟩
            ⟨by simp, by simp, by simp [h2]⟩ (by omega)
          refine ⟨st2, ctx2, rest, a2, f1, f2, ?_, f4, f5⟩
          rw [hrun]; simpa only [scanStep, h2, if_true] using f3
        · rw [if_neg h2]
          simp only [Option.bind_some, Input.advance, List.drop_one, List.tail_cons]
          obtain ⟨st2, ctx2, rest, a2, f1, f2, f3, f4, f5⟩ := ih l .sync1 ctx .sync1 hc rfl trivial (by omega)
          refine ⟨st2, ctx2, rest, a2, f1, f2, ?_, f4, f5⟩
          rw [hrun]; simpa only [scanStep, h2, if_false] using f3
    | header h =>
      obtain ⟨hv, hnum, hbuf⟩ := hr
      obtain ⟨w1, w2, w3⟩ := hw
      rw [parseLoop_step _ _ _ _ _ (by rw [hv]; simp [Input.length]; exact hl0)]
      simp only [parseOne, hv, parseHeader]
      obtain ⟨ctx', t1, t2, t3, t4⟩ := transfer_ext (st := st) l headerTotalSize hc (by simp [headerTotalSize]; omega) (by simp [headerTotalSize]; omega)
      have hH : headerTotalSize = 12 := rfl
      have hc' : CtxOK mx n ctx' := ⟨by rw [t2]; exact hc.1, t3⟩
      rw [t1]
      simp only [Option.bind_some]
      rw [hH] at t4 ⊢
      rw [hbuf] at t4
      by_cases hshort : l.length < 12 - st.num
      · rw [if_pos (by omega)]
        simp only [Option.bind_some]
        have hd : l.drop (12 - st.num) = [] := List.drop_eq_nil_of_le (by omega)
        rw [hd]
        rw [parseLoop_done _ _ _ _ _ (Or.inl rfl)]
        refine ⟨_, _, _, _, rfl, hc', run_header_short mx h l (by omega), ⟨rfl, ?_, ?_⟩, ?_, ?_, ?_⟩
        · simp; omega
        · simp only; rw [t4, List.take_of_length_le (by omega)]
        · simp; omega
        · simp; omega
        · rw [List.take_append_of_le_length w1]; exact w3
      · have hnumeq : min (12 - st.num) l.length + st.num = 12 := by omega
        rw [hnumeq] at t4 ⊢
        rw [if_neg (by omega)]
        generalize hq : h ++ l.take (12 - st.num) = hd at t4
        have hdl : hd.length = 12 := by rw [← hq]; simp; omega
        have hd2 : hd.take 2 = [sync1, sync2] := by
          rw [← hq, List.take_append_of_le_length w1]; exact w3
        have hsl := fun off k (hk : off + k ≤ 12) => slice_of_take t4 (by omega) off k hk
        rw [hsl 2 2 (by omega), hsl 4 2 (by omega), hsl 6 2 (by omega), hsl 8 4 (by omega)]
        simp only [headerFieldsSize]
        rw [hsl 0 8 (by omega)]
        simp only [Option.bind_some, List.drop_zero]
        have hrun : run mx (.header h) l = run mx (finishHeader mx hd) (l.drop (12 - st.num)) := by
          conv => lhs; rw [← List.take_append_drop (12 - st.num) l]
          rw [run_header_full mx h _ _ (by simp; omega) (by omega), hq]
        have hwf := finishHeader_wf mx hd hdl hd2
        rw [hrun]
        have hmx : ctx'.maxPayload = mx := hc'.1
        have hfu : (l.drop (12 - st.num)).length ≤ fuel := by simp; omega
        unfold finishHeader at hwf ⊢
        have fe : ∀ o k, beNat ((hd.drop o).take k) = field hd o k := fun _ _ => rfl
        simp only [fe]
        by_cases hcrc : crcCalc (hd.take 8) ≠ UInt32.ofNat (field hd 8 4)
        · rw [if_pos hcrc]
          rw [if_pos hcrc] at hwf ⊢
          obtain ⟨st2, ctx2, inp2, g1, g2, g3⟩ := parseMany_self (mx := mx) (n := n) (by omega) d
            { ctx' with dest := UInt16.ofNat (field hd 2 2), src := UInt16.ofNat (field hd 4 2), len := UInt16.ofNat (field hd 6 2) }
            ⟨hmx, t3⟩ hd t4
          have h10 : (12 - 2 : Nat) = 10 := rfl
          rw [h10, g1]
          simp only [Option.bind_some]
          exact ih _ st2 ctx2 _ g2 g3 hwf hfu
        · rw [if_neg hcrc]
          rw [if_neg hcrc] at hwf ⊢
          by_cases hln : plen hd > mx
          · rw [if_pos (by rw [hmx]; exact hln)]
            rw [if_pos hln] at hwf ⊢
            simp only [Option.bind_some]
            exact ih _ _ _ _ ⟨hmx, t3⟩ rfl hwf hfu
          · rw [if_neg (by rw [hmx]; exact hln)]
            rw [if_neg hln] at hwf ⊢
            simp only [Option.bind_some]
            refine ih _ _ _ _ ⟨hmx, t3⟩ ?_ hwf hfu
            exact ⟨rfl, rfl, by simp only; rw [t4]; simp, rfl, rfl, rfl⟩
    | body h b =>
      obtain ⟨hv, hnum, hbuf, hdst, hsrc, hlen⟩ := hr
      obtain ⟨w1, w2, w3, w4, w5⟩ := hw
      rw [parseLoop_step _ _ _ _ _ (by rw [hv]; simp [Input.length]; exact hl0)]
      simp only [parseOne, hv, parseBody]
      have hH : headerTotalSize = 12 := rfl
      have hC : crcSize = 4 := rfl
      rw [hH, hC, hlen]
      have hpl : (UInt16.ofNat (field h 6 2)).toNat = plen h := rfl
      rw [hpl]
      generalize hN : plen h = N at *
      obtain ⟨ctx', t1, t2, t3, t4⟩ := transfer_ext (st := st) l (12 + N + 4) hc (by omega) (by omega)
      have hc' : CtxOK mx n ctx' := ⟨by rw [t2]; exact hc.1, t3⟩
      rw [t1]
      have hlen' : ctx'.len = UInt16.ofNat (field h 6 2) := by rw [t2]; exact hlen
      have hdst' : ctx'.dest = UInt16.ofNat (field h 2 2) := by rw [t2]; exact hdst
      have hsrc' : ctx'.src = UInt16.ofNat (field h 4 2) := by rw [t2]; exact hsrc
      simp only [Option.bind_some]
      rw [hbuf] at t4
      by_cases hshort : l.length < 12 + N + 4 - st.num
      · rw [if_pos (by omega)]
        simp only [Option.bind_some]
        have hd : l.drop (12 + N + 4 - st.num) = [] := List.drop_eq_nil_of_le (by omega)
        rw [hd]
        rw [parseLoop_done _ _ _ _ _ (Or.inl rfl)]
        refine ⟨_, _, _, _, rfl, hc', run_body_short mx h b l (by omega), ⟨rfl, ?_, ?_, hdst', hsrc', hlen'⟩, w1, w2, w3, ?_, ?_⟩
        · simp; omega
        · simp only; rw [t4, List.take_of_length_le (by omega), List.append_assoc]
        · omega
        · simp; omega
      · have hnumeq : min (12 + N + 4 - st.num) l.length + st.num = 12 + N + 4 := by omega
        rw [hnumeq] at t4 ⊢
        rw [if_neg (by omega)]
        generalize hq : b ++ l.take (12 + N + 4 - st.num) = bd
        have hbd : bd.length = N + 4 := by rw [← hq]; simp; omega
        rw [List.append_assoc, hq] at t4
        have hsl := fun off k (hk : off + k ≤ 12 + N + 4) => slice_of_take t4 (by omega) off k hk
        have e1 : ((h ++ bd).drop 12) = bd := by rw [← w1]; exact List.drop_left
        have e2 : ((h ++ bd).drop (12 + N)) = bd.drop N := by rw [← List.drop_drop, e1]
        simp only [hlen', hpl, hN]
        rw [hsl 12 N (by omega), hsl (12 + N) 4 (by omega), e1, e2]
        simp only [Option.bind_some]
        have hrun : run mx (.body h b) l = run mx (finishBody h bd) (l.drop (12 + N + 4 - st.num)) := by
          conv => lhs; rw [← List.take_append_drop (12 + N + 4 - st.num) l]
          rw [run_body_full mx h b _ _ (by simp; omega) (by omega), hq]
        have hwf := finishBody_wf mx h bd
        rw [hrun]
        have hfu : (l.drop (12 + N + 4 - st.num)).length ≤ fuel := by simp; omega
        simp only [finishBody, hN] at hwf ⊢
        by_cases hcrc : crcCalc (bd.take N) ≠ UInt32.ofNat (beNat ((bd.drop N).take 4))
        · rw [if_pos hcrc]
          rw [if_pos hcrc] at hwf ⊢
          simp only [Option.bind_some]
          exact ih _ _ _ _ ⟨hc'.1, t3⟩ rfl hwf hfu
        · rw [if_neg hcrc]
          rw [if_neg hcrc] at hwf ⊢
          simp only [Option.bind_some]
          refine ih _ _ _ _ ⟨hc'.1, t3⟩ ?_ hwf hfu
          refine ⟨rfl, hdst', hsrc', ?_⟩
          simp only
          have := hsl 12 N (by omega)
          rw [slice_some (by omega), e1, Option.some.injEq] at this
          exact this

/-! ### the parser object -/

/-- The parser object represents an automaton state. -/
def Parser.Reps (p : Parser) (mx n : Nat) (a : A) : Prop :=
  CtxOK mx n p.ctx ∧ Rel p.state p.ctx a ∧ A.WF mx a

theorem parse_refines {mx n : Nat} (hn : mx + 16 ≤ n) {p : Parser} {a : A} (h : p.Reps mx n a) (l : Bytes) :
    ∃ p', p.parse l = some (p', (run mx a l).2, (run mx a l).1.isRead) ∧ p'.Reps mx n (run mx a l).1 := by
  obtain ⟨hc, hr, hw⟩ := h
  obtain ⟨st', ctx', rest, a', e1, e2, e3, e4, e5⟩ := parseLoop_ext hn 0 l.length l p.state p.ctx a hc hr hw (Nat.le_refl _)
  unfold Parser.parse
  have : parseMany 2 p.state p.ctx (.ext l) = some (st', ctx', .ext rest) := e1
  rw [this, e3]
  refine ⟨⟨ctx', st'⟩, ?_, e2, e4, e5⟩
  simp only
  congr 3
  have := rel_isRead e4
  cases h : a'.isRead <;> simp_all

theorem new_reps (m : UInt16) :
    (Parser.new m).Reps (min m.toNat 4092) (16 + m.toNat) .sync1 :=
  ⟨⟨rfl, by simp [Parser.new, minFrameSize]⟩, rfl, trivial⟩

theorem reset_reps {p : Parser} {mx n a} (h : p.Reps mx n a) : p.reset.Reps mx n .sync1 :=
  ⟨h.1, rfl, trivial⟩

def A.frame? : A → Option Frame
  | .read f => some f
  | _ => none

theorem read_reps {p : Parser} {mx n a} (h : p.Reps mx n a) : p.read = a.frame? := by
  obtain ⟨_, hr, _⟩ := h
  unfold Parser.read
  cases a with
  | read f =>
    obtain ⟨r1, r2, r3, r4⟩ := hr
    rw [if_pos r1]; simp [r2, r3, r4, A.frame?]
  | sync1 => rw [if_neg]; rfl; rw [show p.state.value = _ from hr]; simp
  | sync2 => rw [if_neg]; rfl; rw [hr.1]; simp
  | header => rw [if_neg]; rfl; rw [hr.1]; simp
  | body => rw [if_neg]; rfl; rw [hr.1]; simp

theorem hasResult_reps {p : Parser} {mx n a} (h : p.Reps mx n a) : p.hasResult = a.isRead := by
  have := rel_isRead h.2.1
  unfold Parser.hasResult
  cases h : a.isRead <;> simp_all

end SSP21.Link
