import Verif.LinkLayer
import Verif.Props.Link
/-
  Properties C13 - C15: the link layer.
-/
namespace SSP21.Link
open Spec

/-! ## helper lemmas -/

/-- The parser of the layer represents `a`, whose partial frame ends the consumed part of the stream. -/
structure Inv (w : World) (a : A) (past : Bytes) : Prop where
  reps : w.layer.parser.Reps 4092 4108 a
  suffix : Suffix 4092 past a
  pulled : w.pulled = past ++ w.layer.remainder

/-- Unchanged by reading frames. -/
def SameFlags (w w' : World) : Prop :=
  w'.layer.localAddr = w.layer.localAddr ∧ w'.layer.isOpen = w.layer.isOpen ∧ w'.layer.rxFlag = w.layer.rxFlag ∧
  ∃ more, w'.pulled = w.pulled ++ more

theorem run_used (mx : Nat) (l : Bytes) : ∀ (a : A), ∃ used, l = used ++ (run mx a l).2 ∧
    run mx a used = ((run mx a l).1, []) := by
  induction l with
  | nil => intro a; exact ⟨[], by simp [run_nil], by simp [run_nil]⟩
  | cons v l ih =>
    intro a
    cases hr : a.isRead with
    | true =>
      refine ⟨[], ?_, ?_⟩
      · rw [run, if_pos hr]; rfl
      · rw [run_nil, run, if_pos hr]
    | false =>
      have e : ∀ l, run mx a (v :: l) = run mx (step mx a v) l := by
        intro l; rw [run, if_neg (by simp [hr])]
      obtain ⟨u, h1, h2⟩ := ih (step mx a v)
      refine ⟨v :: u, ?_, ?_⟩
      · rw [e, List.cons_append, ← h1]
      · rw [e, e, h2]

def remBit (w : World) : Nat := if w.layer.remainder = [] then 0 else 1

/-- The loop that looks for a frame never faults, keeps the invariant, and (when the layer below hands
out no empty chunks) consumes the stream exactly up to the end of the next frame. -/
theorem getFrameLoop_ok (fuel : Nat) : ∀ (w : World) (a : A) (past : Bytes), Inv w a past →
    2 * w.queue.length + remBit w < fuel →
    ∃ w' past', getFrameLoop fuel w = some w' ∧ SameFlags w w' ∧
      ((∀ c ∈ w.queue, c ≠ []) →
        Inv w' (run 4092 a (w.layer.remainder ++ w.queue.flatten)).1 past' ∧
        w'.layer.remainder ++ w'.queue.flatten = (run 4092 a (w.layer.remainder ++ w.queue.flatten)).2 ∧
        (∀ c ∈ w'.queue, c ≠ [])) ∧
      ∃ a', Inv w' a' past' := by
  induction fuel with
  | zero => intro w a past _ h; omega
  | succ fuel ih =>
    intro w a past hinv hf
    unfold getFrameLoop readFrameOneIteration
    by_cases hrem : w.layer.remainder = []
    · rw [if_pos hrem]
      unfold World.pull
      cases hq : w.queue with
      | nil =>
        simp only [Option.bind_some, List.isEmpty_nil, Bool.not_true, Bool.false_eq_true, if_false]
        refine ⟨_, past, rfl, ⟨rfl, rfl, rfl, _, (List.append_nil _).symm⟩, ?_, a, ?_⟩
        · intro _
          simp only [hrem, List.nil_append, List.flatten_nil, run_nil, hq]
          refine ⟨⟨hinv.reps, hinv.suffix, ?_⟩, ?_⟩
          · rw [hinv.pulled, hrem]
          · simp
        · exact ⟨hinv.reps, hinv.suffix, by simp only; rw [hinv.pulled, hrem]⟩
      | cons c cs =>
        simp only [Option.bind_some]
        by_cases hc : c = []
        · subst hc
          simp only [List.isEmpty_nil, Bool.not_true, Bool.false_eq_true, if_false]
          refine ⟨_, past, rfl, ⟨rfl, rfl, rfl, _, rfl⟩, ?_, a, ?_⟩
          · intro h; exact absurd rfl (h [] (by simp))
          · exact ⟨hinv.reps, hinv.suffix, by simp only; rw [hinv.pulled, hrem]; simp⟩
        · have hne : (!c.isEmpty) = true := by cases c <;> simp_all
          rw [hne]
          simp only [if_true]
          obtain ⟨w', past', h1, h2, h3, h4⟩ := ih
            { w with queue := cs, pulled := w.pulled ++ c, layer := { w.layer with remainder := c } } a past
            ⟨hinv.reps, hinv.suffix, by simp only; rw [hinv.pulled, hrem]; simp⟩
            (by
              rw [hq] at hf
              have hr1 : remBit w = 0 := if_pos hrem
              simp only [remBit, hc, if_false, List.length_cons] at hf ⊢
              omega)
          obtain ⟨k1, k2, k3, more, k4⟩ := h2
          refine ⟨w', past', h1, ⟨k1, k2, k3, c ++ more, by rw [k4]; simp⟩, ?_, h4⟩
          intro hall
          have := h3 (fun x hx => hall x (by simp [hx]))
          simpa [hrem] using this
    · rw [if_neg hrem]
      obtain ⟨p', h1, h2⟩ := parse_refines (by omega) hinv.reps w.layer.remainder
      rw [h1]
      simp only [Option.bind_some]
      obtain ⟨used, hu1, hu2⟩ := run_used 4092 w.layer.remainder a
      have hinv' : Inv { w with layer := { w.layer with parser := p', remainder := (run 4092 a w.layer.remainder).2 } }
          (run 4092 a w.layer.remainder).1 (past ++ used) := by
        refine ⟨h2, run_suffix (by omega) _ hinv.reps.2.2 hinv.suffix hu1, ?_⟩
        simp only
        rw [List.append_assoc, ← hu1]; exact hinv.pulled
      cases hav : (run 4092 a w.layer.remainder).1.isRead with
      | true =>
        simp only [Bool.not_true, Bool.false_eq_true, if_false]
        refine ⟨_, past ++ used, rfl, ⟨rfl, rfl, rfl, _, (List.append_nil _).symm⟩, ?_, _, hinv'⟩
        intro hall
        have hrun : run 4092 a (w.layer.remainder ++ w.queue.flatten) =
            ((run 4092 a w.layer.remainder).1, (run 4092 a w.layer.remainder).2 ++ w.queue.flatten) := by
          rw [run_append]
          simp only
          by_cases hz : (run 4092 a w.layer.remainder).2 = []
          · rw [if_pos hz, hz, List.nil_append]
            cases ha : (run 4092 a w.layer.remainder).1 with
            | read f => rw [run_read]
            | _ => rw [ha] at hav; cases hav
          · rw [if_neg hz]
        rw [hrun]
        exact ⟨hinv', rfl, hall⟩
      | false =>
        have hrest := run_rest_nil 4092 a w.layer.remainder hav
        simp only [Bool.not_false, if_true]
        rw [hrest] at hinv' ⊢
        obtain ⟨w', past', g1, g2, g3, g4⟩ := ih _ _ _ hinv' (by
          have hr1 : remBit w = 1 := if_neg hrem
          simp only [remBit, if_true]
          omega)
        refine ⟨w', past', g1, g2, ?_, g4⟩
        intro hall
        have := g3 hall
        simp only [List.nil_append] at this
        rw [run_append]
        simp only [hrest, if_true]
        exact this

theorem getFrame_ok (w : World) (a : A) (past : Bytes) (hinv : Inv w a past) :
    ∃ w' past', getFrame w = some (w', w'.layer.parser.hasResult) ∧ SameFlags w w' ∧
      ((∀ c ∈ w.queue, c ≠ []) →
        Inv w' (run 4092 a (w.layer.remainder ++ w.queue.flatten)).1 past' ∧
        w'.layer.remainder ++ w'.queue.flatten = (run 4092 a (w.layer.remainder ++ w.queue.flatten)).2 ∧
        (∀ c ∈ w'.queue, c ≠ [])) ∧
      (a.isRead = true → w' = w) ∧
      ∃ a', Inv w' a' past' := by
  unfold getFrame
  have hh := hasResult_reps hinv.reps
  cases hr : a.isRead with
  | true =>
    rw [hr] at hh
    rw [if_pos hh]
    refine ⟨w, past, by rw [hh], ⟨rfl, rfl, rfl, _, (List.append_nil _).symm⟩, ?_, fun _ => rfl, a, hinv⟩
    intro hall
    cases a with
    | read f => rw [run_read]; exact ⟨hinv, rfl, hall⟩
    | _ => cases hr
  | false =>
    rw [hr] at hh
    rw [if_neg (by simp [hh])]
    obtain ⟨w', past', h1, h2, h3, h4⟩ := getFrameLoop_ok (2 * w.queue.length + 2) w a past hinv (by
      have : remBit w ≤ 1 := by unfold remBit; split <;> omega
      omega)
    rw [h1]
    exact ⟨w', past', rfl, h2, h3, fun h => (Bool.false_ne_true h).elim, h4⟩

/-! ## C13 — every delivered payload is a received frame for this station -/

/-- Inductive invariant over events. -/
theorem step_inv {w : World} {a : A} {past : Bytes} (hinv : Inv w a past) (e : Ev) :
    ∃ w' o a' past', e.step w = some (w', o) ∧ Inv w' a' past' ∧ (w'.layer.localAddr = w.layer.localAddr ∧
        ∃ more, w'.pulled = w.pulled ++ more) ∧
      (∀ p, Out.data p ∈ o → p ≠ [] → ∃ pre src rest, w'.pulled = pre ++ frame w.layer.localAddr src p ++ rest) := by
  cases e with
  | arrive c => exact ⟨_, _, a, past, rfl, ⟨hinv.reps, hinv.suffix, hinv.pulled⟩, ⟨rfl, _, (List.append_nil _).symm⟩, by simp⟩
  | dropLower => exact ⟨_, _, a, past, rfl, ⟨hinv.reps, hinv.suffix, hinv.pulled⟩, ⟨rfl, _, (List.append_nil _).symm⟩, by simp⟩
  | lowerOpen =>
    simp only [Ev.step]
    split
    · exact ⟨_, _, a, past, rfl, hinv, ⟨rfl, _, (List.append_nil _).symm⟩, by simp⟩
    · exact ⟨_, _, a, past, rfl, ⟨hinv.reps, hinv.suffix, hinv.pulled⟩, ⟨rfl, _, (List.append_nil _).symm⟩, by simp⟩
  | lowerClose =>
    simp only [Ev.step]
    split
    · exact ⟨_, _, .sync1, past, rfl, ⟨reset_reps hinv.reps, trivial, hinv.pulled⟩, ⟨rfl, _, (List.append_nil _).symm⟩, by simp⟩
    · exact ⟨_, _, a, past, rfl, hinv, ⟨rfl, _, (List.append_nil _).symm⟩, by simp⟩
  | lowerTxReady =>
    simp only [Ev.step]
    split <;> exact ⟨_, _, a, past, rfl, hinv, ⟨rfl, _, (List.append_nil _).symm⟩, by simp⟩
  | lowerRxReady =>
    simp only [Ev.step]
    split
    · obtain ⟨w', past', h1, h2, _, _, a', h4⟩ := getFrame_ok w a past hinv
      rw [h1]
      exact ⟨_, _, a', past', rfl, h4, ⟨h2.1, h2.2.2.2⟩, by intro p hp; split at hp <;> simp at hp⟩
    · exact ⟨_, _, a, past, rfl, hinv, ⟨rfl, _, (List.append_nil _).symm⟩, by simp⟩
  | upperRead =>
    simp only [Ev.step, startRx, startRxImpl]
    generalize hw0 : (if w.layer.rxFlag = true then
      { w with layer := { w.layer with parser := w.layer.parser.reset, rxFlag := false } } else w) = w0
    have h0 : ∃ a0, Inv w0 a0 past ∧ w0.layer.localAddr = w.layer.localAddr ∧ w0.pulled = w.pulled := by
      rw [← hw0]
      split
      · exact ⟨.sync1, ⟨reset_reps hinv.reps, trivial, hinv.pulled⟩, rfl, rfl⟩
      · exact ⟨a, hinv, rfl, rfl⟩
    obtain ⟨a0, hi0, hl0, hp0⟩ := h0
    obtain ⟨w', past', h1, h2, _, _, a', h4⟩ := getFrame_ok w0 a0 past hi0
    rw [h1]
    simp only [Option.bind_some]
    cases hres : w'.layer.parser.hasResult with
    | false =>
      simp only [Bool.false_eq_true, if_false, Option.bind_some, ne_eq, not_true_eq_false]
      exact ⟨_, _, a', past', rfl, h4, ⟨by rw [h2.1, hl0], by rw [← hp0]; exact h2.2.2.2⟩, by simp⟩
    | true =>
      simp only [if_true]
      have hra := hasResult_reps h4.reps
      rw [hres] at hra
      cases ha' : a' with
      | read f =>
        rw [ha'] at h4
        have hrd : w'.layer.parser.read = some f := read_reps h4.reps
        rw [hrd]
        simp only [Option.bind_some]
        refine ⟨_, _, .read f, past', rfl, ?_, ?_, ?_⟩
        · by_cases hx : (if f.destination = w'.layer.localAddr then f.payload else []) ≠ []
          · rw [if_pos hx]; exact ⟨h4.reps, h4.suffix, h4.pulled⟩
          · rw [if_neg hx]; exact h4
        · obtain ⟨k1, k2, k3, k4⟩ := h2
          rw [hp0] at k4
          rw [hl0] at k1
          by_cases hx : (if f.destination = w'.layer.localAddr then f.payload else []) ≠ []
          · rw [if_pos hx]; exact ⟨k1, k4⟩
          · rw [if_neg hx]; exact ⟨k1, k4⟩
        · intro p hp hne
          simp only [List.mem_singleton, Out.data.injEq] at hp
          subst hp
          have hloc : w'.layer.localAddr = w.layer.localAddr := by rw [h2.1, hl0]
          by_cases hd : f.destination = w'.layer.localAddr
          · obtain ⟨hlen, pre, hpre⟩ := h4.suffix
            rw [if_pos hd]
            refine ⟨pre, f.source, w'.layer.remainder, ?_⟩
            have hp := h4.pulled
            rw [hpre, hd, hloc] at hp
            by_cases hx : f.payload ≠ []
            · rw [if_pos hx]; exact hp
            · rw [if_neg hx]; exact hp
          · rw [if_neg hd] at hne; exact absurd rfl hne
      | _ => rw [ha'] at hra; cases hra

theorem exec_inv (es : List Ev) : ∀ {w : World} {a : A} {past : Bytes}, Inv w a past →
    ∃ w' o a' past', exec w es = some (w', o) ∧ Inv w' a' past' ∧ w'.layer.localAddr = w.layer.localAddr ∧
      (∃ more, w'.pulled = w.pulled ++ more) ∧
      (∀ p, Out.data p ∈ o → p ≠ [] → ∃ pre src rest, w'.pulled = pre ++ frame w.layer.localAddr src p ++ rest) := by
  induction es with
  | nil => intro w a past h; exact ⟨w, [], a, past, rfl, h, rfl, ⟨[], by simp⟩, by simp⟩
  | cons e es ih =>
    intro w a past h
    obtain ⟨w1, o1, a1, past1, s1, s2, s3, s4⟩ := step_inv h e
    obtain ⟨w2, o2, a2, past2, t1, t2, t3, ⟨more, t4⟩, t5⟩ := ih s2
    obtain ⟨s3, more1, hm⟩ := s3
    refine ⟨w2, o1 ++ o2, a2, past2, by simp [exec, s1, t1], t2, by rw [t3, s3], ⟨more1 ++ more, by rw [t4, hm]; simp⟩, ?_⟩
    intro p hp hne
    rcases List.mem_append.mp hp with hp | hp
    · obtain ⟨pre, src, rest, hx⟩ := s4 p hp hne
      exact ⟨pre, src, rest ++ more, by rw [t4, hx]; simp⟩
    · have := t5 p hp hne
      rw [s3] at this
      exact this


/-- In every execution from a newly constructed link layer, no fault occurs, and every (non-empty)
payload handed to the layer above is the payload of a complete, correctly checksummed frame, addressed
to this station, contained in the byte stream obtained from the layer below. -/
theorem C13_delivered_is_addressed_to_us (localAddr : UInt16) (es : List Ev) :
    ∃ w out, exec (World.new localAddr) es = some (w, out) ∧
      ∀ payload, Out.data payload ∈ out → payload ≠ [] →
        ∃ before src after, w.pulled = before ++ frame localAddr src payload ++ after := by
  obtain ⟨w', o, a', past', h1, h2, h3, h4, h5⟩ := exec_inv es (w := World.new localAddr) (a := .sync1) (past := [])
    ⟨new_reps 4092, trivial, rfl⟩
  exact ⟨w', o, h1, h5⟩

/-! ### in-order delivery -/

/-- Events that do not close the layer or lose data below it. -/
def Ev.calm : Ev → Prop
  | .arrive c => c ≠ []
  | .dropLower => False
  | .lowerClose => False
  | _ => True

/-- The bytes that arrive during a list of events. -/
def arrivals : List Ev → Bytes
  | [] => []
  | .arrive c :: es => c ++ arrivals es
  | _ :: es => arrivals es

/-- A frame addressed to `dst`, as source and payload. -/
abbrev Sent := UInt16 × Bytes

def Sent.frame (dst : UInt16) (x : Sent) : Bytes := Spec.frame dst x.1 x.2

/-- The non-empty payloads among the outputs. -/
def payloads : List Out → List Bytes
  | [] => []
  | .data p :: o => if p = [] then payloads o else p :: payloads o
  | _ :: o => payloads o

theorem payloads_append (a b : List Out) : payloads (a ++ b) = payloads a ++ payloads b := by
  induction a with
  | nil => rfl
  | cons x a ih => cases x <;> simp [payloads, ih]; split <;> simp

/-- Nothing, or a frame that is not for this station, or that has no payload, and whatever follows it. -/
def Blocking (localAddr : UInt16) (rest : Bytes) : Prop :=
  rest = [] ∨ ∃ d s p tail, (d ≠ localAddr ∨ p = []) ∧ p.length ≤ 4092 ∧ rest = frame d s p ++ tail

/-- The undelivered frames `todo`, of which the parser has consumed the bytes `u` (after the frame
`last`, when the layer above still holds it); `rest` is what comes after them. -/
structure Deliver (w : World) (u : Bytes) (last : Option Sent) (todo : List Sent) (rest future : Bytes) : Prop where
  inv : ∃ past, Inv w (run 4092 .sync1 u).1 past
  all : (run 4092 .sync1 u).2 = []
  nonempty : ∀ c ∈ w.queue, c ≠ []
  flag : w.layer.rxFlag = last.isSome
  stream : u ++ w.layer.remainder ++ w.queue.flatten ++ future =
    (last.toList.map (Sent.frame w.layer.localAddr)).flatten ++ (todo.map (Sent.frame w.layer.localAddr)).flatten ++ rest
  blocks : Blocking w.layer.localAddr rest
  held : ∀ x ∈ last, u = Sent.frame w.layer.localAddr x
  good : ∀ x ∈ last.toList ++ todo, x.2 ≠ [] ∧ x.2.length ≤ 4092

theorem run_frame' (dst : UInt16) (x : Sent) (hx : x.2.length ≤ 4092) (rest : Bytes) :
    run 4092 .sync1 (x.frame dst ++ rest) = (.read ⟨dst, x.1, x.2⟩, rest) :=
  run_frame 4092 (by omega) dst x.1 x.2 rest hx

theorem deliver_getFrame {w : World} {u : Bytes} {last todo rest future} (h : Deliver w u last todo rest future) :
    ∃ w' u', getFrame w = some (w', (run 4092 .sync1 u').1.isRead) ∧ Deliver w' u' last todo rest future ∧
      SameFlags w w' ∧
      (run 4092 .sync1 u').1 = (run 4092 .sync1 (u ++ (w.layer.remainder ++ w.queue.flatten))).1 ∧
      w'.layer.remainder ++ w'.queue.flatten = (run 4092 .sync1 (u ++ (w.layer.remainder ++ w.queue.flatten))).2 := by
  obtain ⟨past, hi⟩ := h.inv
  generalize ha : (run 4092 .sync1 u).1 = a at hi
  have hrun : run 4092 .sync1 (u ++ (w.layer.remainder ++ w.queue.flatten)) =
      run 4092 a (w.layer.remainder ++ w.queue.flatten) := by
    rw [run_append]; simp only [h.all, if_true, ha]
  obtain ⟨used, hu1, hu2⟩ := run_used 4092 (w.layer.remainder ++ w.queue.flatten) a
  obtain ⟨w', past', g1, g2, g3, g4, _⟩ := getFrame_ok w a past hi
  obtain ⟨k1, k2, k3⟩ := g3 h.nonempty
  have hrun2 : run 4092 .sync1 (u ++ used) = ((run 4092 a (w.layer.remainder ++ w.queue.flatten)).1, []) := by
    rw [run_append]; simp only [h.all, if_true, ha, hu2]
  refine ⟨w', u ++ used, ?_, ?_, g2, ?_, ?_⟩
  · rw [g1, hrun2, hasResult_reps k1.reps]
  · refine ⟨⟨past', by rw [hrun2]; exact k1⟩, by rw [hrun2], k3, ?_, ?_, by rw [g2.1]; exact h.blocks, ?_, h.good⟩
    · rw [g2.2.2.1]; exact h.flag
    · have hs := h.stream
      rw [g2.1, ← hs]
      have : u ++ used ++ w'.layer.remainder ++ w'.queue.flatten = u ++ w.layer.remainder ++ w.queue.flatten := by
        rw [List.append_assoc, k2, List.append_assoc, ← hu1, List.append_assoc]
      rw [this]
    · intro x hx
      have hux := h.held x hx
      have hgood := (h.good x (by simp at hx; simp [hx])).2
      have hf := run_frame' w.layer.localAddr x hgood []
      rw [List.append_nil, ← hux] at hf
      rw [hf] at ha
      simp only at ha
      rw [← ha, run_read] at hu1
      have : used = [] := by
        have := congrArg List.length hu1
        simp only [List.length_append] at this
        exact List.eq_nil_of_length_eq_zero (by omega)
      rw [this, List.append_nil, hux, g2.1]
  · rw [hrun2, hrun]
  · rw [hrun]; exact k2

/-- One calm event keeps the bookkeeping; what is delivered is the next undelivered payload. -/
theorem deliver_step {w : World} {u : Bytes} {last todo rest future} (e : Ev) (hc : e.calm)
    (h : Deliver w u last todo rest (arrivals [e] ++ future)) :
    ∃ w' o u' last' todo', e.step w = some (w', o) ∧ Deliver w' u' last' todo' rest future ∧
      w'.layer.localAddr = w.layer.localAddr ∧ todo.map Prod.snd = payloads o ++ todo'.map Prod.snd ∧
      (e = .upperRead → payloads o = [] → todo ≠ [] → future ≠ []) := by
  cases e with
  | arrive c =>
    refine ⟨_, _, u, last, todo, rfl, ?_, rfl, rfl, by simp⟩
    obtain ⟨past, hi⟩ := h.inv
    refine ⟨⟨past, hi.reps, hi.suffix, hi.pulled⟩, h.all, ?_, h.flag, ?_, h.blocks, h.held, h.good⟩
    · intro x hx
      rcases List.mem_append.mp hx with hx | hx
      · exact h.nonempty x hx
      · simp at hx; subst hx; exact hc
    · rw [← h.stream]; simp [arrivals]
  | dropLower => exact hc.elim
  | lowerClose => exact hc.elim
  | lowerOpen =>
    simp only [Ev.step]
    have h' : Deliver w u last todo rest future := by simpa [arrivals] using h
    split
    · exact ⟨_, _, u, last, todo, rfl, h', rfl, rfl, by simp⟩
    · refine ⟨_, _, u, last, todo, rfl, ?_, rfl, rfl, by simp⟩
      obtain ⟨past, hi⟩ := h'.inv
      exact ⟨⟨past, hi.reps, hi.suffix, hi.pulled⟩, h'.all, h'.nonempty, h'.flag, h'.stream, h'.blocks, h'.held, h'.good⟩
  | lowerTxReady =>
    simp only [Ev.step]
    have h' : Deliver w u last todo rest future := by simpa [arrivals] using h
    split <;> exact ⟨_, _, u, last, todo, rfl, h', rfl, rfl, by simp⟩
  | lowerRxReady =>
    simp only [Ev.step]
    have h' : Deliver w u last todo rest future := by simpa [arrivals] using h
    split
    · obtain ⟨w', u', g1, g2, g3, _⟩ := deliver_getFrame h'
      rw [g1]
      refine ⟨w', _, u', last, todo, rfl, g2, g3.1, ?_, by simp⟩
      split <;> rfl
    · exact ⟨_, _, u, last, todo, rfl, h', rfl, rfl, by simp⟩
  | upperRead =>
    have h' : Deliver w u last todo rest future := by simpa [arrivals] using h
    simp only [Ev.step, startRx, startRxImpl]
    generalize hw0 : (if w.layer.rxFlag = true then
      { w with layer := { w.layer with parser := w.layer.parser.reset, rxFlag := false } } else w) = w0
    have h0 : (∃ u0, Deliver w0 u0 none todo rest future) ∧ w0.layer.localAddr = w.layer.localAddr := by
      rw [← hw0]
      cases last with
      | none =>
        have hf := h'.flag
        simp only [Option.isSome_none] at hf
        rw [hf]
        exact ⟨⟨u, h'⟩, rfl⟩
      | some x =>
        have hf := h'.flag
        simp only [Option.isSome_some] at hf
        rw [hf]
        simp only [if_true]
        refine ⟨⟨[], ?_⟩, trivial⟩
        obtain ⟨past, hi⟩ := h'.inv
        refine ⟨⟨past, by rw [run_nil]; exact ⟨reset_reps hi.reps, trivial, hi.pulled⟩⟩, rfl, h'.nonempty, rfl, ?_, h'.blocks, by simp, ?_⟩
        · have hs := h'.stream
          rw [h'.held x rfl] at hs
          simp only [Option.toList_some, List.map_cons, List.map_nil, List.flatten_cons, List.flatten_nil,
            List.append_nil, List.append_assoc, List.append_cancel_left_eq] at hs
          simpa [List.append_assoc] using hs
        · intro y hy; exact h'.good y (by simp at hy; simp [hy])
    obtain ⟨⟨u0, hd0⟩, hl0⟩ := h0
    obtain ⟨w', u', g1, g2, g3, g4, g5⟩ := deliver_getFrame hd0
    rw [g1]
    simp only [Option.bind_some]
    have hstream := g2.stream
    simp only [Option.toList_none, List.map_nil, List.flatten_nil, List.nil_append] at hstream
    cases hA : (run 4092 .sync1 u').1.isRead with
    | false =>
      simp only [Bool.false_eq_true, if_false, Option.bind_some, ne_eq, not_true_eq_false]
      refine ⟨w', _, u', none, todo, rfl, g2, by rw [g3.1, hl0], rfl, ?_⟩
      intro _ _ hne hfut
      -- with no future data the next frame would have been complete
      subst hfut
      cases todo with
      | nil => exact hne rfl
      | cons x xs =>
        have hx := (hd0.good x (by simp)).2
        have hs0 := hd0.stream
        simp only [Option.toList_none, List.map_nil, List.flatten_nil, List.nil_append, List.append_nil,
          List.map_cons, List.flatten_cons] at hs0
        rw [List.append_assoc, List.append_assoc] at hs0
        rw [g4, hs0, run_frame' _ _ hx] at hA
        cases hA
    | true =>
      simp only [if_true]
      cases todo with
      | nil =>
        simp only [List.map_nil, List.flatten_nil, List.nil_append] at hstream
        rcases g2.blocks with hb | ⟨d, src, p, tail, hfor, hpl, hb⟩
        · exfalso
          rw [hb] at hstream
          have : u' = [] := by
            have := congrArg List.length hstream
            simp at this
            exact this.1
          rw [this, run_nil] at hA
          cases hA
        · -- the parser holds a frame that is not delivered
          have hboth : run 4092 .sync1 (u' ++ (w'.layer.remainder ++ w'.queue.flatten ++ future)) =
              ((run 4092 .sync1 u').1, w'.layer.remainder ++ w'.queue.flatten ++ future) := by
            rw [run_append]
            simp only [g2.all, if_true]
            cases hb : (run 4092 .sync1 u').1 with
            | read f => rw [run_read]
            | _ => rw [hb] at hA; cases hA
          rw [← List.append_assoc, ← List.append_assoc, hstream, hb, run_frame 4092 (by omega) d src p tail hpl] at hboth
          have h1 := congrArg Prod.fst hboth
          obtain ⟨past, hi⟩ := g2.inv
          have hrd : w'.layer.parser.read = some ⟨d, src, p⟩ := by
            rw [read_reps hi.reps, ← h1]; rfl
          have hret : (if d = w'.layer.localAddr then p else []) = [] := by
            rcases hfor with h | h
            · rw [if_neg h]
            · rw [h]; split <;> rfl
          rw [hrd]
          simp only [hret, Option.bind_some, ne_eq, not_true_eq_false, if_false]
          exact ⟨w', _, u', none, [], rfl, g2, by rw [g3.1, hl0], rfl, fun _ _ h => h.elim⟩
      | cons x xs =>
        have hx := (g2.good x (by simp)).2
        have hxne := (g2.good x (by simp)).1
        simp only [List.map_cons, List.flatten_cons] at hstream
        -- the parser holds exactly the next frame
        have hu' : u' = x.frame w'.layer.localAddr := by
          have hboth : run 4092 .sync1 (u' ++ (w'.layer.remainder ++ w'.queue.flatten ++ future)) =
              ((run 4092 .sync1 u').1, w'.layer.remainder ++ w'.queue.flatten ++ future) := by
            rw [run_append]
            simp only [g2.all, if_true]
            cases hb : (run 4092 .sync1 u').1 with
            | read f => rw [run_read]
            | _ => rw [hb] at hA; cases hA
          rw [← List.append_assoc, ← List.append_assoc, hstream, List.append_assoc (Sent.frame w'.layer.localAddr x), run_frame' _ _ hx] at hboth
          have h2 := congrArg Prod.snd hboth
          simp only at h2
          rw [List.append_assoc (Sent.frame w'.layer.localAddr x), h2] at hstream
          simp only [List.append_assoc] at hstream
          exact List.append_cancel_right hstream
        have hrf := run_frame' w'.layer.localAddr x hx []
        rw [List.append_nil, ← hu'] at hrf
        obtain ⟨past, hi⟩ := g2.inv
        have hrd : w'.layer.parser.read = some ⟨w'.layer.localAddr, x.1, x.2⟩ := by
          rw [read_reps hi.reps, hrf]; rfl
        rw [hrd]
        simp only [if_true, Option.bind_some]
        rw [if_pos hxne]
        refine ⟨_, _, u', some x, xs, rfl, ?_, by simp only; rw [g3.1, hl0], ?_, ?_⟩
        · refine ⟨⟨past, hi.reps, hi.suffix, hi.pulled⟩, g2.all, g2.nonempty, rfl, ?_, g2.blocks, ?_, ?_⟩
          · simp only [Option.toList_some, List.map_cons, List.map_nil, List.flatten_cons, List.flatten_nil, List.append_nil]
            exact hstream
          · intro y hy; simp at hy; subst hy; exact hu'
          · intro y hy; exact g2.good y (by simpa using hy)
        · simp [payloads, hxne]
        · intro _ hp; simp [payloads, hxne] at hp

theorem deliver_exec (es : List Ev) : ∀ {w : World} {u : Bytes} {last todo rest future},
    (∀ e ∈ es, e.calm) → Deliver w u last todo rest (arrivals es ++ future) →
    ∃ w' o u' last' todo', exec w es = some (w', o) ∧ Deliver w' u' last' todo' rest future ∧
      w'.layer.localAddr = w.layer.localAddr ∧ todo.map Prod.snd = payloads o ++ todo'.map Prod.snd := by
  induction es with
  | nil =>
    intro w u last todo rest future _ h
    exact ⟨w, [], u, last, todo, rfl, by simpa [arrivals] using h, rfl, rfl⟩
  | cons e es ih =>
    intro w u last todo rest future hc h
    have he : arrivals (e :: es) = arrivals [e] ++ arrivals es := by cases e <;> simp [arrivals]
    rw [he, List.append_assoc] at h
    obtain ⟨w1, o1, u1, last1, todo1, s1, s2, s3, s4, _⟩ := deliver_step e (hc e (by simp)) h
    obtain ⟨w2, o2, u2, last2, todo2, t1, t2, t3, t4⟩ := ih (fun x hx => hc x (by simp [hx])) s2
    refine ⟨w2, o1 ++ o2, u2, last2, todo2, by simp [exec, s1, t1], t2, by rw [t3, s3], ?_⟩
    rw [s4, t4, payloads_append, List.append_assoc]

theorem deliver_reads (n : Nat) : ∀ {w : World} {u : Bytes} {last todo rest}, Deliver w u last todo rest [] →
    todo.length ≤ n → ∃ w' o, exec w (List.replicate n .upperRead) = some (w', o) ∧
      payloads o = todo.map Prod.snd := by
  induction n with
  | zero =>
    intro w u last todo rest h hn
    have : todo = [] := List.eq_nil_of_length_eq_zero (by omega)
    subst this
    exact ⟨w, [], rfl, rfl⟩
  | succ n ih =>
    intro w u last todo rest h hn
    obtain ⟨w1, o1, u1, last1, todo1, s1, s2, s3, s4, s5⟩ := deliver_step (future := []) Ev.upperRead trivial (by simpa [arrivals] using h)
    have hlen : todo1.length ≤ n := by
      cases todo with
      | nil =>
        have := congrArg List.length s4
        simp at this; omega
      | cons x xs =>
        have hne : payloads o1 ≠ [] := fun hp => s5 rfl hp (by simp) rfl
        have := congrArg List.length s4
        simp at this
        have := List.length_pos_iff.mpr hne
        simp at hn
        omega
    obtain ⟨w2, o2, t1, t2⟩ := ih s2 hlen
    refine ⟨w2, o1 ++ o2, by simp [List.replicate_succ, exec, s1, t1], ?_⟩
    rw [payloads_append, t2, s4]

/-- **In-order delivery.** When the bytes that arrive (in any chunks, at any moments, with any
interleaving of readiness notifications and reads by the layer above) are a sequence of frames addressed
to this station with non-empty payloads of at most 4092 bytes, then what the layer above has read at any
moment is a prefix of the payloads in order, and reading once per frame at the end yields all of them. -/
theorem C13_in_order_delivery (localAddr : UInt16) (sent : List Sent)
    (hs : ∀ x ∈ sent, x.2 ≠ [] ∧ x.2.length ≤ 4092) (es : List Ev) (hc : ∀ e ∈ es, e.calm)
    (ha : arrivals es = (sent.map (Sent.frame localAddr)).flatten) :
    ∃ w out, exec (World.new localAddr) es = some (w, out) ∧ payloads out <+: sent.map Prod.snd ∧
      ∃ w' out', exec w (List.replicate sent.length .upperRead) = some (w', out') ∧
        payloads out ++ payloads out' = sent.map Prod.snd := by
  have h0 : Deliver (World.new localAddr) [] none sent [] (arrivals es ++ []) := by
    refine ⟨⟨[], new_reps 4092, trivial, rfl⟩, rfl, by simp [World.new], rfl, ?_, Or.inl rfl, by simp, by simpa using hs⟩
    simp [World.new, Layer.new, ha]
  obtain ⟨w1, o1, u1, last1, todo1, s1, s2, s3, s4⟩ := deliver_exec es hc h0
  have hlen : todo1.length ≤ sent.length := by
    have := congrArg List.length s4
    simp at this; omega
  obtain ⟨w2, o2, t1, t2⟩ := deliver_reads sent.length s2 hlen
  exact ⟨w1, o1, s1, ⟨_, s4.symm⟩, w2, o2, t1, by rw [t2, s4]⟩

/-- The hypotheses are satisfiable: two frames, cut in the middle of each, reads in between. -/
example : let f := Spec.frame 1 10 [1, 2, 3] ++ Spec.frame 1 10 [4]
    let es := [Ev.lowerOpen, .arrive (f.take 5), .lowerRxReady, .upperRead, .arrive (f.drop 5), .lowerRxReady]
    (∀ e ∈ es, e.calm) ∧ arrivals es = ([(10, [1, 2, 3]), (10, [4])].map (Sent.frame 1)).flatten := by
  refine ⟨?_, ?_⟩
  · intro e he
    simp only [List.mem_cons, List.not_mem_nil, or_false] at he
    rcases he with rfl | rfl | rfl | rfl | rfl | rfl <;> simp [Ev.calm, frame, frameHeader, w16, crcBytes]
  · simp [arrivals, Sent.frame]

/-! ## C14 — frames for other stations -/

/-- **The code violates C14.** Once a frame that is not for this station (or one without payload) has
been received while no read is outstanding, every read returns nothing, and no further byte is taken from
the layer below, whatever arrives and whatever notifications are made, until the layer is closed. -/
theorem C14_foreign_frame_wedges (w : World) (f : Frame) (hf : w.layer.parser.read = some f)
    (hflag : w.layer.rxFlag = false) (hforeign : f.destination ≠ w.layer.localAddr ∨ f.payload = [])
    (es : List Ev) (hes : ∀ e ∈ es, e ≠ .lowerClose) :
    ∃ w' out, exec w es = some (w', out) ∧ (∀ p, Out.data p ∈ out → p = []) ∧ w'.pulled = w.pulled := by
  have hres : w.layer.parser.hasResult = true := by
    unfold Parser.read at hf
    unfold Parser.hasResult
    split at hf
    · rename_i h; simp [h]
    · cases hf
  induction es generalizing w with
  | nil => exact ⟨w, [], rfl, by simp, rfl⟩
  | cons e es ih =>
    have hstep : ∃ w1 o1, e.step w = some (w1, o1) ∧ (∀ p, Out.data p ∈ o1 → p = []) ∧
        w1.layer.parser = w.layer.parser ∧ w1.layer.rxFlag = w.layer.rxFlag ∧
        w1.layer.localAddr = w.layer.localAddr ∧ w1.pulled = w.pulled := by
      cases e with
      | arrive c => exact ⟨_, _, rfl, by simp, rfl, rfl, rfl, rfl⟩
      | dropLower => exact ⟨_, _, rfl, by simp, rfl, rfl, rfl, rfl⟩
      | lowerClose => exact absurd rfl (hes .lowerClose (by simp))
      | lowerOpen =>
        simp only [Ev.step]
        split <;> exact ⟨_, _, rfl, by simp, rfl, rfl, rfl, rfl⟩
      | lowerTxReady =>
        simp only [Ev.step]
        split <;> exact ⟨_, _, rfl, by simp, rfl, rfl, rfl, rfl⟩
      | lowerRxReady =>
        simp only [Ev.step, getFrame, hres, if_true, Option.bind_some]
        split <;> exact ⟨_, _, rfl, by simp, rfl, rfl, rfl, rfl⟩
      | upperRead =>
        have hret : (if f.destination = w.layer.localAddr then f.payload else []) = [] := by
          rcases hforeign with h | h
          · rw [if_neg h]
          · rw [h]; split <;> rfl
        simp only [Ev.step, startRx, hflag, Bool.false_eq_true, if_false, startRxImpl, getFrame, hres, if_true,
          Option.bind_some, hf, hret, ne_eq, not_true_eq_false]
        exact ⟨_, _, rfl, by simp, rfl, hflag, rfl, rfl⟩
    obtain ⟨w1, o1, s1, s2, s3, s4, s5, s6⟩ := hstep
    obtain ⟨w2, o2, t1, t2, t3⟩ := ih w1 (by rw [s3]; exact hf) (by rw [s4]; exact hflag) (by rw [s5]; exact hforeign)
      (fun e he => hes e (by simp [he])) (by rw [s3]; exact hres)
    refine ⟨w2, o1 ++ o2, by simp [exec, s1, t1], ?_, by rw [t3, s6]⟩
    intro p hp
    rcases List.mem_append.mp hp with h | h
    · exact s2 p h
    · exact t2 p h

/-- Such states are reachable: a layer that receives a frame for another station is in one, so a
frame for this station that follows is never delivered. -/
theorem C14_reachable (localAddr d s : UInt16) (hd : d ≠ localAddr) (payload : Bytes)
    (hp : payload.length ≤ 4092) (es : List Ev) (hes : ∀ e ∈ es, e ≠ .lowerClose) :
    ∃ w out, exec (World.new localAddr) (.lowerOpen :: .arrive (frame d s payload) :: .lowerRxReady :: es) = some (w, out) ∧
      ∀ p, Out.data p ∈ out → p = [] := by
  have hinv : Inv ⟨{ Layer.new localAddr with isOpen := true }, [frame d s payload], []⟩ .sync1 [] :=
    ⟨new_reps 4092, trivial, rfl⟩
  obtain ⟨w1, past1, g1, g2, g3, _⟩ := getFrame_ok _ _ _ hinv
  have hne : frame d s payload ≠ [] := by
    intro h; have := congrArg List.length h; rw [frame_length] at this; simp at this
  obtain ⟨k1, k2, k3⟩ := g3 (by simpa using hne)
  have hrun := run_frame 4092 (by omega) d s payload [] hp
  have hstream : (Layer.new localAddr).remainder ++ [frame d s payload].flatten = frame d s payload ++ [] := by
    simp [Layer.new]
  simp only at k1
  rw [hstream, hrun] at k1
  obtain ⟨w2, o2, t1, t2, _⟩ := C14_foreign_frame_wedges w1 ⟨d, s, payload⟩ (by rw [read_reps k1.reps]; rfl)
    (by rw [g2.2.2.1]; rfl) (Or.inl (by rw [g2.1]; exact hd)) es hes
  have e1 : exec (World.new localAddr) (.lowerOpen :: .arrive (frame d s payload) :: .lowerRxReady :: es) =
      some (w2, [.open] ++ ([] ++ ((if w1.layer.parser.hasResult then [.rxReady] else []) ++ o2))) := by
    simp only [exec, Ev.step, World.new, Layer.new, Bool.false_eq_true, if_false, Option.bind_some, if_true,
      List.nil_append]
    simp only [Layer.new] at g1
    rw [g1]
    simp only [Option.bind_some, t1]
  refine ⟨w2, _, e1, ?_⟩
  intro p hp
  simp only [List.nil_append, List.cons_append, List.mem_cons, reduceCtorEq, false_or, List.mem_append] at hp
  rcases hp with h | h
  · split at h <;> simp at h
  · exact t2 p h

/-- What is delivered when frames for any stations, with any payloads, arrive, in any chunks and with any notifications and reads: at any moment a prefix
of the payloads of the frames before the first that is not for this station or has no payload, in order; when all frames have arrived, one read for
each of these delivers the rest of them. (For C14 that first frame should make no difference: see C14_foreign_frame_wedges.) -/
theorem C14_delivered_partial (localAddr : UInt16) (frames : List Frame) (hs : ∀ f ∈ frames, f.payload.length ≤ 4092) (es : List Ev)
    (hc : ∀ e ∈ es, e.calm) (future : Bytes)
    (ha : arrivals es ++ future = (frames.map fun f => Spec.frame f.destination f.source f.payload).flatten) :
    let mine := frames.takeWhile fun f => f.destination = localAddr ∧ f.payload ≠ []
    ∃ w out, exec (World.new localAddr) es = some (w, out) ∧ payloads out <+: mine.map (·.payload) ∧
      (future = [] → ∃ w' out', exec w (List.replicate mine.length .upperRead) = some (w', out') ∧
        payloads out ++ payloads out' = mine.map (·.payload)) := by
  intro mine
  let rest : Bytes := ((frames.dropWhile fun f => f.destination = localAddr ∧ f.payload ≠ []).map fun f => Spec.frame f.destination f.source f.payload).flatten
  let sent : List Sent := mine.map fun f => (f.source, f.payload)
  have hmine : ∀ f ∈ mine, f.destination = localAddr ∧ f.payload ≠ [] := fun f hf => by
    have := List.all_takeWhile (l := frames) (p := fun f => f.destination = localAddr ∧ f.payload ≠ [])
    simpa using List.all_eq_true.mp this f hf
  have hsplit : (frames.map fun f => Spec.frame f.destination f.source f.payload).flatten =
      (sent.map (Sent.frame localAddr)).flatten ++ rest := by
    rw [← List.flatten_append]
    have h1 : sent.map (Sent.frame localAddr) = mine.map fun f => Spec.frame f.destination f.source f.payload := by
      simp only [sent, List.map_map]
      refine List.map_congr_left fun f hf => ?_
      simp [Sent.frame, (hmine f hf).1]
    rw [h1, ← List.map_append, List.takeWhile_append_dropWhile]
  have hblock : Blocking localAddr rest := by
    simp only [rest]
    cases hd : frames.dropWhile fun f => f.destination = localAddr ∧ f.payload ≠ [] with
    | nil => exact Or.inl rfl
    | cons f fs =>
      refine Or.inr ⟨f.destination, f.source, f.payload, (fs.map fun f => Spec.frame f.destination f.source f.payload).flatten, ?_, ?_, by simp⟩
      · have h2 := List.head?_dropWhile_not (fun f : Frame => decide (f.destination = localAddr ∧ f.payload ≠ [])) frames
        rw [hd] at h2
        simp only [List.head?_cons, Option.all_some, Bool.not_eq_true', decide_eq_false_iff_not, not_and] at h2
        by_cases h3 : f.destination = localAddr
        · exact Or.inr (by simpa using h2 h3)
        · exact Or.inl h3
      · have h3 := (List.dropWhile_sublist (l := frames) fun f : Frame => decide (f.destination = localAddr ∧ f.payload ≠ [])).subset
        rw [hd] at h3
        exact hs f (h3 (by simp))
  have h0 : Deliver (World.new localAddr) [] none sent rest (arrivals es ++ future) := by
    refine ⟨⟨[], new_reps 4092, trivial, rfl⟩, rfl, by simp [World.new], rfl, ?_, hblock, by simp, ?_⟩
    · rw [ha, hsplit]
      simp [World.new, Layer.new]
    · intro x hx
      simp only [Option.toList_none, List.nil_append, sent, List.mem_map] at hx
      obtain ⟨f, hf, rfl⟩ := hx
      exact ⟨(hmine f hf).2, hs f ((List.takeWhile_sublist _).subset hf)⟩
  obtain ⟨w1, o1, u1, last1, todo1, s1, s2, s3, s4⟩ := deliver_exec es hc h0
  have hm : sent.map Prod.snd = mine.map (·.payload) := by simp [sent]
  rw [hm] at s4
  refine ⟨w1, o1, s1, ⟨_, s4.symm⟩, fun hfut => ?_⟩
  subst hfut
  have hlen : todo1.length ≤ mine.length := by
    have := congrArg List.length s4
    simp at this; omega
  obtain ⟨w2, o2, t1, t2⟩ := deliver_reads mine.length s2 hlen
  exact ⟨w2, o2, t1, by rw [t2, s4]⟩

/-- The hypotheses are satisfiable: a frame for this station, one for another, and one more for this. -/
example : let frames := [⟨1, 10, [1, 2, 3]⟩, ⟨2, 10, [7]⟩, (⟨1, 10, [4]⟩ : Frame)]
    ∃ w out, exec (World.new 1) [.lowerOpen, .arrive (frames.map fun f => Spec.frame f.destination f.source f.payload).flatten, .lowerRxReady] = some (w, out) ∧
      ∃ w' out', exec w [.upperRead] = some (w', out') ∧ payloads out ++ payloads out' = [[1, 2, 3]] := by
  intro frames
  obtain ⟨w, out, h1, -, h2⟩ := C14_delivered_partial 1 frames (by decide) [.lowerOpen, .arrive (frames.map fun f => Spec.frame f.destination f.source f.payload).flatten, .lowerRxReady]
    (by
      intro e he
      simp only [List.mem_cons, List.not_mem_nil, or_false] at he
      rcases he with rfl | rfl | rfl
      · trivial
      · simp [Ev.calm, frames, frame, frameHeader, w16, crcBytes]
      · trivial) [] (by simp [arrivals])
  obtain ⟨w', out', h3, h4⟩ := h2 rfl
  exact ⟨w, out, h1, w', out', h3, h4⟩

/-! ## C15 — reopening -/

/-- Two layers that the layer above cannot tell apart, whatever happens next. -/
def SameLayer (w v : World) : Prop := ∀ es, (exec w es).map Prod.snd = (exec v es).map Prod.snd

/-- The layers agree on everything but the (irrelevant) contents of the parser buffer. -/
structure Agree (w v : World) (a : A) : Prop where
  wreps : w.layer.parser.Reps 4092 4108 a
  vreps : v.layer.parser.Reps 4092 4108 a
  rem : w.layer.remainder = v.layer.remainder
  queue : w.queue = v.queue
  isOpen : w.layer.isOpen = v.layer.isOpen
  flag : w.layer.rxFlag = v.layer.rxFlag
  addr : w.layer.localAddr = v.layer.localAddr

theorem agree_loop (fuel : Nat) : ∀ {w v : World} {a : A}, Agree w v a →
    (getFrameLoop fuel w = none ∧ getFrameLoop fuel v = none) ∨
    ∃ w' v' a', getFrameLoop fuel w = some w' ∧ getFrameLoop fuel v = some v' ∧ Agree w' v' a' := by
  induction fuel with
  | zero => intro w v a _; exact Or.inl ⟨rfl, rfl⟩
  | succ fuel ih =>
    intro w v a h
    simp only [getFrameLoop, readFrameOneIteration, ← h.rem]
    by_cases hrem : w.layer.remainder = []
    · rw [if_pos hrem, if_pos hrem]
      simp only [World.pull, ← h.queue]
      cases hq : w.queue with
      | nil =>
        right
        simp only [Option.bind_some, List.isEmpty_nil, Bool.not_true, Bool.false_eq_true, if_false]
        exact ⟨_, _, a, rfl, rfl, ⟨h.wreps, h.vreps, rfl, h.queue, h.isOpen, h.flag, h.addr⟩⟩
      | cons c cs =>
        simp only [Option.bind_some]
        have hag : Agree { w with queue := cs, pulled := w.pulled ++ c, layer := { w.layer with remainder := c } }
            { v with queue := cs, pulled := v.pulled ++ c, layer := { v.layer with remainder := c } } a :=
          ⟨h.wreps, h.vreps, rfl, rfl, h.isOpen, h.flag, h.addr⟩
        cases hb : (!c.isEmpty) with
        | false =>
          right
          simp only [Bool.false_eq_true, if_false]
          exact ⟨_, _, a, rfl, rfl, hag⟩
        | true =>
          simp only [if_true]
          exact ih hag
    · rw [if_neg hrem, if_neg hrem]
      obtain ⟨p', h1, h2⟩ := parse_refines (by omega) h.wreps w.layer.remainder
      obtain ⟨q', g1, g2⟩ := parse_refines (by omega) h.vreps w.layer.remainder
      rw [h1, g1]
      simp only [Option.bind_some]
      have hag : Agree { w with layer := { w.layer with parser := p', remainder := (run 4092 a w.layer.remainder).2 } }
          { v with layer := { v.layer with parser := q', remainder := (run 4092 a w.layer.remainder).2 } }
          (run 4092 a w.layer.remainder).1 :=
        ⟨h2, g2, rfl, h.queue, h.isOpen, h.flag, h.addr⟩
      cases hb : (!(run 4092 a w.layer.remainder).1.isRead) with
      | false =>
        right
        simp only [Bool.false_eq_true, if_false]
        exact ⟨_, _, _, rfl, rfl, hag⟩
      | true =>
        simp only [if_true]
        exact ih hag

theorem agree_getFrame {w v : World} {a : A} (h : Agree w v a) :
    (getFrame w = none ∧ getFrame v = none) ∨
    ∃ w' v' a', getFrame w = some (w', a'.isRead) ∧ getFrame v = some (v', a'.isRead) ∧ Agree w' v' a' := by
  unfold getFrame
  rw [hasResult_reps h.wreps, hasResult_reps h.vreps, ← h.queue]
  cases hr : a.isRead with
  | true => right; exact ⟨w, v, a, by simp [hr], by simp [hr], h⟩
  | false =>
    simp only [Bool.false_eq_true, if_false]
    rcases agree_loop (2 * w.queue.length + 2) h with ⟨h1, h2⟩ | ⟨w', v', a', h1, h2, h3⟩
    · left; simp [h1, h2]
    · right
      refine ⟨w', v', a', ?_, ?_, h3⟩
      · simp [h1, hasResult_reps h3.wreps]
      · simp [h2, hasResult_reps h3.vreps]

theorem agree_step {w v : World} {a : A} (h : Agree w v a) (e : Ev) :
    (e.step w = none ∧ e.step v = none) ∨
    ∃ w' v' a' o, e.step w = some (w', o) ∧ e.step v = some (v', o) ∧ Agree w' v' a' := by
  cases e with
  | arrive c =>
    right
    refine ⟨_, _, a, [], rfl, rfl, h.wreps, h.vreps, h.rem, ?_, h.isOpen, h.flag, h.addr⟩
    simp [h.queue]
  | dropLower => right; exact ⟨_, _, a, [], rfl, rfl, h.wreps, h.vreps, h.rem, rfl, h.isOpen, h.flag, h.addr⟩
  | lowerOpen =>
    right
    simp only [Ev.step, ← h.isOpen]
    split
    · exact ⟨_, _, a, [], rfl, rfl, h⟩
    · exact ⟨_, _, a, _, rfl, rfl, h.wreps, h.vreps, h.rem, h.queue, rfl, h.flag, h.addr⟩
  | lowerClose =>
    right
    simp only [Ev.step, ← h.isOpen]
    split
    · exact ⟨_, _, .sync1, _, rfl, rfl, reset_reps h.wreps, reset_reps h.vreps, h.rem, h.queue, rfl, h.flag, h.addr⟩
    · exact ⟨_, _, a, [], rfl, rfl, h⟩
  | lowerTxReady =>
    right
    simp only [Ev.step, ← h.isOpen]
    split <;> exact ⟨_, _, a, _, rfl, rfl, h⟩
  | lowerRxReady =>
    simp only [Ev.step, ← h.isOpen]
    split
    · rcases agree_getFrame h with ⟨h1, h2⟩ | ⟨w', v', a', h1, h2, h3⟩
      · left; simp [h1, h2]
      · right; rw [h1, h2]; exact ⟨w', v', a', _, rfl, rfl, h3⟩
    · right; exact ⟨_, _, a, [], rfl, rfl, h⟩
  | upperRead =>
    simp only [Ev.step, startRx, startRxImpl]
    have h0 : ∃ a0, Agree (if w.layer.rxFlag = true then
        { w with layer := { w.layer with parser := w.layer.parser.reset, rxFlag := false } } else w)
        (if v.layer.rxFlag = true then
        { v with layer := { v.layer with parser := v.layer.parser.reset, rxFlag := false } } else v) a0 := by
      rw [← h.flag]
      split
      · exact ⟨.sync1, reset_reps h.wreps, reset_reps h.vreps, h.rem, h.queue, h.isOpen, rfl, h.addr⟩
      · exact ⟨a, h⟩
    obtain ⟨a0, h0⟩ := h0
    rcases agree_getFrame h0 with ⟨h1, h2⟩ | ⟨w', v', a', h1, h2, h3⟩
    · left; simp [h1, h2]
    · right
      rw [h1, h2]
      simp only [Option.bind_some]
      cases hr : a'.isRead with
      | false =>
        simp only [Bool.false_eq_true, if_false, Option.bind_some, ne_eq, not_true_eq_false]
        exact ⟨w', v', a', _, rfl, rfl, h3⟩
      | true =>
        simp only [if_true]
        rw [read_reps h3.wreps, read_reps h3.vreps]
        cases a' with
        | read f =>
          simp only [A.frame?, Option.bind_some, ← h3.addr]
          by_cases hx : (if f.destination = w'.layer.localAddr then f.payload else []) ≠ []
          · rw [if_pos hx, if_pos hx]
            exact ⟨_, _, .read f, _, rfl, rfl, h3.wreps, h3.vreps, h3.rem, h3.queue, h3.isOpen, rfl, rfl⟩
          · rw [if_neg hx, if_neg hx]
            exact ⟨_, _, .read f, _, rfl, rfl, h3⟩
        | _ => cases hr

theorem agree_exec (es : List Ev) : ∀ {w v : World} {a : A}, Agree w v a →
    (exec w es).map Prod.snd = (exec v es).map Prod.snd := by
  induction es with
  | nil => intros; rfl
  | cons e es ih =>
    intro w v a h
    simp only [exec]
    rcases agree_step h e with ⟨h1, h2⟩ | ⟨w', v', a', o, h1, h2, h3⟩
    · rw [h1, h2]
    · rw [h1, h2]
      simp only [Option.bind_some]
      have := ih h3
      cases hw : exec w' es <;> cases hv : exec v' es <;> simp_all

/-- What holds of C15: if, when the layer is closed, no received byte is left unparsed and no read by
the layer above is outstanding (and the layer below drops its data), then after reopening the layer
cannot be distinguished from a newly constructed one. Missing for the full property: the two hypotheses
on the remainder and on the outstanding read. -/
theorem C15_clean_reopen_partial (localAddr : UInt16) (es : List Ev) (w : World) (out : List Out)
    (h : exec (World.new localAddr) es = some (w, out)) (hopen : w.layer.isOpen = true)
    (hrem : w.layer.remainder = []) (hflag : w.layer.rxFlag = false) :
    ∃ w', exec w [.lowerClose, .dropLower] = some (w', [.close]) ∧ SameLayer w' (World.new localAddr) := by
  obtain ⟨w1, o1, a1, past1, h1, h2, h3, _⟩ := exec_inv es (w := World.new localAddr) (a := .sync1) (past := [])
    ⟨new_reps 4092, trivial, rfl⟩
  rw [h] at h1
  cases h1
  refine ⟨{ w with layer := { w.layer with isOpen := false, parser := w.layer.parser.reset }, queue := [] }, ?_, ?_⟩
  · simp [exec, Ev.step, hopen]
  · intro es'
    exact agree_exec es' (a := .sync1) ⟨reset_reps h2.reps, new_reps 4092, hrem, rfl, rfl, hflag, h3⟩

/-- The situation of a layer, up to what cannot be observed. -/
structure At (w : World) (a : A) (s : Bytes) (flag op : Bool) (addr : UInt16) : Prop where
  inv : ∃ past, Inv w a past
  stream : w.layer.remainder ++ w.queue.flatten = s
  nonempty : ∀ c ∈ w.queue, c ≠ []
  flag : w.layer.rxFlag = flag
  op : w.layer.isOpen = op
  addr : w.layer.localAddr = addr

theorem at_rxReady {w a s flag addr} (h : At w a s flag true addr) {f rest} (hrun : run 4092 a s = (.read f, rest)) :
    ∃ w', Ev.lowerRxReady.step w = some (w', [.rxReady]) ∧ At w' (.read f) rest flag true addr := by
  obtain ⟨past, hi⟩ := h.inv
  obtain ⟨w', past', g1, g2, g3, _⟩ := getFrame_ok w a past hi
  obtain ⟨k1, k2, k3⟩ := g3 h.nonempty
  rw [h.stream, hrun] at k1 k2
  refine ⟨w', ?_, ⟨past', k1⟩, k2, k3, by rw [g2.2.2.1, h.flag], by rw [g2.2.1, h.op], by rw [g2.1, h.addr]⟩
  simp only [Ev.step, h.op, if_true, g1, Option.bind_some, hasResult_reps k1.reps, A.isRead]

theorem at_read {w a s flag op addr} (h : At w a s flag op addr) (src : UInt16) (p rest : Bytes) (hp : p ≠ [])
    (hrun : run 4092 (if flag then .sync1 else a) s = (.read ⟨addr, src, p⟩, rest)) :
    ∃ w', Ev.upperRead.step w = some (w', [.data p]) ∧ At w' (.read ⟨addr, src, p⟩) rest true op addr := by
  simp only [Ev.step, startRx, startRxImpl]
  generalize hw0 : (if w.layer.rxFlag = true then
    { w with layer := { w.layer with parser := w.layer.parser.reset, rxFlag := false } } else w) = w0
  have h0 : At w0 (if flag then .sync1 else a) s false op addr := by
    obtain ⟨past, hi⟩ := h.inv
    rw [← hw0, h.flag]
    cases flag with
    | true => exact ⟨⟨past, reset_reps hi.reps, trivial, hi.pulled⟩, h.stream, h.nonempty, rfl, h.op, h.addr⟩
    | false => exact ⟨⟨past, hi⟩, h.stream, h.nonempty, h.flag, h.op, h.addr⟩
  obtain ⟨past, hi⟩ := h0.inv
  obtain ⟨w', past', g1, g2, g3, _⟩ := getFrame_ok w0 _ past hi
  obtain ⟨k1, k2, k3⟩ := g3 h0.nonempty
  rw [h0.stream, hrun] at k1 k2
  have hadd : w'.layer.localAddr = addr := by rw [g2.1, h0.addr]
  rw [g1, hasResult_reps k1.reps]
  simp only [Option.bind_some, A.isRead, if_true, read_reps k1.reps, A.frame?, hadd]
  refine ⟨_, rfl, ?_⟩
  rw [if_pos hp]
  exact ⟨⟨past', k1.reps, k1.suffix, k1.pulled⟩, k2, k3, rfl, by simp only; rw [g2.2.1, h0.op], rfl⟩

/-- Nothing to read: the parser ends up between or inside frames. -/
theorem at_read_none {w a s flag op addr} (h : At w a s flag op addr)
    (hrun : (run 4092 (if flag then .sync1 else a) s).1.isRead = false) :
    ∃ w', Ev.upperRead.step w = some (w', [.data []]) := by
  simp only [Ev.step, startRx, startRxImpl]
  generalize hw0 : (if w.layer.rxFlag = true then
    { w with layer := { w.layer with parser := w.layer.parser.reset, rxFlag := false } } else w) = w0
  have h0 : At w0 (if flag then .sync1 else a) s false op addr := by
    obtain ⟨past, hi⟩ := h.inv
    rw [← hw0, h.flag]
    cases flag with
    | true => exact ⟨⟨past, reset_reps hi.reps, trivial, hi.pulled⟩, h.stream, h.nonempty, rfl, h.op, h.addr⟩
    | false => exact ⟨⟨past, hi⟩, h.stream, h.nonempty, h.flag, h.op, h.addr⟩
  obtain ⟨past, hi⟩ := h0.inv
  obtain ⟨w', past', g1, g2, g3, _⟩ := getFrame_ok w0 _ past hi
  obtain ⟨k1, k2, k3⟩ := g3 h0.nonempty
  rw [h0.stream] at k1
  rw [g1, hasResult_reps k1.reps, hrun]
  simp

theorem at_arrive {w a s flag op addr} (h : At w a s flag op addr) (c : Bytes) (hc : c ≠ []) :
    ∃ w', (Ev.arrive c).step w = some (w', []) ∧ At w' a (s ++ c) flag op addr := by
  obtain ⟨past, hi⟩ := h.inv
  refine ⟨_, rfl, ⟨past, hi.reps, hi.suffix, hi.pulled⟩, ?_, ?_, h.flag, h.op, h.addr⟩
  · rw [← h.stream]; simp
  · intro x hx
    rcases List.mem_append.mp hx with hx | hx
    · exact h.nonempty x hx
    · simp at hx; subst hx; exact hc

theorem at_close {w a s flag addr} (h : At w a s flag true addr) :
    ∃ w', Ev.lowerClose.step w = some (w', [.close]) ∧ At w' .sync1 s flag false addr := by
  obtain ⟨past, hi⟩ := h.inv
  simp only [Ev.step, h.op, if_true]
  exact ⟨_, rfl, ⟨past, reset_reps hi.reps, trivial, hi.pulled⟩, h.stream, h.nonempty, h.flag, rfl, h.addr⟩

theorem at_open {w a s flag addr} (h : At w a s flag false addr) :
    ∃ w', Ev.lowerOpen.step w = some (w', [.open]) ∧ At w' a s flag true addr := by
  obtain ⟨past, hi⟩ := h.inv
  simp only [Ev.step, h.op, Bool.false_eq_true, if_false]
  exact ⟨_, rfl, ⟨past, hi.reps, hi.suffix, hi.pulled⟩, h.stream, h.nonempty, h.flag, rfl, h.addr⟩

/-- Data handed out by the layer below is kept when that layer drops the rest. -/
theorem at_read_single {w addr} (h : At w .sync1 [] false true addr) (src : UInt16) (c p rest : Bytes) (hp : p ≠ [])
    (hc : c ≠ []) (hrun : run 4092 .sync1 c = (.read ⟨addr, src, p⟩, rest)) :
    ∃ w', exec w [.arrive c, .upperRead, .lowerClose, .dropLower] = some (w', [.data p, .close]) ∧
      At w' .sync1 rest true false addr := by
  obtain ⟨past, hi⟩ := h.inv
  have hs := h.stream
  rw [List.append_eq_nil_iff] at hs
  have hq : w.queue = [] := by
    cases hq : w.queue with
    | nil => rfl
    | cons x xs =>
      have := h.nonempty x (by simp [hq])
      rw [hq] at hs; simp at hs; exact absurd hs.2.1 this
  obtain ⟨p', g1, g2⟩ := parse_refines (by omega) hi.reps c
  obtain ⟨used, hu1, hu2⟩ := run_used 4092 c .sync1
  have hsuf := run_suffix (by omega) _ hi.reps.2.2 hi.suffix hu1
  rw [hrun] at g1 g2 hu1 hsuf
  have hres : w.layer.parser.hasResult = false := hasResult_reps hi.reps
  have hne : c.isEmpty = false := by cases c <;> simp_all
  have hget : ∀ n, getFrameLoop (n + 2) { w with queue := [c] } =
      some { w with queue := [], pulled := w.pulled ++ c, layer := { w.layer with parser := p', remainder := rest } } := by
    intro n
    simp only [getFrameLoop, readFrameOneIteration, hs.1, if_true, World.pull, Option.bind_some, hne, Bool.not_false,
      hc, if_false, g1, A.isRead, Bool.not_true, Bool.false_eq_true]
  have hrd : p'.read = some ⟨addr, src, p⟩ := read_reps g2
  have hhr : p'.hasResult = true := hasResult_reps g2
  refine ⟨{ w with queue := [], pulled := w.pulled ++ c, layer := { w.layer with parser := p'.reset, remainder := rest, rxFlag := true, isOpen := false } }, ?_, ?_⟩
  · simp only [exec, Ev.step, Option.bind_some, startRx, h.flag, Bool.false_eq_true, if_false, startRxImpl, getFrame, hres,
      hq, List.nil_append, hget, hrd, hhr, if_true, h.addr, List.length_singleton, h.op]
    simp [hp]
  · refine ⟨⟨past ++ used, reset_reps g2, trivial, ?_⟩, by simp, by simp, rfl, rfl, h.addr⟩
    simp only [hi.pulled, hs.1, List.append_nil, List.append_assoc, ← hu1]

theorem exec_append {xs ys : List Ev} : ∀ {w w' w'' : World} {o o' : List Out}, exec w xs = some (w', o) →
    exec w' ys = some (w'', o') → exec w (xs ++ ys) = some (w'', o ++ o') := by
  induction xs with
  | nil => intro w w' w'' o o' h1 h2; cases h1; exact h2
  | cons x xs ih =>
    intro w w' w'' o o' h1 h2
    simp only [exec] at h1
    cases hx : x.step w with
    | none => rw [hx] at h1; cases h1
    | some y =>
      rw [hx, Option.bind_some] at h1
      cases hy : exec y.1 xs with
      | none => rw [hy] at h1; cases h1
      | some z =>
        rw [hy, Option.bind_some] at h1
        cases h1
        simp [exec, hx, ih hy h2]

theorem at_new (addr : UInt16) : At (World.new addr) .sync1 [] false false addr :=
  ⟨⟨[], new_reps 4092, trivial, rfl⟩, rfl, by simp [World.new], rfl, rfl, rfl⟩

theorem frame_ne (d s : UInt16) (p : Bytes) : frame d s p ≠ [] := by
  intro h; have := congrArg List.length h; rw [frame_length] at this; simp at this

/-- **The code violates C15 (lost frame).** When the layer above has read a frame and the link is closed
and reopened, the outstanding-read flag survives and the first frame received afterwards is discarded:
the first read after the reopen returns nothing although a frame for this station was received. -/
theorem C15_first_frame_after_reopen_is_lost (localAddr s : UInt16) (p₁ p₂ : Bytes) (h₁ : p₁ ≠ [])
    (hl₁ : p₁.length ≤ 4092) (hl₂ : p₂.length ≤ 4092) :
    ∃ w, exec (World.new localAddr)
      [.lowerOpen, .arrive (frame localAddr s p₁), .upperRead, .lowerClose,
       .lowerOpen, .arrive (frame localAddr s p₂), .lowerRxReady, .upperRead] =
      some (w, [.open, .data p₁, .close, .open, .rxReady, .data []]) := by
  obtain ⟨w1, e1, a1⟩ := at_open (at_new localAddr)
  obtain ⟨w2, e2, a2⟩ := at_arrive a1 (frame localAddr s p₁) (frame_ne _ _ _)
  have r1 := run_frame 4092 (by omega) localAddr s p₁ [] hl₁
  obtain ⟨w3, e3, a3⟩ := at_read a2 s p₁ [] h₁ (by simpa using r1)
  obtain ⟨w4, e4, a4⟩ := at_close a3
  obtain ⟨w5, e5, a5⟩ := at_open a4
  obtain ⟨w6, e6, a6⟩ := at_arrive a5 (frame localAddr s p₂) (frame_ne _ _ _)
  have r2 := run_frame 4092 (by omega) localAddr s p₂ [] hl₂
  rw [List.append_nil] at r2
  obtain ⟨w7, e7, a7⟩ := at_rxReady a6 (by simpa using r2)
  obtain ⟨w8, e8⟩ := at_read_none a7 (by simp [run_nil]; rfl)
  exact ⟨w8, by simp [exec, e1, e2, e3, e4, e5, e6, e7, e8, A.isRead]⟩

/-- **The code violates C15 (stale data).** Data received before the close is delivered after it. -/
theorem C15_stale_frame_delivered_after_reopen (localAddr s : UInt16) (p₁ p₂ p₃ : Bytes) (h₁ : p₁ ≠ [])
    (h₃ : p₃ ≠ []) (hl₁ : p₁.length ≤ 4092) (hl₂ : p₂.length ≤ 4092) (hl₃ : p₃.length ≤ 4092) :
    ∃ w, exec (World.new localAddr)
      [.lowerOpen, .arrive (frame localAddr s p₁ ++ frame localAddr s p₂ ++ frame localAddr s p₃), .upperRead,
       .lowerClose, .dropLower, .lowerOpen, .lowerRxReady, .upperRead] =
      some (w, [.open, .data p₁, .close, .open, .rxReady, .data p₃]) := by
  have r3 := run_frame 4092 (by omega) localAddr s p₃ [] hl₃
  have r2 := run_frame 4092 (by omega) localAddr s p₂ (frame localAddr s p₃) hl₂
  have r1 := run_frame 4092 (by omega) localAddr s p₁ (frame localAddr s p₂ ++ frame localAddr s p₃) hl₁
  rw [List.append_nil] at r3
  obtain ⟨w1, e1, a1⟩ := at_open (at_new localAddr)
  obtain ⟨w2, e2, a2⟩ := at_read_single a1 s (frame localAddr s p₁ ++ frame localAddr s p₂ ++ frame localAddr s p₃) p₁
    (frame localAddr s p₂ ++ frame localAddr s p₃) h₁ (by simp [frame_ne]) (by rw [List.append_assoc]; exact r1)
  obtain ⟨w3, e3, a3⟩ := at_open a2
  obtain ⟨w4, e4, a4⟩ := at_rxReady a3 r2
  obtain ⟨w5, e5, a5⟩ := at_read a4 s p₃ [] h₃ (by simpa using r3)
  refine ⟨w5, ?_⟩
  have x1 : exec (World.new localAddr) [.lowerOpen] = some (w1, [.open]) := by simp [exec, e1]
  have x3 : exec w2 [.lowerOpen, .lowerRxReady, .upperRead] = some (w5, [.open, .rxReady, .data p₃]) := by
    simp [exec, e3, e4, e5]
  have h := exec_append x1 (exec_append e2 x3)
  simp only [List.cons_append, List.nil_append] at h
  exact h

end SSP21.Link
