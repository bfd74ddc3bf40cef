import Verif.Props.Liveness
/-
  C36: what happens to data whose transmission failed.
-/
namespace SSP21.Crypto.LayerExample
open Exec
set_option synthInstance.maxSize 2000

/-- The initiator of `iniFailed`, whose session failed while the application's message `[4, 5, 6]` was being
transmitted, renegotiates when the session timer expires. -/
def iniRetry3 : List Choice := iniFailed ++ [.event (.expiry .session), ans 11 1, ans 11 1]
def request3' : Bytes := lastTx (final ini3 .tame hs iniRetry3)
def resReply3' : List Choice := resAuth3L ++ [.event .lowerTxReady, .recv request3', ans 12, ans 12 7, ans 12 7]
def reply3' : Bytes := lastTx (final res .tame hs resReply3')
def iniAuth3' : List Choice := iniRetry3 ++ [.event .lowerTxReady, .recv reply3', ans 12, ans 12, ans 12]

/-- The log up to the first time the application is told that it is closed, and the log after that. -/
def cutClosed : List Obs → Option (List Obs × List Obs)
  | [] => none
  | .up .closed :: l => some ([], l)
  | o :: l => (cutClosed l).map fun p => (o :: p.1, p.2)

theorem cutClosed_eq {l a b : List Obs} (h : cutClosed l = some (a, b)) : l = a ++ .up .closed :: b := by
  induction l generalizing a with
  | nil => cases h
  | cons o l ih =>
    unfold cutClosed at h
    split at h
    · cases h
    · rename_i h'
      cases h'
      simp only [Option.some.injEq, Prod.mk.injEq] at h
      rw [← h.1, ← h.2]
      rfl
    · rename_i x l' _ h'
      cases h'
      cases hl : cutClosed l with
      | none => rw [hl] at h; cases h
      | some p =>
        rw [hl] at h
        obtain ⟨x1, x2⟩ := p
        simp only [Option.map_some, Option.some.injEq, Prod.mk.injEq] at h
        rw [← h.1, ih (a := x1) (by rw [hl, h.2])]
        rfl

/-- The data of the calls to `start_tx_from_upper`, with the answers. -/
def txCalls (l : List Obs) : List (Bytes × Bool) := l.filterMap fun | .startTx d b => some (d, b) | _ => none

/-- The number of times the application was told that it is open. -/
def opened (l : List Obs) : List Unit := l.filterMap fun | .up .opened => some () | _ => none

/-- The user data of the session messages handed to the layer below. -/
def sentData (l : List Obs) : List Bytes := l.filterMap fun
  | .lowerTx frame true => match SessionData.read frame with
    | .ok m => some m.user_data
    | .error _ => none
  | _ => none

def staleView (l : List Obs) : Option (List (Bytes × Bool) × List (Bytes × Bool) × List Unit × List Bytes) :=
  (cutClosed l).map fun p => (txCalls p.1, txCalls p.2, opened p.2, sentData p.2)

/-- C36 is false of the code. The application's message `[4, 5, 6]` was accepted, its session failed and the application
was told that it is closed. Nothing was given to the layer after that, and the application has not been opened again; yet
the next session's first message carries `[4, 5, 6]`. (The frame writer of the example adds nothing to a message.) -/
theorem C36_stale_data_violation : ∃ c s pre post frame msg, c.fw.wrap = id ∧ Quiet c EnvB.tame.env s ∧
    s.log = pre ++ .up .closed :: post ∧ .startTx [4, 5, 6] true ∈ pre ∧ (∀ d b, .startTx d b ∉ post) ∧
    .up .opened ∉ post ∧ .lowerTx frame true ∈ post ∧ SessionData.read frame = .ok msg ∧ msg.user_data = [4, 5, 6] := by
  obtain ⟨s, h1, h2⟩ := Exec.exists_of_map (configured : hs.Configured ini3.backend ini3.caps) (c := ini3) (E := .tame)
    (h := hs) (script := iniAuth3') (f := fun s => staleView s.log)
    (a := some ([([1, 2, 3], true), ([4, 5, 6], true)], [], [], [[4, 5, 6]])) (by decide +kernel)
  unfold staleView at h2
  rw [Option.map_eq_some_iff] at h2
  obtain ⟨⟨pre, post⟩, hc, hv⟩ := h2
  simp only [Prod.mk.injEq] at hv
  obtain ⟨hv1, hv2, hv3, hv4⟩ := hv
  have hm : [4, 5, 6] ∈ sentData post := by rw [hv4]; simp
  obtain ⟨o, ho, hx⟩ := List.mem_filterMap.1 hm
  have hp : (([4, 5, 6] : Bytes), true) ∈ txCalls pre := by rw [hv1]; simp
  obtain ⟨o', ho', hx'⟩ := List.mem_filterMap.1 hp
  have hlog := cutClosed_eq hc
  split at hx <;> try (cases hx; done)
  split at hx <;> try (cases hx; done)
  rename_i frame _ msg hr
  simp only [Option.some.injEq] at hx
  refine ⟨ini3, s, pre, post, frame, msg, rfl, h1, hlog, ?_, ?_, ?_, ?_, hr, hx⟩
  · split at hx' <;> try (cases hx'; done)
    simp only [Option.some.injEq, Prod.mk.injEq] at hx'
    rw [← hx'.1, ← hx'.2]
    exact ho'
  · intro d b hd
    have : (d, b) ∈ txCalls post := List.mem_filterMap.2 ⟨_, hd, rfl⟩
    rw [hv2] at this
    cases this
  · intro hd
    have : () ∈ opened post := List.mem_filterMap.2 ⟨_, hd, rfl⟩
    rw [hv3] at this
    cases this
  · exact ho

end SSP21.Crypto.LayerExample
