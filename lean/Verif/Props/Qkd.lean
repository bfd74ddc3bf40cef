import Verif.QkdExec
import Verif.Props.Qix
import Verif.Props.OneUse
import Verif.Props.Agreement
/-
  Property C55: quantum keys, from the device to the sessions.
-/
namespace SSP21.Qkd
open Qix Qix.Spec
open Crypto (Obs Layer keysTaken)

namespace Spec

/-- The device has sent a frame with this id, this key (of 32 bytes) and the status "ok". -/
def Sent (received : Bytes) (id : UInt64) (key : Bytes) : Prop := key.length = 32 ∧ Qix.Spec.frame id key 1 <:+: received

/-- What a layer has observed, if this can be told: it is waiting for its environment, or between two messages. -/
def observed (x : Crypto.Config) : List Obs :=
  match x.ctl with
  | .env s => s.log
  | .code (.loop s _) => s.log
  | _ => []

/-- The quantum keys of the sessions of a layer, in the order of their installation: each session uses the key that the
layer has taken last, unless another session has used it already. -/
def sessionKeys : Option (UInt64 × Bytes) → List Obs → List (UInt64 × Bytes)
  | _, [] => []
  | _, .keyUsed r :: log => sessionKeys (some r) log
  | last, .established _ _ _ :: log => last.toList ++ sessionKeys none log
  | last, _ :: log => sessionKeys last log

/-- The layer uses quantum keys. -/
def Quantum (m : Member) : Prop :=
  match m.cfg.role with
  | .initiator _ _ => ∀ h, m.env.config h → ∃ k, h.mode = .qkd k
  | .responder h => h = .qkd

end Spec

/-! ### Lists -/

theorem count_once {α : Type} (P Q : α → Bool) (hd : ∀ x, Q x = true → P x = false) (log : List α)
    (h : ∀ a x b, log = a ++ x :: b → P x = true → ∃ c y d, a = c ++ y :: d ∧ Q y = true ∧ ∀ z ∈ d, P z = false) :
    log.countP P ≤ log.countP Q := by
  induction hn : log.length using Nat.strongRecOn generalizing log with
  | ind n ih =>
    rcases List.eq_nil_or_concat log with rfl | ⟨front, e, rfl⟩
    · simp
    · rw [List.concat_eq_append] at *
      have hfront : ∀ m, m <+: front → m.countP P ≤ m.countP Q := by
        rintro m ⟨r, rfl⟩
        refine ih _ (by simp at hn; omega) m (fun a x b he hx => ?_) rfl
        exact h a x (b ++ r ++ [e]) (by rw [he]; simp) hx
      by_cases hr : P e = true
      · obtain ⟨x, y, z, rfl, hy, hz⟩ := h front e [] rfl hr
        have hx := hfront x ⟨_, rfl⟩
        have h0 : z.countP P = 0 := by
          rw [List.countP_eq_zero]
          intro w hw
          rw [hz w hw]
          simp
        simp only [List.countP_append, List.countP_cons, List.countP_nil, hr, hy, hd y hy, h0, if_true]
        simp
        omega
      · have hf := hfront front (List.prefix_refl _)
        simp only [List.countP_append, List.countP_cons, List.countP_nil]
        simp [hr]
        omega

/-! ### Histories of the source -/

theorem sourceRun_snoc {r r' r'' : Router} {ops : List SourceOp} {es : List SourceEntry} {op : SourceOp} {e : SourceEntry}
    (h : sourceRun r ops = some (r', es)) (h' : sourceStep r' op = some (r'', e)) : sourceRun r (ops ++ [op]) = some (r'', es ++ [e]) := by
  induction ops generalizing r es with
  | nil =>
    cases h
    simp [sourceRun, h']
  | cons o ops ih =>
    simp only [sourceRun, List.cons_append] at h ⊢
    cases ho : sourceStep r o with
    | none => rw [ho] at h; cases h
    | some x =>
      obtain ⟨r1, e1⟩ := x
      rw [ho] at h
      simp only [Option.map_eq_some_iff, Prod.mk.injEq] at h ⊢
      obtain ⟨⟨r2, es2⟩, h1, rfl, rfl⟩ := h
      exact ⟨_, ih h1, rfl, rfl⟩

theorem readerRun_snoc {r r' : Reader} {chunks : List Bytes} {fs : List Frame} {chunk : Bytes} (h : r.run chunks = some (r', fs))
    (hc : r'.dest + chunk.length ≤ 47) :
    r.run (chunks ++ [chunk]) = some ((r'.onRead chunk).1, fs ++ (r'.onRead chunk).2.toList) := by
  induction chunks generalizing r fs with
  | nil =>
    cases h
    have : ¬ 47 < r'.dest + chunk.length := by omega
    simp [Reader.run]
    omega
  | cons o chunks ih =>
    simp only [Reader.run, List.cons_append] at h ⊢
    split at h
    · cases h
    · simp only [Option.map_eq_some_iff, Prod.mk.injEq] at h ⊢
      obtain ⟨⟨r2, fs2⟩, h1, rfl, rfl⟩ := h
      rename_i hn
      rw [if_neg hn]
      simp only [Option.map_eq_some_iff, Prod.mk.injEq]
      exact ⟨_, ih h1, rfl, by simp⟩

/-- The frames that have arrived. -/
def framesOf (es : List SourceEntry) : List Frame := es.filterMap fun e => match e with | .frame f => some f | _ => none

theorem framesOf_append (a b : List SourceEntry) : framesOf (a ++ b) = framesOf a ++ framesOf b := by
  simp [framesOf, List.filterMap_append]

def isReturned (id : UInt64) : SourceEntry → Bool
  | .returned _ i _ => i = id
  | _ => false

def isFrame (id : UInt64) : SourceEntry → Bool
  | .frame f => f.keyId = id ∧ f.status = .ok
  | _ => false

theorem returned_le {users : UInt16} {ops : List SourceOp} {r : Router} {es : List SourceEntry}
    (h : sourceRun ⟨users, []⟩ ops = some (r, es)) (id : UInt64) : es.countP (isReturned id) ≤ es.countP (isFrame id) := by
  refine count_once _ _ (fun x => by cases x <;> simp [isReturned, isFrame]) _ fun a x b he hx => ?_
  cases x with
  | returned u i k =>
    have hi : i = id := by simpa [isReturned] using hx
    subst hi
    obtain ⟨-, c, f, d, h1, h2, h3, -, -, h4, -⟩ := C27_one_user users ops r es h a b u i k he
    refine ⟨c, _, d, h1, by simp [isFrame, h2, h3], fun z hz => ?_⟩
    cases z with
    | returned u' i' k' =>
      by_cases hi : i' = i
      · subst hi
        exact absurd hz (h4 u' k')
      · simp [isReturned, hi]
    | _ => rfl
  | _ => simp [isReturned] at hx

theorem isFrame_count (es : List SourceEntry) (id : UInt64) :
    es.countP (isFrame id) = (framesOf es).countP fun f => f.keyId = id ∧ f.status = .ok := by
  induction es with
  | nil => rfl
  | cons e es ih =>
    rw [show e :: es = [e] ++ es from rfl, framesOf_append, List.countP_append, List.countP_append, ih]
    cases e <;> simp [framesOf, isFrame, List.countP_cons]

/-! ### The invariant -/

/-- The number of keys with this id. -/
def times (id : UInt64) (l : List (UInt64 × Bytes)) : Nat := l.countP fun r => r.1 = id

structure Good (users : UInt16) (st : Station) : Prop where
  device : ∃ buffer chunks fs, buffer.length = 47 ∧ (Reader.new buffer).run chunks = some (st.reader, fs) ∧
    chunks.flatten = st.received ∧ framesOf st.entries = handled fs
  source : ∃ ops, sourceRun ⟨users, []⟩ ops = some (st.router, st.entries)
  members : ∃ ps : List (Member × List (UInt64 × Bytes)), st.members = ps.map (·.1) ∧
    (∀ p ∈ ps, Crypto.Reachable p.1.cfg p.1.env p.1.now ∧ p.1.now.Keyed p.2 ∧
      ∀ r ∈ p.2, SourceEntry.returned p.1.number r.1 (some r.2) ∈ st.entries) ∧
    ∀ id, (ps.map fun p => times id p.2).sum ≤ st.entries.countP (isReturned id)

theorem given_some {u : UInt16} {r r' : Router} {op : SourceOp} {e : SourceEntry} (ho : op = .consume u ∨ ∃ id, op = .find u id)
    (h : sourceStep r op = some (r', e)) :
    framesOf [e] = [] ∧ (∀ x, given e = some x → e = .returned u x.1 (some x.2)) ∧
    ∀ id, op = .find u id → ∀ x, given e = some x → x.1 = id := by
  rcases ho with rfl | ⟨i, rfl⟩ <;> simp only [sourceStep] at h <;> (repeat' split at h) <;> cases h <;>
    simp [framesOf, given] <;> (rename_i key _ ; cases key <;> simp)

theorem answer_given {r r' : Router} {u : UInt16} {f : Crypto.Fresh} {es : List SourceEntry} (h : Answer r u f es r')
    {l : List (UInt64 × Bytes)} (hl : f.Gives l) :
    (∀ x ∈ l, SourceEntry.returned u x.1 (some x.2) ∈ es) ∧ (∀ id, times id l ≤ es.countP (isReturned id)) ∧
      framesOf es = [] ∧ ∀ r0 ops es0, sourceRun r0 ops = some (r, es0) → ∃ ops', sourceRun r0 ops' = some (r', es0 ++ es) := by
  have one : ∀ (e : SourceEntry) (x : UInt64 × Bytes), e = .returned u x.1 (some x.2) →
      (∀ y ∈ [x], SourceEntry.returned u y.1 (some y.2) ∈ [e]) ∧ ∀ id, times id [x] ≤ [e].countP (isReturned id) := by
    rintro e x rfl
    exact ⟨by simp, by simp [times, isReturned, List.countP_cons]⟩
  have none : (∀ y ∈ ([] : List (UInt64 × Bytes)), SourceEntry.returned u y.1 (some y.2) ∈ es) ∧
      ∀ id, times id [] ≤ es.countP (isReturned id) := ⟨by simp, by simp [times]⟩
  cases h with
  | unasked h1 h2 =>
    have : l = [] := by
      rcases hl with rfl | ⟨x, hx, -⟩ | ⟨id, key, hx, -⟩
      · rfl
      · rw [h1] at hx; cases hx
      · rw [h2] at hx; cases hx
    subst this
    exact ⟨none.1, none.2, rfl, fun r0 ops es0 h => ⟨ops, by simpa using h⟩⟩
  | consume r' e h1 h2 h3 =>
    obtain ⟨g1, g2, -⟩ := given_some (.inl rfl) h1
    have hrun : ∀ r0 ops es0, sourceRun r0 ops = some (r, es0) → ∃ ops', sourceRun r0 ops' = some (r', es0 ++ [e]) :=
      fun r0 ops es0 h => ⟨_, sourceRun_snoc h h1⟩
    rcases hl with rfl | ⟨x, hx, rfl⟩ | ⟨id, key, hx, -⟩
    · exact ⟨none.1, none.2, g1, hrun⟩
    · rw [h2] at hx
      exact ⟨(one e x (g2 x hx)).1, (one e x (g2 x hx)).2, g1, hrun⟩
    · rw [h3] at hx; cases hx
  | find id r' e h1 h2 h3 =>
    obtain ⟨g1, g2, g3⟩ := given_some (.inr ⟨id, rfl⟩) h1
    have hrun : ∀ r0 ops es0, sourceRun r0 ops = some (r, es0) → ∃ ops', sourceRun r0 ops' = some (r', es0 ++ [e]) :=
      fun r0 ops es0 h => ⟨_, sourceRun_snoc h h1⟩
    rcases hl with rfl | ⟨x, hx, rfl⟩ | ⟨id', key, hx, rfl⟩
    · exact ⟨none.1, none.2, g1, hrun⟩
    · rw [h2] at hx; cases hx
    · rw [h3] at hx
      split at hx
      · rename_i hid
        subst hid
        rw [Option.map_eq_some_iff] at hx
        obtain ⟨x, hx, rfl⟩ := hx
        have hid := g3 id' rfl x hx
        subst hid
        exact ⟨(one e x (g2 x hx)).1, (one e x (g2 x hx)).2, g1, hrun⟩
      · cases hx

theorem map_split {ps : List (Member × List (UInt64 × Bytes))} {a b : List Member} {m : Member} (h : ps.map (·.1) = a ++ m :: b) :
    ∃ pa base pb, ps = pa ++ (m, base) :: pb ∧ pa.map (·.1) = a ∧ pb.map (·.1) = b := by
  rw [List.map_eq_append_iff] at h
  obtain ⟨pa, q, rfl, h1, h2⟩ := h
  rw [List.map_eq_cons_iff] at h2
  obtain ⟨x, pb, rfl, rfl, rfl⟩ := h2
  exact ⟨pa, x.2, pb, rfl, h1, rfl⟩

theorem good {users : UInt16} {st : Station} (h : Reachable users st) : Good users st := by
  induction h with
  | new buffer hb =>
    exact ⟨⟨buffer, [], [], hb, rfl, rfl, rfl⟩, ⟨[], rfl⟩, ⟨[], rfl, by simp, by simp⟩⟩
  | @step x y h hs ih =>
    obtain ⟨⟨buffer, chunks, fs, d1, d2, d3, d4⟩, ⟨ops, hops⟩, ps, p1, p2, p3⟩ := ih
    cases hs with
    | bind user size r e he =>
      refine ⟨⟨buffer, chunks, fs, d1, d2, d3, ?_⟩, ⟨_, sourceRun_snoc hops he⟩, ps, p1, fun p hp => ?_, fun id => ?_⟩
      · rw [framesOf_append, d4]
        simp only [sourceStep] at he
        split at he <;> cases he <;> simp [framesOf]
      · obtain ⟨a1, a2, a3⟩ := p2 p hp
        exact ⟨a1, a2, fun r hr => List.mem_append_left _ (a3 r hr)⟩
      · have := p3 id
        rw [List.countP_append]
        omega
    | create user c E hh hc hE =>
      refine ⟨⟨buffer, chunks, fs, d1, d2, d3, d4⟩, ⟨ops, hops⟩, ps ++ [(⟨user, c, E, ⟨.env (.new c hh), []⟩⟩, [])], by simp [p1], ?_, ?_⟩
      · intro p hp
        rcases List.mem_append.mp hp with hp | hp
        · exact p2 p hp
        · rw [List.mem_singleton] at hp
          subst hp
          exact ⟨.init hh hc hE, ⟨rfl, by simp⟩, by simp⟩
      · intro id
        simpa [times] using p3 id
    | read chunk r es hc ha =>
      have hread := readerRun_snoc d2 hc
      have hsum : ∀ id, (ps.map fun p => times id p.2).sum ≤ (x.entries ++ es).countP (isReturned id) := fun id => by
        have := p3 id
        rw [List.countP_append]
        omega
      have hmem : ∀ p ∈ ps, Crypto.Reachable p.1.cfg p.1.env p.1.now ∧ p.1.now.Keyed p.2 ∧
          ∀ r ∈ p.2, SourceEntry.returned p.1.number r.1 (some r.2) ∈ x.entries ++ es := fun p hp =>
        ⟨(p2 p hp).1, (p2 p hp).2.1, fun r hr => List.mem_append_left _ ((p2 p hp).2.2 r hr)⟩
      refine ⟨⟨buffer, _, _, d1, hread, by simp [d3], ?_⟩, ?_, ps, p1, hmem, hsum⟩
      · rw [framesOf_append, d4]
        unfold handled
        rw [List.filter_append]
        congr 1
        cases hf : (Reader.onRead _ chunk).2 with
        | none =>
          rw [hf] at ha
          cases ha
          rfl
        | some f =>
          rw [hf] at ha
          simp only [arrive] at ha
          split at ha
          · rename_i hok
            simp only [sourceStep, Option.map_eq_some_iff] at ha
            obtain ⟨x, hx, hy⟩ := ha
            split at hx <;> cases hx
            cases hy
            simp [framesOf, hok]
          · rename_i hok
            cases ha
            simp [framesOf, hok]
      · cases hf : (Reader.onRead _ chunk).2 with
        | none =>
          rw [hf] at ha
          cases ha
          exact ⟨ops, by simpa using hops⟩
        | some f =>
          rw [hf] at ha
          simp only [arrive] at ha
          split at ha
          · simp only [Option.map_eq_some_iff] at ha
            obtain ⟨x, hx, hy⟩ := ha
            cases hy
            exact ⟨_, sourceRun_snoc hops hx⟩
          · cases ha
            exact ⟨ops, by simpa using hops⟩
    | ask a b m k stack f es r hm hnow hf ha =>
      rw [hm] at p1
      obtain ⟨pa, base, pb, rfl, rfl, rfl⟩ := map_split p1.symm
      obtain ⟨q1, q2, q3⟩ := p2 (m, base) (by simp)
      have hstep : Crypto.Step m.cfg m.env m.now ⟨.code (k f), stack⟩ := by
        rw [hnow]
        exact .ask f k stack hf
      have hk : ∃ l, f.Gives l ∧ Crypto.Config.Keyed (base ++ l) ⟨.code (k f), stack⟩ := by
        obtain ⟨c1, c2⟩ := q2
        simp only [hnow] at c1 c2
        obtain ⟨l, g1, g2⟩ := c1 f
        exact ⟨l, g1, g2, c2⟩
      obtain ⟨l, g1, g2⟩ := hk
      obtain ⟨a1, a2, a3, a4⟩ := answer_given ha g1
      refine ⟨⟨buffer, chunks, fs, d1, d2, d3, by rw [framesOf_append, a3, d4]; simp⟩, a4 _ _ _ hops,
        pa ++ ({ m with now := ⟨.code (k f), stack⟩ }, base ++ l) :: pb, by simp, ?_, ?_⟩
      · intro p hp
        rw [List.mem_append, List.mem_cons] at hp
        rcases hp with hp | rfl | hp
        · obtain ⟨z1, z2, z3⟩ := p2 p (by simp [hp])
          exact ⟨z1, z2, fun r hr => List.mem_append_left _ (z3 r hr)⟩
        · refine ⟨.step q1 hstep, g2, fun r hr => ?_⟩
          rcases List.mem_append.mp hr with hr | hr
          · exact List.mem_append_left _ (q3 r hr)
          · exact List.mem_append_right _ (a1 r hr)
        · obtain ⟨z1, z2, z3⟩ := p2 p (by simp [hp])
          exact ⟨z1, z2, fun r hr => List.mem_append_left _ (z3 r hr)⟩
      · intro id
        have h1 := p3 id
        have h2 := a2 id
        simp only [List.map_append, List.map_cons, List.sum_append, List.sum_cons, List.countP_append] at h1 ⊢
        have : times id (base ++ l) = times id base + times id l := by simp [times, List.countP_append]
        omega
    | layer a b m y hm hn hstep =>
      rw [hm] at p1
      obtain ⟨pa, base, pb, rfl, rfl, rfl⟩ := map_split p1.symm
      obtain ⟨q1, q2, q3⟩ := p2 (m, base) (by simp)
      have hy : y.Keyed base := by
        rcases q2.step hstep with h | ⟨k, st, f, l, h, -⟩
        · exact h.1
        · exact absurd h (hn k st)
      refine ⟨⟨buffer, chunks, fs, d1, d2, d3, d4⟩, ⟨ops, hops⟩, pa ++ ({ m with now := y }, base) :: pb, by simp, ?_, by simpa using p3⟩
      intro p hp
      rw [List.mem_append, List.mem_cons] at hp
      rcases hp with hp | rfl | hp
      · exact p2 p (by simp [hp])
      · exact ⟨.step q1 hstep, hy, q3⟩
      · exact p2 p (by simp [hp])

/-! ### What the layers have taken -/

theorem Found.sent {fs : List Frame} {bs : Bytes} (h : Found fs bs) {f : Frame} (hf : f ∈ fs) (hs : f.status = .ok) :
    Spec.Sent bs f.keyId f.key := by
  induction h with
  | nil => cases hf
  | skip b _ ih => exact ⟨(ih hf).1, (ih hf).2.trans ⟨[b], [], by simp⟩⟩
  | @frame id key st fs bs hk _ ih =>
    rcases List.mem_cons.mp hf with rfl | hf
    · have h1 : st = 1 := by
        simp only [Qix.Spec.status] at hs
        split at hs
        · assumption
        · split at hs <;> cases hs
      subst h1
      exact ⟨hk, ⟨[], bs, by simp⟩⟩
    · exact ⟨(ih hf).1, (ih hf).2.trans ⟨Qix.Spec.frame id key st, [], by simp⟩⟩

theorem Found.filter_le {fs : List Frame} (id : UInt64) :
    (handled fs).countP (fun f => f.keyId = id ∧ f.status = .ok) = fs.countP fun f => f.keyId = id ∧ f.status = .ok := by
  unfold handled
  rw [List.countP_filter]
  congr 1
  funext f
  by_cases h1 : f.keyId = id <;> by_cases h2 : f.status = .ok <;> simp [h1, h2]

theorem keyed_observed {x : Crypto.Config} {base : List (UInt64 × Bytes)} (h : x.Keyed base) :
    (keysTaken (Spec.observed x)).Sublist base := by
  obtain ⟨ctl, stack⟩ := x
  obtain ⟨h, -⟩ := h
  cases ctl with
  | env s => exact h ▸ List.Sublist.refl _
  | code r =>
    cases r with
    | loop s k => exact h.1 ▸ List.Sublist.refl _
    | _ => exact List.nil_sublist _

theorem mem_keysTaken {log : List Obs} {r : UInt64 × Bytes} : r ∈ keysTaken log ↔ Obs.keyUsed r ∈ log := by
  unfold keysTaken
  rw [List.mem_filterMap]
  constructor
  · rintro ⟨o, ho, he⟩
    cases o with
    | keyUsed x => cases he; exact ho
    | _ => cases he
  · exact fun h => ⟨_, h, rfl⟩

theorem times_sublist (id : UInt64) {a b : List (UInt64 × Bytes)} (h : a.Sublist b) : times id a ≤ times id b := h.countP_le

theorem sum_le {α : Type} {f g : α → Nat} {l : List α} (h : ∀ x ∈ l, f x ≤ g x) : (l.map f).sum ≤ (l.map g).sum := by
  induction l with
  | nil => simp
  | cons x l ih =>
    have h1 := h x (by simp)
    have h2 := ih fun y hy => h y (by simp [hy])
    simp only [List.map_cons, List.sum_cons]
    omega

theorem sessionKeys_sublist (last : Option (UInt64 × Bytes)) (log : List Obs) :
    (Spec.sessionKeys last log).Sublist (last.toList ++ keysTaken log) := by
  have one : ∀ (o : Obs) (log : List Obs), keysTaken (o :: log) = keysTaken [o] ++ keysTaken log := fun o log => Crypto.keysTaken_append [o] log
  induction log generalizing last with
  | nil => exact List.nil_sublist _
  | cons o log ih =>
    rw [one]
    cases o with
    | keyUsed r =>
      simp only [Spec.sessionKeys]
      exact (ih (some r)).trans (List.sublist_append_right _ _)
    | established k a p =>
      simp only [Spec.sessionKeys]
      exact (List.Sublist.refl _).append (ih none)
    | _ =>
      simp only [Spec.sessionKeys]
      exact ih last

/-- The frames that the process has found are frames of the device. -/
theorem found {users : UInt16} {st : Station} (g : Good users st) :
    ∃ fs, Found fs st.received ∧ framesOf st.entries = handled fs := by
  obtain ⟨buffer, chunks, fs, h1, h2, h3, h4⟩ := g.device
  exact ⟨fs, h3 ▸ C38_reported_occur buffer h1 chunks _ fs h2, h4⟩

/-- In every state of a process with a source of quantum keys: each key that a layer has taken was sent by the device, in a
complete frame with status "ok" and a correct checksum and under the id that the layer used, and its id belongs to the layer's number. -/
theorem C55_keys_come_from_the_device (users : UInt16) (st : Station) (h : Reachable users st) (m : Member) (hm : m ∈ st.members)
    (id : UInt64) (key : Bytes) (hk : Obs.keyUsed (id, key) ∈ Spec.observed m.now) :
    Spec.Sent st.received id key ∧ id.toNat % users.toNat = m.number.toNat := by
  have g := good h
  obtain ⟨fs, f1, f2⟩ := found g
  obtain ⟨ops, hops⟩ := g.source
  obtain ⟨ps, p1, p2, -⟩ := g.members
  rw [p1, List.mem_map] at hm
  obtain ⟨p, hp, rfl⟩ := hm
  obtain ⟨-, q1, q2⟩ := p2 p hp
  have := q2 _ ((keyed_observed q1).subset (mem_keysTaken.mpr hk))
  obtain ⟨a, b, hab⟩ := List.append_of_mem this
  obtain ⟨h1, x, f, y, h2, h3, h4, h5, h6, -⟩ := C27_one_user users ops _ _ hops a b _ _ _ hab
  have hf : f ∈ fs := by
    have : f ∈ framesOf st.entries := by
      rw [hab, h2]
      simp [framesOf, List.filterMap_append]
    rw [f2] at this
    exact (List.mem_filter.mp this).1
  have s1 := Found.sent f1 hf h4
  cases h6
  subst h3
  exact ⟨s1, h1⟩

/-- In every state of a process with a source of quantum keys: under each id, all layers together have taken keys at most as often as
the device has sent a key under this id (with status "ok", completely, without overlap). -/
theorem C55_keys_taken_once (users : UInt16) (st : Station) (h : Reachable users st) :
    ∃ fs, Found fs st.received ∧ ∀ id, (st.members.map fun m => times id (keysTaken (Spec.observed m.now))).sum ≤
      fs.countP fun f => f.keyId = id ∧ f.status = .ok := by
  have g := good h
  obtain ⟨fs, f1, f2⟩ := found g
  obtain ⟨ops, hops⟩ := g.source
  obtain ⟨ps, p1, p2, p3⟩ := g.members
  refine ⟨fs, f1, fun id => ?_⟩
  have h1 := returned_le hops id
  rw [isFrame_count, f2, Found.filter_le] at h1
  refine Nat.le_trans ?_ (Nat.le_trans (p3 id) h1)
  rw [p1, List.map_map]
  exact sum_le fun p hp => times_sublist id (keyed_observed (p2 p hp).2.1)

/-! ### The sessions -/

/-- The key that has been taken last and was not used by a session. -/
def pendingKey : Option (UInt64 × Bytes) → List Obs → Option (UInt64 × Bytes)
  | last, [] => last
  | _, .keyUsed r :: log => pendingKey (some r) log
  | _, .established _ _ _ :: log => pendingKey none log
  | last, _ :: log => pendingKey last log

theorem sessionKeys_append (last : Option (UInt64 × Bytes)) (a b : List Obs) :
    Spec.sessionKeys last (a ++ b) = Spec.sessionKeys last a ++ Spec.sessionKeys (pendingKey last a) b := by
  induction a generalizing last with
  | nil => rfl
  | cons o a ih => cases o <;> simp [Spec.sessionKeys, pendingKey, ih]

theorem pendingKey_append (last : Option (UInt64 × Bytes)) (a b : List Obs) :
    pendingKey last (a ++ b) = pendingKey (pendingKey last a) b := by
  induction a generalizing last with
  | nil => rfl
  | cons o a ih => cases o <;> simp [pendingKey, ih]

theorem pendingKey_quiet (last : Option (UInt64 × Bytes)) (a : List Obs) (h1 : ∀ r, Obs.keyUsed r ∉ a)
    (h2 : ∀ k x p, Obs.established k x p ∉ a) : pendingKey last a = last := by
  induction a generalizing last with
  | nil => rfl
  | cons o a ih =>
    cases o with
    | keyUsed r => exact absurd (by simp) (h1 r)
    | established k x p => exact absurd (by simp) (h2 k x p)
    | _ =>
      simp only [pendingKey]
      exact ih last (fun r hr => h1 r (by simp [hr])) (fun k x p hr => h2 k x p (by simp [hr]))

theorem observed_state {users : UInt16} {st : Station} (h : Reachable users st) {m : Member} (hm : m ∈ st.members) :
    Spec.observed m.now = [] ∨ ∃ s, Crypto.Observed m.cfg m.env s ∧ Spec.observed m.now = s.log := by
  obtain ⟨ps, p1, p2, -⟩ := (good h).members
  rw [p1, List.mem_map] at hm
  obtain ⟨p, hp, rfl⟩ := hm
  have hr := (p2 p hp).1
  generalize p.1.now = x at hr
  obtain ⟨ctl, stack⟩ := x
  cases ctl with
  | env s => exact .inr ⟨s, .inl ⟨_, hr⟩, rfl⟩
  | code r =>
    cases r with
    | loop s k => exact .inr ⟨s, .inr ⟨_, _, hr⟩, rfl⟩
    | _ => exact .inl rfl

/-- The keys of a session are derived from this secret, a request and a reply. -/
def Spec.From (c : Crypto.Cfg) (k : SessionKeys) (key : Bytes) : Prop :=
  ∃ request reply, k = ⟨(SSP21.Spec.derive c.backend (SSP21.Spec.salt c.backend request reply) key).2,
      (SSP21.Spec.derive c.backend (SSP21.Spec.salt c.backend request reply) key).1⟩ ∨
    k = ⟨(SSP21.Spec.derive c.backend (SSP21.Spec.salt c.backend request reply) key).1,
      (SSP21.Spec.derive c.backend (SSP21.Spec.salt c.backend request reply) key).2⟩

theorem session_key {users : UInt16} {st : Station} (h : Reachable users st) {m : Member} (hm : m ∈ st.members)
    (hb : m.cfg.backend.Lawful) (hq : Spec.Quantum m) {pre post : List Obs} {k : SessionKeys} {a : SessionAlgorithms} {p : SessionParam}
    (hlog : Spec.observed m.now = pre ++ .established k a p :: post) :
    ∃ id key, pendingKey none pre = some (id, key) ∧ Obs.keyUsed (id, key) ∈ pre ∧ Spec.From m.cfg k key := by
  rcases observed_state h hm with h0 | ⟨s, hs, h0⟩
  · rw [h0] at hlog; simp at hlog
  · rw [h0] at hlog
    unfold Spec.Quantum at hq
    cases hr : m.cfg.role with
    | initiator params limits =>
      rw [hr] at hq
      obtain ⟨l1, id, key, message, request, l2, reply, rfl, h2, -, h3, -, -, h4⟩ :=
        Crypto.C27_initiator_uses_key m.cfg m.env hb params limits hr hq s hs pre post k a p hlog
      refine ⟨id, key, ?_, by simp, request, reply, .inl h4⟩
      rw [List.append_assoc, pendingKey_append]
      simp only [List.cons_append, pendingKey]
      exact pendingKey_quiet _ _ (by simp [h3]) (by simp [h2])
    | responder rh =>
      rw [hr] at hq
      obtain rfl : rh = .qkd := hq
      obtain ⟨before, request, message, id, key, reply, rfl, -, -, -, h4⟩ :=
        Crypto.C27_responder_uses_key m.cfg m.env hb hr s hs pre post k a p hlog
      refine ⟨id, key, ?_, by simp, request, reply, .inr h4⟩
      rw [pendingKey_append]
      simp [pendingKey]

/-- In every state of a process with a source of quantum keys: whenever a layer that uses quantum keys has installed the keys of
a session, they were derived from the key it had taken last, which no earlier session of the layer has used and which was sent by the device. -/
theorem C55_sessions_use_device_keys (users : UInt16) (st : Station) (h : Reachable users st) (m : Member) (hm : m ∈ st.members)
    (hb : m.cfg.backend.Lawful) (hq : Spec.Quantum m) (pre post : List Obs) (k : SessionKeys) (a : SessionAlgorithms) (p : SessionParam)
    (hlog : Spec.observed m.now = pre ++ .established k a p :: post) :
    ∃ id key, Spec.sessionKeys none (Spec.observed m.now) =
        Spec.sessionKeys none pre ++ (id, key) :: Spec.sessionKeys none post ∧
      Spec.From m.cfg k key ∧ Spec.Sent st.received id key := by
  obtain ⟨id, key, h1, h2, h3⟩ := session_key h hm hb hq hlog
  obtain ⟨h4, -⟩ := C55_keys_come_from_the_device users st h m hm id key (by rw [hlog]; simp [h2])
  refine ⟨id, key, ?_, h3, h4⟩
  rw [hlog, sessionKeys_append, h1]
  rfl

/-- In every state of a process with a source of quantum keys: there are at most as many sessions (of all layers together) with keys derived from the
quantum key with some id as the device has sent keys under this id. -/
theorem C55_one_session_per_key (users : UInt16) (st : Station) (h : Reachable users st) :
    ∃ fs, Found fs st.received ∧ ∀ id, (st.members.map fun m => times id (Spec.sessionKeys none (Spec.observed m.now))).sum ≤
      fs.countP fun f => f.keyId = id ∧ f.status = .ok := by
  obtain ⟨fs, h1, h2⟩ := C55_keys_taken_once users st h
  exact ⟨fs, h1, fun id => Nat.le_trans (sum_le fun m _ => times_sublist id (sessionKeys_sublist none _)) (h2 id)⟩

/-- … and each session of a layer that uses quantum keys counts. -/
theorem C55_sessions_counted (users : UInt16) (st : Station) (h : Reachable users st) (m : Member) (hm : m ∈ st.members)
    (hb : m.cfg.backend.Lawful) (hq : Spec.Quantum m) :
    (Spec.sessionKeys none (Spec.observed m.now)).length = Crypto.Spec.installations (Spec.observed m.now) := by
  suffices hs : ∀ log, log <+: Spec.observed m.now → (Spec.sessionKeys none log).length = Crypto.Spec.installations log from
    hs _ (List.prefix_refl _)
  intro log
  induction hn : log.length generalizing log with
  | zero =>
    intro _
    rw [List.length_eq_zero_iff.mp hn]
    rfl
  | succ n ih =>
    intro hp
    rcases List.eq_nil_or_concat log with rfl | ⟨front, e, rfl⟩
    · cases hn
    · rw [List.concat_eq_append] at *
      have hf := ih front (by simpa using hn) ((List.prefix_append _ _).trans hp)
      have hi : ∀ a b, Crypto.Spec.installations (a ++ b) = Crypto.Spec.installations a + Crypto.Spec.installations b := by
        simp [Crypto.Spec.installations]
      rw [sessionKeys_append, List.length_append, hi, hf]
      congr 1
      cases e with
      | established k a p =>
        obtain ⟨post, hpost⟩ := hp
        obtain ⟨id, key, h1, -⟩ := session_key h hm hb hq (pre := front) (post := post) (k := k) (a := a) (p := p) (by rw [← hpost]; simp)
        rw [h1]
        rfl
      | _ => rfl

/-- If the device sends at most one key under each id, then no two sessions (of any two layers, or of one) have keys derived from quantum keys
with the same id. -/
theorem C55_no_key_twice (users : UInt16) (st : Station) (h : Reachable users st)
    (hd : ∀ fs, Found fs st.received → ∀ id, (fs.countP fun f => f.keyId = id ∧ f.status = .ok) ≤ 1) :
    ((st.members.flatMap fun m => Spec.sessionKeys none (Spec.observed m.now)).map (·.1)).Nodup := by
  obtain ⟨fs, h1, h2⟩ := C55_one_session_per_key users st h
  rw [List.nodup_iff_count]
  intro id
  refine Nat.le_trans ?_ (Nat.le_trans (h2 id) (hd fs h1 id))
  rw [List.count_eq_countP, List.countP_map, List.countP_flatMap]
  refine sum_le fun m _ => ?_
  unfold times
  refine Nat.le_of_eq (congrArg (List.countP · _) ?_)
  funext r
  by_cases hr : r.1 = id <;> simp [hr]

/-! ### Two stations -/

/-- Two stations whose devices send the same key under the same id: the stores deliver the same keys. -/
theorem C55_stations_agree (users users' : UInt16) (st st' : Station) (h : Reachable users st) (h' : Reachable users' st')
    (hd : ∀ id key key', Spec.Sent st.received id key → Spec.Sent st'.received id key' → key' = key)
    (m m' : Member) (hm : m ∈ st.members) (hm' : m' ∈ st'.members) :
    Crypto.Spec.SameQuantumKeys (Spec.observed m.now) (Spec.observed m'.now) := fun id key key' hk hk' =>
  hd id key key' (C55_keys_come_from_the_device users st h m hm id key hk).1
    (C55_keys_come_from_the_device users' st' h' m' hm' id key' hk').1

/-- Two stations whose devices send the same key under the same id: if two layers (with matching configurations) have exchanged a request and a reply, then they
have the same session keys, algorithms and limits. -/
theorem C55_sessions_agree (users users' : UInt16) (st st' : Station) (h : Reachable users st) (h' : Reachable users' st')
    (hd : ∀ id key key', Spec.Sent st.received id key → Spec.Sent st'.received id key' → key' = key)
    (m m' : Member) (hm : m ∈ st.members) (hm' : m' ∈ st'.members) (limits : SessionLimits)
    (hp : Crypto.Spec.Peers m.cfg m'.cfg m.env limits)
    (pre post pre' post' : List Obs) (k k' : SessionKeys) (a a' : SessionAlgorithms) (p p' : SessionParam)
    (hlog : Spec.observed m.now = pre ++ .established k a p :: post)
    (hlog' : Spec.observed m'.now = pre' ++ .established k' a' p' :: post')
    (hreq : ∃ x, Crypto.Spec.LastRequestSent m.cfg.fw pre x ∧ Crypto.Spec.LastRead pre' x)
    (hrep : ∃ x ready, post'.head? = some (.lowerTx (m'.cfg.fw.wrap x) ready) ∧ x.length ≤ m'.cfg.fw.maxPayload.toNat ∧
      Crypto.Spec.LastRead pre x) :
    k'.rxKey = k.txKey ∧ k'.txKey = k.rxKey ∧ a' = a ∧ p'.maxNonce = p.maxNonce ∧ p'.maxSessionTime = p.maxSessionTime := by
  rcases observed_state h hm with h0 | ⟨s, hs, h0⟩
  · rw [h0] at hlog; simp at hlog
  rcases observed_state h' hm' with h0' | ⟨s', hs', h0'⟩
  · rw [h0'] at hlog'; simp at hlog'
  have hk := C55_stations_agree users users' st st' h h' hd m m' hm hm'
  obtain ⟨r1, r2, r3, -, ⟨r4, r5⟩, r6, r7⟩ := Crypto.C52_key_agreement m.cfg m'.cfg m.env m'.env limits hp s s' hs hs' pre post pre' post'
    k k' a a' p p' (h0 ▸ hlog) (h0' ▸ hlog')
    ⟨hreq, hrep, fun id key key' h1 h2 => hk id key key' (by rw [hlog]; simp [h1]) (by rw [hlog']; simp [h2])⟩
  exact ⟨r1, r2, r3, by rw [r4, r5], by rw [r6, r7]⟩

/-! ### Examples -/

namespace Example
open Exec Crypto.LayerExample
open Crypto (EnvB)

/-- What the device sends for the key number `n`. -/
def sent (n : UInt8) : Bytes := Qix.Spec.frame n.toUInt64 (List.replicate 32 n) 1

def zeros : Bytes := List.replicate 32 0

/-- A choice of the environment of layer 0; its queries are not about the store of keys. -/
def lift : Crypto.Exec.Choice → Choice
  | .fresh f => .ask 0 f.now f.rnd .other
  | ch => .layer 0 ch

/-- The second frame of the device comes after some noise, in two parts. -/
def second : List Choice := [.read [7, 7], .read ((sent 2).take 45), .read ((sent 2).drop 45)]

/-- One station with two layers: an initiator with two sessions (as in Props/OneUse.lean), and another initiator that sends a request. The
device sends three keys. -/
def initiators : List Choice :=
  [.bind 0 16, .read (sent 1), .layer 0 (.event (.lowerOpen true)), .ask 0 5 zeros .other, .ask 0 5 zeros .consume] ++ (q3.drop 3).map lift ++
  second ++ [.layer 1 (.event (.lowerOpen true)), .ask 1 5 zeros .other, .layer 0 (.event (.expiry .session)), .ask 0 30005 zeros .other,
    .ask 0 30005 zeros .consume, .read (sent 3), .ask 1 30005 zeros .consume] ++ (q5.drop q4.length).map lift

/-- The other station: a responder with the same two sessions. -/
def responder : List Choice :=
  [.bind 0 16, .read (sent 1)] ++ second ++ [.read (sent 3)] ++ (r1.take 5).map lift ++ [.ask 0 6 zeros (.find 1)] ++
  ((r3.drop 6).take (r3.length - 7)).map lift ++ [.ask 0 30006 zeros (.find 2)]

def station1 : Option Station :=
  run .tame (start 1 (EnvB.tame.only (· = qhs)) qhs [(0, Crypto.LayerExample.ini), (0, Crypto.LayerExample.ini)]) initiators
def station2 : Option Station := run .tame (start 1 (EnvB.tame.only (· = qhs)) qhs [(0, qres)]) responder

/-- The quantum keys taken and the sessions installed by the layers of a station. -/
def seen (st : Station) : List (List (Option UInt64)) := st.members.map fun m => uses (Spec.observed m.now)

theorem station_of {α : Type} {o : Option Station} {f : Station → α} {a : α} (h : o.map f = some a) : ∃ st, o = some st ∧ f st = a :=
  Option.map_eq_some_iff.mp h

theorem both {layers : List (UInt16 × Crypto.Cfg)} (h : ∀ x ∈ layers, x.2.backend = Toy.strong ∧ x.2.caps = caps) :
    ∀ x ∈ layers, qhs.Configured x.2.backend x.2.caps := fun x hx => by
  rw [(h x hx).1, (h x hx).2]
  exact qconfigured

theorem quantum_initiator (n : UInt16) (x : Crypto.Config) : Spec.Quantum ⟨n, Crypto.LayerExample.ini, EnvB.tame.only (· = qhs), x⟩ :=
  fun h he => ⟨none, by rw [show h = qhs from he]; rfl⟩

theorem two_members {st : Station} {x y : UInt16 × Crypto.Cfg × Crypto.Env} (h : st.members.map kind = [x, y]) :
    ∃ a b, st.members = [a, b] ∧ kind a = x ∧ kind b = y := by
  obtain ⟨a, l, h1, h2, h3⟩ := List.map_eq_cons_iff.mp h
  obtain ⟨b, l', h4, h5, h6⟩ := List.map_eq_cons_iff.mp h3
  exact ⟨a, b, by rw [h1, h4, List.map_eq_nil_iff.mp h6], h2, h5⟩

theorem quantum_of {m : Member} {n : UInt16} (h : kind m = (n, Crypto.LayerExample.ini, EnvB.tame.only (· = qhs))) :
    Spec.Quantum m ∧ m.cfg.backend.Lawful := by
  obtain ⟨n, c, e, x⟩ := m
  simp only [kind, Prod.mk.injEq] at h
  obtain ⟨-, rfl, rfl⟩ := h
  exact ⟨quantum_initiator n x, Toy.strong_lawful⟩

/-- A station whose layers have taken all three keys of the device, and have installed two sessions. -/
example : ∃ st a b, Reachable 1 st ∧ st.members = [a, b] ∧ Spec.Quantum a ∧ a.cfg.backend.Lawful ∧ Spec.Quantum b ∧ b.cfg.backend.Lawful ∧
    seen st = [[some 1, none, some 2, none], [some 3]] := by
  obtain ⟨st, h1, h2⟩ := station_of (o := station1) (f := seen) (a := [[some 1, none, some 2, none], [some 3]]) (by decide +kernel)
  have hr := sound (both (by simp [Crypto.LayerExample.ini])) h1
  have hk := run_kinds h1
  clear h1
  obtain ⟨a, b, h3, h4, h5⟩ := two_members hk
  exact ⟨st, a, b, hr, h3, (quantum_of h4).1, (quantum_of h4).2, (quantum_of h5).1, (quantum_of h5).2, h2⟩

/-- The frames with status "ok" at any place. -/
def places (bs : Bytes) : List (UInt64 × Bytes) :=
  (List.range bs.length).filterMap fun i =>
    let u := (bs.drop i).take 47
    if u.take 2 = [0x5A, 0xA5] then (decode u).map fun f => (f.keyId, f.key) else none

theorem mem_places {bs : Bytes} {id : UInt64} {key : Bytes} (h : Spec.Sent bs id key) : (id, key) ∈ places bs := by
  obtain ⟨hk, a, b, rfl⟩ := h
  obtain ⟨h1, rest, h2⟩ := frame_unit id key 1 hk
  refine List.mem_filterMap.mpr ⟨a.length, by simp [h1]; omega, ?_⟩
  have hu : ((a ++ Qix.Spec.frame id key 1 ++ b).drop a.length).take 47 = Qix.Spec.frame id key 1 := by
    rw [List.append_assoc, List.drop_left, ← h1, List.take_left]
  simp only [hu]
  rw [if_pos (by rw [h2]; rfl), decode_frame id key 1 hk]
  rfl

/-- The first session in a list of observations (see `summary`). -/
def first (st : Station) : Option (Option Bytes × Option Bytes × Option Bytes × List (UInt64 × Bytes)) :=
  st.members.head?.bind fun m => summary { Crypto.Layer.new Crypto.LayerExample.ini qhs with log := Spec.observed m.now }

theorem one_member {st : Station} {x : UInt16 × Crypto.Cfg × Crypto.Env} {l : List (UInt16 × Crypto.Cfg × Crypto.Env)}
    (h : st.members.map kind = x :: l) : ∃ a, a ∈ st.members ∧ st.members.head? = some a ∧ kind a = x := by
  obtain ⟨a, l, h1, h2, h3⟩ := List.map_eq_cons_iff.mp h
  exact ⟨a, by rw [h1]; simp, by rw [h1]; rfl, h2⟩

theorem same_kind {m : Member} {n : UInt16} {c : Crypto.Cfg} {E : Crypto.Env} (h : kind m = (n, c, E)) : m.cfg = c ∧ m.env = E := by
  simp only [kind, Prod.mk.injEq] at h
  exact h.2

set_option maxRecDepth 1000000 in
/-- Two stations with the same device bytes; their first layers have exchanged request and reply and have installed keys. -/
example : ∃ st st' m m', Reachable 1 st ∧ Reachable 1 st' ∧
    (∀ id key key', Spec.Sent st.received id key → Spec.Sent st'.received id key' → key' = key) ∧
    m ∈ st.members ∧ m' ∈ st'.members ∧ Crypto.Spec.Peers m.cfg m'.cfg m.env limits ∧
    ∃ s s' : Layer, s.log = Spec.observed m.now ∧ s'.log = Spec.observed m'.now ∧ Crypto.Spec.SameHandshake m.cfg m'.cfg s s' 0 0 := by
  obtain ⟨st, h1, h2⟩ := station_of (o := station1) (f := fun st => (first st, places st.received))
    (a := (some (some (lastTx (Crypto.Exec.final Crypto.LayerExample.ini .tame qhs q1)), some (lastTx (Crypto.Exec.final qres .tame qhs r1)),
      (station1.bind first).bind (·.2.2.1), [(1, List.replicate 32 1)]), [1, 2, 3].map fun n => (n.toUInt64, List.replicate 32 n))) rfl
  obtain ⟨st', h1', h2'⟩ := station_of (o := station2) (f := fun st => (first st, places st.received))
    (a := (some (none, some (lastTx (Crypto.Exec.final Crypto.LayerExample.ini .tame qhs q1)), some (lastTx (Crypto.Exec.final qres .tame qhs r1)),
      [(1, List.replicate 32 1)]), [1, 2, 3].map fun n => (n.toUInt64, List.replicate 32 n))) rfl
  have hr := sound (both (by simp [Crypto.LayerExample.ini])) h1
  have hr' := sound (both (by simp [qres, Crypto.LayerExample.res])) h1'
  have hk := run_kinds h1
  have hk' := run_kinds h1'
  clear h1 h1'
  rw [Prod.mk.injEq] at h2 h2'
  obtain ⟨m, m1, m2, m3⟩ := one_member hk
  obtain ⟨m', m1', m2', m3'⟩ := one_member hk'
  obtain ⟨c1, e1⟩ := same_kind m3
  obtain ⟨c1', -⟩ := same_kind m3'
  refine ⟨st, st', m, m', hr, hr', fun id key key' h h' => ?_, m1, m1', by rw [c1, c1', e1]; exact qpeers,
    { Crypto.Layer.new Crypto.LayerExample.ini qhs with log := Spec.observed m.now },
    { Crypto.Layer.new Crypto.LayerExample.ini qhs with log := Spec.observed m'.now }, rfl, rfl, ?_⟩
  · have h := mem_places h
    have h' := mem_places h'
    rw [h2.2] at h
    rw [h2'.2] at h'
    have : ∀ x ∈ [1, 2, 3].map (fun n : UInt8 => (n.toUInt64, List.replicate 32 n)),
      ∀ y ∈ [1, 2, 3].map (fun n : UInt8 => (n.toUInt64, List.replicate 32 n)), x.1 = y.1 → y.2 = x.2 := by decide +kernel
    exact this _ h _ h' rfl
  · have h3 := h2.1
    have h3' := h2'.1
    unfold first at h3 h3'
    rw [m2] at h3
    rw [m2'] at h3'
    rw [c1, c1']
    exact exchanged_of rfl rfl h3 h3' (by decide +kernel) (by decide +kernel) (by simp)

end Example

end SSP21.Qkd
