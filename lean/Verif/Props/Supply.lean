import Verif.Props.Qkd
import Verif.Props.Start
/-
  Property C62: quantum keys that have been received are there when they are needed. `Station` (Qkd.lean) is a process with
  a QKD device and any number of crypto layers. All statements are about its history (`entries`): which stores have been bound,
  which keys have arrived, and which have been given to a layer.
-/
namespace SSP21.Qkd.Spec
open Qix Qix.Spec

/-- The keys in a history that belong to the store with this number. -/
def arrivedFor (users user : UInt16) (log : List SourceEntry) : List Frame :=
  log.filterMap fun e => match e with
    | .frame f => if f.keyId.toNat % users.toNat = user.toNat then some f else none
    | _ => none

/-- The store with this number should hold the key: it was bound when the key arrived; nobody has been given the key since; the keys
that have arrived for this store since have larger ids, in increasing order, and are fewer than the store can hold. -/
def Stocked (users user : UInt16) (log : List SourceEntry) (id : UInt64) (key : Bytes) : Prop :=
  ∃ size before after, log = before ++ .frame ⟨id, key, .ok⟩ :: after ∧ .bound user size ∈ before ∧
    id.toNat % users.toNat = user.toNat ∧
    (⟨id, key, .ok⟩ :: arrivedFor users user after).Pairwise (fun a b => a.keyId < b.keyId) ∧
    (arrivedFor users user after).length < size.toNat ∧ ∀ k, SourceEntry.returned user id k ∉ after

/-- The bytes of a device that sends these keys (id, key, status), with anything but the first sync byte in between. -/
def stream (items : List (Bytes × UInt64 × Bytes × UInt8)) : Bytes :=
  items.flatMap fun x => x.1 ++ Qix.Spec.frame x.2.1 x.2.2.1 x.2.2.2

/-- The ids of the keys of a device with status "ok" that belong to the store with this number. -/
def idsFor (users user : UInt16) (items : List (Bytes × UInt64 × Bytes × UInt8)) : List UInt64 :=
  items.filterMap fun x => if x.2.2.2 = 1 ∧ x.2.1.toNat % users.toNat = user.toNat then some x.2.1 else none

end SSP21.Qkd.Spec

namespace SSP21.Qkd
open Qix Qix.Spec

namespace SupplyProof

theorem sourceRun_split {r r' : Router} {ops : List SourceOp} {a b : List SourceEntry} (h : sourceRun r ops = some (r', a ++ b)) :
    ∃ o1 o2 r1, ops = o1 ++ o2 ∧ sourceRun r o1 = some (r1, a) ∧ sourceRun r1 o2 = some (r', b) := by
  induction a generalizing r ops with
  | nil => exact ⟨[], ops, r, rfl, rfl, h⟩
  | cons e a ih =>
    cases ops with
    | nil => cases h
    | cons op ops =>
      simp only [sourceRun, List.cons_append] at h
      cases ho : sourceStep r op with
      | none => rw [ho] at h; cases h
      | some x =>
        obtain ⟨r1, e1⟩ := x
        rw [ho] at h
        simp only [Option.map_eq_some_iff, Prod.mk.injEq, List.cons.injEq] at h
        obtain ⟨⟨r2, es⟩, h1, rfl, rfl, rfl⟩ := h
        obtain ⟨o1, o2, r3, rfl, h2, h3⟩ := ih h1
        exact ⟨op :: o1, o2, r3, rfl, by simp [sourceRun, ho, h2], h3⟩

theorem run_append2 (s : Store) (a b : List Op) : (run s (a ++ b)).2 = (run s a).2 ++ (run (run s a).1 b).2 := by
  induction a generalizing s with
  | nil => rfl
  | cons op a ih => simp only [List.cons_append, run, ih]

theorem arrivals_append (a b : List Op) : arrivals (a ++ b) = arrivals a ++ arrivals b := by simp [arrivals, List.filterMap_append]

/-- Frames that the source distributes. -/
def Proper (es : List SourceEntry) : Prop := ∀ g, SourceEntry.frame g ∈ es → g.status = .ok ∧ g.key.length = 32

/-- One operation of the source, as seen by one store. -/
theorem one_step {n user : UInt16} {r r' : Router} {op : SourceOp} {e : SourceEntry} (hn : r.numSubscribers = n)
    (h : sourceStep r op = some (r', e)) {size : UInt16} {done : List Op} (hs : storeOf r user = some (run ⟨size, []⟩ done).1)
    (hp : Proper [e]) :
    r'.numSubscribers = n ∧ storeOf r' user = some (run ⟨size, []⟩ (done ++ forUser n user op)).1 ∧
    arrivals (forUser n user op) = Spec.arrivedFor n user [e] ∧
    ∀ id key, Entry.returned id key ∈ (run (run ⟨size, []⟩ done).1 (forUser n user op)).2 → .returned user id key ∈ [e] := by
  obtain ⟨h1, h2⟩ := usage_step (user := user) (acc := some (size, done)) hn h hs
  refine ⟨h1, by rw [h2]; simp [usage], ?_⟩
  clear h1 h2
  generalize (run ⟨size, []⟩ done).1 = s at hs
  cases op with
  | bind u sz =>
    simp only [sourceStep] at h
    split at h <;> cases h <;> simp [forUser, arrivals, Spec.arrivedFor, run]
  | frame f =>
    simp only [sourceStep] at h
    split at h
    · cases h
    · cases h
      obtain ⟨p1, p2⟩ := hp f (by simp)
      simp only [forUser, p1, p2, true_and]
      split <;> rename_i hm <;> simp [arrivals, Spec.arrivedFor, hm, run, step]
  | consume u =>
    simp only [forUser]
    split
    · rename_i hu
      subst hu
      simp only [sourceStep, hs] at h
      refine ⟨?_, ?_⟩
      · (repeat' split at h) <;> cases h <;> simp [arrivals, Spec.arrivedFor]
      · (repeat' split at h) <;> cases h <;> rename_i hc <;> simp [run, step, hc]
    · have : Spec.arrivedFor n user [e] = [] := by
        simp only [sourceStep] at h
        (repeat' split at h) <;> cases h <;> simp [Spec.arrivedFor]
      rw [this]
      simp [arrivals, run]
  | find u i =>
    simp only [forUser]
    split
    · rename_i hu
      subst hu
      simp only [sourceStep, hs] at h
      refine ⟨?_, ?_⟩
      · (repeat' split at h) <;> cases h <;> simp [arrivals, Spec.arrivedFor]
      · (repeat' split at h) <;> cases h <;> rename_i hc <;> simp [run, step, hc]
    · have : Spec.arrivedFor n user [e] = [] := by
        simp only [sourceStep] at h
        (repeat' split at h) <;> cases h <;> simp [Spec.arrivedFor]
      rw [this]
      simp [arrivals, run]

theorem arrivedFor_append (n user : UInt16) (a b : List SourceEntry) :
    Spec.arrivedFor n user (a ++ b) = Spec.arrivedFor n user a ++ Spec.arrivedFor n user b := by
  simp [Spec.arrivedFor, List.filterMap_append]

/-- All operations of the source since the store was bound, as seen by the store. -/
theorem all_steps {n user size : UInt16} {r' : Router} (ops : List SourceOp) : ∀ (r : Router) (es : List SourceEntry) (done : List Op),
    r.numSubscribers = n → storeOf r user = some (run ⟨size, []⟩ done).1 → sourceRun r ops = some (r', es) → Proper es →
    r'.numSubscribers = n ∧ ∃ later, storeOf r' user = some (run ⟨size, []⟩ (done ++ later)).1 ∧
      arrivals later = Spec.arrivedFor n user es ∧
      ∀ id key, Entry.returned id key ∈ (run (run ⟨size, []⟩ done).1 later).2 → .returned user id key ∈ es := by
  induction ops with
  | nil =>
    intro r es done hn hs hr hp
    cases hr
    exact ⟨hn, [], by simpa using hs, rfl, by simp [run]⟩
  | cons op ops ih =>
    intro r es done hn hs hr hp
    simp only [sourceRun] at hr
    cases ho : sourceStep r op with
    | none => rw [ho] at hr; cases hr
    | some x =>
      obtain ⟨r1, e⟩ := x
      rw [ho] at hr
      simp only [Option.map_eq_some_iff, Prod.mk.injEq] at hr
      obtain ⟨⟨r2, es'⟩, h1, rfl, rfl⟩ := hr
      obtain ⟨a1, a2, a3, a4⟩ := one_step hn ho hs (fun g hg => hp g (by simp only [List.mem_singleton] at hg; simp [hg]))
      obtain ⟨b0, later, b1, b2, b3⟩ := ih r1 es' _ a1 a2 h1 (fun g hg => hp g (List.mem_cons_of_mem _ hg))
      refine ⟨b0, forUser n user op ++ later, by rw [← List.append_assoc]; exact b1, ?_, ?_⟩
      · rw [arrivals_append, a3, b2, show e :: es' = [e] ++ es' from rfl, arrivedFor_append]
      · intro id key hm
        rw [run_append2, List.mem_append] at hm
        rcases hm with hm | hm
        · have := a4 id key hm
          simp only [List.mem_singleton] at this
          simp [this]
        · rw [← run_append] at hm
          exact List.mem_cons_of_mem _ (b3 id key hm)

theorem run_num {n : UInt16} {r r' : Router} {ops : List SourceOp} {es : List SourceEntry} (hn : r.numSubscribers = n)
    (h : sourceRun r ops = some (r', es)) : r'.numSubscribers = n := by
  induction ops generalizing r es with
  | nil => cases h; exact hn
  | cons op ops ih =>
    simp only [sourceRun] at h
    cases ho : sourceStep r op with
    | none => rw [ho] at h; cases h
    | some x =>
      obtain ⟨r1, e⟩ := x
      rw [ho] at h
      simp only [Option.map_eq_some_iff, Prod.mk.injEq] at h
      obtain ⟨⟨r2, es'⟩, h1, rfl, rfl⟩ := h
      refine ih ?_ h1
      subst hn
      cases op <;> simp only [sourceStep] at ho
      · split at ho <;> cases ho
        · rename_i hb
          unfold Router.bind at hb
          split at hb <;> cases hb
          rfl
        · rfl
      · split at ho <;> cases ho
        rename_i hb
        unfold Router.handle at hb
        (repeat' split at hb) <;> cases hb <;> rfl
      · (repeat' split at ho) <;> cases ho <;> rfl
      · (repeat' split at ho) <;> cases ho <;> rfl

/-- The store of a user that has been bound. -/
theorem bound_store {n user size : UInt16} {r : Router} {ops : List SourceOp} {es : List SourceEntry}
    (h : sourceRun ⟨n, []⟩ ops = some (r, es)) (hb : .bound user size ∈ es) (hp : Proper es) :
    r.numSubscribers = n ∧ ∃ done, storeOf r user = some (run ⟨size, []⟩ done).1 := by
  obtain ⟨a, b, rfl⟩ := List.append_of_mem hb
  obtain ⟨o1, o2, r1, rfl, h1, h2⟩ := sourceRun_split h
  cases o2 with
  | nil => cases h2
  | cons op o2 =>
    have hn : r1.numSubscribers = n := run_num rfl h1
    simp only [sourceRun] at h2
    cases ho : sourceStep r1 op with
    | none => rw [ho] at h2; cases h2
    | some x =>
      obtain ⟨r2, e⟩ := x
      rw [ho] at h2
      simp only [Option.map_eq_some_iff, Prod.mk.injEq, List.cons.injEq] at h2
      obtain ⟨⟨r3, es'⟩, h3, rfl, rfl, rfl⟩ := h2
      have hs : r2.numSubscribers = n ∧ storeOf r2 user = some ⟨size, []⟩ := by
        cases op <;> simp only [sourceStep] at ho
        · split at ho <;> cases ho
          rename_i hb
          unfold Router.bind at hb
          split at hb <;> cases hb
          rename_i hany
          refine ⟨hn, ?_⟩
          unfold storeOf
          rw [List.find?_append, List.find?_eq_none.mpr]
          · simp
          · intro x hx
            simp only [List.any_eq_true, not_exists, not_and] at hany
            exact hany x hx
        · split at ho <;> cases ho
        · (repeat' split at ho) <;> cases ho
        · (repeat' split at ho) <;> cases ho
      obtain ⟨c0, later, c1, -⟩ := all_steps o2 r2 es' [] hs.1 hs.2 h3 fun g hg => hp g (by simp [hg])
      exact ⟨c0, later, c1⟩

/-- A key that is in stock is in the store. -/
theorem in_store {n user : UInt16} {r : Router} {ops : List SourceOp} {es : List SourceEntry} (h : sourceRun ⟨n, []⟩ ops = some (r, es))
    (hp : Proper es) {id : UInt64} {key : Bytes} (hs : Spec.Stocked n user es id key) :
    ∃ s size done, storeOf r user = some s ∧ s = (run ⟨size, []⟩ done).1 ∧ (s.findAndConsumeKey id).2 = some (some key) := by
  obtain ⟨size, before, after, rfl, s1, s2, s3, s4, s5⟩ := hs
  obtain ⟨o1, o2, r1, rfl, h1, h2⟩ := sourceRun_split h
  obtain ⟨b1, done, b2⟩ := bound_store h1 s1 fun g hg => hp g (by simp [hg])
  cases o2 with
  | nil => cases h2
  | cons op o2 =>
    simp only [sourceRun] at h2
    cases ho : sourceStep r1 op with
    | none => rw [ho] at h2; cases h2
    | some x =>
      obtain ⟨r2, e⟩ := x
      rw [ho] at h2
      simp only [Option.map_eq_some_iff, Prod.mk.injEq, List.cons.injEq] at h2
      obtain ⟨⟨r3, es'⟩, h3, rfl, rfl, rfl⟩ := h2
      have hk : key.length = 32 := (hp ⟨id, key, .ok⟩ (by simp)).2
      obtain ⟨c0, c1, -, -⟩ := one_step b1 ho b2 fun g hg => hp g (by simp only [List.mem_singleton] at hg; simp [hg])
      obtain rfl : op = .frame ⟨id, key, .ok⟩ := by
        cases op <;> simp only [sourceStep] at ho <;> (repeat' split at ho) <;> cases ho
        rfl
      rw [show forUser n user (.frame ⟨id, key, .ok⟩) = [.add ⟨id, key, .ok⟩] by simp [forUser, hk, s2]] at c1
      obtain ⟨-, later, d1, d2, d3⟩ := all_steps o2 r2 _ _ c0 c1 h3 fun g hg => hp g (by simp [hg])
      refine ⟨_, size, _, d1, rfl, ?_⟩
      have := C39_available size done later ⟨id, key, .ok⟩ (by rw [d2]; exact s3) (by rw [d2]; exact s4)
        fun k hm => s5 k (d3 id k hm)
      rw [List.append_assoc]
      simpa [usable, hk] using this

theorem found_proper {fs : List Frame} {bs : Bytes} (h : Found fs bs) : ∀ f ∈ fs, f.key.length = 32 := by
  induction h with
  | nil => simp
  | skip b _ ih => exact ih
  | frame id key st hk _ ih => exact List.forall_mem_cons.mpr ⟨hk, ih⟩

theorem mem_framesOf {es : List SourceEntry} {g : Frame} : g ∈ framesOf es ↔ SourceEntry.frame g ∈ es := by
  unfold framesOf
  rw [List.mem_filterMap]
  constructor
  · rintro ⟨e, he, h⟩
    cases e <;> simp only [reduceCtorEq, Option.some.injEq] at h
    exact h ▸ he
  · exact fun h => ⟨_, h, rfl⟩

theorem proper {users : UInt16} {st : Station} (h : Reachable users st) : Proper st.entries := by
  intro g hg
  obtain ⟨fs, h1, h2⟩ := found (good h)
  have : g ∈ handled fs := h2 ▸ mem_framesOf.mpr hg
  exact ⟨((C38_handled fs g).mp this).2, found_proper h1 g ((C38_handled fs g).mp this).1⟩

theorem split_frames {es : List SourceEntry} {a b : List Frame} {f : Frame} (h : framesOf es = a ++ f :: b) :
    ∃ e1 e2, es = e1 ++ .frame f :: e2 ∧ framesOf e1 = a ∧ framesOf e2 = b := by
  unfold framesOf at h
  obtain ⟨e1, e2, rfl, h1, h2⟩ := List.filterMap_eq_append_iff.mp h
  obtain ⟨c1, e, c2, rfl, h3, h4, h5⟩ := List.filterMap_eq_cons_iff.mp h2
  cases e <;> simp only [reduceCtorEq, Option.some.injEq] at h4
  subst h4
  refine ⟨e1 ++ c1, c2, by simp, ?_, h5⟩
  unfold framesOf
  rw [List.filterMap_append, h1, List.filterMap_eq_nil_iff.mpr h3, List.append_nil]

theorem arrivedFor_eq (n user : UInt16) (es : List SourceEntry) :
    Spec.arrivedFor n user es = (framesOf es).filter fun f => f.keyId.toNat % n.toNat = user.toNat := by
  unfold Spec.arrivedFor framesOf
  rw [List.filter_filterMap]
  congr 1
  funext e
  cases e <;> simp [Option.filter]

theorem idsFor_eq (n user : UInt16) (items : List (Bytes × UInt64 × Bytes × UInt8)) :
    Spec.idsFor n user items = ((handled (items.map fun x => (⟨x.2.1, x.2.2.1, Qix.Spec.status x.2.2.2⟩ : Frame))).filter
      fun f => f.keyId.toNat % n.toNat = user.toNat).map (·.keyId) := by
  induction items with
  | nil => rfl
  | cons x items ih =>
    obtain ⟨gap, id, key, st⟩ := x
    have hst : (Qix.Spec.status st = .ok) ↔ st = 1 := by
      unfold Qix.Spec.status
      split
      · simp [*]
      · split <;> simp [*]
    unfold Spec.idsFor handled at ih ⊢
    have e1 : List.filter (fun f : Frame => decide (f.status = .ok)) (((gap, id, key, st) :: items).map
        fun x => (⟨x.2.1, x.2.2.1, Qix.Spec.status x.2.2.2⟩ : Frame)) = (if st = 1 then [⟨id, key, Qix.Spec.status st⟩] else []) ++
        List.filter (fun f : Frame => decide (f.status = .ok)) (items.map fun x => (⟨x.2.1, x.2.2.1, Qix.Spec.status x.2.2.2⟩ : Frame)) := by
      rw [List.map_cons, List.filter_cons]
      by_cases h1 : st = 1
      · rw [if_pos (by simpa using hst.mpr h1), if_pos h1]
        rfl
      · rw [if_neg (by simpa using fun h => h1 (hst.mp h)), if_neg h1]
        rfl
    rw [e1, List.filter_append, List.map_append, ← ih, List.filterMap_cons]
    by_cases h1 : st = 1 <;> by_cases h2 : id.toNat % n.toNat = user.toNat
    all_goals simp [h1, h2]

end SupplyProof
open SupplyProof

/-- In every state of a process with a source of quantum keys: a key that should be in stock is found under its id, with the bytes
that the device has sent. -/
theorem C62_found (users : UInt16) (st : Station) (h : Reachable users st) (user : UInt16) (id : UInt64) (key : Bytes)
    (hs : Spec.Stocked users user st.entries id key) :
    ∃ r, sourceStep st.router (.find user id) = some (r, .returned user id (some key)) := by
  obtain ⟨ops, hops⟩ := (good h).source
  obtain ⟨s, size, done, h1, -, h2⟩ := in_store hops (proper h) hs
  simp only [sourceStep, h1]
  rw [← Prod.eta (s.findAndConsumeKey id), h2]
  exact ⟨_, rfl⟩

/-- If the keys for a store arrive with increasing ids: whoever needs a new key from the store is given the newest one that has not
been given to anyone. -/
theorem C62_newest (users : UInt16) (st : Station) (h : Reachable users st) (user size : UInt16) (f : Frame) (before after : List SourceEntry)
    (hlog : st.entries = before ++ .frame f :: after) (hb : .bound user size ∈ before)
    (hu : f.keyId.toNat % users.toNat = user.toNat)
    (hi : (Spec.arrivedFor users user st.entries).Pairwise fun a b => a.keyId < b.keyId)
    (hn : (Spec.arrivedFor users user after).length < size.toNat)
    (hg : ∀ k, SourceEntry.returned user f.keyId k ∉ after)
    (hr : ∀ g ∈ Spec.arrivedFor users user after, ∃ k, SourceEntry.returned user g.keyId k ∈ after) :
    ∃ r, sourceStep st.router (.consume user) = some (r, .returned user f.keyId (some f.key)) := by
  obtain ⟨id, key, status⟩ := f
  have hok := (proper h ⟨id, key, status⟩ (by rw [hlog]; simp)).1
  dsimp only at hok hu hg
  subst hok
  have hi' := hi
  rw [hlog, arrivedFor_append, show SourceEntry.frame ⟨id, key, .ok⟩ :: after = [SourceEntry.frame ⟨id, key, .ok⟩] ++ after from rfl,
    arrivedFor_append, show Spec.arrivedFor users user [SourceEntry.frame ⟨id, key, .ok⟩] = [⟨id, key, .ok⟩] by simp [Spec.arrivedFor, hu]] at hi'
  obtain ⟨-, i1, i2⟩ := List.pairwise_append.mp hi'
  have hs : Spec.Stocked users user st.entries id key := ⟨size, before, after, hlog, hb, hu, i1, hn, hg⟩
  obtain ⟨ops, hops⟩ := (good h).source
  obtain ⟨s, size', done, h1, h2, h3⟩ := in_store hops (proper h) hs
  have inv : SourceInv users st.router st.entries := by
    have h0 : SourceInv users ⟨users, []⟩ [] := ⟨rfl, by simp, by simp, by simp⟩
    simpa using (sourceInv_run h0 ops hops).1
  have hsm := mem_storeOf h1
  obtain ⟨c1, c2, -⟩ := C39_consume size' done s h2.symm
  have hmem := (C39_find size' done s h2.symm id).1 _ |>.mp h3
  have key : s.consumeKey.2 = some (id, some key) := by
    cases hc : s.consumeKey.2 with
    | none => rw [c2.mp hc] at hmem; cases hmem
    | some x =>
      obtain ⟨x1, x2, -⟩ := c1 x hc
      by_cases hx : (id, some key) = x
      · rw [hx]
      · exfalso
        have hlt : id < x.1 := x2 _ hmem hx
        have hown := inv.own _ _ hsm x.1 x.2 x1
        obtain ⟨a, g, b, e1, e2, e3, e4, e5, e6⟩ := inv.backed _ _ hsm x.1 x.2 x1
        have hga : g ∈ Spec.arrivedFor users user st.entries := by
          rw [e1]
          exact List.mem_filterMap.mpr ⟨.frame g, by simp, by simp [e2, hown]⟩
        rw [hlog, arrivedFor_append, show SourceEntry.frame ⟨id, key, .ok⟩ :: after = [SourceEntry.frame ⟨id, key, .ok⟩] ++ after from rfl,
          arrivedFor_append, show Spec.arrivedFor users user [SourceEntry.frame ⟨id, key, .ok⟩] = [⟨id, key, .ok⟩] by simp [Spec.arrivedFor, hu],
          List.mem_append, List.mem_append] at hga
        rcases hga with hga | hga | hga
        · have := i2 g hga ⟨id, key, .ok⟩ (by simp)
          rw [e2] at this
          exact absurd (UInt64.lt_trans hlt this) (by simp)
        · rw [List.mem_singleton.mp hga] at e2
          rw [← e2] at hlt
          exact absurd hlt (by simp)
        · obtain ⟨k, hk⟩ := hr g hga
          have hk' : SourceEntry.returned user g.keyId k ∈ st.entries := by rw [hlog]; simp [hk]
          obtain ⟨p, q, hpq⟩ := List.append_of_mem hk'
          obtain ⟨-, a', g', b', f1, f2, f3, f4, -⟩ := C27_one_user users ops _ _ hops p q _ _ _ hpq
          have hin : SourceEntry.frame g' ∈ a := by
            have he := e1.symm.trans hpq
            rcases List.append_eq_append_iff.mp he with ⟨c', c3, c4⟩ | ⟨c', c3, -⟩
            · have : SourceEntry.returned user g.keyId k ∈ SourceEntry.frame g :: b := by rw [c4]; simp
              rcases List.mem_cons.mp this with h' | h'
              · cases h'
              · exact absurd e2 (e6 _ h')
            · rw [c3, f1]
              simp
          rw [e1, arrivedFor_append] at hi
          have hlt' := (List.pairwise_append.mp hi).2.2 g' (List.mem_filterMap.mpr ⟨.frame g', hin, by simp [f2, e2, hown]⟩) g
            (List.mem_filterMap.mpr ⟨.frame g, by simp, by simp [e2, hown]⟩)
          rw [f2] at hlt'
          exact absurd hlt' (by simp)
  simp only [sourceStep, h1]
  rw [← Prod.eta s.consumeKey, key]
  exact ⟨_, rfl⟩

/-- If the device sends frames, with anything but the first sync byte in between, in whatever portions: each key with status "ok"
that arrives after its store was bound is in stock, as long as nobody has been given it, the later ids for this store are increasing
and as many as the store can hold have not yet arrived. -/
theorem C62_from_the_device (users : UInt16) (st : Station) (h : Reachable users st) (user size : UInt16)
    (items : List (Bytes × UInt64 × Bytes × UInt8)) (hk : ∀ x ∈ items, (0x5A : UInt8) ∉ x.1 ∧ x.2.2.1.length = 32)
    (tail : Bytes) (ht : tail.length < 47) (hrec : st.received = Spec.stream items ++ tail)
    (early late : List SourceEntry) (hlog : st.entries = early ++ late) (hf : ∀ f, SourceEntry.frame f ∉ early) (hb : .bound user size ∈ early)
    (xs ys : List (Bytes × UInt64 × Bytes × UInt8)) (gap : Bytes) (id : UInt64) (key : Bytes) (hi : items = xs ++ (gap, id, key, 1) :: ys)
    (hu : id.toNat % users.toNat = user.toNat) (hinc : (id :: Spec.idsFor users user ys).Pairwise (· < ·))
    (hn : (Spec.idsFor users user ys).length < size.toNat) (hg : ∀ k, SourceEntry.returned user id k ∉ st.entries) :
    Spec.Stocked users user st.entries id key := by
  obtain ⟨buffer, chunks, fs, d1, d2, d3, d4⟩ := (good h).device
  obtain ⟨more, m1, -, m2⟩ := C38_frames_are_read buffer d1 items hk tail chunks (d3.trans hrec) _ fs d2
  rw [m2 ht, List.append_nil] at m1
  subst m1
  have he : framesOf early = [] := by
    rw [List.eq_nil_iff_forall_not_mem]
    exact fun f hm => hf f (mem_framesOf.mp hm)
  rw [hlog, framesOf_append, he, List.nil_append, hi, List.map_append, List.map_cons] at d4
  have d5 : framesOf late = handled (xs.map fun x => (⟨x.2.1, x.2.2.1, Qix.Spec.status x.2.2.2⟩ : Frame)) ++ ⟨id, key, .ok⟩ ::
      handled (ys.map fun x => (⟨x.2.1, x.2.2.1, Qix.Spec.status x.2.2.2⟩ : Frame)) := by
    rw [d4]
    simp [handled, Qix.Spec.status]
  obtain ⟨e1, e2, rfl, -, e3⟩ := split_frames d5
  have ha : Spec.idsFor users user ys = (Spec.arrivedFor users user e2).map (·.keyId) := by rw [arrivedFor_eq, e3, idsFor_eq]
  rw [ha] at hinc hn
  refine ⟨size, early ++ e1, e2, by rw [hlog]; simp, by simp [hb], hu, ?_, by simpa using hn, fun k hm => hg k (by rw [hlog]; simp [hm])⟩
  have : (((⟨id, key, .ok⟩ : Frame) :: Spec.arrivedFor users user e2).map (·.keyId)).Pairwise (· < ·) := hinc
  rwa [List.pairwise_map] at this

/-- Two stations whose devices send the same key under the same id: a key that a layer of the first one has been given is found by
the second one under its id, if it is in stock there. -/
theorem C62_both_ends (users users' : UInt16) (st st' : Station) (h : Reachable users st) (h' : Reachable users' st')
    (hd : ∀ id key key', Spec.Sent st.received id key → Spec.Sent st'.received id key' → key' = key)
    (user user' : UInt16) (id : UInt64) (key key' : Bytes) (hk : SourceEntry.returned user id (some key) ∈ st.entries)
    (hs : Spec.Stocked users' user' st'.entries id key') :
    ∃ r, sourceStep st'.router (.find user' id) = some (r, .returned user' id (some key)) := by
  have g := good h
  obtain ⟨fs, f1, f2⟩ := found g
  obtain ⟨ops, hops⟩ := g.source
  obtain ⟨a, b, hab⟩ := List.append_of_mem hk
  obtain ⟨-, x, f, y, h2, h3, h4, h5, h6, -⟩ := C27_one_user users ops _ _ hops a b _ _ _ hab
  have hf : f ∈ handled fs := by
    rw [← f2]
    exact mem_framesOf.mpr (by rw [hab, h2]; simp)
  have s1 : Spec.Sent st.received id key := by
    have := Found.sent f1 ((C38_handled fs f).mp hf).1 h4
    rwa [h3, ← Option.some.inj h6] at this
  obtain ⟨fs', f1', f2'⟩ := found (good h')
  have s2 : Spec.Sent st'.received id key' := by
    obtain ⟨size, before, after, e, -⟩ := hs
    have hf' : (⟨id, key', .ok⟩ : Frame) ∈ handled fs' := by
      rw [← f2']
      exact mem_framesOf.mpr (by rw [e]; simp)
    exact Found.sent f1' ((C38_handled fs' _).mp hf').1 rfl
  rw [← hd id key key' s1 s2]
  exact C62_found users' st' h' user' id key' hs

namespace Spec

/-- The station gives this key to an initiator that asks its store now. -/
def Gives (st : Station) (user : UInt16) (f : Crypto.Fresh) : Prop :=
  ∃ r e, sourceStep st.router (.consume user) = some (r, e) ∧ f.record = given e

/-- The station answers a responder that asks its store now for this id. -/
def Finds (st : Station) (user : UInt16) (id : UInt64) (f : Crypto.Fresh) : Prop :=
  ∃ r e, sourceStep st.router (.find user id) = some (r, e) ∧ f.lookup id = (given e).map (·.2)

end Spec

/-- What the layers assume about source and store of quantum keys (`Crypto.Spec.Source` and `Crypto.Spec.Store` in C57 and C59) is what the stations do. -/
theorem C62_source {st : Station} {user : UInt16} {id : UInt64} {key : Bytes}
    (h : ∃ r, sourceStep st.router (.consume user) = some (r, .returned user id (some key))) (f : Crypto.Fresh) :
    Spec.Gives st user f ↔ Crypto.Spec.Source (some (id, key)) f := by
  obtain ⟨r, h⟩ := h
  constructor
  · rintro ⟨r', e, h1, h2⟩
    rw [h] at h1
    cases h1
    exact h2
  · exact fun hf => ⟨_, _, h, hf⟩

theorem C62_store {st : Station} {user : UInt16} {id : UInt64} {key : Bytes}
    (h : ∃ r, sourceStep st.router (.find user id) = some (r, .returned user id (some key))) (f : Crypto.Fresh) :
    Spec.Finds st user id f ↔ Crypto.Spec.Store (some (id, key)) f := by
  obtain ⟨r, h⟩ := h
  constructor
  · rintro ⟨r', e, h1, h2⟩
    rw [h] at h1
    cases h1
    rintro i k ⟨⟩
    exact h2
  · exact fun hf => ⟨_, _, h, hf _ _ rfl⟩


/-- From the devices to the exchange of data. Two stations whose devices send the same key under the same id; an initiator at the first one, a responder at
the second one, with matching configurations for quantum keys, both ready for a handshake. If the newest key of the initiator's store is in stock at the
responder's station (so that the stores answer in this way), then the handshake succeeds, both applications are told, and data is delivered in both
directions (as in C59). -/
theorem C62_device_to_data (users users' : UInt16) (st st' : Station) (h : Reachable users st) (h' : Reachable users' st')
    (hd : ∀ id key key', Spec.Sent st.received id key → Spec.Sent st'.received id key' → key' = key)
    (m m' : Member) (hm : m ∈ st.members) (hm' : m' ∈ st'.members) (s r : Crypto.Layer) (hms : m.now = ⟨.env s, []⟩) (hmr : m'.now = ⟨.env r, []⟩)
    (size : UInt16) (k : Frame) (before after : List SourceEntry)
    (hlog : st.entries = before ++ .frame k :: after) (hb : .bound m.number size ∈ before)
    (hu : k.keyId.toNat % users.toNat = m.number.toNat)
    (hi : (Spec.arrivedFor users m.number st.entries).Pairwise fun a b => a.keyId < b.keyId)
    (hnew : (Spec.arrivedFor users m.number after).length < size.toNat)
    (hg : ∀ key, SourceEntry.returned m.number k.keyId key ∉ after)
    (hr : ∀ g ∈ Spec.arrivedFor users m.number after, ∃ key, SourceEntry.returned m.number g.keyId key ∈ after)
    (key' : Bytes) (hs : Spec.Stocked users' m'.number st'.entries k.keyId key')
    {limits : SessionLimits} (H : Crypto.Spec.Equipped m.cfg m'.cfg m.env limits (some (k.keyId, k.key))) (hE : Crypto.Spec.ReadsAtOnce m.cfg m.env)
    {e : Crypto.Event} (he : Crypto.Spec.BeginsAt s e) (hn : Crypto.Spec.Unoccupied s) (hro : r.isOpen = true) (hrr : r.lowerReady = true)
    (hrn : Crypto.Spec.Unoccupied r) (hsa : Crypto.Spec.Acknowledged s) (hra : Crypto.Spec.Acknowledged r)
    (hroom : 1051 ≤ m.cfg.fw.maxPayload.toNat) (hroom' : 1051 ≤ m'.cfg.fw.maxPayload.toNat)
    {n : Nat} (hnonce : 1 + n ≤ limits.maxNonce.toNat)
    (htrigger : ∀ params limits, m.cfg.role = .initiator params limits → 1 + n < params.nonceTrigger.toNat)
    {t0 T u0 U : Int} (ht : t0 ≤ T) (hut : u0 ≤ U)
    (hT : T - t0 + ms m.cfg.ttlPadMs ≤ ms limits.maxSessionTimeMs) (hT' : T - t0 + 1000000 ≤ ms m'.cfg.ttlPadMs)
    (hU : U - u0 + ms m'.cfg.ttlPadMs ≤ ms limits.maxSessionTimeMs) (hU' : U - u0 + 1000000 ≤ ms m.cfg.ttlPadMs) (late1 late2 late3 : Bool) :
    Crypto.Spec.Serves m.cfg (Spec.Gives st m.number) T (e.run m.cfg) t0 [] s fun t1 _ s1 => ∃ m1, Crypto.Spec.SendsOne m.cfg s s1 m1 ∧
    Crypto.Spec.Serves m'.cfg (Spec.Finds st' m'.number k.keyId) U (Crypto.Event.lowerRxReady.run m'.cfg) u0 [m1] r fun u1 ms r1 => ms = [] ∧
      ∃ m2, Crypto.Spec.SendsOne m'.cfg r r1 m2 ∧
    Crypto.Spec.Comes m.cfg (Spec.Gives st m.number) T late1 t1 m2 s1 fun t2 s2 => ∃ m3, Crypto.Spec.SendsOne m.cfg s1 s2 m3 ∧
    Crypto.Spec.Comes m'.cfg (Spec.Finds st' m'.number k.keyId) U late2 u1 m3 r1 fun u2 r2 => ∃ m4, Crypto.Spec.SendsOne m'.cfg r1 r2 m4 ∧
      (r.upperOpen = false → r2.log.getLast? = some (.up .opened)) ∧
    Crypto.Spec.Comes m.cfg (Spec.Gives st m.number) T late3 t2 m4 s2 fun t3 s3 => Crypto.Spec.framesSent s3.log = Crypto.Spec.framesSent s2.log ∧
      (s.upperOpen = false → s3.log.getLast? = some (.up .opened)) ∧
    Crypto.Spec.Serves m'.cfg (Spec.Finds st' m'.number k.keyId) U (Crypto.Event.lowerTxReady.run m'.cfg) u2 [] r2 fun u3 _ r3 =>
      Crypto.Spec.framesSent r3.log = Crypto.Spec.framesSent r2.log ∧
      Crypto.Spec.Connected m.cfg limits s3 r3 ∧ Crypto.Spec.Delivers m.cfg m'.cfg T U n t3 s3 u3 r3 ∧
      Crypto.Spec.Delivers m'.cfg m.cfg U T n u3 r3 t3 s3 := by
  have sentBy : ∀ {users : UInt16} {st : Station}, Reachable users st → ∀ {f : Frame}, SourceEntry.frame f ∈ st.entries →
      Spec.Sent st.received f.keyId f.key := by
    intro users st h f hf
    obtain ⟨fs, f1, f2⟩ := found (good h)
    have : f ∈ handled fs := f2 ▸ mem_framesOf.mpr hf
    exact Found.sent f1 ((C38_handled fs f).mp this).1 ((C38_handled fs f).mp this).2
  have hkey : key' = k.key := by
    have s1 := sentBy h (f := k) (by rw [hlog]; simp)
    obtain ⟨sz, b', a', e', -⟩ := hs
    exact hd _ _ _ s1 (sentBy h' (f := ⟨k.keyId, key', .ok⟩) (by rw [e']; simp))
  subst hkey
  have a1 : Spec.Gives st m.number = Crypto.Spec.Source (some (k.keyId, k.key)) := by
    funext f
    exact propext (C62_source (C62_newest users st h m.number size k before after hlog hb hu hi hnew hg hr) f)
  have a2 : Spec.Finds st' m'.number k.keyId = Crypto.Spec.Store (some (k.keyId, k.key)) := by
    funext f
    exact propext (C62_store (C62_found users' st' h' m'.number k.keyId k.key hs) f)
  have quiet : ∀ {users : UInt16} {st : Station}, Reachable users st → ∀ {m : Member}, m ∈ st.members → Crypto.Reachable m.cfg m.env m.now := by
    intro users st h m hm
    obtain ⟨ps, p1, p2, -⟩ := (good h).members
    rw [p1, List.mem_map] at hm
    obtain ⟨p, hp, rfl⟩ := hm
    exact (p2 p hp).1
  have q1 : Crypto.Quiet m.cfg m.env s := by
    have := quiet h hm
    rwa [hms] at this
  have q2 : Crypto.Quiet m'.cfg m'.env r := by
    have := quiet h' hm'
    rwa [hmr] at this
  rw [a1, a2]
  exact Crypto.C59_start_to_data H hE q1 q2 he hn hro hrr hrn hsa hra hroom hroom' hnonce htrigger ht hut hT hT' hU hU' late1 late2 late3


/-! ### Example -/

namespace SupplyExample
open Exec Example Crypto.LayerExample
open Crypto (EnvB)

/-- The station of the initiators: the device has sent two keys, the second one after some noise and in two parts; another layer has taken the second one. -/
def supplied : List Choice :=
  [.bind 0 16, .read (sent 1)] ++ second ++ [.layer 1 (.event (.lowerOpen true)), .ask 1 5 zeros .other, .ask 1 5 zeros .consume]

/-- The station of the responder, which has been opened. -/
def supplied' : List Choice := [.bind 0 16, .read (sent 1)] ++ second ++ [.layer 0 (.event (.lowerOpen true))]

def start1 : Option Station := run .tame (start 1 (EnvB.tame.only (· = qhs)) qhs [(0, ini58), (0, ini58)]) supplied
def start2 : Option Station := run .tame (start 1 (EnvB.tame.only (· = qhs)) qhs [(0, qres)]) supplied'

def keyOf (n : UInt8) : Frame := ⟨n.toUInt64, List.replicate 32 n, .ok⟩

/-- The state of the first layer, if it is at rest. -/
def resting (st : Station) : Option Crypto.Layer :=
  st.members.head?.bind fun m => match m.now with
    | ⟨.env s, []⟩ => some s
    | _ => none

theorem resting_now {st : Station} {m : Member} {s : Crypto.Layer} (hm : st.members.head? = some m) (h : resting st = some s) :
    m.now = ⟨.env s, []⟩ := by
  unfold resting at h
  rw [hm] at h
  simp only [Option.bind_some] at h
  split at h
  · rename_i e
    cases h
    exact e
  · cases h

set_option maxRecDepth 1000000 in
/-- The hypotheses of `C62_device_to_data` (and so of `C62_newest`, `C62_found`) hold: the first layer of the first station is given the key 1, since
the key 2 has been given to the other layer. -/
example : ∃ st st' m m' s r, Reachable 1 st ∧ Reachable 1 st' ∧
    (∀ id key key', Spec.Sent st.received id key → Spec.Sent st'.received id key' → key' = key) ∧
    m ∈ st.members ∧ m' ∈ st'.members ∧ m.now = ⟨.env s, []⟩ ∧ m'.now = ⟨.env r, []⟩ ∧ m.number = 0 ∧ m'.number = 0 ∧
    st.entries = [.bound 0 16] ++ .frame (keyOf 1) :: [.frame (keyOf 2), .returned 0 2 (some (List.replicate 32 2))] ∧
    (Spec.arrivedFor 1 0 st.entries).Pairwise (fun a b => a.keyId < b.keyId) ∧
    (∀ key, SourceEntry.returned 0 1 key ∉ [.frame (keyOf 2), .returned 0 2 (some (List.replicate 32 2))]) ∧
    Spec.Stocked 1 0 st'.entries 1 (List.replicate 32 1) ∧
    Crypto.Spec.Equipped m.cfg m'.cfg m.env limits58 (some (1, List.replicate 32 1)) ∧ Crypto.Spec.ReadsAtOnce m.cfg m.env ∧
    Crypto.Spec.BeginsAt s (.lowerOpen true) ∧ Crypto.Spec.Unoccupied s ∧ r.isOpen = true ∧ r.lowerReady = true ∧ Crypto.Spec.Unoccupied r ∧
    Crypto.Spec.Acknowledged s ∧ Crypto.Spec.Acknowledged r := by
  obtain ⟨st, h1, h2⟩ := station_of (o := start1) (f := fun st => (st.entries, places st.received,
      (resting st).map fun s => (s.isOpen, s.tx.isIdle, s.payloadLen, s.rxFlag)))
    (a := ([.bound 0 16] ++ .frame (keyOf 1) :: [.frame (keyOf 2), .returned 0 2 (some (List.replicate 32 2))],
      [1, 2].map fun n => (n.toUInt64, List.replicate 32 n), some (false, true, 0, false))) rfl
  obtain ⟨st', h1', h2'⟩ := station_of (o := start2) (f := fun st => (st.entries, places st.received,
      (resting st).map fun s => (s.isOpen, s.lowerReady, s.tx.isIdle, s.payloadLen, s.rxFlag)))
    (a := ([.bound 0 16] ++ .frame (keyOf 1) :: [.frame (keyOf 2)], [1, 2].map fun n => (n.toUInt64, List.replicate 32 n),
      some (true, true, true, 0, false))) rfl
  have hr := sound (both (by simp [ini58, Crypto.LayerExample.ini])) h1
  have hr' := sound (both (by simp [qres, Crypto.LayerExample.res])) h1'
  have hk := run_kinds h1
  have hk' := run_kinds h1'
  clear h1 h1'
  simp only [Prod.mk.injEq, Option.map_eq_some_iff] at h2 h2'
  obtain ⟨e1, e2, s, e3, e4, e5, e6, e7⟩ := h2
  obtain ⟨e1', e2', r, e3', e4', e5', e6', e7', e8'⟩ := h2'
  obtain ⟨m, m1, m2, m3⟩ := one_member hk
  obtain ⟨m', m1', m2', m3'⟩ := one_member hk'
  obtain ⟨c1, E1⟩ := same_kind m3
  obtain ⟨c1', E1'⟩ := same_kind m3'
  simp only [kind, Prod.mk.injEq] at m3 m3'
  refine ⟨st, st', m, m', s, r, hr, hr', fun id key key' h h' => ?_, m1, m1', resting_now m2 e3, resting_now m2' e3', m3.1, m3'.1, e1, ?_, by simp,
    ⟨16, [.bound 0 16], [.frame (keyOf 2)], e1', by simp, by decide, by decide +kernel, by decide +kernel, by simp⟩, by rw [c1, c1', E1]; exact qequipped58,
    by rw [E1]; exact Crypto.Spec.readsAtOnce_of_noNestedRx _ EnvB.tame_noNestedRx, .opening e4, ⟨e5, e6⟩, e4', e5', ⟨e6', e7'⟩, e7, e8'⟩
  · have h := mem_places h
    have h' := mem_places h'
    rw [e2] at h
    rw [e2'] at h'
    have : ∀ x ∈ [1, 2].map (fun n : UInt8 => (n.toUInt64, List.replicate 32 n)),
      ∀ y ∈ [1, 2].map (fun n : UInt8 => (n.toUInt64, List.replicate 32 n)), x.1 = y.1 → y.2 = x.2 := by decide +kernel
    exact this _ h _ h' rfl
  · rw [e1]
    decide +kernel

set_option maxRecDepth 1000000 in
/-- The hypotheses of `C62_from_the_device` hold for the key 1. -/
example : ∃ st, Reachable 1 st ∧ st.received = Spec.stream [([], 1, List.replicate 32 1, 1), ([7, 7], 2, List.replicate 32 2, 1)] ++ [] ∧
    st.entries = [.bound 0 16] ++ [.frame (keyOf 1), .frame (keyOf 2)] ∧ (∀ f, SourceEntry.frame f ∉ [.bound 0 16]) ∧
    (∀ k, SourceEntry.returned 0 1 k ∉ st.entries) ∧
    ((1 : UInt64) :: Spec.idsFor 1 0 [([7, 7], 2, List.replicate 32 2, 1)]).Pairwise (· < ·) := by
  obtain ⟨st, h1, h2⟩ := station_of (o := start2) (f := fun st => (st.entries, st.received))
    (a := ([.bound 0 16] ++ [.frame (keyOf 1), .frame (keyOf 2)],
      Spec.stream [([], 1, List.replicate 32 1, 1), ([7, 7], 2, List.replicate 32 2, 1)] ++ [])) rfl
  rw [Prod.mk.injEq] at h2
  exact ⟨st, sound (both (by simp [qres, Crypto.LayerExample.res])) h1, h2.2, h2.1, by simp, by rw [h2.1]; simp, by decide +kernel⟩

end SupplyExample

end SSP21.Qkd
