import Verif.Threads
import Verif.Props.KeyStore
/-
  C65: a key store that several threads use. Threads take steps in any order; calls behave as if they were made one after the
  other, in an order in which a call that had returned before another was made comes first.
-/
namespace SSP21.Qix.Threads

/-! ## Specification -/

namespace Spec
open Qix.Spec

/-- The operation of the sequential specification (`Props/KeyStore`: C27, C39). -/
def Call.op : Call → Op
  | .add f => .add f
  | .consume => .consume
  | .find id => .find id

/-- What a caller learns from a result. -/
def Call.entry : Call → Result → Option Entry
  | .add f, .nothing => some (.added f.keyId f.key)
  | .consume, .record none => some .nothing
  | .consume, .record (some (id, key)) => some (.returned id key)
  | .find _, .key none => some .nothing
  | .find id, .key (some key) => some (.returned id key)
  | _, _ => none

/-- Calls with their numbers and results. -/
abbrev Order := List (Nat × Call × Result)

/-- The operations, one after the other. -/
def ops (order : Order) : List Op := order.map fun x => Call.op x.2.1

/-- The history can be explained by this order (linearizability): each call is in it at most once; one after the other, the
calls return these results; they were made; what has returned is in it, with its result; and a call that had returned before another
was made comes first. -/
structure Explains (max : UInt16) (history : List Event) (order : Order) : Prop where
  once : (order.map Prod.fst).Nodup
  results : (order.map fun x => Call.entry x.2.1 x.2.2) = (run ⟨max, []⟩ (ops order)).2.map some
  called : ∀ x ∈ order, Event.call x.1 x.2.1 ∈ history
  returned : ∀ n r, Event.ret n r ∈ history → ∃ c, (n, c, r) ∈ order
  respects : ∀ n r m c a b, history = a ++ .ret n r :: b → Event.call m c ∈ b → m ∈ order.map Prod.fst →
    ∃ x y z, order.map Prod.fst = x ++ n :: y ++ m :: z

/-- The thread is about to access the map. -/
def Accesses (max : UInt16) (w : World) (t : Nat) : Prop := ∃ n c a, w.threads t = some (n, c, a) ∧ access max c a w.map ≠ .noAccess

/-- Steps of one thread only. -/
inductive Alone (max : UInt16) (t : Nat) : Nat → World → World → Prop
  | none (w : World) : Alone max t 0 w w
  | step {k : Nat} {w w' w'' : World} : Step max t w w' → Alone max t k w' w'' → Alone max t (k + 1) w w''

/-- A call with this result gives the caller the entry with this id. -/
def Gives (id : UInt64) (x : Nat × Call × Result) : Prop := ∃ key, Call.entry x.2.1 x.2.2 = some (.returned id key)

end Spec

open Spec

namespace ThreadsProof
open Qix.Spec

/-! ### The critical sections, sequentially -/

/-- The map after QIXKeyStore.cpp:15-18. -/
def cleared (f : Frame) (m : KeyMap) : KeyMap :=
  match m.getLast? with
  | some (last, _) => if f.keyId < last then [] else m
  | none => m

theorem sorted_cleared {f : Frame} {m : KeyMap} (h : Sorted m) : Sorted (cleared f m) := by
  unfold cleared
  split
  · split
    · exact .nil
    · exact h
  · exact h

theorem any_slot (id : UInt64) (m : KeyMap) : (slot id m).any (fun e => e.1 = id) = true := by
  unfold slot
  split
  · assumption
  · clear * -
    induction m with
    | nil => simp [insert]
    | cons x m ih =>
      obtain ⟨i, k⟩ := x
      unfold insert
      split
      · simp
      · split
        · simp
        · rw [List.any_cons, ih, Bool.or_true]

theorem assign_absent {id : UInt64} {k : Option Bytes} {m : KeyMap} (h : ∀ e ∈ m, e.1 ≠ id) : assign id k m = m := by
  unfold assign
  conv => rhs; rw [← List.map_id m]
  exact List.map_congr_left fun e he => if_neg (h e he)

/-- `operator[]` and the assignment are an insertion. -/
theorem assign_slot {id : UInt64} {k : Option Bytes} {m : KeyMap} (h : Sorted m) : assign id k (slot id m) = insert id k m := by
  induction m with
  | nil => simp [slot, insert, assign]
  | cons x m ih =>
    obtain ⟨i, v⟩ := x
    obtain ⟨h1, h2⟩ := List.pairwise_cons.mp h
    by_cases c1 : id < i
    · have hn : ∀ e ∈ (i, v) :: m, e.1 ≠ id := by
        intro e he
        rcases List.mem_cons.mp he with rfl | he
        · exact (u64_ne_of_lt c1).symm
        · exact (u64_ne_of_lt (UInt64.lt_trans c1 (h1 e he))).symm
      have : ((i, v) :: m).any (fun e => decide (e.1 = id)) = false := by
        rw [List.any_eq_false]
        intro e he
        simpa using hn e he
      unfold slot
      rw [this, if_neg (by decide)]
      simp only [insert, if_pos c1]
      show assign id k ((id, none) :: ((i, v) :: m)) = _
      rw [show assign id k ((id, none) :: ((i, v) :: m)) = (id, k) :: assign id k ((i, v) :: m) by simp [assign], assign_absent hn]
    · by_cases c2 : id = i
      · subst c2
        have hn : ∀ e ∈ m, e.1 ≠ id := fun e he => (u64_ne_of_lt (h1 e he)).symm
        have : ((id, v) :: m).any (fun e => decide (e.1 = id)) = true := by simp
        unfold slot
        rw [this, if_pos rfl]
        simp only [insert, if_neg c1, if_pos]
        rw [show assign id k ((id, v) :: m) = (id, k) :: assign id k m by simp [assign], assign_absent hn]
      · have e1 : slot id ((i, v) :: m) = (i, v) :: slot id m := by
          have c2' : i ≠ id := fun h => c2 h.symm
          unfold slot
          simp only [List.any_cons, c2', decide_false, Bool.false_or]
          split
          · rfl
          · simp only [insert, if_neg c1, if_neg c2]
        rw [e1]
        have c2' : i ≠ id := fun h => c2 h.symm
        rw [show assign id k ((i, v) :: slot id m) = (i, v) :: assign id k (slot id m) by simp [assign, c2'], ih h2]
        simp only [insert, if_neg c1, if_neg c2]

/-- Erasing by the last id is erasing the last entry. -/
theorem filter_last {m : KeyMap} (h : Sorted m) {x : UInt64 × Option Bytes} (hx : m.getLast? = some x) :
    m.filter (fun e => e.1 ≠ x.1) = m.dropLast := by
  obtain ⟨ys, rfl⟩ := List.getLast?_eq_some_iff.mp hx
  have hlt := (List.pairwise_append.mp h).2.2
  rw [List.filter_append, List.dropLast_concat]
  have e1 : ys.filter (fun e => decide (e.1 ≠ x.1)) = ys := List.filter_eq_self.mpr fun e he => by
    simpa using u64_ne_of_lt (hlt e he x (by simp))
  rw [e1]
  simp

/-- What has been done so far in a critical section that began with `base`. -/
def Part (max : UInt16) (base : KeyMap) : Call → At → KeyMap → Prop
  | .add _, .addEmpty, m => m = base
  | .add _, .addCompare, m => m = base ∧ base ≠ []
  | .add f, .addClear, m => m = base ∧ cleared f base = []
  | .add f, .addSlot, m => m = cleared f base
  | .add f, .addAssign, m => m = slot f.keyId (cleared f base)
  | .add f, .addSize, m => m = insert f.keyId (createKey f.key) (cleared f base)
  | .add f, .addErase, m => m = insert f.keyId (createKey f.key) (cleared f base) ∧ m.length > max.toNat
  | .consume, .consumeEmpty, m => m = base
  | .consume, .consumeRead, m => m = base ∧ base ≠ []
  | .consume, .consumeErase r, m => m = base ∧ base.getLast? = some r
  | .find _, .findFind, m => m = base
  | .find id, .findRead i, m => m = base ∧ i = id ∧ ∃ k, base.find? (fun e => e.1 = id) = some (id, k)
  | .find id, .findErase i k, m => m = base ∧ i = id ∧ base.find? (fun e => e.1 = id) = some (id, k)
  | c, .unlock r, m => ∃ e, Call.entry c r = some e ∧ Qix.Spec.step ⟨max, base⟩ (Call.op c) = (⟨max, m⟩, e)
  | _, _, _ => False

theorem addKey_cleared (max : UInt16) (base : KeyMap) (f : Frame) : (Store.addKey ⟨max, base⟩ f) =
    ⟨max, if (insert f.keyId (createKey f.key) (cleared f base)).length > max.toNat then (insert f.keyId (createKey f.key) (cleared f base)).drop 1
      else insert f.keyId (createKey f.key) (cleared f base)⟩ := rfl

theorem part_start (max : UInt16) (base : KeyMap) (c : Call) : Part max base c (start c) base := by
  cases c <;> exact rfl

/-- An access continues the critical section, or it is over. -/
theorem part_step (max : UInt16) (base : KeyMap) (hs : Sorted base) (c : Call) (a : At) (m : KeyMap) (h : Part max base c a m) :
    (∃ r, a = .unlock r) ∨ ∃ a' m', access max c a m = .access a' m' ∧ Part max base c a' m' ∧ a' ≠ .lock ∧ ∀ r, a' ≠ .leave r := by
  cases c with
  | add f =>
    cases a with
    | addEmpty =>
      have h : m = base := h
      subst h
      right
      refine ⟨_, _, rfl, ?_⟩
      by_cases e : m = []
      · rw [if_pos e]
        subst e
        exact ⟨rfl, nofun, nofun⟩
      · rw [if_neg e]
        exact ⟨⟨rfl, e⟩, nofun, nofun⟩
    | addCompare =>
      obtain ⟨rfl, hne⟩ := h
      right
      cases hl : m.getLast? with
      | none => exact absurd (List.getLast?_eq_none_iff.mp hl) hne
      | some x =>
        refine ⟨if f.keyId < x.1 then .addClear else .addSlot, m, by simp only [access, hl], ?_⟩
        have hc : cleared f m = if f.keyId < x.1 then [] else m := by simp only [cleared, hl]
        by_cases e : f.keyId < x.1
        · rw [if_pos e] at hc ⊢
          exact ⟨⟨rfl, hc⟩, nofun, nofun⟩
        · rw [if_neg e] at hc ⊢
          exact ⟨hc.symm, nofun, nofun⟩
    | addClear =>
      obtain ⟨rfl, hc⟩ := h
      exact .inr ⟨_, _, rfl, hc.symm, nofun, nofun⟩
    | addSlot =>
      have h : m = cleared f base := h
      subst h
      exact .inr ⟨_, _, rfl, rfl, nofun, nofun⟩
    | addAssign =>
      have h : m = slot f.keyId (cleared f base) := h
      subst h
      refine .inr ⟨.addSize, _, ?_, assign_slot (sorted_cleared hs), nofun, nofun⟩
      simp only [access]
      rw [any_slot, if_pos rfl]
    | addSize =>
      have h : m = insert f.keyId (createKey f.key) (cleared f base) := h
      right
      refine ⟨_, _, rfl, ?_⟩
      by_cases e : m.length > max.toNat
      · rw [if_pos e]
        exact ⟨⟨h, e⟩, nofun, nofun⟩
      · rw [if_neg e]
        refine ⟨⟨_, rfl, ?_⟩, nofun, nofun⟩
        show ((Store.addKey ⟨max, base⟩ f), _) = _
        rw [addKey_cleared, ← h, if_neg e]
    | addErase =>
      obtain ⟨h, e⟩ := h
      right
      cases m with
      | nil => simp at e
      | cons x rest =>
        refine ⟨_, _, rfl, ⟨_, rfl, ?_⟩, nofun, nofun⟩
        show ((Store.addKey ⟨max, base⟩ f), _) = _
        rw [addKey_cleared, ← h, if_pos e]
        rfl
    | unlock r => exact .inl ⟨r, rfl⟩
    | _ => exact h.elim
  | consume =>
    cases a with
    | consumeEmpty =>
      have h : m = base := h
      subst h
      right
      refine ⟨_, _, rfl, ?_⟩
      by_cases e : m = []
      · rw [if_pos e]
        subst e
        exact ⟨⟨_, rfl, rfl⟩, nofun, nofun⟩
      · rw [if_neg e]
        exact ⟨⟨rfl, e⟩, nofun, nofun⟩
    | consumeRead =>
      obtain ⟨rfl, hne⟩ := h
      right
      cases hl : m.getLast? with
      | none => exact absurd (List.getLast?_eq_none_iff.mp hl) hne
      | some x => exact ⟨.consumeErase x, m, by simp only [access, hl], ⟨rfl, hl⟩, nofun, nofun⟩
    | consumeErase r =>
      obtain ⟨rfl, hl⟩ := h
      right
      refine ⟨.unlock (.record (some r)), m.filter (fun e => e.1 ≠ r.1), by simp only [access, hl], ⟨.returned r.1 r.2, rfl, ?_⟩, nofun, nofun⟩
      simp only [Call.op, Qix.Spec.step, Store.consumeKey, hl, filter_last hs hl]
    | unlock r => exact .inl ⟨r, rfl⟩
    | _ => exact h.elim
  | find id =>
    cases a with
    | findFind =>
      have h : m = base := h
      subst h
      right
      cases hl : m.find? (fun e => e.1 = id) with
      | none =>
        refine ⟨.unlock (.key none), m, by simp only [access, hl], ⟨_, rfl, ?_⟩, nofun, nofun⟩
        simp only [Call.op, Qix.Spec.step, Store.findAndConsumeKey, hl]
      | some x =>
        have hx : x.1 = id := by simpa using List.find?_some hl
        refine ⟨.findRead x.1, m, by simp only [access, hl], ⟨rfl, hx, x.2, ?_⟩, nofun, nofun⟩
        rw [hl, ← hx]
    | findRead i =>
      obtain ⟨rfl, rfl, k, hk⟩ := h
      exact .inr ⟨.findErase i k, m, by simp only [access, hk], ⟨rfl, rfl, hk⟩, nofun, nofun⟩
    | findErase i k =>
      obtain ⟨rfl, rfl, hk⟩ := h
      have ha : m.any (fun e => decide (e.1 = i)) = true := List.any_eq_true.mpr ⟨_, List.mem_of_find?_eq_some hk, by simp⟩
      refine .inr ⟨.unlock (.key (some k)), m.filter (fun e => e.1 ≠ i), by simp only [access, ha, if_true], ⟨_, rfl, ?_⟩, nofun, nofun⟩
      simp only [Call.op, Qix.Spec.step, Store.findAndConsumeKey, hk]
    | unlock r => exact .inl ⟨r, rfl⟩
    | _ => exact h.elim

/-! ### All threads -/

/-- Between the constructor and the destructor of `lock_guard`. -/
def Inside (a : At) : Prop := a ≠ .lock ∧ ∀ r, a ≠ .leave r

theorem inside_start (c : Call) : Inside (start c) := by cases c <;> exact ⟨nofun, nofun⟩

theorem access_inside {max : UInt16} {c : Call} {a : At} {m : KeyMap} (h : access max c a m ≠ .noAccess) : Inside a := by
  constructor
  · rintro rfl
    cases c <;> exact h rfl
  · rintro r rfl
    cases c <;> exact h rfl

/-- The map after the calls in this order. -/
def after (max : UInt16) (order : Order) : KeyMap := (run ⟨max, []⟩ (ops order)).1.keys

structure Inv (max : UInt16) (w : World) (order : Order) : Prop where
  explains : Explains max w.history order
  fresh : ∀ n c, Event.call n c ∈ w.history → n < w.calls
  unique : ∀ n c c', Event.call n c ∈ w.history → Event.call n c' ∈ w.history → c = c'
  calls : ∀ t n c a, w.threads t = some (n, c, a) → Event.call n c ∈ w.history ∧ ∀ r, Event.ret n r ∉ w.history
  todo : ∀ t n c a, w.threads t = some (n, c, a) → (∀ r, a ≠ .leave r) → n ∉ order.map Prod.fst
  left : ∀ t n c r, w.threads t = some (n, c, .leave r) → (n, c, r) ∈ order
  distinct : ∀ t t' n c c' a a', w.threads t = some (n, c, a) → w.threads t' = some (n, c', a') → t = t'
  inside : ∀ t n c a, w.threads t = some (n, c, a) → Inside a → w.mutex = some t
  holder : ∀ t, w.mutex = some t → ∃ n c a, w.threads t = some (n, c, a) ∧ Part max (after max order) c a w.map
  free : w.mutex = none → w.map = after max order
  sound : w.faulty = false

theorem sorted_after (max : UInt16) (order : Order) : Sorted (after max order) := (reached max (ops order)).sorted

theorem maxCached_run (max : UInt16) (l : List Op) : (run ⟨max, []⟩ l).1.maxCached = max := (reached max l).cap

theorem go_same {w : World} {t : Nat} {x : Option (Nat × Call × At)} : w.go t x t = x := if_pos rfl
theorem go_other {w : World} {t u : Nat} {x : Option (Nat × Call × At)} (h : u ≠ t) : w.go t x u = w.threads u := if_neg h

theorem inv_init (max : UInt16) : Inv max .new [] where
  explains := {
    once := .nil
    results := rfl
    called _ h := by cases h
    returned _ _ h := by cases h
    respects _ _ _ _ a b h := by cases a <;> cases h }
  fresh _ _ h := by cases h
  unique _ _ _ h := by cases h
  calls _ _ _ _ h := by cases h
  todo _ _ _ _ h := by cases h
  left _ _ _ _ h := by cases h
  distinct _ _ _ _ _ _ _ h := by cases h
  inside _ _ _ _ h := by cases h
  holder _ h := by cases h
  free _ := rfl
  sound := rfl

theorem split_snoc {α : Type} {h a b : List α} {e x : α} (hh : h ++ [e] = a ++ x :: b) :
    (b = [] ∧ e = x ∧ h = a) ∨ ∃ b', b = b' ++ [e] ∧ h = a ++ x :: b' := by
  rcases List.eq_nil_or_concat b with rfl | ⟨b', y, rfl⟩
  · obtain ⟨h1, h2⟩ := List.append_inj' hh rfl
    exact .inl ⟨rfl, by simpa using h2, h1⟩
  · rw [List.concat_eq_append] at *
    have : h ++ [e] = (a ++ x :: b') ++ [y] := by simpa using hh
    obtain ⟨h1, h2⟩ := List.append_inj' this rfl
    refine .inr ⟨b', ?_, h1⟩
    simp only [List.cons.injEq, and_true] at h2
    rw [h2]

theorem run_snoc_log (s : Store) (l : List Op) (op : Op) : (run s (l ++ [op])).2 = (run s l).2 ++ [(Qix.Spec.step (run s l).1 op).2] := by
  induction l generalizing s with
  | nil => rfl
  | cons x l ih => simp only [List.cons_append, run, ih]

theorem ops_snoc (order : Order) (x : Nat × Call × Result) : ops (order ++ [x]) = ops order ++ [Call.op x.2.1] := by
  simp [ops]

theorem store_eq (max : UInt16) (order : Order) : (run ⟨max, []⟩ (ops order)).1 = ⟨max, after max order⟩ := by
  have := maxCached_run max (ops order)
  unfold after
  cases hr : (run ⟨max, []⟩ (ops order)).1
  rw [hr] at this
  cases this
  rfl

theorem explains_call {max : UInt16} {H : List Event} {order : Order} {k : Nat} (h : Explains max H order)
    (hf : ∀ n c, Event.call n c ∈ H → n < k) (c : Call) : Explains max (H ++ [.call k c]) order where
  once := h.once
  results := h.results
  called x hx := List.mem_append_left _ (h.called x hx)
  returned n r hr := h.returned n r (by simpa using hr)
  respects n r m c' a b e hm ho := by
    rcases split_snoc e with ⟨-, e2, -⟩ | ⟨b', rfl, e2⟩
    · cases e2
    · rcases List.mem_append.mp hm with hm | hm
      · exact h.respects n r m c' a b' e2 hm ho
      · simp only [List.mem_singleton, Event.call.injEq] at hm
        obtain ⟨x, hx, hxm⟩ := List.mem_map.mp ho
        have := hf _ _ (h.called x hx)
        omega

theorem explains_ret {max : UInt16} {H : List Event} {order : Order} {k : Nat} {c : Call} {r : Result} (h : Explains max H order)
    (hm : (k, c, r) ∈ order) : Explains max (H ++ [.ret k r]) order where
  once := h.once
  results := h.results
  called x hx := List.mem_append_left _ (h.called x hx)
  returned n r' hr := by
    rcases List.mem_append.mp hr with hr | hr
    · exact h.returned n r' hr
    · simp only [List.mem_singleton, Event.ret.injEq] at hr
      obtain ⟨rfl, rfl⟩ := hr
      exact ⟨c, hm⟩
  respects n r' m c' a b e hm ho := by
    rcases split_snoc e with ⟨rfl, -, -⟩ | ⟨b', rfl, e2⟩
    · cases hm
    · have hm : Event.call m c' ∈ b' := by simpa using hm
      exact h.respects n r' m c' a b' e2 hm ho

theorem explains_unlock {max : UInt16} {H : List Event} {order : Order} {k : Nat} {c : Call} {r : Result} {m : KeyMap} {e : Entry} (h : Explains max H order)
    (hc : Event.call k c ∈ H) (hk : k ∉ order.map Prod.fst) (he : Call.entry c r = some e)
    (hs : Qix.Spec.step ⟨max, after max order⟩ (Call.op c) = (⟨max, m⟩, e)) : Explains max H (order ++ [(k, c, r)]) where
  once := by
    rw [List.map_append]
    exact List.nodup_append.mpr ⟨h.once, by simp, fun x hx y hy e => hk (by simp at hy; exact hy ▸ e ▸ hx)⟩
  results := by
    rw [List.map_append, h.results, ops_snoc, run_snoc_log, List.map_append, store_eq]
    simp only [List.map_cons, List.map_nil, he, hs]
  called x hx := by
    rcases List.mem_append.mp hx with hx | hx
    · exact h.called x hx
    · simp only [List.mem_singleton] at hx
      subst hx
      exact hc
  returned n r' hr := by
    obtain ⟨c', hc'⟩ := h.returned n r' hr
    exact ⟨c', List.mem_append_left _ hc'⟩
  respects n r' m c' a b e hm ho := by
    rw [List.map_append, List.mem_append] at ho
    rw [List.map_append]
    rcases ho with ho | ho
    · obtain ⟨x, y, z, e2⟩ := h.respects n r' m c' a b e hm ho
      exact ⟨x, y, z ++ [k], by rw [e2]; simp⟩
    · have ho : m = k := by simpa using ho
      subst ho
      obtain ⟨c2, h2⟩ := h.returned n r' (by rw [e]; simp)
      obtain ⟨x, y, e2⟩ := List.append_of_mem (List.mem_map.mpr ⟨_, h2, rfl⟩)
      refine ⟨x, y, [], ?_⟩
      rw [e2]
      rfl

theorem after_snoc {max : UInt16} {order : Order} {k : Nat} {c : Call} {r : Result} {m : KeyMap} {e : Entry}
    (hs : Qix.Spec.step ⟨max, after max order⟩ (Call.op c) = (⟨max, m⟩, e)) : after max (order ++ [(k, c, r)]) = m := by
  unfold after
  rw [ops_snoc, run_snoc, store_eq]
  exact congrArg (fun x => x.1.keys) hs

theorem inv_access {max : UInt16} {w : World} {order : Order} (h : Inv max w order) {t n : Nat} {c : Call} {a a' : At} {m : KeyMap}
    (ht : w.threads t = some (n, c, a)) (ha : access max c a w.map = .access a' m) :
    Inv max { w with map := m, threads := w.go t (some (n, c, a')) } order := by
  have hi : Inside a := access_inside (max := max) (c := c) (m := w.map) (by rw [ha]; nofun)
  have hm := h.inside t n c a ht hi
  obtain ⟨n', c', a2, ht', hp⟩ := h.holder t hm
  rw [ht] at ht'
  cases ht'
  rcases part_step max _ (sorted_after max order) c a w.map hp with ⟨r, rfl⟩ | ⟨a3, m3, e, hp', h1, h2⟩
  · cases c <;> cases ha
  rw [ha] at e
  cases e
  refine { explains := h.explains, fresh := h.fresh, unique := h.unique, calls := ?_, todo := ?_, left := ?_, distinct := ?_, inside := ?_, holder := ?_, free := ?_, sound := h.sound }
  · intro u n' c' b hu
    by_cases e : u = t
    · subst e
      replace hu := (go_same (w := w)).symm.trans hu
      cases hu
      exact h.calls u n c a ht
    · exact h.calls u n' c' b (by rw [← hu]; exact (go_other e).symm)
  · intro u n' c' b hu hl
    by_cases e : u = t
    · subst e
      replace hu := (go_same (w := w)).symm.trans hu
      cases hu
      exact h.todo u n c a ht hi.2
    · exact h.todo u n' c' b (by rw [← hu]; exact (go_other e).symm) hl
  · intro u n' c' r hu
    by_cases e : u = t
    · subst e
      replace hu := (go_same (w := w)).symm.trans hu
      cases hu
      exact absurd rfl (h2 r)
    · exact h.left u n' c' r (by rw [← hu]; exact (go_other e).symm)
  · intro u u' k c1 c2 a1 a2 hu hu'
    have key : ∀ v k c1 a1, w.go t (some (n, c, a')) v = some (k, c1, a1) → ∃ a2, w.threads v = some (k, c1, a2) := by
      intro v k c1 a1 hv
      by_cases e : v = t
      · subst e
        rw [go_same] at hv
        cases hv
        exact ⟨a, ht⟩
      · exact ⟨a1, by rw [← hv]; exact (go_other e).symm⟩
    obtain ⟨_, g1⟩ := key u k c1 a1 hu
    obtain ⟨_, g2⟩ := key u' k c2 a2 hu'
    exact h.distinct u u' k c1 c2 _ _ g1 g2
  · intro u n' c' b hu hb
    by_cases e : u = t
    · subst e
      exact hm
    · exact h.inside u n' c' b (by rw [← hu]; exact (go_other e).symm) hb
  · intro u hu
    have : u = t := by
      have hu : w.mutex = some u := hu
      rw [hm] at hu
      cases hu
      rfl
    subst this
    exact ⟨n, c, a', go_same, hp'⟩
  · intro hf
    have hf : w.mutex = none := hf
    rw [hm] at hf
    cases hf

theorem inv_sound {max : UInt16} {w : World} {order : Order} (h : Inv max w order) {t n : Nat} {c : Call} {a : At}
    (ht : w.threads t = some (n, c, a)) : access max c a w.map ≠ .undefined := by
  intro ha
  have hi : Inside a := access_inside (max := max) (c := c) (m := w.map) (by rw [ha]; nofun)
  have hm := h.inside t n c a ht hi
  obtain ⟨n', c', a2, ht', hp⟩ := h.holder t hm
  rw [ht] at ht'
  cases ht'
  rcases part_step max _ (sorted_after max order) c a w.map hp with ⟨r, rfl⟩ | ⟨a3, m3, e, -, -, -⟩
  · cases c <;> cases ha
  rw [ha] at e
  cases e

theorem inv_step {max : UInt16} {w w' : World} {t : Nat} {order : Order} (h : Inv max w order) (hst : Step max t w w') :
    ∃ order', Inv max w' order' := by
  cases hst with
  | access n c a a' m ht ha => exact ⟨order, inv_access h ht ha⟩
  | undefined n c a ht ha => exact absurd ha (inv_sound h ht)
  | call c ht =>
    refine ⟨order, { explains := explains_call h.explains h.fresh c, fresh := ?_, unique := ?_, calls := ?_, todo := ?_, left := ?_, distinct := ?_, inside := ?_, holder := ?_, free := h.free, sound := h.sound }⟩
    · intro n c' hn
      rcases List.mem_append.mp hn with hn | hn
      · exact Nat.lt_succ_of_lt (h.fresh n c' hn)
      · simp only [List.mem_singleton, Event.call.injEq] at hn
        exact hn.1 ▸ Nat.lt_succ_self _
    · intro n c1 c2 hn hn'
      rcases List.mem_append.mp hn with hn | hn
      · rcases List.mem_append.mp hn' with hn' | hn'
        · exact h.unique n c1 c2 hn hn'
        · simp only [List.mem_singleton, Event.call.injEq] at hn'
          have := h.fresh n c1 hn
          omega
      · rcases List.mem_append.mp hn' with hn' | hn'
        · simp only [List.mem_singleton, Event.call.injEq] at hn
          have := h.fresh n c2 hn'
          omega
        · simp only [List.mem_singleton, Event.call.injEq] at hn hn'
          rw [hn.2, hn'.2]
    · intro u n' c' b hu
      by_cases e : u = t
      · subst e
        replace hu := (go_same (w := w)).symm.trans hu
        cases hu
        refine ⟨by simp, fun r hr => ?_⟩
        have hr : Event.ret w.calls r ∈ w.history := by simpa using hr
        obtain ⟨c', hc'⟩ := h.explains.returned _ _ hr
        have := h.fresh _ _ (h.explains.called _ hc')
        exact absurd this (Nat.lt_irrefl _)
      · obtain ⟨g1, g2⟩ := h.calls u n' c' b (by rw [← hu]; exact (go_other e).symm)
        exact ⟨List.mem_append_left _ g1, fun r hr => g2 r (by simpa using hr)⟩
    · intro u n' c' b hu hl
      by_cases e : u = t
      · subst e
        replace hu := (go_same (w := w)).symm.trans hu
        cases hu
        intro hm
        obtain ⟨x, hx, hxm⟩ := List.mem_map.mp hm
        have := h.fresh _ _ (h.explains.called x hx)
        omega
      · exact h.todo u n' c' b (by rw [← hu]; exact (go_other e).symm) hl
    · intro u n' c' r hu
      by_cases e : u = t
      · subst e
        replace hu := (go_same (w := w)).symm.trans hu
        cases hu
      · exact h.left u n' c' r (by rw [← hu]; exact (go_other e).symm)
    · intro u u' k c1 c2 a1 a2 hu hu'
      by_cases e : u = t
      · by_cases e' : u' = t
        · rw [e, e']
        · subst e
          replace hu := (go_same (w := w)).symm.trans hu
          cases hu
          have := h.fresh _ _ (h.calls u' _ c2 a2 (by rw [← hu']; exact (go_other e').symm)).1
          exact absurd this (Nat.lt_irrefl _)
      · by_cases e' : u' = t
        · subst e'
          replace hu' := (go_same (w := w)).symm.trans hu'
          cases hu'
          have := h.fresh _ _ (h.calls u _ c1 a1 (by rw [← hu]; exact (go_other e).symm)).1
          exact absurd this (Nat.lt_irrefl _)
        · exact h.distinct u u' k c1 c2 a1 a2 (by rw [← hu]; exact (go_other e).symm) (by rw [← hu']; exact (go_other e').symm)
    · intro u n' c' b hu hb
      by_cases e : u = t
      · subst e
        replace hu := (go_same (w := w)).symm.trans hu
        cases hu
        exact absurd rfl hb.1
      · exact h.inside u n' c' b (by rw [← hu]; exact (go_other e).symm) hb
    · intro u hu
      obtain ⟨n, c', a, g, hp⟩ := h.holder u hu
      have e : u ≠ t := by
        rintro rfl
        rw [ht] at g
        cases g
      exact ⟨n, c', a, (go_other e).trans g, hp⟩
  | lock n c ht hm =>
    refine ⟨order, { explains := h.explains, fresh := h.fresh, unique := h.unique, calls := ?_, todo := ?_, left := ?_, distinct := ?_, inside := ?_, holder := ?_, free := ?_, sound := h.sound }⟩
    · intro u n' c' b hu
      by_cases e : u = t
      · subst e
        replace hu := (go_same (w := w)).symm.trans hu
        cases hu
        exact h.calls u n c _ ht
      · exact h.calls u n' c' b (by rw [← hu]; exact (go_other e).symm)
    · intro u n' c' b hu hl
      by_cases e : u = t
      · subst e
        replace hu := (go_same (w := w)).symm.trans hu
        cases hu
        exact h.todo u n c _ ht nofun
      · exact h.todo u n' c' b (by rw [← hu]; exact (go_other e).symm) hl
    · intro u n' c' r hu
      by_cases e : u = t
      · subst e
        replace hu := (go_same (w := w)).symm.trans hu
        have : start c = .leave r := by
          simp only [Option.some.injEq, Prod.mk.injEq] at hu
          exact hu.2.2
        exact absurd this ((inside_start c).2 r)
      · exact h.left u n' c' r (by rw [← hu]; exact (go_other e).symm)
    · intro u u' k c1 c2 a1 a2 hu hu'
      have key : ∀ v k c1 a1, w.go t (some (n, c, start c)) v = some (k, c1, a1) → ∃ a2, w.threads v = some (k, c1, a2) := by
        intro v k c1 a1 hv
        by_cases e : v = t
        · subst e
          rw [go_same] at hv
          cases hv
          exact ⟨_, ht⟩
        · exact ⟨a1, by rw [← hv]; exact (go_other e).symm⟩
      obtain ⟨_, g1⟩ := key u k c1 a1 hu
      obtain ⟨_, g2⟩ := key u' k c2 a2 hu'
      exact h.distinct u u' k c1 c2 _ _ g1 g2
    · intro u n' c' b hu hb
      by_cases e : u = t
      · rw [e]
      · have := h.inside u n' c' b (by rw [← hu]; exact (go_other e).symm) hb
        rw [hm] at this
        cases this
    · intro u hu
      have hu : some t = some u := hu
      cases hu
      refine ⟨n, c, start c, go_same, ?_⟩
      show Part max (after max order) c (start c) w.map
      rw [h.free hm]
      exact part_start max _ c
    · exact nofun
  | unlock n c r ht =>
    have hm := h.inside t n c _ ht ⟨nofun, nofun⟩
    obtain ⟨n', c', a2, ht', hp⟩ := h.holder t hm
    rw [ht] at ht'
    cases ht'
    have hp' : ∃ e, Call.entry c r = some e ∧ Qix.Spec.step ⟨max, after max order⟩ (Call.op c) = (⟨max, w.map⟩, e) := by
      cases c <;> exact hp
    obtain ⟨e, he, hs⟩ := hp'
    have hn := h.todo t n c _ ht nofun
    refine ⟨order ++ [(n, c, r)], { explains := explains_unlock h.explains (h.calls t n c _ ht).1 hn he hs, fresh := h.fresh, unique := h.unique, calls := ?_, todo := ?_, left := ?_, distinct := ?_, inside := ?_, holder := nofun, free := ?_, sound := h.sound }⟩
    · intro u n' c' b hu
      by_cases e : u = t
      · subst e
        replace hu := (go_same (w := w)).symm.trans hu
        cases hu
        exact h.calls u n c _ ht
      · exact h.calls u n' c' b (by rw [← hu]; exact (go_other e).symm)
    · intro u n' c' b hu hl
      by_cases e : u = t
      · subst e
        replace hu := (go_same (w := w)).symm.trans hu
        cases hu
        exact absurd rfl (hl r)
      · replace hu : w.threads u = some (n', c', b) := by rw [← hu]; exact (go_other e).symm
        rw [List.map_append, List.mem_append]
        rintro (hx | hx)
        · exact h.todo u n' c' b hu hl hx
        · have hx : n' = n := by simpa using hx
          subst hx
          exact e (h.distinct u t n' c' c b _ hu ht)
    · intro u n' c' r' hu
      by_cases e : u = t
      · subst e
        replace hu := (go_same (w := w)).symm.trans hu
        cases hu
        simp
      · exact List.mem_append_left _ (h.left u n' c' r' (by rw [← hu]; exact (go_other e).symm))
    · intro u u' k c1 c2 a1 a2 hu hu'
      have key : ∀ v k c1 a1, w.go t (some (n, c, .leave r)) v = some (k, c1, a1) → ∃ a2, w.threads v = some (k, c1, a2) := by
        intro v k c1 a1 hv
        by_cases e : v = t
        · subst e
          rw [go_same] at hv
          cases hv
          exact ⟨_, ht⟩
        · exact ⟨a1, by rw [← hv]; exact (go_other e).symm⟩
      obtain ⟨_, g1⟩ := key u k c1 a1 hu
      obtain ⟨_, g2⟩ := key u' k c2 a2 hu'
      exact h.distinct u u' k c1 c2 _ _ g1 g2
    · intro u n' c' b hu hb
      by_cases e : u = t
      · subst e
        replace hu := (go_same (w := w)).symm.trans hu
        cases hu
        exact absurd rfl (hb.2 r)
      · have := h.inside u n' c' b (by rw [← hu]; exact (go_other e).symm) hb
        rw [hm] at this
        cases this
        exact absurd rfl e
    · intro _
      exact (after_snoc hs).symm
  | leave n c r ht =>
    have old : ∀ u x, w.go t none u = some x → u ≠ t ∧ w.threads u = some x := by
      intro u x hu
      by_cases e : u = t
      · subst e
        rw [go_same] at hu
        cases hu
      · exact ⟨e, by rw [← hu]; exact (go_other e).symm⟩
    refine ⟨order, { explains := explains_ret h.explains (h.left t n c r ht), fresh := ?_, unique := ?_, calls := ?_, todo := ?_, left := ?_, distinct := ?_, inside := ?_, holder := ?_, free := h.free, sound := h.sound }⟩
    · intro n' c' hn
      exact h.fresh n' c' (by simpa using hn)
    · intro n' c1 c2 hn hn'
      exact h.unique n' c1 c2 (by simpa using hn) (by simpa using hn')
    · intro u n' c' b hu
      replace ⟨e, hu⟩ := old u _ hu
      obtain ⟨g1, g2⟩ := h.calls u n' c' b hu
      refine ⟨List.mem_append_left _ g1, fun r' hr => ?_⟩
      rcases List.mem_append.mp hr with hr | hr
      · exact g2 r' hr
      · simp only [List.mem_singleton, Event.ret.injEq] at hr
        obtain ⟨rfl, -⟩ := hr
        exact e (h.distinct u t n' c' c b _ hu ht)
    · exact fun u n' c' b hu => h.todo u n' c' b (old u _ hu).2
    · exact fun u n' c' r' hu => h.left u n' c' r' (old u _ hu).2
    · exact fun u u' k c1 c2 a1 a2 hu hu' => h.distinct u u' k c1 c2 a1 a2 (old u _ hu).2 (old u' _ hu').2
    · exact fun u n' c' b hu => h.inside u n' c' b (old u _ hu).2
    · intro u hu
      obtain ⟨n', c', a, g, hp⟩ := h.holder u hu
      have e : u ≠ t := by
        rintro rfl
        rw [ht] at g
        cases g
        cases c <;> exact hp
      exact ⟨n', c', a, (go_other e).trans g, hp⟩

theorem inv {max : UInt16} {w : World} (h : Reachable max w) : ∃ order, Inv max w order := by
  induction h with
  | new => exact ⟨[], inv_init max⟩
  | step t _ hst ih =>
    obtain ⟨order, ih⟩ := ih
    exact inv_step ih hst

/-! ### No key for two -/

theorem two_added {id : UInt64} {l : List Entry}
    (hj : ∀ before rest key, l = before ++ .returned id key :: rest → ∃ a bytes b, before = a ++ .added id bytes :: b ∧ ∀ key', Entry.returned id key' ∉ b)
    {p q : Nat} (hpq : p < q) {k k' : Option Bytes} (hp : l[p]? = some (.returned id k)) (hq : l[q]? = some (.returned id k')) :
    ∃ (i j : Nat) (b b' : Bytes), i < j ∧ l[i]? = some (.added id b) ∧ l[j]? = some (.added id b') := by
  have cut : ∀ {q : Nat} {e : Entry}, l[q]? = some e → l = l.take q ++ e :: l.drop (q + 1) ∧ (l.take q).length = q := by
    intro q e hq
    obtain ⟨hlt, rfl⟩ := List.getElem?_eq_some_iff.mp hq
    refine ⟨?_, by simp; omega⟩
    rw [← List.drop_eq_getElem_cons hlt, List.take_append_drop]
  obtain ⟨e1, l1⟩ := cut hp
  obtain ⟨e2, l2⟩ := cut hq
  obtain ⟨a, b, c, ha, -⟩ := hj _ _ _ e1
  obtain ⟨a', b', c', ha', hc'⟩ := hj _ _ _ e2
  have g1 : (l.take p)[a.length]? = some (.added id b) := by rw [ha]; simp
  have g2 : (l.take q)[a'.length]? = some (.added id b') := by rw [ha']; simp
  have n1 : a.length < p := by rw [← l1, ha]; simp
  have n2 : a'.length < q := by rw [← l2, ha']; simp
  rw [List.getElem?_take_of_lt n1] at g1
  rw [List.getElem?_take_of_lt n2] at g2
  refine ⟨a.length, a'.length, b, b', ?_, g1, g2⟩
  rcases Nat.lt_trichotomy p a'.length with h | h | h
  · omega
  · rw [h, g2] at hp
    cases hp
  · exfalso
    have hp' : (l.take q)[p]? = some (.returned id k) := by rw [List.getElem?_take_of_lt hpq]; exact hp
    rw [ha', List.getElem?_append_right (by omega)] at hp'
    obtain ⟨d, hd⟩ : ∃ d, p - a'.length = d + 1 := ⟨p - a'.length - 1, by omega⟩
    rw [hd, List.getElem?_cons_succ] at hp'
    exact hc' _ (List.mem_of_getElem? hp')

theorem twice {max : UInt16} {w : World} {order : Order} (h : Inv max w order) {n m : Nat} {r r' : Result} {c c' : Call} (hne : n ≠ m)
    (h1 : Event.call n c ∈ w.history) (h1' : Event.ret n r ∈ w.history) (h2 : Event.call m c' ∈ w.history) (h2' : Event.ret m r' ∈ w.history)
    (id : UInt64) (g : Gives id (n, c, r)) (g' : Gives id (m, c', r')) :
    ∃ i j f f', i ≠ j ∧ Event.call i (.add f) ∈ w.history ∧ Event.call j (.add f') ∈ w.history ∧ f.keyId = id ∧ f'.keyId = id := by
  have place : ∀ {n : Nat} {c : Call} {r : Result}, Event.call n c ∈ w.history → Event.ret n r ∈ w.history → ∃ p : Nat, order[p]? = some (n, c, r) := by
    intro n c r hc hr
    obtain ⟨c2, hm⟩ := h.explains.returned n r hr
    rw [h.unique n c c2 hc (h.explains.called _ hm)]
    exact List.mem_iff_getElem?.mp hm
  obtain ⟨p, hp⟩ := place h1 h1'
  obtain ⟨q, hq⟩ := place h2 h2'
  obtain ⟨k, hk⟩ := g
  obtain ⟨k', hk'⟩ := g'
  have look : ∀ (p : Nat) (e : Entry), (run ⟨max, []⟩ (ops order)).2[p]? = some e ↔ ∃ x, order[p]? = some x ∧ Call.entry x.2.1 x.2.2 = some e := by
    intro p e
    have hr : (order.map fun x => Call.entry x.2.1 x.2.2)[p]? = ((run ⟨max, []⟩ (ops order)).2.map some)[p]? := by rw [h.explains.results]
    rw [List.getElem?_map, List.getElem?_map] at hr
    cases ho : order[p]? with
    | none =>
      rw [ho] at hr
      cases hl : (run ⟨max, []⟩ (ops order)).2[p]? with
      | none => simp
      | some y => rw [hl] at hr; cases hr
    | some x =>
      rw [ho] at hr
      cases hl : (run ⟨max, []⟩ (ops order)).2[p]? with
      | none => rw [hl] at hr; cases hr
      | some y =>
        rw [hl] at hr
        simp only [Option.map_some, Option.some.injEq] at hr
        simp only [Option.some.injEq, exists_eq_left']
        rw [hr]
        simp
  have lp := (look p _).mpr ⟨_, hp, hk⟩
  have lq := (look q _).mpr ⟨_, hq, hk'⟩
  have hpq : p ≠ q := by
    rintro rfl
    rw [hp] at hq
    cases hq
    exact hne rfl
  have hj : ∀ before rest key, (run ⟨max, []⟩ (ops order)).2 = before ++ .returned id key :: rest →
      ∃ a bytes b, before = a ++ .added id bytes :: b ∧ ∀ key', Entry.returned id key' ∉ b := by
    intro before rest key e
    obtain ⟨a, bytes, b, e1, -, -, e2⟩ := C27_returned_was_added max (ops order) before rest id key e
    exact ⟨a, bytes, b, e1, e2⟩
  have both : ∃ (i j : Nat) (b b' : Bytes), i < j ∧ (run ⟨max, []⟩ (ops order)).2[i]? = some (.added id b) ∧ (run ⟨max, []⟩ (ops order)).2[j]? = some (.added id b') := by
    rcases Nat.lt_or_gt_of_ne hpq with hlt | hlt
    · exact two_added hj hlt lp lq
    · exact two_added hj hlt lq lp
  obtain ⟨i, j, b, b', hij, hi, hjj⟩ := both
  obtain ⟨x, hx, ex⟩ := (look i _).mp hi
  obtain ⟨y, hy, ey⟩ := (look j _).mp hjj
  have isAdd : ∀ {x : Nat × Call × Result} {b : Bytes}, Call.entry x.2.1 x.2.2 = some (.added id b) → ∃ f : Frame, x.2.1 = .add f ∧ f.keyId = id := by
    rintro ⟨n, c, r⟩ b he
    dsimp only at he ⊢
    unfold Call.entry at he
    split at he
    all_goals first
      | (cases he; done)
      | (simp only [Option.some.injEq, Entry.added.injEq] at he; exact ⟨_, rfl, he.1⟩)
  obtain ⟨f, ef, hf⟩ := isAdd ex
  obtain ⟨f', ef', hf'⟩ := isAdd ey
  refine ⟨x.1, y.1, f, f', ?_, ef ▸ h.explains.called x (List.mem_of_getElem? hx), ef' ▸ h.explains.called y (List.mem_of_getElem? hy), hf, hf'⟩
  intro e
  have hn := List.pairwise_iff_getElem.mp h.explains.once
  obtain ⟨li, hi'⟩ := List.getElem?_eq_some_iff.mp hx
  obtain ⟨lj, hj'⟩ := List.getElem?_eq_some_iff.mp hy
  refine hn i j (by simpa using li) (by simpa using lj) hij ?_
  simp only [List.getElem_map, hi', hj']
  exact e

/-- A bound for the steps up to the release of the mutex. -/
def rank : At → Nat
  | .addEmpty => 8
  | .addCompare => 7
  | .addClear => 6
  | .addSlot => 5
  | .addAssign => 4
  | .addSize => 3
  | .addErase => 2
  | .consumeEmpty => 4
  | .consumeRead => 3
  | .consumeErase _ => 2
  | .findFind => 4
  | .findRead _ => 3
  | .findErase .. => 2
  | _ => 1

theorem rank_le (a : At) : rank a ≤ 8 := by cases a <;> simp [rank]
theorem rank_pos (a : At) : 0 < rank a := by cases a <;> simp [rank]

theorem rank_access {max : UInt16} {c : Call} {a a' : At} {m m' : KeyMap} (h : access max c a m = .access a' m') : rank a' < rank a := by
  unfold access at h
  split at h
  all_goals first
    | cases h; done
    | (cases h; split <;> simp [rank]; done)
    | (cases h; simp [rank]; done)
    | (split at h <;> first | (cases h; done) | (cases h; simp [rank]; done) | (cases h; split <;> simp [rank]; done))

end ThreadsProof

/-- **C65.** Whatever the threads do, and in whatever order they take their steps: there is an order that explains the history,
and while nobody holds the mutex the store contains what it contains after these calls, one after the other. -/
theorem C65_one_after_the_other {max : UInt16} {w : World} (h : Reachable max w) : ∃ order, Explains max w.history order ∧
    (w.mutex = none → w.map = (Qix.Spec.run ⟨max, []⟩ (ops order)).1.keys) := by
  obtain ⟨order, h⟩ := ThreadsProof.inv h
  exact ⟨order, h.explains, h.free⟩

/-- **C65, no data race.** Never are two threads about to access the map at the same time; and one that is holds the mutex. -/
theorem C65_no_race {max : UInt16} {w : World} (h : Reachable max w) {t : Nat} (ht : Accesses max w t) :
    w.mutex = some t ∧ ∀ u, Accesses max w u → u = t := by
  obtain ⟨order, h⟩ := ThreadsProof.inv h
  have key : ∀ u, Accesses max w u → w.mutex = some u := by
    rintro u ⟨n, c, a, hu, ha⟩
    exact h.inside u n c a hu (ThreadsProof.access_inside ha)
  refine ⟨key t ht, fun u hu => ?_⟩
  have h1 := key t ht
  rw [key u hu] at h1
  cases h1
  rfl

/-- **C65, nothing undefined.** No thread ever uses an iterator or a reference to an entry that another has removed, or takes the
last entry of an empty map. -/
theorem C65_nothing_undefined {max : UInt16} {w : World} (h : Reachable max w) : w.faulty = false ∧
    ∀ t n c a, w.threads t = some (n, c, a) → access max c a w.map ≠ .undefined := by
  obtain ⟨order, h⟩ := ThreadsProof.inv h
  exact ⟨h.sound, fun t n c a ht => ThreadsProof.inv_sound h ht⟩

/-- **C65, no deadlock.** A thread that holds the mutex releases it after at most eight steps of its own, whatever the other
threads do not do; and when it is free, each thread that waits for it can have it. -/
theorem C65_released {max : UInt16} {w : World} (h : Reachable max w) :
    (∀ t, w.mutex = some t → ∃ k w', k ≤ 8 ∧ Alone max t k w w' ∧ w'.mutex = none) ∧
    (w.mutex = none → ∀ t n c, w.threads t = some (n, c, .lock) → ∃ w', Step max t w w' ∧ w'.mutex = some t) := by
  refine ⟨fun t hm => ?_, fun hm t n c ht => ⟨_, .lock w n c ht hm, rfl⟩⟩
  obtain ⟨order, h⟩ := ThreadsProof.inv h
  suffices hk : ∀ k w, ThreadsProof.Inv max w order → w.mutex = some t → ∀ n c a, w.threads t = some (n, c, a) → ThreadsProof.rank a ≤ k →
      ∃ k' w', k' ≤ k ∧ Alone max t k' w w' ∧ w'.mutex = none by
    obtain ⟨n, c, a, ht, hp⟩ := h.holder t hm
    exact hk 8 w h hm n c a ht (ThreadsProof.rank_le a)
  intro k
  induction k with
  | zero =>
    intro w _ _ n c a _ hr
    have := ThreadsProof.rank_pos a
    omega
  | succ k ih =>
    intro w h hm n c a ht hr
    obtain ⟨n', c', a', ht', hp⟩ := h.holder t hm
    rw [ht] at ht'
    cases ht'
    rcases ThreadsProof.part_step max _ (ThreadsProof.sorted_after max order) c a w.map hp with ⟨r, rfl⟩ | ⟨a', m', e, hp', h1, h2⟩
    · exact ⟨1, _, by omega, .step (.unlock w n c r ht) (.none _), rfl⟩
    · have hlt := ThreadsProof.rank_access e
      obtain ⟨k', w', hk, ha, hn⟩ := ih _ (ThreadsProof.inv_access h ht e) hm n c a' ThreadsProof.go_same (by omega)
      exact ⟨k' + 1, w', by omega, .step (.access w n c a a' m' ht e) ha, hn⟩

/-- **C65, no key for two.** When two calls have been given the entry with the same id, two deliveries with this id had
been made. -/
theorem C65_not_twice {max : UInt16} {w : World} (h : Reachable max w) {n m : Nat} {r r' : Result} {c c' : Call} (hne : n ≠ m)
    (h1 : Event.call n c ∈ w.history) (h1' : Event.ret n r ∈ w.history) (h2 : Event.call m c' ∈ w.history) (h2' : Event.ret m r' ∈ w.history)
    (id : UInt64) (g : Gives id (n, c, r)) (g' : Gives id (m, c', r')) :
    ∃ i j f f', i ≠ j ∧ Event.call i (.add f) ∈ w.history ∧ Event.call j (.add f') ∈ w.history ∧ f.keyId = id ∧ f'.keyId = id := by
  obtain ⟨order, h⟩ := ThreadsProof.inv h
  exact ThreadsProof.twice h hne h1 h1' h2 h2' id g g'

/-! ### An execution -/

namespace ThreadsExample

/-- What thread `t` does next: with a call if it is in none. -/
def next (max : UInt16) (t : Nat) (c : Call) (w : World) : Option World :=
  match w.threads t with
  | none => some { w with threads := w.go t (some (w.calls, c, .lock)), calls := w.calls + 1, history := w.history ++ [.call w.calls c] }
  | some (n, c, .lock) => if w.mutex = none then some { w with mutex := some t, threads := w.go t (some (n, c, start c)) } else none
  | some (n, c, .unlock r) => some { w with mutex := none, threads := w.go t (some (n, c, .leave r)) }
  | some (n, _, .leave r) => some { w with threads := w.go t none, history := w.history ++ [.ret n r] }
  | some (n, c, a) =>
    match access max c a w.map with
    | .access a' m => some { w with map := m, threads := w.go t (some (n, c, a')) }
    | .undefined => some { w with faulty := true }
    | .noAccess => none

theorem next_step {max : UInt16} {t : Nat} {c : Call} {w w' : World} (h : next max t c w = some w') : Step max t w w' := by
  unfold next at h
  split at h
  · cases h; exact .call w c ‹_›
  · split at h
    · cases h; exact .lock w _ _ ‹_› ‹_›
    · cases h
  · cases h; exact .unlock w _ _ _ ‹_›
  · cases h; exact .leave w _ _ _ ‹_›
  · split at h
    · cases h; exact .access w _ _ _ _ _ ‹_› ‹_›
    · cases h; exact .undefined w _ _ _ ‹_› ‹_›
    · cases h

def play (max : UInt16) : List (Nat × Call) → World → Option World
  | [], w => some w
  | (t, c) :: rest, w => (next max t c w).bind (play max rest)

theorem play_reachable {max : UInt16} : ∀ {l : List (Nat × Call)} {w w' : World}, Reachable max w → play max l w = some w' → Reachable max w'
  | [], _, _, hr, h => by cases h; exact hr
  | (t, c) :: rest, w, w', hr, h => by
    obtain ⟨v, hv, h⟩ := Option.bind_eq_some_iff.mp h
    exact play_reachable (hr.step t (next_step hv)) h

/-- A frame of the device. -/
def frame (id : UInt64) : Frame := ⟨id, List.replicate 32 7, .ok⟩

/-- Thread 1 delivers a key; meanwhile 2 and 3 ask for it and have to wait. -/
def script : List (Nat × Call) :=
  [(1, .add (frame 5)), (2, .consume), (1, .consume), (1, .consume), (3, .find 5), (1, .consume), (1, .consume), (1, .consume), (1, .consume),
    (3, .consume), (1, .consume), (3, .consume), (3, .consume), (3, .consume), (3, .consume), (2, .consume), (2, .consume), (2, .consume), (2, .consume), (3, .consume)]

/-- Thread 3 gets the key, though 2 had asked for it earlier; 2 gets nothing. -/
example : ∃ w, Reachable 4 w ∧ w.mutex = none ∧ w.map = [] ∧ w.history = [.call 0 (.add (frame 5)), .call 1 .consume, .call 2 (.find 5),
    .ret 0 .nothing, .ret 1 (.record none), .ret 2 (.key (some (some (List.replicate 32 7))))] := by
  cases h : play 4 script .new with
  | none => exact absurd (congrArg Option.isSome h) (by decide +kernel)
  | some w =>
    refine ⟨w, play_reachable .new h, ?_⟩
    have h1 : (play 4 script .new).map (fun w => (w.mutex, w.map, w.history)) = some (none, [], [.call 0 (.add (frame 5)), .call 1 .consume, .call 2 (.find 5),
      .ret 0 .nothing, .ret 1 (.record none), .ret 2 (.key (some (some (List.replicate 32 7))))]) := rfl
    rw [h] at h1
    simp only [Option.map_some, Option.some.injEq, Prod.mk.injEq] at h1
    exact h1

end ThreadsExample

end SSP21.Qix.Threads
