import Verif.Props.MemoryValues
/-
  C63: the key store in memory holds what the key store of Verif/Qix.lean holds.
-/
namespace SSP21.Memory

namespace Spec

/-- The entries in memory are those of the other model. -/
def HoldsKeys (m : Mem) : StoreMem → List (UInt64 × Option Bytes) → Prop
  | [], [] => True
  | (i, a) :: rest, (j, some k) :: keys => j = i ∧ At m a k ∧ HoldsKeys m rest keys
  | _, _ => False

end Spec

open Spec

namespace MemoryProof

theorem holds_ids {m : Mem} : ∀ {store : StoreMem} {keys : List (UInt64 × Option Bytes)}, HoldsKeys m store keys → keys.map Prod.fst = store.map Prod.fst
  | [], [], _ => rfl
  | (i, a) :: rest, (j, some k) :: keys, h => by
    obtain ⟨rfl, -, h⟩ := h
    simp only [List.map_cons, holds_ids h]
  | [], _ :: _, h => h.elim
  | _ :: _, [], h => h.elim
  | _ :: _, (_, none) :: _, h => h.elim

theorem holds_length {m : Mem} {store : StoreMem} {keys : List (UInt64 × Option Bytes)} (h : HoldsKeys m store keys) : keys.length = store.length := by
  have := congrArg List.length (holds_ids h)
  simpa using this

theorem holds_congr {m m' : Mem} : ∀ {store : StoreMem} {keys : List (UInt64 × Option Bytes)}, HoldsKeys m store keys →
    (∀ e ∈ store, m'.cell e.2 = m.cell e.2) → HoldsKeys m' store keys
  | [], [], _, _ => trivial
  | (i, a) :: rest, (j, some k) :: keys, h, he =>
    ⟨h.1, h.2.1.congr (he _ List.mem_cons_self), holds_congr h.2.2 fun e hm => he e (List.mem_cons_of_mem _ hm)⟩
  | [], _ :: _, h, _ => h.elim
  | _ :: _, [], h, _ => h.elim
  | _ :: _, (_, none) :: _, h, _ => h.elim

theorem releaseAll_cell : ∀ (l : StoreMem) (m : Mem) (x : Nat), (∀ e ∈ l, e.2 ≠ x) → (releaseAll l m).2.cell x = m.cell x
  | [], _, _, _ => rfl
  | r :: rest, m, x, h => by
    show (releaseAll rest (release r.2 m).2).2.cell x = m.cell x
    rw [releaseAll_cell rest _ x fun e he => h e (List.mem_cons_of_mem _ he)]
    exact set_ne fun e => h r List.mem_cons_self e.symm

theorem insert_holds {m m' : Mem} {id : UInt64} {a : Nat} {key : Bytes} (ha : At m' a key) :
    ∀ {store : StoreMem} {keys : List (UInt64 × Option Bytes)}, store.Pairwise (fun x y => x.1 < y.1) → HoldsKeys m store keys →
      (∀ e ∈ store, e.1 ≠ id → m'.cell e.2 = m.cell e.2) → HoldsKeys m' (insertMem id a store) (Qix.insert id (some key) keys)
  | [], [], _, _, _ => ⟨rfl, ha, trivial⟩
  | (i, x) :: rest, (j, some k) :: keys, hp, h, he => by
    obtain ⟨rfl, hx, h⟩ := h
    rw [List.pairwise_cons] at hp
    have hh : HoldsKeys m ((j, x) :: rest) ((j, some k) :: keys) := ⟨rfl, hx, h⟩
    unfold insertMem Qix.insert
    by_cases h1 : id < j
    · rw [if_pos h1, if_pos h1]
      refine ⟨rfl, ha, holds_congr hh fun e hm => he e hm ?_⟩
      rintro rfl
      rcases List.mem_cons.mp hm with rfl | hm
      · exact absurd h1 (UInt64.lt_irrefl _)
      · exact absurd (UInt64.lt_trans h1 (hp.1 e hm)) (UInt64.lt_irrefl _)
    · rw [if_neg h1, if_neg h1]
      by_cases h2 : id = j
      · rw [if_pos h2, if_pos h2]
        refine ⟨rfl, ha, holds_congr h fun e hm => he e (List.mem_cons_of_mem _ hm) ?_⟩
        rintro rfl
        have := hp.1 e hm
        rw [← h2] at this
        exact absurd this (UInt64.lt_irrefl _)
      · rw [if_neg h2, if_neg h2]
        exact ⟨rfl, hx.congr (he _ List.mem_cons_self (Ne.symm h2)), insert_holds ha hp.2 h fun e hm => he e (List.mem_cons_of_mem _ hm)⟩
  | [], _ :: _, _, h, _ => h.elim
  | _ :: _, [], _, h, _ => h.elim
  | _ :: _, (_, none) :: _, _, h, _ => h.elim

theorem insertMem_distinct {id : UInt64} {a : Nat} : ∀ {store : StoreMem}, store.Pairwise (fun x y => x.2 ≠ y.2) → (∀ e ∈ store, e.2 ≠ a) →
    (insertMem id a store).Pairwise (fun x y => x.2 ≠ y.2)
  | [], _, _ => by simp [insertMem]
  | (i, x) :: rest, hp, ha => by
    have hp' := List.pairwise_cons.mp hp
    unfold insertMem
    split
    · exact List.pairwise_cons.mpr ⟨fun e he h => ha e he h.symm, hp⟩
    split
    · exact List.pairwise_cons.mpr ⟨fun e he h => ha e (List.mem_cons_of_mem _ he) h.symm, hp'.2⟩
    · refine List.pairwise_cons.mpr ⟨fun e he => ?_, insertMem_distinct hp'.2 fun e he => ha e (List.mem_cons_of_mem _ he)⟩
      rcases mem_insertMem he with rfl | he
      · exact ha _ List.mem_cons_self
      · exact hp'.1 e he

theorem goesBack_same {m : Mem} {store : StoreMem} {keys : List (UInt64 × Option Bytes)} (h : HoldsKeys m store keys) (id : UInt64) :
    goesBack store id = (match keys.getLast? with | some (last, _) => decide (id < last) | none => false) := by
  have e := congrArg List.getLast? (holds_ids h)
  rw [List.getLast?_map, List.getLast?_map] at e
  unfold goesBack
  revert e
  cases store.getLast? with
  | none => cases keys.getLast? <;> simp
  | some x => cases keys.getLast? <;> simp; rintro e; rw [e]

/-- `key` is written to a new object, the entry with its id is released. -/
theorem addRecord_at (max : UInt16) (store : StoreMem) (keys : List (UInt64 × Option Bytes)) (id : UInt64) (key : Bytes) (hk : key.length = 32) (m : Mem)
    (hs : store.Pairwise (fun x y => x.1 < y.1)) (hd : store.Pairwise (fun x y => x.2 ≠ y.2)) (hn : ∀ e ∈ store, e.2 < m.next)
    (h : HoldsKeys m store keys) : HoldsKeys (addRecord max store id key m).2 (addRecord max store id key m).1
      (if (Qix.insert id (some key) keys).length > max.toNat then (Qix.insert id (some key) keys).drop 1 else Qix.insert id (some key) keys) := by
  let m1 : Mem := (setLength m.next 32 (put m.next key (new true m).2).2).2
  let m2 : Mem := (releaseAll (store.filter fun r => r.1 = id) m1).2
  have c1 : ∀ e ∈ store, m1.cell e.2 = m.cell e.2 := by
    intro e he
    have hlt := hn e he
    have hne : e.2 ≠ m.next := by omega
    show (setLength m.next 32 (put m.next key (new true m).2).2).2.cell e.2 = m.cell e.2
    rw [show (setLength m.next 32 (put m.next key (new true m).2).2).2.cell e.2 = (put m.next key (new true m).2).2.cell e.2 from set_ne hne,
      show (put m.next key (new true m).2).2.cell e.2 = (new true m).2.cell e.2 from set_ne hne]
    exact new_same true m e.2 hlt
  have ha1 : At m1 m.next key := At.write hk
  have ha2 : At m2 m.next key := by
    refine ha1.congr (releaseAll_cell _ _ _ fun e he => ?_)
    have := hn e (List.mem_filter.mp he).1
    omega
  have c2 : ∀ e ∈ store, e.1 ≠ id → m2.cell e.2 = m.cell e.2 := by
    intro e he hne
    rw [← c1 e he]
    refine releaseAll_cell _ _ _ fun e' he' heq => ?_
    obtain ⟨h1, h2⟩ := List.mem_filter.mp he'
    have h2 : e'.1 = id := of_decide_eq_true h2
    have : e' = e := by
      rcases List.pairwise_iff_getElem.mp hd with hd
      obtain ⟨i, hi, rfl⟩ := List.mem_iff_getElem.mp h1
      obtain ⟨j, hj, rfl⟩ := List.mem_iff_getElem.mp he
      rcases Nat.lt_trichotomy i j with hij | rfl | hij
      · exact absurd heq (hd i j hi hj hij)
      · rfl
      · exact absurd heq.symm (hd j i hj hi hij)
    exact hne (this ▸ h2)
  have h2 : HoldsKeys m2 (insertMem id m.next store) (Qix.insert id (some key) keys) := insert_holds ha2 hs h c2
  have hd2 : (insertMem id m.next store).Pairwise (fun x y => x.2 ≠ y.2) := insertMem_distinct hd fun e he => by have := hn e he; omega
  rw [holds_length h2]
  by_cases hl : (insertMem id m.next store).length > max.toNat
  · have e1 : addRecord max store id key m = ((insertMem id m.next store).drop 1, (releaseAll ((insertMem id m.next store).take 1) m2).2) := by
      show (if (insertMem id m.next store).length > max.toNat then (do releaseAll ((insertMem id m.next store).take 1); pure ((insertMem id m.next store).drop 1) : Op StoreMem)
        else pure (insertMem id m.next store)) m2 = _
      rw [if_pos hl]
      rfl
    rw [e1, if_pos hl]
    revert h2 hd2
    generalize insertMem id m.next store = l
    generalize Qix.insert id (some key) keys = ks
    intro h2 hd2
    match l, ks, h2 with
    | [], [], _ => trivial
    | (i, x) :: rest, (j, some k) :: ks, h2 =>
      refine holds_congr h2.2.2 fun e he => releaseAll_cell _ _ _ fun e' he' => ?_
      simp only [List.take_succ_cons, List.take_zero, List.mem_cons, List.not_mem_nil, or_false] at he'
      subst he'
      exact (List.pairwise_cons.mp hd2).1 e he
  · have e1 : addRecord max store id key m = (insertMem id m.next store, m2) := by
      show (if (insertMem id m.next store).length > max.toNat then (do releaseAll ((insertMem id m.next store).take 1); pure ((insertMem id m.next store).drop 1) : Op StoreMem)
        else pure (insertMem id m.next store)) m2 = _
      rw [if_neg hl]
      rfl
    rw [e1, if_neg hl]
    exact h2

/-- The ids in order, distinct buffers, all of them allocated. -/
def Fit (store : StoreMem) (m : Mem) : Prop :=
  store.Pairwise (fun x y => x.1 < y.1) ∧ store.Pairwise (fun x y => x.2 ≠ y.2) ∧ ∀ e ∈ store, e.2 < m.next

theorem addRecord_fit (max : UInt16) (store : StoreMem) (id : UInt64) (key : Bytes) (m : Mem) (h : Fit store m) :
    Fit (addRecord max store id key m).1 (addRecord max store id key m).2 := by
  let m2 : Mem := (releaseAll (store.filter fun r => r.1 = id) (setLength m.next 32 (put m.next key (new true m).2).2).2).2
  have hnext : m2.next = m.next + 1 := releaseAll_next _ _
  have hs : (insertMem id m.next store).Pairwise (fun x y => x.1 < y.1) := Sorted.insert h.1
  have hd : (insertMem id m.next store).Pairwise (fun x y => x.2 ≠ y.2) := insertMem_distinct h.2.1 fun e he => by have := h.2.2 e he; omega
  have hb : ∀ e ∈ insertMem id m.next store, e.2 < m.next + 1 := by
    intro e he
    rcases mem_insertMem he with rfl | he
    · exact Nat.lt_succ_self _
    · have := h.2.2 e he; omega
  by_cases hl : (insertMem id m.next store).length > max.toNat
  · have e1 : addRecord max store id key m = ((insertMem id m.next store).drop 1, (releaseAll ((insertMem id m.next store).take 1) m2).2) := by
      show (if (insertMem id m.next store).length > max.toNat then (do releaseAll ((insertMem id m.next store).take 1); pure ((insertMem id m.next store).drop 1) : Op StoreMem)
        else pure (insertMem id m.next store)) m2 = _
      rw [if_pos hl]
      rfl
    rw [e1]
    refine ⟨hs.sublist (List.drop_sublist _ _), hd.sublist (List.drop_sublist _ _), fun e he => ?_⟩
    have hn : (releaseAll ((insertMem id m.next store).take 1) m2).2.next = m.next + 1 := by rw [releaseAll_next, hnext]
    exact hn ▸ hb e (List.mem_of_mem_drop he)
  · have e1 : addRecord max store id key m = (insertMem id m.next store, m2) := by
      show (if (insertMem id m.next store).length > max.toNat then (do releaseAll ((insertMem id m.next store).take 1); pure ((insertMem id m.next store).drop 1) : Op StoreMem)
        else pure (insertMem id m.next store)) m2 = _
      rw [if_neg hl]
      rfl
    rw [e1]
    exact ⟨hs, hd, fun e he => hnext ▸ hb e he⟩

theorem addKey_fit (max : UInt16) (store : StoreMem) (id : UInt64) (key : Bytes) (m : Mem) (h : Fit store m) :
    Fit (addKeyMem max store id key m).1 (addKeyMem max store id key m).2 := by
  cases hb : goesBack store id with
  | true =>
    have e1 : addKeyMem max store id key m = addRecord max [] id key (releaseAll store m).2 := by
      unfold addKeyMem
      rw [hb]
      rfl
    rw [e1]
    exact addRecord_fit max [] id key _ ⟨.nil, .nil, by simp⟩
  | false =>
    have e1 : addKeyMem max store id key m = addRecord max store id key m := by
      unfold addKeyMem
      rw [hb]
      rfl
    rw [e1]
    exact addRecord_fit max store id key m h

end MemoryProof

/-- **C63.** Putting a key into the key store in memory does to its entries what it does in the other model: which keys are
kept, under which ids, with which bytes (the properties C39 and C62 say what a user can rely on). -/
theorem C63_add_key_computes (max : UInt16) (store : StoreMem) (keys : List (UInt64 × Option Bytes)) (id : UInt64) (key : Bytes) (status : Qix.Status)
    (hk : key.length = 32) (m : Mem) (hs : store.Pairwise (fun x y => x.1 < y.1)) (hd : store.Pairwise (fun x y => x.2 ≠ y.2))
    (hn : ∀ e ∈ store, e.2 < m.next) (h : HoldsKeys m store keys) :
    HoldsKeys (addKeyMem max store id key m).2 (addKeyMem max store id key m).1 (Qix.Store.addKey ⟨max, keys⟩ ⟨id, key, status⟩).keys := by
  have hc : Qix.createKey key = some key := by simp [Qix.createKey, hk]
  unfold Qix.Store.addKey
  simp only [hc]
  have hg := MemoryProof.goesBack_same h id
  cases hb : goesBack store id with
  | true =>
    have e1 : addKeyMem max store id key m = addRecord max [] id key (releaseAll store m).2 := by
      unfold addKeyMem
      rw [hb]
      rfl
    rw [e1]
    rw [hb] at hg
    have ht := MemoryProof.addRecord_at max [] [] id key hk (releaseAll store m).2 .nil .nil (by simp) trivial
    revert hg
    cases keys.getLast? with
    | none => intro hg; cases hg
    | some x => intro hg; simp only [if_pos (of_decide_eq_true hg.symm)]; exact ht
  | false =>
    have e1 : addKeyMem max store id key m = addRecord max store id key m := by
      unfold addKeyMem
      rw [hb]
      rfl
    rw [e1]
    rw [hb] at hg
    have ht := MemoryProof.addRecord_at max store keys id key hk m hs hd hn h
    revert hg
    cases keys.getLast? with
    | none => intro _; exact ht
    | some x => intro hg; simp only [if_neg (of_decide_eq_false hg.symm)]; exact ht

/-- The deliveries one after the other, in memory. -/
def deliverMem (max : UInt16) : List Qix.Frame → StoreMem → Mem → StoreMem × Mem
  | [], store, m => (store, m)
  | k :: ks, store, m => deliverMem max ks (addKeyMem max store k.keyId k.key m).1 (addKeyMem max store k.keyId k.key m).2

/-- The same deliveries in the other model. -/
def deliver (store : Qix.Store) (ks : List Qix.Frame) : Qix.Store := ks.foldl Qix.Store.addKey store

/-- **C63.** Whatever keys are delivered to an empty key store, in any order, in any number: the buffers it then holds contain,
under the same ids and in the same order, exactly the keys that the store of the other model holds after the same deliveries. -/
theorem C63_key_store_computes (max : UInt16) (ks : List Qix.Frame) (hk : ∀ k ∈ ks, k.key.length = 32) (m : Mem) :
    HoldsKeys (deliverMem max ks [] m).2 (deliverMem max ks [] m).1 (deliver ⟨max, []⟩ ks).keys := by
  suffices h : ∀ (store : StoreMem) (m : Mem) (keys : List (UInt64 × Option Bytes)), MemoryProof.Fit store m → HoldsKeys m store keys →
      HoldsKeys (deliverMem max ks store m).2 (deliverMem max ks store m).1 (deliver ⟨max, keys⟩ ks).keys from
    h [] m [] ⟨.nil, .nil, by simp⟩ trivial
  induction ks with
  | nil => exact fun store m keys _ h => h
  | cons k ks ih =>
    intro store m keys hf h
    have h' := C63_add_key_computes max store keys k.keyId k.key k.status (hk k List.mem_cons_self) m hf.1 hf.2.1 hf.2.2 h
    have e : Qix.Store.addKey ⟨max, keys⟩ k = ⟨max, (Qix.Store.addKey ⟨max, keys⟩ k).keys⟩ := by
      unfold Qix.Store.addKey
      split <;> rfl
    show HoldsKeys _ _ (deliver (Qix.Store.addKey ⟨max, keys⟩ k) ks).keys
    rw [e]
    exact ih (fun k hm => hk k (List.mem_cons_of_mem _ hm)) _ _ _ (MemoryProof.addKey_fit max store k.keyId k.key m hf) h'

/-- Four deliveries to a store of at most two keys: the third evicts the first, the fourth goes back and empties the store. -/
example : (deliver ⟨2, []⟩ [⟨4, List.replicate 32 1, .ok⟩, ⟨6, List.replicate 32 2, .ok⟩, ⟨9, List.replicate 32 3, .ok⟩]).keys =
      [(6, some (List.replicate 32 2)), (9, some (List.replicate 32 3))] ∧
    (deliverMem 2 [⟨4, List.replicate 32 1, .ok⟩, ⟨6, List.replicate 32 2, .ok⟩, ⟨9, List.replicate 32 3, .ok⟩] [] ⟨fun _ => ⟨[], 0, false, 0⟩, 0⟩).1.map Prod.fst = [6, 9] ∧
    (deliver ⟨2, []⟩ [⟨4, List.replicate 32 1, .ok⟩, ⟨6, List.replicate 32 2, .ok⟩, ⟨9, List.replicate 32 3, .ok⟩, ⟨5, List.replicate 32 7, .ok⟩]).keys =
      [(5, some (List.replicate 32 7))] := by
  decide +kernel

end SSP21.Memory
