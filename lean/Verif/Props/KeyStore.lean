import Verif.Qix
/-
  C27 (key store) and C39. Every operation of the store runs under its mutex; a history is the sequence in which the
  operations acquire it, so every interleaving of the thread that adds keys and the threads that use them is a list of
  operations.
-/
namespace SSP21.Qix.Spec

/-- The operations of a key store. -/
inductive Op
  | add (f : Frame)
  | consume
  | find (id : UInt64)

/-- What an operation did, as seen by the caller: a key was added; a record was given to the caller; there was
nothing to give. -/
inductive Entry
  | added (id : UInt64) (bytes : Bytes)
  | returned (id : UInt64) (key : Option Bytes)
  | nothing
  deriving DecidableEq

/-- The id of an entry. -/
def Entry.about : Entry → Option UInt64
  | .added id _ => some id
  | .returned id _ => some id
  | .nothing => none

def step (s : Store) : Op → Store × Entry
  | .add f => (s.addKey f, .added f.keyId f.key)
  | .consume =>
    match s.consumeKey with
    | (s', some (id, key)) => (s', .returned id key)
    | (s', none) => (s', .nothing)
  | .find id =>
    match s.findAndConsumeKey id with
    | (s', some key) => (s', .returned id key)
    | (s', none) => (s', .nothing)

def run (s : Store) : List Op → Store × List Entry
  | [] => (s, [])
  | op :: ops =>
    let (s', e) := step s op
    let (s'', es) := run s' ops
    (s'', e :: es)

/-- The usable form of key bytes: keys have 32 bytes. -/
def usable (bytes : Bytes) : Option Bytes := if bytes.length = 32 then some bytes else none

/-- The frames that arrive. -/
def arrivals (ops : List Op) : List Frame := ops.filterMap fun op => match op with | .add f => some f | _ => none

/-- The number of times the id was added / returned. -/
def timesAdded (id : UInt64) (log : List Entry) : Nat :=
  log.countP fun e => match e with | .added i _ => i = id | _ => false
def timesReturned (id : UInt64) (log : List Entry) : Nat :=
  log.countP fun e => match e with | .returned i _ => i = id | _ => false

end SSP21.Qix.Spec

namespace SSP21.Qix.Spec

/-! ### Several users of one source of keys -/

/-- The operations of a source of keys: a user of the source registers with its number and the size of its store; a
frame arrives; the user with the given number consumes or looks up a key. -/
inductive SourceOp
  | bind (user size : UInt16)
  | frame (f : Frame)
  | consume (user : UInt16)
  | find (user : UInt16) (id : UInt64)

inductive SourceEntry
  | bound (user size : UInt16)
  | duplicate
  | frame (f : Frame)
  | returned (user : UInt16) (id : UInt64) (key : Option Bytes)
  | nothing

/-- The users' stores are objects shared with the source; `update` is an operation on one of them. -/
def update (r : Router) (user : UInt16) (s : Store) : Router :=
  { r with subscribers := r.subscribers.map fun (i, s') => if i = user then (i, s) else (i, s') }

def storeOf (r : Router) (user : UInt16) : Option Store :=
  (r.subscribers.find? fun x => x.1 = user).map (·.2)

/-- What an operation of a source with `n` users means for the store of one user: keys whose id has the remainder `user` arrive there. -/
def forUser (n user : UInt16) : SourceOp → List Op
  | .bind _ _ => []
  | .frame f => if f.status = .ok ∧ f.key.length = 32 ∧ f.keyId.toNat % n.toNat = user.toNat then [.add f] else []
  | .consume u => if u = user then [.consume] else []
  | .find u id => if u = user then [.find id] else []

/-- The size of the store of a user and what has been done with it, once the user has registered. -/
def usage (n user : UInt16) : Option (UInt16 × List Op) → List SourceOp → Option (UInt16 × List Op)
  | acc, [] => acc
  | none, .bind u size :: ops => usage n user (if u = user then some (size, []) else none) ops
  | none, _ :: ops => usage n user none ops
  | some (size, done), op :: ops => usage n user (some (size, done ++ forUser n user op)) ops

/-- `none` is a division by zero. -/
def sourceStep (r : Router) : SourceOp → Option (Router × SourceEntry)
  | .bind user size =>
    match r.bind user size with
    | some r' => some (r', .bound user size)
    | none => some (r, .duplicate)
  | .frame f =>
    match r.handle f with
    | .fault => none
    | .done r' => some (r', .frame f)
  | .consume user =>
    match storeOf r user with
    | none => some (r, .nothing)
    | some s =>
      match s.consumeKey with
      | (s', some (id, key)) => some (update r user s', .returned user id key)
      | (s', none) => some (update r user s', .nothing)
  | .find user id =>
    match storeOf r user with
    | none => some (r, .nothing)
    | some s =>
      match s.findAndConsumeKey id with
      | (s', some key) => some (update r user s', .returned user id key)
      | (s', none) => some (update r user s', .nothing)

def sourceRun (r : Router) : List SourceOp → Option (Router × List SourceEntry)
  | [] => some (r, [])
  | op :: ops =>
    match sourceStep r op with
    | none => none
    | some (r', e) => (sourceRun r' ops).map fun (r'', es) => (r'', e :: es)

end SSP21.Qix.Spec

namespace SSP21.Qix
open Spec

/-! ### Sorted lists -/

abbrev Sorted (l : List (UInt64 × Option Bytes)) : Prop := l.Pairwise fun a b => a.1 < b.1

theorem u64_ne_of_lt {a b : UInt64} (h : a < b) : a ≠ b := by
  rintro rfl
  exact absurd h (by simp)

theorem mem_insert {id : UInt64} {k : Option Bytes} {l : List (UInt64 × Option Bytes)} (hs : Sorted l)
    (x : UInt64 × Option Bytes) : x ∈ insert id k l ↔ x = (id, k) ∨ (x ∈ l ∧ x.1 ≠ id) := by
  induction l with
  | nil => simp [insert]
  | cons a l ih =>
    obtain ⟨i, k'⟩ := a
    obtain ⟨h1, h2⟩ := List.pairwise_cons.mp hs
    unfold insert
    split
    · rename_i h
      constructor
      · intro hx
        rcases List.mem_cons.mp hx with hx | hx
        · exact .inl hx
        · right
          refine ⟨hx, ?_⟩
          rcases List.mem_cons.mp hx with rfl | hx
          · exact (u64_ne_of_lt h).symm
          · exact (u64_ne_of_lt (UInt64.lt_trans h (h1 _ hx))).symm
      · rintro (hx | ⟨hx, -⟩)
        · exact List.mem_cons.mpr (.inl hx)
        · exact List.mem_cons.mpr (.inr hx)
    · split
      · rename_i h
        subst h
        constructor
        · intro hx
          rcases List.mem_cons.mp hx with hx | hx
          · exact .inl hx
          · exact .inr ⟨List.mem_cons.mpr (.inr hx), (u64_ne_of_lt (h1 _ hx)).symm⟩
        · rintro (hx | ⟨hx, hne⟩)
          · exact List.mem_cons.mpr (.inl hx)
          · rcases List.mem_cons.mp hx with rfl | hx
            · exact absurd rfl hne
            · exact List.mem_cons.mpr (.inr hx)
      · rename_i hn1 hn2
        rw [List.mem_cons, ih h2, List.mem_cons]
        constructor
        · rintro (rfl | hx | hx)
          · exact .inr ⟨.inl rfl, fun h => hn2 h.symm⟩
          · exact .inl hx
          · exact .inr ⟨.inr hx.1, hx.2⟩
        · rintro (hx | ⟨hx | hx, hne⟩)
          · exact .inr (.inl hx)
          · exact .inl hx
          · exact .inr (.inr ⟨hx, hne⟩)

theorem u64_lt_of_not {a b : UInt64} (h1 : ¬ a < b) (h2 : a ≠ b) : b < a := by
  rw [UInt64.lt_iff_toNat_lt] at *
  have : a.toNat ≠ b.toNat := fun h => h2 (UInt64.toNat_inj.mp h)
  omega

theorem sorted_insert {id : UInt64} {k : Option Bytes} {l : List (UInt64 × Option Bytes)} (hs : Sorted l) :
    Sorted (insert id k l) := by
  induction l with
  | nil => simp [insert]
  | cons a l ih =>
    obtain ⟨i, k'⟩ := a
    obtain ⟨h1, h2⟩ := List.pairwise_cons.mp hs
    unfold insert
    split
    · rename_i h
      refine List.pairwise_cons.mpr ⟨fun x hx => ?_, hs⟩
      rcases List.mem_cons.mp hx with rfl | hx
      · exact h
      · exact UInt64.lt_trans h (h1 _ hx)
    · split
      · rename_i h
        subst h
        exact List.pairwise_cons.mpr ⟨h1, h2⟩
      · rename_i hn1 hn2
        refine List.pairwise_cons.mpr ⟨fun x hx => ?_, ih h2⟩
        rcases (mem_insert h2 x).mp hx with rfl | ⟨hx, -⟩
        · exact u64_lt_of_not hn1 hn2
        · exact h1 _ hx

/-- Insertion at the end. -/
theorem insert_last {id : UInt64} {k : Option Bytes} {l : List (UInt64 × Option Bytes)} (hs : Sorted l)
    (h : ∀ x ∈ l, x.1 ≤ id) : insert id k l = l.filter (fun x => x.1 ≠ id) ++ [(id, k)] := by
  induction l with
  | nil => simp [insert]
  | cons a l ih =>
    obtain ⟨i, k'⟩ := a
    obtain ⟨h1, h2⟩ := List.pairwise_cons.mp hs
    have hi : i ≤ id := h _ (List.mem_cons_self ..)
    unfold insert
    rw [if_neg (by rw [UInt64.lt_iff_toNat_lt]; rw [UInt64.le_iff_toNat_le] at hi; omega)]
    split
    · rename_i he
      subst he
      have hl : l = [] := by
        match l, h, h1 with
        | [], _, _ => rfl
        | b :: l, h, h1 =>
          have a1 := h b (by simp)
          have a2 := h1 b (by simp)
          rw [UInt64.le_iff_toNat_le] at a1
          rw [UInt64.lt_iff_toNat_lt] at a2
          simp only at a2
          omega
      subst hl
      simp
    · rename_i hne
      rw [ih h2 (fun x hx => h x (List.mem_cons.mpr (.inr hx)))]
      rw [List.filter_cons, if_pos (by simpa using fun h => hne h.symm)]
      rfl

theorem le_getLast {l : List (UInt64 × Option Bytes)} (hs : Sorted l) {x y : UInt64 × Option Bytes} (hy : l.getLast? = some y)
    (hx : x ∈ l) : x.1 ≤ y.1 := by
  obtain ⟨ys, rfl⟩ := List.getLast?_eq_some_iff.mp hy
  rcases List.mem_append.mp hx with h | h
  · have := (List.pairwise_append.mp hs).2.2 x h y (by simp)
    rw [UInt64.lt_iff_toNat_lt] at this
    rw [UInt64.le_iff_toNat_le]; omega
  · simp at h
    subst h
    exact UInt64.le_refl _

/-! ### One operation -/

theorem dropped_lt {l : List (UInt64 × Option Bytes)} (n : Nat) (hs : Sorted l) : Sorted (l.drop n) :=
  hs.sublist (List.drop_sublist ..)

/-- The map after `key_map[id] = record`. -/
def added (s : Store) (f : Frame) : List (UInt64 × Option Bytes) :=
  if ∃ x ∈ s.keys, f.keyId < x.1 then [(f.keyId, createKey f.key)]
  else s.keys.filter (fun x => x.1 ≠ f.keyId) ++ [(f.keyId, createKey f.key)]

theorem addKey_eq {s : Store} (hs : Sorted s.keys) (f : Frame) :
    s.addKey f = { s with keys := if (added s f).length > s.maxCached.toNat then (added s f).drop 1 else added s f } := by
  have key : insert f.keyId (createKey f.key) (match s.keys.getLast? with
      | some (last, _) => if f.keyId < last then [] else s.keys
      | none => s.keys) = added s f := by
    unfold added
    match h : s.keys.getLast? with
    | none =>
      have : s.keys = [] := by simpa using h
      simp [this, insert]
    | some (last, k) =>
      have hm : (last, k) ∈ s.keys := List.mem_of_getLast? h
      by_cases hb : f.keyId < last
      · simp only [hb, if_true, insert]
        rw [if_pos ⟨_, hm, hb⟩]
      · simp only [hb, if_false]
        have hle : ∀ x ∈ s.keys, x.1 ≤ f.keyId := by
          intro x hx
          have := le_getLast hs h hx
          rw [UInt64.le_iff_toNat_le] at *
          rw [UInt64.lt_iff_toNat_lt] at hb
          simp only at this
          omega
        rw [if_neg, insert_last hs hle]
        rintro ⟨x, hx, hlt⟩
        have := hle x hx
        rw [UInt64.le_iff_toNat_le] at this
        rw [UInt64.lt_iff_toNat_lt] at hlt
        omega
  simp only [Store.addKey]
  rw [← key]
  cases s.keys.getLast? <;> rfl

theorem sorted_added {s : Store} (hs : Sorted s.keys) (f : Frame) : Sorted (added s f) := by
  unfold added
  split
  · simp
  · rename_i h
    refine List.pairwise_append.mpr ⟨hs.sublist List.filter_sublist, by simp, ?_⟩
    intro a ha b hb
    simp at ha hb
    subst hb
    refine u64_lt_of_not (fun hlt => h ⟨a, ha.1, hlt⟩) (fun e => ha.2 e.symm)

theorem consume_spec {s : Store} (h : Sorted s.keys) :
    (∀ r, s.consumeKey.2 = some r → r ∈ s.keys ∧ (∀ x ∈ s.keys, x ≠ r → x.1 < r.1) ∧
      ∀ x, x ∈ s.consumeKey.1.keys ↔ x ∈ s.keys ∧ x ≠ r) ∧
    (s.consumeKey.2 = none ↔ s.keys = []) ∧ (s.consumeKey.2 = none → s.consumeKey.1 = s) := by
  unfold Store.consumeKey
  match hl : s.keys.getLast? with
  | none => exact ⟨by simp, by simpa using hl, fun _ => rfl⟩
  | some r =>
    obtain ⟨ys, hys⟩ := List.getLast?_eq_some_iff.mp hl
    have hd : s.keys.dropLast = ys := by rw [hys]; simp
    simp only [hd]
    rw [hys] at h
    have hlt := (List.pairwise_append.mp h).2.2
    refine ⟨?_, by simp [hys], by simp⟩
    rintro r' ⟨⟩
    rw [hys]
    refine ⟨by simp, ?_, ?_⟩
    · intro x hx hne
      rcases List.mem_append.mp hx with hx | hx
      · exact hlt x hx r (by simp)
      · exact absurd (by simpa using hx) hne
    · intro x
      constructor
      · intro hx
        refine ⟨List.mem_append.mpr (.inl hx), ?_⟩
        rintro rfl
        exact absurd (hlt x hx x (by simp)) (by simp)
      · rintro ⟨hx, hne⟩
        rcases List.mem_append.mp hx with hx | hx
        · exact hx
        · exact absurd (by simpa using hx) hne

theorem find_spec {s : Store} (h : Sorted s.keys) (id : UInt64) :
    (∀ key, (s.findAndConsumeKey id).2 = some key ↔ (id, key) ∈ s.keys) ∧
    ∀ x, x ∈ (s.findAndConsumeKey id).1.keys ↔ x ∈ s.keys ∧ x.1 ≠ id := by
  have uniq : ∀ a b, (id, a) ∈ s.keys → (id, b) ∈ s.keys → a = b := by
    intro a b ha hb
    obtain ⟨x, y, hxy⟩ := List.append_of_mem ha
    rw [hxy] at h hb
    obtain ⟨-, h2, h3⟩ := List.pairwise_append.mp h
    rcases List.mem_append.mp hb with hb | hb
    · exact absurd (h3 _ hb (id, a) (by simp)) (by simp)
    · rcases List.mem_cons.mp hb with hb | hb
      · exact (Prod.mk.inj hb).2.symm
      · exact absurd ((List.pairwise_cons.mp h2).1 _ hb) (by simp)
  unfold Store.findAndConsumeKey
  cases hl : s.keys.find? (fun r => r.1 = id) with
  | none =>
    have hno : ∀ x ∈ s.keys, x.1 ≠ id := by simpa using hl
    exact ⟨fun key => ⟨by simp, fun hm => absurd rfl (hno _ hm)⟩, fun x => ⟨fun hx => ⟨hx, hno x hx⟩, fun hx => hx.1⟩⟩
  | some r =>
    obtain ⟨i, key⟩ := r
    have hi : i = id := by simpa using List.find?_some hl
    subst hi
    have hm := List.mem_of_find?_eq_some hl
    refine ⟨fun key' => ⟨?_, ?_⟩, fun x => by simp⟩
    · rintro ⟨⟩
      exact hm
    · intro hm'
      simp only [Option.some.injEq]
      exact uniq _ _ hm hm'

/-! ### Histories -/

/-- The held keys were added, and their ids have not been added or returned since. -/
def Backed (s : Store) (log : List Entry) : Prop :=
  ∀ id key, (id, key) ∈ s.keys → ∃ a bytes b, log = a ++ .added id bytes :: b ∧ key = usable bytes ∧
    ∀ e ∈ b, e.about ≠ some id

structure Inv (max : UInt16) (s : Store) (log : List Entry) : Prop where
  cap : s.maxCached = max
  sorted : Sorted s.keys
  bounded : s.keys.length ≤ max.toNat
  backed : Backed s log

theorem createKey_eq (b : Bytes) : createKey b = usable b := by
  unfold createKey usable
  split <;> simp_all

/-- What a return reports about the past. -/
def Justified (log : List Entry) : Entry → Prop
  | .returned id key => ∃ a bytes b, log = a ++ .added id bytes :: b ∧ key = usable bytes ∧ ∀ e ∈ b, e.about ≠ some id
  | _ => True

theorem inv_step {max : UInt16} {s : Store} {log : List Entry} (h : Inv max s log) (op : Op) :
    Inv max (step s op).1 (log ++ [(step s op).2]) ∧ Justified log (step s op).2 := by
  obtain ⟨hm, hs, hb, hk⟩ := h
  cases op with
  | add f =>
    refine ⟨?_, trivial⟩
    simp only [step]
    rw [addKey_eq hs]
    have hs' := sorted_added hs f
    have hsub : (if (added s f).length > s.maxCached.toNat then (added s f).drop 1 else added s f).Sublist (added s f) := by
      split
      · exact List.drop_sublist ..
      · exact List.Sublist.refl _
    refine ⟨hm, hs'.sublist hsub, ?_, ?_⟩
    · have hl : (added s f).length ≤ max.toNat + 1 := by
        unfold added
        split
        · simp
        · have := List.length_filter_le (fun x : UInt64 × Option Bytes => decide (x.1 ≠ f.keyId)) s.keys
          simp only [List.length_append, List.length_singleton]
          omega
      simp only
      split
      · rw [List.length_drop]; omega
      · rw [← hm]; omega
    · intro id key hx
      have hx := hsub.subset hx
      unfold added at hx
      have old : (id, key) ∈ s.keys → id ≠ f.keyId → ∃ a bytes b, log ++ [Entry.added f.keyId f.key] = a ++ .added id bytes :: b ∧
          key = usable bytes ∧ ∀ e ∈ b, e.about ≠ some id := by
        intro hx hne
        obtain ⟨a, bytes, b, rfl, h2, h3⟩ := hk _ _ hx
        refine ⟨a, bytes, b ++ [.added f.keyId f.key], by simp, h2, ?_⟩
        intro e he
        rcases List.mem_append.mp he with he | he
        · exact h3 e he
        · simp at he
          subst he
          simpa [Entry.about] using fun h => hne h.symm
      have new : (id, key) = (f.keyId, createKey f.key) → ∃ a bytes b, log ++ [Entry.added f.keyId f.key] = a ++ .added id bytes :: b ∧
          key = usable bytes ∧ ∀ e ∈ b, e.about ≠ some id := by
        intro hx
        obtain ⟨rfl, rfl⟩ := Prod.mk.inj hx
        exact ⟨log, f.key, [], rfl, createKey_eq _, by simp⟩
      split at hx
      · exact new (by simpa using hx)
      · rcases List.mem_append.mp hx with hx | hx
        · have := List.mem_filter.mp hx
          exact old this.1 (by simpa using this.2)
        · exact new (by simpa using hx)
  | consume =>
    simp only [step, Store.consumeKey]
    match hl : s.keys.getLast? with
    | none =>
      refine ⟨⟨hm, hs, hb, ?_⟩, trivial⟩
      intro id key hx
      have : s.keys = [] := by simpa using hl
      rw [this] at hx
      simp at hx
    | some (id, key) =>
      obtain ⟨ys, hys⟩ := List.getLast?_eq_some_iff.mp hl
      have hd : s.keys.dropLast = ys := by rw [hys]; simp
      simp only [hd]
      rw [hys] at hs hb
      refine ⟨⟨hm, (List.pairwise_append.mp hs).1, by simp at hb; simp only; omega, ?_⟩, ?_⟩
      · intro id' key' hx
        have hlt := (List.pairwise_append.mp hs).2.2 _ hx (id, key) (by simp)
        obtain ⟨a, bytes, b, rfl, h2, h3⟩ := hk id' key' (by rw [hys]; exact List.mem_append.mpr (.inl hx))
        refine ⟨a, bytes, b ++ [.returned id key], by simp, h2, ?_⟩
        intro e he
        rcases List.mem_append.mp he with he | he
        · exact h3 e he
        · simp at he
          subst he
          simpa [Entry.about] using (u64_ne_of_lt hlt).symm
      · exact hk id key (by rw [hys]; simp)
  | find id =>
    simp only [step, Store.findAndConsumeKey]
    cases hl : s.keys.find? (fun r => r.1 = id) with
    | none =>
      refine ⟨⟨hm, hs, hb, ?_⟩, trivial⟩
      intro id' key' hx
      obtain ⟨a, bytes, b, rfl, h2, h3⟩ := hk id' key' hx
      refine ⟨a, bytes, b ++ [.nothing], by simp, h2, ?_⟩
      intro e he
      rcases List.mem_append.mp he with he | he
      · exact h3 e he
      · simp at he
        subst he
        simp [Entry.about]
    | some r =>
      obtain ⟨i, key⟩ := r
      have hi : i = id := by simpa using List.find?_some hl
      subst hi
      refine ⟨⟨hm, hs.sublist List.filter_sublist, Nat.le_trans (List.length_filter_le ..) hb, ?_⟩, ?_⟩
      · intro id' key' hx
        have hx := List.mem_filter.mp hx
        obtain ⟨a, bytes, b, rfl, h2, h3⟩ := hk id' key' hx.1
        refine ⟨a, bytes, b ++ [.returned i key], by simp, h2, ?_⟩
        intro e he
        rcases List.mem_append.mp he with he | he
        · exact h3 e he
        · simp at he
          subst he
          have := hx.2
          simp only [Entry.about, ne_eq, Option.some.injEq, decide_eq_true_eq] at this ⊢
          exact fun h => this h.symm
      · exact hk i key (List.mem_of_find?_eq_some hl)

theorem inv_run {max : UInt16} {s : Store} {log : List Entry} (h : Inv max s log) (ops : List Op) :
    Inv max (run s ops).1 (log ++ (run s ops).2) ∧
      ∀ a e b, (run s ops).2 = a ++ e :: b → Justified (log ++ a) e := by
  induction ops generalizing s log with
  | nil =>
    simp only [run, List.append_nil]
    exact ⟨h, fun a e b h => by simp at h⟩
  | cons op ops ih =>
    obtain ⟨h1, h2⟩ := inv_step h op
    obtain ⟨i1, i2⟩ := ih h1
    simp only [run]
    refine ⟨by simpa using i1, ?_⟩
    intro a e b he
    cases a with
    | nil =>
      simp only [List.nil_append, List.cons.injEq] at he
      rw [← he.1]; simpa using h2
    | cons x a =>
      simp only [List.cons_append, List.cons.injEq] at he
      have := i2 a e b he.2
      rw [he.1] at this
      simpa using this

theorem inv_new (max : UInt16) : Inv max ⟨max, []⟩ [] :=
  ⟨rfl, by simp, by simp, fun id key h => by simp at h⟩

theorem reached (max : UInt16) (ops : List Op) :
    Inv max (run ⟨max, []⟩ ops).1 (run ⟨max, []⟩ ops).2 := by
  simpa using (inv_run (inv_new max) ops).1

/-! ### C27 -/

/-- Whenever a key is given to a user, it was added before, it is the key that was last added under its id, and since
then it has not been given to anyone. (Every history of the store.) -/
theorem C27_returned_was_added (max : UInt16) (ops : List Op) (before after : List Entry) (id : UInt64) (key : Option Bytes)
    (h : (run ⟨max, []⟩ ops).2 = before ++ .returned id key :: after) :
    ∃ a bytes b, before = a ++ .added id bytes :: b ∧ key = usable bytes ∧
      (∀ bytes', Entry.added id bytes' ∉ b) ∧ (∀ key', Entry.returned id key' ∉ b) := by
  have := (inv_run (inv_new max) ops).2 _ _ _ h
  obtain ⟨a, bytes, b, h1, h2, h3⟩ := this
  exact ⟨a, bytes, b, by simpa using h1, h2, fun _ hm => h3 _ hm rfl, fun _ hm => h3 _ hm rfl⟩

theorem count_le (id : UInt64) (log : List Entry)
    (h : ∀ a key b, log = a ++ .returned id key :: b → ∃ x bytes y, a = x ++ .added id bytes :: y ∧ ∀ key', Entry.returned id key' ∉ y) :
    timesReturned id log ≤ timesAdded id log := by
  induction hn : log.length using Nat.strongRecOn generalizing log with
  | ind n ih =>
    rcases List.eq_nil_or_concat log with rfl | ⟨front, e, rfl⟩
    · simp [timesReturned, timesAdded]
    · rw [List.concat_eq_append] at *
      have hfront : ∀ m, m <+: front → timesReturned id m ≤ timesAdded id m := by
        rintro m ⟨r, rfl⟩
        refine ih _ (by simp at hn; omega) m (fun a key b he => ?_) rfl
        exact h a key (b ++ r ++ [e]) (by rw [he]; simp)
      by_cases hr : ∃ key, e = .returned id key
      · obtain ⟨key, rfl⟩ := hr
        obtain ⟨x, bytes, y, rfl, hy⟩ := h front key [] rfl
        have hx := hfront x ⟨_, rfl⟩
        have h0 : timesReturned id y = 0 := by
          unfold timesReturned
          rw [List.countP_eq_zero]
          intro e he
          cases e with
          | returned i k =>
            intro hi
            simp at hi
            subst hi
            exact hy _ he
          | _ => simp
        have e1 : timesReturned id (x ++ .added id bytes :: y ++ [.returned id key]) = timesReturned id x + timesReturned id y + 1 := by
          unfold timesReturned
          simp [List.countP_append]
          omega
        have e2 : timesAdded id (x ++ .added id bytes :: y ++ [.returned id key]) = timesAdded id x + timesAdded id y + 1 := by
          unfold timesAdded
          simp [List.countP_append]
          omega
        omega
      · have hf := hfront front (List.prefix_refl _)
        have e1 : timesReturned id (front ++ [e]) = timesReturned id front := by
          unfold timesReturned
          rw [List.countP_append]
          simp
          cases e with
          | returned i k =>
            simp
            rintro rfl
            exact hr ⟨k, rfl⟩
          | _ => simp
        have e2 : timesAdded id front ≤ timesAdded id (front ++ [e]) := by
          unfold timesAdded
          rw [List.countP_append]
          omega
        omega

/-- No id is given to users more often than it was added. -/
theorem C27_at_most_once (max : UInt16) (ops : List Op) (id : UInt64) :
    timesReturned id (run ⟨max, []⟩ ops).2 ≤ timesAdded id (run ⟨max, []⟩ ops).2 := by
  refine count_le _ _ (fun a key b h => ?_)
  obtain ⟨x, bytes, y, h1, -, -, h4⟩ := C27_returned_was_added max ops a b id key h
  exact ⟨x, bytes, y, h1, h4⟩

/-! ### C39 -/

/-- The store never holds more than the configured number of keys, one per id, ordered by id, and each is the last key
that was added under its id, and was not given to anyone since. -/
theorem C39_contents (max : UInt16) (ops : List Op) :
    (run ⟨max, []⟩ ops).1.keys.length ≤ max.toNat ∧
    (run ⟨max, []⟩ ops).1.keys.Pairwise (fun a b => a.1 < b.1) ∧
    ∀ id key, (id, key) ∈ (run ⟨max, []⟩ ops).1.keys → ∃ a bytes b, (run ⟨max, []⟩ ops).2 = a ++ .added id bytes :: b ∧
      key = usable bytes ∧ (∀ bytes', Entry.added id bytes' ∉ b) ∧ (∀ key', Entry.returned id key' ∉ b) := by
  have h := reached max ops
  refine ⟨h.bounded, h.sorted, fun id key hm => ?_⟩
  obtain ⟨a, bytes, b, h1, h2, h3⟩ := h.backed id key hm
  exact ⟨a, bytes, b, h1, h2, fun _ hm => h3 _ hm rfl, fun _ hm => h3 _ hm rfl⟩

/-- Consuming: the record with the largest id is given and no longer held, everything else is kept; nothing is given
exactly if the store is empty. -/
theorem C39_consume (max : UInt16) (ops : List Op) (s : Store) (hs : (run ⟨max, []⟩ ops).1 = s) :
    (∀ r, s.consumeKey.2 = some r → r ∈ s.keys ∧ (∀ x ∈ s.keys, x ≠ r → x.1 < r.1) ∧
      ∀ x, x ∈ s.consumeKey.1.keys ↔ x ∈ s.keys ∧ x ≠ r) ∧
    (s.consumeKey.2 = none ↔ s.keys = []) ∧ (s.consumeKey.2 = none → s.consumeKey.1 = s) :=
  consume_spec (hs ▸ (reached max ops).sorted)

/-- Looking up an id: its record is given exactly if it is held, and is no longer held afterwards; everything else is
kept. -/
theorem C39_find (max : UInt16) (ops : List Op) (s : Store) (hs : (run ⟨max, []⟩ ops).1 = s) (id : UInt64) :
    (∀ key, (s.findAndConsumeKey id).2 = some key ↔ (id, key) ∈ s.keys) ∧
    ∀ x, x ∈ (s.findAndConsumeKey id).1.keys ↔ x ∈ s.keys ∧ x.1 ≠ id :=
  find_spec (hs ▸ (reached max ops).sorted) id

/-- Adding a key whose id is at least as large as those held: it replaces the key with the same id, if any, and the
others are kept, except that the smallest one is discarded if the store would exceed its size. Adding a smaller id
empties the store first. (A store of size zero stays empty.) -/
theorem C39_add (max : UInt16) (ops : List Op) (s : Store) (hs : (run ⟨max, []⟩ ops).1 = s) (f : Frame) :
    (max = 0 → (s.addKey f).keys = []) ∧
    (0 < max → (∃ x ∈ s.keys, f.keyId < x.1) → (s.addKey f).keys = [(f.keyId, usable f.key)]) ∧
    (0 < max → (∀ x ∈ s.keys, x.1 ≤ f.keyId) → ∃ dropped,
      dropped ++ (s.addKey f).keys = s.keys.filter (fun x => x.1 ≠ f.keyId) ++ [(f.keyId, usable f.key)] ∧
      (s.addKey f).keys ≠ [] ∧
      (dropped = [] ∨ (∃ x, dropped = [x]) ∧ s.keys.length = max.toNat ∧ ∀ x ∈ s.keys, x.1 ≠ f.keyId)) := by
  have h := reached max ops
  rw [hs] at h
  have e := addKey_eq h.sorted f
  have hc := h.cap
  have hb := h.bounded
  refine ⟨?_, ?_, ?_⟩
  · rintro rfl
    have hk : s.keys = [] := by
      have := hb
      simp at this
      exact this
    rw [e]
    simp [added, hk, hc]
  · intro hm hx
    rw [e]
    have ha : added s f = [(f.keyId, usable f.key)] := by
      unfold added
      rw [if_pos hx, createKey_eq]
    simp only [ha, hc]
    rw [if_neg]
    rw [UInt16.lt_iff_toNat_lt] at hm
    simp at hm ⊢
    omega
  · intro hm hx
    have ha : added s f = s.keys.filter (fun x => x.1 ≠ f.keyId) ++ [(f.keyId, usable f.key)] := by
      unfold added
      rw [if_neg, createKey_eq]
      rintro ⟨x, h1, h2⟩
      have := hx x h1
      rw [UInt64.le_iff_toNat_le] at this
      rw [UInt64.lt_iff_toNat_lt] at h2
      omega
    rw [UInt16.lt_iff_toNat_lt] at hm
    simp only [UInt16.toNat_zero] at hm
    rw [e]
    simp only [ha, hc]
    by_cases hl : (s.keys.filter (fun x => x.1 ≠ f.keyId) ++ [(f.keyId, usable f.key)]).length > max.toNat
    · rw [if_pos hl]
      refine ⟨(s.keys.filter (fun x => x.1 ≠ f.keyId) ++ [(f.keyId, usable f.key)]).take 1, List.take_append_drop .., ?_, .inr ?_⟩
      · intro h0
        have := congrArg List.length h0
        rw [List.length_drop] at this
        simp only [List.length_nil] at this
        omega
      · have hle := List.length_filter_le (fun x : UInt64 × Option Bytes => decide (x.1 ≠ f.keyId)) s.keys
        simp only [List.length_append, List.length_singleton] at hl
        have hfl : (s.keys.filter (fun x => x.1 ≠ f.keyId)).length = s.keys.length := by omega
        refine ⟨?_, by omega, ?_⟩
        · match hq : s.keys.filter (fun x => x.1 ≠ f.keyId) ++ [(f.keyId, usable f.key)] with
          | [] => simp at hq
          | x :: _ => exact ⟨x, rfl⟩
        · have := (List.length_filter_eq_length_iff).mp hfl
          intro x hx
          simpa using this x hx
    · rw [if_neg hl]
      exact ⟨[], rfl, by simp, .inl rfl⟩

/-- Nothing but the keys that arrive is added, whatever else happens. -/
theorem keep_add {s : Store} (hs : Sorted s.keys) {f : Frame} (hm : ∀ x ∈ s.keys, x.1 < f.keyId) (hp : 0 < s.maxCached.toNat) :
    (s.addKey f).maxCached = s.maxCached ∧ Sorted (s.addKey f).keys ∧ (∀ x ∈ (s.addKey f).keys, x.1 ≤ f.keyId) ∧
    (f.keyId, usable f.key) ∈ (s.addKey f).keys ∧
    ((s.addKey f).keys = s.keys ++ [(f.keyId, usable f.key)] ∨
      s.keys.length ≥ s.maxCached.toNat ∧ (s.addKey f).keys = s.keys.drop 1 ++ [(f.keyId, usable f.key)]) := by
  have ha : added s f = s.keys ++ [(f.keyId, usable f.key)] := by
    unfold added
    rw [if_neg, createKey_eq, List.filter_eq_self.mpr]
    · intro x hx
      simpa using u64_ne_of_lt (hm x hx)
    · rintro ⟨x, h1, h2⟩
      have := hm x h1
      rw [UInt64.lt_iff_toNat_lt] at this h2
      omega
  have hso := sorted_added hs f
  have hle : ∀ x ∈ added s f, x.1 ≤ f.keyId := by
    intro x hx
    rw [ha] at hx
    rcases List.mem_append.mp hx with hx | hx
    · have := hm x hx
      rw [UInt64.lt_iff_toNat_lt] at this
      rw [UInt64.le_iff_toNat_le]
      omega
    · rw [List.mem_singleton.mp hx]
      exact UInt64.le_refl _
  rw [addKey_eq hs]
  refine ⟨rfl, ?_, ?_, ?_, ?_⟩
  · dsimp only
    split
    · exact dropped_lt 1 hso
    · exact hso
  · dsimp only
    split
    · exact fun x hx => hle x (List.mem_of_mem_drop hx)
    · exact hle
  · dsimp only
    rw [ha]
    split
    · rename_i hl
      cases hk : s.keys with
      | nil => rw [hk] at hl; simp at hl; omega
      | cons y l => simp
    · simp
  · dsimp only
    rw [ha]
    split
    · rename_i hl
      refine .inr ⟨by simp at hl; omega, ?_⟩
      cases hk : s.keys with
      | nil => rw [hk] at hl; simp at hl; omega
      | cons y l => simp
    · exact .inl rfl

theorem kept {id : UInt64} {key : Option Bytes} (later : List Op) : ∀ (s : Store) (n : Nat) (top : UInt64), Sorted s.keys →
    (∀ x ∈ s.keys, x.1 ≤ top) → (id, key) ∈ s.keys → (s.keys.countP fun x => id < x.1) ≤ n →
    n + (arrivals later).length < s.maxCached.toNat → id ≤ top → (arrivals later).Pairwise (fun a b => a.keyId < b.keyId) →
    (∀ g ∈ arrivals later, top < g.keyId) → (∀ k, Entry.returned id k ∉ (run s later).2) →
    (id, key) ∈ (run s later).1.keys ∧ Sorted (run s later).1.keys := by
  induction later with
  | nil => exact fun s n top h1 h2 h3 h4 h5 h6 h7 h8 h9 => ⟨h3, h1⟩
  | cons op later ih =>
    intro s n top h1 h2 h3 h4 h5 h6 h7 h8 h9
    cases op with
    | add f =>
      simp only [run, step] at h9 ⊢
      have hf : top < f.keyId := h8 f (by simp [arrivals])
      have hlen : (arrivals (.add f :: later)).length = (arrivals later).length + 1 := by simp [arrivals]
      have hm : ∀ x ∈ s.keys, x.1 < f.keyId := fun x hx => by
        have := h2 x hx
        rw [UInt64.le_iff_toNat_le] at this
        rw [UInt64.lt_iff_toNat_lt] at hf ⊢
        omega
      obtain ⟨k1, k2, k3, -, k4⟩ := keep_add h1 hm (by omega)
      have h7' := List.pairwise_cons.mp (show (f :: arrivals later).Pairwise _ from h7)
      have hsub : (id, key) ∈ (s.addKey f).keys ∧
          ((s.addKey f).keys.countP fun x => id < x.1) ≤ n + 1 := by
        rcases k4 with k4 | ⟨k5, k4⟩
        · rw [k4]
          refine ⟨by simp [h3], ?_⟩
          rw [List.countP_append]
          have : ([(f.keyId, usable f.key)].countP fun x => decide (id < x.1)) ≤ 1 := List.countP_le_length
          omega
        · rw [k4]
          refine ⟨?_, ?_⟩
          · cases hk : s.keys with
            | nil => rw [hk] at h3; cases h3
            | cons y l =>
              rw [hk] at h3 h1 h4 k5
              rcases List.mem_cons.mp h3 with h | h
              · exfalso
                have hall : l.countP (fun x => decide (id < x.1)) = l.length := by
                  rw [List.countP_eq_length]
                  intro x hx
                  have := (List.pairwise_cons.mp h1).1 x hx
                  rw [← h] at this
                  simpa using this
                rw [List.countP_cons, hall] at h4
                simp only [List.length_cons] at k5
                omega
              · simp [h]
          · rw [List.countP_append]
            have h' : ([(f.keyId, usable f.key)].countP fun x => decide (id < x.1)) ≤ 1 := List.countP_le_length
            have := (List.drop_sublist 1 s.keys).countP_le (p := fun x => decide (id < x.1))
            omega
      obtain ⟨m1, m2⟩ := hsub
      exact ih _ (n + 1) f.keyId k2 k3 m1 m2 (by rw [k1]; omega)
        (UInt64.le_trans h6 (UInt64.le_of_lt hf)) h7'.2 (fun g hg => h7'.1 g hg) (fun k hk => h9 k (by simp [hk]))
    | consume =>
      simp only [run, step] at h9 ⊢
      have harr : arrivals (.consume :: later) = arrivals later := by simp [arrivals]
      rw [harr] at h5 h7 h8
      obtain ⟨c1, c2, c3⟩ := consume_spec h1
      cases hr : s.consumeKey.2 with
      | none =>
        have : s.consumeKey = (s, none) := Prod.ext (c3 hr) hr
        rw [this] at h9 ⊢
        exact ih s n top h1 h2 h3 h4 h5 h6 h7 h8 (fun k hk => h9 k (by simp [hk]))
      | some x =>
        obtain ⟨i, k⟩ := x
        have hpair : s.consumeKey = ({ s with keys := s.keys.dropLast }, some (i, k)) := by
          unfold Store.consumeKey at hr ⊢
          cases hg : s.keys.getLast? with
          | none => rw [hg] at hr; cases hr
          | some y => rw [hg] at hr; cases hr; rfl
        rw [hpair] at h9 ⊢
        simp only at h9 ⊢
        obtain ⟨-, -, c4⟩ := c1 _ hr
        rw [hpair] at c4
        have hne : (id, key) ≠ (i, k) := by
          rintro ⟨⟩
          exact h9 key (by simp)
        have hsub := List.dropLast_sublist s.keys
        exact ih { s with keys := s.keys.dropLast } n top (h1.sublist hsub) (fun x hx => h2 x (hsub.subset hx)) ((c4 _).mpr ⟨h3, hne⟩)
          (Nat.le_trans hsub.countP_le h4) h5 h6 h7 h8 (fun k hk => h9 k (by simp [hk]))
    | find j =>
      simp only [run, step] at h9 ⊢
      have harr : arrivals (.find j :: later) = arrivals later := by simp [arrivals]
      rw [harr] at h5 h7 h8
      obtain ⟨c1, c2⟩ := find_spec h1 j
      cases hr : (s.findAndConsumeKey j).2 with
      | none =>
        have hpair : s.findAndConsumeKey j = (s, none) := by
          unfold Store.findAndConsumeKey at hr ⊢
          cases hg : s.keys.find? (fun r => r.1 = j) with
          | none => rfl
          | some y => rw [hg] at hr; cases hr
        rw [hpair] at h9 ⊢
        exact ih s n top h1 h2 h3 h4 h5 h6 h7 h8 (fun k hk => h9 k (by simp [hk]))
      | some k =>
        have hpair : s.findAndConsumeKey j = ({ s with keys := s.keys.filter (fun r => r.1 ≠ j) }, some k) := by
          unfold Store.findAndConsumeKey at hr ⊢
          cases hg : s.keys.find? (fun r => r.1 = j) with
          | none => rw [hg] at hr; cases hr
          | some y => rw [hg] at hr; cases hr; rfl
        rw [hpair] at h9 c2 ⊢
        simp only at h9 c2 ⊢
        have hne : id ≠ j := by
          rintro rfl
          exact h9 k (by simp)
        have hsub := List.filter_sublist (p := fun r : UInt64 × Option Bytes => decide (r.1 ≠ j)) (l := s.keys)
        exact ih { s with keys := s.keys.filter (fun r => r.1 ≠ j) } n top (h1.sublist hsub) (fun x hx => h2 x (hsub.subset hx)) ((c2 _).mpr ⟨h3, hne⟩)
          (Nat.le_trans hsub.countP_le h4) h5 h6 h7 h8 (fun k hk => h9 k (List.mem_cons_of_mem _ hk))

theorem run_append (s : Store) (a b : List Op) : (run s (a ++ b)).1 = (run (run s a).1 b).1 := by
  induction a generalizing s with
  | nil => rfl
  | cons op a ih =>
    simp only [List.cons_append, run]
    exact ih _

/-- A key that has arrived is found under its id (and with the bytes that arrived) as long as it was not given to anyone, the ids that have arrived since are larger
and in increasing order, and fewer of them than the size of the store. -/
theorem C39_available (max : UInt16) (ops later : List Op) (f : Frame)
    (hi : (f :: arrivals later).Pairwise fun a b => a.keyId < b.keyId) (hn : (arrivals later).length < max.toNat)
    (hr : ∀ key, Entry.returned f.keyId key ∉ (run (run ⟨max, []⟩ (ops ++ [.add f])).1 later).2) :
    ((run ⟨max, []⟩ (ops ++ .add f :: later)).1.findAndConsumeKey f.keyId).2 = some (usable f.key) := by
  have hs := reached max (ops ++ [.add f])
  have h0 : (run ⟨max, []⟩ (ops ++ [.add f])).1 = (run ⟨max, []⟩ ops).1.addKey f := by rw [run_append]; rfl
  have hs0 := reached max ops
  have hp : 0 < max := by rw [UInt16.lt_iff_toNat_lt]; simp; omega
  have hk : (f.keyId, usable f.key) ∈ (run ⟨max, []⟩ (ops ++ [.add f])).1.keys ∧
      ∀ x ∈ (run ⟨max, []⟩ (ops ++ [.add f])).1.keys, x.1 ≤ f.keyId := by
    obtain ⟨-, a2, a3⟩ := C39_add max ops _ rfl f
    rw [h0]
    by_cases hx : ∃ x ∈ (run ⟨max, []⟩ ops).1.keys, f.keyId < x.1
    · rw [a2 hp hx]
      exact ⟨by simp, fun x hx => by rw [List.mem_singleton.mp hx]; exact UInt64.le_refl _⟩
    · have hx' : ∀ x ∈ (run ⟨max, []⟩ ops).1.keys, x.1 ≤ f.keyId := fun x hm =>
        UInt64.not_lt.mp fun h => hx ⟨x, hm, h⟩
      obtain ⟨d, d1, d2, -⟩ := a3 hp hx'
      have hlast := congrArg List.getLast? d1
      rw [List.getLast?_append, List.getLast?_append] at hlast
      have hmem : (f.keyId, usable f.key) ∈ ((run ⟨max, []⟩ ops).1.addKey f).keys := by
        cases hg : ((run ⟨max, []⟩ ops).1.addKey f).keys.getLast? with
        | none => exact absurd (List.getLast?_eq_none_iff.mp hg) d2
        | some y =>
          rw [hg] at hlast
          simp only [Option.some_or, List.getLast?_singleton, Option.some.injEq] at hlast
          subst hlast
          exact List.mem_of_getLast? hg
      refine ⟨hmem, fun x hm => ?_⟩
      have : x ∈ d ++ ((run ⟨max, []⟩ ops).1.addKey f).keys := by simp [hm]
      rw [d1] at this
      rcases List.mem_append.mp this with h | h
      · exact hx' x (List.mem_filter.mp h).1
      · rw [List.mem_singleton.mp h]
        exact UInt64.le_refl _
  have hcount : ((run ⟨max, []⟩ (ops ++ [.add f])).1.keys.countP fun x => f.keyId < x.1) ≤ 0 := by
    rw [Nat.le_zero, List.countP_eq_zero]
    intro x hx
    have := hk.2 x hx
    rw [UInt64.le_iff_toNat_le] at this
    simp only [decide_eq_true_eq, UInt64.lt_iff_toNat_lt]
    omega
  obtain ⟨i1, i2⟩ := List.pairwise_cons.mp hi
  obtain ⟨r1, r2⟩ := kept later _ 0 f.keyId hs.sorted hk.2 hk.1 hcount (by rw [hs.cap]; omega) (UInt64.le_refl _) i2 i1 hr
  rw [show ops ++ .add f :: later = ops ++ [.add f] ++ later by simp, run_append]
  exact (find_spec r2 f.keyId).1 _ |>.mpr r1

/-! ### The source -/

theorem mem_addKey {s : Store} (hs : Sorted s.keys) (f : Frame) (x : UInt64 × Option Bytes) (hx : x ∈ (s.addKey f).keys) :
    x = (f.keyId, usable f.key) ∨ (x ∈ s.keys ∧ x.1 ≠ f.keyId) := by
  rw [addKey_eq hs] at hx
  have hx : x ∈ added s f := by
    simp only at hx
    split at hx
    · exact List.mem_of_mem_drop hx
    · exact hx
  unfold added at hx
  rw [createKey_eq] at hx
  split at hx
  · exact .inl (by simpa using hx)
  · rcases List.mem_append.mp hx with hx | hx
    · have := List.mem_filter.mp hx
      exact .inr ⟨this.1, by simpa using this.2⟩
    · exact .inl (by simpa using hx)

/-- `e` concerns the key `id`. -/
def SourceEntry.Touches (id : UInt64) : SourceEntry → Prop
  | .frame f => f.keyId = id ∧ f.status = .ok ∧ f.key.length = 32
  | .returned _ i _ => i = id
  | _ => False

def SourceBacked (log : List SourceEntry) (id : UInt64) (key : Option Bytes) : Prop :=
  ∃ a f b, log = a ++ .frame f :: b ∧ f.keyId = id ∧ f.status = .ok ∧ f.key.length = 32 ∧ key = some f.key ∧
    ∀ e ∈ b, ¬ SourceEntry.Touches id e

structure SourceInv (n : UInt16) (r : Router) (log : List SourceEntry) : Prop where
  num : r.numSubscribers = n
  sorted : ∀ i s, (i, s) ∈ r.subscribers → Sorted s.keys
  own : ∀ i s, (i, s) ∈ r.subscribers → ∀ id key, (id, key) ∈ s.keys → id.toNat % n.toNat = i.toNat
  backed : ∀ i s, (i, s) ∈ r.subscribers → ∀ id key, (id, key) ∈ s.keys → SourceBacked log id key

def SourceJustified (n : UInt16) (log : List SourceEntry) : SourceEntry → Prop
  | .returned user id key => id.toNat % n.toNat = user.toNat ∧ SourceBacked log id key
  | _ => True

theorem backed_append {log : List SourceEntry} {id : UInt64} {key : Option Bytes} (h : SourceBacked log id key)
    {e : SourceEntry} (he : ¬ SourceEntry.Touches id e) : SourceBacked (log ++ [e]) id key := by
  obtain ⟨a, f, b, rfl, h1, h2, h3, h4, h5⟩ := h
  refine ⟨a, f, b ++ [e], by simp, h1, h2, h3, h4, ?_⟩
  intro x hx
  rcases List.mem_append.mp hx with hx | hx
  · exact h5 x hx
  · simp at hx
    subst hx
    exact he

theorem sourceInv_update {n : UInt16} {r : Router} {log : List SourceEntry} (h : SourceInv n r log) {user : UInt16} {s s' : Store}
    (hs : (user, s) ∈ r.subscribers) (hsub : s'.keys.Sublist s.keys) {e : SourceEntry}
    (he : ∀ id key, (id, key) ∈ s'.keys → ¬ SourceEntry.Touches id e)
    (ho : ∀ i t, (i, t) ∈ r.subscribers → i ≠ user → ∀ id key, (id, key) ∈ t.keys → ¬ SourceEntry.Touches id e) :
    SourceInv n (update r user s') (log ++ [e]) := by
  have mem : ∀ i t, (i, t) ∈ (update r user s').subscribers → (i = user ∧ t = s') ∨ (i ≠ user ∧ (i, t) ∈ r.subscribers) := by
    intro i t hm
    simp only [update, List.mem_map] at hm
    obtain ⟨⟨j, u⟩, hm, heq⟩ := hm
    by_cases hj : j = user
    · simp only [hj, if_true, Prod.mk.injEq] at heq
      exact .inl ⟨heq.1.symm, heq.2.symm⟩
    · simp only [hj, if_false, Prod.mk.injEq] at heq
      obtain ⟨rfl, rfl⟩ := heq
      exact .inr ⟨hj, hm⟩
  refine ⟨h.num, ?_, ?_, ?_⟩
  · intro i t hm
    rcases mem i t hm with ⟨rfl, rfl⟩ | ⟨-, hm⟩
    · exact (h.sorted _ _ hs).sublist hsub
    · exact h.sorted _ _ hm
  · intro i t hm id key hk
    rcases mem i t hm with ⟨rfl, rfl⟩ | ⟨-, hm⟩
    · exact h.own _ _ hs _ _ (hsub.subset hk)
    · exact h.own _ _ hm _ _ hk
  · intro i t hm id key hk
    rcases mem i t hm with ⟨rfl, rfl⟩ | ⟨hne, hm⟩
    · exact backed_append (h.backed _ _ hs _ _ (hsub.subset hk)) (he _ _ hk)
    · exact backed_append (h.backed _ _ hm _ _ hk) (ho _ _ hm hne _ _ hk)

theorem mem_storeOf {r : Router} {user : UInt16} {s : Store} (h : storeOf r user = some s) : (user, s) ∈ r.subscribers := by
  unfold storeOf at h
  cases hf : r.subscribers.find? (fun x => x.1 = user) with
  | none => rw [hf] at h; simp at h
  | some x =>
    rw [hf] at h
    obtain ⟨i, t⟩ := x
    have hi : i = user := by simpa using List.find?_some hf
    simp at h
    subst hi h
    exact List.mem_of_find?_eq_some hf

theorem sourceInv_append {n : UInt16} {r : Router} {log : List SourceEntry} (h : SourceInv n r log) {e : SourceEntry}
    (he : ∀ id, ¬ SourceEntry.Touches id e) : SourceInv n r (log ++ [e]) :=
  ⟨h.num, h.sorted, h.own, fun i s hm id key hk => backed_append (h.backed i s hm id key hk) (he id)⟩

theorem sourceInv_step {n : UInt16} {r r' : Router} {log : List SourceEntry} (h : SourceInv n r log) (op : SourceOp)
    {e : SourceEntry} (hop : sourceStep r op = some (r', e)) :
    SourceInv n r' (log ++ [e]) ∧ SourceJustified n log e := by
  cases op with
  | bind user size =>
    simp only [sourceStep] at hop
    cases hb : r.bind user size with
    | none =>
      rw [hb] at hop
      simp only [Option.some.injEq, Prod.mk.injEq] at hop
      obtain ⟨rfl, rfl⟩ := hop
      exact ⟨sourceInv_append h (fun _ h => h), trivial⟩
    | some r2 =>
      rw [hb] at hop
      simp only [Option.some.injEq, Prod.mk.injEq] at hop
      obtain ⟨rfl, rfl⟩ := hop
      unfold Router.bind at hb
      split at hb
      · cases hb
      · simp only [Option.some.injEq] at hb
        subst hb
        have mem : ∀ i s, (i, s) ∈ r.subscribers ++ [(user, ⟨size, []⟩)] → (i, s) ∈ r.subscribers ∨ s.keys = [] := by
          intro i s hm
          rcases List.mem_append.mp hm with hm | hm
          · exact .inl hm
          · simp at hm
            exact .inr (by rw [hm.2])
        refine ⟨⟨h.num, ?_, ?_, ?_⟩, trivial⟩
        · intro i s hm
          rcases mem i s hm with hm | hm
          · exact h.sorted _ _ hm
          · rw [hm]; simp
        · intro i s hm id key hk
          rcases mem i s hm with hm | hm
          · exact h.own _ _ hm _ _ hk
          · rw [hm] at hk; simp at hk
        · intro i s hm id key hk
          rcases mem i s hm with hm | hm
          · exact backed_append (h.backed _ _ hm _ _ hk) (fun h => h)
          · rw [hm] at hk; simp at hk
  | frame f =>
    simp only [sourceStep, Router.handle] at hop
    split at hop
    · cases hop
    · rename_i r2 hr
      simp only [Option.some.injEq, Prod.mk.injEq] at hop
      obtain ⟨rfl, rfl⟩ := hop
      refine ⟨?_, trivial⟩
      split at hr
      · rename_i hst
        cases hr
        refine ⟨h.num, h.sorted, h.own, fun i s hm id key hk => backed_append (h.backed i s hm id key hk) ?_⟩
        exact fun ht => hst ht.2.1
      split at hr
      · rename_i hst
        cases hr
        refine ⟨h.num, h.sorted, h.own, fun i s hm id key hk => backed_append (h.backed i s hm id key hk) ?_⟩
        exact fun ht => hst ht.2.2
      split at hr
      · cases hr
      rename_i h1 h2 h3
      cases hr
      have h1 : f.status = .ok := by simpa using h1
      have h2 : f.key.length = 32 := by simpa using h2
      have hn0 : 0 < n.toNat := by
        have : n.toNat ≠ 0 := fun h0 => h3 (by rw [h.num]; exact UInt16.toNat_inj.mp (by simpa using h0))
        omega
      have hid : (UInt16.ofNat (f.keyId.toNat % r.numSubscribers.toNat)).toNat = f.keyId.toNat % n.toNat := by
        rw [h.num, UInt16.toNat_ofNat']
        refine Nat.mod_eq_of_lt (Nat.lt_trans (Nat.mod_lt _ hn0) n.toNat_lt)
      have mem : ∀ i s, (i, s) ∈ (r.subscribers.map fun (x : UInt16 × Store) =>
            if x.1 = UInt16.ofNat (f.keyId.toNat % r.numSubscribers.toNat) then (x.1, x.2.addKey f) else (x.1, x.2)) →
          ∃ t, (i, t) ∈ r.subscribers ∧ ((i.toNat = f.keyId.toNat % n.toNat ∧ s = t.addKey f) ∨
            (i.toNat ≠ f.keyId.toNat % n.toNat ∧ s = t)) := by
        intro i s hm
        obtain ⟨⟨j, u⟩, hm, heq⟩ := List.mem_map.mp hm
        by_cases hj : j = UInt16.ofNat (f.keyId.toNat % r.numSubscribers.toNat)
        · simp only [hj, if_true, Prod.mk.injEq] at heq
          refine ⟨u, by rw [← heq.1, ← hj]; exact hm, .inl ⟨by rw [← heq.1, hid], heq.2.symm⟩⟩
        · simp only [hj, if_false, Prod.mk.injEq] at heq
          refine ⟨u, by rw [← heq.1]; exact hm, .inr ⟨?_, heq.2.symm⟩⟩
          rw [← heq.1, ← hid]
          exact fun h => hj (UInt16.toNat_inj.mp h)
      refine ⟨h.num, ?_, ?_, ?_⟩
      · intro i s hm
        obtain ⟨t, hm', ⟨-, rfl⟩ | ⟨-, rfl⟩⟩ := mem i s hm <;> replace hm := hm'
        · rw [addKey_eq (h.sorted _ _ hm)]
          simp only
          split
          · exact dropped_lt 1 (sorted_added (h.sorted _ _ hm) f)
          · exact sorted_added (h.sorted _ _ hm) f
        · exact h.sorted _ _ hm
      · intro i s hm id key hk
        obtain ⟨t, hm', ⟨hi, rfl⟩ | ⟨-, rfl⟩⟩ := mem i s hm <;> replace hm := hm'
        · rcases mem_addKey (h.sorted _ _ hm) f _ hk with heq | ⟨hk, -⟩
          · rw [(Prod.mk.inj heq).1, hi]
          · exact h.own _ _ hm _ _ hk
        · exact h.own _ _ hm _ _ hk
      · intro i s hm id key hk
        obtain ⟨t, hm', ⟨-, rfl⟩ | ⟨hi, rfl⟩⟩ := mem i s hm <;> replace hm := hm'
        · rcases mem_addKey (h.sorted _ _ hm) f _ hk with heq | ⟨hk, hne⟩
          · obtain ⟨rfl, rfl⟩ := Prod.mk.inj heq
            exact ⟨log, f, [], rfl, rfl, h1, h2, by simp [usable, h2], by simp⟩
          · exact backed_append (h.backed _ _ hm _ _ hk) (fun ht => hne ht.1.symm)
        · refine backed_append (h.backed _ _ hm _ _ hk) (fun ht => hi ?_)
          rw [ht.1]
          exact (h.own _ _ hm _ _ hk).symm
  | consume user =>
    simp only [sourceStep] at hop
    cases hst : storeOf r user with
    | none =>
      rw [hst] at hop
      simp only [Option.some.injEq, Prod.mk.injEq] at hop
      obtain ⟨rfl, rfl⟩ := hop
      exact ⟨sourceInv_append h (fun _ h => h), trivial⟩
    | some s =>
      rw [hst] at hop
      simp only at hop
      have hm := mem_storeOf hst
      have hspec := consume_spec (h.sorted _ _ hm)
      have hsub : s.consumeKey.1.keys.Sublist s.keys := by
        unfold Store.consumeKey
        split
        · exact List.Sublist.refl _
        · exact List.dropLast_sublist _
      cases hc : s.consumeKey with
      | mk s' o =>
        rw [hc] at hop hspec hsub
        cases o with
        | none =>
          simp only [Option.some.injEq, Prod.mk.injEq] at hop
          obtain ⟨rfl, rfl⟩ := hop
          exact ⟨sourceInv_update h hm hsub (fun _ _ _ h => h) (fun _ _ _ _ _ _ _ h => h), trivial⟩
        | some x =>
          obtain ⟨id, key⟩ := x
          simp only [Option.some.injEq, Prod.mk.injEq] at hop
          obtain ⟨rfl, rfl⟩ := hop
          obtain ⟨hx1, hx2, hx3⟩ := hspec.1 _ rfl
          refine ⟨sourceInv_update h hm hsub ?_ ?_, h.own _ _ hm _ _ hx1, h.backed _ _ hm _ _ hx1⟩
          · intro i k hk ht
            obtain ⟨ha, hb⟩ := (hx3 (i, k)).mp hk
            exact absurd (hx2 _ ha hb) (by simp only [SourceEntry.Touches] at ht; subst ht; simp)
          · intro i t hm' hne id' k hk ht
            simp only [SourceEntry.Touches] at ht
            subst ht
            have a1 := h.own _ _ hm' _ _ hk
            have a2 := h.own _ _ hm _ _ hx1
            exact hne (UInt16.toNat_inj.mp (a1.symm.trans a2))
  | find user id =>
    simp only [sourceStep] at hop
    cases hst : storeOf r user with
    | none =>
      rw [hst] at hop
      simp only [Option.some.injEq, Prod.mk.injEq] at hop
      obtain ⟨rfl, rfl⟩ := hop
      exact ⟨sourceInv_append h (fun _ h => h), trivial⟩
    | some s =>
      rw [hst] at hop
      simp only at hop
      have hm := mem_storeOf hst
      have hspec := find_spec (h.sorted _ _ hm) id
      have hsub : (s.findAndConsumeKey id).1.keys.Sublist s.keys := by
        unfold Store.findAndConsumeKey
        split
        · exact List.Sublist.refl _
        · exact List.filter_sublist
      cases hc : s.findAndConsumeKey id with
      | mk s' o =>
        rw [hc] at hop hspec hsub
        cases o with
        | none =>
          simp only [Option.some.injEq, Prod.mk.injEq] at hop
          obtain ⟨rfl, rfl⟩ := hop
          exact ⟨sourceInv_update h hm hsub (fun _ _ _ h => h) (fun _ _ _ _ _ _ _ h => h), trivial⟩
        | some key =>
          simp only [Option.some.injEq, Prod.mk.injEq] at hop
          obtain ⟨rfl, rfl⟩ := hop
          have hx1 := (hspec.1 key).mp rfl
          refine ⟨sourceInv_update h hm hsub ?_ ?_, h.own _ _ hm _ _ hx1, h.backed _ _ hm _ _ hx1⟩
          · intro i k hk ht
            exact ((hspec.2 (i, k)).mp hk).2 ht.symm
          · intro i t hm' hne id' k hk ht
            simp only [SourceEntry.Touches] at ht
            subst ht
            have a1 := h.own _ _ hm' _ _ hk
            have a2 := h.own _ _ hm _ _ hx1
            exact hne (UInt16.toNat_inj.mp (a1.symm.trans a2))

theorem sourceInv_run {n : UInt16} {r r' : Router} {log es : List SourceEntry} (h : SourceInv n r log) (ops : List SourceOp)
    (hr : sourceRun r ops = some (r', es)) :
    SourceInv n r' (log ++ es) ∧ ∀ a e b, es = a ++ e :: b → SourceJustified n (log ++ a) e := by
  induction ops generalizing r log es with
  | nil =>
    simp only [sourceRun, Option.some.injEq, Prod.mk.injEq] at hr
    obtain ⟨rfl, rfl⟩ := hr
    exact ⟨by simpa using h, fun a e b h => by simp at h⟩
  | cons op ops ih =>
    simp only [sourceRun] at hr
    cases hst : sourceStep r op with
    | none => rw [hst] at hr; cases hr
    | some x =>
      obtain ⟨r1, e1⟩ := x
      rw [hst] at hr
      obtain ⟨⟨r2, es2⟩, hr2, heq⟩ := Option.map_eq_some_iff.mp hr
      simp only [Prod.mk.injEq] at heq
      obtain ⟨rfl, rfl⟩ := heq
      obtain ⟨h1, h2⟩ := sourceInv_step h op hst
      obtain ⟨i1, i2⟩ := ih h1 hr2
      refine ⟨by simpa using i1, ?_⟩
      intro a e b he
      cases a with
      | nil =>
        simp only [List.nil_append, List.cons.injEq] at he
        rw [← he.1]; simpa using h2
      | cons x a =>
        simp only [List.cons_append, List.cons.injEq] at he
        have := i2 a e b he.2
        rw [he.1] at this
        simpa using this

/-- Several users of one source: a key that is given to a user has the number of that user (so no two users are ever
given the same id), comes from a frame with status ok, is the last such key with this id, and was not given to anyone
since. -/
theorem C27_one_user (n : UInt16) (ops : List SourceOp) (r : Router) (log : List SourceEntry)
    (hr : sourceRun ⟨n, []⟩ ops = some (r, log)) (before after : List SourceEntry) (user : UInt16) (id : UInt64)
    (key : Option Bytes) (h : log = before ++ .returned user id key :: after) :
    id.toNat % n.toNat = user.toNat ∧
    ∃ a f b, before = a ++ .frame f :: b ∧ f.keyId = id ∧ f.status = .ok ∧ f.key.length = 32 ∧ key = some f.key ∧
      (∀ u k, SourceEntry.returned u id k ∉ b) ∧
      (∀ g, SourceEntry.frame g ∈ b → g.status = .ok → g.key.length = 32 → g.keyId ≠ id) := by
  have h0 : SourceInv n ⟨n, []⟩ [] := ⟨rfl, by simp, by simp, by simp⟩
  have := (sourceInv_run h0 ops hr).2 _ _ _ h
  obtain ⟨h1, a, f, b, h2, h3, h4, h5, h6, h7⟩ := this
  exact ⟨h1, a, f, b, by simpa using h2, h3, h4, h5, h6, fun u k hm => h7 _ hm rfl, fun g hm ha hb hc => h7 _ hm ⟨hc, ha, hb⟩⟩

theorem storeOf_map (r : Router) (user : UInt16) (g : UInt16 → Store → Store) (n : UInt16) :
    storeOf ⟨n, r.subscribers.map fun x => (x.1, g x.1 x.2)⟩ user = (storeOf r user).map (g user) := by
  unfold storeOf
  simp only [List.find?_map]
  have : ((fun x : UInt16 × Store => decide (x.1 = user)) ∘ fun x : UInt16 × Store => (x.1, g x.1 x.2)) = fun x => decide (x.1 = user) := rfl
  rw [this]
  cases hf : r.subscribers.find? fun x => decide (x.1 = user) with
  | none => rfl
  | some x =>
    have := List.find?_some hf
    simp only [decide_eq_true_eq] at this
    simp [this]

theorem run_snoc (s : Store) (ops : List Op) (op : Op) : (run s (ops ++ [op])).1 = (step (run s ops).1 op).1 := by
  rw [run_append]
  rfl

theorem storeOf_update (r : Router) (user user' : UInt16) (s : Store) :
    storeOf (update r user' s) user = if user = user' then (storeOf r user).map fun _ => s else storeOf r user := by
  have : update r user' s = ⟨r.numSubscribers, r.subscribers.map fun x => (x.1, if x.1 = user' then s else x.2)⟩ := by
    unfold update
    congr 2
    funext x
    obtain ⟨i, t⟩ := x
    dsimp only
    split <;> rfl
  rw [this, storeOf_map r user (fun i t => if i = user' then s else t)]
  split
  · simp
  · simp

theorem usage_step {n user : UInt16} {r r' : Router} {op : SourceOp} {e : SourceEntry} (hn : r.numSubscribers = n)
    (h : sourceStep r op = some (r', e)) {acc : Option (UInt16 × List Op)}
    (ha : storeOf r user = acc.map fun x => (run ⟨x.1, []⟩ x.2).1) :
    r'.numSubscribers = n ∧ storeOf r' user = (usage n user acc [op]).map fun x => (run ⟨x.1, []⟩ x.2).1 := by
  have keep : ∀ {r'' : Router}, storeOf r'' user = storeOf r user → (∀ a b, op ≠ .bind a b) → forUser n user op = [] →
      storeOf r'' user = (usage n user acc [op]).map fun x => (run ⟨x.1, []⟩ x.2).1 := by
    intro r'' h1 h2 h3
    rw [h1, ha]
    cases acc with
    | none => cases op <;> first | rfl | exact absurd rfl (h2 _ _)
    | some x => obtain ⟨size, done⟩ := x; simp [usage, h3]
  have act : ∀ {r'' : Router} {o : Op}, (∀ a b, op ≠ .bind a b) → forUser n user op = [o] →
      storeOf r'' user = (storeOf r user).map (fun s => (step s o).1) →
      storeOf r'' user = (usage n user acc [op]).map fun x => (run ⟨x.1, []⟩ x.2).1 := by
    intro r'' o h2 h3 h1
    rw [h1, ha]
    cases acc with
    | none => cases op <;> first | rfl | exact absurd rfl (h2 _ _)
    | some x => obtain ⟨size, done⟩ := x; simp [usage, h3, run_snoc]
  cases op with
  | bind u size =>
    simp only [sourceStep] at h
    cases hb : r.bind u size with
    | none =>
      rw [hb] at h
      cases h
      refine ⟨hn, ?_⟩
      rw [ha]
      cases acc with
      | some x => obtain ⟨size, done⟩ := x; simp [usage, forUser]
      | none =>
        unfold Router.bind at hb
        split at hb
        · rename_i hany
          have hne : u ≠ user := by
            rintro rfl
            rw [List.any_eq_true] at hany
            obtain ⟨x, hx, hx'⟩ := hany
            have : storeOf r u ≠ none := by
              unfold storeOf
              cases hf : r.subscribers.find? fun x => decide (x.1 = u) with
              | some y => simp
              | none => exact absurd hx' (List.find?_eq_none.mp hf x hx)
            exact this ha
          simp [usage, hne]
        · cases hb
    | some r1 =>
      rw [hb] at h
      cases h
      unfold Router.bind at hb
      split at hb
      · cases hb
      · rename_i hany
        cases hb
        refine ⟨hn, ?_⟩
        have hst : storeOf ⟨r.numSubscribers, r.subscribers ++ [(u, ⟨size, []⟩)]⟩ user =
            (storeOf r user).or (if u = user then some ⟨size, []⟩ else none) := by
          unfold storeOf
          rw [List.find?_append]
          cases hf : r.subscribers.find? fun x => decide (x.1 = user) with
          | some y => simp
          | none => by_cases hu : u = user <;> simp [hu]
        rw [hst, ha]
        cases acc with
        | some x => obtain ⟨size, done⟩ := x; simp [usage, forUser]
        | none => by_cases hu : u = user <;> simp [usage, hu, run]
  | frame f =>
    simp only [sourceStep] at h
    unfold Router.handle at h
    by_cases h1 : f.status = .ok
    · by_cases h2 : f.key.length = 32
      · by_cases h3 : r.numSubscribers = 0
        · simp [h1, h2, h3] at h
        · simp only [h1, h2, h3, ne_eq, not_true_eq_false, if_false, Option.some.injEq, Prod.mk.injEq] at h
          obtain ⟨rfl, rfl⟩ := h
          refine ⟨hn, ?_⟩
          have heq : (r.subscribers.map fun (i, s) => if i = UInt16.ofNat (f.keyId.toNat % r.numSubscribers.toNat) then (i, s.addKey f) else (i, s)) =
              r.subscribers.map fun x => (x.1, if x.1 = UInt16.ofNat (f.keyId.toNat % r.numSubscribers.toNat) then x.2.addKey f else x.2) := by
            congr 1
            funext x
            obtain ⟨i, t⟩ := x
            dsimp only
            split <;> rfl
          rw [heq]
          have hst := storeOf_map r user (fun i t => if i = UInt16.ofNat (f.keyId.toNat % r.numSubscribers.toNat) then t.addKey f else t) r.numSubscribers
          have hlt : f.keyId.toNat % n.toNat < 65536 := by
            have : n.toNat ≠ 0 := fun h => h3 (by rw [hn]; exact UInt16.toNat_inj.mp h)
            have := Nat.mod_lt f.keyId.toNat (Nat.pos_of_ne_zero this)
            have := n.toNat_lt
            omega
          have hiff : (user = UInt16.ofNat (f.keyId.toNat % r.numSubscribers.toNat)) ↔ f.keyId.toNat % n.toNat = user.toNat := by
            rw [hn, ← UInt16.toNat_inj, UInt16.toNat_ofNat', Nat.mod_eq_of_lt hlt]
            exact eq_comm
          by_cases hu : f.keyId.toNat % n.toNat = user.toNat
          · refine act (o := .add f) (by nofun) (by simp [forUser, h1, h2, hu]) ?_
            rw [hst]
            simp [hiff.mpr hu, step]
          · refine keep ?_ (by nofun) (by simp [forUser, hu])
            rw [hst]
            simp [mt hiff.mp hu]
      · simp [h1, h2] at h
        obtain ⟨rfl, rfl⟩ := h
        exact ⟨hn, keep rfl (by nofun) (by simp [forUser, h2])⟩
    · simp [h1] at h
      obtain ⟨rfl, rfl⟩ := h
      exact ⟨hn, keep rfl (by nofun) (by simp [forUser, h1])⟩
  | consume u =>
    simp only [sourceStep] at h
    by_cases hu : u = user
    · subst hu
      cases hs : storeOf r u with
      | none =>
        rw [hs] at h
        cases h
        exact ⟨hn, act (o := .consume) (by nofun) (by simp [forUser]) (by rw [hs]; rfl)⟩
      | some t =>
        rw [hs] at h
        have : update r u t.consumeKey.1 = r' := by
          simp only at h
          split at h <;> (rename_i hp; cases h; rw [hp])
        subst this
        refine ⟨hn, act (o := .consume) (by nofun) (by simp [forUser]) ?_⟩
        rw [storeOf_update, if_pos rfl, hs]
        simp only [Option.map_some, step]
        split <;> (rename_i hp; rw [hp])
    · cases hs : storeOf r u with
      | none =>
        rw [hs] at h
        cases h
        exact ⟨hn, keep rfl (by nofun) (by simp [forUser, hu])⟩
      | some t =>
        rw [hs] at h
        have : update r u t.consumeKey.1 = r' := by
          simp only at h
          split at h <;> (rename_i hp; cases h; rw [hp])
        subst this
        exact ⟨hn, keep (by rw [storeOf_update, if_neg (fun h => hu h.symm)]) (by nofun) (by simp [forUser, hu])⟩
  | find u id =>
    simp only [sourceStep] at h
    by_cases hu : u = user
    · subst hu
      cases hs : storeOf r u with
      | none =>
        rw [hs] at h
        cases h
        exact ⟨hn, act (o := .find id) (by nofun) (by simp [forUser]) (by rw [hs]; rfl)⟩
      | some t =>
        rw [hs] at h
        have : update r u (t.findAndConsumeKey id).1 = r' := by
          simp only at h
          split at h <;> (rename_i hp; cases h; rw [hp])
        subst this
        refine ⟨hn, act (o := .find id) (by nofun) (by simp [forUser]) ?_⟩
        rw [storeOf_update, if_pos rfl, hs]
        simp only [Option.map_some, step]
        split <;> (rename_i hp; rw [hp])
    · cases hs : storeOf r u with
      | none =>
        rw [hs] at h
        cases h
        exact ⟨hn, keep rfl (by nofun) (by simp [forUser, hu])⟩
      | some t =>
        rw [hs] at h
        have : update r u (t.findAndConsumeKey id).1 = r' := by
          simp only at h
          split at h <;> (rename_i hp; cases h; rw [hp])
        subst this
        exact ⟨hn, keep (by rw [storeOf_update, if_neg (fun h => hu h.symm)]) (by nofun) (by simp [forUser, hu])⟩

theorem usage_cons (n user : UInt16) (acc : Option (UInt16 × List Op)) (op : SourceOp) (ops : List SourceOp) :
    usage n user acc (op :: ops) = usage n user (usage n user acc [op]) ops := by
  cases acc with
  | some x => obtain ⟨size, done⟩ := x; simp only [usage]
  | none => cases op <;> rfl

/-- Several users of one source: the store of each user is what it would be if the user had a store of its own, at which exactly the keys with
the remainder of the user arrive (so C39 holds for it). -/
theorem C39_source (n : UInt16) (ops : List SourceOp) (r : Router) (log : List SourceEntry)
    (hr : sourceRun ⟨n, []⟩ ops = some (r, log)) (user : UInt16) :
    storeOf r user = (usage n user none ops).map fun x => (run ⟨x.1, []⟩ x.2).1 := by
  have key : ∀ (ops : List SourceOp) (r0 : Router) (acc : Option (UInt16 × List Op)) (log : List SourceEntry), r0.numSubscribers = n →
      storeOf r0 user = acc.map (fun x => (run ⟨x.1, []⟩ x.2).1) → sourceRun r0 ops = some (r, log) →
      storeOf r user = (usage n user acc ops).map fun x => (run ⟨x.1, []⟩ x.2).1 := by
    intro ops
    induction ops with
    | nil => intro r0 acc log h1 h2 h3; cases h3; rw [h2]; cases acc with | none => rfl | some x => obtain ⟨size, done⟩ := x; rfl
    | cons op ops ih =>
      intro r0 acc log h1 h2 h3
      simp only [sourceRun] at h3
      cases ho : sourceStep r0 op with
      | none => rw [ho] at h3; cases h3
      | some x =>
        obtain ⟨r1, e⟩ := x
        rw [ho] at h3
        simp only [Option.map_eq_some_iff, Prod.mk.injEq] at h3
        obtain ⟨⟨r2, es⟩, h4, rfl, -⟩ := h3
        obtain ⟨g1, g2⟩ := usage_step h1 ho h2
        rw [usage_cons]
        exact ih r1 _ es g1 g2 h4
  exact key ops _ none log rfl rfl hr

/-- A source of keys runs without fault unless it is configured with zero users. -/
theorem C27_source_total (n : UInt16) (hn : n ≠ 0) (ops : List SourceOp) : (sourceRun ⟨n, []⟩ ops).isSome := by
  have key : ∀ ops r, r.numSubscribers = n → (sourceRun r ops).isSome := by
    intro ops
    induction ops with
    | nil => intro r _; rfl
    | cons op ops ih =>
      intro r hr
      have hs : ∃ r' e, sourceStep r op = some (r', e) ∧ r'.numSubscribers = n := by
        cases op with
        | bind user size =>
          simp only [sourceStep]
          cases hb : r.bind user size with
          | none => exact ⟨_, _, rfl, hr⟩
          | some r2 =>
            refine ⟨_, _, rfl, ?_⟩
            unfold Router.bind at hb
            split at hb
            · cases hb
            · cases hb
              exact hr
        | frame f =>
          simp only [sourceStep, Router.handle]
          by_cases h1 : f.status ≠ .ok
          · rw [if_pos h1]; exact ⟨_, _, rfl, hr⟩
          rw [if_neg h1]
          by_cases h2 : f.key.length ≠ 32
          · rw [if_pos h2]; exact ⟨_, _, rfl, hr⟩
          rw [if_neg h2, if_neg (by rw [hr]; exact hn)]
          exact ⟨_, _, rfl, hr⟩
        | consume user =>
          simp only [sourceStep]
          split
          · exact ⟨_, _, rfl, hr⟩
          · split <;> exact ⟨_, _, rfl, hr⟩
        | find user id =>
          simp only [sourceStep]
          split
          · exact ⟨_, _, rfl, hr⟩
          · split <;> exact ⟨_, _, rfl, hr⟩
      obtain ⟨r', e, h1, h2⟩ := hs
      simp only [sourceRun, h1]
      have := ih r' h2
      cases h3 : sourceRun r' ops with
      | none => rw [h3] at this; cases this
      | some x => rfl
  exact key ops _ rfl

/-- Violation: nothing prevents the number of users from being zero, and then the first key that arrives is a division
by zero. -/
theorem C27_zero_users_violation (id : UInt64) (key : Bytes) (h : key.length = 32) :
    sourceRun ⟨0, []⟩ [.frame ⟨id, key, .ok⟩] = none := by
  simp [sourceRun, sourceStep, Router.handle, h]

/-! ### Examples -/

def exampleKey (b : UInt8) : Bytes := List.replicate 32 b

/-- Two users of one source: the second one registers later, and misses key 3. -/
example : let ops : List SourceOp := [.bind 0 3, .frame ⟨3, exampleKey 3, .ok⟩, .bind 1 2, .frame ⟨4, exampleKey 4, .ok⟩, .frame ⟨5, exampleKey 5, .ok⟩,
      .consume 0, .find 1 3]
    (sourceRun ⟨2, []⟩ ops).isSome ∧
    (usage 2 1 none ops).map (fun x => (x.1, (run ⟨x.1, []⟩ x.2).1.keys)) = some (2, [(5, some (exampleKey 5))]) := by decide +kernel

/-- A store for three keys: key 8 is still there after 9 and 10 have arrived and 10 and 9 were taken. -/
example : let later : List Op := [.add ⟨9, exampleKey 9, .ok⟩, .consume, .add ⟨10, exampleKey 10, .ok⟩, .find 10, .find 7]
    ((⟨8, exampleKey 8, .ok⟩ : Frame) :: arrivals later).Pairwise (fun a b => a.keyId < b.keyId) ∧ (arrivals later).length < (3 : UInt16).toNat ∧
    ∀ key, Entry.returned 8 key ∉ (run (run ⟨3, []⟩ ([.add ⟨7, exampleKey 7, .ok⟩] ++ [.add ⟨8, exampleKey 8, .ok⟩])).1 later).2 := by
  refine ⟨by decide +kernel, by decide +kernel, fun key h => ?_⟩
  have : ∀ e ∈ (run (run ⟨3, []⟩ ([.add ⟨7, exampleKey 7, .ok⟩] ++ [.add ⟨8, exampleKey 8, .ok⟩])).1
      [.add ⟨9, exampleKey 9, .ok⟩, .consume, .add ⟨10, exampleKey 10, .ok⟩, .find 10, .find 7]).2, (match e with | .returned 8 _ => false | _ => true) = true := by
    decide +kernel
  have := this _ h
  cases this

/-- Keys 7 to 10 arrive at a store for three keys; 10 is consumed, 8 is looked up, 7 is gone; then 5 arrives, which
empties the store. -/
example : let k := exampleKey
    (run ⟨3, []⟩ [.add ⟨7, k 1, .ok⟩, .add ⟨8, k 2, .ok⟩, .add ⟨9, k 3, .ok⟩, .add ⟨10, k 4, .ok⟩, .consume, .find 8, .find 7,
      .find 8, .add ⟨5, k 5, .ok⟩, .find 9, .consume, .consume]).2 =
    [.added 7 (k 1), .added 8 (k 2), .added 9 (k 3), .added 10 (k 4), .returned 10 (some (k 4)), .returned 8 (some (k 2)),
      .nothing, .nothing, .added 5 (k 5), .nothing, .returned 5 (some (k 5)), .nothing] := by
  decide +kernel

/-- Two users share a source: the key with an odd id goes to user 1. -/
example : ((sourceRun ⟨2, []⟩ [.bind 0 4, .bind 1 4, .frame ⟨7, exampleKey 1, .ok⟩, .consume 0, .find 1 7, .consume 1]).map
      fun x => x.2.filterMap fun e => match e with | .returned u i k => some (u, i, k) | _ => none) =
    some [(1, 7, some (exampleKey 1))] := by
  decide +kernel

end SSP21.Qix
