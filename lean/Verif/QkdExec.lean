import Verif.Qkd
import Verif.Exec
/-
  An interpreter for executions of Verif/Qkd.lean, used to exhibit concrete executions: what it computes is reachable
  (`Exec.sound`).
-/
namespace SSP21.Qkd.Exec
open Qix Qix.Spec
open Crypto (EnvB)

/-- What a query of a layer is about. -/
inductive Query
  | other
  | consume
  | find (id : UInt64)

/-- What happens next. -/
inductive Choice
  | bind (user size : UInt16)
  | read (chunk : Bytes)
  | ask (i : Nat) (now : Int) (rnd : Bytes) (q : Query)
  | layer (i : Nat) (ch : Crypto.Exec.Choice)

/-- Replace the member with this index by what `f` makes of it. -/
def change (f : Member → Option Member) : Nat → List Member → Option (List Member)
  | _, [] => none
  | 0, m :: l => (f m).map (· :: l)
  | i + 1, m :: l => (change f i l).map (m :: ·)

theorem change_eq {f : Member → Option Member} {i : Nat} {l l' : List Member} (h : change f i l = some l') :
    ∃ a m m' b, l = a ++ m :: b ∧ f m = some m' ∧ l' = a ++ m' :: b := by
  induction l generalizing i l' with
  | nil => simp [change] at h
  | cons m l ih =>
    cases i with
    | zero =>
      simp only [change, Option.map_eq_some_iff] at h
      obtain ⟨m', h1, rfl⟩ := h
      exact ⟨[], m, m', l, rfl, h1, rfl⟩
    | succ i =>
      simp only [change, Option.map_eq_some_iff] at h
      obtain ⟨x, h1, rfl⟩ := h
      obtain ⟨a, m1, m', b, rfl, h2, rfl⟩ := ih h1
      exact ⟨m :: a, m1, m', b, rfl, h2, rfl⟩

/-- A query of the store. -/
def answer (r : Router) (user : UInt16) (now : Int) (rnd : Bytes) : Query → Option (Crypto.Fresh × Router × List SourceEntry)
  | .other => some (⟨now, rnd, none, fun _ => none, []⟩, r, [])
  | .consume => (sourceStep r (.consume user)).map fun x => (⟨now, rnd, given x.2, fun _ => none, []⟩, x.1, [x.2])
  | .find id => (sourceStep r (.find user id)).map fun x =>
      (⟨now, rnd, none, fun id' => if id' = id then (given x.2).map (·.2) else none, []⟩, x.1, [x.2])

theorem answer_sound {r r' : Router} {user : UInt16} {now : Int} {rnd : Bytes} {q : Query} {f : Crypto.Fresh} {es : List SourceEntry}
    (h : answer r user now rnd q = some (f, r', es)) : Answer r user f es r' := by
  cases q with
  | other => cases h; exact .unasked rfl fun _ => rfl
  | consume =>
    simp only [answer, Option.map_eq_some_iff] at h
    obtain ⟨⟨r1, e⟩, h1, h2⟩ := h
    cases h2
    exact .consume _ _ h1 rfl fun _ => rfl
  | find id =>
    simp only [answer, Option.map_eq_some_iff] at h
    obtain ⟨⟨r1, e⟩, h1, h2⟩ := h
    cases h2
    exact .find id _ _ h1 rfl fun _ => rfl

/-- The station after a query of a member. -/
def asked (st : Station) (now : Int) (rnd : Bytes) (q : Query) : Nat → List Member → Option (Router × List SourceEntry × List Member)
  | _, [] => none
  | 0, m :: l =>
    match m.now, answer st.router m.number now rnd q with
    | ⟨.code (.ask k), stack⟩, some (f, r, es) =>
      if f.ok then some (r, es, { m with now := Crypto.Exec.settle m.cfg 4 ⟨.code (k f), stack⟩ } :: l) else none
    | _, _ => none
  | i + 1, m :: l => (asked st now rnd q i l).map fun x => (x.1, x.2.1, m :: x.2.2)

theorem asked_eq {st : Station} {now : Int} {rnd : Bytes} {q : Query} {i : Nat} {l l' : List Member} {r : Router} {es : List SourceEntry}
    (h : asked st now rnd q i l = some (r, es, l')) :
    ∃ a m b k stack f, l = a ++ m :: b ∧ m.now = ⟨.code (.ask k), stack⟩ ∧ f.ok ∧ Answer st.router m.number f es r ∧
      l' = a ++ { m with now := Crypto.Exec.settle m.cfg 4 ⟨.code (k f), stack⟩ } :: b := by
  induction l generalizing i l' with
  | nil => simp [asked] at h
  | cons m l ih =>
    cases i with
    | zero =>
      simp only [asked] at h
      split at h
      · split at h
        · rename_i k stack f r1 es1 h1 h2 h3
          cases h
          exact ⟨[], m, l, k, stack, f, rfl, h1, h3, answer_sound h2, rfl⟩
        · cases h
      · cases h
    | succ i =>
      simp only [asked, Option.map_eq_some_iff] at h
      obtain ⟨⟨r1, es1, l1⟩, h1, h2⟩ := h
      cases h2
      obtain ⟨a, m1, b, k, stack, f, rfl, h3, h4, h5, rfl⟩ := ih h1
      exact ⟨m :: a, m1, b, k, stack, f, rfl, h3, h4, h5, rfl⟩

/-- A choice that is not about the key store. -/
def plain (B : EnvB) (ch : Crypto.Exec.Choice) (m : Member) : Option Member :=
  match ch with
  | .fresh _ => none
  | ch => (Crypto.Exec.next m.cfg B m.now ch).map fun y => { m with now := Crypto.Exec.settle m.cfg 4 y }

def next (B : EnvB) (st : Station) : Choice → Option Station
  | .bind user size => (sourceStep st.router (.bind user size)).map fun x => { st with router := x.1, entries := st.entries ++ [x.2] }
  | .read chunk =>
    if st.reader.dest + chunk.length ≤ 47 then
      (arrive st.router (st.reader.onRead chunk).2).map fun x =>
        { st with reader := (st.reader.onRead chunk).1, router := x.1, received := st.received ++ chunk, entries := st.entries ++ x.2 }
    else none
  | .ask i now rnd q => (asked st now rnd q i st.members).map fun x =>
      { st with router := x.1, members := x.2.2, entries := st.entries ++ x.2.1 }
  | .layer i ch => (change (plain B ch) i st.members).map fun l => { st with members := l }

def run (B : EnvB) : Station → List Choice → Option Station
  | st, [] => some st
  | st, ch :: rest =>
    match next B st ch with
    | none => none
    | some st' => run B st' rest

theorem settle_sound {users : UInt16} : ∀ (n : Nat) {st : Station} {a b : List Member} {m : Member}, Reachable users st →
    st.members = a ++ m :: b →
    Reachable users { st with members := a ++ { m with now := Crypto.Exec.settle m.cfg n m.now } :: b } := by
  intro n
  induction n with
  | zero => intro st a b m h hm; rw [show Crypto.Exec.settle m.cfg 0 m.now = m.now from rfl]; rw [← hm]; exact h
  | succ n ih =>
    intro st a b m h hm
    have key : ∀ y, Crypto.Step m.cfg m.env m.now y → (∀ k stack, m.now ≠ ⟨.code (.ask k), stack⟩) →
        Reachable users { st with members := a ++ { m with now := Crypto.Exec.settle m.cfg n y } :: b } := by
      intro y hy hn
      exact ih (st := { st with members := a ++ { m with now := y } :: b }) (m := { m with now := y })
        (h.step (.layer st a b m y hm hn hy)) rfl
    have same : Reachable users { st with members := a ++ { m with now := m.now } :: b } := by
      rw [show ({ m with now := m.now } : Member) = m from rfl, ← hm]
      exact h
    unfold Crypto.Exec.settle
    split
    · exact same
    · rename_i hn heq; cases hn; exact key _ (by rw [heq]; exact .done _ _) (by rw [heq]; rintro _ _ ⟨⟩)
    · rename_i hn heq; cases hn; exact key _ (by rw [heq]; exact .up _ _ _ _) (by rw [heq]; rintro _ _ ⟨⟩)
    · rename_i hn heq; cases hn; exact key _ (by rw [heq]; exact .loop _ _ _) (by rw [heq]; rintro _ _ ⟨⟩)
    · exact same

theorem next_sound {users : UInt16} {B : EnvB} {P : InitiatorHandshake → Prop} {st st' : Station} {ch : Choice} (h : Reachable users st)
    (he : ∀ m ∈ st.members, m.env = B.only P) (hn : next B st ch = some st') :
    Reachable users st' ∧ ∀ m ∈ st'.members, m.env = B.only P := by
  have swap : ∀ {a b : List Member} {m m' : Member}, st.members = a ++ m :: b → m'.env = m.env →
      ∀ x ∈ a ++ m' :: b, x.env = B.only P := by
    intro a b m m' h1 h2 x hx
    rw [List.mem_append, List.mem_cons] at hx
    rcases hx with hx | rfl | hx
    · exact he x (by rw [h1]; simp [hx])
    · rw [h2]; exact he m (by rw [h1]; simp)
    · exact he x (by rw [h1]; simp [hx])
  cases ch with
  | bind user size =>
    simp only [next, Option.map_eq_some_iff] at hn
    obtain ⟨⟨r, e⟩, h1, rfl⟩ := hn
    exact ⟨h.step (.bind st user size r e h1), he⟩
  | read chunk =>
    simp only [next] at hn
    split at hn
    · rename_i hc
      simp only [Option.map_eq_some_iff] at hn
      obtain ⟨⟨r, es⟩, h1, rfl⟩ := hn
      exact ⟨h.step (.read st chunk r es hc h1), he⟩
    · cases hn
  | ask i now rnd q =>
    simp only [next, Option.map_eq_some_iff] at hn
    obtain ⟨⟨r, es, l⟩, h1, rfl⟩ := hn
    obtain ⟨a, m, b, k, stack, f, h2, h3, h4, h5, rfl⟩ := asked_eq h1
    have hs := h.step (.ask st a b m k stack f es r h2 h3 h4 h5)
    exact ⟨settle_sound 4 (a := a) (b := b) (m := { m with now := ⟨.code (k f), stack⟩ }) hs rfl, swap h2 rfl⟩
  | layer i ch =>
    simp only [next, Option.map_eq_some_iff] at hn
    obtain ⟨l, h1, rfl⟩ := hn
    obtain ⟨a, m, m', b, h2, h3, rfl⟩ := change_eq h1
    have key : ∃ y, Crypto.Exec.next m.cfg B m.now ch = some y ∧ (∀ k stack, m.now ≠ ⟨.code (.ask k), stack⟩) ∧
        m' = { m with now := Crypto.Exec.settle m.cfg 4 y } := by
      cases ch with
      | fresh f => cases h3
      | _ =>
        simp only [plain, Option.map_eq_some_iff] at h3
        obtain ⟨y, h4, rfl⟩ := h3
        refine ⟨y, h4, fun k stack h5 => ?_, rfl⟩
        rw [h5] at h4
        cases h4
    obtain ⟨y, h4, h5, rfl⟩ := key
    have hstep : Crypto.Step m.cfg m.env m.now y := by
      rw [he m (by rw [h2]; simp)]
      exact Crypto.Exec.next_sound h4
    have hs := h.step (.layer st a b m y h2 h5 hstep)
    exact ⟨settle_sound 4 (st := { st with members := a ++ { m with now := y } :: b }) (a := a) (b := b) (m := { m with now := y }) hs rfl,
      swap h2 rfl⟩

/-- What does not change about a layer. -/
def kind (m : Member) : UInt16 × Crypto.Cfg × Crypto.Env := (m.number, m.cfg, m.env)

theorem next_kinds {B : EnvB} {st st' : Station} {ch : Choice} (hn : next B st ch = some st') :
    st'.members.map kind = st.members.map kind := by
  cases ch with
  | bind user size =>
    simp only [next, Option.map_eq_some_iff] at hn
    obtain ⟨⟨r, e⟩, h1, rfl⟩ := hn
    rfl
  | read chunk =>
    simp only [next] at hn
    split at hn
    · simp only [Option.map_eq_some_iff] at hn
      obtain ⟨⟨r, es⟩, h1, rfl⟩ := hn
      rfl
    · cases hn
  | ask i now rnd q =>
    simp only [next, Option.map_eq_some_iff] at hn
    obtain ⟨⟨r, es, l⟩, h1, rfl⟩ := hn
    obtain ⟨a, m, b, k, stack, f, h2, h3, h4, h5, rfl⟩ := asked_eq h1
    rw [h2]
    simp [kind]
  | layer i ch =>
    simp only [next, Option.map_eq_some_iff] at hn
    obtain ⟨l, h1, rfl⟩ := hn
    obtain ⟨a, m, m', b, h2, h3, rfl⟩ := change_eq h1
    rw [h2]
    have : kind m' = kind m := by
      cases ch with
      | fresh f => cases h3
      | _ =>
        simp only [plain, Option.map_eq_some_iff] at h3
        obtain ⟨y, h4, rfl⟩ := h3
        rfl
    simp [this]

theorem run_kinds {B : EnvB} : ∀ {script : List Choice} {st st' : Station}, run B st script = some st' →
    st'.members.map kind = st.members.map kind := by
  intro script
  induction script with
  | nil => intro st st' hr; cases hr; rfl
  | cons ch rest ih =>
    intro st st' hr
    unfold run at hr
    split at hr
    · cases hr
    · rename_i st1 h1
      rw [ih hr, next_kinds h1]

theorem run_sound {users : UInt16} {B : EnvB} {P : InitiatorHandshake → Prop} : ∀ (script : List Choice) {st st' : Station},
    Reachable users st → (∀ m ∈ st.members, m.env = B.only P) → run B st script = some st' → Reachable users st' := by
  intro script
  induction script with
  | nil => intro st st' h _ hr; cases hr; exact h
  | cons ch rest ih =>
    intro st st' h he hr
    unfold run at hr
    split at hr
    · cases hr
    · rename_i st1 h1
      obtain ⟨h2, h3⟩ := next_sound h he h1
      exact ih h2 h3 hr

/-- A new process with some layers. -/
def start (users : UInt16) (E : Crypto.Env) (h : InitiatorHandshake) (layers : List (UInt16 × Crypto.Cfg)) : Station :=
  { Station.new (List.replicate 47 0) users with members := layers.map fun x => ⟨x.1, x.2, E, ⟨.env (.new x.2 h), []⟩⟩ }

theorem start_sound (users : UInt16) (E : Crypto.Env) (h : InitiatorHandshake) (he : E.config h) (layers : List (UInt16 × Crypto.Cfg))
    (hc : ∀ x ∈ layers, h.Configured x.2.backend x.2.caps) : Reachable users (start users E h layers) := by
  suffices hs : ∀ done rest, layers = done ++ rest → Reachable users (start users E h done) from hs layers [] (by simp)
  intro done
  induction hn : done.length generalizing done with
  | zero =>
    intro _ _
    rw [List.length_eq_zero_iff.mp hn]
    exact .new _ (by simp)
  | succ n ih =>
    intro rest hr
    rcases List.eq_nil_or_concat done with rfl | ⟨front, x, rfl⟩
    · cases hn
    · rw [List.concat_eq_append] at *
      have := (ih front (by simpa using hn) ([x] ++ rest) (by rw [hr]; simp)).step
        (.create _ x.1 x.2 E h (hc x (by rw [hr]; simp)) he)
      simpa [start] using this

/-- What the interpreter computes is reachable. -/
theorem sound {users : UInt16} {B : EnvB} {h : InitiatorHandshake} {layers : List (UInt16 × Crypto.Cfg)} {script : List Choice} {st : Station}
    (hc : ∀ x ∈ layers, h.Configured x.2.backend x.2.caps)
    (hr : run B (start users (B.only (· = h)) h layers) script = some st) : Reachable users st := by
  refine run_sound (P := (· = h)) script (start_sound users _ h rfl layers hc) ?_ hr
  intro m hm
  simp only [start, List.mem_map] at hm
  obtain ⟨x, -, rfl⟩ := hm
  rfl

end SSP21.Qkd.Exec
