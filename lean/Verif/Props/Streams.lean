import Verif.Props.Reading
import Verif.Props.Channel
/-
  C33 and C44 for whole layers: the data given to an application is, session by session, the data that arrived, in the
  order of its arrival; and it is the data that the application on the other side handed over.
-/
namespace SSP21.Crypto
open Spec

namespace StreamProof
open ReadingProof

theorem every_induct {F : List Ev → Ev → Prop} (P : List Ev → Prop) : ∀ (h : List Ev),
    (∀ pre e post, h = pre ++ e :: post → F pre e) → P [] → (∀ pre e, P pre → F pre e → P (pre ++ [e])) → P h := by
  have key : ∀ (n : Nat) (h : List Ev), h.length = n → (∀ pre e post, h = pre ++ e :: post → F pre e) → P [] →
      (∀ pre e, P pre → F pre e → P (pre ++ [e])) → P h := by
    intro n
    induction n with
    | zero => intro h hn _ h0 _; rw [List.length_eq_zero_iff.mp hn]; exact h0
    | succ n ih =>
      intro h hn hf h0 hs
      have hne : h ≠ [] := by rintro rfl; simp at hn
      have hd := List.dropLast_concat_getLast hne
      rw [← hd]
      refine hs _ _ (ih h.dropLast (by simp [hn]) ?_ h0 hs) (hf _ _ [] (by rw [hd]))
      intro pre e post heq
      refine hf pre e (post ++ [h.getLast hne]) (hd.symm.trans ?_)
      rw [heq]
      simp
  exact fun h => key h.length h rfl

/-- Unread data of session `n`. -/
def held (u : Option (Nat × Bytes)) (n : Nat) : List Bytes :=
  match u with
  | some (m, d) => if m = n then [d] else []
  | none => []

theorem takenIn_snoc {v w : View} {m : Nat} {e : SEvent} (h : w.events = v.events ++ [(m, e)]) (n : Nat) :
    w.takenIn n = v.takenIn n ++ if m = n then (acceptedData e).toList else [] := by
  unfold View.takenIn View.session
  rw [h, List.filterMap_append, List.filterMap_append]
  by_cases hm : m = n
  · cases h : acceptedData e <;> simp [hm, h]
  · simp [hm]

theorem takenIn_same {v w : View} (h : w.events = v.events) (n : Nat) : w.takenIn n = v.takenIn n := by
  unfold View.takenIn View.session; rw [h]

theorem takenIn_fresh {v : View} (h : ∀ x ∈ v.events, x.1 < v.count) : v.takenIn v.count = [] := by
  unfold View.takenIn View.session
  rw [List.filterMap_eq_nil_iff]
  intro e he
  obtain ⟨x, hx, hx'⟩ := List.mem_filterMap.mp he
  have := h x hx
  split at hx'
  · omega
  · cases hx'

theorem unstale_snoc {c : Cfg} {h : List Ev} {e : Ev} (hu : Unstale c (observations (h ++ [e]))) : Unstale c (observations h) := by
  rw [ReadingProof.observations_append] at hu
  exact hu.of_append

/-- What holds at every moment. -/
structure Stream (c : Cfg) (h : List Ev) (v : View) : Prop where
  ev : ∀ x ∈ v.events, x.1 < v.count
  wait : ∀ n, v.waiting = some n → n < v.count ∧ v.takenIn n = [] ∧ (∀ m, v.current = some m → m < n) ∧
    (∀ m d, v.unread = some (m, d) → m < n) ∧ ∀ x ∈ v.given, x.1 < n
  cur : ∀ n, v.current = some n → n < v.count ∧ (∀ m d, v.unread = some (m, d) → m ≤ n) ∧ ∀ x ∈ v.given, x.1 ≤ n
  un : ∀ n d, v.unread = some (n, d) → n < v.count ∧ ∀ x ∈ v.given, x.1 ≤ n
  gi : ∀ x ∈ v.given, x.1 < v.count
  ord : (v.given.map (·.1)).Pairwise (· ≤ ·)
  sub : ∀ n, (v.givenIn n ++ held v.unread n).Sublist (v.takenIn n)
  fresh : ∀ msg p, h.getLast? = some (.act (.checked true msg (.ok p))) → ∀ n d, v.unread = some (n, d) →
    v.takenIn n = [d] ∧ v.givenIn n = []
  all : Unstale c (observations h) → ∀ n, ∃ lost left, v.takenIn n = lost ++ (v.givenIn n ++ held v.unread n) ++ left ∧
    (lost ≠ [] → lost.length = 1 ∧ Ev.act (.notSent false) ∈ h) ∧
    (left ≠ [] → left.length = 1 ∧ v.current ≠ some n ∧ held v.unread n = [] ∧ Ev.obs .lowerClose ∈ h)

/-- Steps that do not concern received data. -/
theorem Stream.quiet {c : Cfg} {h : List Ev} {v w : View} (hs : Stream c h v) (e : Ev)
    (he : ∀ msg p, e ≠ .act (.checked true msg (.ok p))) (hev : ∀ x ∈ w.events, x.1 < w.count)
    (ht : ∀ n, w.takenIn n = v.takenIn n) (hc : w.count = v.count) (hw : w.waiting = v.waiting)
    (hcur : ∀ n, w.current = some n → v.current = some n) (hu : w.unread = v.unread) (hg : w.given = v.given) :
    Stream c (h ++ [e]) w where
  ev := hev
  wait := by
    intro n hn
    rw [hw] at hn
    obtain ⟨h1, h2, h3, h4, h5⟩ := hs.wait n hn
    exact ⟨hc ▸ h1, (ht n).trans h2, fun m hm => h3 m (hcur m hm), hu ▸ h4, hg ▸ h5⟩
  cur := by
    intro n hn
    obtain ⟨h1, h2, h3⟩ := hs.cur n (hcur n hn)
    exact ⟨hc ▸ h1, hu ▸ h2, hg ▸ h3⟩
  un := by rw [hu, hc, hg]; exact hs.un
  gi := by rw [hc, hg]; exact hs.gi
  ord := by rw [hg]; exact hs.ord
  sub := by
    intro n
    have : w.givenIn n = v.givenIn n := by unfold View.givenIn; rw [hg]
    rw [ht, this, hu]
    exact hs.sub n
  fresh := by
    intro msg p hl
    rw [List.getLast?_append] at hl
    exact absurd (by simpa using hl) (he msg p)
  all := by
    intro hv n
    obtain ⟨lost, left, h1, h2, h3⟩ := hs.all (unstale_snoc hv) n
    have : w.givenIn n = v.givenIn n := by unfold View.givenIn; rw [hg]
    rw [ht, this, hu]
    refine ⟨lost, left, h1, fun hx => ⟨(h2 hx).1, by simp [(h2 hx).2]⟩, fun hx => ?_⟩
    obtain ⟨a, b, c', d⟩ := h3 hx
    exact ⟨a, fun hn => b (hcur n hn), c', by simp [d]⟩

theorem Stream.established {c : Cfg} {h : List Ev} {v : View} (hs : Stream c h v) (k : SessionKeys) (a : SessionAlgorithms)
    (p : SessionParam) : Stream c (h ++ [.obs (.established k a p)]) (v.step (.obs (.established k a p))) := by
  have ht : ∀ n, (v.step (.obs (.established k a p))).takenIn n = v.takenIn n := by
    intro n
    rw [takenIn_snoc (v := v) (m := v.count) (e := .initialized a p k) rfl]
    simp [acceptedData]
  refine ⟨?_, ?_, ?_, ?_, ?_, hs.ord, fun n => by rw [ht]; exact hs.sub n, ?_, ?_⟩
  · intro x hx
    have hx : x ∈ v.events ++ [(v.count, .initialized a p k)] := hx
    show x.1 < v.count + 1
    rcases List.mem_append.mp hx with hx | hx
    · exact Nat.lt_succ_of_lt (hs.ev x hx)
    · rw [List.mem_singleton.mp hx]; exact Nat.lt_succ_self _
  · intro n hn
    cases hn
    exact ⟨Nat.lt_succ_self _, (ht _).trans (takenIn_fresh hs.ev), fun m hm => (hs.cur m hm).1, fun m d hm => (hs.un m d hm).1, hs.gi⟩
  · intro n hn
    exact ⟨Nat.lt_succ_of_lt (hs.cur n hn).1, (hs.cur n hn).2⟩
  · intro n d hn
    exact ⟨Nat.lt_succ_of_lt (hs.un n d hn).1, (hs.un n d hn).2⟩
  · exact fun x hx => Nat.lt_succ_of_lt (hs.gi x hx)
  · intro msg q hl
    rw [List.getLast?_append] at hl
    simp at hl
  · intro hv n
    obtain ⟨lost, left, h1, h2, h3⟩ := hs.all (unstale_snoc hv) n
    rw [ht]
    refine ⟨lost, left, h1, fun hx => ⟨(h2 hx).1, by simp [(h2 hx).2]⟩, fun hx => ?_⟩
    obtain ⟨a, b, c', d⟩ := h3 hx
    exact ⟨a, b, c', by simp [d]⟩

theorem held_length (u : Option (Nat × Bytes)) (n : Nat) (h : held u n ≠ []) : (held u n).length = 1 := by
  unfold held at *
  split at h
  · split at h
    · simp [*]
    · exact absurd rfl h
  · exact absurd rfl h

theorem Stream.closed {c : Cfg} {h : List Ev} {v : View} (hs : Stream c h v) :
    Stream c (h ++ [.obs .lowerClose]) (v.step (.obs .lowerClose)) := by
  refine ⟨hs.ev, nofun, nofun, nofun, hs.gi, hs.ord, fun n => ?_, nofun, ?_⟩
  · refine List.Sublist.trans ?_ (hs.sub n)
    exact (List.append_nil (v.givenIn n)).symm ▸ List.sublist_append_left ..
  · intro hv n
    obtain ⟨lost, left, h1, h2, h3⟩ := hs.all (unstale_snoc hv) n
    refine ⟨lost, held v.unread n ++ left, ?_, fun hx => ⟨(h2 hx).1, by simp [(h2 hx).2]⟩, fun hx => ⟨?_, nofun, rfl, by simp⟩⟩
    · show v.takenIn n = _
      rw [h1]
      show _ = lost ++ (v.givenIn n ++ []) ++ _
      simp
    · by_cases hl : left = []
      · subst hl
        rw [List.append_nil] at hx ⊢
        exact held_length _ _ hx
      · obtain ⟨a, -, b, -⟩ := h3 hl
        rw [b]
        simpa using a

theorem Stream.givenTo {c : Cfg} {h : List Ev} {v : View} (hs : Stream c h v) {d : Bytes} (hd : d ≠ []) {n : Nat}
    (hu : v.unread = some (n, d)) : Stream c (h ++ [.obs (.startRx d)]) (v.step (.obs (.startRx d))) := by
  have hstep : v.step (.obs (.startRx d)) = { v with given := v.given ++ [(n, d)], unread := none } := by
    simp [View.step, hd, hu]
  rw [hstep]
  obtain ⟨u1, u2⟩ := hs.un n d hu
  have hmem : ∀ (P : Nat → Prop), (∀ x ∈ v.given, P x.1) → P n → ∀ x ∈ v.given ++ [(n, d)], P x.1 := by
    intro P h1 h2 x hx
    rcases List.mem_append.mp hx with hx | hx
    · exact h1 x hx
    · rw [List.mem_singleton.mp hx]; exact h2
  have hg : ∀ k, View.givenIn { v with given := v.given ++ [(n, d)], unread := none } k = v.givenIn k ++ held v.unread k := by
    intro k
    unfold View.givenIn
    rw [List.filterMap_append, hu]
    by_cases hk : n = k <;> simp [held, hk]
  refine ⟨hs.ev, ?_, ?_, nofun, hmem (· < v.count) hs.gi u1, ?_, ?_, nofun, ?_⟩
  · intro k hk
    obtain ⟨h1, h2, h3, h4, h5⟩ := hs.wait k hk
    exact ⟨h1, h2, h3, nofun, hmem (· < k) h5 (h4 n d hu)⟩
  · intro k hk
    obtain ⟨h1, h2, h3⟩ := hs.cur k hk
    exact ⟨h1, nofun, hmem (· ≤ k) h3 (h2 n d hu)⟩
  · show ((v.given ++ [(n, d)]).map (·.1)).Pairwise (· ≤ ·)
    rw [List.map_append, List.pairwise_append]
    refine ⟨hs.ord, by simp, ?_⟩
    intro a ha b hb
    obtain ⟨x, hx, rfl⟩ := List.mem_map.mp ha
    simp only [List.map_cons, List.map_nil, List.mem_singleton] at hb
    rw [hb]
    exact u2 x hx
  · intro k
    rw [hg]
    show (v.givenIn k ++ held v.unread k ++ []).Sublist (v.takenIn k)
    rw [List.append_nil]
    exact hs.sub k
  · intro hv k
    obtain ⟨lost, left, h1, h2, h3⟩ := hs.all (unstale_snoc hv) k
    refine ⟨lost, left, ?_, fun hx => ⟨(h2 hx).1, by simp [(h2 hx).2]⟩, fun hx => ?_⟩
    · rw [hg]
      show v.takenIn k = lost ++ (v.givenIn k ++ held v.unread k ++ []) ++ left
      rw [h1, List.append_nil]
    · obtain ⟨a, b, -, d'⟩ := h3 hx
      exact ⟨a, b, rfl, by simp [d']⟩

theorem Stream.notAnswered {c : Cfg} {h : List Ev} {v : View} (hs : Stream c h v)
    (hl : ∃ msg p, h.getLast? = some (.act (.checked true msg (.ok p)))) :
    Stream c (h ++ [.act (.notSent false)]) (v.step (.act (.notSent false))) := by
  have hstep : v.step (.act (.notSent false)) = { v with unread := none } := rfl
  rw [hstep]
  refine ⟨hs.ev, ?_, ?_, nofun, hs.gi, hs.ord, fun n => ?_, nofun, ?_⟩
  · intro k hk
    obtain ⟨h1, h2, h3, h4, h5⟩ := hs.wait k hk
    exact ⟨h1, h2, h3, nofun, h5⟩
  · intro k hk
    obtain ⟨h1, h2, h3⟩ := hs.cur k hk
    exact ⟨h1, nofun, h3⟩
  · refine List.Sublist.trans ?_ (hs.sub n)
    exact (List.append_nil (v.givenIn n)).symm ▸ List.sublist_append_left ..
  · intro hv k
    obtain ⟨msg, p, hl⟩ := hl
    obtain ⟨lost, left, h1, h2, h3⟩ := hs.all (unstale_snoc hv) k
    by_cases hk : held v.unread k = []
    · refine ⟨lost, left, ?_, fun hx => ⟨(h2 hx).1, by simp⟩, fun hx => ?_⟩
      · show v.takenIn k = lost ++ (v.givenIn k ++ []) ++ left
        rw [h1, hk]
      · obtain ⟨a, b, -, d'⟩ := h3 hx
        exact ⟨a, b, rfl, by simp [d']⟩
    · cases hu : v.unread with
      | none => rw [hu] at hk; exact absurd rfl hk
      | some x =>
        obtain ⟨m, d⟩ := x
        have hmk : m = k := by
          by_contra hne
          rw [hu] at hk
          exact hk (by simp [held, hne])
        subst hmk
        obtain ⟨g1, g2⟩ := hs.fresh msg p hl m d hu
        refine ⟨[d], [], ?_, fun _ => ⟨rfl, by simp⟩, fun hx => absurd rfl hx⟩
        show v.takenIn m = [d] ++ (v.givenIn m ++ []) ++ []
        rw [g1, g2]
        rfl

/-- A message is accepted in session `n`, which is then in use. -/
theorem Stream.accepted {c : Cfg} {h : List Ev} {v w : View} (hs : Stream c h v) {first : Bool} {msg : SessionData} {p : Bytes}
    {e : SEvent} {n : Nat} (hn : v.owner first = some n) (he : acceptedData e = if p = [] then none else some p)
    (hev : w.events = v.events ++ [(n, e)]) (hc : w.count = v.count)
    (hw : ∀ k, w.waiting = some k → v.waiting = some k ∧ first = false)
    (hcur : w.current = some n) (hu : w.unread = arrived (some n) p) (hg : w.given = v.given)
    (hno : Unstale c (observations h) → v.unread = none) :
    Stream c (h ++ [.act (.checked first msg (.ok p))]) w := by
  have hgi : ∀ k, w.givenIn k = v.givenIn k := by intro k; unfold View.givenIn; rw [hg]
  have ht : ∀ k, w.takenIn k = v.takenIn k ++ held w.unread k := by
    intro k
    rw [takenIn_snoc hev, he, hu]
    by_cases hp : p = [] <;> by_cases hk : n = k <;> simp [arrived, held, hp, hk]
  have hlt : n < v.count ∧ ∀ x ∈ v.given, x.1 ≤ n := by
    cases first with
    | true => exact ⟨(hs.wait n hn).1, fun x hx => Nat.le_of_lt ((hs.wait n hn).2.2.2.2 x hx)⟩
    | false => exact ⟨(hs.cur n hn).1, (hs.cur n hn).2.2⟩
  have hun : ∀ m d, w.unread = some (m, d) → m = n := by
    intro m d hm
    rw [hu] at hm
    unfold arrived at hm
    simp only at hm
    split at hm
    · cases hm
    · simp only [Option.some.injEq, Prod.mk.injEq] at hm; exact hm.1.symm
  refine ⟨?_, ?_, ?_, ?_, ?_, ?_, ?_, ?_, ?_⟩
  · intro x hx
    rw [hev] at hx
    rw [hc]
    rcases List.mem_append.mp hx with hx | hx
    · exact hs.ev x hx
    · rw [List.mem_singleton.mp hx]; exact hlt.1
  · intro k hk
    obtain ⟨hk, rfl⟩ := hw k hk
    obtain ⟨h1, h2, h3, h4, h5⟩ := hs.wait k hk
    have hnk : n < k := h3 n hn
    refine ⟨hc ▸ h1, ?_, fun m hm => ?_, fun m d hm => ?_, hg ▸ h5⟩
    · rw [takenIn_snoc hev, h2]
      simp [Nat.ne_of_lt hnk]
    · rw [hcur] at hm; cases hm; exact hnk
    · rw [hun m d hm]; exact hnk
  · intro k hk
    rw [hcur] at hk
    cases hk
    exact ⟨hc ▸ hlt.1, fun m d hm => Nat.le_of_eq (hun m d hm), hg ▸ hlt.2⟩
  · intro m d hm
    rw [hun m d hm, hc, hg]
    exact hlt
  · rw [hc, hg]; exact hs.gi
  · rw [hg]; exact hs.ord
  · intro k
    rw [ht, hgi]
    exact List.Sublist.append_right ((List.sublist_append_left ..).trans (hs.sub k)) _
  · intro msg' p' hl m d hm
    rw [List.getLast?_append] at hl
    simp only [List.getLast?_singleton, Option.some_or, Option.some.injEq, Ev.act.injEq, Act.checked.injEq] at hl
    obtain ⟨rfl, -, -⟩ := hl
    have hmn := hun m d hm
    subst hmn
    have h0 := (hs.wait m hn).2.1
    have hsub := hs.sub m
    rw [h0, List.sublist_nil, List.append_eq_nil_iff] at hsub
    rw [ht, h0, hm, hgi]
    exact ⟨by simp [held], hsub.1⟩
  · intro hv k
    obtain ⟨lost, left, h1, h2, h3⟩ := hs.all (unstale_snoc hv) k
    have hno := hno (unstale_snoc hv)
    rw [ht, h1, hgi, hno]
    by_cases hk : k = n
    · subst hk
      have hleft : left = [] := by
        by_contra hne
        cases first with
        | false => exact (h3 hne).2.1 hn
        | true =>
          have h0 := (hs.wait k hn).2.1
          rw [h1] at h0
          simp only [List.append_eq_nil_iff] at h0
          exact hne h0.2
      refine ⟨lost, [], ?_, fun hx => ⟨(h2 hx).1, by simp [(h2 hx).2]⟩, fun hx => absurd rfl hx⟩
      rw [hleft]
      simp [held]
    · have hk' : held w.unread k = [] := by
        cases hx : w.unread with
        | none => rfl
        | some x =>
          obtain ⟨m, d⟩ := x
          rw [hun m d hx]
          simp [held, Ne.symm hk]
      refine ⟨lost, left, ?_, fun hx => ⟨(h2 hx).1, by simp [(h2 hx).2]⟩, fun hx => ⟨(h3 hx).1, ?_, hk', by simp [(h3 hx).2.2.2]⟩⟩
      · rw [hk']
        simp [held]
      · rw [hcur]
        intro hx
        cases hx
        exact hk rfl

theorem Stream.step {c : Cfg} {h : List Ev} {v : View} (hs : Stream c h v) (hvw : v = viewOf h) (e : Ev) (hf : Fine c h e) : Stream c (h ++ [e]) (v.step e) := by
  subst hvw
  have add : ∀ (e : Ev) (o : Bool) (x : SEvent), (∀ msg p, e ≠ .act (.checked true msg (.ok p))) → acceptedData x = none →
      Stream c (h ++ [e]) ((viewOf h).add ((viewOf h).owner o) x) := by
    intro e o x he hx
    cases hown : (viewOf h).owner o with
    | none => exact hs.quiet e he hs.ev (fun _ => rfl) rfl rfl (fun _ h => h) rfl rfl
    | some n =>
      refine hs.quiet e he ?_ (fun k => ?_) rfl rfl (fun _ h => h) rfl rfl
      · intro y hy
        have hy : y ∈ (viewOf h).events ++ [(n, x)] := hy
        rcases List.mem_append.mp hy with hy | hy
        · exact hs.ev y hy
        · rw [List.mem_singleton.mp hy]
          cases o with
          | true => exact (hs.wait n hown).1
          | false => exact (hs.cur n hown).1
      · rw [takenIn_snoc (v := viewOf h) (m := n) (e := x) rfl, hx]
        simp
  have neutral : ∀ (e : Ev) (w : View), (∀ msg p, e ≠ .act (.checked true msg (.ok p))) → w.events = (viewOf h).events →
      w.count = (viewOf h).count → w.waiting = (viewOf h).waiting → (∀ n, w.current = some n → (viewOf h).current = some n) →
      w.unread = (viewOf h).unread → w.given = (viewOf h).given → Stream c (h ++ [e]) w := by
    intro e w he h1 h2 h3 h4 h5 h6
    exact hs.quiet e he (by rw [h1, h2]; exact hs.ev) (takenIn_same h1) h2 h3 h4 h5 h6
  cases e with
  | obs o =>
    cases o with
    | established k a p => exact hs.established k a p
    | lowerClose => exact hs.closed
    | startRx d =>
      by_cases hd : d = []
      · subst hd
        exact neutral _ _ nofun rfl rfl rfl (fun _ h => h) rfl rfl
      · obtain ⟨n, hn⟩ := hf hd
        exact hs.givenTo hd hn
    | startTx d b => cases b <;> exact neutral _ _ nofun rfl rfl rfl (fun _ h => h) rfl rfl
    | _ => exact neutral _ _ nofun rfl rfl rfl (fun _ h => h) rfl rfl
  | act a =>
    cases a with
    | sent p out clear rest =>
      have h1 := add (.act (.sent p out clear rest)) p (.sent out clear rest) nofun rfl
      exact ⟨h1.ev, h1.wait, h1.cur, h1.un, h1.gi, h1.ord, h1.sub, h1.fresh, h1.all⟩
    | notSent p =>
      cases p with
      | true => exact neutral _ _ nofun rfl rfl rfl (fun _ h => h) rfl rfl
      | false => exact hs.notAnswered hf
    | dropped => exact neutral _ _ nofun rfl rfl rfl nofun rfl rfl
    | discarded => exact neutral _ _ nofun rfl rfl rfl (fun _ h => h) rfl rfl
    | checked p msg r =>
      cases r with
      | error x => cases p <;> exact add _ _ (.rejected msg x) nofun rfl
      | ok d =>
        cases p with
        | true =>
          obtain ⟨n, hn⟩ := Option.isSome_iff_exists.mp hf.1
          have hw : (viewOf h).waiting = some n := hn
          refine hs.accepted (e := .acceptedAuth msg d) hn rfl ?_ ?_ ?_ ?_ ?_ ?_ hf.2 <;> simp [View.step, View.add, hw]
        | false =>
          obtain ⟨n, hn⟩ := Option.isSome_iff_exists.mp hf.1
          have hw : (viewOf h).current = some n := hn
          refine hs.accepted (e := .acceptedData msg d) hn rfl ?_ ?_ ?_ ?_ ?_ ?_ hf.2 <;> simp [View.step, View.add, hw]

theorem stream {c : Cfg} {E : Env} (hE : Spec.ReadsInOrder c E) {s : Layer} (h : Observed c E s) :
    Stream c (history s) (view s) := by
  refine every_induct (F := Fine c) (fun h => Stream c h (viewOf h)) (history s) (inv hE h).2.2.hist ?_ ?_
  · have h0 : ∀ n, View.takenIn {} n = [] := fun _ => rfl
    exact ⟨nofun, nofun, nofun, nofun, nofun, List.Pairwise.nil, fun n => List.Sublist.refl _, nofun,
      fun _ n => ⟨[], [], rfl, fun h => absurd rfl h, fun h => absurd rfl h⟩⟩
  · intro pre e hp hf
    rw [RefineProof.viewOf_snoc]
    exact hp.step rfl e hf

end StreamProof

theorem given_log {c : Cfg} {E : Env} (hE : ReadsInOrder c E) {s : Layer} (h : Observed c E s) :
    (view s).given.map (·.2) = s.log.filterMap givenData := by
  rw [← observations_history s]
  refine StreamProof.every_induct (F := ReadingProof.Fine c)
    (fun h => (viewOf h).given.map (·.2) = (observations h).filterMap givenData) (history s)
    (ReadingProof.inv hE h).2.2.hist rfl ?_
  intro pre e hp hf
  have hobs : observations (pre ++ [e]) = observations pre ++ (Ev.observation e).toList := by
    unfold observations
    rw [List.filterMap_append]
    cases e <;> rfl
  rw [hobs, List.filterMap_append, ← hp, RefineProof.viewOf_snoc]
  have add : ∀ (v : View) (n : Option Nat) (x : SEvent), (v.add n x).given = v.given := by
    intro v n x; cases n <;> rfl
  cases e with
  | obs o =>
    cases o with
    | startRx d =>
      by_cases hd : d = []
      · subst hd
        simp [View.step, Ev.observation, givenData]
      · obtain ⟨n, hn⟩ := hf hd
        simp [View.step, Ev.observation, givenData, hd, hn]
    | startTx d b => cases b <;> simp [View.step, Ev.observation, givenData]
    | _ => simp [View.step, Ev.observation, givenData]
  | act a =>
    cases a with
    | notSent p => cases p <;> simp [View.step, Ev.observation]
    | checked p msg r => cases r <;> cases p <;> simp [View.step, Ev.observation, add]
    | sent p out clear rest => simp [View.step, Ev.observation, add]
    | _ => simp [View.step, Ev.observation]

/-! ### C33 -/

/-- In every execution (of a responder, or of an initiator whose application reads inside callbacks at most when it
is told that there is data): what the
application receives is, session after session, data of messages accepted in that session, in the order in which they
were accepted, each at most once. -/
theorem C33_layer_given_in_order (c : Cfg) (E : Env) (hE : ReadsInOrder c E) (s : Layer) (h : Observed c E s) :
    (view s).given.map (·.2) = s.log.filterMap givenData ∧
    ((view s).given.map (·.1)).Pairwise (· ≤ ·) ∧
    ∀ n, ((view s).givenIn n).Sublist ((view s).takenIn n) :=
  ⟨given_log hE h, (StreamProof.stream hE h).ord,
    fun n => (List.sublist_append_left ..).trans ((StreamProof.stream hE h).sub n)⟩

namespace AnswerProof

/-- Only a responder answers a session auth message. -/
def Inv (c : Cfg) (s : Layer) : Prop :=
  (∃ params limits, c.role = .initiator params limits) → ∀ x ∈ s.acts, x.2 ≠ .notSent false

theorem Inv.same {c : Cfg} {s t : Layer} (h : Inv c s) (he : t.acts = s.acts) : Inv c t := by
  unfold Inv
  rw [he]
  exact h

theorem Inv.more {c : Cfg} {s t : Layer} (h : Inv c s) {x : Nat × Act} (he : t.acts = s.acts ++ [x])
    (hx : x.2 ≠ .notSent false) : Inv c t := by
  intro hr y hy
  rw [he] at hy
  rcases List.mem_append.mp hy with hy | hy
  · exact h hr y hy
  · cases List.mem_singleton.mp hy
    exact hx

theorem Inv.hsReq {c : Cfg} {limits : SessionLimits} {s t : Layer} (h : Inv c s) (hq : HsReq c limits s t) : Inv c t := by
  cases hq <;> exact h.same rfl

theorem atomic (c : Cfg) (E : Env) : Atomic1 c E (Inv c) := by
  refine ⟨fun _ => trivial, fun _ _ _ _ _ => trivial, fun _ _ _ _ _ => trivial, fun _ _ _ => trivial,
    fun _ _ _ _ => ⟨fun _ _ => trivial, fun _ _ _ => trivial⟩, ?init, ?tx, ?rx, ?tail, fun _ _ _ _ _ _ => trivial, ?top, ?closing, ?closed⟩
  case tx =>
    intro s s' _ _ h ha
    refine ⟨?_, trivial⟩
    cases ha with
    | nonceTrigger params limits s' _ _ hq => exact Inv.hsReq (by exact h.same rfl) hq
    | startTxRefused d _ => exact h.same rfl
    | startTxAccepted d _ => exact h.same rfl
    | dataSent now out hc _ => exact h.more rfl (by simp)
    | dataFailed now e hc _ => exact h.more (by simp; rfl) (by simp)
  case rx =>
    intro s s' _ _ h ha
    refine ⟨?_, trivial⟩
    have hi : ∀ {t : Layer}, (∃ hh, c.role = .responder hh) → Inv c t := by
      rintro t ⟨_, hr⟩ ⟨_, _, hr'⟩
      rw [hr] at hr'
      cases hr'
    cases ha with
    | ignored m w _ => exact h.same rfl
    | errorReply m w hh e frame hr _ _ => exact h.same rfl
    | requestRefused m w hh msg now f e hr _ _ _ _ s1 h1 _ h2 =>
      subst h1
      rcases h2 with rfl | ⟨fr, _, rfl⟩ <;> exact h.same (by simp)
    | requestAccepted m w hh msg now f frame hr _ _ _ _ _ _ h1 => subst h1; exact h.same (by simp)
    | replyRefused m w params limits msg now _ _ _ _ _ s1 h1 => subst h1; exact h.same (by simp)
    | replyAuthFailed m w params limits msg now now' e _ hr _ _ _ s1 h1 _ s2 h2 =>
      have h3 : Inv c s1 := by subst h1; exact h.same (by simp)
      subst h2
      refine h3.more (by simp; rfl) ?_
      simp only [if_true]
      cases (s1.pending.formatAuth now' s1.tx.remainder).2.2 <;> simp [authAct]
    | replyAccepted m w params limits msg now now' out _ hr _ _ _ s1 h1 _ s2 h2 s3 h3 =>
      have h4 : Inv c s1 := by subst h1; exact h.same (by simp)
      subst h3; subst h2
      refine h4.more (by simp; rfl) ?_
      simp only [if_true]
      cases (s1.pending.formatAuth now' s1.tx.remainder).2.2 <;> simp [authAct]
    | replyError m w params limits => exact h.same rfl
    | initAuthRefused m w params limits msg now scratch e _ _ _ _ _ _ s1 h1 => subst h1; exact h.more (by simp; rfl) (by simp)
    | initAuthOk m w params limits msg now scratch payload => exact h.more (by simp; rfl) (by simp)
    | respAuthRefused m w => exact h.more (by simp; rfl) (by simp)
    | respAuthFailed m w hh msg now now' scratch payload e _ hr => exact hi ⟨_, hr⟩
    | respAuthOk m w hh msg now now' scratch payload out _ hr => exact hi ⟨_, hr⟩
    | dataRefused m w => exact h.more (by simp; rfl) (by simp)
    | dataOk m w => exact h.more (by simp; rfl) (by simp)
    | readEmpty => exact h.same rfl
    | discarded => exact h.same rfl
    | asked => exact h.same rfl
    | readNothing => exact h.same rfl
    | readData => exact h.same rfl
  case tail =>
    intro o s s' _ _ _ _ h ha
    refine ⟨?_, trivial⟩
    cases ha <;> exact h.same (by simp)
  case top =>
    intro s s' _ _ h _ ha
    refine ⟨?_, trivial⟩
    cases ha with
    | openedInitiator params limits _ _ _ hq => exact Inv.hsReq (by exact h.same rfl) hq
    | preTxReady params limits _ _ _ _ hq => exact h.hsReq hq
    | retryTimeout params limits _ _ _ i _ hq => exact Inv.hsReq (by exact h.same rfl) hq
    | sessionTimeout params limits _ _ _ hq => exact Inv.hsReq (by exact h.same rfl) hq
    | orphanRetry params limits _ _ _ i _ hq => exact Inv.hsReq (by exact h.same rfl) hq
    | orphanSession params limits _ _ _ hq => exact Inv.hsReq (by exact h.same rfl) hq
    | _ => exact h.same (by simp)
  case closing =>
    intro s _ _ h _ _
    exact h.same (by simp)
  case closed => exact fun _ s _ _ _ _ _ _ h _ => ⟨h.more rfl (by simp), trivial⟩
  case init => exact fun hh _ _ => ⟨fun _ x hx => (by cases hx), trivial⟩

theorem act_mem {s : Layer} {a : Act} (h : Ev.act a ∈ history s) : ∃ i, (i, a) ∈ s.acts := by
  unfold history weave at h
  obtain ⟨i, -, h⟩ := List.mem_flatMap.mp h
  rcases List.mem_append.mp h with h | h
  · obtain ⟨x, hx, he⟩ := List.mem_map.mp h
    cases he
    exact ⟨x.1, (List.mem_filter.mp hx).1⟩
  · obtain ⟨x, hx, he⟩ := List.mem_map.mp h
    cases he

/-- Only a responder fails to answer a session auth message. -/
theorem responder {c : Cfg} {E : Env} {s : Layer} (h : Observed c E s) (ha : Ev.act (.notSent false) ∈ history s) :
    ∃ hh, c.role = .responder hh := by
  obtain ⟨i, hi⟩ := act_mem ha
  cases hr : c.role with
  | responder hh => exact ⟨hh, rfl⟩
  | initiator params limits => exact absurd rfl ((atomic c E).observed h ⟨_, _, hr⟩ _ hi)

end AnswerProof

/-- If the application uses the layer directly (or through an `IStack`, before the layer below closes for the first
time), nothing is skipped: the data received in a session is all the data
accepted in it, except that the last item may not have been read yet, or be lost because the layer below was closed; and
a responder that cannot answer the session auth message loses the data that came with it. -/
theorem C33_layer_none_skipped (c : Cfg) (E : Env) (hE : ReadsInOrder c E) (s : Layer)
    (h : Observed c E s) (hv : Unstale c s.log) (n : Nat) :
    ∃ lost last, (view s).takenIn n = lost ++ (view s).givenIn n ++ last ∧
      (lost ≠ [] → lost.length = 1 ∧ (∃ hh, c.role = .responder hh) ∧ Ev.act (.notSent false) ∈ history s) ∧
      (last ≠ [] → last.length = 1 ∧
        ((∃ d, (view s).unread = some (n, d) ∧ last = [d]) ∨ Ev.obs .lowerClose ∈ history s)) := by
  obtain ⟨lost, left, h1, h2, h3⟩ := (StreamProof.stream hE h).all (by rwa [observations_history]) n
  refine ⟨lost, StreamProof.held (view s).unread n ++ left, by rw [h1]; simp,
    fun hx => ⟨(h2 hx).1, AnswerProof.responder h (h2 hx).2, (h2 hx).2⟩, fun hx => ?_⟩
  by_cases hl : left = []
  · subst hl
    rw [List.append_nil] at hx ⊢
    refine ⟨StreamProof.held_length _ _ hx, .inl ?_⟩
    unfold StreamProof.held at hx ⊢
    split at hx
    · rename_i m d hu
      split at hx
      · rename_i hm
        subst hm
        exact ⟨d, hu, by simp⟩
      · exact absurd rfl hx
    · exact absurd rfl hx
  · obtain ⟨a, -, b, d⟩ := h3 hl
    rw [b]
    exact ⟨by simpa using a, .inr d⟩

/-! ### C44 -/

theorem transmitted_sentIn (es : List SEvent) : (transmitted es).map (·.2) = es.filterMap sentPart := by
  induction es with
  | nil => rfl
  | cons e es ih =>
    cases e with
    | sent f clear rest => simp only [transmitted, List.filterMap_cons, List.map_cons, sentPart] at ih ⊢; rw [ih]
    | _ => simpa [transmitted, List.filterMap_cons, sentPart] using ih

theorem accepted_after (y : List SEvent) (h : ∀ e ∈ y, ∀ m p, e ≠ SEvent.acceptedAuth m p) :
    y.filterMap acceptedData = (deliveredChunks y).filter (· ≠ []) := by
  induction y with
  | nil => rfl
  | cons e y ih =>
    have ih := ih (fun e he => h e (by simp [he]))
    cases e with
    | acceptedAuth m p => exact absurd rfl (h _ (by simp) m p)
    | acceptedData m p =>
      by_cases hp : p = []
      · simpa [deliveredChunks, List.filterMap_cons, acceptedData, hp] using ih
      · simp only [deliveredChunks, List.filterMap_cons, acceptedData, if_neg hp, List.filter_cons, decide_eq_true_eq] at ih ⊢
        rw [ih]
        simp [hp]
    | _ => simpa [deliveredChunks, List.filterMap_cons, acceptedData] using ih

theorem flatten_filter (l : List Bytes) : (l.filter (· ≠ [])).flatten = l.flatten := by
  induction l with
  | nil => rfl
  | cons x l ih =>
    by_cases hx : x = []
    · simp [hx] at ih ⊢; exact ih
    · simp [hx] at ih ⊢; exact ih

/-- Two sessions, of two layers, with the same keys: session `n` of `s`, which sends, and session `n'` of `s'`, which
receives. -/
structure Spec.SharedKeys (b : Backend) (suite : CryptoSpec) (s s' : Layer) (n n' : Nat) : Prop where
  /-- The sessions exist; the receiver has the key that the sender uses, and both use the algorithms of the same suite. -/
  keys : ∃ a p k es a' p' k' es', (view s).session n = .initialized a p k :: es ∧
    (view s').session n' = .initialized a' p' k' :: es' ∧ k'.rxKey = k.txKey ∧ SSP21.Spec.SuiteOf b suite a ∧
    SSP21.Spec.SuiteOf b suite a'
  /-- No message was forged. -/
  authentic : NoForgery ((view s).session n) ((view s').session n')

theorem layers_channel {c c' : Cfg} {E E' : Env} (hb : c.backend.Lawful) (hbb : c'.backend = c.backend) {s s' : Layer}
    (h : Observed c E s) (h' : Observed c' E' s') {n n' : Nat} {suite : CryptoSpec} (hs : SharedKeys c.backend suite s s' n n') :
    ∃ (es es' : SEvent × List SEvent) (a' : SessionAlgorithms), (view s).session n = es.1 :: es.2 ∧ (view s').session n' = es'.1 :: es'.2 ∧ es.1.isInit = true ∧ es'.1.isInit = true ∧
      Channel c.backend es.2 es'.2 a' ∧ NoForgery es.2 es'.2 ∧
      (suite.session_nonce_mode = .strict_increment → a'.verifyNonce = verifyStrictIncrement) := by
  obtain ⟨⟨a, p, k, es, a', p', k', es', h1, h2, hk, hsu, hsu'⟩, hf⟩ := hs
  have hm : a'.mode = a.mode := by
    rcases hsu.2 with ⟨g1, g2⟩ | ⟨g1, g2⟩ <;> rcases hsu'.2 with ⟨g3, g4⟩ | ⟨g3, g4⟩
    · rw [g2, g4]
    · rw [g1] at g3; cases g3
    · rw [g1] at g3; cases g3
    · rw [g2, g4]
  have ex : ∀ {s : Layer} {n : Nat} {e : SEvent} {es : List SEvent}, (view s).session n = e :: es → ∃ x ∈ (view s).events, x.1 = n := by
    intro s n e es h
    have : e ∈ (view s).session n := by rw [h]; simp
    obtain ⟨x, hx, hx'⟩ := List.mem_filterMap.mp this
    split at hx'
    · exact ⟨x, hx, by assumption⟩
    · cases hx'
  have hn : n < (view s).count := by
    obtain ⟨x, hx, rfl⟩ := ex h1
    exact layer_events h x hx
  have hn' : n' < (view s').count := by
    obtain ⟨x, hx, rfl⟩ := ex h2
    exact layer_events h' x hx
  obtain ⟨a1, p1, k1, es1, g1, g2, g3, ops, g4⟩ := layer_session h hn
  obtain ⟨a2, p2, k2, es2, f1, f2, f3, ops', f4⟩ := layer_session h' hn'
  rw [h1] at g1
  rw [h2] at f1
  simp only [List.cons.injEq, SEvent.initialized.injEq] at g1 f1
  obtain ⟨⟨rfl, rfl, rfl⟩, rfl⟩ := g1
  obtain ⟨⟨rfl, rfl, rfl⟩, rfl⟩ := f1
  rw [hbb] at f4
  refine ⟨(_, es), (_, es'), a', h1, h2, rfl, rfl, ⟨⟨_, _, _, _, _, _, _, _, g4, layer_standard hb h g3, _, _, _, _, _, _, _, f4, ?_, hm, hk⟩, g2, f2⟩, ?_, hsu'.strict⟩
  · rw [← hbb]
    exact layer_standard (by rw [hbb]; exact hb) h' f3
  · rw [h1, h2] at hf
    intro m hx
    have : authenticatedHere (.initialized a' p' k' :: es') m := by
      rcases hx with ⟨q, hx⟩ | hx | ⟨q, hx⟩
      · exact .inl ⟨q, by simp [hx]⟩
      · exact .inr (.inl (by simp [hx]))
      · exact .inr (.inr ⟨q, by simp [hx]⟩)
    obtain ⟨f, clear, rest, hmem, hfm⟩ := hf m this
    refine ⟨f, clear, rest, ?_, hfm⟩
    rcases List.mem_cons.mp hmem with hmem | hmem
    · cases hmem
    · exact hmem

/-- What a session has accepted: nothing, or first the data of the session auth message and then that of data messages. -/
theorem taken_shape {c : Cfg} {E : Env} {s : Layer} (h : Observed c E s) {n : Nat} {e : SEvent} {es : List SEvent}
    (hn : (view s).session n = e :: es) (hi : e.isInit = true) :
    ((view s).takenIn n = [] ∧ ∀ m p, SEvent.acceptedAuth m p ∉ es) ∨ ∃ m p, SEvent.acceptedAuth m p ∈ es ∧
      (view s).takenIn n = (if p = [] then [] else [p]) ++ (deliveredChunks es).filter (· ≠ []) := by
  have hlt : n < (view s).count := by
    have : e ∈ (view s).session n := by rw [hn]; simp
    obtain ⟨x, hx, hx'⟩ := List.mem_filterMap.mp this
    split at hx'
    · rename_i hxn
      exact hxn ▸ layer_events h x hx
    · cases hx'
  have hq : ∀ l : List SEvent, (∀ e ∈ l, SEvent.quiet e = true) → l.filterMap acceptedData = [] ∧ deliveredChunks l = [] := by
    intro l hl
    constructor <;> refine List.filterMap_eq_nil_iff.mpr fun e he => ?_ <;> have := hl e he <;> cases e <;> first | rfl | cases this
  unfold View.takenIn
  rcases ((RefineProof.inv h).good.all n hlt).2 with ⟨x, m, d, y, hx, hx1, hx2⟩ | hx
  · right
    rw [hn] at hx
    cases x with
    | nil =>
      simp only [List.nil_append, List.cons.injEq] at hx
      rw [hx.1] at hi
      cases hi
    | cons e' x =>
      simp only [List.cons_append, List.cons.injEq] at hx
      obtain ⟨rfl, rfl⟩ := hx
      have hxq := hq (e :: x) hx1
      have hxq' := hq x (fun e he => hx1 e (by simp [he]))
      refine ⟨m, d, by simp, ?_⟩
      rw [hn, show e :: (x ++ .acceptedAuth m d :: y) = (e :: x) ++ (.acceptedAuth m d :: y) by simp, List.filterMap_append, hxq.1,
        List.nil_append]
      have h3 : deliveredChunks (x ++ .acceptedAuth m d :: y) = deliveredChunks y := by
        have : deliveredChunks (x ++ .acceptedAuth m d :: y) = deliveredChunks x ++ deliveredChunks y := by
          simp [deliveredChunks]
        rw [this, hxq'.2, List.nil_append]
      rw [h3, ← accepted_after y hx2]
      by_cases hd : d = [] <;> simp [acceptedData, hd]
  · left
    refine ⟨(hq _ hx).1, fun m p hm => ?_⟩
    have := hx (.acceptedAuth m p) (by rw [hn]; simp [hm])
    cases this

theorem sentIn_split {b : Backend} {sent recv : List SEvent} {a : SessionAlgorithms} (hb : b.Lawful)
    (hc : Channel b sent recv a) (hf : NoForgery sent recv) {m : SessionData} {p : Bytes} (hm : .acceptedAuth m p ∈ recv) :
    sent.filterMap sentPart = p :: sentChunks sent := by
  have hhead := C44_auth_payload b hb sent recv a hc hf m p hm
  obtain ⟨⟨k, f1⟩, -, -, -, f5⟩ := channel_facts b hb sent recv a hc hf
  have h0 := (f5 m p hm).1
  rw [← transmitted_sentIn]
  unfold sentChunks
  cases hT : transmitted sent with
  | nil => rw [hT] at hhead; cases hhead
  | cons t T =>
    rw [hT] at hhead f1
    cases hhead
    cases k with
    | zero => simp at f1
    | succ k =>
      rw [List.range_eq_range', List.range'_succ] at f1
      simp only [List.map_cons, List.cons.injEq] at f1
      have : T.filter (fun x => x.1.metadata.nonce ≠ 0) = T := by
        rw [List.filter_eq_self]
        intro x hx
        have : x.1.metadata.nonce.toNat ∈ T.map (fun x => x.1.metadata.nonce.toNat) := List.mem_map_of_mem hx
        rw [f1.2, List.mem_range'_1] at this
        simp only [ne_eq, decide_eq_true_eq]
        intro h1
        rw [h1] at this
        simp at this
      simp only [List.map_cons, List.filter_cons, h0]
      simp only [ne_eq, not_true_eq_false, decide_false, Bool.false_eq_true, if_false]
      rw [this]

/-- Two layers, a session of each with the same keys, any network that forges no message: the data that the receiver
accepts in its session, in order, is a subsequence of the data that the sender put into messages of its session. -/
theorem C44_layer_subsequence (c c' : Cfg) (E E' : Env) (hb : c.backend.Lawful) (hbb : c'.backend = c.backend) (s s' : Layer)
    (h : Observed c E s) (h' : Observed c' E' s') (n n' : Nat) (suite : CryptoSpec)
    (hs : SharedKeys c.backend suite s s' n n') :
    ((view s').takenIn n').Sublist ((view s).sentIn n) := by
  obtain ⟨⟨e, es⟩, ⟨e', es'⟩, a', h1, h2, h3, h4, hc, hf, -⟩ := layers_channel hb hbb h h' hs
  rcases taken_shape h' h2 h4 with ⟨ht, hno⟩ | ⟨m, p, hm, ht⟩
  · rw [ht]; exact List.nil_sublist _
  · have hsent : (view s).sentIn n = p :: sentChunks es := by
      unfold View.sentIn
      rw [h1, ← sentIn_split hb hc hf hm]
      cases e <;> first | rfl | cases h3
    rw [ht, hsent]
    have hd := C44_delivered_is_subsequence _ hb _ _ _ hc hf
    have hd := (List.filter_sublist (l := deliveredChunks es') (p := (· ≠ []))).trans hd
    by_cases hp : p = []
    · rw [if_pos hp, List.nil_append]
      exact hd.cons _
    · rw [if_neg hp]
      exact hd.cons_cons _

/-- In strict nonce mode it is a prefix, as a sequence of bytes: nothing is skipped. -/
theorem C44_layer_prefix (c c' : Cfg) (E E' : Env) (hb : c.backend.Lawful) (hbb : c'.backend = c.backend) (s s' : Layer)
    (h : Observed c E s) (h' : Observed c' E' s') (n n' : Nat) (suite : CryptoSpec)
    (hs : SharedKeys c.backend suite s s' n n') (hstrict : suite.session_nonce_mode = .strict_increment) :
    ((view s').takenIn n').flatten <+: ((view s).sentIn n).flatten := by
  obtain ⟨⟨e, es⟩, ⟨e', es'⟩, a', h1, h2, h3, h4, hc, hf, hst⟩ := layers_channel hb hbb h h' hs
  rcases taken_shape h' h2 h4 with ⟨ht, hno⟩ | ⟨m, p, hm, ht⟩
  · rw [ht]; exact List.nil_prefix
  · have hsent : (view s).sentIn n = p :: sentChunks es := by
      unfold View.sentIn
      rw [h1, ← sentIn_split hb hc hf hm]
      cases e <;> first | rfl | cases h3
    rw [ht, hsent, List.flatten_append, flatten_filter, List.flatten_cons]
    have hd := C44_delivered_is_prefix _ hb _ _ _ hc hf (hst hstrict)
    by_cases hp : p = []
    · simpa [hp] using hd
    · rw [if_neg hp]
      simpa using hd

/-- If in addition the receiver has accepted the session auth message and authenticated as many data messages as the
sender has made, it has accepted everything. -/
theorem C44_layer_complete (c c' : Cfg) (E E' : Env) (hb : c.backend.Lawful) (hbb : c'.backend = c.backend) (s s' : Layer)
    (h : Observed c E s) (h' : Observed c' E' s') (n n' : Nat) (suite : CryptoSpec)
    (hs : SharedKeys c.backend suite s s' n n') (hstrict : suite.session_nonce_mode = .strict_increment)
    (hauth : authNonces ((view s').session n') ≠ [])
    (hall : ((view s).sentIn n).length ≤ 1 + (consumedNonces ((view s').session n')).length) :
    ((view s').takenIn n').flatten = ((view s).sentIn n).flatten := by
  obtain ⟨⟨e, es⟩, ⟨e', es'⟩, a', h1, h2, h3, h4, hc, hf, hst⟩ := layers_channel hb hbb h h' hs
  have ha : ∃ m p, SEvent.acceptedAuth m p ∈ es' := by
    obtain ⟨x, hx⟩ := List.exists_mem_of_ne_nil _ hauth
    obtain ⟨y, hy, hy'⟩ := List.mem_filterMap.mp hx
    rw [h2] at hy
    rcases List.mem_cons.mp hy with rfl | hy
    · cases y <;> cases h4; cases hy'
    · cases y with
      | acceptedAuth m p => exact ⟨m, p, hy⟩
      | _ => cases hy'
  rcases taken_shape h' h2 h4 with ⟨ht, hno⟩ | ⟨m, p, hm, ht⟩
  · exfalso
    obtain ⟨m, p, hm⟩ := ha
    exact hno m p hm
  · have hsent : (view s).sentIn n = p :: sentChunks es := by
      unfold View.sentIn
      rw [h1, ← sentIn_split hb hc hf hm]
      cases e <;> first | rfl | cases h3
    rw [hsent] at hall
    rw [ht, hsent, List.flatten_append, flatten_filter, List.flatten_cons]
    have hcons : consumedNonces ((view s').session n') = consumedNonces es' := by
      rw [h2]
      cases e' <;> first | rfl | cases h4
    rw [hcons] at hall
    have hd := C44_complete _ hb _ _ _ hc hf (hst hstrict) (by simpa [Nat.add_comm] using hall)
    rw [hd]
    by_cases hp : p = [] <;> simp [hp]

/-- What is put into messages comes from the application: without a close, the parts put into messages and what is still
to be sent make up what the application has handed over. -/
theorem sent_of_taken {c : Cfg} {E : Env} {s : Layer} (h : Observed c E s) (hc : Obs.lowerClose ∉ s.log) :
    (sentParts (history s)).flatten ++ (view s).outstanding = (s.log.filterMap takenData).flatten := by
  rw [← observations_history s] at hc ⊢
  have key := history_induct (c := c) (fun h => Obs.lowerClose ∉ observations h →
      (sentParts h).flatten ++ (viewOf h).outstanding = ((observations h).filterMap takenData).flatten ∧
      (lowerIsOpen h = false → (viewOf h).outstanding = [])) (history s)
    (fun pre e post => history_split h) (fun _ => ⟨rfl, fun _ => rfl⟩) ?_
  · exact (key hc).1
  intro pre e hp hf hc
  have hobs : observations (pre ++ [e]) = observations pre ++ (Ev.observation e).toList := by
    unfold observations
    rw [List.filterMap_append]
    cases e <;> rfl
  rw [hobs, List.mem_append, not_or] at hc
  obtain ⟨h1, h2⟩ := hp hc.1
  have hne : e ≠ .obs .lowerClose := by
    rintro rfl
    exact hc.2 (by simp [Ev.observation])
  rw [RefineProof.viewOf_snoc, sentParts_append, hobs, List.filterMap_append, List.flatten_append, List.flatten_append, ← h1,
    lowerIsOpen_snoc]
  by_cases ha : accepts e = true
  · unfold accepts at ha
    split at ha
    · rename_i d
      have h3 := hf.1
      rw [h3]
      refine ⟨by simp [sentParts, View.step, Ev.observation, takenData], fun h => ?_⟩
      rw [show openAfter (lowerIsOpen pre) (.obs (.startTx d true)) = lowerIsOpen pre from rfl, hf.2] at h
      cases h
    · cases ha
  · have htd : ((Ev.observation e).toList.filterMap takenData) = [] := by
      cases e with
      | act a => rfl
      | obs o => cases o with
        | startTx d b => cases b with
          | true => exact absurd rfl ha
          | false => rfl
        | _ => rfl
    rw [htd]
    by_cases hd : e = .act .discarded
    · subst hd
      have h3 := h2 hf
      rw [h3]
      exact ⟨rfl, fun _ => rfl⟩
    · have hstep := outstanding_step hf (by simpa using ha) hd
      refine ⟨by rw [List.append_assoc, hstep]; simp, fun ho => ?_⟩
      have : lowerIsOpen pre = false := by
        cases e with
        | act a => exact ho
        | obs o => cases o with
          | lowerOpen => cases ho
          | lowerClose => exact absurd rfl hne
          | _ => exact ho
      rw [h2 this] at hstep
      exact (List.append_eq_nil_iff.mp hstep).2

/-- The messages made are those of the sessions. -/
theorem sentParts_events {c : Cfg} {E : Env} {s : Layer} (h : Observed c E s) :
    sentParts (history s) = (view s).events.filterMap fun x => sentPart x.2 := by
  refine history_induct (c := c) (fun h => sentParts h = (viewOf h).events.filterMap fun x => sentPart x.2) (history s)
    (fun pre e post => history_split h) rfl ?_
  intro pre e hp hf
  rw [RefineProof.viewOf_snoc, sentParts_append, hp]
  have add : ∀ (v : View) (n : Option Nat) (x : SEvent), sentPart x = none →
      (v.add n x).events.filterMap (fun x => sentPart x.2) = v.events.filterMap fun x => sentPart x.2 := by
    intro v n x hx
    cases n with
    | none => rfl
    | some n => simp [View.add, hx]
  cases e with
  | obs o =>
    cases o with
    | startRx d =>
      simp only [View.step, sentParts]
      split
      · simp
      · split <;> simp
    | startTx d b => cases b <;> simp [View.step, sentParts]
    | established k a p => simp [View.step, sentParts, sentPart]
    | _ => simp [View.step, sentParts]
  | act a =>
    cases a with
    | sent p out clear rest =>
      obtain ⟨-, -, ho, -⟩ := hf
      obtain ⟨n, hn⟩ := Option.isSome_iff_exists.mp ho
      simp [View.step, View.add, hn, sentParts, sentPart]
    | notSent p => cases p <;> simp [View.step, sentParts]
    | checked p msg r =>
      cases r with
      | error x => cases p <;> (simp only [View.step]; rw [add _ _ _ rfl]; simp [sentParts])
      | ok x =>
        cases p
        · simp only [View.step]
          rw [add _ _ (.acceptedData msg x) rfl]
          simp [sentParts]
        · simp only [View.step]
          rw [add _ _ (.acceptedAuth msg x) rfl]
          simp [sentParts]
    | _ => simp [View.step, sentParts]

/-- With one session, everything is of that session. -/
theorem one_session {c : Cfg} {E : Env} {s : Layer} (h : Observed c E s) (h1 : (view s).count = 1) :
    (view s).session 0 = (view s).events.map (·.2) := by
  unfold View.session
  have : ∀ l : List (Nat × SEvent), (∀ x ∈ l, x.1 = 0) → (l.filterMap fun x => if x.1 = 0 then some x.2 else none) = l.map (·.2) := by
    intro l hl
    induction l with
    | nil => rfl
    | cons x l ih =>
      rw [List.filterMap_cons, if_pos (hl x (by simp)), ih (fun x hx => hl x (by simp [hx]))]
      rfl
  refine this _ fun x hx => ?_
  have := layer_events h x hx
  omega

theorem all_given {c : Cfg} {E : Env} (hE : ReadsInOrder c E) {s : Layer} (h : Observed c E s) (h1 : (view s).count = 1) :
    (view s).givenIn 0 = s.log.filterMap givenData := by
  rw [← given_log hE h]
  have : ∀ l : List (Nat × Bytes), (∀ x ∈ l, x.1 = 0) → (l.filterMap fun x => if x.1 = 0 then some x.2 else none) = l.map (·.2) := by
    intro l hl
    induction l with
    | nil => rfl
    | cons x l ih =>
      rw [List.filterMap_cons, if_pos (hl x (by simp)), ih (fun x hx => hl x (by simp [hx]))]
      rfl
  refine this _ fun x hx => ?_
  have := (StreamProof.stream hE h).gi x hx
  omega

theorem all_sent {c : Cfg} {E : Env} {s : Layer} (h : Observed c E s) (h1 : (view s).count = 1) :
    (view s).sentIn 0 = sentParts (history s) := by
  rw [sentParts_events h]
  unfold View.sentIn
  rw [one_session h h1, List.filterMap_map]
  rfl

/-- End to end. Two layers in their first session, with the same keys; the layer below the sender has not been closed; no
message was forged; the suite has strict nonces. The receiving application uses its layer directly, or through an
`IStack` before the layer below closes for the first time, and, if it is a responder, its layer does not fail to answer the session auth message. Then all the data that the receiving application has received, in order, is
a prefix of all the data that the sending application has handed over, in order, as sequences of bytes. -/
theorem C44_end_to_end (c c' : Cfg) (E E' : Env) (hE : ReadsInOrder c' E') 
    (hb : c.backend.Lawful) (hbb : c'.backend = c.backend) (s s' : Layer)
    (h : Observed c E s) (h' : Observed c' E' s') (h1 : (view s).count = 1) (h1' : (view s').count = 1)
    (suite : CryptoSpec) (hs : SharedKeys c.backend suite s s' 0 0) (hstrict : suite.session_nonce_mode = .strict_increment)
    (hc : Obs.lowerClose ∉ s.log) (hl : (∃ hh, c'.role = .responder hh) → Ev.act (.notSent false) ∉ history s') (hv : Unstale c' s'.log) :
    (s'.log.filterMap givenData).flatten <+: (s.log.filterMap takenData).flatten := by
  have hp := C44_layer_prefix c c' E E' hb hbb s s' h h' 0 0 suite hs hstrict
  obtain ⟨lost, last, e1, e2, -⟩ := C33_layer_none_skipped c' E' hE s' h' hv 0
  have hlost : lost = [] := by
    by_contra hx
    exact hl (e2 hx).2.1 (e2 hx).2.2
  rw [e1, hlost, List.nil_append, List.flatten_append, all_given hE h' h1', all_sent h h1] at hp
  refine ((List.prefix_append ..).trans hp).trans ?_
  rw [← sent_of_taken h hc]
  exact List.prefix_append ..

/-- The same, when everything was handed over and processed: the sender has nothing left to send; the receiver has
authenticated its peer and as many messages as were made; nothing is unread; the layer below the receiver has not been
closed. Then the application has received everything. -/
theorem C44_end_to_end_complete (c c' : Cfg) (E E' : Env) (hE : ReadsInOrder c' E') 
    (hb : c.backend.Lawful) (hbb : c'.backend = c.backend) (s s' : Layer)
    (h : Observed c E s) (h' : Observed c' E' s') (h1 : (view s).count = 1) (h1' : (view s').count = 1)
    (suite : CryptoSpec) (hs : SharedKeys c.backend suite s s' 0 0) (hstrict : suite.session_nonce_mode = .strict_increment)
    (hc : Obs.lowerClose ∉ s.log) (hl : (∃ hh, c'.role = .responder hh) → Ev.act (.notSent false) ∉ history s')
    (hauth : authNonces ((view s').session 0) ≠ [])
    (hall : ((view s).sentIn 0).length ≤ 1 + (consumedNonces ((view s').session 0)).length)
    (ho : (view s).outstanding = []) (hu : (view s').unread = none) (hc' : Ev.obs .lowerClose ∉ history s') :
    (s'.log.filterMap givenData).flatten = (s.log.filterMap takenData).flatten := by
  have hp := C44_layer_complete c c' E E' hb hbb s s' h h' 0 0 suite hs hstrict hauth hall
  have hv : Obs.lowerClose ∉ s'.log := by
    intro hm
    rw [← observations_history s'] at hm
    obtain ⟨e, he, hx⟩ := List.mem_filterMap.mp hm
    cases e with
    | obs o => cases hx; exact hc' he
    | act a => cases hx
  obtain ⟨lost, last, e1, e2, e3⟩ := C33_layer_none_skipped c' E' hE s' h' (.inr hv) 0
  have hlost : lost = [] := by
    by_contra hx
    exact hl (e2 hx).2.1 (e2 hx).2.2
  have hlast : last = [] := by
    by_contra hx
    rcases (e3 hx).2 with ⟨d, hd, -⟩ | hx
    · rw [hu] at hd; cases hd
    · exact hc' hx
  rw [e1, hlost, hlast, List.nil_append, List.append_nil, all_given hE h' h1', all_sent h h1] at hp
  rw [hp, ← sent_of_taken h hc, ho, List.append_nil]

/-! ### concrete executions -/

namespace LayerExample
open Exec

def sessionAlg : SessionAlgorithms := ⟨verifyStrictIncrement, .hmacSha256Trunc16 Toy.strong⟩

def headKeys (s : Option Layer) : SessionParam × SessionKeys :=
  match s.bind fun s => ((view s).session 0).head? with
  | some (.initialized _ p k) => (p, k)
  | _ => (⟨0, 0, 0⟩, ⟨[], []⟩)

def sentMessages (es : List SEvent) : List SessionData := es.filterMap fun | .sent f _ _ => some f.msg | _ => none

def authMessages (es : List SEvent) : List SessionData :=
  es.filterMap fun
    | .acceptedAuth m _ => some m
    | .acceptedData m _ => some m
    | .rejected m (.crypto .empty_user_data) => some m
    | _ => none

theorem noForgery_of {es es' : List SEvent} (h : ∀ m ∈ authMessages es', m ∈ sentMessages es) : NoForgery es es' := by
  intro m hm
  have : m ∈ authMessages es' := by
    rcases hm with ⟨p, hm⟩ | hm | ⟨p, hm⟩ <;> exact List.mem_filterMap.mpr ⟨_, hm, rfl⟩
  obtain ⟨e, he, hx⟩ := List.mem_filterMap.mp (h m this)
  cases e with
  | sent f c r => cases hx; exact ⟨f, c, r, he, rfl⟩
  | _ => cases hx

def closesBelow : Obs → Bool
  | .lowerClose => true
  | _ => false

def unanswered : Ev → Bool
  | .act (.notSent false) => true
  | .obs .lowerClose => true
  | _ => false

def iniMessages : List SessionData := ((final ini .tame hs iniData).map fun s => sentMessages ((view s).session 0)).getD []

set_option maxRecDepth 1000000 in
set_option synthInstance.maxSize 2000 in
/-- The initiator has handed over [1, 2, 3] and sent it; the responder has received it. All hypotheses of
`C44_end_to_end_complete` are met, and so are those of `C44_end_to_end`, `C44_layer_complete` and `C33_layer_none_skipped`. -/
example : ∃ s s', Observed ini EnvB.tame.env s ∧ Observed res EnvB.tame.env s' ∧ ReadsInOrder res EnvB.tame.env ∧
    (view s).count = 1 ∧ (view s').count = 1 ∧ SharedKeys ini.backend suite s s' 0 0 ∧ Obs.lowerClose ∉ s.log ∧
    Ev.act (.notSent false) ∉ history s' ∧ Ev.obs .lowerClose ∉ history s' ∧ authNonces ((view s').session 0) ≠ [] ∧
    ((view s).sentIn 0).length ≤ 1 + (consumedNonces ((view s').session 0)).length ∧ (view s).outstanding = [] ∧
    (view s').unread = none ∧ s'.log.filterMap givenData = [[1, 2, 3]] ∧ s.log.filterMap takenData = [[1, 2, 3]] ∧
    (view s').takenIn 0 = [[1, 2, 3]] := by
  obtain ⟨s, h1, h2⟩ := Exec.exists_of_map configured (c := ini) (E := .tame) (h := hs) (script := iniData)
    (f := fun s => (((view s).session 0).head?, (view s).count, sentMessages ((view s).session 0), s.log.any closesBelow,
      ((view s).sentIn 0).length, (view s).outstanding, s.log.filterMap takenData))
    (a := (some (.initialized sessionAlg (headKeys (final ini .tame hs iniData)).1 (headKeys (final ini .tame hs iniData)).2),
      1, iniMessages, false, 2, [], [[1, 2, 3]])) rfl
  obtain ⟨s', h1', h2'⟩ := Exec.exists_of_map configured (c := res) (E := .tame) (h := hs) (script := resRead)
    (f := fun s => (((view s).session 0).head?, (view s).count, (authMessages ((view s).session 0)).all iniMessages.contains,
      (history s).any unanswered, authNonces ((view s).session 0), (consumedNonces ((view s).session 0)).length, (view s).unread,
      s.log.filterMap givenData, (view s).takenIn 0))
    (a := (some (.initialized sessionAlg (headKeys (final res .tame hs resRead)).1 (headKeys (final res .tame hs resRead)).2),
      1, true, false, [0], 1, none, [[1, 2, 3]], [[1, 2, 3]])) rfl
  simp only [Prod.mk.injEq] at h2 h2'
  obtain ⟨a1, a2, a3, a4, a5, a6, a7⟩ := h2
  obtain ⟨b1, b2, b3, b4, b5, b6, b7, b8, b9⟩ := h2'
  have hsuite : SSP21.Spec.SuiteOf ini.backend suite sessionAlg :=
    ⟨fun last new => strict_iff last new, .inl ⟨rfl, rfl⟩⟩
  have hun : ∀ e ∈ history s', unanswered e = false := by
    intro e he
    by_contra hx
    rw [List.any_eq_false] at b4
    exact b4 e he (by simpa using hx)
  refine ⟨s, s', h1.observed, h1'.observed, .inr ⟨_, rfl⟩, a2, b2, ⟨?_, noForgery_of ?_⟩, ?_, fun hx => ?_, fun hx => ?_, ?_, ?_, a6, b7, b8, a7, b9⟩
  · obtain ⟨es, he⟩ := List.head?_eq_some_iff.mp a1
    obtain ⟨es', he'⟩ := List.head?_eq_some_iff.mp b1
    exact ⟨_, _, _, es, _, _, _, es', he, he', by decide +kernel, hsuite, hsuite⟩
  · intro m hm
    rw [a3]
    exact by simpa using List.all_eq_true.mp b3 m hm
  · intro hx
    rw [List.any_eq_false] at a4
    exact a4 _ hx rfl
  · have := hun _ hx
    cases this
  · have := hun _ hx
    cases this
  · rw [b5]; simp
  · rw [a5, b6]; exact Nat.le_refl 2

end LayerExample

end SSP21.Crypto
