import Verif.AtomFields
/-
  Properties of every observation in a log.
-/
namespace SSP21.Crypto

/-- Every observation of the log satisfies `P`, which may refer to what was observed before it. -/
def AllAt (P : List Obs → Obs → Prop) (log : List Obs) : Prop :=
  ∀ pre o post, log = pre ++ o :: post → P pre o

theorem AllAt.nil {P} : AllAt P [] := by
  intro pre o post h
  simp at h

theorem AllAt.snoc {P} {log : List Obs} {o : Obs} : AllAt P (log ++ [o]) ↔ AllAt P log ∧ P log o := by
  constructor
  · intro h
    exact ⟨fun pre o' post e => h pre o' (post ++ [o]) (by rw [e]; simp), h log o [] rfl⟩
  · rintro ⟨h1, h2⟩ pre o' post e
    rw [List.append_eq_append_iff] at e
    rcases e with ⟨x, rfl, hx⟩ | ⟨x, rfl, hx⟩
    · cases x with
      | nil =>
        simp only [List.nil_append, List.cons.injEq] at hx
        simpa [hx.1] using h2
      | cons y x => simp at hx
    · cases x with
      | nil =>
        simp only [List.nil_append, List.cons.injEq] at hx
        simpa [hx.1] using h2
      | cons y x =>
        simp only [List.cons_append, List.cons.injEq] at hx
        obtain ⟨rfl, rfl⟩ := hx
        exact h1 pre o' x rfl

theorem AllAt.append {P} {log extra : List Obs} (h : AllAt P log)
    (hx : ∀ pre o post, extra = pre ++ o :: post → P (log ++ pre) o) : AllAt P (log ++ extra) := by
  induction extra using List.reverseRecOn with
  | nil => simpa using h
  | append_singleton extra o ih =>
    rw [← List.append_assoc, AllAt.snoc]
    exact ⟨ih fun pre o' post e => hx pre o' (post ++ [o]) (by rw [e]; simp), hx extra o [] rfl⟩

/-- A monitor whose state does not change at the observations of `extra`. -/
theorem foldl_neutral {σ : Type} {f : σ → Obs → σ} {extra : List Obs} {a : σ}
    (h : ∀ o ∈ extra, f a o = a) : extra.foldl f a = a := by
  induction extra with
  | nil => rfl
  | cons o extra ih =>
    rw [List.foldl_cons, h o (by simp)]
    exact ih fun o ho => h o (by simp [ho])

end SSP21.Crypto
