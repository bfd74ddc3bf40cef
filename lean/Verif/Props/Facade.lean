import Verif.Facade
/-
  Property C40: the facade calls backend functions only if they exist.
-/
namespace SSP21.Facade

namespace Spec

/-- The group of functions that make up an algorithm: they are advertised together. -/
def group : Op → List Op
  | .zeroMemory => [.zeroMemory]
  | .genRandom => [.genRandom]
  | .secureEquals => [.secureEquals]
  | .hashSha256 | .hmacSha256 | .hkdfSha256 => [.hashSha256, .hmacSha256, .hkdfSha256]
  | .genKeypairX25519 | .dhX25519 => [.genKeypairX25519, .dhX25519]
  | .genKeypairEd25519 | .signEd25519 | .verifyEd25519 => [.genKeypairEd25519, .signEd25519, .verifyEd25519]
  | .gcmEncrypt | .gcmDecrypt => [.gcmEncrypt, .gcmDecrypt]

/-- The backend provides an algorithm. -/
def Supports (backend : Pointers) (op : Op) : Prop := ∀ o ∈ group op, backend o = true

end Spec

/-- The backend that was installed. -/
theorem Reachable.cases {s : State} (h : Reachable s) : s = .start ∨
    (s.initialized = true ∧ s.backend .zeroMemory = true ∧ s.backend .genRandom = true ∧ s.backend .secureEquals = true) := by
  cases h with
  | start => exact .inl rfl
  | install impl h hi =>
    right
    unfold State.initialize at hi
    repeat' split at hi
    all_goals simp_all
    subst hi
    simp_all

/-- C40, for every operation but the generation of X25519 key pairs: it runs the backend function of that name exactly
if a backend was installed that provides the whole algorithm; otherwise the process is stopped. A null pointer is never
called. -/
theorem C40_supported_partial {s : State} (h : Reachable s) (op : Op) (hop : op ≠ .genKeypairX25519) :
    (s.call op = .runs op ↔ s.initialized = true ∧ Spec.Supports s.backend op) ∧
    (s.call op = .exit ↔ ¬ (s.initialized = true ∧ Spec.Supports s.backend op)) ∧ s.call op ≠ .nullCall := by
  rcases h.cases with rfl | ⟨hi, h1, h2, h3⟩
  · cases op <;> simp [State.call, State.start, State.checked, State.checkedSha256, State.checkedX25519,
      State.checkedEd25519, State.checkedGcm]
  · have key : ∀ (e : Effect), s.checked e = e := fun e => by simp [State.checked, hi]
    cases op <;>
      simp only [State.call, key, State.checkedSha256, State.checkedX25519, State.checkedEd25519, State.checkedGcm,
        State.supportsSha256, State.supportsX25519, State.supportsEd25519, State.supportsGcm, State.pointer, Spec.Supports,
        Spec.group, hi, ne_eq, not_true_eq_false, reduceCtorEq, not_false_eq_true] at * <;>
      (try simp_all) <;>
      (split <;> simp_all) <;> grind

/-- The full claim. -/
def C40_claim : Prop := ∀ s op, Reachable s →
  (s.call op = .runs op ↔ s.initialized = true ∧ Spec.Supports s.backend op) ∧ s.call op ≠ .nullCall

/-- A backend with the mandatory functions and Ed25519, but without X25519. -/
def edOnly : Pointers := fun
  | .zeroMemory | .genRandom | .secureEquals | .genKeypairEd25519 | .signEd25519 | .verifyEd25519 => true
  | _ => false
/-- A backend with the mandatory functions and X25519, but without Ed25519. -/
def xOnly : Pointers := fun
  | .zeroMemory | .genRandom | .secureEquals | .genKeypairX25519 | .dhX25519 => true
  | _ => false

/-- C40 is false of the generation of X25519 key pairs, in both directions: with a backend that has only Ed25519 a null
pointer is called; with a backend that has only X25519 the process is stopped although the backend provides it. -/
theorem C40_keypair_violation :
    (∃ s, Reachable s ∧ s.backend = edOnly ∧ s.call .genKeypairX25519 = .nullCall) ∧
    (∃ s, Reachable s ∧ s.backend = xOnly ∧ Spec.Supports s.backend .genKeypairX25519 ∧ s.call .genKeypairX25519 = .exit) ∧
    ¬ C40_claim := by
  have h1 : Reachable ⟨true, edOnly⟩ := .install edOnly .start rfl
  have h2 : Reachable ⟨true, xOnly⟩ := .install xOnly .start rfl
  refine ⟨⟨_, h1, rfl, rfl⟩, ⟨_, h2, rfl, by intro o ho; simp only [Spec.group, List.mem_cons, List.not_mem_nil, or_false] at ho; rcases ho with rfl | rfl <;> rfl, rfl⟩, fun h => ?_⟩
  exact (h _ .genKeypairX25519 h1).2 rfl

/-- An algorithm is advertised exactly if a backend has been installed and provides all functions of it; before that nothing is. -/
theorem C40_advertised {s : State} (h : Reachable s) :
    (s.supportsSha256 = true ↔ s.initialized = true ∧ Spec.Supports s.backend .hashSha256) ∧
    (s.supportsX25519 = true ↔ s.initialized = true ∧ Spec.Supports s.backend .dhX25519) ∧
    (s.supportsEd25519 = true ↔ s.initialized = true ∧ Spec.Supports s.backend .signEd25519) ∧
    (s.supportsGcm = true ↔ s.initialized = true ∧ Spec.Supports s.backend .gcmEncrypt) := by
  rcases h.cases with rfl | ⟨hi, -, -, -⟩
  · simp [State.start, State.supportsSha256, State.supportsX25519, State.supportsEd25519, State.supportsGcm]
  · simp only [hi, true_and, Spec.Supports, Spec.group, State.supportsSha256, State.supportsX25519, State.supportsEd25519, State.supportsGcm,
      Bool.and_eq_true, List.mem_cons, List.not_mem_nil, or_false, forall_eq_or_imp, forall_eq]
    refine ⟨?_, ?_, ?_⟩
    all_goals first | trivial | exact ⟨fun h => by simp_all, fun h => by simp_all⟩ | skip

/-- The backend is installed once: no later call of `initialize` succeeds, and nothing else changes it. -/
theorem C40_once {s s' : State} (impl impl' : Pointers) (h : s.initialize impl = some s') :
    s'.backend = impl ∧ s'.initialized = true ∧ s'.initialize impl' = none ∧
      impl .zeroMemory = true ∧ impl .genRandom = true ∧ impl .secureEquals = true := by
  unfold State.initialize at h
  repeat' split at h
  all_goals simp_all
  subst h
  simp [State.initialize]

/-- The three functions that every backend must have are always callable after the initialization. -/
theorem C40_mandatory {s : State} (h : Reachable s) (hi : s.initialized = true) (op : Op)
    (hop : op = .zeroMemory ∨ op = .genRandom ∨ op = .secureEquals) : s.call op = .runs op := by
  rcases h.cases with rfl | ⟨_, h1, h2, h3⟩
  · cases hi
  · rcases hop with rfl | rfl | rfl <;> simp [State.call, State.checked, State.pointer, hi, h1, h2, h3]

/-- A backend that has everything. -/
example : Reachable ⟨true, fun _ => true⟩ ∧ ∀ op, State.call ⟨true, fun _ => true⟩ op = .runs op :=
  ⟨.install (fun _ => true) .start rfl, fun op => by cases op <;> rfl⟩

end SSP21.Facade
