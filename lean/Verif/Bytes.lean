import Mathlib.Data.List.Induction
/-
  Byte sequences and big-endian integers: the part of the ser4cpp contract the code relies on.
  ser4cpp is an external dependency whose source is not in /repo; its behaviour is assumed
  (see DESIGN.md, trusted base).
-/
namespace SSP21

/-- `seq32_t` contents. Models cpp/libs/ssp21/include/ssp21/util/SequenceTypes.h:7-10
(a read-only slice; here the bytes themselves). -/
abbrev Bytes := List UInt8

/-- `n` big-endian bytes of `v` (taken modulo 256^n). Models `ser4cpp::UIntN::write_to`
(external; used e.g. in cpp/libs/ssp21/src/crypto/VLength.cpp:30-40). -/
def be : Nat → Nat → Bytes
  | 0, _ => []
  | n + 1, v => be n (v / 256) ++ [UInt8.ofNat v]

/-- The number denoted by big-endian bytes. Models `ser4cpp::UIntN::read_from` (external). -/
def beNat (bs : Bytes) : Nat := bs.foldl (fun acc b => acc * 256 + b.toNat) 0

@[simp] theorem be_length (n v : Nat) : (be n v).length = n := by
  induction n generalizing v with
  | zero => rfl
  | succ n ih => simp [be, ih]

theorem beNat_append_singleton (bs : Bytes) (b : UInt8) :
    beNat (bs ++ [b]) = beNat bs * 256 + b.toNat := by
  simp [beNat, List.foldl_append]

theorem beNat_be (n v : Nat) : beNat (be n v) = v % 256 ^ n := by
  induction n generalizing v with
  | zero => simp [be, beNat, Nat.mod_one]
  | succ n ih =>
    rw [be, beNat_append_singleton, ih, Nat.pow_succ, Nat.mul_comm (256 ^ n) 256,
      Nat.mod_mul]
    simp
    omega

theorem beNat_lt (bs : Bytes) : beNat bs < 256 ^ bs.length := by
  induction bs using List.reverseRecOn with
  | nil => simp [beNat]
  | append_singleton bs b ih =>
    rw [beNat_append_singleton, List.length_append, List.length_singleton, Nat.pow_succ]
    have := b.toNat_lt
    omega

theorem be_beNat (bs : Bytes) : be bs.length (beNat bs) = bs := by
  induction bs using List.reverseRecOn with
  | nil => rfl
  | append_singleton bs b ih =>
    rw [beNat_append_singleton, List.length_append, List.length_singleton, be]
    have hb := b.toNat_lt
    have h1 : (beNat bs * 256 + b.toNat) / 256 = beNat bs := by omega
    have h2 : UInt8.ofNat (beNat bs * 256 + b.toNat) = b := by
      apply UInt8.toNat_inj.mp
      simp
      try omega
    rw [h1, h2, ih]

theorem be_inj {n v w : Nat} (hv : v < 256 ^ n) (hw : w < 256 ^ n) (h : be n v = be n w) : v = w := by
  have := congrArg beNat h
  rwa [beNat_be, beNat_be, Nat.mod_eq_of_lt hv, Nat.mod_eq_of_lt hw] at this

/-- Take exactly `n` bytes or fail: `input.length() < n` check, `take(n)`, `advance(n)` of
ser4cpp sequences (external). -/
def splitExact (n : Nat) (input : Bytes) : Option (Bytes × Bytes) :=
  if input.length < n then none else some (input.take n, input.drop n)

theorem splitExact_append (a rest : Bytes) : splitExact a.length (a ++ rest) = some (a, rest) := by
  simp [splitExact]

theorem splitExact_append' {n : Nat} (a rest : Bytes) (h : a.length = n) :
    splitExact n (a ++ rest) = some (a, rest) := by
  subst h; exact splitExact_append a rest

theorem splitExact_some {n : Nat} {input a rest : Bytes} (h : splitExact n input = some (a, rest)) :
    input = a ++ rest ∧ a.length = n := by
  unfold splitExact at h
  split at h
  · cases h
  · cases h
    simp; omega

end SSP21
