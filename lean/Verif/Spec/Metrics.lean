import Verif.Metrics
/-
  What the metrics of a source of quantum keys should be, in terms of the keys that have arrived.
-/
namespace SSP21.Qix.Spec

/-- The keys among the frames of a history, with the times at which they arrived: status `ok`, 32 bytes. -/
def keysOf (h : List (Int × Frame)) : List (Int × Bytes) :=
  (h.filter fun x => x.2.status = .ok ∧ x.2.key.length = 32).map fun x => (x.1, x.2.key)

/-- The times at which keys arrived. -/
def keyTimes (h : List (Int × Frame)) : List Int := (keysOf h).map (·.1)

/-- All bytes of all keys. -/
def keyBytes (h : List (Int × Frame)) : Bytes := ((keysOf h).map (·.2)).flatten

/-- The last `n` elements (all if there are fewer). -/
def lastN {α : Type} (n : Nat) (l : List α) : List α := l.drop (l.length - n)

/-- The times at which something was logged. -/
def reportTimes (h : List (Int × Frame)) (outs : List (Option Report)) : List Int :=
  ((h.zip outs).filter fun x => x.2.isSome).map fun x => x.1.1

/-- The seconds between successive times (in nanoseconds). -/
noncomputable def gaps (times : List Int) : List ℝ := (times.zip times.tail).map fun x => ((x.2 - x.1 : Int) : ℝ) / 1000000000

/-- The mean. -/
noncomputable def mean (xs : List ℝ) : ℝ := xs.sum / xs.length

/-- The standard deviation. -/
noncomputable def stdDev (xs : List ℝ) : ℝ := Real.sqrt (mean (xs.map fun x => (x - mean xs) ^ 2))

/-- The share of a value among bytes. -/
noncomputable def share (bytes : Bytes) (value : UInt8) : ℝ := (bytes.count value : ℝ) / bytes.length

/-- Shannon's entropy of the distribution of the bytes, in bytes (zero times the logarithm of zero is zero, as usual;
in Lean the logarithm of zero is zero). -/
noncomputable def entropy (bytes : Bytes) : ℝ :=
  -∑ i ∈ Finset.range 256, share bytes (UInt8.ofNat i) * Real.logb 256 (share bytes (UInt8.ofNat i))

/-- A rounding for which the range of exponents is large enough: finite results stay finite, zero stays zero, positive
numbers stay positive. -/
structure Rounds (rnd : ℝ → Dbl) : Prop where
  zero : rnd 0 = .fin 0
  finite : ∀ x, ∃ y, rnd x = .fin y
  pos : ∀ x y, 0 < x → rnd x = .fin y → 0 < y

end SSP21.Qix.Spec
