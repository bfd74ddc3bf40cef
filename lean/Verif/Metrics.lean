import Mathlib.Analysis.SpecialFunctions.Log.Base
import Verif.Qix
/-
  The metrics that a source of quantum keys logs: the mean and the standard deviation of the time between keys, and the
  Shannon entropy of the bytes of the keys (cpp/exe/proxy/src/qkd/QIXQKDSource.cpp:72-207).

  They are computed with `double`. A `double` is represented by the real number it stands for, or infinity, or NaN
  (the sign of zero is left out); the rounding of every operation is a parameter `rnd` of the model, so that theorems
  speak about every rounding, or about exact arithmetic (`rnd = Dbl.fin`).
-/
namespace SSP21.Qix

/-- A value of type `double`. -/
inductive Dbl
  | nan
  | inf (negative : Bool)
  | fin (x : ℝ)

namespace Dbl

/-- `a + b` of IEEE 754. -/
def add (rnd : ℝ → Dbl) : Dbl → Dbl → Dbl
  | nan, _ => nan
  | _, nan => nan
  | inf a, inf b => if a = b then inf a else nan
  | inf a, fin _ => inf a
  | fin _, inf b => inf b
  | fin x, fin y => rnd (x + y)

/-- `-a`. -/
def neg : Dbl → Dbl
  | nan => nan
  | inf a => inf !a
  | fin x => fin (-x)

/-- `a * b`: zero times infinity is not a number. -/
noncomputable def mul (rnd : ℝ → Dbl) : Dbl → Dbl → Dbl
  | nan, _ => nan
  | _, nan => nan
  | inf a, inf b => inf (a != b)
  | inf a, fin y => if y = 0 then nan else inf (a != decide (y < 0))
  | fin x, inf b => if x = 0 then nan else inf (decide (x < 0) != b)
  | fin x, fin y => rnd (x * y)

/-- `a / b`. -/
noncomputable def div (rnd : ℝ → Dbl) : Dbl → Dbl → Dbl
  | nan, _ => nan
  | _, nan => nan
  | inf _, inf _ => nan
  | inf a, fin y => inf (a != decide (y < 0))
  | fin _, inf _ => fin 0
  | fin x, fin y => if y = 0 then (if x = 0 then nan else inf (decide (x < 0))) else rnd (x / y)

/-- `sqrt` of the C library. -/
noncomputable def sqrt (rnd : ℝ → Dbl) : Dbl → Dbl
  | nan => nan
  | inf a => if a then nan else inf false
  | fin x => if x < 0 then nan else rnd (Real.sqrt x)

/-- `log2` of the C library: the logarithm of zero is minus infinity. -/
noncomputable def log2 (rnd : ℝ → Dbl) : Dbl → Dbl
  | nan => nan
  | inf a => if a then nan else inf false
  | fin x => if x < 0 then nan else if x = 0 then inf true else rnd (Real.logb 2 x)

end Dbl

/-- The settings `update_period` (in nanoseconds) and `bin_size`, QIXQKDSource.cpp:63-70. -/
structure MetricsCfg where
  period : Int
  binSize : UInt16

/-- The members of `FrameHandler` that belong to the metrics, QIXQKDSource.h:28-45. Times are in nanoseconds. The
deque is a list, oldest first. -/
structure Metrics where
  bin : List Int := []
  counts : UInt8 → UInt64 := fun _ => 0
  numBytes : UInt64 := 0
  lastUpdate : Int

/-- The three values that are logged, QIXQKDSource.cpp:119-121. -/
structure Report where
  mean : Dbl
  stdDev : Dbl
  entropy : Dbl

/-- `interval_in_sec`, QIXQKDSource.cpp:140-144: the difference of two times as a `duration<double>` in seconds. -/
noncomputable def intervalInSec (rnd : ℝ → Dbl) (t1 t2 : Int) : Dbl :=
  Dbl.div rnd (rnd ((t2 - t1 : Int) : ℝ)) (.fin 1000000000)

/-- `for_each_pair`, QIXQKDSource.cpp:125-138: the pairs of neighbours, in order. -/
def forEachPair {α : Type} (f : α → Int → Int → α) : α → List Int → α
  | a, t1 :: t2 :: rest => forEachPair f (f a t1 t2) (t2 :: rest)
  | a, _ => a

/-- `calc_mean_time_between_keys`, QIXQKDSource.cpp:146-163. -/
noncomputable def calcMean (rnd : ℝ → Dbl) (bin : List Int) : Dbl :=
  if bin.length < 2 then .inf false
  else
    let sum := forEachPair (fun sum t1 t2 => Dbl.add rnd sum (intervalInSec rnd t1 t2)) (.fin 0) bin
    Dbl.div rnd sum (rnd ((bin.length - 1 : Nat) : ℝ))

/-- `calc_std_dev_of_time_between_keys`, QIXQKDSource.cpp:165-184. -/
noncomputable def calcStdDev (rnd : ℝ → Dbl) (bin : List Int) (mean : Dbl) : Dbl :=
  if bin.length < 2 then .inf false
  else
    let sum := forEachPair (fun sum t1 t2 =>
      let diff := intervalInSec rnd t1 t2
      let diffMinusMean := Dbl.add rnd diff mean.neg
      Dbl.add rnd sum (Dbl.mul rnd diffMinusMean diffMinusMean)) (.fin 0) bin
    Dbl.sqrt rnd (Dbl.div rnd sum (rnd ((bin.length - 1 : Nat) : ℝ)))

/-- `log256`, QIXQKDSource.cpp:186-190. -/
noncomputable def log256 (rnd : ℝ → Dbl) (x : Dbl) : Dbl := Dbl.div rnd (Dbl.log2 rnd x) (.fin 8)

/-- An entry of `frequencies`, QIXQKDSource.cpp:196-198. -/
noncomputable def frequency (rnd : ℝ → Dbl) (m : Metrics) (value : UInt8) : Dbl :=
  Dbl.div rnd (rnd ((m.counts value).toNat : ℝ)) (rnd (m.numBytes.toNat : ℝ))

/-- `calculate_shannon_entropy`, QIXQKDSource.cpp:192-207. -/
noncomputable def calcEntropy (rnd : ℝ → Dbl) (m : Metrics) : Dbl :=
  ((List.range 256).foldl (fun sum i =>
    let f := frequency rnd m (UInt8.ofNat i)
    Dbl.add rnd sum (Dbl.mul rnd f (log256 rnd f))) (.fin 0)).neg

/-- `FrameHandler::handle`, QIXQKDSource.cpp:72-123, after the key was given to its subscriber (`Router.handle`): the
metrics, and what is logged. -/
noncomputable def Metrics.handle (rnd : ℝ → Dbl) (c : MetricsCfg) (m : Metrics) (now : Int) (f : Frame) :
    Metrics × Option Report :=
  if f.status ≠ .ok then (m, none)
  else if f.key.length ≠ 32 then (m, none)
  else
    let bin := m.bin ++ [now]
    let bin := if bin.length > c.binSize.toNat then bin.drop 1 else bin
    let counts := f.key.foldl (fun counts b => fun v => if v = b then counts v + 1 else counts v) m.counts
    let m := { m with bin := bin, counts := counts, numBytes := m.numBytes + UInt64.ofNat f.key.length }
    if now - m.lastUpdate > c.period ∧ m.bin.length = c.binSize.toNat then
      let mean := calcMean rnd m.bin
      ({ m with lastUpdate := now }, some ⟨mean, calcStdDev rnd m.bin mean, calcEntropy rnd m⟩)
    else (m, none)

/-- A history of frames with the times at which they are handled: what is logged for each. -/
noncomputable def Metrics.run (rnd : ℝ → Dbl) (c : MetricsCfg) (m : Metrics) : List (Int × Frame) → Metrics × List (Option Report)
  | [] => (m, [])
  | (now, f) :: rest =>
    let r := m.handle rnd c now f
    let r' := r.1.run rnd c rest
    (r'.1, r.2 :: r'.2)

end SSP21.Qix
