import Mathlib.Analysis.SpecialFunctions.Log.NegMulLog
import Mathlib.Analysis.Convex.Jensen
import Mathlib.Tactic.Linarith
import Mathlib.Tactic.Positivity
import Mathlib.Tactic.FieldSimp
import Mathlib.Tactic.Ring
import Verif.Spec.Metrics
/-
  C60: the metrics of a source of quantum keys.
-/
namespace SSP21.Qix
namespace MetricsProof
open Spec

theorem run_snoc (rnd : ℝ → Dbl) (c : MetricsCfg) (h : List (Int × Frame)) : ∀ (m : Metrics) (x : Int × Frame),
    m.run rnd c (h ++ [x]) =
      (((m.run rnd c h).1.handle rnd c x.1 x.2).1, (m.run rnd c h).2 ++ [((m.run rnd c h).1.handle rnd c x.1 x.2).2]) := by
  induction h with
  | nil => intro m x; simp [Metrics.run]
  | cons y ys ih => intro m x; simp [Metrics.run, ih]

theorem run_length (rnd : ℝ → Dbl) (c : MetricsCfg) (h : List (Int × Frame)) : ∀ m : Metrics, (m.run rnd c h).2.length = h.length := by
  induction h with
  | nil => intro m; rfl
  | cons y ys ih => intro m; simp [Metrics.run, ih]

theorem counts_fold (key : Bytes) : ∀ (counts : UInt8 → UInt64) (v : UInt8),
    key.foldl (fun counts b => fun v => if v = b then counts v + 1 else counts v) counts v = counts v + UInt64.ofNat (key.count v) := by
  induction key with
  | nil => intro counts v; simp
  | cons b bs ih =>
    intro counts v
    rw [List.foldl_cons, ih, List.count_cons]
    by_cases h : v = b
    · subst h
      simp only [if_true, beq_self_eq_true]
      rw [Nat.add_comm, UInt64.ofNat_add, ← UInt64.add_assoc]; rfl
    · have : (b == v) = false := by simpa using fun e => h e.symm
      simp [h, this]

theorem lastN_snoc {α : Type} (n : Nat) (l : List α) (x : α) :
    (if (lastN n l ++ [x]).length > n then (lastN n l ++ [x]).drop 1 else lastN n l ++ [x]) = lastN n (l ++ [x]) := by
  unfold lastN
  simp only [List.length_append, List.length_drop, List.length_singleton]
  by_cases h : l.length - (l.length - n) + 1 > n
  · rw [if_pos h]
    have h1 : n ≤ l.length := by omega
    have h2 : l.length + 1 - n = (l.length - n) + 1 := by omega
    have h3 : l.drop (l.length - n) ++ [x] = (l ++ [x]).drop (l.length - n) := by
      rw [List.drop_append_of_le_length (by omega)]
    rw [h3, List.drop_drop, h2]
  · rw [if_neg h]
    have h1 : l.length + 1 - n = 0 := by omega
    have h2 : l.length - n = 0 := by omega
    simp [h1, h2]

structure Inv (c : MetricsCfg) (start : Int) (h : List (Int × Frame)) (r : Metrics × List (Option Report)) : Prop where
  bin : r.1.bin = lastN c.binSize.toNat (keyTimes h)
  counts : ∀ v, r.1.counts v = UInt64.ofNat ((keyBytes h).count v)
  num : r.1.numBytes = UInt64.ofNat (keyBytes h).length
  last : r.1.lastUpdate = (start :: reportTimes h r.2).getLast (by simp)

def Counts (f : Frame) : Prop := f.status = .ok ∧ f.key.length = 32
instance (f : Frame) : Decidable (Counts f) := inferInstanceAs (Decidable (_ ∧ _))

theorem keysOf_snoc (h : List (Int × Frame)) (x : Int × Frame) :
    keysOf (h ++ [x]) = keysOf h ++ if Counts x.2 then [(x.1, x.2.key)] else [] := by
  unfold keysOf
  rw [List.filter_append, List.map_append]
  by_cases hc : Counts x.2
  · have : (decide (x.2.status = .ok ∧ x.2.key.length = 32)) = true := decide_eq_true hc
    simp [hc, List.filter_cons, hc.1, hc.2]
  · have : (decide (x.2.status = .ok ∧ x.2.key.length = 32)) = false := decide_eq_false hc
    simp only [List.filter_cons, this, hc]
    simp

theorem reportTimes_snoc (h : List (Int × Frame)) (outs : List (Option Report)) (x : Int × Frame) (o : Option Report)
    (hl : outs.length = h.length) :
    reportTimes (h ++ [x]) (outs ++ [o]) = reportTimes h outs ++ if o.isSome then [x.1] else [] := by
  unfold reportTimes
  rw [List.zip_append hl.symm, List.filter_append, List.map_append]
  cases o <;> simp

/-- The state in which the metrics are computed when a key arrives. -/
noncomputable def after (c : MetricsCfg) (m : Metrics) (now : Int) (key : Bytes) : Metrics :=
  { m with bin := if (m.bin ++ [now]).length > c.binSize.toNat then (m.bin ++ [now]).drop 1 else m.bin ++ [now], counts := key.foldl (fun counts b => fun v => if v = b then counts v + 1 else counts v) m.counts, numBytes := m.numBytes + UInt64.ofNat key.length }

/-- What the metrics make of a state. -/
noncomputable def report (rnd : ℝ → Dbl) (m : Metrics) : Report :=
  ⟨calcMean rnd m.bin, calcStdDev rnd m.bin (calcMean rnd m.bin), calcEntropy rnd m⟩

theorem handle_eq (rnd : ℝ → Dbl) (c : MetricsCfg) (m : Metrics) (now : Int) (f : Frame) :
    m.handle rnd c now f =
      if Counts f then
        if now - m.lastUpdate > c.period ∧ (after c m now f.key).bin.length = c.binSize.toNat then
          ({ after c m now f.key with lastUpdate := now }, some (report rnd (after c m now f.key)))
        else (after c m now f.key, none)
      else (m, none) := by
  unfold Metrics.handle
  by_cases h1 : f.status = .ok
  · by_cases h2 : f.key.length = 32
    · have hk : Counts f := ⟨h1, h2⟩
      conv_rhs => rw [if_pos hk]
      rw [if_neg (by simp [h1]), if_neg (by simp [h2])]
      rfl
    · simp [Counts, h1, h2]
  · simp [Counts, h1]

theorem inv (rnd : ℝ → Dbl) (c : MetricsCfg) (start : Int) (h : List (Int × Frame)) :
    Inv c start h (Metrics.run rnd c { lastUpdate := start } h) := by
  induction h using List.reverseRecOn with
  | nil => exact ⟨by simp [Metrics.run, lastN, keyTimes, keysOf], fun v => by simp [Metrics.run, keyBytes, keysOf],
      by simp [Metrics.run, keyBytes, keysOf], by simp [Metrics.run, reportTimes]⟩
  | append_singleton h x ih =>
    have hl := run_length rnd c h { lastUpdate := start }
    rw [run_snoc]
    generalize Metrics.run rnd c { lastUpdate := start } h = r at ih hl ⊢
    obtain ⟨m, outs⟩ := r
    obtain ⟨h1, h2, h3, h4⟩ := ih
    simp only at h1 h2 h3 h4 hl ⊢
    rw [handle_eq]
    by_cases hc : Counts x.2
    · have e1 : keyTimes (h ++ [x]) = keyTimes h ++ [x.1] := by simp [keyTimes, keysOf_snoc, hc]
      have e2 : keyBytes (h ++ [x]) = keyBytes h ++ x.2.key := by simp [keyBytes, keysOf_snoc, hc]
      have a1 : (after c m x.1 x.2.key).bin = lastN c.binSize.toNat (keyTimes (h ++ [x])) := by
        rw [e1, ← lastN_snoc, ← h1]; rfl
      have a2 : ∀ v, (after c m x.1 x.2.key).counts v = UInt64.ofNat ((keyBytes (h ++ [x])).count v) := by
        intro v
        rw [e2, List.count_append, UInt64.ofNat_add, ← h2]
        exact counts_fold _ _ _
      have a3 : (after c m x.1 x.2.key).numBytes = UInt64.ofNat (keyBytes (h ++ [x])).length := by
        rw [e2, List.length_append, UInt64.ofNat_add, ← h3]; rfl
      rw [if_pos hc]
      split
      · refine ⟨a1, a2, a3, ?_⟩
        simp [reportTimes_snoc _ _ _ _ hl]
      · refine ⟨a1, a2, a3, ?_⟩
        have : (after c m x.1 x.2.key).lastUpdate = m.lastUpdate := rfl
        simp [reportTimes_snoc _ _ _ _ hl, this, h4]
    · rw [if_neg hc]
      have e1 : keyTimes (h ++ [x]) = keyTimes h := by simp [keyTimes, keysOf_snoc, hc]
      have e2 : keyBytes (h ++ [x]) = keyBytes h := by simp [keyBytes, keysOf_snoc, hc]
      refine ⟨by rw [e1]; exact h1, fun v => by rw [e2]; exact h2 v, by rw [e2]; exact h3, ?_⟩
      simp [reportTimes_snoc _ _ _ _ hl, h4]

theorem forEachPair_eq {α : Type} (f : α → Int → Int → α) : ∀ (bin : List Int) (a : α),
    forEachPair f a bin = (bin.zip bin.tail).foldl (fun a x => f a x.1 x.2) a
  | [], a => rfl
  | [t], a => rfl
  | t1 :: t2 :: rest, a => by
    unfold forEachPair
    rw [forEachPair_eq f (t2 :: rest)]
    rfl

/-- Sums in exact arithmetic. -/
theorem foldl_exact {β : Type} (g : β → ℝ) : ∀ (l : List β) (a : ℝ),
    l.foldl (fun s x => Dbl.add .fin s (.fin (g x))) (.fin a) = .fin (a + (l.map g).sum)
  | [], a => by simp
  | x :: xs, a => by
    rw [List.foldl_cons]
    show List.foldl _ (Dbl.fin (a + g x)) xs = _
    rw [foldl_exact g xs]
    simp [add_assoc]

theorem interval_exact (t1 t2 : Int) : intervalInSec .fin t1 t2 = .fin (((t2 - t1 : Int) : ℝ) / 1000000000) := by
  simp [intervalInSec, Dbl.div]

theorem gaps_length (bin : List Int) : (gaps bin).length = bin.length - 1 := by
  simp [gaps]

theorem mean_exact (bin : List Int) (h : 2 ≤ bin.length) : calcMean .fin bin = .fin (mean (gaps bin)) := by
  unfold calcMean
  rw [if_neg (by omega)]
  simp only [forEachPair_eq, interval_exact]
  rw [foldl_exact (fun x : Int × Int => ((x.2 - x.1 : Int) : ℝ) / 1000000000)]
  have hne : ((bin.length - 1 : Nat) : ℝ) ≠ 0 := by
    have : bin.length - 1 ≠ 0 := by omega
    exact_mod_cast this
  rw [Dbl.div, if_neg hne, mean, gaps_length, zero_add]
  rfl

theorem stdDev_exact (bin : List Int) (h : 2 ≤ bin.length) :
    calcStdDev .fin bin (.fin (mean (gaps bin))) = .fin (stdDev (gaps bin)) := by
  unfold calcStdDev
  rw [if_neg (by omega)]
  simp only [forEachPair_eq, interval_exact, Dbl.neg]
  have : ∀ (l : List (Int × Int)) (a : ℝ), l.foldl (fun (s : Dbl) (x : Int × Int) =>
      Dbl.add .fin s (Dbl.mul .fin (Dbl.add .fin (.fin (((x.2 - x.1 : Int) : ℝ) / 1000000000)) (.fin (-mean (gaps bin))))
        (Dbl.add .fin (.fin (((x.2 - x.1 : Int) : ℝ) / 1000000000)) (.fin (-mean (gaps bin)))))) (.fin a) =
      .fin (a + (l.map fun x => (((x.2 - x.1 : Int) : ℝ) / 1000000000 - mean (gaps bin)) ^ 2).sum) := by
    intro l a
    rw [← foldl_exact]
    congr 1
    funext s x
    simp only [Dbl.add, Dbl.mul]
    congr 2
    ring
  rw [this]
  have hne : ((bin.length - 1 : Nat) : ℝ) ≠ 0 := by
    have : bin.length - 1 ≠ 0 := by omega
    exact_mod_cast this
  have hs : (List.map (fun x : Int × Int => (((x.2 - x.1 : Int) : ℝ) / 1000000000 - mean (gaps bin)) ^ 2) (bin.zip bin.tail)) =
      (gaps bin).map fun x => (x - mean (gaps bin)) ^ 2 := by
    simp [gaps, Function.comp_def]
  rw [Dbl.div, if_neg hne, Dbl.sqrt, hs, zero_add]
  have hp : 0 ≤ ((gaps bin).map fun x => (x - mean (gaps bin)) ^ 2).sum / ((bin.length - 1 : Nat) : ℝ) := by
    apply div_nonneg
    · apply List.sum_nonneg
      intro y hy
      obtain ⟨z, -, rfl⟩ := List.mem_map.mp hy
      positivity
    · positivity
  rw [if_neg (not_lt.mpr hp), stdDev]
  congr 2
  conv_rhs => rw [mean]
  rw [List.length_map, gaps_length]

theorem gaps_sum : ∀ (bin : List Int) (h : bin ≠ []), (gaps bin).sum = ((bin.getLast h - bin.head h : Int) : ℝ) / 1000000000
  | [], h => absurd rfl h
  | [t], _ => by simp [gaps]
  | t1 :: t2 :: rest, _ => by
    have := gaps_sum (t2 :: rest) (by simp)
    have e : gaps (t1 :: t2 :: rest) = ((t2 - t1 : Int) : ℝ) / 1000000000 :: gaps (t2 :: rest) := rfl
    rw [e, List.sum_cons, this]
    simp only [List.head_cons, List.getLast_cons_cons]
    push_cast
    ring

theorem add_nan (rnd : ℝ → Dbl) (a : Dbl) : Dbl.add rnd a .nan = .nan := by cases a <;> rfl

theorem foldl_nan_left {β : Type} (rnd : ℝ → Dbl) (g : β → Dbl) : ∀ (l : List β), l.foldl (fun s x => Dbl.add rnd s (g x)) .nan = .nan
  | [] => rfl
  | x :: xs => by rw [List.foldl_cons]; exact foldl_nan_left rnd g xs

theorem foldl_nan {β : Type} (rnd : ℝ → Dbl) (g : β → Dbl) : ∀ (l : List β) (a : Dbl), (∃ x ∈ l, g x = .nan) →
    l.foldl (fun s x => Dbl.add rnd s (g x)) a = .nan
  | [], a, h => by simp at h
  | x :: xs, a, h => by
    rw [List.foldl_cons]
    by_cases hx : g x = .nan
    · rw [hx, add_nan]; exact foldl_nan_left rnd g xs
    · refine foldl_nan rnd g xs _ ?_
      obtain ⟨y, hy, hn⟩ := h
      rcases List.mem_cons.mp hy with rfl | hy
      · exact absurd hn hx
      · exact ⟨y, hy, hn⟩

/-- The share of a value that has not occurred makes the sum NaN. -/
theorem entropy_nan (rnd : ℝ → Dbl) (h0 : rnd 0 = .fin 0) (m : Metrics) (v : UInt8) (hv : m.counts v = 0) :
    calcEntropy rnd m = .nan := by
  have term : Dbl.mul rnd (frequency rnd m v) (log256 rnd (frequency rnd m v)) = .nan := by
    have : frequency rnd m v = .fin 0 ∨ frequency rnd m v = .nan := by
      unfold frequency
      rw [hv, show ((0 : UInt64).toNat : ℝ) = 0 by simp, h0]
      cases rnd (m.numBytes.toNat : ℝ) with
      | nan => right; rfl
      | inf a => left; rfl
      | fin y =>
        simp only [Dbl.div]
        by_cases hy : y = 0
        · right; simp [hy]
        · left; simp [hy, h0]
    rcases this with e | e <;> rw [e]
    · simp [log256, Dbl.log2, Dbl.div, Dbl.mul]
    · rfl
  unfold calcEntropy
  simp only
  rw [foldl_nan]
  · rfl
  · exact ⟨v.toNat, by simpa using v.toNat_lt, by simpa using term⟩

/-- Terms that are finite give a finite sum. -/
theorem foldl_finite {β : Type} (rnd : ℝ → Dbl) (hr : ∀ x, ∃ y, rnd x = .fin y) (g : β → Dbl) : ∀ (l : List β) (a : ℝ),
    (∀ x ∈ l, ∃ y, g x = .fin y) → ∃ y, l.foldl (fun s x => Dbl.add rnd s (g x)) (.fin a) = .fin y
  | [], a, _ => ⟨a, rfl⟩
  | x :: xs, a, h => by
    obtain ⟨y, hy⟩ := h x (by simp)
    obtain ⟨z, hz⟩ := hr (a + y)
    obtain ⟨w, hw⟩ := foldl_finite rnd hr g xs z fun x hx => h x (by simp [hx])
    refine ⟨w, ?_⟩
    rw [List.foldl_cons, hy]
    simpa [Dbl.add, hz] using hw

theorem entropy_finite (rnd : ℝ → Dbl) (hr : Rounds rnd) (m : Metrics) (hn : m.numBytes ≠ 0) (hc : ∀ v, m.counts v ≠ 0) :
    ∃ y, calcEntropy rnd m = .fin y := by
  have pos : ∀ n : UInt64, n ≠ 0 → ∃ y, rnd (n.toNat : ℝ) = .fin y ∧ 0 < y := by
    intro n hn
    obtain ⟨y, hy⟩ := hr.finite (n.toNat : ℝ)
    refine ⟨y, hy, hr.pos _ _ ?_ hy⟩
    have : n.toNat ≠ 0 := fun e => hn (UInt64.toNat_inj.mp (by simpa using e))
    positivity
  obtain ⟨d, hd, hdp⟩ := pos _ hn
  have term : ∀ v, ∃ y, Dbl.mul rnd (frequency rnd m v) (log256 rnd (frequency rnd m v)) = .fin y := by
    intro v
    obtain ⟨c, hcv, hcp⟩ := pos _ (hc v)
    obtain ⟨q, hq⟩ := hr.finite (c / d)
    have hqp := hr.pos _ _ (by positivity) hq
    have hf : frequency rnd m v = .fin q := by
      unfold frequency
      rw [hcv, hd, Dbl.div, if_neg hdp.ne', hq]
    obtain ⟨l, hl⟩ := hr.finite (Real.logb 2 q)
    obtain ⟨l8, hl8⟩ := hr.finite (l / 8)
    obtain ⟨t, ht⟩ := hr.finite (q * l8)
    refine ⟨t, ?_⟩
    have e : log256 rnd (.fin q) = .fin l8 := by
      unfold log256
      rw [Dbl.log2, if_neg (not_lt.mpr hqp.le), if_neg hqp.ne', hl, Dbl.div, if_neg (by norm_num), hl8]
    rw [hf, e, Dbl.mul, ht]
  obtain ⟨y, hy⟩ := foldl_finite rnd hr.finite (fun i => Dbl.mul rnd (frequency rnd m (UInt8.ofNat i)) (log256 rnd (frequency rnd m (UInt8.ofNat i))))
    (List.range 256) 0 fun i _ => term _
  refine ⟨-y, ?_⟩
  unfold calcEntropy
  simp only
  rw [hy]
  rfl

theorem sum_range (g : Nat → ℝ) : ∀ n, ((List.range n).map g).sum = ∑ i ∈ Finset.range n, g i
  | 0 => by simp
  | n + 1 => by rw [List.range_succ, List.map_append, List.sum_append, sum_range g n, Finset.sum_range_succ]; simp

theorem entropy_exact (bytes : Bytes) (m : Metrics) (hc : ∀ v, (m.counts v).toNat = bytes.count v) (hn : m.numBytes.toNat = bytes.length)
    (ha : ∀ v, v ∈ bytes) : calcEntropy .fin m = .fin (entropy bytes) := by
  have hl : (bytes.length : ℝ) ≠ 0 := by
    have : bytes.length ≠ 0 := fun e => by simpa [List.length_eq_zero_iff.mp e] using ha 0
    exact_mod_cast this
  have hf : ∀ v, frequency .fin m v = .fin (share bytes v) := by
    intro v
    unfold frequency
    rw [hc, hn, Dbl.div, if_neg hl, share]
  have hp : ∀ v, 0 < share bytes v := by
    intro v
    have : 0 < bytes.count v := List.count_pos_iff.mpr (ha v)
    unfold share
    positivity
  have hlog : ∀ v, log256 .fin (.fin (share bytes v)) = .fin (Real.logb 256 (share bytes v)) := by
    intro v
    unfold log256
    rw [Dbl.log2, if_neg (not_lt.mpr (hp v).le), if_neg (hp v).ne', Dbl.div, if_neg (by norm_num)]
    congr 1
    rw [Real.logb, Real.logb, show (256 : ℝ) = 2 ^ 8 by norm_num, Real.log_pow]
    have : Real.log 2 ≠ 0 := by
      have := Real.log_pos (x := 2) (by norm_num)
      exact this.ne'
    field_simp
    norm_num
  unfold calcEntropy
  simp only [hf, hlog, Dbl.mul]
  rw [foldl_exact]
  simp only [Dbl.neg, zero_add, entropy]
  rw [sum_range]

theorem sum_count (bytes : Bytes) : ∑ i ∈ Finset.range 256, bytes.count (UInt8.ofNat i) = bytes.length := by
  induction bytes with
  | nil => simp
  | cons b bs ih =>
    simp only [List.count_cons, Finset.sum_add_distrib, ih, List.length_cons]
    rw [Nat.add_right_inj (n := List.length bs)]
    have : ∀ i ∈ Finset.range 256, (if (b == UInt8.ofNat i) = true then 1 else 0) = if i = b.toNat then 1 else 0 := by
      intro i hi
      have hi' : i < 256 := Finset.mem_range.mp hi
      have : b = UInt8.ofNat i ↔ i = b.toNat := by
        constructor
        · rintro rfl; simp; omega
        · rintro rfl; simp
      simp [this]
    rw [Finset.sum_congr rfl this]
    simp [b.toNat_lt]

theorem sum_share (bytes : Bytes) (h : bytes ≠ []) : ∑ i ∈ Finset.range 256, share bytes (UInt8.ofNat i) = 1 := by
  unfold share
  rw [← Finset.sum_div, ← Nat.cast_sum, sum_count, div_self]
  have := List.length_pos_iff.mpr h
  positivity

theorem share_bounds (bytes : Bytes) (v : UInt8) : 0 ≤ share bytes v ∧ share bytes v ≤ 1 := by
  unfold share
  constructor
  · positivity
  · apply div_le_one_of_le₀ _ (by positivity)
    exact_mod_cast List.count_le_length

theorem log256_pos : 0 < Real.log 256 := Real.log_pos (by norm_num)

theorem entropy_eq (bytes : Bytes) :
    entropy bytes = (∑ i ∈ Finset.range 256, Real.negMulLog (share bytes (UInt8.ofNat i))) / Real.log 256 := by
  unfold entropy
  rw [Finset.sum_div, ← Finset.sum_neg_distrib]
  refine Finset.sum_congr rfl fun i _ => ?_
  rw [Real.negMulLog, Real.logb]
  ring

theorem share_mem (bytes : Bytes) (v : UInt8) : share bytes v ∈ Set.Ici (0 : ℝ) := (share_bounds bytes v).1

theorem report_entropy (rnd : ℝ → Dbl) (m : Metrics) : (report rnd m).entropy = calcEntropy rnd m := by simp only [report]

/-- What the metrics are computed from, when they are. -/
theorem reported (rnd : ℝ → Dbl) (c : MetricsCfg) (start : Int) (h : List (Int × Frame)) (now : Int) (f : Frame) (r : Report)
    (hr : (Metrics.run rnd c { lastUpdate := start } (h ++ [(now, f)])).2.getLast? = some (some r)) :
    ∃ m : Metrics, r = report rnd m ∧ m.bin = lastN c.binSize.toNat (keyTimes (h ++ [(now, f)])) ∧ m.bin.length = c.binSize.toNat ∧
      (∀ v, m.counts v = UInt64.ofNat ((keyBytes (h ++ [(now, f)])).count v)) ∧
      m.numBytes = UInt64.ofNat (keyBytes (h ++ [(now, f)])).length ∧ 32 ≤ (keyBytes (h ++ [(now, f)])).length := by
  have hi := inv rnd c start (h ++ [(now, f)])
  rw [run_snoc] at hr hi
  simp only [List.getLast?_append, List.getLast?_singleton, Option.some_or, Option.some.injEq] at hr
  obtain ⟨h1, h2, h3, -⟩ := hi
  generalize (Metrics.run rnd c { lastUpdate := start } h).1 = m at hr h1 h2 h3
  rw [handle_eq] at hr h1 h2 h3
  by_cases hc : Counts f
  · rw [if_pos hc] at hr h1 h2 h3
    by_cases hd : now - m.lastUpdate > c.period ∧ (after c m now f.key).bin.length = c.binSize.toNat
    · rw [if_pos hd] at hr h1 h2 h3
      refine ⟨after c m now f.key, (by simpa using hr.symm), h1, hd.2, h2, h3, ?_⟩
      simp [keyBytes, keysOf_snoc, hc, hc.2]
    · rw [if_neg hd] at hr; cases hr
  · rw [if_neg hc] at hr; cases hr

end MetricsProof

open Spec MetricsProof

/-- C60, when: metrics are logged for a frame exactly if it is a key, more than the period has passed since they were
logged last (or since the start), and as many keys as the size of the bin have arrived. -/
theorem C60_when (rnd : ℝ → Dbl) (c : MetricsCfg) (start : Int) (h : List (Int × Frame)) (now : Int) (f : Frame) :
    ∃ out, (Metrics.run rnd c { lastUpdate := start } (h ++ [(now, f)])).2 = (Metrics.run rnd c { lastUpdate := start } h).2 ++ [out] ∧
      (out.isSome ↔ f.status = .ok ∧ f.key.length = 32 ∧
        c.period < now - (start :: reportTimes h (Metrics.run rnd c { lastUpdate := start } h).2).getLast (by simp) ∧
        c.binSize.toNat ≤ (keyTimes (h ++ [(now, f)])).length) := by
  have hi := inv rnd c start h
  refine ⟨_, by rw [run_snoc], ?_⟩
  rw [← hi.last]
  obtain ⟨h1, -, -, -⟩ := hi
  generalize (Metrics.run rnd c { lastUpdate := start } h).1 = m at h1 ⊢
  simp only
  rw [handle_eq]
  by_cases hc : Counts f
  · have e1 : keyTimes (h ++ [(now, f)]) = keyTimes h ++ [now] := by simp [keyTimes, keysOf_snoc, hc]
    have a1 : (after c m now f.key).bin = lastN c.binSize.toNat (keyTimes (h ++ [(now, f)])) := by
      rw [e1, ← lastN_snoc, ← h1]; rfl
    have a2 : (after c m now f.key).bin.length = c.binSize.toNat ↔ c.binSize.toNat ≤ (keyTimes (h ++ [(now, f)])).length := by
      rw [a1, lastN, List.length_drop]; omega
    rw [if_pos hc]
    obtain ⟨c1, c2⟩ := hc
    by_cases hd : now - m.lastUpdate > c.period ∧ (after c m now f.key).bin.length = c.binSize.toNat
    · rw [if_pos hd]
      exact ⟨fun _ => ⟨c1, c2, hd.1, a2.mp hd.2⟩, fun _ => rfl⟩
    · rw [if_neg hd]
      exact ⟨fun e => absurd e (by simp), fun e => absurd ⟨e.2.2.1, a2.mpr e.2.2.2⟩ hd⟩
  · rw [if_neg hc]
    exact ⟨fun e => absurd e (by simp), fun e => absurd ⟨e.1, e.2.1⟩ hc⟩

/-- C60, how often: between the start and the first time metrics are logged, and between two such times, more than the
period passes. -/
theorem C60_spacing (rnd : ℝ → Dbl) (c : MetricsCfg) (start : Int) (h : List (Int × Frame)) :
    (start :: reportTimes h (Metrics.run rnd c { lastUpdate := start } h).2).IsChain fun t1 t2 => c.period < t2 - t1 := by
  induction h using List.reverseRecOn with
  | nil => simp [reportTimes]
  | append_singleton h x ih =>
    obtain ⟨out, h1, h2⟩ := C60_when rnd c start h x.1 x.2
    rw [show h ++ [x] = h ++ [(x.1, x.2)] from rfl, h1, reportTimes_snoc _ _ _ _ (run_length ..)]
    cases out with
    | none => simpa using ih
    | some r =>
      have := (h2.mp rfl).2.2.1
      simp only [Option.isSome_some, if_true]
      rw [← List.cons_append, List.isChain_append]
      refine ⟨ih, by simp, ?_⟩
      intro a ha b hb
      rw [List.getLast?_eq_some_getLast (by simp)] at ha
      simp only [Option.mem_def, Option.some.injEq] at ha
      simp only [List.head?_cons, Option.mem_def, Option.some.injEq] at hb
      rw [← ha, ← hb]
      exact this

/-- C60, the times: in exact arithmetic, if the bin has room for two keys, the mean and the standard deviation are those of
the times between the last keys, as many as the bin holds; the mean is the time from the first to the last of them,
divided by their number less one. -/
theorem C60_times (c : MetricsCfg) (hb : 2 ≤ c.binSize.toNat) (start : Int) (h : List (Int × Frame)) (now : Int) (f : Frame)
    (r : Report) (hr : (Metrics.run .fin c { lastUpdate := start } (h ++ [(now, f)])).2.getLast? = some (some r)) :
    ∃ times oldest newest, times = lastN c.binSize.toNat (keyTimes (h ++ [(now, f)])) ∧ times.length = c.binSize.toNat ∧
      times.head? = some oldest ∧ times.getLast? = some newest ∧
      r.mean = .fin (mean (gaps times)) ∧ r.stdDev = .fin (stdDev (gaps times)) ∧
      mean (gaps times) = ((newest - oldest : Int) : ℝ) / 1000000000 / (c.binSize.toNat - 1 : Nat) := by
  obtain ⟨m, rfl, h1, h2, -, -⟩ := reported _ _ _ _ _ _ _ hr
  have hne : m.bin ≠ [] := fun e => by rw [e] at h2; simp at h2; omega
  refine ⟨m.bin, m.bin.head hne, m.bin.getLast hne, h1, h2, (List.head?_eq_some_head hne), List.getLast?_eq_some_getLast hne, ?_, ?_, ?_⟩
  · exact mean_exact _ (by omega)
  · show calcStdDev .fin m.bin (calcMean .fin m.bin) = _
    rw [mean_exact _ (by omega)]
    exact stdDev_exact _ (by omega)
  · rw [mean, gaps_sum _ hne, gaps_length, h2]

/-- C60: if the bin holds fewer than two keys, mean and standard deviation are infinite, however long the source runs. -/
theorem C60_small_bin (rnd : ℝ → Dbl) (c : MetricsCfg) (hb : c.binSize.toNat < 2) (start : Int) (h : List (Int × Frame)) (now : Int)
    (f : Frame) (r : Report) (hr : (Metrics.run rnd c { lastUpdate := start } (h ++ [(now, f)])).2.getLast? = some (some r)) :
    r.mean = .inf false ∧ r.stdDev = .inf false := by
  obtain ⟨m, rfl, h1, h2, -, -⟩ := reported _ _ _ _ _ _ _ hr
  exact ⟨if_pos (by omega), if_pos (by omega)⟩

/-- C60, the entropy, if every byte value has occurred (and fewer than 2^64 bytes have arrived): in exact arithmetic it is
Shannon's entropy of the bytes of all keys so far. -/
theorem C60_entropy_partial (c : MetricsCfg) (start : Int) (h : List (Int × Frame)) (now : Int) (f : Frame) (r : Report)
    (hr : (Metrics.run .fin c { lastUpdate := start } (h ++ [(now, f)])).2.getLast? = some (some r))
    (hall : ∀ v, v ∈ keyBytes (h ++ [(now, f)])) (hlen : (keyBytes (h ++ [(now, f)])).length < 2 ^ 64) :
    r.entropy = .fin (entropy (keyBytes (h ++ [(now, f)]))) := by
  obtain ⟨m, rfl, -, -, h3, h4, -⟩ := reported _ _ _ _ _ _ _ hr
  rw [report_entropy]
  refine entropy_exact _ _ (fun v => ?_) ?_ hall
  · rw [h3, UInt64.toNat_ofNat_of_lt']
    exact lt_of_le_of_lt List.count_le_length hlen
  · rw [h4, UInt64.toNat_ofNat_of_lt' hlen]

/-- C60 is false otherwise: with every rounding that leaves zero alone, the entropy that is logged is not a number as long as
there is a byte value that no key has contained. -/
theorem C60_entropy_violation (rnd : ℝ → Dbl) (h0 : rnd 0 = .fin 0) (c : MetricsCfg) (start : Int) (h : List (Int × Frame)) (now : Int)
    (f : Frame) (r : Report) (hr : (Metrics.run rnd c { lastUpdate := start } (h ++ [(now, f)])).2.getLast? = some (some r))
    (v : UInt8) (hv : v ∉ keyBytes (h ++ [(now, f)])) : r.entropy = .nan := by
  obtain ⟨m, rfl, -, -, h3, -⟩ := reported _ _ _ _ _ _ _ hr
  rw [report_entropy]
  exact entropy_nan rnd h0 m v (by rw [h3, List.count_eq_zero_of_not_mem hv]; rfl)

/-- So it is a number exactly if every byte value has occurred. -/
theorem C60_entropy_number (rnd : ℝ → Dbl) (hrnd : Rounds rnd) (c : MetricsCfg) (start : Int) (h : List (Int × Frame)) (now : Int)
    (f : Frame) (r : Report) (hr : (Metrics.run rnd c { lastUpdate := start } (h ++ [(now, f)])).2.getLast? = some (some r))
    (hlen : (keyBytes (h ++ [(now, f)])).length < 2 ^ 64) :
    (∃ x, r.entropy = .fin x) ↔ ∀ v, v ∈ keyBytes (h ++ [(now, f)]) := by
  constructor
  · rintro ⟨x, hx⟩ v
    by_cases hv : v ∈ keyBytes (h ++ [(now, f)])
    · exact hv
    · rw [C60_entropy_violation rnd hrnd.zero c start h now f r hr v hv] at hx
      cases hx
  · intro hall
    obtain ⟨m, rfl, -, -, h3, h4, h5⟩ := reported _ _ _ _ _ _ _ hr
    have ne : ∀ n : Nat, 0 < n → n < 2 ^ 64 → UInt64.ofNat n ≠ 0 := by
      intro n h1 h2 e
      have := congrArg UInt64.toNat e
      rw [UInt64.toNat_ofNat_of_lt' h2] at this
      simp at this; omega
    rw [report_entropy]
    refine entropy_finite rnd hrnd m ?_ fun v => ?_
    · rw [h4]; exact ne _ (by omega) hlen
    · rw [h3]; exact ne _ (List.count_pos_iff.mpr (hall v)) (lt_of_le_of_lt List.count_le_length hlen)

/-- In particular for the first seven keys, whatever they are: 224 bytes cannot contain 256 values. -/
theorem C60_first_seven_keys_violation (rnd : ℝ → Dbl) (h0 : rnd 0 = .fin 0) (c : MetricsCfg) (start : Int) (h : List (Int × Frame))
    (now : Int) (f : Frame) (r : Report)
    (hr : (Metrics.run rnd c { lastUpdate := start } (h ++ [(now, f)])).2.getLast? = some (some r))
    (hfew : (keyTimes (h ++ [(now, f)])).length ≤ 7) : r.entropy = .nan := by
  generalize hh : h ++ [(now, f)] = hist at *
  have hlen : (keyBytes hist).length = 32 * (keyTimes hist).length := by
    have : ∀ l : List (Int × Frame), (keyBytes l).length = 32 * (keyTimes l).length := by
      intro l
      induction l using List.reverseRecOn with
      | nil => simp [keyBytes, keyTimes, keysOf]
      | append_singleton l x ih =>
        unfold keyBytes keyTimes at *
        rw [keysOf_snoc]
        by_cases hc : Counts x.2
        · simp only [if_pos hc, List.map_append, List.flatten_append, List.length_append, ih]
          simp [hc.2]; omega
        · simpa [hc] using ih
    exact this hist
  have : ∃ v, v ∉ keyBytes hist := by
    by_contra hne
    have hall : ∀ v, v ∈ keyBytes hist := fun v => by
      by_contra hv
      exact hne ⟨v, hv⟩
    have h1 := sum_count (keyBytes hist)
    have h2 : ∑ i ∈ Finset.range 256, 1 ≤ ∑ i ∈ Finset.range 256, (keyBytes hist).count (UInt8.ofNat i) :=
      Finset.sum_le_sum fun i _ => List.count_pos_iff.mpr (hall _)
    simp only [Finset.sum_const, Finset.card_range, smul_eq_mul, mul_one] at h2
    omega
  obtain ⟨v, hv⟩ := this
  rw [← hh] at hr hv
  exact C60_entropy_violation rnd h0 c start h now f r hr v hv

/-- The measure itself is reasonable: between 0 and 1 byte per byte, and 1 for bytes that are all equally frequent. -/
theorem C60_entropy_range (bytes : Bytes) (hne : bytes ≠ []) :
    0 ≤ entropy bytes ∧ entropy bytes ≤ 1 ∧ ((∀ v w, bytes.count v = bytes.count w) → entropy bytes = 1) := by
  have hl := log256_pos
  have hs := sum_share bytes hne
  refine ⟨?_, ?_, ?_⟩
  · rw [entropy_eq]
    refine div_nonneg (Finset.sum_nonneg fun i _ => Real.negMulLog_nonneg (share_bounds ..).1 (share_bounds ..).2) hl.le
  · rw [entropy_eq, div_le_one hl]
    have := Real.concaveOn_negMulLog.le_map_sum (t := Finset.range 256) (w := fun _ => (1 : ℝ) / 256)
      (p := fun i => share bytes (UInt8.ofNat i)) (fun _ _ => by norm_num) (by simp) (fun i _ => share_mem _ _)
    simp only [smul_eq_mul, ← Finset.mul_sum, hs, mul_one] at this
    rw [Real.negMulLog, show (1 : ℝ) / 256 = 256⁻¹ by norm_num, Real.log_inv] at this
    linarith
  · intro heq
    have h1 : ∀ v, share bytes v = 1 / 256 := by
      intro v
      have e : ∀ i ∈ Finset.range 256, share bytes (UInt8.ofNat i) = share bytes v := fun i _ => by
        unfold share; rw [heq _ v]
      rw [Finset.sum_congr rfl e] at hs
      simp at hs
      linarith
    rw [entropy_eq]
    simp only [h1, Finset.sum_const, Finset.card_range, Real.negMulLog]
    rw [show (1 : ℝ) / 256 = 256⁻¹ by norm_num, Real.log_inv]
    rw [nsmul_eq_mul]
    push_cast
    field_simp

/-! ### Examples -/

namespace MetricsExample

/-- A key with the bytes `a, a + 1, …, a + 31`. -/
def key (a : Nat) : Frame := ⟨UInt64.ofNat a, (List.range 32).map fun i => UInt8.ofNat (a + i), .ok⟩

/-- Keys that arrive every second, beginning at time 1 s; the first eight contain every byte value once. -/
def history (n : Nat) : List (Int × Frame) := (List.range n).map fun i => ((i + 1 : Nat) * 1000000000, key (32 * i))

/-- Metrics at most every two seconds, over the last three keys. -/
def cfg : MetricsCfg := ⟨2000000000, 3⟩

/-- Which of nine frames are followed by a report: the third key is the first that fills the bin, and three seconds after the
start is more than two; then again every third key. -/
example : (Metrics.run .fin cfg { lastUpdate := 0 } (history 9)).2.map Option.isSome =
    [false, false, true, false, false, true, false, false, true] := by decide +kernel

theorem exists_report (n : Nat) (h : ((Metrics.run .fin cfg { lastUpdate := 0 } (history n)).2.getLast?.map Option.isSome) = some true) :
    ∃ r, (Metrics.run .fin cfg { lastUpdate := 0 } (history n)).2.getLast? = some (some r) := by
  revert h
  generalize (Metrics.run .fin cfg { lastUpdate := 0 } (history n)).2.getLast? = o
  rcases o with _ | _ | r
  · simp
  · simp
  · exact fun _ => ⟨r, rfl⟩

/-- The report after nine keys exists; mean one second, deviation none, and a number as entropy. -/
example : ∃ r, (Metrics.run .fin cfg { lastUpdate := 0 } (history 9)).2.getLast? = some (some r) ∧
    r.mean = .fin 1 ∧ r.stdDev = .fin 0 ∧ r.entropy = .fin (entropy (keyBytes (history 9))) := by
  have hsplit : history 9 = history 8 ++ [(9000000000, key 256)] := by decide +kernel
  obtain ⟨r, hr⟩ := exists_report 9 (by decide +kernel)
  rw [hsplit] at hr
  obtain ⟨times, a, b, h1, h2, h3, h4, h5, h6, h7⟩ := C60_times cfg (by decide) 0 _ _ _ r hr
  have ht : times = [7000000000, 8000000000, 9000000000] := by rw [h1]; decide +kernel
  subst ht
  have hg : gaps [7000000000, 8000000000, 9000000000] = [1, 1] := by norm_num [gaps]
  have hm : mean (gaps [7000000000, 8000000000, 9000000000]) = 1 := by rw [hg]; norm_num [mean]
  refine ⟨r, by rw [hsplit]; exact hr, by rw [h5, hm], ?_, ?_⟩
  · rw [h6, stdDev, hm, hg]; norm_num [mean]
  · rw [hsplit]
    refine C60_entropy_partial cfg 0 _ _ _ r hr ?_ ?_
    · intro v
      have : ∀ i : Fin 256, UInt8.ofNat i ∈ keyBytes (history 8 ++ [(9000000000, key 256)]) := by decide +kernel
      simpa using this ⟨v.toNat, v.toNat_lt⟩
    · decide +kernel

/-- The report after three keys exists, and its entropy is not a number. -/
example : ∃ r, (Metrics.run .fin cfg { lastUpdate := 0 } (history 3)).2.getLast? = some (some r) ∧ r.entropy = .nan := by
  have hsplit : history 3 = history 2 ++ [(3000000000, key 64)] := by decide +kernel
  obtain ⟨r, hr⟩ := exists_report 3 (by decide +kernel)
  refine ⟨r, hr, ?_⟩
  rw [hsplit] at hr
  exact C60_first_seven_keys_violation .fin rfl cfg 0 _ _ _ r hr (by decide +kernel)

/-- Exact arithmetic is a rounding in this sense. -/
example : Rounds .fin := ⟨rfl, fun x => ⟨x, rfl⟩, fun _ _ h e => by cases e; exact h⟩

end MetricsExample
end SSP21.Qix
