import Verif.Emulator
import Verif.Props.Qix
/-
  Property C66: the frames that the emulator of a QKD device writes.
-/
namespace SSP21.Emulator
open Qix (Frame)

namespace Spec

/-- The bytes of a frame with the status "ok". -/
def bytes (f : Frame) : Bytes := Qix.Spec.frame f.keyId f.key 1

/-- Several frames one after the other. -/
def stream (fs : List Frame) : Bytes := (fs.map bytes).flatten

/-- The ports before, and the ports after the frames were written, in this order, each to all ports.
If a write failed, it is that of the last frame to port `m`: the ports before port `m` have received this frame,
port `m` the first `n` bytes of it, and the ports after it nothing of it. `fs` are the frames with the failures while it was
written. -/
structure Written (fs : List (Frame × Errors)) (before after : List Bytes) (failed : Option (Nat × Nat)) : Prop where
  ports : after.length = before.length
  complete : failed = none → (∀ x ∈ fs, ∀ j < before.length, x.2 j = none) ∧
    ∀ (j : Nat) (h : j < before.length), after[j]? = some (before[j] ++ stream (fs.map (·.1)))
  failure : ∀ m n, failed = some (m, n) → m < before.length ∧ ∃ done f error, fs = done ++ [(f, error)] ∧ error m = some n ∧
    (∀ x ∈ done, ∀ j < before.length, x.2 j = none) ∧ (∀ j < m, error j = none) ∧
    ∀ (j : Nat) (h : j < before.length), after[j]? = some (before[j] ++ stream (done.map (·.1)) ++
      (if j < m then bytes f else if j = m then (bytes f).take n else []))

/-- The frames with these keys, numbered from `n` on. -/
def numbered : Nat → List Bytes → List Frame
  | _, [] => []
  | n, key :: keys => ⟨UInt64.ofNat n, key, .ok⟩ :: numbered (n + 1) keys

/-- The number that a line of binary digits denotes. -/
def binary (line : List Char) : Nat := line.foldl (fun n c => 2 * n + if c = '1' then 1 else 0) 0

/-- A line of 256 binary digits. -/
def Good (line : List Char) : Prop := line.length = 256 ∧ ∀ c ∈ line, c = '0' ∨ c = '1'

/-- The key that a line denotes: its digits, 8 to a byte, the first the most significant. -/
def IsKey (line : List Char) (key : Bytes) : Prop := key.length = 32 ∧ beNat key = binary line

end Spec

open Spec

theorem write_eq (f : Frame) (h : f.key.length = 32) : Qix.write f = some (bytes f) := by
  rw [Qix.C38_writer, if_pos h]; rfl

/-! ### Writing a frame -/

theorem Written.nil (ports : List Bytes) : Written [] ports ports none where
  ports := rfl
  complete _ := ⟨by simp, fun j h => by simp [stream, h]⟩
  failure := by simp

theorem writeAll_spec (error : Errors) (f : Frame) (hf : f.key.length = 32) (ports : List Bytes) (j : Nat) :
    (writeAll error f j ports).1.length = ports.length ∧
    ((writeAll error f j ports).2 = true → (∀ i < ports.length, error (j + i) = none) ∧
      ∀ (i : Nat) (h : i < ports.length), (writeAll error f j ports).1[i]? = some (ports[i] ++ bytes f)) ∧
    ((writeAll error f j ports).2 = false → ∃ m n, m < ports.length ∧ error (j + m) = some n ∧ (∀ i < m, error (j + i) = none) ∧
      ∀ (i : Nat) (h : i < ports.length), (writeAll error f j ports).1[i]? = some (ports[i] ++
        (if i < m then bytes f else if i = m then (bytes f).take n else []))) := by
  induction ports generalizing j with
  | nil => simp [writeAll]
  | cons p ps ih =>
    simp only [writeAll, write_eq f hf]
    cases he : error j with
    | some n =>
      refine ⟨by simp, by simp, fun _ => ⟨0, n, by simp, he, by simp, ?_⟩⟩
      intro i h
      cases i with
      | zero => simp
      | succ i =>
        simp only [List.length_cons, Nat.add_lt_add_iff_right] at h
        simp [h]
    | none =>
      obtain ⟨h1, h2, h3⟩ := ih (j + 1)
      refine ⟨by simp [h1], fun ht => ?_, fun ht => ?_⟩
      · obtain ⟨a, b⟩ := h2 ht
        refine ⟨fun i hi => ?_, fun i hi => ?_⟩
        · cases i with
          | zero => exact he
          | succ i =>
            have := a i (by simpa using hi)
            rwa [Nat.add_right_comm, Nat.add_assoc] at this
        · cases i with
          | zero => simp
          | succ i => simpa using b i (by simpa using hi)
      · obtain ⟨m, n, hm, e1, e2, e3⟩ := h3 ht
        refine ⟨m + 1, n, by simpa using hm, by rwa [Nat.add_right_comm, Nat.add_assoc] at e1, fun i hi => ?_, fun i hi => ?_⟩
        · cases i with
          | zero => exact he
          | succ i =>
            have := e2 i (by omega)
            rwa [Nat.add_right_comm, Nat.add_assoc] at this
        · cases i with
          | zero => simp
          | succ i => simpa using e3 i (by simpa using hi)

/-- A frame that was written is followed by others. -/
theorem Written.cons {error : Errors} {f : Frame} (hf : f.key.length = 32) {ports after : List Bytes} {fs : List (Frame × Errors)}
    {failed : Option (Nat × Nat)} (hw : (writeAll error f 0 ports).2 = true)
    (h : Written fs (writeAll error f 0 ports).1 after failed) : Written ((f, error) :: fs) ports after failed := by
  obtain ⟨h1, h2, -⟩ := writeAll_spec error f hf ports 0
  obtain ⟨a, b⟩ := h2 hw
  simp only [Nat.zero_add] at a
  have b' : ∀ (i : Nat) (h : i < ports.length) (h' : i < (writeAll error f 0 ports).1.length),
      (writeAll error f 0 ports).1[i] = ports[i] ++ bytes f := by
    intro i h h'
    have := b i h
    rw [List.getElem?_eq_getElem h'] at this
    exact Option.some.inj this
  refine ⟨h.ports.trans h1, fun hn => ?_, fun m n hn => ?_⟩
  · obtain ⟨c, d⟩ := h.complete hn
    rw [h1] at c
    refine ⟨?_, fun j hj => ?_⟩
    · intro x hx
      rcases List.mem_cons.mp hx with rfl | hx
      · exact a
      · exact c x hx
    · rw [d j (h1 ▸ hj), b' j hj]
      simp [stream]
  · obtain ⟨hm, done, g, e, rfl, he, hd, hl, hb⟩ := h.failure m n hn
    rw [h1] at hm hd
    refine ⟨hm, (f, error) :: done, g, e, rfl, he, ?_, hl, fun j hj => ?_⟩
    · intro x hx
      rcases List.mem_cons.mp hx with rfl | hx
      · exact a
      · exact hd x hx
    · rw [hb j (h1 ▸ hj), b' j hj]
      simp [stream]

/-- A write of the frame fails. -/
theorem Written.fails {error : Errors} {f : Frame} (hf : f.key.length = 32) {ports : List Bytes}
    (hw : (writeAll error f 0 ports).2 = false) :
    ∃ m n, Written [(f, error)] ports (writeAll error f 0 ports).1 (some (m, n)) := by
  obtain ⟨h1, -, h3⟩ := writeAll_spec error f hf ports 0
  obtain ⟨m, n, hm, e1, e2, e3⟩ := h3 hw
  simp only [Nat.zero_add] at e1 e2
  refine ⟨m, n, h1, by simp, ?_⟩
  intro m' n' hmn
  cases hmn
  exact ⟨hm, [], f, error, rfl, e1, by simp, e2, fun j hj => by rw [e3 j hj]; simp [stream]⟩

/-! ### Binary digits -/

theorem or_bit : ∀ bit < 8, ∀ sum < 256, sum % 2 ^ (8 - bit) = 0 →
    (UInt8.ofNat sum ||| (1 <<< UInt8.ofNat (7 - bit))).toNat = sum + 2 ^ (7 - bit) := by decide +kernel

theorem binary_from (line : List Char) (n : Nat) :
    line.foldl (fun n c => 2 * n + if c = '1' then 1 else 0) n = n * 2 ^ line.length + binary line := by
  unfold binary
  induction line generalizing n with
  | nil => simp
  | cons c cs ih =>
    simp only [List.foldl_cons, List.length_cons]
    rw [ih, ih (2 * 0 + _), Nat.pow_succ, Nat.add_mul, Nat.add_mul]
    have : 2 * n * 2 ^ cs.length = n * (2 ^ cs.length * 2) := by rw [Nat.mul_comm 2 n, Nat.mul_assoc, Nat.mul_comm 2]
    omega

theorem binary_append (a b : List Char) : binary (a ++ b) = binary a * 2 ^ b.length + binary b := by
  rw [binary, List.foldl_append, binary_from]; rfl

theorem binary_lt (line : List Char) : binary line < 2 ^ line.length := by
  induction line using List.reverseRecOn with
  | nil => simp [binary]
  | append_singleton a c ih =>
    rw [binary_append, List.length_append, List.length_singleton, Nat.pow_succ]
    simp only [binary, List.foldl_cons, List.foldl_nil] at *
    split <;> omega

theorem readByte_spec (cs : List Char) (bit : Nat) (sum : UInt8) (hb : bit + cs.length = 8) (hs : sum.toNat % 2 ^ (8 - bit) = 0)
    (r : UInt8) : readByte bit sum cs = some r ↔ (∀ c ∈ cs, c = '0' ∨ c = '1') ∧ r.toNat = sum.toNat + binary cs := by
  induction cs generalizing bit sum with
  | nil =>
    simp only [readByte, Option.some.injEq, List.not_mem_nil, false_imp_iff, implies_true, true_and, binary, List.foldl_nil, Nat.add_zero]
    exact ⟨fun h => by rw [h], fun h => UInt8.toNat_inj.mp h.symm⟩
  | cons c cs ih =>
    simp only [List.length_cons] at hb
    have hp : 8 - bit = (8 - (bit + 1)) + 1 := by omega
    have h7 : 7 - bit = 8 - (bit + 1) := by omega
    have hl : cs.length = 8 - (bit + 1) := by omega
    have hbin : binary (c :: cs) = (if c = '1' then 1 else 0) * 2 ^ cs.length + binary cs := by
      rw [binary, List.foldl_cons, binary_from]; simp
    simp only [readByte, List.forall_mem_cons, hbin]
    by_cases h1 : c = '1'
    · have hor := or_bit bit (by omega) sum.toNat sum.toNat_lt hs
      rw [UInt8.ofNat_toNat] at hor
      have hdiv : (sum ||| (1 <<< UInt8.ofNat (7 - bit))).toNat % 2 ^ (8 - (bit + 1)) = 0 := by
        rw [hor, h7, Nat.add_mod_right]
        rw [hp, Nat.pow_succ] at hs
        exact Nat.mod_eq_zero_of_dvd (Nat.dvd_trans (Nat.dvd_mul_right _ 2) (Nat.dvd_of_mod_eq_zero hs))
      rw [if_pos h1, ih (bit + 1) _ (by omega) hdiv, hor, h7, hl]
      simp [h1]
      omega
    · by_cases h0 : c = '0'
      · have hdiv : sum.toNat % 2 ^ (8 - (bit + 1)) = 0 := by
          rw [hp, Nat.pow_succ] at hs
          exact Nat.mod_eq_zero_of_dvd (Nat.dvd_trans (Nat.dvd_mul_right _ 2) (Nat.dvd_of_mod_eq_zero hs))
        rw [if_neg h1, if_pos h0, ih (bit + 1) _ (by omega) hdiv]
        simp [h0]
      · rw [if_neg h1, if_neg h0]
        simp [h1, h0]

theorem beNat_cons (b : UInt8) (bs : Bytes) : beNat (b :: bs) = b.toNat * 256 ^ bs.length + beNat bs := by
  induction bs using List.reverseRecOn with
  | nil => simp [beNat]
  | append_singleton bs c ih =>
    rw [← List.cons_append, beNat_append_singleton, ih, beNat_append_singleton, List.length_append, List.length_singleton,
      Nat.pow_succ, Nat.add_mul, Nat.mul_assoc]
    omega

theorem readBytes_spec (n : Nat) (line : List Char) (h : line.length = 8 * n) (key : Bytes) :
    ((List.range n).mapM fun byte => readByte 0 0 ((line.drop (byte * 8)).take 8)) = some key ↔
      (∀ c ∈ line, c = '0' ∨ c = '1') ∧ key.length = n ∧ beNat key = binary line := by
  induction n generalizing line key with
  | zero =>
    have : line = [] := List.length_eq_zero_iff.mp (by omega)
    subst this
    simp only [List.range_zero, List.mapM_nil, List.not_mem_nil, false_imp_iff, implies_true, true_and]
    constructor
    · intro h; cases h; exact ⟨rfl, rfl⟩
    · rintro ⟨h, -⟩; rw [List.length_eq_zero_iff.mp h]; rfl
  | succ n ih =>
    have hl : line = line.take 8 ++ line.drop 8 := (List.take_append_drop 8 line).symm
    have h8 : (line.take 8).length = 8 := by simp; omega
    have hd : (line.drop 8).length = 8 * n := by simp; omega
    have hb := readByte_spec (line.take 8) 0 0 (by rw [h8]) (by simp)
    have ih := ih (line.drop 8) hd
    have hr : ((List.range n).map Nat.succ).mapM (fun byte => readByte 0 0 ((line.drop (byte * 8)).take 8)) =
        (List.range n).mapM fun byte => readByte 0 0 (((line.drop 8).drop (byte * 8)).take 8) := by
      rw [List.mapM_map]
      congr 1
      funext byte
      simp only [Function.comp, List.drop_drop, Nat.succ_mul, Nat.add_comm]
    rw [List.range_succ_eq_map, List.mapM_cons, hr]
    simp only [Nat.zero_mul, List.drop_zero]
    rw [hl, binary_append, List.forall_mem_append, ← hl, hd]
    constructor
    · intro hk
      cases h1 : readByte 0 0 (line.take 8) with
      | none => rw [h1] at hk; cases hk
      | some r =>
        cases h2 : (List.range n).mapM fun byte => readByte 0 0 (((line.drop 8).drop (byte * 8)).take 8) with
        | none => rw [h1, h2] at hk; cases hk
        | some rs =>
          rw [h1, h2] at hk
          cases hk
          obtain ⟨a1, a2⟩ := (hb r).mp h1
          obtain ⟨b1, b2, b3⟩ := (ih rs).mp h2
          refine ⟨⟨a1, b1⟩, by simp [b2], ?_⟩
          rw [beNat_cons, a2, b3, b2]
          simp only [UInt8.toNat_zero, Nat.zero_add, Nat.pow_mul]
    · rintro ⟨⟨a1, b1⟩, b2, b3⟩
      cases key with
      | nil => cases b2
      | cons k ks =>
        simp only [List.length_cons, Nat.add_right_cancel_iff] at b2
        rw [beNat_cons, b2, Nat.pow_mul] at b3
        have hlt := beNat_lt ks
        have hlt' := binary_lt (line.drop 8)
        rw [hd, Nat.pow_mul] at hlt'
        rw [b2] at hlt
        have e256 : (2 : Nat) ^ 8 = 256 := rfl
        rw [e256] at b3 hlt'
        have hq := congrArg (· / 256 ^ n) b3
        have hm := congrArg (· % 256 ^ n) b3
        simp only [Nat.mul_comm _ (256 ^ n), Nat.mul_add_mod, Nat.mod_eq_of_lt hlt, Nat.mod_eq_of_lt hlt'] at hm
        simp only [Nat.mul_comm _ (256 ^ n), Nat.mul_add_div (Nat.pow_pos (by decide : 0 < 256)), Nat.div_eq_of_lt hlt,
          Nat.div_eq_of_lt hlt', Nat.add_zero] at hq
        rw [(hb k).mpr ⟨a1, by simpa using hq⟩, (ih ks).mpr ⟨b1, b2, hm⟩]
        rfl

theorem readLine_spec (line : List Char) (key : Bytes) : readLine line = some key ↔ Good line ∧ IsKey line key := by
  unfold readLine Good IsKey
  by_cases h : line.length = 256
  · rw [if_neg (not_not.mpr h), readBytes_spec 32 line h]
    simp [h]
  · rw [if_pos h]
    simp [h]

theorem readLine_none (line : List Char) : readLine line = none ↔ ¬ Good line := by
  constructor
  · intro h hg
    have := (readLine_spec line (be 32 (binary line))).mpr ⟨hg, by simp, by
      rw [beNat_be, Nat.mod_eq_of_lt]
      have := binary_lt line
      rw [hg.1] at this
      exact this⟩
    rw [h] at this
    cases this
  · intro h
    cases hl : readLine line with
    | none => rfl
    | some key => exact absurd ((readLine_spec line key).mp hl).1 h

/-! ### The loops -/

theorem ofNat_succ (n : Nat) : UInt64.ofNat n + 1 = UInt64.ofNat (n + 1) := by
  apply UInt64.toNat_inj.mp
  simp

theorem random_loop (count : UInt64) (n : Nat) (hn : n ≤ count.toNat) (ps : List Pass) (hk : ∀ p ∈ ps, p.random.length = 32)
    (ports : List Bytes) :
    ∃ (k : Nat) (failed : Option (Nat × Nat)), k ≤ ps.length ∧ n + k ≤ count.toNat ∧
      Written ((numbered n ((ps.take k).map (·.random))).zip ((ps.take k).map (·.error))) ports
        (randomLoop count (UInt64.ofNat n) ps ports).1 failed ∧
      match (randomLoop count (UInt64.ofNat n) ps ports).2 with
      | .running => failed = none ∧ k = ps.length ∧ n + k < count.toNat
      | .exit code => failed = none ∧ code = 0 ∧ n + k = count.toNat
      | .threw => failed ≠ none := by
  have hc := count.toNat_lt
  have hlt : UInt64.ofNat n < count ↔ n < count.toNat := by
    rw [UInt64.lt_iff_toNat_lt, UInt64.toNat_ofNat_of_lt' (by simpa using Nat.lt_of_le_of_lt hn hc)]
  induction ps generalizing n ports with
  | nil =>
    refine ⟨0, none, Nat.le_refl _, hn, Written.nil _, ?_⟩
    simp only [randomLoop]
    by_cases h : n < count.toNat
    · rw [if_pos (hlt.mpr h)]; simp [h]
    · rw [if_neg (fun h' => h (hlt.mp h'))]; simp; omega
  | cons p ps ih =>
    obtain ⟨hp, hps⟩ := List.forall_mem_cons.mp hk
    simp only [randomLoop]
    by_cases h : n < count.toNat
    · rw [if_pos (hlt.mpr h)]
      cases hw : (writeAll p.error ⟨UInt64.ofNat n, p.random, .ok⟩ 0 ports).2 with
      | true =>
        simp only [if_true]
        obtain ⟨k, failed, h1, h2, h3, h4⟩ := ih (n + 1) h hps
          (writeAll p.error ⟨UInt64.ofNat n, p.random, .ok⟩ 0 ports).1 (by
            rw [UInt64.lt_iff_toNat_lt, UInt64.toNat_ofNat_of_lt' (by simpa using Nat.lt_of_le_of_lt h hc)])
        rw [ofNat_succ]
        refine ⟨k + 1, failed, by simpa using h1, by omega, Written.cons hp hw h3, ?_⟩
        revert h4
        cases (randomLoop count (UInt64.ofNat (n + 1)) ps
          (writeAll p.error ⟨UInt64.ofNat n, p.random, .ok⟩ 0 ports).1).2 with
        | running => rintro ⟨a, b, c⟩; exact ⟨a, by simp [b], by omega⟩
        | exit code => rintro ⟨a, b, c⟩; exact ⟨a, b, by omega⟩
        | threw => exact id
      | false =>
        simp only [Bool.false_eq_true, if_false]
        obtain ⟨m, b, h3⟩ := Written.fails (f := ⟨UInt64.ofNat n, p.random, .ok⟩) hp hw
        exact ⟨1, some (m, b), by simp, by omega, h3, by simp⟩
    · rw [if_neg (fun h' => h (hlt.mp h'))]
      exact ⟨0, none, by simp, hn, Written.nil _, rfl, rfl, by omega⟩

theorem stdin_loop (n : Nat) (lines : List (List Char × Errors)) (ports : List Bytes) :
    ∃ (keys : List Bytes) (failed : Option (Nat × Nat)), keys.length ≤ lines.length ∧
      (∀ (j : Nat) (h : j < keys.length) (h' : j < lines.length), Good lines[j].1 ∧ IsKey lines[j].1 keys[j]) ∧
      Written ((numbered n keys).zip (lines.map (·.2))) ports (stdinLoop (UInt64.ofNat n) lines ports).1 failed ∧
      match (stdinLoop (UInt64.ofNat n) lines ports).2 with
      | .running => False
      | .exit code => failed = none ∧ ((code = 0 ∧ keys.length = lines.length) ∨
          (code = -1 ∧ ∃ h : keys.length < lines.length, ¬ Good lines[keys.length].1))
      | .threw => failed ≠ none := by
  induction lines generalizing n ports with
  | nil => exact ⟨[], none, Nat.le_refl _, by simp, Written.nil _, rfl, .inl ⟨rfl, rfl⟩⟩
  | cons l lines ih =>
    obtain ⟨line, error⟩ := l
    simp only [stdinLoop]
    cases hl : readLine line with
    | none => exact ⟨[], none, by simp, by simp, Written.nil _, rfl, .inr ⟨rfl, by simp, (readLine_none line).mp hl⟩⟩
    | some key =>
      have hg := (readLine_spec line key).mp hl
      simp only []
      cases hw : (writeAll error ⟨UInt64.ofNat n, key, .ok⟩ 0 ports).2 with
      | true =>
        simp only [if_true]
        obtain ⟨keys, failed, h1, h2, h3, h4⟩ := ih (n + 1) (writeAll error ⟨UInt64.ofNat n, key, .ok⟩ 0 ports).1
        rw [ofNat_succ]
        refine ⟨key :: keys, failed, by simpa using h1, ?_, Written.cons hg.2.1 hw h3, ?_⟩
        · intro j h h'
          cases j with
          | zero => exact hg
          | succ j => exact h2 j (by simpa using h) (by simpa using h')
        · revert h4
          cases (stdinLoop (UInt64.ofNat (n + 1)) lines (writeAll error ⟨UInt64.ofNat n, key, .ok⟩ 0 ports).1).2 with
          | running => exact id
          | exit code => rintro ⟨a, b⟩; exact ⟨a, by simpa using b⟩
          | threw => exact id
      | false =>
        simp only [Bool.false_eq_true, if_false]
        obtain ⟨m, b, h3⟩ := Written.fails (f := ⟨UInt64.ofNat n, key, .ok⟩) hg.2.1 hw
        refine ⟨[key], some (m, b), by simp, ?_, h3, by simp⟩
        intro j h h'
        cases j with
        | zero => exact hg
        | succ j => simp at h

theorem timed_loop (b : Backend) (hb : b.Lawful) (modulo : UInt32) (count : UInt64) (n : Nat) (hn : n ≤ count.toNat)
    (passes : List (Nat × Errors)) (ports : List Bytes) :
    ∃ (k : Nat) (failed : Option (Nat × Nat)), k ≤ passes.length ∧ n + k ≤ count.toNat ∧
      Written ((passes.take k).map fun p => (⟨keyIdAt modulo p.1, keyOf b (keyIdAt modulo p.1), .ok⟩, p.2)) ports
        (timedLoop b modulo count (UInt64.ofNat n) passes ports).1 failed ∧
      match (timedLoop b modulo count (UInt64.ofNat n) passes ports).2 with
      | .running => failed = none ∧ k = passes.length ∧ n + k < count.toNat
      | .exit code => failed = none ∧ code = 0 ∧ n + k = count.toNat
      | .threw => failed ≠ none := by
  have hc := count.toNat_lt
  have hlt : UInt64.ofNat n < count ↔ n < count.toNat := by
    rw [UInt64.lt_iff_toNat_lt, UInt64.toNat_ofNat_of_lt' (by simpa using Nat.lt_of_le_of_lt hn hc)]
  induction passes generalizing n ports with
  | nil =>
    refine ⟨0, none, Nat.le_refl _, hn, Written.nil _, ?_⟩
    simp only [timedLoop]
    by_cases h : n < count.toNat
    · rw [if_pos (hlt.mpr h)]; simp [h]
    · rw [if_neg (fun h' => h (hlt.mp h'))]; simp; omega
  | cons p passes ih =>
    obtain ⟨now, error⟩ := p
    have hp : (keyOf b (keyIdAt modulo now)).length = 32 := hb.hash_length _
    simp only [timedLoop]
    by_cases h : n < count.toNat
    · rw [if_pos (hlt.mpr h)]
      cases hw : (writeAll error ⟨keyIdAt modulo now, keyOf b (keyIdAt modulo now), .ok⟩ 0 ports).2 with
      | true =>
        simp only [if_true]
        obtain ⟨k, failed, h1, h2, h3, h4⟩ := ih (n + 1) h
          (writeAll error ⟨keyIdAt modulo now, keyOf b (keyIdAt modulo now), .ok⟩ 0 ports).1 (by
            rw [UInt64.lt_iff_toNat_lt, UInt64.toNat_ofNat_of_lt' (by simpa using Nat.lt_of_le_of_lt h hc)])
        rw [ofNat_succ]
        refine ⟨k + 1, failed, by simpa using h1, by omega, Written.cons hp hw h3, ?_⟩
        revert h4
        cases (timedLoop b modulo count (UInt64.ofNat (n + 1)) passes
          (writeAll error ⟨keyIdAt modulo now, keyOf b (keyIdAt modulo now), .ok⟩ 0 ports).1).2 with
        | running => rintro ⟨a, b, c⟩; exact ⟨a, by simp [b], by omega⟩
        | exit code => rintro ⟨a, b, c⟩; exact ⟨a, b, by omega⟩
        | threw => exact id
      | false =>
        simp only [Bool.false_eq_true, if_false]
        obtain ⟨m, b', h3⟩ := Written.fails (f := ⟨keyIdAt modulo now, keyOf b (keyIdAt modulo now), .ok⟩) hp hw
        exact ⟨1, some (m, b'), by simp, by omega, h3, by simp⟩
    · rw [if_neg (fun h' => h (hlt.mp h'))]
      exact ⟨0, none, by simp, hn, Written.nil _, rfl, rfl, by omega⟩

/-! ### C66 -/

/-- Random keys: the frames that are written to all ports have the ids 0, 1, 2, ... and the random keys in their order; the
program ends with 0 exactly when it has written `count` frames, and with an exception exactly when a write fails. -/
theorem C66_random (count : UInt64) (ps : List Pass) (hk : ∀ p ∈ ps, p.random.length = 32) (ports : List Bytes) :
    ∃ (k : Nat) (failed : Option (Nat × Nat)), k ≤ ps.length ∧ k ≤ count.toNat ∧
      Written ((numbered 0 ((ps.take k).map (·.random))).zip ((ps.take k).map (·.error))) ports (randomLoop count 0 ps ports).1 failed ∧
      match (randomLoop count 0 ps ports).2 with
      | .running => failed = none ∧ k = ps.length ∧ k < count.toNat
      | .exit code => failed = none ∧ code = 0 ∧ k = count.toNat
      | .threw => failed ≠ none := by
  obtain ⟨k, failed, h1, h2, h3, h4⟩ := random_loop count 0 (Nat.zero_le _) ps hk ports
  simp only [Nat.zero_add] at h2 h4
  exact ⟨k, failed, h1, h2, h3, h4⟩

/-- Standard input: the frames that are written to all ports have the ids 0, 1, 2, ... and the keys that the lines denote,
up to the first line that is not one of 256 binary digits, at which the program ends with -1. It ends with 0 exactly at the end of
the input, and with an exception exactly when a write fails. -/
theorem C66_stdin (lines : List (List Char × Errors)) (ports : List Bytes) :
    ∃ (keys : List Bytes) (failed : Option (Nat × Nat)), keys.length ≤ lines.length ∧
      (∀ (j : Nat) (h : j < keys.length) (h' : j < lines.length), Good lines[j].1 ∧ IsKey lines[j].1 keys[j]) ∧
      Written ((numbered 0 keys).zip (lines.map (·.2))) ports (stdinLoop 0 lines ports).1 failed ∧
      match (stdinLoop 0 lines ports).2 with
      | .running => False
      | .exit code => failed = none ∧ ((code = 0 ∧ keys.length = lines.length) ∨
          (code = -1 ∧ ∃ h : keys.length < lines.length, ¬ Good lines[keys.length].1))
      | .threw => failed ≠ none :=
  stdin_loop 0 lines ports

/-- The frame for a time: its id is the next multiple of the period in milliseconds, and its key is the hash of this
id. -/
def Spec.timed (b : Backend) (modulo : UInt32) (ms : Nat) : Frame :=
  ⟨UInt64.ofNat ((ms / modulo.toNat + 1) * modulo.toNat), b.hash (be 8 ((ms / modulo.toNat + 1) * modulo.toNat)), .ok⟩

theorem toMs_next (modulo : UInt32) (hm : modulo ≠ 0) (now : Nat) :
    toMs (nextTime modulo now) = (toMs now / modulo.toNat + 1) * modulo.toNat := by
  have hpos : 0 < modulo.toNat := Nat.pos_of_ne_zero fun h => hm (UInt32.toNat_inj.mp h)
  unfold nextTime toMs
  rw [Nat.add_mul_div_right _ _ (by decide)]
  have h1 := Nat.mod_lt (now / 1000000) hpos
  have h2 := Nat.div_add_mod (now / 1000000) modulo.toNat
  rw [Nat.add_mul, Nat.one_mul, Nat.mul_comm (now / 1000000 / modulo.toNat)]
  omega

/-- Keys computed from the time: if the options are accepted, the frames that are written to all ports are those of the times
at the beginning of each pass (before the year 584,000,000, when the milliseconds do not fit 64 bits any more). -/
theorem C66_timed (b : Backend) (hb : b.Lawful) (o : Options) (count : UInt64) (modulo : UInt32) (ho : o.mode = .timed count modulo)
    (passes : List (Nat × Errors)) (ht : ∀ p ∈ passes, p.1 / 1000000 + modulo.toNat < 2 ^ 64) (ports : List Bytes) :
    ∃ (k : Nat) (failed : Option (Nat × Nat)), k ≤ passes.length ∧ k ≤ count.toNat ∧
      Written ((passes.take k).map fun p => (Spec.timed b modulo (p.1 / 1000000), p.2)) ports (timedLoop b modulo count 0 passes ports).1 failed ∧
      match (timedLoop b modulo count 0 passes ports).2 with
      | .running => failed = none ∧ k = passes.length ∧ k < count.toNat
      | .exit code => failed = none ∧ code = 0 ∧ k = count.toNat
      | .threw => failed ≠ none := by
  have hm : modulo ≠ 0 := by
    rintro rfl
    unfold Options.mode at ho
    split at ho <;> try cases ho
    split at ho <;> try (split at ho <;> cases ho)
    split at ho <;> try cases ho
    split at ho
    · repeat' (split at ho <;> try cases ho)
    · split at ho
      · repeat' (split at ho <;> try cases ho)
        rename_i h
        exact absurd (by decide) h
      · cases ho
  obtain ⟨k, failed, h1, h2, h3, h4⟩ := timed_loop b hb modulo count 0 (Nat.zero_le _) passes ports
  simp only [Nat.zero_add] at h2 h4
  refine ⟨k, failed, h1, h2, ?_, h4⟩
  have : (passes.take k).map (fun p => (Spec.timed b modulo (p.1 / 1000000), p.2)) =
      (passes.take k).map fun p => (⟨keyIdAt modulo p.1, keyOf b (keyIdAt modulo p.1), .ok⟩, p.2) := by
    apply List.map_congr_left
    intro p hp
    have hlt := ht p (List.mem_of_mem_take hp)
    have hid : (p.1 / 1000000 / modulo.toNat + 1) * modulo.toNat < 2 ^ 64 := by
      rw [Nat.add_mul, Nat.one_mul]
      have := Nat.div_mul_le_self (p.1 / 1000000) modulo.toNat
      omega
    have := toMs_next modulo hm p.1
    simp only [Spec.timed, keyOf, keyIdAt, this]
    unfold toMs
    rw [UInt64.toNat_ofNat_of_lt' hid]
  rw [this]
  exact h3

/-- The id of the frame for a time is a multiple of the period, lies after this time, by the period at most; the ids increase as long as the clock does
not go back behind the time until which the thread has slept. -/
theorem C66_time_ids (b : Backend) (modulo : UInt32) (hm : 100 ≤ modulo.toNat) (ms : Nat) (hms : ms + modulo.toNat < 2 ^ 64) :
    modulo.toNat ∣ (Spec.timed b modulo ms).keyId.toNat ∧ ms < (Spec.timed b modulo ms).keyId.toNat ∧
    (Spec.timed b modulo ms).keyId.toNat ≤ ms + modulo.toNat ∧
    ∀ ms', (Spec.timed b modulo ms).keyId.toNat ≤ ms' → ms' + modulo.toNat < 2 ^ 64 →
      (Spec.timed b modulo ms).keyId < (Spec.timed b modulo ms').keyId := by
  have key : ∀ ms, ms + modulo.toNat < 2 ^ 64 → (Spec.timed b modulo ms).keyId.toNat = (ms / modulo.toNat + 1) * modulo.toNat ∧
      ms < (ms / modulo.toNat + 1) * modulo.toNat ∧ (ms / modulo.toNat + 1) * modulo.toNat ≤ ms + modulo.toNat := by
    intro ms hms
    have h1 := Nat.mod_lt ms (show modulo.toNat > 0 by omega)
    have h2 := Nat.div_add_mod ms modulo.toNat
    have h3 : (ms / modulo.toNat + 1) * modulo.toNat = modulo.toNat * (ms / modulo.toNat) + modulo.toNat := by
      rw [Nat.add_mul, Nat.one_mul, Nat.mul_comm]
    refine ⟨?_, by omega, by omega⟩
    unfold Spec.timed
    rw [UInt64.toNat_ofNat_of_lt' (show _ < 2 ^ 64 by omega)]
  obtain ⟨h1, h2, h3⟩ := key ms hms
  refine ⟨by rw [h1]; exact Nat.dvd_mul_left _ _, by rw [h1]; exact h2, by rw [h1]; exact h3, ?_⟩
  intro ms' hle hms'
  obtain ⟨k1, k2, k3⟩ := key ms' hms'
  rw [UInt64.lt_iff_toNat_lt]
  omega

/-- Two emulators with clocks that agree on the period in which the time lies write the same frame, and two that write
frames with the same id write the same key. -/
theorem C66_time_agrees (b : Backend) (modulo modulo' : UInt32) (ms ms' : Nat) :
    (modulo = modulo' → ms / modulo.toNat = ms' / modulo.toNat → Spec.timed b modulo ms = Spec.timed b modulo' ms') ∧
    (ms + modulo.toNat < 2 ^ 64 → ms' + modulo'.toNat < 2 ^ 64 →
      (Spec.timed b modulo ms).keyId = (Spec.timed b modulo' ms').keyId → (Spec.timed b modulo ms).key = (Spec.timed b modulo' ms').key) := by
  refine ⟨?_, ?_⟩
  · rintro rfl h
    simp only [Spec.timed, h]
  · intro h1 h2 h
    have key : ∀ (ms : Nat) (m : UInt32), ms + m.toNat < 2 ^ 64 → (ms / m.toNat + 1) * m.toNat < 2 ^ 64 := by
      intro ms m h
      rw [Nat.add_mul, Nat.one_mul]
      have := Nat.div_mul_le_self ms m.toNat
      omega
    have e := congrArg UInt64.toNat h
    simp only [Spec.timed] at e ⊢
    rw [UInt64.toNat_ofNat_of_lt' (key _ _ h1), UInt64.toNat_ofNat_of_lt' (key _ _ h2)] at e
    rw [e]

/-- Whoever reads from a port, in whatever pieces, gets exactly the frames; of a frame that was not written completely, nothing. -/
theorem C66_read_back (fs : List (Frame × Errors)) (hf : ∀ x ∈ fs, x.1.key.length = 32 ∧ x.1.status = .ok) (n : Nat) (after : List Bytes)
    (failed : Option (Nat × Nat)) (h : Written fs (List.replicate n []) after failed) (j : Nat) (hj : j < n) (buffer : Bytes)
    (hb : buffer.length = 47) (chunks : List Bytes) (hc : some chunks.flatten = after[j]?) (r : Qix.Reader) (read : List Frame)
    (hr : (Qix.Reader.new buffer).run chunks = some (r, read)) :
    read = match failed with
      | none => fs.map (·.1)
      | some (m, k) => if j < m ∨ (j = m ∧ 47 ≤ k) then fs.map (·.1) else (fs.map (·.1)).dropLast := by
  have base : ∀ (gs : List Frame) (tail : Bytes), (∀ g ∈ gs, g.key.length = 32 ∧ g.status = .ok) → tail.length < 47 →
      chunks.flatten = stream gs ++ tail → read = gs := by
    intro gs tail hg ht hs
    obtain ⟨more, h1, -, h3⟩ := Qix.C38_frames_are_read buffer hb (gs.map fun f => (([] : Bytes), f.keyId, f.key, (1 : UInt8)))
      (by
        intro x hx
        obtain ⟨f, hf, rfl⟩ := List.mem_map.mp hx
        exact ⟨by simp, (hg f hf).1⟩) tail chunks (by
        rw [hs]
        congr 1
        rw [List.flatMap_map]
        simp only [List.nil_append]
        rw [stream, List.flatMap_def]
        rfl) r read hr
    rw [h3 ht, List.append_nil, List.map_map] at h1
    rw [h1]
    conv => rhs; rw [← List.map_id gs]
    apply List.map_congr_left
    rintro ⟨id, key, st⟩ hx
    have : st = .ok := (hg _ hx).2
    subst this
    rfl
  have hg : ∀ g ∈ fs.map (·.1), g.key.length = 32 ∧ g.status = .ok := by
    intro g hg
    obtain ⟨x, hx, rfl⟩ := List.mem_map.mp hg
    exact hf x hx
  cases failed with
  | none =>
    have := (h.complete rfl).2 j (by simpa using hj)
    rw [← hc] at this
    refine base _ [] hg (by simp) ?_
    simpa using this
  | some mk =>
    obtain ⟨m, k⟩ := mk
    obtain ⟨hm, done, f, error, rfl, he, hd, hl, ha⟩ := h.failure m k rfl
    have := ha j (by simpa using hj)
    rw [← hc] at this
    simp only [List.getElem_replicate, List.nil_append, Option.some.injEq] at this
    have hlen : (bytes f).length = 47 := (Qix.frame_unit f.keyId f.key 1 (hf (f, error) (List.mem_append_right _ (List.mem_singleton.mpr rfl))).1).1
    have hdrop : ((done ++ [(f, error)]).map (·.1)).dropLast = done.map (·.1) := by rw [List.map_append]; exact List.dropLast_concat
    simp only [hdrop]
    have hgd : ∀ g ∈ done.map (·.1), g.key.length = 32 ∧ g.status = .ok := fun g hx => hg g (by rw [List.map_append]; exact List.mem_append_left _ hx)
    have full : stream ((done ++ [(f, error)]).map (·.1)) = stream (done.map (·.1)) ++ bytes f := by simp [stream]
    by_cases h1 : j < m
    · rw [if_pos (.inl h1)]
      rw [if_pos h1] at this
      exact base _ [] hg (by simp) (by rw [this, full]; simp)
    · rw [if_neg h1] at this
      by_cases h2 : j = m
      · rw [if_pos h2] at this
        by_cases h3 : 47 ≤ k
        · rw [if_pos (.inr ⟨h2, h3⟩)]
          rw [List.take_of_length_le (by omega)] at this
          exact base _ [] hg (by simp) (by rw [this, full]; simp)
        · rw [if_neg (by omega)]
          exact base _ _ hgd (by simp; omega) this
      · rw [if_neg h2] at this
        rw [if_neg (by omega)]
        exact base _ [] hgd (by simp) this

theorem getD_count (o : Option UInt64) (c : UInt64) :
    o.getD 18446744073709551615 = c ↔ (o = some c ∨ o = none ∧ c.toNat = 2 ^ 64 - 1) := by
  cases o with
  | none =>
    simp only [Option.getD_none, reduceCtorEq, false_or, true_and]
    rw [← UInt64.toNat_inj]
    exact ⟨fun h => h.symm, fun h => h.symm⟩
  | some x => simp

theorem getD_rate (o : Option UInt16) (r : UInt16) : o.getD 1 = r ↔ (o = some r ∨ o = none ∧ r = 1) := by
  cases o with
  | none => simp [eq_comm]
  | some x => simp

/-- What the options mean; only this is accepted: `--read` with one port, `--stdin`, `--write` with a port and a rate other than 0,
`--twrite` with a port and a period of 100 ms or more. (With `--stdin` no port is needed: then the keys are written nowhere.) -/
theorem C66_options (o : Options) :
    (o.mode = .help ↔ o.help) ∧
    (o.mode = .read ↔ ¬ o.help ∧ o.read ∧ o.ports.length = 1) ∧
    (o.mode = .stdin ↔ ¬ o.help ∧ ¬ o.read ∧ o.stdin) ∧
    (∀ count rate, o.mode = .random count rate ↔ ¬ o.help ∧ ¬ o.read ∧ ¬ o.stdin ∧ o.write ∧ o.ports ≠ [] ∧ rate ≠ 0 ∧
      (o.rate = some rate ∨ o.rate = none ∧ rate = 1) ∧ (o.count = some count ∨ o.count = none ∧ count.toNat = 2 ^ 64 - 1)) ∧
    (∀ count modulo, o.mode = .timed count modulo ↔ ¬ o.help ∧ ¬ o.read ∧ ¬ o.stdin ∧ ¬ o.write ∧ o.twrite = some modulo ∧ o.ports ≠ [] ∧
      100 ≤ modulo.toNat ∧ (o.count = some count ∨ o.count = none ∧ count.toNat = 2 ^ 64 - 1)) := by
  obtain ⟨help, read, stdin, write, twrite, ports, rate, count⟩ := o
  simp only [Options.mode]
  cases help
  case true => simp
  cases read
  case true => by_cases hp : ports.length = 1 <;> simp [hp]
  cases stdin
  case true => simp
  cases write
  case true =>
    by_cases hp : ports = []
    · simp [hp]
    · by_cases hr : rate.getD 1 = 0
      · simp [hp, hr]
        intro c r h1 h2
        rcases h2 with h2 | ⟨h2, h3⟩
        · rw [h2] at hr; exact absurd hr h1
        · rw [h2] at hr; cases hr
      · simp only [hp, hr, if_false, if_true, Bool.false_eq_true, not_false_iff, true_and, reduceCtorEq, false_and, and_false,
          Mode.random.injEq, getD_count, getD_rate, not_true, ne_eq]
        refine ⟨fun c r => ⟨?_, ?_⟩, fun _ _ => trivial⟩
        · rintro ⟨h1, h2⟩
          exact ⟨fun h => hr (((getD_rate rate r).mpr h2).trans h), h2, h1⟩
        · rintro ⟨-, h2, h1⟩
          exact ⟨h1, h2⟩
  cases twrite
  case none => simp
  case some m =>
    have hm : m < 100 ↔ ¬ 100 ≤ m.toNat := by
      rw [UInt32.lt_iff_toNat_lt]; simp
    by_cases hp : ports = []
    · simp [hp]
    · by_cases h : m < 100
      · have := hm.mp h
        simp only [hp, h, if_false, if_true, Bool.false_eq_true, not_false_iff, true_and, reduceCtorEq, false_and, and_false, not_true, ne_eq,
          Option.some.injEq, false_iff, implies_true]
        rintro c m' ⟨rfl, h', -⟩
        exact this h'
      · have := not_not.mp (fun h' => h (hm.mpr h'))
        simp only [hp, h, if_false, if_true, Bool.false_eq_true, not_false_iff, true_and, reduceCtorEq, false_and, and_false, not_true, ne_eq,
          Option.some.injEq, Mode.timed.injEq, getD_count]
        refine ⟨fun _ _ => trivial, fun c m' => ⟨?_, ?_⟩⟩
        · rintro ⟨h1, rfl⟩
          exact ⟨rfl, this, h1⟩
        · rintro ⟨rfl, -, h1⟩
          exact ⟨h1, rfl⟩

/-- How the passes of the loop follow each other in time: the thread sleeps at least as long as it asks for. -/
def Spec.Timely (rate : UInt16) (p q : Pass) : Prop :=
  p.start ≤ p.now ∧ p.now + sleepTime rate p.start p.now ≤ p.wake ∧ p.wake ≤ q.start

/-- The rate that is asked for is not reached: as the sign of the time already used is wrong, the thread sleeps longer instead of
shorter, and from one frame to the next it takes the delay and *twice* the time that writing takes. So if writing takes any
time, there are fewer than `rate` frames per second, for every rate that divides 1000, however short writing takes. -/
theorem C66_rate_violation (rate : UInt16) (hr : rate ≠ 0) (p q : Pass) (h : Spec.Timely rate p q) :
    frameDelay rate + 2 * (p.now - p.start) ≤ q.start - p.start ∧
    (rate.toNat ∣ 1000 → p.start < p.now → 1000000000 < (rate.toNat : Int) * (q.start - p.start)) := by
  have hpos : 0 < rate.toNat := Nat.pos_of_ne_zero fun h => hr (UInt16.toNat_inj.mp h)
  have hd : 0 ≤ frameDelay rate := Int.mul_nonneg (Int.natCast_nonneg _) (by decide)
  obtain ⟨h1, h2, h3⟩ := h
  have hs : sleepTime rate p.start p.now ≥ frameDelay rate + (p.now - p.start) := by
    unfold sleepTime
    simp only []
    split <;> omega
  refine ⟨by omega, ?_⟩
  intro hdvd hlt
  have he : (rate.toNat : Int) * frameDelay rate = 1000000000 := by
    unfold frameDelay
    have := Nat.mul_div_cancel' hdvd
    rw [← Int.mul_assoc, ← Int.natCast_mul, this]
    rfl
  have : frameDelay rate + 1 ≤ q.start - p.start := by omega
  have := Int.mul_le_mul_of_nonneg_left this (show (0 : Int) ≤ rate.toNat by omega)
  rw [Int.mul_add, he] at this
  omega

/-- The delay is a whole number of milliseconds: every rate from 501 to 1000 means 1 ms, and every rate above 1000 means no delay. -/
theorem C66_delay_violation (rate : UInt16) : (500 < rate.toNat → rate.toNat ≤ 1000 → frameDelay rate = 1000000) ∧
    (1000 < rate.toNat → frameDelay rate = 0) := by
  unfold frameDelay
  refine ⟨fun h1 h2 => ?_, fun h => ?_⟩
  · have : 1000 / rate.toNat = 1 := Nat.div_eq_of_lt_le (by omega) (by omega)
    rw [this]; rfl
  · rw [Nat.div_eq_of_lt h]; rfl

/-! ### The theorems apply -/

/-- Three passes to two ports; the second port fails after ten bytes of the second frame. -/
def examplePasses : List Pass :=
  [⟨List.replicate 32 7, 0, 50, 1000, fun _ => none⟩, ⟨List.replicate 32 8, 1000, 1050, 2000, fun j => if j = 1 then some 10 else none⟩,
   ⟨List.replicate 32 9, 2000, 2050, 3000, fun _ => none⟩]

example : (∀ p ∈ examplePasses, p.random.length = 32) ∧ (randomLoop 5 0 examplePasses [[], []]).2 = .threw ∧
    (randomLoop 5 0 examplePasses [[], []]).1.map List.length = [94, 57] ∧ (randomLoop 1 0 examplePasses [[], []]).2 = .exit 0 := by
  decide +kernel

/-- A line of digits, and one that is too short. -/
def exampleLine : List Char := (List.replicate 16 ['0', '1', '1', '0', '0', '0', '0', '1', '1', '1', '1', '1', '1', '1', '1', '0']).flatten

example : readLine exampleLine = some ((List.replicate 16 [0x61, 0xFE]).flatten) := by decide +kernel

example : (stdinLoop 0 [(exampleLine, fun _ => none), (exampleLine.tail, fun _ => none)] [[]]).2 = .exit (-1) ∧
    (stdinLoop 0 [(exampleLine, fun _ => none), (exampleLine.tail, fun _ => none)] [[]]).1.map List.length = [47] := by decide +kernel

/-- At 1234.567 s with a period of one second the id is 1235000. -/
example (b : Backend) : (Spec.timed b 1000 (1234567000000 / 1000000)).keyId = 1235000 ∧
    ({ twrite := some 1000, ports := ["a"] } : Options).mode = .timed 18446744073709551615 1000 := ⟨rfl, by decide +kernel⟩

/-- Ten frames per second are asked for, and writing takes 50 ms: there are five. -/
example : Spec.Timely 10 ⟨[], 0, 50000000, 200000000, fun _ => none⟩ ⟨[], 200000000, 250000000, 400000000, fun _ => none⟩ := by
  refine ⟨by decide, ?_, by decide⟩
  decide +kernel

end SSP21.Emulator
