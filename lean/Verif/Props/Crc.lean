import Verif.Spec.Crc
/-
  Properties C06 and C07: the frame checksum.
-/
namespace SSP21
open Spec

/-! ## C06 -/

/-- The table-driven checksum is the bit-serial CRC, for every byte string. -/
theorem C06_crc_is_polynomial (data : Bytes) : (crcCalc data).toBitVec = Spec.crc data :=
  crcCalc_eq data

/-- Test: the checksum of "123456789". -/
example : crcCalc [0x31, 0x32, 0x33, 0x34, 0x35, 0x36, 0x37, 0x38, 0x39] =
    UInt32.ofBitVec (Spec.crc [0x31, 0x32, 0x33, 0x34, 0x35, 0x36, 0x37, 0x38, 0x39]) := by decide +kernel

/-! ## C07 — error detection -/

/-- Data followed by its checksum, most significant byte first (as in frame headers and bodies). -/
def Protected (x : Bytes) : Prop := ∃ d, x = d ++ be 4 (crcCalc d).toNat

/-- Number of differing bits of two byte strings of the same length. -/
def bitErrors (a b : Bytes) : Nat := (List.zipWith xor (bits a) (bits b)).count true

/-! ### helper lemmas -/

theorem crcStep_top (r : UInt32) : crcStep r (r >>> 24).toUInt8 = r <<< 8 := by
  unfold crcStep
  simp only [UInt8.xor_self]
  have : crcTable[(0 : UInt8).toNat]'((0 : UInt8).toNat_lt) = 0 := by rfl
  rw [this, UInt32.zero_xor]

theorem crcCalc_append (d t : Bytes) : crcCalc (d ++ t) = t.foldl crcStep (crcCalc d) := by
  simp [crcCalc, List.foldl_append]

theorem fold_be4 (r : UInt32) : (be 4 r.toNat).foldl crcStep r = 0 := by
  have hr := r.toNat_lt
  have shl : ∀ r : UInt32, (r <<< 8).toNat = r.toNat * 256 % 4294967296 := by
    intro r
    simp only [UInt32.toNat_shiftLeft]
    have : (8 : UInt32).toNat % 32 = 8 := rfl
    rw [this, Nat.shiftLeft_eq]
  have top : ∀ r : UInt32, ((r >>> 24).toUInt8).toNat = r.toNat / 16777216 := by
    intro r
    have hr := r.toNat_lt
    simp only [UInt32.toNat_toUInt8, UInt32.toNat_shiftRight]
    have : (24 : UInt32).toNat % 32 = 24 := rfl
    rw [this, Nat.shiftRight_eq_div_pow]
    omega
  have hb : be 4 r.toNat = [(r >>> 24).toUInt8, ((r <<< 8) >>> 24).toUInt8,
      ((r <<< 8 <<< 8) >>> 24).toUInt8, ((r <<< 8 <<< 8 <<< 8) >>> 24).toUInt8] := by
    simp only [be, List.nil_append, List.cons_append, List.cons.injEq, and_true]
    refine ⟨?_, ?_, ?_, ?_⟩ <;>
      (apply UInt8.toNat_inj.mp
       simp only [top, shl, UInt8.toNat_ofNat']
       omega)
  rw [hb]
  simp only [List.foldl_cons, List.foldl_nil, crcStep_top]
  apply UInt32.toNat_inj.mp
  simp only [shl]
  have : (0 : UInt32).toNat = 0 := rfl
  omega

theorem protected_crc {x : Bytes} (h : Protected x) : Spec.crc x = 0#32 := by
  obtain ⟨d, rfl⟩ := h
  rw [← crcCalc_eq, crcCalc_append, fold_be4]; rfl

theorem byteBits_inj {a b : UInt8} (h : byteBits a = byteBits b) : a = b := by
  apply UInt8.toNat_inj.mp
  apply Nat.eq_of_testBit_eq
  intro i
  simp only [byteBits, List.cons.injEq, and_true] at h
  obtain ⟨h7, h6, h5, h4, h3, h2, h1, h0⟩ := h
  by_cases hi : i < 8
  · have : i = 0 ∨ i = 1 ∨ i = 2 ∨ i = 3 ∨ i = 4 ∨ i = 5 ∨ i = 6 ∨ i = 7 := by omega
    rcases this with rfl | rfl | rfl | rfl | rfl | rfl | rfl | rfl <;> assumption
  · have h256 : 2 ^ 8 ≤ 2 ^ i := Nat.pow_le_pow_right (by omega) (by omega)
    rw [Nat.testBit_lt_two_pow (by have := a.toNat_lt; omega),
        Nat.testBit_lt_two_pow (by have := b.toNat_lt; omega)]

theorem bits_inj {a b : Bytes} (h : bits a = bits b) : a = b := by
  induction a generalizing b with
  | nil =>
    have := congrArg List.length h
    simp only [bits_length] at this
    cases b with
    | nil => rfl
    | cons => simp at this
  | cons x a ih =>
    cases b with
    | nil => have := congrArg List.length h; simp only [bits_length] at this; simp at this
    | cons y b =>
      simp only [bits, List.flatMap_cons] at h
      have h2 := List.append_inj h rfl
      rw [byteBits_inj h2.1, ih h2.2]

theorem zipWith_xor_eq_false {l l' : List Bool} (hl : l.length = l'.length)
    (h : ∀ x ∈ List.zipWith xor l l', x = false) : l = l' := by
  induction l generalizing l' with
  | nil => cases l' with
    | nil => rfl
    | cons => simp at hl
  | cons a l ih =>
    cases l' with
    | nil => simp at hl
    | cons b l' =>
      simp only [List.zipWith_cons_cons, List.mem_cons, forall_eq_or_imp] at h
      have : a = b := by
        have := h.1
        revert this
        cases a <;> cases b <;> simp
      rw [this, ih (by simpa using hl) h.2]

theorem syndrome_eq {a b : Bytes} (hl : a.length = b.length) (ha : Spec.crc a = 0#32)
    (hb : Spec.crc b = 0#32) : crcBits 0#32 (List.zipWith xor (bits a) (bits b)) = 0#32 := by
  have := crcBits_xor 0#32 0#32 (bits a) (bits b) (by simp [bits_length, hl])
  simp only [BitVec.xor_zero] at this
  rw [this]
  unfold Spec.crc at ha hb
  rw [ha, hb]; rfl

/-- A list that is false outside a window of 32 positions. -/
theorem window_split (e : List Bool) (k : Nat)
    (h : ∀ i, e[i]? = some true → k ≤ i ∧ i < k + 32) :
    ∃ m w n, e = List.replicate m false ++ w ++ List.replicate n false ∧ w.length ≤ 32 := by
  refine ⟨(e.take k).length, (e.drop k).take 32, (e.drop (k + 32)).length, ?_, by simp; omega⟩
  have h1 : e.take k = List.replicate (e.take k).length false := by
    rw [List.eq_replicate_iff]
    refine ⟨rfl, ?_⟩
    intro x hx
    obtain ⟨i, hi, rfl⟩ := List.mem_iff_getElem.mp hx
    have hik : i < k ∧ i < e.length := by simp at hi; omega
    cases hv : (e.take k)[i]
    · rfl
    · exfalso
      have : e[i]? = some true := by
        rw [List.getElem_take] at hv
        rw [List.getElem?_eq_getElem hik.2, hv]
      have := h i this
      omega
  have h2 : e.drop (k + 32) = List.replicate (e.drop (k + 32)).length false := by
    rw [List.eq_replicate_iff]
    refine ⟨rfl, ?_⟩
    intro x hx
    obtain ⟨i, hi, rfl⟩ := List.mem_iff_getElem.mp hx
    have hik : k + 32 + i < e.length := by simp at hi; omega
    cases hv : (e.drop (k + 32))[i]
    · rfl
    · exfalso
      have : e[k + 32 + i]? = some true := by
        rw [List.getElem_drop] at hv
        rw [List.getElem?_eq_getElem hik, hv]
      have := h _ this
      omega
  rw [← h1, ← h2]
  have : (e.drop k).take 32 ++ e.drop (k + 32) = e.drop k := by
    rw [← List.drop_drop]; exact List.take_append_drop 32 _
  rw [List.append_assoc, this, List.take_append_drop]

theorem syndrome_window {e : List Bool} (k : Nat)
    (h : ∀ i, e[i]? = some true → k ≤ i ∧ i < k + 32) (hz : crcBits 0#32 e = 0#32) :
    ∀ x ∈ e, x = false := by
  obtain ⟨m, w, n, rfl, hw⟩ := window_split e k h
  rw [crcBits_append, crcBits_append, crcBits_zeros] at hz
  have h1 := crcBits_false_inj n hz
  rw [crcBits_load 0#32 w hw, BitVec.zero_xor] at h1
  have h2 := load_eq_zero w hw (crcBits_false_inj _ h1)
  intro x hx
  simp only [List.mem_append] at hx
  rcases hx with (hx | hx) | hx
  · exact (List.mem_replicate.mp hx).2
  · rw [h2] at hx; exact (List.mem_replicate.mp hx).2
  · exact (List.mem_replicate.mp hx).2

/-- **Burst errors.** Two byte strings of equal length that both carry a correct checksum and differ
only within some window of 32 consecutive bits are equal. -/
theorem C07_burst32_detected (a b : Bytes) (hl : a.length = b.length) (ha : Protected a) (hb : Protected b)
    (k : Nat) (h : ∀ i, (bits a)[i]? ≠ (bits b)[i]? → k ≤ i ∧ i < k + 32) : a = b := by
  have hlen : (bits a).length = (bits b).length := by simp [bits_length, hl]
  have hz := syndrome_eq hl (protected_crc ha) (protected_crc hb)
  apply bits_inj
  apply zipWith_xor_eq_false hlen
  apply syndrome_window k _ hz
  intro i hi
  apply h i
  intro heq
  rw [List.getElem?_zipWith] at hi
  rw [heq] at hi
  cases hv : (bits b)[i]? with
  | none => simp [hv] at hi
  | some v => simp [hv] at hi

/-- The parity of a register. -/
def parity (s : BitVec 32) : Bool := (List.range 32).foldl (fun acc i => acc ^^ s.getLsbD i) false

theorem parity_crcBit (s : BitVec 32) (b : Bool) : parity (crcBit s b) = (parity s ^^ b) := by
  have hP : ∀ i : Nat, i < 32 → (crcBit s b).getLsbD i =
      ((decide (1 ≤ i) && s.getLsbD (i - 1)) ^^ ((s.getLsbD 31 ^^ b) && poly.getLsbD i)) := by
    intro i hi
    unfold crcBit
    rw [BitVec.getLsbD_xor, BitVec.getLsbD_shiftLeft, BitVec.msb_eq_getLsbD_last]
    congr 1
    · by_cases h : i < 1
      · have h' : ¬ 1 ≤ i := by omega
        simp [h, h']
      · have h' : 1 ≤ i := by omega
        simp [h, h', hi]
    · cases (s.getLsbD (32 - 1) ^^ b) <;> simp_all
  have e : List.range 32 = [0,1,2,3,4,5,6,7,8,9,10,11,12,13,14,15,16,17,18,19,20,21,22,23,24,25,26,27,28,29,30,31] := by decide
  unfold parity
  rw [e]
  simp only [List.foldl_cons, List.foldl_nil]
  rw [hP 0 (by omega), hP 1 (by omega), hP 2 (by omega), hP 3 (by omega), hP 4 (by omega), hP 5 (by omega),
    hP 6 (by omega), hP 7 (by omega), hP 8 (by omega), hP 9 (by omega), hP 10 (by omega), hP 11 (by omega),
    hP 12 (by omega), hP 13 (by omega), hP 14 (by omega), hP 15 (by omega), hP 16 (by omega), hP 17 (by omega),
    hP 18 (by omega), hP 19 (by omega), hP 20 (by omega), hP 21 (by omega), hP 22 (by omega), hP 23 (by omega),
    hP 24 (by omega), hP 25 (by omega), hP 26 (by omega), hP 27 (by omega), hP 28 (by omega), hP 29 (by omega),
    hP 30 (by omega), hP 31 (by omega)]
  have bitsP : ∀ i : Fin 32, poly.getLsbD i = [true, true, false, false, true, false, false, false, true, true,
     false, true, true, true, true, true, false, false, true, true, false, true, false, true,
     false, false, true, false, true, true, true, true][i.val]! := by decide +kernel
  have q := fun i h => bitsP ⟨i, h⟩
  simp only at q
  simp only [q 0 (by omega), q 1 (by omega), q 2 (by omega), q 3 (by omega), q 4 (by omega), q 5 (by omega),
    q 6 (by omega), q 7 (by omega), q 8 (by omega), q 9 (by omega), q 10 (by omega), q 11 (by omega),
    q 12 (by omega), q 13 (by omega), q 14 (by omega), q 15 (by omega), q 16 (by omega), q 17 (by omega),
    q 18 (by omega), q 19 (by omega), q 20 (by omega), q 21 (by omega), q 22 (by omega), q 23 (by omega),
    q 24 (by omega), q 25 (by omega), q 26 (by omega), q 27 (by omega), q 28 (by omega), q 29 (by omega),
    q 30 (by omega), q 31 (by omega)]
  clear q bitsP hP e
  generalize hfb : (s.getLsbD 31 ^^ b) = fb
  have hb : b = (s.getLsbD 31 ^^ fb) := by
    rw [← hfb]; cases s.getLsbD 31 <;> cases b <;> rfl
  rw [hb]
  clear hfb hb
  simp
  cases fb <;> simp

theorem parity_crcBits (s : BitVec 32) (l : List Bool) :
    parity (crcBits s l) = (parity s ^^ decide (l.count true % 2 = 1)) := by
  induction l generalizing s with
  | nil => simp [crcBits]
  | cons b l ih =>
    have := ih (crcBit s b)
    simp only [crcBits, List.foldl_cons] at *
    rw [this, parity_crcBit]
    cases b
    · simp
    · simp only [List.count_cons_self, Bool.xor_assoc]
      congr 1
      by_cases h : l.count true % 2 = 1
      · have : ¬ (l.count true + 1) % 2 = 1 := by omega
        simp [h, this]
      · have : (l.count true + 1) % 2 = 1 := by omega
        simp [h, this]

/-- **Odd errors.** Two byte strings of equal length that both carry a correct checksum never differ
in an odd number of bits. -/
theorem C07_odd_errors_detected (a b : Bytes) (hl : a.length = b.length) (ha : Protected a)
    (hb : Protected b) : bitErrors a b % 2 = 0 := by
  have hz := syndrome_eq hl (protected_crc ha) (protected_crc hb)
  have := parity_crcBits 0#32 (List.zipWith xor (bits a) (bits b))
  rw [hz] at this
  have hp : parity 0#32 = false := by decide +kernel
  rw [hp] at this
  simp only [Bool.false_xor] at this
  have h2 := of_decide_eq_false this.symm
  unfold bitErrors
  omega

/-! ### two-bit errors -/

/-- The shift register step on a zero message bit, on natural numbers. -/
def stepN (s : Nat) : Nat :=
  bif Nat.ble 0x80000000 s then Nat.xor (Nat.mod (Nat.mul s 2) 0x100000000) 0xF4ACFB13 else Nat.mul s 2

/-- No one of the next `n` states of the register is the single bit x^31. -/
def neverTop : Nat → Nat → Bool
  | 0, _ => true
  | n + 1, s => match s with
    | 0 => false
    | k + 1 => bif Nat.beq k 0x7fffffff then false else neverTop n (stepN (k + 1))

theorem stepN_eq (s : BitVec 32) : (crcBit s false).toNat = stepN s.toNat := by
  have hs := s.isLt
  unfold crcBit stepN
  rw [Bool.xor_false, BitVec.toNat_xor, BitVec.toNat_shiftLeft, BitVec.msb_eq_decide, Nat.shiftLeft_eq]
  by_cases h : 2 ^ 31 ≤ s.toNat
  · have hb : Nat.ble 0x80000000 s.toNat = true := Nat.ble_eq.mpr (by omega)
    rw [hb]
    have h' : 2 ^ (32 - 1) ≤ s.toNat := h
    simp only [h', decide_true, if_true, cond_true]
    rfl
  · have hb : Nat.ble 0x80000000 s.toNat = false := by
      cases hc : Nat.ble 0x80000000 s.toNat
      · rfl
      · have := Nat.ble_eq.mp hc; omega
    have h' : ¬ 2 ^ (32 - 1) ≤ s.toNat := h
    rw [hb]
    simp only [h', decide_false, Bool.false_eq_true, if_false, cond_false]
    have e : (0#32).toNat = 0 := rfl
    rw [e, Nat.xor_zero]
    show _ = s.toNat * 2
    omega

theorem neverTop_spec (n : Nat) (s : BitVec 32) (h : neverTop n s.toNat = true) (d : Nat) (hd : d < n) :
    crcBits s (List.replicate d false) ≠ 0x80000000#32 := by
  induction n generalizing s d with
  | zero => omega
  | succ n ih =>
    unfold neverTop at h
    cases hs : s.toNat with
    | zero => rw [hs] at h; simp at h
    | succ k =>
      rw [hs] at h
      simp only at h
      cases hk : Nat.beq k 0x7fffffff with
      | true => rw [hk] at h; simp at h
      | false =>
        rw [hk, cond_false, ← hs, ← stepN_eq] at h
        cases d with
        | zero =>
          intro hc
          simp only [List.replicate_zero, crcBits, List.foldl_nil] at hc
          rw [hc] at hs
          have e : (0x80000000#32).toNat = 2147483648 := rfl
          have : k = 0x7fffffff := by omega
          subst this
          exact absurd hk (by decide)
        | succ d =>
          simp only [List.replicate_succ, crcBits, List.foldl_cons]
          exact ih _ h d (by omega)

/-- The smallest cycle of the generator is longer than 32768 bits (kernel evaluation of the register). -/
theorem neverTop_poly : neverTop 32768 0xF4ACFB13 = true := by decide +kernel

theorem count_zero_replicate (e : List Bool) (h : e.count true = 0) : e = List.replicate e.length false := by
  rw [List.eq_replicate_iff]
  refine ⟨rfl, fun x hx => ?_⟩
  cases x
  · rfl
  · have := List.count_pos_iff.mpr hx; omega

theorem split_first (e : List Bool) (n : Nat) (h : e.count true = n + 1) :
    ∃ m r, e = List.replicate m false ++ true :: r ∧ r.count true = n := by
  induction e with
  | nil => simp at h
  | cons b e ih =>
    cases b
    · simp only [List.count_cons, beq_iff_eq, Bool.false_eq_true, if_false, Nat.add_zero] at h
      obtain ⟨m, r, rfl, hr⟩ := ih h
      exact ⟨m + 1, r, by simp [List.replicate_succ], hr⟩
    · refine ⟨0, e, by simp, ?_⟩
      simp only [List.count_cons_self] at h
      omega

theorem two_errors (e : List Bool) (hlen : e.length ≤ 32768) (h : e.count true = 2) :
    crcBits 0#32 e ≠ 0#32 := by
  obtain ⟨m, r, rfl, hr⟩ := split_first e 1 h
  obtain ⟨d, t, rfl, ht⟩ := split_first r 0 hr
  have ht' := count_zero_replicate t ht
  intro hz
  rw [ht'] at hz
  simp only [List.length_append, List.length_replicate, List.length_cons] at hlen
  rw [crcBits_append, crcBits_zeros] at hz
  have e1 : ∀ s l, crcBits s (true :: l) = crcBits (crcBit s true) l := fun _ _ => rfl
  rw [e1, crcBits_append, e1] at hz
  have h1 := crcBits_false_inj _ hz
  have hp : crcBit 0#32 true = poly := by decide
  rw [hp] at h1
  have hx := crcBit_xor (crcBits poly (List.replicate d false)) 0x80000000#32 true true
  have h2 : crcBit 0x80000000#32 true = 0#32 := by decide
  rw [h1, h2] at hx
  have h3 : crcBits poly (List.replicate d false) ^^^ 0x80000000#32 = 0#32 := by
    apply crcBit_false_inj
    simpa using hx
  have h4 : crcBits poly (List.replicate d false) = 0x80000000#32 := BitVec.xor_eq_zero_iff.mp h3
  exact neverTop_spec 32768 poly neverTop_poly d (by omega) h4

/-- **Hamming distance.** Two different byte strings of equal length of at most 4096 bytes (the largest
frame body, 4092 bytes of payload and the checksum) that both carry a correct checksum differ in at
least four bits. -/
theorem C07_hamming_distance_4 (a b : Bytes) (hl : a.length = b.length) (hmax : a.length ≤ 4096)
    (ha : Protected a) (hb : Protected b) (hne : a ≠ b) : 4 ≤ bitErrors a b := by
  have hz := syndrome_eq hl (protected_crc ha) (protected_crc hb)
  have hodd := C07_odd_errors_detected a b hl ha hb
  have h0 : bitErrors a b ≠ 0 := by
    intro h0
    apply hne
    apply bits_inj
    apply zipWith_xor_eq_false (by simp [bits_length, hl])
    intro x hx
    rw [count_zero_replicate _ h0] at hx
    exact (List.mem_replicate.mp hx).2
  have h2 : bitErrors a b ≠ 2 := by
    intro h2
    refine two_errors _ ?_ h2 hz
    simp only [List.length_zipWith, bits_length]
    omega
  omega

/-- Two protected strings of the same length that differ, at distance at least four. -/
example : Protected ([1, 2, 3] ++ be 4 (crcCalc [1, 2, 3]).toNat) ∧
    4 ≤ bitErrors ([1, 2, 3] ++ be 4 (crcCalc [1, 2, 3]).toNat)
      ([1, 2, 7] ++ be 4 (crcCalc [1, 2, 7]).toNat) :=
  ⟨⟨_, rfl⟩, C07_hamming_distance_4 _ _ (by simp [be]) (by simp [be]) ⟨_, rfl⟩ ⟨_, rfl⟩ (by simp)⟩

end SSP21
