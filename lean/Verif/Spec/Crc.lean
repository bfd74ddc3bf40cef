import Verif.Crc
/-
  Bit-serial specification of the CRC (independent of the table), and the helper lemmas that relate
  the table-driven model to it.
-/
namespace SSP21.Spec

/-- The generator polynomial without its leading term x^32, MSB first
(cpp/libs/ssp21/include/ssp21/link/CastagnoliCRC32.h:13-17):
x31+x30+x29+x28+x26+x23+x21+x19+x18+x15+x14+x13+x12+x11+x9+x8+x4+x1+1. -/
def poly : BitVec 32 := 0xF4ACFB13#32

/-- One step of the shift register: shift left, and subtract the generator when the bit shifted out
(combined with the message bit) is one. -/
def crcBit (s : BitVec 32) (b : Bool) : BitVec 32 :=
  (s <<< 1) ^^^ (if (s.msb ^^ b) then poly else 0#32)

/-- The bits of a byte, most significant first. -/
def byteBits (b : UInt8) : List Bool :=
  [b.toNat.testBit 7, b.toNat.testBit 6, b.toNat.testBit 5, b.toNat.testBit 4,
   b.toNat.testBit 3, b.toNat.testBit 2, b.toNat.testBit 1, b.toNat.testBit 0]

/-- The bits of a byte string in transmission order. -/
def bits (bs : Bytes) : List Bool := bs.flatMap byteBits

/-- The CRC: run the register over the message bits, starting from zero. -/
def crcBits (s : BitVec 32) (l : List Bool) : BitVec 32 := l.foldl crcBit s

def crc (bs : Bytes) : BitVec 32 := crcBits 0#32 (bits bs)

/-! ### Helper lemmas -/

theorem crcBits_append (s : BitVec 32) (l l' : List Bool) :
    crcBits s (l ++ l') = crcBits (crcBits s l) l' := by
  simp [crcBits, List.foldl_append]

theorem crcBit_xor (s t : BitVec 32) (a b : Bool) :
    crcBit (s ^^^ t) (a ^^ b) = crcBit s a ^^^ crcBit t b := by
  unfold crcBit
  rw [BitVec.msb_xor]
  have h : ((s ^^^ t) <<< 1) = (s <<< 1) ^^^ (t <<< 1) := by
    ext i hi
    simp only [BitVec.getElem_xor, BitVec.getElem_shiftLeft]
    by_cases h : i < 1 <;> simp [h]
  rw [h]
  have hx : ∀ a b c d : BitVec 32, (a ^^^ b) ^^^ (c ^^^ d) = (a ^^^ c) ^^^ (b ^^^ d) := by
    intro a b c d
    ext i hi
    simp only [BitVec.getElem_xor]
    cases a[i] <;> cases b[i] <;> cases c[i] <;> cases d[i] <;> rfl
  rw [← hx]
  congr 1
  cases s.msb <;> cases t.msb <;> cases a <;> cases b <;> simp

theorem crcBits_xor (s t : BitVec 32) (l l' : List Bool) (h : l.length = l'.length) :
    crcBits (s ^^^ t) (List.zipWith xor l l') = crcBits s l ^^^ crcBits t l' := by
  induction l generalizing s t l' with
  | nil =>
    cases l' with
    | nil => simp [crcBits]
    | cons => simp at h
  | cons a l ih =>
    cases l' with
    | nil => simp at h
    | cons b l' =>
      simp only [List.length_cons, Nat.add_right_cancel_iff] at h
      simp only [crcBits, List.zipWith_cons_cons, List.foldl_cons] at *
      rw [crcBit_xor]
      exact ih _ _ _ h

theorem crcBits_zeros (k : Nat) : crcBits 0#32 (List.replicate k false) = 0#32 := by
  induction k with
  | zero => rfl
  | succ k ih => simp only [List.replicate_succ, crcBits, List.foldl_cons]; exact ih

theorem crcBit_false_inj {s : BitVec 32} (h : crcBit s false = 0#32) : s = 0#32 := by
  unfold crcBit at h
  rw [Bool.xor_false] at h
  cases hm : s.msb
  · rw [hm] at h
    simp only [Bool.false_eq_true, if_false, BitVec.xor_zero] at h
    apply BitVec.eq_of_getLsbD_eq
    intro i hi
    by_cases h31 : i = 31
    · subst h31
      rw [BitVec.msb_eq_getLsbD_last] at hm
      simpa using hm
    · have := congrArg (fun x => x.getLsbD (i + 1)) h
      simp only [BitVec.getLsbD_shiftLeft, BitVec.getLsbD_zero] at this
      have h1 : i + 1 < 32 := by omega
      simpa [h1] using this
  · rw [hm] at h
    have := congrArg (fun x => x.getLsbD 0) h
    simp [poly] at this

theorem crcBits_false_inj {s : BitVec 32} (k : Nat) (h : crcBits s (List.replicate k false) = 0#32) :
    s = 0#32 := by
  induction k generalizing s with
  | zero => exact h
  | succ k ih =>
    simp only [List.replicate_succ, crcBits, List.foldl_cons] at h
    exact crcBit_false_inj (ih h)

/-- Shifting in zeros while the leading bits are zero is a plain shift. -/
theorem crcBits_shift (s : BitVec 32) (k : Nat) (hk : k ≤ 32)
    (h : ∀ i, 32 - k ≤ i → s.getLsbD i = false) :
    crcBits s (List.replicate k false) = s <<< k := by
  induction k generalizing s with
  | zero => simp [crcBits]
  | succ k ih =>
    simp only [List.replicate_succ, crcBits, List.foldl_cons]
    have hm : s.msb = false := by rw [BitVec.msb_eq_getLsbD_last]; exact h 31 (by omega)
    have : crcBit s false = s <<< 1 := by simp [crcBit, hm]
    rw [this]
    have := ih (s <<< 1) (by omega) (by
      intro i hi
      simp only [BitVec.getLsbD_shiftLeft]
      by_cases h0 : i < 1
      · simp [h0]
      · simp only [h0]
        rw [h (i - 1) (by omega)]; simp)
    unfold crcBits at this
    rw [this, ← BitVec.shiftLeft_add, Nat.add_comm]

/-- Load at most 32 bits into the top of a register. -/
def load : List Bool → BitVec 32
  | [] => 0#32
  | b :: l => (if b then 0x80000000#32 else 0#32) ^^^ (load l >>> 1)

theorem load_low (l : List Bool) (i : Nat) (h : i + l.length < 32) : (load l).getLsbD i = false := by
  induction l generalizing i with
  | nil => simp [load]
  | cons b l ih =>
    simp only [List.length_cons] at h
    simp only [load, BitVec.getLsbD_xor, BitVec.getLsbD_ushiftRight]
    rw [ih (1 + i) (by omega)]
    have h31 : i < 31 := by omega
    cases b
    · simp
    · have key : ∀ i : Fin 31, (0x80000000#32).getLsbD i = false := by decide +kernel
      simpa using key ⟨i, h31⟩

theorem crcBit_load (s : BitVec 32) (b : Bool) (l : List Bool) (h : l.length < 32) :
    crcBit s b ^^^ load l = crcBit (s ^^^ load (b :: l)) false := by
  have h0 : crcBit (load l >>> 1) false = load l := by
    have hm : (load l >>> 1).msb = false := by
      rw [BitVec.msb_eq_getLsbD_last]; simp
    unfold crcBit
    rw [hm]
    simp only [Bool.xor_false, Bool.false_eq_true, if_false, BitVec.xor_zero]
    apply BitVec.eq_of_getLsbD_eq
    intro i hi
    simp only [BitVec.getLsbD_shiftLeft, BitVec.getLsbD_ushiftRight]
    by_cases hz : i = 0
    · subst hz
      rw [load_low l 0 (by omega)]; simp
    · have : ¬ i < 1 := by omega
      have e : 1 + (i - 1) = i := by omega
      simp [this, hi, e]
  have h1 : crcBit (if b then 0x80000000#32 else 0#32) false = crcBit 0#32 b := by
    cases b <;> decide
  have e1 : load (b :: l) = (if b then 0x80000000#32 else 0#32) ^^^ (load l >>> 1) := rfl
  have e2 := crcBit_xor s (load (b :: l)) false false
  simp only [Bool.xor_false] at e2
  have e3 := crcBit_xor (if b then 0x80000000#32 else 0#32) (load l >>> 1) false false
  simp only [Bool.xor_false] at e3
  have e4 := crcBit_xor s 0#32 false b
  simp only [Bool.false_xor, BitVec.xor_zero] at e4
  rw [e2, e1, e3, h0, h1, e4, BitVec.xor_assoc]

theorem crcBits_load (s : BitVec 32) (l : List Bool) (h : l.length ≤ 32) :
    crcBits s l = crcBits (s ^^^ load l) (List.replicate l.length false) := by
  induction l generalizing s with
  | nil => simp [crcBits, load]
  | cons b l ih =>
    simp only [List.length_cons] at h
    have := ih (crcBit s b) (by omega)
    simp only [crcBits, List.foldl_cons, List.length_cons, List.replicate_succ] at *
    rw [this, crcBit_load s b l (by omega)]

theorem load_msb (b : Bool) (l : List Bool) : (load (b :: l)).getLsbD 31 = b := by
  simp only [load, BitVec.getLsbD_xor, BitVec.getLsbD_ushiftRight]
  cases b <;> simp

theorem load_eq_zero (l : List Bool) (h : l.length ≤ 32) (hz : load l = 0#32) :
    l = List.replicate l.length false := by
  induction l with
  | nil => rfl
  | cons b l ih =>
    simp only [List.length_cons] at h
    have hb := load_msb b l
    rw [hz] at hb
    simp only [BitVec.getLsbD_zero] at hb
    subst hb
    rw [List.length_cons, List.replicate_succ]
    congr 1
    apply ih (by omega)
    simp only [load, Bool.false_eq_true, if_false, BitVec.zero_xor] at hz
    apply BitVec.eq_of_getLsbD_eq
    intro i hi
    by_cases h0 : i = 0
    · subst h0; rw [load_low l 0 (by omega)]; simp
    · have := congrArg (fun x => x.getLsbD (i - 1)) hz
      simp only [BitVec.getLsbD_ushiftRight] at this
      have e : 1 + (i - 1) = i := by omega
      simpa [e] using this

theorem byteBits_length (b : UInt8) : (byteBits b).length = 8 := rfl

theorem bits_length (bs : Bytes) : (bits bs).length = 8 * bs.length := by
  induction bs with
  | nil => rfl
  | cons b bs ih =>
    simp only [bits, List.flatMap_cons, List.length_append, byteBits_length, List.length_cons] at *
    omega

theorem bits_append (a b : Bytes) : bits (a ++ b) = bits a ++ bits b := by simp [bits]

/-- The table entry for an index is the register after shifting the index out. -/
theorem table_eq (i : UInt8) :
    (crcTable[i.toNat]'(i.toNat_lt)).toBitVec =
      crcBits (i.toBitVec.setWidth 32 <<< 24) (List.replicate 8 false) := by
  have h : ∀ n : Fin 256, (crcTable[n.val]'(n.isLt)).toBitVec =
      crcBits ((BitVec.ofNat 8 n.val).setWidth 32 <<< 24) (List.replicate 8 false) := by decide +kernel
  have := h ⟨i.toNat, i.toNat_lt⟩
  simp only [← UInt8.toNat_toBitVec, BitVec.ofNat_toNat, BitVec.setWidth_eq] at this
  exact this

theorem byte_cancel (b : UInt8) :
    crcBits (b.toBitVec.setWidth 32 <<< 24) (byteBits b) = 0#32 := by
  have h : ∀ n : Fin 256, crcBits ((BitVec.ofNat 8 n.val).setWidth 32 <<< 24)
      (byteBits (UInt8.ofNat n.val)) = 0#32 := by decide +kernel
  have := h ⟨b.toNat, b.toNat_lt⟩
  simp only [UInt8.ofNat_toNat] at this
  simp only [← UInt8.toNat_toBitVec, BitVec.ofNat_toNat, BitVec.setWidth_eq] at this
  exact this

theorem zipWith_xor_false (l : List Bool) : List.zipWith xor (List.replicate l.length false) l = l := by
  induction l with
  | nil => rfl
  | cons b l ih => simp [List.replicate_succ, ih]

theorem crcStep_eq (r : UInt32) (b : UInt8) :
    (crcStep r b).toBitVec = crcBits r.toBitVec (byteBits b) := by
  unfold crcStep
  simp only [UInt32.toBitVec_xor]
  rw [table_eq]
  generalize hi : (b ^^^ (r >>> 24).toUInt8) = idx
  -- split the register: top byte and the rest
  have hsplit : r.toBitVec = (idx.toBitVec.setWidth 32 <<< 24) ^^^ (b.toBitVec.setWidth 32 <<< 24) ^^^
      (r.toBitVec &&& 0x00FFFFFF#32) := by
    subst hi
    apply BitVec.eq_of_getLsbD_eq
    intro i hi
    simp only [UInt8.toBitVec_xor, UInt32.toBitVec_toUInt8, UInt32.toBitVec_shiftRight,
      BitVec.getLsbD_xor, BitVec.getLsbD_and, BitVec.getLsbD_shiftLeft, BitVec.getLsbD_setWidth]
    have m : ∀ j : Fin 32, (0x00FFFFFF#32).getLsbD j = decide (j.val < 24) := by decide +kernel
    have hm := m ⟨i, hi⟩
    simp only at hm
    rw [hm]
    by_cases h24 : i < 24
    · simp [h24]
    · have a1 : i - 24 < 32 := by omega
      have a2 : i - 24 < 8 := by omega
      have e24 : 24 + (i - 24) = i := by omega
      simp [h24, a1, a2, hi]
      rw [e24, BitVec.getLsbD_eq_getElem hi]
      cases b.toBitVec[i - 24] <;> cases r.toBitVec[i] <;> rfl
  have hlow : crcBits (r.toBitVec &&& 0x00FFFFFF#32) (List.replicate 8 false) = r.toBitVec <<< 8 := by
    rw [crcBits_shift _ 8 (by omega)]
    · apply BitVec.eq_of_getLsbD_eq
      intro i hi
      simp only [BitVec.getLsbD_shiftLeft, BitVec.getLsbD_and]
      by_cases h8 : i < 8
      · simp [h8]
      · have m : ∀ j : Fin 32, 8 ≤ j.val → (0x00FFFFFF#32).getLsbD (j.val - 8) = true := by decide +kernel
        have hm := m ⟨i, hi⟩ (by simp; omega)
        simp only at hm
        rw [hm]; simp
    · intro i hi
      simp only [BitVec.getLsbD_and]
      by_cases h32 : i < 32
      · have m : ∀ j : Fin 32, 24 ≤ j.val → (0x00FFFFFF#32).getLsbD j.val = false := by decide +kernel
        have hm := m ⟨i, h32⟩ (by simp; omega)
        simp only at hm
        rw [hm]; simp
      · rw [BitVec.getLsbD_of_ge _ _ (by omega)]; simp
  have hz : (List.zipWith xor (List.replicate 8 false) (byteBits b)) = byteBits b :=
    zipWith_xor_false (byteBits b)
  have hz2 : (List.zipWith xor (byteBits b) (List.replicate 8 false)) = byteBits b := by
    simp [byteBits, List.replicate_succ]
  have hsh : (r <<< 8).toBitVec = r.toBitVec <<< 8 := by
    rw [UInt32.toBitVec_shiftLeft, BitVec.shiftLeft_eq']
    simp
  rw [hsh]
  conv => rhs; rw [hsplit, ← hz2]
  rw [crcBits_xor _ _ _ _ (by simp [byteBits_length])]
  conv => rhs; lhs; rw [← hz]
  rw [crcBits_xor _ _ _ _ (by simp [byteBits_length]), byte_cancel, hlow]
  simp

theorem crcCalc_eq (data : Bytes) : (crcCalc data).toBitVec = crc data := by
  have : ∀ r : UInt32, (data.foldl crcStep r).toBitVec = crcBits r.toBitVec (bits data) := by
    induction data with
    | nil => intro r; simp [bits, crcBits]
    | cons b data ih =>
      intro r
      simp only [List.foldl_cons]
      rw [ih, crcStep_eq, ← crcBits_append]
      simp [bits]
  exact this 0

end SSP21.Spec
