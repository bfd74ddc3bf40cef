import Verif.Bytes
/-
  Variable-length lengths. Models cpp/libs/ssp21/src/crypto/VLength.cpp.
-/
set_option linter.unusedSimpArgs false
namespace SSP21

/-- Models cpp/libs/ssp21/include/ssp21/crypto/gen/ParseError.h:27-45 (without `ok`, which is
the success case of `Except`). -/
inductive ParseError
  | insufficient_bytes | undefined_enum | unexpected_function | too_many_bytes
  | impl_capacity_limit | reserved_bit | bad_vlength
  deriving DecidableEq, Repr

/-- Models cpp/libs/ssp21/include/ssp21/crypto/gen/FormatError.h:28-34 (without `ok`). -/
inductive FormatError
  | insufficient_space
  deriving DecidableEq, Repr

/-- Models `VLength::num_values_bytes`, cpp/libs/ssp21/src/crypto/VLength.cpp:81-94. -/
def VLength.numValueBytes (value : UInt32) : UInt8 :=
  if value ≤ 127 then 0
  else if value ≤ 255 then 1
  else if value ≤ 65535 then 2
  else if value ≤ 16777215 then 3
  else 4

/-- Models `VLength::size`, cpp/libs/ssp21/include/ssp21/crypto/VLength.h:35-38. -/
def VLength.size (value : UInt32) : Nat := (VLength.numValueBytes value).toNat + 1

/-- A write into a destination of remaining capacity `cap`: succeeds with `bs` when it fits.
Models `wseq32_t::put` / `UIntN::write_to` (external ser4cpp), which fail when there is no room. -/
def emit (bs : Bytes) (cap : Nat) : Except FormatError Bytes :=
  if bs.length ≤ cap then .ok bs else .error .insufficient_space

/-- Two consecutive writes into the same destination, the first error wins. The result is the bytes
emitted; the remaining capacity is what the first write left. Models the `if (any(err)) return err;`
sequencing of cpp/libs/ssp21/src/crypto/MessageFormatter.h:34-41. (Bytes already put into the
destination before an error are not represented: all callers discard the destination on error.) -/
def andThen (w₁ w₂ : Nat → Except FormatError Bytes) (cap : Nat) : Except FormatError Bytes :=
  match w₁ cap with
  | .error e => .error e
  | .ok a =>
    match w₂ (cap - a.length) with
    | .error e => .error e
    | .ok b => .ok (a ++ b)

/-- Models `VLength::write`, cpp/libs/ssp21/src/crypto/VLength.cpp:13-42. -/
def VLength.write (value : UInt32) : Nat → Except FormatError Bytes :=
  let n := VLength.numValueBytes value
  if n = 0 then emit [value.toUInt8]
  else
    andThen (emit [0x80 ||| n]) <|
      if n = 1 then emit [value.toUInt8]
      else if n = 2 then emit (be 2 value.toUInt16.toNat)
      else if n = 3 then
        andThen (emit [((value >>> 16) &&& 0xFF).toUInt8])
          (emit (be 2 (value &&& 0xFFFF).toUInt16.toNat))
      else emit (be 4 value.toNat)

/-- The accumulation loop of `VLength::read`, cpp/libs/ssp21/src/crypto/VLength.cpp:63-71. -/
def VLength.readLoop : Nat → UInt32 → Bytes → Except ParseError (UInt32 × Bytes)
  | 0, ret, src => .ok (ret, src)
  | _ + 1, _, [] => .error .insufficient_bytes
  | k + 1, ret, b :: src => VLength.readLoop k ((ret <<< 8) ||| b.toUInt32) src

/-- Models `VLength::read`, cpp/libs/ssp21/src/crypto/VLength.cpp:44-79. -/
def VLength.read : Bytes → Except ParseError (UInt32 × Bytes)
  | [] => .error .insufficient_bytes
  | top :: src =>
    if top &&& 0x80 = 0 then .ok (top.toUInt32, src)
    else
      let count := top &&& 0x7F
      if count < 1 ∨ count > 4 then .error .bad_vlength
      else
        match VLength.readLoop count.toNat 0 src with
        | .error e => .error e
        | .ok (ret, src') =>
          if VLength.numValueBytes ret ≠ count then .error .bad_vlength
          else .ok (ret, src')

/-! ### Helper lemmas -/

/-- The canonical encoding, in closed form. -/
def VLength.enc (v : UInt32) : Bytes :=
  if v.toNat ≤ 127 then [UInt8.ofNat v.toNat]
  else
    let n := if v.toNat ≤ 255 then 1 else if v.toNat ≤ 65535 then 2
      else if v.toNat ≤ 16777215 then 3 else 4
    UInt8.ofNat (128 + n) :: be n v.toNat

theorem VLength.numValueBytes_toNat (v : UInt32) :
    (VLength.numValueBytes v).toNat =
      if v.toNat ≤ 127 then 0 else if v.toNat ≤ 255 then 1 else if v.toNat ≤ 65535 then 2
      else if v.toNat ≤ 16777215 then 3 else 4 := by
  unfold VLength.numValueBytes
  simp only [UInt32.le_iff_toNat_le, UInt32.reduceToNat]
  repeat' split
  all_goals rfl

theorem emit_ok {bs : Bytes} {cap : Nat} (h : bs.length ≤ cap) : emit bs cap = .ok bs := by
  simp [emit, h]

theorem andThen_emit (a b : Bytes) : andThen (emit a) (emit b) = emit (a ++ b) := by
  funext cap
  unfold andThen emit
  by_cases h : a.length ≤ cap
  · by_cases h2 : b.length ≤ cap - a.length
    · have : a.length + b.length ≤ cap := by omega
      simp [h, h2, this]
    · have : ¬ a.length + b.length ≤ cap := by omega
      simp [h, h2, this]
  · have : ¬ a.length + b.length ≤ cap := by omega
    simp [h, this]

theorem VLength.enc_length (v : UInt32) : (VLength.enc v).length = VLength.size v := by
  unfold VLength.enc VLength.size
  rw [VLength.numValueBytes_toNat]
  repeat' split
  all_goals simp_all

theorem UInt32.shl8_or_toNat (r : UInt32) (b : UInt8) (h : r.toNat < 2 ^ 24) :
    ((r <<< 8) ||| b.toUInt32).toNat = r.toNat * 256 + b.toNat := by
  have hb := b.toNat_lt
  simp only [UInt32.toNat_or, UInt32.toNat_shiftLeft, UInt8.toNat_toUInt32]
  have : (8 : UInt32).toNat % 32 = 8 := rfl
  rw [this, Nat.mod_eq_of_lt (by rw [Nat.shiftLeft_eq]; omega), ← Nat.shiftLeft_add_eq_or_of_lt (by omega),
    Nat.shiftLeft_eq]

theorem VLength.readLoop_ok (bs rest : Bytes) (r : UInt32)
    (h : r.toNat * 256 ^ bs.length + beNat bs < 2 ^ 32) (hl : bs.length ≤ 4) :
    ∃ v : UInt32, VLength.readLoop bs.length r (bs ++ rest) = .ok (v, rest) ∧
      v.toNat = r.toNat * 256 ^ bs.length + beNat bs := by
  induction bs generalizing r with
  | nil => exact ⟨r, rfl, by simp [beNat]⟩
  | cons b bs ih =>
    have hcons : ∀ acc, List.foldl (fun acc (b : UInt8) => acc * 256 + b.toNat) acc bs
        = acc * 256 ^ bs.length + beNat bs := by
      clear ih h hl
      intro acc
      unfold beNat
      induction bs using List.reverseRecOn with
      | nil => simp
      | append_singleton bs x ih =>
        simp only [List.foldl_append, List.foldl_cons, List.foldl_nil, List.length_append,
          List.length_singleton, Nat.pow_succ]
        rw [ih]
        rw [Nat.add_mul, Nat.mul_assoc]; omega
    have hb : beNat (b :: bs) = b.toNat * 256 ^ bs.length + beNat bs := by
      have := hcons b.toNat
      simpa [beNat] using this
    have hr : r.toNat < 2 ^ 24 := by
      rw [List.length_cons, Nat.pow_succ] at h
      have h1 : r.toNat * 256 ≤ r.toNat * (256 ^ bs.length * 256) := by
        apply Nat.mul_le_mul_left
        have : 0 < 256 ^ bs.length := Nat.pow_pos (by omega)
        omega
      omega
    have hs := UInt32.shl8_or_toNat r b hr
    have key : (r.toNat * 256 + b.toNat) * 256 ^ bs.length + beNat bs =
        r.toNat * 256 ^ (b :: bs).length + beNat (b :: bs) := by
      rw [hb, List.length_cons, Nat.pow_succ, Nat.add_mul, Nat.mul_assoc, Nat.mul_comm 256]
      omega
    obtain ⟨v, hv, hv2⟩ := ih ((r <<< 8) ||| b.toUInt32) (by rw [hs, key]; exact h)
      (by simp at hl; omega)
    refine ⟨v, ?_, ?_⟩
    · simp only [List.length_cons, List.cons_append, VLength.readLoop]; exact hv
    · rw [hv2, hs, key]

theorem VLength.readLoop_inv {k : Nat} {r v : UInt32} {src rest : Bytes}
    (h : VLength.readLoop k r src = .ok (v, rest)) :
    ∃ bs, bs.length = k ∧ src = bs ++ rest := by
  induction k generalizing r src with
  | zero => simp [VLength.readLoop] at h; exact ⟨[], rfl, by simp [h]⟩
  | succ k ih =>
    cases src with
    | nil => simp [VLength.readLoop] at h
    | cons b src =>
      simp only [VLength.readLoop] at h
      obtain ⟨bs, h1, h2⟩ := ih h
      exact ⟨b :: bs, by simp [h1], by simp [h2]⟩

theorem UInt8.and80_eq_zero_iff (b : UInt8) : b &&& 0x80 = 0 ↔ b.toNat < 128 := by
  have h : ∀ n : Fin 256, (UInt8.ofNat n &&& 0x80 = 0 ↔ n.val < 128) := by decide +kernel
  have := h ⟨b.toNat, b.toNat_lt⟩
  simpa using this

theorem UInt8.and7F_toNat (b : UInt8) : (b &&& 0x7F).toNat = b.toNat % 128 := by
  have h : ∀ n : Fin 256, (UInt8.ofNat n &&& 0x7F).toNat = n.val % 128 := by decide +kernel
  have := h ⟨b.toNat, b.toNat_lt⟩
  simpa using this

theorem VLength.write_eq (v : UInt32) : VLength.write v = emit (VLength.enc v) := by
  have hv := v.toNat_lt
  unfold VLength.write VLength.enc
  have hn := VLength.numValueBytes_toNat v
  have d10 : ((1 : UInt8) = 0) = False := by decide
  have d20 : ((2 : UInt8) = 0) = False := by decide
  have d21 : ((2 : UInt8) = 1) = False := by decide
  have d30 : ((3 : UInt8) = 0) = False := by decide
  have d31 : ((3 : UInt8) = 1) = False := by decide
  have d32 : ((3 : UInt8) = 2) = False := by decide
  have d40 : ((4 : UInt8) = 0) = False := by decide
  have d41 : ((4 : UInt8) = 1) = False := by decide
  have d42 : ((4 : UInt8) = 2) = False := by decide
  have d43 : ((4 : UInt8) = 3) = False := by decide
  have e8 : v.toUInt8 = UInt8.ofNat v.toNat := by
    apply UInt8.toNat_inj.mp; simp
  by_cases h1 : v.toNat ≤ 127
  · have : VLength.numValueBytes v = 0 := UInt8.toNat_inj.mp (by simp [hn, h1])
    simp only [this, h1, e8, if_true]
  · by_cases h2 : v.toNat ≤ 255
    · have : VLength.numValueBytes v = 1 := UInt8.toNat_inj.mp (by simp [hn, h1, h2])
      simp only [this, h1, h2, e8, d10, d20, d21, d30, d31, d32, d40, d41, d42, d43, if_true, if_false, andThen_emit]
      rfl
    · by_cases h3 : v.toNat ≤ 65535
      · have : VLength.numValueBytes v = 2 := UInt8.toNat_inj.mp (by simp [hn, h1, h2, h3])
        simp only [this, h1, h2, h3, d10, d20, d21, d30, d31, d32, d40, d41, d42, d43, if_true, if_false, andThen_emit]
        have : v.toUInt16.toNat = v.toNat := by simp; omega
        rw [this]; rfl
      · by_cases h4 : v.toNat ≤ 16777215
        · have : VLength.numValueBytes v = 3 := UInt8.toNat_inj.mp (by simp [hn, h1, h2, h3, h4])
          simp only [this, h1, h2, h3, h4, d10, d20, d21, d30, d31, d32, d40, d41, d42, d43, if_true, if_false, andThen_emit]
          congr 1
          have ea : ((v >>> 16 &&& 255).toUInt8) = UInt8.ofNat (v.toNat / 256 / 256) := by
            apply UInt8.toNat_inj.mp
            simp only [UInt32.toNat_toUInt8, UInt32.toNat_and, UInt32.toNat_shiftRight,
              UInt32.reduceToNat, UInt8.toNat_ofNat']
            have : (255 : Nat) = 2 ^ 8 - 1 := rfl
            have e16 : (2 : Nat) ^ (16 % 32) = 65536 := rfl
            rw [this, Nat.and_two_pow_sub_one_eq_mod, Nat.shiftRight_eq_div_pow, e16]
            omega
          have eb : (v &&& 65535).toUInt16.toNat = v.toNat % 65536 := by
            simp only [UInt32.toNat_toUInt16, UInt32.toNat_and, UInt32.reduceToNat]
            have : (65535 : Nat) = 2 ^ 16 - 1 := rfl
            rw [this, Nat.and_two_pow_sub_one_eq_mod]; omega
          have e3 : be 3 v.toNat = [UInt8.ofNat (v.toNat / 256 / 256), UInt8.ofNat (v.toNat / 256), UInt8.ofNat v.toNat] := rfl
          have e2 : be 2 (v.toNat % 65536) = [UInt8.ofNat (v.toNat % 65536 / 256), UInt8.ofNat (v.toNat % 65536)] := rfl
          have x1 : UInt8.ofNat (v.toNat % 65536 / 256) = UInt8.ofNat (v.toNat / 256) := by
            apply UInt8.toNat_inj.mp; simp only [UInt8.toNat_ofNat']; omega
          have x2 : UInt8.ofNat (v.toNat % 65536) = UInt8.ofNat (v.toNat) := by
            apply UInt8.toNat_inj.mp; simp only [UInt8.toNat_ofNat']; omega
          rw [ea, eb, e3, e2, x1, x2]; rfl
        · have : VLength.numValueBytes v = 4 := UInt8.toNat_inj.mp (by simp [hn, h1, h2, h3, h4])
          simp only [this, h1, h2, h3, h4, d10, d20, d21, d30, d31, d32, d40, d41, d42, d43, if_true, if_false, andThen_emit]
          rfl

theorem VLength.read_enc (v : UInt32) (rest : Bytes) :
    VLength.read (VLength.enc v ++ rest) = .ok (v, rest) := by
  have hv := v.toNat_lt
  have hn := VLength.numValueBytes_toNat v
  unfold VLength.enc
  by_cases h1 : v.toNat ≤ 127
  · simp only [h1, if_true, List.singleton_append, VLength.read]
    have hb : (UInt8.ofNat v.toNat).toNat = v.toNat := by simp; omega
    rw [if_pos ((UInt8.and80_eq_zero_iff _).mpr (by rw [hb]; omega))]
    congr 2
    apply UInt32.toNat_inj.mp
    simp only [UInt8.toNat_toUInt32]; exact hb
  · rw [if_neg h1]
    rw [if_neg h1] at hn
    generalize hk : (if v.toNat ≤ 255 then 1 else if v.toNat ≤ 65535 then 2
      else if v.toNat ≤ 16777215 then 3 else 4) = k at *
    have hkr : 1 ≤ k ∧ k ≤ 4 ∧ v.toNat < 256 ^ k := by
      subst hk
      repeat' split
      all_goals omega
    simp only [List.cons_append, VLength.read]
    have hb : (UInt8.ofNat (128 + k)).toNat = 128 + k := by simp; omega
    rw [if_neg (by rw [UInt8.and80_eq_zero_iff, hb]; omega)]
    have hc : (UInt8.ofNat (128 + k) &&& 127).toNat = k := by rw [UInt8.and7F_toNat, hb]; omega
    rw [if_neg (by
      rw [UInt8.lt_iff_toNat_lt, gt_iff_lt, UInt8.lt_iff_toNat_lt, hc]
      simp; omega)]
    rw [hc]
    have hlt : beNat (be k v.toNat) = v.toNat := by
      rw [beNat_be, Nat.mod_eq_of_lt hkr.2.2]
    obtain ⟨w, hw, hw2⟩ := VLength.readLoop_ok (be k v.toNat) rest 0 (by rw [hlt]; simp; omega) (by simp; omega)
    rw [be_length] at hw
    rw [hw]
    have : w = v := UInt32.toNat_inj.mp (by rw [hw2, hlt]; simp)
    subst this
    simp only
    rw [if_neg]
    simp only [ne_eq, Decidable.not_not]
    exact UInt8.toNat_inj.mp (by rw [hn, hc])

theorem VLength.read_canon {bs rest : Bytes} {v : UInt32} (h : VLength.read bs = .ok (v, rest)) :
    bs = VLength.enc v ++ rest := by
  cases bs with
  | nil => simp [VLength.read] at h
  | cons top src =>
    have ht := top.toNat_lt
    simp only [VLength.read] at h
    split at h
    · rename_i h0
      rw [UInt8.and80_eq_zero_iff] at h0
      cases h
      unfold VLength.enc
      rw [if_pos (by simp; omega)]
      simp
    · rename_i h0
      rw [UInt8.and80_eq_zero_iff] at h0
      split at h
      · cases h
      · rename_i hc
        rw [UInt8.lt_iff_toNat_lt, gt_iff_lt, UInt8.lt_iff_toNat_lt, UInt8.and7F_toNat] at hc
        simp only [UInt8.reduceToNat] at hc
        split at h
        · cases h
        · rename_i ret src' hr
          split at h
          · cases h
          · rename_i hnv
            cases h
            simp only [ne_eq, Decidable.not_not] at hnv
            have hnv' := congrArg UInt8.toNat hnv
            rw [UInt8.and7F_toNat] at hr hnv'
            obtain ⟨ds, hd1, hd2⟩ := VLength.readLoop_inv hr
            have hlt := beNat_lt ds
            have hle : 256 ^ ds.length ≤ 256 ^ 4 := Nat.pow_le_pow_right (by omega) (by omega)
            obtain ⟨w, hw, hw2⟩ := VLength.readLoop_ok ds rest 0 (by simp; omega) (by omega)
            rw [hd2, ← hd1, hw] at hr
            cases hr
            rw [VLength.numValueBytes_toNat] at hnv'
            have hw3 : v.toNat = beNat ds := by rw [hw2]; simp
            unfold VLength.enc
            have hk : top.toNat % 128 ≠ 0 := by omega
            by_cases h1 : v.toNat ≤ 127
            · rw [if_pos h1] at hnv'; omega
            · rw [if_neg h1] at hnv'
              rw [if_neg h1]
              simp only [hnv']
              rw [hw3, ← hd1, be_beNat, hd2]
              have : UInt8.ofNat (128 + ds.length) = top := by
                apply UInt8.toNat_inj.mp
                simp; omega
              rw [this]; rfl

end SSP21
