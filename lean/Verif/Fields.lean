import Verif.VLength
/-
  Field codecs: integers, enums, byte sequences, sequences of structures, field lists.
  A `Codec α` packs the three member functions every field/struct/message class of the code has:
  `size()`, `write(wseq32_t&)`, `read(seq32_t&)`.
-/
namespace SSP21

/-- The `size` / `write` / `read` interface shared by all field and structure classes, e.g.
cpp/libs/ssp21/include/ssp21/crypto/SeqByteField.h:21-60. `write a cap` is the result of writing `a`
into a destination with `cap` bytes left; `read bs` returns the value and the remaining input. -/
structure Codec (α : Type) where
  size : α → Nat
  write : α → Nat → Except FormatError Bytes
  read : Bytes → Except ParseError (α × Bytes)

namespace Codec

/-- `IntegerField<UInt8>`: cpp/libs/ssp21/include/ssp21/crypto/IntegerField.h:15-18,45-53. -/
def u8 : Codec UInt8 where
  size _ := 1
  write v := emit (be 1 v.toNat)
  read bs := match splitExact 1 bs with
    | none => .error .insufficient_bytes
    | some (a, rest) => .ok (UInt8.ofNat (beNat a), rest)

/-- `IntegerField<UInt16>`: cpp/libs/ssp21/include/ssp21/crypto/IntegerField.h:15-18,45-53. -/
def u16 : Codec UInt16 where
  size _ := 2
  write v := emit (be 2 v.toNat)
  read bs := match splitExact 2 bs with
    | none => .error .insufficient_bytes
    | some (a, rest) => .ok (UInt16.ofNat (beNat a), rest)

/-- `IntegerField<UInt32>`: cpp/libs/ssp21/include/ssp21/crypto/IntegerField.h:15-18,45-53. -/
def u32 : Codec UInt32 where
  size _ := 4
  write v := emit (be 4 v.toNat)
  read bs := match splitExact 4 bs with
    | none => .error .insufficient_bytes
    | some (a, rest) => .ok (UInt32.ofNat (beNat a), rest)

/-- `IntegerField<UInt64>`: cpp/libs/ssp21/include/ssp21/crypto/IntegerField.h:15-18,45-53. -/
def u64 : Codec UInt64 where
  size _ := 8
  write v := emit (be 8 v.toNat)
  read bs := match splitExact 8 bs with
    | none => .error .insufficient_bytes
    | some (a, rest) => .ok (UInt64.ofNat (beNat a), rest)

/-- `EnumField<Spec>`: cpp/libs/ssp21/include/ssp21/crypto/EnumField.h:17-20,36-56, with `Spec::to_type`,
`Spec::from_type` and the `undefined` member as parameters. -/
def enum {ε : Type} [DecidableEq ε] (toType : ε → UInt8) (fromType : UInt8 → ε) (undefined : ε) : Codec ε where
  size _ := 1
  write v := emit [toType v]
  read
    | [] => .error .insufficient_bytes
    | b :: rest => if fromType b = undefined then .error .undefined_enum else .ok (fromType b, rest)

/-- `SeqByteField`: cpp/libs/ssp21/include/ssp21/crypto/SeqByteField.h:20-23 (size), 38-52 (read),
54-66 (write). The length is a `uint32_t`. -/
def seqByte : Codec Bytes where
  size v := VLength.size (UInt32.ofNat v.length) + v.length
  write v := andThen (VLength.write (UInt32.ofNat v.length)) (emit v)
  read bs := match VLength.read bs with
    | .error e => .error e
    | .ok (len, input) =>
      if input.length < len.toNat then .error .insufficient_bytes
      else .ok (input.take len.toNat, input.drop len.toNat)

/-- Two fields in sequence: one unfolding of `MessageFormatter::sum_sizes/write_fields`
(cpp/libs/ssp21/src/crypto/MessageFormatter.h:34-47) and `MessageParser::read_fields`
(cpp/libs/ssp21/src/crypto/MessageParser.h:37-44). -/
def pair {α β : Type} (c : Codec α) (d : Codec β) : Codec (α × β) where
  size v := c.size v.1 + d.size v.2
  write v := andThen (c.write v.1) (d.write v.2)
  read bs := match c.read bs with
    | .error e => .error e
    | .ok (a, rest) =>
      match d.read rest with
      | .error e => .error e
      | .ok (b, rest') => .ok ((a, b), rest')

/-- View a field list as a structure (the generated classes' data members). -/
def iso {α β : Type} (c : Codec α) (f : α → β) (g : β → α) : Codec β where
  size v := c.size (g v)
  write v := c.write (g v)
  read bs := match c.read bs with
    | .error e => .error e
    | .ok (a, rest) => .ok (f a, rest)

/-- The item loop of `SeqStructField::read`,
cpp/libs/ssp21/include/ssp21/crypto/SeqStructField.h:42-54 (`push` fails when full, 93-102). -/
def seqStructLoop {α : Type} (c : Codec α) (max : Nat) :
    Nat → List α → Bytes → Except ParseError (List α × Bytes)
  | 0, items, input => .ok (items, input)
  | count + 1, items, input =>
    match c.read input with
    | .error e => .error e
    | .ok (x, input') =>
      if items.length = max then .error .impl_capacity_limit
      else seqStructLoop c max count (items ++ [x]) input'

/-- The item loop of `SeqStructField::write`,
cpp/libs/ssp21/include/ssp21/crypto/SeqStructField.h:65-69. -/
def seqStructWrite {α : Type} (c : Codec α) : List α → Nat → Except FormatError Bytes
  | [] => fun _ => .ok []
  | x :: xs => andThen (c.write x) (seqStructWrite c xs)

/-- `SeqStructField<StructType, MAX_COUNT>`:
cpp/libs/ssp21/include/ssp21/crypto/SeqStructField.h:22-31 (size), 33-57 (read), 59-72 (write).
The item array is a list (its length is `count_`). -/
def seqStruct {α : Type} (c : Codec α) (max : Nat) : Codec (List α) where
  size v := VLength.size (UInt32.ofNat v.length) + (v.map c.size).sum
  write v := andThen (VLength.write (UInt32.ofNat v.length)) (seqStructWrite c v)
  read bs := match VLength.read bs with
    | .error e => .error e
    | .ok (count, input) => seqStructLoop c max count.toNat [] input

/-- `read_all` of the generated structures, e.g.
cpp/libs/ssp21/src/crypto/gen/CertificateBody.cpp:67-73. -/
def readAll {α : Type} (c : Codec α) (input : Bytes) : Except ParseError α :=
  match c.read input with
  | .error e => .error e
  | .ok (a, rest) => if rest.isEmpty then .ok a else .error .too_many_bytes

/-- What it means for the three member functions to agree with an encoding function. -/
structure Lawful {α : Type} (c : Codec α) (enc : α → Bytes) (wf : α → Prop) : Prop where
  write : ∀ a, wf a → c.write a = emit (enc a)
  size : ∀ a, wf a → c.size a = (enc a).length
  read : ∀ a rest, wf a → c.read (enc a ++ rest) = .ok (a, rest)
  canon : ∀ bs a rest, c.read bs = .ok (a, rest) → wf a ∧ bs = enc a ++ rest

/-! ### Lawfulness of the field codecs -/

theorem u8_lawful : Lawful u8 (fun v => be 1 v.toNat) (fun _ => True) where
  write _ _ := rfl
  size _ _ := by simp [u8]
  read v rest _ := by
    simp only [u8, splitExact_append' (be 1 v.toNat) rest (be_length 1 v.toNat)]
    congr 2
    rw [beNat_be]
    apply UInt8.toNat_inj.mp; simp
  canon bs a rest h := by
    simp only [u8] at h
    split at h
    · cases h
    · rename_i x r hs
      cases h
      obtain ⟨h1, h2⟩ := splitExact_some hs
      refine ⟨trivial, ?_⟩
      rw [h1]
      congr 1
      have hl := beNat_lt x
      rw [h2] at hl
      have := be_beNat x
      rw [h2] at this
      rw [UInt8.toNat_ofNat', Nat.mod_eq_of_lt (by simpa using hl), this]

theorem u16_lawful : Lawful u16 (fun v => be 2 v.toNat) (fun _ => True) where
  write _ _ := rfl
  size _ _ := by simp [u16]
  read v rest _ := by
    simp only [u16, splitExact_append' (be 2 v.toNat) rest (be_length 2 v.toNat)]
    congr 2
    rw [beNat_be]
    apply UInt16.toNat_inj.mp; simp
  canon bs a rest h := by
    simp only [u16] at h
    split at h
    · cases h
    · rename_i x r hs
      cases h
      obtain ⟨h1, h2⟩ := splitExact_some hs
      refine ⟨trivial, ?_⟩
      rw [h1]
      congr 1
      have hl := beNat_lt x
      rw [h2] at hl
      have := be_beNat x
      rw [h2] at this
      rw [UInt16.toNat_ofNat', Nat.mod_eq_of_lt (by simpa using hl), this]

theorem u32_lawful : Lawful u32 (fun v => be 4 v.toNat) (fun _ => True) where
  write _ _ := rfl
  size _ _ := by simp [u32]
  read v rest _ := by
    simp only [u32, splitExact_append' (be 4 v.toNat) rest (be_length 4 v.toNat)]
    congr 2
    rw [beNat_be]
    apply UInt32.toNat_inj.mp; simp
  canon bs a rest h := by
    simp only [u32] at h
    split at h
    · cases h
    · rename_i x r hs
      cases h
      obtain ⟨h1, h2⟩ := splitExact_some hs
      refine ⟨trivial, ?_⟩
      rw [h1]
      congr 1
      have hl := beNat_lt x
      rw [h2] at hl
      have := be_beNat x
      rw [h2] at this
      rw [UInt32.toNat_ofNat', Nat.mod_eq_of_lt (by simpa using hl), this]

theorem u64_lawful : Lawful u64 (fun v => be 8 v.toNat) (fun _ => True) where
  write _ _ := rfl
  size _ _ := by simp [u64]
  read v rest _ := by
    simp only [u64, splitExact_append' (be 8 v.toNat) rest (be_length 8 v.toNat)]
    congr 2
    rw [beNat_be]
    apply UInt64.toNat_inj.mp; simp
  canon bs a rest h := by
    simp only [u64] at h
    split at h
    · cases h
    · rename_i x r hs
      cases h
      obtain ⟨h1, h2⟩ := splitExact_some hs
      refine ⟨trivial, ?_⟩
      rw [h1]
      congr 1
      have hl := beNat_lt x
      rw [h2] at hl
      have := be_beNat x
      rw [h2] at this
      rw [UInt64.toNat_ofNat', Nat.mod_eq_of_lt (by simpa using hl), this]

theorem enum_lawful {ε : Type} [DecidableEq ε] {toType : ε → UInt8} {fromType : UInt8 → ε} {undefined : ε}
    (h1 : ∀ e, e ≠ undefined → fromType (toType e) = e)
    (h2 : ∀ b, fromType b ≠ undefined → toType (fromType b) = b) :
    Lawful (enum toType fromType undefined) (fun e => [toType e]) (fun e => e ≠ undefined) where
  write _ _ := rfl
  size _ _ := rfl
  read e rest he := by simp [enum, h1 e he, he]
  canon bs a rest h := by
    cases bs with
    | nil => simp [enum] at h
    | cons b bs =>
      simp only [enum] at h
      split at h
      · cases h
      · rename_i hu
        cases h
        exact ⟨hu, by simp [h2 b hu]⟩

/-- Encoding of a byte field: its length, then its bytes. -/
def encSeq (v : Bytes) : Bytes := VLength.enc (UInt32.ofNat v.length) ++ v

theorem seqByte_lawful : Lawful seqByte encSeq (fun v => v.length < 2 ^ 32) where
  write v _ := by simp only [seqByte, VLength.write_eq, andThen_emit]; rfl
  size v _ := by simp [seqByte, encSeq, VLength.enc_length]
  read v rest hv := by
    have : (UInt32.ofNat v.length).toNat = v.length := by simp; omega
    simp only [seqByte, encSeq, List.append_assoc, VLength.read_enc, this]
    simp
  canon bs a rest h := by
    simp only [seqByte] at h
    split at h
    · cases h
    · rename_i len input hr
      split at h
      · cases h
      · rename_i hlen
        cases h
        have hl : (List.take len.toNat input).length = len.toNat := by simp; omega
        have hlt := len.toNat_lt
        refine ⟨by rw [hl]; exact hlt, ?_⟩
        rw [VLength.read_canon hr, encSeq, hl]
        simp

theorem pair_lawful {α β : Type} {c : Codec α} {d : Codec β} {e f w x}
    (hc : Lawful c e w) (hd : Lawful d f x) :
    Lawful (pair c d) (fun v => e v.1 ++ f v.2) (fun v => w v.1 ∧ x v.2) where
  write v h := by simp only [pair, hc.write _ h.1, hd.write _ h.2, andThen_emit]
  size v h := by simp [pair, hc.size _ h.1, hd.size _ h.2]
  read v rest h := by simp [pair, List.append_assoc, hc.read _ _ h.1, hd.read _ _ h.2]
  canon bs a rest h := by
    simp only [pair] at h
    split at h
    · cases h
    · rename_i a1 r1 h1
      split at h
      · cases h
      · rename_i b1 r2 h2
        cases h
        obtain ⟨p1, p2⟩ := hc.canon _ _ _ h1
        obtain ⟨q1, q2⟩ := hd.canon _ _ _ h2
        exact ⟨⟨p1, q1⟩, by rw [p2, q2]; simp⟩

theorem iso_lawful {α β : Type} {c : Codec α} {e w} {f : α → β} {g : β → α}
    (hc : Lawful c e w) (fg : ∀ b, f (g b) = b) (gf : ∀ a, g (f a) = a) :
    Lawful (iso c f g) (fun v => e (g v)) (fun v => w (g v)) where
  write v h := by simp only [iso, hc.write _ h]
  size v h := by simp [iso, hc.size _ h]
  read v rest h := by simp [iso, hc.read _ _ h, fg]
  canon bs a rest h := by
    simp only [iso] at h
    split at h
    · cases h
    · rename_i a1 r1 h1
      cases h
      have := hc.canon _ _ _ h1
      rw [gf]
      exact this

theorem Lawful.congr {α : Type} {c : Codec α} {e e' : α → Bytes} {w w' : α → Prop}
    (hc : Lawful c e w) (he : ∀ a, e a = e' a) (hw : ∀ a, w a ↔ w' a) : Lawful c e' w' := by
  have : e = e' := funext he
  have : w = w' := funext fun a => propext (hw a)
  subst_vars; exact hc

/-- Encoding of a structure sequence: count, then the items. -/
def encList {α : Type} (e : α → Bytes) (v : List α) : Bytes :=
  VLength.enc (UInt32.ofNat v.length) ++ (v.map e).flatten

theorem seqStructWrite_eq {α : Type} {c : Codec α} {e w} (hc : Lawful c e w) (v : List α)
    (h : ∀ a ∈ v, w a) : seqStructWrite c v = emit (v.map e).flatten := by
  induction v with
  | nil => funext cap; simp [seqStructWrite, emit]
  | cons x xs ih =>
    have hx := h x (by simp)
    simp only [seqStructWrite, hc.write x hx, ih (fun a ha => h a (by simp [ha])), andThen_emit]
    simp

theorem seqStructLoop_ok {α : Type} {c : Codec α} {e w} (hc : Lawful c e w) (max : Nat) (v items : List α)
    (rest : Bytes) (h : ∀ a ∈ v, w a) (hl : items.length + v.length ≤ max) :
    seqStructLoop c max v.length items ((v.map e).flatten ++ rest) = .ok (items ++ v, rest) := by
  induction v generalizing items with
  | nil => simp [seqStructLoop]
  | cons x xs ih =>
    have hx := h x (by simp)
    simp only [List.length_cons, List.map_cons, List.flatten_cons, List.append_assoc, seqStructLoop,
      hc.read _ _ hx]
    simp only [List.length_cons] at hl
    rw [if_neg (by omega), ih (items ++ [x]) (fun a ha => h a (by simp [ha])) (by simp; omega)]
    simp

theorem seqStructLoop_canon {α : Type} {c : Codec α} {e w} (hc : Lawful c e w) (max : Nat) {k : Nat}
    {items out : List α} {bs rest : Bytes} (hi : items.length ≤ max)
    (h : seqStructLoop c max k items bs = .ok (out, rest)) :
    ∃ v, out = items ++ v ∧ v.length = k ∧ out.length ≤ max ∧ (∀ a ∈ v, w a) ∧
      bs = (v.map e).flatten ++ rest := by
  induction k generalizing items bs with
  | zero =>
    simp only [seqStructLoop] at h
    cases h
    exact ⟨[], by simp, rfl, hi, by simp, by simp⟩
  | succ k ih =>
    simp only [seqStructLoop] at h
    split at h
    · cases h
    · rename_i x input' hx
      split at h
      · cases h
      · rename_i hne
        obtain ⟨v, h1, h2, h3, h4, h5⟩ := ih (by simp; omega) h
        obtain ⟨p1, p2⟩ := hc.canon _ _ _ hx
        refine ⟨x :: v, by simp [h1], by simp [h2], h3, ?_, ?_⟩
        · intro a ha
          simp only [List.mem_cons] at ha
          rcases ha with rfl | ha
          · exact p1
          · exact h4 a ha
        · rw [p2, h5]; simp

theorem seqStruct_lawful {α : Type} {c : Codec α} {e w} (hc : Lawful c e w) (max : Nat) (hm : max < 2 ^ 32) :
    Lawful (seqStruct c max) (encList e) (fun v => v.length ≤ max ∧ ∀ a ∈ v, w a) where
  write v h := by
    simp only [seqStruct, VLength.write_eq, seqStructWrite_eq hc v h.2, andThen_emit]; rfl
  size v h := by
    simp only [seqStruct, encList, List.length_append, VLength.enc_length, List.length_flatten, List.map_map]
    congr 2
    apply List.map_congr_left
    intro a ha
    exact hc.size a (h.2 a ha)
  read v rest h := by
    have : (UInt32.ofNat v.length).toNat = v.length := by simp; omega
    simp only [seqStruct, encList, List.append_assoc, VLength.read_enc, this]
    rw [seqStructLoop_ok hc max v [] rest h.2 (by simp; exact h.1)]
    simp
  canon bs a rest h := by
    simp only [seqStruct] at h
    split at h
    · cases h
    · rename_i count input hr
      obtain ⟨v, h1, h2, h3, h4, h5⟩ := seqStructLoop_canon hc max (by simp) h
      simp only [List.nil_append] at h1
      subst h1
      refine ⟨⟨h3, h4⟩, ?_⟩
      rw [VLength.read_canon hr, encList, h5, h2]
      have : UInt32.ofNat count.toNat = count := by simp
      rw [this]; simp

end Codec
end SSP21
