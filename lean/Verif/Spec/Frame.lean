import Verif.Spec.Crc
/-
  Specification of a link frame, independent of writer and parser: the flat byte layout, with the
  bit-serial CRC.
-/
namespace SSP21.Spec

/-- Two bytes, most significant first. -/
def w16 (v : UInt16) : Bytes := [UInt8.ofNat (v.toNat / 256), UInt8.ofNat v.toNat]

/-- The checksum of some bytes, four bytes, most significant first. -/
def crcBytes (bs : Bytes) : Bytes :=
  let c := (crc bs).toNat
  [UInt8.ofNat (c / 16777216), UInt8.ofNat (c / 65536), UInt8.ofNat (c / 256), UInt8.ofNat c]

/-- The eight header bytes protected by the header checksum. -/
def frameHeader (dest src : UInt16) (length : UInt16) : Bytes :=
  [0x07, 0xAA] ++ w16 dest ++ w16 src ++ w16 length

/-- A frame: header, header checksum, payload, payload checksum. -/
def frame (dest src : UInt16) (payload : Bytes) : Bytes :=
  let h := frameHeader dest src (UInt16.ofNat payload.length)
  h ++ crcBytes h ++ payload ++ crcBytes payload

end SSP21.Spec
