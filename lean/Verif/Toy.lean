import Verif.Primitives
/-
  A toy backend, used only to show that hypotheses of theorems about the primitives can be met and to run
  concrete examples.
-/
namespace SSP21.Toy

/-- The first 32 bytes, zero padded. -/
def pad (l : Bytes) : Bytes := (l ++ List.replicate 32 0).take 32

theorem pad_length (l : Bytes) : (pad l).length = 32 := by simp [pad]

theorem pad_pad (l : Bytes) : pad (pad l) = pad l := by
  have h := pad_length l
  rw [pad, List.take_append_of_le_length (by omega), List.take_of_length_le (by omega)]

/-- "Hash": the first 32 bytes. "MAC": the sum of key and message. "DH": sum. "GCM": no encryption. -/
def backend : Backend where
  hash := pad
  hmac := fun k m => pad (List.zipWith (· + ·) (pad k) (pad m))
  dhPublic := pad
  dhRaw := fun x p => some (pad (List.zipWith (· + ·) (pad x) (pad p)))
  verifyRaw := fun m sig key => decide (pad sig = pad (List.zipWith (· + ·) (pad m) (pad key)))
  gcmSeal := fun _ _ _ m => some (m, List.replicate 16 7)
  gcmOpen := fun _ _ _ ct tag => if tag = List.replicate 16 7 then some ct else none

theorem lawful : backend.Lawful where
  hash_length := pad_length
  hmac_length := fun _ _ => pad_length _
  dh_comm := by
    intro x y
    simp only [backend, pad_pad]
    congr 2
    exact List.zipWith_comm_of_comm (by intro a b; exact UInt8.add_comm a b) ..
  dh_length := by intro x p r h; simp only [backend, Option.some.injEq] at h; rw [← h]; exact pad_length _
  dhPublic_length := pad_length
  gcm_seal := fun _ _ _ m => ⟨m, List.replicate 16 7, rfl, rfl, rfl, by simp [backend]⟩

/-- A checksum of 32 bytes over all of the input. -/
def sum (l : Bytes) : Bytes :=
  be 32 (l.foldl (fun acc x => (acc * 0x10000000000000000000000000000000000000193 + x.toNat + 1) % 2 ^ 256) 0)

theorem sum_length (l : Bytes) : (sum l).length = 32 := be_length _ _

/-- The same with a "hash" and a "MAC" that depend on all of their input. -/
def strong : Backend := { backend with hash := sum, hmac := fun k m => sum (k ++ m) }

theorem strong_lawful : strong.Lawful where
  hash_length := sum_length
  hmac_length := fun _ _ => sum_length _
  dh_comm := lawful.dh_comm
  dh_length := lawful.dh_length
  dhPublic_length := lawful.dhPublic_length
  gcm_seal := lawful.gcm_seal

end SSP21.Toy
