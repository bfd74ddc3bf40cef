import Verif.Qix
import Verif.Props.Crc
/-
  Property C38: QIX frames.
-/
namespace SSP21.Qix

namespace Spec

/-- The 47 bytes of a frame: two sync bytes, id, key, status, checksum of the last three. -/
def frame (id : UInt64) (key : Bytes) (status : UInt8) : Bytes :=
  0x5A :: 0xA5 :: (be 8 id.toNat ++ key ++ [status]) ++ be 4 (crcCalc (be 8 id.toNat ++ key ++ [status])).toNat

/-- The meaning of the status byte. -/
def status (b : UInt8) : Status := if b = 1 then .ok else if b = 0xFF then .keyCompromised else .undefined

/-- `fs` is the list of frames found in some way in the stream: they occur in it completely, in this order and
without overlap. -/
inductive Found : List Frame → Bytes → Prop
  | nil : Found [] []
  | skip (b : UInt8) {fs : List Frame} {bs : Bytes} : Found fs bs → Found fs (b :: bs)
  | frame (id : UInt64) (key : Bytes) (st : UInt8) {fs : List Frame} {bs : Bytes} : key.length = 32 → Found fs bs →
      Found (⟨id, key, status st⟩ :: fs) (Spec.frame id key st ++ bs)

end Spec

/-- The checks and field extraction of `parse` on 47 bytes that begin with the sync bytes. -/
def decode (u : Bytes) : Option Frame := if calcCrc u ≠ readCrc u then none else some (readFields u)

/-! ### Helper lemmas -/

theorem findSync_cons (a b : UInt8) (rest : Bytes) :
    findSync (a :: b :: rest) = if a = 0x5A ∧ b = 0xA5 then a :: b :: rest else findSync (b :: rest) := rfl

theorem findSync_length (bs : Bytes) : (findSync bs).length ≤ bs.length := by
  induction bs with
  | nil => simp [findSync]
  | cons a rest ih =>
    cases rest with
    | nil => simp only [findSync]; split <;> simp
    | cons b rest =>
      rw [findSync_cons]
      split
      · omega
      · simp only [List.length_cons] at *
        omega

theorem findSync_suffix (bs : Bytes) : ∃ pre, bs = pre ++ findSync bs := by
  induction bs with
  | nil => exact ⟨[], rfl⟩
  | cons a rest ih =>
    cases rest with
    | nil =>
      simp only [findSync]
      split
      · exact ⟨[], rfl⟩
      · exact ⟨[a], rfl⟩
    | cons b rest =>
      rw [findSync_cons]
      split
      · exact ⟨[], rfl⟩
      · obtain ⟨pre, h⟩ := ih
        exact ⟨a :: pre, by rw [List.cons_append, ← h]⟩

theorem findSync_full (bs : Bytes) (h : (findSync bs).length = bs.length) (hl : 2 ≤ bs.length) :
    ∃ rest, bs = 0x5A :: 0xA5 :: rest := by
  match bs, hl with
  | a :: b :: rest, _ =>
    rw [findSync_cons] at h
    split at h
    · rename_i hc
      exact ⟨rest, by rw [hc.1, hc.2]⟩
    · have := findSync_length (b :: rest)
      simp only [List.length_cons] at *
      omega

theorem findSync_sync (rest : Bytes) : findSync (0x5A :: 0xA5 :: rest) = 0x5A :: 0xA5 :: rest := by
  rw [findSync_cons, if_pos ⟨rfl, rfl⟩]

/-- A prefix without sync byte is discarded. -/
theorem findSync_garbage (g rest : Bytes) (hg : (0x5A : UInt8) ∉ g) : findSync (g ++ rest) = findSync rest := by
  induction g with
  | nil => rfl
  | cons a g ih =>
    simp only [List.mem_cons, not_or] at hg
    have ha : ¬ a = 0x5A := fun h => hg.1 h.symm
    rw [List.cons_append]
    cases hx : g ++ rest with
    | nil =>
      have : rest = [] := (List.append_eq_nil_iff.mp hx).2
      subst this
      simp [findSync, ha]
    | cons b t =>
      rw [findSync_cons, if_neg (fun h => ha h.1), ← hx, ih hg.2]

/-- The stream seen as a whole. -/
def drain (bs : Bytes) : List Frame × Bytes :=
  if h : bs.length < 47 then ([], bs)
  else
    if h2 : (findSync (bs.take 47)).length < 47 then drain (findSync (bs.take 47) ++ bs.drop 47)
    else ((decode (bs.take 47)).toList ++ (drain (bs.drop 47)).1, (drain (bs.drop 47)).2)
termination_by bs.length
decreasing_by
  all_goals simp; omega

theorem drain_short {bs : Bytes} (h : bs.length < 47) : drain bs = ([], bs) := by
  unfold drain; simp [h]

theorem drain_sync (u rest : Bytes) (hu : u.length = 47) (hs : findSync u = u) :
    drain (u ++ rest) = ((decode u).toList ++ (drain rest).1, (drain rest).2) := by
  rw [drain]
  have h1 : (u ++ rest).take 47 = u := by rw [List.take_append_of_le_length (by omega), List.take_of_length_le (by omega)]
  have h2 : (u ++ rest).drop 47 = rest := by rw [← hu]; simp
  rw [dif_neg (by simp; omega), h1, h2, hs, dif_neg (by omega)]

theorem drain_nosync (u rest : Bytes) (hu : u.length = 47) (hs : (findSync u).length < 47) :
    drain (u ++ rest) = drain (findSync u ++ rest) := by
  rw [drain]
  have h1 : (u ++ rest).take 47 = u := by rw [List.take_append_of_le_length (by omega), List.take_of_length_le (by omega)]
  have h2 : (u ++ rest).drop 47 = rest := by rw [← hu]; simp
  rw [dif_neg (by simp; omega), h1, h2, dif_pos hs]

/-- The reader has a full buffer and is waiting for at least one byte. -/
structure Reader.Ok (r : Reader) : Prop where
  length : r.parser.buffer.length = 47
  dest : r.dest < 47

/-- The bytes that have been read and not been used. -/
def Reader.kept (r : Reader) : Bytes := r.parser.buffer.take r.dest

theorem Reader.onRead_ok {r : Reader} (h : r.Ok) (chunk : Bytes) (hc : r.dest + chunk.length ≤ 47) :
    (r.onRead chunk).1.Ok ∧ ∀ more, drain (r.kept ++ chunk ++ more) =
      ((r.onRead chunk).2.toList ++ (drain ((r.onRead chunk).1.kept ++ more)).1,
        (drain ((r.onRead chunk).1.kept ++ more)).2) := by
  obtain ⟨hl, hd⟩ := h
  have hk : r.kept.length = r.dest := by simp [Reader.kept, hl]; omega
  unfold Reader.onRead
  dsimp only
  split
  · rename_i hlt
    refine ⟨⟨by simp [hl]; omega, hlt⟩, fun more => ?_⟩
    have : Reader.kept ⟨⟨r.parser.buffer.take r.dest ++ chunk ++ r.parser.buffer.drop (r.dest + chunk.length),
        r.parser.buffered⟩, r.dest + chunk.length⟩ = r.kept ++ chunk := by
      have h1 : r.dest + chunk.length = (r.kept ++ chunk).length := by simp [hk]
      change (r.kept ++ chunk ++ _).take (r.dest + chunk.length) = _
      rw [List.take_append_of_le_length (by omega), h1, List.take_length]
    rw [this]
    rfl
  · rename_i hge
    have h47 : r.dest + chunk.length = 47 := by omega
    have hb : r.parser.buffer.take r.dest ++ chunk ++ r.parser.buffer.drop (r.dest + chunk.length) = r.kept ++ chunk := by
      rw [h47, List.drop_of_length_le (by omega), List.append_nil]
      rfl
    have hu : (r.kept ++ chunk).length = 47 := by simp [hk]; omega
    rw [hb]
    generalize r.kept ++ chunk = u at hu
    have hfl := findSync_length u
    unfold Parser.parse
    dsimp only
    split
    · rename_i hs
      refine ⟨⟨by simp; omega, hs⟩, fun more => ?_⟩
      have : Reader.kept ⟨⟨findSync u ++ u.drop (findSync u).length, (findSync u).length⟩, (findSync u).length⟩ = findSync u := by
        simp [Reader.kept]
      rw [this, drain_nosync u more hu hs]
      rfl
    · rename_i hs
      have hsync : findSync u = u := by
        obtain ⟨pre, hp⟩ := findSync_suffix u
        have : pre = [] := by
          have := congrArg List.length hp
          simp only [List.length_append] at this
          exact List.length_eq_zero_iff.mp (by omega)
        rw [this] at hp
        exact hp.symm
      split
      · rename_i hcrc
        refine ⟨⟨hu, by simp⟩, fun more => ?_⟩
        rw [drain_sync u more hu hsync, decode, if_pos hcrc]
        rfl
      · rename_i hcrc
        refine ⟨⟨hu, by simp⟩, fun more => ?_⟩
        rw [drain_sync u more hu hsync, decode, if_neg hcrc]
        rfl

theorem Reader.run_eq {r : Reader} (h : r.Ok) (chunks : List Bytes) (r' : Reader) (fs : List Frame)
    (hr : r.run chunks = some (r', fs)) : r'.Ok ∧ drain (r.kept ++ chunks.flatten) = (fs, r'.kept) := by
  induction chunks generalizing r fs with
  | nil =>
    cases hr
    refine ⟨h, ?_⟩
    rw [List.flatten_nil, List.append_nil, drain_short]
    have := h.length
    have := h.dest
    simp [Reader.kept]
    omega
  | cons chunk chunks ih =>
    simp only [Reader.run] at hr
    split at hr
    · cases hr
    · rename_i hc
      obtain ⟨h1, h2⟩ := Reader.onRead_ok h chunk (by omega)
      simp only [Option.map_eq_some_iff, Prod.mk.injEq] at hr
      obtain ⟨⟨r2, fs2⟩, h3, rfl, rfl⟩ := hr
      obtain ⟨h4, h5⟩ := ih h1 fs2 h3
      refine ⟨h4, ?_⟩
      rw [List.flatten_cons, ← List.append_assoc, h2, h5]

/-- Bytes that need no other interpretation: `decode` succeeds exactly on frames. -/
theorem decode_iff (u : Bytes) (hu : u.length = 47) (hs : ∃ rest, u = 0x5A :: 0xA5 :: rest) (f : Frame) :
    decode u = some f ↔ ∃ id key st, key.length = 32 ∧ u = Spec.frame id key st ∧ f = ⟨id, key, Spec.status st⟩ := by
  obtain ⟨rest, rfl⟩ := hs
  simp only [List.length_cons] at hu
  have hl : rest.length = 45 := by omega
  -- the parts
  obtain ⟨idb, r1, rfl, h1⟩ : ∃ idb r1, rest = idb ++ r1 ∧ idb.length = 8 :=
    ⟨rest.take 8, rest.drop 8, by simp, by simp; omega⟩
  obtain ⟨key, r2, rfl, h2⟩ : ∃ key r2, r1 = key ++ r2 ∧ key.length = 32 :=
    ⟨r1.take 32, r1.drop 32, by simp, by simp at hl ⊢; omega⟩
  obtain ⟨st, crc, rfl⟩ : ∃ st crc, r2 = st :: crc := by
    cases r2 with
    | nil => simp at hl; omega
    | cons a b => exact ⟨a, b, rfl⟩
  have h3 : crc.length = 4 := by simp at hl; omega
  have hid : be 8 (UInt64.ofNat (beNat idb)).toNat = idb := by
    have hb := be_beNat idb
    have hlt := beNat_lt idb
    rw [h1] at hb hlt
    rw [UInt64.toNat_ofNat', Nat.mod_eq_of_lt (by simpa using hlt), hb]
  have hcalc : calcCrc (0x5A :: 0xA5 :: (idb ++ (key ++ st :: crc))) = crcCalc (idb ++ key ++ [st]) := by
    unfold calcCrc
    congr 1
    have : idb ++ (key ++ st :: crc) = (idb ++ key ++ [st]) ++ crc := by simp
    simp only [List.drop_succ_cons, List.drop_zero]
    rw [this, List.take_append_of_le_length (by simp; omega), List.take_of_length_le (by simp; omega)]
  have hread : readCrc (0x5A :: 0xA5 :: (idb ++ (key ++ st :: crc))) = UInt32.ofNat (beNat crc) := by
    unfold readCrc
    congr 2
    have : idb ++ (key ++ st :: crc) = (idb ++ key ++ [st]) ++ crc := by simp
    simp only [List.drop_succ_cons]
    rw [this, List.drop_append_of_le_length (by simp; omega), List.drop_of_length_le (by simp; omega),
      List.nil_append, List.take_of_length_le (by omega)]
  have hfields : readFields (0x5A :: 0xA5 :: (idb ++ (key ++ st :: crc))) =
      ⟨UInt64.ofNat (beNat idb), key, Spec.status st⟩ := by
    unfold readFields
    simp only [List.drop_succ_cons, List.drop_zero]
    rw [List.take_append_of_le_length (by omega), List.take_of_length_le (by omega), ← h1, List.drop_left,
      ← h2, List.take_left, List.drop_left]
    rfl
  unfold decode
  rw [hcalc, hread, hfields]
  have hcrc : crcCalc (idb ++ key ++ [st]) = UInt32.ofNat (beNat crc) ↔ crc = be 4 (crcCalc (idb ++ key ++ [st])).toNat := by
    have hb := be_beNat crc
    have hlt := beNat_lt crc
    rw [h3] at hb hlt
    constructor
    · intro h
      rw [h, UInt32.toNat_ofNat', Nat.mod_eq_of_lt (by simpa using hlt), hb]
    · intro h
      have := congrArg beNat h
      rw [beNat_be, Nat.mod_eq_of_lt (by have := (crcCalc (idb ++ key ++ [st])).toNat_lt; simpa using this)] at this
      rw [this, UInt32.ofNat_toNat]
  constructor
  · intro h
    split at h
    · cases h
    · rename_i hc
      cases h
      refine ⟨_, key, st, h2, ?_, rfl⟩
      unfold Spec.frame
      rw [hid, ← hcrc.mp (Decidable.not_not.mp hc)]
      simp
  · rintro ⟨id, key', st', hk, hf, rfl⟩
    unfold Spec.frame at hf
    simp only [List.cons_append, List.cons.injEq, true_and, List.append_assoc] at hf
    obtain ⟨e1, hf⟩ := List.append_inj hf (by simp [h1])
    obtain ⟨e2, hf⟩ := List.append_inj hf (by omega)
    simp only [List.singleton_append, List.nil_append, List.cons.injEq] at hf
    obtain ⟨e3, e4⟩ := hf
    subst e2 e3
    have hc : crcCalc (idb ++ key ++ [st]) = UInt32.ofNat (beNat crc) := by
      rw [hcrc, e4, e1]
      simp
    rw [if_neg (fun h => h hc)]
    have : UInt64.ofNat (beNat idb) = id := by
      rw [e1, beNat_be, Nat.mod_eq_of_lt (by have := id.toNat_lt; simpa using this), UInt64.ofNat_toNat]
    rw [this]

theorem frame_unit (id : UInt64) (key : Bytes) (st : UInt8) (hk : key.length = 32) :
    (Spec.frame id key st).length = 47 ∧ ∃ rest, Spec.frame id key st = 0x5A :: 0xA5 :: rest := by
  refine ⟨?_, _, rfl⟩
  simp [Spec.frame, hk, be_length]

theorem decode_frame (id : UInt64) (key : Bytes) (st : UInt8) (hk : key.length = 32) :
    decode (Spec.frame id key st) = some ⟨id, key, Spec.status st⟩ := by
  obtain ⟨h1, h2⟩ := frame_unit id key st hk
  exact (decode_iff _ h1 h2 _).mpr ⟨id, key, st, hk, rfl, rfl⟩

theorem drain_unit (u rest : Bytes) (hu : u.length = 47) (hs : ∃ r, u = 0x5A :: 0xA5 :: r) :
    drain (u ++ rest) = ((decode u).toList ++ (drain rest).1, (drain rest).2) := by
  refine drain_sync u rest hu ?_
  obtain ⟨r, rfl⟩ := hs
  exact findSync_sync r

/-- Bytes that are no sync byte are skipped before a sync sequence. -/
theorem drain_garbage (g rest : Bytes) (hg : (0x5A : UInt8) ∉ g) (hr : ∃ r, rest = 0x5A :: 0xA5 :: r) :
    (drain (g ++ rest)).1 = (drain rest).1 := by
  by_cases h : (g ++ rest).length < 47
  · rw [drain_short h, drain_short (by simp at h; omega)]
  · by_cases h0 : g = []
    · subst h0; rfl
    · have hpos : 0 < g.length := List.length_pos_iff.mpr h0
      by_cases hlong : 47 ≤ g.length
      · have hsplit : g ++ rest = g.take 47 ++ (g.drop 47 ++ rest) := by rw [← List.append_assoc, List.take_append_drop]
        have hsync : findSync (g.take 47) = [] := by
          have := findSync_garbage (g.take 47) [] (fun hm => hg (List.mem_of_mem_take hm))
          simpa [findSync] using this
        rw [hsplit, drain_nosync _ _ (by simp; omega) (by rw [hsync]; simp), hsync, List.nil_append]
        exact drain_garbage (g.drop 47) rest (fun hm => hg (List.mem_of_mem_drop hm)) hr
      · have hsplit : g ++ rest = (g ++ rest.take (47 - g.length)) ++ rest.drop (47 - g.length) := by simp
        have hl : (g ++ rest.take (47 - g.length)).length = 47 := by simp at h ⊢; omega
        have hsync : findSync (g ++ rest.take (47 - g.length)) = rest.take (47 - g.length) := by
          rw [findSync_garbage _ _ hg]
          obtain ⟨r, rfl⟩ := hr
          match hn : 47 - g.length with
          | 0 => rfl
          | 1 => rfl
          | n + 2 =>
            rw [List.take_succ_cons, List.take_succ_cons]
            exact findSync_sync _
        rw [hsplit, drain_nosync _ _ hl (by rw [hsync]; simp; omega), hsync, List.take_append_drop]
termination_by g.length
decreasing_by simp; omega

theorem Reader.new_ok {buffer : Bytes} (h : buffer.length = 47) : (Reader.new buffer).Ok := ⟨h, by simp [Reader.new]⟩

theorem Reader.run_new {buffer : Bytes} (h : buffer.length = 47) {chunks : List Bytes} {r : Reader} {fs : List Frame}
    (hr : (Reader.new buffer).run chunks = some (r, fs)) : drain chunks.flatten = (fs, r.kept) := by
  have := (Reader.run_eq (Reader.new_ok h) chunks r fs hr).2
  simpa [Reader.kept, Reader.new] using this

theorem Spec.Found.skips {fs : List Frame} {bs : Bytes} (pre : Bytes) (h : Spec.Found fs bs) : Spec.Found fs (pre ++ bs) := by
  induction pre with
  | nil => exact h
  | cons b pre ih => exact .skip b ih

theorem drain_found (bs : Bytes) : ∃ pre, bs = pre ++ (drain bs).2 ∧ Spec.Found (drain bs).1 pre := by
  by_cases h : bs.length < 47
  · rw [drain_short h]
    exact ⟨[], rfl, .nil⟩
  · have hsplit : bs = bs.take 47 ++ bs.drop 47 := by simp
    have hl : (bs.take 47).length = 47 := by simp; omega
    by_cases hs : (findSync (bs.take 47)).length < 47
    · have e := drain_nosync (bs.take 47) (bs.drop 47) hl hs
      rw [← hsplit] at e
      rw [e]
      obtain ⟨pre, h1, h2⟩ := drain_found (findSync (bs.take 47) ++ bs.drop 47)
      obtain ⟨pre', h3⟩ := findSync_suffix (bs.take 47)
      refine ⟨pre' ++ pre, ?_, h2.skips pre'⟩
      rw [List.append_assoc, ← h1, ← List.append_assoc, ← h3, List.take_append_drop]
    · have hfl := findSync_length (bs.take 47)
      have hu := findSync_full (bs.take 47) (by omega) (by omega)
      have e := drain_unit (bs.take 47) (bs.drop 47) hl hu
      rw [← hsplit] at e
      rw [e]
      obtain ⟨pre, h1, h2⟩ := drain_found (bs.drop 47)
      refine ⟨bs.take 47 ++ pre, ?_, ?_⟩
      · rw [List.append_assoc]
        dsimp only
        rw [← h1, List.take_append_drop]
      · cases hd : decode (bs.take 47) with
        | none => exact h2.skips _
        | some f =>
          obtain ⟨id, key, st, h3, h4, rfl⟩ := (decode_iff _ hl hu f).mp hd
          rw [h4]
          exact .frame id key st h3 h2
termination_by bs.length
decreasing_by
  all_goals simp; omega

theorem Spec.Found.tail {fs : List Frame} {bs : Bytes} (z : Bytes) (h : Spec.Found fs bs) : Spec.Found fs (bs ++ z) := by
  induction h with
  | nil =>
    induction z with
    | nil => exact .nil
    | cons b z ih => exact .skip b ih
  | skip b _ ih => exact .skip b ih
  | frame id key st hk _ ih => rw [List.append_assoc]; exact .frame id key st hk ih

theorem found_drain (bs : Bytes) : Spec.Found (drain bs).1 bs := by
  obtain ⟨pre, h1, h2⟩ := drain_found bs
  have := h2.tail (drain bs).2
  rwa [← h1] at this

/-! ### C38 -/

/-- The writer writes the frame of the specification with the status "ok", for every key of 32 bytes and whatever
the status is; other keys are refused. -/
theorem C38_writer (f : Frame) :
    write f = if f.key.length = 32 then some (Spec.frame f.keyId f.key 1) else none := by
  unfold write Spec.frame
  by_cases h : f.key.length = 32 <;> simp [h]

/-- Chunking does not matter: two readers that receive the same bytes, divided in any way into read operations,
report the same frames. -/
theorem C38_chunking (b1 b2 : Bytes) (h1 : b1.length = 47) (h2 : b2.length = 47) (c1 c2 : List Bytes) (r1 r2 : Reader)
    (f1 f2 : List Frame) (hr1 : (Reader.new b1).run c1 = some (r1, f1)) (hr2 : (Reader.new b2).run c2 = some (r2, f2))
    (h : c1.flatten = c2.flatten) : f1 = f2 := by
  have e1 := Reader.run_new h1 hr1
  have e2 := Reader.run_new h2 hr2
  rw [h, e2] at e1
  exact (Prod.mk.inj e1).1.symm

/-- Every frame of a stream is reported, in order, exactly once, however the stream is chunked; between the frames
there may be any bytes other than the first sync byte. (An element of `items` is such a gap followed by the id, key
and status of a frame; `tail` is what has been received of the rest of the stream.) Nothing else is reported before
the tail. -/
theorem C38_frames_are_read (buffer : Bytes) (hb : buffer.length = 47)
    (items : List (Bytes × UInt64 × Bytes × UInt8)) (hk : ∀ x ∈ items, (0x5A : UInt8) ∉ x.1 ∧ x.2.2.1.length = 32)
    (tail : Bytes) (chunks : List Bytes) (hc : chunks.flatten = items.flatMap (fun x => x.1 ++ Spec.frame x.2.1 x.2.2.1 x.2.2.2) ++ tail)
    (r : Reader) (fs : List Frame) (hr : (Reader.new buffer).run chunks = some (r, fs)) :
    ∃ more, fs = items.map (fun x => ⟨x.2.1, x.2.2.1, Spec.status x.2.2.2⟩) ++ more ∧ Spec.Found more tail ∧
      (tail.length < 47 → more = []) := by
  have e := Reader.run_new hb hr
  rw [hc] at e
  have key : (drain (items.flatMap (fun x => x.1 ++ Spec.frame x.2.1 x.2.2.1 x.2.2.2) ++ tail)).1 =
      items.map (fun x => (⟨x.2.1, x.2.2.1, Spec.status x.2.2.2⟩ : Frame)) ++ (drain tail).1 := by
    clear hc e
    induction items with
    | nil => rfl
    | cons x items ih =>
      obtain ⟨hx, hxs⟩ := List.forall_mem_cons.mp hk
      obtain ⟨h1, h2⟩ := frame_unit x.2.1 x.2.2.1 x.2.2.2 hx.2
      rw [List.flatMap_cons, List.append_assoc, List.append_assoc, drain_garbage _ _ hx.1, drain_unit _ _ h1 h2,
        decode_frame _ _ _ hx.2, ih hxs]
      · rfl
      · obtain ⟨r, hr⟩ := h2
        exact ⟨_, by rw [hr]; rfl⟩
  rw [e] at key
  exact ⟨(drain tail).1, key, found_drain tail, fun h => by rw [drain_short h]⟩

/-- Whatever the stream and its chunking: every frame that is reported occurs in the stream with a correct checksum,
in the order of the reports and without overlap. -/
theorem C38_reported_occur (buffer : Bytes) (hb : buffer.length = 47) (chunks : List Bytes) (r : Reader) (fs : List Frame)
    (hr : (Reader.new buffer).run chunks = some (r, fs)) : Spec.Found fs chunks.flatten := by
  have := found_drain chunks.flatten
  rwa [Reader.run_new hb hr] at this

/-- Damage: a stream of 47-byte blocks each of which begins with the sync bytes; those that are frames are reported,
and only those. -/
theorem C38_damaged_blocks (buffer : Bytes) (hb : buffer.length = 47) (blocks : List Bytes)
    (hu : ∀ u ∈ blocks, u.length = 47 ∧ ∃ rest, u = 0x5A :: 0xA5 :: rest) (chunks : List Bytes)
    (hc : chunks.flatten = blocks.flatten) (r : Reader) (fs : List Frame)
    (hr : (Reader.new buffer).run chunks = some (r, fs)) :
    ∃ results : List (Option Frame), List.Forall₂ (fun u o => ∀ f, o = some f ↔ ∃ id key st, key.length = 32 ∧
      u = Spec.frame id key st ∧ f = ⟨id, key, Spec.status st⟩) blocks results ∧ fs = results.filterMap _root_.id := by
  have e := Reader.run_new hb hr
  rw [hc] at e
  have key : (drain blocks.flatten).1 = (blocks.map decode).filterMap _root_.id := by
    clear hc e
    induction blocks with
    | nil => rw [List.flatten_nil, drain_short (by simp)]; rfl
    | cons u blocks ih =>
      obtain ⟨hx, hxs⟩ := List.forall_mem_cons.mp hu
      rw [List.flatten_cons, drain_unit u _ hx.1 hx.2, ih hxs]
      cases h : decode u <;> simp [h, List.filterMap_cons]
  rw [e] at key
  refine ⟨_, ?_, key⟩
  clear hc e key
  induction blocks with
  | nil => exact .nil
  | cons u blocks ih =>
    obtain ⟨hx, hxs⟩ := List.forall_mem_cons.mp hu
    exact .cons (fun f => decode_iff u hx.1 hx.2 f) (ih hxs)

/-- A frame with one to three wrong bits, or with wrong bits only within 32 consecutive bits, anywhere after the sync
bytes, is no frame any more (so it is not reported, by the theorem above). -/
theorem C38_damage_detected (id : UInt64) (key : Bytes) (st : UInt8) (hk : key.length = 32) (rest rest' : Bytes)
    (hf : Spec.frame id key st = 0x5A :: 0xA5 :: rest) (hl : rest'.length = rest.length) (hne : rest' ≠ rest)
    (hd : bitErrors rest' rest ≤ 3 ∨ ∃ k, ∀ i, (SSP21.Spec.bits rest')[i]? ≠ (SSP21.Spec.bits rest)[i]? → k ≤ i ∧ i < k + 32) :
    ¬ ∃ id' key' st', key'.length = 32 ∧ 0x5A :: 0xA5 :: rest' = Spec.frame id' key' st' := by
  rintro ⟨id', key', st', hk', hf'⟩
  have p1 : Protected rest := by
    refine ⟨be 8 id.toNat ++ key ++ [st], ?_⟩
    unfold Spec.frame at hf
    simpa using hf.symm
  have p2 : Protected rest' := by
    refine ⟨be 8 id'.toNat ++ key' ++ [st'], ?_⟩
    unfold Spec.frame at hf'
    simpa using hf'
  rcases hd with hd | ⟨k, hd⟩
  · have h47 := (frame_unit id key st hk).1
    rw [hf] at h47
    have := C07_hamming_distance_4 rest' rest hl (by simp at h47; omega) p2 p1 hne
    omega
  · exact hne (C07_burst32_detected rest' rest hl p2 p1 k hd)

/-- Only frames with status 1 reach the handler. -/
theorem C38_handled (frames : List Frame) (f : Frame) : f ∈ handled frames ↔ f ∈ frames ∧ f.status = .ok := by
  simp [handled]

/-- Violation: the status of a frame is not written. A key that is marked as compromised is written, and read by the
peer, as a key that is ok. -/
theorem C38_status_violation (id : UInt64) (key : Bytes) (hk : key.length = 32) (buffer : Bytes) (hb : buffer.length = 47) :
    ∃ bytes, write ⟨id, key, .keyCompromised⟩ = some bytes ∧
      ∃ r, (Reader.new buffer).run [bytes] = some (r, [⟨id, key, .ok⟩]) := by
  refine ⟨_, by rw [C38_writer, if_pos hk], ?_⟩
  obtain ⟨h1, h2⟩ := frame_unit id key 1 hk
  have hl : ¬ 47 < (Reader.new buffer).dest + (Spec.frame id key 1).length := by rw [h1]; simp [Reader.new]
  cases hr : (Reader.new buffer).run [Spec.frame id key 1] with
  | none => simp [Reader.run, hl] at hr
  | some x =>
    obtain ⟨r, fs⟩ := x
    have e := Reader.run_new hb hr
    simp only [List.flatten_cons, List.flatten_nil] at e
    rw [drain_unit _ _ h1 h2, decode_frame _ _ _ hk, drain_short (by simp)] at e
    rw [← (Prod.mk.inj e).1]
    exact ⟨r, rfl⟩

/-- With the status "ok" nothing is lost: what a sequence of calls of the writer writes is read back exactly, under
any chunking. -/
theorem C38_roundtrip_partial (written : List Frame) (h : ∀ f ∈ written, f.key.length = 32 ∧ f.status = .ok) (buffer : Bytes)
    (hb : buffer.length = 47) (chunks : List Bytes) (hc : chunks.flatten = (written.filterMap write).flatten) (r : Reader)
    (fs : List Frame) (hr : (Reader.new buffer).run chunks = some (r, fs)) : fs = written := by
  have hw : (written.filterMap write).flatten =
      (written.map (fun f => (([] : Bytes), f.keyId, f.key, (1 : UInt8)))).flatMap (fun x => x.1 ++ Spec.frame x.2.1 x.2.2.1 x.2.2.2) ++ [] := by
    clear hc
    induction written with
    | nil => rfl
    | cons f written ih =>
      obtain ⟨hx, hxs⟩ := List.forall_mem_cons.mp h
      rw [List.filterMap_cons, C38_writer, if_pos hx.1]
      simp only [List.flatten_cons, List.map_cons, List.flatMap_cons, List.nil_append, List.append_nil] at *
      rw [ih hxs]
  obtain ⟨more, h1, _, h3⟩ := C38_frames_are_read buffer hb _ (by
    intro x hx
    obtain ⟨f, hf, rfl⟩ := List.mem_map.mp hx
    exact ⟨by simp, (h f hf).1⟩) [] chunks (hc.trans hw) r fs hr
  rw [h3 (by simp), List.append_nil, List.map_map] at h1
  rw [h1]
  clear h1 hw hc
  induction written with
  | nil => rfl
  | cons f written ih =>
    obtain ⟨hx, hxs⟩ := List.forall_mem_cons.mp h
    rw [List.map_cons, ih hxs]
    congr 1
    obtain ⟨id, key, st⟩ := f
    have : st = .ok := hx.2
    subst this
    rfl

/-! ### A misaligned reader may never find the frames -/

/-- A key that contains the sync bytes. -/
def badKey : Bytes := 0x5A :: 0xA5 :: List.replicate 30 0

/-- Violation: a reader that is switched on in the middle of a transmission (here: 10 bytes are missing) may take the
sync bytes inside a key for the beginning of a frame, discards 47 bytes at a time and then reports none of the frames
that follow, however many there are. -/
theorem C38_misaligned_violation (n : Nat) (buffer : Bytes) (hb : buffer.length = 47) (chunks : List Bytes)
    (hc : chunks.flatten = (Spec.frame 1 badKey 1).drop 10 ++ (List.replicate n (Spec.frame 1 badKey 1)).flatten)
    (r : Reader) (fs : List Frame) (hr : (Reader.new buffer).run chunks = some (r, fs)) : fs = [] := by
  have e := Reader.run_new hb hr
  have key : ∀ n, (drain ((Spec.frame 1 badKey 1).drop 10 ++ (List.replicate n (Spec.frame 1 badKey 1)).flatten)).1 = [] := by
    intro n
    induction n with
    | zero => rw [drain_short (by decide +kernel)]
    | succ n ih =>
      have h1 : (Spec.frame 1 badKey 1).drop 10 ++ (List.replicate (n + 1) (Spec.frame 1 badKey 1)).flatten =
          ((Spec.frame 1 badKey 1).drop 10 ++ (Spec.frame 1 badKey 1).take 10) ++
            ((Spec.frame 1 badKey 1).drop 10 ++ (List.replicate n (Spec.frame 1 badKey 1)).flatten) := by
        rw [List.replicate_succ, List.flatten_cons, List.append_assoc]
        congr 1
      rw [h1, drain_unit _ _ (by decide +kernel) ⟨_, by rw [Spec.frame, badKey]; rfl⟩, ih]
      have h2 : decode ((Spec.frame 1 badKey 1).drop 10 ++ (Spec.frame 1 badKey 1).take 10) = none := by decide +kernel
      rw [h2]
      rfl
  rw [hc] at e
  have := key n
  rwa [e] at this

/-! ### The theorems apply -/

/-- Read operations that return one byte each always fit. -/
theorem run_bytes (r : Reader) (h : r.Ok) (bs : Bytes) : ∃ r' fs, r.run (bs.map fun b => [b]) = some (r', fs) := by
  induction bs generalizing r with
  | nil => exact ⟨r, [], rfl⟩
  | cons b bs ih =>
    have hd := h.dest
    obtain ⟨r', fs, hr⟩ := ih _ (Reader.onRead_ok h [b] (by simp; omega)).1
    refine ⟨r', (r.onRead [b]).2.toList ++ fs, ?_⟩
    simp only [List.map_cons, Reader.run, List.length_singleton, if_neg (show ¬ 47 < r.dest + 1 by omega)]
    rw [hr]
    rfl

/-- A garbled stream (two frames, some noise, an incomplete frame) in chunks of 1 to 46 bytes. -/
example : (((Reader.new (List.replicate 47 0x5A)).run
    (let s := [1, 2, 3] ++ Spec.frame 7 (List.replicate 32 9) 1 ++ [4] ++ Spec.frame 8 (List.replicate 32 3) 255 ++ [0x5A, 0xA5, 1]
     [s.take 1, (s.drop 1).take 46, (s.drop 47).take 3, (s.drop 50).take 1, (s.drop 51).take 40, (s.drop 91).take 6,
      (s.drop 97).take 1, s.drop 98])).map (·.2)) =
    some [⟨7, List.replicate 32 9, .ok⟩, ⟨8, List.replicate 32 3, .keyCompromised⟩] := by decide +kernel

end SSP21.Qix
