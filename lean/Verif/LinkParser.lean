import Verif.Crc
import Verif.VLength
/-
  The link frame writer and the link frame parser, at the level of their buffers. Every access to the
  frame buffer is checked: `none` means an access outside the buffer, an arithmetic underflow, a loop
  that does not terminate or a recursion deeper than allowed. That `none` never happens is a theorem
  (C11), not an assumption.
-/
namespace SSP21.Link

/-! ### constants -/

/-- cpp/libs/ssp21/include/ssp21/link/LinkConstants.h:18 -/
def sync1 : UInt8 := 0x07
/-- cpp/libs/ssp21/include/ssp21/link/LinkConstants.h:22 -/
def sync2 : UInt8 := 0xAA
/-- cpp/libs/ssp21/include/ssp21/link/LinkConstants.h:34 -/
def headerFieldsSize : Nat := 8
/-- cpp/libs/ssp21/include/ssp21/link/LinkConstants.h:38 -/
def headerTotalSize : Nat := 12
/-- cpp/libs/ssp21/include/ssp21/link/LinkConstants.h:30 -/
def crcSize : Nat := 4
/-- cpp/libs/ssp21/include/ssp21/link/LinkConstants.h:42 -/
def minFrameSize : Nat := 16
/-- cpp/libs/ssp21/include/ssp21/link/LinkConstants.h:26 -/
def maxConfigPayloadSize : Nat := 4092

/-! ### checked buffer accesses (ser4cpp::Buffer, external) -/

/-- `buffer.as_wslice()[i] = v`. -/
def setAt (buf : Bytes) (i : Nat) (v : UInt8) : Option Bytes :=
  if i < buf.length then some (buf.set i v) else none

/-- `buffer.as_rslice().skip(off).take(n)`. -/
def slice (buf : Bytes) (off n : Nat) : Option Bytes :=
  if off + n ≤ buf.length then some ((buf.drop off).take n) else none

/-- `buffer.as_wslice().skip(off).move_from(src)` (memmove: the source is read before the write). -/
def overwrite (buf : Bytes) (off : Nat) (src : Bytes) : Option Bytes :=
  if off + src.length ≤ buf.length then
    some (buf.take off ++ src ++ buf.drop (off + src.length))
  else none

/-! ### frame writer -/

/-- cpp/libs/ssp21/include/ssp21/link/Addresses.h:15-36 -/
structure Addresses where
  destination : UInt16
  source : UInt16
  deriving DecidableEq, Repr

/-- Models `LinkFrameWriter` (cpp/libs/ssp21/src/link/LinkFrameWriter.h:13-40); the buffer holds
`min_frame_size + max_payload_size` bytes (LinkFrameWriter.h:28-31, LinkFrameWriter.cpp:9-15). -/
structure Writer where
  addr : Addresses
  maxPayload : UInt16
  buffer : Bytes

/-- The constructor, cpp/libs/ssp21/src/link/LinkFrameWriter.cpp:9-15. (A new `ser4cpp::Buffer` is
zero filled; nothing depends on its contents.) -/
def Writer.new (addr : Addresses) (maxPayload : UInt16) : Writer :=
  { addr, maxPayload, buffer := List.replicate (minFrameSize + maxPayload.toNat) 0 }

/-- The outcome of a write: the frame bytes and the payload bytes inside them
(`WriteResult::success(res, frame)`), or an error. The outer `Option` is `none` on an out-of-buffer
access. The payload is any `IWritable`: a function of the destination's capacity. -/
abbrev WriteResult := Except FormatError (Bytes × Bytes)

/-- `LinkFrameWriter::write_body_and_crc`, cpp/libs/ssp21/src/link/LinkFrameWriter.cpp:53-68.
On success returns the buffer and the payload bytes. Simplification: the buffer contents left by a
failing payload write are not represented (the frame buffer is always rewritten before use). -/
def Writer.writeBodyAndCrc (w : Writer) (payload : Nat → Except FormatError Bytes) :
    Option (Except FormatError (Bytes × Bytes)) :=
  let cap := w.buffer.length - headerTotalSize
  match payload cap with
  | .error e => some (.error e)
  | .ok p =>
    (overwrite w.buffer headerTotalSize p).bind fun b1 =>
      if cap - p.length < crcSize then some (.error .insufficient_space)
      else (overwrite b1 (headerTotalSize + p.length) (be 4 (crcCalc p).toNat)).bind fun b2 =>
        some (.ok (b2, p))

/-- `LinkFrameWriter::write_impl`, cpp/libs/ssp21/src/link/LinkFrameWriter.cpp:17-51. -/
def Writer.write (w : Writer) (payload : Nat → Except FormatError Bytes) :
    Option (WriteResult × Writer) :=
  (w.writeBodyAndCrc payload).bind fun r =>
    match r with
    | .error e => some (.error e, w)
    | .ok (b, p) =>
      if p.length > 65535 then some (.error .insufficient_space, { w with buffer := b })
      else
        let fields := [sync1, sync2] ++ be 2 w.addr.destination.toNat ++ be 2 w.addr.source.toNat ++
          be 2 p.length
        if b.length < fields.length then some (.error .insufficient_space, { w with buffer := b })
        else (overwrite b 0 fields).bind fun b1 =>
          (slice b1 0 headerFieldsSize).bind fun h =>
            if b1.length - fields.length < crcSize then
              some (.error .insufficient_space, { w with buffer := b1 })
            else (overwrite b1 fields.length (be 4 (crcCalc h).toNat)).bind fun b2 =>
              (slice b2 0 (p.length + minFrameSize)).bind fun frame =>
                some (.ok (frame, p), { w with buffer := b2 })

/-! ### frame parser -/

/-- `LinkParser::State::Value`, cpp/libs/ssp21/src/link/LinkParser.h:53-59. -/
inductive PV | wait_sync1 | wait_sync2 | wait_header | wait_body | wait_read
  deriving DecidableEq, Repr

/-- `LinkParser::State`, cpp/libs/ssp21/src/link/LinkParser.h:50-98. -/
structure PState where
  value : PV
  num : Nat
  deriving DecidableEq, Repr

/-- cpp/libs/ssp21/src/link/LinkParser.h:63-66 -/
def PState.sync1 : PState := ⟨.wait_sync1, 0⟩
/-- cpp/libs/ssp21/src/link/LinkParser.h:67-70 -/
def PState.sync2 : PState := ⟨.wait_sync2, 1⟩

/-- `LinkParser::Context`, cpp/libs/ssp21/src/link/LinkParser.h:100-109. `result.payload` is a slice of
the buffer, represented by its offset and length. The `reporter` (diagnostics only, and empty in
LinkLayer.h:40-42) is not modelled. -/
structure Ctx where
  maxPayload : Nat
  buf : Bytes
  dest : UInt16
  src : UInt16
  payloadOff : Nat
  payloadLen : Nat
  len : UInt16

/-- The `seq32_t& input` of the parse functions: either bytes owned by the caller, or (when a rejected
header is re-scanned, LinkParser.cpp:120-126) a slice of the parser's own buffer. -/
inductive Input
  | ext (bs : Bytes)
  | self (pos len : Nat)

def Input.length : Input → Nat
  | .ext bs => bs.length
  | .self _ len => len

/-- Read the first `n` bytes. -/
def Input.take (buf : Bytes) : Input → Nat → Option Bytes
  | .ext bs, n => slice bs 0 n
  | .self pos len, n => if n ≤ len then slice buf pos n else none

/-- `input.advance(n)`. -/
def Input.advance : Input → Nat → Input
  | .ext bs, n => .ext (bs.drop n)
  | .self pos len, n => .self (pos + n) (len - n)

abbrev Res := Option (PState × Ctx × Input)

/-- `input[0]`. -/
def Input.head (buf : Bytes) (i : Input) : Option UInt8 :=
  (i.take buf 1).bind fun l => l.head?

/-- The loop of `LinkParser::parse_sync1`, cpp/libs/ssp21/src/link/LinkParser.cpp:67-81;
the first argument is the number of bytes in the input. -/
def parseSync1 : Nat → Ctx → Input → Res
  | 0, ctx, inp => some (.sync1, ctx, inp)
  | n + 1, ctx, inp =>
    (inp.head ctx.buf).bind fun v =>
      if v = sync1 then
        (setAt ctx.buf 0 v).bind fun b => some (.sync2, { ctx with buf := b }, inp.advance 1)
      else parseSync1 n ctx (inp.advance 1)

/-- `LinkParser::parse_sync2`, cpp/libs/ssp21/src/link/LinkParser.cpp:83-93. -/
def parseSync2 (ctx : Ctx) (inp : Input) : Res :=
  (inp.head ctx.buf).bind fun v =>
    if v = sync2 then
      (setAt ctx.buf 1 v).bind fun b =>
        some (⟨.wait_header, 2⟩, { ctx with buf := b }, inp.advance 1)
    else some (.sync1, ctx, inp.advance 1)

/-- `LinkParser::transfer_data`, cpp/libs/ssp21/src/link/LinkParser.cpp:162-172. The subtraction
`max_bytes_to_buffer - num_buffered` is unsigned; an underflow is a fault here. -/
def transferData (st : PState) (ctx : Ctx) (inp : Input) (max : Nat) : Option (Nat × Ctx × Input) :=
  if max < st.num then none
  else
    let n := min (max - st.num) inp.length
    (inp.take ctx.buf n).bind fun data =>
      (overwrite ctx.buf st.num data).bind fun b =>
        some (n + st.num, { ctx with buf := b }, inp.advance n)

/-- `LinkParser::parse_header`, cpp/libs/ssp21/src/link/LinkParser.cpp:95-135. `rescan` stands for the
nested `parse_many(State::wait_sync1(), ctx, header)`; the nested input is local, the caller's input is
returned. -/
def parseHeader (rescan : Ctx → Input → Res) (st : PState) (ctx : Ctx) (inp : Input) : Res :=
  (transferData st ctx inp headerTotalSize).bind fun (num, ctx, inp) =>
    if num ≠ headerTotalSize then some (⟨.wait_header, num⟩, ctx, inp)
    else
      (slice ctx.buf 2 2).bind fun d =>
      (slice ctx.buf 4 2).bind fun s =>
      (slice ctx.buf 6 2).bind fun l =>
      (slice ctx.buf 8 4).bind fun c =>
      (slice ctx.buf 0 headerFieldsSize).bind fun fields =>
        let ctx := { ctx with
          dest := UInt16.ofNat (beNat d), src := UInt16.ofNat (beNat s), len := UInt16.ofNat (beNat l) }
        if crcCalc fields ≠ UInt32.ofNat (beNat c) then
          (rescan ctx (.self 2 (headerTotalSize - 2))).bind fun (st', ctx', _) => some (st', ctx', inp)
        else if ctx.len.toNat > ctx.maxPayload then some (.sync1, ctx, inp)
        else some (⟨.wait_body, num⟩, ctx, inp)

/-- `LinkParser::parse_body`, cpp/libs/ssp21/src/link/LinkParser.cpp:137-160. -/
def parseBody (st : PState) (ctx : Ctx) (inp : Input) : Res :=
  let total := headerTotalSize + ctx.len.toNat + crcSize
  (transferData st ctx inp total).bind fun (num, ctx, inp) =>
    if num ≠ total then some (⟨.wait_body, num⟩, ctx, inp)
    else
      let ctx := { ctx with payloadOff := headerTotalSize, payloadLen := ctx.len.toNat }
      (slice ctx.buf headerTotalSize ctx.len.toNat).bind fun payload =>
      (slice ctx.buf (headerTotalSize + ctx.len.toNat) 4).bind fun c =>
        if crcCalc payload ≠ UInt32.ofNat (beNat c) then some (.sync1, ctx, inp)
        else some (⟨.wait_read, num⟩, ctx, inp)

/-- `LinkParser::parse_one`, cpp/libs/ssp21/src/link/LinkParser.cpp:51-65. -/
def parseOne (rescan : Ctx → Input → Res) (st : PState) (ctx : Ctx) (inp : Input) : Res :=
  match st.value with
  | .wait_sync1 => parseSync1 inp.length ctx inp
  | .wait_sync2 => parseSync2 ctx inp
  | .wait_header => parseHeader rescan st ctx inp
  | .wait_body => parseBody st ctx inp
  | .wait_read => some (st, ctx, inp)

/-- The loop of `LinkParser::parse_many`, cpp/libs/ssp21/src/link/LinkParser.cpp:40-49, allowed `fuel`
iterations (a fault when they do not suffice). -/
def parseLoop (rescan : Ctx → Input → Res) : Nat → PState → Ctx → Input → Res
  | fuel, st, ctx, inp =>
    if inp.length = 0 ∨ st.value = .wait_read then some (st, ctx, inp)
    else match fuel with
      | 0 => none
      | fuel + 1 =>
        (parseOne rescan st ctx inp).bind fun (st', ctx', inp') => parseLoop rescan fuel st' ctx' inp'

/-- `LinkParser::parse_many` with a bound on the recursion depth (`parse_header` calls it again) and
one loop iteration per input byte. -/
def parseMany : Nat → PState → Ctx → Input → Res
  | 0, _, _, _ => none
  | depth + 1, st, ctx, inp =>
    parseLoop (fun ctx inp => parseMany depth .sync1 ctx inp) inp.length st ctx inp

/-- `LinkParser`, cpp/libs/ssp21/src/link/LinkParser.h:13-127. -/
structure Parser where
  ctx : Ctx
  state : PState

/-- The constructor, cpp/libs/ssp21/src/link/LinkParser.cpp:13-26. -/
def Parser.new (maxPayloadLength : UInt16) : Parser where
  ctx := {
    maxPayload := min maxPayloadLength.toNat maxConfigPayloadSize
    buf := List.replicate (minFrameSize + maxPayloadLength.toNat) 0
    dest := 0, src := 0, payloadOff := 0, payloadLen := 0, len := 0 }
  state := .sync1

/-- `LinkParser::reset`, cpp/libs/ssp21/src/link/LinkParser.cpp:28-31. -/
def Parser.reset (p : Parser) : Parser := { p with state := .sync1 }

/-- `LinkParser::parse`, cpp/libs/ssp21/src/link/LinkParser.cpp:33-38: the new parser, the bytes left in
`input`, and whether a frame is available. The recursion depth allowed is two calls of `parse_many`. -/
def Parser.parse (p : Parser) (input : Bytes) : Option (Parser × Bytes × Bool) :=
  match parseMany 2 p.state p.ctx (.ext input) with
  | some (st, ctx, .ext rest) => some (⟨ctx, st⟩, rest, st.value = .wait_read)
  | _ => none

/-- `LinkParser::has_result`, cpp/libs/ssp21/src/link/LinkParser.h:44-47. -/
def Parser.hasResult (p : Parser) : Bool := p.state.value = .wait_read

/-- A frame as reported to the user: `LinkParser::Result`, cpp/libs/ssp21/src/link/LinkParser.h:23-25. -/
structure Frame where
  destination : UInt16
  source : UInt16
  payload : Bytes
  deriving DecidableEq, Repr

/-- `LinkParser::read`, cpp/libs/ssp21/src/link/LinkParser.h:34-42: nothing when no frame is available.
The payload is the contents of the slice at the time of the call; the slice is taken with the clamping
`skip/take` of ser4cpp. -/
def Parser.read (p : Parser) : Option Frame :=
  if p.state.value = .wait_read then
    some { destination := p.ctx.dest, source := p.ctx.src,
           payload := (p.ctx.buf.drop p.ctx.payloadOff).take p.ctx.payloadLen }
  else none

end SSP21.Link
