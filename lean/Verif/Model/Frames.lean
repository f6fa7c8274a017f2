import Verif.Model.Base

/-!
# HTTP/2 frames: `lib/http2_frames.h`, `lib/http2_frame_reader.{h,cpp}`

A `std::span<const uint8_t, N>` argument is modelled together with the `subspan<0, N>()` that
produces it: taking it from fewer than `N` bytes is undefined behaviour.
-/

namespace Ion

/-- `load_uint16_be` (lib/http2_frames.h:7-9). -/
def loadU16 (a b : UInt8) : UInt16 := (a.toUInt16 <<< 8) ||| b.toUInt16

/-- `load_uint24_be` (lib/http2_frames.h:11-14). -/
def loadU24 (a b c : UInt8) : UInt32 :=
  (a.toUInt32 <<< 16) ||| (b.toUInt32 <<< 8) ||| c.toUInt32

/-- `load_uint32_be` (lib/http2_frames.h:16-19). -/
def loadU32 (a b c d : UInt8) : UInt32 :=
  (a.toUInt32 <<< 24) ||| (b.toUInt32 <<< 16) ||| (c.toUInt32 <<< 8) ||| d.toUInt32

/-- `store_uint16_be` (lib/http2_frames.h:21-24). -/
def storeU16 (v : UInt16) : Bytes := [(v >>> 8 &&& 0xFF).toUInt8, (v &&& 0xFF).toUInt8]

/-- `store_uint24_be` (lib/http2_frames.h:26-30). -/
def storeU24 (v : UInt32) : Bytes :=
  [(v >>> 16 &&& 0xFF).toUInt8, (v >>> 8 &&& 0xFF).toUInt8, (v &&& 0xFF).toUInt8]

/-- `store_uint32_be` (lib/http2_frames.h:32-37). -/
def storeU32 (v : UInt32) : Bytes :=
  [(v >>> 24 &&& 0xFF).toUInt8, (v >>> 16 &&& 0xFF).toUInt8, (v >>> 8 &&& 0xFF).toUInt8,
    (v &&& 0xFF).toUInt8]

/-- `Http2FrameHeader` (lib/http2_frames.h:39-45). -/
structure FrameHeader where
  length : UInt32
  type : UInt8
  flags : UInt8
  streamId : UInt32
deriving DecidableEq, Repr

/-- `Http2FrameHeader::parse` on `subspan<0, 9>()` (lib/http2_frames.h:47-52). -/
def FrameHeader.parse {ε : Type} : Bytes → Outcome ε FrameHeader
  | a :: b :: c :: t :: f :: s0 :: s1 :: s2 :: s3 :: _ =>
    .ok { length := loadU24 a b c, type := t, flags := f,
          streamId := loadU32 s0 s1 s2 s3 &&& 0x7FFFFFFF }
  | _ => .ub .subspan

/-- `Http2FrameHeader::serialize` (lib/http2_frames.h:54-59). -/
def FrameHeader.serialize (h : FrameHeader) : Bytes :=
  storeU24 h.length ++ [h.type, h.flags] ++ storeU32 (h.streamId &&& 0x7FFFFFFF)

/-- `Http2Setting` (lib/http2_frames.h:62-66). -/
structure Setting where
  identifier : UInt16
  value : UInt32
deriving DecidableEq, Repr

/-- `Http2Setting::parse` on six bytes (lib/http2_frames.h:68-73). -/
def Setting.parse {ε : Type} : Bytes → Outcome ε Setting
  | a :: b :: c :: d :: e :: f :: _ => .ok { identifier := loadU16 a b, value := loadU32 c d e f }
  | _ => .ub .subspan

/-- `Http2Setting::serialize` (lib/http2_frames.h:75-78). -/
def Setting.serialize (s : Setting) : Bytes := storeU16 s.identifier ++ storeU32 s.value

/-- `Http2GoAwayPayload` (lib/http2_frames.h:81-85). -/
structure GoAway where
  lastStreamId : UInt32
  errorCode : UInt32
deriving DecidableEq, Repr

/-- `Http2GoAwayPayload::parse` (lib/http2_frames.h:87-92). -/
def GoAway.parse {ε : Type} : Bytes → Outcome ε GoAway
  | a :: b :: c :: d :: e :: f :: g :: h :: _ =>
    .ok { lastStreamId := loadU32 a b c d &&& 0x7FFFFFFF, errorCode := loadU32 e f g h }
  | _ => .ub .subspan

/-- `Http2GoAwayPayload::serialize` (lib/http2_frames.h:94-97). -/
def GoAway.serialize (g : GoAway) : Bytes :=
  storeU32 (g.lastStreamId &&& 0x7FFFFFFF) ++ storeU32 g.errorCode

/-- `Http2WindowUpdate` (lib/http2_frames.h:100-103). -/
structure WindowUpdate where
  increment : UInt32
deriving DecidableEq, Repr

/-- `Http2WindowUpdate::parse` (lib/http2_frames.h:105-109). -/
def WindowUpdate.parse {ε : Type} : Bytes → Outcome ε WindowUpdate
  | a :: b :: c :: d :: _ => .ok { increment := loadU32 a b c d &&& 0x7FFFFFFF }
  | _ => .ub .subspan

/-- `Http2WindowUpdate::serialize` (lib/http2_frames.h:111-113). -/
def WindowUpdate.serialize (w : WindowUpdate) : Bytes := storeU32 (w.increment &&& 0x7FFFFFFF)

/-- `Http2FrameReader`: a header and a payload (lib/http2_frame_reader.h:11-14,68-70). -/
structure FrameReader where
  header : FrameHeader
  payload : Bytes
deriving DecidableEq, Repr

namespace FrameReader

/-- `has_flag` (lib/http2_frame_reader.h:36-38). -/
def hasFlag (f : FrameReader) (flag : UInt8) : Bool := decide (f.header.flags &&& flag ≠ 0)

/-- `priority` (lib/http2_frame_reader.h:48-50). -/
def priority (f : FrameReader) : Bool := f.hasFlag 0x20

/-- The loop of `read_settings` (lib/http2_frame_reader.cpp:22-26), over the entries left. -/
def readSettingsLoop {ε : Type} : Nat → Bytes → Outcome ε (List Setting)
  | 0, _ => .ok []
  | n + 1, data => do
    let s ← Setting.parse data
    let rest ← readSettingsLoop n (data.drop 6)
    .ok (s :: rest)

/-- `read_settings` (lib/http2_frame_reader.cpp:11-29). -/
def readSettings (f : FrameReader) : Outcome FrameError (List Setting) :=
  if f.payload.length % 6 ≠ 0 then .err .invalidSettingsSize
  else readSettingsLoop (f.payload.length / 6) f.payload

/-- `read_window_update` (lib/http2_frame_reader.cpp:31-33). -/
def readWindowUpdate {ε : Type} (f : FrameReader) : Outcome ε WindowUpdate :=
  WindowUpdate.parse f.payload

/-- `read_goaway` (lib/http2_frame_reader.cpp:35-37). The connection does not call it. -/
def readGoAway {ε : Type} (f : FrameReader) : Outcome ε GoAway := GoAway.parse f.payload

/-- `headers_block` (lib/http2_frame_reader.h:61-66): `subspan(5)` of fewer than five bytes is
undefined behaviour. The PADDED flag is ignored. -/
def headersBlock {ε : Type} (f : FrameReader) : Outcome ε Bytes :=
  if f.priority then
    if f.payload.length < 5 then .ub .subspan else .ok (f.payload.drop 5)
  else .ok f.payload

end FrameReader

end Ion
