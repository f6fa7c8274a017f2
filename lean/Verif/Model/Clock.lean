import Verif.Model.App

/-!
# Time stamps and client addresses: `lib/system_clock.cpp`, `SocketFd::client_ip`

Not modelled: `localtime_r` (its result is an argument), IPv6 addresses (the listener is an IPv4 socket,
`lib/tcp_listener.cpp:41`; the text `inet_ntop` makes of one is an argument).
-/

namespace Ion

/-- `struct tm`, the parts `strftime` uses here. `year` is the year itself, not the years since 1900, and
not negative; `gmtoff` is in seconds. -/
structure Tm where
  sec : Nat
  min : Nat
  hour : Nat
  mday : Nat
  mon : Nat
  year : Nat
  gmtoff : Int
deriving DecidableEq, Repr

/-- What `localtime_r` guarantees (ISO C, 7.29.1); offsets from UTC are less than 100 hours. -/
def Tm.Valid (tm : Tm) : Prop :=
  tm.sec ≤ 60 ∧ tm.min < 60 ∧ tm.hour < 24 ∧ 1 ≤ tm.mday ∧ tm.mday ≤ 31 ∧ tm.mon < 12 ∧
    -360000 < tm.gmtoff ∧ tm.gmtoff < 360000

/-- Two digits, as for %d, %H, %M and %S. -/
def pad2 (n : Nat) : Bytes := if n < 10 then b!"0" ++ decimal n else decimal n

/-- Four digits, as for %z. -/
def pad4 (n : Nat) : Bytes := if n < 100 then b!"00" ++ pad2 n else if n < 1000 then b!"0" ++ decimal n else decimal n

/-- %b in the "C" locale (`setlocale` is never called). -/
def monthNames : List Bytes :=
  [b!"Jan", b!"Feb", b!"Mar", b!"Apr", b!"May", b!"Jun", b!"Jul", b!"Aug", b!"Sep", b!"Oct", b!"Nov", b!"Dec"]

/-- %z: the sign, and hours and minutes as one number; seconds are dropped. -/
def zoneText (gmtoff : Int) : Bytes :=
  let minutes := gmtoff.natAbs / 60
  (if gmtoff < 0 then b!"-" else b!"+") ++ pad4 (minutes / 60 * 100 + minutes % 60)

/-- `strftime` with the format "[%d/%b/%Y:%H:%M:%S %z]" (lib/system_clock.cpp:12). -/
def strftimeClf (tm : Tm) : Bytes :=
  b!"[" ++ pad2 tm.mday ++ b!"/" ++ monthNames.getD tm.mon b!"?" ++ b!"/" ++ decimal tm.year ++ b!":" ++
  pad2 tm.hour ++ b!":" ++ pad2 tm.min ++ b!":" ++ pad2 tm.sec ++ b!" " ++ zoneText tm.gmtoff ++ b!"]"

/-- `SystemClock::clf_timestamp` (lib/system_clock.cpp:5-15). The text and its terminating zero have to fit
the 32 octets of the buffer, otherwise `strftime` returns zero. -/
def clfTimestamp (tm : Tm) : Bytes :=
  let text := strftimeClf tm
  let len := if text.length < 32 then text.length else 0
  text.take len

/-- What `getpeername` reports: the family, and the address. -/
inductive PeerName where
  | failed
  | inet (a b c d : UInt8)
  | inet6 (text : Bytes)
  | unknown
deriving DecidableEq, Repr

/-- `inet_ntop` for AF_INET. -/
def inetNtop (a b c d : UInt8) : Bytes :=
  decimal a.toNat ++ b!"." ++ decimal b.toNat ++ b!"." ++ decimal c.toNat ++ b!"." ++ decimal d.toNat

/-- `SocketFd::client_ip` (lib/socket_fd.cpp:32-54). -/
def PeerName.clientIp : PeerName → Option Bytes
  | .failed => none
  | .inet a b c d => some (inetNtop a b c d)
  | .inet6 text => some text
  | .unknown => none

/-- The address a connection is given (lib/http2_server.cpp:38-48). -/
def PeerName.connIp (p : PeerName) : Bytes := p.clientIp.getD []

/-- An entry of the access log (lib/access_log.cpp:37-41, lib/http2_conn.cpp:281). -/
def accessEntry (headers : List Header) (status : UInt16) (contentLength : Nat) (peer : PeerName) (tm : Tm) :
    Bytes :=
  logEntry headers status contentLength peer.connIp (clfTimestamp tm)

end Ion
