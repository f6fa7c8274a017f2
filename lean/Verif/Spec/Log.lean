import Verif.Model.FrameLog
import Verif.Spec.Response
import Verif.Spec.Trace
import Verif.Spec.Serve

/-! # What a reader of the log expects -/

namespace Ion
namespace Spec

/-- The lines that are written when the level is set to the one of rank `level` (spdlog: those of that level and of
higher ones). -/
def written (level : Nat) (lines : List Line) : List Line := lines.filter fun l => decide (level ≤ l.1.rank)

/-- The text `parts` with a number in decimal in each of its gaps. -/
inductive Filled : List Bytes → Bytes → Prop where
  | last (p : Bytes) : Filled [p] p
  | gap (p : Bytes) (parts : List Bytes) (n : Nat) (digits text : Bytes) : IsDecimal n digits → Filled parts text →
    Filled (p :: parts) (p ++ digits ++ text)

/-- Why frames are refused, in the words of the program. Nothing but numbers varies. -/
def reasons : List (List Bytes) := [
  [b!"Unexpected end of data while reading header length & string"],
  [b!"Failed to decode string length integer"],
  [b!"Insufficient data for string"],
  [b!"Header string length exceeds maximum allowed size (len: ", b!", max: 4096)"],
  [b!"remaining unmatched Huffman code is not padding: (bit pos = ", b!")"],
  [b!"invalid dynamic table index lookup for header (idx: ", b!", sz: ", b!")"],
  [b!"invalid dynamic table index lookup for header name (idx: ", b!", sz: ", b!")"],
  [b!"invalid header index (<1)"],
  [b!"failed to decode dynamic table size update (not enough bytes)"],
  [b!"dynamic table size update exceeds hard limit (", b!" > 65536)"],
  [b!"invalid HTTP/2 preface received"],
  [b!"invalid SETTINGS frame: data size not a multiple of 6"],
  [b!"frame too big (sz: ", b!", max: 16384)"]]

/-- A text that gives one of these reasons. -/
def Reason (text : Bytes) : Prop := ∃ parts ∈ reasons, Filled parts text

/-- The octets do not begin with an integer that is admitted, with an `n`-bit prefix. -/
def NoInt (n : Nat) (r : Bytes) : Prop := ∀ flag v w rest, r = w ++ rest → ¬ Dialect.lenient.int n flag v w

/-- What is wrong with octets that should begin with a string, and the text that says so. (The position named for
Huffman code is left open.) -/
inductive StrFault : Bytes → Bytes → Prop where
  | empty : StrFault [] b!"Unexpected end of data while reading header length & string"
  | length (r : Bytes) : r ≠ [] → NoInt 7 r → StrFault r b!"Failed to decode string length integer"
  | short (flag n : Nat) (w rest : Bytes) : Dialect.lenient.int 7 flag n w → rest.length < n →
    StrFault (w ++ rest) b!"Insufficient data for string"
  | long (n : Nat) (w rest d : Bytes) : Dialect.lenient.int 7 0 n w → n ≤ rest.length → 4096 < n → IsDecimal n d →
    StrFault (w ++ rest) (b!"Header string length exceeds maximum allowed size (len: " ++ d ++ b!", max: 4096)")
  | decodedLong (w data rest s d : Bytes) : Dialect.lenient.int 7 1 data.length w → HuffLenient data s →
    4096 < s.length → IsDecimal s.length d → StrFault (w ++ (data ++ rest))
      (b!"Header string length exceeds maximum allowed size (len: " ++ d ++ b!", max: 4096)")
  | code (w data rest : Bytes) (n : Nat) (d : Bytes) : Dialect.lenient.int 7 1 data.length w →
    (∀ s, ¬ HuffLenient data s) → IsDecimal n d → StrFault (w ++ (data ++ rest))
      (b!"remaining unmatched Huffman code is not padding: (bit pos = " ++ d ++ b!")")

/-- What is wrong with octets that should begin with a field representation, and the text that says so. -/
inductive FieldFault (T : Table) : Bytes → Bytes → Prop where
  | zero (w rest : Bytes) : Dialect.lenient.int 7 1 0 w → FieldFault T (w ++ rest) b!"invalid header index (<1)"
  | entry (i : Nat) (w rest a b : Bytes) : Dialect.lenient.int 7 1 i w → i ≠ 0 → T.lookup i = none → IsDecimal i a →
    IsDecimal T.entries.length b → FieldFault T (w ++ rest)
      (b!"invalid dynamic table index lookup for header (idx: " ++ a ++ b!", sz: " ++ b ++ b!")")
  | name (mode : Indexing) (i : Nat) (w rest a b : Bytes) : Dialect.lenient.int (litPrefix mode) (litFlag mode) i w →
    i ≠ 0 → T.lookup i = none → IsDecimal i a → IsDecimal T.entries.length b → FieldFault T (w ++ rest)
      (b!"invalid dynamic table index lookup for header name (idx: " ++ a ++ b!", sz: " ++ b ++ b!")")
  | value (mode : Indexing) (i : Nat) (w r text : Bytes) : Dialect.lenient.int (litPrefix mode) (litFlag mode) i w →
    i ≠ 0 → T.lookup i ≠ none → StrFault r text → FieldFault T (w ++ r) text
  | newName (mode : Indexing) (w r text : Bytes) : Dialect.lenient.int (litPrefix mode) (litFlag mode) 0 w →
    StrFault r text → FieldFault T (w ++ r) text
  | newValue (mode : Indexing) (w name wn r text : Bytes) : Dialect.lenient.int (litPrefix mode) (litFlag mode) 0 w →
    StrWire Dialect.lenient name wn → StrFault r text → FieldFault T (w ++ (wn ++ r)) text
  | sizeInt (b : UInt8) (r : Bytes) : b.toNat / 32 = 1 → NoInt 5 (b :: r) →
    FieldFault T (b :: r) b!"failed to decode dynamic table size update (not enough bytes)"
  | size (n : Nat) (w rest d : Bytes) : Dialect.lenient.int 5 1 n w → 65536 < n → IsDecimal n d → FieldFault T (w ++ rest)
      (b!"dynamic table size update exceeds hard limit (" ++ d ++ b!" > 65536)")

/-- What is wrong with a field block: it can be read up to some point and is wrong there. -/
def BlockFault (T : Table) (block text : Bytes) : Prop :=
  ∃ reps w r out T', block = w ++ r ∧ BlockWire Dialect.lenient reps w ∧ execReps 65536 T reps = some (out, T') ∧
    FieldFault T' r text

/-- What is wrong with a frame. -/
def Fault (T : Table) (f : Frame) (text : Bytes) : Prop :=
  (BadSettings f ∧ text = b!"invalid SETTINGS frame: data size not a multiple of 6") ∨
  (f.type = 1 ∧ ∃ block, FieldBlock f block ∧ BlockFault T block text)

/-- A frame header that announces too much, and the text that says so. -/
def TooBig (rbuf text : Bytes) : Prop :=
  ∃ len more d, rbuf = len ++ more ∧ len.length = 3 ∧ 16384 < be len ∧ IsDecimal (be len) d ∧
    text = b!"frame too big (sz: " ++ d ++ b!", max: 16384)"

/-- What is logged about a response: its status, and the length of its body if it has one. -/
def Sent (status size : Nat) (lines : List Line) : Prop :=
  ∃ a b, IsDecimal status a ∧ IsDecimal size b ∧
    lines = (.info, a ++ b!" status code sent w/headers") ::
      if size = 0 then [] else [(.info, b!"sending response body (length: " ++ b ++ b!")")]

variable {W : Type}

/-- What is logged at level info and above for a frame that is not refused, given the calls of handlers and of the
access log that it causes: nothing but the status and the length of the response, what is wrong with the request, and
what the application says. -/
inductive Loud (app : AppLog W) (w : W) :
    List (HttpRequest × HOut) → List (List Header × UInt16 × Nat) → List Line → Prop where
  | none : Loud app w [] [] []
  | missing (hs : List Header) (status : UInt16) (size : Nat) (sent : List Line) :
    (∀ h ∈ hs, h.name ≠ b!":path") ∨ (∀ h ∈ hs, h.name ≠ b!":method") → Sent status.toNat size sent →
    Loud app w [] [(hs, status, size)] ((.err, b!"invalid request: missing path or method") :: sent)
  | answered (req : HttpRequest) (r : HttpResponse) (status : UInt16) (size : Nat) (sent : List Line) :
    Sent status.toNat size sent →
    Loud app w [(req, .resp r)] [(req.headers, status, size)] (written 2 (app.lines req w) ++ sent)
  | threw (req : HttpRequest) (status : UInt16) (size : Nat) (sent : List Line) : Sent status.toNat size sent →
    Loud app w [(req, .stdExn)] [(req.headers, status, size)]
      (written 2 (app.lines req w) ++ (.err, b!"error processing request: " ++ app.what req w) :: sent)

/-- Whatever the level, two requests with the same names, target and method leave the same lines. -/
def LogIgnoresValues (cfg : Cfg W) (app : AppLog W) : Prop :=
  ∀ (level : Nat) (s s1 s2 : Sim W) (f1 f2 : FrameReader) (hs1 hs2 : List Header) (st1 st2 : UInt16) (n1 n2 : Nat)
    (new1 new2 : List Ev),
    s.st = .awaitingFrame → s.processFrame cfg f1 = .ok s1 → s.processFrame cfg f2 = .ok s2 →
    s1.trace = s.trace ++ new1 → s2.trace = s.trace ++ new2 →
    Sim.logs new1 = [(hs1, st1, n1)] → Sim.logs new2 = [(hs2, st2, n2)] →
    hs1.map Header.name = hs2.map Header.name →
    (hs1.filter fun h => h.name == b!":path" || h.name == b!":method") =
      (hs2.filter fun h => h.name == b!":path" || h.name == b!":method") →
    written level (s.frameLines cfg app f1) = written level (s.frameLines cfg app f2)

end Spec
end Ion
