import Verif.Spec.HpackInt
import Verif.Spec.Huffman

/-!
# Specification: HPACK header blocks, RFC 7541 sections 2-6 and appendix A

* `IsLongestFit` / `fit`: the eviction rule of section 4.
* `Rep`: the representations of section 6, `RepWire` their octets, `execRep` their effect.
-/

namespace Ion.Spec

/-- Static table (appendix A), one-based. -/
def staticEntry : Nat → Option Header
  | 1 => some ⟨b!":authority", b!""⟩
  | 2 => some ⟨b!":method", b!"GET"⟩
  | 3 => some ⟨b!":method", b!"POST"⟩
  | 4 => some ⟨b!":path", b!"/"⟩
  | 5 => some ⟨b!":path", b!"/index.html"⟩
  | 6 => some ⟨b!":scheme", b!"http"⟩
  | 7 => some ⟨b!":scheme", b!"https"⟩
  | 8 => some ⟨b!":status", b!"200"⟩
  | 9 => some ⟨b!":status", b!"204"⟩
  | 10 => some ⟨b!":status", b!"206"⟩
  | 11 => some ⟨b!":status", b!"304"⟩
  | 12 => some ⟨b!":status", b!"400"⟩
  | 13 => some ⟨b!":status", b!"404"⟩
  | 14 => some ⟨b!":status", b!"500"⟩
  | 15 => some ⟨b!"accept-charset", b!""⟩
  | 16 => some ⟨b!"accept-encoding", b!"gzip, deflate"⟩
  | 17 => some ⟨b!"accept-language", b!""⟩
  | 18 => some ⟨b!"accept-ranges", b!""⟩
  | 19 => some ⟨b!"accept", b!""⟩
  | 20 => some ⟨b!"access-control-allow-origin", b!""⟩
  | 21 => some ⟨b!"age", b!""⟩
  | 22 => some ⟨b!"allow", b!""⟩
  | 23 => some ⟨b!"authorization", b!""⟩
  | 24 => some ⟨b!"cache-control", b!""⟩
  | 25 => some ⟨b!"content-disposition", b!""⟩
  | 26 => some ⟨b!"content-encoding", b!""⟩
  | 27 => some ⟨b!"content-language", b!""⟩
  | 28 => some ⟨b!"content-length", b!""⟩
  | 29 => some ⟨b!"content-location", b!""⟩
  | 30 => some ⟨b!"content-range", b!""⟩
  | 31 => some ⟨b!"content-type", b!""⟩
  | 32 => some ⟨b!"cookie", b!""⟩
  | 33 => some ⟨b!"date", b!""⟩
  | 34 => some ⟨b!"etag", b!""⟩
  | 35 => some ⟨b!"expect", b!""⟩
  | 36 => some ⟨b!"expires", b!""⟩
  | 37 => some ⟨b!"from", b!""⟩
  | 38 => some ⟨b!"host", b!""⟩
  | 39 => some ⟨b!"if-match", b!""⟩
  | 40 => some ⟨b!"if-modified-since", b!""⟩
  | 41 => some ⟨b!"if-none-match", b!""⟩
  | 42 => some ⟨b!"if-range", b!""⟩
  | 43 => some ⟨b!"if-unmodified-since", b!""⟩
  | 44 => some ⟨b!"last-modified", b!""⟩
  | 45 => some ⟨b!"link", b!""⟩
  | 46 => some ⟨b!"location", b!""⟩
  | 47 => some ⟨b!"max-forwards", b!""⟩
  | 48 => some ⟨b!"proxy-authenticate", b!""⟩
  | 49 => some ⟨b!"proxy-authorization", b!""⟩
  | 50 => some ⟨b!"range", b!""⟩
  | 51 => some ⟨b!"referer", b!""⟩
  | 52 => some ⟨b!"refresh", b!""⟩
  | 53 => some ⟨b!"retry-after", b!""⟩
  | 54 => some ⟨b!"server", b!""⟩
  | 55 => some ⟨b!"set-cookie", b!""⟩
  | 56 => some ⟨b!"strict-transport-security", b!""⟩
  | 57 => some ⟨b!"transfer-encoding", b!""⟩
  | 58 => some ⟨b!"user-agent", b!""⟩
  | 59 => some ⟨b!"vary", b!""⟩
  | 60 => some ⟨b!"via", b!""⟩
  | 61 => some ⟨b!"www-authenticate", b!""⟩
  | _ => none

/-- Section 4.1: size of an entry. -/
def size (h : Header) : Nat := h.name.length + h.value.length + 32

/-- Total size of a table. -/
def sizes (l : List Header) : Nat := (l.map size).sum

/-- Sections 4.3 and 4.4: what remains of `l` (newest first) under a limit is its longest prefix
whose total size is within the limit. -/
def IsLongestFit (limit : Nat) (l kept : List Header) : Prop :=
  kept <+: l ∧ sizes kept ≤ limit ∧ ∀ p, p <+: l → sizes p ≤ limit → p.length ≤ kept.length

/-- Computable form of `IsLongestFit`. -/
def fit : Nat → List Header → List Header
  | _, [] => []
  | limit, h :: t => if size h ≤ limit then h :: fit (limit - size h) t else []

/-- A dynamic table: entries, newest first, and the current maximum. -/
structure Table where
  entries : List Header
  max : Nat
deriving DecidableEq, Repr

/-- Section 4.4: insertion. -/
def Table.add (t : Table) (h : Header) : Table := { t with entries := fit t.max (h :: t.entries) }

/-- Section 4.3: change of the maximum. -/
def Table.resize (t : Table) (n : Nat) : Table := { entries := fit n t.entries, max := n }

/-- Section 2.3.3: one index space for both tables. -/
def Table.lookup (t : Table) (i : Nat) : Option Header :=
  if i ≤ 61 then staticEntry i else t.entries[i - 62]?

/-- How a literal affects the table (sections 6.2.1-6.2.3). -/
inductive Indexing where
  | incremental | without | never
deriving DecidableEq, Repr

/-- Where a literal's name comes from. -/
inductive NameRef where
  | index (i : Nat)
  | new (name : Bytes)
deriving DecidableEq, Repr

/-- Section 6: header field representations. -/
inductive Rep where
  | indexed (i : Nat)
  | literal (mode : Indexing) (name : NameRef) (value : Bytes)
  | sizeUpdate (n : Nat)
deriving DecidableEq, Repr

/-- Effect of one representation: emitted headers and new table. `limit` is the upper bound for size
updates set by the protocol using HPACK (section 6.3). -/
def execRep (limit : Nat) (t : Table) : Rep → Option (List Header × Table)
  | .indexed i => (t.lookup i).map fun h => ([h], t)
  | .literal mode name value =>
    let n : Option Bytes := match name with
      | .index i => (t.lookup i).map Header.name
      | .new s => some s
    n.map fun n =>
      let h : Header := ⟨n, value⟩
      ([h], if mode = Indexing.incremental then t.add h else t)
  | .sizeUpdate n => if n ≤ limit then some ([], t.resize n) else none

/-- Effect of a block. -/
def execReps (limit : Nat) : Table → List Rep → Option (List Header × Table)
  | t, [] => some ([], t)
  | t, r :: rs =>
    match execRep limit t r with
    | none => none
    | some (hs, t') => (execReps limit t' rs).map fun (hs', t'') => (hs ++ hs', t'')

/-- Which integer and string representations are admitted. The RFC's own choice is `Dialect.rfc`;
implementations accept a subset (limits) or a superset (leniency). -/
structure Dialect where
  /-- `int n flag v w`: the octets `w` are an integer `v` with `n`-bit prefix and flag bits `flag`. -/
  int : Nat → Nat → Nat → Bytes → Prop
  /-- `huff data s`: the octets `data` are Huffman code for `s`. -/
  huff : Bytes → Bytes → Prop
  /-- Strings that are admitted. -/
  str : Bytes → Prop

/-- Section 5.2: string literal. -/
inductive StrWire (d : Dialect) (s : Bytes) : Bytes → Prop
  | plain (len : Bytes) (h : d.int 7 0 s.length len) (hs : d.str s) : StrWire d s (len ++ s)
  | huffman (len data : Bytes) (h : d.int 7 1 data.length len) (hd : d.huff data s)
      (hs : d.str s) : StrWire d s (len ++ data)

/-- Flag bits of a literal (figures 6-11): 01, 0000 and 0001. -/
def litFlag : Indexing → Nat
  | .incremental => 1
  | .without => 0
  | .never => 1

/-- Prefix width of a literal's name index. -/
def litPrefix : Indexing → Nat
  | .incremental => 6
  | .without => 4
  | .never => 4

/-- Section 6: octets of a representation. -/
inductive RepWire (d : Dialect) : Rep → Bytes → Prop
  | indexed (i : Nat) (w : Bytes) (h : d.int 7 1 i w) : RepWire d (.indexed i) w
  | literalIndexed (mode : Indexing) (i : Nat) (value wi wv : Bytes)
      (h0 : i ≠ 0) (hi : d.int (litPrefix mode) (litFlag mode) i wi) (hv : StrWire d value wv) :
      RepWire d (.literal mode (.index i) value) (wi ++ wv)
  | literalNew (mode : Indexing) (name value wi wn wv : Bytes)
      (hi : d.int (litPrefix mode) (litFlag mode) 0 wi) (hn : StrWire d name wn)
      (hv : StrWire d value wv) :
      RepWire d (.literal mode (.new name) value) (wi ++ (wn ++ wv))
  | sizeUpdate (n : Nat) (w : Bytes) (h : d.int 5 1 n w) : RepWire d (.sizeUpdate n) w

/-- Octets of a block: the concatenation of its representations. -/
inductive BlockWire (d : Dialect) : List Rep → Bytes → Prop
  | nil : BlockWire d [] []
  | cons (r : Rep) (rs : List Rep) (w ws : Bytes) (h : RepWire d r w)
      (hs : BlockWire d rs ws) : BlockWire d (r :: rs) (w ++ ws)

/-- The RFC: any section 5.1 integer, any string, strictly padded Huffman code. -/
def Dialect.rfc : Dialect where
  int := IntRep
  huff := HuffEncodes
  str := fun _ => True

/-- The RFC with limits: integers below 2^32 of at most six octets, strings of at most 4096. -/
def Dialect.limited : Dialect where
  int := fun n flag v w => IntRep n flag v w ∧ w.length ≤ 6 ∧ v < 2 ^ 32
  huff := HuffEncodes
  str := fun s => s.length ≤ 4096

/-- Huffman data as ion reads it (see C06): after the complete codes any number of ones, or the
beginning of any code, is tolerated. -/
def HuffLenient (data s : Bytes) : Prop :=
  ∃ t, bitsOf data = huffBits s ++ t ∧
    ((∃ c, t <+: huffCode c ∧ t ≠ huffCode c) ∨ ∀ b ∈ t, b = true)

/-- The same limits with lenient Huffman padding. -/
def Dialect.lenient : Dialect where
  int := fun n flag v w => IntRep n flag v w ∧ w.length ≤ 6 ∧ v < 2 ^ 32
  huff := HuffLenient
  str := fun s => s.length ≤ 4096

end Ion.Spec
