import Verif.Model.Base

/-!
# Header tables: `lib/hpack/header_static_table.h`, `lib/hpack/dynamic_table.cpp`
-/

namespace Ion

/-- `STATIC_TABLE` (lib/hpack/header_static_table.h:9-70), transcribed mechanically. -/
def staticTable : List Header := [
   ⟨b!":authority", b!""⟩,
   ⟨b!":method", b!"GET"⟩,
   ⟨b!":method", b!"POST"⟩,
   ⟨b!":path", b!"/"⟩,
   ⟨b!":path", b!"/index.html"⟩,
   ⟨b!":scheme", b!"http"⟩,
   ⟨b!":scheme", b!"https"⟩,
   ⟨b!":status", b!"200"⟩,
   ⟨b!":status", b!"204"⟩,
   ⟨b!":status", b!"206"⟩,
   ⟨b!":status", b!"304"⟩,
   ⟨b!":status", b!"400"⟩,
   ⟨b!":status", b!"404"⟩,
   ⟨b!":status", b!"500"⟩,
   ⟨b!"accept-charset", b!""⟩,
   ⟨b!"accept-encoding", b!"gzip, deflate"⟩,
   ⟨b!"accept-language", b!""⟩,
   ⟨b!"accept-ranges", b!""⟩,
   ⟨b!"accept", b!""⟩,
   ⟨b!"access-control-allow-origin", b!""⟩,
   ⟨b!"age", b!""⟩,
   ⟨b!"allow", b!""⟩,
   ⟨b!"authorization", b!""⟩,
   ⟨b!"cache-control", b!""⟩,
   ⟨b!"content-disposition", b!""⟩,
   ⟨b!"content-encoding", b!""⟩,
   ⟨b!"content-language", b!""⟩,
   ⟨b!"content-length", b!""⟩,
   ⟨b!"content-location", b!""⟩,
   ⟨b!"content-range", b!""⟩,
   ⟨b!"content-type", b!""⟩,
   ⟨b!"cookie", b!""⟩,
   ⟨b!"date", b!""⟩,
   ⟨b!"etag", b!""⟩,
   ⟨b!"expect", b!""⟩,
   ⟨b!"expires", b!""⟩,
   ⟨b!"from", b!""⟩,
   ⟨b!"host", b!""⟩,
   ⟨b!"if-match", b!""⟩,
   ⟨b!"if-modified-since", b!""⟩,
   ⟨b!"if-none-match", b!""⟩,
   ⟨b!"if-range", b!""⟩,
   ⟨b!"if-unmodified-since", b!""⟩,
   ⟨b!"last-modified", b!""⟩,
   ⟨b!"link", b!""⟩,
   ⟨b!"location", b!""⟩,
   ⟨b!"max-forwards", b!""⟩,
   ⟨b!"proxy-authenticate", b!""⟩,
   ⟨b!"proxy-authorization", b!""⟩,
   ⟨b!"range", b!""⟩,
   ⟨b!"referer", b!""⟩,
   ⟨b!"refresh", b!""⟩,
   ⟨b!"retry-after", b!""⟩,
   ⟨b!"server", b!""⟩,
   ⟨b!"set-cookie", b!""⟩,
   ⟨b!"strict-transport-security", b!""⟩,
   ⟨b!"transfer-encoding", b!""⟩,
   ⟨b!"user-agent", b!""⟩,
   ⟨b!"vary", b!""⟩,
   ⟨b!"via", b!""⟩,
   ⟨b!"www-authenticate", b!""⟩]

/-- `HARD_TABLE_SIZE_LIMIT` (lib/hpack/dynamic_table.h:11). -/
def hardTableSizeLimit : Nat := 64 * 1024

/-- `DEFAULT_MAX_TABLE_SIZE` (lib/hpack/dynamic_table.h:12). -/
def defaultMaxTableSize : Nat := 64 * 1024

/-- `DynamicTable::get_header_entry_size` (lib/hpack/dynamic_table.cpp:79-81). -/
def entrySize (h : Header) : Nat := h.name.length + h.value.length + 32

/-- `class DynamicTable` (lib/hpack/dynamic_table.h:14-32); the head of `table` is `table_.front()`. -/
structure DynTable where
  table : List Header := []
  tableSize : Nat := 0
  maxTableSize : Nat := defaultMaxTableSize
deriving DecidableEq, Repr

namespace DynTable

/-- `DynamicTable::count` (lib/hpack/dynamic_table.cpp:11-13). -/
def count (t : DynTable) : Nat := t.table.length

/-- `DynamicTable::get` (lib/hpack/dynamic_table.cpp:15-17): unchecked `operator[]`. -/
def get {ε : Type} (t : DynTable) (index : Nat) : Outcome ε Header :=
  match t.table[index]? with
  | some h => .ok h
  | none => .ub .index

/-- The eviction loops of `insert` (lib/hpack/dynamic_table.cpp:29-32, `need` = size of the new
entry) and of `set_max_table_size` (lib/hpack/dynamic_table.cpp:72-76, `need` = 0).  `back()` on an
empty deque is undefined behaviour. `table_size_` is a `size_t`; the subtraction is modelled on
naturals, and C10 shows that it never goes below zero. -/
def evict {ε : Type} (t : DynTable) (need : Nat) : Outcome ε DynTable :=
  if t.tableSize + need > t.maxTableSize then
    match _h : t.table.getLast? with
    | none => .ub .emptyBack
    | some last =>
      evict { t with tableSize := t.tableSize - entrySize last, table := t.table.dropLast } need
  else .ok t
termination_by t.table.length
decreasing_by
  have : t.table ≠ [] := by intro e; simp [e] at _h
  have := List.length_pos_iff.mpr this
  simp; omega

/-- `DynamicTable::insert` (lib/hpack/dynamic_table.cpp:19-37). -/
def insert {ε : Type} (t : DynTable) (header : Header) : Outcome ε DynTable :=
  if entrySize header > t.maxTableSize then
    .ok { t with table := [], tableSize := 0 }
  else do
    let t ← t.evict (entrySize header)
    .ok { t with table := header :: t.table, tableSize := t.tableSize + entrySize header }

/-- `DynamicTable::find` (lib/hpack/dynamic_table.cpp:39-47). -/
def find (t : DynTable) (header : Header) : Option Nat :=
  t.table.findIdx? fun hdr => header.name == hdr.name && header.value == hdr.value

/-- `DynamicTable::find_name` (lib/hpack/dynamic_table.cpp:49-56). -/
def findName (t : DynTable) (name : Bytes) : Option Nat :=
  t.table.findIdx? fun hdr => name == hdr.name

/-- `DynamicTable::set_max_table_size` (lib/hpack/dynamic_table.cpp:70-77). -/
def setMaxTableSize {ε : Type} (t : DynTable) (newSz : Nat) : Outcome ε DynTable :=
  evict { t with maxTableSize := newSz } 0

end DynTable

end Ion
