import Verif.Lemmas.HuffTable

/-! Bit-list view of the Huffman coder and decoder. -/

namespace Ion
open Spec

/-! ### Reader -/

theorem msbBits_eq (v n : Nat) : msbBits v n = bitsOfNat v n := by
  induction n with
  | zero => rfl
  | succ n ih => simp [msbBits, bitsOfNat, ih, Nat.shiftRight_eq_div_pow]

@[simp] theorem bitsOfNat_length (v n : Nat) : (bitsOfNat v n).length = n := by
  induction n with
  | zero => rfl
  | succ n ih => simp [bitsOfNat, ih]

@[simp] theorem bitsOf_nil : bitsOf [] = [] := rfl
@[simp] theorem bitsOf_cons (b : UInt8) (bs : Bytes) :
    bitsOf (b :: bs) = bitsOfNat b.toNat 8 ++ bitsOf bs := rfl
@[simp] theorem bitsOf_append (a b : Bytes) : bitsOf (a ++ b) = bitsOf a ++ bitsOf b := by
  simp [bitsOf]

@[simp] theorem bitsOf_length (d : Bytes) : (bitsOf d).length = d.length * 8 := by
  induction d with
  | nil => rfl
  | cons b bs ih => simp [ih]; omega

theorem bitsOfNat_getElem (v n i : Nat) (h : i < n) :
    (bitsOfNat v n)[i]'(by simpa using h) = (v / 2 ^ (n - 1 - i) % 2 == 1) := by
  induction n generalizing i with
  | zero => omega
  | succ n ih =>
    cases i with
    | zero => simp [bitsOfNat]
    | succ i =>
      simp only [bitsOfNat, List.getElem_cons_succ]
      rw [ih i (by omega)]
      rw [show n + 1 - 1 - (i + 1) = n - 1 - i by omega]

theorem bitsOf_getElem (d : Bytes) (i : Nat) (h : i < d.length * 8) :
    (bitsOf d)[i]'(by simpa using h) = (((d.getD (i / 8) 0).toNat >>> (7 - i % 8)) % 2 == 1) := by
  induction d generalizing i with
  | nil => simp at h
  | cons b bs ih =>
    simp only [bitsOf_cons]
    by_cases hi : i < 8
    · rw [List.getElem_append_left (by simpa using hi), bitsOfNat_getElem _ _ _ hi,
        Nat.div_eq_of_lt hi, Nat.mod_eq_of_lt hi]
      simp [Nat.shiftRight_eq_div_pow]
    · rw [List.getElem_append_right (by simp; omega)]
      have e : i / 8 = (i - 8) / 8 + 1 := by omega
      have e2 : i % 8 = (i - 8) % 8 := by omega
      simp only [bitsOfNat_length]
      rw [ih (i - 8) (by simp at h; omega), e, e2]
      simp

/-- Bits a reader has not delivered yet. -/
def BitReader.rest (r : BitReader) : List Bool := (bitsOf r.data).drop r.bitPos

theorem BitReader.rest_of_hasMore (r : BitReader) (h : r.hasMore = true) :
    r.rest = r.readBit.1 :: r.readBit.2.rest := by
  have h' : r.bitPos < r.data.length * 8 := by simpa [hasMore] using h
  have hd := r.bitPos_readBit h
  simp only [rest]
  rw [hd.1, hd.2, List.drop_eq_getElem_cons (by simpa using h')]
  congr 1
  rw [bitsOf_getElem _ _ h']
  simp only [readBit]
  rw [dif_neg (by omega), List.getD_eq_getElem?_getD, List.getElem?_eq_getElem (by omega), Option.getD_some]

theorem BitReader.rest_of_not_hasMore (r : BitReader) (h : ¬ r.hasMore = true) : r.rest = [] := by
  have h' : ¬ r.bitPos < r.data.length * 8 := by simpa [hasMore] using h
  simp only [rest]
  apply List.drop_eq_nil_of_le
  simp; omega

namespace HuffTree

theorem restIsOnes_eq (br : BitReader) : restIsOnes br = br.rest.all id := by
  induction br using restIsOnes.induct with
  | case1 br h h1 =>
    rw [restIsOnes, dif_pos h, if_pos h1, br.rest_of_hasMore h]
    simp at h1; simp [h1]
  | case2 br h h1 ih =>
    rw [restIsOnes, dif_pos h, if_neg h1, br.rest_of_hasMore h, ih]
    simp at h1; simp [h1]
  | case3 br h =>
    rw [restIsOnes, dif_neg h, br.rest_of_not_hasMore h]; rfl

/-- `decodeLoop` on a list of bits. -/
def decodeBits (root : HuffTree) : List Bool → HuffTree → Bytes → Outcome HuffErr Bytes
  | [], _, acc => .ok acc
  | _ :: _, nil, _ => .ub .nullDeref
  | b :: bs, node l r _, acc =>
    match (if b then r else l) with
    | nil => if bs.all id then .ok acc else .err .invalidCode
    | node _ _ (some s) => decodeBits root bs root (acc ++ [s])
    | node l' r' none => decodeBits root bs (node l' r' none) acc

theorem decodeLoop_eq (root : HuffTree) (br : BitReader) (cur : HuffTree) (acc : Bytes) :
    decodeLoop root br cur acc = decodeBits root br.rest cur acc := by
  induction br, cur, acc using decodeLoop.induct (root := root) with
  | case1 br acc h =>
    rw [decodeLoop, dif_pos h, br.rest_of_hasMore h]
    rfl
  | case2 br acc h l r m hnext =>
    rename_i hones
    rw [decodeLoop, dif_pos h, br.rest_of_hasMore h]
    rw [restIsOnes_eq] at hones
    simp only [decodeBits]
    cases hb : br.readBit.1 <;> simp_all [restIsOnes_eq]
  | case3 br acc h l r m hnext hones =>
    rw [decodeLoop, dif_pos h, br.rest_of_hasMore h]
    rw [restIsOnes_eq] at hones
    simp only [decodeBits]
    cases hb : br.readBit.1 <;> simp_all [restIsOnes_eq]
  | case4 br acc h l r m l' r' s hnext ih =>
    rw [decodeLoop, dif_pos h, br.rest_of_hasMore h]
    simp only [decodeBits]
    cases hb : br.readBit.1 <;> simp_all
  | case5 br acc h l r m l' r' hnext ih =>
    rw [decodeLoop, dif_pos h, br.rest_of_hasMore h]
    simp only [decodeBits]
    cases hb : br.readBit.1 <;> simp_all
  | case6 br cur acc h =>
    rw [decodeLoop.eq_def, dif_neg h, br.rest_of_not_hasMore h]
    simp [decodeBits]

theorem decode_eq (root : HuffTree) (data : Bytes) :
    decode root data = decodeBits root (bitsOf data) root [] := by
  rw [decode, decodeLoop_eq]; simp [BitReader.rest]

/-! ### Structure of the tree -/

/-- Walk through non-terminal nodes and end on a terminal one. -/
def follow : HuffTree → List Bool → Option UInt8
  | _, [] => none
  | nil, _ :: _ => none
  | node l r _, b :: bs =>
    match (if b then r else l) with
    | nil => none
    | node _ _ (some s) => if bs = [] then some s else none
    | node l' r' none => follow (node l' r' none) bs

/-- Walk through non-terminal nodes. -/
def walk : HuffTree → List Bool → Option HuffTree
  | t, [] => some t
  | nil, _ :: _ => none
  | node l r _, b :: bs =>
    match (if b then r else l) with
    | nil => none
    | node _ _ (some _) => none
    | node l' r' none => walk (node l' r' none) bs

/-- Every terminal is at the path of its own code and the only missing child is at thirty ones. -/
def check : HuffTree → List Bool → Bool
  | nil, q => q == List.replicate 30 true
  | node _ _ (some s), q => q == codeBits s
  | node l r none, q => check l (q ++ [false]) && check r (q ++ [true])

theorem decodeBits_follow (root : HuffTree) (p : List Bool) : ∀ (cur : HuffTree) (s : UInt8)
    (bs : List Bool) (acc : Bytes), follow cur p = some s →
    decodeBits root (p ++ bs) cur acc = decodeBits root bs root (acc ++ [s]) := by
  induction p with
  | nil => intro cur s bs acc h; simp [follow] at h
  | cons b p ih =>
    intro cur s bs acc h
    cases cur with
    | nil => simp [follow] at h
    | node l r m =>
      simp only [follow] at h
      simp only [List.cons_append, decodeBits]
      split at h
      · simp at h
      · split at h
        · rename_i hp; subst hp
          simp only [Option.some.injEq] at h; subst h
          simp
        · simp at h
      · exact ih _ _ _ _ h

theorem decodeBits_walk (root : HuffTree) (p : List Bool) : ∀ (cur cur' : HuffTree)
    (bs : List Bool) (acc : Bytes), walk cur p = some cur' →
    decodeBits root (p ++ bs) cur acc = decodeBits root bs cur' acc := by
  induction p with
  | nil => intro cur cur' bs acc h; simp [walk] at h; simp [h]
  | cons b p ih =>
    intro cur cur' bs acc h
    cases cur with
    | nil => simp [walk] at h
    | node l r m =>
      simp only [walk] at h
      simp only [List.cons_append, decodeBits]
      split at h
      · simp at h
      · simp at h
      · exact ih _ _ _ _ h

theorem decodeBits_proper_prefix (root : HuffTree) (p : List Bool) : ∀ (cur : HuffTree) (s : UInt8)
    (t : List Bool) (acc : Bytes), follow cur p = some s → t <+: p → t ≠ p →
    decodeBits root t cur acc = .ok acc := by
  induction p with
  | nil => intro cur s t acc h; simp [follow] at h
  | cons b p ih =>
    intro cur s t acc h hp hne
    cases t with
    | nil => simp [decodeBits]
    | cons c t =>
      obtain ⟨rfl, hp'⟩ := List.cons_prefix_cons.mp hp
      cases cur with
      | nil => simp [follow] at h
      | node l r m =>
        simp only [follow] at h
        simp only [decodeBits]
        split at h
        · simp at h
        · split at h
          · rename_i hp0; subst hp0
            simp at hp'; subst hp'; simp at hne
          · simp at h
        · exact ih _ _ _ _ h hp' (by simpa using hne)

/-- Below every checked node there is a code or the missing end-of-string code. -/
theorem check_prefix (t : HuffTree) : ∀ q, check t q = true →
    (∃ s, q <+: codeBits s) ∨ q <+: List.replicate 30 true := by
  induction t with
  | nil => intro q h; right; simp [check] at h; simp [h]
  | node l r m ihl ihr =>
    intro q h
    cases m with
    | some s => left; simp [check] at h; exact ⟨s, by simp [h]⟩
    | none =>
      simp only [check, Bool.and_eq_true] at h
      rcases ihl _ h.1 with ⟨s, hs⟩ | hs
      · exact .inl ⟨s, (List.prefix_append q _).trans hs⟩
      · exact .inr ((List.prefix_append q _).trans hs)

theorem check_proper_prefix (l r : HuffTree) (q : List Bool) (h : check (node l r none) q = true) :
    (∃ s, q <+: codeBits s ∧ q ≠ codeBits s) ∨ (∀ b ∈ q, b = true) := by
  simp only [check, Bool.and_eq_true] at h
  rcases check_prefix _ _ h.1 with ⟨s, hs⟩ | hs
  · refine .inl ⟨s, (List.prefix_append q _).trans hs, ?_⟩
    intro e
    have := hs.length_le
    rw [← e] at this; simp at this; omega
  · right
    intro b hb
    have : b ∈ List.replicate 30 true := (List.prefix_append q [false]).trans hs |>.subset hb
    exact List.eq_of_mem_replicate this

/-- What may follow the last complete code: ones, or the beginning of some code. -/
def Tail (t : List Bool) : Prop :=
  (∃ s, t <+: codeBits s ∧ t ≠ codeBits s) ∨ (∀ b ∈ t, b = true)

theorem decodeBits_sound (root : HuffTree) (hroot : ∃ l r, root = node l r none)
    (hck : check root [] = true) (bs : List Bool) : ∀ (l r : HuffTree) (q : List Bool)
    (acc : Bytes), check (node l r none) q = true →
    match decodeBits root bs (node l r none) acc with
    | .ok out => ∃ s t, out = acc ++ s ∧ q ++ bs = s.flatMap codeBits ++ t ∧ Tail t
    | .err _ => True
    | .ub _ => False := by
  induction bs with
  | nil =>
    intro l r q acc h
    simp only [decodeBits]
    exact ⟨[], q, by simp, by simp, check_proper_prefix l r q h⟩
  | cons b bs ih =>
    intro l r q acc h
    simp only [check, Bool.and_eq_true] at h
    have hchild : check (if b then r else l) (q ++ [b]) = true := by
      cases b <;> simp [h.1, h.2]
    simp only [decodeBits]
    generalize hc : (if b then r else l) = c at hchild
    match c, hchild with
    | nil, hchild =>
      simp only
      split
      · rename_i out heq
        split at heq
        · rename_i hones
          simp only [Outcome.ok.injEq] at heq; subst heq
          refine ⟨[], q ++ b :: bs, by simp, by simp, .inr ?_⟩
          simp only [check, beq_iff_eq] at hchild
          intro x hx
          rw [show q ++ b :: bs = (q ++ [b]) ++ bs by simp, hchild] at hx
          rcases List.mem_append.mp hx with hx | hx
          · exact List.eq_of_mem_replicate hx
          · exact List.all_eq_true.mp hones x hx
        · simp at heq
      · trivial
      · rename_i heq
        split at heq <;> simp at heq
    | node l' r' (some s), hchild =>
      simp only [check, beq_iff_eq] at hchild
      simp only
      obtain ⟨rl, rr, hr⟩ := hroot
      have := ih rl rr [] (acc ++ [s]) (hr ▸ hck)
      rw [← hr] at this
      split at this
      · obtain ⟨s', t, h1, h2, h3⟩ := this
        refine ⟨s :: s', t, by simp [h1], ?_, h3⟩
        simp only [List.nil_append] at h2
        rw [show q ++ b :: bs = (q ++ [b]) ++ bs by simp, hchild, h2]; simp
      · trivial
      · exact this.elim
    | node l' r' none, hchild =>
      simp only
      have := ih l' r' (q ++ [b]) acc hchild
      split at this
      · obtain ⟨s', t, h1, h2, h3⟩ := this
        exact ⟨s', t, h1, by simpa using h2, h3⟩
      · trivial
      · exact this.elim

end HuffTree

/-! ### The actual tree -/

theorem huffmanTree_check : huffmanTree.check [] = true := by decide +kernel
theorem huffmanTree_root : ∃ l r, huffmanTree = .node l r none := by
  have : (match huffmanTree with | .node _ _ none => true | _ => false) = true := by decide +kernel
  split at this
  · exact ⟨_, _, ‹_›⟩
  · simp at this
theorem huffmanTree_follow (s : UInt8) : huffmanTree.follow (codeBits s) = some s := by
  revert s; decide +kernel
theorem huffmanTree_ones : ∃ l m, huffmanTree.walk (List.replicate 29 true) = some (.node l .nil m) := by
  have : (match huffmanTree.walk (List.replicate 29 true) with
    | some (.node _ .nil _) => true | _ => false) = true := by decide +kernel
  split at this
  · exact ⟨_, _, ‹_›⟩
  · simp at this
theorem codeBits_22 : codeBits 22 = List.replicate 29 true ++ [false] := by decide +kernel
theorem codeBits_length (s : UInt8) : 5 ≤ (codeBits s).length ∧ (codeBits s).length ≤ 30 := by
  revert s; decide +kernel

theorem decodeBits_codes (s : Bytes) : ∀ (bs : List Bool) (acc : Bytes),
    HuffTree.decodeBits huffmanTree (s.flatMap codeBits ++ bs) huffmanTree acc =
      HuffTree.decodeBits huffmanTree bs huffmanTree (acc ++ s) := by
  induction s with
  | nil => intro bs acc; simp
  | cons c s ih =>
    intro bs acc
    rw [List.flatMap_cons, List.append_assoc,
      HuffTree.decodeBits_follow _ _ _ _ _ _ (huffmanTree_follow c), ih]
    simp

theorem decodeBits_tail (t : List Bool) (acc : Bytes) (h : HuffTree.Tail t) :
    HuffTree.decodeBits huffmanTree t huffmanTree acc = .ok acc := by
  rcases h with ⟨s, hp, hne⟩ | hones
  · exact HuffTree.decodeBits_proper_prefix _ _ _ _ _ _ (huffmanTree_follow s) hp hne
  · have e : t = List.replicate t.length true := List.eq_replicate_iff.mpr ⟨rfl, hones⟩
    by_cases hl : t.length ≤ 29
    · apply HuffTree.decodeBits_proper_prefix _ _ _ _ _ _ (huffmanTree_follow 22)
      · rw [codeBits_22, e]
        refine ⟨List.replicate (29 - t.length) true ++ [false], ?_⟩
        rw [← List.append_assoc, List.replicate_append_replicate]
        congr 2; omega
      · intro h
        have hm : false ∈ t := by rw [h, codeBits_22]; simp
        exact absurd (hones _ hm) (by simp)
    · obtain ⟨l, m, hw⟩ := huffmanTree_ones
      have e2 : t = List.replicate 29 true ++ (true :: List.replicate (t.length - 30) true) := by
        rw [← List.replicate_succ, List.replicate_append_replicate]
        conv => lhs; rw [e]
        congr 1; omega
      rw [e2, HuffTree.decodeBits_walk _ _ _ _ _ _ hw]
      simp [HuffTree.decodeBits]

/-- Exactly what the decoder accepts. -/
theorem huffDecode_ok_iff (data s : Bytes) :
    huffmanTree.decode data = .ok s ↔
      ∃ t, bitsOf data = s.flatMap codeBits ++ t ∧ HuffTree.Tail t := by
  rw [HuffTree.decode_eq]
  constructor
  · intro h
    obtain ⟨l, r, hr⟩ := huffmanTree_root
    have := HuffTree.decodeBits_sound huffmanTree ⟨l, r, hr⟩ huffmanTree_check (bitsOf data) l r []
      [] (hr ▸ huffmanTree_check)
    rw [← hr, h] at this
    obtain ⟨s', t, h1, h2, h3⟩ := this
    simp at h1; subst h1
    exact ⟨t, by simpa using h2, h3⟩
  · rintro ⟨t, h, ht⟩
    rw [h, decodeBits_codes, decodeBits_tail _ _ ht]; simp

theorem huffDecode_no_ub (data : Bytes) (u : UB) : huffmanTree.decode data ≠ .ub u := by
  intro h
  rw [HuffTree.decode_eq] at h
  obtain ⟨l, r, hr⟩ := huffmanTree_root
  have := HuffTree.decodeBits_sound huffmanTree ⟨l, r, hr⟩ huffmanTree_check (bitsOf data) l r []
    [] (hr ▸ huffmanTree_check)
  rw [← hr, h] at this
  exact this

theorem flatMap_codeBits (s : Bytes) : s.flatMap codeBits = huffBits s := by
  rw [huffBits, show codeBits = huffCode from funext codeBits_eq]

/-! ### Writer -/

/-- Bits held by a writer. -/
def BitWriter.bits (w : BitWriter) : List Bool :=
  bitsOf w.buffer ++ (bitsOfNat w.currentByte.toNat 8).take w.bitsInCurrent

/-- Fewer than eight pending bits and the unused low bits are clear. -/
def BitWriter.Inv (w : BitWriter) : Prop :=
  w.bitsInCurrent < 8 ∧
    (bitsOfNat w.currentByte.toNat 8).drop w.bitsInCurrent = List.replicate (8 - w.bitsInCurrent) false

theorem setBit_bits : ∀ n : Fin 8, ∀ b : UInt8,
    (bitsOfNat b.toNat 8).drop n.val = List.replicate (8 - n.val) false →
    bitsOfNat (b ||| UInt8.ofNat (1 <<< (7 - n.val))).toNat 8 =
      (bitsOfNat b.toNat 8).take n.val ++ true :: List.replicate (7 - n.val) false := by
  decide +kernel

theorem BitWriter.writeBit_spec (w : BitWriter) (h : w.Inv) (bit : Bool) :
    (w.writeBit bit).Inv ∧ (w.writeBit bit).bits = w.bits ++ [bit] := by
  obtain ⟨hn, hz⟩ := h
  have key : ∀ cur, cur = (if bit then w.currentByte ||| UInt8.ofNat (1 <<< (7 - w.bitsInCurrent))
      else w.currentByte) → bitsOfNat cur.toNat 8 =
        (bitsOfNat w.currentByte.toNat 8).take w.bitsInCurrent ++
          bit :: List.replicate (7 - w.bitsInCurrent) false := by
    intro cur hcur
    cases bit with
    | true =>
      rw [hcur, if_pos rfl]
      exact setBit_bits ⟨w.bitsInCurrent, hn⟩ w.currentByte hz
    | false =>
      rw [hcur, if_neg (by simp)]
      conv => lhs; rw [← List.take_append_drop w.bitsInCurrent (bitsOfNat w.currentByte.toNat 8)]
      rw [hz, show 8 - w.bitsInCurrent = (7 - w.bitsInCurrent) + 1 by omega, List.replicate_succ]
  simp only [BitWriter.writeBit]
  generalize hcur : (if bit then w.currentByte ||| UInt8.ofNat (1 <<< (7 - w.bitsInCurrent))
      else w.currentByte) = cur
  have hk := key cur hcur.symm
  have hlen : ((bitsOfNat w.currentByte.toNat 8).take w.bitsInCurrent).length = w.bitsInCurrent := by
    simp; omega
  by_cases h8 : w.bitsInCurrent + 1 = 8
  · rw [if_pos h8]
    constructor
    · exact ⟨by simp, by simp [bitsOfNat, List.replicate]⟩
    · simp only [BitWriter.bits, bitsOf_append, bitsOf_cons, bitsOf_nil, List.append_nil,
        List.take_zero]
      rw [hk, show 7 - w.bitsInCurrent = 0 by omega]; simp
  · rw [if_neg h8]
    constructor
    · refine ⟨by simp; omega, ?_⟩
      simp only
      rw [hk, List.drop_append, hlen, List.drop_eq_nil_of_le (by omega),
        show w.bitsInCurrent + 1 - w.bitsInCurrent = 1 by omega]
      simp only [List.nil_append, List.drop_succ_cons, List.drop_zero]
      congr 1; omega
    · simp only [BitWriter.bits]
      rw [hk, List.take_append, hlen, List.take_of_length_le (by omega),
        show w.bitsInCurrent + 1 - w.bitsInCurrent = 1 by omega]
      simp

theorem BitWriter.foldl_spec (bs : List Bool) : ∀ (w : BitWriter), w.Inv →
    (bs.foldl BitWriter.writeBit w).Inv ∧ (bs.foldl BitWriter.writeBit w).bits = w.bits ++ bs := by
  induction bs with
  | nil => intro w h; simpa using h
  | cons b bs ih =>
    intro w h
    have h1 := w.writeBit_spec h b
    have h2 := ih _ h1.1
    refine ⟨h2.1, ?_⟩
    simp only [List.foldl_cons]
    rw [h2.2, h1.2]; simp

theorem BitWriter.finalize_spec (w : BitWriter) (h : w.Inv) :
    ∃ pad, bitsOf w.finalize = w.bits ++ pad ∧ (∀ b ∈ pad, b = true) ∧ pad.length < 8 := by
  simp only [BitWriter.finalize]
  split
  · rename_i hpos
    have hs := BitWriter.foldl_spec (List.replicate (8 - w.bitsInCurrent) true) w h
    have hlen := congrArg List.length hs.2
    generalize hw' : (List.replicate (8 - w.bitsInCurrent) true).foldl BitWriter.writeBit w = w' at *
    obtain ⟨hn, hz⟩ := h
    obtain ⟨hn', hz'⟩ := hs.1
    simp only [BitWriter.bits, List.length_append, bitsOf_length, List.length_take,
      bitsOfNat_length, List.length_replicate] at hlen
    have h0 : w'.bitsInCurrent = 0 := by omega
    refine ⟨List.replicate (8 - w.bitsInCurrent) true, ?_, ?_, ?_⟩
    · rw [← hs.2]; simp [BitWriter.bits, h0]
    · intro b hb; exact List.eq_of_mem_replicate hb
    · simp; omega
  · rename_i hpos
    have : w.bitsInCurrent = 0 := by omega
    exact ⟨[], by simp [BitWriter.bits, this], by simp, by simp⟩

theorem BitWriter.inv_empty : (({} : BitWriter)).Inv := by
  refine ⟨by simp, by simp [bitsOfNat, List.replicate]⟩

end Ion
