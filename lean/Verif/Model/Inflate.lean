import Verif.Go.Basic
/-
compress/gzip and compress/flate of Go, as far as bindataRead (internal/config/asset.go:20-38) uses them: a gzip member
(RFC 1952) around DEFLATE blocks (RFC 1951).  The library is not in the sandbox; this is written from the two documents.
-/
namespace JT808

/-- The bits of a stream in the order DEFLATE has them: the lowest bit of a byte first (RFC 1951, 3.1.1). -/
abbrev Bits := List Bool

/-- The bits of the lowest `n` places of a number, the lowest first. -/
def bitsOf : Nat → Nat → Bits
  | 0, _ => []
  | n + 1, x => (x % 2 == 1) :: bitsOf n (x / 2)

/-- The bits of bytes. -/
def bitsOfBytes : List Nat → Bits
  | [] => []
  | b :: bs => bitsOf 8 b ++ bitsOfBytes bs

/-- A number of `n` bits, the lowest first. -/
def takeBits : Nat → Bits → Option (Nat × Bits)
  | 0, bs => some (0, bs)
  | _ + 1, [] => none
  | n + 1, b :: bs =>
    match takeBits n bs with
    | some (x, bs) => some ((if b then 1 else 0) + 2 * x, bs)
    | none => none

/-- A canonical Huffman code (RFC 1951, 3.2.2): how many symbols have codes of 1, 2, ... 15 bits, and the symbols in the
order of their codes. -/
structure Huff where
  counts : List Nat
  symbols : List Nat

/-- The symbols whose code has `l` bits, from symbol `i` on. -/
def symbolsOf (l : Nat) : List Nat → Nat → List Nat
  | [], _ => []
  | x :: xs, i => if x = l then i :: symbolsOf l xs (i + 1) else symbolsOf l xs (i + 1)

/-- The code given by the lengths of the codes of all symbols, 0 for symbols that do not occur. -/
def Huff.of (lens : List Nat) : Huff :=
  let groups := (List.range 15).map fun l => symbolsOf (l + 1) lens 0
  ⟨groups.map (·.length), groups.flatten⟩

/-- One symbol: codes of each length are consecutive numbers, after twice those of the length before (RFC 1951, 3.2.2). -/
def Huff.walk (symbols : List Nat) : List Nat → (code first index : Nat) → Bits → Option (Nat × Bits)
  | [], _, _, _, _ => none
  | _ :: _, _, _, _, [] => none
  | n :: ns, code, first, index, b :: bs =>
    let code := code + (if b then 1 else 0)
    if code < first + n then (symbols[index + (code - first)]?).map fun s => (s, bs)
    else Huff.walk symbols ns (2 * code) (2 * (first + n)) (index + n) bs

def Huff.read (h : Huff) (bs : Bits) : Option (Nat × Bits) := Huff.walk h.symbols h.counts 0 0 0 bs

/-- RFC 1951, 3.2.5: the lengths 257..285 stand for, with the number of bits that are added. -/
def lengthTable : List (Nat × Nat) :=
  [(3, 0), (4, 0), (5, 0), (6, 0), (7, 0), (8, 0), (9, 0), (10, 0), (11, 1), (13, 1), (15, 1), (17, 1), (19, 2), (23, 2),
   (27, 2), (31, 2), (35, 3), (43, 3), (51, 3), (59, 3), (67, 4), (83, 4), (99, 4), (115, 4), (131, 5), (163, 5), (195, 5),
   (227, 5), (258, 0)]

/-- RFC 1951, 3.2.5: distances. -/
def distTable : List (Nat × Nat) :=
  [(1, 0), (2, 0), (3, 0), (4, 0), (5, 1), (7, 1), (9, 2), (13, 2), (17, 3), (25, 3), (33, 4), (49, 4), (65, 5), (97, 5),
   (129, 6), (193, 6), (257, 7), (385, 7), (513, 8), (769, 8), (1025, 9), (1537, 9), (2049, 10), (3073, 10), (4097, 11),
   (6145, 11), (8193, 12), (12289, 12), (16385, 13), (24577, 13)]

/-- A number of a table with the bits added. -/
def tableRead (t : List (Nat × Nat)) (i : Nat) (bs : Bits) : Option (Nat × Bits) :=
  match t[i]? with
  | none => none
  | some (base, extra) => (takeBits extra bs).map fun (x, bs) => (base + x, bs)

/-- `n` bytes copied from `d` bytes back; the output so far is in reverse. -/
def copyBack : Nat → Nat → List Nat → Option (List Nat)
  | 0, _, out => some out
  | n + 1, d, out =>
    match out[d - 1]? with
    | some b => if d = 0 then none else copyBack n d (b :: out)
    | none => none

/-- The symbols of a compressed block up to its end, RFC 1951, 3.2.3.  `fuel` bounds their number. -/
def inflateCodes (lit dist : Huff) : Nat → Bits → List Nat → Option (Bits × List Nat)
  | 0, _, _ => none
  | fuel + 1, bs, out =>
    match lit.read bs with
    | none => none
    | some (s, bs) =>
      if s < 256 then inflateCodes lit dist fuel bs (s :: out)
      else if s = 256 then some (bs, out)
      else
        match tableRead lengthTable (s - 257) bs with
        | none => none
        | some (len, bs) =>
          match dist.read bs with
          | none => none
          | some (ds, bs) =>
            match tableRead distTable ds bs with
            | none => none
            | some (d, bs) =>
              match copyBack len d out with
              | none => none
              | some out => inflateCodes lit dist fuel bs out

/-- RFC 1951, 3.2.7: the order in which the lengths of the code of lengths come. -/
def lengthOrder : List Nat := [16, 17, 18, 0, 8, 7, 9, 6, 10, 5, 11, 4, 12, 3, 13, 2, 14, 1, 15]

/-- `n` lengths of three bits. -/
def readThrees : Nat → Bits → Option (List Nat × Bits)
  | 0, bs => some ([], bs)
  | n + 1, bs =>
    match takeBits 3 bs with
    | none => none
    | some (x, bs) => (readThrees n bs).map fun (xs, bs) => (x :: xs, bs)

/-- The lengths of the literal and distance codes, run-length coded (RFC 1951, 3.2.7); `acc` in reverse, `need` to come. -/
def readLengths (h : Huff) : Nat → Nat → Bits → List Nat → Option (List Nat × Bits)
  | _, 0, bs, acc => some (acc.reverse, bs)
  | 0, _ + 1, _, _ => none
  | fuel + 1, need + 1, bs, acc =>
    match h.read bs with
    | none => none
    | some (s, bs) =>
      if s < 16 then readLengths h fuel need bs (s :: acc)
      else
        match (if s = 16 then
            (match acc with
              | [] => none
              | p :: _ => (takeBits 2 bs).map fun (x, bs) => (p, x + 3, bs))
          else if s = 17 then (takeBits 3 bs).map fun (x, bs) => (0, x + 3, bs)
          else (takeBits 7 bs).map fun (x, bs) => (0, x + 11, bs) : Option (Nat × Nat × Bits)) with
        | none => none
        | some (v, n, bs) =>
          if n ≤ need + 1 then readLengths h fuel (need + 1 - n) bs (List.replicate n v ++ acc) else none

/-- RFC 1951, 3.2.6: the fixed codes. -/
def fixedLit : Huff :=
  Huff.of (List.replicate 144 8 ++ List.replicate 112 9 ++ List.replicate 24 7 ++ List.replicate 8 8)
def fixedDist : Huff := Huff.of (List.replicate 30 5)

/-- The header of a block with codes of its own, RFC 1951, 3.2.7. -/
def readDynamic (bs : Bits) : Option (Huff × Huff × Bits) :=
  match takeBits 5 bs with
  | none => none
  | some (hlit, bs) =>
  match takeBits 5 bs with
  | none => none
  | some (hdist, bs) =>
  match takeBits 4 bs with
  | none => none
  | some (hclen, bs) =>
  match readThrees (hclen + 4) bs with
  | none => none
  | some (xs, bs) =>
    let lens := (List.range 19).map fun s => ((lengthOrder.zip xs).lookup s).getD 0
    match readLengths (Huff.of lens) 320 (hlit + 257 + (hdist + 1)) bs [] with
    | none => none
    | some (ls, bs) => some (Huff.of (ls.take (hlit + 257)), Huff.of (ls.drop (hlit + 257)), bs)

/-- `n` bytes as they are. -/
def copyStored : Nat → Bits → List Nat → Option (Bits × List Nat)
  | 0, bs, out => some (bs, out)
  | n + 1, bs, out =>
    match takeBits 8 bs with
    | none => none
    | some (x, bs) => copyStored n bs (x :: out)

/-- The blocks up to the last one, RFC 1951, 3.2.3.  The bits of the stream must be a multiple of eight, so that a stored
block begins where the number of bits left is one. -/
def inflateBlocks : Nat → Bits → List Nat → Option (List Nat × Bits)
  | 0, _, _ => none
  | fuel + 1, bs, out =>
    match takeBits 1 bs with
    | none => none
    | some (last, bs) =>
    match takeBits 2 bs with
    | none => none
    | some (kind, bs) =>
      let block : Option (Bits × List Nat) :=
        if kind = 0 then
          match takeBits 16 (bs.drop (bs.length % 8)) with
          | none => none
          | some (len, bs) =>
            match takeBits 16 bs with
            | none => none
            | some (nlen, bs) => if len + nlen = 65535 then copyStored len bs out else none
        else if kind = 1 then inflateCodes fixedLit fixedDist bs.length bs out
        else if kind = 2 then
          match readDynamic bs with
          | none => none
          | some (lit, dist, bs) => inflateCodes lit dist bs.length bs out
        else none
      match block with
      | none => none
      | some (bs, out) => if last = 1 then some (out.reverse, bs) else inflateBlocks fuel bs out

/-- RFC 1952, 8: the CRC-32 of bytes, one bit at a time. -/
def crcBits : Nat → Nat → Nat
  | 0, c => c
  | n + 1, c => crcBits n (if c % 2 = 1 then Nat.xor 0xEDB88320 (c / 2) else c / 2)

def crcStep (c b : Nat) : Nat := crcBits 8 (Nat.xor c b)

def crc32 (bytes : List Nat) : Nat := Nat.xor (bytes.foldl crcStep 0xFFFFFFFF) 0xFFFFFFFF

/-- A gzip member that is the whole of the data, RFC 1952, 2.3.  Simplifications: no optional fields in the header
(FLG = 0, as in all the data here), no second member; anything else is an error. -/
def gunzip (data : List Nat) : Option (List Nat) :=
  match data with
  | 0x1f :: 0x8b :: 8 :: 0 :: _ :: _ :: _ :: _ :: _ :: _ :: body =>
    match inflateBlocks body.length (bitsOfBytes body) [] with
    | none => none
    | some (out, bs) =>
      match takeBits 32 (bs.drop (bs.length % 8)) with
      | none => none
      | some (crc, bs) =>
        match takeBits 32 bs with
        | none => none
        | some (size, bs) => if bs.isEmpty && crc == crc32 out && size == out.length % 2 ^ 32 then some out else none
  | _ => none

/-- `io.Copy` from a gzip.Reader, asset.go:20-38. -/
def bindataRead (data : List UInt8) : Option (List UInt8) := (gunzip (data.map (·.toNat))).map fun l => l.map UInt8.ofNat

end JT808
