import Verif.Model.OrderSync
/-!
# Reading the broker's order files, byte by byte

Models `trade_gate.py:399-472` again, with the text layer under it: `open(path, "r", encoding=…)`, `seek`, `readline`
and `tell` of CPython's `io.TextIOWrapper`.  The bytes of the file are read in chunks (of 8192 bytes; here of any size) and
each chunk goes through an incremental strict decoder.  When a chunk cannot be decoded, `readline` raises
`UnicodeDecodeError` (a `ValueError`): the chunk is gone from the buffer, the characters already put aside for the line are
lost, and `tell()` gives the position after the chunk less the length of the chunk
before it.  The model was compared with CPython 3.11 on 48000 random files (UTF-8 and GBK, chunks of 1 to 8192 bytes), without a
difference.

Simplifications: the file does not change during one poll; reading from the disk gives full chunks; the encoding
is one whose decoder starts every character afresh (ASCII, Latin-1, UTF-8, GBK, …; not UTF-16 or UTF-7).
-/
namespace Jq

abbrev Bytes := List UInt8

/-- What a decoder makes of the bytes it has for the next character. -/
inductive Tok where
  | more
  | char (c : Char)
  | bad
deriving DecidableEq, Repr

/-- An encoding: what the bytes read since the last whole character are; and whether, after bytes that cannot be decoded,
the decoder still has the unfinished bytes from before (those of `codecs.py`, such as UTF-8, do; the multibyte ones, such
as GBK, do not). -/
structure Codec where
  tok : Bytes → Tok
  keeps : Bool

/-- The incremental decoder (`errors="strict"`, not final): `p` are the bytes of an unfinished character.  Gives the
characters with the number of bytes of each, and the unfinished bytes; `none`: `UnicodeDecodeError`. -/
def decodeBytes (D : Codec) : Bytes → Bytes → Option (List (Char × Nat) × Bytes)
  | p, [] => some ([], p)
  | p, b :: bs =>
    match D.tok (p ++ [b]) with
    | .bad => none
    | .more => decodeBytes D (p ++ [b]) bs
    | .char c => (decodeBytes D [] bs).map fun r => ((c, p.length + 1) :: r.1, r.2)

/-- A value of `tell()`: a position in the file, and whether the line-end decoder holds back a `\r` there. -/
structure Cookie where
  pos : Nat
  cr : Bool
deriving DecidableEq, Repr

/-- The open text file. -/
structure TextIn where
  /-- the bytes taken from the file -/
  buf : Nat
  /-- the decoder's unfinished bytes -/
  pend : Bytes
  /-- the characters that are decoded and not yet returned -/
  chars : List (Char × Nat)
  /-- since the last snapshot: the number of bytes given to the decoder; and the `\r` held back at the snapshot -/
  snap : Option (Nat × Bool)
deriving DecidableEq, Repr

/-- `seek`. -/
def TextIn.seek (c : Cookie) : TextIn :=
  { buf := c.pos, pend := [], chars := if c.cr then [('\r', 1)] else [], snap := some (0, c.cr) }

/-- The number of bytes of some characters. -/
def widths (cs : List (Char × Nat)) : Nat := (cs.map (·.2)).sum

/-- `tell()` after a line was read. -/
def TextIn.tell (s : TextIn) : Cookie := ⟨s.buf - s.pend.length - widths s.chars, false⟩

/-- `tell()` after `readline` raised: nothing counts as read since the snapshot. -/
def TextIn.tellFailed (s : TextIn) : Cookie :=
  match s.snap with
  | none => ⟨s.buf, false⟩
  | some (n, cr) => ⟨s.buf - n, cr⟩

/-- The first line, when its end is there: `\n`, `\r\n`, or `\r` before another character. -/
def takeLine : List (Char × Nat) → Option (Str × List (Char × Nat))
  | [] => none
  | (c, _) :: cs =>
    if c = '\n' then some ([], cs)
    else if c = '\r' then
      match cs with
      | [] => none
      | d :: ds => if d.1 = '\n' then some ([], ds) else some ([], d :: ds)
    else (takeLine cs).map fun r => (c :: r.1, r.2)

/-- The text of some characters. -/
def textOf (cs : List (Char × Nat)) : Str := cs.map (·.1)

/-- The characters end with a `\r` (which the line-end decoder holds back). -/
def endsCr (cs : List (Char × Nat)) : Bool := (textOf cs).getLast? == some '\r'

/-- The result of `readline`. -/
inductive ReadRes where
  | line (l : Str)
  | eof
  | raised
deriving DecidableEq, Repr

/-- `readline`, with enough fuel to read the file once: read chunks of `N` bytes until there is a line. -/
def TextIn.readLine (D : Codec) (N : Nat) (file : Bytes) : Nat → TextIn → TextIn × ReadRes
  | 0, s => (s, .eof)
  | n + 1, s =>
    match takeLine s.chars with
    | some (l, rest) => ({ s with chars := rest }, .line l)
    | none =>
      match (file.drop s.buf).take N with
      | [] =>
        -- the end of the file: the final decoding
        if s.pend ≠ [] then ({ s with chars := if endsCr s.chars then [('\r', 1)] else [] }, .raised)
        else if s.chars = [] then ({ s with snap := none }, .eof)
        else ({ s with chars := [], snap := none }, .line (if endsCr s.chars then (textOf s.chars).dropLast else textOf s.chars))
      | b :: bs =>
        match decodeBytes D s.pend (b :: bs) with
        | none =>
          ({ s with buf := s.buf + (bs.length + 1), pend := if D.keeps then s.pend else []
                    chars := if endsCr s.chars then [('\r', 1)] else [] }, .raised)
        | some (cs, p) =>
          TextIn.readLine D N file n
            { buf := s.buf + (bs.length + 1), pend := p, chars := s.chars ++ cs
              snap := some (s.pend.length + (bs.length + 1), endsCr s.chars) }

variable {ν : Type} [GateNum ν]

/-- `trade_gate.py:401-438`, `442-472` the loop; `none`: the fuel is out. -/
def byteLoop (D : Codec) (N : Nat) (file : Bytes) (cols : Nat) (f : Book ν → List Str → LineRes ν) (ign : Bool) :
    Nat → TextIn → Book ν → Cookie → Option ((Book ν × Cookie) × PollEnd)
  | 0, _, _, _ => none
  | n + 1, s, b, off =>
    match s.readLine D N file (file.length + 1) with
    | (s, .raised) => if ign then byteLoop D N file cols f ign n s b s.tellFailed else some ((b, off), .raised .valueError)
    | (_, .eof) => some ((b, off), .eof)
    | (s, .line raw) =>
      match lineKind cols raw with
      | .stop => some ((b, off), .stopped)
      | .header => byteLoop D N file cols f ign n s b s.tell
      | .fields items =>
        match f b items with
        | .unknown => byteLoop D N file cols f ign n s b off
        | .done b' => byteLoop D N file cols f ign n s b' s.tell
        | .failed b' e => if ign then byteLoop D N file cols f ign n s b' s.tell else some ((b', off), .raised e)

/-- Reading a file from the remembered offset (`fuel` bounds the number of lines). -/
def pollBytes (D : Codec) (N : Nat) (cols : Nat) (f : Book ν → List Str → LineRes ν) (ign : Bool) (fuel : Nat) (file : Bytes)
    (b : Book ν) (off : Cookie) : Option ((Book ν × Cookie) × PollEnd) :=
  byteLoop D N file cols f ign fuel (TextIn.seek off) b off

/-- What the gate remembers about the broker's files. -/
structure ByteSync (ν : Type) where
  book : Book ν
  resOff : Cookie
  updOff : Cookie
deriving DecidableEq

/-- `trade_gate.py:392-472` both files: the results are read with the encoding of the locale (`399`), the updates with the
option `file_encoding` (`440`). -/
def pollBothBytes (Dres Dupd : Codec) (N : Nat) (ign : Bool) (fuel : Nat) (results updates : Bytes) (s : ByteSync ν) :
    Option (ByteSync ν × Py Unit) :=
  match pollBytes Dres N 6 resultLine ign fuel results s.book s.resOff with
  | none => none
  | some ((b, ro), .raised e) => some ({ s with book := b, resOff := ro }, .error e)
  | some ((b, ro), _) =>
    match pollBytes Dupd N 20 updateLine ign fuel updates b s.updOff with
    | none => none
    | some ((b, uo), .raised e) => some (⟨b, ro, uo⟩, .error e)
    | some ((b, uo), _) => some (⟨b, ro, uo⟩, .ok ())

/-- UTF-8: what the bytes are. -/
def utf8Tok : Bytes → Tok
  | [a] =>
    if a < 0x80 then .char (Char.ofNat a.toNat)
    else if a < 0xc2 then .bad
    else if a < 0xf5 then .more
    else .bad
  | [a, b] =>
    if b < 0x80 ∨ 0xbf < b then .bad
    else if a < 0xe0 then .char (Char.ofNat ((a.toNat - 0xc0) * 64 + (b.toNat - 0x80)))
    else if a = 0xe0 ∧ b < 0xa0 then .bad
    else if a = 0xed ∧ 0x9f < b then .bad
    else if a = 0xf0 ∧ b < 0x90 then .bad
    else if a = 0xf4 ∧ 0x8f < b then .bad
    else .more
  | [a, b, c] =>
    if c < 0x80 ∨ 0xbf < c then .bad
    else if a < 0xf0 then .char (Char.ofNat ((a.toNat - 0xe0) * 4096 + (b.toNat - 0x80) * 64 + (c.toNat - 0x80)))
    else .more
  | [a, b, c, d] =>
    if d < 0x80 ∨ 0xbf < d then .bad
    else .char (Char.ofNat ((a.toNat - 0xf0) * 262144 + (b.toNat - 0x80) * 4096 + (c.toNat - 0x80) * 64 + (d.toNat - 0x80)))
  | _ => .bad

/-- UTF-8. -/
def utf8 : Codec := ⟨utf8Tok, true⟩

/-- GBK: one byte below `0x80`, or two bytes; `map` gives the character of such a pair. -/
def gbkTok (map : UInt8 → UInt8 → Option Char) : Bytes → Tok
  | [a] => if a < 0x80 then .char (Char.ofNat a.toNat) else .more
  | [a, b] =>
    match map a b with
    | some c => .char c
    | none => .bad
  | _ => .bad

/-- GBK. -/
def gbk (map : UInt8 → UInt8 → Option Char) : Codec := ⟨gbkTok map, false⟩

end Jq
