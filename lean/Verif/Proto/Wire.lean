import Verif.Wire.Base64

/-!
# Protobuf

The transactions that the daemon sends and the answers of the node are protobuf messages, written and read by the crate
`prost` (not part of `/repo`, transcribed here).  Groups, an obsolete feature, are refused when they are read; the limit on
nesting, which nothing here comes near, is left out.
-/

namespace Amp.Proto

open Amp.Wire (decodeUtf8)

/-- a number in groups of seven bits, the lowest first, in at most `k + 1` bytes -/
def groups : Nat → Nat → ByteList
  | 0, n => [n]
  | k + 1, n => if n < 128 then [n] else (n % 128 + 128) :: groups k (n / 128)

/-- `prost::encoding::encode_varint`: a `u64` takes at most ten bytes -/
def varint (n : Nat) : ByteList := groups 9 n

/-- the same, read, in at most `k` bytes; also what follows -/
def readGroups : Nat → ByteList → Option (Nat × ByteList)
  | 0, _ => none
  | _ + 1, [] => none
  | k + 1, b :: t =>
    if b < 128 then some (b, t)
    else
      match readGroups k t with
      | some (n, r) => some (b - 128 + 128 * n, r)
      | none => none

/-- `prost::encoding::decode_varint`: at most ten bytes, up to `u64::MAX` -/
def readVarint (b : ByteList) : Option (Nat × ByteList) :=
  match readGroups 10 b with
  | some (n, r) => if n ≤ u64Max then some (n, r) else none
  | none => none

/-- the content of a field -/
inductive Field
  | varint (n : Nat)
  | fixed64 (b : ByteList)
  | bytes (b : ByteList)
  | fixed32 (b : ByteList)
  deriving DecidableEq

/-- a field with its tag, as it is written: key, then content -/
def writeField : Nat × Field → ByteList
  | (tag, .varint n) => varint (tag * 8) ++ varint n
  | (tag, .fixed64 b) => varint (tag * 8 + 1) ++ b
  | (tag, .bytes b) => varint (tag * 8 + 2) ++ varint b.length ++ b
  | (tag, .fixed32 b) => varint (tag * 8 + 5) ++ b

/-- the first `n` bytes and the others -/
def takeBytes (n : Nat) (b : ByteList) : Option (ByteList × ByteList) := if n ≤ b.length then some (b.take n, b.drop n) else none

/-- a field, read (`prost::encoding::decode_key`): the key is at most `u32::MAX` and the tag not zero -/
def readField (b : ByteList) : Option ((Nat × Field) × ByteList) :=
  match readVarint b with
  | none => none
  | some (key, r) =>
    if key > 4294967295 ∨ key / 8 = 0 then none
    else
      match key % 8 with
      | 0 => (readVarint r).map (fun p => ((key / 8, .varint p.1), p.2))
      | 1 => (takeBytes 8 r).map (fun p => ((key / 8, .fixed64 p.1), p.2))
      | 2 =>
        match readVarint r with
        | none => none
        | some (n, r) => (takeBytes n r).map (fun p => ((key / 8, .bytes p.1), p.2))
      | 5 => (takeBytes 4 r).map (fun p => ((key / 8, .fixed32 p.1), p.2))
      | _ => none

/-- `Message::encode`: one field after the other -/
def write (l : List (Nat × Field)) : ByteList := l.flatMap writeField

/-- up to `k` fields -/
def readFields : Nat → ByteList → Option (List (Nat × Field))
  | _, [] => some []
  | 0, _ :: _ => none
  | k + 1, b :: t =>
    match readField (b :: t) with
    | none => none
    | some (f, r) => (readFields k r).map (fun l => f :: l)

/-- the fields of a message, in order; every field takes at least one byte -/
def fields (b : ByteList) : Option (List (Nat × Field)) := readFields b.length b

/-! ### Fields that messages have -/

/-- a text; the empty one is not written -/
def str (tag : Nat) (s : Str) : List (Nat × Field) := if s = [] then [] else [(tag, .bytes (utf8Bytes s))]

/-- bytes; none are not written -/
def raw (tag : Nat) (b : ByteList) : List (Nat × Field) := if b = [] then [] else [(tag, .bytes b)]

/-- a number; zero is not written -/
def num (tag : Nat) (n : Nat) : List (Nat × Field) := if n = 0 then [] else [(tag, .varint n)]

/-- a repeated field -/
def many (tag : Nat) (l : List ByteList) : List (Nat × Field) := l.map (fun b => (tag, .bytes b))

/-- the contents of all fields with a tag -/
def allWith (tag : Nat) (fs : List (Nat × Field)) : List Field := (fs.filter (fun f => f.1 = tag)).map Prod.snd

/-- all contents are bytes -/
def asBytes : List Field → Option (List ByteList)
  | [] => some []
  | .bytes b :: t => (asBytes t).map (fun l => b :: l)
  | _ :: _ => none

/-- all contents are numbers -/
def asNums : List Field → Option (List Nat)
  | [] => some []
  | .varint n :: t => (asNums t).map (fun l => n :: l)
  | _ :: _ => none

/-- a repeated field, read: a content of another kind is an error -/
def getMany (tag : Nat) (fs : List (Nat × Field)) : Option (List ByteList) := asBytes (allWith tag fs)

/-- bytes, read: the last occurrence counts -/
def getRaw (tag : Nat) (fs : List (Nat × Field)) : Option ByteList := (getMany tag fs).map (fun l => l.getLast?.getD [])

/-- every element is a text -/
def allTexts : List ByteList → Option (List Str)
  | [] => some []
  | b :: t =>
    match decodeUtf8 b, allTexts t with
    | some s, some l => some (s :: l)
    | _, _ => none

/-- a text, read: every occurrence is UTF-8, the last counts -/
def getStr (tag : Nat) (fs : List (Nat × Field)) : Option Str :=
  ((getMany tag fs).bind allTexts).map (fun l => l.getLast?.getD [])

/-- a number, read: the last occurrence counts -/
def getNum (tag : Nat) (fs : List (Nat × Field)) : Option Nat :=
  (asNums (allWith tag fs)).map (fun l => l.getLast?.getD 0)

/-- the fields of messages, one after the other -/
def fieldsOf : List ByteList → Option (List (Nat × Field))
  | [] => some []
  | b :: t =>
    match fields b, fieldsOf t with
    | some fs, some l => some (fs ++ l)
    | _, _ => none

/-- an embedded message, read: several occurrences are merged -/
def getMsg (tag : Nat) (fs : List (Nat × Field)) : Option (Option (List (Nat × Field))) :=
  match getMany tag fs with
  | none => none
  | some [] => some none
  | some l => (fieldsOf l).map some

end Amp.Proto
