/-!
# Index ranges and values

server/server_service_set.go:2638-3470 (readRange, writeRange, parseBounds), 4714-4778 (validateIndexRange).

Simplifications: a text is the list of its characters, as `[]rune(s)` gives it, so that every string is valid
UTF-8; a value of a type without structure of interest, and an element of such a type, is a number; a
DataValue is its value, the time stamps are left out.
-/

namespace Opcua.Range

abbrev Text := List Char

inductive Status where
  | good | badIndexRangeInvalid | badIndexRangeNoData
  deriving DecidableEq, Repr

/-! ## strconv.ParseInt(s, 10, 32) -/

/-- The digit of a character, strconv/atoi.go:100-101. -/
def digit (c : Char) : Option Nat :=
  if '0'.toNat ≤ c.toNat ∧ c.toNat ≤ '9'.toNat then some (c.toNat - '0'.toNat) else none

/-- The loop of ParseUint with base 10, strconv/atoi.go:96-139: `none` for a character that is not a digit. -/
def digitsLoop : Text → Nat → Option Nat
  | [], n => some n
  | c :: cs, n =>
    match digit c with
    | none => none
    | some d => digitsLoop cs (n * 10 + d)

/-- ParseUint(s, 10, ..), an empty text is an error. -/
def parseUint (s : Text) : Option Nat := if s.isEmpty then none else digitsLoop s 0

/-- ParseInt(s, 10, 32), strconv/atoi.go:166-210: a sign, digits, and the bounds of 32 bits. -/
def parseInt (s : Text) : Option Int :=
  match s with
  | [] => none
  | c :: cs =>
    let neg := c == '-'
    let rest := if c == '+' || c == '-' then cs else s
    match parseUint rest with
    | none => none
    | some n =>
      if !neg && decide (n ≥ 2147483648) then none
      else if neg && decide (n > 2147483648) then none
      else some (if neg then -(n : Int) else (n : Int))

/-- strings.Index(s, ":") and the two sides. -/
def cutColon : Text → Option (Text × Text)
  | [] => none
  | c :: cs =>
    if c == ':' then some ([], cs)
    else
      match cutColon cs with
      | none => none
      | some (a, b) => some (c :: a, b)

/-- strings.Split(s, ","). -/
def splitComma : Text → List Text
  | [] => [[]]
  | c :: cs =>
    if c == ',' then [] :: splitComma cs
    else
      match splitComma cs with
      | [] => [[c]]
      | t :: ts => (c :: t) :: ts

/-- The bounds of a range, not yet clipped: the middle of parseBounds, server_service_set.go:3430-3454. -/
def parseLoHi (s : Text) : Option (Int × Int) :=
  match cutColon s with
  | some (a, b) =>
    match parseInt a with
    | none => none
    | some lo =>
      match parseInt b with
      | none => none
      | some hi => if hi < 0 then none else if lo ≥ hi then none else if lo < 0 then none else some (lo, hi)
  | none =>
    match parseInt s with
    | none => none
    | some lo => if lo < 0 then none else some (lo, -1)

/-- parseBounds, server_service_set.go:3416-3470. -/
def parseBounds (s : Text) (len : Nat) : Except Status (Nat × Nat) :=
  if len = 0 then .error .badIndexRangeNoData
  else if s.isEmpty then .ok (0, len)
  else
    match parseLoHi s with
    | none => .error .badIndexRangeInvalid
    | some (lo, hi) =>
      if lo ≥ len then .error .badIndexRangeNoData
      else
        let hi := if hi ≥ len then (len : Int) - 1 else hi
        let hi := if hi = -1 then lo else hi
        .ok (lo.toNat, (hi + 1).toNat)

/-! ## Values -/

abbrev typeByte : Nat := 3
abbrev typeString : Nat := 12
abbrev typeByteString : Nat := 15
abbrev typeExtensionObject : Nat := 22
abbrev typeDataValue : Nat := 23
abbrev typeVariant : Nat := 24

/-- A Variant, by the Go type that the switches tell apart. -/
inductive Val where
  | null
  /-- A scalar of any other built-in type. -/
  | scalar (type : Nat) (x : Nat)
  | text (s : Text)
  | bytes (b : List Nat)
  /-- A struct: an extension object, or a DataValue. -/
  | struct (type : Nat) (x : Nat)
  /-- A slice of any other built-in type. -/
  | array (type : Nat) (xs : List Nat)
  | texts (xs : List Text)
  | byteStrings (xs : List (List Nat))
  /-- A slice of slices. -/
  | matrix (type : Nat) (rows : List (List Nat))
  deriving DecidableEq, Repr

/-- `src[i:j]`. -/
def slice {α : Type} (xs : List α) (i j : Nat) : List α := (xs.drop i).take (j - i)

/-- `copy(dst[i:j], v2)` of a copy of `src`, when `v2` has `j - i` elements. -/
def patch {α : Type} (xs : List α) (i j : Nat) (ys : List α) : List α := xs.take i ++ ys ++ xs.drop j

/-- One range of a slice, e.g. server_service_set.go:2671-2681. -/
def readSlice {α : Type} (xs : List α) (r : Text) : Except Status (List α) :=
  match parseBounds r xs.length with
  | .error st => .error st
  | .ok (i, j) => .ok (slice xs i j)

/-- The loop over the selected strings, server_service_set.go:2811-2821. -/
def readInner {α : Type} (r : Text) : List (List α) → Except Status (List (List α))
  | [] => .ok []
  | x :: xs =>
    match readSlice x r with
    | .error st => .error st
    | .ok y =>
      match readInner r xs with
      | .error st => .error st
      | .ok ys => .ok (y :: ys)

/-- A slice of strings, with an optional range of characters, server_service_set.go:2800-2823. -/
def readNested {α : Type} (xs : List (List α)) (ranges : List Text) : Except Status (List (List α)) :=
  match ranges with
  | [r] => readSlice xs r
  | [r, r'] =>
    match readSlice xs r with
    | .error st => .error st
    | .ok ys => readInner r' ys
  | _ => .error .badIndexRangeNoData

/-- A slice that has one dimension. -/
def readFlat {α : Type} (xs : List α) (ranges : List Text) : Except Status (List α) :=
  match ranges with
  | [r] => readSlice xs r
  | _ => .error .badIndexRangeNoData

/-- readRange, server_service_set.go:2638-2969. -/
def readRange (v : Val) (range : Text) : Except Status Val :=
  if range.isEmpty then .ok v
  else
    match v with
    | .text s => (readFlat s (splitComma range)).map .text
    | .bytes b => (readFlat b (splitComma range)).map .bytes
    | .array t xs => (readFlat xs (splitComma range)).map (.array t)
    | .texts xs => (readNested xs (splitComma range)).map .texts
    | .byteStrings xs => (readNested xs (splitComma range)).map .byteStrings
    | _ => .error .badIndexRangeNoData

/-- What a write leads to. -/
inductive Outcome (α : Type) where
  | ok (v : α)
  | bad (st : Status)
  /-- A failed type assertion: nothing recovers, the server ends. -/
  | panic
  deriving DecidableEq, Repr

/-- One range of a slice, e.g. server_service_set.go:3014-3029; `new` is the value if it passes the type
assertion. -/
def writeSlice {α : Type} (xs : List α) (r : Text) (new : Option (List α)) : Outcome (List α) :=
  match parseBounds r xs.length with
  | .error st => .bad st
  | .ok (i, j) =>
    match new with
    | none => .panic
    | some ys => if j - i ≠ ys.length then .bad .badIndexRangeNoData else .ok (patch xs i j ys)

def Outcome.map {α β : Type} (f : α → β) : Outcome α → Outcome β
  | .ok v => .ok (f v)
  | .bad st => .bad st
  | .panic => .panic

def asText : Val → Option Text
  | .text s => some s
  | _ => none
def asBytes : Val → Option (List Nat)
  | .bytes b => some b
  | _ => none
def asArray (t : Nat) : Val → Option (List Nat)
  | .array t' xs => if t' = t then some xs else none
  | _ => none
def asTexts : Val → Option (List Text)
  | .texts xs => some xs
  | _ => none
def asByteStrings : Val → Option (List (List Nat))
  | .byteStrings xs => some xs
  | _ => none

/-- A slice with one dimension. -/
def writeFlat {α : Type} (xs : List α) (ranges : List Text) (new : Option (List α)) : Outcome (List α) :=
  match ranges with
  | [r] => writeSlice xs r new
  | _ => .bad .badIndexRangeNoData

/-- A slice of strings: a second range is accepted and ignored, server_service_set.go:3188-3204. -/
def writeNested {α : Type} (xs : List α) (ranges : List Text) (new : Option (List α)) : Outcome (List α) :=
  match ranges with
  | [r] => writeSlice xs r new
  | [r, _] => writeSlice xs r new
  | _ => .bad .badIndexRangeNoData

/-- writeRange, server_service_set.go:2972-3414. -/
def writeRange (src new : Val) (range : Text) : Outcome Val :=
  if range.isEmpty then .ok new
  else
    match src with
    | .text s => (writeFlat s (splitComma range) (asText new)).map .text
    | .bytes b => (writeFlat b (splitComma range) (asBytes new)).map .bytes
    | .array t xs => (writeFlat xs (splitComma range) (asArray t new)).map (.array t)
    | .texts xs => (writeNested xs (splitComma range) (asTexts new)).map .texts
    | .byteStrings xs => (writeNested xs (splitComma range) (asByteStrings new)).map .byteStrings
    | _ => .bad .badIndexRangeNoData

/-! ## validateIndexRange -/

abbrev rankScalar : Int := -1
abbrev rankAny : Int := -2
abbrev rankScalarOrOne : Int := -3
abbrev rankOneOrMore : Int := 0
abbrev rankOne : Int := 1

/-- validateIndexRange, server_service_set.go:4714-4778. -/
def validateIndexRange (s : Text) (destType : Nat) (rank : Int) : Status :=
  if s.isEmpty then .good
  else
    let ranges := splitComma s
    if ranges.any (fun r => (parseLoHi r).isNone) then .badIndexRangeInvalid
    else
      let textual := decide (destType = typeString) || decide (destType = typeByteString)
      let n : Int := ranges.length
      if rank = rankScalarOrOne then
        if n - 1 = 0 ∨ (n - 1 = 1 ∧ textual = true) then .good else .badIndexRangeNoData
      else if rank = rankAny then .good
      else if rank = rankScalar then
        if n = 1 ∧ textual = true then .good else .badIndexRangeNoData
      else if rank = rankOneOrMore then .good
      else
        if n - rank = 0 ∨ (n - rank = 1 ∧ textual = true) then .good else .badIndexRangeNoData

end Opcua.Range
