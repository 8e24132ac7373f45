import Verif.Go.Basic
/-
Model of `encoding/binary.Write(w, BigEndian, p)` and `encoding/binary.Read(r, BigEndian, p)` for a
pointer `p` to a struct of fixed size, as used by packet/header.go:104-119.  The Go implementation
walks the struct fields by reflection; the model interprets the list of fields of the struct.
Embedded structs (Header) are written in line, so they contribute their own fields.
-/
namespace Verif

/-- Field kinds that occur in the packet structs. -/
inductive Field
  | u8                 -- a type with underlying type uint8
  | u16                -- a type with underlying type uint16
  | arr (n : Nat)      -- [n]T with T a type with underlying type uint8
  | blank (n : Nat)    -- `_ [n]byte`, or `_ byte` for n = 1
  deriving DecidableEq, Repr

/-- The values a field can hold. Blank fields cannot be accessed by Go code. -/
@[reducible] def Field.ty : Field → Type
  | .u8 => UInt8
  | .u16 => UInt16
  | .arr n => Arr n
  | .blank _ => Unit

/-- Encoded size of a field (`binary.Size`). -/
def Field.size : Field → Nat
  | .u8 => 1
  | .u16 => 2
  | .arr n => n
  | .blank n => n

/-- Values of all fields of a struct. -/
@[reducible] def Vals : List Field → Type
  | [] => Unit
  | f :: fs => f.ty × Vals fs

/-- `binary.Size` of a struct. -/
def sizeOf' (fs : List Field) : Nat := (fs.map Field.size).sum

/-- big-endian uint16 → two bytes (`binary.BigEndian.PutUint16`). -/
def putBE16 (x : UInt16) : Bytes := [(x >>> 8).toUInt8, x.toUInt8]

/-- two bytes → big-endian uint16 (`binary.BigEndian.Uint16`): `uint16(b[1]) | uint16(b[0])<<8`. -/
def getBE16 (b0 b1 : UInt8) : UInt16 := b1.toUInt16 ||| (b0.toUInt16 <<< 8)

/-- Encode one field. Blank fields are written as zeros (documented behaviour of `binary.Write`). -/
def encField : (f : Field) → f.ty → Bytes
  | .u8, (x : UInt8) => [x]
  | .u16, (x : UInt16) => putBE16 x
  | .arr _, (x : Arr _) => x.val
  | .blank n, _ => List.replicate n 0

/-- Encode a struct: its fields in declaration order, without gaps. -/
def encVals : (fs : List Field) → Vals fs → Bytes
  | [], _ => []
  | f :: fs, (v, vs) => encField f v ++ encVals fs vs

/-- Decode one field from the front of a buffer; `none` when the buffer is too short (never happens
inside `binary.Read`, which first reads the full size). Blank fields are skipped. -/
def decField : (f : Field) → Bytes → Option (f.ty × Bytes)
  | .u8, b => match b with
    | x :: b => some (x, b)
    | _ => none
  | .u16, b => match b with
    | x :: y :: b => some (getBE16 x y, b)
    | _ => none
  | .arr n, b =>
    if h : n ≤ b.length then some (⟨b.take n, by simp; omega⟩, b.drop n) else none
  | .blank n, b => if n ≤ b.length then some ((), b.drop n) else none

/-- Decode the fields of a struct in declaration order. -/
def decVals : (fs : List Field) → Bytes → Option (Vals fs × Bytes)
  | [], b => some ((), b)
  | f :: fs, b => do
    let (v, b) ← decField f b
    let (vs, b) ← decVals fs b
    pure ((v, vs), b)

/-- A Go struct of fixed size, as seen by reflection. -/
class GoStruct (α : Type) where
  /-- the fields in declaration order, embedded structs in line -/
  layout : List Field
  toVals : α → Vals layout
  ofVals : Vals layout → α

/-- `binary.Size(p)`. -/
def wireSize (α : Type) [GoStruct α] : Nat := sizeOf' (GoStruct.layout α)

/-- `binary.Write(&buf, binary.BigEndian, p)` into an empty `bytes.Buffer`; it cannot fail for a
fixed-size struct. -/
def binaryWrite {α : Type} [GoStruct α] (p : α) : Bytes :=
  encVals (GoStruct.layout α) (GoStruct.toVals p)

/-- Outcome of a short `io.ReadFull`. -/
inductive ReadErr
  | eof
  | unexpectedEOF
  deriving DecidableEq, Repr

/-- `binary.Read(bytes.NewReader(b), binary.BigEndian, p)`: `io.ReadFull` of the struct size first
(io.EOF on an empty reader, io.ErrUnexpectedEOF on a short one, `p` untouched), then the fields are
decoded. The last `none` branch is unreachable (`decVals_isSome`). -/
def binaryRead {α : Type} [GoStruct α] (p : α) (b : Bytes) : α × Option ReadErr :=
  if b.length < wireSize α then
    (p, some (if b.isEmpty then .eof else .unexpectedEOF))
  else
    match decVals (GoStruct.layout α) b with
    | some (vs, _) => (GoStruct.ofVals vs, none)
    | none => (p, some .unexpectedEOF)

end Verif
