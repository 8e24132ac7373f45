/-
Go run-time semantics used by the model: byte slices, fixed-size arrays, panics, `copy`, maps and
the few functions of package `net`/`bytes` that the code calls.
-/
namespace Verif

/-- A Go `[]byte` or `string`: the visible elements of the slice (capacity is not modelled). -/
abbrev Bytes := List UInt8

/-- Run-time panics that the modelled code can raise. -/
inductive Fault
  | indexOutOfRange
  | nilDereference
  | closeOfNilChannel
  | closeOfClosedChannel
  | divideByZero
  | nonPositiveTicker
  deriving DecidableEq, Repr

/-- A computation that may panic. -/
abbrev Go := Except Fault

/-- `b[i]` on a slice: panics when `i ≥ len(b)`. -/
def idx (b : Bytes) (i : Nat) : Go UInt8 :=
  match b[i]? with
  | some x => .ok x
  | none => .error .indexOutOfRange

/-- `b[lo:hi]` on a slice.  Go allows `hi` up to the capacity; the model is stricter (length), so
"does not panic" in the model implies it for the code. -/
def slice (b : Bytes) (lo hi : Nat) : Go Bytes :=
  if lo ≤ hi ∧ hi ≤ b.length then .ok ((b.take hi).drop lo) else .error .indexOutOfRange

/-- A Go array `[n]T` with `T` a byte-sized type. -/
structure Arr (n : Nat) where
  val : Bytes
  len : val.length = n
  deriving DecidableEq

instance {n : Nat} : Repr (Arr n) := ⟨fun a p => reprPrec a.val p⟩

@[ext] theorem Arr.ext {n : Nat} {a b : Arr n} (h : a.val = b.val) : a = b := by
  cases a; cases b; cases h; rfl

/-- The zero value of `[n]byte`. -/
def Arr.zero (n : Nat) : Arr n := ⟨List.replicate n 0, by simp⟩

/-- `a[i]` on an array with a constant (compile-time checked) or loop-bounded index. -/
def Arr.get {n : Nat} (a : Arr n) (i : Fin n) : UInt8 :=
  a.val[i.val]'(by rw [a.len]; exact i.isLt)

/-- `copy(dst, src)` seen as a function returning the new contents of `dst`. -/
def copyInto (dst src : Bytes) : Bytes := src.take dst.length ++ dst.drop src.length

theorem copyInto_length (dst src : Bytes) : (copyInto dst src).length = dst.length := by
  simp [copyInto]; omega

/-- `copy(a[0:n], src)` on a whole array. -/
def Arr.copyFrom {n : Nat} (a : Arr n) (src : Bytes) : Arr n :=
  ⟨copyInto a.val src, by rw [copyInto_length, a.len]⟩

/-- `copy(a[0:l], src)` where `l ≤ n`; when `l > n` the slice expression `a[0:l]` panics. -/
def Arr.copyPrefix {n : Nat} (a : Arr n) (l : Nat) (src : Bytes) : Go (Arr n) :=
  if l ≤ n then
    .ok ⟨copyInto (a.val.take l) src ++ a.val.drop l, by
      rw [List.length_append, copyInto_length, ← List.length_append, List.take_append_drop, a.len]⟩
  else .error .indexOutOfRange

/-- A Go map as an association list with unique keys (order irrelevant, see `GoMap.keys`). -/
abbrev GoMap (K V : Type) := List (K × V)

namespace GoMap
variable {K V : Type} [DecidableEq K]

/-- `m[k]` with the comma-ok form. -/
def get (m : GoMap K V) (k : K) : Option V :=
  match m with
  | [] => none
  | (k', v) :: m => if k' = k then some v else get m k

/-- `delete(m, k)`. -/
def del (m : GoMap K V) (k : K) : GoMap K V := m.filter fun e => e.1 ≠ k

/-- `m[k] = v`. -/
def set (m : GoMap K V) (k : K) (v : V) : GoMap K V := (k, v) :: del m k

/-- The keys, each once; `range` visits them in an arbitrary order. -/
def keys (m : GoMap K V) : List K := m.map Prod.fst

/-- The map has no duplicate keys (an invariant of `set`/`del`). -/
def WF (m : GoMap K V) : Prop := m.keys.Nodup

end GoMap

/-- The 12-byte prefix of an IPv4-mapped IPv6 address (`net.v4InV6Prefix`). -/
def v4InV6Prefix : Bytes := [0, 0, 0, 0, 0, 0, 0, 0, 0, 0, 0xff, 0xff]

/-- `net.IP.To4` (Go standard library): 4-byte form, or nil (`[]`). -/
def to4 (ip : Bytes) : Bytes :=
  if ip.length = 4 then ip
  else if ip.length = 16 ∧ ip.take 12 = v4InV6Prefix then ip.drop 12
  else []

/-- `net.IP.Equal` (Go standard library): an IPv4 address and its IPv4-mapped form are equal. -/
def ipEqual (ip x : Bytes) : Bool :=
  if ip.length = x.length then ip == x
  else if ip.length = 4 ∧ x.length = 16 then
    x.take 12 == v4InV6Prefix && ip == x.drop 12
  else if ip.length = 16 ∧ x.length = 4 then
    ip.take 12 == v4InV6Prefix && ip.drop 12 == x
  else false

/-- `net.UDPAddr` (the zone is never set by this package and is not modelled). -/
structure UDPAddr where
  ip : Bytes
  port : Nat
  deriving DecidableEq, Repr

end Verif
