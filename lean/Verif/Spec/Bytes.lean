import Verif.Go.Basic
/-
Specification vocabulary for datagrams: bytes at absolute offsets, 16-bit integers in both orders.
Nothing here is used by the model.
-/
namespace Verif.Spec

/-- byte `i` of a buffer (0 outside; statements use it under a length hypothesis) -/
def byteAt (b : Bytes) (i : Nat) : UInt8 := b[i]?.getD 0

/-- bytes `o, …, o+n-1` of a buffer as an array -/
def arrAt (b : Bytes) (o n : Nat) : Arr n := ⟨List.ofFn fun i : Fin n => byteAt b (o + i), by simp⟩

/-- high byte first 16-bit integer at offset `o` -/
def be16At (b : Bytes) (o : Nat) : UInt16 :=
  UInt16.ofNat (256 * (byteAt b o).toNat + (byteAt b (o + 1)).toNat)

/-- low byte first 16-bit integer at offset `o` -/
def le16At (b : Bytes) (o : Nat) : UInt16 :=
  UInt16.ofNat ((byteAt b o).toNat + 256 * (byteAt b (o + 1)).toNat)

/-- two bytes of a 16-bit integer, high byte first -/
def be16 (x : UInt16) : Bytes := [UInt8.ofNat (x.toNat / 256), UInt8.ofNat (x.toNat % 256)]

/-- two bytes of a 16-bit integer, low byte first -/
def le16 (x : UInt16) : Bytes := [UInt8.ofNat (x.toNat % 256), UInt8.ofNat (x.toNat / 256)]

/-- the ASCII string "Art-Net" with its terminating zero -/
def magic : Bytes := [65, 114, 116, 45, 78, 101, 116, 0]

/-- opcode of a datagram: bytes 8-9, low byte first -/
def opOf (b : Bytes) : UInt16 := le16At b 8

/-- `n` zero bytes -/
def zeros (n : Nat) : Bytes := List.replicate n 0

end Verif.Spec
