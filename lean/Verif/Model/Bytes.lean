import Verif.Model.NArr
/-!
# Binary files

Library semantics used by the `.gkyl` reader and writer: little-endian 64-bit integers,
`np.fromfile`, Python dictionaries.  Floating-point numbers are kept as the opaque list of bytes
stored in the file (4 or 8), so every bit pattern is covered.
-/

namespace Pgkyl

/-- A file is the list of its bytes. -/
abbrev Bytes := List UInt8

/-- One stored floating-point number: its bytes. -/
abbrev Word := List UInt8

/-- `k` little-endian bytes of a natural number. -/
def leBytes : Nat → Nat → Bytes
  | 0, _ => []
  | k + 1, n => UInt8.ofNat (n % 256) :: leBytes k (n / 256)

/-- The number stored in little-endian bytes. -/
def leNat : Bytes → Nat
  | [] => 0
  | b :: bs => b.toNat + 256 * leNat bs

/-- `np.array([z], dtype="i8").tofile`: two's complement, little endian. -/
def encI8 (z : Int) : Bytes := leBytes 8 (z % 2 ^ 64).toNat

/-- Reading back one `i8`. -/
def decI8 (w : Bytes) : Int :=
  if leNat w < 2 ^ 63 then (leNat w : Int) else (leNat w : Int) - 2 ^ 64

/-- At most `n` complete items of `sz` bytes from the front (`np.fromfile` silently returns fewer
items at the end of the file). -/
def chunks (sz : Nat) : Nat → Bytes → List Word
  | 0, _ => []
  | n + 1, bs => if bs.length < sz then [] else bs.take sz :: chunks sz n (bs.drop sz)

/-- `np.fromfile(file, dtype of sz bytes, count, offset)`; a negative count reads everything. -/
def fromfile (f : Bytes) (sz : Nat) (count : Int) (off : Nat) : List Word :=
  if count < 0 then chunks sz f.length (f.drop off) else chunks sz count.toNat (f.drop off)

/-- `np.fromfile(..., dtype="i8", count=1, offset)[0]`: IndexError at the end of the file. -/
def readI (f : Bytes) (off : Nat) : Except Err Int :=
  match fromfile f 8 1 off with
  | [] => .error .indexError
  | w :: _ => .ok (decI8 w)

/-- `np.fromfile(..., dtype="i8", count, offset)`. -/
def readIs (f : Bytes) (count : Int) (off : Nat) : List Int :=
  (fromfile f 8 count off).map decI8

/-- `offset += k`.  (Simplification: a negative offset raises at once; in the code it raises at the
next read.) -/
def advance (off : Nat) (k : Int) : Except Err Nat :=
  if (off : Int) + k < 0 then .error .osError else .ok (off + k).toNat

/-- Python dictionary: insertion-ordered association list without repeated keys. -/
abbrev Dict (V : Type) := List (String × V)

namespace Dict
variable {V : Type}

/-- `d.get(k)`. -/
def get? : Dict V → String → Option V
  | [], _ => none
  | (k', v) :: d, k => if k' = k then some v else get? d k

/-- `d[k] = v`: an existing key keeps its place. -/
def set : Dict V → String → V → Dict V
  | [], k, v => [(k, v)]
  | (k', v') :: d, k, v => if k' = k then (k, v) :: d else (k', v') :: set d k v

/-- `del d[k]` / `d.pop(k)` for a present key. -/
def del (d : Dict V) (k : String) : Dict V := d.filter fun e => e.1 ≠ k

/-- `k in d`. -/
def mem (d : Dict V) (k : String) : Bool := d.any fun e => e.1 = k

end Dict

end Pgkyl
