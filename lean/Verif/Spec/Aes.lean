import Verif.Model.Aes

/-!
What the application expects of AES operations, in terms of its calls, their answers and the block cipher.
-/

namespace Kry.Spec

/-- The data accepted by a run of calls: the parts of the successful update calls that had a buffer. -/
def taken : List AesCall → List (Res AesOut) → Bytes
  | .update p (some _) :: cs, .ok _ :: rs => p ++ taken cs rs
  | _ :: cs, _ :: rs => taken cs rs
  | _, _ => []

/-- The data written by a run of calls. -/
def written : List (Res AesOut) → Bytes
  | .ok (.data b) :: rs => b ++ written rs
  | _ :: rs => written rs
  | [] => []

/-- Only update calls, with any buffers, or none. -/
def updates (cs : List AesCall) : Prop := ∀ c ∈ cs, ∃ p room, c = .update p room

/-- The `i`-th block of 16 bytes. -/
def blk (d : Bytes) (i : Nat) : Bytes := (d.drop (16 * i)).take 16

/-- `out` is the encryption of the whole blocks of `data` by the block function `E`: block by block (ECB), or each block combined
with the encryption of the one before it, the first one with the IV (CBC). -/
def enciphered (chained : Bool) (E : Bytes → Bytes) (iv data out : Bytes) : Prop :=
  out.length = 16 * (data.length / 16) ∧
    ∀ i, i < data.length / 16 →
      blk out i = E (if chained then List.zipWith (· ^^^ ·) (blk data i) (if i = 0 then iv else blk out (i - 1)) else blk data i)

/-- PKCS #7 padding: between 1 and 16 bytes, each of them the number of bytes added. -/
def padded (d : Bytes) : Bytes := d ++ List.replicate (16 - d.length % 16) (UInt8.ofNat (16 - d.length % 16))

/-- The IV of a mechanism parameter. -/
def ivOf : AesParam → Bytes
  | .iv b => b
  | _ => []

end Kry.Spec

namespace Kry.Spec

/-- The first part accepted that is not empty (empty when there is none). -/
def opening : List AesCall → List (Res AesOut) → Bytes
  | .update p (some _) :: cs, .ok _ :: rs => if p = [] then opening cs rs else p
  | _ :: cs, _ :: rs => opening cs rs
  | _, _ => []

/-- `out` is the decryption of the whole blocks of `data` by the block function `D`. -/
def deciphered (chained : Bool) (D : Bytes → Bytes) (iv data out : Bytes) : Prop :=
  out.length = 16 * (data.length / 16) ∧
    ∀ i, i < data.length / 16 →
      blk out i = if chained then List.zipWith (· ^^^ ·) (D (blk data i)) (if i = 0 then iv else blk data (i - 1)) else D (blk data i)

end Kry.Spec
