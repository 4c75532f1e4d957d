import Verif.Model.NssDb

/-! Vocabulary for the properties of the NSS database backend. -/

namespace Kry.Spec

/-- What is assumed of the cryptographic library: decryption undoes encryption, DER is read back and takes more than three bytes, HMAC-SHA256 gives 32 bytes. -/
structure NssOk (N : NssLib) : Prop where
  dec_enc : ∀ k iv p, N.dec k iv (N.enc k iv p) = some p
  parse_der : ∀ i, N.parse (N.der i) = some i
  der_long : ∀ i, 3 < (N.der i).length
  mac_len : ∀ k m, (N.mac k m).length = 32

/-- The PIN opens the password entry: the key made of the salt and the PIN, stretched as the entry says, decrypts it to the known text. -/
def opens (N : NssLib) (salt data pin : Bytes) : Prop :=
  ∃ (p : NssKdf) (iv c : Bytes) (n : Nat), N.parse data = some ⟨.pbes2 (some p) (some iv), c⟩ ∧ p.salt.length = 32 ∧ p.keyLen = some n ∧
    ((iv.length = 14 ∧ N.dec (N.kdf (N.sha1 (salt ++ pin)) p.salt p.iter n) (4 :: 14 :: iv) c = some (ascii "password-check")) ∨
     (iv.length = 16 ∧ N.dec (N.kdf (N.sha1 (salt ++ pin)) p.salt p.iter n) iv c = some (ascii "password-check")))

/-- No failure of the environment. -/
def calmEnv (e : Env) : Prop := ∀ p, e.fault p = none

/-- The database after the process was started again. -/
def restarted (s : Nss) : Nss := ⟨s.db, ⟨none, []⟩⟩

/-- Attributes that an NSS database keeps: of a known type and its kind, numbers of 32 bits (parameter sets below 0x8F), other values except the bytes
that stand for an empty value; those may be any if they are encrypted (`sealed`). -/
def nssStorable (sealed : Nat → Bool) (a : Attr) : Prop :=
  attrKind a.typ = some a.atype ∧
    match a.atype with
    | .num => sealed a.typ = false ∧ ∃ n, a.value = ulongBytes n ∧ n < 2 ^ 32 ∧ (a.typ = CKA_PARAMETER_SET → n < 0x8F)
    | .bool | .string | .bytes | .date => a.value = [0xa5, 0x00, 0x5a] → sealed a.typ = true
    | .ulongArray | .deny | .ignore => False

/-- The user is logged in with the master key `m`, and the keys that the cache holds for the salts of interest are those which `m` gives. -/
def fits (N : NssLib) (m : Bytes) (S : NssKeyOp → Bytes → Prop) (k : NssKeys) : Prop :=
  k.enckey = some m ∧ ∀ op salt v, S op salt → AMap.get k.cache salt = some v → v = (op, N.kdf m salt 10000 32)

/-- The salts that storing an object draws: one for each encrypted type and one for each signed type. -/
def drawn (e : Env) : NssKeyOp → Bytes → Prop
  | .enc, s => ∃ i, i < 8 ∧ s = (((e.sub 0).sub i).sub 0).rnd 32
  | .sig, s => ∃ i, i < 19 ∧ s = (((((e.sub 1).sub 2).sub i).sub 0).sub 0).rnd 32

/-- No salt was drawn both for encryption and for a signature. -/
def saltsApart (e : Env) : Prop := ∀ s, drawn e .enc s → drawn e .sig s → False

/-- The attribute types which are encrypted in an object of this class. -/
def sealedIn (cls t : Nat) : Bool := (cls == CKO_PRIVATE_KEY || cls == CKO_SECRET_KEY) && nssSensitive t

/-- Two attribute lists that differ only in values of the given types, and those give the same ciphertexts. -/
def sameBut (N : NssLib) (ts : List Nat) : List Attr → List Attr → Prop
  | [], [] => True
  | a :: as, b :: bs => a.typ = b.typ ∧ a.atype = b.atype ∧ (a.value = b.value ∨ (a.typ ∈ ts ∧ ∀ k iv, N.enc k iv a.value = N.enc k iv b.value)) ∧
      sameBut N ts as bs
  | _, _ => False

/-- The database holds a signature, made with a key from `m`, of this value as the attribute `u` of the object number `id`: it is a non-empty beginning of the
authentication code. -/
def signedBy (N : NssLib) (m : Bytes) (d : NssDb) (t : NssTbl) (id u : Nat) (value : Bytes) : Prop :=
  ∃ x p i n sig, AMap.get d.mdata (.sig t id u) = some x ∧ N.parse x.1 = some ⟨.pbmac1 (some p) true, sig⟩ ∧ sig ≠ [] ∧ sig.length ≤ 32 ∧
    (N.mac (N.kdf m p.salt i n) (toBE 4 id ++ (toBE 4 u ++ value))).take sig.length = sig

/-- A template attribute that an NSS database can be asked for: numbers below 2^32, and no value that stands for the empty one. -/
def askable (a : CkAttr) : Prop :=
  match a.pval, attrKind a.typ with
  | .data v, some .num => a.typ ≠ CKA_PARAMETER_SET ∧ ∃ n, n < 2 ^ 32 ∧ v = ulongBytes n
  | .data v, some .bool | .data v, some .string | .data v, some .bytes | .data v, some .date => v ≠ [0xa5, 0x00, 0x5a]
  | _, _ => False

/-- The row holds the value asked for, as it is read. -/
def holdsCol (row : NssRow) (a : CkAttr) : Prop :=
  ∃ b x, AMap.get row a.typ = some b ∧ nssReadCol a.typ b = .ok x ∧ x.value = a.toBuf

/-- A database as this code writes it: numbers of objects are unique and fit 32 bits, no column is empty, and a class that can be read belongs to the table. -/
structure tidy (d : NssDb) : Prop where
  uniq : ∀ t, ((d.rows t).map Prod.fst).Nodup
  small : ∀ t, ∀ r ∈ d.rows t, r.1 < 2 ^ 32
  full : ∀ t, ∀ r ∈ d.rows t, ∀ c, AMap.get r.2 c ≠ some []
  home : ∀ t, ∀ r ∈ d.rows t, ∀ b x, AMap.get r.2 CKA_CLASS = some b → nssReadCol CKA_CLASS b = .ok x → ∃ cls, x.toUlong = .ok cls ∧ nssTblOf cls = some t

/-- Every handle stands for an object that is in the database. -/
def handlesReal (hs : Handles) (d : NssDb) : Prop :=
  ∀ n uid, hs.get n = some uid → ∃ t id, id < 2 ^ 32 ∧ uid = nssIdFormat t id ∧ AMap.get (d.rows t) id ≠ none

end Kry.Spec
