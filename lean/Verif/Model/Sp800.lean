import Verif.Model.Hmac
import Verif.Model.Factory

/-!
# SP 800-108 key derivation (`src/sp800_108.rs`, `src/native/sp800_108.rs`)

Simplifications: sums of key sizes are natural numbers (each size is below 2^32, so `usize` would need 2^32 keys to overflow); a MAC
other than HMAC (AES-CMAC, through OpenSSL) is an arbitrary function of the bytes fed to it.
-/

namespace Kry

/-- `CK_PRF_DATA_PARAM`; `buf` is the memory at `pValue`. -/
structure PrfParam where
  typ : Nat
  isNull : Bool
  len : Nat
  buf : Bytes
  deriving DecidableEq, Repr

/-- `Sp800CounterFormat` (`src/sp800_108.rs:76-81`). -/
structure CtrFmt where
  defined : Bool
  le : Bool
  bits : Nat
  deriving DecidableEq, Repr

/-- `Sp800DKMLengthFormat` (`src/sp800_108.rs:83-88`). -/
structure DkmFmt where
  method : Nat
  le : Bool
  bits : Nat
  deriving DecidableEq, Repr

/-- `Sp800Params` (`src/sp800_108.rs:90-96`). -/
inductive Sp800Param where
  | iteration (f : CtrFmt)
  | counter (f : CtrFmt)
  | byteArray (b : Bytes)
  | dkmLength (f : DkmFmt)
  deriving DecidableEq, Repr

/-- A `CK_BBOOL` byte. -/
def bbool (b : UInt8) : Res Bool :=
  if b = 0 then .ok false else if b = 1 then .ok true else .error .mechanismParamInvalid

/-- `parse_counter_format` (`src/sp800_108.rs:99-126`); the structure is a byte, seven bytes of padding and a CK_ULONG.  Reading through a
NULL pointer is a panic here. -/
def parseCounterFormat (p : PrfParam) : Res CtrFmt :=
  if p.len = 0 ∧ p.isNull then .ok ⟨false, false, 16⟩
  else if p.len ≠ 16 then .error .mechanismParamInvalid
  else if p.isNull then .error .panic
  else match bbool (p.buf.getD 0 0) with
    | .error r => .error r
    | .ok le =>
      let w := fromLE ((p.buf.drop 8).take 8)
      if w = 8 ∨ w = 16 ∨ w = 24 ∨ w = 32 then .ok ⟨true, le, w⟩ else .error .mechanismParamInvalid

/-- `parse_byte_array` (`src/sp800_108.rs:127-132`). -/
def parseByteArray (p : PrfParam) : Res Bytes :=
  if p.len = 0 ∨ p.isNull then .error .mechanismParamInvalid else .ok (p.buf.take p.len)

/-- `parse_dkm_length` (`src/sp800_108.rs:134-162`): a CK_ULONG, a byte, padding, a CK_ULONG. -/
def parseDkmLength (p : PrfParam) : Res DkmFmt :=
  if p.len ≠ 24 then .error .mechanismParamInvalid
  else if p.isNull then .error .panic
  else
    let m := fromLE (p.buf.take 8)
    if m = CK_SP800_108_DKM_LENGTH_SUM_OF_KEYS ∨ m = CK_SP800_108_DKM_LENGTH_SUM_OF_SEGMENTS then
      match bbool (p.buf.getD 8 0) with
      | .error r => .error r
      | .ok le =>
        let w := fromLE ((p.buf.drop 16).take 8)
        if w ∈ [8, 16, 24, 32, 40, 48, 56, 64] then .ok ⟨m, le, w⟩ else .error .mechanismParamInvalid
    else .error .mechanismParamInvalid

/-- One turn of the loop of `parse_data_params` (`src/sp800_108.rs:169-189`). -/
def parseParam (p : PrfParam) : Res Sp800Param :=
  if p.typ = CK_SP800_108_ITERATION_VARIABLE then (parseCounterFormat p).map .iteration
  else if p.typ = CK_SP800_108_COUNTER then (parseCounterFormat p).map .counter
  else if p.typ = CK_SP800_108_BYTE_ARRAY then (parseByteArray p).map .byteArray
  else if p.typ = CK_SP800_108_DKM_LENGTH then (parseDkmLength p).map .dkmLength
  else .error .mechanismParamInvalid

/-- `parse_data_params` (`src/sp800_108.rs:164-193`). -/
def parseParams : List PrfParam → Res (List Sp800Param)
  | [] => .ok []
  | p :: l => match parseParam p with
    | .error r => .error r
    | .ok x => match parseParams l with
      | .error r => .error r
      | .ok xs => .ok (x :: xs)

/-- The key types of `verify_prf_key` (`src/sp800_108.rs:213-225`). -/
def prfKeyTypes : List (Nat × Nat) :=
  [(CKM_SHA_1_HMAC, CKK_SHA_1_HMAC), (CKM_SHA224_HMAC, CKK_SHA224_HMAC), (CKM_SHA256_HMAC, CKK_SHA256_HMAC),
   (CKM_SHA384_HMAC, CKK_SHA384_HMAC), (CKM_SHA512_HMAC, CKK_SHA512_HMAC), (CKM_SHA3_224_HMAC, CKK_SHA3_224_HMAC),
   (CKM_SHA3_256_HMAC, CKK_SHA3_256_HMAC), (CKM_SHA3_384_HMAC, CKK_SHA3_384_HMAC), (CKM_SHA3_512_HMAC, CKK_SHA3_512_HMAC),
   (CKM_SHA512_224_HMAC, CKK_SHA512_224_HMAC), (CKM_SHA512_256_HMAC, CKK_SHA512_256_HMAC), (CKM_AES_CMAC, CKK_AES)]

/-- `verify_prf_key` (`src/sp800_108.rs:200-228`). -/
def verifyPrfKey (prf : Nat) (key : Obj) : Res Unit :=
  match AMap.get prfKeyTypes prf with
  | none => .error .keyTypeInconsistent
  | some kt =>
    if prf ≠ CKM_AES_CMAC ∧ key.checkKeyOps CKO_SECRET_KEY CKK_GENERIC_SECRET CKA_DERIVE = .ok () then .ok ()
    else key.checkKeyOps CKO_SECRET_KEY kt CKA_DERIVE

/-- `Box<dyn Mac>`: an HMAC operation, or another function of what it is fed. -/
inductive MacOp where
  | hmac (o : Hmac)
  | other (f : Bytes → Bytes) (len : Nat) (fed : Bytes)

/-- `mac_len`. -/
def MacOp.len : MacOp → Nat
  | .hmac o => o.outlen
  | .other _ n _ => n

/-- `mac_update` (`src/native/hmac.rs:317-319`). -/
def MacOp.update (op : MacOp) (b : Bytes) : Res MacOp :=
  match op with
  | .hmac o => match o.update b with
    | (.error r, _) => .error r
    | (.ok (), o) => .ok (.hmac o)
  | .other f n fed => .ok (.other f n (fed ++ b))

/-- `mac_final` into a buffer of `n` bytes (`src/native/hmac.rs:320-322`). -/
def MacOp.final (op : MacOp) (n : Nat) : Res Bytes :=
  match op with
  | .hmac o => (o.finalize n).1
  | .other f len fed => if n = len then .ok (f fed) else .error .generalError

/-- `mac_new` of the HMAC mechanisms with CKF_DERIVE (`src/hmac.rs:191-266`, `:308-315`). -/
def hmacNew (a : HashAlg) (kt : Nat) (key : Obj) : Res MacOp :=
  match key.getUlong CKA_CLASS with
  | .error r => .error r
  | .ok c =>
    if c ≠ CKO_SECRET_KEY then .error .keyTypeInconsistent
    else match key.getUlong CKA_KEY_TYPE with
      | .error r => .error r
      | .ok t =>
        if t ≠ CKK_GENERIC_SECRET ∧ t ≠ kt then .error .keyTypeInconsistent
        else if key.getBool CKA_DERIVE ≠ .ok true then .error .keyTypeInconsistent
        else match key.getBytes CKA_VALUE with
          | .error r => .error r
          | .ok v => .ok (.hmac (Hmac.internal a v a.hlen))

/-- `key_to_segment_size` (`src/native/sp800_108.rs:130-132`). -/
def segmentSize (key segment : Nat) : Nat := (key + segment - 1) / segment * segment

/-- What `ctr_update` feeds (`src/native/sp800_108.rs:138-188`). -/
def ctrBytes (f : CtrFmt) (ctr : Nat) : Res Bytes :=
  if !f.defined then .error .mechanismParamInvalid
  else if f.bits = 8 then
    if ctr > 2 ^ 8 - 1 then .error .mechanismParamInvalid else .ok [UInt8.ofNat ctr]
  else if f.bits = 16 then
    if ctr > 2 ^ 16 - 1 then .error .mechanismParamInvalid else .ok (if f.le then toLE 2 ctr else toBE 2 ctr)
  else if f.bits = 24 then
    if ctr > 2 ^ 24 - 1 then .error .mechanismParamInvalid else .ok (if f.le then (toLE 4 ctr).take 3 else (toBE 4 ctr).drop 1)
  else if f.bits = 32 then
    if ctr > 2 ^ 32 - 1 then .error .mechanismParamInvalid else .ok (if f.le then toLE 4 ctr else toBE 4 ctr)
  else .error .mechanismParamInvalid

/-- What `dkm_update` feeds (`src/native/sp800_108.rs:195-277`).  For 40, 48 and 56 bits the code takes more bytes than the four of a `u32`,
which panics. -/
def dkmBytes (f : DkmFmt) (klen slen : Nat) : Res Bytes :=
  let len : Res Nat := if f.method = CK_SP800_108_DKM_LENGTH_SUM_OF_SEGMENTS then .ok slen
    else if f.method = CK_SP800_108_DKM_LENGTH_SUM_OF_KEYS then .ok klen
    else .error .mechanismParamInvalid
  match len with
  | .error r => .error r
  | .ok len =>
    if f.bits = 8 then .ok [UInt8.ofNat (len % (2 ^ 8 - 1))]
    else if f.bits = 16 then
      let n := len % (2 ^ 16 - 1)
      .ok (if f.le then toLE 2 n else toBE 2 n)
    else if f.bits = 24 then
      let n := len % (2 ^ 24 - 1)
      .ok (if f.le then (toLE 4 n).take 3 else (toBE 4 n).drop 1)
    else if f.bits = 32 then
      let n := len % (2 ^ 32 - 1)
      .ok (if f.le then toLE 4 n else toBE 4 n)
    else if f.bits = 40 ∨ f.bits = 48 ∨ f.bits = 56 then .error .panic
    else if f.bits = 64 then
      let n := len % (2 ^ 64 - 1)
      .ok (if f.le then toLE 8 n else toBE 8 n)
    else .error .mechanismParamInvalid

/-- `?` between a computed field and the update. -/
def MacOp.feed (op : MacOp) (b : Res Bytes) : Res MacOp :=
  match b with
  | .error r => .error r
  | .ok b => op.update b

/-- `counter_updates` (`src/native/sp800_108.rs:285-322`). -/
def counterUpdates (ctr klen slen : Nat) : List Sp800Param → (seenDkm seenIter : Bool) → MacOp → Res MacOp
  | [], _, si, op => if si then .ok op else .error .mechanismParamInvalid
  | .iteration f :: l, sd, si, op =>
    if si then .error .mechanismParamInvalid
    else match op.feed (ctrBytes f ctr) with
      | .error r => .error r
      | .ok op => counterUpdates ctr klen slen l sd true op
  | .counter _ :: _, _, _, _ => .error .mechanismParamInvalid
  | .byteArray b :: l, sd, si, op => match op.feed (.ok b) with
    | .error r => .error r
    | .ok op => counterUpdates ctr klen slen l sd si op
  | .dkmLength f :: l, sd, si, op =>
    if sd then .error .mechanismParamInvalid
    else match op.feed (dkmBytes f klen slen) with
      | .error r => .error r
      | .ok op => counterUpdates ctr klen slen l true si op

/-- `feedback_updates` (`src/native/sp800_108.rs:330-376`). -/
def feedbackUpdates (iv : Bytes) (ctr klen slen : Nat) : List Sp800Param → (seenDkm seenIter seenCtr : Bool) → MacOp → Res MacOp
  | [], _, si, _, op => if si then .ok op else .error .mechanismParamInvalid
  | .iteration f :: l, sd, si, sc, op =>
    if si then .error .mechanismParamInvalid
    else if f.defined then .error .mechanismParamInvalid
    else match op.feed (.ok iv) with
      | .error r => .error r
      | .ok op => feedbackUpdates iv ctr klen slen l sd true sc op
  | .counter f :: l, sd, si, sc, op =>
    if sc then .error .mechanismParamInvalid
    else match op.feed (ctrBytes f ctr) with
      | .error r => .error r
      | .ok op => feedbackUpdates iv ctr klen slen l sd si true op
  | .byteArray b :: l, sd, si, sc, op => match op.feed (.ok b) with
    | .error r => .error r
    | .ok op => feedbackUpdates iv ctr klen slen l sd si sc op
  | .dkmLength f :: l, sd, si, sc, op =>
    if sd then .error .mechanismParamInvalid
    else match op.feed (dkmBytes f klen slen) with
      | .error r => .error r
      | .ok op => feedbackUpdates iv ctr klen slen l true si sc op

/-- `Sp800Operation` (`src/native/sp800_108.rs:45-59`) without the finalized flag: an operation object is used for one derivation
(`src/fns/keymgmt.rs:616-640`).  `addl` are the templates of the additional keys. -/
structure Sp800 where
  mech : Nat
  prf : Nat
  params : List Sp800Param
  iv : Bytes
  addl : List Template
  deriving DecidableEq

/-- One key to derive, with its size (`src/native/sp800_108.rs:419-426`, `:446-462`). -/
def sp800Obj (uid : Bytes) (key : Obj) (t : Template) : Res (Obj × Nat) :=
  match deriveKeyFromTemplate uid key t with
  | .error r => .error r
  | .ok o => match o.getUlong CKA_VALUE_LEN with
    | .error _ => .error .templateIncomplete
    | .ok n => if n = 0 ∨ n > 2 ^ 32 - 1 then .error .keySizeRange else .ok (o, n)

/-- The keys of all templates; `uid k` is the unique id made for the `k`-th. -/
def sp800Objs (uid : Nat → Bytes) (key : Obj) : Nat → List Template → Res (List (Obj × Nat))
  | _, [] => .ok []
  | k, t :: l => match sp800Obj (uid k) key t with
    | .error r => .error r
    | .ok p => match sp800Objs uid key (k + 1) l with
      | .error r => .error r
      | .ok ps => .ok (p :: ps)

/-- The loop over the segments (`src/native/sp800_108.rs:468-507`); `dkm` is what has been written. -/
def sp800Loop (new : Obj → Res MacOp) (key : Obj) (op : Sp800) (seg klen slen : Nat) : Nat → Nat → MacOp → Bytes → Res Bytes
  | 0, _, _, dkm => .ok dkm
  | n + 1, ctr, m, dkm =>
    let m : Res MacOp := if ctr ≠ 0 then new key else .ok m
    match m with
    | .error r => .error r
    | .ok m =>
      let fed : Res MacOp :=
        if op.mech = CKM_SP800_108_COUNTER_KDF then counterUpdates (ctr + 1) klen slen op.params false false m
        else if op.mech = CKM_SP800_108_FEEDBACK_KDF then
          feedbackUpdates (if ctr = 0 then op.iv else dkm.drop (dkm.length - seg)) (ctr + 1) klen slen op.params false false false m
        else .error .generalError
      match fed with
      | .error r => .error r
      | .ok m => match m.final seg with
        | .error r => .error r
        | .ok b => sp800Loop new key op seg klen slen n (ctr + 1) m (dkm ++ b)

/-- The values of the keys (`src/native/sp800_108.rs:509-518`); a slice beyond the end would panic. -/
def sp800Cut (seg : Nat) (dkm : Bytes) : Nat → List (Obj × Nat) → Res (List Obj)
  | _, [] => .ok []
  | cur, (o, n) :: l =>
    if dkm.length < cur + n then .error .panic
    else match sp800Cut seg dkm (cur + segmentSize n seg) l with
      | .error r => .error r
      | .ok os => .ok (o.put (Attr.ofBytes CKA_VALUE ((dkm.drop cur).take n)) :: os)

/-- `derive` (`src/native/sp800_108.rs:390-520`); `new` is `mac_new` of the PRF mechanism. -/
def Sp800.derive (op : Sp800) (new : Obj → Res MacOp) (uid : Nat → Bytes) (key : Obj) (t : Template) : Res (List Obj) :=
  match verifyPrfKey op.prf key with
  | .error r => .error r
  | .ok () => match new key with
    | .error r => .error r
    | .ok m =>
      let seg := m.len
      if seg = 0 then .error .panic
      else match sp800Objs uid key 0 (t :: op.addl) with
        | .error r => .error r
        | .ok keys =>
          let klen := (keys.map fun p => p.2).sum
          let slen := (keys.map fun p => segmentSize p.2 seg).sum
          match sp800Loop new key op seg klen slen (slen / seg) 0 m [] with
          | .error r => .error r
          | .ok dkm => sp800Cut seg dkm 0 keys

/-- `derive_operation` (`src/sp800_108.rs:50-73`) with `counter_kdf_new` and `feedback_kdf_new` (`src/native/sp800_108.rs:66-126`); the
outer parameter structure is already taken apart, `ivNull` and `ivLen` are its IV pointer and length. -/
def sp800New (mech prf : Nat) (raw : List PrfParam) (ivNull : Bool) (ivLen : Nat) (iv : Bytes) (addl : List Template) : Res Sp800 :=
  if mech = CKM_SP800_108_COUNTER_KDF then match parseParams raw with
    | .error r => .error r
    | .ok ps => .ok ⟨mech, prf, ps, [], addl⟩
  else if mech = CKM_SP800_108_FEEDBACK_KDF then
    if ivNull ≠ (ivLen == 0) then .error .mechanismParamInvalid
    else match parseParams raw with
      | .error r => .error r
      | .ok ps => .ok ⟨mech, prf, ps, iv.take ivLen, addl⟩
  else .error .mechanismInvalid

end Kry
