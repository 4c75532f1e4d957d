import Verif.Model.Base

/-!
# AES operations (`src/ossl/aes.rs`, `ossl/src/cipher.rs`)

Modelled for CKM_AES_ECB, CKM_AES_CBC, CKM_AES_CBC_PAD, CKM_AES_CTR, CKM_AES_CTS, CKM_AES_GCM and CKM_AES_CCM, build without `fips`.
Not modelled: OFB, CFB and key wrap.  The AES block function, GHASH and the CCM tag are a parameter (`AesLib`); what OpenSSL's
EVP interface does with them is `Evp`, written from OpenSSL's documentation (it is not part of /repo).  OpenSSL calls do not
fail for lack of memory.  Lengths do not overflow `usize`.  A buffer given by the application is its size (`room`), the bytes a call writes
are its answer.
-/

namespace Kry

/-- The modelled mechanisms (`src/ossl/aes.rs:173-204`). -/
inductive AesMech where
  | ecb | cbc | cbcPad | ctr | cts | gcm | ccm
deriving DecidableEq, Repr

/-- What the library computes with one AES key.  Laws: decryption of a block undoes encryption, sizes. -/
structure AesLib where
  enc : Bytes → Bytes
  dec : Bytes → Bytes
  enc_len : ∀ b, (enc b).length = 16
  dec_len : ∀ b, (dec b).length = 16
  dec_enc : ∀ b, b.length = 16 → dec (enc b) = b
  /-- Key stream of GCM for an IV. -/
  gcmKs : Bytes → Nat → UInt8
  /-- Tag of GCM for IV, additional data and ciphertext. -/
  gcmTag : Bytes → Bytes → Bytes → Bytes
  gcmTag_len : ∀ iv aad c, (gcmTag iv aad c).length = 16
  /-- CCM for IV, additional data, tag length and plaintext: ciphertext and tag. -/
  ccmEnc : Bytes → Bytes → Nat → Bytes → Bytes × Bytes
  ccm_len : ∀ iv aad t d, (ccmEnc iv aad t d).1.length = d.length
  ccm_tag_len : ∀ iv aad t d, t ≤ 16 → (ccmEnc iv aad t d).2.length = t
  /-- CCM for IV, additional data, ciphertext and tag: the data of which they are the encryption, if any. -/
  ccmDec : Bytes → Bytes → Bytes → Bytes → Option Bytes
  ccm_dec : ∀ iv aad c t p, ccmDec iv aad c t = some p ↔ ccmEnc iv aad t.length p = (c, t)
  /-- CBC with ciphertext stealing (CS1): encryption or decryption, IV, data. -/
  cts : Bool → Bytes → Bytes → Bytes
  cts_len : ∀ e iv d, (cts e iv d).length = d.length

/-- Bytewise exclusive or. -/
def xorBytes (a b : Bytes) : Bytes := List.zipWith (· ^^^ ·) a b

/-! ## The library (EVP) -/

/-- `OsslCipher` (`ossl/src/cipher.rs:307-327`) over an EVP context. -/
structure Evp where
  mech : AesMech
  enc : Bool
  /-- The IV, or the previous ciphertext block (CBC). -/
  chain : Bytes
  /-- Input the library holds back (block modes). -/
  held : Bytes
  /-- Number of bytes processed (stream modes). -/
  pos : Nat
  /-- Ciphertext processed (GCM). -/
  seen : Bytes
  aad : Bytes
  taglen : Nat
  tag : Bytes
deriving DecidableEq, Repr

/-- One block. -/
def blockStep (L : AesLib) (m : AesMech) (enc : Bool) (chain b : Bytes) : Bytes × Bytes :=
  match m, enc with
  | .ecb, true => (L.enc b, chain)
  | .ecb, false => (L.dec b, chain)
  | _, true => let c := L.enc (xorBytes b chain); (c, c)
  | _, false => (xorBytes (L.dec b) chain, b)

/-- The first `n` blocks of `d`. -/
def cryptBlocks (L : AesLib) (m : AesMech) (enc : Bool) : Nat → Bytes → Bytes → Bytes × Bytes
  | 0, chain, _ => ([], chain)
  | n + 1, chain, d =>
    let (o, c) := blockStep L m enc chain (d.take 16)
    let (os, c) := cryptBlocks L m enc n c (d.drop 16)
    (o ++ os, c)

/-- Exclusive or with a key stream from position `p` on. -/
def streamXor (ks : Nat → UInt8) : Nat → Bytes → Bytes
  | _, [] => []
  | p, b :: bs => (b ^^^ ks p) :: streamXor ks (p + 1) bs

/-- Key stream of CTR: the whole IV is a 128-bit counter. -/
def ctrKs (L : AesLib) (iv : Bytes) (p : Nat) : UInt8 :=
  (L.enc (toBE 16 ((fromBE iv + p / 16) % 2 ^ 128))).getD (p % 16) 0

/-- Does the padding of the library apply: `set_padding(true)` (`src/ossl/aes.rs:584-588`). -/
def Evp.pads (c : Evp) : Bool := c.mech == .cbcPad

/-- How many blocks of `n` bytes of input the library processes: all whole ones, but decryption with padding holds the last one
back (OpenSSL, EVP_DecryptUpdate). -/
def Evp.ready (c : Evp) (n : Nat) : Nat := if !c.enc && c.pads then (n - 1) / 16 else n / 16

/-- EVP_CipherUpdate; `none` is an error. -/
def Evp.update (L : AesLib) (c : Evp) (inp : Bytes) : Option (Bytes × Evp) :=
  match c.mech with
  | .ecb | .cbc | .cbcPad =>
    let d := c.held ++ inp
    let n := c.ready d.length
    let (o, chain) := cryptBlocks L c.mech c.enc n c.chain d
    some (o, { c with chain := chain, held := d.drop (16 * n) })
  | .ctr => some (streamXor (ctrKs L c.chain) c.pos inp, { c with pos := c.pos + inp.length })
  | .gcm =>
    let o := streamXor (L.gcmKs c.chain) c.pos inp
    some (o, { c with pos := c.pos + inp.length, seen := c.seen ++ (if c.enc then o else inp) })
  | .cts => some (L.cts c.enc c.chain inp, c)
  | .ccm =>
    -- the library takes the message in one piece
    if c.pos ≠ 0 then none
    else if c.enc then let (o, t) := L.ccmEnc c.chain c.aad c.taglen inp; some (o, { c with tag := t, pos := 1 })
    else match L.ccmDec c.chain c.aad inp c.tag with
      | none => none
      | some p => some (p, { c with pos := 1 })

/-- Removal of PKCS#7 padding from the last block. -/
def unpad (b : Bytes) : Option Bytes :=
  match b.getLast? with
  | none => none
  | some p =>
    if p.toNat = 0 ∨ p.toNat > 16 then none
    else if b.drop (16 - p.toNat) = List.replicate p.toNat p then some (b.take (16 - p.toNat)) else none

/-- EVP_CipherFinal_ex; `none` is an error. -/
def Evp.final (L : AesLib) (c : Evp) : Option Bytes :=
  match c.mech with
  | .ecb | .cbc => if c.held = [] then some [] else none
  | .cbcPad =>
    if c.enc then
      let p := 16 - c.held.length
      some (blockStep L .cbc true c.chain (c.held ++ List.replicate p (UInt8.ofNat p))).1
    else if c.held.length ≠ 16 then none
    else unpad (blockStep L .cbc false c.chain c.held).1
  | .gcm =>
    if c.enc then some []
    else if (L.gcmTag c.chain c.aad c.seen).take c.tag.length = c.tag then some [] else none
  | .ctr | .cts | .ccm => some []

/-- `block_size` as stored in `OsslCipher` (`ossl/src/cipher.rs:476-483`). -/
def Evp.blockSize (c : Evp) : Nat :=
  match c.mech with
  | .ecb | .cbc | .cbcPad | .cts => 16
  | .ctr | .gcm | .ccm => 1

/-- `buffer_size` (`ossl/src/cipher.rs:715-728`). -/
def Evp.bufferSize (c : Evp) (n : Nat) : Nat :=
  if c.blockSize = 1 then n
  else if n = 0 then c.blockSize
  else if n % c.blockSize = 0 then n else n + c.blockSize - n % c.blockSize

/-- `OsslCipher::update` (`ossl/src/cipher.rs:595-619`). -/
def Evp.osslUpdate (L : AesLib) (c : Evp) (inp : Bytes) (room : Nat) : Option (Bytes × Evp) :=
  if room < c.bufferSize inp.length then none else c.update L inp

/-- `OsslCipher::finalize` (`ossl/src/cipher.rs:649-667`). -/
def Evp.osslFinal (L : AesLib) (c : Evp) (room : Nat) : Option Bytes :=
  if room < c.bufferSize 0 then none else c.final L

/-! ## Operations -/

/-- `AesParams` without the IV generator (`src/ossl/aes.rs:117-130`). -/
structure AesParams where
  iv : Bytes
  maxblocks : Nat
  datalen : Nat
  aad : Bytes
  taglen : Nat
deriving DecidableEq, Repr

/-- `AesOperation` (`src/ossl/aes.rs:143-165`). -/
structure AesOp where
  mech : AesMech
  params : AesParams
  finalized : Bool
  inUse : Bool
  ctx : Evp
  buffer : Bytes
  blockctr : Nat
deriving DecidableEq, Repr

/-- The parameter of a mechanism: none, an IV, a counter block, GCM and CCM parameters. -/
inductive AesParam where
  | none
  | iv (b : Bytes)
  | ctr (bits : Nat) (cb : Bytes)
  | gcm (iv aad : Bytes) (tagBits : Nat)
  | ccm (nonce aad : Bytes) (macLen dataLen : Nat)
deriving DecidableEq, Repr

/-- The loop over the full octets of the counter (`src/ossl/aes.rs:304-309`). -/
def ctrSubFull (cb : Bytes) : Nat → Nat → Nat
  | 0, m => m
  | k + 1, m => ctrSubFull cb k m - (cb.getD (15 - k) 0).toNat * 2 ^ (8 * k)

/-- The limit on the number of blocks (`src/ossl/aes.rs:287-320`).  The bits of the last octet are masked with their number
(`:310-314`). -/
def ctrMaxBlocks (bits : Nat) (cb : Bytes) : Res Nat :=
  if bits < 128 then
    let m := ctrSubFull cb (bits / 8) (2 ^ bits - 1)
    let part := bits % 8
    let m := if part > 0 then m - ((cb.getD (15 - bits / 8) 0).toNat &&& part) * 2 ^ (8 * (bits / 8)) else m
    if m = 0 then .error .mechanismParamInvalid else .ok m
  else if bits > 128 then .error .mechanismParamInvalid
  else .ok 0

/-- `init_params` (`src/ossl/aes.rs:208-430`); `get_parameters` refuses structures of another size
(`src/mechanism.rs`), the length fields are those of the byte strings.  CCM: `1 << (8 * l)` is computed on 64 bits; with a nonce of 7
bytes the shift overflows, which aborts in a debug build (`:215-217`). -/
def aesParams (m : AesMech) (p : AesParam) : Res AesParams :=
  match m, p with
  | .ccm, .ccm nonce aad macLen dataLen =>
    if nonce.length < 7 ∨ nonce.length > 13 then .error .mechanismParamInvalid
    else if nonce.length = 7 then .error .panic
    else if dataLen = 0 ∨ dataLen > 2 ^ (8 * (15 - nonce.length)) ∨ dataLen + macLen ≥ 2 ^ 64 then .error .mechanismParamInvalid
    else if aad.length > 2 ^ 32 - 2 then .error .mechanismParamInvalid
    else if macLen ∉ [4, 6, 8, 10, 12, 14, 16] then .error .mechanismParamInvalid
    else .ok ⟨nonce, 0, dataLen, aad, macLen⟩
  | .gcm, .gcm iv aad tagBits =>
    if iv = [] ∨ iv.length > 2 ^ 32 - 1 then .error .mechanismParamInvalid
    else if aad.length > 2 ^ 32 - 1 then .error .mechanismParamInvalid
    else if tagBits > 128 ∨ tagBits < 8 then .error .mechanismParamInvalid
    else .ok ⟨iv, 0, 0, aad, (tagBits + 7) / 8⟩
  | .ctr, .ctr bits cb => match ctrMaxBlocks bits cb with
    | .error r => .error r
    | .ok n => .ok ⟨cb, n, 0, [], 0⟩
  | .cts, .iv b | .cbc, .iv b | .cbcPad, .iv b => if b.length ≠ 16 then .error .argumentsBad else .ok ⟨b, 0, 0, [], 0⟩
  | .ecb, _ => .ok ⟨[], 0, 0, [], 0⟩
  | _, _ => .error .argumentsBad

/-- `cipher_initialize` without IV generation (`src/ossl/aes.rs:546-591`). -/
def aesCtx (m : AesMech) (p : AesParams) (enc : Bool) : Evp := ⟨m, enc, p.iv, [], 0, [], p.aad, p.taglen, []⟩

/-- `encrypt_new` and `decrypt_new` (`src/ossl/aes.rs:594-669`), for a key of a valid size. -/
def aesNew (m : AesMech) (p : AesParam) (enc : Bool) : Res AesOp :=
  match aesParams m p with
  | .error r => .error r
  | .ok p => .ok ⟨m, p, false, false, aesCtx m p enc, [], 0⟩

namespace AesOp

/-- `op_err` (`src/ossl/aes.rs:734-737`). -/
def opErr {α : Type} (o : AesOp) (r : Rv) : Res α × AesOp := (.error r, { o with finalized := true })

/-- `MAX_CCM_BUF` (`src/ossl/aes.rs:27`). -/
abbrev maxCcmBuf : Nat := 2 ^ 20

/-- `encryption_len` (`src/ossl/aes.rs:1471-1543`). -/
def encryptionLen (o : AesOp) (n : Nat) (fin : Bool) : Res Nat × AesOp :=
  if fin then
    match o.mech with
    | .ccm =>
      if n + o.buffer.length > o.params.datalen then o.opErr .dataLenRange
      else (.ok (o.buffer.length + n + o.params.taglen), o)
    | .gcm => (.ok (n + o.params.taglen), o)
    | .ctr | .cts => (.ok n, o)
    | .cbc | .ecb =>
      if (o.buffer.length + n) % 16 ≠ 0 then o.opErr .dataLenRange else (.ok (o.buffer.length + n), o)
    | .cbcPad => (.ok ((o.buffer.length + n + 16) / 16 * 16), o)
  else
    match o.mech with
    | .ccm => (.ok (o.params.datalen + o.params.taglen), o)
    | .gcm => (.ok (n + o.params.taglen), o)
    | .ctr | .cts => (.ok n, o)
    | .cbc | .ecb | .cbcPad => (.ok ((o.buffer.length + n) / 16 * 16), o)

/-- The part on ECB and CBC that encryption and decryption share (`src/ossl/aes.rs:1293-1323`, `:1347-1355`; `:1747-1777`,
`:1801-1812`). -/
def blockUpdate (L : AesLib) (o : AesOp) (inp : Bytes) (room : Nat) : Res Bytes × AesOp :=
  let first : Res (Bytes × Nat) × AesOp :=
    if o.buffer ≠ [] ∧ o.buffer.length + inp.length ≥ 16 then
      let off := 16 - o.buffer.length
      match o.ctx.osslUpdate L (o.buffer ++ inp.take off) room with
      | none => ({ o with buffer := o.buffer ++ inp.take off }).opErr .deviceError
      | some (out, ctx) =>
        if out.length ≠ 16 then ({ o with buffer := o.buffer ++ inp.take off, ctx := ctx }).opErr .deviceError
        else (.ok (out, off), { o with buffer := [], ctx := ctx })
    else (.ok ([], 0), o)
  match first with
  | (.error r, o) => (.error r, o)
  | (.ok (out, off), o) =>
    let trailer := (inp.length - off) % 16
    let stop := inp.length - trailer
    let o := { o with buffer := o.buffer ++ inp.drop stop }
    if stop - off > 0 then
      match o.ctx.osslUpdate L ((inp.take stop).drop off) (room - out.length) with
      | none => o.opErr .deviceError
      | some (out', ctx) => (.ok (out ++ out'), { o with ctx := ctx })
    else (.ok out, o)

/-- `if plain_end - plain_offset > 0 { ctx.update(..) }` for the modes that hand the whole input over (`src/ossl/aes.rs:1347-1355`,
`:1801-1812`). -/
def plainUpdate (L : AesLib) (o : AesOp) (inp : Bytes) (room : Nat) : Res Bytes × AesOp :=
  if inp.length > 0 then
    match o.ctx.osslUpdate L inp room with
    | none => o.opErr .deviceError
    | some (out, ctx) => (.ok out, { o with ctx := ctx })
  else (.ok [], o)

/-- The counter limit of CTR (`src/ossl/aes.rs:1239-1249`, `:1622-1633`). -/
def ctrCount (o : AesOp) (n : Nat) : Res Unit × AesOp :=
  if o.params.maxblocks ≠ 0 then
    let req := (n + 15) / 16
    if o.blockctr + req > o.params.maxblocks then o.opErr .dataLenRange
    else (.ok (), { o with blockctr := o.blockctr + req })
  else (.ok (), o)

/-- CTS (`src/ossl/aes.rs:1324-1343`, `:1778-1797`): with less than two blocks of room the output is copied from an internal buffer
by `copy_from_slice`, which panics unless the room is exactly the length of the output. -/
def ctsUpdate (L : AesLib) (o : AesOp) (inp : Bytes) (room : Nat) : Res Bytes × AesOp :=
  if room < 32 then
    match o.ctx.osslUpdate L inp 32 with
    | none => o.opErr .deviceError
    | some (out, ctx) =>
      let o := { o with ctx := ctx }
      if out.length ≠ inp.length then o.opErr .deviceError
      else if room ≠ out.length then (.error .panic, o)
      else (.ok out, o)
  else o.plainUpdate L inp room

/-- `encrypt_update` (`src/ossl/aes.rs:1197-1361`), the cases of the mechanism brought together. -/
def encryptUpdate (L : AesLib) (o : AesOp) (plain : Bytes) (room : Nat) : Res Bytes × AesOp :=
  if o.finalized then (.error .operationNotInitialized, o)
  else
    let o := { o with inUse := true }
    match o.mech with
    | .ecb | .cbc | .cbcPad =>
      if room < (o.buffer.length + plain.length) / 16 * 16 then (.error .bufferTooSmall, o)
      else o.blockUpdate L plain room
    | .ctr => match o.ctrCount plain.length with
      | (.error r, o) => (.error r, o)
      | (.ok (), o) => if room < plain.length then (.error .bufferTooSmall, o) else o.plainUpdate L plain room
    | .gcm => if room < plain.length + o.params.taglen then (.error .bufferTooSmall, o) else o.plainUpdate L plain room
    | .cts =>
      if plain.length < 16 then o.opErr .dataLenRange
      else if o.blockctr ≠ 0 then o.opErr .operationNotInitialized
      else
        let o := { o with blockctr := 1 }
        if room < plain.length then (.error .bufferTooSmall, o) else o.ctsUpdate L plain room
    | .ccm =>
      if o.params.datalen > maxCcmBuf ∧ plain.length ≠ o.params.datalen then o.opErr .dataLenRange
      else if plain.length + o.buffer.length > o.params.datalen then o.opErr .dataLenRange
      else
        let outlen := if plain.length + o.buffer.length < o.params.datalen then 0 else o.params.datalen + o.params.taglen
        if room < outlen then (.error .bufferTooSmall, o)
        else if plain.length < o.params.datalen then
          let o := { o with buffer := o.buffer ++ plain }
          if o.buffer.length = o.params.datalen then
            match o.ctx.osslUpdate L o.buffer room with
            | none => o.opErr .deviceError
            | some (out, ctx) =>
              if out.length ≠ o.params.datalen then ({ o with ctx := ctx }).opErr .deviceError
              else (.ok out, { o with ctx := ctx, buffer := [] })
          else (.ok [], o)
        else o.plainUpdate L plain room

/-- `encrypt_final` (`src/ossl/aes.rs:1367-1464`); `get_tag` fails when CCM has seen no data. -/
def encryptFinal (L : AesLib) (o : AesOp) (room : Nat) : Res Bytes × AesOp :=
  if o.finalized then (.error .operationNotInitialized, o)
  else if !o.inUse then (.error .operationNotInitialized, o)
  else match o.mech with
    | .gcm | .ccm =>
      if room < o.params.taglen then (.error .bufferTooSmall, o)
      else match o.ctx.osslFinal L room with
        | none => (.error .deviceError, o)
        | some out =>
          if out ≠ [] then o.opErr .deviceError
          else
            let tag := match o.mech with
              | .gcm => L.gcmTag o.ctx.chain o.ctx.aad o.ctx.seen
              | _ => o.ctx.tag
            if tag.length < o.params.taglen then (.error .deviceError, o)
            else (.ok (tag.take o.params.taglen), { o with finalized := true })
    | .ctr =>
      if o.params.maxblocks > 0 ∧ o.blockctr ≥ o.params.maxblocks then o.opErr .dataLenRange
      else (.ok [], { o with finalized := true })
    | .cts => (.ok [], { o with finalized := true })
    | .ecb | .cbc =>
      if o.buffer ≠ [] then o.opErr .dataLenRange
      else match o.ctx.osslFinal L 16 with
        | none => o.opErr .deviceError
        | some out => if out ≠ [] then o.opErr .deviceError else (.ok [], { o with finalized := true })
    | .cbcPad =>
      if room < 16 then (.error .bufferTooSmall, o)
      else
        let o := { o with finalized := true }
        let upd : Option (Bytes × Evp) := if o.buffer ≠ [] then o.ctx.osslUpdate L o.buffer room else some ([], o.ctx)
        match upd with
        | none => (.error .deviceError, o)
        | some (out, ctx) =>
          let o := { o with ctx := ctx }
          if out ≠ [] then (.error .deviceError, o)
          else match o.ctx.osslFinal L room with
            | none => (.error .deviceError, o)
            | some out => if out.length ≠ 16 then (.error .deviceError, o) else (.ok out, o)

/-- `encrypt` (`src/ossl/aes.rs:1184-1193`). -/
def encrypt (L : AesLib) (o : AesOp) (plain : Bytes) (room : Nat) : Res Bytes × AesOp :=
  if o.finalized then (.error .operationNotInitialized, o)
  else match o.encryptUpdate L plain room with
    | (.error r, o) => (.error r, o)
    | (.ok out, o) =>
      if out.length > room then o.opErr .generalError
      else match o.encryptFinal L (room - out.length) with
        | (.error r, o) => (.error r, o)
        | (.ok out', o) => (.ok (out ++ out'), o)

/-- `decryption_len` (`src/ossl/aes.rs:1913-1999`). -/
def decryptionLen (o : AesOp) (n : Nat) (fin : Bool) : Res Nat × AesOp :=
  if fin then
    match o.mech with
    | .gcm =>
      if o.buffer.length + n < o.params.taglen then o.opErr .encryptedDataLenRange
      else (.ok (o.buffer.length + n - o.params.taglen), o)
    | .ccm =>
      if o.buffer.length + n > o.params.datalen + o.params.taglen then o.opErr .encryptedDataLenRange
      else (.ok (o.params.datalen + o.params.taglen), o)
    | .ctr | .cts => (.ok n, o)
    | .cbc | .ecb | .cbcPad =>
      if (o.buffer.length + n) % 16 ≠ 0 then o.opErr .encryptedDataLenRange else (.ok (o.buffer.length + n), o)
  else
    match o.mech with
    | .ccm =>
      if o.buffer.length + n < o.params.taglen then o.opErr .encryptedDataLenRange
      else (.ok (o.buffer.length + n - o.params.taglen), o)
    | .gcm => (.ok (if o.buffer.length + n < o.params.taglen then 0 else o.buffer.length + n), o)
    | .ctr | .cts => (.ok n, o)
    | .cbc | .ecb | .cbcPad => (.ok ((o.buffer.length + n) / 16 * 16), o)

/-- The GCM part of `decrypt_update` (`src/ossl/aes.rs:1702-1746`, `:1801-1812`): up to `taglen` bytes are kept back.  When bytes are
kept back already and more than `taglen` arrive, those kept back are decrypted, the last `taglen` of the new ones are kept, and the
ones before them are skipped: `cipher_offset = cipher_end` (`:1737`). -/
def gcmUpdate (L : AesLib) (o : AesOp) (cipher : Bytes) (room : Nat) : Res Bytes × AesOp :=
  let t := o.params.taglen
  if o.buffer ≠ [] then
    if cipher.length > t then
      match o.ctx.osslUpdate L o.buffer room with
      | none => o.opErr .deviceError
      | some (out, ctx) => (.ok out, { o with ctx := ctx, buffer := cipher.drop (cipher.length - t) })
    else
      let o := { o with buffer := o.buffer ++ cipher }
      if o.buffer.length > t then
        let n := o.buffer.length - t
        match o.ctx.osslUpdate L (o.buffer.take n) room with
        | none => o.opErr .deviceError
        | some (out, ctx) => (.ok out, { o with ctx := ctx, buffer := o.buffer.drop n })
      else (.ok [], o)
  else if cipher.length > t then
    let n := cipher.length - t
    ({ o with buffer := cipher.drop n }).plainUpdate L (cipher.take n) room
  else (.ok [], { o with buffer := cipher })

/-- All of ciphertext and tag is there (`src/ossl/aes.rs:1678-1697`). -/
def ccmOpen (L : AesLib) (o : AesOp) (cbuf : Bytes) (room : Nat) : Res Bytes × AesOp :=
  match ({ o.ctx with tag := cbuf.drop o.params.datalen }).osslUpdate L (cbuf.take o.params.datalen) room with
  | none => o.opErr .deviceError
  | some (out, ctx) => (.ok out, { o with ctx := ctx, buffer := [] })

/-- The CCM part of `decrypt_update` (`src/ossl/aes.rs:1586-1591`, `:1603-1621`, `:1649-1652`, `:1666-1701`). -/
def ccmUpdate (L : AesLib) (o : AesOp) (cipher : Bytes) (room : Nat) : Res Bytes × AesOp :=
  let need := o.params.datalen + o.params.taglen
  if o.params.datalen > maxCcmBuf ∧ cipher.length ≠ need then o.opErr .dataLenRange
  else if room < o.params.datalen then (.error .bufferTooSmall, o)
  else
    let o := if cipher.length < need then { o with buffer := o.buffer ++ cipher } else o
    let cbuf := if cipher.length < need then o.buffer else cipher
    if cbuf.length = need then o.ccmOpen L cbuf room else (.ok [], o)

/-- `decrypt_update` (`src/ossl/aes.rs:1564-1818`), the cases of the mechanism brought together. -/
def decryptUpdate (L : AesLib) (o : AesOp) (cipher : Bytes) (room : Nat) : Res Bytes × AesOp :=
  if o.finalized then (.error .operationNotInitialized, o)
  else match o.mech with
    | .ecb | .cbc | .cbcPad =>
      let o := { o with inUse := true }
      if room < (o.buffer.length + cipher.length) / 16 * 16 then (.error .bufferTooSmall, o)
      else o.blockUpdate L cipher room
    | .ctr => match ({ o with inUse := true }).ctrCount cipher.length with
      | (.error r, o) => (.error r, o)
      | (.ok (), o) => if room < cipher.length then (.error .bufferTooSmall, o) else o.plainUpdate L cipher room
    | .gcm =>
      let o := { o with inUse := true }
      if room < cipher.length + o.buffer.length - o.params.taglen then (.error .bufferTooSmall, o)
      else o.gcmUpdate L cipher room
    | .cts =>
      if cipher.length < 16 then o.opErr .dataLenRange
      else if o.blockctr ≠ 0 then o.opErr .operationNotInitialized
      else
        let o := { o with blockctr := 1, inUse := true }
        if room < cipher.length then (.error .bufferTooSmall, o) else o.ctsUpdate L cipher room
    | .ccm =>
      if cipher.length + o.buffer.length > o.params.datalen + o.params.taglen then o.opErr .dataLenRange
      else ({ o with inUse := true }).ccmUpdate L cipher room

/-- `decrypt_final` (`src/ossl/aes.rs:1824-1906`). -/
def decryptFinal (L : AesLib) (o : AesOp) (room : Nat) : Res Bytes × AesOp :=
  if o.finalized then (.error .operationNotInitialized, o)
  else if !o.inUse then (.error .operationNotInitialized, o)
  else
    let o := { o with finalized := true }
    match o.mech with
    | .ccm => if o.buffer ≠ [] then (.error .dataLenRange, o) else (.ok [], o)
    | .gcm =>
      if o.buffer.length ≠ o.params.taglen then (.error .dataLenRange, o)
      else
        let o := { o with ctx := { o.ctx with tag := o.buffer } }
        match o.ctx.osslFinal L room with
        | none => (.error .encryptedDataInvalid, o)
        | some out => if out ≠ [] then (.error .deviceError, o) else (.ok [], o)
    | .ctr => if o.params.maxblocks > 0 ∧ o.blockctr ≥ o.params.maxblocks then (.error .dataLenRange, o) else (.ok [], o)
    | .cts => (.ok [], o)
    | .ecb | .cbc =>
      if o.buffer ≠ [] then (.error .dataLenRange, o)
      else match o.ctx.osslFinal L 16 with
        | none => (.error .encryptedDataInvalid, o)
        | some out => if out ≠ [] then (.error .deviceError, o) else (.ok [], o)
    | .cbcPad =>
      if o.buffer ≠ [] then (.error .dataLenRange, o)
      else match o.ctx.osslFinal L room with
        | none => (.error .encryptedDataInvalid, o)
        | some out => (.ok out, o)

/-- `decrypt` (`src/ossl/aes.rs:1551-1560`). -/
def decrypt (L : AesLib) (o : AesOp) (cipher : Bytes) (room : Nat) : Res Bytes × AesOp :=
  if o.finalized then (.error .operationNotInitialized, o)
  else match o.decryptUpdate L cipher room with
    | (.error r, o) => (.error r, o)
    | (.ok out, o) =>
      if out.length > room then o.opErr .generalError
      else match o.decryptFinal L (room - out.length) with
        | (.error r, o) => (.error r, o)
        | (.ok out', o) => (.ok (out ++ out'), o)

end AesOp

/-! ## The calls of the application -/

/-- C_EncryptUpdate and C_DecryptUpdate, C_EncryptFinal and C_DecryptFinal, C_Encrypt and C_Decrypt.  `none` for the room is a NULL
buffer: the call asks for a length. -/
inductive AesCall where
  | update (part : Bytes) (room : Option Nat)
  | final (room : Option Nat)
  | oneShot (data : Bytes) (room : Option Nat)
deriving DecidableEq, Repr

/-- The answer of a successful call: bytes written, or the length asked for. -/
inductive AesOut where
  | data (b : Bytes)
  | len (n : Nat)
deriving DecidableEq, Repr

/-- The answer of an operation as the answer of a call. -/
def aesData : Res Bytes × AesOp → Res AesOut × AesOp
  | (.ok b, o) => (.ok (.data b), o)
  | (.error r, o) => (.error r, o)

/-- The answer of a length query as the answer of a call. -/
def aesLen : Res Nat × AesOp → Res AesOut × AesOp
  | (.ok n, o) => (.ok (.len n), o)
  | (.error r, o) => (.error r, o)

/-- One call on the active operation, encryption (`src/fns/encryption.rs:84-122`, `:159-182`, `:239-276`) or decryption (`:361-400`,
`:433-456`, `:519-552`); a finalised operation is no longer found (`src/session.rs:100-112`). -/
def aesCall (L : AesLib) (o : AesOp) (c : AesCall) : Res AesOut × AesOp :=
  if o.finalized then (.error .operationNotInitialized, o)
  else if o.ctx.enc then
    match c with
    | .update p none => aesLen (o.encryptionLen p.length false)
    | .update p (some room) => aesData (o.encryptUpdate L p room)
    | .final none => aesLen (o.encryptionLen 0 true)
    | .final (some room) => aesData (o.encryptFinal L room)
    | .oneShot d none => aesLen (o.encryptionLen d.length true)
    | .oneShot d (some room) => aesData (o.encrypt L d room)
  else
    match c with
    | .update p none => aesLen (o.decryptionLen p.length false)
    | .update p (some room) => aesData (o.decryptUpdate L p room)
    | .final none => aesLen (o.decryptionLen 0 true)
    | .final (some room) => aesData (o.decryptFinal L room)
    | .oneShot d none => aesLen (o.decryptionLen d.length true)
    | .oneShot d (some room) => aesData (o.decrypt L d room)

/-- A run of calls with its answers. -/
def aesRun (L : AesLib) (o : AesOp) : List AesCall → List (Res AesOut) × AesOp
  | [] => ([], o)
  | c :: cs =>
    let (r, o) := aesCall L o c
    let (rs, o) := aesRun L o cs
    (r :: rs, o)

/-! ## IV generation of the message calls -/

/-- The generators (`src/ossl/aes.rs:495-535`); CKG_GENERATE is the counter. -/
inductive IvKind where
  | noGen | counter | counterXor | random
deriving DecidableEq, Repr

/-- What C_EncryptMessageBegin is given about the IV: the content of the application's buffer, the fixed bits, the generator. -/
structure IvReq where
  buf : Bytes
  fixed : Nat
  kind : IvKind
deriving DecidableEq, Repr

/-- The part of `AesIvData` that lasts from message to message (`src/ossl/aes.rs:74-77`, `:871-877`). -/
structure IvGen where
  counter : Nat
  maxcount : Nat
deriving DecidableEq, Repr

/-- `1u8 << bits` less one, or all ones (`src/ossl/aes.rs:491-492`). -/
def ivMask (genbits : Nat) : UInt8 := if genbits % 8 = 0 then 0xff else UInt8.ofNat (2 ^ (genbits % 8) - 1)

/-- CKG_GENERATE and CKG_GENERATE_COUNTER (`src/ossl/aes.rs:496-510`). -/
def ivCounter (buf : Bytes) (fixed c : Nat) : Bytes :=
  let genbits := buf.length * 8 - fixed
  let genidx := fixed / 8
  let mask := ivMask genbits
  let genbytes := (genbits + 7) / 8
  let cnt := toBE 8 c
  if genbytes > 8 then
    buf.take genidx ++ [buf.getD genidx 0 &&& ~~~mask] ++ List.replicate (buf.length - 8 - (genidx + 1)) 0 ++ cnt
  else
    buf.take genidx ++ [(buf.getD genidx 0 &&& ~~~mask) ||| (cnt.getD (8 - genbytes) 0 &&& mask)] ++ cnt.drop (8 - genbytes + 1)

/-- CKG_GENERATE_COUNTER_XOR (`src/ossl/aes.rs:511-527`). -/
def ivCounterXor (buf : Bytes) (fixed c : Nat) : Bytes :=
  let genbits := buf.length * 8 - fixed
  let genidx := fixed / 8
  let mask := ivMask genbits
  let genbytes := (genbits + 7) / 8
  let cnt := toBE 8 c
  if genbytes > 8 then buf.take (buf.length - 8) ++ xorBytes (buf.drop (buf.length - 8)) cnt
  else
    buf.take genidx ++ [buf.getD genidx 0 ^^^ (cnt.getD (8 - genbytes) 0 &&& mask)] ++
      xorBytes (buf.drop (genidx + 1)) (cnt.drop (8 - genbytes + 1))

/-- CKG_GENERATE_RANDOM with the bytes `rnd` drawn (`src/ossl/aes.rs:528-533`). -/
def ivRandom (buf : Bytes) (fixed : Nat) (rnd : Bytes) : Bytes :=
  let genidx := fixed / 8
  buf.take genidx ++ [buf.getD genidx 0 ^^^ (rnd.getD 0 0 &&& ivMask (buf.length * 8 - fixed))] ++ rnd.drop 1

/-- `generate_iv` (`src/ossl/aes.rs:476-539`). -/
def generateIv (g : IvGen) (q : IvReq) (rnd : Bytes) : Res Bytes × IvGen :=
  let genbits := q.buf.length * 8 - q.fixed
  let g := if g.counter = 0 then { g with maxcount := if genbits ≥ 64 then 2 ^ 64 - 1 else 2 ^ genbits } else g
  if g.counter ≥ g.maxcount then (.error .dataLenRange, g)
  else
    let g' := { g with counter := g.counter + 1 }
    match q.kind with
    | .noGen => (.error .generalError, g)
    | .counter => (.ok (ivCounter q.buf q.fixed g.counter), g')
    | .counterXor => (.ok (ivCounterXor q.buf q.fixed g.counter), g')
    | .random => (.ok (ivRandom q.buf q.fixed rnd), g')

/-- The IV part of `init_msg_params` for encryption, of `cipher_initialize` and `msg_encrypt_new` (`src/ossl/aes.rs:832-877`, `:553-555`,
`:1003-1045`): the IV of the next message, which is also copied to the application's buffer.  Simplification: the message before has been
completed; a refused message (`in_use` then stays set, `:1025`) does not end the run. -/
def ivBegin (g : IvGen) (q : IvReq) (rnd : Bytes) : Res Bytes × IvGen :=
  if q.buf = [] ∨ q.buf.length > 2 ^ 32 - 1 then (.error .argumentsBad, g)
  else if q.fixed > q.buf.length * 8 then (.error .argumentsBad, g)
  else if q.kind = .random ∧ q.buf.length * 8 - q.fixed < 64 then (.error .argumentsBad, g)
  else if q.kind ≠ .noGen ∧ q.buf.length * 8 - q.fixed = 0 then (.error .argumentsBad, g)
  else if q.kind = .noGen then (.ok q.buf, g)
  else generateIv g q rnd

/-- The IVs of a series of messages after C_MessageEncryptInit (`src/ossl/aes.rs:978-1000`), with the random bytes drawn. -/
def ivRun (g : IvGen) : List (IvReq × Bytes) → List (Res Bytes)
  | [] => []
  | (q, rnd) :: qs =>
    let (r, g) := ivBegin g q rnd
    r :: ivRun g qs

end Kry
