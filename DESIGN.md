# Formal model of kryoptic (PKCS#11 software token) in Lean 4

Source: `/repo` (latchset/kryoptic, Rust), read as text; nothing is built or run.
Model, specifications and proofs: `/verif/lean/Verif/`.

## 1. Layout

| directory            | content |
|----------------------|---------|
| `Verif/Model/`       | the model: executable, total functions, each with the file and lines it models |
| `Verif/Spec/`        | small independent specifications (what the property means), no model helper inside |
| `Verif/Proofs/`      | helper lemmas |
| `Verif/Props/`       | the property theorems, one file per area, with non-vacuity examples beside them |

Conventions of the model:

* `&mut` arguments become returned values; a function that may fail after mutating
  returns both the result and the new state, so that error paths keep their side effects
  exactly as the code does.
* `CK_RV` codes are constructors of the inductive type `Rv`; a Rust panic is the explicit
  value `Rv.panic`.
* Bytes are `UInt8`; sizes and handles are `Nat` except where the width matters
  (counters, database integers, encodings), where the bound is explicit.
* Everything the code takes from outside (random numbers, uuids, database faults, the
  result of a cryptographic primitive) is an input of the step, so theorems quantify over it.
* Hash maps are association lists; no theorem depends on their order.

## 2. Trusted base

* Lean 4.33.0's kernel. Axioms: at most `propext`, `Classical.choice`, `Quot.sound`
  (section 6 lists them per theorem). No axiom is added; no `sorry`, `native_decide`, `bv_decide`.
  No Mathlib module is imported.
* The reading of the Rust sources (the citations beside each definition).
* Cryptography is ideal. `Crypto` (Model/Env) is a structure of functions with these laws
  as fields: decryption inverts encryption (`dec_enc`), what decrypts was encrypted so (`enc_of_dec`),
  encryption, the PIN key and the per-object key are injective (`enc_inj`, `kek0_inj`, `dek_inj`), and the
  encoding of the envelope is read back (`parse_der`). The laws are satisfiable: `exCrypto` in
  Props/MachineEx is an instance. Real ciphers meet them only up to negligible probability.
* The PIN key is a function of the PIN padded as the code pads it (`pinKey`), so the padding weakness of C05 is visible.
* SQLite: a transaction becomes permanent entirely or not at all, and statements have their SQL meaning
  (Model/Sqlite for the rows, Model/SqlTx for the statement lists of C28).
* `uuid` values come from the environment; theorems that need them to be fresh say so.
* OpenSSL's EVP ciphers behave as `Evp` (Model/Aes) says: whole blocks are processed as they come, decryption with padding holds the last
  block back, CCM takes the message in one piece, GCM checks the tag at the end; `AesLib` has the block cipher, the GCM key stream and tag,
  CCM and CTS as functions with laws on lengths and inverses. The laws are satisfiable: `exAesLib` in Props/C52 is an instance.
* TOML parsing, the file system and `getenv` are parameters of Model/Config.
* A hash is an arbitrary function `HashAlg` with a fixed output length not above the block length (`Spec.HashOk`, satisfied by the toy `exHash` in Props/C50); with the sizes of the standards it is `Spec.HashLens` (C84, instance `toyHash`).
  No theorem about HMAC or a key derivation needs more of it.
* OpenSSL's CMAC is `CmacLib`: a function of the key value and the whole message with 16 bytes of output, however the message is cut (C87, instance `exCmac`).
* OpenSSL's HKDF is a parameter assumed to compute RFC 5869 or to fail (`Spec.HkdfOk`, satisfied by `exHkdfLib` in Props/C65).
* SHA-1, PBKDF2, AES-CBC, HMAC-SHA256 and the DER codec used by the NSS database are the parameter `NssLib`; theorems that need it assume `Spec.NssOk`
  (decryption undoes encryption, DER is read back, lengths), satisfied by `exNss` in Props/C66.  SQLite is modelled as tables (Model/NssDb).
* The crate `asn1` (version 0.24, not in the repository) reads and writes DER as Model/Der says, from its documentation: shortest lengths of at most four bytes,
  one-byte tags, nothing left over in a SEQUENCE.  Whether optional parts the code drops do parse is a parameter.
* OpenSSL's ECDSA is the parameter `EcdsaPrims`; C77_verifies assumes that it accepts its own signatures and writes them in DER (instance: `exEcPrims` in Props/C77).
* OpenSSL's RSA is the parameter `RsaPrims` with the laws `Spec.RsaPair` (C78); its ML-DSA and SLH-DSA are `PqEnv` with the laws `Spec.Follows` (C79, instance
  `pqToy_follows`); its EdDSA is `EdEnv` with the laws `Spec.EdFollows` (C80, instance `edToy_follows`);
  its key agreement is `DhEnv` with the laws `Spec.EcdhKey`, `Spec.FfdhKey`, `Spec.KdfOk` (C81, instances `toyEc`, `toyFf`, `toyKdf`); its ML-KEM is `KemEnv` with the laws `Spec.KemPair`, `Spec.KemLens` (C82, instance `toyKem`) and key import (C83, instance `toyMl`).

## 3. Plan per property

"Violated" means that the source does not have the property: the negation is proved with a concrete
history, and the part that holds is proved for all histories under the named restriction.

| id | what is modelled | how it is proved |
|----|------------------|------------------|
| C01 | global state: slots, session map, handle counter | invariant over call histories; refinement to the set of open sessions computed from the trace |
| C02 | session states and token login | invariant; violated for the SO and after a failed logout |
| C03, C04 | same | invariants and step theorems |
| C05 | ACI records, attempt counter | refinement of the stored record to (pin, failures) over attempt histories; violated by padding and by uncounted attempts |
| C06 | flag derivation | equation for every counter value; violated for COUNT_LOW and after C_InitPIN |
| C07 | ACI key hierarchy with ideal encryption | step theorems |
| C08 | token state machine | every change of a PIN record is one of the authorised calls |
| C09 | `reinit` as four transactions | step theorems; violated in the crash window |
| C10 | `Handles` and its users | invariants over histories |
| C11 | token and sessions | every session object belongs to an open session; frame lemmas |
| C12 | every call naming an object | per-call theorems; violated for session objects, sizes, running operations and searches |
| C13 | attribute reading, changing, copying | two-run non-interference; violated through class changes, DH keys, merging |
| C14 | factory tables, set and copy | invariant over edit histories, lifted to the machine and across restarts |
| C15 | `internal_object_create` | sound and complete against an independent specification |
| C16, C17 | all template paths; key lives | proved for the paths that comply, violated for the others |
| C18 | set, copy, destroy | step theorems on reachable states |
| C19 | read-only sessions | step theorem over all calls; violated by copy, counters, additional derived keys |
| C20 | destroy with faults | invariant over later histories, restarts included; violated when removal fails |
| C21 | search, draining, SQL intersection | exact characterisation; violated for encrypted attributes and double listing |
| C22, C23 | operation slots and login status of a session | refinement to a notebook; violations |
| C24, C25 | wrap decision, allowed mechanisms, usage flags | decision theorems for every reachable state |
| C26 | key pairs and derivation with faults | theorem for every failure point; violations |
| C27 | rows, attribute encodings, ACI encryption | round trips and stability over runs with faults, crashes, restarts; C_SetAttributeValue, C_CopyObject and every call that makes a key |
| C28 | transactions as statement lists with crash points | all-or-nothing theorem |
| C29 | ideal authenticated encryption, tampered tables | theorem over every table an attacker can write |
| C30 | same | invariant over histories; violations |
| C31, C32 | get-attribute loop, list calls | theorems for all lists and sizes |
| C33 | mechanism filter | theorems for all lists and every call |
| C34 | configuration merge | invariant over sequences; violated for files |
| C35 | `copy_sized_string`, token information | for all texts and every reachable state |
| C36 | attribute conversions | round trips |
| C37 | ATTRMAP, name tables, binary search | whole-table `decide` lifted by a lemma |
| C38 | HOTP operation and counter update | arithmetic and histories; violations |
| C39 | SP 800-108 | for all parameter lists; violations |
| C40 | NSS configuration parser | for all byte strings; violations |
| C41 | FIPS indicator | induction over calls; violations |
| C42 | saved operations | round trip; violations |
| C43 | message protocol | refinement to a notebook; violation |
| C44 | merging of duplicates | theorem for every history |
| C45, C46 | simple derivation mechanisms | equations; violations |
| C47 | lock order of every API call | deadlock freedom for any number of threads under a restriction; violations |
| C48 | key sizes at every creating path | theorems and violations |
| C49 | C_SetAttributeValue | frame and refusal theorems; violation |
| C50 | HMAC operation | equality with the definition for every key and every split |
| C51 | FIPS key rules | whole-table theorems; violations |
| C52 | AES ECB, CBC, CBC_PAD encryption | induction over the calls: what was written is the encryption of what was accepted minus what is held back |
| C53 | the same, decryption | the same invariant; round trip for what encryption gave; violations for padding |
| C54 | AES CTR | stream invariant; arithmetic of the counter limit; violations |
| C55 | IV generation of message encryption | invariant on the counter, injectivity of the counter field; violations |
| C56 | AES-MAC | invariant on chaining block and remainder; violations |
| C57, C58 | AES GCM and CCM | invariants on context and buffer; equivalence of success and authenticity; violations |
| C59 | retry of AES calls | a refused call changes nothing that matters; violations |
| C60, C61 | TLS 1.2 derivation and MAC | equality with the RFC's stream for all sizes, by induction over the loop; violations |
| C62 | SSH key derivation | the same; violations |
| C63, C64 | PBKDF2, derivation by hashing | equality with the standard for all counts and lengths, by induction over the loops; violations |
| C65 | HKDF | parameters, salt, kind and length of the object; the hash part is assumed; violations |
| C66 | login to an NSS database | exact answer after a restart; by induction the right PIN is never locked out by PINs that do not decrypt; violations |
| C67 | PIN change of an NSS database | rows untouched; invariant on the keys at hand; violations |
| C68 | objects of an NSS database read back | round trip through columns, encryption and signatures, loops by induction; after a restart too; violations |
| C69 | secrets and signatures of an NSS database | two runs with equal ciphertexts write the same; loop invariant on the keys for signatures; violations |
| C70 | search of an NSS database | exact set of rows under an invariant (`tidy`) kept by every store; stored objects; violations |
| C71 | C_DestroyObject on an NSS database | the handle is dead; violation: the object is not removed |
| C72 | no login, NSS database | every template; columns read are those of the row |
| C73 | frame of the calls on an NSS database | every other row, every metadata row of another id; invariant over every run of calls (re-initialisation is not among them) |
| C74 | C_SetAttributeValue on an NSS database | the attributes that are not encrypted, when the object is read; violations |
| C75 | PKCS#8 of RSA keys | DER writer and reader proved inverse; export and import for every template; violations by witness |
| C76 | PKCS#8 of EC, Edwards and Montgomery keys | same; violations of RFC 8410 by witness |
| C77 | ECDSA | conversions by arithmetic on the halves; operation with OpenSSL as a parameter |
| C78 | RSA operations | operation with OpenSSL as a parameter (laws in `Spec.RsaPair`); violations by theorem |
| C79 | ML-DSA, SLH-DSA | M' against a separate specification (`Spec.toSign`), injectivity by lengths; OpenSSL as a parameter (`Spec.Follows`); violations by theorem |
| C80 | EdDSA | operation with OpenSSL as a parameter (`Spec.EdFollows`), variant against a separate table; violations by theorem |
| C81 | key agreement | shape of a success; key against a separate specification (`Spec.KeyOf`, `Spec.LenOf`), which determines it; OpenSSL as a parameter (`Spec.EcdhKey`, `Spec.FfdhKey`, `Spec.KdfOk`); violations by theorem |
| C82 | ML-KEM | the two calls on the machine, new keys as storage gives them back (`Spec.Seen`), two independent histories; OpenSSL as a parameter (`Spec.KemPair`, `Spec.KemLens`) |
| C83 | imported ML-KEM and ML-DSA keys | the checks of `create` and CKM_PUB_KEY_FROM_PRIV_KEY on the machine, objects as storage gives them back; lengths, key types and object identifiers from the standards in `Spec.mlRow`, DER read by a separate reader (`Spec.IsSpki`); OpenSSL and the ASN.1 parser as a parameter (`Spec.MlLens`, `Spec.ReadsSpki`); partial: two counterexamples |
| C84 | HMAC and digests through the calls | the operations of C50 and C79 put into the machine (`withMac`); a notebook (`Spec.feeds`) tells from calls and answers which parts an operation was given, an induction over any trace (`Proofs/Follow`) shows the operation of the machine was fed exactly these; sizes and blocks from a table after FIPS 180-4 and FIPS 202 (`Spec.hashTable`). The notebook makes no claim after a failed part, a dual-function call answered by an error, or C_DigestKey |
| C85 | operations apart | two runs of the machine compared: the whole trace and the calls of one operation; invariant: every session with the handle holds the operation that its own calls make (`Proofs/Alone`); mechanisms are the parameter `Mechs`, only required not to change stored objects (`Spec.Stateless`, shown for HMAC and digests) |
| C86 | AES through the calls | the operations of C52–C58 put into the machine (`withAes`); by `Proofs/Alone` the exchange of an operation in any trace is a run of that operation alone (`C86_calls`), to which the theorems of C52, C53, C54, C57, C58 apply; the exceptions are theirs (a first part of less than a block in CBC with padding, GCM decryption by parts, CCM decryption of nothing) |
| C87 | AES-MAC and CMAC through the calls | both operations put into the machine (`withAesMac`); `Proofs/Exchange` (`went_sim`): the answers of an operation in any trace are those of any description that it follows alone; the description `macTalk` is followed by CMAC (`cmac_behaves`) and AES-MAC (`mac_behaves`, by the invariant of C56); the theorems by induction over the exchange |
| C88 | EdDSA through the calls | the operation of C80 put into the machine (`withEd`); it follows the description `edTalk` alone (`ed_solo`), hence by `went_sim` in any trace (`C88_talk`); induction over the exchange gives what was fed (`edTalk_run`) |
| C89 | ECDSA through the calls | the operation of C77 put into the machine (`withEc`); it follows the description `sigTalk` alone (`ec_solo`), hence by `went_sim` in any trace (`C89_talk`); `sigTalk` is the common description of signature operations (`Proofs/SigTalk.lean`); the specification speaks of the two numbers of a signature (`Spec.EcCore`, `Spec.EcFollows`). Partial: a signature that is not accepted is answered with CKR_DEVICE_ERROR (`C89_invalid_violation`) |
| C90 | RSA signatures through the calls | the operation of C78 put into the machine (`withRsa`); it follows the description `sigTalk` alone (`rsa_solo`), hence by `went_sim` in any trace (`C90_talk`); the specification speaks of a function from messages to signatures and one that accepts them (`Spec.RsaCore`, `Spec.RsaFollows`) and of the limits of the paddings (`Spec.maySign`). Partial: a signature that is not accepted is answered with CKR_DEVICE_ERROR (`C90_invalid_violation`) |
| C91 | ML-DSA and SLH-DSA through the calls | the operation of C79 put into the machine (`withPq`); it follows the description `sigTalk` alone (`pq_solo`), hence by `went_sim` in any trace (`C91_talk`); the specification is that of C79: M' by `Spec.toSign`, the algorithms over M' by `Spec.PqCore`, and that OpenSSL follows them by `Spec.Follows`. Partial: a signature that is not accepted is answered with CKR_DEVICE_ERROR (`C91_invalid_violation`), and CKM_SLH_DSA, or CKM_ML_DSA with an OpenSSL that takes no parts, where the token collects up to 1 MiB, are not covered |
| C92 | Starts of signatures | relational: one successful start fixes session, token state and key, so that the answer for another parameter and signature is that of the mechanism alone (`start_swap`), compared with small tables (`Spec.macAnswer`, `Spec.pqAnswer`, `Spec.lenAnswer`). Partial: CKM_EDDSA takes a signature of any length (`C92_eddsa_violation`); parameters of RSA-PSS are in C93 |
| C93 | Numbers of mechanisms | the numbers of PKCS #11 are written out as functions from algorithms to numbers (`Spec.rsaMeans`, `Spec.pqNumber`, `Spec.pqSetNumber`, `Spec.aesNumber`, `Spec.macNumber`, `Spec.ecdsaNo`), and the tables of the model, which go the other way, agree with them for every number; refusals of RSA-PSS through a session by `start_swap`. Partial: a hash may also be given by a MAC or signature mechanism (`C93_hash_violation`); SHA-512/224 and SHA-512/256 as the hash of a parameter are not modelled |

## 4. What is modelled

| model file | source |
|------------|--------|
| Attr, AttrMap, Base | `src/attribute.rs`, `src/error.rs`: attribute values, conversions, the ATTRMAP table, error codes |
| Names, NameLookup, Consts | `src/pkcs11/mod.rs`, `src/pkcs11/vendor.rs`: constants and name tables |
| Object | `src/object/mod.rs`: an object, its attribute list, matching, C_GetAttributeValue |
| Factory0, FactoryTables, Factory | `src/object/factory.rs`, `key.rs`, `certs.rs`, `otp.rs`, and the attribute tables and checks of `aes.rs`, `rsa.rs`, `ec/*.rs`, `ffdh.rs`, `mldsa.rs`, `mlkem.rs`, `slhdsa.rs`, `hotp.rs`, `hkdf.rs`: creation, generation, copy, derivation templates, wrap and unwrap |
| Derive | `src/native/simplekdf.rs`, the value part of `ossl/ecdh.rs`, `ossl/ffdh.rs` |
| Env, Storage | `src/storage/aci.rs`, `src/storage/format.rs`: PIN records, key hierarchy, store, fetch, update, remove, search |
| Sqlite, SqlTx | `src/storage/sqlite.rs`, `sqlite_common.rs`: rows, encodings, queries; the same functions as statement lists |
| Token | `src/token.rs`: login, PINs, initialisation, objects, merging |
| Session | `src/session.rs`, `src/fns/objmgmt.rs`, parts of `fns/stmgmt.rs`, `fns/sessmgmt.rs` |
| Ops | `src/fns/{encryption,signing,digest,dualcrypto,keymgmt}.rs` and the checks of each mechanism's `*_new` functions |
| State | `src/lib.rs`, `src/slot.rs`, `src/fns/{general,sessmgmt,stmgmt}.rs`: the machine `step` |
| Config | `src/config.rs`, slot and mechanism lists |
| NssConfig | `src/storage/nssdb/config.rs` |
| Hmac, Hotp, Sp800 | `src/native/hmac.rs`, `src/hotp.rs`, `src/sp800_108.rs` and `src/native/sp800_108.rs` |
| Fips | `src/fips/indicators.rs`, `src/fips/mod.rs` |
| OpState | saving and restoring operations: `src/session.rs`, `src/ossl/hash.rs`, `src/native/hmac.rs` |
| Aes | `src/ossl/aes.rs`: parameters, encryption and decryption of ECB, CBC, CBC_PAD, CTR, CTS, GCM, CCM with their buffers, IV generation; the calls of `src/fns/encryption.rs` on them; `ossl/src/cipher.rs` |
| AesMac | `src/ossl/aes.rs`: AES-MAC and the calls of `src/fns/signing.rs` on it |
| TlsKdf | `src/native/tlskdf.rs` |
| HashKdf | `src/native/sshkdf.rs`, `src/hash.rs` (key derivation), `src/misc.rs` (derived objects) |
| Pbkdf2 | `src/pbkdf2.rs`, `src/native/pbkdf2.rs` |
| Hkdf | `src/ossl/hkdf.rs`, the checks of `derive_key` in `src/fns/keymgmt.rs` for it |
| NssAttrs | `src/storage/nssdb/attrs.rs`, generated by `tools/gen_nss.py` |
| NssKeys | `src/storage/nssdb/ci.rs` |
| NssDb | `src/storage/nssdb/mod.rs` without configuration, token information and opening |
| NssTok | token objects in `src/token.rs` (`search_objects`, `get_object_attrs`, `set_object_attrs`, `destroy_object`) over that storage |
| Der | `src/kasn1/mod.rs` (`DerEncBigUint`) and the reading and writing of DER by the crate `asn1` |
| Pkcs8 | `export_for_wrapping`, `import_from_wrapped`, `rsa_check_public_key_info` in `src/rsa.rs`; `src/ec/mod.rs`; `PrivateKeyInfo`, `ECPrivateKey` |
| Ecdsa | `src/ossl/ecdsa.rs` without key import and generation |
| RsaOp | `src/ossl/rsa.rs` without key import and generation; C_Encrypt and C_Decrypt around it |
| OsslSig | `ossl/src/signature.rs`: `OsslSignature` (buffering of parts, given signatures, errors); OpenSSL itself is `OsslPrims` |
| PqSig | `src/ossl/mldsa.rs`, `src/ossl/slhdsa.rs` without key import and generation; OpenSSL and the hashes are `PqEnv` |
| EdSig | `src/ossl/eddsa.rs` without key import and generation; OpenSSL is `EdEnv` |
| Dh | `src/ossl/ecdh.rs`, `src/ossl/ffdh.rs` (derivation), the buffers of `ossl/src/derive.rs`; OpenSSL is `DhEnv`, a loaded key `DhPkey` |
| MlKem | `src/mlkem.rs` (mechanism), `src/ossl/mlkem.rs` without key import and generation; OpenSSL is `KemEnv`; put into the machine by `withKem` |
| MlImport | `src/mlkem.rs`, `src/mldsa.rs` (key factories: import, public from private), `src/ossl/common.rs` `extract_public_key`, `src/native/simplekdf.rs:398-561`; key generation and FIPS checks left out; OpenSSL and the parser are `MlEnv`; put into the machine by `withMl`, `withPub` |
| MacCalls | `src/hash.rs:74-186` (mechanisms), `src/hmac.rs:213-266` (parameter, start), `src/native/hmac.rs:331-401` and `src/ossl/hash.rs:82-130` (traits); the hash functions are a parameter and never fail; FIPS checks left out |
| AesCalls | `src/ossl/aes.rs:56-60`, `:175-203`, `:594-669`, `src/aes.rs:32-52`, `:76-81`, `:262-300`: mechanisms, parameters, key and start of AES operations behind C_Encrypt* and C_Decrypt*; what AES computes with a key and what the pointers of GCM and CCM parameters point to are parameters |
| AesSign | `src/aes.rs:420-520`, `src/ossl/aes.rs:2408-2960`: AES-MAC and CMAC behind C_Sign*, C_Verify* and C_VerifySignature*; AES and OpenSSL's CMAC by key and message are parameters |
| EdCalls | `src/ec/eddsa.rs:23-38`, `:329-383`, `src/ossl/eddsa.rs:80-169`, `:254-422`: CKM_EDDSA behind C_Sign*, C_Verify* and C_VerifySignature*; the import of keys by OpenSSL is the parameter `EdKeys`, the pointer in CK_EDDSA_PARAMS the parameter `mem` |
| EcdsaCalls | `src/ec/ecdsa.rs:24-40`, `:85-99`, `:360-410`, `src/ossl/ecdsa.rs:27-56`, `:150-457`: the ECDSA mechanisms behind C_Sign*, C_Verify* and C_VerifySignature*; the import of keys and OpenSSL's contexts are the parameter `EcKeys`; a signature is a function of the data (the nonce is not modelled) |
| RsaCalls | `src/rsa.rs:21-100`, `:601-666`, `src/ossl/rsa.rs:33-172`, `:215-233`, `:340-388`, `:707-962`: the RSA mechanisms behind C_Sign*, C_Verify* and C_VerifySignature*; the import of keys and OpenSSL's contexts are the parameter `RsaKeys`; a signature is a function of the data (the salt of PSS is not modelled); RSA encryption behind the calls is not modelled |
| PqCalls | `src/mldsa.rs:91-105`, `:358-416`, `src/slhdsa.rs:100-117`, `:362-420`, `src/ossl/mldsa.rs:57-67`, `:88-126`, `:166-219`, `:292-384`, `:627-771` and the same in `src/ossl/slhdsa.rs`: ML-DSA and SLH-DSA behind C_Sign*, C_Verify* and C_VerifySignature*; the import of keys and OpenSSL's contexts are the parameter `PqKeys`, what the parameter points to is `mem`; a signature is a function of M' (hedging is not modelled) |
| Locks | the order of lock acquisitions of every API function |

One machine (`State.step`) has all session, token, object and operation calls. Its mechanisms are the parameter `Mechs`:
each operation is an opaque state with `new`, `run`, `len`, and theorems quantify over it. Config, NssConfig, Hmac, Hotp,
Sp800, Fips, OpState, Aes, AesMac, TlsKdf, HashKdf, Pbkdf2, Hkdf, the Nss modules and Locks are modelled apart; `Hotp` is plugged into the machine (`withHotp`).

Not modelled: memory safety and pointer validity of the C interface (NULL out-pointers), OpenSSL and the bindings, logging,
poisoned locks, the NSS database back end except its configuration parser, the DER choice of EC points, the FIPS build
except Fips and Locks, `kasn1` (except Der and Pkcs8), the tools. The machine is that of the non-FIPS build.

The environment `Env` of a call holds, for each place where the code reaches outside, an optional failure, random bytes
and a uuid; it is split with `sub` along the call tree, so each place is independent of the others. A theorem over
all environments is a theorem over all storage failures at all points. The event `crash` keeps the files and forgets the process; a crash inside a call
is covered by a failure of all later places followed by `crash`, and within a transaction by C28.

## 5. Hypotheses that recur in theorems

| name | meaning | why |
|------|---------|-----|
| `quiet e` | no storage or randomness failure in this call | clauses about exact answers |
| `plain e` | failures do not carry the codes by which the code recognises "no such user", "token not initialised" or a PIN refusal | the storage layer cannot return them for I/O errors (`sqlite_common.rs:17-56`) |
| `TblOk` | the object table has unique ids, unique attribute rows and unique CKA_UNIQUE_ID | holds of the empty disk and is preserved by every call; needed only for disks given at the start |
| `noMerge` | `objects_dedup` is not configured | C44 treats merging; other properties are false with it |
| `RegularMechs`, `OrderlyMechs`, `HonoursToken`, `HonoursId` | keys made by the mechanism parameter have well-formed attributes, follow CKA_TOKEN, carry the drawn id | what the modelled factories do; shown for AES generation |
| `Lawful`, `MechsApart`, `HmacTypes` | the mechanism parameter answers like the source's dispatch | shown for the example instance |
| `noCounter`, `plainMechs` | the mechanism does not update its key, or not in class, key type or with repeated types | only HOTP updates its key |
| `plainCall`, `plainSet` | C_SetAttributeValue names no type twice and not class or key type; C_CopyObject not the class | C30 is false otherwise (violations) |
| `smooth`, `Clear` | PIN-checking calls are not disturbed | exact counting in C05 |
| `LeavesId` | later templates and ids do not repeat a destroyed id | C20 |

Attacker of C29: may replace the object tables, not the user records. Putting back user records and objects together is a full rollback, which nothing in the design prevents.

## 6. Axioms

`AXIOMS.md` lists, for each theorem of MANIFEST.json, the axioms Lean reports.

## 7. What the code does against the properties

Each line names the theorem that shows it on a concrete history (all end in `_violation` unless named otherwise), or "read only" when it is
outside the model and was found by reading.

* Sessions and login: sessions opened while the SO is logged in report `rwUser` (C02_so); a failed C_Logout leaves session states and the key in memory
  (C02_failed_logout, C30_logout); initialising another operation clears the context-specific login demand (C22_login, C23).
* PINs: PINs differing in trailing zero bytes are equal (C05_padding); attempts are free while the database is read-only (C05_uncounted);
  COUNT_LOW wrong below seven failures (C06_low); LOCKED stays after C_InitPIN (C06_init_pin); a crash inside C_InitToken makes the token unusable (C09_crash).
  Read only: C_InitPIN accepts an empty PIN.
* Private objects: C_GetObjectSize, session objects, running operations and running searches stay usable after logout
  (C12_size, C12_session, C12_operation, C12_search).
* Sensitive values: changing CKA_CLASS or CKA_KEY_TYPE reveals them (C13_class_change_reveals); DH private values are neither hidden nor encrypted
  (C13_dh_private_value_is_returned, C29_dh, C30_dh); merging reveals them (C13_dedup); a repeated type in C_SetAttributeValue stores plaintext (C30_twice), and so does a value
  set while the class is that of a data object (C30_class);
  C_CopyObject with CKA_CLASS stores plaintext (C30_copy). Read only: values of private data objects are stored unencrypted.
* Templates: unwrap, generate, derive and copy accept reserved attributes (C16), so histories can be forged (C17); CKA_UNIQUE_ID from a template replaces
  stored objects (C27_overwrite) and lists objects twice (C21_twice).
* Read-only sessions: copy, HOTP counters and additional derived keys write (C19_copy, C19_counter, C19_derive).
* Storage failures: C_DestroyObject answers CKR_OK when removal failed (C20_fault); C_SetAttributeValue on session objects is half done (C49_failed);
  keys of failed pairs stay (C26).
* Searching: encrypted attributes never match (C21_encrypted).
* Operations: C_FindObjectsFinal without a search, C_SessionCancel, C_VerifySignatureInit (C22_findFinal, C22_cancel); a short buffer leaves a message open (C43).
* Usage: CKM_TLS_MAC and CKM_PUB_KEY_FROM_PRIV_KEY do not look at the right usage attributes (C25_tls, C25_derive).
* Merging of duplicates ignores CKA_MODIFIABLE and the one-way attributes (C14_dedup, C24_dedup, C44_modifiable).
* Configuration: files are not checked for double slots (C34_file, C34_number, C34_overflow), empty texts become NUL bytes (C35_empty), mechanism objects ignore the filter (C33_objects).
* Values: the empty date becomes 0000-00-00 and a NULL pointer is dereferenced (C36).
* HOTP: two sessions give the same code, the counter can be put back, the last counter (C38_two, C38_back, C38_last).
* SP 800-108: the length field is reduced modulo 2^w-1, widths 40, 48, 56 abort (C39_length, C39_width).
* NSS configuration: three flags never parse, some texts abort (C40).
* Indicator and FIPS rules: C41, C51. Saved operations: C42. Simple derivation: C45, C46. Key sizes: C48.
* Locks: C_Login or C_Logout beside any other call on the slot can deadlock (C47_login, C47_logout, C47_frozen); C_DeriveKey alone in the FIPS build (C47_fips).
* AES decryption with padding: a first part below 16 bytes breaks the operation (C53_small_first); the length C_DecryptFinal asks for, 0, is not enough (C53_final_length).
* AES CTR: the counter runs into the nonce for widths that are no multiple of eight, or one more (C54_nonce); the last block cannot be used (C54_last).
* IV generation: CKG_GENERATE_COUNTER_XOR repeats the IV of the first message in the fourth when the buffer is left alone (C55_xor); so does a change of the fixed bits (C55_fixed).
* AES-MAC and CMAC: the output length 0 is taken, then the empty signature verifies for everything (C56_zero, C87_zero_violation); C_SignFinal without parts is refused (C56_noparts).
* AES GCM: a second part longer than the tag loses bytes when decrypting, the correct ciphertext is refused (C57_skip).
* AES CCM: data beyond the announced length is taken and lost (C58_excess); C_Decrypt of nothing succeeds without a tag (C58_empty).
* AES calls made again after CKR_BUFFER_TOO_SMALL: CBC_PAD gives a wrong ciphertext, CTR counts twice, CTS fails, CCM can encrypt the data twice (C59_pad, C59_ctr, C59_cts, C59_ccm);
  CTS fails with a buffer of the length asked for, and panics with one a little longer (C59_cts_room).
  Read only: C_Decrypt with GCM leaves unverified plaintext in the buffer; a failed C_MessageEncrypt leaves the operation in use; a CCM nonce of 7 bytes overflows a shift.
* TLS: a key size of 0 becomes 48, two more keys appear and the IVs are taken 96 bytes further on (C60_zero); CKM_TLS_KDF gives the connection keys of a protected
  master secret as a readable key (C60_launder); a MAC length of 0 verifies everything (C61_zero); C_SignFinal without parts is refused (C61_empty).
  Read only: a huge CKA_VALUE_LEN makes CKM_TLS_KDF panic on allocation.
* SSH key derivation: when the letter A or B occurs in the exchange hash or the session id, key bytes can be had as data (C62_launder); HMAC keys of any size (C62_size).
* PBKDF2: an iteration count of 0 is accepted and gives the all-zero key for every password (C63_zero).
* Derivation by hashing panics for a key type whose own size is above the hash's length when the template has no CKA_VALUE_LEN (C64_panic).
* HKDF: without CKA_VALUE_LEN, CKM_HKDF_DERIVE makes a private RSA key object that holds the secret (C65_class) and AES keys of the hash's length (C65_size);
  a pseudo-random key of one byte is expanded (C65_short); a flag byte other than 0 and 1 skips extraction (C65_flag); the bytes of every derived key,
  protected or not, can be had with CKM_HKDF_DATA (C65_data).  Read only: a data object is never accepted as the salt key.
* NSS database, login: the cache of derived keys is found by salt only and survives logout, so once a PIN was accepted (or set) in a process every PIN is accepted
  (C66_any_violation, C66_set_violation); a wrong PIN that happens to decrypt the entry to something else locks out the right one (C66_lockout_violation);
  a refused PIN takes the keys of a user who is logged in (C66_refused); the SO logs in with any PIN while no PIN is set (C66_so).
* NSS database, PIN change: the objects are not encrypted anew and cannot be read afterwards (C67_lost_violation); the user has no keys although the token
  counts them as logged in, so nothing can be stored (C67_kicked_violation).
* NSS database, values: the value a5 00 5a is read as empty (C68_null_violation); CK_UNAVAILABLE_INFORMATION, the usual CKA_KEY_GEN_MECHANISM of an imported key,
  is read as 0xffffffff (C68_unavailable_violation); CKA_ALLOWED_MECHANISMS is dropped without an error (C68_violation_witness).  Read only: asking for a type that the
  table marks as deprecated is an SQL error; a template entry with a NULL pointer and length 8 for a type that is not a column follows the pointer.
* NSS database, protection: without a login nothing is decrypted or checked and ciphertexts are read as values (C69_loggedout_violation); a signature of one byte is
  accepted (C69_short_violation); a signed attribute may be removed, a ciphertext replaced by that of another key, and most attributes altered, among them
  CKA_EXTRACTABLE (C69_alter_violation).
* NSS database, search: the order of the template decides whether it is refused (C70_order_violation); a search for CKA_ALLOWED_MECHANISMS fails (C70_column_violation).
* NSS database, C_DestroyObject: `remove` is not supported and its answer is ignored, so the call returns CKR_OK and the object stays (C71_back_violation).
* NSS database, C_SetAttributeValue: `update` does not look at the class, so a secret key can be given the class of a certificate; it stays in the private table, no search
  by class finds it and it cannot be read (C74_class_violation).  A template that names CKA_VALUE twice stores the second value in plaintext, and the object can no
  longer be read (C74_twice_violation).
* RSA keys as PKCS#8: data with an INTEGER of no contents, or with a modulus of 0, makes C_UnwrapKey panic (C75_empty_integer_violation,
  C75_zero_modulus_violation); C_CreateObject accepts a private key with an empty prime and C_WrapKey of it panics (C75_empty_prime_violation); negative integers are
  taken as positive (C75_negative_violation); C_UnwrapKey has no minimum size of the modulus, C_CreateObject has (C75_small_violation).
* Edwards and Montgomery keys: the private value is not wrapped in the second OCTET STRING of RFC 8410, neither when written nor when read
  (C76_rfc8410_export_violation, C76_rfc8410_violation); the length of a private value is not checked on import (C76_length_violation).
* RSA: with a buffer of length zero that is not NULL, C_Encrypt and C_Decrypt report success and write nothing (C78_zero_buffer_violation); the length of a result of
  CKM_RSA_X_509 cannot be asked for (C78_x509_length_violation); OAEP with SHA-512 and 1024 bits subtracts below zero (C78_oaep_violation); C_Decrypt refuses every buffer
  shorter than the modulus, the branch for such buffers is dead (C78_short_buffer_violation); with a modulus that has a leading zero nothing can be signed
  (C78_padded_violation).
* ML-DSA and SLH-DSA: a wrong signature is reported as CKR_DEVICE_ERROR, not as CKR_SIGNATURE_INVALID (C91_invalid_violation): `src/error.rs:275-284` maps every failure of OpenSSL to it.
* RSA-PSS: `hashAlg` of CK_RSA_PKCS_PSS_PARAMS may be a MAC or signature mechanism such as CKM_SHA256_HMAC or CKM_ECDSA_SHA256, which is taken for its hash (C93_hash_violation): `src/ossl/rsa.rs:155` uses `mech_type_to_digest_alg` (`src/ossl/common.rs:108-174`), which is meant for mechanisms. CKM_RSA_PKCS_PSS itself refuses them later, as `hash_size` does not know them (`src/ossl/rsa.rs:262-265`).
* EdDSA: C_VerifySignatureInit takes a signature of any length (C92_eddsa_violation): `src/ossl/eddsa.rs:134-169` does not compare it with the length of a signature, which ECDSA, RSA, ML-DSA and SLH-DSA, CMAC and AES-MAC do.
* RSA: a wrong signature is reported as CKR_DEVICE_ERROR, not as CKR_SIGNATURE_INVALID (C90_invalid_violation): `src/error.rs:275-284` maps every failure of OpenSSL to it, and `src/ossl/rsa.rs:813-914` passes it on.
* ECDSA: a wrong signature is reported as CKR_DEVICE_ERROR, not as CKR_SIGNATURE_INVALID (C89_invalid_violation): `src/error.rs:275-284` maps every failure of OpenSSL to it, and `src/ossl/ecdsa.rs:366-375`, `:406-416` pass it on.
* ML-DSA and SLH-DSA: a wrong signature is reported as CKR_DEVICE_ERROR, not as CKR_SIGNATURE_INVALID (C79_invalid_violation); CKM_HASH_ML_DSA with SHA-1, SHA-512/224 or SHA-512/256 is
  accepted by C_SignInit and refused by C_Sign (C79_hash_violation); without parts in OpenSSL (always for SLH-DSA) more than 1 MiB cannot be signed (C79_size_violation).
* EdDSA: a part that makes the data longer than 1 MiB is refused but the operation goes on, and C_SignFinal or C_VerifyFinal work on the data without it
  (C80_lost_part_violation); C_Sign with more than 1 MiB fails and leaves an operation that signs other data in parts (C80_alive_violation).
* CKM_DH_PKCS_DERIVE does not ask OpenSSL to pad the secret.  When the secret begins with a zero byte (one agreement in 256), a key shorter than the prime is
  cut from the wrong place and ends in a zero byte (C81_ffdh_violation), a generic secret without CKA_VALUE_LEN is shorter than the prime
  (C81_ffdh_short_violation), and one with CKA_VALUE_LEN of the prime's size cannot be derived (example in C81).  Both sides of kryoptic agree with each
  other (C81_ffdh_agree), but not with a token that follows PKCS#3.
* The key agreement code does not look at the type of the base key (the key is loaded by its own type), and an OCTET STRING around a compressed or
  Montgomery point is not recognised, since only data longer than an uncompressed point is decoded.
* C_DecapsulateKey answers a ciphertext of the wrong length with CKR_DEVICE_ERROR (C82_refuses), as if the token had failed.
* An empty CKA_START_DATE or CKA_END_DATE is stored and read back as "00000000" (C27_date_violation).
* A private ML-KEM or ML-DSA key is accepted with the CKA_PUBLIC_KEY_INFO of another key, and CKM_PUB_KEY_FROM_PRIV_KEY then gives the other public key
  (C83_forged_violation): `extract_public_key` believes the attribute without a look at the key.
* CKM_PUB_KEY_FROM_PRIV_KEY refuses private key objects with CKA_PRIVATE false with CKR_KEY_TYPE_INCONSISTENT (C83_refused_violation); the public keys it makes have
  CKA_DESTROYABLE false unless the template says otherwise (`pubRules`, `src/native/simplekdf.rs:398-434`).
* C_Verify and C_VerifyFinal refused with CKR_SIGNATURE_LEN_RANGE leave the verification running (`src/fns/signing.rs:389`, `:507`; example in C84), where PKCS#11
  ends it: more parts and another attempt are possible.
* Read only: the NSS key cache is not cleared on logout and PIN change; SQLite ids overflow at 2^31-1; C_GetSlotList does not report the count with
  CKR_BUFFER_TOO_SMALL.
