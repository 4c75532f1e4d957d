import Verif.Spec.Object

/-!
# Concrete objects and templates used by the non-vacuity examples and the counterexamples
-/

namespace Kry

/-- An oracle that accepts everything (for concrete evaluations only). -/
def exOracle : Oracle := ⟨fun m p => .ok (m ++ p), fun _ _ => .ok [], 128⟩

/-- Take the object out of a successful creation. -/
def okObj (r : Res Obj) : Obj := match r with
  | .ok o => o
  | .error _ => default

/-- Is it a success. -/
def isOk {α : Type} (r : Res α) : Bool := match r with
  | .ok _ => true
  | .error _ => false

/-- The concrete uid of the examples. -/
def exUid : Bytes := [117, 49]
def exUid2 : Bytes := [117, 50]

/-- A 16-byte AES key value. -/
def exKeyBytes : Bytes := [1, 2, 3, 4, 5, 6, 7, 8, 9, 10, 11, 12, 13, 14, 15, 16]

/-- C_CreateObject template of an AES key. -/
def exAesTemplate : Template :=
  [.ofUlong CKA_CLASS CKO_SECRET_KEY, .ofUlong CKA_KEY_TYPE CKK_AES, .mk' CKA_VALUE exKeyBytes,
   .ofBool CKA_ENCRYPT true, .ofBool CKA_WRAP_WITH_TRUSTED true]

/-- A sensitive, unextractable AES key (both by default). -/
def exAes : Obj := okObj (factoriesCreate exOracle exUid exAesTemplate)

example : isOk (factoriesCreate exOracle exUid exAesTemplate) = true := by decide +kernel

/-- A template that generates an AES key. -/
def exAesGenTemplate : Template :=
  [.ofUlong CKA_VALUE_LEN 16, .ofBool CKA_ENCRYPT true]

/-- A random generator that always answers zeros. -/
def exRnd (n : Nat) : Res Bytes := .ok (List.replicate n 7)

/-- A generated AES key. -/
def exAesGen : Obj := okObj (generateAes exRnd exUid CKM_AES_KEY_GEN exAesGenTemplate)

example : isOk (generateAes exRnd exUid CKM_AES_KEY_GEN exAesGenTemplate) = true := by decide +kernel

/-- C_CreateObject template of a Diffie-Hellman private key. -/
def exDhTemplate (secret : Bytes) : Template :=
  [.ofUlong CKA_CLASS CKO_PRIVATE_KEY, .ofUlong CKA_KEY_TYPE CKK_DH, .mk' CKA_PRIME [23],
   .mk' CKA_BASE [5], .mk' CKA_VALUE secret, .ofBool CKA_SENSITIVE true, .ofBool CKA_EXTRACTABLE false]

/-- A sensitive, unextractable DH private key with the given private value. -/
def exDh (secret : Bytes) : Obj := okObj (factoriesCreate exOracle exUid (exDhTemplate secret))

example : isOk (factoriesCreate exOracle exUid (exDhTemplate [6])) = true := by decide +kernel

/-- C_CreateObject template of an EC private key. -/
def exEcTemplate (secret : Bytes) : Template :=
  [.ofUlong CKA_CLASS CKO_PRIVATE_KEY, .ofUlong CKA_KEY_TYPE CKK_EC, .mk' CKA_EC_PARAMS [6, 1, 1],
   .mk' CKA_VALUE secret, .ofBool CKA_SIGN true]

def exEc (secret : Bytes) : Obj := okObj (factoriesCreate exOracle exUid (exEcTemplate secret))

example : isOk (factoriesCreate exOracle exUid (exEcTemplate [6])) = true := by decide +kernel

/-- C_CreateObject template of a data object. -/
def exDataTemplate : Template :=
  [.ofUlong CKA_CLASS CKO_DATA, .mk' CKA_LABEL [97, 98], .mk' CKA_VALUE [1, 2, 3]]

def exData : Obj := okObj (factoriesCreate exOracle exUid exDataTemplate)

example : isOk (factoriesCreate exOracle exUid exDataTemplate) = true := by decide +kernel

end Kry
