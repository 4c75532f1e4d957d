import Verif.Model.MlImport
import Verif.Props.C82
import Verif.Proofs.Der

/-!
# C83: imported ML-KEM and ML-DSA keys

`C83_public`, `C83_private`: what C_CreateObject made of a key of these types fits the parameter set, the seed and the template.  `C83_derived`:
CKM_PUB_KEY_FROM_PRIV_KEY makes the public key that CKA_PUBLIC_KEY_INFO of the private key describes.  `C83_pair_partial`: for a key imported without
CKA_PUBLIC_KEY_INFO this is the public key of the private key.  `C83_forged_violation`: with CKA_PUBLIC_KEY_INFO of another key it is not.
`C83_refused_violation`: a private key with CKA_PRIVATE false is refused.
-/

namespace Kry
open Spec

/-! ## Specification -/

/-- Key type and CKA_PARAMETER_SET (PKCS#11 3.2), lengths of public key, private key and seed (FIPS 203 table 3, FIPS 204 table 2) and the object identifier
(2.16.840.1.101.3.4.x.y) of a parameter set. -/
structure Spec.MlRow where
  kt : Nat
  num : Nat
  pk : Nat
  sk : Nat
  seed : Nat
  oid : Bytes

def Spec.mlRow : MlSet → MlRow
  | .kem512 => ⟨0x49, 1, 800, 1632, 64, [0x60, 0x86, 0x48, 1, 0x65, 3, 4, 4, 1]⟩
  | .kem768 => ⟨0x49, 2, 1184, 2400, 64, [0x60, 0x86, 0x48, 1, 0x65, 3, 4, 4, 2]⟩
  | .kem1024 => ⟨0x49, 3, 1568, 3168, 64, [0x60, 0x86, 0x48, 1, 0x65, 3, 4, 4, 3]⟩
  | .dsa44 => ⟨0x4a, 1, 1312, 2560, 32, [0x60, 0x86, 0x48, 1, 0x65, 3, 4, 3, 17]⟩
  | .dsa65 => ⟨0x4a, 2, 1952, 4032, 32, [0x60, 0x86, 0x48, 1, 0x65, 3, 4, 3, 18]⟩
  | .dsa87 => ⟨0x4a, 3, 2592, 4896, 32, [0x60, 0x86, 0x48, 1, 0x65, 3, 4, 3, 19]⟩

/-- `b` is the DER encoding of a SubjectPublicKeyInfo with the algorithm of `s`, no parameters and the key `pk` (RFC 5280, 4.1). -/
def Spec.IsSpki (s : MlSet) (pk b : Bytes) : Prop :=
  ∃ body alg rest, derRead b = some (0x30, body, []) ∧ derRead body = some (0x30, alg, rest) ∧
    derRead alg = some (6, (mlRow s).oid, []) ∧ derRead rest = some (3, 0 :: pk, [])

/-- OpenSSL's keys have the lengths of the standards. -/
structure Spec.MlLens (E : MlEnv) : Prop where
  expand : ∀ s seed sk, E.expand s seed = .ok (some sk) → sk.length = (mlRow s).sk
  pubOf : ∀ s sk seed pk, E.pubOf s sk seed = .ok (some pk) → pk.length = (mlRow s).pk

/-- The ASN.1 library reads what is a SubjectPublicKeyInfo. -/
def Spec.ReadsSpki (E : MlEnv) : Prop := ∀ s pk b, IsSpki s pk b → E.parse b = some pk

/-- What the template says about attribute `t`. -/
def Spec.TmSays (tm : Template) (t : Nat) : Option Bytes → Prop
  | none => ∀ c ∈ tm, c.typ ≠ t
  | some v => CkAttr.mk' t v ∈ tm

/-- A key of the parameter set with this value and CKA_PUBLIC_KEY_INFO. -/
structure Spec.MlObj (cls : Nat) (s : MlSet) (v b : Bytes) (o : Obj) : Prop where
  cls : o.getUlong CKA_CLASS = .ok cls
  kt : o.getUlong CKA_KEY_TYPE = .ok (mlRow s).kt
  num : o.getUlong CKA_PARAMETER_SET = .ok (mlRow s).num
  val : o.getBytes CKA_VALUE = .ok v
  info : o.getBytes CKA_PUBLIC_KEY_INFO = .ok b
  /-- CKA_KEY_GEN_MECHANISM is a number, if it is there -/
  mech : o.find CKA_KEY_GEN_MECHANISM = none ∨ ∃ n, o.getUlong CKA_KEY_GEN_MECHANISM = .ok n

/-- A private key with this seed. -/
def Spec.MlPriv (s : MlSet) (sk : Bytes) (seed : Option Bytes) (b : Bytes) (o : Obj) : Prop :=
  MlObj CKO_PRIVATE_KEY s sk b o ∧ (o.getBytes CKA_SEED).toOption = seed

/-- Which usage of a public key corresponds to which usage of the private key. -/
def Spec.counterpart : List (Nat × Nat) := [(CKA_VERIFY, CKA_SIGN), (CKA_VERIFY_RECOVER, CKA_SIGN_RECOVER), (CKA_ENCRYPT, CKA_DECRYPT), (CKA_WRAP, CKA_UNWRAP),
  (CKA_ENCAPSULATE, CKA_DECAPSULATE), (CKA_DERIVE, CKA_DERIVE)]

/-- What a public key made of the private key `k` has where the template is silent: the usages that correspond to those of `k`, the identifier and subject of
`k`; it is a public session object that may be changed and copied but not destroyed. -/
structure Spec.TakesAfter (tm : Template) (k o : Obj) : Prop where
  may : ∀ p ∈ counterpart, (∀ c ∈ tm, c.typ ≠ p.1) → IsTrue k p.2 → IsTrue o p.1
  mayNot : ∀ p ∈ counterpart, (∀ c ∈ tm, c.typ ≠ p.1) → IsFalse k p.2 → IsFalse o p.1
  same : ∀ t ∈ [CKA_ID, CKA_SUBJECT], (∀ c ∈ tm, c.typ ≠ t) → ∀ v, value k t = some v → value o t = some v
  yes : ∀ t ∈ [CKA_MODIFIABLE, CKA_COPYABLE], (∀ c ∈ tm, c.typ ≠ t) → IsTrue o t
  no : ∀ t ∈ [CKA_TOKEN, CKA_PRIVATE, CKA_DESTROYABLE], (∀ c ∈ tm, c.typ ≠ t) → IsFalse o t

/-- The public key `pk` fits the parameter set and the template, and `b` describes it. -/
structure Spec.PublicFits (s : MlSet) (tm : Template) (pk b : Bytes) : Prop where
  num : asksFor tm CKA_PARAMETER_SET (mlRow s).num
  value : TmSays tm CKA_VALUE (some pk)
  length : pk.length = (mlRow s).pk
  spki : IsSpki s pk b
  info : TmSays tm CKA_PUBLIC_KEY_INFO none ∨ TmSays tm CKA_PUBLIC_KEY_INFO (some b)

/-- The private key `sk` fits the parameter set, the template and the seed; `b` is what the template says, or describes the public key of `sk`. -/
structure Spec.PrivateFits (E : MlEnv) (s : MlSet) (tm : Template) (sk : Bytes) (seed : Option Bytes) (b : Bytes) : Prop where
  num : asksFor tm CKA_PARAMETER_SET (mlRow s).num
  value : TmSays tm CKA_VALUE (some sk) ∨ (TmSays tm CKA_VALUE none ∧ seed ≠ none)
  length : sk.length = (mlRow s).sk
  given : TmSays tm CKA_SEED seed
  seeded : ∀ v, seed = some v → v.length = (mlRow s).seed ∧ E.expand s v = .ok (some sk)
  info : (TmSays tm CKA_PUBLIC_KEY_INFO none ∧ ∃ pk, E.pubOf s sk seed = .ok (some pk) ∧ pk.length = (mlRow s).pk ∧ IsSpki s pk b) ∨
    (TmSays tm CKA_PUBLIC_KEY_INFO (some b) ∧ ∃ pk, E.parse b = some pk ∧ (pk.length < 2 ^ 31 → IsSpki s pk b))

variable {M : Mechs} {C : Crypto} {O : Oracle} {E : MlEnv}

/-! ## Encoding -/

theorem mlRow_oid (s : MlSet) : (mlRow s).oid = [0x60, 0x86, 0x48, 0x01, 0x65, 0x03, 0x04] ++ s.arcs := by cases s <;> rfl

theorem derLen_le (n : Nat) : (derLen n).length ≤ 9 := by
  unfold derLen
  split
  · simp
  · have := (List.dropWhile_suffix (p := (· == 0)) (l := toBE 8 n)).length_le
    have h8 : (toBE 8 n).length = 8 := by simp [toBE, toLE]
    simp only [List.length_cons]
    omega

theorem derTlv_le (t : UInt8) (b : Bytes) : (derTlv t b).length ≤ b.length + 10 := by
  unfold derTlv
  have := derLen_le b.length
  simp only [List.length_cons, List.length_append]
  omega

theorem spki_is {s : MlSet} {pk : Bytes} (h : pk.length < 2 ^ 31) : IsSpki s pk (mlSpki s pk) := by
  have ho : ([0x60, 0x86, 0x48, 0x01, 0x65, 0x03, 0x04] ++ s.arcs : Bytes).length = 9 := by cases s <;> rfl
  have h1 := derTlv_le 6 ([0x60, 0x86, 0x48, 0x01, 0x65, 0x03, 0x04] ++ s.arcs)
  have h2 := derTlv_le 0x30 (derTlv 6 ([0x60, 0x86, 0x48, 0x01, 0x65, 0x03, 0x04] ++ s.arcs))
  have h3 := derTlv_le 3 (0 :: pk)
  rw [List.length_cons] at h3
  refine ⟨derTlv 0x30 (derTlv 6 ([0x60, 0x86, 0x48, 0x01, 0x65, 0x03, 0x04] ++ s.arcs)) ++ derTlv 3 (0 :: pk),
    derTlv 6 ([0x60, 0x86, 0x48, 0x01, 0x65, 0x03, 0x04] ++ s.arcs), derTlv 3 (0 :: pk), ?_, derRead_tlv 0x30 (by decide) _ _ (by omega), ?_, ?_⟩
  · have := derRead_tlv 0x30 (by decide) (derTlv 0x30 (derTlv 6 ([0x60, 0x86, 0x48, 0x01, 0x65, 0x03, 0x04] ++ s.arcs)) ++ derTlv 3 (0 :: pk)) []
      (by rw [List.length_append]; omega)
    rw [List.append_nil] at this
    exact this
  · have := derRead_tlv 6 (by decide) ([0x60, 0x86, 0x48, 0x01, 0x65, 0x03, 0x04] ++ s.arcs) [] (by omega)
    rw [List.append_nil] at this
    rw [mlRow_oid]
    exact this
  · have := derRead_tlv 3 (by decide) (0 :: pk) [] (by rw [List.length_cons]; omega)
    rw [List.append_nil] at this
    exact this

theorem set_row {A : MlAlg} {p : Nat} {s : MlSet} (h : A.set p = some s) :
    (mlRow s).kt = A.keyType ∧ (mlRow s).num = p ∧ (mlRow s).pk = s.pkSize ∧ (mlRow s).sk = s.skSize ∧ (mlRow s).seed = A.seedLen := by
  cases A <;> simp only [MlAlg.set] at h <;> repeat' split at h
  all_goals first | (cases h; done) | (injection h with h; subst h; rename_i hp; subst hp; decide)

theorem row_set {s : MlSet} {A : MlAlg} (h : (mlRow s).kt = A.keyType) : A.set (mlRow s).num = some s := by
  cases A <;> cases s <;> first | (exact absurd h (by decide)) | decide

/-! ## Attributes of the new key -/

theorem get_bytes {o : Obj} {t : Nat} (hr : Regular o) (hk : attrKind t = some .bytes) :
    o.getBytes t = match value o t with | some v => .ok v | none => .error .attrNotFound := by
  rw [value_eq]
  unfold Obj.getBytes
  cases hf : o.find t with
  | none => rfl
  | some a =>
    have ht := find_typ hf
    have hm : a ∈ o.attrs := List.mem_of_find?_eq_some hf
    simp only [Option.map_some]
    unfold Attr.toBytes
    rw [if_neg]
    rcases hr.form a hm with h | h
    · rw [ht, hk] at h
      have := h.1
      injection this with this
      rw [← this]; simp
    · rw [ht, hk] at h
      cases h.1

theorem get_num {o : Obj} {t n : Nat} (hr : Regular o) (hk : attrKind t = some .num) (hn : n < 2 ^ 64) (hv : value o t = some (toLE 8 n)) :
    o.getUlong t = .ok n := by
  rw [value_eq] at hv
  unfold Obj.getUlong
  cases hf : o.find t with
  | none => rw [hf] at hv; cases hv
  | some a =>
    rw [hf] at hv
    simp only [Option.map_some, Option.some.injEq] at hv
    have ht := find_typ hf
    have hm : a ∈ o.attrs := List.mem_of_find?_eq_some hf
    simp only
    unfold Attr.toUlong
    rw [if_neg, if_neg, hv]
    · exact congrArg _ (fromLE_ulongBytes n hn)
    · rw [hv]; exact fun h => h (ulongBytes_length n)
    · rcases hr.form a hm with h | h
      · rw [ht, hk] at h
        have := h.1
        injection this with this
        rw [← this]; simp
      · rw [ht, hk] at h
        cases h.1

theorem mech_num {o : Obj} (hr : Regular o) : o.find CKA_KEY_GEN_MECHANISM = none ∨ ∃ n, o.getUlong CKA_KEY_GEN_MECHANISM = .ok n := by
  have hk : attrKind CKA_KEY_GEN_MECHANISM = some .num := by decide +kernel
  cases hf : o.find CKA_KEY_GEN_MECHANISM with
  | none => exact .inl rfl
  | some a =>
    right
    unfold Obj.getUlong
    rw [hf]
    simp only
    have ht := find_typ hf
    rcases hr.form a (List.mem_of_find?_eq_some hf) with h | h
    · rw [ht, hk] at h
      have h1 := h.1
      injection h1 with h1
      have h2 := h.2
      rw [← h1] at h2
      unfold Attr.toUlong
      rw [if_neg (by rw [← h1]; simp), if_neg (fun k => k h2)]
      exact ⟨_, rfl⟩
    · rw [ht, hk] at h
      cases h.1

/-- Attribute types whose value comes from the template alone. -/
def plainAttr (F : Factory) (t : Nat) : Bool := F.attrs.all fun f => f.typ != t || (!f.is oaIgnored && !f.hasDefault)

theorem created_says {F : Factory} {k : Nat × Nat} (hF : (k, F) ∈ registry) {uid : Bytes} {tm : Template} {o : Obj} (h : keyCreate F uid tm = .ok o) {t : Nat}
    (hp : plainAttr F t = true) (ht : t ∉ [CKA_UNIQUE_ID, CKA_LOCAL, CKA_ALWAYS_SENSITIVE, CKA_NEVER_EXTRACTABLE]) (hc : t ≠ CKA_CLASS) :
    (value o t = none ∧ ∀ c ∈ tm, c.typ ≠ t) ∨ ∃ c a, c ∈ tm ∧ c.typ = t ∧ Attr.fromCk c = .ok a ∧ value o t = some a.value := by
  obtain ⟨o0, h0, hs⟩ := keyCreate_same (l := [CKA_UNIQUE_ID, CKA_LOCAL, CKA_ALWAYS_SENSITIVE, CKA_NEVER_EXTRACTABLE]) (by simp) (by simp) (by simp) (by simp) h
  have nig : ¬ Marked F t oaIgnored := by
    rintro ⟨f, hf, e, hi⟩
    have := List.all_eq_true.1 hp f hf
    simp [e, hi] at this
  have nv := C15_values F k hF _ _ _ o0 h0 t
  rw [value_eq, hs t ht, ← value_eq]
  generalize value o0 t = x at nv
  cases nv with
  | cls e => exact absurd e hc
  | given c a _ _ h1 h2 h3 => exact .inr ⟨c, a, h1, h2, h3, rfl⟩
  | default f hn hf e hd =>
    have := List.all_eq_true.1 hp f hf
    simp [e, hd] at this
  | absent hn => exact .inl ⟨rfl, fun c hc e => hn (.inr ⟨nig, c, hc, e⟩)⟩

theorem created_once {F : Factory} {k : Nat × Nat} (hF : (k, F) ∈ registry) {uid : Bytes} {tm : Template} {o : Obj} (h : keyCreate F uid tm = .ok o) {t : Nat}
    (hp : plainAttr F t = true) (hc : t ≠ CKA_CLASS) {c d : CkAttr} (h1 : c ∈ tm) (h2 : d ∈ tm) (e1 : c.typ = t) (e2 : d.typ = t) : c = d := by
  obtain ⟨o0, h0, _⟩ := keyCreate_same (l := [CKA_UNIQUE_ID, CKA_LOCAL, CKA_ALWAYS_SENSITIVE, CKA_NEVER_EXTRACTABLE]) (by simp) (by simp) (by simp) (by simp) h
  have acc := ((C15_accepts_iff F k hF _ _ _).1 ⟨o0, h0⟩).once
  have nig : ¬ Marked F t oaIgnored := by
    rintro ⟨f, hf, e, hi⟩
    have := List.all_eq_true.1 hp f hf
    simp [e, hi] at this
  clear h h0
  induction tm with
  | nil => cases h1
  | cons x tm ih =>
    rw [List.pairwise_cons] at acc
    rcases List.mem_cons.1 h1 with rfl | m1
    · rcases List.mem_cons.1 h2 with rfl | m2
      · rfl
      · rcases acc.1 d m2 (e1.trans e2.symm) with h | h
        · exact absurd (e1.symm.trans h) hc
        · rw [e1] at h; exact absurd h nig
    · rcases List.mem_cons.1 h2 with rfl | m2
      · rcases acc.1 c m1 (e2.trans e1.symm) with h | h
        · exact absurd (e2.symm.trans h) hc
        · rw [e2] at h; exact absurd h nig
      · exact ih m1 m2 acc.2

theorem says_bytes {F : Factory} {k : Nat × Nat} (hF : (k, F) ∈ registry) {uid : Bytes} {tm : Template} {o : Obj} (h : keyCreate F uid tm = .ok o) {t : Nat}
    (hp : plainAttr F t = true) (ht : t ∉ [CKA_UNIQUE_ID, CKA_LOCAL, CKA_ALWAYS_SENSITIVE, CKA_NEVER_EXTRACTABLE]) (hc : t ≠ CKA_CLASS)
    (hk : attrKind t = some .bytes) : (value o t = none ∧ TmSays tm t none) ∨ ∃ v, value o t = some v ∧ (v ≠ [] → TmSays tm t (some v)) := by
  rcases created_says hF h hp ht hc with h | ⟨c, a, h1, h2, h3, h4⟩
  · exact .inl h
  · refine .inr ⟨a.value, h4, fun hne => ?_⟩
    unfold Attr.fromCk at h3
    rw [h2, hk] at h3
    simp only at h3
    injection h3 with h3
    have e : a.value = c.toBuf := by rw [← h3]; rfl
    obtain ⟨ty, pv⟩ := c
    simp only at h2
    subst h2
    cases pv with
    | null n => exact absurd e hne
    | data bs =>
      have e : a.value = bs := e
      rw [e]
      exact h1

theorem says_num {F : Factory} {k : Nat × Nat} (hF : (k, F) ∈ registry) {uid : Bytes} {tm : Template} {o : Obj} (h : keyCreate F uid tm = .ok o) {t n : Nat}
    (hp : plainAttr F t = true) (ht : t ∉ [CKA_UNIQUE_ID, CKA_LOCAL, CKA_ALWAYS_SENSITIVE, CKA_NEVER_EXTRACTABLE]) (hc : t ≠ CKA_CLASS)
    (hk : attrKind t = some .num) : o.getUlong t = .ok n ↔ asksFor tm t n := by
  have hr := regular_keyCreate hF h
  rcases created_says hF h hp ht hc with h | ⟨c, a, h1, h2, h3, h4⟩
  · constructor
    · intro hg
      have : o.find t = none := by
        have := h.1
        rw [value_eq] at this
        cases hf : o.find t with
        | none => rfl
        | some a => rw [hf] at this; cases this
      unfold Obj.getUlong at hg
      rw [this] at hg
      cases hg
    · rintro ⟨pre, c, post, rfl, h1, _⟩
      exact absurd h1 (h.2 c (by simp))
  · unfold Attr.fromCk at h3
    rw [h2, hk] at h3
    simp only at h3
    cases hu : c.toUlong with
    | error r => rw [hu] at h3; cases h3
    | ok m =>
      rw [hu] at h3
      simp only at h3
      injection h3 with h3
      have hm : m < 2 ^ 64 := by
        unfold CkAttr.toUlong at hu
        split at hu
        · cases hu
        · rename_i hl
          split at hu
          · cases hu
          · rename_i bs hb
            injection hu with hu
            rw [hb] at hl
            have hl : bs.length = 8 := Decidable.of_not_not hl
            have := fromLE_lt bs
            rw [hl] at this
            rw [← hu]
            exact this
      have hv : value o t = some (toLE 8 m) := by rw [h4, ← h3]; rfl
      have hg := get_num hr hk hm hv
      rw [hg]
      have asks : asksFor tm t m := by
        cases hd : Template.findA tm t with
        | none => exact absurd h2 (findA_none hd c h1)
        | some d =>
          have hd' : tm.find? (fun c => c.typ == t) = some d := hd
          have e2 : d.typ = t := by simpa using List.find?_some hd'
          have := created_once hF h hp hc h1 (List.mem_of_find?_eq_some hd') h2 e2
          subst this
          exact findA_asks hd hu
      constructor
      · intro e; injection e with e; rw [← e]; exact asks
      · intro e; rw [asksFor_fun asks e]

/-! ## The factories -/

def MlAlg.pubKind : MlAlg → FactoryKind
  | .kem => .mlkemPub
  | .dsa => .mldsaPub

def MlAlg.privKind : MlAlg → FactoryKind
  | .kem => .mlkemPriv
  | .dsa => .mldsaPriv

def mlPubF : MlAlg → Factory
  | .kem => ⟨.mlkemPub, CKO_PUBLIC_KEY, mlkemPubAttrs⟩
  | .dsa => ⟨.mldsaPub, CKO_PUBLIC_KEY, mldsaPubAttrs⟩

def mlPrivF : MlAlg → Factory
  | .kem => ⟨.mlkemPriv, CKO_PRIVATE_KEY, mlkemPrivAttrs⟩
  | .dsa => ⟨.mldsaPriv, CKO_PRIVATE_KEY, mldsaPrivAttrs⟩

theorem pub_factory (A : MlAlg) : getFactory CKO_PUBLIC_KEY A.keyType = .ok (mlPubF A) := by cases A <;> decide +kernel
theorem priv_factory (A : MlAlg) : getFactory CKO_PRIVATE_KEY A.keyType = .ok (mlPrivF A) := by cases A <;> decide +kernel

theorem pub_plain (A : MlAlg) : [CKA_KEY_TYPE, CKA_PARAMETER_SET, CKA_VALUE, CKA_PUBLIC_KEY_INFO].all (plainAttr (mlPubF A)) = true := by
  cases A <;> decide +kernel
theorem priv_plain (A : MlAlg) : [CKA_KEY_TYPE, CKA_PARAMETER_SET, CKA_VALUE, CKA_SEED, CKA_PUBLIC_KEY_INFO].all (plainAttr (mlPrivF A)) = true := by
  cases A <;> decide +kernel

theorem create_pub {A : MlAlg} {uid : Bytes} {tm : Template} {o : Obj} (h : (mlPubF A).create (withMl O E) uid tm = .ok o) :
    ∃ o1, keyCreate (mlPubF A) uid tm = .ok o1 ∧ asymChecks (withMl O E) A.pubKind o1 = .ok o := by
  cases A <;>
  · unfold Factory.create at h
    simp only [mlPubF] at h
    split at h
    · cases h
    · exact ⟨_, by assumption, h⟩

theorem create_priv {A : MlAlg} {uid : Bytes} {tm : Template} {o : Obj} (h : (mlPrivF A).create (withMl O E) uid tm = .ok o) :
    ∃ o1, keyCreate (mlPrivF A) uid tm = .ok o1 ∧ asymChecks (withMl O E) A.privKind o1 = .ok o := by
  cases A <;>
  · unfold Factory.create at h
    simp only [mlPrivF] at h
    split at h
    · cases h
    · exact ⟨_, by assumption, h⟩

/-- What the changed attributes make of an object. -/
theorem asym_find {k : FactoryKind} {o o' : Obj} {r : Res Obj} (hk : (withMl O E).asym k o = mlChanged r) (h : asymChecks (withMl O E) k o = .ok o') :
    ∃ o2, r = .ok o2 ∧ ∀ t, o'.find t = if t = CKA_VALUE ∨ t = CKA_PUBLIC_KEY_INFO then
      ((o2.find t).map fun a => Attr.ofBytes t a.value).or (o.find t) else o.find t := by
  unfold asymChecks at h
  rw [hk] at h
  cases r with
  | error r => cases h
  | ok o2 =>
    refine ⟨o2, rfl, fun t => ?_⟩
    simp only [mlChanged] at h
    injection h with h
    rw [← h]
    have ev : asymUpdTypes.contains CKA_VALUE = true := by decide
    have ei : asymUpdTypes.contains CKA_PUBLIC_KEY_INFO = true := by decide
    have ne : CKA_VALUE ≠ CKA_PUBLIC_KEY_INFO := by decide
    have put : ∀ (o : Obj) (t u : Nat) (v : Bytes), (o.put (Attr.ofBytes t v)).find u = if t = u then some (Attr.ofBytes t v) else o.find u :=
      fun o t u v => find_put o _ u
    have tb : ∀ t v, (Attr.ofBytes t v).typ = t := fun _ _ => rfl
    cases h1 : o2.find CKA_VALUE <;> cases h2 : o2.find CKA_PUBLIC_KEY_INFO <;>
      simp only [List.filterMap_cons, List.filterMap_nil, h1, h2, Option.map_some, Option.map_none, List.filter_cons, List.filter_nil, tb, ev, ei, if_true,
        List.foldl_cons, List.foldl_nil, put] <;>
      by_cases c1 : t = CKA_VALUE
    all_goals first
      | (subst c1; simp [h1, h2, ne, ne.symm]; done)
      | (by_cases c2 : t = CKA_PUBLIC_KEY_INFO
         · subst c2; simp [h1, h2, ne, ne.symm]
         · simp [c1, c2, Ne.symm c1, Ne.symm c2])

theorem info_find {A : MlAlg} {o o' : Obj} {pk : Option Bytes} (h : mlInfo A o pk = .ok o') :
    ∃ p s raw, o.getUlong CKA_PARAMETER_SET = .ok p ∧ A.set p = some s ∧ (match pk with | some p => .ok p | none => o.getBytes CKA_VALUE) = Except.ok raw ∧
      (∀ t, t ≠ CKA_PUBLIC_KEY_INFO → o'.find t = o.find t) ∧ value o' CKA_PUBLIC_KEY_INFO = some (mlSpki s raw) ∧
      (∀ a, o.find CKA_PUBLIC_KEY_INFO = some a → a.value = mlSpki s raw) := by
  unfold mlInfo at h
  simp only at h
  split at h
  · cases h
  rename_i raw hr
  split at h
  · cases h
  rename_i p hp
  split at h
  · cases h
  rename_i s hs
  refine ⟨p, s, raw, hp, hs, hr, ?_⟩
  unfold Obj.ensureBytes at h
  split at h
  · rename_i a ha
    split at h
    · cases h
    · rename_i hv
      injection h with h
      subst h
      have hv := Decidable.of_not_not hv
      refine ⟨fun _ _ => rfl, by rw [value_eq, ha, Option.map_some, hv], fun b hb => ?_⟩
      rw [ha] at hb; injection hb with hb; rw [← hb, hv]
  · rename_i ha
    injection h with h
    subst h
    refine ⟨fun t ht => ?_, ?_, fun b hb => ?_⟩
    · rw [find_push]
      have : ¬ (Attr.ofBytes CKA_PUBLIC_KEY_INFO (mlSpki s raw)).typ = t := fun e => ht e.symm
      rw [if_neg this, Option.or_none]
    · rw [value_eq, find_push, ha]
      rfl
    · rw [ha] at hb; cases hb

theorem created_cls {F : Factory} {k : Nat × Nat} (hF : (k, F) ∈ registry) {uid : Bytes} {tm : Template} {o : Obj} (h : keyCreate F uid tm = .ok o) :
    o.getUlong CKA_CLASS = .ok F.cls := by
  have hr := regular_keyCreate hF h
  obtain ⟨_, _, hc, _⟩ := keyCreate_ok h
  unfold Obj.getUlong
  cases hf : o.find CKA_CLASS with
  | none => exact absurd hf hr.has
  | some a =>
    have := hr.cls a (List.mem_of_find?_eq_some hf) (find_typ hf)
    subst this
    simp only
    unfold Attr.toUlong Attr.ofUlong
    rw [if_neg (by simp), if_neg (by exact fun h => h (ulongBytes_length _)), fromLE_ulongBytes _ hr.lt, hc]

theorem spki_ne (s : MlSet) (pk : Bytes) : mlSpki s pk ≠ [] := by
  unfold mlSpki derTlv
  exact List.cons_ne_nil _ _

theorem getBytes_find {o o' : Obj} {t : Nat} (h : o'.find t = o.find t) : o'.getBytes t = o.getBytes t := by
  unfold Obj.getBytes; rw [h]

theorem getUlong_find {o o' : Obj} {t : Nat} (h : o'.find t = o.find t) : o'.getUlong t = o.getUlong t := by
  unfold Obj.getUlong; rw [h]

theorem getBytes_is {o : Obj} {t : Nat} {v : Bytes} (h : o.getBytes t = .ok v) : value o t = some v := by
  rw [value_eq]
  unfold Obj.getBytes at h
  cases hf : o.find t with
  | none => rw [hf] at h; cases h
  | some a =>
    rw [hf] at h
    simp only [Attr.toBytes] at h
    split at h
    · cases h
    · injection h with h; rw [← h]; rfl

/-- The changed attributes are read as bytes. -/
theorem asym_bytes {o o' o2 : Obj} {t : Nat} {v : Bytes} (ht : t = CKA_VALUE ∨ t = CKA_PUBLIC_KEY_INFO)
    (h : o'.find t = if t = CKA_VALUE ∨ t = CKA_PUBLIC_KEY_INFO then ((o2.find t).map fun a => Attr.ofBytes t a.value).or (o.find t) else o.find t)
    (hv : value o2 t = some v) : o'.getBytes t = .ok v := by
  rw [if_pos ht] at h
  rw [value_eq] at hv
  cases hf : o2.find t with
  | none => rw [hf] at hv; cases hv
  | some a =>
    rw [hf] at hv h
    simp only [Option.map_some, Option.some.injEq] at hv
    unfold Obj.getBytes
    rw [h]
    simp only [Option.map_some, Option.some_or]
    rw [hv]
    rfl

theorem row_small (s : MlSet) : (mlRow s).pk < 2 ^ 31 := by cases s <;> decide

theorem pub_made {A : MlAlg} {uid : Bytes} {tm : Template} {o : Obj} (h : (mlPubF A).create (withMl O E) uid tm = .ok o)
    (hkt : asksFor tm CKA_KEY_TYPE A.keyType) :
    ∃ s pk b, (mlRow s).kt = A.keyType ∧ MlObj CKO_PUBLIC_KEY s pk b o ∧ PublicFits s tm pk b := by
  have hF := getFactory_mem (pub_factory A)
  have hpl := List.all_eq_true.1 (pub_plain A)
  obtain ⟨o1, h1, h2⟩ := create_pub h
  have hr := regular_keyCreate hF h1
  obtain ⟨o2, h3, hf⟩ := asym_find (r := mlPubRest A o1) (by cases A <;> rfl) h2
  unfold mlPubRest at h3
  split at h3
  · cases h3
  rename_i hc
  obtain ⟨p, s, pk, hp, hs, hv, same, hb, hprev⟩ := info_find h3
  simp only at hv
  obtain ⟨r1, r2, r3, r4, r5⟩ := set_row hs
  have hlen : pk.length = (mlRow s).pk := by
    unfold mlPubCheck mlParam at hc
    rw [hp] at hc
    simp only [hv, hs] at hc
    split at hc
    · cases hc
    · rename_i hl; rw [r3]; exact Decidable.of_not_not hl
  have nv : (CKA_VALUE : Nat) ≠ CKA_PUBLIC_KEY_INFO := by decide
  have keep : ∀ t, t ≠ CKA_VALUE → t ≠ CKA_PUBLIC_KEY_INFO → o.find t = o1.find t := by
    intro t a b; rw [hf t, if_neg (by simp [a, b])]
  have v2 : value o2 CKA_VALUE = some pk := by rw [value_eq, same _ nv, ← value_eq]; exact getBytes_is hv
  refine ⟨s, pk, mlSpki s pk, r1, ⟨?_, ?_, ?_, ?_, ?_, ?_⟩, ?_, ?_, hlen, spki_is (by rw [hlen]; exact row_small s), ?_⟩
  · rw [getUlong_find (keep _ (by decide) (by decide)), created_cls hF h1]
    cases A <;> rfl
  · rw [getUlong_find (keep _ (by decide) (by decide)), r1]
    exact (says_num hF h1 (hpl _ (by simp)) (by decide) (by decide) (by decide +kernel)).2 hkt
  · rw [getUlong_find (keep _ (by decide) (by decide)), r2]; exact hp
  · exact asym_bytes (.inl rfl) (hf _) v2
  · exact asym_bytes (.inr rfl) (hf _) hb
  · rw [getUlong_find (keep _ (by decide) (by decide)), keep _ (by decide) (by decide)]; exact mech_num hr
  · rw [r2]
    exact (says_num hF h1 (hpl _ (by simp)) (by decide) (by decide) (by decide +kernel)).1 hp
  · rcases says_bytes hF h1 (t := CKA_VALUE) (hpl _ (by simp)) (by decide) (by decide) (by decide +kernel) with h | ⟨v, w1, w2⟩
    · rw [getBytes_is hv] at h; cases h.1
    · rw [getBytes_is hv] at w1
      injection w1 with w1
      subst w1
      refine w2 ?_
      intro e
      rw [e] at hlen
      cases s <;> exact absurd hlen (by decide)
  · rcases says_bytes hF h1 (t := CKA_PUBLIC_KEY_INFO) (hpl _ (by simp)) (by decide) (by decide) (by decide +kernel) with h | ⟨v, w1, w2⟩
    · exact .inl h.2
    · right
      rw [value_eq] at w1
      cases hi : o1.find CKA_PUBLIC_KEY_INFO with
      | none => rw [hi] at w1; cases w1
      | some a =>
        rw [hi] at w1
        simp only [Option.map_some, Option.some.injEq] at w1
        have := hprev a hi
        rw [w1] at this
        rw [← this]
        exact w2 (by rw [this]; exact spki_ne _ _)

theorem value_find {o : Obj} {t : Nat} {v : Bytes} (h : value o t = some v) : ∃ a, o.find t = some a ∧ a.value = v := by
  rw [value_eq] at h
  cases hf : o.find t with
  | none => rw [hf] at h; cases h
  | some a => rw [hf] at h; injection h with h; exact ⟨a, rfl, h⟩

/-- What the check of a private key found. -/
theorem priv_checked {A : MlAlg} {o1 o2 : Obj} (hr : Regular o1) (h : mlPrivCheck E A o1 = .ok o2) :
    ∃ p sk, o1.getUlong CKA_PARAMETER_SET = .ok p ∧ Regular o2 ∧ value o2 CKA_VALUE = some sk ∧ (∀ t, t ≠ CKA_VALUE → o2.find t = o1.find t) ∧
      (value o1 CKA_VALUE = some sk ∨ (value o1 CKA_VALUE = none ∧ value o1 CKA_SEED ≠ none)) ∧
      (value o1 CKA_SEED = none → ∃ s, A.set p = some s ∧ sk.length = s.skSize) ∧
      ∀ v, value o1 CKA_SEED = some v → v.length = A.seedLen ∧ ∃ s, A.set p = some s ∧ E.expand s v = .ok (some sk) := by
  unfold mlPrivCheck mlParam at h
  cases hp : o1.getUlong CKA_PARAMETER_SET with
  | error r => simp only [hp] at h; cases h
  | ok p =>
    simp only [hp] at h
    have gs := get_bytes hr (t := CKA_SEED) (by decide +kernel)
    have gv := get_bytes hr (t := CKA_VALUE) (by decide +kernel)
    unfold mlSeed mlKey at h
    rw [gs, gv] at h
    cases hs : value o1 CKA_SEED with
    | none =>
      simp only [hs] at h
      cases hv : value o1 CKA_VALUE with
      | none => simp only [hv] at h; cases h
      | some v =>
        simp only [hv] at h
        cases hset : A.set p with
        | none => simp only [hset] at h; cases h
        | some s =>
          simp only [hset] at h
          by_cases hl : v.length = s.skSize
          · rw [if_neg (by simp [hl])] at h
            simp only at h
            injection h with h
            subst h
            exact ⟨p, v, rfl, hr, hv, fun _ _ => rfl, .inl rfl, fun _ => ⟨s, hset, hl⟩, nofun⟩
          · rw [if_pos hl] at h; cases h
    | some sd =>
      simp only [hs] at h
      by_cases hsl : sd.length = A.seedLen
      · rw [if_neg (by simp [hsl])] at h
        simp only at h
        cases hv : value o1 CKA_VALUE with
        | none =>
          simp only [hv] at h
          unfold mlVerify at h
          cases hset : A.set p with
          | none => simp only [hset] at h; cases h
          | some s =>
            simp only [hset] at h
            cases he : E.expand s sd with
            | error r => simp only [he] at h; cases h
            | ok k =>
              cases k with
              | none => simp only [he] at h; cases h
              | some k =>
                simp only [he] at h
                injection h with h
                subst h
                refine ⟨p, k, rfl, regular_put hr (inForm_bytes _ _ (by decide +kernel)) (show CKA_VALUE ≠ CKA_CLASS by decide), ?_, ?_,
                  .inr ⟨rfl, nofun⟩, nofun, ?_⟩
                · rw [value_eq, find_put, if_pos (show (Attr.ofBytes CKA_VALUE k).typ = CKA_VALUE from rfl)]; rfl
                · intro t ht; rw [find_put, if_neg (fun e => ht e.symm)]
                · intro v e; injection e with e; subst e; exact ⟨hsl, s, hset, he⟩
        | some v =>
          simp only [hv] at h
          unfold mlVerify at h
          cases hset : A.set p with
          | none => simp only [hset] at h; cases h
          | some s =>
            simp only [hset] at h
            by_cases hl : v.length = s.skSize
            · rw [if_neg (by simp [hl])] at h
              simp only at h
              cases he : E.expand s sd with
              | error r => simp only [he] at h; cases h
              | ok k =>
                cases k with
                | none => simp only [he] at h; cases h
                | some k =>
                  simp only [he] at h
                  by_cases hk : v = k
                  · rw [if_pos hk] at h
                    simp only at h
                    injection h with h
                    subst h; subst hk
                    exact ⟨p, v, rfl, hr, hv, fun _ _ => rfl, .inl rfl, nofun, fun w e => by injection e with e; subst e; exact ⟨hsl, s, hset, he⟩⟩
                  · rw [if_neg hk] at h; cases h
            · rw [if_pos hl] at h; cases h
      · rw [if_pos hsl] at h; cases h

theorem seed_pos (s : MlSet) : 0 < (mlRow s).seed ∧ 0 < (mlRow s).sk := by cases s <;> decide

theorem priv_made {A : MlAlg} {uid : Bytes} {tm : Template} {o : Obj} (hl : MlLens E) (h : (mlPrivF A).create (withMl O E) uid tm = .ok o)
    (hkt : asksFor tm CKA_KEY_TYPE A.keyType) :
    ∃ s sk seed b, (mlRow s).kt = A.keyType ∧ MlPriv s sk seed b o ∧ PrivateFits E s tm sk seed b := by
  have hF := getFactory_mem (priv_factory A)
  have hpl := List.all_eq_true.1 (priv_plain A)
  obtain ⟨o1, h1, h2⟩ := create_priv h
  have hr := regular_keyCreate hF h1
  obtain ⟨o3, h3, hf⟩ := asym_find (r := mlPrivRest E A o1) (by cases A <;> rfl) h2
  unfold mlPrivRest at h3
  split at h3
  · cases h3
  rename_i o2 hc
  split at h3
  · cases h3
  rename_i pk hx
  obtain ⟨p, sk, hp, hr2, hsk, same2, hval, hnos, hsd⟩ := priv_checked hr hc
  obtain ⟨p', s, raw, hp', hs, hraw, same, hb, hprev⟩ := info_find h3
  simp only at hraw
  injection hraw with hraw
  subst hraw
  have : p' = p := by
    rw [getUlong_find (same2 CKA_PARAMETER_SET (by decide)), hp] at hp'
    injection hp' with e; exact e.symm
  subst this
  obtain ⟨r1, r2, r3, r4, r5⟩ := set_row hs
  have nv : (CKA_VALUE : Nat) ≠ CKA_PUBLIC_KEY_INFO := by decide
  have keep : ∀ t, t ≠ CKA_VALUE → t ≠ CKA_PUBLIC_KEY_INFO → o.find t = o1.find t := by
    intro t a b; rw [hf t, if_neg (by simp [a, b])]
  have v3 : value o3 CKA_VALUE = some sk := by rw [value_eq, same _ nv, ← value_eq]; exact hsk
  have seedT : (o1.getBytes CKA_SEED).toOption = value o1 CKA_SEED := by
    rw [get_bytes hr (by decide +kernel)]
    cases value o1 CKA_SEED <;> rfl
  have seeded : ∀ v, value o1 CKA_SEED = some v → v.length = (mlRow s).seed ∧ E.expand s v = .ok (some sk) := by
    intro v hv
    obtain ⟨l, s', hs', he⟩ := hsd v hv
    rw [hs] at hs'; injection hs' with hs'; subst hs'
    exact ⟨by rw [r5]; exact l, he⟩
  have hlen : sk.length = (mlRow s).sk := by
    cases hv : value o1 CKA_SEED with
    | none =>
      obtain ⟨s', hs', l⟩ := hnos hv
      rw [hs] at hs'; injection hs' with hs'; subst hs'
      rw [r4]; exact l
    | some v => exact hl.expand _ _ _ (seeded v hv).2
  have skne : sk ≠ [] := by
    intro e; rw [e] at hlen
    have := (seed_pos s).2
    simp at hlen; omega
  refine ⟨s, sk, value o1 CKA_SEED, mlSpki s pk, r1, ⟨⟨?_, ?_, ?_, ?_, ?_, ?_⟩, ?_⟩, ?_, ?_, hlen, ?_, seeded, ?_⟩
  · rw [getUlong_find (keep _ (by decide) (by decide)), created_cls hF h1]
    cases A <;> rfl
  · rw [getUlong_find (keep _ (by decide) (by decide)), r1]
    exact (says_num hF h1 (hpl _ (by simp)) (by decide) (by decide) (by decide +kernel)).2 hkt
  · rw [getUlong_find (keep _ (by decide) (by decide)), r2]; exact hp
  · exact asym_bytes (.inl rfl) (hf _) v3
  · exact asym_bytes (.inr rfl) (hf _) hb
  · rw [getUlong_find (keep _ (by decide) (by decide)), keep _ (by decide) (by decide)]; exact mech_num hr
  · rw [getBytes_find (keep _ (by decide) (by decide))]; exact seedT
  · rw [r2]
    exact (says_num hF h1 (hpl _ (by simp)) (by decide) (by decide) (by decide +kernel)).1 hp
  · rcases says_bytes hF h1 (t := CKA_VALUE) (hpl _ (by simp)) (by decide) (by decide) (by decide +kernel) with ⟨w0, w1⟩ | ⟨v, w1, w2⟩
    · right
      refine ⟨w1, ?_⟩
      rcases hval with h | h
      · rw [w0] at h; cases h
      · exact h.2
    · left
      rcases hval with h | h
      · rw [h] at w1; injection w1 with w1; subst w1; exact w2 skne
      · rw [h.1] at w1; cases w1
  · rcases says_bytes hF h1 (t := CKA_SEED) (hpl _ (by simp)) (by decide) (by decide) (by decide +kernel) with ⟨w0, w1⟩ | ⟨v, w1, w2⟩
    · rw [w0]; exact w1
    · have := (seeded v w1).1
      rw [w1]
      refine w2 ?_
      intro e; rw [e] at this
      have := (seed_pos s).1
      simp at *; omega
  · rw [← seedT, ← getBytes_find (same2 CKA_SEED (by decide))]
    have i2 := same2 CKA_PUBLIC_KEY_INFO nv.symm
    rcases says_bytes hF h1 (t := CKA_PUBLIC_KEY_INFO) (hpl _ (by simp)) (by decide) (by decide) (by decide +kernel) with ⟨w0, w1⟩ | ⟨v, w1, w2⟩
    · left
      refine ⟨w1, pk, ?_⟩
      have n2 : o2.find CKA_PUBLIC_KEY_INFO = none := by
        rw [i2]
        rw [value_eq] at w0
        cases hi : o1.find CKA_PUBLIC_KEY_INFO with
        | none => rfl
        | some a => rw [hi] at w0; cases w0
      unfold mlExtract at hx
      rw [n2] at hx
      simp only at hx
      have hpub : E.pubOf s sk (o2.getBytes CKA_SEED).toOption = .ok (some pk) := by
        unfold mlPubLoaded at hx
        split at hx
        · cases hx
        split at hx
        · cases hx
        split at hx
        · cases hx
        split at hx
        · cases hx
        rw [hp'] at hx
        simp only [hs] at hx
        rw [get_bytes hr2 (t := CKA_VALUE) (by decide +kernel), hsk] at hx
        simp only at hx
        split at hx
        · cases hx
        · cases hx
        · rename_i hq
          injection hx with hx
          rw [hq, hx]
      have hpl := hl.pubOf _ _ _ _ hpub
      exact ⟨hpub, hpl, spki_is (by rw [hpl]; exact row_small s)⟩
    · right
      obtain ⟨a, ha, hav⟩ := value_find w1
      have he := hprev a (i2.trans ha)
      have : v = mlSpki s pk := by rw [← hav, he]
      subst this
      refine ⟨w2 (spki_ne _ _), pk, ?_, fun h => spki_is h⟩
      unfold mlExtract at hx
      rw [i2, ha] at hx
      simp only at hx
      rw [if_neg (by rw [hav]; exact spki_ne _ _), hav] at hx
      split at hx
      · cases hx
      · rename_i hq; injection hx with hx; rw [hq, hx]

/-! ## Through the session calls -/

/-- Types that are stored and read back as they are. -/
def mlTypes : List Nat := [CKA_CLASS, CKA_KEY_TYPE, CKA_PARAMETER_SET, CKA_VALUE, CKA_SEED, CKA_PUBLIC_KEY_INFO, CKA_KEY_GEN_MECHANISM,
  CKA_ENCRYPT, CKA_VERIFY, CKA_VERIFY_RECOVER, CKA_WRAP, CKA_DERIVE, CKA_ENCAPSULATE, CKA_ID, CKA_SUBJECT, CKA_TOKEN, CKA_PRIVATE, CKA_MODIFIABLE, CKA_COPYABLE,
  CKA_DESTROYABLE]

theorem mlTypes_kept : registry.all (fun p => mlTypes.all fun t => decide (kept p.2 t)) = true := by decide +kernel
theorem mlTypes_kind : mlTypes.all (fun t => decide (attrKind t ≠ some .ulongArray)) = true := by decide +kernel

/-- A new object, as it is read. -/
theorem inserted_find {e : Env} {k n : Nat} {t t' : Token} {o : Obj} (ho : HOk t) (ok : TblOk t.store.db.objs) (ok' : TblOk t'.store.db.objs)
    (hz : Zero o) (hr : Regular o) (hi : t.insertObject C e k o = (.ok n, t')) :
    ∀ e2, quiet e2 → ∃ o2, t'.getObjectByHandle C e2 n = .ok o2 ∧ ∀ ty ∈ mlTypes, o2.find ty = o.find ty := by
  intro e2 q
  have ins := (ins_ok ho hz hi).2.1
  have ha := aci_insert (C := C) e t k o
  rw [hi] at ha
  by_cases ht : o.isToken = true
  · obtain ⟨F, u, r, hF, hu, hrow, hget, hlog, hread⟩ := insert_stored ok hz ht hr hi
    have same : t'.sess = t.sess ∧ t'.logged = t.logged := by
      unfold Token.insertObject at hi
      rw [if_pos ht] at hi
      split at hi
      · cases hi
      · simp only at hi
        injection hi with _ h2
        subst h2
        exact ⟨rfl, rfl⟩
    have se : AMap.get t'.sess n = none := by
      rw [same.1]
      cases hx : AMap.get t.sess n with
      | none => rfl
      | some x =>
        obtain ⟨_, u', hu', _⟩ := ho.sess n x hx
        have := (ho.hs.low n u' hu').2
        have := ins.1
        omega
    have hlog' : t'.loggedIn = true := by
      unfold Token.loggedIn at hlog ⊢
      rw [same.2]; exact hlog
    have ha : t'.store.aci = t.store.aci := ha
    obtain ⟨o2, f1, _, _, f4⟩ := hread (e2 := e2) (s2 := t'.store) (h2 := t'.handles) (n2 := n) (hints := []) ok' hrow
      (by rw [ha]; exact ⟨rfl, fun _ => ⟨rfl, rfl⟩⟩) hget q (by intro t ht; cases ht)
    refine ⟨o2, ?_, fun ty hty => ?_⟩
    · unfold Token.getObjectByHandle
      simp only [se, f1, hlog', Bool.not_true, Bool.false_and, Bool.false_eq_true, if_false]
    · obtain ⟨key, hmem⟩ := objFactory_mem hF
      have hk := of_decide_eq_true (List.all_eq_true.1 (List.all_eq_true.1 mlTypes_kept _ hmem) ty hty)
      have hn := of_decide_eq_true (List.all_eq_true.1 mlTypes_kind ty hty)
      rw [f4, if_pos ⟨.inl rfl, hk⟩]
      cases hf : o.find ty with
      | none => rfl
      | some a =>
        rw [Option.map_some, normA_num]
        rw [find_typ hf]; exact hn
  · unfold Token.insertObject at hi
    rw [if_neg ht] at hi
    simp only at hi
    split at hi
    · cases hi
    · split at hi
      · cases hi
      · injection hi with h1 h2
        injection h1 with h1
        subst h2; subst h1
        have ht : o.isToken = false := by simpa using ht
        refine ⟨{ o with handle := t.handles.bump.1, session := k }, ?_, fun _ _ => rfl⟩
        unfold Token.getObjectByHandle
        simp only [AMap.get_insert, if_true]
        rw [if_neg]
        intro hb
        simp only [Bool.and_eq_true] at hb
        have : o.isToken = true := hb.1.2
        rw [ht] at this
        cases this

theorem mlObj_find {cls : Nat} {s : MlSet} {v b : Bytes} {o o2 : Obj} (h : ∀ ty ∈ mlTypes, o2.find ty = o.find ty) (k : MlObj cls s v b o) : MlObj cls s v b o2 :=
  ⟨by rw [getUlong_find (h _ (by simp [mlTypes]))]; exact k.cls, by rw [getUlong_find (h _ (by simp [mlTypes]))]; exact k.kt,
    by rw [getUlong_find (h _ (by simp [mlTypes]))]; exact k.num, by rw [getBytes_find (h _ (by simp [mlTypes]))]; exact k.val,
    by rw [getBytes_find (h _ (by simp [mlTypes]))]; exact k.info,
    by rw [getUlong_find (h _ (by simp [mlTypes])), h _ (by simp [mlTypes])]; exact k.mech⟩

theorem mlPriv_find {s : MlSet} {v b : Bytes} {seed : Option Bytes} {o o2 : Obj} (h : ∀ ty ∈ mlTypes, o2.find ty = o.find ty) (k : MlPriv s v seed b o) :
    MlPriv s v seed b o2 :=
  ⟨mlObj_find h k.1, by rw [getBytes_find (h _ (by simp [mlTypes]))]; exact k.2⟩

theorem regular_changed {k : FactoryKind} {o o' : Obj} {r : Res Obj} (hr : Regular o) (hk : (withMl O E).asym k o = mlChanged r)
    (h : asymChecks (withMl O E) k o = .ok o') : Regular o' := by
  unfold asymChecks at h
  rw [hk] at h
  cases r with
  | error r => cases h
  | ok o2 =>
    simp only [mlChanged] at h
    injection h with h
    rw [← h]
    generalize hl : ([CKA_VALUE, CKA_PUBLIC_KEY_INFO].filterMap fun t => (o2.find t).map fun a => Attr.ofBytes t a.value) = l
    have hm : ∀ a ∈ l.filter (fun a => asymUpdTypes.contains a.typ), a.typ ≠ CKA_CLASS ∧ InForm a := by
      intro a ha
      have ha := (List.mem_filter.1 ha).1
      rw [← hl] at ha
      obtain ⟨t, ht, e⟩ := List.mem_filterMap.1 ha
      cases hf : o2.find t with
      | none => rw [hf] at e; cases e
      | some b =>
        rw [hf] at e
        simp only [Option.map_some, Option.some.injEq] at e
        rw [← e]
        simp only [List.mem_cons, List.not_mem_nil, or_false] at ht
        rcases ht with rfl | rfl
        · exact ⟨show CKA_VALUE ≠ CKA_CLASS by decide, inForm_bytes _ _ (by decide +kernel)⟩
        · exact ⟨show CKA_PUBLIC_KEY_INFO ≠ CKA_CLASS by decide, inForm_bytes _ _ (by decide +kernel)⟩
    generalize l.filter (fun a => asymUpdTypes.contains a.typ) = m at hm
    clear h hl hk
    induction m generalizing o with
    | nil => exact hr
    | cons a m ih =>
      have := hm a (List.mem_cons_self ..)
      exact ih (o := o.put a) (regular_put hr this.2 this.1) (fun b hb => hm b (List.mem_cons_of_mem _ hb))

theorem regular_cls {o : Obj} {c : Nat} (hr : Regular o) (h : o.getUlong CKA_CLASS = .ok c) : o.cls = c := by
  unfold Obj.getUlong at h
  cases hf : o.find CKA_CLASS with
  | none => rw [hf] at h; cases h
  | some a =>
    have := hr.cls a (List.mem_of_find?_eq_some hf) (find_typ hf)
    subst this
    rw [hf] at h
    simp only at h
    unfold Attr.toUlong Attr.ofUlong at h
    rw [if_neg (by simp), if_neg (by exact fun h => h (ulongBytes_length _)), fromLE_ulongBytes _ hr.lt] at h
    injection h

theorem create_inserted {s : St} {e : Env} {h i n : Nat} {tm : Template} {sl : Slot} {x : Session} (hg : s.getSession h = .ok (i, sl, x))
    (hs : AMap.get s.slots i = some sl) (hdd : sl.token.cfg.dedup = none)
    (hok : (step M C O e s (.sess h (.createObject tm))).1 = .handle n) :
    ∃ o, factoriesCreate O (e.sub 0).uid tm = .ok o ∧ (o.cls ≠ CKO_TRUST → o.cls ≠ CKO_NSS_TRUST →
      ∃ sl' : Slot, AMap.get (step M C O e s (.sess h (.createObject tm))).2.slots i = some sl' ∧
        sl.token.insertObject C (e.sub 2) h o = (.ok n, sl'.token)) := by
  unfold step at hok ⊢
  simp only [hg, sessStep] at hok ⊢
  revert hok
  unfold fnCreate
  split
  · nofun
  split
  · nofun
  unfold Token.createObject
  cases hc : factoriesCreate O (e.sub 0).uid tm with
  | error r => nofun
  | ok o =>
    simp only
    intro hok
    refine ⟨o, rfl, fun n1 n2 => ?_⟩
    have dd : sl.token.checkDedup C (e.sub 1) o = (.ok none, sl.token) := by
      unfold Token.checkDedup
      simp only [hdd]
      rw [if_neg]
      simp [n1, n2]
    have fin : ∀ {p : Res Nat × Token} (ss : _), sl.token.insertObject C (e.sub 2) h o = p → Out.ofHandle p.1 = .handle n →
        ∃ sl' : Slot, AMap.get ((s.setSlot i { token := p.2, sessions := ss })).slots i = some sl' ∧
          sl.token.insertObject C (e.sub 2) h o = (.ok n, sl'.token) := by
      intro p ss hp hq
      obtain ⟨r, t'⟩ := p
      cases r with
      | error r => cases hq
      | ok n' =>
        injection hq with hq
        subst hq
        exact ⟨_, (get_setSlot hs).trans (if_pos rfl), hp⟩
    by_cases ht : o.isToken = true
    · rw [if_pos ht] at hok ⊢
      split at hok
      · cases hok
      · rename_i hl
        rw [if_neg hl]
        rw [dd] at hok ⊢
        exact fin _ rfl hok
    · rw [if_neg ht] at hok ⊢
      exact fin _ rfl hok

theorem select_key {tm : Template} {cls kt : Nat} (hq : asksKey tm cls kt) (hc : keyClass cls = true)
    (hn : ¬ (cls = CKO_DATA ∨ cls = CKO_TRUST ∨ cls = CKO_PROFILE ∨ cls = CKO_MECHANISM ∨ cls = CKO_NSS_TRUST) ∧ cls ≠ CKO_CERTIFICATE) :
    createSelect tm = getFactory cls kt := by
  unfold createSelect
  rw [asksFor_iff.1 hq.1]
  simp only
  rw [if_neg hn.1, if_neg hn.2, if_pos hc, asksFor_iff.1 hq.2]

/-- **C83**, public keys.  What C_CreateObject makes of a template for an ML-KEM or ML-DSA public key fits the parameter set the template names. -/
theorem C83_public (d : List (Nat × Db)) (hd : ∀ p ∈ d, TblOk p.2.objs) (tr : Trace) (hm : ∀ p ∈ tr, noMerge p.2) (e : Env) (h i n : Nat) (A : MlAlg)
    (tm : Template) (hs : onSlot M C (withMl O E) (after M C (withMl O E) d tr) h i) (hq : asksKey tm CKO_PUBLIC_KEY A.keyType)
    (hok : (step M C (withMl O E) e (after M C (withMl O E) d tr) (.sess h (.createObject tm))).1 = .handle n) :
    ∃ s pk b, (mlRow s).kt = A.keyType ∧ PublicFits s tm pk b ∧
      Seen C (step M C (withMl O E) e (after M C (withMl O E) d tr) (.sess h (.createObject tm))).2 i n (MlObj CKO_PUBLIC_KEY s pk b) := by
  have hi : Inv (after M C (withMl O E) d tr) := inv_reach _ _ d tr
  have ht : TInv (after M C (withMl O E) d tr) := tinv_reach _ _ hd tr
  have hh : HInv (after M C (withMl O E) d tr) := hinv_reach _ _ d tr
  have hdd : ∀ i sl, AMap.get (after M C (withMl O E) d tr).slots i = some sl → sl.token.cfg.dedup = none :=
    fun i sl g => noDedup_run tr (inv_empty d 0) hm (fun i sl h => by cases h) i sl g
  generalize after M C (withMl O E) d tr = s at *
  obtain ⟨sl, x, hg, h1, h2⟩ := getSession_live hi ((onSlot_iff hi).1 hs)
  have ht' := tinv_step (C := C) M (withMl O E) e s (.sess h (.createObject tm)) hi ht
  obtain ⟨o, hc, hins⟩ := create_inserted hg h1 (hdd i sl h1) hok
  have hz := zero_create hc
  unfold factoriesCreate at hc
  rw [select_key hq (by decide) (by decide), pub_factory] at hc
  simp only at hc
  obtain ⟨s', pk, b, r, f1, f2⟩ := pub_made hc hq.2
  obtain ⟨o1, k1, k2⟩ := create_pub hc
  have hr : Regular o := regular_changed (regular_keyCreate (getFactory_mem (pub_factory A)) k1) (r := mlPubRest A o1) (by cases A <;> rfl) k2
  have cl := regular_cls hr f1.cls
  obtain ⟨sl', a1, a2⟩ := hins (by rw [cl]; decide) (by rw [cl]; decide)
  refine ⟨s', pk, b, r, f2, sl', a1, fun e2 q => ?_⟩
  obtain ⟨o2, c1, c2⟩ := inserted_find (hh i sl h1).ok (ht.slots i sl h1) (ht'.slots i sl' a1) hz hr a2 e2 q
  exact ⟨o2, c1, mlObj_find c2 f1⟩

/-- **C83**, private keys.  What C_CreateObject makes of a template for an ML-KEM or ML-DSA private key fits the parameter set and the seed the template
names. -/
theorem C83_private (d : List (Nat × Db)) (hd : ∀ p ∈ d, TblOk p.2.objs) (tr : Trace) (hm : ∀ p ∈ tr, noMerge p.2) (e : Env) (h i n : Nat) (A : MlAlg)
    (hl : MlLens E) (tm : Template) (hs : onSlot M C (withMl O E) (after M C (withMl O E) d tr) h i) (hq : asksKey tm CKO_PRIVATE_KEY A.keyType)
    (hok : (step M C (withMl O E) e (after M C (withMl O E) d tr) (.sess h (.createObject tm))).1 = .handle n) :
    ∃ s sk seed b, (mlRow s).kt = A.keyType ∧ PrivateFits E s tm sk seed b ∧
      Seen C (step M C (withMl O E) e (after M C (withMl O E) d tr) (.sess h (.createObject tm))).2 i n (MlPriv s sk seed b) := by
  have hi : Inv (after M C (withMl O E) d tr) := inv_reach _ _ d tr
  have ht : TInv (after M C (withMl O E) d tr) := tinv_reach _ _ hd tr
  have hh : HInv (after M C (withMl O E) d tr) := hinv_reach _ _ d tr
  have hdd : ∀ i sl, AMap.get (after M C (withMl O E) d tr).slots i = some sl → sl.token.cfg.dedup = none :=
    fun i sl g => noDedup_run tr (inv_empty d 0) hm (fun i sl h => by cases h) i sl g
  generalize after M C (withMl O E) d tr = s at *
  obtain ⟨sl, x, hg, h1, h2⟩ := getSession_live hi ((onSlot_iff hi).1 hs)
  have ht' := tinv_step (C := C) M (withMl O E) e s (.sess h (.createObject tm)) hi ht
  obtain ⟨o, hc, hins⟩ := create_inserted hg h1 (hdd i sl h1) hok
  have hz := zero_create hc
  unfold factoriesCreate at hc
  rw [select_key hq (by decide) (by decide), priv_factory] at hc
  simp only at hc
  obtain ⟨s', sk, seed, b, r, f1, f2⟩ := priv_made hl hc hq.2
  obtain ⟨o1, k1, k2⟩ := create_priv hc
  have hr : Regular o := regular_changed (regular_keyCreate (getFactory_mem (priv_factory A)) k1) (r := mlPrivRest E A o1) (by cases A <;> rfl) k2
  have cl := regular_cls hr f1.1.cls
  obtain ⟨sl', a1, a2⟩ := hins (by rw [cl]; decide) (by rw [cl]; decide)
  refine ⟨s', sk, seed, b, r, f2, sl', a1, fun e2 q => ?_⟩
  obtain ⟨o2, c1, c2⟩ := inserted_find (hh i sl h1).ok (ht.slots i sl h1) (ht'.slots i sl' a1) hz hr a2 e2 q
  exact ⟨o2, c1, mlPriv_find c2 f1⟩

/-! ## CKM_PUB_KEY_FROM_PRIV_KEY -/

theorem asks_last {tm : Template} {t n : Nat} (h : tm.find? (fun c => c.typ == t) = none) (hn : n < 2 ^ 64) : asksFor (tm ++ [CkAttr.ofUlong t n]) t n := by
  refine ⟨tm, CkAttr.ofUlong t n, [], rfl, rfl, fun d hd e => ?_, (toUlong_pval hn).2 rfl⟩
  have := List.find?_eq_none.1 h d hd
  simp [e] at this

theorem ensure_asks {tm tm' : Template} {t n : Nat} (hn : n < 2 ^ 64) (h : ensureAsks tm t n = .ok tm') : asksFor tm' t n ∧ tm <+: tm' := by
  unfold ensureAsks at h
  split at h
  · rename_i hf
    injection h with h
    rw [← h]
    exact ⟨asks_last hf hn, List.prefix_append _ _⟩
  · rename_i c hf
    split at h
    · cases h
    · rename_i m hm
      split at h
      · cases h
      · rename_i e
        injection h with h
        subst h
        have e := Decidable.of_not_not e
        subst e
        exact ⟨findA_asks hf hm, List.prefix_refl _⟩

theorem rules_prefix {key : Obj} : ∀ (l : List (Nat × PubRule)) (tm : Template), tm <+: applyRules key l tm
  | [], tm => List.prefix_refl _
  | (t, .dflt b) :: rest, tm => by
    unfold applyRules
    refine List.IsPrefix.trans ?_ (rules_prefix rest _)
    unfold addIfMissing
    split
    · exact List.prefix_refl _
    · exact List.prefix_append _ _
  | (t, .copy s) :: rest, tm => by
    unfold applyRules
    split
    · exact rules_prefix rest _
    · refine List.IsPrefix.trans ?_ (rules_prefix rest _)
      unfold addIfMissing
      split
      · exact List.prefix_refl _
      · exact List.prefix_append _ _

theorem asks_prefix {tm tm' : Template} {t n : Nat} (h : asksFor tm t n) (hp : tm <+: tm') : asksFor tm' t n := by
  obtain ⟨l, rfl⟩ := hp
  exact asksFor_append h

theorem row_type (s : MlSet) : ∃ A : MlAlg, (mlRow s).kt = A.keyType := by
  cases s <;> first | exact ⟨.kem, rfl⟩ | exact ⟨.dsa, rfl⟩

theorem algOf_type {key : Obj} {A : MlAlg} (h : key.getUlong CKA_KEY_TYPE = .ok A.keyType) : mlAlgOf key = some A := by
  unfold mlAlgOf
  rw [h]
  cases A <;> rfl

/-- The public key made of a private key. -/
theorem pubFrom_made {A : MlAlg} {s : MlSet} {sk pk b uid : Bytes} {key o : Obj} {tm : Template} (hR : ReadsSpki E) (hb : IsSpki s pk b) (hA : (mlRow s).kt = A.keyType)
    (hk : MlObj CKO_PRIVATE_KEY s sk b key) (h : pubFromPriv O E A uid key tm = .ok o) :
    Regular o ∧ pk.length = (mlRow s).pk ∧ ∃ b', IsSpki s pk b' ∧ MlObj CKO_PUBLIC_KEY s pk b' o := by
  unfold pubFromPriv at h
  split at h
  · cases h
  split at h
  · cases h
  rename_i t1 h1
  split at h
  · cases h
  rename_i t2 h2
  split at h
  · cases h
  rename_i o1 h3
  obtain ⟨q1, p1⟩ := ensure_asks (by decide) h1
  obtain ⟨q2, p2⟩ := ensure_asks (by cases A <;> decide) h2
  have p3 := rules_prefix (key := key) pubRules t2
  unfold mlPubFrom at h3
  rw [hk.num] at h3
  simp only at h3
  have hx : ∀ pk', mlExtract E A key = .ok pk' → pk' = pk := by
    intro pk' hx
    unfold mlExtract at hx
    obtain ⟨a, ha, hav⟩ := value_find (getBytes_is hk.info)
    rw [ha] at hx
    simp only at hx
    rw [if_neg, hav, hR s pk b hb] at hx
    · injection hx with hx; exact hx.symm
    · rw [hav]
      rintro rfl
      obtain ⟨_, _, _, hn, _⟩ := hb
      cases hn
  split at h3
  · cases h3
  rename_i pk' hx'
  have := hx _ hx'
  subst this
  rw [pub_factory] at h3
  simp only at h3
  generalize hT : applyRules key pubRules t2 ++ [CkAttr.ofUlong CKA_PARAMETER_SET (mlRow s).num, CkAttr.mk' CKA_VALUE pk'] = T at h3
  have hF := getFactory_mem (pub_factory A)
  have hpl := List.all_eq_true.1 (pub_plain A)
  have hkt : asksFor T CKA_KEY_TYPE A.keyType := asks_prefix q2 (p3.trans (by rw [← hT]; exact List.prefix_append _ _))
  obtain ⟨s', pk2, b', r, f1, f2⟩ := pub_made h3 hkt
  obtain ⟨ok, k1, k2⟩ := create_pub h3
  have hr : Regular o1 := regular_changed (regular_keyCreate hF k1) (r := mlPubRest A ok) (by cases A <;> rfl) k2
  have e1 : pk2 = pk' := by
    have h1 : CkAttr.mk' CKA_VALUE pk2 ∈ T := f2.value
    have h2 : CkAttr.mk' CKA_VALUE pk' ∈ T := by rw [← hT]; simp
    have := created_once hF k1 (hpl CKA_VALUE (by simp)) (by decide) h1 h2 rfl rfl
    injection this with _ this
    injection this
  subst e1
  have hnum : ∀ s, (mlRow s).num < 2 ^ 64 := by intro s; cases s <;> decide
  have e2 : s' = s := by
    obtain ⟨pre, c, post, hc, c1, _, c3⟩ := f2.num
    have h2 : CkAttr.ofUlong CKA_PARAMETER_SET (mlRow s).num ∈ T := by rw [← hT]; simp
    have := created_once hF k1 (hpl CKA_PARAMETER_SET (by simp)) (by decide) (c := c) (by rw [hc]; simp) h2 c1 rfl
    rw [this, (toUlong_pval (hnum s)).2 rfl] at c3
    injection c3 with c3
    have a := row_set (hA.trans rfl)
    rw [c3, row_set r] at a
    injection a
  subst e2
  have key_gen : ∀ {o2 : Obj} {a : Attr}, key.find CKA_KEY_GEN_MECHANISM = some a → o1.setAttr a = .ok o2 →
      Regular o2 ∧ MlObj CKO_PUBLIC_KEY s' pk2 b' o2 := by
    intro o2 a ha h
    have hty := find_typ ha
    have hin : InForm a := by
      rcases hk.mech with h | ⟨n, h⟩
      · rw [h] at ha; cases ha
      · unfold Obj.getUlong at h
        rw [ha] at h
        simp only [Attr.toUlong] at h
        split at h
        · cases h
        · rename_i g1
          split at h
          · cases h
          · rename_i g2
            have g1 := Decidable.of_not_not g1
            have g2 := Decidable.of_not_not g2
            left
            rw [hty, g1]
            exact ⟨by decide +kernel, g2⟩
    have ne : a.typ ≠ CKA_CLASS := by rw [hty]; decide
    have r2 := regular_setAttr h hr hin ne
    refine ⟨r2, ?_⟩
    have fd : ∀ t, t ≠ CKA_KEY_GEN_MECHANISM → o2.find t = o1.find t := by
      intro t ht
      unfold Obj.setAttr at h
      rw [if_neg ne] at h
      injection h with h
      rw [← h]
      show (o1.put a).find t = _
      rw [find_put, if_neg]
      rw [hty]; exact fun e => ht e.symm
    exact ⟨by rw [getUlong_find (fd _ (by decide))]; exact f1.cls, by rw [getUlong_find (fd _ (by decide))]; exact f1.kt,
      by rw [getUlong_find (fd _ (by decide))]; exact f1.num, by rw [getBytes_find (fd _ (by decide))]; exact f1.val,
      by rw [getBytes_find (fd _ (by decide))]; exact f1.info, mech_num r2⟩
  split at h
  · injection h with h
    subst h
    exact ⟨hr, f2.length, b', f2.spki, f1⟩
  · rename_i a ha
    have := key_gen ha h
    exact ⟨this.1, f2.length, b', f2.spki, this.2⟩

/-- The attribute a rule gives. -/
def ruleAttr (key : Obj) (t : Nat) : PubRule → Option CkAttr
  | .dflt b => some (CkAttr.ofBool t b)
  | .copy u => (key.find u).map fun a => CkAttr.mk' t a.value

theorem add_lacks {tm : Template} {c : CkAttr} {t : Nat} (h : ∀ c ∈ tm, c.typ ≠ t) (hc : c.typ ≠ t) : ∀ d ∈ addIfMissing tm c, d.typ ≠ t := by
  unfold addIfMissing
  split
  · exact h
  · intro d hd
    rcases List.mem_append.1 hd with hd | hd
    · exact h d hd
    · rw [List.mem_singleton.1 hd]; exact hc

theorem add_has {tm : Template} {c : CkAttr} (h : ∀ d ∈ tm, d.typ ≠ c.typ) : c ∈ addIfMissing tm c := by
  unfold addIfMissing
  rw [if_neg]
  · simp
  · intro e
    obtain ⟨d, hd, e⟩ := List.any_eq_true.1 e
    exact h d hd (by simpa using e)

theorem rule_added {key : Obj} {t : Nat} {r : PubRule} {c : CkAttr} (hc : ruleAttr key t r = some c) :
    ∀ (l : List (Nat × PubRule)) (tm : Template), (∀ d ∈ tm, d.typ ≠ t) → l.find? (fun x => x.1 == t) = some (t, r) → c ∈ applyRules key l tm
  | [], _, _, hl => by cases hl
  | (u, .dflt b) :: rest, tm, h, hl => by
    unfold applyRules
    by_cases e : u = t
    · subst e
      rw [List.find?_cons_of_pos (by simp)] at hl
      injection hl with hl
      injection hl with _ hl
      subst hl
      injection hc with hc
      subst hc
      exact (rules_prefix rest _).subset (add_has h)
    · rw [List.find?_cons_of_neg (by simpa using e)] at hl
      exact rule_added hc rest _ (add_lacks h e) hl
  | (u, .copy v) :: rest, tm, h, hl => by
    unfold applyRules
    by_cases e : u = t
    · subst e
      rw [List.find?_cons_of_pos (by simp)] at hl
      injection hl with hl
      injection hl with _ hl
      subst hl
      simp only [ruleAttr] at hc
      cases hv : key.find v with
      | none => rw [hv] at hc; cases hc
      | some a =>
        rw [hv] at hc
        injection hc with hc
        subst hc
        exact (rules_prefix rest _).subset (add_has h)
    · rw [List.find?_cons_of_neg (by simpa using e)] at hl
      split
      · exact rule_added hc rest _ h hl
      · exact rule_added hc rest _ (add_lacks h e) hl

theorem ensure_lacks {tm tm' : Template} {t u n : Nat} (hu : u ≠ t) (h : ensureAsks tm u n = .ok tm') (hl : ∀ c ∈ tm, c.typ ≠ t) : ∀ c ∈ tm', c.typ ≠ t := by
  unfold ensureAsks at h
  split at h
  · injection h with h
    subst h
    intro d hd
    rcases List.mem_append.1 hd with hd | hd
    · exact hl d hd
    · rw [List.mem_singleton.1 hd]; exact hu
  · split at h
    · cases h
    · split at h
      · cases h
      · injection h with h
        subst h
        exact hl

/-- What the template of a new key says, the key has, whatever the default. -/
theorem created_given {F : Factory} {k : Nat × Nat} (hF : (k, F) ∈ registry) {uid : Bytes} {tm : Template} {o : Obj} (h : keyCreate F uid tm = .ok o) {t : Nat}
    (nig : ¬ Marked F t oaIgnored) (ht : t ∉ [CKA_UNIQUE_ID, CKA_LOCAL, CKA_ALWAYS_SENSITIVE, CKA_NEVER_EXTRACTABLE]) (hc : t ≠ CKA_CLASS)
    {c : CkAttr} (hm : c ∈ tm) (e : c.typ = t) : ∃ a, Attr.fromCk c = .ok a ∧ value o t = some a.value := by
  obtain ⟨o0, h0, hs⟩ := keyCreate_same (l := [CKA_UNIQUE_ID, CKA_LOCAL, CKA_ALWAYS_SENSITIVE, CKA_NEVER_EXTRACTABLE]) (by simp) (by simp) (by simp) (by simp) h
  have acc := ((C15_accepts_iff F k hF _ _ _).1 ⟨o0, h0⟩).once
  have nv := C15_values F k hF _ _ _ o0 h0 t
  rw [value_eq, hs t ht, ← value_eq]
  generalize value o0 t = x at nv
  cases nv with
  | cls e => exact absurd e hc
  | given c' a _ _ h1 h2 h3 =>
    have : c' = c := by
      clear h h0 h3
      induction tm with
      | nil => cases h1
      | cons x tm ih =>
        rw [List.pairwise_cons] at acc
        rcases List.mem_cons.1 h1 with rfl | m1
        · rcases List.mem_cons.1 hm with rfl | m2
          · rfl
          · rcases acc.1 c m2 (h2.trans e.symm) with h | h
            · exact absurd (h2.symm.trans h) hc
            · rw [h2] at h; exact absurd h nig
        · rcases List.mem_cons.1 hm with rfl | m2
          · rcases acc.1 c' m1 (e.trans h2.symm) with h | h
            · exact absurd (e.symm.trans h) hc
            · rw [e] at h; exact absurd h nig
          · exact ih m2 acc.2 m1
    subst this
    exact ⟨a, h3, rfl⟩
  | default f hn => exact absurd (.inr ⟨nig, c, hm, e⟩) hn
  | absent hn => exact absurd (.inr ⟨nig, c, hm, e⟩) hn

/-- The types the rules are about. -/
def ruleTypes : List Nat := [CKA_ENCRYPT, CKA_VERIFY, CKA_VERIFY_RECOVER, CKA_WRAP, CKA_DERIVE, CKA_ENCAPSULATE, CKA_ID, CKA_SUBJECT, CKA_TOKEN, CKA_PRIVATE,
  CKA_MODIFIABLE, CKA_COPYABLE, CKA_DESTROYABLE]

theorem ruleTypes_plain (A : MlAlg) : ruleTypes.all (fun t => (mlPubF A).attrs.all fun f => f.typ != t || !f.is oaIgnored) = true := by cases A <;> decide +kernel
theorem ruleTypes_ne : ruleTypes.all (fun t => ![CKA_UNIQUE_ID, CKA_LOCAL, CKA_ALWAYS_SENSITIVE, CKA_NEVER_EXTRACTABLE, CKA_CLASS, CKA_KEY_TYPE, CKA_VALUE,
  CKA_PUBLIC_KEY_INFO, CKA_KEY_GEN_MECHANISM].contains t) = true := by decide

/-- What a rule gives, the new key has. -/
theorem pubFrom_says {A : MlAlg} {uid : Bytes} {key o : Obj} {tm : Template} (h : pubFromPriv O E A uid key tm = .ok o) {t : Nat} {r : PubRule} {c : CkAttr}
    (ht : t ∈ ruleTypes) (hl : ∀ c ∈ tm, c.typ ≠ t) (hr : pubRules.find? (fun x => x.1 == t) = some (t, r)) (hc : ruleAttr key t r = some c) (hct : c.typ = t) :
    ∃ a, Attr.fromCk c = .ok a ∧ value o t = some a.value := by
  have ne := List.all_eq_true.1 ruleTypes_ne t ht
  simp only [List.contains_eq_mem, Bool.not_eq_true', decide_eq_false_iff_not, List.mem_cons, List.not_mem_nil, or_false, not_or] at ne
  obtain ⟨n1, n2, n3, n4, n5, n6, n7, n8, n9⟩ := ne
  unfold pubFromPriv at h
  split at h
  · cases h
  split at h
  · cases h
  rename_i t1 h1
  split at h
  · cases h
  rename_i t2 h2
  split at h
  · cases h
  rename_i o1 h3
  have l2 := ensure_lacks (Ne.symm n6) h2 (ensure_lacks (Ne.symm n5) h1 hl)
  have hm := rule_added hc pubRules t2 l2 hr
  unfold mlPubFrom at h3
  split at h3
  · cases h3
  split at h3
  · cases h3
  rw [pub_factory] at h3
  simp only at h3
  obtain ⟨ok, k1, k2⟩ := create_pub h3
  obtain ⟨a, a1, a2⟩ := created_given (getFactory_mem (pub_factory A)) k1 (t := t) (by
    rintro ⟨f, hf, e, hi⟩
    have := List.all_eq_true.1 (List.all_eq_true.1 (ruleTypes_plain A) t ht) f hf
    simp [e, hi] at this) (by simp [n1, n2, n3, n4]) n5 (List.mem_append_left _ hm) hct
  obtain ⟨_, _, hf⟩ := asym_find (r := mlPubRest A ok) (by cases A <;> rfl) k2
  refine ⟨a, a1, ?_⟩
  have v1 : value o1 t = some a.value := by
    rw [value_eq, hf t, if_neg (by simp [n7, n8]), ← value_eq]; exact a2
  split at h
  · injection h with h
    rw [← h]; exact v1
  · rename_i x hx
    have hty := find_typ hx
    unfold Obj.setAttr at h
    rw [if_neg (by rw [hty]; decide)] at h
    injection h with h
    rw [← h, value_eq]
    show Option.map _ ((o1.put x).find t) = _
    rw [find_put, if_neg (by rw [hty]; exact Ne.symm n9), ← value_eq]
    exact v1

theorem bool_from {t : Nat} {a : Attr} {b : UInt8} (hk : attrKind t = some .bool) (h : Attr.fromCk (CkAttr.mk' t [b]) = .ok a) :
    a.value = if b = 0 then [0] else [1] := by
  have tb : (CkAttr.mk' t [b]).toBool = .ok (decide (b ≠ 0)) := rfl
  unfold Attr.fromCk at h
  rw [show attrKind (CkAttr.mk' t [b]).typ = some .bool from hk] at h
  simp only [tb] at h
  injection h with h
  rw [← h]
  by_cases e : b = 0 <;> simp [Attr.ofBool, e]

theorem bool_of {t : Nat} {a : Attr} {b : Bool} (hk : attrKind t = some .bool) (h : Attr.fromCk (CkAttr.ofBool t b) = .ok a) :
    a.value = [if b then 1 else 0] := by
  cases b
  · exact bool_from (b := 0) hk h
  · exact bool_from (b := 1) hk h

theorem bytes_from {t : Nat} {a : Attr} {v : Bytes} (hk : attrKind t = some .bytes) (h : Attr.fromCk (CkAttr.mk' t v) = .ok a) : a.value = v := by
  unfold Attr.fromCk at h
  rw [show attrKind (CkAttr.mk' t v).typ = some .bytes from hk] at h
  injection h with h
  rw [← h]
  rfl

theorem counterpart_rules : counterpart.all (fun p => decide (p.1 ∈ ruleTypes ∧ attrKind p.1 = some .bool ∧
  pubRules.find? (fun x => x.1 == p.1) = some (p.1, .copy p.2))) = true := by decide +kernel

/-- The new key takes after the private key. -/
theorem pubFrom_after {A : MlAlg} {uid : Bytes} {key o : Obj} {tm : Template} (h : pubFromPriv O E A uid key tm = .ok o) : TakesAfter tm key o := by
  have use : ∀ p ∈ counterpart, (∀ c ∈ tm, c.typ ≠ p.1) → ∀ b, value key p.2 = some [b] → value o p.1 = some (if b = 0 then [0] else [1]) := by
    intro p hp hl b hv
    obtain ⟨q1, q2, q3⟩ := of_decide_eq_true (List.all_eq_true.1 counterpart_rules p hp)
    obtain ⟨x, hx, hxv⟩ := value_find hv
    obtain ⟨a, a1, a2⟩ := pubFrom_says h q1 hl q3 (c := CkAttr.mk' p.1 [b]) (by simp [ruleAttr, hx, hxv]) rfl
    rw [a2, bool_from q2 a1]
  have dfl : ∀ t b, t ∈ ruleTypes → attrKind t = some .bool → pubRules.find? (fun x => x.1 == t) = some (t, .dflt b) → (∀ c ∈ tm, c.typ ≠ t) →
      value o t = some [if b then 1 else 0] := by
    intro t b q1 q2 q3 hl
    obtain ⟨a, a1, a2⟩ := pubFrom_says h q1 hl q3 (c := CkAttr.ofBool t b) rfl rfl
    rw [a2, bool_of q2 a1]
  refine ⟨?_, ?_, ?_, ?_, ?_⟩
  · intro p hp hl ⟨b, hv, hb⟩
    exact ⟨1, by rw [use p hp hl b hv, if_neg hb], by decide⟩
  · intro p hp hl hv
    exact (use p hp hl 0 hv).trans rfl
  · intro t ht hl v hv
    obtain ⟨q1, q2, q3⟩ : t ∈ ruleTypes ∧ attrKind t = some .bytes ∧ pubRules.find? (fun x => x.1 == t) = some (t, .copy t) := by
      rcases List.mem_cons.1 ht with rfl | ht
      · decide +kernel
      · rw [List.mem_singleton.1 ht]; decide +kernel
    obtain ⟨x, hx, hxv⟩ := value_find hv
    obtain ⟨a, a1, a2⟩ := pubFrom_says h q1 hl q3 (c := CkAttr.mk' t v) (by simp [ruleAttr, hx, hxv]) rfl
    rw [a2, bytes_from q2 a1]
  · intro t ht hl
    refine ⟨1, ?_, by decide⟩
    rcases List.mem_cons.1 ht with rfl | ht
    · exact dfl _ true (by decide) (by decide +kernel) (by decide) hl
    · obtain rfl := List.mem_singleton.1 ht
      exact dfl _ true (by decide) (by decide +kernel) (by decide) hl
  · intro t ht hl
    rcases List.mem_cons.1 ht with rfl | ht
    · exact dfl _ false (by decide) (by decide +kernel) (by decide) hl
    · rcases List.mem_cons.1 ht with rfl | ht
      · exact dfl _ false (by decide) (by decide +kernel) (by decide) hl
      · obtain rfl := List.mem_singleton.1 ht
        exact dfl _ false (by decide) (by decide +kernel) (by decide) hl

theorem takes_find {tm : Template} {k o o2 : Obj} (h : ∀ ty ∈ ruleTypes, o2.find ty = o.find ty) (q : TakesAfter tm k o) : TakesAfter tm k o2 := by
  have e : ∀ t ∈ ruleTypes, value o2 t = value o t := fun t ht => by rw [value_eq, value_eq, h t ht]
  have tr : ∀ t ∈ ruleTypes, IsTrue o t → IsTrue o2 t := fun t ht ⟨b, x, y⟩ => ⟨b, by rw [e t ht]; exact x, y⟩
  have fa : ∀ t ∈ ruleTypes, IsFalse o t → IsFalse o2 t := fun t ht x => (e t ht).trans x
  have cp : ∀ p ∈ counterpart, p.1 ∈ ruleTypes := fun p hp => (of_decide_eq_true (List.all_eq_true.1 counterpart_rules p hp)).1
  refine ⟨fun p hp hl hk => tr _ (cp p hp) (q.may p hp hl hk), fun p hp hl hk => fa _ (cp p hp) (q.mayNot p hp hl hk), fun t ht hl v hv => ?_,
    fun t ht hl => tr _ ?_ (q.yes t ht hl), fun t ht hl => fa _ ?_ (q.no t ht hl)⟩
  · rw [e t]
    · exact q.same t ht hl v hv
    · exact (show ∀ t ∈ [CKA_ID, CKA_SUBJECT], t ∈ ruleTypes by decide) t ht
  · exact (show ∀ t ∈ [CKA_MODIFIABLE, CKA_COPYABLE], t ∈ ruleTypes by decide) t ht
  · exact (show ∀ t ∈ [CKA_TOKEN, CKA_PRIVATE, CKA_DESTROYABLE], t ∈ ruleTypes by decide) t ht

/-- What CKM_PUB_KEY_FROM_PRIV_KEY does with a key of these types. -/
theorem derive_inserted {s : St} {e : Env} {h i key : Nat} {q : Bytes} {tm : Template} {l : List Nat} {sl : Slot} {x : Session}
    (hg : s.getSession h = .ok (i, sl, x)) (hs : AMap.get s.slots i = some sl) (hA : ∀ k, sl.token.getObjectByHandle C (e.sub 0) key = .ok k → mlAlgOf k ≠ none)
    (hok : (step (withPub M O E) C (withMl O E) e s (.op h (.derive CKM_PUB_KEY_FROM_PRIV_KEY q key tm))).1 = .handles l) :
    ∃ k A o n, sl.token.getObjectByHandle C (e.sub 0) key = .ok k ∧ mlAlgOf k = some A ∧ pubFromPriv O E A (e.sub 2).uid k tm = .ok o ∧ l = [n] ∧
      ∃ sl', AMap.get (step (withPub M O E) C (withMl O E) e s (.op h (.derive CKM_PUB_KEY_FROM_PRIV_KEY q key tm))).2.slots i = some sl' ∧
        sl.token.insertObject C (e.sub 3) h (fresh o) = (.ok n, sl'.token) := by
  have get : ∃ t2, fnDerive (withPub M O E) C e h CKM_PUB_KEY_FROM_PRIV_KEY q key tm x sl.token = (.ok l, t2) ∧
      ∃ sl', AMap.get (step (withPub M O E) C (withMl O E) e s (.op h (.derive CKM_PUB_KEY_FROM_PRIV_KEY q key tm))).2.slots i = some sl' ∧
        sl'.token = t2 := by
    unfold step at hok ⊢
    simp only [hg, opStep] at hok ⊢
    generalize fnDerive (withPub M O E) C e h CKM_PUB_KEY_FROM_PRIV_KEY q key tm x sl.token = p at hok ⊢
    obtain ⟨r, t2⟩ := p
    cases r with
    | error r => cases hok
    | ok p =>
      injection hok with hok
      subst hok
      exact ⟨t2, rfl, _, (get_setSlot hs).trans (if_pos rfl), rfl⟩
  obtain ⟨t2, hfn, sl', hs', rfl⟩ := get
  revert hfn
  unfold fnDerive
  split; · nofun
  split; · nofun
  split; · nofun
  rename_i k hk
  have hA := hA k hk
  split; · nofun
  split; · nofun
  split; · nofun
  split; · nofun
  split; · nofun
  rename_i ex _
  have hD : ∀ r, (withPub M O E).derive (e.sub 2) CKM_PUB_KEY_FROM_PRIV_KEY q k ex tm = .ok r →
      ∃ A o, mlAlgOf k = some A ∧ pubFromPriv O E A (e.sub 2).uid k tm = .ok o ∧ r = [o] := by
    intro r hr
    simp only [withPub] at hr
    rw [if_neg (fun c => c rfl)] at hr
    split at hr
    · rename_i hn; exact absurd hn hA
    rename_i A hA'
    split at hr
    · cases hr
    split at hr
    · cases hr
    rename_i o ho
    injection hr with hr
    exact ⟨A, o, hA', ho, hr.symm⟩
  split; · nofun
  · nofun
  rename_i o os hd
  obtain ⟨A, o', a1, a2, a3⟩ := hD _ hd
  injection a3 with a3 a4
  subst a3; subst a4
  rw [if_neg (by decide), if_neg (by decide), if_neg (by simp)]
  generalize hins : sl.token.insertObject C (e.sub 3) h (fresh o) = p
  obtain ⟨r, t1⟩ := p
  cases r with
  | error r => nofun
  | ok n =>
    intro hfn
    injection hfn with h1 h2
    injection h1 with h1
    subst h2
    exact ⟨k, A, o, n, hk, a1, a2, h1.symm, sl', hs', hins⟩

/-- **C83**, public key of a private key.  CKM_PUB_KEY_FROM_PRIV_KEY makes one key: the public key that CKA_PUBLIC_KEY_INFO of the private key describes, of the
same parameter set; it has the length of this set. -/
theorem C83_derived (d : List (Nat × Db)) (hd : ∀ p ∈ d, TblOk p.2.objs) (tr : Trace) (e : Env) (h i key : Nat) (q : Bytes) (tm : Template) (l : List Nat)
    (hR : ReadsSpki E) (hs : onSlot (withPub M O E) C (withMl O E) (after (withPub M O E) C (withMl O E) d tr) h i)
    (s : MlSet) (sk pk b : Bytes) (hb : IsSpki s pk b) (hk : Seen C (after (withPub M O E) C (withMl O E) d tr) i key (MlObj CKO_PRIVATE_KEY s sk b))
    (hok : (step (withPub M O E) C (withMl O E) e (after (withPub M O E) C (withMl O E) d tr) (.op h (.derive CKM_PUB_KEY_FROM_PRIV_KEY q key tm))).1 = .handles l) :
    pk.length = (mlRow s).pk ∧ ∃ n b', l = [n] ∧ IsSpki s pk b' ∧
      Seen C (step (withPub M O E) C (withMl O E) e (after (withPub M O E) C (withMl O E) d tr) (.op h (.derive CKM_PUB_KEY_FROM_PRIV_KEY q key tm))).2 i n
        (MlObj CKO_PUBLIC_KEY s pk b') := by
  have hi : Inv (after (withPub M O E) C (withMl O E) d tr) := inv_reach _ _ d tr
  have ht : TInv (after (withPub M O E) C (withMl O E) d tr) := tinv_reach _ _ hd tr
  have hh : HInv (after (withPub M O E) C (withMl O E) d tr) := hinv_reach _ _ d tr
  generalize after (withPub M O E) C (withMl O E) d tr = st at *
  obtain ⟨sl, x, hg, h1, h2⟩ := getSession_live hi ((onSlot_iff hi).1 hs)
  have ht' := tinv_step (C := C) (withPub M O E) (withMl O E) e st (.op h (.derive CKM_PUB_KEY_FROM_PRIV_KEY q key tm)) hi ht
  obtain ⟨A, rt⟩ := row_type s
  have hrd : ∀ k, sl.token.getObjectByHandle C (e.sub 0) key = .ok k → MlObj CKO_PRIVATE_KEY s sk b k := by
    intro k hkk
    obtain ⟨sl2, g, hk⟩ := hk
    rw [h1] at g; injection g with g; subst g
    obtain ⟨o, k1, k2⟩ := hk quietEnv (fun _ => rfl)
    rw [byHandle_mono (fun _ => rfl) hkk] at k1
    injection k1 with k1
    rw [k1]; exact k2
  obtain ⟨k, A', o, n, a1, a2, a3, a4, sl', a5, a6⟩ := derive_inserted hg h1 (fun k hkk => by
    rw [algOf_type (A := A) (by rw [← rt]; exact (hrd k hkk).kt)]; nofun) hok
  have hk := hrd k a1
  have : A' = A := by
    rw [algOf_type (A := A) (by rw [← rt]; exact hk.kt)] at a2
    injection a2 with a2; exact a2.symm
  subst this
  obtain ⟨r, len, b', c1, c2⟩ := pubFrom_made hR hb rt hk a3
  refine ⟨len, n, b', a4, c1, sl', a5, fun e2 qq => ?_⟩
  obtain ⟨o2, f1, f2⟩ := inserted_find (hh i sl h1).ok (ht.slots i sl h1) (ht'.slots i sl' a5) (zero_fresh o) (regular_fresh r) a6 e2 qq
  exact ⟨o2, f1, mlObj_find f2 (mlObj_find (fun ty _ => fresh_find r ty) c2)⟩

/-- **C83**, attributes of the public key of a private key.  Where the template of CKM_PUB_KEY_FROM_PRIV_KEY is silent, the new key may do what corresponds to what
the private key may do, and nothing else; CKA_ID and CKA_SUBJECT are those of the private key. -/
theorem C83_usages (d : List (Nat × Db)) (hd : ∀ p ∈ d, TblOk p.2.objs) (tr : Trace) (e : Env) (h i key : Nat) (q : Bytes) (tm : Template) (l : List Nat)
    (hR : ReadsSpki E) (hs : onSlot (withPub M O E) C (withMl O E) (after (withPub M O E) C (withMl O E) d tr) h i)
    (s : MlSet) (sk pk b : Bytes) (k : Obj) (hb : IsSpki s pk b) (hk : Seen C (after (withPub M O E) C (withMl O E) d tr) i key (fun o => o = k ∧ MlObj CKO_PRIVATE_KEY s sk b o))
    (hok : (step (withPub M O E) C (withMl O E) e (after (withPub M O E) C (withMl O E) d tr) (.op h (.derive CKM_PUB_KEY_FROM_PRIV_KEY q key tm))).1 = .handles l) :
    ∃ n, l = [n] ∧
      Seen C (step (withPub M O E) C (withMl O E) e (after (withPub M O E) C (withMl O E) d tr) (.op h (.derive CKM_PUB_KEY_FROM_PRIV_KEY q key tm))).2 i n
        (TakesAfter tm k) := by
  have hi : Inv (after (withPub M O E) C (withMl O E) d tr) := inv_reach _ _ d tr
  have ht : TInv (after (withPub M O E) C (withMl O E) d tr) := tinv_reach _ _ hd tr
  have hh : HInv (after (withPub M O E) C (withMl O E) d tr) := hinv_reach _ _ d tr
  generalize after (withPub M O E) C (withMl O E) d tr = st at *
  obtain ⟨sl, x, hg, h1, h2⟩ := getSession_live hi ((onSlot_iff hi).1 hs)
  have ht' := tinv_step (C := C) (withPub M O E) (withMl O E) e st (.op h (.derive CKM_PUB_KEY_FROM_PRIV_KEY q key tm)) hi ht
  obtain ⟨A, rt⟩ := row_type s
  have hrd : ∀ k', sl.token.getObjectByHandle C (e.sub 0) key = .ok k' → k' = k ∧ MlObj CKO_PRIVATE_KEY s sk b k' := by
    intro k' hkk
    obtain ⟨sl2, g, hk⟩ := hk
    rw [h1] at g; injection g with g; subst g
    obtain ⟨o, k1, k2⟩ := hk quietEnv (fun _ => rfl)
    rw [byHandle_mono (fun _ => rfl) hkk] at k1
    injection k1 with k1
    rw [k1]; exact k2
  obtain ⟨k', A', o, n, a1, a2, a3, a4, sl', a5, a6⟩ := derive_inserted hg h1 (fun k hkk => by
    rw [algOf_type (A := A) (by rw [← rt]; exact (hrd k hkk).2.kt)]; nofun) hok
  obtain ⟨ek, hk⟩ := hrd k' a1
  have : A' = A := by
    rw [algOf_type (A := A) (by rw [← rt]; exact hk.kt)] at a2
    injection a2 with a2; exact a2.symm
  subst this
  obtain ⟨r, len, b', c1, c2⟩ := pubFrom_made hR hb rt hk a3
  refine ⟨n, a4, sl', a5, fun e2 qq => ?_⟩
  obtain ⟨o2, f1, f2⟩ := inserted_find (hh i sl h1).ok (ht.slots i sl h1) (ht'.slots i sl' a5) (zero_fresh o) (regular_fresh r) a6 e2 qq
  have q := pubFrom_after a3
  rw [ek] at q
  exact ⟨o2, f1, takes_find (fun ty ht => (f2 ty ((show ∀ t ∈ ruleTypes, t ∈ mlTypes by decide) ty ht)).trans (fresh_find r ty)) q⟩

theorem after_snoc (M : Mechs) (C : Crypto) (O : Oracle) (d : List (Nat × Db)) (tr : Trace) (e : Env) (c : Call) :
    after M C O d (tr ++ [(e, c)]) = (step M C O e (after M C O d tr) c).2 := by
  unfold after
  generalize St.init d = s
  induction tr generalizing s with
  | nil => rfl
  | cons p tr ih => exact ih _

/-- **C83**, pairs.  The private key imported without CKA_PUBLIC_KEY_INFO, then CKM_PUB_KEY_FROM_PRIV_KEY: the public key is the one OpenSSL computes from the
private key.  Partial: false for templates with CKA_PUBLIC_KEY_INFO (`C83_forged_violation`). -/
theorem C83_pair_partial (d : List (Nat × Db)) (hd : ∀ p ∈ d, TblOk p.2.objs) (tr : Trace) (hm : ∀ p ∈ tr, noMerge p.2) (e e' : Env) (h i n : Nat) (A : MlAlg)
    (hl : MlLens E) (hR : ReadsSpki E) (tm tm' : Template) (q : Bytes) (l : List Nat)
    (hs : onSlot (withPub M O E) C (withMl O E) (after (withPub M O E) C (withMl O E) d tr) h i) (hq : asksKey tm CKO_PRIVATE_KEY A.keyType)
    (hno : TmSays tm CKA_PUBLIC_KEY_INFO none)
    (hs' : onSlot (withPub M O E) C (withMl O E) (after (withPub M O E) C (withMl O E) d (tr ++ [(e, .sess h (.createObject tm))])) h i)
    (hok : (step (withPub M O E) C (withMl O E) e (after (withPub M O E) C (withMl O E) d tr) (.sess h (.createObject tm))).1 = .handle n)
    (hok' : (step (withPub M O E) C (withMl O E) e' (after (withPub M O E) C (withMl O E) d (tr ++ [(e, .sess h (.createObject tm))]))
      (.op h (.derive CKM_PUB_KEY_FROM_PRIV_KEY q n tm'))).1 = .handles l) :
    ∃ s sk seed b pk p b', (mlRow s).kt = A.keyType ∧ PrivateFits E s tm sk seed b ∧ E.pubOf s sk seed = .ok (some pk) ∧ l = [p] ∧ IsSpki s pk b' ∧
      Seen C (step (withPub M O E) C (withMl O E) e' (after (withPub M O E) C (withMl O E) d (tr ++ [(e, .sess h (.createObject tm))]))
        (.op h (.derive CKM_PUB_KEY_FROM_PRIV_KEY q n tm'))).2 i p (MlObj CKO_PUBLIC_KEY s pk b') := by
  obtain ⟨s, sk, seed, b, r, f, k⟩ := C83_private d hd tr hm e h i n A hl tm hs hq hok
  have ea : after (withPub M O E) C (withMl O E) d (tr ++ [(e, .sess h (.createObject tm))]) =
      (step (withPub M O E) C (withMl O E) e (after (withPub M O E) C (withMl O E) d tr) (.sess h (.createObject tm))).2 := after_snoc ..
  have k' : Seen C (after (withPub M O E) C (withMl O E) d (tr ++ [(e, .sess h (.createObject tm))])) i n (MlObj CKO_PRIVATE_KEY s sk b) := by
    rw [ea]
    obtain ⟨sl, k1, k2⟩ := k
    refine ⟨sl, k1, fun e2 qq => ?_⟩
    obtain ⟨o, o1, o2⟩ := k2 e2 qq
    exact ⟨o, o1, o2.1⟩
  clear ea k hok
  generalize tr ++ [(e, .sess h (.createObject tm))] = tr' at *
  rcases f.info with ⟨_, pk, p1, p2, p3⟩ | ⟨hb, _⟩
  · obtain ⟨_, m, b', g1, g2, g3⟩ := C83_derived d hd tr' e' h i n q tm' l hR hs' s sk pk b p3 k' hok'
    exact ⟨s, sk, seed, b, pk, m, b', r, f, p1, g1, g2, g3⟩
  · have h1 : CkAttr.mk' CKA_PUBLIC_KEY_INFO b ∈ tm := hb
    have h2 : ∀ c ∈ tm, c.typ ≠ CKA_PUBLIC_KEY_INFO := hno
    exact absurd rfl (h2 _ h1)

/-! ## Cases -/

/-- A toy OpenSSL: private keys repeat the first byte of the seed, public keys the first byte of the private key. -/
def toyMl : MlEnv where
  expand := fun s seed => .ok (some (List.replicate s.skSize (seed.headD 0)))
  pubOf := fun s sk _ => .ok (some (List.replicate s.pkSize (sk.headD 0)))
  parse := fun b => match derRead b with
    | some (_, body, _) => match derRead body with
      | some (_, _, rest) => match derRead rest with
        | some (_, _ :: pk, _) => some pk
        | _ => none
      | none => none
    | none => none

theorem toyMl_lens : MlLens toyMl := by
  constructor
  · intro s seed sk h
    injection h with h
    injection h with h
    rw [← h, List.length_replicate]
    cases s <;> rfl
  · intro s sk seed pk h
    injection h with h
    injection h with h
    rw [← h, List.length_replicate]
    cases s <;> rfl

theorem toyMl_reads : ReadsSpki toyMl := by
  rintro s pk b ⟨body, alg, rest, h1, h2, _, h4⟩
  simp only [toyMl]
  rw [h1]
  simp only
  rw [h2]
  simp only
  rw [h4]

abbrev exMl : Mechs := withPub exMechs2 exOracle toyMl
abbrev exMlO : Oracle := withMl exOracle toyMl

/-- A token with a user logged in. -/
def exMlStart : Trace :=
  [(exEnv 0, .initialize exConf2), (exEnv 1, .initToken 7 exSoPin none), (exEnv 2, .openSession 7 (CKF_RW_SESSION ||| CKF_SERIAL_SESSION)),
   (exEnv 3, .login 1 CKU_SO exSoPin), (exEnv 4, .sess 1 (.initPin exPin)), (exEnv 5, .logout 1), (exEnv 6, .login 1 CKU_USER exPin)]

def exMlPub (n : Nat) : Template := [.ofUlong CKA_CLASS CKO_PUBLIC_KEY, .ofUlong CKA_KEY_TYPE CKK_ML_DSA, .ofUlong CKA_PARAMETER_SET 1, .mk' CKA_VALUE (List.replicate n 4)]
def exMlPriv : Template := [.ofUlong CKA_CLASS CKO_PRIVATE_KEY, .ofUlong CKA_KEY_TYPE CKK_ML_KEM, .ofUlong CKA_PARAMETER_SET 1]
/-- A key given by its seed. -/
def exMlSeed (n : Nat) : Template := exMlPriv ++ [.mk' CKA_SEED (5 :: List.replicate n 0)]
def exMlVal (b : UInt8) : Template := exMlPriv ++ [.mk' CKA_VALUE (List.replicate 1632 b)]

/-- The start of each value, so that the example stays readable. -/
def attrShort : Out → Out
  | .attrs r l => .attrs r (l.map fun a => { a with buf := a.buf.take 2 })
  | o => o

def exMlAsk (n : Nat) : OutAttr := ⟨CKA_VALUE, false, n, List.replicate n 0⟩

set_option maxRecDepth 20000 in
/-- A public key and one that is too short; a private key from a seed, a seed that is too short, a seed of another key; CKA_PUBLIC_KEY_INFO that describes a key of one byte
is accepted; the public key of the private key. -/
example : ((outs exMl exCrypto exMlO (St.init []) (exMlStart ++ [
    (exEnv 7, .sess 1 (.createObject (exMlPub 1312))),
    (exEnv 7, .sess 1 (.createObject (exMlPub 1311))),
    (exEnv 8, .sess 1 (.createObject (exMlSeed 63))),
    (exEnv 8, .sess 1 (.createObject (exMlSeed 62))),
    (exEnv 9, .sess 1 (.createObject (exMlSeed 63 ++ [.mk' CKA_VALUE (List.replicate 1632 6)]))),
    (exEnv 10, .sess 1 (.createObject (exMlVal 6 ++ [.mk' CKA_PUBLIC_KEY_INFO (mlSpki .kem512 [9])]))),
    (exEnv 11, .op 1 (.derive CKM_PUB_KEY_FROM_PRIV_KEY [] 13 [])),
    (exEnv 12, .sess 1 (.getAttr 15 [exMlAsk 800]))])).drop 7).map attrShort =
  [.handle 12, .err .attrValueInvalid, .handle 13, .err .attrValueInvalid, .err .keyIndigestible, .handle 14, .handles [15],
   .attrs (.ok ()) [⟨CKA_VALUE, false, 800, [5, 5]⟩]] := by
  decide +kernel

def exMlStart2 : Trace := exMlStart ++ [(exEnv 8, .sess 1 (.createObject (exMlSeed 63)))]
abbrev exMlSt : St := after exMl exCrypto exMlO [] exMlStart
abbrev exMlSt2 : St := after exMl exCrypto exMlO [] exMlStart2

theorem exSpki_is (b : UInt8) : IsSpki .kem512 (List.replicate 800 b) (mlSpki .kem512 (List.replicate 800 b)) :=
  spki_is (Nat.lt_of_le_of_lt (Nat.le_of_eq List.length_replicate) (by decide))

theorem exMl_merge : ∀ p ∈ exMlStart, noMerge p.2 := by
  intro p hp
  simp only [exMlStart, List.mem_cons, List.not_mem_nil, or_false] at hp
  rcases hp with rfl | rfl | rfl | rfl | rfl | rfl | rfl <;> simp [noMerge, exConf2]

theorem exMlSeed_info : TmSays (exMlSeed 63) CKA_PUBLIC_KEY_INFO none := by
  show ∀ c ∈ exMlSeed 63, c.typ ≠ CKA_PUBLIC_KEY_INFO
  decide

theorem exMlPriv_asks (l : Template) : asksKey (exMlPriv ++ l) CKO_PRIVATE_KEY MlAlg.kem.keyType :=
  ⟨⟨[], _, _, rfl, rfl, by simp, rfl⟩, ⟨[.ofUlong CKA_CLASS CKO_PRIVATE_KEY], _, _, rfl, rfl, by decide, rfl⟩⟩

set_option maxRecDepth 20000 in
theorem exMl_on : onSlot exMl exCrypto exMlO exMlSt 1 7 := ⟨exEnv 0, .rwUser, CKF_RW_SESSION ||| CKF_SERIAL_SESSION, by decide +kernel⟩

set_option maxRecDepth 20000 in
theorem exMl_on2 : onSlot exMl exCrypto exMlO exMlSt2 1 7 := ⟨exEnv 0, .rwUser, CKF_RW_SESSION ||| CKF_SERIAL_SESSION, by decide +kernel⟩

set_option maxRecDepth 20000 in
/-- `C83_public` applies. -/
example : ∃ s pk b, (mlRow s).kt = MlAlg.dsa.keyType ∧ PublicFits s (exMlPub 1312) pk b ∧
    Seen exCrypto (step exMl exCrypto exMlO (exEnv 7) exMlSt (.sess 1 (.createObject (exMlPub 1312)))).2 7 12 (MlObj CKO_PUBLIC_KEY s pk b) :=
  C83_public (M := exMl) (O := exOracle) (E := toyMl) [] (by simp) exMlStart exMl_merge (exEnv 7) 1 7 12 .dsa (exMlPub 1312) exMl_on
    ⟨⟨[], _, _, rfl, rfl, by simp, rfl⟩, ⟨[.ofUlong CKA_CLASS CKO_PUBLIC_KEY], _, _, rfl, rfl, by decide, rfl⟩⟩ (by decide +kernel)

set_option maxRecDepth 20000 in
/-- `C83_private` applies. -/
example : ∃ s sk seed b, (mlRow s).kt = MlAlg.kem.keyType ∧ PrivateFits toyMl s (exMlSeed 63) sk seed b ∧
    Seen exCrypto (step exMl exCrypto exMlO (exEnv 8) exMlSt (.sess 1 (.createObject (exMlSeed 63)))).2 7 12 (MlPriv s sk seed b) :=
  C83_private (M := exMl) (O := exOracle) (E := toyMl) [] (by simp) exMlStart exMl_merge (exEnv 8) 1 7 12 .kem toyMl_lens (exMlSeed 63) exMl_on
    (exMlPriv_asks _) (by decide +kernel)

def exMlObj (s : St) (n : Nat) : Obj := (readAt exCrypto s 7 n).getD (Obj.new 0)

set_option maxRecDepth 20000 in
/-- `C83_derived` applies. -/
example : (List.replicate 800 (5 : UInt8)).length = (mlRow .kem512).pk ∧ ∃ n b', [13] = [n] ∧ IsSpki .kem512 (List.replicate 800 5) b' ∧
    Seen exCrypto (step exMl exCrypto exMlO (exEnv 11) exMlSt2 (.op 1 (.derive CKM_PUB_KEY_FROM_PRIV_KEY [] 12 []))).2 7 n
      (MlObj CKO_PUBLIC_KEY .kem512 (List.replicate 800 5) b') :=
  C83_derived (M := exMechs2) (C := exCrypto) (O := exOracle) (E := toyMl) [] (by simp) exMlStart2 (exEnv 11) 1 7 12 [] [] [13]
    toyMl_reads exMl_on2 .kem512 (List.replicate 1632 5) (List.replicate 800 5) (mlSpki .kem512 (List.replicate 800 5))
    (exSpki_is 5) (seen_read (o := exMlObj exMlSt2 12) (by decide +kernel)
      ⟨by decide +kernel, by decide +kernel, by decide +kernel, by decide +kernel, by decide +kernel, Or.inr ⟨CK_UNAVAILABLE_INFORMATION, by decide +kernel⟩⟩)
    (by decide +kernel)

/-- As before with a private key that may decapsulate. -/
def exMlUse : Trace := exMlStart ++ [(exEnv 8, .sess 1 (.createObject (exMlSeed 63 ++ [.ofBool CKA_DECAPSULATE true, .mk' CKA_ID [3]])))]
def exMlUseSt : St := after exMl exCrypto exMlO [] exMlUse

set_option maxRecDepth 20000 in
theorem exMl_onUse : onSlot exMl exCrypto exMlO exMlUseSt 1 7 := ⟨exEnv 0, .rwUser, CKF_RW_SESSION ||| CKF_SERIAL_SESSION, by decide +kernel⟩

set_option maxRecDepth 20000 in
/-- `C83_usages` applies: the key may decapsulate, its public key may encapsulate. -/
example : IsTrue (exMlObj exMlUseSt 12) CKA_DECAPSULATE ∧ ∃ n, [13] = [n] ∧
    Seen exCrypto (step exMl exCrypto exMlO (exEnv 11) exMlUseSt (.op 1 (.derive CKM_PUB_KEY_FROM_PRIV_KEY [] 12 []))).2 7 n (TakesAfter [] (exMlObj exMlUseSt 12)) :=
  ⟨⟨1, by decide +kernel, by decide⟩,
  C83_usages (M := exMechs2) (C := exCrypto) (O := exOracle) (E := toyMl) [] (by simp) exMlUse (exEnv 11) 1 7 12 [] [] [13]
    toyMl_reads exMl_onUse .kem512 (List.replicate 1632 5) (List.replicate 800 5) (mlSpki .kem512 (List.replicate 800 5)) (exMlObj exMlUseSt 12)
    (exSpki_is 5) (seen_read (o := exMlObj exMlUseSt 12) (by decide +kernel)
      ⟨rfl, by decide +kernel, by decide +kernel, by decide +kernel, by decide +kernel, by decide +kernel, Or.inr ⟨CK_UNAVAILABLE_INFORMATION, by decide +kernel⟩⟩)
    (by decide +kernel)⟩

set_option maxRecDepth 20000 in
/-- `C83_pair_partial` applies. -/
example : ∃ s sk seed b pk p b', (mlRow s).kt = MlAlg.kem.keyType ∧ PrivateFits toyMl s (exMlSeed 63) sk seed b ∧ toyMl.pubOf s sk seed = .ok (some pk) ∧ [13] = [p] ∧
    IsSpki s pk b' ∧ Seen exCrypto (step exMl exCrypto exMlO (exEnv 11) exMlSt2 (.op 1 (.derive CKM_PUB_KEY_FROM_PRIV_KEY [] 12 []))).2 7 p (MlObj CKO_PUBLIC_KEY s pk b') :=
  C83_pair_partial (M := exMechs2) (C := exCrypto) (O := exOracle) (E := toyMl) [] (by simp) exMlStart exMl_merge (exEnv 8) (exEnv 11) 1 7 12 .kem toyMl_lens toyMl_reads
    (exMlSeed 63) [] [] [13] exMl_on (exMlPriv_asks _) exMlSeed_info exMl_on2 (by decide +kernel) (by decide +kernel)

/-! ## What does not hold -/

/-- The private key of 6s with the CKA_PUBLIC_KEY_INFO of another key. -/
def exMlForged : Template := exMlVal 6 ++ [.mk' CKA_PUBLIC_KEY_INFO (mlSpki .kem512 (List.replicate 800 9))]
def exMlForge : Trace := exMlStart ++ [(exEnv 8, .sess 1 (.createObject exMlForged))]
def exMlForgeSt : St := after exMl exCrypto exMlO [] exMlForge
def exMlForgeSt2 : St := after exMl exCrypto exMlO [] (exMlForge ++ [(exEnv 11, .op 1 (.derive CKM_PUB_KEY_FROM_PRIV_KEY [] 12 []))])

set_option maxRecDepth 20000 in
/-- **Counterexample**: a private key is imported with the CKA_PUBLIC_KEY_INFO of another key.  C_CreateObject accepts it, and the public key made of it by
CKM_PUB_KEY_FROM_PRIV_KEY is not the public key of the private key (`src/ossl/common.rs:201-211`). -/
theorem C83_forged_violation : MlLens toyMl ∧ ReadsSpki toyMl ∧
    (outs exMl exCrypto exMlO (St.init []) (exMlForge ++ [(exEnv 11, .op 1 (.derive CKM_PUB_KEY_FROM_PRIV_KEY [] 12 []))])).drop 7 = [.handle 12, .handles [13]] ∧
    ∃ sk b pk pk' b', Seen exCrypto exMlForgeSt 7 12 (MlPriv .kem512 sk none b) ∧ toyMl.pubOf .kem512 sk none = .ok (some pk) ∧
      Seen exCrypto exMlForgeSt2 7 13 (MlObj CKO_PUBLIC_KEY .kem512 pk' b') ∧ pk' ≠ pk :=
  ⟨toyMl_lens, toyMl_reads, by decide +kernel, List.replicate 1632 6, mlSpki .kem512 (List.replicate 800 9), List.replicate 800 6, List.replicate 800 9,
    mlSpki .kem512 (List.replicate 800 9),
    seen_read (o := exMlObj exMlForgeSt 12) (by decide +kernel)
      ⟨⟨by decide +kernel, by decide +kernel, by decide +kernel, by decide +kernel, by decide +kernel, Or.inr ⟨CK_UNAVAILABLE_INFORMATION, by decide +kernel⟩⟩, by decide +kernel⟩,
    by decide +kernel,
    seen_read (o := exMlObj exMlForgeSt2 13) (by decide +kernel)
      ⟨by decide +kernel, by decide +kernel, by decide +kernel, by decide +kernel, by decide +kernel, Or.inr ⟨CK_UNAVAILABLE_INFORMATION, by decide +kernel⟩⟩,
    by decide +kernel⟩

def exMlOpen : Trace := exMlStart ++ [(exEnv 8, .sess 1 (.createObject (exMlVal 6 ++ [.ofBool CKA_PRIVATE false])))]

set_option maxRecDepth 20000 in
/-- **Counterexample**: for a private key object with CKA_PRIVATE false, CKM_PUB_KEY_FROM_PRIV_KEY fails with CKR_KEY_TYPE_INCONSISTENT: where the class of the key
should be looked at, CKA_PRIVATE is (`src/native/simplekdf.rs:505`). -/
theorem C83_refused_violation :
    (outs exMl exCrypto exMlO (St.init []) (exMlOpen ++ [(exEnv 11, .op 1 (.derive CKM_PUB_KEY_FROM_PRIV_KEY [] 12 []))])).drop 7 =
      [.handle 12, .err .keyTypeInconsistent] ∧
    ∃ sk b, IsSpki .kem512 (List.replicate 800 6) b ∧ Seen exCrypto (after exMl exCrypto exMlO [] exMlOpen) 7 12 (MlPriv .kem512 sk none b) :=
  ⟨by decide +kernel, List.replicate 1632 6, mlSpki .kem512 (List.replicate 800 6), exSpki_is 6,
    seen_read (o := exMlObj (after exMl exCrypto exMlO [] exMlOpen) 12) (by decide +kernel)
      ⟨⟨by decide +kernel, by decide +kernel, by decide +kernel, by decide +kernel, by decide +kernel, Or.inr ⟨CK_UNAVAILABLE_INFORMATION, by decide +kernel⟩⟩, by decide +kernel⟩⟩

end Kry
