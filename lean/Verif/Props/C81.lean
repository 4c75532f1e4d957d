import Verif.Model.Dh
import Verif.Props.C48
import Verif.Props.Examples
import Verif.Proofs.Der

/-!
# C81: key agreement

`C81_ecdh`: the value of a key derived with ECDH is the end of the shared secret, or X9.63 / SP 800-56C of it with the digest named by the KDF and the
shared data, and has the length asked for.  `C81_agree`: the two parties get the same key.  `C81_works`, `C81_refuses`: when it succeeds and when not.
`C81_ffdh_partial`, `C81_ffdh_agree`: finite field Diffie-Hellman, as long as the secret has no leading zero byte; `C81_ffdh_violation`: with one, the key is
not the end of the secret.

OpenSSL is assumed to compute the shared secret, padded for ECDH (`Spec.EcdhKey`) and not for finite fields (`Spec.FfdhKey`), and the key derivation functions of the standards (`Spec.KdfOk`).
-/

namespace Kry

namespace Spec

/-- f(1) || f(2) || ... || f(n). -/
def blocks (f : Nat → Bytes) : Nat → Bytes
  | 0 => []
  | n + 1 => blocks f n ++ f (n + 1)

/-- ANSI X9.63: Hash(Z || counter || SharedInfo). -/
def x963 (a : HashAlg) (z info : Bytes) (i : Nat) : Bytes := a.h (z ++ toBE 4 i ++ info)

/-- SP 800-56C, one step: Hash(counter || Z || FixedInfo). -/
def oneStep (a : HashAlg) (z info : Bytes) (i : Nat) : Bytes := a.h (toBE 4 i ++ z ++ info)

/-- `v` is the beginning of the stream of blocks. -/
def Starts (f : Nat → Bytes) (v : Bytes) : Prop := ∃ n, v <+: blocks f n

/-- What OpenSSL's key derivation functions are assumed to do, or fail. -/
structure KdfOk (E : DhEnv) (algs : Nat → HashAlg) : Prop where
  x963 : ∀ d z i n v, E.kdf true d z i n = .ok v → v.length = n ∧ Starts (x963 (algs d) z (i.getD [])) v
  oneStep : ∀ d z i n v, E.kdf false d z i n = .ok v → v.length = n ∧ Starts (oneStep (algs d) z (i.getD [])) v

/-- The KDF types of X9.63, with their digests. -/
def x963Types : List (Nat × Nat) :=
  [(CKD_SHA1_KDF, CKM_SHA_1), (CKD_SHA224_KDF, CKM_SHA224), (CKD_SHA256_KDF, CKM_SHA256), (CKD_SHA384_KDF, CKM_SHA384),
   (CKD_SHA512_KDF, CKM_SHA512), (CKD_SHA3_224_KDF, CKM_SHA3_224), (CKD_SHA3_256_KDF, CKM_SHA3_256), (CKD_SHA3_384_KDF, CKM_SHA3_384),
   (CKD_SHA3_512_KDF, CKM_SHA3_512)]

/-- The KDF types of SP 800-56C, with their digests. -/
def sp800Types : List (Nat × Nat) :=
  [(CKD_SHA1_KDF_SP800, CKM_SHA_1), (CKD_SHA224_KDF_SP800, CKM_SHA224), (CKD_SHA256_KDF_SP800, CKM_SHA256), (CKD_SHA384_KDF_SP800, CKM_SHA384),
   (CKD_SHA512_KDF_SP800, CKM_SHA512), (CKD_SHA3_224_KDF_SP800, CKM_SHA3_224), (CKD_SHA3_256_KDF_SP800, CKM_SHA3_256),
   (CKD_SHA3_384_KDF_SP800, CKM_SHA3_384), (CKD_SHA3_512_KDF_SP800, CKM_SHA3_512)]

/-- `v` is the key of `n` bytes that the KDF type makes of the shared secret `z`. -/
inductive KeyOf (algs : Nat → HashAlg) (kdf : Nat) (z info : Bytes) (n : Nat) (v : Bytes) : Prop
  | plain : kdf = CKD_NULL → v.length = n → v <:+ z → KeyOf algs kdf z info n v
  | x963 (d : Nat) : (kdf, d) ∈ x963Types → v.length = n → Starts (x963 (algs d) z info) v → KeyOf algs kdf z info n v
  | sp800 (d : Nat) : (kdf, d) ∈ sp800Types → v.length = n → Starts (oneStep (algs d) z info) v → KeyOf algs kdf z info n v

/-- The length of a key whose template does not give one, from a secret of `w` bytes. -/
structure UsualLen (cls kt w n : Nat) : Prop where
  aes : cls = CKO_SECRET_KEY → kt = CKK_AES → 32 ≤ w → n = 32
  hmac : ∀ p ∈ hmacSizes, cls = CKO_SECRET_KEY → kt = p.1 → n = p.2
  generic : cls = CKO_SECRET_KEY → kt = CKK_GENERIC_SECRET → n = w

/-- The length of the key: CKA_VALUE_LEN of the template, otherwise the usual one. -/
inductive LenOf (tm : Template) (w : Nat) (n : Nat) : Prop
  | given : asksFor tm CKA_VALUE_LEN n → LenOf tm w n
  | usual (cls kt : Nat) : (∀ c ∈ tm, c.typ ≠ CKA_VALUE_LEN) → asksKey tm cls kt → UsualLen cls kt w n → LenOf tm w n

/-- The point that the public data means, for a field of `w` bytes: the data, or the contents of an OCTET STRING when the data is too long for a point. -/
def Means (w : Nat) (pub pt : Bytes) : Prop :=
  (pub = pt ∧ pub.length ≤ 2 * w + 1) ∨ (pub = derTlv 4 pt ∧ 2 * w + 1 < pub.length ∧ pt.length < 2 ^ 32)

/-- OpenSSL's ECDH with one private key: secrets of as many bytes as the field has, written in full. -/
structure EcdhKey (pk : DhPkey) (w : Nat) (z : Bool → Bytes → Option Bytes) : Prop where
  width : ∃ b, pk.bits = .ok b ∧ w = (b + 7) / 8
  secret : ∀ c p x, pk.run c p = .ok x → ∃ s, z c p = some s ∧ s.length = w ∧ x = ⟨w, s, w⟩

/-- The bytes after the leading zeros. -/
def noLead (s : Bytes) : Bytes := s.dropWhile (· == 0)

/-- OpenSSL's finite field Diffie-Hellman with one private key: secrets as long as the prime, written without their leading zeros into a buffer of that
size. -/
structure FfdhKey (pk : DhPkey) (z : Bytes → Option Bytes) : Prop where
  secret : ∀ p x, pk.run false p = .ok x → ∃ s, z p = some s ∧ s.length = pk.size ∧
    x = ⟨pk.size, noLead s ++ List.replicate (pk.size - (noLead s).length) 0, (noLead s).length⟩

end Spec

open Spec

/-! ## Creation with a value -/

theorem mk_typ (t : Nat) (v : Bytes) : (CkAttr.mk' t v).typ = t := rfl

/-- CKA_VALUE is in no secret key table as an ignored attribute. -/
theorem value_kept : allFactories (fun F => F.attrs.all fun f => f.typ != CKA_VALUE || !f.is oaIgnored) = true := by decide +kernel

/-- Only secret keys and OTP keys have CKA_VALUE_LEN. -/
theorem len_kinds : allFactories (fun F => F.attrs.all fun f => f.typ != CKA_VALUE_LEN ||
    (match F.kind with | .genericSecret _ => true | .aes => true | .hotp => true | _ => false)) = true := by decide +kernel

theorem create_with_value {O : Oracle} {uid v : Bytes} {F : Factory} {k : Nat × Nat} {t : Template} {o : Obj} (hF : (k, F) ∈ registry)
    (hv : CKA_VALUE ∉ computed F.kind) (h : F.create O uid (t ++ [CkAttr.mk' CKA_VALUE v]) = .ok o) :
    value o CKA_VALUE = some v ∧ ∀ c ∈ t, c.typ ≠ CKA_VALUE := by
  obtain ⟨o0, h0, hs⟩ := create_same O uid F k hF _ o h
  have acc := (C15_accepts_iff F k hF _ _ _).1 ⟨o0, h0⟩
  have nig : ¬ Marked F CKA_VALUE oaIgnored := by
    rintro ⟨f, hf, ht, hi⟩
    have := allFactories_spec value_kept hF
    rw [List.all_eq_true] at this
    have := this f hf
    simp [ht, hi] at this
  have none' : ∀ c ∈ t, c.typ ≠ CKA_VALUE := by
    intro c hc he
    have := (List.pairwise_append.1 acc.once).2.2 c hc (CkAttr.mk' CKA_VALUE v) (by simp) he
    rw [he] at this
    rcases this with h | h
    · exact absurd h (by decide)
    · exact nig h
  refine ⟨?_, none'⟩
  have := C15_values F k hF _ _ _ o0 h0 CKA_VALUE
  rw [value_eq, hs _ hv, ← value_eq]
  generalize value o0 CKA_VALUE = x at this
  have sup : Supplies F (t ++ [CkAttr.mk' CKA_VALUE v]) CKA_VALUE := .inr ⟨nig, CkAttr.mk' CKA_VALUE v, by simp, rfl⟩
  cases this with
  | cls e => exact absurd e (by decide)
  | given c a _ _ hc ht hf =>
    rcases List.mem_append.1 hc with hc | hc
    · exact absurd ht (none' c hc)
    · simp only [List.mem_cons, List.not_mem_nil, or_false] at hc
      subst hc
      have : Attr.fromCk (CkAttr.mk' CKA_VALUE v) = .ok (Attr.ofBytes CKA_VALUE v) := by rfl
      rw [this] at hf
      injection hf with hf
      rw [← hf]; rfl
  | default f hn => exact absurd sup hn
  | absent hn => exact absurd sup hn

/-- A factory of keys that can be agreed on. -/
def symKind (k : FactoryKind) : Bool := match k with | .genericSecret _ => true | .aes => true | .hotp => true | _ => false

theorem sym_value {k : FactoryKind} (h : symKind k = true) : CKA_VALUE ∉ computed k := by
  cases k <;> first | (cases h; done) | decide | (simp only [computed]; decide)


/-! ## The shape of a success -/

theorem agreement_value {O : Oracle} {uid v : Bytes} {m : Nat} {t : Template} {o : Obj} {F : Factory} (hF : keyTemplateFactory t = .ok F)
    (hk : symKind F.kind = true) (h : agreementDerive O uid m t v = .ok o) : value o CKA_VALUE = some v ∧ ∀ c ∈ t, c.typ ≠ CKA_VALUE := by
  unfold agreementDerive at h
  rw [hF] at h
  simp only at h
  split at h; · cases h
  rename_i o1 h1
  injection h with h
  subst h
  obtain ⟨k, hm⟩ := keyTemplateFactory_mem hF
  have := create_with_value hm (sym_value hk) h1
  rw [defaults_value _ _ _ (by decide) (by decide) (by decide) (by decide)]
  exact this

theorem recommend_sym {F : Factory} {n m : Nat} (h : dhRecommend F n = .ok m) : symKind F.kind = true ∧ recommendKeySize F n = .ok m := by
  unfold dhRecommend at h
  split at h
  · split at h
    · rename_i k hk
      injection h with h
      subst h
      refine ⟨?_, hk⟩
      unfold recommendKeySize at hk
      unfold symKind
      split at hk <;> first | (rename_i e; rw [e]) | (cases hk; done)
    · cases h
  · cases h

/-- The factory of a template with CKA_VALUE_LEN that can be used. -/
theorem len_sym {O : Oracle} {uid v : Bytes} {m : Nat} {t : Template} {o : Obj} {F : Factory} (hF : keyTemplateFactory t = .ok F) {c : CkAttr}
    (hc : Template.findA t CKA_VALUE_LEN = some c) (h : agreementDerive O uid m t v = .ok o) : symKind F.kind = true := by
  unfold agreementDerive at h
  rw [hF] at h
  simp only at h
  split at h; · cases h
  rename_i o1 h1
  obtain ⟨k, hm⟩ := keyTemplateFactory_mem hF
  obtain ⟨o0, h0, _⟩ := create_same O uid F k hm _ o1 h1
  have acc := (C15_accepts_iff F k hm _ _ _).1 ⟨o0, h0⟩
  unfold Template.findA at hc
  have e := List.find?_some hc
  simp at e
  obtain ⟨f, hf, he⟩ := acc.known c (List.mem_append_left _ (List.mem_of_find?_eq_some hc))
  have := allFactories_spec len_kinds hm
  rw [List.all_eq_true] at this
  have := this f hf
  rw [he, e] at this
  simpa [symKind] using this

theorem findA_asks {t : Template} {c : CkAttr} {typ n : Nat} (hc : Template.findA t typ = some c) (hn : c.toUlong = .ok n) : asksFor t typ n := by
  refine (asksFor_iff (r := .generalError)).2 ?_
  unfold tmplUlong
  unfold Template.findA at hc
  rw [hc]
  exact hn

theorem findA_none {t : Template} {typ : Nat} (hc : Template.findA t typ = none) : ∀ c ∈ t, c.typ ≠ typ := by
  unfold Template.findA at hc
  rw [List.find?_eq_none] at hc
  intro c h e
  exact hc c h (by simp [e])

theorem keyTemplate_asks {t : Template} {F : Factory} (h : keyTemplateFactory t = .ok F) : ∃ cls kt, asksKey t cls kt ∧ getFactory cls kt = .ok F := by
  unfold keyTemplateFactory at h
  split at h; · cases h
  rename_i cls h1
  split at h; · cases h
  rename_i kt h2
  exact ⟨cls, kt, ⟨asksFor_iff.2 h1, asksFor_iff.2 h2⟩, h⟩

theorem asksFor_fun {t : Template} {typ a b : Nat} (h : asksFor t typ a) (k : asksFor t typ b) : a = b := by
  have h := (asksFor_iff (r := .generalError)).1 h
  have k := (asksFor_iff (r := .generalError)).1 k
  rw [h] at k
  injection k

theorem generic_factory : getFactory CKO_SECRET_KEY CKK_GENERIC_SECRET = .ok (genericF 0) := by decide +kernel

theorem usual_of {F : Factory} {cls kt w n : Nat} (hF : getFactory cls kt = .ok F) (h : recommendKeySize F w = .ok n) : UsualLen cls kt w n := by
  unfold recommendKeySize at h
  refine ⟨?_, ?_, ?_⟩
  · rintro rfl rfl hw
    rw [getFactory_aes hF] at h
    simp only [if_pos hw] at h
    injection h with h
    exact h.symm
  · rintro p hp rfl rfl
    obtain ⟨a, b⟩ := getFactory_hmac hp hF
    rw [a] at h
    simp only [if_pos b] at h
    injection h with h
    exact h.symm
  · rintro rfl rfl
    rw [generic_factory] at hF
    injection hF with hF
    subst hF
    injection h with h
    exact h.symm

theorem octets_tlv {pt : Bytes} (h : pt.length < 2 ^ 32) : derOctets (derTlv 4 pt) = some pt := by
  unfold derOctets
  have := derField_tlv 4 (by decide) pt [] h
  rw [List.append_nil] at this
  rw [this]

theorem point_means {w : Nat} {pub pt : Bytes} (h : Means w pub pt) : ecdhPoint w pub = .ok pt := by
  unfold ecdhPoint
  rcases h with ⟨rfl, h⟩ | ⟨rfl, h, hl⟩
  · rw [if_neg (by omega)]
  · rw [if_pos h, octets_tlv hl]

theorem fill_exact (w : Nat) (s : Bytes) (h : s.length = w) : dhFill ⟨w, s, w⟩ w = (s, w) := by
  unfold dhFill
  simp

theorem kdf_tables {kdf d : Nat} {x : Bool} (h : kdfDigest kdf = .ok d) (k : kdfIsX963 kdf = .ok x) :
    (x = true ∧ (kdf, d) ∈ x963Types) ∨ (x = false ∧ (kdf, d) ∈ sp800Types) := by
  unfold kdfIsX963 at k
  split at k
  · rename_i hm
    injection k with k
    refine .inl ⟨k.symm, ?_⟩
    simp only [List.mem_cons, List.not_mem_nil, or_false] at hm
    rcases hm with rfl | rfl | rfl | rfl | rfl | rfl | rfl | rfl | rfl <;> (injection h with h; subst h; decide)
  · split at k
    · rename_i hm
      injection k with k
      refine .inr ⟨k.symm, ?_⟩
      simp only [List.mem_cons, List.not_mem_nil, or_false] at hm
      rcases hm with rfl | rfl | rfl | rfl | rfl | rfl | rfl | rfl | rfl <;> (injection h with h; subst h; decide)
    · cases k

theorem value_keyOf {E : DhEnv} {algs : Nat → HashAlg} (hk : KdfOk E algs) {k : EcdhOp} {s v : Bytes} {n : Nat} (h : ecdhValue E k s n = .ok v) :
    KeyOf algs k.kdf s (k.shared.getD []) n v := by
  unfold ecdhValue at h
  split at h
  · rename_i hn
    split at h; · cases h
    injection h with h
    subst h
    exact .plain hn (by simp; omega) (List.drop_suffix ..)
  · split at h; · cases h
    rename_i d hd
    split at h; · cases h
    rename_i x hx
    rcases kdf_tables hd hx with ⟨rfl, hm⟩ | ⟨rfl, hm⟩
    · obtain ⟨a, b⟩ := hk.x963 _ _ _ _ _ h
      exact .x963 d hm a b
    · obtain ⟨a, b⟩ := hk.oneStep _ _ _ _ _ h
      exact .sp800 d hm a b

/-- Everything a successful ECDH derivation went through. -/
theorem ecdh_shape {E : DhEnv} {O : Oracle} {uid : Bytes} {k : EcdhOp} {key : Obj} {t : Template} {os : List Obj} {pk : DhPkey} {w : Nat}
    {z : Bool → Bytes → Option Bytes} {pt : Bytes} (hl : E.load key = .ok pk) (hz : EcdhKey pk w z) (hp : Means w k.pub pt)
    (h : ecdhDerive E O uid k key t = .ok os) :
    ∃ F n s v o, keyTemplateFactory t = .ok F ∧ ecdhLen F k.kdf w t = .ok n ∧ z (k.mech == CKM_ECDH1_COFACTOR_DERIVE) pt = some s ∧ s.length = w ∧
      ecdhValue E k s n = .ok v ∧ agreementDerive O uid k.mech t v = .ok o ∧ os = [o] := by
  obtain ⟨b, hb, hw⟩ := hz.width
  unfold ecdhDerive at h
  rw [hl] at h
  simp only at h
  split at h; · cases h
  split at h; · cases h
  rename_i F hF
  rw [hb] at h
  simp only [← hw] at h
  split at h; · cases h
  rename_i n hn
  rw [point_means hp] at h
  simp only at h
  split at h; · cases h
  split at h; · cases h
  rename_i x hx
  obtain ⟨s, h1, h2, rfl⟩ := hz.secret _ _ _ hx
  rw [fill_exact w s h2] at h
  simp only [List.take_of_length_le (Nat.le_of_eq h2)] at h
  split at h; · cases h
  rename_i v hv
  split at h; · cases h
  rename_i o ho
  injection h with h
  exact ⟨F, n, s, v, o, hF, hn, h1, h2, hv, ho, h.symm⟩

theorem ecdhLen_facts {F : Factory} {kdf w n : Nat} {t : Template} {O : Oracle} {uid v : Bytes} {m : Nat} {o : Obj} (hF : keyTemplateFactory t = .ok F)
    (h : ecdhLen F kdf w t = .ok n) (ho : agreementDerive O uid m t v = .ok o) : symKind F.kind = true ∧ LenOf t w n := by
  unfold ecdhLen at h
  split at h
  · rename_i c hc
    split at h; · cases h
    rename_i l hl
    split at h; · cases h
    injection h with h
    subst h
    exact ⟨len_sym hF hc ho, .given (findA_asks hc hl)⟩
  · rename_i hc
    split at h; · cases h
    obtain ⟨a, b⟩ := recommend_sym h
    obtain ⟨cls, kt, h1, h2⟩ := keyTemplate_asks hF
    exact ⟨a, .usual cls kt (findA_none hc) h1 (usual_of h2 b)⟩


/-! ## ECDH -/

/-- A key derived with ECDH: its value is what the KDF type makes of the shared secret, with the length that the template gives or the usual one; CKA_VALUE_LEN
tells it. -/
theorem C81_ecdh (E : DhEnv) (algs : Nat → HashAlg) (hk : KdfOk E algs) (O : Oracle) (uid : Bytes) (mech : Nat) (p : EcdhParams) (k : EcdhOp) (pub : Bytes)
    (hn : EcdhOp.new mech p = .ok k) (hpub : p.pub = some pub) (key : Obj) (t : Template) (os : List Obj)
    (pk : DhPkey) (w : Nat) (z : Bool → Bytes → Option Bytes) (pt : Bytes) (hl : E.load key = .ok pk) (hz : EcdhKey pk w z) (hp : Means w pub pt)
    (h : (k.derive E O uid key t).1 = .ok os) :
    ∃ o n s v, os = [o] ∧ z (mech == CKM_ECDH1_COFACTOR_DERIVE) pt = some s ∧ LenOf t w n ∧ value o CKA_VALUE = some v ∧
      KeyOf algs p.kdf s (p.shared.getD []) n v ∧ (∀ kt, asksKey t CKO_SECRET_KEY kt → value o CKA_VALUE_LEN = some (toLE 8 n)) := by
  unfold EcdhOp.new at hn
  split at hn
  rotate_left
  · cases hn
  split at hn; · cases hn
  rw [hpub] at hn
  have hk' : k.mech = mech ∧ k.kdf = p.kdf ∧ k.pub = pub ∧ k.shared.getD [] = p.shared.getD [] ∧ k.fin = false := by
    split at hn
    · cases hn
    · cases hn
    · rename_i b _ _ hb
      injection hb with hb
      injection hn with hn
      subst hn
      refine ⟨rfl, rfl, hb.symm, ?_, rfl⟩
      show Option.getD (if _ then _ else _) [] = _
      split
      · rfl
      · rename_i hc
        cases hs : p.shared with
        | none => rfl
        | some x => exact absurd (.inl (by rw [hs]; rfl)) hc
  obtain ⟨hm, hkdf, hkp, hks, hfin⟩ := hk'
  have h' : ecdhDerive E O uid k key t = .ok os := by
    unfold EcdhOp.derive at h
    rw [hfin] at h
    simpa using h
  obtain ⟨F, n, s, v, o, hF, hlen, hs, hw, hv, ho, rfl⟩ := ecdh_shape hl hz (by rw [hkp]; exact hp) h'
  obtain ⟨hsym, hlo⟩ := ecdhLen_facts hF hlen ho
  have hval := (agreement_value hF hsym ho).1
  have key' := value_keyOf hk hv
  rw [hkdf, hks] at key'
  refine ⟨o, n, s, v, rfl, by rw [← hm]; exact hs, hlo, hval, key', ?_⟩
  intro kt ha
  obtain ⟨v', h1, h2⟩ := (C48_agreement_partial O uid _ t v o ho).2.2 kt ha
  rw [hval] at h1
  injection h1 with h1
  subst h1
  have : v.length = n := by cases key' <;> assumption
  rw [h2, this]

theorem blocks_prefix (f : Nat → Bytes) (n : Nat) : ∀ m, blocks f n <+: blocks f (n + m)
  | 0 => List.prefix_rfl
  | m + 1 => (blocks_prefix f n m).trans (List.prefix_append ..)

theorem starts_unique {f : Nat → Bytes} {v v' : Bytes} (h : Starts f v) (h' : Starts f v') (hl : v.length = v'.length) : v = v' := by
  obtain ⟨n, hn⟩ := h
  obtain ⟨m, hm⟩ := h'
  have a : v <+: blocks f (n + m) := hn.trans (blocks_prefix f n m)
  have b : v' <+: blocks f (n + m) := by
    rw [Nat.add_comm]; exact hm.trans (blocks_prefix f m n)
  exact (List.prefix_of_prefix_length_le a b (Nat.le_of_eq hl)).eq_of_length hl

theorem suffix_unique {z v v' : Bytes} (h : v <:+ z) (h' : v' <:+ z) (hl : v.length = v'.length) : v = v' :=
  (List.suffix_of_suffix_length_le h h' (Nat.le_of_eq hl)).eq_of_length hl

theorem types_functional : ((x963Types ++ sp800Types).map Prod.fst).Nodup ∧ CKD_NULL ∉ (x963Types ++ sp800Types).map Prod.fst := by decide

theorem table_fun {l : List (Nat × Nat)} (hn : (l.map Prod.fst).Nodup) {a b c : Nat} (h : (a, b) ∈ l) (k : (a, c) ∈ l) : b = c := by
  induction l with
  | nil => cases h
  | cons x l ih =>
    simp only [List.map_cons, List.nodup_cons] at hn
    rcases List.mem_cons.1 h with h | h <;> rcases List.mem_cons.1 k with k | k
    · rw [← h] at k
      injection k with _ k
      exact k.symm
    · exact absurd (List.mem_map.2 ⟨_, k, by rw [← h]⟩) hn.1
    · exact absurd (List.mem_map.2 ⟨_, h, by rw [← k]⟩) hn.1
    · exact ih hn.2 h k

/-- The secret, the KDF type, the shared data and the length determine the key. -/
theorem C81_determined (algs : Nat → HashAlg) (kdf : Nat) (z info : Bytes) (n : Nat) (v v' : Bytes) (h : KeyOf algs kdf z info n v)
    (h' : KeyOf algs kdf z info n v') : v = v' := by
  have nd := types_functional.1
  have nn := types_functional.2
  have mem : ∀ {l : List (Nat × Nat)} {d : Nat}, (kdf, d) ∈ l → kdf ∈ l.map Prod.fst := fun h => List.mem_map.2 ⟨_, h, rfl⟩
  have dis : ∀ {d e : Nat}, (kdf, d) ∈ x963Types → (kdf, e) ∈ sp800Types → False := by
    intro d e a b
    rw [List.map_append, List.nodup_append] at nd
    exact nd.2.2 _ (mem a) _ (mem b) rfl
  rw [List.map_append, List.mem_append] at nn
  cases h with
  | plain a b c =>
    cases h' with
    | plain a' b' c' => exact suffix_unique c c' (by omega)
    | x963 d a' => subst a; exact absurd (.inl (mem a')) nn
    | sp800 d a' => subst a; exact absurd (.inr (mem a')) nn
  | x963 d a b c =>
    cases h' with
    | plain a' => subst a'; exact absurd (.inl (mem a)) nn
    | x963 d' a' b' c' =>
      rw [List.map_append, List.nodup_append] at nd
      have := table_fun nd.1 a a'
      subst this
      exact starts_unique c c' (by omega)
    | sp800 d' a' => exact (dis a a').elim
  | sp800 d a b c =>
    cases h' with
    | plain a' => subst a'; exact absurd (.inr (mem a)) nn
    | x963 d' a' => exact (dis a' a).elim
    | sp800 d' a' b' c' =>
      rw [List.map_append, List.nodup_append] at nd
      have := table_fun nd.2.1 a a'
      subst this
      exact starts_unique c c' (by omega)

/-- What is left of a derivation once the secret is there. -/
def ecdhRest (E : DhEnv) (O : Oracle) (uid : Bytes) (k : EcdhOp) (t : Template) (w : Nat) (s : Bytes) : Res (List Obj) :=
  match keyTemplateFactory t with
  | .error r => .error r
  | .ok F => match ecdhLen F k.kdf w t with
    | .error r => .error r
    | .ok n => match ecdhValue E k s n with
      | .error r => .error r
      | .ok v => match agreementDerive O uid k.mech t v with
        | .error r => .error r
        | .ok o => .ok [o]

/-- The equation behind a derivation whose steps in OpenSSL succeed. -/
theorem ecdh_run {E : DhEnv} {O : Oracle} {uid : Bytes} {k : EcdhOp} {key : Obj} {t : Template} {pk : DhPkey} {w : Nat}
    {z : Bool → Bytes → Option Bytes} {pt : Bytes} {x : DhOut} (hl : E.load key = .ok pk) (hz : EcdhKey pk w z) (hp : Means w k.pub pt)
    (hi : pk.init = .ok ()) (hpe : pk.peer pt = .ok ()) (hr : pk.run (k.mech == CKM_ECDH1_COFACTOR_DERIVE) pt = .ok x) :
    ∃ s, z (k.mech == CKM_ECDH1_COFACTOR_DERIVE) pt = some s ∧ s.length = w ∧ ecdhDerive E O uid k key t =
      ecdhRest E O uid k t w s := by
  obtain ⟨b, hb, hw⟩ := hz.width
  obtain ⟨s, h1, h2, rfl⟩ := hz.secret _ _ _ hr
  refine ⟨s, h1, h2, ?_⟩
  unfold ecdhDerive
  rw [hl]
  simp only [hi, hb, ← hw, point_means hp, hpe, hr, fill_exact w s h2, List.take_of_length_le (Nat.le_of_eq h2)]
  rfl

/-- Both parties get the same key: the same answer, an object with the same attributes when it is a success. -/
theorem C81_agree (E : DhEnv) (O : Oracle) (uid : Bytes) (ka kb : EcdhOp) (keya keyb : Obj) (t : Template) (pka pkb : DhPkey) (w : Nat)
    (za zb : Bool → Bytes → Option Bytes) (pta ptb : Bytes) (xa xb : DhOut) (ha : E.load keya = .ok pka) (hb : E.load keyb = .ok pkb)
    (hza : EcdhKey pka w za) (hzb : EcdhKey pkb w zb) (hpa : Means w ka.pub ptb) (hpb : Means w kb.pub pta)
    (hs : za (ka.mech == CKM_ECDH1_COFACTOR_DERIVE) ptb = zb (ka.mech == CKM_ECDH1_COFACTOR_DERIVE) pta)
    (hop : { ka with pub := [] } = { kb with pub := [] }) (hia : pka.init = .ok ()) (hib : pkb.init = .ok ())
    (hpea : pka.peer ptb = .ok ()) (hpeb : pkb.peer pta = .ok ()) (hra : pka.run (ka.mech == CKM_ECDH1_COFACTOR_DERIVE) ptb = .ok xa)
    (hrb : pkb.run (ka.mech == CKM_ECDH1_COFACTOR_DERIVE) pta = .ok xb) :
    (ka.derive E O uid keya t).1 = (kb.derive E O uid keyb t).1 := by
  injection hop with hm hkdf _ hsh hfin
  obtain ⟨s, h1, _, h3⟩ := ecdh_run (O := O) (uid := uid) (t := t) ha hza hpa hia hpea hra
  obtain ⟨s', h1', _, h3'⟩ := ecdh_run (O := O) (uid := uid) (t := t) (k := kb) hb hzb hpb hib hpeb (by rw [← hm]; exact hrb)
  have : s = s' := by
    rw [hs, hm, h1'] at h1
    injection h1 with h1
    exact h1.symm
  subst this
  unfold EcdhOp.derive
  rw [hfin]
  split
  · rfl
  · show ecdhDerive E O uid ka keya t = ecdhDerive E O uid kb keyb t
    rw [h3, h3']
    unfold ecdhRest
    have : ecdhValue E ka s = ecdhValue E kb s := by
      funext n
      unfold ecdhValue
      rw [hkdf, hsh]
    rw [hkdf, this, hm]

theorem asksFor_append {t l : Template} {typ n : Nat} (h : asksFor t typ n) : asksFor (t ++ l) typ n := by
  obtain ⟨pre, c, post, rfl, a, b, d⟩ := h
  exact ⟨pre, c, post ++ l, by simp, a, b, d⟩

theorem agreement_of_create {O : Oracle} {uid v : Bytes} {m : Nat} {t : Template} {o : Obj} {cls kt : Nat} (hc : keyClass cls = true)
    (hq : asksKey t cls kt) (h : factoriesCreate O uid (t ++ [CkAttr.mk' CKA_VALUE v]) = .ok o) :
    ∃ F, keyTemplateFactory t = .ok F ∧ agreementDerive O uid m t v = .ok (defaultKeyAttributes o m) := by
  unfold factoriesCreate at h
  split at h; · cases h
  rename_i F hF
  have g := create_factory hc ⟨asksFor_append hq.1, asksFor_append hq.2⟩ hF
  have f : keyTemplateFactory t = .ok F := by
    unfold keyTemplateFactory
    rw [asksFor_iff.1 hq.1]
    simp only
    rw [asksFor_iff.1 hq.2]
    exact g
  refine ⟨F, f, ?_⟩
  unfold agreementDerive
  rw [f]
  simp only [h]

theorem asks_findA {t : Template} {typ n : Nat} (h : asksFor t typ n) : ∃ c, Template.findA t typ = some c ∧ c.toUlong = .ok n := by
  have := (asksFor_iff (r := .generalError)).1 h
  unfold tmplUlong at this
  split at this; · cases this
  rename_i c hc
  exact ⟨c, hc, this⟩

/-- ECDH works: for a template with a length, when OpenSSL computes the secret `s` and `v` is the key of that length made of it, and a key with this template
and value could be created, the derivation gives one key with that value. -/
theorem C81_works (E : DhEnv) (O : Oracle) (uid : Bytes) (k : EcdhOp) (key : Obj) (t : Template) (pk : DhPkey) (w : Nat)
    (z : Bool → Bytes → Option Bytes) (pt s v : Bytes) (x : DhOut) (n cls kt : Nat) (o : Obj) (hfin : k.fin = false) (hl : E.load key = .ok pk)
    (hz : EcdhKey pk w z) (hp : Means w k.pub pt) (hi : pk.init = .ok ()) (hpe : pk.peer pt = .ok ())
    (hr : pk.run (k.mech == CKM_ECDH1_COFACTOR_DERIVE) pt = .ok x) (hs : z (k.mech == CKM_ECDH1_COFACTOR_DERIVE) pt = some s)
    (hq : asksKey t cls kt) (hcls : cls = CKO_SECRET_KEY ∨ cls = CKO_OTP_KEY) (hn : asksFor t CKA_VALUE_LEN n)
    (hv : (k.kdf = CKD_NULL ∧ v <:+ s ∧ v.length = n) ∨ (∃ d, (k.kdf, d) ∈ x963Types ∧ E.kdf true d s k.shared n = .ok v) ∨
      (∃ d, (k.kdf, d) ∈ sp800Types ∧ E.kdf false d s k.shared n = .ok v))
    (hc : factoriesCreate O uid (t ++ [CkAttr.mk' CKA_VALUE v]) = .ok o) :
    ∃ o', (k.derive E O uid key t).1 = .ok [o'] ∧ value o' CKA_VALUE = some v := by
  obtain ⟨s', h1, h2, h3⟩ := ecdh_run (O := O) (uid := uid) (t := t) hl hz hp hi hpe hr
  rw [hs] at h1
  injection h1 with h1
  subst h1
  have hkc : keyClass cls = true := by rcases hcls with rfl | rfl <;> decide
  obtain ⟨F, hF, ha⟩ := agreement_of_create (m := k.mech) hkc hq hc
  obtain ⟨c, hc1, hc2⟩ := asks_findA hn
  have hlen : ecdhLen F k.kdf w t = .ok n := by
    unfold ecdhLen
    rw [hc1]
    simp only [hc2]
    refine if_neg ?_
    rintro ⟨a, b⟩
    rcases hv with ⟨_, e, f⟩ | ⟨d, e, _⟩ | ⟨d, e, _⟩
    · have := e.length_le
      omega
    · rw [a] at e; exact types_functional.2 (List.mem_map.2 ⟨_, List.mem_append.2 (.inl e), rfl⟩)
    · rw [a] at e; exact types_functional.2 (List.mem_map.2 ⟨_, List.mem_append.2 (.inr e), rfl⟩)
  have hval : ecdhValue E k s n = .ok v := by
    unfold ecdhValue
    rcases hv with ⟨a, e, f⟩ | ⟨d, e, g⟩ | ⟨d, e, g⟩
    · have := e.length_le
      rw [if_pos a, if_neg (by omega)]
      congr 1
      exact suffix_unique (List.drop_suffix ..) e (by simp; omega)
    · simp only [x963Types, List.mem_cons, List.not_mem_nil, or_false, Prod.mk.injEq] at e
      rcases e with ⟨a, rfl⟩ | ⟨a, rfl⟩ | ⟨a, rfl⟩ | ⟨a, rfl⟩ | ⟨a, rfl⟩ | ⟨a, rfl⟩ | ⟨a, rfl⟩ | ⟨a, rfl⟩ | ⟨a, rfl⟩ <;> (rw [a]; exact g)
    · simp only [sp800Types, List.mem_cons, List.not_mem_nil, or_false, Prod.mk.injEq] at e
      rcases e with ⟨a, rfl⟩ | ⟨a, rfl⟩ | ⟨a, rfl⟩ | ⟨a, rfl⟩ | ⟨a, rfl⟩ | ⟨a, rfl⟩ | ⟨a, rfl⟩ | ⟨a, rfl⟩ | ⟨a, rfl⟩ <;> (rw [a]; exact g)
  have hd : ecdhDerive E O uid k key t = .ok [defaultKeyAttributes o k.mech] := by
    rw [h3]
    unfold ecdhRest
    rw [hF]
    simp only [hlen, hval, ha]
  refine ⟨_, by unfold EcdhOp.derive; rw [hfin]; exact hd, ?_⟩
  exact (agreement_value hF (len_sym hF hc1 ha) ha).1

/-- What is refused: shared data without a KDF, no public data, another mechanism; a length longer than the secret without a KDF; a KDF without a length; a
KDF type that is not known; a second derivation. -/
theorem C81_refuses (E : DhEnv) (O : Oracle) (uid : Bytes) (mech : Nat) (p : EcdhParams) (k : EcdhOp) (key : Obj) (t : Template) (pk : DhPkey) (w : Nat)
    (z : Bool → Bytes → Option Bytes) (hl : E.load key = .ok pk) (hz : EcdhKey pk w z) :
    (mech ≠ CKM_ECDH1_DERIVE → mech ≠ CKM_ECDH1_COFACTOR_DERIVE → EcdhOp.new mech p = .error .mechanismInvalid) ∧
    (mech = CKM_ECDH1_DERIVE ∨ mech = CKM_ECDH1_COFACTOR_DERIVE → p.kdf = CKD_NULL → p.shared.isSome ∨ p.sharedLen ≠ 0 →
      EcdhOp.new mech p = .error .mechanismParamInvalid) ∧
    (mech = CKM_ECDH1_DERIVE ∨ mech = CKM_ECDH1_COFACTOR_DERIVE → p.pub = none ∨ p.pub = some [] → EcdhOp.new mech p = .error .mechanismParamInvalid) ∧
    (∀ n, k.kdf = CKD_NULL → asksFor t CKA_VALUE_LEN n → w < n → ∃ r, (k.derive E O uid key t).1 = .error r) ∧
    (k.kdf ≠ CKD_NULL → (∀ c ∈ t, c.typ ≠ CKA_VALUE_LEN) → ∃ r, (k.derive E O uid key t).1 = .error r) ∧
    (k.kdf ≠ CKD_NULL → (∀ d, (k.kdf, d) ∉ x963Types ∧ (k.kdf, d) ∉ sp800Types) → ∃ r, (k.derive E O uid key t).1 = .error r) ∧
    ((k.derive E O uid key t).2.derive E O uid key t).1 = .error .operationNotInitialized := by
  obtain ⟨b, hb, hw⟩ := hz.width
  have stop : ∀ (P : ∀ os, (k.derive E O uid key t).1 = .ok os → False), ∃ r, (k.derive E O uid key t).1 = .error r := by
    intro P
    cases h : (k.derive E O uid key t).1 with
    | error r => exact ⟨r, rfl⟩
    | ok os => exact (P os h).elim
  have shape : ∀ os, (k.derive E O uid key t).1 = .ok os →
      ∃ F n x v, ecdhLen F k.kdf w t = .ok n ∧ ecdhValue E k x n = .ok v := by
    intro os h
    unfold EcdhOp.derive at h
    split at h; · cases h
    simp only at h
    unfold ecdhDerive at h
    rw [hl] at h
    simp only at h
    split at h; · cases h
    split at h; · cases h
    rename_i F hF
    rw [hb] at h
    simp only [← hw] at h
    split at h; · cases h
    rename_i n hn
    split at h; · cases h
    split at h; · cases h
    split at h; · cases h
    split at h; · cases h
    rename_i v hv
    exact ⟨F, n, _, v, hn, hv⟩
  refine ⟨?_, ?_, ?_, ?_, ?_, ?_, ?_⟩
  · intro a b
    unfold EcdhOp.new
    rw [if_neg (fun h => h.elim a b)]
  · intro a b c
    unfold EcdhOp.new
    rw [if_pos a, if_pos ⟨b, c⟩]
  · intro a b
    unfold EcdhOp.new
    rw [if_pos a]
    split
    · rfl
    · rcases b with b | b <;> rw [b]
  · intro n a hn hlt
    refine stop fun os h => ?_
    obtain ⟨F, m, x, v, h1, h2⟩ := shape os h
    obtain ⟨c, hc1, hc2⟩ := asks_findA hn
    unfold ecdhLen at h1
    rw [hc1] at h1
    simp only [hc2] at h1
    rw [if_pos ⟨a, hlt⟩] at h1
    cases h1
  · intro a hn
    refine stop fun os h => ?_
    obtain ⟨F, m, x, v, h1, h2⟩ := shape os h
    have : Template.findA t CKA_VALUE_LEN = none := by
      unfold Template.findA
      rw [List.find?_eq_none]
      intro c hc e
      exact hn c hc (by simpa using e)
    unfold ecdhLen at h1
    rw [this] at h1
    simp only at h1
    rw [if_pos a] at h1
    cases h1
  · intro a hn
    refine stop fun os h => ?_
    obtain ⟨F, m, x, v, h1, h2⟩ := shape os h
    unfold ecdhValue at h2
    rw [if_neg a] at h2
    split at h2; · cases h2
    rename_i d hd
    split at h2; · cases h2
    rename_i q hq
    rcases kdf_tables hd hq with ⟨_, e⟩ | ⟨_, e⟩
    · exact (hn d).1 e
    · exact (hn d).2 e
  · unfold EcdhOp.derive
    split
    · rename_i h
      simp only [h, if_true]
    · rfl

/-- The point may be given raw or as an OCTET STRING: the same answer. -/
theorem C81_der (E : DhEnv) (O : Oracle) (uid : Bytes) (k : EcdhOp) (key : Obj) (t : Template) (pk : DhPkey) (w : Nat)
    (z : Bool → Bytes → Option Bytes) (hl : E.load key = .ok pk) (hz : EcdhKey pk w z) (pt : Bytes) (hlen : pt.length = 2 * w + 1)
    (h32 : pt.length < 2 ^ 32) :
    ({ k with pub := derTlv 4 pt }.derive E O uid key t).1 = ({ k with pub := pt }.derive E O uid key t).1 := by
  obtain ⟨b, hb, hw⟩ := hz.width
  have long : 2 * w + 1 < (derTlv 4 pt).length := by
    unfold derTlv
    simp
    omega
  have a := point_means (w := w) (.inr ⟨rfl, long, h32⟩)
  have c := point_means (w := w) (pub := pt) (.inl ⟨rfl, by omega⟩)
  unfold EcdhOp.derive
  simp only
  split
  · rfl
  · unfold ecdhDerive
    rw [hl]
    simp only [hb, ← hw, a, c, ecdhValue]

/-! ## Finite field Diffie-Hellman -/

theorem ffdhLen_facts {F : Factory} {w n : Nat} {t : Template} {O : Oracle} {uid v : Bytes} {m : Nat} {o : Obj} (hF : keyTemplateFactory t = .ok F)
    (h : ffdhLen F w t = .ok n) (ho : agreementDerive O uid m t v = .ok o) : symKind F.kind = true ∧ LenOf t w n := by
  unfold ffdhLen at h
  split at h
  · rename_i c hc
    split at h; · cases h
    rename_i l hl
    split at h; · cases h
    injection h with h
    subst h
    exact ⟨len_sym hF hc ho, .given (findA_asks hc hl)⟩
  · rename_i hc
    obtain ⟨a, b⟩ := recommend_sym h
    obtain ⟨cls, kt, h1, h2⟩ := keyTemplate_asks hF
    exact ⟨a, .usual cls kt (findA_none hc) h1 (usual_of h2 b)⟩

theorem ffdh_shape {E : DhEnv} {O : Oracle} {uid : Bytes} {k : FfdhOp} {key : Obj} {t : Template} {os : List Obj} {pk : DhPkey} (hl : E.load key = .ok pk)
    (h : ffdhDerive E O uid k key t = .ok os) :
    ∃ F n x v o, keyTemplateFactory t = .ok F ∧ ffdhLen F pk.size t = .ok n ∧ pk.run false k.pub = .ok x ∧
      ffdhValue F pk.size n x = .ok v ∧ agreementDerive O uid k.mech t v = .ok o ∧ os = [o] := by
  unfold ffdhDerive at h
  split at h; · cases h
  rename_i F hF
  rw [hl] at h
  simp only at h
  split at h; · cases h
  split at h; · cases h
  split at h; · cases h
  rename_i n hn
  split at h; · cases h
  rename_i x hx
  split at h; · cases h
  rename_i v hv
  split at h; · cases h
  rename_i o ho
  injection h with h
  exact ⟨F, n, x, v, o, hF, hn, hx, hv, ho, h.symm⟩

theorem noLead_id {s : Bytes} (h : s.head? ≠ some 0) : noLead s = s := by
  cases s with
  | nil => rfl
  | cons a s =>
    unfold noLead
    rw [List.dropWhile_cons, if_neg]
    intro e
    exact h (by simpa using e)

theorem noLead_le (s : Bytes) : (noLead s).length ≤ s.length := (List.dropWhile_suffix _).length_le

theorem noLead_lt {s : Bytes} (h : s.head? = some 0) : (noLead s).length < s.length := by
  cases s with
  | nil => cases h
  | cons a s =>
    unfold noLead
    simp at h
    subst h
    rw [List.dropWhile_cons, if_pos (by decide)]
    have := noLead_le s
    unfold noLead at this
    simp only [List.length_cons]
    omega

theorem fill_len (x : DhOut) (n : Nat) : (dhFill x n).2 = if x.len < n then x.len else n := by
  unfold dhFill
  simp only
  split <;> rfl

theorem fill_cut (x : DhOut) (n : Nat) (h : n < x.announced) (k : n ≤ x.len) : dhFill x n = (x.buf.drop (x.announced - n), n) := by
  unfold dhFill
  have : (if x.len < n then x.len else n) = n := if_neg (by omega)
  simp only [this]
  rw [if_neg (by omega)]
  simp

theorem ffdh_cut (F : Factory) (w : Nat) (x : DhOut) (n : Nat) (h : n < x.announced) (k : n ≤ x.len) :
    ffdhValue F w n x = .ok (x.buf.drop (x.announced - n)) := by
  unfold ffdhValue
  rw [fill_cut x n h k]
  simp

theorem ffdh_short (F : Factory) (w : Nat) (x : DhOut) (n : Nat) (h : n ≠ w) (k : x.len < n) : ffdhValue F w n x = .error .generalError := by
  unfold ffdhValue
  have := fill_len x n
  rw [if_pos k] at this
  simp only
  rw [this, if_pos (by omega), if_pos h]

theorem ffdh_full {F : Factory} {w n : Nat} {s v : Bytes} (hs : s.length = w) (h : ffdhValue F w n ⟨w, s, w⟩ = .ok v) : v.length = n ∧ v <:+ s := by
  have hn : n ≤ w := by
    apply Decidable.byContradiction
    intro c
    rw [ffdh_short F w ⟨w, s, w⟩ n (by omega) (by show w < n; omega)] at h
    cases h
  by_cases e : n = w
  · subst e
    unfold ffdhValue at h
    rw [fill_exact n s hs] at h
    simp only at h
    rw [if_neg (by simp)] at h
    injection h with h
    subst h
    exact ⟨hs, List.suffix_rfl⟩
  · rw [ffdh_cut F w ⟨w, s, w⟩ n (by show n < w; omega) (by show n ≤ w; omega)] at h
    injection h with h
    subst h
    exact ⟨by simp; omega, List.drop_suffix ..⟩

/-- Finite field Diffie-Hellman, for a secret without leading zero bytes: the key is the end of the secret, as long as the template says.  Missing: secrets with
leading zero bytes, see `C81_ffdh_violation`. -/
theorem C81_ffdh_partial (E : DhEnv) (O : Oracle) (uid : Bytes) (k : FfdhOp) (key : Obj) (t : Template) (os : List Obj) (pk : DhPkey)
    (z : Bytes → Option Bytes) (s : Bytes) (hl : E.load key = .ok pk) (hz : FfdhKey pk z) (hs : z k.pub = some s) (hlead : s.head? ≠ some 0)
    (h : (k.derive E O uid key t).1 = .ok os) :
    ∃ o n v, os = [o] ∧ LenOf t pk.size n ∧ value o CKA_VALUE = some v ∧ v.length = n ∧ v <:+ s := by
  have h' : ffdhDerive E O uid k key t = .ok os := by
    unfold FfdhOp.derive at h
    split at h
    · cases h
    · exact h
  obtain ⟨F, n, x, v, o, hF, hn, hx, hv, ho, rfl⟩ := ffdh_shape hl h'
  obtain ⟨s', h1, h2, rfl⟩ := hz.secret _ _ hx
  rw [hs] at h1
  injection h1 with h1
  subst h1
  rw [noLead_id hlead, h2, Nat.sub_self, List.replicate_zero, List.append_nil] at hv
  obtain ⟨a, b⟩ := ffdh_full h2 hv
  obtain ⟨hsym, hlo⟩ := ffdhLen_facts hF hn ho
  exact ⟨o, n, v, rfl, hlo, (agreement_value hF hsym ho).1, a, b⟩

/-- A secret with a leading zero byte, and a key shorter than the prime: the key ends in a zero byte, so it is not the end of a secret that does not. -/
theorem C81_ffdh_violation (E : DhEnv) (O : Oracle) (uid : Bytes) (k : FfdhOp) (key : Obj) (t : Template) (os : List Obj) (pk : DhPkey)
    (z : Bytes → Option Bytes) (s : Bytes) (n : Nat) (hl : E.load key = .ok pk) (hz : FfdhKey pk z) (hs : z k.pub = some s) (hlead : s.head? = some 0)
    (hlast : s.getLast? ≠ some 0) (hn : asksFor t CKA_VALUE_LEN n) (h0 : 0 < n) (hlt : n < pk.size) (h : (k.derive E O uid key t).1 = .ok os) :
    ∃ o v, os = [o] ∧ value o CKA_VALUE = some v ∧ v.length = n ∧ v.getLast? = some 0 ∧ ¬ v <:+ s := by
  have h' : ffdhDerive E O uid k key t = .ok os := by
    unfold FfdhOp.derive at h
    split at h
    · cases h
    · exact h
  obtain ⟨F, m, x, v, o, hF, hm, hx, hv, ho, rfl⟩ := ffdh_shape hl h'
  have : m = n := by
    obtain ⟨c, hc1, hc2⟩ := asks_findA hn
    unfold ffdhLen at hm
    rw [hc1] at hm
    simp only [hc2] at hm
    rw [if_neg (by omega)] at hm
    injection hm with hm
    exact hm.symm
  subst this
  obtain ⟨s', h1, h2, rfl⟩ := hz.secret _ _ hx
  rw [hs] at h1
  injection h1 with h1
  subst h1
  have lt := noLead_lt hlead
  rw [h2] at lt
  obtain ⟨hsym, hlo⟩ := ffdhLen_facts hF hm ho
  have hval := (agreement_value hF hsym ho).1
  have big : m ≤ (noLead s).length := by
    apply Decidable.byContradiction
    intro c
    rw [ffdh_short _ _ _ m (by omega) (by simp only; omega)] at hv
    cases hv
  have hv' : v = (noLead s ++ List.replicate (pk.size - (noLead s).length) 0).drop (pk.size - m) := by
    rw [ffdh_cut _ _ _ m (by simp only; omega) (by simp only; omega)] at hv
    injection hv with hv
    exact hv.symm
  have hlen : v.length = m := by
    rw [hv']
    simp
    omega
  have hz0 : v.getLast? = some 0 := by
    rw [hv', List.getLast?_drop, if_neg (by simp; omega)]
    obtain ⟨j, hj⟩ : ∃ j, pk.size - (noLead s).length = j + 1 := ⟨pk.size - (noLead s).length - 1, by omega⟩
    rw [hj, List.getLast?_append]
    simp [List.getLast?_replicate]
  refine ⟨o, v, rfl, hval, hlen, hz0, ?_⟩
  rintro ⟨u, hu⟩
  rw [← hu, List.getLast?_append, hz0] at hlast
  exact hlast rfl

/-- A secret with a leading zero byte, and a generic secret without a length: the key is shorter than the prime. -/
theorem C81_ffdh_short_violation (E : DhEnv) (O : Oracle) (uid : Bytes) (k : FfdhOp) (key : Obj) (t : Template) (os : List Obj) (pk : DhPkey)
    (z : Bytes → Option Bytes) (s : Bytes) (hl : E.load key = .ok pk) (hz : FfdhKey pk z) (hs : z k.pub = some s) (hlead : s.head? = some 0)
    (hq : asksKey t CKO_SECRET_KEY CKK_GENERIC_SECRET) (hn : ∀ c ∈ t, c.typ ≠ CKA_VALUE_LEN) (h : (k.derive E O uid key t).1 = .ok os) :
    ∃ o v, os = [o] ∧ value o CKA_VALUE = some v ∧ v.length < pk.size := by
  have h' : ffdhDerive E O uid k key t = .ok os := by
    unfold FfdhOp.derive at h
    split at h
    · cases h
    · exact h
  obtain ⟨F, m, x, v, o, hF, hm, hx, hv, ho, rfl⟩ := ffdh_shape hl h'
  obtain ⟨hsym, hlo⟩ := ffdhLen_facts hF hm ho
  have hval := (agreement_value hF hsym ho).1
  have : m = pk.size := by
    cases hlo with
    | given a =>
      obtain ⟨c, hc, _⟩ := asks_findA a
      unfold Template.findA at hc
      have e := List.find?_some hc
      exact absurd (by simpa using e) (hn c (List.mem_of_find?_eq_some hc))
    | usual cls kt _ ha hu =>
      have e1 := asksFor_fun ha.1 hq.1
      have e2 := asksFor_fun ha.2 hq.2
      subst e1 e2
      exact hu.generic rfl rfl
  subst this
  obtain ⟨s', h1, h2, rfl⟩ := hz.secret _ _ hx
  rw [hs] at h1
  injection h1 with h1
  subst h1
  have lt := noLead_lt hlead
  rw [h2] at lt
  refine ⟨o, v, rfl, hval, ?_⟩
  unfold ffdhValue at hv
  have hf := fill_len ⟨pk.size, noLead s ++ List.replicate (pk.size - (noLead s).length) 0, (noLead s).length⟩ pk.size
  rw [if_pos lt] at hf
  simp only at hv
  rw [hf, if_pos (by show (noLead s).length ≠ pk.size; omega), if_neg (by simp)] at hv
  split at hv; · cases hv
  split at hv
  · injection hv with hv
    subst hv
    simp only [List.length_take]
    omega
  · cases hv

/-- Both parties get the same key when OpenSSL gives them the same answer. -/
theorem C81_ffdh_agree (E : DhEnv) (O : Oracle) (uid : Bytes) (ka kb : FfdhOp) (keya keyb : Obj) (t : Template) (pka pkb : DhPkey)
    (za zb : Bytes → Option Bytes) (xa xb : DhOut) (ha : E.load keya = .ok pka) (hb : E.load keyb = .ok pkb) (hza : FfdhKey pka za) (hzb : FfdhKey pkb zb)
    (hsz : pka.size = pkb.size) (hs : za ka.pub = zb kb.pub) (hop : { ka with pub := [] } = { kb with pub := [] }) (hia : pka.init = .ok ())
    (hib : pkb.init = .ok ()) (hpea : pka.peer ka.pub = .ok ()) (hpeb : pkb.peer kb.pub = .ok ()) (hra : pka.run false ka.pub = .ok xa)
    (hrb : pkb.run false kb.pub = .ok xb) : (ka.derive E O uid keya t).1 = (kb.derive E O uid keyb t).1 := by
  injection hop with hm _ hfin
  obtain ⟨s, h1, h2, rfl⟩ := hza.secret _ _ hra
  obtain ⟨s', h1', h2', rfl⟩ := hzb.secret _ _ hrb
  rw [hs, h1'] at h1
  injection h1 with h1
  subst h1
  unfold FfdhOp.derive
  rw [hfin]
  split
  · rfl
  · show ffdhDerive E O uid ka keya t = ffdhDerive E O uid kb keyb t
    unfold ffdhDerive
    simp only [ha, hb, hia, hib, hpea, hpeb, hra, hrb, hsz, hm]

/-- Finite field Diffie-Hellman works: a length not above the one of the prime, a secret without leading zero bytes, a key that could be created. -/
theorem C81_ffdh_works (E : DhEnv) (O : Oracle) (uid : Bytes) (k : FfdhOp) (key : Obj) (t : Template) (pk : DhPkey)
    (z : Bytes → Option Bytes) (s v : Bytes) (x : DhOut) (n cls kt : Nat) (o : Obj) (hfin : k.fin = false) (hl : E.load key = .ok pk) (hz : FfdhKey pk z)
    (hs : z k.pub = some s) (hlead : s.head? ≠ some 0) (hi : pk.init = .ok ()) (hpe : pk.peer k.pub = .ok ()) (hr : pk.run false k.pub = .ok x)
    (hq : asksKey t cls kt) (hcls : cls = CKO_SECRET_KEY ∨ cls = CKO_OTP_KEY) (hn : asksFor t CKA_VALUE_LEN n) (hv : v <:+ s ∧ v.length = n)
    (hc : factoriesCreate O uid (t ++ [CkAttr.mk' CKA_VALUE v]) = .ok o) :
    ∃ o', (k.derive E O uid key t).1 = .ok [o'] ∧ value o' CKA_VALUE = some v := by
  obtain ⟨s', h1, h2, rfl⟩ := hz.secret _ _ hr
  rw [hs] at h1
  injection h1 with h1
  subst h1
  rw [noLead_id hlead, h2, Nat.sub_self, List.replicate_zero, List.append_nil] at hr
  have hkc : keyClass cls = true := by rcases hcls with rfl | rfl <;> decide
  obtain ⟨F, hF, ha⟩ := agreement_of_create (m := k.mech) hkc hq hc
  obtain ⟨c, hc1, hc2⟩ := asks_findA hn
  have hle := hv.1.length_le
  have hlen : ffdhLen F pk.size t = .ok n := by
    unfold ffdhLen
    rw [hc1]
    simp only [hc2]
    exact if_neg (by omega)
  have hval : ∃ v', ffdhValue F pk.size n ⟨pk.size, s, pk.size⟩ = .ok v' := by
    unfold ffdhValue
    have : (dhFill ⟨pk.size, s, pk.size⟩ n).2 = n := by
      rw [fill_len, if_neg (by simp only; omega)]
    exact ⟨(dhFill ⟨pk.size, s, pk.size⟩ n).1, by simp [this]⟩
  obtain ⟨v', hv'⟩ := hval
  obtain ⟨a, b⟩ := ffdh_full h2 hv'
  have : v' = v := suffix_unique b hv.1 (by omega)
  subst this
  have hd : ffdhDerive E O uid k key t = .ok [defaultKeyAttributes o k.mech] := by
    unfold ffdhDerive
    simp only [hF, hl, hpe, hi, hlen, hr, hv', ha]
  refine ⟨_, by unfold FfdhOp.derive; rw [hfin]; exact hd, ?_⟩
  exact (agreement_value hF (len_sym hF hc1 ha) ha).1

/-- What is refused: no public value, another mechanism; a length longer than the prime; a second derivation. -/
theorem C81_ffdh_refuses (E : DhEnv) (O : Oracle) (uid : Bytes) (mech : Nat) (param : Bytes) (k : FfdhOp) (key : Obj) (t : Template) (pk : DhPkey)
    (hl : E.load key = .ok pk) :
    (mech ≠ CKM_DH_PKCS_DERIVE → FfdhOp.new mech param = .error .mechanismInvalid) ∧
    (FfdhOp.new CKM_DH_PKCS_DERIVE [] = .error .mechanismParamInvalid) ∧
    (∀ n, asksFor t CKA_VALUE_LEN n → pk.size < n → ∃ r, (k.derive E O uid key t).1 = .error r) ∧
    ((k.derive E O uid key t).2.derive E O uid key t).1 = .error .operationNotInitialized := by
  refine ⟨?_, rfl, ?_, ?_⟩
  · intro h
    unfold FfdhOp.new
    rw [if_neg h]
  · intro n hn hlt
    cases h : (k.derive E O uid key t).1 with
    | error r => exact ⟨r, rfl⟩
    | ok os =>
      have h' : ffdhDerive E O uid k key t = .ok os := by
        unfold FfdhOp.derive at h
        split at h
        · cases h
        · exact h
      obtain ⟨F, m, x, v, o, hF, hm, _⟩ := ffdh_shape hl h'
      obtain ⟨c, hc1, hc2⟩ := asks_findA hn
      unfold ffdhLen at hm
      rw [hc1] at hm
      simp only [hc2] at hm
      rw [if_pos hlt] at hm
      cases hm
  · unfold FfdhOp.derive
    split
    · rename_i h
      simp only [h, if_true]
    · rfl

/-! ## A toy group: the public value of `a` is `a + 1`, byte by byte, and the secret the sum of a private and a public value -/

/-- A toy hash of two bytes. -/
def toyDhHash (d : Nat) : HashAlg := ⟨fun m => [m.sum, UInt8.ofNat (m.length + d)], 2, 4⟩

def toySum (a p : Bytes) : Option Bytes := if p.length = a.length then some (List.zipWith (· + ·) (a.map (· + 1)) p) else none

def toyEcPk (a : Bytes) : DhPkey where
  init := .ok ()
  bits := .ok (8 * a.length)
  size := a.length
  peer := fun p => if p.length = a.length then .ok () else .error .mechanismParamInvalid
  run := fun _ p => match toySum a p with | some s => .ok ⟨a.length, s, a.length⟩ | none => .error .deviceError

def toyFfPk (a : Bytes) : DhPkey :=
  { toyEcPk a with
    run := fun _ p => match toySum a p with
      | some s => .ok ⟨a.length, noLead s ++ List.replicate (a.length - (noLead s).length) 0, (noLead s).length⟩
      | none => .error .deviceError }

def toyDh (ec : Bool) : DhEnv where
  load := fun o => match value o CKA_VALUE with
    | some a => .ok (if ec then toyEcPk a else toyFfPk a)
    | none => .error .generalError
  kdf := fun x d z i n => .ok ((blocks (if x then x963 (toyDhHash d) z (i.getD []) else oneStep (toyDhHash d) z (i.getD [])) n).take n)

theorem toySum_length {a p s : Bytes} (h : toySum a p = some s) : s.length = a.length := by
  unfold toySum at h
  split at h
  · rename_i e
    injection h with h
    subst h
    simp [e]
  · cases h

theorem toyEc (a : Bytes) : EcdhKey (toyEcPk a) a.length (fun _ => toySum a) where
  width := ⟨_, rfl, by omega⟩
  secret := fun c p x h => by
    simp only [toyEcPk] at h
    split at h
    · rename_i s hs
      injection h with h
      exact ⟨s, hs, toySum_length hs, h.symm⟩
    · cases h

theorem toyFf (a : Bytes) : FfdhKey (toyFfPk a) (toySum a) where
  secret := fun p x h => by
    simp only [toyFfPk] at h
    split at h
    · rename_i s hs
      injection h with h
      exact ⟨s, hs, toySum_length hs, h.symm⟩
    · cases h

theorem toyBlocks {f : Nat → Bytes} (hf : ∀ i, 1 ≤ (f i).length) : ∀ n, n ≤ (blocks f n).length
  | 0 => Nat.zero_le _
  | n + 1 => by
    have := toyBlocks hf n
    have := hf (n + 1)
    simp only [blocks, List.length_append]
    omega

theorem toyKdf (ec : Bool) : KdfOk (toyDh ec) toyDhHash where
  x963 := fun d z i n v h => by
    injection h with h
    subst h
    have := toyBlocks (f := x963 (toyDhHash d) z (i.getD [])) (fun _ => by simp [x963, toyDhHash]) n
    exact ⟨by simp; omega, n, List.take_prefix ..⟩
  oneStep := fun d z i n v h => by
    injection h with h
    subst h
    have := toyBlocks (f := oneStep (toyDhHash d) z (i.getD [])) (fun _ => by simp [oneStep, toyDhHash]) n
    exact ⟨by simp; omega, n, List.take_prefix ..⟩

def exDhTmpl (n : Nat) : Template :=
  [.ofUlong CKA_CLASS CKO_SECRET_KEY, .ofUlong CKA_KEY_TYPE CKK_GENERIC_SECRET, .ofUlong CKA_VALUE_LEN n]

def exDhOpen : Template := [.ofUlong CKA_CLASS CKO_SECRET_KEY, .ofUlong CKA_KEY_TYPE CKK_GENERIC_SECRET]

/-- The value of the one key derived. -/
def exDhVal (r : Res (List Obj)) : Option Bytes :=
  match r with
  | .ok [o] => value o CKA_VALUE
  | _ => none

def exEcdh (kdf : Nat) (shared : Option Bytes) (pub : Bytes) : EcdhOp := ⟨CKM_ECDH1_DERIVE, kdf, pub, shared, false⟩

/-- Both parties, with and without a KDF; the point as an OCTET STRING; the hypotheses of `C81_works` and `C81_agree`. -/
example : exDhVal ((exEcdh CKD_NULL none [11, 21, 31, 41]).derive (toyDh true) exOracle exUid (exEc [1, 2, 3, 4]) (exDhTmpl 3)).1 = some [24, 35, 46] ∧
    exDhVal ((exEcdh CKD_NULL none [2, 3, 4, 5]).derive (toyDh true) exOracle exUid (exEc [10, 20, 30, 40]) (exDhTmpl 3)).1 = some [24, 35, 46] ∧
    exDhVal ((exEcdh CKD_NULL none [2, 3, 4, 5]).derive (toyDh true) exOracle exUid (exEc [10, 20, 30, 40]) exDhOpen).1 = some [13, 24, 35, 46] ∧
    exDhVal ((exEcdh CKD_SHA256_KDF (some [9]) [11, 21, 31, 41]).derive (toyDh true) exOracle exUid (exEc [1, 2, 3, 4]) (exDhTmpl 5)).1 =
      exDhVal ((exEcdh CKD_SHA256_KDF (some [9]) [2, 3, 4, 5]).derive (toyDh true) exOracle exUid (exEc [10, 20, 30, 40]) (exDhTmpl 5)).1 ∧
    (exDhVal ((exEcdh CKD_SHA256_KDF (some [9]) [11, 21, 31, 41]).derive (toyDh true) exOracle exUid (exEc [1, 2, 3, 4]) (exDhTmpl 5)).1).map
      List.length = some 5 := by decide +kernel

example : (∃ z, EcdhKey (toyEcPk [1, 2, 3, 4]) 4 z ∧ z false [11, 21, 31, 41] = some [13, 24, 35, 46]) ∧ Means 4 [11, 21, 31, 41] [11, 21, 31, 41] ∧
    Means 1 (derTlv 4 [5, 6, 7]) [5, 6, 7] ∧ asksKey (exDhTmpl 3) CKO_SECRET_KEY CKK_GENERIC_SECRET ∧ asksFor (exDhTmpl 3) CKA_VALUE_LEN 3 ∧
    isOk (factoriesCreate exOracle exUid (exDhTmpl 3 ++ [CkAttr.mk' CKA_VALUE [24, 35, 46]])) = true ∧
    isOk (EcdhOp.new CKM_ECDH1_DERIVE ⟨CKD_NULL, none, 0, some [11, 21, 31, 41]⟩) = true :=
  ⟨⟨_, toyEc [1, 2, 3, 4], by decide⟩, .inl ⟨rfl, by decide⟩, .inr ⟨rfl, by decide, by decide⟩,
    ⟨(asksFor_iff (r := .generalError)).2 (by decide), (asksFor_iff (r := .generalError)).2 (by decide)⟩,
    (asksFor_iff (r := .generalError)).2 (by decide), by decide +kernel, by decide⟩

/-- Finite field Diffie-Hellman: the end of the secret 13, 24, 35, 46; of the secret 0, 24, 35, 46 the token takes 46, 0 in place of 35, 46, a key of three
bytes for no length, and cannot make a key of four bytes. -/
example : exDhVal ((FfdhOp.mk CKM_DH_PKCS_DERIVE [11, 21, 31, 41] false).derive (toyDh false) exOracle exUid (exDh [1, 2, 3, 4]) (exDhTmpl 2)).1 =
      some [35, 46] ∧
    exDhVal ((FfdhOp.mk CKM_DH_PKCS_DERIVE [254, 21, 31, 41] false).derive (toyDh false) exOracle exUid (exDh [1, 2, 3, 4]) (exDhTmpl 2)).1 =
      some [46, 0] ∧
    exDhVal ((FfdhOp.mk CKM_DH_PKCS_DERIVE [254, 21, 31, 41] false).derive (toyDh false) exOracle exUid (exDh [1, 2, 3, 4]) exDhOpen).1 =
      some [24, 35, 46] ∧
    isOk ((FfdhOp.mk CKM_DH_PKCS_DERIVE [254, 21, 31, 41] false).derive (toyDh false) exOracle exUid (exDh [1, 2, 3, 4]) (exDhTmpl 4)).1 = false := by
  decide +kernel

example : toySum [1, 2, 3, 4] [254, 21, 31, 41] = some [0, 24, 35, 46] ∧ FfdhKey (toyFfPk [1, 2, 3, 4]) (toySum [1, 2, 3, 4]) :=
  ⟨by decide, toyFf _⟩

end Kry
