import Verif.Props.C75

/-! C76: an elliptic curve private key that is wrapped and unwrapped is the same key.

The private value comes back byte for byte and the curve is the same; the parameters come back as the object identifier of the curve even when they were its name.
Keys of the Edwards and Montgomery curves are not encoded as RFC 8410 says. -/

namespace Kry

namespace Spec

/-- The parameters that stand for a curve: its object identifier or its name, in DER. -/
def Names (c : Curve) (p : Bytes) : Prop := p = derTlv 6 c.oid ∨ p = derTlv 0x13 c.names

/-- The key types of PKCS#11 for the curves: CKK_EC, CKK_EC_EDWARDS, CKK_EC_MONTGOMERY. -/
def curveType : Curve → Nat
  | .p256 | .p384 | .p521 => 3
  | .ed25519 | .ed448 => 0x40
  | .x25519 | .x448 => 0x41

/-- The object is a key on the curve: its parameters stand for it and its key type is that of the curve. -/
def OnCurve (o : Obj) (c : Curve) : Prop := (∃ a, o.find CKA_EC_PARAMS = some a ∧ Names c a.value) ∧ o.getUlong CKA_KEY_TYPE = .ok (curveType c)

end Spec

theorem curveType_eq (c : Curve) : Spec.curveType c = c.keyType := by cases c <;> rfl

theorem curve_all (c : Curve) : c ∈ Curve.all := by cases c <;> decide

theorem curveOf_ok {o : Obj} {c : Curve} (h : curveOf o = .ok c) : ∃ p, o.getBytes CKA_EC_PARAMS = .ok p ∧ Spec.Names c p := by
  unfold curveOf at h
  split at h
  · cases h
  rename_i p hp
  split at h
  · rename_i c' hc
    injection h with h; subst h
    have := List.find?_some hc
    simp only [Bool.or_eq_true, beq_iff_eq] at this
    exact ⟨p, hp, this⟩
  · cases h

/-- The encodings tell the curves apart. -/
theorem names_unique {c c' : Curve} {p : Bytes} (h : Spec.Names c p) (h' : Spec.Names c' p) : c = c' := by
  have key : ∀ c ∈ Curve.all, ∀ c' ∈ Curve.all, (derTlv 6 c.oid = derTlv 6 c'.oid ∨ derTlv 6 c.oid = derTlv 0x13 c'.names ∨ derTlv 0x13 c.names = derTlv 6 c'.oid ∨
      derTlv 0x13 c.names = derTlv 0x13 c'.names) → c = c' := by decide +kernel
  refine key c (curve_all c) c' (curve_all c') ?_
  rcases h with h | h <;> rcases h' with h' | h' <;> rw [h] at h'
  · exact .inl h'
  · exact .inr (.inl h')
  · exact .inr (.inr (.inl h'))
  · exact .inr (.inr (.inr h'))

theorem alg_find (c : Curve) : (Curve.all.find? fun x => c.alg == x.alg) = some c := by cases c <;> decide +kernel

theorem parseEc_write (optOk : Bytes → Bool) (v : Bytes) (hl : (derTlv 2 [1] ++ derTlv 4 v).length < 2 ^ 32) :
    parseEc optOk (derTlv 0x30 (derTlv 2 [1] ++ derTlv 4 v)) = .ok v := by
  unfold parseEc derSeq
  have h := derField_tlv 0x30 (by decide) (derTlv 2 [1] ++ derTlv 4 v) [] hl
  rw [List.append_nil] at h
  rw [h]
  simp only [if_true]
  rw [u64Field_small 1 (by decide)]
  simp only
  have hv := derTlv_len 4 v
  have h := derField_tlv 4 (by decide) v [] (by rw [List.length_append] at hl; omega)
  rw [List.append_nil] at h
  rw [h]
  simp

/-- The contents of an exported key on a curve. -/
def ecKey (c : Curve) (v : Bytes) : Bytes := if c.keyType = CKK_EC then derTlv 0x30 (derTlv 2 [1] ++ derTlv 4 v) else v

theorem keyType_cases (c : Curve) : c.keyType = CKK_EC ∨ c.keyType = CKK_EC_EDWARDS ∨ c.keyType = CKK_EC_MONTGOMERY := by cases c <;> decide

theorem ecExport_ok {o : Obj} {b : Bytes} {c : Curve} (hc : Spec.OnCurve o c) (h : ecExport o = .ok b) :
    ∃ v, o.getBytes CKA_VALUE = .ok v ∧ b = pkcs8 c.alg (ecKey c v) := by
  obtain ⟨⟨a, ha, hn⟩, hk⟩ := hc
  rw [curveType_eq] at hk
  unfold ecExport at h
  rw [hk] at h
  simp only at h
  split at h
  · cases h
  rename_i c' hc'
  obtain ⟨p, hp, hn'⟩ := curveOf_ok hc'
  obtain ⟨a', ha', hp'⟩ := getBytes_ok hp
  rw [ha] at ha'; injection ha' with ha'
  subst ha'
  rw [hp'] at hn
  have e := names_unique hn' hn
  subst e
  split at h
  · cases h
  rename_i v hv
  refine ⟨v, hv, ?_⟩
  unfold ecKey
  split at h
  · rename_i he
    rw [if_pos he]; injection h with h; exact h.symm
  · rename_i he
    rw [if_neg he]
    rcases keyType_cases c' with h' | h'
    · exact absurd h' he
    · rw [if_pos h'] at h; injection h with h; exact h.symm

/-- The key type a factory imports. -/
def ecKind : FactoryKind → Option Nat
  | .ecPriv => some CKK_EC
  | .edPriv => some CKK_EC_EDWARDS
  | .montPriv => some CKK_EC_MONTGOMERY
  | _ => none

theorem exported_ec {attrsOk optOk : Bytes → Bool} {M : Mechs} {F : Factory} {o : Obj} {b : Bytes} {c : Curve} (hF : ecKind F.kind ≠ none) (hc : Spec.OnCurve o c)
    (hx : exportForWrapping (withPkcs8 attrsOk optOk M) F o = .ok b) : ecExport o = .ok b := by
  have hk := hc.2
  rw [curveType_eq] at hk
  have hne : c.keyType ≠ CKK_RSA := by cases c <;> decide
  have hp : (withPkcs8 attrsOk optOk M).exportPriv o = ecExport o := by simp only [withPkcs8, hk, if_neg hne]
  unfold exportForWrapping at hx
  cases hkind : F.kind <;> rw [hkind] at hF hx <;> first | exact absurd rfl hF | skip
  all_goals
    simp only at hx
    split at hx
    · cases hx
    rw [hk] at hx
    simp only at hx
    split at hx
    · rw [← hp]; exact hx
    · cases hx

theorem ec_read {c : Curve} {v : Bytes} (attrsOk optOk : Bytes → Bool) (pad : Bytes) (hp : ∀ x ∈ pad, x = 0) (hl : (pkcs8 c.alg (ecKey c v)).length < 2 ^ 32) :
    openPkcs8 attrsOk (pkcs8 c.alg (ecKey c v) ++ pad) = .ok (c.alg, ecKey c v) ∧
      ∀ r, (if c.keyType = CKK_EC then (parseEc optOk (ecKey c v)).toRes r else .ok (ecKey c v)) = .ok v := by
  refine ⟨openPkcs8_write attrsOk _ _ pad hp hl, fun r => ?_⟩
  have hk := Nat.lt_trans (pkcs8_key_len c.alg (ecKey c v)) hl
  unfold ecKey at hk ⊢
  by_cases h : c.keyType = CKK_EC
  · rw [if_pos h] at hk
    rw [if_pos h, if_pos h, parseEc_write optOk v]
    · rfl
    · have := derTlv_len 0x30 (derTlv 2 [1] ++ derTlv 4 v)
      omega
  · rw [if_neg h, if_neg h]

theorem ecImport_ok {attrsOk optOk : Bytes → Bool} {o o' : Obj} {kt : Nat} {data : Bytes} {l : List Attr} {c : Curve} {key v : Bytes}
    (ho : openPkcs8 attrsOk data = .ok (c.alg, key)) (hv : ∀ r, (if c.keyType = CKK_EC then (parseEc optOk key).toRes r else .ok key) = .ok v)
    (h : ecImport attrsOk optOk kt o data = .ok l) (he : ensureAll o l = .ok o') :
    kt = c.keyType ∧ (∃ a, o'.find CKA_EC_PARAMS = some a ∧ a.value = derTlv 6 c.oid) ∧ (∃ a, o'.find CKA_VALUE = some a ∧ a.value = v) ∧
      ∃ a, o'.find CKA_KEY_TYPE = some a ∧ a.value = toLE 8 c.keyType := by
  unfold ecImport at h
  split at h
  · cases h
  split at h
  · cases h
  rw [ho] at h
  simp only [Der.toRes] at h
  rw [alg_find] at h
  simp only at h
  split at h
  · cases h
  split at h
  · cases h
  rename_i hk
  have hk := Classical.not_not.1 hk
  subst hk
  have hv' := hv .wrappedKeyInvalid
  simp only [Der.toRes] at hv'
  rw [hv'] at h
  simp only at h
  injection h with h
  subst h
  have := ensureAll_has he
  exact ⟨rfl, this _ (.tail _ (.tail _ (.head _))), this _ (.tail _ (.tail _ (.tail _ (.head _)))), this _ (.tail _ (.head _))⟩

theorem importWrapped_ec {attrsOk optOk : Bytes → Bool} {M : Mechs} {F : Factory} {uid data : Bytes} {tm : Template} {o' : Obj} {kt : Nat} (hF : ecKind F.kind = some kt)
    (h : importWrapped (withPkcs8 attrsOk optOk M) uid F data tm = .ok o') :
    ∃ o0 l, keyUnwrap F uid tm = .ok o0 ∧ ecImport attrsOk optOk kt o0 data = .ok l ∧ ensureAll o0 l = .ok o' := by
  unfold importWrapped at h
  cases hkind : F.kind <;> rw [hkind] at hF h <;> first | (cases hF; done) | skip
  all_goals
    simp only at h
    split at h
    · cases h
    rename_i o0 h0
    split at h
    · cases h
    rename_i l hl
    refine ⟨o0, l, h0, ?_, h⟩
    injection hF with hF
    subst hF
    exact hl

/-- **C76 (value and curve).**  A private key on a curve was exported for wrapping and the data, possibly followed by zero bytes, is imported with some template: the
new object has the same private value byte for byte, the same curve, and the key type of the curve. -/
theorem C76_back (attrsOk optOk : Bytes → Bool) (M : Mechs) (F F' : Factory) (o o' : Obj) (c : Curve) (b pad uid : Bytes) (tm : Template) (hF : ecKind F.kind ≠ none)
    (hF' : ecKind F'.kind ≠ none) (hc : Spec.OnCurve o c) (hx : exportForWrapping (withPkcs8 attrsOk optOk M) F o = .ok b) (hl : b.length < 2 ^ 32) (hp : ∀ x ∈ pad, x = 0)
    (hi : importWrapped (withPkcs8 attrsOk optOk M) uid F' (b ++ pad) tm = .ok o') :
    (∃ a a', o.find CKA_VALUE = some a ∧ o'.find CKA_VALUE = some a' ∧ a'.value = a.value) ∧
      (∃ a, o'.find CKA_EC_PARAMS = some a ∧ Spec.Names c a.value ∧ a.value = derTlv 6 c.oid) ∧
      ∃ a, o'.find CKA_KEY_TYPE = some a ∧ a.value = toLE 8 (Spec.curveType c) := by
  obtain ⟨v, hv, rfl⟩ := ecExport_ok hc (exported_ec hF hc hx)
  cases hkt : ecKind F'.kind with
  | none => exact absurd hkt hF'
  | some kt =>
    obtain ⟨o0, l, _, h1, h2⟩ := importWrapped_ec hkt hi
    obtain ⟨r1, r2⟩ := ec_read attrsOk optOk pad hp hl
    obtain ⟨_, ⟨p, hp1, hp2⟩, ⟨a', ha', hav'⟩, hk⟩ := ecImport_ok r1 r2 h1 h2
    obtain ⟨a, ha, hav⟩ := getBytes_ok hv
    exact ⟨⟨a, a', ha, ha', by rw [hav', hav]⟩, ⟨p, hp1, .inl hp2, hp2⟩, by rw [curveType_eq]; exact hk⟩

/-- Data of a key on one curve is refused by the factory of another key type. -/
theorem C76_type (attrsOk optOk : Bytes → Bool) (M : Mechs) (F F' : Factory) (o : Obj) (c : Curve) (b pad uid : Bytes) (tm : Template) (hF : ecKind F.kind ≠ none)
    (hF' : ecKind F'.kind ≠ none) (hne : ecKind F'.kind ≠ some c.keyType) (hc : Spec.OnCurve o c) (hx : exportForWrapping (withPkcs8 attrsOk optOk M) F o = .ok b)
    (hl : b.length < 2 ^ 32) (hp : ∀ x ∈ pad, x = 0) : ∀ o', importWrapped (withPkcs8 attrsOk optOk M) uid F' (b ++ pad) tm ≠ .ok o' := by
  intro o' hi
  obtain ⟨v, hv, rfl⟩ := ecExport_ok hc (exported_ec hF hc hx)
  cases hkt : ecKind F'.kind with
  | none => exact absurd hkt hF'
  | some kt =>
    obtain ⟨o0, l, _, h1, h2⟩ := importWrapped_ec hkt hi
    obtain ⟨r1, r2⟩ := ec_read attrsOk optOk pad hp hl
    exact hne (by rw [hkt, (ecImport_ok r1 r2 h1 h2).1])

theorem ec_nodef : allFactories (fun F => (ecKind F.kind).isNone || F.attrs.all fun f => !(f.hasDefault && [CKA_EC_PARAMS, CKA_VALUE].contains f.typ)) = true := by decide +kernel

theorem unwrap_without_ec {F : Factory} {k : Nat × Nat} (hF : (k, F) ∈ registry) (hkind : ecKind F.kind ≠ none) {uid : Bytes} {tm : Template} {o : Obj}
    (h : keyUnwrap F uid tm = .ok o) {t : Nat} (ht : t ∈ [CKA_EC_PARAMS, CKA_VALUE]) (htm : ∀ c ∈ tm, c.typ ≠ t) : o.find t = none := by
  unfold keyUnwrap internalKeyCreate at h
  split at h
  · cases h
  rename_i o0 h0
  injection h with h
  have hv := C15_values F k hF tm _ _ o0 h0 t
  have ht' : t ≠ CKA_CLASS ∧ t ≠ CKA_UNIQUE_ID := by
    have : ∀ t ∈ [CKA_EC_PARAMS, CKA_VALUE], t ≠ CKA_CLASS ∧ t ≠ CKA_UNIQUE_ID := by decide
    exact this t ht
  rw [← h, find_generateUnique, if_neg ht'.2]
  rw [value_eq] at hv
  cases hf : o0.find t with
  | none => rfl
  | some a =>
    rw [hf] at hv
    generalize hg : (Option.map Attr.value (some a)) = v at hv
    cases hv with
    | cls e => exact absurd e ht'.1
    | given c _ _ _ hc hct => exact absurd hct (htm c hc)
    | default f _ hfm hft hd =>
      have := allFactories_spec ec_nodef hF
      rw [Bool.or_eq_true] at this
      rcases this with this | this
      · exact absurd (Option.isNone_iff_eq_none.1 this) hkind
      rw [List.all_eq_true] at this
      have := this f hfm
      rw [hft, hd] at this
      simp only [Bool.true_and, Bool.not_eq_true'] at this
      rw [List.contains_iff_mem.2 ht] at this
      cases this
    | absent => cases hg

/-- **C76 (success).**  When the template is accepted, names a private key of the type of the curve, and neither parameters nor value, import of the exported data
succeeds. -/
theorem C76_succeeds (attrsOk optOk : Bytes → Bool) (M : Mechs) (F F' : Factory) (k : Nat × Nat) (o o0 : Obj) (c : Curve) (b pad uid : Bytes) (tm : Template)
    (hF : ecKind F.kind ≠ none) (hreg : (k, F') ∈ registry) (hF' : ecKind F'.kind = some c.keyType) (hc : Spec.OnCurve o c)
    (hx : exportForWrapping (withPkcs8 attrsOk optOk M) F o = .ok b) (hl : b.length < 2 ^ 32) (hp : ∀ x ∈ pad, x = 0)
    (h0 : keyUnwrap F' uid tm = .ok o0) (hcl : o0.getUlong CKA_CLASS = .ok CKO_PRIVATE_KEY) (hkt : o0.getUlong CKA_KEY_TYPE = .ok c.keyType)
    (htm : ∀ c ∈ tm, c.typ ≠ CKA_EC_PARAMS ∧ c.typ ≠ CKA_VALUE) :
    ∃ o', importWrapped (withPkcs8 attrsOk optOk M) uid F' (b ++ pad) tm = .ok o' := by
  obtain ⟨v, hv, rfl⟩ := ecExport_ok hc (exported_ec hF hc hx)
  obtain ⟨r1, r2⟩ := ec_read attrsOk optOk pad hp hl
  have hne : ecKind F'.kind ≠ none := by rw [hF']; exact fun h => by cases h
  have a1 : o0.find CKA_EC_PARAMS = none := unwrap_without_ec hreg hne h0 (.head _) fun c hc => (htm c hc).1
  have a2 : o0.find CKA_VALUE = none := unwrap_without_ec hreg hne h0 (.tail _ (.head _)) fun c hc => (htm c hc).2
  obtain ⟨o1, e1, _⟩ := ensureAll_absent (l := [Attr.ofBytes CKA_EC_PARAMS (derTlv 6 c.oid)]) (o := o0) (by simp) (by
    intro a ha; rw [List.mem_singleton.1 ha]; exact a1)
  have himp : ecImport attrsOk optOk c.keyType o0 (pkcs8 c.alg (ecKey c v) ++ pad) =
      .ok [Attr.ofUlong CKA_CLASS CKO_PRIVATE_KEY, Attr.ofUlong CKA_KEY_TYPE c.keyType, Attr.ofBytes CKA_EC_PARAMS (derTlv 6 c.oid), Attr.ofBytes CKA_VALUE v] := by
    unfold ecImport
    rw [ensureUlong_same hcl]
    simp only
    rw [ensureUlong_same hkt]
    simp only
    rw [r1]
    have := r2 .wrappedKeyInvalid
    simp only [Der.toRes] at this ⊢
    rw [alg_find]
    simp only
    rw [e1]
    simp only
    rw [if_neg (fun h => h rfl), this]
  obtain ⟨o', h1, _⟩ := ensureAll_absent (l := [Attr.ofBytes CKA_EC_PARAMS (derTlv 6 c.oid), Attr.ofBytes CKA_VALUE v]) (o := o0)
    (by show [CKA_EC_PARAMS, CKA_VALUE].Nodup; decide) (by
    intro a ha
    rcases List.mem_cons.1 ha with h | h
    · rw [h]; exact a1
    · rw [List.mem_singleton.1 h]; exact a2)
  refine ⟨o', ?_⟩
  have done : (match ecImport attrsOk optOk c.keyType o0 (pkcs8 c.alg (ecKey c v) ++ pad) with | .error r => .error r | .ok l => ensureAll o0 l) = (.ok o' : Res Obj) := by
    rw [himp]
    simp only
    rw [ensureAll_skip hcl, ensureAll_skip hkt]
    exact h1
  unfold importWrapped
  cases hkind : F'.kind <;> rw [hkind] at hF' <;> first | (cases hF'; done) | skip
  all_goals
    injection hF' with hF'
    simp only
    rw [h0]
    simp only [withPkcs8]
    rw [hF']
    exact done

/-! ## Keys -/

def exEcObj (kt : Nat) (params v : Bytes) : Obj :=
  { attrs := [Attr.ofUlong CKA_CLASS CKO_PRIVATE_KEY, Attr.ofUlong CKA_KEY_TYPE kt, Attr.ofBool CKA_EXTRACTABLE true, Attr.ofBytes CKA_EC_PARAMS params, Attr.ofBytes CKA_VALUE v],
    cls := CKO_PRIVATE_KEY, handle := 1, session := 1 }

def exEcTmpl (kt : Nat) : Template := [.ofUlong CKA_CLASS CKO_PRIVATE_KEY, .ofUlong CKA_KEY_TYPE kt, .ofBool CKA_SIGN true]

def exEcF : Factory := ⟨.ecPriv, CKO_PRIVATE_KEY, ecPrivAttrs⟩

def exEdF : Factory := ⟨.edPriv, CKO_PRIVATE_KEY, edPrivAttrs⟩

/-- A P-256 key of 32 bytes whose parameters are the name of the curve. -/
def exP256 : Obj := exEcObj CKK_EC (derTlv 0x13 Curve.p256.names) (0 :: List.replicate 31 9)

def exEcBlob : Bytes := match exportForWrapping exPkcs8 exEcF exP256 with | .ok b => b | .error _ => []

def ecImported (F : Factory) (kt : Nat) (data : Bytes) (t : Nat) : Option Bytes :=
  match importWrapped exPkcs8 exUid F data (exEcTmpl kt) with
  | .ok o => (o.find t).map Attr.value
  | .error _ => none

example : Spec.OnCurve exP256 .p256 := ⟨⟨_, rfl, .inr rfl⟩, rfl⟩

/-- The hypotheses of C76_back, C76_succeeds and C76_type are met. -/
example : ((CKO_PRIVATE_KEY, CKK_EC), exEcF) ∈ registry ∧ ((CKO_PRIVATE_KEY, CKK_EC_EDWARDS), exEdF) ∈ registry ∧
    exportForWrapping exPkcs8 exEcF exP256 = .ok exEcBlob ∧ exEcBlob.length = 67 ∧ ecKind exEcF.kind = some Curve.p256.keyType ∧
    isOk (keyUnwrap exEcF exUid (exEcTmpl CKK_EC)) = true ∧ (okObj (keyUnwrap exEcF exUid (exEcTmpl CKK_EC))).getUlong CKA_CLASS = .ok CKO_PRIVATE_KEY ∧
    (okObj (keyUnwrap exEcF exUid (exEcTmpl CKK_EC))).getUlong CKA_KEY_TYPE = .ok CKK_EC ∧
    ecImported exEcF CKK_EC (exEcBlob ++ [0]) CKA_VALUE = some (0 :: List.replicate 31 9) ∧
    ecImported exEcF CKK_EC (exEcBlob ++ [0]) CKA_EC_PARAMS = some (derTlv 6 Curve.p256.oid) ∧
    ecImported exEdF CKK_EC_EDWARDS exEcBlob CKA_VALUE = none := by decide +kernel

/-! ## What the code does not do -/

/-- The private key of RFC 8410, section 10.3: an OCTET STRING inside the OCTET STRING. -/
def rfc8410 : Bytes := pkcs8 Curve.ed25519.alg (derTlv 4 (List.replicate 32 0xd4))

/-- An Ed25519 key in the encoding of RFC 8410 is accepted with a private value of 34 bytes, tag and length included: not the key that was encoded. -/
theorem C76_rfc8410_violation : ecImported exEdF CKK_EC_EDWARDS rfc8410 CKA_VALUE = some (4 :: 32 :: List.replicate 32 0xd4) := by decide +kernel

/-- And the encoding made for wrapping an Ed25519 key is not that of RFC 8410. -/
theorem C76_rfc8410_export_violation :
    exportForWrapping exPkcs8 exEdF (exEcObj CKK_EC_EDWARDS (derTlv 6 Curve.ed25519.oid) (List.replicate 32 0xd4)) = .ok (pkcs8 Curve.ed25519.alg (List.replicate 32 0xd4)) ∧
    pkcs8 Curve.ed25519.alg (List.replicate 32 0xd4) ≠ rfc8410 := by decide +kernel

/-- A value of no bytes is accepted for a P-256 key. -/
theorem C76_length_violation : ecImported exEcF CKK_EC (pkcs8 Curve.p256.alg (ecKey .p256 [])) CKA_VALUE = some [] := by decide +kernel

end Kry
