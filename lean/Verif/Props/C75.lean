import Verif.Proofs.Der
import Verif.Props.C19
import Verif.Props.C48

/-! C75: an RSA private key that is wrapped and unwrapped is the same key.

The wrapped data is a PKCS#8 PrivateKeyInfo (DER).  The numbers of the key come back, without leading zeros, whatever the template; the public key information of
the new object is computed from them.  The code has no defence against numbers without bytes: it panics. -/

namespace Kry

namespace Spec

/-- The number an attribute holds, written with the most significant byte first. -/
def bigNum (o : Obj) (t : Nat) : Option Nat := (o.find t).map fun a => fromBE a.value

/-- The value starts with a byte that is not zero (or is empty: the number 0). -/
def unpadded (o : Obj) (t : Nat) : Prop := ∀ a, o.find t = some a → ∀ r, a.value ≠ 0 :: r

end Spec

theorem Attr.toBytes_ok {a : Attr} {v : Bytes} (h : a.toBytes = .ok v) : a.value = v := by
  unfold Attr.toBytes at h
  repeat' split at h
  all_goals first | (cases h; done) | (injection h)

theorem getBytes_ok {o : Obj} {t : Nat} {v : Bytes} (h : o.getBytes t = .ok v) : ∃ a, o.find t = some a ∧ a.value = v := by
  unfold Obj.getBytes at h
  split at h
  · cases h
  · rename_i a ha
    exact ⟨a, ha, Attr.toBytes_ok h⟩

/-- After `ensureAll` every attribute of the list is there. -/
theorem ensureAll_has {l : List Attr} {o o' : Obj} (h : ensureAll o l = .ok o') : ∀ a ∈ l, ∃ b, o'.find a.typ = some b ∧ b.value = a.value := by
  induction l generalizing o with
  | nil => intro a ha; cases ha
  | cons x l ih =>
    intro a ha
    unfold ensureAll at h
    split at h
    · rename_i b hb
      split at h
      · cases h
      · rename_i hv
        cases ha with
        | head => exact ⟨b, find_ensureAll h hb, Classical.not_not.1 hv⟩
        | tail _ ha => exact ih h a ha
    · rename_i hb
      cases ha with
      | head =>
        refine ⟨x, find_ensureAll h ?_, rfl⟩
        rw [find_push, hb]; simp
      | tail _ ha => exact ih h a ha

/-- Attributes that are not there yet can be ensured. -/
theorem ensureAll_absent {l : List Attr} {o : Obj} (hn : (l.map Attr.typ).Nodup) (ha : ∀ a ∈ l, o.find a.typ = none) :
    ∃ o', ensureAll o l = .ok o' ∧ (∀ t, t ∉ l.map Attr.typ → o'.find t = o.find t) ∧ ∀ a ∈ l, o'.find a.typ = some a := by
  induction l generalizing o with
  | nil => exact ⟨o, rfl, fun _ _ => rfl, fun a h => by cases h⟩
  | cons x l ih =>
    rw [List.map_cons, List.nodup_cons] at hn
    have hx : o.find x.typ = none := ha x (.head _)
    obtain ⟨o', h1, h2, h3⟩ := ih (o := o.push x) hn.2 (by
      intro a h
      have hne : x.typ ≠ a.typ := fun he => hn.1 (he ▸ List.mem_map_of_mem h)
      rw [find_push, ha a (.tail _ h), if_neg hne]; rfl)
    refine ⟨o', ?_, ?_, ?_⟩
    · unfold ensureAll; rw [hx]; exact h1
    · intro t ht
      rw [List.map_cons, List.mem_cons, not_or] at ht
      rw [h2 t ht.2, find_push, if_neg (fun he => ht.1 he.symm)]
      cases o.find t <;> rfl
    · intro a h
      cases h with
      | head => rw [h2 _ hn.1, find_push, hx]; simp
      | tail _ h => exact h3 a h

theorem getAll_map {o : Obj} {ts : List Nat} {vs : List Bytes} (h : getAll o ts = .ok vs) : vs.length = ts.length ∧ ∀ p ∈ ts.zip vs, o.getBytes p.1 = .ok p.2 := by
  induction ts generalizing vs with
  | nil => injection h with h; subst h; exact ⟨rfl, fun p hp => by cases hp⟩
  | cons t ts ih =>
    unfold getAll at h
    split at h
    · cases h
    · rename_i v hv
      split at h
      · cases h
      · rename_i l hl
        injection h with h; subst h
        obtain ⟨h1, h2⟩ := ih hl
        refine ⟨by rw [List.length_cons, List.length_cons, h1], ?_⟩
        intro p hp
        rw [List.zip_cons_cons] at hp
        cases hp with
        | head => exact hv
        | tail _ hp => exact h2 p hp

theorem derUints_map {vs ds : List Bytes} (h : derUints vs = .ok ds) : ds.length = vs.length ∧ (∀ d ∈ ds, bigUintOk d = true) ∧ ds.map nopad = vs.map nopad := by
  induction vs generalizing ds with
  | nil => injection h with h; subst h; exact ⟨rfl, fun d hd => (by cases hd), rfl⟩
  | cons v vs ih =>
    unfold derUints at h
    split at h
    · cases h
    · rename_i d hd
      split at h
      · cases h
      · rename_i l hl
        injection h with h; subst h
        obtain ⟨h1, h2, h3⟩ := ih hl
        obtain ⟨f1, _, f3⟩ := derUint_facts hd
        refine ⟨by rw [List.length_cons, List.length_cons, h1], ?_, by rw [List.map_cons, List.map_cons, h3, f3]⟩
        intro x hx
        cases hx with
        | head => exact f1
        | tail _ hx => exact h2 x hx

theorem zip_nopad : ∀ (ts : List Nat) (ds vs : List Bytes), ds.map nopad = vs.map nopad →
    ((ts.zip ds).map fun p => Attr.ofBytes p.1 (nopad p.2)) = (ts.zip vs).map fun p => Attr.ofBytes p.1 (nopad p.2) := by
  intro ts
  induction ts with
  | nil => intro ds vs _; rfl
  | cons t ts ih =>
    intro ds vs h
    cases ds with
    | nil => cases vs with
      | nil => rfl
      | cons v vs => cases h
    | cons d ds => cases vs with
      | nil => cases h
      | cons v vs =>
        rw [List.map_cons, List.map_cons] at h
        injection h with h1 h2
        rw [List.zip_cons_cons, List.zip_cons_cons, List.map_cons, List.map_cons, ih ds vs h2, h1]

/-- The attributes made from the components of a key. -/
def rsaAttrs (vs : List Bytes) : List Attr := (rsaTypes.zip vs).map fun p => Attr.ofBytes p.1 (nopad p.2)

/-- What an exported key contains. -/
theorem rsaExport_ok {o : Obj} {b : Bytes} (h : rsaExport o = .ok b) :
    ∃ vs ds, vs.length = 8 ∧ (∀ p ∈ rsaTypes.zip vs, o.getBytes p.1 = .ok p.2) ∧ derUints vs = .ok ds ∧
      b = pkcs8 rsaAlg (derTlv 0x30 (derTlv 2 [0] ++ (ds.map derInt).flatten)) := by
  unfold rsaExport at h
  split at h
  · cases h
  · rename_i vs hvs
    split at h
    · cases h
    · rename_i ds hds
      injection h with h
      obtain ⟨h1, h2⟩ := getAll_map hvs
      exact ⟨vs, ds, h1, h2, hds, h.symm⟩

theorem pkcs8_key_len (alg key : Bytes) : key.length < (pkcs8 alg key).length := by
  unfold pkcs8
  have h1 := derTlv_len 4 key
  have h2 := derTlv_len 0x30 (derTlv 2 [0] ++ (derTlv 0x30 alg ++ derTlv 4 key))
  simp only [List.length_append] at h2 ⊢
  omega

/-- Reading what was exported. -/
theorem rsa_read {o : Obj} {b : Bytes} (h : rsaExport o = .ok b) (hl : b.length < 2 ^ 32) (attrsOk : Bytes → Bool) (pad : Bytes) (hp : ∀ x ∈ pad, x = 0) :
    ∃ vs ds, vs.length = 8 ∧ (∀ p ∈ rsaTypes.zip vs, o.getBytes p.1 = .ok p.2) ∧ ds.map nopad = vs.map nopad ∧
      ∃ key, openPkcs8 attrsOk (b ++ pad) = .ok (rsaAlg, key) ∧ parseRsa key = .ok ds := by
  obtain ⟨vs, ds, h1, h2, h3, h4⟩ := rsaExport_ok h
  obtain ⟨g1, g2, g3⟩ := derUints_map h3
  subst h4
  have hk := pkcs8_key_len rsaAlg (derTlv 0x30 (derTlv 2 [0] ++ (ds.map derInt).flatten))
  have hb := derTlv_len 0x30 (derTlv 2 [0] ++ (ds.map derInt).flatten)
  exact ⟨vs, ds, h1, h2, g3, _, openPkcs8_write attrsOk _ _ pad hp hl, parseRsa_write ds (by rw [g1, h1]) g2 (by omega)⟩

/-- What import makes of it. -/
theorem rsaImport_ok {attrsOk : Bytes → Bool} {o o' : Obj} {data : Bytes} {l : List Attr} {key : Bytes} {ds : List Bytes} (ho : openPkcs8 attrsOk data = .ok (rsaAlg, key))
    (hr : parseRsa key = .ok ds) (h : rsaImport attrsOk o data = .ok l) (he : ensureAll o l = .ok o') :
    (∀ a ∈ (rsaTypes.zip ds).map fun p => Attr.ofBytes p.1 (nopad p.2), ∃ b, o'.find a.typ = some b ∧ b.value = a.value) ∧
      ∃ n e info, (∀ a ∈ (rsaTypes.zip ds).map fun p => Attr.ofBytes p.1 (nopad p.2), (a.typ = CKA_MODULUS → a.value = n) ∧ (a.typ = CKA_PUBLIC_EXPONENT → a.value = e)) ∧
        rsaSpkiDer n e = .ok info ∧ ∃ b, o'.find CKA_PUBLIC_KEY_INFO = some b ∧ b.value = info := by
  unfold rsaImport at h
  split at h
  · cases h
  split at h
  · cases h
  rw [ho] at h
  simp only [Der.toRes, ne_eq, not_true_eq_false, if_false, hr] at h
  split at h
  · cases h
  rename_i o2 h2
  split at h
  · cases h
  rename_i n hn
  split at h
  · cases h
  rename_i e hm
  split at h
  · cases h
  rename_i info hi
  injection h with h
  subst h
  have := ensureAll_has he
  obtain ⟨x, hx, hxv⟩ := getBytes_ok hn
  obtain ⟨y, hy, hyv⟩ := getBytes_ok hm
  refine ⟨fun a ha => this a (.tail _ (.tail _ (List.mem_append_left _ ha))), n, e, info, fun a ha => ⟨fun ht => ?_, fun ht => ?_⟩, hi, ?_⟩
  · obtain ⟨b, hb, hv⟩ := ensureAll_has h2 a ha
    rw [ht, hx] at hb; injection hb with hb
    rw [← hv, ← hb, hxv]
  · obtain ⟨b, hb, hv⟩ := ensureAll_has h2 a ha
    rw [ht, hy] at hb; injection hb with hb
    rw [← hv, ← hb, hyv]
  exact this (Attr.ofBytes CKA_PUBLIC_KEY_INFO info) (.tail _ (.tail _ (List.mem_append_right _ (.head _))))

/-- Components of an object and of the object made from it agree. -/
def sameRsa (o o' : Obj) : Prop := ∀ t ∈ rsaTypes, (∃ n, Spec.bigNum o t = some n) ∧ Spec.bigNum o' t = Spec.bigNum o t ∧ Spec.unpadded o' t

theorem nopad_unpadded (v r : Bytes) : nopad v ≠ 0 :: r := fun h => nopad_head v 0 r h rfl

theorem zip_mem : ∀ {ts : List Nat} {vs : List Bytes} {t : Nat}, t ∈ ts → vs.length = ts.length → ∃ v, (t, v) ∈ ts.zip vs := by
  intro ts
  induction ts with
  | nil => intro vs t h; cases h
  | cons x ts ih =>
    intro vs t h hl
    cases vs with
    | nil => cases hl
    | cons v vs =>
      rw [List.zip_cons_cons]
      cases h with
      | head => exact ⟨v, .head _⟩
      | tail _ h =>
        obtain ⟨w, hw⟩ := ih h (by simpa using hl)
        exact ⟨w, .tail _ hw⟩

theorem rsa_same {o o' : Obj} {vs : List Bytes} (h8 : vs.length = 8) (hv : ∀ p ∈ rsaTypes.zip vs, o.getBytes p.1 = .ok p.2)
    (h : ∀ a ∈ rsaAttrs vs, ∃ b, o'.find a.typ = some b ∧ b.value = a.value) : sameRsa o o' := by
  intro t ht
  obtain ⟨v, hm⟩ := zip_mem ht (vs := vs) (by rw [h8]; rfl)
  obtain ⟨a, ha, hav⟩ := getBytes_ok (hv _ hm)
  obtain ⟨b, hb, hbv⟩ := h (Attr.ofBytes t (nopad v)) (List.mem_map.2 ⟨(t, v), hm, rfl⟩)
  have hb' : o'.find t = some b := hb
  have hbv' : b.value = nopad v := hbv
  simp only at ha
  refine ⟨⟨fromBE a.value, by rw [Spec.bigNum, ha]; rfl⟩, ?_, ?_⟩
  · rw [Spec.bigNum, Spec.bigNum, ha, hb']
    show some (fromBE b.value) = some (fromBE a.value)
    rw [hbv', nopad_num, hav]
  · intro x hx r
    rw [hb'] at hx; injection hx with hx
    rw [← hx, hbv']
    exact nopad_unpadded v r

/-- The bytes of the public key information: an RSA SubjectPublicKeyInfo with these numbers, in DER. -/
def isSpki (n e : Nat) (b : Bytes) : Prop :=
  ∃ x y, bigUintOk x = true ∧ bigUintOk y = true ∧ fromBE x = n ∧ fromBE y = e ∧
    b = derTlv 0x30 (derTlv 0x30 rsaAlg ++ derTlv 3 (0 :: derTlv 0x30 (derTlv 2 x ++ derTlv 2 y)))

theorem rsaSpkiDer_ok {n e info : Bytes} (h : rsaSpkiDer n e = .ok info) : isSpki (fromBE n) (fromBE e) info := by
  unfold rsaSpkiDer at h
  split at h
  · cases h
  rename_i ds hds
  injection h with h
  unfold derUints at hds
  split at hds
  · cases hds
  rename_i x hx
  split at hds
  · cases hds
  rename_i l hl
  injection hds with hds
  unfold derUints at hl
  split at hl
  · cases hl
  rename_i y hy
  simp only [derUints] at hl
  injection hl with hl
  subst hl; subst hds
  refine ⟨x, y, (derUint_facts hx).1, (derUint_facts hy).1, (derUint_facts hx).2.1, (derUint_facts hy).2.1, ?_⟩
  rw [← h]
  simp [derInt]

theorem exported_rsa {attrsOk optOk : Bytes → Bool} {M : Mechs} {F : Factory} {o : Obj} {b : Bytes} (hF : F.kind = .rsaPriv)
    (hx : exportForWrapping (withPkcs8 attrsOk optOk M) F o = .ok b) : rsaExport o = .ok b := by
  unfold exportForWrapping at hx
  rw [hF] at hx
  simp only at hx
  split at hx
  · cases hx
  rename_i hc
  have hk : o.getUlong CKA_KEY_TYPE = .ok CKK_RSA := by
    unfold Obj.checkKeyOps at hc
    split at hc
    · cases hc
    split at hc
    · cases hc
    simp only at hc
    rw [if_pos (by decide)] at hc
    split at hc
    · cases hc
    rename_i he
    split at he
    · cases he
    rename_i k hk
    split at he
    · cases he
    rename_i hne
    rw [hk, Classical.not_not.1 hne]
  simp only [withPkcs8, hk, if_true] at hx
  exact hx

/-- The PrivateKeyInfo (RFC 5208) of an RSA key (RFC 8017, A.1.2) with these numbers: versions 0, algorithm rsaEncryption with NULL, two-prime key. -/
def Spec.isRsaInfo (nums : List Nat) (b : Bytes) : Prop :=
  ∃ xs : List Bytes, xs.map fromBE = nums ∧ (∀ x ∈ xs, bigUintOk x = true) ∧
    b = derTlv 0x30 ([2, 1, 0] ++ (derTlv 0x30 [0x06, 0x09, 0x2a, 0x86, 0x48, 0x86, 0xf7, 0x0d, 0x01, 0x01, 0x01, 0x05, 0x00] ++
      derTlv 4 (derTlv 0x30 ([2, 1, 0] ++ (xs.map (derTlv 2)).flatten))))

/-- **C75 (encoding).**  The exported data is the PrivateKeyInfo of the key's numbers in the order of RFC 8017. -/
theorem C75_encoding (attrsOk optOk : Bytes → Bool) (M : Mechs) (F : Factory) (o : Obj) (b : Bytes) (hF : F.kind = .rsaPriv)
    (hx : exportForWrapping (withPkcs8 attrsOk optOk M) F o = .ok b) :
    ∃ n e d p q dp dq qi, Spec.bigNum o CKA_MODULUS = some n ∧ Spec.bigNum o CKA_PUBLIC_EXPONENT = some e ∧ Spec.bigNum o CKA_PRIVATE_EXPONENT = some d ∧
      Spec.bigNum o CKA_PRIME_1 = some p ∧ Spec.bigNum o CKA_PRIME_2 = some q ∧ Spec.bigNum o CKA_EXPONENT_1 = some dp ∧ Spec.bigNum o CKA_EXPONENT_2 = some dq ∧
      Spec.bigNum o CKA_COEFFICIENT = some qi ∧ Spec.isRsaInfo [n, e, d, p, q, dp, dq, qi] b := by
  obtain ⟨vs, ds, h1, h2, h3, h4⟩ := rsaExport_ok (exported_rsa hF hx)
  obtain ⟨g1, g2, g3⟩ := derUints_map h3
  have hb : ∀ t v, (t, v) ∈ rsaTypes.zip vs → Spec.bigNum o t = some (fromBE v) := by
    intro t v hm
    obtain ⟨a, ha, hv⟩ := getBytes_ok (h2 (t, v) hm)
    unfold Spec.bigNum
    rw [ha]
    exact congrArg (fun x => some (fromBE x)) hv
  have hfrom : ds.map fromBE = vs.map fromBE := by
    have := congrArg (List.map fromBE) g3
    rw [List.map_map, List.map_map] at this
    have hf : (fromBE ∘ nopad) = fromBE := funext fun x => by simp [nopad_num]
    rwa [hf] at this
  match vs, h1, hb, hfrom with
  | [v1, v2, v3, v4, v5, v6, v7, v8], _, hb, hfrom =>
    refine ⟨_, _, _, _, _, _, _, _, hb _ v1 ?_, hb _ v2 ?_, hb _ v3 ?_, hb _ v4 ?_, hb _ v5 ?_, hb _ v6 ?_, hb _ v7 ?_, hb _ v8 ?_, ds, hfrom, g2, ?_⟩
    · simp [rsaTypes]
    · simp [rsaTypes]
    · simp [rsaTypes]
    · simp [rsaTypes]
    · simp [rsaTypes]
    · simp [rsaTypes]
    · simp [rsaTypes]
    · simp [rsaTypes]
    · rw [h4]; rfl

/-- **C75 (numbers).**  An RSA private key was exported for wrapping and the data, possibly followed by zero bytes, is imported with some template: the new object
has the eight numbers of the key, none with leading zeros, and the public key information is the DER of its public numbers.  (Data shorter than 4 GiB.) -/
theorem C75_back (attrsOk optOk : Bytes → Bool) (M : Mechs) (F F' : Factory) (o o' : Obj) (b pad uid : Bytes) (tm : Template) (hF : F.kind = .rsaPriv) (hF' : F'.kind = .rsaPriv)
    (hx : exportForWrapping (withPkcs8 attrsOk optOk M) F o = .ok b) (hl : b.length < 2 ^ 32) (hp : ∀ x ∈ pad, x = 0)
    (hi : importWrapped (withPkcs8 attrsOk optOk M) uid F' (b ++ pad) tm = .ok o') :
    sameRsa o o' ∧ ∃ n e a, Spec.bigNum o CKA_MODULUS = some n ∧ Spec.bigNum o CKA_PUBLIC_EXPONENT = some e ∧ o'.find CKA_PUBLIC_KEY_INFO = some a ∧ isSpki n e a.value := by
  have hb : rsaExport o = .ok b := exported_rsa hF hx
  obtain ⟨vs, ds, h8, hv, hmap, key, ho, hr⟩ := rsa_read hb hl attrsOk pad hp
  unfold importWrapped at hi
  rw [hF'] at hi
  simp only at hi
  split at hi
  · cases hi
  rename_i o0 _
  split at hi
  · cases hi
  rename_i l hl
  have hl' : rsaImport attrsOk o0 (b ++ pad) = .ok l := hl
  obtain ⟨h1, n, e, info, h2, h3, h4⟩ := rsaImport_ok ho hr hl' hi
  rw [zip_nopad rsaTypes ds vs hmap] at h1 h2
  have same := rsa_same h8 hv h1
  refine ⟨same, ?_⟩
  obtain ⟨a, ha, hav⟩ := h4
  have num : ∀ t ∈ rsaTypes, ∀ v, (t, v) ∈ rsaTypes.zip vs → Spec.bigNum o t = some (fromBE (nopad v)) := by
    intro t _ v hm
    obtain ⟨a, ha, hav⟩ := getBytes_ok (hv _ hm)
    rw [Spec.bigNum, ha]
    show some (fromBE a.value) = _
    rw [hav, nopad_num]
  obtain ⟨v0, m0⟩ := zip_mem (t := CKA_MODULUS) (ts := rsaTypes) (vs := vs) (.head _) (by rw [h8]; rfl)
  obtain ⟨v1, m1⟩ := zip_mem (t := CKA_PUBLIC_EXPONENT) (ts := rsaTypes) (vs := vs) (.tail _ (.head _)) (by rw [h8]; rfl)
  have e0 : nopad v0 = n := (h2 _ (List.mem_map.2 ⟨_, m0, rfl⟩)).1 rfl
  have e1 : nopad v1 = e := (h2 _ (List.mem_map.2 ⟨_, m1, rfl⟩)).2 rfl
  refine ⟨fromBE n, fromBE e, a, ?_, ?_, ha, ?_⟩
  · rw [num _ (.head _) _ m0, e0]
  · rw [num _ (.tail _ (.head _)) _ m1, e1]
  · rw [hav]; exact rsaSpkiDer_ok h3

theorem rsa_nodef : allFactories (fun F => F.attrs.all fun f => !(f.hasDefault && (CKA_PUBLIC_KEY_INFO :: rsaTypes).contains f.typ)) = true := by decide +kernel

/-- A template that names none of the components makes an object without them. -/
theorem unwrap_without {F : Factory} {k : Nat × Nat} (hF : (k, F) ∈ registry) {uid : Bytes} {tm : Template} {o : Obj} (h : keyUnwrap F uid tm = .ok o)
    {t : Nat} (ht : t ∈ CKA_PUBLIC_KEY_INFO :: rsaTypes) (htm : ∀ c ∈ tm, c.typ ≠ t) : o.find t = none := by
  unfold keyUnwrap internalKeyCreate at h
  split at h
  · cases h
  rename_i o0 h0
  injection h with h
  have hv := C15_values F k hF tm _ _ o0 h0 t
  have ht' : t ≠ CKA_CLASS ∧ t ≠ CKA_UNIQUE_ID := by
    have : ∀ t ∈ CKA_PUBLIC_KEY_INFO :: rsaTypes, t ≠ CKA_CLASS ∧ t ≠ CKA_UNIQUE_ID := by decide
    exact this t ht
  rw [← h, find_generateUnique, if_neg ht'.2]
  rw [value_eq] at hv
  cases hf : o0.find t with
  | none => rfl
  | some a =>
    rw [hf] at hv
    generalize hg : (Option.map Attr.value (some a)) = v at hv
    cases hv with
    | cls e => exact absurd e ht'.1
    | given c _ _ _ hc hct => exact absurd hct (htm c hc)
    | default f _ hfm hft hd =>
      have := allFactories_spec rsa_nodef hF
      rw [List.all_eq_true] at this
      have := this f hfm
      rw [hft, hd] at this
      simp only [Bool.true_and, Bool.not_eq_true'] at this
      rw [List.contains_iff_mem.2 ht] at this
      cases this
    | absent => cases hg

theorem ensureUlong_same {o : Obj} {t n : Nat} (h : o.getUlong t = .ok n) : o.ensureUlong t n = .ok o := by
  unfold Obj.getUlong at h
  unfold Obj.ensureUlong
  split at h
  · cases h
  · rename_i a ha
    rw [ha]
    simp only
    rw [h]
    simp

theorem ensureAll_skip {o : Obj} {t n : Nat} (h : o.getUlong t = .ok n) (l : List Attr) : ensureAll o (Attr.ofUlong t n :: l) = ensureAll o l := by
  have hv := ensured (ensureUlong_same h)
  rw [value_eq] at hv
  rw [ensureAll]
  cases hf : o.find t with
  | none => rw [hf] at hv; cases hv
  | some a =>
    rw [hf] at hv
    injection hv with hv
    have : o.find (Attr.ofUlong t n).typ = some a := hf
    rw [this]
    simp only
    rw [if_neg]
    rw [hv]; exact fun h => h rfl

/-- The names of the attributes do not depend on the values. -/
theorem zip_types : ∀ (ts : List Nat) (ds : List Bytes), ds.length = ts.length → ((ts.zip ds).map fun p => Attr.ofBytes p.1 (nopad p.2)).map Attr.typ = ts := by
  intro ts
  induction ts with
  | nil => intro ds _; rfl
  | cons t ts ih =>
    intro ds h
    cases ds with
    | nil => cases h
    | cons d ds =>
      rw [List.zip_cons_cons, List.map_cons, List.map_cons, ih ds (by simpa using h)]
      rfl

/-- **C75 (success).**  When the template is accepted, names an RSA private key and none of the components, and modulus and public exponent are not zero, import of
the exported data succeeds. -/
theorem C75_succeeds (attrsOk optOk : Bytes → Bool) (M : Mechs) (F F' : Factory) (k : Nat × Nat) (o o0 : Obj) (b pad uid : Bytes) (tm : Template) (hF : F.kind = .rsaPriv)
    (hreg : (k, F') ∈ registry) (hF' : F'.kind = .rsaPriv)
    (hx : exportForWrapping (withPkcs8 attrsOk optOk M) F o = .ok b) (hl : b.length < 2 ^ 32) (hp : ∀ x ∈ pad, x = 0)
    (hn : ∀ n, Spec.bigNum o CKA_MODULUS = some n → n ≠ 0) (he : ∀ e, Spec.bigNum o CKA_PUBLIC_EXPONENT = some e → e ≠ 0)
    (h0 : keyUnwrap F' uid tm = .ok o0) (hc : o0.getUlong CKA_CLASS = .ok CKO_PRIVATE_KEY) (hkt : o0.getUlong CKA_KEY_TYPE = .ok CKK_RSA)
    (htm : ∀ c ∈ tm, c.typ ∉ CKA_PUBLIC_KEY_INFO :: rsaTypes) :
    ∃ o', importWrapped (withPkcs8 attrsOk optOk M) uid F' (b ++ pad) tm = .ok o' := by
  have hb : rsaExport o = .ok b := exported_rsa hF hx
  obtain ⟨vs, ds, h8, hv, hmap, key, ho, hr⟩ := rsa_read hb hl attrsOk pad hp
  have habs : ∀ t ∈ CKA_PUBLIC_KEY_INFO :: rsaTypes, o0.find t = none := fun t ht => unwrap_without hreg h0 ht (fun c hc' e => htm c hc' (e ▸ ht))
  have hd8 : ds.length = 8 := by
    have := congrArg List.length hmap
    simpa [h8] using this
  have htyp : (rsaAttrs vs).map Attr.typ = rsaTypes := zip_types rsaTypes vs (by rw [h8]; rfl)
  have hnd : rsaTypes.Nodup := by decide
  obtain ⟨o2, e1, _, e3⟩ := ensureAll_absent (l := rsaAttrs vs) (o := o0) (by rw [htyp]; exact hnd) (by
    intro a ha
    exact habs _ (.tail _ (htyp ▸ List.mem_map_of_mem ha)))
  -- modulus and exponent
  have part : ∀ t ∈ rsaTypes, ∃ v, o.getBytes t = .ok v ∧ o2.getBytes t = .ok (nopad v) := by
    intro t ht
    obtain ⟨v, hm⟩ := zip_mem ht (vs := vs) (by rw [h8]; rfl)
    refine ⟨v, hv _ hm, ?_⟩
    have : o2.find t = some (Attr.ofBytes t (nopad v)) := e3 _ (List.mem_map.2 ⟨(t, v), hm, rfl⟩)
    unfold Obj.getBytes
    rw [this]; rfl
  have nonzero : ∀ t v, o.getBytes t = .ok v → (∀ n, Spec.bigNum o t = some n → n ≠ 0) → nopad v ≠ [] := by
    intro t v hv hn hz
    obtain ⟨a, ha, hav⟩ := getBytes_ok hv
    refine hn (fromBE v) (by rw [Spec.bigNum, ha]; show some (fromBE a.value) = _; rw [hav]) (nopad_nil hz)
  obtain ⟨v0, g0, g0'⟩ := part CKA_MODULUS (.head _)
  obtain ⟨v1, g1, g1'⟩ := part CKA_PUBLIC_EXPONENT (.tail _ (.head _))
  obtain ⟨d0, q0⟩ := derUint_total (nopad v0) (nonzero _ _ g0 hn)
  obtain ⟨d1, q1⟩ := derUint_total (nopad v1) (nonzero _ _ g1 he)
  have hs : ∃ info, rsaSpkiDer (nopad v0) (nopad v1) = .ok info := by
    unfold rsaSpkiDer derUints derUints derUints
    rw [q0, q1]
    exact ⟨_, rfl⟩
  obtain ⟨info, hs⟩ := hs
  have himp : rsaImport attrsOk o0 (b ++ pad) = .ok (Attr.ofUlong CKA_CLASS CKO_PRIVATE_KEY :: Attr.ofUlong CKA_KEY_TYPE CKK_RSA ::
      (rsaAttrs vs ++ [Attr.ofBytes CKA_PUBLIC_KEY_INFO info])) := by
    unfold rsaImport
    rw [ensureUlong_same hc]
    simp only
    rw [ensureUlong_same hkt]
    simp only
    rw [ho]
    simp only [Der.toRes, ne_eq, not_true_eq_false, if_false, hr]
    rw [zip_nopad rsaTypes ds vs hmap]
    have : ensureAll o0 ((rsaTypes.zip vs).map fun p => Attr.ofBytes p.1 (nopad p.2)) = .ok o2 := e1
    rw [this]
    simp only
    rw [g0']
    simp only
    rw [g1']
    simp only
    rw [hs]
    rfl
  obtain ⟨o', h1, _⟩ := ensureAll_absent (l := rsaAttrs vs ++ [Attr.ofBytes CKA_PUBLIC_KEY_INFO info]) (o := o0) (by
      rw [List.map_append, htyp]
      show (rsaTypes ++ [CKA_PUBLIC_KEY_INFO]).Nodup
      decide) (by
    intro a ha
    rcases List.mem_append.1 ha with h | h
    · exact habs _ (.tail _ (htyp ▸ List.mem_map_of_mem h))
    · rw [List.mem_singleton.1 h]; exact habs _ (.head _))
  refine ⟨o', ?_⟩
  unfold importWrapped
  rw [hF']
  simp only
  rw [h0]
  have : (withPkcs8 attrsOk optOk M).importAttrs .rsaPriv o0 (b ++ pad) = rsaImport attrsOk o0 (b ++ pad) := rfl
  simp only
  rw [this, himp]
  simp only
  rw [ensureAll_skip hc, ensureAll_skip hkt]
  exact h1

/-- **C75 (calls).**  C_WrapKey gave the bytes `w` for an RSA private key, and C_UnwrapKey, with a key for which the mechanism takes back what was wrapped (possibly
followed by zero bytes), gave a handle: the object put into the token has the numbers of the key that was wrapped. -/
theorem C75_calls (attrsOk optOk : Bytes → Bool) (M : Mechs) (C : Crypto) (e e' : Env) (m wk key wk' h hh len : Nat) (p w : Bytes) (tm : Template) (s : Session)
    (t t' t'' : Token) (k : Obj) (F F' : Factory) (hk : t.getObjectByHandle C (e.sub 0) key = .ok k) (hF : objFactory k = .ok F) (hFk : F.kind = .rsaPriv)
    (hF' : keyTemplateFactory tm = .ok F') (hFk' : F'.kind = .rsaPriv)
    (hw : fnWrap (withPkcs8 attrsOk optOk M) C e m p wk key (some len) t = .bytes w)
    (hlaw : ∀ x y d d', t.getObjectByHandle C (e.sub 1) wk = .ok x → t'.getObjectByHandle C (e'.sub 0) wk' = .ok y →
      M.wrap (e.sub 2) m p x d = .ok w → M.unwrap (e'.sub 1) m p y w = .ok d' → d.length < 2 ^ 32 ∧ ∃ pad, (∀ x ∈ pad, x = 0) ∧ d' = d ++ pad)
    (hu : fnUnwrap (withPkcs8 attrsOk optOk M) C e' h m p wk' w tm s t' = (.ok hh, t'')) :
    ∃ o, sameRsa k o ∧ t'.insertObject C (e'.sub 3) h (fresh o) = (.ok hh, t'') := by
  unfold fnWrap at hw
  split at hw
  · cases hw
  rw [hk] at hw
  simp only at hw
  split at hw
  · cases hw
  rename_i x hx
  split at hw
  · cases hw
  rw [hF] at hw
  simp only at hw
  split at hw
  · cases hw
  split at hw
  · cases hw
  · cases hw
  split at hw
  · cases hw
  split at hw
  · cases hw
  rename_i d hd
  split at hw
  · cases hw
  split at hw
  · cases hw
  split at hw
  · cases hw
  have hwr : M.wrap (e.sub 2) m p x d = .ok w := by
    have : (withPkcs8 attrsOk optOk M).wrap (e.sub 2) m p x d = M.wrap (e.sub 2) m p x d := rfl
    rw [this] at hw
    cases hr : M.wrap (e.sub 2) m p x d with
    | error r => rw [hr] at hw; cases hw
    | ok c => rw [hr] at hw; injection hw with hw; rw [hw]
  unfold fnUnwrap at hu
  split at hu
  · cases hu
  split at hu
  · cases hu
  split at hu
  · cases hu
  rename_i y hy
  split at hu
  · cases hu
  rw [hF'] at hu
  simp only at hu
  split at hu
  · cases hu
  split at hu
  · cases hu
  · cases hu
  split at hu
  · cases hu
  split at hu
  · cases hu
  rename_i d' hd'
  split at hu
  · cases hu
  rename_i o ho
  obtain ⟨hlen, pad, hz, rfl⟩ := hlaw x y d d' hx hy hwr hd'
  exact ⟨o, (C75_back attrsOk optOk M F F' k o d pad _ tm hFk hFk' hd hlen hz ho).1, hu⟩

/-! ## A key -/

/-- The components of the key with primes 11 and 13; some are written with leading zeros. -/
def exRsaParts : List (Nat × Bytes) :=
  [(CKA_MODULUS, [0, 143]), (CKA_PUBLIC_EXPONENT, [0, 0, 7]), (CKA_PRIVATE_EXPONENT, [103]), (CKA_PRIME_1, [11]), (CKA_PRIME_2, [13]), (CKA_EXPONENT_1, [3]),
   (CKA_EXPONENT_2, [7]), (CKA_COEFFICIENT, [6])]

def exRsaObj (parts : List (Nat × Bytes)) : Obj :=
  { attrs := [Attr.ofUlong CKA_CLASS CKO_PRIVATE_KEY, Attr.ofUlong CKA_KEY_TYPE CKK_RSA, Attr.ofBool CKA_EXTRACTABLE true] ++ parts.map fun p => Attr.ofBytes p.1 p.2,
    cls := CKO_PRIVATE_KEY, handle := 1, session := 1 }

def exRsaTmpl : Template := [.ofUlong CKA_CLASS CKO_PRIVATE_KEY, .ofUlong CKA_KEY_TYPE CKK_RSA, .ofBool CKA_SIGN true]

def exRsaF : Factory := ⟨.rsaPriv, CKO_PRIVATE_KEY, rsaPrivAttrs⟩

def exPkcs8 : Mechs := withPkcs8 (fun _ => false) (fun _ => false) exMechs

/-- The exported data. -/
def exRsaBlob : Bytes := match exportForWrapping exPkcs8 exRsaF (exRsaObj exRsaParts) with | .ok b => b | .error _ => []

def importedValue (data : Bytes) (t : Nat) : Option Bytes :=
  match importWrapped exPkcs8 exUid exRsaF data exRsaTmpl with
  | .ok o => (o.find t).map Attr.value
  | .error _ => none

def importError (data : Bytes) (tm : Template) : Option Rv :=
  match importWrapped exPkcs8 exUid exRsaF data tm with
  | .ok _ => none
  | .error r => some r

/-- The hypotheses of C75_back and C75_succeeds are met, with the data behind three zero bytes. -/
example : ((CKO_PRIVATE_KEY, CKK_RSA), exRsaF) ∈ registry ∧
    exportForWrapping exPkcs8 exRsaF (exRsaObj exRsaParts) = .ok exRsaBlob ∧ exRsaBlob.length = 52 ∧
    isOk (keyUnwrap exRsaF exUid exRsaTmpl) = true ∧ (okObj (keyUnwrap exRsaF exUid exRsaTmpl)).getUlong CKA_CLASS = .ok CKO_PRIVATE_KEY ∧
    (okObj (keyUnwrap exRsaF exUid exRsaTmpl)).getUlong CKA_KEY_TYPE = .ok CKK_RSA ∧ (∀ c ∈ exRsaTmpl, c.typ ∉ CKA_PUBLIC_KEY_INFO :: rsaTypes) ∧
    importedValue (exRsaBlob ++ [0, 0, 0]) CKA_MODULUS = some [143] ∧ importedValue (exRsaBlob ++ [0, 0, 0]) CKA_PUBLIC_EXPONENT = some [7] ∧
    importedValue (exRsaBlob ++ [0, 0, 0]) CKA_COEFFICIENT = some [6] := by decide +kernel

/-! ## What the code does not refuse -/

/-- The PKCS#8 data with these integers as they stand. -/
def exRsaData (ints : List Bytes) : Bytes := pkcs8 rsaAlg (derTlv 0x30 (derTlv 2 [0] ++ (ints.map (derTlv 2)).flatten))

/-- The components of C75's example with a modulus as given. -/
def exRsaInts (n : Bytes) : List Bytes := [n, [7], [103], [11], [13], [3], [7], [6]]

/-- Wrapped data in which an INTEGER has no contents makes C_UnwrapKey panic (`de.data[0]`, `src/kasn1/mod.rs:41`). -/
theorem C75_empty_integer_violation : importError (exRsaData (exRsaInts [])) exRsaTmpl = some .panic := by decide +kernel

/-- So does a modulus of 0: its bytes without padding are empty (`src/rsa.rs:183-191`). -/
theorem C75_zero_modulus_violation : importError (exRsaData (exRsaInts [0])) exRsaTmpl = some .panic := by decide +kernel

/-- A negative integer is taken as a positive one: 02 01 8f is -113, the key gets the modulus 143. -/
theorem C75_negative_violation : importedValue (exRsaData (exRsaInts [143])) CKA_MODULUS = some [143] := by decide +kernel

/-- Import has no minimum size: a modulus of eight bits, refused by C_CreateObject as too short, is accepted. -/
theorem C75_small_violation : importedValue exRsaBlob CKA_MODULUS = some [143] ∧
    rsaCheckImport { exOracle with minRsaBytes := 128 } (exRsaObj exRsaParts) = .error .attrValueInvalid := by decide +kernel

/-- The template of an extractable key with an empty CKA_PRIME_1. -/
def exEmptyPrime : Template :=
  [.ofUlong CKA_CLASS CKO_PRIVATE_KEY, .ofUlong CKA_KEY_TYPE CKK_RSA, .ofBool CKA_EXTRACTABLE true, ⟨CKA_MODULUS, .data (1 :: List.replicate 127 7)⟩,
   ⟨CKA_PUBLIC_EXPONENT, .data [1, 0, 1]⟩, ⟨CKA_PRIVATE_EXPONENT, .data [5]⟩, ⟨CKA_PRIME_1, .data []⟩, ⟨CKA_PRIME_2, .data [3]⟩, ⟨CKA_EXPONENT_1, .data [1]⟩,
   ⟨CKA_EXPONENT_2, .data [1]⟩, ⟨CKA_COEFFICIENT, .data [1]⟩]

def exSpkiOracle : Oracle := { exOracle with minRsaBytes := 128, rsaSpki := rsaSpkiDer }

/-- C_CreateObject accepts a private key with an empty prime; C_WrapKey of it panics. -/
theorem C75_empty_prime_violation : isOk (factoriesCreate exSpkiOracle exUid exEmptyPrime) = true ∧
    exportForWrapping exPkcs8 exRsaF (okObj (factoriesCreate exSpkiOracle exUid exEmptyPrime)) = .error .panic := by decide +kernel

end Kry
