import Verif.Spec.Sizes
import Verif.Props.C17
import Verif.Props.MachineEx

/-!
# C48: secret keys have admissible sizes and truthful lengths

`C48_create_partial`, `C48_unwrap_partial`, `C48_derive_partial`, `C48_agreement_partial`, `C48_generate_partial`: for every template
and value.  Missing from the full property, each a violation shown below: C_GenerateKey does not check the length
of AES keys (`C48_generate_violation`), C_UnwrapKey does not check HMAC sizes or HOTP parameters
(`C48_unwrap_hmac_violation`, `C48_unwrap_hotp_violation`), and C_SetAttributeValue changes CKA_VALUE without
CKA_VALUE_LEN (`C48_set_violation`).
-/

namespace Kry

open Spec

theorem asksFor_iff {tm : Template} {t n : Nat} {r : Rv} : asksFor tm t n ↔ tmplUlong tm t r = .ok n := by
  unfold tmplUlong asksFor
  constructor
  · rintro ⟨pre, c, post, rfl, h1, h2, h3⟩
    have : (pre ++ c :: post).find? (fun c => c.typ == t) = some c := by
      rw [List.find?_append]
      have : pre.find? (fun c => c.typ == t) = none := by
        rw [List.find?_eq_none]; intro x hx; simp [h2 x hx]
      rw [this]
      simp [h1]
    rw [this]; exact h3
  · intro h
    split at h
    · cases h
    · rename_i c hc
      obtain ⟨h1, pre, post, h2, h3⟩ := List.find?_eq_some_iff_append.1 hc
      exact ⟨pre, c, post, h2, by simpa using h1, fun d hd => by simpa using h3 d hd, h⟩

theorem create_factory {tm : Template} {cls kt : Nat} {F : Factory} (hk : keyClass cls = true)
    (hq : asksKey tm cls kt) (h : createSelect tm = .ok F) : getFactory cls kt = .ok F := by
  unfold createSelect at h
  rw [asksFor_iff.1 hq.1] at h
  simp only at h
  rw [asksFor_iff.1 hq.2] at h
  have : cls = CKO_PUBLIC_KEY ∨ cls = CKO_PRIVATE_KEY ∨ cls = CKO_SECRET_KEY ∨ cls = CKO_OTP_KEY := by
    have := (keyClass_iff cls).1 hk
    simpa [keyClasses] using this
  rcases this with rfl | rfl | rfl | rfl <;> exact h

/-- Reading lengths. -/
theorem buffer_value {o : Obj} {n : Nat} (h : keyBufferLen o = .ok n) :
    ∃ v, value o CKA_VALUE = some v ∧ v.length = n := by
  unfold keyBufferLen Obj.getBytes at h
  rw [value_eq]
  cases hf : o.find CKA_VALUE with
  | none => rw [hf] at h; cases h
  | some a =>
    rw [hf] at h
    simp only [Attr.toBytes] at h
    split at h
    · cases h
    · rename_i v hv
      split at hv
      · cases hv
      · injection hv with hv; injection h with h
        subst hv
        exact ⟨_, rfl, h⟩

theorem ensured {o o' : Obj} {t n : Nat} (h : o.ensureUlong t n = .ok o') : value o' t = some (toLE 8 n) := by
  rw [value_eq]
  unfold Obj.ensureUlong at h
  split at h
  · rename_i a ha
    unfold Attr.toUlong at h
    split at h
    · cases h
    · rename_i m hm
      split at hm
      · cases hm
      split at hm
      · cases hm
      rename_i h8
      injection hm with hm
      split at h
      · cases h
      rename_i hn
      injection h with h; subst h
      rw [ha]
      have e : m = n := Classical.not_not.1 hn
      subst e
      show some a.value = _
      rw [← hm]
      have h8 : a.value.length = 8 := Classical.not_not.1 h8
      exact congrArg some (ulongBytes_fromLE _ h8).symm
  · rename_i hf
    injection h with h
    subst h
    rw [find_push, hf]
    simp [Attr.ofUlong, ulongBytes]

theorem sized_ensure {o o' : Obj} {n : Nat} (hb : keyBufferLen o = .ok n) (h : o.ensureUlong CKA_VALUE_LEN n = .ok o')
    {l : List Nat} (hn : n ∈ l) : sizedIn o' l ∧ lenTold o' := by
  obtain ⟨v, hv, hl⟩ := buffer_value hb
  have hv' : value o' CKA_VALUE = some v := by
    rw [value_eq] at hv ⊢
    rw [same_ensureUlong (l := [CKA_VALUE_LEN]) (by simp) h CKA_VALUE (by decide)]
    exact hv
  subst hl
  exact ⟨⟨v, hv', hn⟩, v, hv', ensured h⟩

theorem setKey_sized {F : Factory} {o o' : Obj} {v : Bytes} (h : setKey F o v = .ok o') :
    value o' CKA_VALUE = some v ∧ lenTold o' ∧ (F.kind = .aes → v.length ∈ [16, 24, 32]) := by
  unfold setKey at h
  split at h
  · cases h
  rename_i hk
  have aes : F.kind = .aes → v.length ∈ [16, 24, 32] := by
    intro hF
    rw [hF] at hk
    unfold aesCheckKeyLen at hk
    simp only at hk
    split at hk
    · rename_i hq; simpa using hq
    · cases hk
  have hput : (o.put (Attr.ofBytes CKA_VALUE v)).find CKA_VALUE = some (Attr.ofBytes CKA_VALUE v) := by
    rw [find_put]; simp [Attr.ofBytes]
  have hb : keyBufferLen (o.put (Attr.ofBytes CKA_VALUE v)) = .ok v.length := by
    unfold keyBufferLen Obj.getBytes
    rw [hput]; rfl
  unfold setKeyLen at h
  rw [hb] at h
  simp only [ne_eq, not_true, if_false] at h
  obtain ⟨⟨w, h1, _⟩, h2⟩ := sized_ensure (l := [v.length]) hb h (by simp)
  have : value o' CKA_VALUE = some v := by
    rw [value_eq, same_ensureUlong (l := [CKA_VALUE_LEN]) (by simp) h CKA_VALUE (by decide), hput]; rfl
  exact ⟨this, h2, aes⟩

/-! ## Typed attributes of created keys -/

/-- Defaults of number `t` in the tables are numbers of eight bytes. -/
def numDefault (t : Nat) (F : Factory) : Bool :=
  F.attrs.all fun f => f.typ != t || !f.hasDefault || (f.attr.atype == .num && f.attr.value.length == 8)

/-- Defaults of byte string `t` in the tables are byte strings. -/
def bytesDefault (t : Nat) (F : Factory) : Bool :=
  F.attrs.all fun f => f.typ != t || !f.hasDefault || f.attr.atype == .bytes

theorem created_num {F : Factory} {k : Nat × Nat} (hF : (k, F) ∈ registry) {tm : Template} {u r t : Nat} {o : Obj}
    (h : internalObjectCreate F tm u r = .ok o) (hk : attrKind t = some .num) (ht : t ≠ CKA_CLASS)
    (hd : allFactories (numDefault t) = true) {a : Attr} (ha : o.find t = some a) :
    a.atype = .num ∧ a.value.length = 8 := by
  have hall := internalObjectCreate_all (P := fun a => a.typ = t → a.atype = .num ∧ a.value.length = 8) h (by
      intro c _ a hca e
      have e' := (fromCk_typ hca).symm.trans e
      rw [← e'] at hk
      unfold Attr.fromCk at hca
      rw [hk] at hca
      simp only at hca
      split at hca
      · injection hca with hca; subst hca; exact ⟨rfl, ulongBytes_length _⟩
      · cases hca) (by
      intro f hf hfd e
      have := allFactories_spec hd hF
      unfold numDefault at this
      rw [List.all_eq_true] at this
      have := this f hf
      have e' : f.typ = t := e
      simpa [e', hfd] using this) (by
      intro a ha e
      simp [Obj.new] at ha
      rw [ha] at e
      exact absurd e.symm ht)
  exact hall a (find_mem ha) (find_typ ha)

theorem created_bytes {F : Factory} {k : Nat × Nat} (hF : (k, F) ∈ registry) {tm : Template} {u r t : Nat} {o : Obj}
    (h : internalObjectCreate F tm u r = .ok o) (hk : attrKind t = some .bytes) (ht : t ≠ CKA_CLASS)
    (hd : allFactories (bytesDefault t) = true) {a : Attr} (ha : o.find t = some a) : a.atype = .bytes := by
  have hall := internalObjectCreate_all (P := fun a => a.typ = t → a.atype = .bytes) h (by
      intro c _ a hca e
      have e' := (fromCk_typ hca).symm.trans e
      rw [← e'] at hk
      unfold Attr.fromCk at hca
      rw [hk] at hca
      simp only at hca
      injection hca with hca; subst hca; rfl) (by
      intro f hf hfd e
      have := allFactories_spec hd hF
      unfold bytesDefault at this
      rw [List.all_eq_true] at this
      have := this f hf
      have e' : f.typ = t := e
      simpa [e', hfd] using this) (by
      intro a ha e
      simp [Obj.new] at ha
      rw [ha] at e
      exact absurd e.symm ht)
  exact hall a (find_mem ha) (find_typ ha)

theorem numDefault_otp : allFactories (numDefault CKA_OTP_LENGTH) = true := by decide +kernel
theorem bytesDefault_counter : allFactories (bytesDefault CKA_OTP_COUNTER) = true := by decide +kernel

theorem boolDefault_usage : [CKA_ENCRYPT, CKA_DECRYPT, CKA_WRAP, CKA_UNWRAP].all
    (fun t => allFactories (boolDefault t)) = true := by decide +kernel

theorem firstErr_ok {l : List (Res Unit)} (h : firstErr l = .ok ()) : ∀ r ∈ l, r = .ok () := by
  induction l with
  | nil => intro r hr; cases hr
  | cons a l ih =>
    cases a with
    | error e => simp only [firstErr] at h; cases h
    | ok u =>
      simp only [firstErr] at h
      intro r hr
      rcases List.mem_cons.1 hr with rfl | hr
      · rfl
      · exact ih h r hr

theorem optCheck_ok {α : Type} {r : Res α} {p : α → Bool} (h : optCheck r p = .ok ()) {v : α} (hv : r = .ok v) :
    p v = true := by
  subst hv
  unfold optCheck at h
  simp only at h
  split at h
  · assumption
  · cases h

/-- The checks of HOTP keys, on attributes of the right types. -/
theorem hotpValidate_proper {o o' : Obj} {n : Nat} (h : hotpValidate o = .ok o') (hn : keyBufferLen o = .ok n)
    (hn2 : n < 2 ^ 64) (hl : o.find CKA_VALUE_LEN = some (Attr.ofUlong CKA_VALUE_LEN n))
    (hd : ∀ a, o.find CKA_OTP_LENGTH = some a → a.atype = .num ∧ a.value.length = 8)
    (hc : ∀ a, o.find CKA_OTP_COUNTER = some a → a.atype = .bytes)
    (hb : ∀ t ∈ [CKA_ENCRYPT, CKA_DECRYPT, CKA_WRAP, CKA_UNWRAP], ∀ a, o.find t = some a → ∃ b, a = Attr.ofBool t b)
    (hx : o.find CKA_CLASS ≠ none) : hotpProper o' ∧ lenTold o' := by
  have hs := hotpValidate_same (l := [CKA_KEY_TYPE, CKA_ALLOWED_MECHANISMS]) (by simp) (by simp) hx h
  obtain ⟨v, hv, hvl⟩ := buffer_value hn
  have sv : ∀ t, t ∉ [CKA_KEY_TYPE, CKA_ALLOWED_MECHANISMS] → value o' t = value o t := by
    intro t ht; rw [value_eq, value_eq, hs t ht]
  have vlen : value o CKA_VALUE_LEN = some (toLE 8 n) := by rw [value_eq, hl]; rfl
  unfold hotpValidate at h
  split at h
  · cases h
  rename_i o1 he1
  have := ensureUlong_present hx he1
  subst this
  split at h
  · cases h
  rename_i o2 he2
  have s1 := same_ensureUlong (l := [CKA_KEY_TYPE]) (by simp) he2
  split at h
  · cases h
  rename_i hu
  simp only at h
  split at h
  · cases h
  rename_i o3 hm
  have s2 : SameBut [CKA_ALLOWED_MECHANISMS] o2 o3 ∧ value o3 CKA_ALLOWED_MECHANISMS = some (toLE 8 CKM_HOTP) := by
    have set : value (o2.put (Attr.ofBytes CKA_ALLOWED_MECHANISMS (ulongBytes CKM_HOTP))) CKA_ALLOWED_MECHANISMS =
        some (toLE 8 CKM_HOTP) := by
      rw [value_eq, find_put]; simp [Attr.ofBytes, ulongBytes]
    split at hm
    · rename_i m hmb
      split at hm
      · injection hm with hm; subst hm; exact ⟨same_put (by show CKA_ALLOWED_MECHANISMS ∈ _; simp), set⟩
      · split at hm
        · cases hm
        · rename_i hq
          injection hm with hm; subst hm
          refine ⟨.rfl', ?_⟩
          have hq : m = ulongBytes CKM_HOTP := Classical.not_not.1 hq
          rw [value_eq]
          unfold Obj.getBytes at hmb
          cases hf : o2.find CKA_ALLOWED_MECHANISMS with
          | none => rw [hf] at hmb; cases hmb
          | some a =>
            rw [hf] at hmb
            simp only [Attr.toBytes] at hmb
            split at hmb
            · cases hmb
            · injection hmb with hmb; rw [Option.map_some, hmb, hq]; rfl
    · injection hm with hm; subst hm; exact ⟨same_put (by show CKA_ALLOWED_MECHANISMS ∈ _; simp), set⟩
  have f3 : ∀ t, t ∉ [CKA_KEY_TYPE, CKA_ALLOWED_MECHANISMS] → o3.find t = o1.find t := by
    intro t ht
    rw [s2.1 t (by intro hq; exact ht (List.mem_cons_of_mem _ hq)),
      s1 t (by intro hq; exact ht (by rw [List.mem_singleton.1 hq]; simp))]
  split at h
  · cases h
  rename_i hfe
  injection h with h; subst h
  have all := firstErr_ok hfe
  have cnt := all _ (List.mem_cons_self ..)
  have len := all _ (List.mem_cons_of_mem _ (List.mem_cons_of_mem _ (List.mem_cons_self ..)))
  have dig := all _ (List.mem_cons_of_mem _ (List.mem_cons_of_mem _ (List.mem_cons_of_mem _ (List.mem_cons_self ..))))
  refine ⟨⟨?_, ?_, s2.2, ?_, ?_⟩, ?_⟩
  · intro b hv
    rw [value_eq] at hv
    cases hf : o3.find CKA_OTP_LENGTH with
    | none => rw [hf] at hv; cases hv
    | some a =>
      rw [hf] at hv; injection hv with hv; subst hv
      obtain ⟨a1, a2⟩ := hd a ((f3 CKA_OTP_LENGTH (by decide)).symm.trans hf)
      have := optCheck_ok dig (v := fromLE a.value) (by
        unfold Obj.getUlong Attr.toUlong
        rw [hf]
        simp [a1, a2, ulongSize])
      simpa using this
  · intro b hv
    rw [value_eq] at hv
    cases hf : o3.find CKA_OTP_COUNTER with
    | none => rw [hf] at hv; cases hv
    | some a =>
      rw [hf] at hv; injection hv with hv; subst hv
      have a1 := hc a ((f3 CKA_OTP_COUNTER (by decide)).symm.trans hf)
      have := optCheck_ok cnt (v := a.value) (by
        unfold Obj.getBytes Attr.toBytes
        rw [hf]
        simp [a1])
      simpa using this
  · intro t ht ⟨b, hv, hb0⟩
    have ht3 : t ∉ [CKA_KEY_TYPE, CKA_ALLOWED_MECHANISMS] := by
      exact (by decide : ∀ t ∈ [CKA_ENCRYPT, CKA_DECRYPT, CKA_WRAP, CKA_UNWRAP],
        t ∉ [CKA_KEY_TYPE, CKA_ALLOWED_MECHANISMS]) t ht
    have ht2 : t ∉ [CKA_KEY_TYPE] := fun hq => ht3 (by rw [List.mem_singleton.1 hq]; simp)
    rw [value_eq] at hv
    cases hf : o3.find t with
    | none => rw [hf] at hv; cases hv
    | some a =>
      rw [hf] at hv; injection hv with hv
      have hf1 := (f3 t ht3).symm.trans hf
      obtain ⟨b', rfl⟩ := hb t ht a hf1
      apply hu
      rw [List.any_eq_true]
      refine ⟨t, ht, ?_⟩
      unfold Obj.getBool
      rw [s1 t ht2, hf1]
      cases b'
      · simp [Attr.ofBool] at hv; exact absurd hv.symm hb0
      · rfl
  · have := optCheck_ok len (v := n) (by
      unfold Obj.getUlong Attr.toUlong
      rw [f3 CKA_VALUE_LEN (by decide), hl]
      simp [Attr.ofUlong, ulongSize, ulongBytes_length, fromLE_ulongBytes _ hn2])
    refine ⟨v, (sv _ (by decide)).trans hv, ?_⟩
    rw [hvl]
    simpa [or_assoc] using this
  · exact ⟨v, (sv _ (by decide)).trans hv, by rw [hvl]; exact (sv _ (by decide)).trans vlen⟩

/-- The HOTP factory. -/
abbrev hotpF : Factory := ⟨.hotp, CKO_OTP_KEY, hotpAttrs⟩

theorem create_hotp {O : Oracle} {uid : Bytes} {tm : Template} {o : Obj} (h : hotpF.create O uid tm = .ok o)
    (hsz : ∀ v, value o CKA_VALUE = some v → v.length < 2 ^ 64) : hotpProper o ∧ lenTold o := by
  have hF : ((CKO_OTP_KEY, CKK_HOTP), hotpF) ∈ registry := by decide +kernel
  simp only [Factory.create] at h
  split at h
  · cases h
  rename_i o1 h1
  split at h
  · cases h
  rename_i n hn
  split at h
  · cases h
  obtain ⟨o0, h0, hs⟩ := keyCreate_same (l := [CKA_UNIQUE_ID, CKA_LOCAL, CKA_ALWAYS_SENSITIVE, CKA_NEVER_EXTRACTABLE])
    (by simp) (by simp) (by simp) (by simp) h1
  have put : ∀ t, t ≠ CKA_VALUE_LEN → (o1.put (Attr.ofUlong CKA_VALUE_LEN n)).find t = o1.find t := by
    intro t ht
    rw [find_put, if_neg]
    intro e; exact ht e.symm
  have hf : ∀ t, t ≠ CKA_VALUE_LEN → t ∉ [CKA_UNIQUE_ID, CKA_LOCAL, CKA_ALWAYS_SENSITIVE, CKA_NEVER_EXTRACTABLE] →
      ∀ a, (o1.put (Attr.ofUlong CKA_VALUE_LEN n)).find t = some a → o0.find t = some a := by
    intro t h1 h2 a ha
    rw [← hs t h2, ← put t h1]; exact ha
  have hcls : (o1.put (Attr.ofUlong CKA_VALUE_LEN n)).find CKA_CLASS ≠ none := by
    rw [put _ (by decide), hs _ (by decide)]
    exact create_find_class hF h0
  have hn2 : n < 2 ^ 64 := by
    obtain ⟨v, hv, hl⟩ := buffer_value hn
    rw [← hl]
    refine hsz v ?_
    rw [value_eq] at hv ⊢
    rw [hotpValidate_same (l := [CKA_KEY_TYPE, CKA_ALLOWED_MECHANISMS]) (by simp) (by simp) hcls h _ (by decide),
      put _ (by decide)]
    exact hv
  refine hotpValidate_proper (n := n) h ?_ hn2 ?_ ?_ ?_ ?_ ?_
  · unfold keyBufferLen Obj.getBytes at hn ⊢
    rw [put _ (by decide)]; exact hn
  · exact (find_put ..).trans (if_pos rfl)
  · intro a ha
    exact created_num hF h0 (by decide +kernel) (by decide) numDefault_otp (hf _ (by decide) (by decide) a ha)
  · intro a ha
    exact created_bytes hF h0 (by decide +kernel) (by decide) bytesDefault_counter (hf _ (by decide) (by decide) a ha)
  · intro t ht a ha
    have hbd := List.all_eq_true.1 boolDefault_usage t ht
    have hkd : attrKind t = some .bool := by
      have : [CKA_ENCRYPT, CKA_DECRYPT, CKA_WRAP, CKA_UNWRAP].all (fun t => decide (attrKind t = some .bool)) = true := by
        decide +kernel
      simpa using List.all_eq_true.1 this t ht
    obtain ⟨q1, q2, q3⟩ := (by decide : ∀ t ∈ [CKA_ENCRYPT, CKA_DECRYPT, CKA_WRAP, CKA_UNWRAP],
      t ≠ CKA_CLASS ∧ t ≠ CKA_VALUE_LEN ∧
      t ∉ [CKA_UNIQUE_ID, CKA_LOCAL, CKA_ALWAYS_SENSITIVE, CKA_NEVER_EXTRACTABLE]) t ht
    exact created_bool hF h0 hkd q1 hbd (hf t q2 q3 a ha)
  · exact hcls

/-! ## The theorems -/

theorem create_sized {O : Oracle} {uid : Bytes} {tm : Template} {o : Obj} {F : Factory} (h : F.create O uid tm = .ok o) :
    (∀ n, F.kind = .genericSecret n → lenTold o ∧ (n ≠ 0 → sizedIn o [n])) ∧
    (F.kind = .aes → lenTold o ∧ sizedIn o [16, 24, 32]) := by
  constructor
  · intro n hk
    simp only [Factory.create, hk] at h
    split at h
    · cases h
    split at h
    · cases h
    rename_i len hb
    split at h
    · cases h
    split at h
    · cases h
    rename_i hn
    have := sized_ensure (l := [len]) hb h (by simp)
    refine ⟨this.2, fun h0 => ?_⟩
    have e : len = n := Classical.byContradiction fun e => hn ⟨h0, e⟩
    rw [← e]; exact this.1
  · intro hk
    simp only [Factory.create, hk] at h
    split at h
    · cases h
    split at h
    · cases h
    rename_i len hb
    split at h
    · cases h
    rename_i hc
    unfold aesCheckKeyLen at hc
    split at hc
    · rename_i hq
      have := sized_ensure (l := [16, 24, 32]) hb h (by simpa using hq)
      exact ⟨this.2, this.1⟩
    · cases hc

theorem getFactory_aes {F : Factory} (h : getFactory CKO_SECRET_KEY CKK_AES = .ok F) : F.kind = .aes := by
  have : getFactory CKO_SECRET_KEY CKK_AES = .ok aesF := by decide +kernel
  rw [this] at h; injection h with h; subst h; rfl

theorem getFactory_hotp {F : Factory} (h : getFactory CKO_OTP_KEY CKK_HOTP = .ok F) : F = hotpF := by
  have : getFactory CKO_OTP_KEY CKK_HOTP = .ok hotpF := by decide +kernel
  rw [this] at h; injection h with h; exact h.symm

theorem hmac_factories : hmacSizes.all (fun p => decide (getFactory CKO_SECRET_KEY p.1 = .ok (genericF p.2))) = true := by
  decide +kernel

theorem getFactory_hmac {F : Factory} {kt n : Nat} (hp : (kt, n) ∈ hmacSizes)
    (h : getFactory CKO_SECRET_KEY kt = .ok F) : F.kind = .genericSecret n ∧ n ≠ 0 := by
  have := List.all_eq_true.1 hmac_factories _ hp
  simp only [decide_eq_true_eq] at this
  rw [this] at h; injection h with h; subst h
  exact ⟨rfl, (by decide : ∀ p ∈ hmacSizes, p.2 ≠ 0) _ hp⟩

theorem secret_kinds : registry.all (fun p => p.1.1 != CKO_SECRET_KEY ||
    (match p.2.kind with | .genericSecret _ => true | .aes => true | _ => false)) = true := by decide +kernel

theorem getFactory_secret {F : Factory} {kt : Nat} (h : getFactory CKO_SECRET_KEY kt = .ok F) :
    F.kind = .aes ∨ ∃ n, F.kind = .genericSecret n := by
  have := List.all_eq_true.1 secret_kinds _ (getFactory_mem h)
  simp at this
  cases hk : F.kind <;> simp_all

/-- C_CreateObject: AES keys have 16, 24 or 32 bytes, HMAC keys the size of the digest, HOTP keys proper
parameters; CKA_VALUE_LEN is there and is the length of CKA_VALUE.  Missing from the full property:
C_GenerateKey and the checks C_UnwrapKey leaves out, see the violations. -/
theorem C48_create_partial (O : Oracle) (uid : Bytes) (tm : Template) (o : Obj) (h : factoriesCreate O uid tm = .ok o) :
    (asksKey tm CKO_SECRET_KEY CKK_AES → sizedIn o [16, 24, 32]) ∧
    (∀ p ∈ hmacSizes, asksKey tm CKO_SECRET_KEY p.1 → sizedIn o [p.2]) ∧
    (∀ kt, asksKey tm CKO_SECRET_KEY kt → lenTold o) ∧
    (asksKey tm CKO_OTP_KEY CKK_HOTP → (∀ v, value o CKA_VALUE = some v → v.length < 2 ^ 64) →
      hotpProper o ∧ lenTold o) := by
  unfold factoriesCreate at h
  split at h
  · cases h
  rename_i F hs
  refine ⟨fun hq => ?_, fun p hp hq => ?_, fun kt hq => ?_, fun hq hsz => ?_⟩
  · have hF := create_factory (by decide) hq hs
    exact ((create_sized h).2 (getFactory_aes hF)).2
  · have hF := create_factory (by decide) hq hs
    obtain ⟨a, b⟩ := getFactory_hmac hp hF
    exact ((create_sized h).1 _ a).2 b
  · have hF := create_factory (by decide) hq hs
    rcases getFactory_secret hF with a | ⟨n, a⟩
    · exact ((create_sized h).2 a).1
    · exact ((create_sized h).1 _ a).1
  · have hF := create_factory (by decide) hq hs
    rw [getFactory_hotp hF] at h
    exact create_hotp h hsz

theorem keyTemplate_factory {tm : Template} {cls kt : Nat} {F : Factory}
    (hq : asksKey tm cls kt) (h : keyTemplateFactory tm = .ok F) : getFactory cls kt = .ok F := by
  unfold keyTemplateFactory at h
  rw [asksFor_iff.1 hq.1] at h
  simp only at h
  rw [asksFor_iff.1 hq.2] at h
  exact h

/-- C_UnwrapKey (and the other calls that import key bytes): an AES key has 16, 24 or 32 bytes, and any secret
key's CKA_VALUE_LEN is the length of CKA_VALUE.  Missing: the sizes of HMAC keys and the HOTP parameters. -/
theorem C48_unwrap_partial (M : Mechs) (uid data : Bytes) (tm : Template) (F : Factory) (o : Obj)
    (hF : keyTemplateFactory tm = .ok F) (h : importWrapped M uid F data tm = .ok o) :
    (asksKey tm CKO_SECRET_KEY CKK_AES → sizedIn o [16, 24, 32]) ∧
    (∀ kt, asksKey tm CKO_SECRET_KEY kt → lenTold o) ∧ (asksKey tm CKO_OTP_KEY CKK_HOTP → lenTold o) := by
  have imp : ∀ {d}, importSecret F uid d tm = .ok o → lenTold o ∧ (F.kind = .aes → sizedIn o [16, 24, 32]) := by
    intro d h
    unfold importSecret at h
    split at h
    · cases h
    obtain ⟨a, b, c⟩ := setKey_sized h
    exact ⟨b, fun hk => ⟨d, a, c hk⟩⟩
  have aes : F.kind = .aes → lenTold o ∧ sizedIn o [16, 24, 32] := by
    intro hk
    unfold importWrapped at h
    rw [hk] at h
    unfold importAes at h
    simp only at h
    split at h
    · cases h
    split at h
    · cases h
    exact ⟨(imp h).1, (imp h).2 hk⟩
  refine ⟨fun hq => (aes (getFactory_aes (keyTemplate_factory hq hF))).2, fun kt hq => ?_, fun hq => ?_⟩
  · rcases getFactory_secret (keyTemplate_factory hq hF) with a | ⟨n, a⟩
    · exact (aes a).1
    · unfold importWrapped at h
      rw [a] at h
      exact (imp h).1
  · have e := getFactory_hotp (keyTemplate_factory hq hF)
    have hk : F.kind = .hotp := by rw [e]
    unfold importWrapped at h
    rw [hk] at h
    exact (imp h).1

/-- C_DeriveKey by concatenation, XOR and extraction: the same, for a template that names class and type. -/
theorem C48_derive_partial (k : SimpleKdf) (uid : Bytes) (key o : Obj) (tm : Template)
    (h : simpleDerive k uid key tm = .ok o) : lenTold o ∧ (asksKey tm CKO_SECRET_KEY CKK_AES → sizedIn o [16, 24, 32]) := by
  unfold simpleDerive at h
  split at h
  · cases h
  split at h
  · cases h
  simp only at h
  split at h
  · cases h
  rename_i F hF
  split at h
  · cases h
  split at h
  · cases h
  split at h
  · cases h
  split at h
  · split at h
    · obtain ⟨a, b, c⟩ := setKey_sized h
      refine ⟨b, fun hq => ⟨_, a, c ?_⟩⟩
      have keep : ∀ (t : Template) (x n m : Nat), asksFor t x n → Template.addMissingUlong t x m = t := by
        rintro t x n m ⟨pre, c, post, rfl, h1, h2, h3⟩
        unfold Template.addMissingUlong
        split
        · rfl
        rename_i hf
        unfold Template.findA at hf
        rw [List.find?_eq_none] at hf
        exact absurd (hf c (by simp)) (by simp [h1])
      rw [keep _ _ _ _ hq.1, keep _ _ _ _ hq.2] at hF
      exact getFactory_aes (keyTemplate_factory hq hF)
    · cases h
  · cases h

theorem defaults_value (o : Obj) (mech t : Nat)
    (h1 : CKA_LOCAL ≠ t) (h2 : CKA_KEY_GEN_MECHANISM ≠ t) (h3 : CKA_NEVER_EXTRACTABLE ≠ t) (h4 : CKA_ALWAYS_SENSITIVE ≠ t) :
    value (defaultKeyAttributes o mech) t = value o t := by
  rw [value_eq, value_eq]
  congr 1
  unfold defaultKeyAttributes
  simp only [find_setBool, find_put, Attr.ofUlong]
  rw [if_neg h4, if_neg h3, if_neg h2, if_neg h1]

/-- ECDH and FFDH derivation: the secret key has the size its type asks for. -/
theorem C48_agreement_partial (O : Oracle) (uid : Bytes) (mech : Nat) (tm : Template) (secret : Bytes) (o : Obj)
    (h : agreementDerive O uid mech tm secret = .ok o) :
    (asksKey tm CKO_SECRET_KEY CKK_AES → sizedIn o [16, 24, 32]) ∧
    (∀ p ∈ hmacSizes, asksKey tm CKO_SECRET_KEY p.1 → sizedIn o [p.2]) ∧
    (∀ kt, asksKey tm CKO_SECRET_KEY kt → lenTold o) := by
  unfold agreementDerive at h
  split at h
  · cases h
  rename_i F hF
  split at h
  · cases h
  rename_i o1 h1
  injection h with h
  subst h
  have same : ∀ t, t = CKA_VALUE ∨ t = CKA_VALUE_LEN → value (defaultKeyAttributes o1 mech) t = value o1 t := by
    rintro t (rfl | rfl) <;> exact defaults_value _ _ _ (by decide) (by decide) (by decide) (by decide)
  have sz : ∀ l, sizedIn o1 l → sizedIn (defaultKeyAttributes o1 mech) l := by
    rintro l ⟨v, hv, hl⟩; exact ⟨v, by rw [same _ (.inl rfl)]; exact hv, hl⟩
  have lt : lenTold o1 → lenTold (defaultKeyAttributes o1 mech) := by
    rintro ⟨v, hv, hl⟩; exact ⟨v, by rw [same _ (.inl rfl)]; exact hv, by rw [same _ (.inr rfl)]; exact hl⟩
  refine ⟨fun hq => sz _ ?_, fun p hp hq => sz _ ?_, fun kt hq => lt ?_⟩
  · exact ((create_sized h1).2 (getFactory_aes (keyTemplate_factory hq hF))).2
  · obtain ⟨a, b⟩ := getFactory_hmac hp (keyTemplate_factory hq hF)
    exact ((create_sized h1).1 _ a).2 b
  · rcases getFactory_secret (keyTemplate_factory hq hF) with a | ⟨n, a⟩
    · exact ((create_sized h1).2 a).1
    · exact ((create_sized h1).1 _ a).1

/-- What the generator puts in: CKA_VALUE_LEN bytes. -/
theorem secretGenerate_told {rnd : Nat → Res Bytes} {o o' : Obj} (hr : ∀ n b, rnd n = .ok b → b.length = n)
    (h : defaultSecretKeyGenerate rnd o = .ok o') : lenTold o' := by
  unfold defaultSecretKeyGenerate at h
  split at h
  · cases h
  rename_i n hn
  split at h
  · cases h
  rename_i v hv
  injection h with h
  subst h
  refine ⟨v, by rw [value_eq]; exact congrArg _ ((find_put ..).trans (if_pos rfl)), ?_⟩
  rw [hr _ _ hv, value_eq, find_put, if_neg (show (Attr.ofBytes CKA_VALUE v).typ ≠ CKA_VALUE_LEN from (by decide : CKA_VALUE ≠ CKA_VALUE_LEN))]
  unfold Obj.getUlong at hn
  split at hn
  · cases hn
  rename_i a ha
  rw [ha]
  unfold Attr.toUlong at hn
  split at hn
  · cases hn
  split at hn
  · cases hn
  rename_i h8
  injection hn with hn
  subst hn
  exact congrArg some (ulongBytes_fromLE _ (by simpa using h8)).symm

/-- C_GenerateKey: CKA_VALUE_LEN is the length of CKA_VALUE (when the random generator answers as many bytes as
it is asked for).  Missing: the size of AES keys, `C48_generate_violation`. -/
theorem C48_generate_partial (rnd : Nat → Res Bytes) (hr : ∀ n b, rnd n = .ok b → b.length = n) (uid : Bytes)
    (kt mech : Nat) (tm : Template) (o : Obj)
    (h : generateAes rnd uid mech tm = .ok o ∨ generateGeneric rnd uid kt mech tm = .ok o ∨
      generateHotp rnd uid mech tm = .ok o) : lenTold o := by
  have fin : ∀ o1, lenTold o1 → lenTold (defaultKeyAttributes o1 mech) := by
    rintro o1 ⟨v, h1, h2⟩
    refine ⟨v, ?_, ?_⟩
    · rw [defaults_value _ _ _ (by decide) (by decide) (by decide) (by decide)]; exact h1
    · rw [defaults_value _ _ _ (by decide) (by decide) (by decide) (by decide)]; exact h2
  rcases h with h | h | h
  · unfold generateAes at h
    repeat' split at h
    all_goals first | (cases h; done) | skip
    injection h with h
    subst h
    exact fin _ (secretGenerate_told hr ‹_›)
  · unfold generateGeneric at h
    repeat' split at h
    all_goals first | (cases h; done) | skip
    injection h with h
    subst h
    exact fin _ (secretGenerate_told hr ‹_›)
  · unfold generateHotp at h
    simp only at h
    split at h
    · cases h
    split at h
    · cases h
    split at h
    · cases h
    rename_i o3 h3
    obtain ⟨v, h1, h2⟩ := fin _ (secretGenerate_told hr h3)
    split at h
    · injection h with h
      subst h
      exact ⟨v, h1, h2⟩
    · injection h with h
      subst h
      rw [value_eq] at h1 h2
      refine ⟨v, ?_, ?_⟩ <;> (rw [value_eq, find_put, if_neg (by decide)]; assumption)

/-! ## Cases that meet the hypotheses -/

def exHmacTmpl (n : Nat) : Template := [.ofUlong CKA_CLASS CKO_SECRET_KEY, .ofUlong CKA_KEY_TYPE CKK_SHA256_HMAC,
  .mk' CKA_VALUE (List.replicate n 5)]
def exHotpTmpl (n d : Nat) : Template := [.ofUlong CKA_CLASS CKO_OTP_KEY, .ofUlong CKA_KEY_TYPE CKK_HOTP,
  .ofUlong CKA_OTP_LENGTH d, .mk' CKA_VALUE (List.replicate n 5)]

theorem asks_two (a b : Nat) (l : Template) (ha : a < 2 ^ 64) (hb : b < 2 ^ 64) :
    asksKey (.ofUlong CKA_CLASS a :: .ofUlong CKA_KEY_TYPE b :: l) a b :=
  ⟨⟨[], _, _, rfl, rfl, by simp, congrArg Except.ok (fromLE_ulongBytes _ ha)⟩,
   ⟨[.ofUlong CKA_CLASS a], _, _, rfl, rfl, by simp [CkAttr.ofUlong], congrArg Except.ok (fromLE_ulongBytes _ hb)⟩⟩

example : asksKey (exHmacTmpl 32) CKO_SECRET_KEY CKK_SHA256_HMAC ∧ asksKey (exHotpTmpl 20 6) CKO_OTP_KEY CKK_HOTP :=
  ⟨asks_two _ _ _ (by decide) (by decide), asks_two _ _ _ (by decide) (by decide)⟩
example : isOk (factoriesCreate exOracle exUid (exHmacTmpl 32)) = true ∧
    isOk (factoriesCreate exOracle exUid (exHmacTmpl 31)) = false ∧
    isOk (factoriesCreate exOracle exUid (exHotpTmpl 20 6)) = true ∧
    isOk (factoriesCreate exOracle exUid (exHotpTmpl 20 8)) = true ∧
    isOk (factoriesCreate exOracle exUid (exHotpTmpl 20 9)) = false ∧
    isOk (factoriesCreate exOracle exUid (exHotpTmpl 21 8)) = false := by decide +kernel
example : isOk (keyTemplateFactory exUnwrapTmpl) = true ∧ isOk (importWrapped exMechs exUid aesF exKeyBytes exUnwrapTmpl) = true := by decide +kernel
example : isOk (simpleDerive (.xor exKeyBytes) exUid exC17c
    [.ofUlong CKA_KEY_TYPE CKK_AES, .ofUlong CKA_VALUE_LEN 16]) = true := by decide +kernel
example : isOk (agreementDerive exOracle exUid CKM_ECDH1_DERIVE
    [.ofUlong CKA_CLASS CKO_SECRET_KEY, .ofUlong CKA_KEY_TYPE CKK_AES] exKeyBytes) = true := by decide +kernel
example : isOk (generateHotp exRnd exUid CKM_HOTP_KEY_GEN [.ofUlong CKA_VALUE_LEN 32]) = true ∧
    ∀ n b, exRnd n = .ok b → b.length = n := by
  refine ⟨by decide +kernel, fun n b h => ?_⟩
  injection h with h; subst h; simp

/-! ## Violations of the full property -/

theorem ok_values {r : Res Obj} {l : List (Nat × Bytes)} (h : isOk r = true)
    (hl : (l.all fun p => value (okObj r) p.1 == some p.2) = true) : ∃ o, r = .ok o ∧ ∀ p ∈ l, value o p.1 = some p.2 := by
  cases r with
  | error e => cases h
  | ok o => exact ⟨o, rfl, fun p hp => by simpa [okObj] using List.all_eq_true.1 hl p hp⟩

theorem not_sized {o : Obj} {v : Bytes} {l : List Nat} (h : value o CKA_VALUE = some v) (hv : v.length ∉ l) : ¬ sizedIn o l := by
  rintro ⟨w, hw, hl⟩
  rw [h] at hw; injection hw with hw; subst hw; exact hv hl

/-- C_GenerateKey makes an AES key of 5 bytes. -/
theorem C48_generate_violation : ∃ o, generateAes exRnd exUid CKM_AES_KEY_GEN [.ofUlong CKA_VALUE_LEN 5] = .ok o ∧
    ¬ sizedIn o [16, 24, 32] := by
  obtain ⟨o, ho, h⟩ := ok_values (r := generateAes exRnd exUid CKM_AES_KEY_GEN [.ofUlong CKA_VALUE_LEN 5])
    (l := [(CKA_VALUE, List.replicate 5 7)]) (by decide +kernel) (by decide +kernel)
  exact ⟨o, ho, not_sized (h _ (.head _)) (by decide)⟩

/-- C_UnwrapKey makes an HMAC key for SHA-256 of 16 bytes. -/
theorem C48_unwrap_hmac_violation : ∃ F o, keyTemplateFactory (exHmacTmpl 0).dropLast = .ok F ∧
    importWrapped exMechs exUid F exKeyBytes (exHmacTmpl 0).dropLast = .ok o ∧ (CKK_SHA256_HMAC, 32) ∈ hmacSizes ∧
    asksKey (exHmacTmpl 0).dropLast CKO_SECRET_KEY CKK_SHA256_HMAC ∧ ¬ sizedIn o [32] := by
  obtain ⟨o, ho, h⟩ := ok_values (r := importWrapped exMechs exUid (genericF 32) exKeyBytes (exHmacTmpl 0).dropLast)
    (l := [(CKA_VALUE, exKeyBytes)]) (by decide +kernel) (by decide +kernel)
  exact ⟨genericF 32, o, by decide +kernel, ho, by decide, asks_two _ _ _ (by decide) (by decide),
    not_sized (h _ (.head _)) (by decide)⟩

/-- C_UnwrapKey makes a HOTP key that gives 9 digits. -/
theorem C48_unwrap_hotp_violation : ∃ F o, keyTemplateFactory (exHotpTmpl 0 9).dropLast = .ok F ∧
    importWrapped exMechs exUid F (List.replicate 20 5) (exHotpTmpl 0 9).dropLast = .ok o ∧
    asksKey (exHotpTmpl 0 9).dropLast CKO_OTP_KEY CKK_HOTP ∧ ¬ hotpProper o := by
  obtain ⟨o, ho, h⟩ := ok_values (r := importWrapped exMechs exUid hotpF (List.replicate 20 5) (exHotpTmpl 0 9).dropLast)
    (l := [(CKA_OTP_LENGTH, toLE 8 9)]) (by decide +kernel) (by decide +kernel)
  refine ⟨hotpF, o, by decide +kernel, ho, asks_two _ _ _ (by decide) (by decide), fun hp => ?_⟩
  have := hp.digits _ (h _ (.head _))
  revert this; decide

/-- C_SetAttributeValue makes an AES key of 3 bytes of which CKA_VALUE_LEN says 16. -/
theorem C48_set_violation : (setObjectAttributes aesF exAesGen [.mk' CKA_VALUE [1, 2, 3]]).1 = .ok () ∧
    lenTold exAesGen ∧
    ¬ lenTold (setObjectAttributes aesF exAesGen [.mk' CKA_VALUE [1, 2, 3]]).2 ∧
    ¬ sizedIn (setObjectAttributes aesF exAesGen [.mk' CKA_VALUE [1, 2, 3]]).2 [16, 24, 32] := by
  refine ⟨by decide +kernel, ⟨List.replicate 16 7, by decide +kernel, by decide +kernel⟩, ?_, ?_⟩
  · rintro ⟨v, h1, h2⟩
    have a : value (setObjectAttributes aesF exAesGen [.mk' CKA_VALUE [1, 2, 3]]).2 CKA_VALUE = some [1, 2, 3] := by
      decide +kernel
    have b : value (setObjectAttributes aesF exAesGen [.mk' CKA_VALUE [1, 2, 3]]).2 CKA_VALUE_LEN = some (toLE 8 16) := by
      decide +kernel
    rw [a] at h1; injection h1 with h1; subst h1
    rw [b] at h2; revert h2; decide
  · exact not_sized (v := [1, 2, 3]) (by decide +kernel) (by decide)

end Kry
