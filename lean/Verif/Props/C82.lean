import Verif.Model.MlKem
import Verif.Props.C27
import Verif.Props.C48
import Verif.Props.C81
import Verif.Proofs.Given
import Verif.Proofs.Sealing

/-!
# C82: ML-KEM

`C82_encap`, `C82_decap`: the value of the new key is the shared secret OpenSSL computes with the value (and seed) of the ML-KEM key for its parameter set, cut
to CKA_VALUE_LEN for an AES key that asks for it; the ciphertext handed out is OpenSSL's.  `C82_same`: after C_EncapsulateKey on one token and
C_DecapsulateKey of that ciphertext on another, with the two halves of a key pair and the same template, the two new keys have the same value.
`C82_size`: the length announced, the length needed and the length of the ciphertext.  `C82_refuses`: a ciphertext OpenSSL refuses gives
CKR_DEVICE_ERROR and no key.
-/

namespace Kry
open Spec

/-! ## Specification -/

/-- Operations on slot `i` that name object `n` get, whenever storage answers, an object with property `P`. -/
def Spec.Seen (C : Crypto) (s : St) (i n : Nat) (P : Obj → Prop) : Prop :=
  ∃ sl, AMap.get s.slots i = some sl ∧ ∀ e, quiet e → ∃ o, sl.token.getObjectByHandle C e n = .ok o ∧ P o

/-- The value of CKA_PARAMETER_SET (PKCS#11 3.2) and the length of a ciphertext (FIPS 203, table 3). -/
def Spec.kemNumber : KemSet → Nat × Nat
  | .k512 => (1, 768)
  | .k768 => (2, 1088)
  | .k1024 => (3, 1568)

/-- An ML-KEM public key: parameter set and value. -/
def Spec.KemPublic (set : KemSet) (ek : Bytes) (o : Obj) : Prop :=
  o.getUlong CKA_CLASS = .ok CKO_PUBLIC_KEY ∧ o.getUlong CKA_KEY_TYPE = .ok CKK_ML_KEM ∧
    o.getUlong CKA_PARAMETER_SET = .ok (kemNumber set).1 ∧ o.getBytes CKA_VALUE = .ok ek

/-- An ML-KEM private key: parameter set, value and seed, if there is one. -/
def Spec.KemPrivate (set : KemSet) (dk : Bytes) (seed : Option Bytes) (o : Obj) : Prop :=
  o.getUlong CKA_CLASS = .ok CKO_PRIVATE_KEY ∧ o.getUlong CKA_KEY_TYPE = .ok CKK_ML_KEM ∧
    o.getUlong CKA_PARAMETER_SET = .ok (kemNumber set).1 ∧ o.getBytes CKA_VALUE = .ok dk ∧ (o.getBytes CKA_SEED).toOption = seed

/-- The value of a key of type `kt` made of the secret `ss` with template `tm`. -/
inductive Spec.Taken (tm : Template) (kt : Nat) (ss : Bytes) : Bytes → Prop
  | whole (h : kt = CKK_AES → ∀ c ∈ tm, c.typ ≠ CKA_VALUE_LEN) : Taken tm kt ss ss
  | cut (l : Nat) (ha : kt = CKK_AES) (h : asksFor tm CKA_VALUE_LEN l) (hl : l ≤ ss.length) : Taken tm kt ss (ss.take l)

/-- OpenSSL's ML-KEM has the lengths of FIPS 203. -/
structure Spec.KemLens (E : KemEnv) : Prop where
  told : ∀ set ek n, E.announced set ek = some n → n = (kemNumber set).2
  given : ∀ e set ek ss ct, E.encap e set ek = some (ss, ct) → ct.length = (kemNumber set).2

/-- The keys belong together: what is encapsulated with the one, the other decapsulates. -/
def Spec.KemPair (E : KemEnv) (set : KemSet) (ek dk : Bytes) (seed : Option Bytes) : Prop :=
  ∀ e ss ct, E.encap e set ek = some (ss, ct) → E.decap set dk seed ct = some ss

/-- The call left the token of slot `i` as it was. -/
def Spec.SameToken (s s' : St) (i : Nat) : Prop :=
  ∃ sl sl', AMap.get s.slots i = some sl ∧ AMap.get s'.slots i = some sl' ∧ sl'.token = sl.token

variable {M : Mechs} {C : Crypto} {O : Oracle} {E : KemEnv}

/-! ## Reading keys -/

theorem seen_fun {s : St} {i n : Nat} {P Q : Obj → Prop} (h : Seen C s i n P) (k : Seen C s i n Q) : ∃ o, P o ∧ Q o := by
  obtain ⟨sl, g, h⟩ := h
  obtain ⟨sl', g', k⟩ := k
  rw [g] at g'; injection g' with g'; subst g'
  obtain ⟨o, h1, h2⟩ := h quietEnv (fun _ => rfl)
  obtain ⟨o', k1, k2⟩ := k quietEnv (fun _ => rfl)
  rw [h1] at k1; injection k1 with k1; subst k1
  exact ⟨o, h2, k2⟩

/-- What was read once is read whenever storage answers. -/
theorem byHandle_mono {t : Token} {e e' : Env} {n : Nat} {o : Obj} (q : quiet e') (h : t.getObjectByHandle C e n = .ok o) :
    t.getObjectByHandle C e' n = .ok o := by
  unfold Token.getObjectByHandle at h ⊢
  cases hs : AMap.get t.sess n with
  | some x => simp only [hs] at h ⊢; exact h
  | none =>
    simp only [hs] at h ⊢
    cases hf : t.store.fetch C e t.handles n [] with
    | error r => simp only [hf] at h; cases h
    | ok x => simp only [hf, fetch_mono q hf] at h ⊢; exact h

theorem value_notEphemeral : registry.all (fun p => decide (kept p.2 CKA_VALUE)) = true := by decide +kernel

theorem fresh_find {o : Obj} (h : Regular o) (t : Nat) : (fresh o).find t = o.find t := by
  have e : (fresh o).attrs = o.attrs := oneUid_same _ h.once
  unfold Obj.find
  rw [e]

/-- A new object, as it is read. -/
theorem inserted_value {e : Env} {k n : Nat} {t t' : Token} {o : Obj} (ho : HOk t) (ok : TblOk t.store.db.objs) (ok' : TblOk t'.store.db.objs)
    (hz : Zero o) (hr : Regular o) (hi : t.insertObject C e k o = (.ok n, t')) :
    ∀ e2, quiet e2 → ∃ o2, t'.getObjectByHandle C e2 n = .ok o2 ∧ value o2 CKA_VALUE = value o CKA_VALUE := by
  intro e2 q
  have ins := (ins_ok ho hz hi).2.1
  have ha := aci_insert (C := C) e t k o
  rw [hi] at ha
  by_cases ht : o.isToken = true
  · obtain ⟨F, u, r, hF, hu, hrow, hget, hlog, hread⟩ := insert_stored ok hz ht hr hi
    have same : t'.sess = t.sess ∧ t'.logged = t.logged := by
      unfold Token.insertObject at hi
      rw [if_pos ht] at hi
      split at hi
      · cases hi
      · simp only at hi
        injection hi with _ h2
        subst h2
        exact ⟨rfl, rfl⟩
    have se : AMap.get t'.sess n = none := by
      rw [same.1]
      cases hx : AMap.get t.sess n with
      | none => rfl
      | some x =>
        obtain ⟨_, u', hu', _⟩ := ho.sess n x hx
        have := (ho.hs.low n u' hu').2
        have := ins.1
        omega
    have hlog' : t'.loggedIn = true := by
      unfold Token.loggedIn at hlog ⊢
      rw [same.2]; exact hlog
    have ha : t'.store.aci = t.store.aci := ha
    obtain ⟨o2, f1, _, _, f4⟩ := hread (e2 := e2) (s2 := t'.store) (h2 := t'.handles) (n2 := n) (hints := []) ok' hrow
      (by rw [ha]; exact ⟨rfl, fun _ => ⟨rfl, rfl⟩⟩) hget q (by intro t ht; cases ht)
    refine ⟨o2, ?_, ?_⟩
    · unfold Token.getObjectByHandle
      simp only [se, f1, hlog', Bool.not_true, Bool.false_and, Bool.false_eq_true, if_false]
    · obtain ⟨key, hmem⟩ := objFactory_mem hF
      have hk := of_decide_eq_true (List.all_eq_true.1 value_notEphemeral _ hmem)
      rw [value_eq, value_eq, f4, if_pos ⟨.inl rfl, hk⟩]
      cases o.find CKA_VALUE <;> simp
  · unfold Token.insertObject at hi
    rw [if_neg ht] at hi
    simp only at hi
    split at hi
    · cases hi
    · split at hi
      · cases hi
      · injection hi with h1 h2
        injection h1 with h1
        subst h2; subst h1
        have ht : o.isToken = false := by simpa using ht
        refine ⟨{ o with handle := t.handles.bump.1, session := k }, ?_, rfl⟩
        unfold Token.getObjectByHandle
        simp only [AMap.get_insert, if_true]
        rw [if_neg]
        intro hb
        simp only [Bool.and_eq_true] at hb
        have : o.isToken = true := hb.1.2
        rw [ht] at this
        cases this

/-! ## The import of the secret -/

theorem aesKind_type : registry.all (fun p => decide (p.2.kind = .aes → p.1.2 = CKK_AES)) = true := by decide +kernel

theorem import_taken {uid ss : Bytes} {tm : Template} {kt : Nat} {F : Factory} {o : Obj} (hq : asksKey tm CKO_SECRET_KEY kt)
    (hF : keyTemplateFactory tm = .ok F) (h : importWrapped M uid F ss tm = .ok o) :
    Regular o ∧ ∃ v, value o CKA_VALUE = some v ∧ Taken tm kt ss v := by
  have hg := keyTemplate_factory hq hF
  have hmem := getFactory_mem hg
  have imp : ∀ {d}, importSecret F uid d tm = .ok o → Regular o ∧ value o CKA_VALUE = some d := by
    intro d hd
    refine ⟨regular_importSecret hmem hd, ?_⟩
    unfold importSecret at hd
    split at hd; · cases hd
    exact (setKey_sized hd).1
  unfold importWrapped at h
  rcases getFactory_secret hg with hk | ⟨n, hk⟩
  · simp only [hk] at h
    have hkt : kt = CKK_AES := of_decide_eq_true (List.all_eq_true.1 aesKind_type _ hmem) hk
    unfold importAes at h
    simp only at h
    split at h; · cases h
    rename_i d hd
    split at h; · cases h
    obtain ⟨h1, h2⟩ := imp h
    refine ⟨h1, d, h2, ?_⟩
    split at hd
    · rename_i hn
      injection hd with hd
      subst hd
      exact .whole fun _ => findA_none (by unfold Template.findA; exact hn)
    · rename_i c hc
      split at hd; · cases hd
      rename_i l hl
      split at hd; · cases hd
      rename_i hle
      injection hd with hd
      subst hd
      exact .cut l hkt (findA_asks (by unfold Template.findA; exact hc) hl) (by omega)
  · simp only [hk] at h
    obtain ⟨h1, h2⟩ := imp h
    refine ⟨h1, ss, h2, .whole fun he => ?_⟩
    rw [he] at hg
    rw [getFactory_aes hg] at hk
    cases hk

theorem taken_fun {tm : Template} {kt : Nat} {ss v w : Bytes} (h : Taken tm kt ss v) (k : Taken tm kt ss w) : v = w := by
  have absent : ∀ {l}, asksFor tm CKA_VALUE_LEN l → ¬ ∀ c ∈ tm, c.typ ≠ CKA_VALUE_LEN := by
    rintro l ⟨pre, c, post, rfl, hc, _, _⟩ hn
    exact hn c (by simp) hc
  cases h with
  | whole h => cases k with
    | whole _ => rfl
    | cut l ha hl _ => exact absurd (h ha) (absent hl)
  | cut l ha hl _ => cases k with
    | whole k => exact absurd (k ha) (absent hl)
    | cut l' _ hl' _ => rw [asksFor_fun hl hl']

/-! ## The mechanism -/

theorem kemSet_ok {p : Nat} {set : KemSet} (h : kemSet p = .ok set) : p = (kemNumber set).1 := by
  unfold kemSet at h
  repeat' split at h
  all_goals first | (cases h; done) | (injection h with h; subst h; assumption)

theorem kemSet_number (set : KemSet) : kemSet (kemNumber set).1 = .ok set := by cases set <;> rfl

theorem ctBytes_eq (set : KemSet) : set.ctBytes = (kemNumber set).2 := by cases set <;> rfl

theorem loadSet_ok {k : Obj} {cls : Nat} {set : KemSet} (h : kemLoadSet k cls = .ok set) :
    k.getUlong CKA_CLASS = .ok cls ∧ k.getUlong CKA_KEY_TYPE = .ok CKK_ML_KEM ∧ k.getUlong CKA_PARAMETER_SET = .ok (kemNumber set).1 := by
  unfold kemLoadSet at h
  split at h; · cases h
  rename_i kt hkt
  split at h; · cases h
  rename_i hk
  split at h; · cases h
  rename_i c hc
  split at h; · cases h
  rename_i hcc
  split at h; · cases h
  rename_i p hp
  rw [← kemSet_ok h, hp, hc, hkt]
  simp only [ne_eq, Decidable.not_not] at hk hcc
  rw [hk, hcc]
  exact ⟨rfl, rfl, rfl⟩

theorem encapLen_ok {k : Obj} {n : Nat} (h : kemEncapLen k = .ok n) :
    ∃ set, k.getUlong CKA_PARAMETER_SET = .ok (kemNumber set).1 ∧ n = (kemNumber set).2 := by
  unfold kemEncapLen at h
  split at h; · cases h
  split at h; · cases h
  split at h; · cases h
  rename_i p hp
  split at h; · cases h
  rename_i set hs
  injection h with h
  exact ⟨set, by rw [hp, kemSet_ok hs], by rw [← h, ctBytes_eq]⟩

theorem encap_ok {e : Env} {room : Nat} {k : Obj} {ss ct : Bytes} (h : kemEncap E e room k = .ok (ss, ct)) :
    ∃ set ek, KemPublic set ek k ∧ E.encap e set ek = some (ss, ct) := by
  unfold kemEncap at h
  split at h; · cases h
  rename_i set hs
  split at h; · cases h
  rename_i ek hek
  split at h; · cases h
  split at h; · cases h
  split at h; · cases h
  split at h; · cases h
  rename_i x hx
  injection h with h
  subst h
  obtain ⟨h1, h2, h3⟩ := loadSet_ok hs
  exact ⟨set, ek, ⟨h1, h2, h3, hek⟩, hx⟩

theorem decap_ok {k : Obj} {ss ct : Bytes} (h : kemDecap E k ct = .ok ss) :
    ∃ set dk seed, KemPrivate set dk seed k ∧ E.decap set dk seed ct = some ss := by
  unfold kemDecap at h
  split at h; · cases h
  rename_i set hs
  split at h; · cases h
  rename_i dk hdk
  split at h; · cases h
  split at h; · cases h
  rename_i x hx
  injection h with h
  subst h
  obtain ⟨h1, h2, h3⟩ := loadSet_ok hs
  refine ⟨set, dk, _, ⟨h1, h2, h3, hdk, ?_⟩, hx⟩
  unfold kemSeed
  cases k.getBytes CKA_SEED <;> rfl

/-! ## The calls -/

theorem encap_shape (d : List (Nat × Db)) (hd : ∀ p ∈ d, TblOk p.2.objs) (tr : Trace) (e : Env) (h i key m n kt : Nat) (tm : Template)
    (out : Option Nat) (ct : Bytes) (hs : onSlot (withKem M E) C O (after (withKem M E) C O d tr) h i) (hq : asksKey tm CKO_SECRET_KEY kt)
    (hok : (step (withKem M E) C O e (after (withKem M E) C O d tr) (.op h (.encapsulate m key tm out))).1 = .handleBytes n ct) :
    ∃ set ek e' ss v len, Seen C (after (withKem M E) C O d tr) i key (KemPublic set ek) ∧ E.encap e' set ek = some (ss, ct) ∧
      Taken tm kt ss v ∧
      Seen C (step (withKem M E) C O e (after (withKem M E) C O d tr) (.op h (.encapsulate m key tm out))).2 i n (fun o => value o CKA_VALUE = some v) ∧
      out = some len ∧ (kemNumber set).2 ≤ len := by
  have hi : Inv (after (withKem M E) C O d tr) := inv_reach _ O d tr
  have ht : TInv (after (withKem M E) C O d tr) := tinv_reach _ O hd tr
  have hh : HInv (after (withKem M E) C O d tr) := hinv_reach _ O d tr
  generalize after (withKem M E) C O d tr = s at *
  obtain ⟨sl, x, hg, h1, h2⟩ := getSession_live hi ((onSlot_iff hi).1 hs)
  have ht' := tinv_step (C := C) (withKem M E) O e s (.op h (.encapsulate m key tm out)) hi ht
  have shape : ∃ k set ek e' ss len F o sl', sl.token.getObjectByHandle C (e.sub 0) key = .ok k ∧ KemPublic set ek k ∧
      E.encap e' set ek = some (ss, ct) ∧ out = some len ∧ (kemNumber set).2 ≤ len ∧ keyTemplateFactory tm = .ok F ∧
      importWrapped (withKem M E) (e.sub 2).uid F ss tm = .ok o ∧
      AMap.get (step (withKem M E) C O e s (.op h (.encapsulate m key tm out))).2.slots i = some sl' ∧
      sl.token.insertObject C (e.sub 3) h (fresh o) = (.ok n, sl'.token) := by
    clear ht'
    unfold step at hok ⊢
    simp only [hg, opStep] at hok ⊢
    revert hok
    unfold fnEncap
    split
    · nofun
    split
    · nofun
    split
    · nofun
    rename_i k hk
    split
    · nofun
    split
    · nofun
    rename_i F hF
    split
    · nofun
    split
    · nofun
    rename_i len hlen
    cases out with
    | none => nofun
    | some room =>
      simp only
      by_cases hroom : room < len
      · rw [if_pos hroom]; nofun
      rw [if_neg hroom]
      split
      · nofun
      split
      · nofun
      rename_i ss ct' hen
      split
      · nofun
      rename_i o ho
      generalize hins : sl.token.insertObject C (e.sub 3) h (fresh o) = p
      obtain ⟨r, t'⟩ := p
      cases r with
      | error r => nofun
      | ok n' =>
        simp only
        intro hok
        injection hok with hok1 hok2
        subst hok1; subst hok2
        have hlen : kemEncapLen k = .ok len := hlen
        have hen : kemEncap E (e.sub 1) len k = .ok (ss, ct') := by
          simp only [withKem, hlen] at hen
          exact hen
        obtain ⟨set, ek, hp, hx⟩ := encap_ok hen
        obtain ⟨set', hs', hl'⟩ := encapLen_ok hlen
        have : (kemNumber set).1 = (kemNumber set').1 := by
          have := hp.2.2.1
          rw [hs'] at this
          injection this with this
          exact this.symm
        have : set = set' := by
          have e1 := kemSet_number set
          rw [this, kemSet_number] at e1
          injection e1 with e1
          exact e1.symm
        subst this
        exact ⟨k, set, ek, _, ss, room, F, o, _, hk, hp, hx, rfl, by omega, hF, ho, (get_setSlot h1).trans (if_pos rfl), hins⟩
  obtain ⟨k, set, ek, e', ss, len, F, o, sl', a1, a2, a3, a4, a5, a6, a7, a8, a9⟩ := shape
  obtain ⟨b1, v, b2, b3⟩ := import_taken hq a6 a7
  refine ⟨set, ek, e', ss, v, len, ⟨sl, h1, fun e2 q => ⟨k, byHandle_mono q a1, a2⟩⟩, a3, b3, ⟨sl', a8, fun e2 q => ?_⟩, a4, a5⟩
  obtain ⟨o2, c1, c2⟩ := inserted_value (hh i sl h1).ok (ht.slots i sl h1) (ht'.slots i sl' a8) (zero_fresh o) (regular_fresh b1) a9 e2 q
  refine ⟨o2, c1, ?_⟩
  show value o2 CKA_VALUE = some v
  rw [c2, value_eq, fresh_find b1, ← value_eq, b2]

/-- **C82** for C_EncapsulateKey: the ciphertext is what OpenSSL gives for the value of the named ML-KEM public key and its parameter set, and the new
key has the secret that comes with it (cut to CKA_VALUE_LEN for an AES key) as its value. -/
theorem C82_encap (d : List (Nat × Db)) (hd : ∀ p ∈ d, TblOk p.2.objs) (tr : Trace) (e : Env) (h i key m n kt : Nat) (tm : Template)
    (out : Option Nat) (ct : Bytes) (hs : onSlot (withKem M E) C O (after (withKem M E) C O d tr) h i) (hq : asksKey tm CKO_SECRET_KEY kt)
    (hok : (step (withKem M E) C O e (after (withKem M E) C O d tr) (.op h (.encapsulate m key tm out))).1 = .handleBytes n ct) :
    ∃ set ek e' ss v, Seen C (after (withKem M E) C O d tr) i key (KemPublic set ek) ∧ E.encap e' set ek = some (ss, ct) ∧
      Taken tm kt ss v ∧
      Seen C (step (withKem M E) C O e (after (withKem M E) C O d tr) (.op h (.encapsulate m key tm out))).2 i n
        (fun o => value o CKA_VALUE = some v) := by
  obtain ⟨set, ek, e', ss, v, len, h1, h2, h3, h4, _⟩ := encap_shape d hd tr e h i key m n kt tm out ct hs hq hok
  exact ⟨set, ek, e', ss, v, h1, h2, h3, h4⟩

/-- **C82** for C_DecapsulateKey. -/
theorem C82_decap (d : List (Nat × Db)) (hd : ∀ p ∈ d, TblOk p.2.objs) (tr : Trace) (e : Env) (h i key m n kt : Nat) (tm : Template)
    (ct : Bytes) (hs : onSlot (withKem M E) C O (after (withKem M E) C O d tr) h i) (hq : asksKey tm CKO_SECRET_KEY kt)
    (hok : (step (withKem M E) C O e (after (withKem M E) C O d tr) (.op h (.decapsulate m key ct tm))).1 = .handle n) :
    ∃ set dk seed ss v, Seen C (after (withKem M E) C O d tr) i key (KemPrivate set dk seed) ∧ E.decap set dk seed ct = some ss ∧
      Taken tm kt ss v ∧
      Seen C (step (withKem M E) C O e (after (withKem M E) C O d tr) (.op h (.decapsulate m key ct tm))).2 i n
        (fun o => value o CKA_VALUE = some v) := by
  have hi : Inv (after (withKem M E) C O d tr) := inv_reach _ O d tr
  have ht : TInv (after (withKem M E) C O d tr) := tinv_reach _ O hd tr
  have hh : HInv (after (withKem M E) C O d tr) := hinv_reach _ O d tr
  generalize after (withKem M E) C O d tr = s at *
  obtain ⟨sl, x, hg, h1, h2⟩ := getSession_live hi ((onSlot_iff hi).1 hs)
  have ht' := tinv_step (C := C) (withKem M E) O e s (.op h (.decapsulate m key ct tm)) hi ht
  have shape : ∃ k set dk seed ss F o sl', sl.token.getObjectByHandle C (e.sub 0) key = .ok k ∧ KemPrivate set dk seed k ∧
      E.decap set dk seed ct = some ss ∧ keyTemplateFactory tm = .ok F ∧
      importWrapped (withKem M E) (e.sub 2).uid F ss tm = .ok o ∧
      AMap.get (step (withKem M E) C O e s (.op h (.decapsulate m key ct tm))).2.slots i = some sl' ∧
      sl.token.insertObject C (e.sub 3) h (fresh o) = (.ok n, sl'.token) := by
    clear ht'
    unfold step at hok ⊢
    simp only [hg, opStep] at hok ⊢
    revert hok
    unfold fnDecap
    split
    · nofun
    split
    · nofun
    split
    · nofun
    rename_i k hk
    split
    · nofun
    split
    · nofun
    rename_i F hF
    split
    · nofun
    split
    · nofun
    split
    · nofun
    rename_i ss hde
    split
    · nofun
    rename_i o ho
    generalize hins : sl.token.insertObject C (e.sub 3) h (fresh o) = p
    obtain ⟨r, t'⟩ := p
    cases r with
    | error r => nofun
    | ok n' =>
      intro hok
      injection hok with hok1
      subst hok1
      have hde : kemDecap E k ct = .ok ss := hde
      obtain ⟨set, dk, seed, hp, hx⟩ := decap_ok hde
      exact ⟨k, set, dk, seed, ss, F, o, _, hk, hp, hx, hF, ho, (get_setSlot h1).trans (if_pos rfl), hins⟩
  obtain ⟨k, set, dk, seed, ss, F, o, sl', a1, a2, a3, a6, a7, a8, a9⟩ := shape
  obtain ⟨b1, v, b2, b3⟩ := import_taken hq a6 a7
  refine ⟨set, dk, seed, ss, v, ⟨sl, h1, fun e2 q => ⟨k, byHandle_mono q a1, a2⟩⟩, a3, b3, ⟨sl', a8, fun e2 q => ?_⟩⟩
  obtain ⟨o2, c1, c2⟩ := inserted_value (hh i sl h1).ok (ht.slots i sl h1) (ht'.slots i sl' a8) (zero_fresh o) (regular_fresh b1) a9 e2 q
  refine ⟨o2, c1, ?_⟩
  show value o2 CKA_VALUE = some v
  rw [c2, value_eq, fresh_find b1, ← value_eq, b2]

theorem public_fun {set set' : KemSet} {ek ek' : Bytes} {o : Obj} (h : KemPublic set ek o) (k : KemPublic set' ek' o) : set = set' ∧ ek = ek' := by
  obtain ⟨_, _, h3, h4⟩ := h
  obtain ⟨_, _, k3, k4⟩ := k
  rw [h3] at k3; injection k3 with k3
  rw [h4] at k4; injection k4 with k4
  have e1 := kemSet_number set
  rw [k3, kemSet_number] at e1
  injection e1 with e1
  exact ⟨e1.symm, k4⟩

theorem private_fun {set set' : KemSet} {dk dk' : Bytes} {seed seed' : Option Bytes} {o : Obj} (h : KemPrivate set dk seed o)
    (k : KemPrivate set' dk' seed' o) : set = set' ∧ dk = dk' ∧ seed = seed' := by
  obtain ⟨_, _, h3, h4, h5⟩ := h
  obtain ⟨_, _, k3, k4, k5⟩ := k
  rw [h3] at k3; injection k3 with k3
  rw [h4] at k4; injection k4 with k4
  have e1 := kemSet_number set
  rw [k3, kemSet_number] at e1
  injection e1 with e1
  exact ⟨e1.symm, k4, h5.symm.trans k5⟩

/-- **C82**: the two sides get the same key.  The two histories may be those of two tokens, with whatever else their mechanisms are. -/
theorem C82_same {M₁ M₂ : Mechs} {C₁ C₂ : Crypto} {O₁ O₂ : Oracle} (d₁ d₂ : List (Nat × Db)) (hd₁ : ∀ p ∈ d₁, TblOk p.2.objs)
    (hd₂ : ∀ p ∈ d₂, TblOk p.2.objs) (tr₁ tr₂ : Trace) (e₁ e₂ : Env) (h₁ h₂ i₁ i₂ key₁ key₂ m₁ m₂ n₁ n₂ kt : Nat) (tm : Template) (out : Option Nat)
    (ct : Bytes) (hs₁ : onSlot (withKem M₁ E) C₁ O₁ (after (withKem M₁ E) C₁ O₁ d₁ tr₁) h₁ i₁)
    (hs₂ : onSlot (withKem M₂ E) C₂ O₂ (after (withKem M₂ E) C₂ O₂ d₂ tr₂) h₂ i₂) (hq : asksKey tm CKO_SECRET_KEY kt)
    (set : KemSet) (ek dk : Bytes) (seed : Option Bytes) (hp : KemPair E set ek dk seed)
    (hk₁ : Seen C₁ (after (withKem M₁ E) C₁ O₁ d₁ tr₁) i₁ key₁ (KemPublic set ek))
    (hk₂ : Seen C₂ (after (withKem M₂ E) C₂ O₂ d₂ tr₂) i₂ key₂ (KemPrivate set dk seed))
    (hok₁ : (step (withKem M₁ E) C₁ O₁ e₁ (after (withKem M₁ E) C₁ O₁ d₁ tr₁) (.op h₁ (.encapsulate m₁ key₁ tm out))).1 = .handleBytes n₁ ct)
    (hok₂ : (step (withKem M₂ E) C₂ O₂ e₂ (after (withKem M₂ E) C₂ O₂ d₂ tr₂) (.op h₂ (.decapsulate m₂ key₂ ct tm))).1 = .handle n₂) :
    ∃ v, Seen C₁ (step (withKem M₁ E) C₁ O₁ e₁ (after (withKem M₁ E) C₁ O₁ d₁ tr₁) (.op h₁ (.encapsulate m₁ key₁ tm out))).2 i₁ n₁
        (fun o => value o CKA_VALUE = some v) ∧
      Seen C₂ (step (withKem M₂ E) C₂ O₂ e₂ (after (withKem M₂ E) C₂ O₂ d₂ tr₂) (.op h₂ (.decapsulate m₂ key₂ ct tm))).2 i₂ n₂
        (fun o => value o CKA_VALUE = some v) := by
  obtain ⟨set₁, ek₁, e', ss, v, a1, a2, a3, a4⟩ := C82_encap d₁ hd₁ tr₁ e₁ h₁ i₁ key₁ m₁ n₁ kt tm out ct hs₁ hq hok₁
  obtain ⟨set₂, dk₂, seed₂, ss₂, v₂, b1, b2, b3, b4⟩ := C82_decap d₂ hd₂ tr₂ e₂ h₂ i₂ key₂ m₂ n₂ kt tm ct hs₂ hq hok₂
  obtain ⟨o, p1, p2⟩ := seen_fun hk₁ a1
  obtain ⟨rfl, rfl⟩ := public_fun p1 p2
  obtain ⟨o, p1, p2⟩ := seen_fun hk₂ b1
  obtain ⟨rfl, rfl, rfl⟩ := private_fun p1 p2
  have := hp e' ss ct a2
  rw [b2] at this
  injection this with this
  subst this
  have := taken_fun a3 b3
  subst this
  exact ⟨v, a4, b4⟩

/-! ## Lengths -/

/-- What C_EncapsulateKey checks before it looks at the buffer: the key and the length it announces. -/
def encapReady (M : Mechs) (C : Crypto) (e : Env) (m key : Nat) (tm : Template) (x : Session) (t : Token) : Res (Obj × Factory × Nat) :=
  match roCheck x tm with
  | .error r => .error r
  | .ok () =>
    if !t.isInitialized then .error .tokenNotInitialized
    else match t.getObjectByHandle C (e.sub 0) key with
      | .error r => .error r
      | .ok k => match checkAllowed m k with
        | .error r => .error r
        | .ok () => match keyTemplateFactory tm with
          | .error r => .error r
          | .ok F => match mechWith M t m CKF_ENCAPSULATE with
            | .error r => .error r
            | .ok () => match M.encapLen k with
              | .error r => .error r
              | .ok n => .ok (k, F, n)

/-- The rest of the call. -/
def encapRest (M : Mechs) (C : Crypto) (e : Env) (h : Nat) (tm : Template) (out : Option Nat) (t : Token) (k : Obj) (F : Factory) (n : Nat) :
    Out × Token :=
  match out with
  | none => (.size n, t)
  | some have' =>
    if have' < n then (.err .bufferTooSmall, t)
    else match k.checkKeyOps CKO_PUBLIC_KEY CKK_ML_KEM CKA_ENCAPSULATE with
      | .error r => (.err r, t)
      | .ok () => match M.encapsulate (e.sub 1) k with
        | .error r => (.err r, t)
        | .ok (secret, ct) => match importWrapped M (e.sub 2).uid F secret tm with
          | .error r => (.err r, t)
          | .ok o =>
            let (r, t) := t.insertObject C (e.sub 3) h (fresh o)
            match r with
            | .error r => (.err r, t)
            | .ok n => (.handleBytes n ct, t)

theorem fnEncap_split (M : Mechs) (C : Crypto) (e : Env) (h m key : Nat) (tm : Template) (out : Option Nat) (x : Session) (t : Token) :
    fnEncap M C e h m key tm out x t = match encapReady M C e m key tm x t with
      | .error r => (.err r, t)
      | .ok (k, F, n) => encapRest M C e h tm out t k F n := by
  unfold fnEncap encapReady
  cases roCheck x tm with
  | error r => rfl
  | ok _ =>
    simp only
    by_cases hin : (!t.isInitialized) = true
    · simp only [hin, if_true]
    · simp only [hin]
      cases t.getObjectByHandle C (e.sub 0) key with
      | error r => rfl
      | ok k =>
        simp only
        cases checkAllowed m k with
        | error r => rfl
        | ok _ =>
          simp only
          cases keyTemplateFactory tm with
          | error r => rfl
          | ok F =>
            simp only
            cases mechWith M t m CKF_ENCAPSULATE with
            | error r => rfl
            | ok _ =>
              simp only
              cases M.encapLen k with
              | error r => rfl
              | ok n => rfl

theorem step_encap {s : St} {e : Env} {h i m key : Nat} {tm : Template} {out : Option Nat} {sl : Slot} {x : Session}
    (hg : s.getSession h = .ok (i, sl, x)) (hs : AMap.get s.slots i = some sl) :
    (step M C O e s (.op h (.encapsulate m key tm out))).1 = (fnEncap M C e h m key tm out x sl.token).1 ∧
      ∃ sl', AMap.get (step M C O e s (.op h (.encapsulate m key tm out))).2.slots i = some sl' ∧
        sl'.token = (fnEncap M C e h m key tm out x sl.token).2 := by
  unfold step
  simp only [hg, opStep]
  exact ⟨trivial, _, (get_setSlot hs).trans (if_pos rfl), rfl⟩

/-- **C82**, lengths.  `query`: called without a buffer, C_EncapsulateKey tells the length of a ciphertext for the parameter set of the key.  `short`:
then a smaller buffer gives CKR_BUFFER_TOO_SMALL.  Neither changes the token.  `made`: a ciphertext handed out has the length a query tells, fits the buffer, and
with any other buffer it fits the call does the same. -/
theorem C82_size (hE : KemLens E) (d : List (Nat × Db)) (tr : Trace) (e : Env) (h i key m : Nat) (tm : Template)
    (hs : onSlot (withKem M E) C O (after (withKem M E) C O d tr) h i) :
    (∀ n, (step (withKem M E) C O e (after (withKem M E) C O d tr) (.op h (.encapsulate m key tm none))).1 = .size n →
      (∃ set, Seen C (after (withKem M E) C O d tr) i key (fun o => o.getUlong CKA_PARAMETER_SET = .ok (kemNumber set).1) ∧ n = (kemNumber set).2) ∧
      SameToken (after (withKem M E) C O d tr)
        (step (withKem M E) C O e (after (withKem M E) C O d tr) (.op h (.encapsulate m key tm none))).2 i ∧
      ∀ room, room < n →
        (step (withKem M E) C O e (after (withKem M E) C O d tr) (.op h (.encapsulate m key tm (some room)))).1 = .err .bufferTooSmall ∧
        SameToken (after (withKem M E) C O d tr)
          (step (withKem M E) C O e (after (withKem M E) C O d tr) (.op h (.encapsulate m key tm (some room)))).2 i) ∧
    (∀ room n ct, (step (withKem M E) C O e (after (withKem M E) C O d tr) (.op h (.encapsulate m key tm (some room)))).1 = .handleBytes n ct →
      ct.length ≤ room ∧
      (step (withKem M E) C O e (after (withKem M E) C O d tr) (.op h (.encapsulate m key tm none))).1 = .size ct.length ∧
      ∀ room', ct.length ≤ room' →
        (step (withKem M E) C O e (after (withKem M E) C O d tr) (.op h (.encapsulate m key tm (some room')))).1 = .handleBytes n ct) := by
  have hi : Inv (after (withKem M E) C O d tr) := inv_reach _ O d tr
  generalize after (withKem M E) C O d tr = s at *
  obtain ⟨sl, x, hg, h1, h2⟩ := getSession_live hi ((onSlot_iff hi).1 hs)
  have ready : ∀ {k F n}, encapReady (withKem M E) C e m key tm x sl.token = .ok (k, F, n) →
      sl.token.getObjectByHandle C (e.sub 0) key = .ok k ∧ kemEncapLen k = .ok n := by
    intro k F n hr
    unfold encapReady at hr
    split at hr; · cases hr
    split at hr; · cases hr
    split at hr; · cases hr
    rename_i k' hk
    split at hr; · cases hr
    split at hr; · cases hr
    split at hr; · cases hr
    split at hr; · cases hr
    rename_i n' hn
    injection hr with hr
    injection hr with h1 h2
    injection h2 with h2 h3
    subst h1; subst h3
    exact ⟨hk, hn⟩
  constructor
  · intro n hok
    obtain ⟨q1, sl', q2, q3⟩ := step_encap (M := withKem M E) (C := C) (O := O) (e := e) (m := m) (key := key) (tm := tm) (out := none) hg h1
    rw [q1, fnEncap_split] at hok
    rw [fnEncap_split] at q3
    cases hr : encapReady (withKem M E) C e m key tm x sl.token with
    | error r => rw [hr] at hok; cases hok
    | ok p =>
      obtain ⟨k, F, n'⟩ := p
      rw [hr] at hok q3
      simp only [encapRest] at hok q3
      injection hok with hok
      subst hok
      obtain ⟨r1, r2⟩ := ready hr
      obtain ⟨set, r3, r4⟩ := encapLen_ok r2
      refine ⟨⟨set, ⟨sl, h1, fun e2 q => ⟨k, byHandle_mono q r1, r3⟩⟩, r4⟩, ⟨sl, sl', h1, q2, q3⟩, ?_⟩
      intro room hroom
      obtain ⟨p1, sl2, p2, p3⟩ := step_encap (M := withKem M E) (C := C) (O := O) (e := e) (m := m) (key := key) (tm := tm) (out := some room) hg h1
      rw [fnEncap_split, hr] at p1 p3
      simp only [encapRest, if_pos hroom] at p1 p3
      exact ⟨p1, sl, sl2, h1, p2, p3⟩
  · intro room n ct hok
    rw [(step_encap hg h1).1, fnEncap_split] at hok
    cases hr : encapReady (withKem M E) C e m key tm x sl.token with
    | error r => rw [hr] at hok; cases hok
    | ok p =>
      obtain ⟨k, F, n'⟩ := p
      rw [hr] at hok
      simp only [encapRest] at hok
      by_cases hroom : room < n'
      · rw [if_pos hroom] at hok; cases hok
      rw [if_neg hroom] at hok
      obtain ⟨r1, r2⟩ := ready hr
      have hlen : ct.length = n' := by
        split at hok; · cases hok
        split at hok; · cases hok
        rename_i ss ct' hen
        split at hok; · cases hok
        split at hok; · cases hok
        injection hok with _ hok
        subst hok
        simp only [withKem, r2] at hen
        obtain ⟨set, ek, p1, p2⟩ := encap_ok hen
        obtain ⟨set', r3, r4⟩ := encapLen_ok r2
        have := p1.2.2.1
        rw [r3] at this
        injection this with this
        have e1 := kemSet_number set
        rw [← this, kemSet_number] at e1
        injection e1 with e1
        subst e1
        rw [hE.given _ _ _ _ _ p2, r4]
      refine ⟨by omega, ?_, ?_⟩
      · rw [(step_encap hg h1).1, fnEncap_split, hr, hlen]; rfl
      · intro room' hroom'
        rw [(step_encap hg h1).1, fnEncap_split, hr]
        simp only [encapRest]
        rw [if_neg (by omega)]
        exact hok

/-- OpenSSL sees a buffer at least as long as the one the model of the mechanism gives it; the result is the same. -/
theorem kemEncap_room (hE : KemLens E) {e : Env} {k : Obj} {n room : Nat} (hn : kemEncapLen k = .ok n) (hr : n ≤ room) :
    kemEncap E e room k = kemEncap E e n k := by
  obtain ⟨set', r3, r4⟩ := encapLen_ok hn
  unfold kemEncap
  cases hl : kemLoadSet k CKO_PUBLIC_KEY with
  | error r => rfl
  | ok set =>
    simp only
    have e1 := (loadSet_ok hl).2.2
    rw [r3] at e1
    injection e1 with e1
    have e2 := kemSet_number set
    rw [← e1, kemSet_number] at e2
    injection e2 with e2
    subst e2
    cases k.getBytes CKA_VALUE with
    | error r => rfl
    | ok ek =>
      simp only
      cases E.loadPub set' ek with
      | error r => rfl
      | ok _ =>
        simp only
        cases ha : E.announced set' ek with
        | none => rfl
        | some a =>
          simp only
          have := hE.told _ _ _ ha
          rw [if_neg (by omega), if_neg (by omega)]

/-! ## Refusals -/

theorem step_decap {s : St} {e : Env} {h i m key : Nat} {tm : Template} {ct : Bytes} {sl : Slot} {x : Session}
    (hg : s.getSession h = .ok (i, sl, x)) (hs : AMap.get s.slots i = some sl) :
    (step M C O e s (.op h (.decapsulate m key ct tm))).1 = Out.ofHandle (fnDecap M C e h m key ct tm x sl.token).1 ∧
      ∃ sl', AMap.get (step M C O e s (.op h (.decapsulate m key ct tm))).2.slots i = some sl' ∧
        sl'.token = (fnDecap M C e h m key ct tm x sl.token).2 := by
  unfold step
  simp only [hg, opStep]
  exact ⟨trivial, _, (get_setSlot hs).trans (if_pos rfl), rfl⟩

/-- **C82**, refusals.  A ciphertext OpenSSL does not decapsulate with the private key gives an error and leaves the token as it was; where another
ciphertext would have given a key, the error is CKR_DEVICE_ERROR. -/
theorem C82_refuses (d : List (Nat × Db)) (tr : Trace) (e : Env) (h i key m : Nat) (tm : Template) (ct : Bytes)
    (hs : onSlot (withKem M E) C O (after (withKem M E) C O d tr) h i) (set : KemSet) (dk : Bytes) (seed : Option Bytes)
    (hk : Seen C (after (withKem M E) C O d tr) i key (KemPrivate set dk seed)) (hn : E.decap set dk seed ct = none) :
    ∃ r, (step (withKem M E) C O e (after (withKem M E) C O d tr) (.op h (.decapsulate m key ct tm))).1 = .err r ∧
      SameToken (after (withKem M E) C O d tr) (step (withKem M E) C O e (after (withKem M E) C O d tr) (.op h (.decapsulate m key ct tm))).2 i ∧
      ∀ ct' n, (step (withKem M E) C O e (after (withKem M E) C O d tr) (.op h (.decapsulate m key ct' tm))).1 = .handle n → r = .deviceError := by
  have hi : Inv (after (withKem M E) C O d tr) := inv_reach _ O d tr
  generalize after (withKem M E) C O d tr = s at *
  obtain ⟨sl, x, hg, h1, h2⟩ := getSession_live hi ((onSlot_iff hi).1 hs)
  obtain ⟨q1, sl', q2, q3⟩ := step_decap (M := withKem M E) (C := C) (O := O) (e := e) (m := m) (key := key) (tm := tm) (ct := ct) hg h1
  have fin : ∀ {r}, fnDecap (withKem M E) C e h m key ct tm x sl.token = (.error r, sl.token) →
      (∀ ct' n, (step (withKem M E) C O e s (.op h (.decapsulate m key ct' tm))).1 = .handle n → r = .deviceError) →
      ∃ r, (step (withKem M E) C O e s (.op h (.decapsulate m key ct tm))).1 = .err r ∧
      SameToken s (step (withKem M E) C O e s (.op h (.decapsulate m key ct tm))).2 i ∧
      ∀ ct' n, (step (withKem M E) C O e s (.op h (.decapsulate m key ct' tm))).1 = .handle n → r = .deviceError := by
    intro r hr hd
    rw [hr] at q1 q3
    exact ⟨r, q1, ⟨sl, sl', h1, q2, q3⟩, hd⟩
  have other : ∀ ct' n, (step (withKem M E) C O e s (.op h (.decapsulate m key ct' tm))).1 = .handle n →
      ∃ t', fnDecap (withKem M E) C e h m key ct' tm x sl.token = (.ok n, t') := by
    intro ct' n hok
    rw [(step_decap hg h1).1] at hok
    generalize fnDecap (withKem M E) C e h m key ct' tm x sl.token = p at hok
    obtain ⟨r, t'⟩ := p
    cases r with
    | error r => cases hok
    | ok n' => injection hok with hok; subst hok; exact ⟨t', rfl⟩
  have bad : ∀ k, KemPrivate set dk seed k → ∃ r, kemDecap E k ct = .error r ∧ ∀ ct' ss, kemDecap E k ct' = .ok ss → r = .deviceError := by
    intro k hk
    unfold kemDecap
    cases hl : kemLoadSet k CKO_PRIVATE_KEY with
    | error r => exact ⟨r, rfl, nofun⟩
    | ok set' =>
      obtain ⟨k1, k2, k3⟩ := loadSet_ok hl
      have e1 := hk.2.2.1
      rw [k3] at e1
      injection e1 with e1
      have e2 := kemSet_number set'
      rw [e1, kemSet_number] at e2
      injection e2 with e2
      subst e2
      simp only [hk.2.2.2.1]
      have hseed : kemSeed k = seed := by
        rw [← hk.2.2.2.2]; unfold kemSeed; cases k.getBytes CKA_SEED <;> rfl
      rw [hseed]
      cases E.loadPriv set dk seed with
      | error r => exact ⟨r, rfl, nofun⟩
      | ok _ => exact ⟨.deviceError, by simp only [hn], fun _ _ _ => rfl⟩
  unfold fnDecap at fin other
  cases hro : roCheck x tm with
  | error r =>
    simp only [hro] at fin other
    exact fin rfl fun ct' n ho => by obtain ⟨t', ho⟩ := other ct' n ho; cases ho
  | ok _ =>
    simp only [hro] at fin other
    by_cases hin : (!sl.token.isInitialized) = true
    · simp only [hin, if_true] at fin other
      exact fin rfl fun ct' n ho => by obtain ⟨t', ho⟩ := other ct' n ho; cases ho
    simp only [hin] at fin other
    cases hb : sl.token.getObjectByHandle C (e.sub 0) key with
    | error r =>
      simp only [hb] at fin other
      exact fin rfl fun ct' n ho => by obtain ⟨t', ho⟩ := other ct' n ho; cases ho
    | ok k =>
      simp only [hb] at fin other
      have hkk : KemPrivate set dk seed k := by
        obtain ⟨_, g1, g2⟩ := hk
        rw [h1] at g1; injection g1 with g1; subst g1
        obtain ⟨o, g3, g4⟩ := g2 quietEnv (fun _ => rfl)
        have := byHandle_mono (e' := quietEnv) (fun _ => rfl) hb
        rw [g3] at this; injection this with this; subst this
        exact g4
      obtain ⟨r, b1, b2⟩ := bad k hkk
      cases ha : checkAllowed m k with
      | error r =>
        simp only [ha] at fin other
        exact fin rfl fun ct' n ho => by obtain ⟨t', ho⟩ := other ct' n ho; cases ho
      | ok _ =>
        simp only [ha] at fin other
        cases hF : keyTemplateFactory tm with
        | error r =>
          simp only [hF] at fin other
          exact fin rfl fun ct' n ho => by obtain ⟨t', ho⟩ := other ct' n ho; cases ho
        | ok F =>
          simp only [hF] at fin other
          cases hm : mechWith (withKem M E) sl.token m CKF_DECAPSULATE with
          | error r =>
            simp only [hm] at fin other
            exact fin rfl fun ct' n ho => by obtain ⟨t', ho⟩ := other ct' n ho; cases ho
          | ok _ =>
            simp only [hm] at fin other
            cases hc : k.checkKeyOps CKO_PRIVATE_KEY CKK_ML_KEM CKA_DECAPSULATE with
            | error r =>
              simp only [hc] at fin other
              exact fin rfl fun ct' n ho => by obtain ⟨t', ho⟩ := other ct' n ho; cases ho
            | ok _ =>
              have hb1 : (withKem M E).decapsulate (e.sub 1) k ct = .error r := b1
              simp only [hc, hb1] at fin other
              refine fin rfl fun ct' n ho => ?_
              obtain ⟨t', ho⟩ := other ct' n ho
              cases hd : (withKem M E).decapsulate (e.sub 1) k ct' with
              | error r => simp only [hd] at ho; cases ho
              | ok ss => exact b2 ct' ss hd

/-! ## A case -/

/-- A toy ML-KEM: the ciphertext starts with a random byte, the secret is that byte plus the first byte of the key. -/
def toyKem : KemEnv where
  loadPub := fun _ _ => .ok ()
  loadPriv := fun _ _ _ => .ok ()
  announced := fun set _ => some set.ctBytes
  encap := fun e set ek =>
    some (List.replicate 32 ((e.rnd 1).headD 0 + ek.headD 0), (e.rnd 1).headD 0 :: List.replicate (set.ctBytes - 1) 0)
  decap := fun set dk _ ct => if ct.length = set.ctBytes then some (List.replicate 32 (ct.headD 0 + dk.headD 0)) else none

theorem toyKem_lens : KemLens toyKem := by
  constructor
  · intro set ek n h
    injection h with h
    rw [← h, ctBytes_eq]
  · intro e set ek ss ct h
    injection h with h
    injection h with _ h
    rw [← h, List.length_cons, List.length_replicate]
    cases set <;> rfl

theorem toyKem_pair (set : KemSet) (k : Bytes) (seed : Option Bytes) : KemPair toyKem set k k seed := by
  intro e ss ct h
  have hl := toyKem_lens.given _ _ _ _ _ h
  injection h with h
  injection h with h1 h2
  show (if ct.length = set.ctBytes then _ else none) = _
  rw [if_pos (by rw [hl, ctBytes_eq]), ← h1, ← h2]
  rfl

def exKem : Mechs := withKem exMechs2 toyKem

/-- A template for an AES key of 16 bytes, kept on the token and readable. -/
def exKemTm : Template := exAesIn ++ [.ofUlong CKA_VALUE_LEN 16, .ofBool CKA_TOKEN true, .ofBool CKA_SENSITIVE false, .ofBool CKA_EXTRACTABLE true]

theorem exKemTm_asks : asksKey exKemTm CKO_SECRET_KEY CKK_AES :=
  ⟨⟨[], _, _, rfl, rfl, by simp, rfl⟩, ⟨[.ofUlong CKA_CLASS CKO_SECRET_KEY], _, _, rfl, rfl, by decide, rfl⟩⟩

/-- The start of the ciphertext and the handle, so that the example stays readable. -/
def kemShort : Out → Out
  | .handleBytes n ct => .handleBytes n (ct.take 2)
  | o => o

set_option maxRecDepth 20000 in
/-- The public key 14, the private key 15: the length asked for, a short buffer, a success, the other side with the ciphertext given and with a short
one. -/
example : ((outs exKem exCrypto exOracle (St.init []) (exC25b ++ [
    (exEnv 11, .op 1 (.encapsulate CKM_ML_KEM 14 exKemTm none)),
    (exEnv 12, .op 1 (.encapsulate CKM_ML_KEM 14 exKemTm (some 767))),
    (exEnv 13, .op 1 (.encapsulate CKM_ML_KEM 14 exKemTm (some 1000))),
    (exEnv 14, .op 1 (.decapsulate CKM_ML_KEM 15 (13 :: List.replicate 767 0) exKemTm)),
    (exEnv 14, .op 1 (.decapsulate CKM_ML_KEM 15 [13, 0] exKemTm)),
    (exEnv 14, .op 1 (.decapsulate CKM_ML_KEM 14 (13 :: List.replicate 767 0) exKemTm)),
    (exEnv 15, .sess 1 (.getAttr 16 [⟨CKA_VALUE, false, 16, List.replicate 16 9⟩])),
    (exEnv 16, .sess 1 (.getAttr 17 [⟨CKA_VALUE, false, 16, List.replicate 16 9⟩]))])).drop 11).map kemShort =
  [.size 768, .err .bufferTooSmall, .handleBytes 16 [13, 0], .handle 17, .err .deviceError, .err .keyTypeInconsistent] ++
    [.attrs (.ok ()) [⟨CKA_VALUE, false, 16, List.replicate 16 14⟩], .attrs (.ok ()) [⟨CKA_VALUE, false, 16, List.replicate 16 14⟩]] := by
  decide +kernel

/-- The object, if it can be read. -/
def readAt (C : Crypto) (s : St) (i n : Nat) : Option Obj :=
  (AMap.get s.slots i).bind fun sl => (sl.token.getObjectByHandle C quietEnv n).toOption

theorem seen_read {s : St} {i n : Nat} {P : Obj → Prop} {o : Obj} (h : readAt C s i n = some o) (hp : P o) : Seen C s i n P := by
  unfold readAt at h
  obtain ⟨sl, h1, h2⟩ := Option.bind_eq_some_iff.1 h
  refine ⟨sl, h1, fun e2 q => ⟨o, byHandle_mono (e := quietEnv) q ?_, hp⟩⟩
  cases hx : sl.token.getObjectByHandle C quietEnv n with
  | error r => rw [hx] at h2; cases h2
  | ok x => rw [hx] at h2; injection h2 with h2; rw [h2]

/-- The state of the example and its objects. -/
def exKemSt : St := after exKem exCrypto exOracle [] exC25b
def exKemObj (n : Nat) : Obj := (readAt exCrypto exKemSt 7 n).getD (Obj.new 0)

set_option maxRecDepth 20000 in
theorem exKem_public : Seen exCrypto exKemSt 7 14 (KemPublic .k512 [1]) :=
  seen_read (o := exKemObj 14) (by decide +kernel) ⟨by decide +kernel, by decide +kernel, by decide +kernel, by decide +kernel⟩

set_option maxRecDepth 20000 in
theorem exKem_private : Seen exCrypto exKemSt 7 15 (KemPrivate .k512 [1] none) :=
  seen_read (o := exKemObj 15) (by decide +kernel) ⟨by decide +kernel, by decide +kernel, by decide +kernel, by decide +kernel, by decide +kernel⟩

set_option maxRecDepth 20000 in
theorem exKem_on : onSlot exKem exCrypto exOracle exKemSt 1 7 :=
  ⟨exEnv 0, .rwUser, CKF_RW_SESSION ||| CKF_SERIAL_SESSION, by decide +kernel⟩

set_option maxRecDepth 20000 in
/-- `C82_same` applies: both sides here are the same token. -/
example : ∃ v, Seen exCrypto (step exKem exCrypto exOracle (exEnv 13) exKemSt (.op 1 (.encapsulate CKM_ML_KEM 14 exKemTm (some 1000)))).2 7 16
      (fun o => value o CKA_VALUE = some v) ∧
    Seen exCrypto (step exKem exCrypto exOracle (exEnv 14) exKemSt (.op 1 (.decapsulate CKM_ML_KEM 15 (13 :: List.replicate 767 0) exKemTm))).2 7 16
      (fun o => value o CKA_VALUE = some v) :=
  C82_same (E := toyKem) [] [] (by simp) (by simp) exC25b exC25b (exEnv 13) (exEnv 14) 1 1 7 7 14 15 CKM_ML_KEM CKM_ML_KEM 16 16 CKK_AES exKemTm
    (some 1000) (13 :: List.replicate 767 0) exKem_on exKem_on exKemTm_asks .k512 [1] [1] none (toyKem_pair _ _ _) exKem_public exKem_private
    (by decide +kernel) (by decide +kernel)

end Kry
