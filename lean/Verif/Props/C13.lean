import Verif.Props.C14

/-!
# C13: sensitive values are never returned
-/

namespace Kry
open Spec

/-! ## Lists that agree outside the secrets -/

theorem agree_find {secret : List Nat} {l m : List Attr} (h : ListAgree secret l m) (t : Nat) :
    (l.find? (fun a => a.typ == t) = none ∧ m.find? (fun a => a.typ == t) = none) ∨
    ∃ a b, l.find? (fun a => a.typ == t) = some a ∧ m.find? (fun a => a.typ == t) = some b ∧
      a.typ = t ∧ b.typ = t ∧ a.atype = b.atype ∧ (t ∉ secret → a.value = b.value) := by
  induction h with
  | nil => left; simp
  | @cons a b l m ht hat hv _ ih =>
    simp only [List.find?_cons]
    by_cases hta : a.typ = t
    · right
      refine ⟨a, b, by simp [hta], by simp [← ht, hta], hta, by rw [← ht]; exact hta, hat, ?_⟩
      intro hn; exact hv (by rw [hta]; exact hn)
    · have e1 : (a.typ == t) = false := by simp [hta]
      have e2 : (b.typ == t) = false := by rw [← ht]; exact e1
      simp only [e1, e2]
      exact ih

theorem agree_find_eq {secret : List Nat} {o p : Obj} (h : Agree secret o p) {t : Nat} (ht : t ∉ secret) :
    o.find t = p.find t := by
  unfold Obj.find
  rcases agree_find h.attrs t with ⟨h1, h2⟩ | ⟨a, b, h1, h2, h3, h4, h5, h6⟩
  · rw [h1, h2]
  · rw [h1, h2]
    have := h6 ht
    cases a; cases b; simp_all

theorem agree_setList {secret : List Nat} {l m : List Attr} (h : ListAgree secret l m) (a : Attr) :
    ListAgree secret (Obj.setList l a) (Obj.setList m a) := by
  induction h with
  | nil => exact .cons rfl rfl (fun _ => rfl) .nil
  | @cons x y l m ht hat hv hrest ih =>
    unfold Obj.setList
    by_cases hx : x.typ = a.typ
    · rw [if_pos hx, if_pos (by rw [← ht]; exact hx)]
      exact .cons rfl rfl (fun _ => rfl) hrest
    · rw [if_neg hx, if_neg (by rw [← ht]; exact hx)]
      exact .cons ht hat hv ih

theorem agree_filter {secret : List Nat} {l m : List Attr} (h : ListAgree secret l m) (q : Nat → Bool) :
    ListAgree secret (l.filter fun a => q a.typ) (m.filter fun a => q a.typ) := by
  induction h with
  | nil => exact .nil
  | @cons x y l m ht hat hv _ ih =>
    simp only [List.filter_cons, ← ht]
    split
    · exact .cons ht hat hv ih
    · exact ih

theorem agree_append_left {secret : List Nat} {l m : List Attr} (h : ListAgree secret l m) (k : List Attr) :
    ListAgree secret (k ++ l) (k ++ m) := by
  induction k with
  | nil => exact h
  | cons a k ih => exact .cons rfl rfl (fun _ => rfl) ih

theorem agree_put {secret : List Nat} {o p : Obj} (h : Agree secret o p) (a : Attr) :
    Agree secret (o.put a) (p.put a) :=
  ⟨h.handle, h.session, h.cls, agree_setList h.attrs a⟩

theorem agree_setBool {secret : List Nat} {o p : Obj} (h : Agree secret o p) (t : Nat) (b : Bool) :
    Agree secret (o.setBool t b) (p.setBool t b) :=
  ⟨h.handle, h.session, h.cls, agree_setList h.attrs _⟩

theorem agree_setAttr {secret : List Nat} {o p : Obj} (h : Agree secret o p) (a : Attr) :
    (∃ e, o.setAttr a = .error e ∧ p.setAttr a = .error e) ∨
    ∃ o' p', o.setAttr a = .ok o' ∧ p.setAttr a = .ok p' ∧ Agree secret o' p' := by
  unfold Obj.setAttr
  split
  · split
    · rename_i e _; left; exact ⟨e, rfl, rfl⟩
    · right; exact ⟨_, _, rfl, rfl, h.handle, h.session, rfl, agree_setList h.attrs a⟩
  · right; exact ⟨_, _, rfl, rfl, h.handle, h.session, h.cls, agree_setList h.attrs a⟩

theorem agree_applyTemplate {secret : List Nat} (t : Template) : ∀ {o p : Obj}, Agree secret o p →
    (applyTemplate o t).1 = (applyTemplate p t).1 ∧
      Agree secret (applyTemplate o t).2 (applyTemplate p t).2 := by
  induction t with
  | nil => intro o p h; exact ⟨rfl, h⟩
  | cons c rest ih =>
    intro o p h
    unfold applyTemplate
    cases Attr.fromCk c with
    | error e => exact ⟨rfl, h⟩
    | ok a =>
      rcases agree_setAttr h a with ⟨e, h1, h2⟩ | ⟨o', p', h1, h2, h3⟩
      · simp only [h1, h2]; exact ⟨trivial, h⟩
      · simp only [h1, h2]; exact ih h3

theorem boolOr_eq {secret : List Nat} {o p : Obj} (h : Agree secret o p) {t : Nat} (ht : t ∉ secret)
    (d : Bool) : o.boolOr t d = p.boolOr t d := by
  unfold Obj.boolOr; rw [agree_find_eq h ht]

theorem getBool_eq {secret : List Nat} {o p : Obj} (h : Agree secret o p) {t : Nat} (ht : t ∉ secret) :
    o.getBool t = p.getBool t := by
  unfold Obj.getBool; rw [agree_find_eq h ht]

/-! ## Table facts -/

/-- The attributes that the policy looks at. -/
def policyAttrs : List Nat :=
  [CKA_CLASS, CKA_KEY_TYPE, CKA_CERTIFICATE_TYPE, CKA_SENSITIVE, CKA_EXTRACTABLE, CKA_MODIFIABLE,
   CKA_COPYABLE, CKA_NEVER_EXTRACTABLE, CKA_ALWAYS_SENSITIVE, CKA_UNIQUE_ID]

/-- All secret attributes there are. -/
def allSecrets : List Nat :=
  [CKA_VALUE, CKA_SEED, CKA_PRIVATE_EXPONENT, CKA_PRIME_1, CKA_PRIME_2, CKA_EXPONENT_1, CKA_EXPONENT_2,
   CKA_COEFFICIENT]

theorem secretAttrs_sub (cls kt : Nat) : ∀ t ∈ secretAttrs cls kt, t ∈ allSecrets := by
  intro t ht
  unfold secretAttrs at ht
  unfold allSecrets
  split at ht
  · simp_all
  · split at ht
    · split at ht
      · revert ht; simp only [List.mem_cons]; grind
      · split at ht <;> (revert ht; simp only [List.mem_cons]; grind)
    · cases ht

theorem policy_not_secret {cls kt t : Nat} (ht : t ∈ policyAttrs) : t ∉ secretAttrs cls kt := by
  intro h
  have h2 := secretAttrs_sub cls kt t h
  have : ∀ t ∈ policyAttrs, t ∉ allSecrets := by decide
  exact this t ht h2

/-- Every registered key factory except DH-private marks every secret attribute as sensitive. -/
theorem secrets_marked : registry.all (fun e =>
    !Obj.secretClass e.1.1 || e.1 == (CKO_PRIVATE_KEY, CKK_DH) ||
    (secretAttrs e.1.1 e.1.2).all fun t => match findF e.2.attrs t with
      | none => true
      | some f => f.is oaSensitive) = true := by decide +kernel

/-- No table entry is both change-to-false and change-to-true. -/
theorem no_both : allFactories (fun F => F.attrs.all fun f => !f.is (oaChangeToFalse ||| oaChangeToTrue))
    = true := by decide +kernel

theorem copyChecks_indep {F : Factory} {k : Nat × Nat} (hF : (k, F) ∈ registry) (o p : Obj) (t : Template) :
    copyChecks F.attrs o t = copyChecks F.attrs p t := by
  have hb := allFactories_spec no_both hF
  rw [List.all_eq_true] at hb
  induction t with
  | nil => rfl
  | cons c rest ih =>
    unfold copyChecks
    cases hf : findF F.attrs c.typ with
    | none => rfl
    | some f =>
      have := hb f (findF_mem hf)
      simp only [Bool.not_eq_true'] at this
      simp only [this, Bool.false_eq_true, if_false, ih]

/-! ## The invariant of the two runs -/

/-- Two keys of the same class and type that differ only in their secrets and are sensitive or
unextractable. -/
structure Twins (cls kt : Nat) (o p : Obj) : Prop where
  agree : Agree (secretAttrs cls kt) o p
  key : IsKey o cls kt
  closed : IsTrue o CKA_SENSITIVE ∨ IsFalse o CKA_EXTRACTABLE

theorem Twins.key' {cls kt : Nat} {o p : Obj} (h : Twins cls kt o p) : IsKey p cls kt := by
  refine ⟨by rw [← h.agree.cls]; exact h.key.clsField, ?_, ?_⟩
  · have := agree_find_eq h.agree (policy_not_secret (cls := cls) (kt := kt) (t := CKA_CLASS) (by decide))
    unfold Obj.find at this; rw [← this]; exact h.key.clsAttr
  · have := agree_find_eq h.agree (policy_not_secret (cls := cls) (kt := kt) (t := CKA_KEY_TYPE) (by decide))
    unfold Obj.find at this; rw [← this]; exact h.key.ktAttr

theorem objFactory_isKey {o : Obj} {cls kt : Nat} (h : IsKey o cls kt) (hc : Obj.secretClass cls = true)
    (hkt : kt < 2 ^ 64) : objFactory o = getFactory cls kt := by
  have hcl : cls < 2 ^ 64 := by
    simp [Obj.secretClass] at hc
    rcases hc with (h | h) | h <;> (rw [h]; decide)
  unfold objFactory Obj.getUlong Obj.find
  rw [h.clsAttr, h.ktAttr]
  simp only [toUlong_ofUlong _ _ hcl, toUlong_ofUlong _ _ hkt]
  have h1 : cls ≠ CKO_CERTIFICATE := by
    intro e; rw [e] at hc; revert hc; decide
  have h2 : keyClass cls = true := by simp [keyClass, hc]
  simp [h1, h2]

theorem closed_sensitive {o : Obj} (hc : Obj.secretClass o.cls = true)
    (h : IsTrue o CKA_SENSITIVE ∨ IsFalse o CKA_EXTRACTABLE) :
    (o.isSensitive || !o.isExtractable) = true := by
  unfold Obj.isSensitive Obj.isExtractable
  simp only [hc, if_true, Bool.or_eq_true, Bool.not_eq_true']
  rcases h with ⟨b, hv, hb⟩ | hv
  · left
    unfold Obj.boolOr
    rw [value_eq] at hv
    cases hf : o.find CKA_SENSITIVE with
    | none => rw [hf] at hv
    | some a =>
      rw [hf] at hv; simp at hv
      simp only [Attr.toBool, hv]
      by_cases hat : a.atype = .bool
      · simp [hat, hb]
      · simp [hat]
  · right
    unfold Obj.boolOr
    unfold IsFalse at hv
    rw [value_eq] at hv
    cases hf : o.find CKA_EXTRACTABLE with
    | none => rfl
    | some a =>
      rw [hf] at hv; simp at hv
      simp only [Attr.toBool, hv]
      by_cases hat : a.atype = .bool
      · simp [hat]
      · simp [hat]

theorem getOne_twins {cls kt : Nat} {o p : Obj} {F : Factory} (hF : ((cls, kt), F) ∈ registry)
    (hc : Obj.secretClass cls = true) (hdh : (cls, kt) ≠ (CKO_PRIVATE_KEY, CKK_DH))
    (h : Agree (secretAttrs cls kt) o p) (a : OutAttr) :
    getOne F.attrs true o a = getOne F.attrs true p a := by
  unfold getOne
  cases hf : findF F.attrs a.typ with
  | none => rfl
  | some f =>
    by_cases hs : a.typ ∈ secretAttrs cls kt
    · have := secrets_marked
      rw [List.all_eq_true] at this
      have := this _ hF
      simp only [hc, Bool.not_true, Bool.false_or, Bool.or_eq_true, beq_iff_eq, hdh, false_or,
        List.all_eq_true] at this
      have := this a.typ hs
      rw [hf] at this
      simp only at this
      simp [this]
    · rw [agree_find_eq h hs]

theorem getLoop_twins {cls kt : Nat} {o p : Obj} {F : Factory} (hF : ((cls, kt), F) ∈ registry)
    (hc : Obj.secretClass cls = true) (hdh : (cls, kt) ≠ (CKO_PRIVATE_KEY, CKK_DH))
    (h : Agree (secretAttrs cls kt) o p) (out : List OutAttr) : ∀ r,
    getLoop F.attrs true o out r = getLoop F.attrs true p out r := by
  induction out with
  | nil => intro r; rfl
  | cons a rest ih =>
    intro r
    simp only [getLoop, getOne_twins hF hc hdh h a, ih]

theorem isKey_applyTemplate {cls kt : Nat} {o : Obj} (h : IsKey o cls kt) {t : Template}
    (hn : ∀ c ∈ t, c.typ ≠ CKA_CLASS ∧ c.typ ≠ CKA_KEY_TYPE) : IsKey (applyTemplate o t).2 cls kt := by
  refine ⟨?_, ?_, ?_⟩
  · rw [applyTemplate_cls (fun c hc => (hn c hc).1)]; exact h.clsField
  · have := applyTemplate_find_none (t := CKA_CLASS) o (fun c hc => (hn c hc).1)
    unfold Obj.find at this; rw [this]; exact h.clsAttr
  · have := applyTemplate_find_none (t := CKA_KEY_TYPE) o (fun c hc => (hn c hc).2)
    unfold Obj.find at this; rw [this]; exact h.ktAttr

theorem closed_step {o o' : Obj} (hs : Step o o') (h : IsTrue o CKA_SENSITIVE ∨ IsFalse o CKA_EXTRACTABLE) :
    IsTrue o' CKA_SENSITIVE ∨ IsFalse o' CKA_EXTRACTABLE := by
  rcases h with h | h
  · exact Or.inl (C14_sensitive_stays_true (.step (.refl _) hs) h)
  · exact Or.inr (C14_extractable_stays_false (.step (.refl _) hs) h)

theorem agree_blindCopy {secret : List Nat} {o p : Obj} (h : Agree secret o p) (uid : Bytes) :
    Agree secret (o.blindCopy uid) (p.blindCopy uid) := by
  unfold Obj.blindCopy
  rw [h.cls]
  refine ⟨rfl, rfl, rfl, ?_⟩
  exact agree_append_left (agree_filter h.attrs (fun t => t != CKA_UNIQUE_ID)) _

theorem agree_copyFix {cls kt : Nat} {oo op o p : Obj} (h0 : Agree (secretAttrs cls kt) oo op)
    (h : Agree (secretAttrs cls kt) o p) :
    Agree (secretAttrs cls kt) (copyFixAlwaysSensitive oo (copyFixNeverExtractable oo o))
      (copyFixAlwaysSensitive op (copyFixNeverExtractable op p)) := by
  have hne : Agree (secretAttrs cls kt) (copyFixNeverExtractable oo o) (copyFixNeverExtractable op p) := by
    unfold copyFixNeverExtractable
    rw [getBool_eq h (t := CKA_EXTRACTABLE) (policy_not_secret (by decide)),
      getBool_eq h (t := CKA_NEVER_EXTRACTABLE) (policy_not_secret (by decide)),
      getBool_eq h0 (t := CKA_EXTRACTABLE) (policy_not_secret (by decide))]
    split
    · exact agree_setBool h _ _
    · exact h
  unfold copyFixAlwaysSensitive
  rw [getBool_eq hne (t := CKA_SENSITIVE) (policy_not_secret (by decide)),
    getBool_eq h0 (t := CKA_ALWAYS_SENSITIVE) (policy_not_secret (by decide)),
    getBool_eq h0 (t := CKA_SENSITIVE) (policy_not_secret (by decide))]
  split
  · exact agree_setBool hne _ _
  · exact hne

theorem isKey_copy {cls kt : Nat} {o : Obj} (h : IsKey o cls kt) (uid : Bytes) {t : Template}
    (hn : ∀ c ∈ t, c.typ ≠ CKA_CLASS ∧ c.typ ≠ CKA_KEY_TYPE) :
    IsKey (copyFixAlwaysSensitive o (copyFixNeverExtractable o (applyTemplate (o.blindCopy uid) t).2)) cls kt := by
  have hb : IsKey (o.blindCopy uid) cls kt := by
    refine ⟨h.clsField, ?_, ?_⟩
    · have := find_blindCopy o uid CKA_CLASS
      unfold Obj.find at this; rw [this, if_pos rfl, h.clsField]
    · have := find_blindCopy o uid CKA_KEY_TYPE
      rw [if_neg (by decide), if_neg (by decide)] at this
      unfold Obj.find at this; rw [this]; exact h.ktAttr
  have ha := isKey_applyTemplate hb hn
  refine ⟨?_, ?_, ?_⟩
  · rw [cls_copyFixAS, cls_copyFixNE]; exact ha.clsField
  · have := find_copyFixAS o (copyFixNeverExtractable o (applyTemplate (o.blindCopy uid) t).2) CKA_CLASS (by decide)
    rw [find_copyFixNE _ _ _ (by decide)] at this
    unfold Obj.find at this; rw [this]; exact ha.clsAttr
  · have := find_copyFixAS o (copyFixNeverExtractable o (applyTemplate (o.blindCopy uid) t).2) CKA_KEY_TYPE (by decide)
    rw [find_copyFixNE _ _ _ (by decide)] at this
    unfold Obj.find at this; rw [this]; exact ha.ktAttr

/-- One call gives both applications the same answer and keeps the keys twins. -/
theorem twins_call {cls kt : Nat} {o p : Obj} (hc : Obj.secretClass cls = true)
    (hdh : (cls, kt) ≠ (CKO_PRIVATE_KEY, CKK_DH)) (hkt : kt < 2 ^ 64) (h : Twins cls kt o p) (c : ObjCall)
    (hn : ∀ a ∈ c.tmpl, a.typ ≠ CKA_CLASS ∧ a.typ ≠ CKA_KEY_TYPE) :
    (call o c).2 = (call p c).2 ∧ Twins cls kt (call o c).1 (call p c).1 := by
  have hfo := objFactory_isKey h.key hc hkt
  have hfp := objFactory_isKey h.key' hc hkt
  have hsc : Obj.secretClass o.cls = true := by rw [h.key.clsField]; exact hc
  cases c with
  | get out =>
    refine ⟨?_, h⟩
    simp only [call, getObjectAttributes, hfo, hfp]
    cases hF : getFactory cls kt with
    | error e => rfl
    | ok F =>
      have hs1 := closed_sensitive hsc h.closed
      have hclosed' : IsTrue p CKA_SENSITIVE ∨ IsFalse p CKA_EXTRACTABLE := by
        rcases h.closed with h1 | h1
        · left
          unfold IsTrue at *
          rw [value_eq] at *
          rw [← agree_find_eq h.agree (t := CKA_SENSITIVE) (policy_not_secret (by decide))]; exact h1
        · right
          unfold IsFalse at *
          rw [value_eq] at *
          rw [← agree_find_eq h.agree (t := CKA_EXTRACTABLE) (policy_not_secret (by decide))]; exact h1
      have hs2 := closed_sensitive (o := p) (by rw [← h.agree.cls]; exact hsc) hclosed'
      simp only [hs1, hs2, getLoop_twins (getFactory_mem hF) hc hdh h.agree]
  | set t =>
    simp only [call, hfo, hfp]
    cases hF : getFactory cls kt with
    | error e => exact ⟨rfl, h⟩
    | ok F =>
      have hm : o.isModifiable = p.isModifiable :=
        boolOr_eq h.agree (policy_not_secret (by decide)) _
      have hstep : Step o (setObjectAttributes F o t).2 := .set o F t (by rw [hfo, hF])
      have hcl := closed_step hstep h.closed
      simp only [setObjectAttributes] at hcl ⊢
      rw [← hm]
      cases hmod : o.isModifiable with
      | false => simp only [Bool.not_false, if_true]; exact ⟨trivial, h⟩
      | true =>
        simp only [hmod, Bool.not_true, Bool.false_eq_true, if_false] at hcl ⊢
        cases hck : checkSetAttributes F.attrs t with
        | error e => exact ⟨rfl, h⟩
        | ok u =>
          simp only [hck] at hcl ⊢
          obtain ⟨h1, h2⟩ := agree_applyTemplate t h.agree
          exact ⟨by rw [h1], h2, isKey_applyTemplate h.key hn, hcl⟩
  | copy uid t =>
    simp only [call]
    have hcp : o.isCopyable = p.isCopyable := boolOr_eq h.agree (policy_not_secret (by decide)) _
    cases hco : factoriesCopy uid o t with
    | ok o' =>
      obtain ⟨F, hF, hcopy, hck, hok, rfl⟩ := factoriesCopy_ok hco
      obtain ⟨h1, h2⟩ := agree_applyTemplate t (agree_blindCopy h.agree uid)
      have hFr : getFactory cls kt = .ok F := by rw [← hfo]; exact hF
      have hkind : ∀ q, F.copy uid q t = defaultCopy F uid q t := by
        intro q
        have hall : registry.all (fun e => !Obj.secretClass e.1.1 ||
            (e.2.kind != .profile && e.2.kind != .mechanism)) = true := by decide +kernel
        rw [List.all_eq_true] at hall
        have := hall _ (getFactory_mem hFr)
        simp [hc] at this
        unfold Factory.copy
        split <;> simp_all
      have hp : factoriesCopy uid p t = .ok (copyFixAlwaysSensitive p
          (copyFixNeverExtractable p (applyTemplate (p.blindCopy uid) t).2)) := by
        unfold factoriesCopy
        simp only [← hcp, hcopy, hfp, hFr, Bool.not_true, Bool.false_eq_true, if_false, hkind, defaultCopy,
          ← copyChecks_indep (getFactory_mem hFr) o p t, hck]
        rw [hok] at h1
        cases hap : applyTemplate (p.blindCopy uid) t with
        | mk r q => rw [hap] at h1; simp only at h1; subst h1; rfl
      rw [hp]
      refine ⟨rfl, agree_copyFix h.agree h2, isKey_copy h.key uid hn, ?_⟩
      exact closed_step (.copy _ _ uid t hco) h.closed
    | error e =>
      have hp : factoriesCopy uid p t = .error e := by
        unfold factoriesCopy at hco ⊢
        rw [← hcp]
        cases hcopy : o.isCopyable with
        | false => rw [hcopy] at hco; simpa using hco
        | true =>
          rw [hcopy] at hco
          simp only [Bool.not_true, Bool.false_eq_true, if_false, hfo, hfp] at hco ⊢
          cases hF : getFactory cls kt with
          | error e' => rw [hF] at hco; exact hco
          | ok F =>
            rw [hF] at hco
            simp only [Factory.copy] at hco ⊢
            have hdc : ∀ e, defaultCopy F uid o t = .error e → defaultCopy F uid p t = .error e := by
              intro e he
              unfold defaultCopy at he ⊢
              rw [← copyChecks_indep (getFactory_mem hF) o p t]
              cases hck : copyChecks F.attrs o t with
              | error e' => rw [hck] at he; exact he
              | ok u =>
                rw [hck] at he
                simp only at he ⊢
                obtain ⟨h1, _⟩ := agree_applyTemplate t (agree_blindCopy h.agree uid)
                cases ha : applyTemplate (o.blindCopy uid) t with
                | mk r q =>
                  cases hb : applyTemplate (p.blindCopy uid) t with
                  | mk r' q' =>
                    rw [ha] at he h1; rw [hb] at h1
                    simp only at h1; subst h1
                    cases r with
                    | error e' => simpa using he
                    | ok u => simp at he
            split at hco
            · exact hco
            · exact hco
            · exact hdc e hco
      rw [hp]
      exact ⟨rfl, h⟩

/-- **C13 (partial).**  Take any secret, private or OTP key (of any type but DH private) that is
sensitive or not extractable, and the same key with other secret values, of any content and length.
Every history of C_GetAttributeValue, C_SetAttributeValue and C_CopyObject calls on it (and its
copies), whatever the templates, buffers and sizes, shows the application exactly the same answers:
return codes, lengths and buffer contents.

Missing with respect to C13: DH private keys (`C13_dh_private_value_is_returned` below shows that the
code reveals their value) and histories that change CKA_CLASS or CKA_KEY_TYPE of the key
(`C13_class_change_reveals` and `C13_key_type_change_reveals` show that such a change reveals the
value). -/
theorem C13_noninterference_partial (cls kt : Nat) (o p : Obj) (cs : List ObjCall)
    (hc : cls = CKO_SECRET_KEY ∨ cls = CKO_PRIVATE_KEY ∨ cls = CKO_OTP_KEY)
    (hdh : (cls, kt) ≠ (CKO_PRIVATE_KEY, CKK_DH)) (hkt : kt < 2 ^ 64)
    (hkey : IsKey o cls kt) (hsame : Agree (secretAttrs cls kt) o p)
    (hclosed : IsTrue o CKA_SENSITIVE ∨ IsFalse o CKA_EXTRACTABLE)
    (hn : ∀ c ∈ cs, ∀ a ∈ c.tmpl, a.typ ≠ CKA_CLASS ∧ a.typ ≠ CKA_KEY_TYPE) :
    calls o cs = calls p cs := by
  have hc' : Obj.secretClass cls = true := by
    rcases hc with h | h | h <;> (rw [h]; decide)
  have : ∀ o p, Twins cls kt o p → calls o cs = calls p cs := by
    clear hkey hsame hclosed
    induction cs with
    | nil => intro o p _; rfl
    | cons c cs ih =>
      intro o p h
      obtain ⟨h1, h2⟩ := twins_call hc' hdh hkt h c (hn c (List.mem_cons_self ..))
      simp only [calls, h1, ih (fun c' hc' => hn c' (List.mem_cons_of_mem _ hc')) _ _ h2]
  exact this o p ⟨hsame, hkey, hclosed⟩

/-! ## The hypotheses are met -/

/-- The same AES key with another value. -/
def exAes' : Obj := { exAes with attrs := exAes.attrs.map fun a => if a.typ = CKA_VALUE then { a with value := [9, 9] } else a }

/-- Boolean version of `ListAgree`, for concrete lists. -/
def listAgreeB (secret : List Nat) : List Attr → List Attr → Bool
  | [], [] => true
  | a :: l, b :: m => a.typ == b.typ && a.atype == b.atype && (secret.contains a.typ || a.value == b.value)
      && listAgreeB secret l m
  | _, _ => false

theorem listAgreeB_sound {secret : List Nat} : ∀ {l m : List Attr}, listAgreeB secret l m = true →
    ListAgree secret l m
  | [], [], _ => .nil
  | a :: l, b :: m, h => by
    simp only [listAgreeB, Bool.and_eq_true, beq_iff_eq, Bool.or_eq_true, List.contains_iff_mem] at h
    obtain ⟨⟨⟨h1, h2⟩, h3⟩, h4⟩ := h
    exact .cons h1 h2 (fun hn => h3.resolve_left hn) (listAgreeB_sound h4)
  | [], _ :: _, h => by simp [listAgreeB] at h
  | _ :: _, [], h => by simp [listAgreeB] at h

example : Agree (secretAttrs CKO_SECRET_KEY CKK_AES) exAes exAes' ∧ exAes ≠ exAes' ∧
    IsKey exAes CKO_SECRET_KEY CKK_AES ∧ IsFalse exAes CKA_EXTRACTABLE := by
  refine ⟨⟨rfl, rfl, rfl, listAgreeB_sound (by decide +kernel)⟩, by decide +kernel,
    ⟨by decide +kernel, by decide +kernel, by decide +kernel⟩, by unfold IsFalse; decide +kernel⟩

/-- The history of the example: read the value, change the label, copy, read the copy's value. -/
def exC13Calls : List ObjCall :=
  [.get [⟨CKA_VALUE, false, 64, List.replicate 64 0⟩, ⟨CKA_LABEL, true, 0, []⟩],
   .set [.mk' CKA_LABEL [120]], .copy exUid2 [], .get [⟨CKA_VALUE, true, 0, []⟩, ⟨CKA_LABEL, true, 0, []⟩]]

example : calls exAes exC13Calls = calls exAes' exC13Calls ∧
    (calls exAes exC13Calls)[3]? = some (.got (.error .attrSensitive)
      [⟨CKA_VALUE, true, CK_UNAVAILABLE_INFORMATION, []⟩, ⟨CKA_LABEL, true, 1, []⟩]) := by
  decide +kernel

/-! ## Violations of the full property -/

/-- **C13 is violated for Diffie-Hellman private keys**: the private value of a key that is sensitive
and not extractable is returned (`src/ffdh.rs:193-196` does not mark CKA_VALUE as sensitive). -/
theorem C13_dh_private_value_is_returned :
    IsKey (exDh [6]) CKO_PRIVATE_KEY CKK_DH ∧ IsTrue (exDh [6]) CKA_SENSITIVE ∧
    IsFalse (exDh [6]) CKA_EXTRACTABLE ∧
    getObjectAttributes (exDh [6]) [⟨CKA_VALUE, false, 1, [0]⟩] = (.ok (), [⟨CKA_VALUE, false, 1, [6]⟩]) := by
  refine ⟨⟨by decide +kernel, by decide +kernel, by decide +kernel⟩, ⟨1, by decide +kernel, by decide⟩,
    by unfold IsFalse; decide +kernel, by decide +kernel⟩

/-- **C13 is violated by changing CKA_CLASS**: C_SetAttributeValue turns a sensitive, unextractable AES
key into a data object, whose CKA_VALUE is then returned in the clear (CKA_CLASS is not marked
unchangeable, `src/object/factory.rs:267-269`). -/
theorem C13_class_change_reveals :
    IsTrue exAes CKA_SENSITIVE ∧ IsFalse exAes CKA_EXTRACTABLE ∧
    calls exAes [.set [.ofUlong CKA_CLASS CKO_DATA], .get [⟨CKA_VALUE, false, 16, List.replicate 16 0⟩]] =
      [.setDone (.ok ()), .got (.ok ()) [⟨CKA_VALUE, false, 16, exKeyBytes⟩]] := by
  refine ⟨⟨1, by decide +kernel, by decide⟩, by unfold IsFalse; decide +kernel, by decide +kernel⟩

/-- **C13 is violated by changing CKA_KEY_TYPE**: a sensitive EC private key relabelled as a DH private
key is read out. -/
theorem C13_key_type_change_reveals :
    IsTrue (exEc [6]) CKA_SENSITIVE ∧ IsFalse (exEc [6]) CKA_EXTRACTABLE ∧
    calls (exEc [6]) [.set [.ofUlong CKA_KEY_TYPE CKK_DH], .get [⟨CKA_VALUE, false, 1, [0]⟩]] =
      [.setDone (.ok ()), .got (.ok ()) [⟨CKA_VALUE, false, 1, [6]⟩]] := by
  refine ⟨⟨1, by decide +kernel, by decide⟩, by unfold IsFalse; decide +kernel, by decide +kernel⟩

end Kry
