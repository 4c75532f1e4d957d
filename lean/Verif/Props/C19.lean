import Verif.Props.C15
import Verif.Props.C17
import Verif.Props.C18

/-!
# C19: read-only sessions and token objects

No call made on a read-only session adds, changes or removes a stored object whose CKA_TOKEN is true
(`C19_objects_partial`, `C19_operations_partial`), except: C_CopyObject of a token object when the template
does not mention CKA_TOKEN, C_Sign/C_Verify with a mechanism that updates its key (HOTP), and C_DeriveKey with
additional keys (SP 800-108).  All are shown to be violations (`C19_copy_violation`, `C19_counter_violation`,
`C19_derive_violation`).
-/

namespace Kry

open Spec

/-! ## The template decides CKA_TOKEN -/

theorem noToken_of {tm : Template} (h : failIfTokenTrue tm = .ok ()) : noToken tm := by
  induction tm with
  | nil => intro c hc; cases hc
  | cons c tm ih =>
    unfold failIfTokenTrue at h
    intro c' hc' ht
    split at h
    · split at h
      · cases h
      · cases h
      · rename_i hb
        rcases List.mem_cons.1 hc' with e | e
        · rw [e]; exact hb
        · exact ih h c' e ht
    · rename_i hn
      rcases List.mem_cons.1 hc' with e | e
      · rw [e] at ht; exact absurd ht hn
      · exact ih h c' e ht

theorem ro_noToken {x : Session} {tm : Template} (hw : x.isWritable = false) (h : roCheck x tm = .ok ()) :
    noToken tm := by
  unfold roCheck at h
  rw [hw] at h
  exact noToken_of h

theorem tokenDefault : allFactories (fun F => F.attrs.all fun f =>
    f.typ != CKA_TOKEN || (!f.hasDefault || f.attr == Attr.ofBool CKA_TOKEN false)) = true := by decide +kernel

theorem token_kind : attrKind CKA_TOKEN = some .bool := by decide +kernel

theorem notToken_of_value {o : Obj} (h : ∀ v, value o CKA_TOKEN = some v → v = [0]) : o.isToken = false := by
  unfold Obj.isToken Obj.boolOr
  rw [value_eq] at h
  cases hf : o.find CKA_TOKEN with
  | none => rfl
  | some a =>
    rw [hf] at h
    have := h a.value rfl
    simp only [Attr.toBool, this]
    split
    · rename_i hb; split at hb
      · cases hb
      · injection hb with hb; rw [← hb]; decide
    · rfl

theorem newValue_token {F : Factory} {k : Nat × Nat} (hF : (k, F) ∈ registry) {tm : Template} (hn : noToken tm)
    {v : Bytes} (h : NewValue F tm CKA_TOKEN (some v)) : v = [0] := by
  cases h with
  | cls e => cases e
  | given c a _ _ hc ht ha =>
    rw [fromCk_bool (by rw [ht]; exact token_kind) (hn c hc ht) ha]
    rfl
  | default f _ hf ht hd =>
    have := allFactories_spec tokenDefault hF
    rw [List.all_eq_true] at this
    have := this f hf
    simp [ht, hd] at this
    rw [this]; rfl

theorem created_notToken {O : Oracle} {uid : Bytes} {tm : Template} {o : Obj}
    (h : factoriesCreate O uid tm = .ok o) (hn : noToken tm) : o.isToken = false := by
  obtain ⟨F, k, hF, _, _, hv⟩ := C15_create_object O uid tm o h
  refine notToken_of_value fun v hv' => ?_
  have := hv CKA_TOKEN (by cases F.kind <;> first | decide | (simp only [computed]; decide))
  rw [hv'] at this
  exact newValue_token hF hn this

theorem copied_notToken {uid : Bytes} {tm : Template} {src o : Obj} (h : factoriesCopy uid src tm = .ok o)
    (hn : noToken tm) (hs : (∃ c ∈ tm, c.typ = CKA_TOKEN) ∨ src.isToken = false) : o.isToken = false := by
  obtain ⟨F, hF, _, _, hok, rfl⟩ := factoriesCopy_ok h
  have key : ∀ (tm : Template) (o : Obj), noToken tm → (applyTemplate o tm).1 = .ok () →
      ((∃ c ∈ tm, c.typ = CKA_TOKEN) ∨ o.isToken = false) → (applyTemplate o tm).2.isToken = false := by
    intro tm
    induction tm with
    | nil => intro o _ _ h; exact h.resolve_left (by rintro ⟨c, hc, _⟩; cases hc)
    | cons c tm ih =>
      intro o hn hok hs
      unfold applyTemplate at hok ⊢
      cases hc : Attr.fromCk c with
      | error e => rw [hc] at hok; cases hok
      | ok a =>
        simp only [hc] at hok ⊢
        cases ha : o.setAttr a with
        | error e => rw [ha] at hok; cases hok
        | ok o1 =>
          simp only [ha] at hok ⊢
          refine ih o1 (fun c' hc' => hn c' (List.mem_cons_of_mem _ hc')) hok ?_
          by_cases ht : c.typ = CKA_TOKEN
          · right
            have e := fromCk_bool (by rw [ht]; exact token_kind) (hn c (List.mem_cons_self ..) ht) hc
            unfold Obj.isToken Obj.boolOr
            rw [find_setAttr ha, if_pos (by rw [e]; exact ht), e]
            rfl
          · rcases hs with ⟨c', hc', ht'⟩ | hs
            · rcases List.mem_cons.1 hc' with e | e
              · rw [e] at ht'; exact absurd ht' ht
              · exact .inl ⟨c', e, ht'⟩
            · right
              unfold Obj.isToken Obj.boolOr at hs ⊢
              rw [find_setAttr ha, if_neg (by rw [fromCk_typ hc]; exact ht)]
              exact hs
  have := key tm (src.blindCopy uid) hn hok (hs.imp id fun h => by
    unfold Obj.isToken Obj.boolOr at h ⊢
    rw [find_blindCopy, if_neg (by decide), if_neg (by decide)]
    exact h)
  unfold Obj.isToken Obj.boolOr at this ⊢
  rw [find_copyFixAS _ _ _ (by decide), find_copyFixNE _ _ _ (by decide)]
  exact this

theorem keyToken : allFactories (fun F => !keyClass F.cls || F.attrs.any fun f =>
    f.typ == CKA_TOKEN && f.hasDefault) = true := by decide +kernel

theorem find_ensureAll {l : List Attr} {o o' : Obj} {t : Nat} {a : Attr} (h : ensureAll o l = .ok o')
    (ha : o.find t = some a) : o'.find t = some a := by
  induction l generalizing o with
  | nil => injection h with h; rw [← h]; exact ha
  | cons b l ih =>
    unfold ensureAll at h
    split at h
    · split at h
      · cases h
      · exact ih h ha
    · refine ih h ?_
      rw [find_push, ha]; rfl

theorem find_ensureUlong {o o' : Obj} {t n u : Nat} {a : Attr} (h : o.ensureUlong t n = .ok o')
    (ha : o.find u = some a) : o'.find u = some a := by
  unfold Obj.ensureUlong at h
  repeat' split at h
  all_goals first | (cases h; done) | (injection h with h; rw [← h]; first | exact ha | (rw [find_push, ha]; rfl))

theorem imported_notToken {M : Mechs} {uid data : Bytes} {F : Factory} {tm : Template} {o : Obj}
    (hF : keyTemplateFactory tm = .ok F) (h : importWrapped M uid F data tm = .ok o) (hn : noToken tm) :
    o.isToken = false := by
  obtain ⟨k, hmem⟩ := keyTemplateFactory_mem hF
  have base : ∀ b, keyUnwrap F uid tm = .ok b → keyClass F.cls = true →
      ∃ a, b.find CKA_TOKEN = some a ∧ a.value = [0] := by
    intro b hb hk
    unfold keyUnwrap internalKeyCreate at hb
    split at hb
    · cases hb
    · rename_i b0 h0
      injection hb with hb
      have hv := C15_values F k hmem tm _ _ b0 h0 CKA_TOKEN
      have hf : b.find CKA_TOKEN = b0.find CKA_TOKEN := by
        rw [← hb, find_generateUnique]
        split
        · rename_i h; cases h
        · rfl
      rw [value_eq] at hv
      rw [hf]
      cases hz : b0.find CKA_TOKEN with
      | some a => rw [hz] at hv; exact ⟨a, rfl, newValue_token hmem hn hv⟩
      | none =>
        rw [hz] at hv
        cases hv with
        | absent _ hd =>
          have := allFactories_spec keyToken hmem
          simp [hk] at this
          obtain ⟨f, hf, ht, hd'⟩ := this
          rw [hd f hf ht] at hd'; cases hd'
  have done : ∀ o : Obj, (∃ a, o.find CKA_TOKEN = some a ∧ a.value = [0]) → o.isToken = false := by
    rintro o ⟨a, h1, h2⟩
    refine notToken_of_value fun v hv => ?_
    rw [value_eq, h1] at hv
    injection hv with hv
    rw [← hv]; exact h2
  have sec : ∀ d, importSecret F uid d tm = .ok o → keyClass F.cls = true → o.isToken = false := by
    intro d h hk
    unfold importSecret at h
    split at h
    · cases h
    · rename_i b hb
      obtain ⟨a, h1, h2⟩ := base b hb hk
      unfold setKey at h
      split at h
      · cases h
      · unfold setKeyLen at h
        have hp : (b.put (Attr.ofBytes CKA_VALUE d)).find CKA_TOKEN = some a := by
          rw [find_put, if_neg (by show CKA_VALUE ≠ CKA_TOKEN; decide)]; exact h1
        refine done o ⟨a, ?_, h2⟩
        split at h
        · split at h
          · cases h
          · exact find_ensureUlong h hp
        · exact find_ensureUlong h hp
  have isk := allFactories_spec isKey_cls hmem
  unfold importWrapped at h
  split at h
  · rename_i e; exact sec _ h (by rw [e] at isk; simpa [FactoryKind.isKey] using isk.symm)
  · rename_i e; exact sec _ h (by rw [e] at isk; simpa [FactoryKind.isKey] using isk.symm)
  · rename_i e
    unfold importAes at h
    extract_lets cut at h
    rcases hcut : cut with r | d
    · simp only [hcut] at h; cases h
    · simp only [hcut] at h
      split at h
      · cases h
      · exact sec _ h (by rw [e] at isk; simpa [FactoryKind.isKey] using isk.symm)
  all_goals first
    | (rename_i e
       split at h
       · cases h
       · rename_i b hb
         obtain ⟨a, h1, h2⟩ := base b hb (by rw [e] at isk; simpa [FactoryKind.isKey] using isk.symm)
         split at h
         · cases h
         · exact done o ⟨a, find_ensureAll h h1, h2⟩)
    | (split at h <;> cases h)

theorem fresh_isToken (o : Obj) : (fresh o).isToken = o.isToken := by
  unfold Obj.isToken Obj.boolOr
  have : (fresh o).find CKA_TOKEN = o.find CKA_TOKEN := by
    show (oneUid o.attrs).find? _ = o.attrs.find? _
    induction o.attrs with
    | nil => rfl
    | cons a l ih =>
      unfold oneUid
      split
      · rename_i e
        simp only [List.find?_cons, List.find?_filter]
        have : (a.typ == CKA_TOKEN) = false := by rw [e]; decide
        rw [this]
        simp only
        congr 1
        funext b
        by_cases h : b.typ = CKA_TOKEN
        · rw [h]; decide
        · simp [h]
      · simp only [List.find?_cons]
        rw [ih]
  rw [this]

/-! ## What the calls do to the stored objects -/

section
variable {C : Crypto}

/-- `t'` has the same stored objects and at least the same session objects. -/
structure Kept (t t' : Token) : Prop where
  store : t'.store.db.objs = t.store.db.objs
  sess : ∀ n o, AMap.get t.sess n = some o → ∃ o', AMap.get t'.sess n = some o'

theorem Kept.refl (t : Token) : Kept t t := ⟨rfl, fun _ o h => ⟨o, h⟩⟩

theorem Kept.trans {a b c : Token} (x : Kept a b) (y : Kept b c) : Kept a c :=
  ⟨y.store.trans x.store, fun n o h => by
    obtain ⟨o', h'⟩ := x.sess n o h
    exact y.sess n o' h'⟩

theorem insert_kept (e : Env) (t : Token) (h : Nat) (o : Obj) (ho : o.isToken = false) :
    Kept t (t.insertObject C e h o).2 ∧ ∀ n, (t.insertObject C e h o).1 = .ok n →
      ∃ o', AMap.get (t.insertObject C e h o).2.sess n = some o' := by
  unfold Token.insertObject
  rw [ho]
  simp only [Bool.false_eq_true, if_false]
  repeat' split
  · exact ⟨⟨rfl, fun _ o h => ⟨o, h⟩⟩, fun n h => by cases h⟩
  · exact ⟨⟨rfl, fun _ o h => ⟨o, h⟩⟩, fun n h => by cases h⟩
  · refine ⟨⟨rfl, fun n o h => ?_⟩, fun n h => ?_⟩
    · simp only [AMap.get_insert]
      split
      · exact ⟨_, rfl⟩
      · exact ⟨o, h⟩
    · injection h with h
      subst h
      exact ⟨_, by rw [AMap.get_insert, if_pos rfl]⟩

/-- Destroying handle `n` cannot touch a stored object. -/
def Safe (t : Token) (n : Nat) : Prop := (∃ o, AMap.get t.sess n = some o) ∨ t.handles.get n = none

theorem destroy_safe (e : Env) (t : Token) (n : Nat) (hn : Safe t n) :
    (t.destroyObject C e n).2.store.db.objs = t.store.db.objs ∧
      ∀ m, Safe t m → Safe (t.destroyObject C e n).2 m := by
  unfold Token.destroyObject
  split
  · rename_i o ho
    split
    · exact ⟨rfl, fun _ h => h⟩
    · refine ⟨rfl, fun m hm => ?_⟩
      by_cases e : m = n
      · subst e; exact .inr (by rw [get_remove, if_pos rfl])
      · rcases hm with ⟨o', h⟩ | h
        · refine .inl ⟨o', ?_⟩
          show AMap.get (AMap.erase t.sess n) m = _
          rw [AMap.get_erase, if_neg (Ne.symm e)]; exact h
        · exact .inr (by rw [get_remove, if_neg (Ne.symm e)]; exact h)
  · rename_i ho
    rcases hn with ⟨o, h⟩ | h
    · rw [h] at ho; cases ho
    · have : ∀ hints, t.store.fetch C (e.sub 0) t.handles n hints = .error .objectHandleInvalid := by
        intro hints; unfold Store.fetch; rw [h]
      rw [this]
      exact ⟨rfl, fun _ h => h⟩

theorem destroyAll_safe (e : Env) (t : Token) (l : List Nat) (i : Nat) (hl : ∀ n ∈ l, Safe t n) :
    (destroyAll C e t l i).store.db.objs = t.store.db.objs := by
  induction l generalizing t i with
  | nil => rfl
  | cons n l ih =>
    unfold destroyAll
    obtain ⟨h1, h2⟩ := destroy_safe (C := C) (e.sub i) t n (hl n (List.mem_cons_self ..))
    rw [ih _ _ fun m hm => h2 m (hl m (List.mem_cons_of_mem _ hm))]
    exact h1

theorem insertAll_kept (e : Env) (h : Nat) (t : Token) (l : List Obj) (i : Nat) (hl : ∀ o ∈ l, o.isToken = false) :
    Kept t (insertAll C e h t l i).2.2 ∧ ∀ n ∈ (insertAll C e h t l i).2.1,
      ∃ o, AMap.get (insertAll C e h t l i).2.2.sess n = some o := by
  induction l generalizing t i with
  | nil => exact ⟨.refl _, fun n hn => by cases hn⟩
  | cons o l ih =>
    unfold insertAll
    obtain ⟨h1, h2⟩ := insert_kept (C := C) (e.sub i) t h (fresh o)
      (by rw [fresh_isToken]; exact hl o (List.mem_cons_self ..))
    generalize t.insertObject C (e.sub i) h (fresh o) = p at h1 h2 ⊢
    obtain ⟨r, t1⟩ := p
    cases r with
    | error r => exact ⟨h1, fun n hn => by cases hn⟩
    | ok n =>
      obtain ⟨h3, h4⟩ := ih t1 (i + 1) fun o ho => hl o (List.mem_cons_of_mem _ ho)
      refine ⟨h1.trans h3, fun m hm => ?_⟩
      rcases List.mem_cons.1 hm with e | e
      · rw [e]
        obtain ⟨o', ho'⟩ := h2 n rfl
        exact h3.sess n o' ho'
      · exact h4 m e

variable {M : Mechs} {O : Oracle} {x : Session} {h : Nat} {e : Env} {t : Token}

theorem genPair_kept (hM : HonoursToken M) (hw : x.isWritable = false) (m : Nat) (q : Bytes) (pub priv : Template) :
    (fnGenPair M C e h m q pub priv x t).2.store.db.objs = t.store.db.objs := by
  unfold fnGenPair
  split
  · rfl
  rename_i h1
  split
  · rfl
  rename_i h2
  split
  · rfl
  split
  · rfl
  split
  · rfl
  rename_i a b hg
  obtain ⟨ha, hb⟩ := hM.pair _ _ _ _ _ _ _ hg (ro_noToken hw h2) (ro_noToken hw h1)
  obtain ⟨k1, k2⟩ := insert_kept (C := C) (e.sub 1) t h (fresh a) (by rw [fresh_isToken]; exact ha)
  generalize t.insertObject C (e.sub 1) h (fresh a) = p at k1 k2 ⊢
  obtain ⟨r, t1⟩ := p
  cases r with
  | error r => exact k1.store
  | ok n =>
    simp only at k1 k2 ⊢
    obtain ⟨k3, k4⟩ := insert_kept (C := C) (e.sub 2) t1 h (fresh b) (by rw [fresh_isToken]; exact hb)
    generalize t1.insertObject C (e.sub 2) h (fresh b) = p at k3 k4 ⊢
    obtain ⟨r, t2⟩ := p
    cases r with
    | ok n' => exact (k1.trans k3).store
    | error r =>
      simp only at k3 ⊢
      obtain ⟨o, ho⟩ := k2 n rfl
      rw [(destroy_safe (C := C) (e.sub 3) t2 n (.inl (k3.sess n o ho))).1]
      exact (k1.trans k3).store

theorem derive_kept (hM : HonoursToken M) (hw : x.isWritable = false) (m n : Nat) (q : Bytes) (tm : Template)
    (hone : manyKeys m → M.adkCount m q = .ok 0) :
    (fnDerive M C e h m q n tm x t).2.store.db.objs = t.store.db.objs := by
  unfold fnDerive
  split
  · rfl
  rename_i h1
  split
  · rfl
  split
  · rfl
  split
  · rfl
  split
  · rfl
  split
  · rfl
  split
  · rfl
  split
  · rfl
  split
  · rfl
  · rfl
  rename_i o os hg
  obtain ⟨ho, hos⟩ := hM.derive _ _ _ _ _ _ _ _ hg (ro_noToken hw h1)
  obtain ⟨k1, k2⟩ := insert_kept (C := C) (e.sub 3) t h (fresh o) (by rw [fresh_isToken]; exact ho)
  generalize t.insertObject C (e.sub 3) h (fresh o) = p at k1 k2 ⊢
  obtain ⟨r, t1⟩ := p
  simp only at k1 k2 ⊢
  split
  · rename_i hmk
    cases r with
    | error r => exact k1.store
    | ok n' =>
      simp only
      split
      · exact k1.store
      rename_i hne
      split
      · exact k1.store
      rw [hone hmk]
      simp only
      rw [if_pos fun e => hne (List.eq_nil_of_length_eq_zero e.symm)]
      exact k1.store
  rename_i hmk
  have hall : ∀ o' ∈ o :: os, o'.isToken = false := by
    intro o' h'
    rcases List.mem_cons.1 h' with h' | h'
    · rw [h']; exact ho
    · exact hos hmk o' h'
  split
  · split
    · rfl
    obtain ⟨k3, k4⟩ := insertAll_kept (C := C) (e.sub 4) h t (o :: os) 0 hall
    generalize insertAll C (e.sub 4) h t (o :: os) 0 = p at k3 k4 ⊢
    obtain ⟨r, l, t2⟩ := p
    cases r with
    | none => exact k3.store
    | some r =>
      simp only at k3 k4 ⊢
      rw [destroyAll_safe _ _ _ _ fun m hm => .inl (k4 m hm)]
      exact k3.store
  split
  · rfl
  cases r <;> exact k1.store

theorem genKey_kept (hM : HonoursToken M) (hw : x.isWritable = false) (m : Nat) (q : Bytes) (tm : Template) :
    (fnGenKey M C e h m q tm x t).2.store.db.objs = t.store.db.objs := by
  unfold fnGenKey
  repeat' split
  all_goals first | rfl | skip
  exact (insert_kept _ _ _ _ (by
    rw [fresh_isToken]; exact hM.key _ _ _ _ _ (by assumption) (ro_noToken hw (by assumption)))).1.store

theorem unwrap_kept (hw : x.isWritable = false) (m k : Nat) (q data : Bytes) (tm : Template) :
    (fnUnwrap M C e h m q k data tm x t).2.store.db.objs = t.store.db.objs := by
  unfold fnUnwrap
  repeat' split
  all_goals first | rfl | skip
  exact (insert_kept _ _ _ _ (by
    rw [fresh_isToken]
    exact imported_notToken (by assumption) (by assumption) (ro_noToken hw (by assumption)))).1.store

theorem decap_kept (hw : x.isWritable = false) (m k : Nat) (data : Bytes) (tm : Template) :
    (fnDecap M C e h m k data tm x t).2.store.db.objs = t.store.db.objs := by
  unfold fnDecap
  repeat' split
  all_goals first | rfl | skip
  exact (insert_kept _ _ _ _ (by
    rw [fresh_isToken]
    exact imported_notToken (by assumption) (by assumption) (ro_noToken hw (by assumption)))).1.store

theorem encap_kept (hw : x.isWritable = false) (m k : Nat) (out : Option Nat) (tm : Template) :
    (fnEncap M C e h m k tm out x t).2.store.db.objs = t.store.db.objs := by
  unfold fnEncap
  repeat (split; (· rfl))
  rename_i o ho
  have := (insert_kept (C := C) (e.sub 3) t h (fresh o) (by
    rw [fresh_isToken]
    exact imported_notToken (by assumption) ho (ro_noToken hw (by assumption)))).1.store
  generalize t.insertObject C (e.sub 3) h (fresh o) = p at this ⊢
  obtain ⟨r, t1⟩ := p
  cases r <;> exact this

theorem create_kept (hw : x.isWritable = false) (tm : Template) :
    (fnCreate C O e h x t tm).2.store.db.objs = t.store.db.objs := by
  unfold fnCreate
  split
  · rfl
  rename_i h1
  split
  · rfl
  unfold Token.createObject
  split
  · rfl
  rename_i o ho
  have hn := created_notToken ho (ro_noToken hw h1)
  rw [hn]
  simp only [Bool.false_eq_true, if_false]
  exact (insert_kept _ _ _ _ hn).1.store

theorem copy_kept (hw : x.isWritable = false) (n : Nat) (tm : Template)
    (hs : (∃ c ∈ tm, c.typ = CKA_TOKEN) ∨ Off C t n CKA_TOKEN) :
    (fnCopy C e h x t n tm).2.store.db.objs = t.store.db.objs := by
  unfold fnCopy
  split
  · rfl
  rename_i h1
  split
  · rfl
  unfold Token.copyObject
  extract_lets obj
  rcases hobj : obj with r | o
  · rfl
  simp only
  split
  · rfl
  rename_i o' ho
  refine (insert_kept _ _ _ _ (copied_notToken ho (ro_noToken hw h1) (hs.imp id fun off => ?_))).1.store
  refine off (e.sub 0) [] o false (.inr rfl) ?_
  simp only [obj] at hobj
  unfold Token.looked
  split at hobj
  · rename_i h0; rw [h0]; exact hobj
  · rename_i h0
    rw [h0]
    simp only
    split at hobj
    · cases hobj
    · rename_i hf
      split at hobj
      · cases hobj
      · rw [hf]; exact hobj

/-! ### Calls on a stored object -/

/-- The rows say that CKA_TOKEN is true. -/
def RowTrue (rows : List (Nat × DbVal)) : Prop := ∃ v, AMap.get rows CKA_TOKEN = some (.int v) ∧ v ≠ 0

/-- The same rows with CKA_TOKEN true are in both tables. -/
def SameTok (a b : ObjTable) : Prop := ∀ rows, RowTrue rows → ((∃ id, (id, rows) ∈ a) ↔ ∃ id, (id, rows) ∈ b)

theorem SameTok.refl (a : ObjTable) : SameTok a a := fun _ _ => Iff.rfl

theorem rowFalse (ok : TblOk t.store.db.objs) {n : Nat} {o : Obj} (hg : t.getObjectByHandle C e n = .ok o)
    (ho : o.isToken = false) (hs : AMap.get t.sess n = none) :
    ∃ u rows, t.handles.get n = some u ∧ rowsOf t.store.db.objs u = some rows ∧ ¬ RowTrue rows := by
  have hl := byHandle_looked C hg
  unfold Token.looked at hl
  rw [hs] at hl
  obtain ⟨u, rows, h1, h2, _, _, h3⟩ := fetch_row ok hl
  refine ⟨u, rows, h1, h2, ?_⟩
  rintro ⟨v, hv, hne⟩
  have := h3 CKA_TOKEN plain_token (.inr rfl)
  rw [hv] at this
  obtain ⟨a, ha, hf⟩ := this
  unfold decodeRow at ha
  rw [token_kind] at ha
  injection ha with ha
  unfold Obj.isToken Obj.boolOr at ho
  rw [hf, ← ha] at ho
  simp only [toBool_ofBool, decide_eq_false_iff_not] at ho
  exact ho hne

theorem delete_sameTok {tbl : ObjTable} (ok : TblOk tbl) {u : Bytes} {rows : List (Nat × DbVal)}
    (hr : rowsOf tbl u = some rows) (hn : ¬ RowTrue rows) : SameTok tbl (deleteObject tbl u) := by
  intro r hrt
  constructor
  · rintro ⟨id, hm⟩
    refine ⟨id, (mem_delete ok).2 ⟨hm, ?_⟩⟩
    cases hh : hasRow r CKA_UNIQUE_ID (.text u) with
    | false => rfl
    | true =>
      have := (rowsOf_iff ok).2 ⟨id, hm, hh⟩
      rw [hr] at this
      injection this with this
      rw [this] at hn; exact absurd hrt hn
  · rintro ⟨id, hm⟩
    exact ⟨id, ((mem_delete ok).1 hm).1⟩

theorem destroy_tok (ok : TblOk t.store.db.objs) (hw : x.isWritable = false) (n : Nat) :
    SameTok t.store.db.objs (fnDestroy C e x t n).2.store.db.objs := by
  unfold fnDestroy
  split
  · exact .refl _
  split
  · exact .refl _
  rename_i o ho
  split
  · exact .refl _
  rename_i hc
  have ht : o.isToken = false := by simpa [hw] using hc
  unfold Token.destroyObject
  split
  · split <;> exact .refl _
  rename_i hs
  split
  · exact .refl _
  split
  · exact .refl _
  obtain ⟨u, rows, h1, h2, h3⟩ := rowFalse ok ho ht hs
  simp only [Store.remove, h1, Db.removeByUid]
  split
  · exact .refl _
  · exact delete_sameTok ok h2 h3

theorem putRows_mem {rows rows' : List (Nat × DbVal)} {as : List Attr} (h : putRows rows as = .ok rows') :
    ∀ r ∈ rows', r ∈ rows ∨ ∃ a ∈ as, a.typ = r.1 ∧ encodeAttr a = .ok (some r.2) := by
  induction as generalizing rows with
  | nil => injection h with h; rw [h]; exact fun r hr => .inl hr
  | cons a as ih =>
    unfold putRows at h
    split at h
    · cases h
    · split at h
      · cases h
      · intro r hr
        rcases ih h r hr with h | ⟨b, hb, h1⟩
        · exact .inl h
        · exact .inr ⟨b, List.mem_cons_of_mem _ hb, h1⟩
      · rename_i v hv
        intro r hr
        rcases ih h r hr with h | ⟨b, hb, h1⟩
        · unfold putRow at h
          rcases List.mem_append.1 h with h | h
          · exact .inl (List.mem_filter.1 h).1
          · rw [List.mem_singleton.1 h]
            exact .inr ⟨a, List.mem_cons_self .., rfl, hv⟩
        · exact .inr ⟨b, List.mem_cons_of_mem _ hb, h1⟩

/-- No attribute of the object says that it is a token object. -/
def AllFalse (o : Obj) : Prop := ∀ a ∈ o.attrs, a.typ = CKA_TOKEN → a = Attr.ofBool CKA_TOKEN false

theorem setAttr_allFalse {o o' : Obj} {a : Attr} (h : o.setAttr a = .ok o') (ho : AllFalse o)
    (ha : a.typ = CKA_TOKEN → a = Attr.ofBool CKA_TOKEN false) : AllFalse o' := by
  have key : ∀ l : List Attr, (∀ b ∈ l, b.typ = CKA_TOKEN → b = Attr.ofBool CKA_TOKEN false) →
      ∀ b ∈ Obj.setList l a, b.typ = CKA_TOKEN → b = Attr.ofBool CKA_TOKEN false := by
    intro l
    induction l with
    | nil => intro _ b hb; rw [List.mem_singleton.1 hb]; exact ha
    | cons c l ih =>
      intro hl b hb
      unfold Obj.setList at hb
      split at hb
      · rcases List.mem_cons.1 hb with e | e
        · rw [e]; exact ha
        · exact hl b (List.mem_cons_of_mem _ e)
      · rcases List.mem_cons.1 hb with e | e
        · rw [e]; exact hl c (List.mem_cons_self ..)
        · exact ih (fun b hb => hl b (List.mem_cons_of_mem _ hb)) b e
  unfold Obj.setAttr at h
  repeat' split at h
  all_goals first | (cases h; done) | (injection h with h; rw [← h]; exact key _ ho)

theorem decodeRows_allFalse {rows : List (Nat × DbVal)} {o o' : Obj} (h : decodeRows o rows = .ok o')
    (hn : ∀ r ∈ rows, r.1 = CKA_TOKEN → ∀ v, r.2 = .int v → v = 0) (ho : AllFalse o) : AllFalse o' := by
  induction rows generalizing o with
  | nil => injection h with h; rw [← h]; exact ho
  | cons r rows ih =>
    obtain ⟨t, v⟩ := r
    unfold decodeRows at h
    split at h
    · cases h
    · rename_i a ha
      split at h
      · cases h
      · rename_i o1 h1
        refine ih h (fun r hr => hn r (List.mem_cons_of_mem _ hr)) (setAttr_allFalse h1 ho fun ht => ?_)
        rw [decodeRow_typ ha] at ht
        subst ht
        unfold decodeRow at ha
        rw [token_kind] at ha
        simp only at ha
        split at ha
        · rename_i v
          injection ha with ha
          rw [← ha, hn _ (List.mem_cons_self ..) rfl v rfl]
          rfl
        · cases ha

theorem setAllCk_allFalse {tm : Template} {o o' : Obj} (h : setAllCk o tm = .ok o')
    (hn : ∀ c ∈ tm, c.typ ≠ CKA_TOKEN) (ho : AllFalse o) : AllFalse o' := by
  induction tm generalizing o with
  | nil => injection h with h; rw [← h]; exact ho
  | cons c tm ih =>
    unfold setAllCk at h
    split at h
    · cases h
    · rename_i a ha
      split at h
      · cases h
      · rename_i o1 h1
        refine ih h (fun c hc => hn c (List.mem_cons_of_mem _ hc)) (setAttr_allFalse h1 ho fun ht => ?_)
        rw [fromCk_typ ha] at ht
        exact absurd ht (hn c (List.mem_cons_self ..))

theorem delAll_allFalse (l : List Nat) {o : Obj} (ho : AllFalse o) : AllFalse (delAll o l) := by
  unfold delAll
  induction l generalizing o with
  | nil => exact ho
  | cons n l ih => exact ih fun a ha => ho a (List.mem_filter.1 ha).1

theorem storeObj_tok {e : Env} {db : Db} (ok : TblOk db.objs) {o : Obj} {u : Bytes} {rows : List (Nat × DbVal)}
    (hr : rowsOf db.objs u = some rows) (hn : ¬ RowTrue rows) (ho : AllFalse o) (z : uidCount o.attrs ≤ 1)
    (hu : ∀ v, o.getStr CKA_UNIQUE_ID = .ok v → v = u) : SameTok db.objs (db.storeObj e o).2.objs := by
  refine storeObj_move (P := SameTok db.objs) (.refl _) fun v t' hv ht => ?_
  have := hu v hv; subst this
  have hd := delete_sameTok ok hr hn
  obtain ⟨id, _, ht⟩ := store_id ok ht
  cases hp : putRows [] o.attrs with
  | error r => rw [hp] at ht; cases ht
  | ok rows' =>
    rw [hp] at ht
    cases rows' with
    | nil => injection ht with ht; rw [← ht]; exact hd
    | cons r0 rs =>
      injection ht with ht
      have hn' : ¬ RowTrue (r0 :: rs) := by
        rintro ⟨w, hw, hne⟩
        rcases putRows_mem hp _ (AMap.get_mem hw) with h | ⟨a, ha, h1, h2⟩
        · cases h
        · rw [ho a ha h1] at h2
          injection h2 with h2
          injection h2 with h2
          injection h2 with h2
          exact hne h2.symm
      intro q hq
      rw [← ht]
      refine (hd q hq).trans ⟨fun ⟨k, hk⟩ => ⟨k, mem_insertGroup.2 (.inr hk)⟩, fun ⟨k, hk⟩ => ?_⟩
      rcases mem_insertGroup.1 hk with e | e
      · injection e with _ e
        rw [e] at hq; exact absurd hq hn'
      · exact ⟨k, e⟩

theorem token_plain {o : Obj} {F : Factory} (hF : objFactory o = .ok F) : CKA_TOKEN ∉ F.sensitive := plain_token.2 _ _ hF

theorem update_tok (ok : TblOk t.store.db.objs) {n : Nat} {u : Bytes} {rows : List (Nat × DbVal)} {tm : Template}
    (h1 : t.handles.get n = some u) (h2 : rowsOf t.store.db.objs u = some rows) (h3 : ¬ RowTrue rows)
    (hu : ∀ c ∈ tm, c.typ ≠ CKA_UNIQUE_ID) (ht : ∀ c ∈ tm, c.typ ≠ CKA_TOKEN) :
    SameTok t.store.db.objs (t.store.update C e t.handles n tm).2.db.objs := by
  unfold Store.update
  split
  · exact .refl _
  rename_i u' hu'
  rw [h1] at hu'; injection hu' with hu'; subst hu'
  split
  · exact .refl _
  rename_i o ho
  split
  · exact .refl _
  rename_i F hF
  extract_lets t'
  have ht' : ∀ tm', t' = .ok tm' → ∀ c ∈ tm', c.typ ≠ CKA_UNIQUE_ID ∧ c.typ ≠ CKA_TOKEN := by
    intro tm' h c hc
    simp only [t'] at h
    split at h
    · rcases updateEncrypt_typ h c hc with h | ⟨c', h1, h2⟩
      · exact ⟨fun e => (uid_notIn hF).1 (by rw [← e]; exact h), fun e => token_plain hF (by rw [← e]; exact h)⟩
      · rw [← h2]; exact ⟨hu c' h1, ht c' h1⟩
    · injection h with h; rw [← h] at hc; exact ⟨hu c hc, ht c hc⟩
  clear_value t'
  rcases t' with r | tm'
  · exact .refl _
  simp only
  split
  · exact .refl _
  rename_i o1 h5
  have htm := ht' tm' rfl
  obtain ⟨r, hr, hnd, hg, hdec⟩ := fetchByUid_ok ok ho
  rw [h2] at hr; injection hr with hr; subst hr
  obtain ⟨z, hz⟩ := fetchByUid_uid ok ho
  rw [if_pos (.inl rfl)] at hz
  obtain ⟨z1, hz1⟩ := setAllCk_keep h5 z fun c hc => (htm c hc).1
  refine storeObj_tok ok h2 h3 (delAll_allFalse _ (setAllCk_allFalse h5 (fun c hc => (htm c hc).2) ?_))
    (zero_delAll z1).uid ?_
  · refine decodeRows_allFalse hdec ?_ ?_
    · intro r hr hrt v hv
      unfold pick at hr
      rw [if_pos rfl] at hr
      refine Classical.byContradiction fun hne => h3 ⟨v, ?_, hne⟩
      rw [← hrt, ← hv]
      exact AMap.get_of_mem hnd hr
    · intro a ha ht
      simp [Obj.new] at ha
      rw [ha] at ht; cases ht
  · intro v hv
    unfold Obj.getStr at hv
    rw [find_delAll, if_neg (uid_notIn hF).2, hz1, hz] at hv
    exact toStr_val hv

theorem token_locked : allFactories (fun F => F.attrs.all fun f => f.typ != CKA_TOKEN ||
    (f.is oaUnchangeable && f.attr.atype == .bool && !f.is oaChangeToTrue && !f.is oaChangeToFalse)) = true := by
  decide +kernel

/-- C_SetAttributeValue never accepts CKA_TOKEN. -/
theorem checkSet_noToken {o : Obj} {F : Factory} {tm : Template} (hF : objFactory o = .ok F)
    (h : checkSetAttributes F.attrs tm = .ok ()) : ∀ c ∈ tm, c.typ ≠ CKA_TOKEN := by
  intro c hc e
  obtain ⟨f, hf, hn, h3⟩ := checkSetAttributes_ok h c hc
  obtain ⟨key, hk⟩ := objFactory_mem hF
  have := allFactories_spec token_locked hk
  rw [List.all_eq_true] at this
  have := this f (findF_mem hf)
  rw [findF_typ hf, e] at this
  simp at this
  obtain ⟨⟨⟨h4, h5⟩, h6⟩, h7⟩ := this
  obtain ⟨_, b, _, h8⟩ := h3 h4
  cases b
  · rw [if_neg (by decide)] at h8; rw [h8] at h7; cases h7
  · rw [if_pos rfl] at h8; rw [h8] at h6; cases h6

theorem setAttr_tok (ok : TblOk t.store.db.objs) (hw : x.isWritable = false) (n : Nat) (tm : Template) :
    SameTok t.store.db.objs (fnSetAttr C e x t n tm).2.store.db.objs := by
  unfold fnSetAttr
  split
  · exact .refl _
  split
  · exact .refl _
  rename_i o ho
  split
  · exact .refl _
  split
  · exact .refl _
  rename_i hc
  have hno : o.isToken = false := by simpa [hw] using hc
  unfold Token.setObjectAttrs
  split
  · split <;> exact .refl _
  rename_i hs
  obtain ⟨u, rows, h1, h2, h3⟩ := rowFalse ok ho hno hs
  split
  · exact .refl _
  split
  · exact .refl _
  split
  · exact .refl _
  split
  · exact .refl _
  split
  · exact .refl _
  exact update_tok ok h1 h2 h3 (checkSet_noUid (by assumption) (by assumption))
    (checkSet_noToken (by assumption) (by assumption))

/-! ### All calls on a session -/

theorem sess_tok (ok : TblOk t.store.db.objs) (hw : x.isWritable = false) (c : SCall)
    (hc : ∀ n tm, c = .copyObject n tm → (∃ c ∈ tm, c.typ = CKA_TOKEN) ∨ Off C t n CKA_TOKEN) :
    SameTok t.store.db.objs (sessStep C O e h c x t).2.2.store.db.objs := by
  have of : ∀ {a b : ObjTable}, b = a → SameTok a b := fun h => by rw [h]; exact .refl _
  cases c with
  | getSessionInfo => exact .refl _
  | initPin pin =>
    simp only [sessStep]
    split
    · exact .refl _
    · refine of ?_
      unfold fnInitPin
      split
      · rfl
      · exact setPin_objs ..
  | setPin old new => exact of (fnSetPin_objs ..)
  | createObject tm => exact of (create_kept hw tm)
  | copyObject n tm => exact of (copy_kept hw n tm (hc n tm rfl))
  | destroyObject n => exact destroy_tok ok hw n
  | getObjectSize n => simp only [sessStep]; repeat' split
                       all_goals exact .refl _
  | getAttr n tm => simp only [sessStep]; repeat' split
                    all_goals exact .refl _
  | setAttr n tm => exact setAttr_tok ok hw n tm
  | findInit tm =>
    simp only [sessStep]
    split
    · exact .refl _
    · have : (x.newSearch e t tm).2.2.store = t.store := by
        unfold Session.newSearch Token.searchObjects
        split
        · rfl
        extract_lets hs tm'
        generalize t.store.search e t.handles tm' = p
        obtain ⟨r, hh⟩ := p
        cases r <;> rfl
      generalize x.newSearch e t tm = p at this ⊢
      obtain ⟨r, x1, t1⟩ := p
      exact of (congrArg (fun s : Store => s.db.objs) this)
  | find max => simp only [sessStep]; repeat' split
                all_goals exact .refl _
  | findFinal => exact .refl _

/-- The operation calls that let a mechanism update its key. -/
def maySetCounter : OCall → Bool
  | .opRun .sign _ _ => true
  | .opRun .verify _ _ => true
  | .opRun .verifySig _ _ => true
  | _ => false

theorem op_tok (hM : HonoursToken M) (hw : x.isWritable = false) (c : OCall)
    (hc : maySetCounter c = true → ∀ e k a o i, (M.run e k a o i).2.upd = none)
    (hone : ∀ m q key tm, c = .derive m q key tm → manyKeys m → M.adkCount m q = .ok 0) :
    (opStep M C e h c x t).2.2.store.db.objs = t.store.db.objs := by
  cases c with
  | opInit k m key sig => cases m <;> rfl
  | opRun k a i =>
    simp only [opStep]
    have au : ∀ e op, op.upd = none → (afterUse C e op t).2 = t := by
      intro e op h; unfold afterUse; rw [h]
    have sg : (∀ e k a o i, (M.run e k a o i).2.upd = none) →
        (fnSign M C e a i x t).2.2.store.db.objs = t.store.db.objs := by
      intro hc
      unfold fnSign
      split
      · rfl
      rename_i op _
      split
      · rfl
      split
      · rfl
      split
      · rfl
      have hu : (runOp M (e.sub 0) .sign a op i).2.upd = none := hc ..
      generalize runOp M (e.sub 0) .sign a op i = p at hu ⊢
      obtain ⟨r, op'⟩ := p
      cases r with
      | error r => rfl
      | ok b =>
        have := au (e.sub 1) op' hu
        simp only
        generalize afterUse C (e.sub 1) op' t = q at this ⊢
        obtain ⟨r, t1⟩ := q
        cases r <;> exact congrArg (fun t : Token => t.store.db.objs) this
    have vf : ∀ k, (∀ e k a o i, (M.run e k a o i).2.upd = none) →
        (fnVerify M C e k a i x t).2.2.store.db.objs = t.store.db.objs := by
      intro k hc
      unfold fnVerify
      split
      · rfl
      rename_i op _
      extract_lets lenOk
      clear_value lenOk
      rcases lenOk with r | _
      · rfl
      have hu : (runOp M (e.sub 0) k a op i).2.upd = none := hc ..
      simp only
      generalize runOp M (e.sub 0) k a op i = p at hu ⊢
      obtain ⟨r, op'⟩ := p
      cases r with
      | error r => rfl
      | ok b =>
        have := au (e.sub 1) op' hu
        simp only
        exact congrArg (fun t : Token => t.store.db.objs) this
    cases k <;> cases a <;> first | rfl | exact sg (hc rfl) | exact vf _ (hc rfl)
  | digestKey key => rfl
  | digestEncrypt i => rfl
  | decryptDigest i => rfl
  | signEncrypt i => rfl
  | decryptVerify i => rfl
  | cancel f => rfl
  | generateKey m q tm => exact genKey_kept hM hw m q tm
  | generatePair m q pub priv =>
    simp only [opStep]
    have := genPair_kept (C := C) (e := e) (h := h) (t := t) hM hw m q pub priv
    generalize fnGenPair M C e h m q pub priv x t = p at this ⊢
    obtain ⟨r, t1⟩ := p
    rcases r with r | ⟨a, b⟩ <;> exact this
  | wrap m q w k out => rfl
  | unwrap m q key data tm => exact unwrap_kept hw m key q data tm
  | derive m q key tm =>
    simp only [opStep]
    have := derive_kept (C := C) (e := e) (h := h) (t := t) hM hw m key q tm (hone m q key tm rfl)
    generalize fnDerive M C e h m q key tm x t = p at this ⊢
    obtain ⟨r, t1⟩ := p
    cases r <;> exact this
  | encapsulate m key tm out => exact encap_kept hw m key out tm
  | decapsulate m key data tm => exact decap_kept hw m key data tm

end

/-! ## The property -/

section
variable (M : Mechs) (C : Crypto) (O : Oracle)

theorem ro_writable {s : St} {h i : Nat} {sl : Slot} {x : Session} (hg : s.getSession h = .ok (i, sl, x))
    (hr : readOnly M C O s h) : x.isWritable = false := by
  obtain ⟨e, j, st, fl, h1, h2⟩ := hr
  unfold step at h1
  simp only [hg, sessStep] at h1
  injection h1 with _ h3 _
  unfold Session.isWritable
  rw [h3]
  rcases h2 with h2 | h2 <;> rw [h2] <;> rfl

theorem tokenRows_setSlot {s : St} {i j h : Nat} {sl : Slot} {x x' : Session} {t' : Token}
    (hs : AMap.get s.slots i = some sl) (hk : SameTok sl.token.store.db.objs t'.store.db.objs)
    (rows : List (Nat × DbVal)) :
    tokenRows s j rows ↔ tokenRows (s.setSlot i ⟨t', AMap.modify sl.sessions h fun _ => x'⟩) j rows := by
  unfold tokenRows
  by_cases e : i = j
  · subst e
    constructor
    · rintro ⟨sl1, id, v, h1, h2, h3, h4⟩
      rw [hs] at h1; injection h1 with h1; subst h1
      obtain ⟨id', h'⟩ := (hk rows ⟨v, h3, h4⟩).1 ⟨id, h2⟩
      exact ⟨_, id', v, by rw [get_setSlot hs, if_pos rfl], h', h3, h4⟩
    · rintro ⟨sl1, id, v, h1, h2, h3, h4⟩
      rw [get_setSlot hs, if_pos rfl] at h1; injection h1 with h1; subst h1
      obtain ⟨id', h'⟩ := (hk rows ⟨v, h3, h4⟩).2 ⟨id, h2⟩
      exact ⟨sl, id', v, hs, h', h3, h4⟩
  · rw [get_setSlot_ne e]

/-- An object call on a read-only session leaves the stored objects with CKA_TOKEN true as they are: the same
rows before and after, in every slot.  Missing from the full property: C_CopyObject of a token
object with no CKA_TOKEN in the template (a violation, below). -/
theorem C19_objects_partial (hM : OrderlyMechs M) (d : List (Nat × Db)) (hd : ∀ p ∈ d, TblOk p.2.objs) (tr : Trace) (e : Env) (h : Nat)
    (c : SCall) (hr : readOnly M C O (after M C O d tr) h)
    (hcopy : ∀ n tm, c = .copyObject n tm → (∃ a ∈ tm, a.typ = CKA_TOKEN) ∨
      ∃ i, onSlot M C O (after M C O d tr) h i ∧ reports M C O (after M C O d tr) h n CKA_TOKEN [0]) (j : Nat) (rows : List (Nat × DbVal)) :
    tokenRows (after M C O d tr) j rows ↔
      tokenRows (step M C O e (after M C O d tr) (.sess h c)).2 j rows := by
  have hi : Inv (after M C O d tr) := inv_reach M O d tr
  have ht : TInv (after M C O d tr) := tinv_reach M O hd tr
  have hn : OInv (after M C O d tr) := oinv_reach hM hd tr
  generalize after M C O d tr = s at *
  cases hg : s.getSession h with
  | error r => simp only [step, hg]
  | ok p =>
    obtain ⟨i, sl, x⟩ := p
    obtain ⟨_, _, hs, hx⟩ := getSession_ok hg
    simp only [step, hg]
    refine tokenRows_setSlot (x := x) hs (sess_tok (ht.slots i sl hs) (ro_writable M C O hg hr) c ?_) rows
    intro n tm hc
    refine (hcopy n tm hc).imp id ?_
    rintro ⟨i', ho, hrep⟩
    obtain ⟨sl', x', _, _, hg', _, hoff, _⟩ := off_of M C O hi ht ho ho hrep plain_token (by decide +kernel)
      (hn.proper i' n (by decide +kernel))
    rw [hg] at hg'
    injection hg' with hg'
    have : sl = sl' := congrArg (fun p : Nat × Slot × Session => p.2.1) hg'
    rw [this]
    exact hoff

/-- A key-management or operation call on a read-only session leaves every stored object as it is, when the
mechanisms follow the template for CKA_TOKEN, for C_Sign and C_Verify do not update their key, and C_DeriveKey is not
asked for additional keys.  Missing from the full property: HOTP, which does update its key, and the additional keys of
the SP 800-108 derivations (both are violations, below). -/
theorem C19_operations_partial (hM : HonoursToken M) (d : List (Nat × Db)) (tr : Trace) (e : Env) (h : Nat)
    (c : OCall) (hr : readOnly M C O (after M C O d tr) h)
    (hupd : maySetCounter c = true → ∀ e k a o i, (M.run e k a o i).2.upd = none)
    (hone : ∀ m q key tm, c = .derive m q key tm → manyKeys m → M.adkCount m q = .ok 0) (j : Nat)
    (rows : List (Nat × DbVal)) :
    tokenRows (after M C O d tr) j rows ↔
      tokenRows (step M C O e (after M C O d tr) (.op h c)).2 j rows := by
  generalize after M C O d tr = s at *
  cases hg : s.getSession h with
  | error r => simp only [step, hg]
  | ok p =>
    obtain ⟨i, sl, x⟩ := p
    obtain ⟨_, _, hs, hx⟩ := getSession_ok hg
    simp only [step, hg]
    refine tokenRows_setSlot (x := x) hs ?_ rows
    rw [op_tok hM (ro_writable M C O hg hr) c hupd hone]
    exact .refl _

end

/-! ## Concrete cases -/

theorem generated_notToken {rnd : Nat → Res Bytes} {uid : Bytes} {m : Nat} {tm : Template} {o : Obj}
    (h : generateAes rnd uid m tm = .ok o) (hn : noToken tm) : o.isToken = false := by
  have hmem : ((CKO_SECRET_KEY, CKK_AES), aesF) ∈ registry := by decide +kernel
  unfold generateAes at h
  split at h
  · cases h
  split at h
  · cases h
  rename_i b hb
  have base : ∃ a, b.find CKA_TOKEN = some a ∧ a.value = [0] := by
    unfold keyGenerate internalKeyCreate at hb
    split at hb
    · cases hb
    · rename_i b0 h0
      injection hb with hb
      have hv := C15_values aesF _ hmem tm _ _ b0 h0 CKA_TOKEN
      have hf : b.find CKA_TOKEN = b0.find CKA_TOKEN := by
        rw [← hb, find_generateUnique]
        split
        · rename_i h; cases h
        · rfl
      rw [value_eq] at hv
      rw [hf]
      cases hz : b0.find CKA_TOKEN with
      | some a => rw [hz] at hv; exact ⟨a, rfl, newValue_token hmem hn hv⟩
      | none =>
        rw [hz] at hv
        cases hv with
        | absent _ hd =>
          have := allFactories_spec keyToken hmem
          have hk : keyClass aesF.cls = true := by decide +kernel
          simp [hk] at this
          obtain ⟨f, hf, ht, hd'⟩ := this
          rw [hd f hf ht] at hd'; cases hd'
  obtain ⟨a, h1, h2⟩ := base
  split at h
  · cases h
  rename_i b1 hb1
  split at h
  · cases h
  rename_i b2 hb2
  have h3 := find_ensureUlong hb2 (find_ensureUlong hb1 h1)
  split at h
  · cases h
  rename_i b3 hb3
  have h4 : b3.find CKA_TOKEN = some a := by
    unfold defaultSecretKeyGenerate at hb3
    repeat' split at hb3
    all_goals first | (cases hb3; done) | skip
    injection hb3 with hb3
    rw [← hb3, find_put, if_neg (by show CKA_VALUE ≠ CKA_TOKEN; decide)]
    exact h3
  injection h with h
  refine notToken_of_value fun v hv => ?_
  rw [value_eq, ← h] at hv
  unfold defaultKeyAttributes at hv
  simp only at hv
  rw [find_setBool, if_neg (by decide), find_setBool, if_neg (by decide), find_put,
    if_neg (by show CKA_KEY_GEN_MECHANISM ≠ CKA_TOKEN; decide), find_setBool, if_neg (by decide), h4] at hv
  injection hv with hv
  rw [← hv]; exact h2

/-- AES key generation follows the template, so the example mechanisms do. -/
theorem exMechs_honours : HonoursToken exMechs where
  key _ _ _ _ _ h hn := generated_notToken h hn
  pair _ _ _ _ _ _ _ h _ _ := by cases h
  derive _ _ _ _ _ _ _ _ h _ := by cases h

/-- The same, with `upd` always empty. -/
def exPlainMechs : Mechs :=
  { exMechs with run := fun e k a o i => ((exMechs.run e k a o i).1, { (exMechs.run e k a o i).2 with upd := none }) }

example : HonoursToken exPlainMechs ∧ ∀ e k a o i, (exPlainMechs.run e k a o i).2.upd = none :=
  ⟨⟨exMechs_honours.key, exMechs_honours.pair, exMechs_honours.derive⟩, fun _ _ _ _ _ => rfl⟩

/-- Login, a token object (8), a read-only session (2), a session object made there (9). -/
def exReadOnly : Trace := exStart ++
  [(exEnv 6, .login 1 CKU_USER exPin), (exEnv 7, .sess 1 (.createObject (exTokData 1))),
   (exEnv 8, .openSession 7 CKF_SERIAL_SESSION), (exEnv 9, .sess 2 (.createObject (exSesData 2)))]

set_option maxRecDepth 10000 in
theorem exReadOnly_ro : readOnly exMechs exCrypto exOracle (exRun exReadOnly) 2 :=
  ⟨exEnv 0, 7, .roUser, CKF_SERIAL_SESSION, by decide +kernel, .inr rfl⟩

/-- Whether slot `i` keeps a token object with these rows. -/
def hasRows (s : St) (i : Nat) (rows : List (Nat × DbVal)) : Bool :=
  match AMap.get s.slots i, AMap.get rows CKA_TOKEN with
  | some sl, some (.int v) => decide (v ≠ 0) && sl.token.store.db.objs.any fun p => decide (p.2 = rows)
  | _, _ => false

theorem hasRows_iff (s : St) (i : Nat) (rows : List (Nat × DbVal)) :
    tokenRows s i rows ↔ hasRows s i rows = true := by
  unfold tokenRows hasRows
  cases h1 : AMap.get s.slots i with
  | none => simp
  | some sl =>
    cases h2 : AMap.get rows CKA_TOKEN with
    | none => simp
    | some v =>
      cases v with
      | int v =>
        simp only [Bool.and_eq_true, decide_eq_true_eq, List.any_eq_true]
        constructor
        · rintro ⟨sl', id, v', e1, h3, e2, h4⟩
          injection e1 with e1; injection e2 with e2; injection e2 with e2
          subst e1; subst e2
          exact ⟨h4, _, h3, rfl⟩
        · rintro ⟨h4, ⟨id, r⟩, h3, e⟩
          simp only at e
          subst e
          exact ⟨sl, id, v, rfl, h3, rfl, h4⟩
      | _ => simp

/-- The rows of the stored object that was added last. -/
def lastRows (s : St) : List (Nat × DbVal) :=
  ((AMap.get s.slots 7).bind fun sl => sl.token.store.db.objs.getLast?).elim [] (·.2)

set_option maxRecDepth 10000 in
/-- There is a token object to protect, and calls on the read-only session are refused or leave it. -/
example : hasRows (exRun exReadOnly) 7 (lastRows (exRun exReadOnly)) = true ∧
    (exOuts (exReadOnly ++ [(exEnv 10, .sess 2 (.createObject (exTokData 3))),
      (exEnv 11, .sess 2 (.destroyObject 8)), (exEnv 12, .sess 2 (.setAttr 8 [.mk' CKA_VALUE [9]])),
      (exEnv 13, .sess 2 (.copyObject 9 [.ofBool CKA_TOKEN true])),
      (exEnv 14, .sess 2 (.copyObject 8 [.ofBool CKA_TOKEN false])), (exEnv 15, .sess 2 (.destroyObject 9))])).drop 10 =
    [.err .sessionReadOnly, .err .actionProhibited, .err .sessionReadOnly, .err .sessionReadOnly, .handle 10, .ok] := by
  decide +kernel

set_option maxRecDepth 10000 in
/-- The full property is false: on a read-only session C_CopyObject with an empty template makes a second
token object (`src/fns/objmgmt.rs:58-100` looks for CKA_TOKEN in the template only). -/
theorem C19_copy_violation : ∃ (M : Mechs) (C : Crypto) (O : Oracle) (s : St) (e : Env) (h n m i : Nat)
    (rows : List (Nat × DbVal)), readOnly M C O s h ∧ (step M C O e s (.sess h (.copyObject n []))).1 = .handle m ∧
      ¬ tokenRows s i rows ∧ tokenRows (step M C O e s (.sess h (.copyObject n []))).2 i rows := by
  refine ⟨exMechs, exCrypto, exOracle, exRun exReadOnly, exEnv 10, 2, 8, 10, 7,
    lastRows (exRun (exReadOnly ++ [(exEnv 10, .sess 2 (.copyObject 8 []))])), exReadOnly_ro, by decide +kernel, ?_, ?_⟩
  · rw [hasRows_iff]; decide +kernel
  · rw [hasRows_iff]; decide +kernel

/-! HOTP.  The example operation answers the counter and asks for the next one to be stored, as
`sign_final` and `updates_object` (`src/hotp.rs:539-606`) do. -/

def exHotpKey : Template :=
  [.ofUlong CKA_CLASS CKO_OTP_KEY, .ofUlong CKA_KEY_TYPE CKK_HOTP, .ofBool CKA_TOKEN true,
   .mk' CKA_VALUE (List.replicate 20 7), .ofUlong CKA_OTP_LENGTH 6]

def exHotpMechs : Mechs :=
  { exMechs with
    fam := fun _ => .hotp
    new := fun _ _ _ _ k _ => match k with
      | some o => match o.getBytes CKA_OTP_COUNTER with
        | .ok c => .ok ⟨0, false, false, some (o.handle, [.mk' CKA_OTP_COUNTER (c.dropLast ++ [c.getLast?.getD 0 + 1])]), c⟩
        | .error r => .error r
      | none => .error .generalError
    len := fun _ _ o _ => (.ok 8, o)
    run := fun _ _ _ o _ => (.ok o.data, { o with fin := true }) }

/-- The slot also has HOTP. -/
def exHotp : Trace :=
  [(exEnv 0, .initialize [(7, ⟨[CKM_HOTP], none, none⟩)]), (exEnv 1, .initToken 7 exSoPin none),
   (exEnv 2, .openSession 7 (CKF_RW_SESSION ||| CKF_SERIAL_SESSION)),
   (exEnv 3, .login 1 CKU_SO exSoPin), (exEnv 4, .sess 1 (.initPin exPin)), (exEnv 5, .logout 1),
   (exEnv 6, .login 1 CKU_USER exPin), (exEnv 7, .sess 1 (.createObject exHotpKey)),
   (exEnv 8, .openSession 7 CKF_SERIAL_SESSION)]

/-- An OTP signature made on the read-only session 2 with token key 7. -/
def exSignOtp : Trace :=
  [(exEnv 9, .op 2 (.opInit .sign (some (CKM_HOTP, [])) 7 [])),
   (exEnv 10, .op 2 (.opRun .sign .oneShot ⟨[], [], [], [], some 8⟩))]

set_option maxRecDepth 10000 in
/-- The full property is false: C_Sign with HOTP on a read-only session changes the stored token key. -/
theorem C19_counter_violation : ∃ (M : Mechs) (C : Crypto) (O : Oracle) (s : St) (e : Env) (h i : Nat) (q : OpIn)
    (b : Bytes) (rows : List (Nat × DbVal)), readOnly M C O s h ∧
      (step M C O e s (.op h (.opRun .sign .oneShot q))).1 = .bytes b ∧
      tokenRows s i rows ∧ ¬ tokenRows (step M C O e s (.op h (.opRun .sign .oneShot q))).2 i rows := by
  refine ⟨exHotpMechs, exCrypto, exOracle,
    run exHotpMechs exCrypto exOracle (St.init []) (exHotp ++ exSignOtp.take 1), exEnv 10, 2, 7,
    ⟨[], [], [], [], some 8⟩, List.replicate 8 0,
    lastRows (run exHotpMechs exCrypto exOracle (St.init []) exHotp), ?_, by decide +kernel, ?_, ?_⟩
  · exact ⟨exEnv 0, 7, .roUser, CKF_SERIAL_SESSION, by decide +kernel, .inr rfl⟩
  · rw [hasRows_iff]; decide +kernel
  · rw [hasRows_iff]; decide +kernel

/-! Additional derived keys.  The example derivation makes the key of the template and, as the parameter asks for, an
additional key that is a token object (`src/native/sp800_108.rs:437-452` follows the additional templates). -/

def exDeriveMechs : Mechs :=
  { exMechs with
    derive := fun e _ _ _ _ tm =>
      .ok [okObj (factoriesCreate exOracle (e.sub 0).uid (exAesTemplate ++ tm)),
        okObj (factoriesCreate exOracle (e.sub 1).uid (exAesTemplate ++ [.ofBool CKA_TOKEN true]))]
    adkCount := fun _ _ => .ok 1 }

/-- Login, a key that may derive (7), a read-only session (2). -/
def exDeriveRo : Trace :=
  [(exEnv 0, .initialize [(7, ⟨[CKM_SP800_108_COUNTER_KDF], none, none⟩)]), (exEnv 1, .initToken 7 exSoPin none),
   (exEnv 2, .openSession 7 (CKF_RW_SESSION ||| CKF_SERIAL_SESSION)),
   (exEnv 3, .login 1 CKU_SO exSoPin), (exEnv 4, .sess 1 (.initPin exPin)), (exEnv 5, .logout 1),
   (exEnv 6, .login 1 CKU_USER exPin),
   (exEnv 7, .sess 1 (.createObject [.ofUlong CKA_CLASS CKO_SECRET_KEY, .ofUlong CKA_KEY_TYPE CKK_GENERIC_SECRET,
     .mk' CKA_VALUE [1, 2, 3], .ofBool CKA_DERIVE true])),
   (exEnv 8, .openSession 7 CKF_SERIAL_SESSION)]

set_option maxRecDepth 10000 in
/-- The full property is false: C_DeriveKey on a read-only session stores a token object when an additional key asks for
it, although the template of the call says CKA_TOKEN false (`src/fns/keymgmt.rs:520-522` looks at that template only). -/
theorem C19_derive_violation : ∃ (M : Mechs) (C : Crypto) (O : Oracle) (s : St) (e : Env) (h n i : Nat) (l : List Nat)
    (rows : List (Nat × DbVal)), readOnly M C O s h ∧
      (step M C O e s (.op h (.derive CKM_SP800_108_COUNTER_KDF [] n [.ofBool CKA_TOKEN false]))).1 = .handles l ∧
      ¬ tokenRows s i rows ∧
      tokenRows (step M C O e s (.op h (.derive CKM_SP800_108_COUNTER_KDF [] n [.ofBool CKA_TOKEN false]))).2 i rows := by
  refine ⟨exDeriveMechs, exCrypto, exOracle, run exDeriveMechs exCrypto exOracle (St.init []) exDeriveRo, exEnv 9, 2, 7, 7,
    [8, 9], lastRows (run exDeriveMechs exCrypto exOracle (St.init [])
      (exDeriveRo ++ [(exEnv 9, .op 2 (.derive CKM_SP800_108_COUNTER_KDF [] 7 [.ofBool CKA_TOKEN false]))])),
    ?_, by decide +kernel, ?_, ?_⟩
  · exact ⟨exEnv 0, 7, .roUser, CKF_SERIAL_SESSION, by decide +kernel, .inr rfl⟩
  · rw [hasRows_iff]; decide +kernel
  · rw [hasRows_iff]; decide +kernel

end Kry
